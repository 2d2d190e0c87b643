import Verif.Api.Inv
import Verif.Api.SeqSim
/-!
# What of the context no reply depends on

`Dec.er k` forgets the event flags, the flags of pictures that only end up in them, the record of decoded
frames, and tile groups without a frame header, and adds `k` to the number of submitted frames. Every call
commutes with it.
-/
namespace Dav1d
variable {κ : Type}

/-- Without the flags that only end up in the event flags. -/
def PicFlags.er (f : PicFlags) : PicFlags := { f with newSeq := false, newOp := false }
def Pic.er (p : Pic κ) : Pic κ := { p with flags := p.flags.er }
def RefPic.er : RefPic κ → RefPic κ
  | .empty => .empty
  | .hdrOnly h => .hdrOnly h
  | .pic p => .pic p.er
def RefSlot.er (r : RefSlot κ) : RefSlot κ := { r with p := r.p.er }
def Slot.er (r : Slot κ) : Slot κ := { r with pic := r.pic.map Pic.er }

/-- `x` if there is a frame header, `d` otherwise. -/
def heldOr {α : Type} (r : Option FrameHdrResult) (x d : α) : α :=
  match r with
  | none => d
  | some _ => x

def Dec.er (k : Nat) (c : Dec κ) : Dec κ :=
  { c with
    refs := fun i => (c.refs i).er
    tiles := heldOr c.frameHdr c.tiles []
    nTiles := heldOr c.frameHdr c.nTiles 0
    frameFlags := c.frameFlags.er
    eventFlags := (false, false)
    out := c.out.map Pic.er
    cache := c.cache.map Pic.er
    ring := fun i => (c.ring i).er
    submitted := c.submitted + k
    decoded := [] }

/-- Decoding does not depend on the flags of reference pictures that only end up in the event flags. -/
def FlagBlind (env : Env κ) : Prop := ∀ f : FrameIn κ, env.dec { f with refs := fun i => (f.refs i).er } = env.dec f

/-- The allocations of the `k`-th submitted frame on. -/
def Env.from (env : Env κ) (k : Nat) : Env κ := { env with oom := fun n => env.oom (n + k) }

@[simp] theorem RefPic.er_hdr (r : RefPic κ) : r.er.hdr = r.hdr := by cases r <;> rfl
@[simp] theorem Slot.er_retval (r : Slot κ) : r.er.retval = r.retval := rfl

theorem setSlot_er (k : Nat) (c : Dec κ) (i : Nat) (sl : Slot κ) : setSlot (c.er k) i sl.er = (setSlot c i sl).er k := by
  simp only [setSlot, Dec.er]
  congr 1
  funext j
  by_cases h : j = i <;> simp [h]

theorem setOut_er (k : Nat) (c : Dec κ) (p : Pic κ) : setOut (c.er k) p.er = (setOut c p).map (Dec.er k) := by
  unfold setOut
  have : (c.er k).out = c.out.map Pic.er := rfl
  rw [this]
  cases c.out <;> rfl

theorem shown_er (s : Settings) (p : Pic κ) : p.er.shown s = p.shown s := rfl

@[simp] theorem PicFlags.er_er (f : PicFlags) : f.er.er = f.er := rfl
@[simp] theorem Pic.er_er (p : Pic κ) : p.er.er = p.er := rfl
@[simp] theorem RefPic.er_er (p : RefPic κ) : p.er.er = p.er := by cases p <;> rfl
@[simp] theorem RefSlot.er_er (p : RefSlot κ) : p.er.er = p.er := by simp [RefSlot.er]
@[simp] theorem map_er_er (p : Option (Pic κ)) : p.map (Pic.er ∘ Pic.er) = p.map Pic.er := by cases p <;> rfl
@[simp] theorem Slot.er_er (p : Slot κ) : p.er.er = p.er := by simp [Slot.er]
@[simp] theorem heldOr_heldOr {α : Type} (r : Option FrameHdrResult) (x d : α) : heldOr r (heldOr r x d) d = heldOr r x d := by cases r <;> rfl

theorem Dec.er_er (k : Nat) (c : Dec κ) : (c.er k).er 0 = c.er k := by simp [Dec.er]

theorem Env.from_zero (env : Env κ) : env.from 0 = env := rfl

theorem addFlags_er (e : Bool × Bool) (p : Pic κ) : addFlags e p.er.flags = e := by simp [addFlags, Pic.er, PicFlags.er]

theorem showDelayed_er (s : Settings) (k : Nat) (c : Dec κ) (p : Pic κ) :
    showDelayed s (c.er k) p.er = (showDelayed s c p).map (Dec.er k) := by
  unfold showDelayed
  rw [shown_er]
  split
  · rw [addFlags_er]
    exact setOut_er k { c with eventFlags := addFlags c.eventFlags p.flags } p
  · rfl

theorem ringPop_er (s : Settings) (k : Nat) (c : Dec κ) : ringPop s (c.er k) = (ringPop s c).map (Dec.er k) := by
  have h1 : (c.er k).ring (c.er k).next = (c.ring c.next).er := rfl
  unfold ringPop
  dsimp only
  rw [h1, Slot.er_retval]
  cases (c.ring c.next).retval with
  | some e =>
    have h2 : (c.ring c.next).er.pic.map (·.props) = (c.ring c.next).pic.map (·.props) := by
      simp only [Slot.er]; cases (c.ring c.next).pic <;> rfl
    simp only [h2]
    exact congrArg some (setSlot_er k { c with next := ringNext s.nFc c.next, cachedError := some e, errProps := (c.ring c.next).pic.map (·.props) } c.next { c.ring c.next with retval := none, pic := none })
  | none =>
    dsimp only
    have h2 : (c.ring c.next).er.pic = (c.ring c.next).pic.map Pic.er := rfl
    rw [h2]
    cases (c.ring c.next).pic with
    | none => rfl
    | some p =>
      exact (congrArg (fun d => showDelayed s d p.er) (setSlot_er k { c with next := ringNext s.nFc c.next } c.next
        { c.ring c.next with retval := none, pic := none })).trans (showDelayed_er s k _ p)

theorem ringPop_hdr {s : Settings} {c d : Dec κ} (h : ringPop s c = some d) : d.frameHdr = c.frameHdr ∧ d.tiles = c.tiles ∧ d.nTiles = c.nTiles ∧ d.submitted = c.submitted := by
  unfold ringPop at h
  dsimp only at h
  split at h
  · cases h; exact ⟨rfl, rfl, rfl, rfl⟩
  · split at h
    · cases h; exact ⟨rfl, rfl, rfl, rfl⟩
    · unfold showDelayed setOut at h
      split at h
      · split at h
        · cases h
        · cases h; exact ⟨rfl, rfl, rfl, rfl⟩
      · cases h; exact ⟨rfl, rfl, rfl, rfl⟩

/-! ## Submitting a frame -/

/-- The context in a result. -/
def erR {α : Type} (k : Nat) (x : Option (Dec κ × α)) : Option (Dec κ × α) := x.map (fun y => (y.1.er k, y.2))

theorem refUnusable_er (q : SeqHdr) (h : FrameHdr) (r : RefPic κ) : refUnusable q h r.er = refUnusable q h r := by cases r <;> rfl

theorem refsUnusable_er (q : SeqHdr) (h : FrameHdr) (refs : Nat → RefSlot κ) :
    refsUnusable q h (fun i => (refs i).er) = refsUnusable q h refs := by
  unfold refsUnusable
  congr 2
  funext r
  exact refUnusable_er q h (refs r).p

theorem submitError_er (s : Settings) (k : Nat) {c c' : Dec κ} (h : c'.er 0 = c.er k) (i : Nat) (props : Props) (e : Err) :
    (submitError s c' i props e).1.er 0 = (submitError s c i props e).1.er k ∧ (submitError s c' i props e).2 = (submitError s c i props e).2 := by
  unfold submitError
  dsimp only
  split
  · refine ⟨?_, rfl⟩
    have := congrArg (fun d : Dec κ => { d with errProps := some props, out := none }) h
    exact this
  · refine ⟨?_, rfl⟩
    have := congrArg (fun d : Dec κ => setSlot { d with errProps := some props } i { (d.ring i) with pic := none, error := true }) h
    refine Eq.trans ?_ (this.trans ?_)
    · exact (setSlot_er 0 { c' with errProps := some props } i { c'.ring i with pic := none, error := true }).symm
    · exact (setSlot_er k { c with errProps := some props } i { c.ring i with pic := none, error := true })

theorem refreshRefs_er (h : FrameHdr) (p : Pic κ) (refs : Nat → RefSlot κ) :
    (fun i => (refreshRefs h p refs i).er) = refreshRefs h p.er (fun i => (refs i).er) := by
  funext i
  unfold refreshRefs
  split <;> rfl

theorem dropRefs_er (h : FrameHdr) (refs : Nat → RefSlot κ) :
    (fun i => (dropRefs h refs i).er) = dropRefs h (fun i => (refs i).er) := by
  funext i
  unfold dropRefs
  split <;> rfl

/-- Contexts that agree up to what no reply depends on. -/
def Sim (k : Nat) (c' c : Dec κ) : Prop := c'.er 0 = c.er k

theorem Sim.upd {k : Nat} {c' c : Dec κ} (h : Sim k c' c) (F G : Dec κ → Dec κ) (hF : ∀ (j : Nat) (c : Dec κ), (F c).er j = G (c.er j)) :
    Sim k (F c') (F c) := by
  unfold Sim
  rw [hF, hF, h]

theorem Sim.setOut {k : Nat} {c' c : Dec κ} (h : Sim k c' c) {p' p : Pic κ} (hp : p'.er = p.er) :
    (Dav1d.setOut c' p').map (Dec.er 0) = (Dav1d.setOut c p).map (Dec.er k) := by
  rw [← setOut_er, ← setOut_er, h, hp]

theorem submitSync_er (s : Settings) (k : Nat) {c c' : Dec κ} (hc : Sim k c' c) (oom : Oom) (h : FrameHdr) {p p' : Pic κ} (hp : p'.er = p.er) (props : Props) :
    erR 0 (submitSync s c' oom h p' props) = erR k (submitSync s c oom h p props) := by
  have E : ∀ {c c' : Dec κ} (i : Nat) (e : Err), Sim k c' c →
      erR 0 (some (submitError s c' i props e)) = erR k (some (submitError s c i props e)) := by
    intro c c' i e h
    have := submitError_er s k h i props e
    simp only [erR, Option.map_some, this.1, this.2]
  have hcont : p'.content = p.content := by
    have : p'.er.content = p.er.content := by rw [hp]
    exact this
  have key : ∀ d' d : Dec κ, Sim k d' d →
      erR 0 (if oom = .late then some (submitError s d' 0 props .ENOMEM)
        else match p.content with
          | .error e => some (submitError s { d' with refs := dropRefs h d'.refs } 0 props e)
          | .ok _ => some ({ d' with refs := refreshRefs h p' d'.refs }, none)) =
      erR k (if oom = .late then some (submitError s d 0 props .ENOMEM)
        else match p.content with
          | .error e => some (submitError s { d with refs := dropRefs h d.refs } 0 props e)
          | .ok _ => some ({ d with refs := refreshRefs h p d.refs }, none)) := by
    intro d' d hd
    split
    · exact E _ _ hd
    split
    · refine E _ _ (hd.upd (fun d => { d with refs := dropRefs h d.refs }) (fun d => { d with refs := dropRefs h d.refs }) ?_)
      intro j c
      simp only [Dec.er]
      rw [dropRefs_er]
    · simp only [erR, Option.map_some]
      congr 2
      have h1 : ∀ j (c : Dec κ) (p : Pic κ), ({ c with refs := refreshRefs h p c.refs } : Dec κ).er j = { c.er j with refs := refreshRefs h p.er (c.er j).refs } := by
        intro j c p
        simp only [Dec.er]
        rw [refreshRefs_er]
      rw [h1, h1, hp]
      have : d'.er 0 = d.er k := hd
      rw [this]
  unfold submitSync
  rw [hcont]
  by_cases hv : (h.base.showFrame || s.outputInvisible) = true
  · simp only [if_pos hv]
    have hs : Sim k ({ c' with eventFlags := addFlags c'.eventFlags p'.flags } : Dec κ) { c with eventFlags := addFlags c.eventFlags p.flags } := hc
    have ho := hs.setOut hp
    generalize setOut { c' with eventFlags := addFlags c'.eventFlags p'.flags } p' = x' at ho ⊢
    generalize setOut { c with eventFlags := addFlags c.eventFlags p.flags } p = x at ho ⊢
    cases x' with
    | none => cases x with
      | none => rfl
      | some x => cases ho
    | some x' => cases x with
      | none => cases ho
      | some x => exact key x' x (Option.some.inj ho)
  · simp only [if_neg hv]
    exact key c' c hc

theorem submitAsync_er (s : Settings) (k : Nat) {c c' : Dec κ} (hc : Sim k c' c) (oom : Oom) (i : Nat) (h : FrameHdr) {p p' : Pic κ} (hp : p'.er = p.er) (props : Props) :
    erR 0 (some (submitAsync s c' oom i h p' props)) = erR k (some (submitAsync s c oom i h p props)) := by
  have hcont : p'.content = p.content := by
    have : p'.er.content = p.er.content := by rw [hp]
    exact this
  unfold submitAsync
  split
  · have := submitError_er s k hc i props .ENOMEM
    simp only [erR, Option.map_some, this.1, this.2]
  · simp only [erR, Option.map_some]
    congr 2
    rw [← setSlot_er, ← setSlot_er]
    have h1 : ∀ j (c : Dec κ) (p : Pic κ), ({ c with refs := refreshRefs h p c.refs } : Dec κ).er j = { c.er j with refs := refreshRefs h p.er (c.er j).refs } := by
      intro j c p
      simp only [Dec.er]
      rw [refreshRefs_er]
    have h2 : c'.er 0 = c.er k := hc
    rw [h1, h1, hp, h2, hcont]
    simp only [Slot.er, Option.map_some, hp]

theorem keptFlags_er (s : Settings) {c c' : Dec κ} (h : FrameHdr) (hm : c'.maxSpatialId = c.maxSpatialId) :
    (keptFlags s c' h).er = (keptFlags s c h).er := by
  unfold keptFlags
  rw [hm]
  split <;> rfl

theorem submitFrame_er (s : Settings) {env : Env κ} (hb : FlagBlind env) (k : Nat) (c : Dec κ) {r} (hr : c.frameHdr = some r) (q : SeqHdr) (h : FrameHdr) (props : Props) :
    erR 0 (submitFrame s env (c.er k) q h props) = erR k (submitFrame s (env.from k) c q h props) := by
  have hpop : (if s.nFc = 1 then some (c.er k) else ringPop s (c.er k)) = (if s.nFc = 1 then some c else ringPop s c).map (Dec.er k) := by
    split
    · rfl
    · exact ringPop_er s k c
  have hpop2 : ∀ d, (if s.nFc = 1 then some c else ringPop s c) = some d → d.frameHdr = some r := by
    intro d hd
    split at hd
    · cases hd; exact hr
    · rw [(ringPop_hdr hd).1, hr]
  unfold submitFrame
  dsimp only
  rw [hpop]
  cases hd : (if s.nFc = 1 then some c else ringPop s c) with
  | none => rfl
  | some d =>
    have hdr := hpop2 d hd
    have hoom : env.oom (c.er k).submitted = (env.from k).oom c.submitted := rfl
    rw [hoom]
    generalize (env.from k).oom c.submitted = oom
    dsimp only [Option.map_some]
    have hru : refsUnusable q h (d.er k).refs = refsUnusable q h d.refs := refsUnusable_er q h d.refs
    rw [hru]
    have ht : (d.er k).tiles = d.tiles := by simp [Dec.er, heldOr, hdr]
    have e1 : ({ d.er k with frameHdr := none, submitted := (d.er k).submitted + 1 } : Dec κ).er 0 =
        ({ d with frameHdr := none, submitted := d.submitted + 1 } : Dec κ).er k := by
      simp [Dec.er, heldOr]; omega
    have e2 : ({ d.er k with frameHdr := none, submitted := (d.er k).submitted + 1, tiles := [] } : Dec κ).er 0 =
        ({ d with frameHdr := none, submitted := d.submitted + 1, tiles := [] } : Dec κ).er k := by
      simp [Dec.er, heldOr]; omega
    have E : ∀ {c c' : Dec κ} (i : Nat) (e : Err), c'.er 0 = c.er k →
        erR 0 (some (submitError s c' i props e)) = erR k (some (submitError s c i props e)) := by
      intro c c' i e h
      have := submitError_er s k h i props e
      simp only [erR, Option.map_some, this.1, this.2]
    split
    · exact E _ _ e1
    split
    · exact E _ _ e1
    split
    · exact E _ _ e2
    rw [ht]
    have hdec : env.dec { seq := q, hdr := h, tiles := d.tiles, refs := (d.er k).refs } =
        (env.from k).dec { seq := q, hdr := h, tiles := d.tiles, refs := d.refs } :=
      hb { seq := q, hdr := h, tiles := d.tiles, refs := d.refs }
    rw [hdec]
    generalize (env.from k).dec { seq := q, hdr := h, tiles := d.tiles, refs := d.refs } = content
    generalize (Option.map (fun x => x.props) d.tiles.head?).getD 0 = first
    have e3 : Sim k { afterAlloc s { d.er k with frameHdr := none, submitted := (d.er k).submitted + 1, tiles := [] } h with
          decoded := (d.er k).decoded ++ [{ seq := q, hdr := h, tiles := d.tiles, refs := (d.er k).refs }] }
        { afterAlloc s { d with frameHdr := none, submitted := d.submitted + 1, tiles := [] } h with
          decoded := d.decoded ++ [{ seq := q, hdr := h, tiles := d.tiles, refs := d.refs }] } := by
      have hk : (keptFlags s { d.er k with frameHdr := none, submitted := (d.er k).submitted + 1, tiles := [] } h).er =
          (keptFlags s { d with frameHdr := none, submitted := d.submitted + 1, tiles := [] } h).er :=
        keptFlags_er s h rfl
      unfold Sim
      simp only [Dec.er, afterAlloc, heldOr] at hk ⊢
      simp [hk]
      omega
    split
    · exact E _ _ e3
    split
    · refine submitSync_er s k e3 oom h ?_ props
      rfl
    · refine submitAsync_er s k e3 oom (c.er k).next h ?_ props
      rfl

/-! ## After the switch -/

theorem showPic_er (s : Settings) (k : Nat) (c : Dec κ) (p : Pic κ) (props : Props) :
    showPic s (c.er k) p.er props = (showPic s c p props).map (Dec.er k) := by
  unfold showPic
  dsimp only
  split
  · rw [addFlags_er]
    exact setOut_er k { c with info := { c.info with t35 := [] }, eventFlags := addFlags c.eventFlags p.flags } { p with info := c.info, props := props }
  · have := ringPop_er s k { c with info := { c.info with t35 := [] } }
    have h2 : ringPop s { c.er k with info := { (c.er k).info with t35 := [] } } = ringPop s (({ c with info := { c.info with t35 := [] } } : Dec κ).er k) := rfl
    rw [h2, this]
    cases ringPop s { c with info := { c.info with t35 := [] } } with
    | none => rfl
    | some d =>
      exact congrArg some (setSlot_er k d c.next { d.ring c.next with pic := some { p with info := c.info, props := props, visible := true } })

theorem keyRefresh_er (r : Nat) (p : Pic κ) (refs : Nat → RefSlot κ) :
    (fun i => (keyRefresh r p refs i).er) = keyRefresh r p.er (fun i => (refs i).er) := by
  funext i
  unfold keyRefresh
  split
  · rfl
  · split <;> rfl

theorem skipRefs_er (h : FrameHdr) (refs : Nat → RefSlot κ) :
    (fun i => (skipRefs h refs i).er) = skipRefs h (fun i => (refs i).er) := by
  funext i
  unfold skipRefs
  split <;> rfl

theorem showExisting_er (s : Settings) (k : Nat) (c : Dec κ) (idx : Nat) (props : Props) :
    erR 0 (showExisting s (c.er k) idx props) = erR k (showExisting s c idx props) := by
  have E : ∀ c : Dec κ, ({ c.er k with errProps := some props } : Dec κ).er 0 = ({ c with errProps := some props } : Dec κ).er k :=
    fun c => (Dec.er_er k { c with errProps := some props })
  have h1 : ((c.er k).refs idx).p = (c.refs idx).p.er := rfl
  unfold showExisting
  rw [h1, RefPic.er_hdr]
  cases hr : (c.refs idx).p with
  | empty => simp only [RefPic.hdr, erR, Option.map_some, E]
  | hdrOnly h =>
    simp only [RefPic.hdr, RefPic.er]
    split
    · simp only [erR, Option.map_some]
      congr 2
      simp [Dec.er, heldOr]
    · simp only [erR, Option.map_some, E]
  | pic p =>
    simp only [RefPic.hdr, RefPic.er]
    split
    · simp only [erR, Option.map_some]
      congr 2
      simp [Dec.er, heldOr]
    · have h2 : p.er.showable = p.showable := rfl
      rw [h2]
      split
      · simp only [erR, Option.map_some, E]
      · rw [showPic_er]
        cases showPic s c p props with
        | none => rfl
        | some d =>
          have h3 : p.er.hdr = p.hdr := rfl
          simp only [Option.map_some, h3]
          split
          · simp only [erR, Option.map_some]
            congr 2
            simp only [Dec.er, heldOr]
            have h4 := keyRefresh_er idx p d.refs
            have h5 := keyRefresh_er idx p.er (fun i => (d.refs i).er)
            simp only [RefSlot.er_er, Pic.er_er] at h5
            rw [h4, h5]
            simp
          · simp only [erR, Option.map_some]
            congr 2
            simp [Dec.er, heldOr]

theorem submitFrame_tiles {s : Settings} {env : Env κ} {c : Dec κ} {q : SeqHdr} {h : FrameHdr} {props : Props} {d : Dec κ}
    (hs : submitFrame s env c q h props = some (d, none)) : d.tiles = [] := by
  unfold submitFrame at hs
  dsimp only at hs
  have he : ∀ (c : Dec κ) i e, submitError s c i props e ≠ (d, none) := by
    intro c i e hx
    unfold submitError at hx
    split at hx <;> cases hx
  split at hs
  · cases hs
  · split at hs
    · exact absurd (Option.some.inj hs) (he _ _ _)
    split at hs
    · exact absurd (Option.some.inj hs) (he _ _ _)
    split at hs
    · exact absurd (Option.some.inj hs) (he _ _ _)
    split at hs
    · exact absurd (Option.some.inj hs) (he _ _ _)
    split at hs
    · unfold submitSync at hs
      split at hs
      · cases hs
      · rename_i hx
        split at hs
        · exact absurd (Option.some.inj hs) (he _ _ _)
        · split at hs
          · exact absurd (Option.some.inj hs) (he _ _ _)
          · cases hs
            split at hx
            · unfold setOut at hx
              split at hx
              · cases hx
              · cases hx; rfl
            · cases hx; rfl
    · unfold submitAsync at hs
      split at hs
      · exact absurd (Option.some.inj hs) (he _ _ _)
      · cases hs; rfl

theorem finishObu_er (s : Settings) {env : Env κ} (hb : FlagBlind env) (k : Nat) (c : Dec κ) (props : Props) :
    erR 0 (finishObu s env (c.er k) props) = erR k (finishObu s (env.from k) c props) := by
  have h1 : (c.er k).seq = c.seq := rfl
  have h2 : (c.er k).frameHdr = c.frameHdr := rfl
  have E : erR 0 (some (c.er k, (none : Option Err))) = erR k (some (c, none)) := by
    simp only [erR, Option.map_some, Dec.er_er]
  unfold finishObu
  rw [h1, h2]
  cases hseq : c.seq with
  | none => exact E
  | some q =>
    cases hf : c.frameHdr with
    | none => exact E
    | some r =>
      cases r with
      | showExisting idx a b => exact showExisting_er s k c idx props
      | frame h =>
        dsimp only
        have h3 : (c.er k).nTiles = c.nTiles := by simp [Dec.er, heldOr, hf]
        have h4 : (c.er k).tiles = c.tiles := by simp [Dec.er, heldOr, hf]
        rw [h3]
        split
        · unfold frameComplete
          split
          · simp only [erR, Option.map_some]
            congr 2
            simp only [Dec.er, heldOr]
            have h4 := skipRefs_er h c.refs
            have h5 := skipRefs_er h (fun i => (c.refs i).er)
            simp only [RefSlot.er_er] at h5
            rw [h4, h5]
            simp
          · rw [h4]
            split
            · simp only [erR, Option.map_some]
              congr 2
              simp [Dec.er, heldOr, hf]
            · have h5 := submitFrame_er s hb k c hf q h props
              have t1 := @submitFrame_tiles κ s env (c.er k) q h props
              have t2 := @submitFrame_tiles κ s (env.from k) c q h props
              generalize submitFrame s env (c.er k) q h props = x' at h5 t1 ⊢
              generalize submitFrame s (env.from k) c q h props = x at h5 t2 ⊢
              cases x' with
              | none => cases x with
                | none => rfl
                | some x => cases h5
              | some x' => cases x with
                | none => cases h5
                | some x =>
                  obtain ⟨d', e'⟩ := x'
                  obtain ⟨d, e⟩ := x
                  simp only [erR, Option.map_some, Option.some.injEq, Prod.mk.injEq] at h5
                  obtain ⟨h6, rfl⟩ := h5
                  cases e' with
                  | some e => simp only [erR, Option.map_some, h6]
                  | none =>
                    simp only [t1 rfl, t2 rfl, if_true, erR, Option.map_some]
                    congr 2
                    have := congrArg (fun d : Dec κ => { d with frameHdr := none, nTiles := 0, tiles := [] }) h6
                    exact this
        · exact E

/-! ## The switch -/

theorem er_hdr (k : Nat) (c : Dec κ) : (c.er k).frameHdr = c.frameHdr := rfl

theorem mapCase_some (f : Dec κ → Dec κ) (c : Dec κ) (e : Option Err) : mapCase f (some (c, e)) = some (f c, e) := rfl

theorem tileGroup_er (k : Nat) (c : Dec κ) {r} (hr : c.frameHdr = some r) (h : FrameHdr) (props : Props) (b : BitSt) :
    mapCase (Dec.er 0) ((tileGroup (c.er k) h props).run b).1 = mapCase (Dec.er k) ((tileGroup c h props).run b).1 := by
  have h3 : (c.er k).nTiles = c.nTiles := by simp [Dec.er, heldOr, hr]
  have h4 : (c.er k).tiles = c.tiles := by simp [Dec.er, heldOr, hr]
  unfold tileGroup
  simp only [Prog.run_bind, h3, h4]
  split
  · simp only [Prog.run_pure, mapCase_some, Dec.er_er]
  · simp only [Prog.run_bind]
    split
    · simp only [Prog.run_pure, mapCase_some]
      congr 2
      simp [Dec.er, heldOr, hr]
    · simp only [Prog.run_pure, mapCase_some]
      congr 2
      simp [Dec.er, heldOr, hr]

theorem activate_er (s : Settings) (k : Nat) (c : Dec κ) (q : SeqHdr) : (activateSeq s (c.er k) q).er 0 = (activateSeq s c q).er k := by
  unfold activateSeq
  have h1 : (c.er k).seq = c.seq := rfl
  dsimp only
  rw [h1]
  cases c.seq with
  | none => simp [Dec.er, heldOr, PicFlags.er]
  | some q' =>
    dsimp only
    by_cases h1 : q.core ≠ q'.core
    · simp only [if_pos h1]
      have h2 : (fun i => (if i < 8 then ({} : RefSlot κ) else c.refs i).er) = fun i => if i < 8 then {} else (c.refs i).er := by
        funext i; split <;> rfl
      have h3 : (fun i => (if i < 8 then ({} : RefSlot κ) else (c.refs i).er).er) = fun i => if i < 8 then {} else (c.refs i).er := by
        funext i; split
        · rfl
        · exact RefSlot.er_er _
      simp [Dec.er, heldOr, PicFlags.er, h2, h3]
    · simp only [if_neg h1]
      by_cases h2 : q.opInfo ≠ q'.opInfo
      · simp only [if_pos h2]
        simp [Dec.er, PicFlags.er]
      · simp only [if_neg h2]
        simp [Dec.er]

theorem obuCase_er (s : Settings) (k : Nat) (c : Dec κ) (type t sp : Nat) (props : Props) (b : BitSt) :
    mapCase (Dec.er 0) ((obuCase s (c.er k) type t sp props).run b).1 = mapCase (Dec.er k) ((obuCase s c type t sp props).run b).1 := by
  have hS : ∀ e, mapCase (Dec.er 0) (some (c.er k, e)) = mapCase (Dec.er k) (some (c, e)) := by
    intro e; rw [mapCase_some, mapCase_some, Dec.er_er]
  have hseq : mapCase (Dec.er 0) ((seqCase s (c.er k)).run b).1 = mapCase (Dec.er k) ((seqCase s c).run b).1 := by
    unfold seqCase
    simp only [Prog.run_bind]
    split
    · exact hS _
    · simp only [Prog.run_pure, mapCase_some, activate_er]
  have htile : mapCase (Dec.er 0) ((tileGroupCase (c.er k) props).run b).1 = mapCase (Dec.er k) ((tileGroupCase c props).run b).1 := by
    unfold tileGroupCase
    rw [er_hdr]
    cases hf : c.frameHdr with
    | none => exact hS _
    | some r =>
      cases r with
      | frame h => exact tileGroup_er k c hf h props b
      | showExisting x y z =>
        simp only [Prog.run_pure, mapCase_some]
        congr 2
        simp [Dec.er, heldOr]
  have hframe : mapCase (Dec.er 0) ((frameHdrCase s (c.er k) type t sp props).run b).1 = mapCase (Dec.er k) ((frameHdrCase s c type t sp props).run b).1 := by
    unfold frameHdrCase
    have : (c.er k).seq = c.seq := rfl
    rw [this]
    split
    · exact hS _
    · rename_i q hq
      unfold frameHdrBody
      have : fhCtx s (c.er k) q t sp = fhCtx s c q t sp := by
        unfold fhCtx
        congr 1
        funext i
        exact RefPic.er_hdr _
      rw [this]
      have hdrop : ({ c.er k with frameHdr := none, tiles := [], nTiles := 0 } : Dec κ).er 0 = ({ c with frameHdr := none, tiles := [], nTiles := 0 } : Dec κ).er k := by
        simp [Dec.er, heldOr]
      simp only [Prog.run_bind]
      split
      · simp only [Prog.run_pure, mapCase_some]
        congr 2
      · simp only [Prog.run_bind]
        split
        · simp only [Prog.run_pure, mapCase_some, hdrop]
        · split
          · simp only [Prog.run_pure, mapCase_some, hdrop]
          · split
            · simp only [Prog.run_pure, mapCase_some]
              congr 2
              simp [Dec.er, heldOr]
            · split
              · simp only [Prog.run_pure, mapCase_some, hdrop]
              · simp only [Prog.run_bind]
                exact tileGroup_er k { c with frameHdr := some (.frame _), tiles := [], nTiles := 0 } rfl ..
  have hinfo : ∀ i e, mapCase (Dec.er 0) (some ({ c.er k with info := i }, e)) = mapCase (Dec.er k) (some ({ c with info := i }, e)) := by
    intro i e
    rw [mapCase_some, mapCase_some]
    exact congrArg (fun x => some (x, e)) (Dec.er_er k { c with info := i })
  have hmeta : mapCase (Dec.er 0) ((metaCase s (c.er k)).run b).1 = mapCase (Dec.er k) ((metaCase s c).run b).1 := by
    unfold metaCase
    simp only [Prog.run_bind]
    split
    · exact hS _
    split
    · unfold cllCase
      simp only [Prog.run_bind]
      split
      · exact hS _
      · exact hinfo _ _
    split
    · unfold mdcvCase
      simp only [Prog.run_bind]
      split
      · exact hS _
      · exact hinfo _ _
    split
    · unfold t35Case
      simp only [Prog.run_bind]
      generalize (if _ = 0xFF then _ else _ : Int) = size
      by_cases hs : size ≤ 0
      · simp only [if_pos hs]; exact hS _
      · simp only [if_neg hs]
        cases (Prog.getRest.run _).1[size.toNat]? with
        | none => rfl
        | some x =>
          dsimp only
          by_cases hx : x ≠ 0x80
          · simp only [if_pos hx]; exact hS _
          · simp only [if_neg hx]; exact hinfo _ _
    · exact hS _
  unfold obuCase
  split
  · exact hseq
  split
  · rename_i h; rw [if_pos (show type = 7 ∧ c.frameHdr.isSome = true from h)]; exact hS _
  · rename_i h
    rw [if_neg (show ¬ (type = 7 ∧ c.frameHdr.isSome = true) from h)]
    split
    · exact hframe
    split
    · exact htile
    split
    · exact hmeta
    split
    · simp only [Prog.run_pure, mapCase_some]
      congr 2
      simp [Dec.er, PicFlags.er]
    · exact hS _

/-! ## One OBU -/

/-- A law for contexts of the form `c.er k` holds for any two contexts that agree. -/
theorem Sim.lift {α : Type} {env : Env κ} {F : Env κ → Dec κ → Option (Dec κ × α)}
    (law : ∀ k c, erR 0 (F env (Dec.er k c)) = erR k (F (env.from k) c)) {k : Nat} {c' c : Dec κ} (h : Sim k c' c) :
    erR 0 (F env c') = erR k (F (env.from k) c) := by
  have h1 := law 0 c'
  have h2 := law k c
  rw [show c'.er 0 = c.er k from h] at h1
  rw [← h2, h1]
  rfl

theorem stepObu_er (s : Settings) {env : Env κ} (hb : FlagBlind env) (pkt : Packet) (k : Nat) (c : Dec κ) :
    erR 0 (stepObu s env (c.er k) pkt) = erR k (stepObu s (env.from k) c pkt) := by
  have hE : ∀ {c' c : Dec κ} e, Sim k c' c → erR 0 (some (caseError c' pkt.props e)) = erR k (some (caseError c pkt.props e)) := by
    intro c' c e h
    have h : c'.er 0 = c.er k := h
    unfold caseError
    split
    · simp only [erR, Option.map_some, h]
    · simp only [erR, Option.map_some]
      congr 2
      have := congrArg (fun d : Dec κ => { d with errProps := some pkt.props }) h
      exact this
  unfold stepObu
  split
  · exact hE _ (Dec.er_er k c)
  rename_i o rest hsp
  split
  · exact hE _ (Dec.er_er k c)
  have hop : (c.er k).opIdc = c.opIdc := rfl
  rw [hop]
  split
  · simp only [erR, Option.map_some, Dec.er_er]
  have hc := obuCase_er s k c o.type (obuHdrOf pkt.data).temporalId (obuHdrOf pkt.data).spatialId pkt.props (BitSt.init o.payload)
  generalize ((obuCase s (c.er k) o.type (obuHdrOf pkt.data).temporalId (obuHdrOf pkt.data).spatialId pkt.props).run (BitSt.init o.payload)).1 = x' at hc ⊢
  generalize ((obuCase s c o.type (obuHdrOf pkt.data).temporalId (obuHdrOf pkt.data).spatialId pkt.props).run (BitSt.init o.payload)).1 = x at hc ⊢
  cases x' with
  | none => cases x with
    | none => rfl
    | some x => cases hc
  | some x' => cases x with
    | none => cases hc
    | some x =>
      obtain ⟨d', e'⟩ := x'
      obtain ⟨d, e⟩ := x
      simp only [mapCase, Option.map_some, Option.some.injEq, Prod.mk.injEq] at hc
      obtain ⟨h6, rfl⟩ := hc
      cases e' with
      | some e => exact hE e h6
      | none =>
        dsimp only
        have hfin := Sim.lift (F := fun env c => finishObu s env c pkt.props) (env := env) (fun k c => finishObu_er s hb k c pkt.props) (show Sim k d' d from h6)
        generalize finishObu s env d' pkt.props = y' at hfin ⊢
        generalize finishObu s (env.from k) d pkt.props = y at hfin ⊢
        cases y' with
        | none => cases y with
          | none => rfl
          | some y => cases hfin
        | some y' => cases y with
          | none => cases hfin
          | some y =>
            obtain ⟨f', e'⟩ := y'
            obtain ⟨f, e⟩ := y
            simp only [erR, Option.map_some, Option.some.injEq, Prod.mk.injEq] at hfin
            obtain ⟨h7, rfl⟩ := hfin
            cases e' <;> simp only [erR, Option.map_some, h7]

/-! ## Output -/

/-- A reply without the flags of its picture. -/
def erE (r : Except Err (Pic κ)) : Except Err (Pic κ) := r.map Pic.er

/-- The context and the picture in a result. -/
def erP (k : Nat) (x : Option (Dec κ × Except Err (Pic κ))) : Option (Dec κ × Except Err (Pic κ)) := x.map (fun y => (y.1.er k, erE y.2))

theorem finishPic_er (s : Settings) (env : Env κ) (p : Pic κ) : finishPic s env p.er = erE (finishPic s env p) := by
  unfold finishPic
  have h1 : p.er.hdr = p.hdr := rfl
  have h2 : p.er.content = p.content := rfl
  rw [h1, h2]
  split
  · rfl
  · split
    · rfl
    · split <;> rfl

theorem outputImage_er (s : Settings) (env : Env κ) (k : Nat) (c : Dec κ) :
    outputImage s env (c.er k) = erP k (outputImage s env c) := by
  unfold outputImage
  have h1 : layered s (c.er k) = layered s c := rfl
  have h2 : (c.er k).cache = c.cache.map Pic.er := rfl
  have h3 : (c.er k).out = c.out.map Pic.er := rfl
  rw [h1, h2, h3]
  split
  · cases c.cache with
    | none => rfl
    | some p => simp only [Option.map_some, finishPic_er]; rfl
  · cases c.out with
    | none => rfl
    | some p => simp only [Option.map_some, finishPic_er]; rfl

theorem outputReady_er (s : Settings) (k : Nat) (c : Dec κ) (d : Bool) :
    outputReady s (c.er k) d = ((outputReady s c d).1, (outputReady s c d).2.er k) := by
  unfold outputReady
  have h1 : layered s (c.er k) = layered s c := rfl
  have h2 : (c.er k).cache = c.cache.map Pic.er := rfl
  have h3 : (c.er k).out = c.out.map Pic.er := rfl
  have h4 : (c.er k).cachedError = c.cachedError := rfl
  rw [h1, h2, h3, h4]
  split
  · rfl
  split
  · cases ho : c.out with
    | none => cases hk : c.cache with
      | none => rfl
      | some p => rfl
    | some o => cases hk : c.cache with
      | none => rfl
      | some p =>
        have h5 : (c.er k).maxSpatialId = c.maxSpatialId := rfl
        have h6 : p.er.hdr = p.hdr := rfl
        have h7 : o.er.flags.newTu = o.flags.newTu := rfl
        simp only [Option.map_some, h5, h6, h7]
        split <;> rfl
  · cases c.out <;> rfl

theorem Sim.ready {s : Settings} {k : Nat} {c' c : Dec κ} (h : Sim k c' c) (d : Bool) :
    (outputReady s c' d).1 = (outputReady s c d).1 ∧ Sim k (outputReady s c' d).2 (outputReady s c d).2 := by
  have h1 := outputReady_er s 0 c' d
  have h2 := outputReady_er s k c d
  rw [show c'.er 0 = c.er k from h, h2] at h1
  simp only [Prod.mk.injEq] at h1
  exact ⟨h1.1.symm, h1.2.symm⟩

theorem Sim.image {s : Settings} {env : Env κ} {k : Nat} {c' c : Dec κ} (h : Sim k c' c) :
    erP 0 (outputImage s env c') = erP k (outputImage s env c) := by
  rw [← outputImage_er, ← outputImage_er, h]

theorem Sim.popped {k : Nat} {c' c : Dec κ} (h : Sim k c' c) (i : Nat) : (c'.ring i).er = (c.ring i).er :=
  congrArg (fun d : Dec κ => d.ring i) h

/-- Rounds of drain_picture that agree. -/
def SimStep (k : Nat) : DrainStep κ → DrainStep κ → Prop
  | .stop c', .stop c => Sim k c' c
  | .next c' d', .next c d => Sim k c' c ∧ d' = d
  | .done c' r', .done c r => Sim k c' c ∧ erE r' = erE r
  | .undef, .undef => True
  | _, _ => False

theorem drainStep_er (s : Settings) (env : Env κ) (k : Nat) (c : Dec κ) (d : Bool) : SimStep k (drainStep s env (c.er k) d) (drainStep s env c d) := by
  have h1 : (c.er k).ring (c.er k).next = (c.ring c.next).er := rfl
  have h2 : (c.ring c.next).er.pic = (c.ring c.next).pic.map Pic.er := rfl
  have h3 : (c.ring c.next).er.error = (c.ring c.next).error := rfl
  have h4 : ((c.ring c.next).er.pic.isSome || (c.ring c.next).er.error) = ((c.ring c.next).pic.isSome || (c.ring c.next).error) := by
    rw [h2, h3]; cases (c.ring c.next).pic <;> rfl
  unfold drainStep
  dsimp only
  rw [h1, h4, Slot.er_retval]
  split
  · exact Dec.er_er k c
  · cases (c.ring c.next).retval with
    | some e =>
      dsimp only
      refine ⟨?_, rfl⟩
      have h2 : (c.ring c.next).er.pic.map (·.props) = (c.ring c.next).pic.map (·.props) := by
        simp only [Slot.er]; cases (c.ring c.next).pic <;> rfl
      rw [h2]
      have := (setSlot_er k { c with next := ringNext s.nFc c.next, errProps := (c.ring c.next).pic.map (·.props) } c.next { c.ring c.next with retval := none, pic := none })
      exact (congrArg (Dec.er 0) this).trans (Dec.er_er _ _)
    | none =>
      dsimp only
      rw [h2]
      cases (c.ring c.next).pic with
      | none => exact ⟨Dec.er_er k { c with next := ringNext s.nFc c.next }, rfl⟩
      | some p =>
        have hs := (congrArg (fun d => showDelayed s d p.er) (setSlot_er k { c with next := ringNext s.nFc c.next } c.next
          { c.ring c.next with retval := none, pic := none })).trans (showDelayed_er s k _ p)
        have hs' : showDelayed s (setSlot { c.er k with next := ringNext s.nFc (c.er k).next } (c.er k).next
            { error := (c.ring c.next).er.error : Slot κ }) p.er = _ := hs
        dsimp only [Option.map_some]
        rw [hs']
        have hq : (setSlot { c with next := ringNext s.nFc c.next } c.next { c.ring c.next with retval := none, pic := none }) =
            setSlot { c with next := ringNext s.nFc c.next } c.next { error := (c.ring c.next).error } := rfl
        rw [hq]
        cases showDelayed s (setSlot { c with next := ringNext s.nFc c.next } c.next { error := (c.ring c.next).error }) p with
        | none => exact trivial
        | some e =>
          dsimp only [Option.map_some]
          rw [outputReady_er]
          cases hx : outputReady s e false with
          | mk b f =>
            cases b with
            | false => exact ⟨Dec.er_er k f, rfl⟩
            | true =>
              dsimp only
              rw [outputImage_er]
              cases outputImage s env f with
              | none => exact trivial
              | some y =>
                refine ⟨Dec.er_er k _, ?_⟩
                simp only [erE]
                cases y.2 <;> rfl

theorem SimStep.join {k : Nat} {x y z : DrainStep κ} (h1 : SimStep 0 x y) (h2 : SimStep k x z) : SimStep k y z := by
  cases x <;> cases y <;> first | exact h1.elim | skip
  all_goals cases z <;> first | exact h2.elim | skip
  · exact (show Sim _ _ _ from Eq.trans (show _ = _ from h1).symm h2)
  · exact ⟨Eq.trans (show _ = _ from h1.1).symm h2.1, h1.2.symm.trans h2.2⟩
  · exact ⟨Eq.trans (show _ = _ from h1.1).symm h2.1, h1.2.symm.trans h2.2⟩
  · exact trivial

theorem Sim.drainStep {s : Settings} {env : Env κ} {k : Nat} {c' c : Dec κ} (h : Sim k c' c) (d : Bool) :
    SimStep k (drainStep s env c' d) (drainStep s (env.from k) c d) := by
  have h1 := drainStep_er s env 0 c' d
  have h2 := drainStep_er s env k c d
  rw [show c'.er 0 = c.er k from h] at h1
  exact SimStep.join h1 h2

theorem Sim.drainLoop {s : Settings} {env : Env κ} {k : Nat} (n : Nat) : ∀ {c' c : Dec κ}, Sim k c' c → ∀ d : Bool,
    SimStep k (drainLoop s env n c' d) (drainLoop s (env.from k) n c d) := by
  induction n with
  | zero => intro c' c h d; exact h
  | succ n ih =>
    intro c' c h d
    have h1 := h.drainStep (s := s) (env := env) d
    unfold Dav1d.drainLoop
    generalize Dav1d.drainStep s env c' d = x' at h1 ⊢
    generalize Dav1d.drainStep s (env.from k) c d = x at h1 ⊢
    cases x' <;> cases x <;> first | exact h1.elim | skip
    · exact h1
    · obtain ⟨h1, rfl⟩ := h1
      exact ih h1 _
    · exact h1
    · exact h1

theorem Sim.drainPicture {s : Settings} {env : Env κ} {k : Nat} {c' c : Dec κ} (h : Sim k c' c) :
    erP 0 (drainPicture s env c') = erP k (drainPicture s (env.from k) c) := by
  have h1 := h.drainLoop (s := s) (env := env) s.nFc false
  unfold Dav1d.drainPicture
  generalize Dav1d.drainLoop s env s.nFc c' false = x' at h1 ⊢
  generalize Dav1d.drainLoop s (env.from k) s.nFc c false = x at h1 ⊢
  cases x' <;> cases x <;> first | exact h1.elim | skip
  · rename_i d' d
    have h1 : Sim k d' d := h1
    obtain ⟨h2, h3⟩ := h1.ready (s := s) true
    dsimp only
    generalize Dav1d.outputReady s d' true = y' at h2 h3 ⊢
    generalize Dav1d.outputReady s d true = y at h2 h3 ⊢
    obtain ⟨b', f'⟩ := y'
    obtain ⟨b, f⟩ := y
    dsimp only at h2 h3
    subst h2
    cases b' with
    | true => exact h3.image
    | false =>
      have h3 : f'.er 0 = f.er k := h3
      simp only [erP, Option.map_some, h3]
  · rfl
  · obtain ⟨h2, h3⟩ := h1
    have h2 : _ = _ := h2
    simp only [erP, Option.map_some, h2, h3]
  · rfl

/-! ## The calls -/

theorem DecOk.er {c : Dec κ} (k : Nat) : DecOk (c.er k) ↔ DecOk c := by
  constructor
  · intro h
    exact ⟨h.seq, fun i x hx => h.refs i x (by rw [← hx]; exact RefPic.er_hdr _), h.hdr⟩
  · intro h
    exact ⟨h.seq, fun i x hx => h.refs i x (by rw [← hx]; exact (RefPic.er_hdr _).symm), h.hdr⟩

theorem Sim.decOk {k : Nat} {c' c : Dec κ} (h : Sim k c' c) (hc : DecOk c) : DecOk c' := by
  have h : c'.er 0 = c.er k := h
  rw [← DecOk.er 0, h, DecOk.er]; exact hc

theorem Sim.parseObus {s : Settings} {env : Env κ} (hb : FlagBlind env) {k : Nat} {c' c : Dec κ} (h : Sim k c' c) (hc : DecOk c) {pkt : Packet} (hp : pkt.data ≠ []) :
    erR 0 (parseObus s env c' pkt) = erR k (parseObus s (env.from k) c pkt) := by
  rw [parseObus_eq s env (h.decOk hc) pkt hp, parseObus_eq s (env.from k) hc pkt hp]
  exact Sim.lift (F := fun env c => stepObu s env c pkt) (env := env) (fun k c => stepObu_er s hb pkt k c) h

theorem Sim.setInput {k : Nat} {c' c : Dec κ} (h : Sim k c' c) (p : Option Packet) : Sim k { c' with input := p } { c with input := p } :=
  h.upd (fun d => { d with input := p }) (fun d => { d with input := p }) (fun _ _ => rfl)

theorem Sim.setDrain {k : Nat} {c' c : Dec κ} (h : Sim k c' c) (p : Bool) : Sim k { c' with drain := p } { c with drain := p } :=
  h.upd (fun d => { d with drain := p }) (fun d => { d with drain := p }) (fun _ _ => rfl)

/-- If the first OBU leads to contexts that agree, and the rest of the packet does from then on. -/
theorem genLoop_of {s : Settings} {env : Env κ} {k : Nat} {c' c : Dec κ} {pkt : Packet} (hp : pkt.data ≠ []) (hi : Inv s (env.from k) c) (hout : c.out = none)
    (h1 : erR 0 (parseObus s env c' pkt) = erR k (parseObus s (env.from k) c pkt))
    (hrest : ∀ m, m < pkt.data.length → 0 < m → ∀ {d' d : Dec κ}, Sim k d' d → Inv s (env.from k) d → d.out = none →
      erR 0 (genLoop s env d' { pkt with data := pkt.data.drop m }) = erR k (genLoop s (env.from k) d { pkt with data := pkt.data.drop m })) :
    erR 0 (genLoop s env c' pkt) = erR k (genLoop s (env.from k) c pkt) := by
  obtain ⟨⟨d, r⟩, e, hi2, hn⟩ := hi.parseObus hout hp
  rw [e] at h1
  cases e' : Dav1d.parseObus s env c' pkt with
  | none => rw [e'] at h1; cases h1
  | some x' =>
    obtain ⟨d', r'⟩ := x'
    rw [e'] at h1
    simp only [erR, Option.map_some, Option.some.injEq, Prod.mk.injEq] at h1
    obtain ⟨h1, rfl⟩ := h1
    rw [Dav1d.genLoop, Dav1d.genLoop, e, e']
    cases r' with
    | error er =>
      dsimp only
      have h2 : Sim k ({ d' with input := none } : Dec κ) { d with input := none } := (show Sim k d' d from h1).setInput none
      obtain ⟨h3, h4⟩ := h2.ready (s := s) false
      generalize Dav1d.outputReady s { d' with input := none } false = y' at h3 h4 ⊢
      generalize Dav1d.outputReady s { d with input := none } false = y at h3 h4 ⊢
      obtain ⟨b', f'⟩ := y'
      obtain ⟨b, f⟩ := y
      dsimp only at h3 h4
      subst h3
      have h4 : f'.er 0 = f.er k := h4
      cases b' <;> simp only [erR, Option.map_some, h4]
    | ok m =>
      dsimp only
      have hm := hn m rfl
      rw [dif_pos hm, dif_pos hm]
      have h2 : Sim k ({ d' with input := pkt.advance m } : Dec κ) { d with input := pkt.advance m } := (show Sim k d' d from h1).setInput _
      obtain ⟨h3, h4⟩ := h2.ready (s := s) false
      have hi3 : Inv s (env.from k) { d with input := pkt.advance m } := Inv.setInput hi2 _ advance_ne
      have hi4 := hi3.outputReady false
      generalize Dav1d.outputReady s { d' with input := pkt.advance m } false = y' at h3 h4 ⊢
      generalize Dav1d.outputReady s { d with input := pkt.advance m } false = y at h3 h4 hi4 ⊢
      obtain ⟨b', f'⟩ := y'
      obtain ⟨b, f⟩ := y
      dsimp only at h3 h4
      subst h3
      have h4' : f'.er 0 = f.er k := h4
      cases b' with
      | true => simp only [erR, Option.map_some, h4']
      | false =>
        rcases hi4 with ⟨_, a2, a3, _⟩ | ⟨a1, _⟩
        · dsimp only
          split
          · simp only [erR, Option.map_some, h4']
          · rename_i hlt
            exact hrest m (by omega) hm.1 h4 a2 a3
        · cases a1

theorem Sim.genLoop {s : Settings} {env : Env κ} (hb : FlagBlind env) {k : Nat} (n : Nat) : ∀ {c' c : Dec κ}, Sim k c' c → Inv s (env.from k) c → c.out = none →
    ∀ {pkt : Packet}, pkt.data.length = n → pkt.data ≠ [] → erR 0 (genLoop s env c' pkt) = erR k (genLoop s (env.from k) c pkt) := by
  induction n using Nat.strong_induction_on with
  | _ n ih =>
    intro c' c h hi hout pkt hk hp
    refine genLoop_of hp hi hout (h.parseObus (s := s) hb hi.ok hp) ?_
    intro m hm h0 d' d h4 a2 a3
    refine ih (pkt.data.drop m).length (by simp; omega) h4 a2 a3 rfl ?_
    intro h0
    have := congrArg List.length h0
    simp at this; omega

theorem Sim.genPicture {s : Settings} {env : Env κ} (hb : FlagBlind env) {k : Nat} {c' c : Dec κ} (h : Sim k c' c) (hi : Inv s (env.from k) c) :
    erR 0 (genPicture s env c') = erR k (genPicture s (env.from k) c) := by
  unfold Dav1d.genPicture
  obtain ⟨h3, h4⟩ := h.ready (s := s) false
  have hi4 := hi.outputReady false
  generalize Dav1d.outputReady s c' false = y' at h3 h4 ⊢
  generalize Dav1d.outputReady s c false = y at h3 h4 hi4 ⊢
  obtain ⟨b', f'⟩ := y'
  obtain ⟨b, f⟩ := y
  dsimp only at h3 h4
  subst h3
  have h4' : f'.er 0 = f.er k := h4
  cases b' with
  | true => simp only [erR, Option.map_some, h4']
  | false =>
    rcases hi4 with ⟨_, a2, a3, _⟩ | ⟨a1, _⟩
    · dsimp only
      have hin : f'.input = f.input := by have := congrArg (fun d : Dec κ => d.input) h4'; exact this
      rw [hin]
      cases hp : f.input with
      | none => simp only [erR, Option.map_some, h4']
      | some p => exact Sim.genLoop hb _ h4 a2 a3 rfl (a2.input p hp)
    · cases a1

/-- A reply without what only concerns the event flags. -/
def Reply.er : Reply κ → Reply κ
  | .got r => .got (erE r)
  | .events _ => .events (false, false)
  | r => r

/-- A result of a call, without what only concerns the event flags. -/
def erC (k : Nat) (x : Option (Dec κ × Reply κ)) : Option (Dec κ × Reply κ) := x.map (fun y => (y.1.er k, y.2.er))

theorem Sim.sendData {s : Settings} {env : Env κ} (hb : FlagBlind env) {k : Nat} {c' c : Dec κ} (h : Sim k c' c) (hi : Inv s (env.from k) c) (pkt : Option Packet) :
    (sendData s env c' pkt).map (fun r => (r.ctx.er 0, r.res, r.left)) = (sendData s (env.from k) c pkt).map (fun r => (r.ctx.er k, r.res, r.left)) := by
  have h' : c'.er 0 = c.er k := h
  unfold Dav1d.sendData
  split
  · simp only [Option.map_some, h']
  rename_i hv
  have hi' : Inv s (env.from k) (if pkt.isSome = true then { c with drain := false } else c) := by
    split
    · exact ⟨hi.seq, hi.op, hi.refs, hi.hdr, hi.limit, hi.hdrFor, hi.cover, hi.decoded, hi.out, hi.cache, hi.sync, hi.pics, hi.skipped, hi.slots, hi.input⟩
    · exact hi
  have h2 : Sim k (if pkt.isSome = true then { c' with drain := false } else c') (if pkt.isSome = true then { c with drain := false } else c) := by
    split
    · exact h.setDrain false
    · exact h
  generalize (if pkt.isSome = true then { c with drain := false } else c : Dec κ) = d at hi' h2 ⊢
  generalize (if pkt.isSome = true then { c' with drain := false } else c' : Dec κ) = d' at h2 ⊢
  dsimp only
  have h2' : d'.er 0 = d.er k := h2
  have hin : d'.input = d.input := by have := congrArg (fun d : Dec κ => d.input) h2'; exact this
  rw [hin]
  split
  · simp only [Option.map_some, h2']
  · have hi3 : Inv s (env.from k) { d with input := pkt } := hi'.setInput pkt (fun x hx h0 => hv (by rw [hx]; simp [h0]))
    have h3 := (h2.setInput pkt).genPicture hb hi3
    generalize Dav1d.genPicture s env { d' with input := pkt } = y' at h3 ⊢
    generalize Dav1d.genPicture s (env.from k) { d with input := pkt } = y at h3 ⊢
    cases y' with
    | none => cases y with
      | none => rfl
      | some y => cases h3
    | some y' => cases y with
      | none => cases h3
      | some y =>
        obtain ⟨f', e'⟩ := y'
        obtain ⟨f, e⟩ := y
        simp only [erR, Option.map_some, Option.some.injEq, Prod.mk.injEq] at h3
        obtain ⟨h7, rfl⟩ := h3
        cases e' <;> simp only [Option.map_some, h7]

theorem Sim.getPicture {s : Settings} {env : Env κ} (hb : FlagBlind env) {k : Nat} {c' c : Dec κ} (h : Sim k c' c) (hi : Inv s (env.from k) c) :
    erP 0 (getPicture s env c') = erP k (getPicture s (env.from k) c) := by
  have h' : c'.er 0 = c.er k := h
  have hdr : c'.drain = c.drain := by have := congrArg (fun d : Dec κ => d.drain) h'; exact this
  unfold Dav1d.getPicture
  dsimp only
  have hi2 : Inv s (env.from k) { c with drain := true } :=
    ⟨hi.seq, hi.op, hi.refs, hi.hdr, hi.limit, hi.hdrFor, hi.cover, hi.decoded, hi.out, hi.cache, hi.sync, hi.pics, hi.skipped, hi.slots, hi.input⟩
  have h3 := (h.setDrain true).genPicture hb hi2
  generalize Dav1d.genPicture s env { c' with drain := true } = y' at h3 ⊢
  generalize Dav1d.genPicture s (env.from k) { c with drain := true } = y at h3 ⊢
  cases y' with
  | none => cases y with
    | none => rfl
    | some y => cases h3
  | some y' => cases y with
    | none => cases h3
    | some y =>
      obtain ⟨f', e'⟩ := y'
      obtain ⟨f, e⟩ := y
      simp only [erR, Option.map_some, Option.some.injEq, Prod.mk.injEq] at h3
      obtain ⟨h7, rfl⟩ := h3
      cases e' with
      | some e => simp only [erP, Option.map_some, h7]
      | none =>
        dsimp only
        have hce : f'.cachedError = f.cachedError := by have := congrArg (fun d : Dec κ => d.cachedError) h7; exact this
        rw [hce]
        cases f.cachedError with
        | some e =>
          simp only [erP, Option.map_some]
          congr 2
          exact congrArg (fun d : Dec κ => { d with cachedError := none }) h7
        | none =>
          dsimp only
          obtain ⟨a1, a2⟩ := (show Sim k f' f from h7).ready (s := s) (s.nFc == 1)
          generalize Dav1d.outputReady s f' (s.nFc == 1) = z' at a1 a2 ⊢
          generalize Dav1d.outputReady s f (s.nFc == 1) = z at a1 a2 ⊢
          obtain ⟨b', g'⟩ := z'
          obtain ⟨b, g⟩ := z
          dsimp only at a1 a2
          subst a1
          cases b' with
          | true => exact a2.image
          | false =>
            dsimp only
            rw [hdr]
            split
            · exact a2.drainPicture
            · have a2 : g'.er 0 = g.er k := a2
              simp only [erP, Option.map_some, a2]

theorem Sim.flush {s : Settings} {k : Nat} {c' c : Dec κ} (h : Sim k c' c) : Sim k (flush s c') (flush s c) := by
  have hF : ∀ (j : Nat) (c : Dec κ), (Dav1d.flush s c).er j = { Dav1d.flush s (c.er j) with tiles := [], nTiles := 0 } := by
    intro j c
    unfold Dav1d.flush
    simp only [Dec.er, heldOr]
    congr 1
    · funext i; split <;> rfl
    · split
      · funext i; dsimp only; split <;> rfl
      · rfl
  exact h.upd (Dav1d.flush s) (fun c => { Dav1d.flush s c with tiles := [], nTiles := 0 }) hF

theorem Sim.call {s : Settings} {env : Env κ} (hb : FlagBlind env) {k : Nat} {c' c : Dec κ} (h : Sim k c' c) (hi : Inv s (env.from k) c) (a : Call) :
    erC 0 (call s env c' a) = erC k (call s (env.from k) c a) := by
  have h' : c'.er 0 = c.er k := h
  cases a with
  | send p =>
    have h1 := h.sendData hb hi p
    unfold Dav1d.call
    dsimp only
    generalize Dav1d.sendData s env c' p = y' at h1 ⊢
    generalize Dav1d.sendData s (env.from k) c p = y at h1 ⊢
    cases y' with
    | none => cases y with
      | none => rfl
      | some y => cases h1
    | some y' => cases y with
      | none => cases h1
      | some y =>
        simp only [Option.map_some, Option.some.injEq, Prod.mk.injEq] at h1
        simp only [erC, Option.map_some, h1.1, h1.2.1, h1.2.2]
  | get =>
    have h1 := h.getPicture hb hi
    unfold Dav1d.call
    dsimp only
    generalize Dav1d.getPicture s env c' = y' at h1 ⊢
    generalize Dav1d.getPicture s (env.from k) c = y at h1 ⊢
    cases y' with
    | none => cases y with
      | none => rfl
      | some y => cases h1
    | some y' => cases y with
      | none => cases h1
      | some y =>
        simp only [erP, Option.map_some, Option.some.injEq, Prod.mk.injEq] at h1
        simp only [erC, Option.map_some, h1.1, Reply.er, h1.2]
  | flush =>
    have h1 : (Dav1d.flush s c').er 0 = (Dav1d.flush s c).er k := h.flush
    simp only [Dav1d.call, erC, Option.map_some, h1]
  | events =>
    have h1 : (getEventFlags c').1.er 0 = (getEventFlags c).1.er k := h
    simp only [Dav1d.call, erC, Option.map_some, h1, Reply.er]
  | errorProps =>
    have h1 : (getErrorProps c').1.er 0 = (getErrorProps c).1.er k := congrArg (fun d : Dec κ => { d with errProps := none }) h'
    have h2 : (getErrorProps c').2 = (getErrorProps c).2 := by have := congrArg (fun d : Dec κ => d.errProps) h'; exact this
    simp only [Dav1d.call, erC, Option.map_some, h1, h2]

/-- Contexts that agree give the same replies. -/
theorem Sim.session {s : Settings} {env : Env κ} (hb : FlagBlind env) {k : Nat} (l : List Call) : ∀ {c' c : Dec κ}, Sim k c' c → Inv s (env.from k) c →
    ∃ d' d rs' rs, session s env c' l = some (d', rs') ∧ session s (env.from k) c l = some (d, rs) ∧ Sim k d' d ∧ rs'.map Reply.er = rs.map Reply.er := by
  induction l with
  | nil => intro c' c h hi; exact ⟨c', c, [], [], rfl, rfl, h, rfl⟩
  | cons a l ih =>
    intro c' c h hi
    have h1 := h.call hb hi a
    obtain ⟨⟨d, r⟩, e, hi2⟩ := hi.call a
    rw [e] at h1
    cases e' : Dav1d.call s env c' a with
    | none => rw [e'] at h1; cases h1
    | some x' =>
      obtain ⟨d', r'⟩ := x'
      rw [e'] at h1
      simp only [erC, Option.map_some, Option.some.injEq, Prod.mk.injEq] at h1
      obtain ⟨f', f, rs', rs, g1, g2, g3, g4⟩ := ih (show Sim k d' d from h1.1) hi2
      refine ⟨f', f, r' :: rs', r :: rs, ?_, ?_, g3, ?_⟩
      · simp only [Dav1d.session, e', g1, Option.map_some]
      · simp only [Dav1d.session, e, g2, Option.map_some]
      · simp only [List.map_cons, h1.2, g4]

end Dav1d
