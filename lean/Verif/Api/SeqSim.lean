import Verif.Api.SeqSpec
import Verif.Api.Inv
/-!
# The API calls against the decoder without output queue
-/
namespace Dav1d
open HProg
variable {κ : Type}

/-- The fields of `d` describing the stream, the others of `a`. -/
def put (a d : Dec κ) : Dec κ :=
  { d with out := a.out, cache := a.cache, ring := a.ring, next := a.next, cachedError := a.cachedError,
           errProps := a.errProps, eventFlags := a.eventFlags, input := a.input, drain := a.drain }

/-- Only the fields describing the stream. -/
def core (c : Dec κ) : Dec κ :=
  { c with out := none, cache := none, ring := fun _ => {}, next := 0, cachedError := none,
           errProps := none, eventFlags := (false, false), input := none, drain := false }

theorem put_core (c : Dec κ) : put c (core c) = c := rfl
theorem core_put (a d : Dec κ) : core (put a d) = core d := rfl
theorem core_core (d : Dec κ) : core (core d) = core d := rfl
theorem put_put (a b d : Dec κ) : put a (put b d) = put a d := rfl

/-! ## The switch does not look at the other fields -/

def mapCase (f : Dec κ → Dec κ) (r : CaseRes κ) : CaseRes κ := r.map (fun x => (f x.1, x.2))

theorem tileGroup_put (a d : Dec κ) (h : FrameHdr) (props : Props) (b : BitSt) :
    ((tileGroup (put a d) h props).run b).1 = mapCase (put a) ((tileGroup d h props).run b).1 := by
  unfold tileGroup
  simp only [Prog.run_bind]
  split
  · rfl
  · simp only [Prog.run_bind]
    split <;> split <;> first | rfl | (exfalso; simp_all [put])

theorem activate_put (s : Settings) (a d : Dec κ) (q : SeqHdr) : activateSeq s (put a d) q = put a (activateSeq s d q) := by
  unfold activateSeq
  dsimp only [put]
  cases d.seq with
  | none => rfl
  | some q' =>
    dsimp only
    by_cases h1 : q.core ≠ q'.core
    · simp only [if_pos h1]
    · simp only [if_neg h1]
      by_cases h2 : q.opInfo ≠ q'.opInfo
      · simp only [if_pos h2]
      · simp only [if_neg h2]

theorem obuCase_put (s : Settings) (a d : Dec κ) (type t sp : Nat) (props : Props) (b : BitSt) :
    ((obuCase s (put a d) type t sp props).run b).1 = mapCase (put a) ((obuCase s d type t sp props).run b).1 := by
  have hseq : ((seqCase s (put a d)).run b).1 = mapCase (put a) ((seqCase s d).run b).1 := by
    unfold seqCase
    simp only [Prog.run_bind]
    split
    · rfl
    · simp [mapCase, activate_put]
  have htile : ((tileGroupCase (put a d) props).run b).1 = mapCase (put a) ((tileGroupCase d props).run b).1 := by
    unfold tileGroupCase
    have : (put a d).frameHdr = d.frameHdr := rfl
    rw [this]
    split
    · rfl
    · exact tileGroup_put ..
    · rfl
  have hframe : ((frameHdrCase s (put a d) type t sp props).run b).1 = mapCase (put a) ((frameHdrCase s d type t sp props).run b).1 := by
    unfold frameHdrCase
    have : (put a d).seq = d.seq := rfl
    rw [this]
    split
    · rfl
    · rename_i q hq
      unfold frameHdrBody
      have : fhCtx s (put a d) q t sp = fhCtx s d q t sp := rfl
      rw [this]
      simp only [Prog.run_bind]
      split
      · rfl
      · simp only [Prog.run_bind]
        split
        · rfl
        · split
          · rfl
          · split
            · rfl
            · split
              · rfl
              · simp only [Prog.run_bind]
                exact tileGroup_put a { d with frameHdr := _, tiles := [], nTiles := 0 } ..
  have hmeta : ((metaCase s (put a d)).run b).1 = mapCase (put a) ((metaCase s d).run b).1 := by
    unfold metaCase
    simp only [Prog.run_bind]
    split
    · rfl
    split
    · unfold cllCase
      simp only [Prog.run_bind]
      split <;> rfl
    split
    · unfold mdcvCase
      simp only [Prog.run_bind]
      split <;> rfl
    split
    · unfold t35Case
      simp only [Prog.run_bind]
      generalize (if _ = 0xFF then _ else _ : Int) = size
      by_cases hs : size ≤ 0
      · simp only [if_pos hs]; rfl
      · simp only [if_neg hs]
        cases (Prog.getRest.run _).1[size.toNat]? with
        | none => rfl
        | some x =>
          dsimp only
          by_cases hx : x ≠ 0x80
          · simp only [if_pos hx]; rfl
          · simp only [if_neg hx]; rfl
    · rfl
  unfold obuCase
  split
  · exact hseq
  split
  · rename_i h; rw [if_pos (show type = 7 ∧ d.frameHdr.isSome = true from h)]; rfl
  · rename_i h
    rw [if_neg (show ¬ (type = 7 ∧ d.frameHdr.isSome = true) from h)]
    split
    · exact hframe
    split
    · exact htile
    split
    · exact hmeta
    split
    · rfl
    · rfl

/-! ## After the switch, one frame context -/

/-- The error of a step. -/
def errOf {α : Type} : Except Err α → Option Err
  | .ok _ => none
  | .error e => some e

/-- The picture of a step. -/
def outOf {α : Type} : Except Err (Option α) → Option α
  | .ok o => o
  | .error _ => none

/-- What a step leaves alone. -/
structure Keep (a a' : Dec κ) : Prop where
  cachedError : a'.cachedError = a.cachedError
  input : a'.input = a.input
  cache : a'.cache = a.cache

theorem show_sync {s : Settings} {a d : Dec κ} (h1 : s.nFc = 1) (hout : a.out = none) (i : Nat) (props : Props) :
    ∃ a', showExisting s (put a d) i props = some (put a' (seqShow s d i props).1, errOf (seqShow s d i props).2) ∧
      a'.out = outOf (seqShow s d i props).2 ∧ Keep a a' := by
  unfold showExisting seqShow
  have hr : (put a d).refs = d.refs := rfl
  rw [hr]
  cases hp : (d.refs i).p with
  | empty => exact ⟨{ a with errProps := some props }, rfl, hout, rfl, rfl, rfl⟩
  | hdrOnly h =>
    simp only [RefPic.hdr]
    split
    · exact ⟨a, rfl, hout, rfl, rfl, rfl⟩
    · exact ⟨{ a with errProps := some props }, rfl, hout, rfl, rfl, rfl⟩
  | pic p =>
    simp only [RefPic.hdr]
    split
    · exact ⟨a, rfl, hout, rfl, rfl, rfl⟩
    split
    · exact ⟨{ a with errProps := some props }, rfl, hout, rfl, rfl, rfl⟩
    · have : showPic s (put a d) p props = some (put { a with eventFlags := addFlags a.eventFlags p.flags, out := some { p with info := d.info, props := props } }
          { d with info := { d.info with t35 := [] } }) := by
        unfold showPic setOut
        dsimp only
        rw [if_pos h1]
        have : (put a d).out = none := hout
        rw [this]
        rfl
      rw [this]
      refine ⟨{ a with eventFlags := addFlags a.eventFlags p.flags, out := some { p with info := d.info, props := props } }, ?_, rfl, rfl, rfl, rfl⟩
      dsimp only
      split <;> rfl

/-- The context after a frame was submitted, src/obu.c:1702-1707. -/
def afterSubmit : Option (Dec κ × Option Err) → Option (Dec κ × Option Err)
  | none => none
  | some (c, some e) => some (c, some e)
  | some (c, none) => if c.tiles = [] then some ({ c with frameHdr := none, nTiles := 0 }, none) else none

/-- The end of dav1d_submit_frame. -/
def submitTail (s : Settings) (oom : Oom) (i : Nat) (c : Dec κ) (h : FrameHdr) (p : Pic κ) (props : Props) : Option (Dec κ × Option Err) :=
  if oom = .copy then some (submitError s c i props .ENOMEM)
  else if s.nFc = 1 then submitSync s c oom h p props
  else some (submitAsync s c oom i h p props)

/-- The end of `seqSubmit`. -/
def seqTail (s : Settings) (oom : Oom) (d : Dec κ) (h : FrameHdr) (p : Pic κ) : Dec κ × Except Err (Option (Pic κ)) :=
  if oom ≠ .no then (d, .error .ENOMEM)
  else match p.content with
    | .error e => ({ d with refs := dropRefs h d.refs }, .error e)
    | .ok _ =>
      ({ d with refs := refreshRefs h p d.refs, nTiles := 0 }, .ok (if h.base.showFrame || s.outputInvisible then some p else none))

theorem err_sync {s : Settings} {a : Dec κ} (h1 : s.nFc = 1) (props : Props) (d' a' : Dec κ) (i : Nat) (e : Err) (hk : Keep a a') :
    ∃ a'', afterSubmit (some (submitError s (put a' d') i props e)) = some (put a'' d', some e) ∧ a''.out = none ∧ Keep a a'' := by
  unfold submitError
  dsimp only
  rw [if_pos h1]
  exact ⟨{ a' with errProps := some props, out := none }, rfl, rfl, hk.1, hk.2, hk.3⟩

theorem tail_sync {s : Settings} {a : Dec κ} (h1 : s.nFc = 1) (hout : a.out = none) (oom : Oom) (i : Nat) {d1 : Dec κ} (h : FrameHdr) (p : Pic κ) (props : Props)
    (htiles : d1.tiles = []) (hhdr : d1.frameHdr = none) (c2 : oom ≠ .early) (c3 : oom ≠ .pic) :
    ∃ a', afterSubmit (submitTail s oom i (put a d1) h p props) = some (put a' (seqTail s oom d1 h p).1, errOf (seqTail s oom d1 h p).2) ∧
      a'.out = outOf (seqTail s oom d1 h p).2 ∧ Keep a a' := by
  unfold submitTail seqTail
  by_cases c4 : oom = .copy
  · rw [if_pos c4, if_pos (show oom ≠ .no by rw [c4]; decide)]
    exact err_sync h1 props d1 a _ .ENOMEM ⟨rfl, rfl, rfl⟩
  rw [if_neg c4, if_pos h1]
  unfold submitSync
  have hset : (if (h.base.showFrame || s.outputInvisible) = true then setOut { put a d1 with eventFlags := addFlags (put a d1).eventFlags p.flags } p
      else some (put a d1)) =
      some (put (if (h.base.showFrame || s.outputInvisible) = true then { a with eventFlags := addFlags a.eventFlags p.flags, out := some p } else a) d1) := by
    split
    · unfold setOut
      have : ({ put a d1 with eventFlags := addFlags (put a d1).eventFlags p.flags } : Dec κ).out = none := hout
      rw [this]
      rfl
    · rfl
  rw [hset]
  dsimp only
  generalize ha2 : (if (h.base.showFrame || s.outputInvisible) = true then { a with eventFlags := addFlags a.eventFlags p.flags, out := some p } else a) = a2
  have hk2 : Keep a a2 := by subst ha2; split <;> exact ⟨rfl, rfl, rfl⟩
  have ho2 : a2.out = if (h.base.showFrame || s.outputInvisible) = true then some p else none := by
    subst ha2; split
    · rfl
    · exact hout
  by_cases c5 : oom = .late
  · rw [if_pos c5, if_pos (show oom ≠ .no by rw [c5]; decide)]
    exact err_sync h1 props d1 a2 _ .ENOMEM hk2
  rw [if_neg c5]
  by_cases c6 : oom ≠ .no
  · exfalso; cases oom <;> simp_all
  rw [if_neg c6]
  cases hc : p.content with
  | error e =>
    simp only
    exact err_sync h1 props { d1 with refs := dropRefs h d1.refs } a2 _ e hk2
  | ok k =>
    refine ⟨a2, ?_, ho2, hk2⟩
    unfold afterSubmit
    dsimp only
    rw [if_pos (show (put a2 d1).tiles = [] from htiles), hhdr]
    rfl

theorem submit_sync {s : Settings} {env : Env κ} {a d : Dec κ} (h1 : s.nFc = 1) (hout : a.out = none) (q : SeqHdr) (h : FrameHdr) (props : Props)
    {d' r} (hs : seqSubmit s env d q h = (d', r)) :
    ∃ a', afterSubmit (submitFrame s env (put a d) q h props) = some (put a' d', errOf r) ∧ a'.out = outOf r ∧ Keep a a' := by
  unfold seqSubmit at hs
  dsimp only at hs
  unfold submitFrame
  dsimp only
  rw [if_pos h1]
  have hr : (put a d).refs = d.refs := rfl
  have ht : (put a d).tiles = d.tiles := rfl
  have hsb : (put a d).submitted = d.submitted := rfl
  dsimp only
  rw [hr, hsb, ht]
  by_cases c1 : refsUnusable q h d.refs = true
  · rw [if_pos c1] at hs ⊢
    cases hs
    exact err_sync h1 props { d with frameHdr := none, submitted := d.submitted + 1 } a _ .EINVAL ⟨rfl, rfl, rfl⟩
  rw [if_neg c1] at hs ⊢
  by_cases c2 : env.oom d.submitted = .early
  · rw [if_pos c2] at hs ⊢
    cases hs
    exact err_sync h1 props { d with frameHdr := none, submitted := d.submitted + 1 } a _ .ENOMEM ⟨rfl, rfl, rfl⟩
  rw [if_neg c2] at hs ⊢
  by_cases c3 : env.oom d.submitted = .pic
  · rw [if_pos c3] at hs ⊢
    cases hs
    exact err_sync h1 props { d with frameHdr := none, submitted := d.submitted + 1, tiles := [] } a _ .ENOMEM ⟨rfl, rfl, rfl⟩
  rw [if_neg c3] at hs ⊢
  have := tail_sync h1 hout (env.oom d.submitted) (put a d).next
    (d1 := { afterAlloc s { d with frameHdr := none, submitted := d.submitted + 1 } h with tiles := [], decoded := d.decoded ++ [⟨q, h, d.tiles, d.refs⟩] }) h
    (newPic { d with frameHdr := none, submitted := d.submitted + 1 } q h ((d.tiles.head?.map (·.props)).getD 0) (env.dec ⟨q, h, d.tiles, d.refs⟩)) props rfl rfl c2 c3
  rw [show seqTail s _ _ h _ = (d', r) from hs] at this
  exact this

theorem finish_sync {s : Settings} {env : Env κ} {a d : Dec κ} (h1 : s.nFc = 1) (hout : a.out = none) (props : Props) {d' r}
    (hs : seqFinish s env d props = (d', r)) :
    ∃ a', finishObu s env (put a d) props = some (put a' d', errOf r) ∧ a'.out = outOf r ∧ Keep a a' := by
  unfold seqFinish at hs
  unfold finishObu
  rw [show (put a d).seq = d.seq from rfl, show (put a d).frameHdr = d.frameHdr from rfl]
  split at hs
  · rename_i q i x y hq hh
    have := show_sync (d := d) h1 hout i props
    rw [hs] at this
    rw [hq, hh]
    exact this
  · rename_i q h hq hh
    rw [hq, hh]
    dsimp only
    rw [show (put a d).nTiles = d.nTiles from rfl]
    split at hs
    · rename_i hn
      rw [if_pos hn]
      unfold frameComplete
      rw [show (put a d).tiles = d.tiles from rfl]
      split at hs
      · rename_i hk
        rw [if_pos hk]
        cases hs
        exact ⟨a, rfl, hout, rfl, rfl, rfl⟩
      rename_i hk
      rw [if_neg hk]
      split at hs
      · rename_i ht
        rw [if_pos ht]
        cases hs
        exact ⟨{ a with errProps := some props }, rfl, hout, rfl, rfl, rfl⟩
      rename_i ht
      rw [if_neg ht]
      obtain ⟨a', e, r⟩ := submit_sync h1 hout q h props hs
      refine ⟨a', ?_, r⟩
      rw [← e]
      rcases submitFrame s env (put a d) q h props with _ | ⟨c, _ | er⟩ <;> rfl
    · rename_i hn
      cases hs
      rw [if_neg hn]
      exact ⟨a, rfl, hout, rfl, rfl, rfl⟩
  · rename_i hx hy
    cases hs
    split
    · rename_i a1 a2 a3; exact absurd a3 (hx _ _ _ _ a2)
    · rename_i a1 a2 a3 a4; exact absurd a4 (hy _ _ a3)
    · exact ⟨a, rfl, hout, rfl, rfl, rfl⟩

/-! ## Several frame contexts -/

/-- The frame contexts, the one in turn first. -/
def slots (s : Settings) (a : Dec κ) : List (Slot κ) := (List.range s.nFc).map (fun k => a.ring ((a.next + k) % s.nFc))

/-- The picture of a frame context if it is to be shown. -/
def Slot.toShow (s : Settings) (sl : Slot κ) : Option (Pic κ) := sl.pic.filter (Pic.shown s)

/-- The pictures to be shown that have not been returned yet, in order. -/
def pend (s : Settings) (a : Dec κ) : List (Pic κ) :=
  a.out.toList ++ if s.nFc = 1 then [] else (slots s a).filterMap (Slot.toShow s)

/-- No decoding error so far. -/
structure Clean (s : Settings) (a : Dec κ) : Prop where
  cachedError : a.cachedError = none
  next : s.nFc ≠ 1 → a.next < s.nFc
  slot : s.nFc ≠ 1 → ∀ i, (a.ring i).retval = none ∧ ∀ p, (a.ring i).pic = some p → p.content.isOk = true

theorem ringNext_mod {n i : Nat} (h : i < n) : ringNext n i = (i + 1) % n := by
  unfold ringNext
  split
  · rename_i h; rw [h, Nat.mod_self]
  · rw [Nat.mod_eq_of_lt (by omega)]

theorem ringNext_lt {n i : Nat} (h : i < n) : ringNext n i < n := by
  rw [ringNext_mod h]; exact Nat.mod_lt _ (by omega)

theorem slots_cons {s : Settings} {a : Dec κ} (h : a.next < s.nFc) :
    slots s a = a.ring a.next :: (List.range (s.nFc - 1)).map (fun k => a.ring ((a.next + 1 + k) % s.nFc)) := by
  unfold slots
  obtain ⟨m, hm⟩ : ∃ m, s.nFc = m + 1 := ⟨s.nFc - 1, by omega⟩
  rw [hm] at h ⊢
  rw [List.range_succ_eq_map, List.map_cons, List.map_map, Nat.add_sub_cancel]
  simp only [Nat.add_zero, Nat.mod_eq_of_lt h]
  congr 1
  apply List.map_congr_left
  intro k _
  show a.ring ((a.next + (k + 1)) % (m + 1)) = _
  rw [show a.next + (k + 1) = a.next + 1 + k by omega]

theorem slots_snoc {s : Settings} {a a' : Dec κ} (h : a.next < s.nFc) (hn : a'.next = ringNext s.nFc a.next)
    (hr : ∀ j, j ≠ a.next → a'.ring j = a.ring j) :
    slots s a' = (List.range (s.nFc - 1)).map (fun k => a.ring ((a.next + 1 + k) % s.nFc)) ++ [a'.ring a.next] := by
  unfold slots
  obtain ⟨m, hm⟩ : ∃ m, s.nFc = m + 1 := ⟨s.nFc - 1, by omega⟩
  rw [ringNext_mod h] at hn
  rw [hm] at h hn ⊢
  rw [List.range_succ, List.map_append, Nat.add_sub_cancel]
  congr 1
  · apply List.map_congr_left
    intro k hk
    rw [List.mem_range] at hk
    rw [hn, Nat.mod_add_mod]
    apply hr
    intro he
    by_cases hlt : a.next + 1 + k < m + 1
    · rw [Nat.mod_eq_of_lt hlt] at he; omega
    · rw [Nat.mod_eq_sub_mod (by omega), Nat.mod_eq_of_lt (by omega)] at he; omega
  · simp only [List.map_cons, List.map_nil]
    rw [hn, Nat.mod_add_mod, show a.next + 1 + m = a.next + (m + 1) by omega, Nat.add_mod_right, Nat.mod_eq_of_lt h]

theorem pop_async {s : Settings} {a : Dec κ} (hc : Clean s a) (h1 : s.nFc ≠ 1) (hout : a.out = none) (d : Dec κ) :
    ∃ a', ringPop s (put a d) = some (put a' d) ∧ a'.next = ringNext s.nFc a.next ∧ (∀ j, j ≠ a.next → a'.ring j = a.ring j) ∧
      (a'.ring a.next).retval = none ∧ (a'.ring a.next).pic = none ∧ a'.out = (a.ring a.next).toShow s ∧ Keep a a' := by
  obtain ⟨hr, hp⟩ := hc.slot h1 a.next
  unfold ringPop
  dsimp only
  rw [show (put a d).ring = a.ring from rfl, show (put a d).next = a.next from rfl, hr]
  dsimp only
  unfold Slot.toShow
  cases hpic : (a.ring a.next).pic with
  | none => exact ⟨{ a with next := ringNext s.nFc a.next }, rfl, rfl, fun _ _ => rfl, hr, hpic, hout, rfl, rfl, rfl⟩
  | some p =>
    dsimp only
    unfold showDelayed
    by_cases hs : p.shown s = true
    · rw [if_pos hs]
      refine ⟨{ a with next := ringNext s.nFc a.next, ring := fun j => if j = a.next then { a.ring a.next with pic := none } else a.ring j,
                       eventFlags := addFlags a.eventFlags p.flags, out := some p }, ?_, rfl, fun j hj => if_neg hj, ?_, ?_, ?_, rfl, rfl, rfl⟩
      · unfold setOut setSlot
        dsimp only
        rw [show (put a d).out = none from hout, hr]
        rfl
      · simp only [if_true]; exact hr
      · simp only [if_true]
      · simp [Option.filter, hs]
    · rw [if_neg hs]
      refine ⟨{ a with next := ringNext s.nFc a.next, ring := fun j => if j = a.next then { a.ring a.next with pic := none } else a.ring j }, ?_, rfl,
        fun j hj => if_neg hj, ?_, ?_, ?_, rfl, rfl, rfl⟩
      · unfold setSlot
        dsimp only
        rw [hr]
        rfl
      · simp only [if_true]; exact hr
      · simp only [if_true]
      · simp [Option.filter, hs, hout]

/-- A frame context in turn is emptied and filled again. -/
theorem pend_push {s : Settings} {a a' b : Dec κ} (hc : Clean s a) (h1 : s.nFc ≠ 1) (hout : a.out = none)
    (hn : a'.next = ringNext s.nFc a.next) (hr : ∀ j, j ≠ a.next → a'.ring j = a.ring j)
    (ho : a'.out = (a.ring a.next).toShow s) (hbn : b.next = a'.next) (hbo : b.out = a'.out)
    (hbr : ∀ j, j ≠ a.next → b.ring j = a'.ring j) :
    pend s b = pend s a ++ ((b.ring a.next).toShow s).toList := by
  unfold pend
  rw [if_neg h1, if_neg h1, slots_cons (hc.next h1), slots_snoc (a' := b) (hc.next h1) (hbn.trans hn) (fun j hj => (hbr j hj).trans (hr j hj)),
    hbo, ho, hout, List.filterMap_append]
  cases h : (a.ring a.next).toShow s <;> cases h' : (b.ring a.next).toShow s <;> simp [h, h']

theorem clean_push {s : Settings} {a b : Dec κ} (hc : Clean s a) (hce : b.cachedError = a.cachedError)
    (hn : b.next = ringNext s.nFc a.next) (hr : ∀ j, j ≠ a.next → b.ring j = a.ring j) (h2 : (b.ring a.next).retval = none)
    (h3 : ∀ p, (b.ring a.next).pic = some p → p.content.isOk = true) : Clean s b := by
  refine ⟨hce.trans hc.cachedError, fun h => by rw [hn]; exact ringNext_lt (hc.next h), fun h i => ?_⟩
  by_cases hi : i = a.next
  · subst hi; exact ⟨h2, h3⟩
  · rw [hr i hi]; exact hc.slot h i

/-- All reference pictures were decoded without error. -/
def PicsOk (d : Dec κ) : Prop := ∀ i p, (d.refs i).p = .pic p → p.content.isOk = true

theorem show_async {s : Settings} {a d : Dec κ} (hc : Clean s a) (h1 : s.nFc ≠ 1) (hout : a.out = none) (hd : PicsOk d) (i : Nat) (props : Props) {d' o}
    (hs : seqShow s d i props = (d', .ok o)) :
    ∃ a', showExisting s (put a d) i props = some (put a' d', none) ∧ Clean s a' ∧ Keep a a' ∧
      (pend s a').map Pic.given = (pend s a ++ o.toList).map Pic.given := by
  unfold seqShow at hs
  unfold showExisting
  have hr : (put a d).refs = d.refs := rfl
  rw [hr]
  cases hp : (d.refs i).p with
  | empty => rw [hp] at hs; cases hs
  | hdrOnly h =>
    rw [hp] at hs
    simp only [RefPic.hdr] at hs ⊢
    split at hs
    · rename_i hk
      cases hs
      rw [if_pos hk]
      exact ⟨a, rfl, hc, ⟨rfl, rfl, rfl⟩, by simp⟩
    · cases hs
  | pic p =>
    rw [hp] at hs
    simp only [RefPic.hdr] at hs ⊢
    split at hs
    · rename_i hk
      cases hs
      rw [if_pos hk]
      exact ⟨a, rfl, hc, ⟨rfl, rfl, rfl⟩, by simp⟩
    rename_i hk
    rw [if_neg hk]
    split at hs
    · cases hs
    rename_i hst
    rw [if_neg hst]
    cases hs
    obtain ⟨a1, e1, n1, r1, t1, p1, o1, k1⟩ := pop_async hc h1 hout { d with info := { d.info with t35 := [] } }
    have hcont := hd i p hp
    have : showPic s (put a d) p props = some (put { a1 with ring := fun j => if j = a.next then { a1.ring a.next with pic := some { p with info := d.info, props := props, visible := true } } else a1.ring j }
          { d with info := { d.info with t35 := [] } }) := by
      unfold showPic
      dsimp only
      rw [if_neg h1]
      have e : ({ put a d with info := { (put a d).info with t35 := [] } } : Dec κ) = put a { d with info := { d.info with t35 := [] } } := rfl
      rw [e, e1]
      rfl
    rw [this]
    refine ⟨{ a1 with ring := fun j => if j = a.next then { a1.ring a.next with pic := some { p with info := d.info, props := props, visible := true } } else a1.ring j }, ?_, ?_, ?_, ?_⟩
    · dsimp only
      split <;> rfl
    · refine clean_push hc k1.cachedError n1 (fun j hj => ?_) ?_ ?_
      · simp only [if_neg hj]; exact r1 j hj
      · simp only [if_true]; exact t1
      · simp only [if_true]; intro p' hp'; cases hp'; exact hcont
    · exact ⟨k1.cachedError, k1.input, k1.cache⟩
    · rw [pend_push (b := { a1 with ring := fun j => if j = a.next then { a1.ring a.next with pic := some { p with info := d.info, props := props, visible := true } } else a1.ring j }) hc h1 hout n1 r1 o1 rfl rfl
        (fun j hj => by simp only [if_neg hj])]
      rw [List.map_append, List.map_append]
      congr 1
      simp only [if_true, Slot.toShow, Option.filter]
      have : Pic.shown s { p with info := d.info, props := props, visible := true } = true := by
        unfold Pic.shown; simp [hcont]
      rw [this]
      rfl

theorem tail_async {s : Settings} {a a1 : Dec κ} (hc : Clean s a) (h1 : s.nFc ≠ 1) (hout : a.out = none)
    (n1 : a1.next = ringNext s.nFc a.next) (r1 : ∀ j, j ≠ a.next → a1.ring j = a.ring j) (o1 : a1.out = (a.ring a.next).toShow s) (k1 : Keep a a1)
    (oom : Oom) {d1 : Dec κ} (h : FrameHdr) (p : Pic κ) (props : Props)
    (htiles : d1.tiles = []) (hhdr : d1.frameHdr = none) (hvis : p.visible = h.base.showFrame) {d' o} (hs : seqTail s oom d1 h p = (d', .ok o)) :
    ∃ a', afterSubmit (submitTail s oom a.next (put a1 d1) h p props) = some (put a' d', none) ∧ Clean s a' ∧ Keep a a' ∧
      pend s a' = pend s a ++ o.toList := by
  unfold seqTail at hs
  by_cases c4 : oom = .no
  swap
  · rw [if_pos c4] at hs; cases hs
  rw [if_neg (not_not.2 c4)] at hs
  unfold submitTail
  rw [c4, if_neg (by decide), if_neg h1]
  unfold submitAsync
  rw [if_neg (by decide)]
  cases hcn : p.content with
  | error e => rw [hcn] at hs; cases hs
  | ok k =>
    rw [hcn] at hs
    cases hs
    refine ⟨{ a1 with ring := fun j => if j = a.next then { pic := some p, retval := none, error := false } else a1.ring j }, ?_, ?_, ?_, ?_⟩
    · unfold afterSubmit
      dsimp only
      split
      · rw [hhdr]
        rfl
      · rename_i hne
        exact absurd htiles hne
    · refine clean_push hc k1.cachedError n1 (fun j hj => ?_) ?_ ?_
      · simp only [if_neg hj]; exact r1 j hj
      · simp only [if_true]
      · simp only [if_true]; intro p' hp'; cases hp'; rw [hcn]; rfl
    · exact ⟨k1.cachedError, k1.input, k1.cache⟩
    · rw [pend_push (b := { a1 with ring := fun j => if j = a.next then { pic := some p, retval := none, error := false } else a1.ring j }) hc h1 hout n1 r1 o1 rfl rfl
        (fun j hj => by simp only [if_neg hj])]
      congr 2
      simp only [if_true, Slot.toShow, Option.filter]
      unfold Pic.shown
      rw [hvis, hcn]
      simp only [Except.isOk, Except.toBool, Bool.and_true]

theorem submit_async {s : Settings} {env : Env κ} {a d : Dec κ} (hc : Clean s a) (h1 : s.nFc ≠ 1) (hout : a.out = none) (q : SeqHdr) (h : FrameHdr) (props : Props)
    {d' o} (hs : seqSubmit s env d q h = (d', .ok o)) :
    ∃ a', afterSubmit (submitFrame s env (put a d) q h props) = some (put a' d', none) ∧ Clean s a' ∧ Keep a a' ∧
      pend s a' = pend s a ++ o.toList := by
  unfold seqSubmit at hs
  dsimp only at hs
  unfold submitFrame
  dsimp only
  rw [if_neg h1]
  obtain ⟨a1, e1, n1, r1, t1, p1, o1, k1⟩ := pop_async hc h1 hout d
  rw [e1]
  have hr : (put a1 d).refs = d.refs := rfl
  have ht : (put a1 d).tiles = d.tiles := rfl
  have hsb : (put a d).submitted = d.submitted := rfl
  dsimp only
  rw [hr, hsb, ht]
  by_cases c1 : refsUnusable q h d.refs = true
  · rw [if_pos c1] at hs; cases hs
  rw [if_neg c1] at hs ⊢
  by_cases c2 : env.oom d.submitted = .early
  · rw [if_pos c2] at hs; cases hs
  rw [if_neg c2] at hs ⊢
  by_cases c3 : env.oom d.submitted = .pic
  · rw [if_pos c3] at hs; cases hs
  rw [if_neg c3] at hs ⊢
  have hs2 : seqTail s (env.oom d.submitted)
    { afterAlloc s { d with frameHdr := none, submitted := d.submitted + 1 } h with tiles := [], decoded := d.decoded ++ [⟨q, h, d.tiles, d.refs⟩] } h
    (newPic { d with frameHdr := none, submitted := d.submitted + 1 } q h ((d.tiles.head?.map (·.props)).getD 0) (env.dec ⟨q, h, d.tiles, d.refs⟩)) = (d', .ok o) := hs
  exact tail_async hc h1 hout n1 r1 o1 k1 _ h _ props rfl rfl rfl hs2

theorem finish_async {s : Settings} {env : Env κ} {a d : Dec κ} (hc : Clean s a) (h1 : s.nFc ≠ 1) (hout : a.out = none) (hd : PicsOk d) (props : Props) {d' o}
    (hs : seqFinish s env d props = (d', .ok o)) :
    ∃ a', finishObu s env (put a d) props = some (put a' d', none) ∧ Clean s a' ∧ Keep a a' ∧
      (pend s a').map Pic.given = (pend s a ++ o.toList).map Pic.given := by
  unfold seqFinish at hs
  unfold finishObu
  rw [show (put a d).seq = d.seq from rfl, show (put a d).frameHdr = d.frameHdr from rfl]
  split at hs
  · rename_i q i x y hq hh
    rw [hq, hh]
    exact show_async hc h1 hout hd i props hs
  · rename_i q h hq hh
    rw [hq, hh]
    dsimp only
    rw [show (put a d).nTiles = d.nTiles from rfl]
    split at hs
    · rename_i hn
      rw [if_pos hn]
      unfold frameComplete
      rw [show (put a d).tiles = d.tiles from rfl]
      split at hs
      · rename_i hk
        rw [if_pos hk]
        cases hs
        exact ⟨a, rfl, hc, ⟨rfl, rfl, rfl⟩, by simp⟩
      rename_i hk
      rw [if_neg hk]
      split at hs
      · cases hs
      rename_i ht
      rw [if_neg ht]
      obtain ⟨a', e, r1, r2, r3⟩ := submit_async hc h1 hout q h props hs
      refine ⟨a', ?_, r1, r2, by rw [r3]⟩
      rw [← e]
      rcases submitFrame s env (put a d) q h props with _ | ⟨c, _ | er⟩ <;> rfl
    · rename_i hn
      cases hs
      rw [if_neg hn]
      exact ⟨a, rfl, hc, ⟨rfl, rfl, rfl⟩, by simp⟩
  · rename_i hx hy
    cases hs
    split
    · rename_i a1 a2 a3; exact absurd a3 (hx _ _ _ _ a2)
    · rename_i a1 a2 a3 a4; exact absurd a4 (hy _ _ a3)
    · exact ⟨a, rfl, hc, ⟨rfl, rfl, rfl⟩, by simp⟩

end Dav1d
