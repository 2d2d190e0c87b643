import Verif.Api.RecoverKey
import Verif.Obu.FrameProps
/-!
# What is left after an error, for one frame context
-/
namespace Dav1d.Recover
open Dav1d HProg
variable {κ : Type}

/-- The frame to be shown can not be: the slot is empty, or only a header is kept, or the picture may not be shown. -/
def Fails (s : Settings) (c : Dec κ) (i : Nat) : Prop :=
  match (c.refs i).p with
  | .empty => True
  | .hdrOnly h => skipShown s h.base.frameType = false
  | .pic p => skipShown s p.hdr.base.frameType = false ∧ s.strict = true ∧ p.showable = false

/-- What holds between two OBUs, whatever the frame header held. -/
structure Core (s : Settings) (c : Dec κ) : Prop where
  cachedError : c.cachedError = none
  cache : s.allLayers = true → c.cache = none
  seq : c.seq = none → c.frameHdr = none ∧ ∀ i, c.refs i = {}

/-- The frame header held belongs to an incomplete frame, or the frame to be shown can not be. -/
def Open (s : Settings) (c : Dec κ) : Prop :=
  match c.frameHdr with
  | none => True
  | some (.frame h) => c.nTiles ≠ h.tiling.cols * h.tiling.rows
  | some (.showExisting i _ _) => Fails s c i

structure Half (s : Settings) (c : Dec κ) : Prop extends Core s c where
  part : Open s c

theorem Core.congr {s : Settings} {c d : Dec κ} (h : Core s c) (h1 : d.cachedError = c.cachedError) (h2 : d.cache = c.cache) (h3 : d.seq = c.seq)
    (h4 : c.frameHdr = none → d.frameHdr = none) (h5 : d.refs = c.refs) : Core s d :=
  ⟨h1.trans h.cachedError, fun ha => h2.trans (h.cache ha), fun hs => ⟨h4 (h.seq (h3.symm.trans hs)).1, by rw [h5]; exact (h.seq (h3.symm.trans hs)).2⟩⟩

theorem Core.some {s : Settings} {c d : Dec κ} (h : Core s c) (h1 : d.cachedError = c.cachedError) (h2 : d.cache = c.cache) (h3 : d.seq ≠ none) : Core s d :=
  ⟨h1.trans h.cachedError, fun ha => h2.trans (h.cache ha), fun hs => absurd hs h3⟩

theorem Open.congr {s : Settings} {c d : Dec κ} (h : Open s c) (h1 : d.frameHdr = c.frameHdr) (h2 : d.nTiles = c.nTiles) (h3 : d.refs = c.refs) : Open s d := by
  unfold Open Fails at *
  rw [h1, h2, h3]
  exact h

theorem Half.congr {s : Settings} {c d : Dec κ} (h : Half s c) (h1 : d.cachedError = c.cachedError) (h2 : d.cache = c.cache) (h3 : d.seq = c.seq)
    (h4 : d.frameHdr = c.frameHdr) (h5 : d.refs = c.refs) (h6 : d.nTiles = c.nTiles) : Half s d :=
  ⟨h.toCore.congr h1 h2 h3 (fun h => h4.trans h) h5, h.part.congr h4 h6 h5⟩

theorem Open.none {s : Settings} {c : Dec κ} (h : c.frameHdr = none) : Open s c := by unfold Open; rw [h]; trivial

theorem tiles_pos {h : FrameHdr} (ha : Accepted h) : 0 < h.tiling.cols * h.tiling.rows := by
  cases ha with
  | mk hc he =>
    have := (C08_layout _ hc _ _ _ he).update
    omega

theorem setOut_core {s : Settings} {c d : Dec κ} {p : Pic κ} (h : Core s c) (e : setOut c p = some d) : Core s d ∧ d.seq = c.seq ∧ d.frameHdr = c.frameHdr := by
  unfold setOut at e
  split at e
  · cases e
  · cases e; exact ⟨h.congr rfl rfl rfl id rfl, rfl, rfl⟩

theorem submitError_core {s : Settings} {c : Dec κ} (h1 : s.nFc = 1) (h : Core s c) (i : Nat) (props : Props) (e : Err) :
    Core s (submitError s c i props e).1 ∧ (submitError s c i props e).1.frameHdr = c.frameHdr := by
  unfold submitError
  rw [if_pos h1]
  exact ⟨h.congr rfl rfl rfl id rfl, rfl⟩

theorem submitFrame_core {s : Settings} {env : Env κ} {c : Dec κ} (h1 : s.nFc = 1) (h : Core s c) (hs : c.seq ≠ none) {q hd props x}
    (e : submitFrame s env c q hd props = some x) : Core s x.1 ∧ x.1.frameHdr = none := by
  unfold submitFrame at e
  dsimp only at e
  rw [if_pos h1] at e
  dsimp only at e
  split at e
  · cases e; exact submitError_core h1 (by exact h.some rfl rfl hs) ..
  split at e
  · cases e; exact submitError_core h1 (by exact h.some rfl rfl hs) ..
  split at e
  · cases e; exact submitError_core h1 (by exact h.some rfl rfl hs) ..
  split at e
  · cases e; exact submitError_core h1 (by exact h.some rfl rfl hs) ..
  unfold submitSync at e
  split at e
  · cases e
  rename_i f hf
  have hf0 : Core s f ∧ f.seq = c.seq ∧ f.frameHdr = none := by
    split at hf
    · exact setOut_core (by exact h.some rfl rfl hs) hf
    · cases hf; exact ⟨h.some rfl rfl hs, rfl, rfl⟩
  obtain ⟨f1, f2, f3⟩ := hf0
  split at e
  · cases e; rw [← f3]; exact submitError_core h1 f1 ..
  split at e
  · cases e
    rw [← f3]
    exact submitError_core h1 (c := { f with refs := _ }) (by exact f1.some rfl rfl (by rw [f2]; exact hs)) ..
  · cases e; exact ⟨f1.some rfl rfl (by rw [f2]; exact hs), f3⟩

theorem finishObu_half {s : Settings} {env : Env κ} {c : Dec κ} (h1 : s.nFc = 1) (h : Core s c) (hi : Inv s env c) {props x}
    (e : finishObu s env c props = some x) : Half s x.1 := by
  unfold finishObu at e
  split at e
  · rename_i q idx _ _ hq hh
    have hs : c.seq ≠ none := by rw [hq]; simp
    have hfail : (Fails s c idx) → Half s { c with errProps := some props } := fun hf =>
      ⟨h.congr rfl rfl rfl id rfl, by unfold Open; dsimp only; rw [hh]; exact hf⟩
    unfold showExisting at e
    split at e
    · rename_i hn
      cases e
      refine hfail ?_
      unfold Fails
      cases hx : (c.refs idx).p <;> rw [hx] at hn <;> first | trivial | cases hn
    rename_i hd hn
    split at e
    · cases e; exact ⟨h.some rfl rfl hs, .none rfl⟩
    rename_i hsk
    split at e
    · rename_i p hp
      rw [hp] at hn; cases hn
      split at e
      · rename_i hst
        cases e
        refine hfail ?_
        unfold Fails
        rw [hp]
        exact ⟨by simpa using hsk, hst.1, by simpa using hst.2⟩
      · split at e
        · cases e
        · rename_i d hd
          unfold showPic at hd
          dsimp only at hd
          rw [if_pos h1] at hd
          obtain ⟨d1, d2, d3⟩ := setOut_core (by exact h.some rfl rfl hs) hd
          split at e
          · cases e; exact ⟨d1.some rfl rfl (by rw [d2]; exact hs), .none rfl⟩
          · cases e; exact ⟨d1.some rfl rfl (by rw [d2]; exact hs), .none rfl⟩
    · rename_i hnp
      cases e
      refine hfail ?_
      unfold Fails
      cases hx : (c.refs idx).p with
      | empty => trivial
      | hdrOnly h' => rw [hx] at hn; cases hn; simpa using hsk
      | pic p => exact absurd hx (hnp p)
  · rename_i q hd hq hh
    have hs : c.seq ≠ none := by rw [hq]; simp
    split at e
    · rename_i hnt
      unfold frameComplete at e
      split at e
      · cases e; exact ⟨h.some rfl rfl hs, .none rfl⟩
      split at e
      · rename_i htl
        exfalso
        have hc := (hi.cover hd hh).1
        rw [htl, hnt] at hc
        have := tiles_pos (hi.hdr hd hh)
        have : 0 = hd.tiling.cols * hd.tiling.rows := hc
        omega
      split at e
      · cases e
      · rename_i hsub
        cases e
        obtain ⟨a, b⟩ := submitFrame_core h1 h hs hsub
        exact ⟨a, .none b⟩
      · rename_i hsub
        obtain ⟨a, b⟩ := submitFrame_core h1 h hs hsub
        split at e
        · cases e; exact ⟨a.congr rfl rfl rfl (fun _ => rfl) rfl, .none rfl⟩
        · cases e
    · rename_i hnt
      cases e
      exact ⟨h, by unfold Open; rw [hh]; exact hnt⟩
  · rename_i hx1 hx2
    cases e
    refine ⟨h, ?_⟩
    cases hq : c.seq with
    | none => exact .none (h.seq hq).1
    | some q =>
      cases hh : c.frameHdr with
      | none => exact .none hh
      | some r =>
        cases r with
        | frame hd => exact absurd hh (hx2 _ _ hq)
        | showExisting i a b => exact absurd hh (hx1 _ _ _ _ hq)

theorem activate_core {s : Settings} {c : Dec κ} (h : Core s c) (q : SeqHdr) : Core s (activateSeq s c q) := by
  unfold activateSeq
  dsimp only
  split
  · exact h.some rfl rfl (by simp)
  · split
    · exact h.some rfl rfl (by simp)
    · split <;> exact h.some rfl rfl (by simp)

/-- The switch; if it reports an error nothing follows. -/
theorem caseStep_half {s : Settings} {env : Env κ} {c : Dec κ} (h : Half s c) (hi : Inv s env c) {props x} (hx : CaseStep s c props x) :
    Core s x.1 ∧ (x.2 ≠ none → Half s x.1) := by
  cases hx with
  | same e => exact ⟨h.toCore, fun _ => h⟩
  | seq q => exact ⟨activate_core h.toCore q, fun h => absurd rfl h⟩
  | noHdr =>
    have : Core s ({ c with frameHdr := none } : Dec κ) := h.toCore.congr rfl rfl rfl (fun _ => rfl) rfl
    exact ⟨this, fun _ => ⟨this, .none rfl⟩⟩
  | dropHdr e =>
    have : Core s ({ c with frameHdr := none, tiles := [], nTiles := 0 } : Dec κ) := h.toCore.congr rfl rfl rfl (fun _ => rfl) rfl
    exact ⟨this, fun _ => ⟨this, .none rfl⟩⟩
  | hdr q r hq hf hl => exact ⟨h.toCore.some rfl rfl (by simp [hq]), fun h => absurd rfl h⟩
  | frame q hd x hq hf hl hx =>
    have hc : Core s ({ c with frameHdr := some (.frame hd), tiles := [], nTiles := 0 } : Dec κ) := h.toCore.some rfl rfl (by simp [hq])
    have hp := tiles_pos ((hi.newHdr hq hf hl).hdr hd rfl)
    have ho : Open s ({ c with frameHdr := some (.frame hd), tiles := [], nTiles := 0 } : Dec κ) := by
      show 0 ≠ _
      omega
    cases hx with
    | bad => exact ⟨hc, fun _ => ⟨hc, ho⟩⟩
    | clear => exact ⟨hc, fun _ => ⟨hc, ho⟩⟩
    | add last data _ _ => exact ⟨hc.congr rfl rfl rfl id rfl, fun h => absurd rfl h⟩
  | group hd x hh hx =>
    cases hx with
    | bad => exact ⟨h.toCore, fun _ => h⟩
    | clear =>
      have hc : Core s ({ c with tiles := [], nTiles := 0 } : Dec κ) := h.toCore.congr rfl rfl rfl id rfl
      refine ⟨hc, fun _ => ⟨hc, ?_⟩⟩
      have := tiles_pos (hi.hdr hd hh)
      unfold Open
      dsimp only
      rw [hh]
      show 0 ≠ _
      omega
    | add last data _ _ => exact ⟨h.toCore.congr rfl rfl rfl id rfl, fun h => absurd rfl h⟩
  | noGroup =>
    have hc : Core s ({ c with tiles := [], nTiles := 0 } : Dec κ) := h.toCore.congr rfl rfl rfl id rfl
    refine ⟨hc, fun _ => ⟨hc, ?_⟩⟩
    have hp := h.part
    unfold Open at hp ⊢
    dsimp only
    generalize hh : c.frameHdr = r at hp
    match r with
    | none => trivial
    | some (.frame hd) =>
      have := tiles_pos (hi.hdr hd hh)
      show 0 ≠ _
      omega
    | some (.showExisting i _ _) => exact hp
  | info i => exact ⟨h.toCore.congr rfl rfl rfl id rfl, fun h => absurd rfl h⟩
  | td => exact ⟨h.toCore.congr rfl rfl rfl id rfl, fun h => absurd rfl h⟩

theorem parseObus_half {s : Settings} {env : Env κ} {c : Dec κ} (h1 : s.nFc = 1) (h : Half s c) (hi : Inv s env c) {pkt : Packet} (hp : pkt.data ≠ []) {x}
    (e : parseObus s env c pkt = some x) : Half s x.1 := by
  rw [parseObus_eq s env hi.ok pkt hp] at e
  have hce : ∀ {c : Dec κ} er, Half s c → Half s (caseError c pkt.props er).1 := by
    intro c er h
    unfold caseError
    dsimp only
    split
    · exact h
    · exact h.congr rfl rfl rfl rfl rfl rfl
  unfold stepObu at e
  split at e
  · cases e; exact hce _ h
  rename_i o rest _
  split at e
  · cases e; exact hce _ h
  split at e
  · cases e; exact h
  obtain ⟨y, e1, hy⟩ := obuCase_step (s := s) hi.ok o.type (obuHdrOf pkt.data).temporalId (obuHdrOf pkt.data).spatialId pkt.props o.payload
  rw [e1] at e
  have hi2 := (hi.caseStep hy).1
  obtain ⟨hy1, hy2⟩ := caseStep_half h hi hy
  obtain ⟨d, er⟩ := y
  cases er with
  | some er => cases e; exact hce _ (hy2 (by simp))
  | none =>
    dsimp only at e hy1 hi2
    split at e
    · cases e
    · rename_i hf; cases e; exact finishObu_half h1 hy1 hi2 hf
    · rename_i hf; cases e; exact finishObu_half h1 hy1 hi2 hf

theorem outputReady_half {s : Settings} {c : Dec κ} (h : Half s c) (d : Bool) : Half s (outputReady s c d).2 := by
  have hm : layered s c = true → ∀ o, Half s ({ c with cache := o, out := none } : Dec κ) := fun hl o =>
    ⟨⟨h.cachedError, fun ha => (by simp [layered, ha] at hl), h.seq⟩, h.part.congr rfl rfl rfl⟩
  unfold outputReady
  split
  · exact h
  split
  · rename_i hl
    split
    · split
      · exact h
      · exact hm hl _
    · exact h
    · exact hm hl _
    · exact h
  · exact h

theorem outputImage_half {s : Settings} {env : Env κ} {c : Dec κ} (h : Half s c) {x} (e : outputImage s env c = some x) : Half s x.1 := by
  unfold outputImage at e
  split at e
  · rename_i hl
    split at e
    · cases e
    · cases e
      exact ⟨⟨h.cachedError, fun ha => (by simp [layered, ha] at hl), h.seq⟩, h.part.congr rfl rfl rfl⟩
  · split at e
    · cases e
    · cases e; exact h.congr rfl rfl rfl rfl rfl rfl

theorem genLoop_half {s : Settings} {env : Env κ} (h1 : s.nFc = 1) (n : Nat) : ∀ {c : Dec κ}, Half s c → Inv s env c → c.out = none → ∀ {pkt : Packet}, pkt.data.length = n → pkt.data ≠ [] →
    ∀ {x}, genLoop s env c pkt = some x → Half s x.1 ∧ (x.2 ≠ none → x.1.out = none ∧ x.1.input = none) := by
  have hin : ∀ (c : Dec κ) (d : Bool), (outputReady s c d).2.input = c.input := by
    intro c d; unfold outputReady; (repeat' split) <;> rfl
  induction n using Nat.strong_induction_on with
  | _ n ih =>
    intro c h hi hout pkt hk hp x e
    obtain ⟨⟨d, r⟩, e1, hi2, hn⟩ := hi.parseObus hout hp
    have ht := parseObus_half h1 h hi hp e1
    dsimp only at ht hi2
    rw [genLoop, e1] at e
    cases r with
    | error er =>
      dsimp only at e
      have h4 := outputReady_half (c := { d with input := none }) (by exact ht.congr rfl rfl rfl rfl rfl rfl) false
      have hi3 : Inv s env { d with input := none } := Inv.setInput hi2 _ (fun _ h => by cases h)
      have hi4 := hi3.outputReady false
      have h5 := hin { d with input := none } false
      generalize outputReady s { d with input := none } false = y at e h4 hi4 h5
      obtain ⟨b, f⟩ := y
      cases b with
      | true => cases e; exact ⟨h4, fun h => absurd rfl h⟩
      | false =>
        cases e
        rcases hi4 with ⟨_, _, a3, _⟩ | ⟨a1, _⟩
        · exact ⟨h4, fun _ => ⟨a3, h5⟩⟩
        · cases a1
    | ok m =>
      dsimp only at e
      have hm := hn m rfl
      rw [dif_pos hm] at e
      have h4 := outputReady_half (c := { d with input := pkt.advance m }) (by exact ht.congr rfl rfl rfl rfl rfl rfl) false
      have hi3 : Inv s env { d with input := pkt.advance m } := Inv.setInput hi2 _ advance_ne
      have hi4 := hi3.outputReady false
      generalize outputReady s { d with input := pkt.advance m } false = y at e h4 hi4
      obtain ⟨b, f⟩ := y
      cases b with
      | true => cases e; exact ⟨h4, fun h => absurd rfl h⟩
      | false =>
        rcases hi4 with ⟨_, a2, a3, _⟩ | ⟨a1, _⟩
        · dsimp only at e a2 a3
          split at e
          · cases e; exact ⟨h4, fun h => absurd rfl h⟩
          · rename_i hlt
            refine ih (pkt.data.drop m).length (by simp; omega) h4 a2 a3 rfl ?_ e
            intro h0
            have := congrArg List.length h0
            simp at this; omega
        · cases a1

theorem genPicture_half {s : Settings} {env : Env κ} {c : Dec κ} (h1 : s.nFc = 1) (h : Half s c) (hi : Inv s env c) {x} (e : genPicture s env c = some x) :
    Half s x.1 ∧ (x.2 ≠ none → x.1.out = none ∧ x.1.input = none) := by
  unfold genPicture at e
  have h4 := outputReady_half h false
  have hi4 := hi.outputReady false
  generalize outputReady s c false = y at e h4 hi4
  obtain ⟨b, f⟩ := y
  cases b with
  | true => cases e; exact ⟨h4, fun h => absurd rfl h⟩
  | false =>
    rcases hi4 with ⟨_, a2, a3, _⟩ | ⟨a1, _⟩
    · dsimp only at e a2 a3
      split at e
      · cases e; exact ⟨h4, fun h => absurd rfl h⟩
      · rename_i p hp
        exact genLoop_half h1 _ h4 a2 a3 rfl (a2.input p hp) e
    · cases a1

theorem send_half {s : Settings} {env : Env κ} {c : Dec κ} (h1 : s.nFc = 1) (h : Half s c) (hi : Inv s env c) {pkt : Option Packet} {y} (e : sendData s env c pkt = some y) :
    Half s y.ctx ∧ (y.res ≠ none → y.res ≠ some .EAGAIN → (∀ p, pkt = some p → p.data ≠ [] ∧ p.data.length < 2 ^ 63) → y.ctx.out = none ∧ y.ctx.input = none) := by
  unfold sendData at e
  split at e
  · rename_i hv
    cases e
    refine ⟨h, fun _ _ hp => ?_⟩
    exfalso
    cases pkt with
    | none => cases hv
    | some p =>
      obtain ⟨a, b⟩ := hp p rfl
      simp only [Option.any_some, Bool.or_eq_true, List.isEmpty_iff, decide_eq_true_eq] at hv
      rcases hv with hv | hv
      · exact a hv
      · omega
  rename_i hv
  have hi' : Inv s env (if pkt.isSome = true then { c with drain := false } else c) := by
    split
    · exact ⟨hi.seq, hi.op, hi.refs, hi.hdr, hi.limit, hi.hdrFor, hi.cover, hi.decoded, hi.out, hi.cache, hi.sync, hi.pics, hi.skipped, hi.slots, hi.input⟩
    · exact hi
  have h' : Half s (if pkt.isSome = true then { c with drain := false } else c) := by
    split
    · exact h.congr rfl rfl rfl rfl rfl rfl
    · exact h
  generalize (if pkt.isSome = true then { c with drain := false } else c : Dec κ) = d at hi' h' e
  dsimp only at e
  split at e
  · cases e; exact ⟨h', fun _ h => absurd rfl h⟩
  · have hi3 : Inv s env { d with input := pkt } := hi'.setInput pkt (fun x hx h0 => hv (by rw [hx]; simp [h0]))
    split at e
    · cases e
    · rename_i hg; cases e
      obtain ⟨a, b⟩ := genPicture_half (c := { d with input := pkt }) h1 (by exact h'.congr rfl rfl rfl rfl rfl rfl) hi3 hg
      exact ⟨a, fun h => absurd rfl h⟩
    · rename_i hg; cases e
      obtain ⟨a, b⟩ := genPicture_half (c := { d with input := pkt }) h1 (by exact h'.congr rfl rfl rfl rfl rfl rfl) hi3 hg
      exact ⟨a, fun _ _ _ => b (by simp)⟩

theorem get_half {s : Settings} {env : Env κ} {c : Dec κ} (h1 : s.nFc = 1) (h : Half s c) (hi : Inv s env c) {y} (e : getPicture s env c = some y) :
    Half s y.1 ∧ (s.allLayers = true → ∀ er, y.2 = .error er → y.1.out = none) := by
  unfold getPicture at e
  dsimp only at e
  have hi2 : Inv s env { c with drain := true } :=
    ⟨hi.seq, hi.op, hi.refs, hi.hdr, hi.limit, hi.hdrFor, hi.cover, hi.decoded, hi.out, hi.cache, hi.sync, hi.pics, hi.skipped, hi.slots, hi.input⟩
  have hg := fun x => genPicture_half (c := { c with drain := true }) h1 (by exact h.congr rfl rfl rfl rfl rfl rfl) hi2 (x := x)
  have hgi := hi2.genPicture
  split at e
  · cases e
  · rename_i hx
    cases e
    obtain ⟨a, b⟩ := hg _ hx
    exact ⟨a, fun _ _ _ => (b (by simp)).1⟩
  · rename_i d hx
    obtain ⟨a, _⟩ := hg _ hx
    obtain ⟨z, ez, hz⟩ := hgi
    rw [hx] at ez; cases ez
    dsimp only at a hz
    split at e
    · rename_i hce; rw [a.cachedError] at hce; cases hce
    · have h2 := outputReady_half a (s.nFc == 1)
      have hr := hz.outputReady (s.nFc == 1)
      generalize outputReady s d (s.nFc == 1) = z at e h2 hr
      obtain ⟨b, g⟩ := z
      cases b with
      | true =>
        refine ⟨outputImage_half h2 e, fun ha er _ => ?_⟩
        dsimp only at e
        unfold outputImage at e
        rw [if_neg (by simp [layered, ha])] at e
        split at e
        · cases e
        · cases e; rfl
      | false =>
        dsimp only at e
        rw [if_neg (by omega)] at e
        cases e
        refine ⟨h2, fun _ _ _ => ?_⟩
        rcases hr with ⟨_, _, a3, _⟩ | ⟨a1, _⟩
        · exact a3
        · cases a1

theorem call_half {s : Settings} {env : Env κ} {c : Dec κ} (h1 : s.nFc = 1) (ht : Tidy s c) (h : Half s c) (hi : Inv s env c) {a : Call} {x} (e : call s env c a = some x) : Half s x.1 := by
  cases a with
  | flush =>
    cases e
    refine ⟨⟨rfl, fun _ => rfl, fun _ => ⟨rfl, fun i => ?_⟩⟩, .none rfl⟩
    simp only [flush]
    split
    · rfl
    · exact ht.refs i (by omega)
  | events => cases e; exact h.congr rfl rfl rfl rfl rfl rfl
  | errorProps => cases e; exact h.congr rfl rfl rfl rfl rfl rfl
  | send pkt =>
    simp only [call] at e
    rw [Option.map_eq_some_iff] at e
    obtain ⟨y, e, rfl⟩ := e
    exact (send_half h1 h hi e).1
  | get =>
    simp only [call] at e
    rw [Option.map_eq_some_iff] at e
    obtain ⟨y, e, rfl⟩ := e
    exact (get_half h1 h hi e).1

theorem session_half {s : Settings} {env : Env κ} (h1 : s.nFc = 1) (l : List Call) : ∀ {c : Dec κ}, Tidy s c → Half s c → Inv s env c → ∀ {x}, session s env c l = some x → Half s x.1 := by
  induction l with
  | nil => intro c _ h hi x e; cases e; exact h
  | cons a l ih =>
    intro c ht h hi x e
    obtain ⟨y, e1, hi2⟩ := hi.call a
    have h2 := call_half h1 ht h hi e1
    have ht2 := call_tidy ht hi e1
    obtain ⟨d, r⟩ := y
    simp only [session, e1] at e
    rw [Option.map_eq_some_iff] at e
    obtain ⟨z, e, rfl⟩ := e
    exact ih (x := z) ht2 h2 hi2 e

theorem half_of_reachable {s : Settings} {env : Env κ} {c : Dec κ} (h1 : s.nFc = 1) (h : Reachable s env c) : Half s c := by
  obtain ⟨l, r, e⟩ := h
  exact session_half h1 l (c := Dec.init) ⟨fun _ _ => rfl, fun _ _ => rfl, by rw [h1]; exact Nat.zero_lt_one⟩ ⟨⟨rfl, fun _ => rfl, fun _ => ⟨rfl, fun _ => rfl⟩⟩, .none rfl⟩ (Inv.init s env) e

end Dav1d.Recover
