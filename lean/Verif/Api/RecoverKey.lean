import Verif.Api.FlushLemmas
import Verif.Obu.FrameRange
/-!
# The header of a key frame does not depend on the reference slots
-/
namespace Dav1d.Recover
open Dav1d HProg

/-- Both parsers do the same. -/
def Same {α : Type} (p q : HProg α) : Prop := ∀ s, p.exec s = q.exec s

theorem Same.rfl {α : Type} {p : HProg α} : Same p p := fun _ => Eq.refl _

theorem Same.bind {α β : Type} {p q : HProg α} {g k : α → HProg β} (h : Same p q) (h2 : ∀ a, Same (g a) (k a)) : Same (p >>= g) (q >>= k) := by
  intro s
  rw [exec_bind, exec_bind, h s]
  generalize q.exec s = r
  obtain ⟨o, s'⟩ := r
  cases o
  · rfl
  · exact h2 _ s'

theorem Same.pure_bind {α β : Type} {a : α} {g : α → HProg β} {q : HProg β} (h : Same (g a) q) : Same (pure a >>= g) q := by
  intro s
  rw [exec_bind, exec_pure]
  exact h s

theorem Same.trans {α : Type} {p q r : HProg α} (h : Same p q) (h2 : Same q r) : Same p r := fun s => (h s).trans (h2 s)
theorem Same.symm {α : Type} {p q : HProg α} (h : Same p q) : Same q p := fun s => (h s).symm

variable (c : FhCtx) (r : Nat → Option FrameHdr)

theorem bufferRemoval_same (l : List SeqOp) : readBufferRemoval { c with refs := r } l = readBufferRemoval c l := by
  induction l with
  | nil => rfl
  | cons a l ih => simp only [readBufferRemoval, ih]

theorem base_same : parseFhBase { c with refs := r } = parseFhBase c := by
  unfold parseFhBase readPresentationDelay
  simp only [bufferRemoval_same]

/-- The header after its first part. -/
def tailHdr (c : FhCtx) (base : FhBase) : HProg FrameHdr := do
  let refs ← (if isKeyOrIntra base.frameType then parseIntraRefs c base else parseInterRefs c base)
  let noRefreshCtx ← opt (¬ c.seq.reducedStillPictureHeader = true ∧ ¬ base.disableCdfUpdate = true) flag true
  let tiling ← parseTiling c.seq.tools.sb128 refs.size.width0 refs.size.height
  let quant ← parseQuant c
  let seg ← parseSegmentation c base refs.refidx
  let delta ← parseDelta quant.yac refs.allowIntrabc
  let lossless := deriveLossless quant seg
  let allLossless := lossless.all id
  let lf ← parseLoopFilter c base refs.refidx allLossless refs.allowIntrabc
  let cdef ← parseCdef c allLossless refs.allowIntrabc
  let lr ← parseRestoration c allLossless refs.size.superRes refs.allowIntrabc
  let tx ← opt (¬ allLossless = true) bit 0
  let scr ← opt (isInterOrSwitch base.frameType = true) flag false
  let (skipRefs, skipEn) ← parseSkipMode c base refs.refidx scr
  let warp ← opt (¬ base.errorResilient = true ∧ isInterOrSwitch base.frameType = true ∧
    c.seq.tools.warpedMotion = true) flag false
  let rtx ← flag
  let gmv ← opt (isInterOrSwitch base.frameType = true)
    (readGmvs c base refs.refidx refs.hp [0, 1, 2, 3, 4, 5, 6]) (List.replicate 7 defaultWm)
  let (fgp, fgu, fg) ← parseFilmGrain c base refs.refidx
  pure { base, refs, refreshContext := !noRefreshCtx, tiling, quant, seg, qidx := deriveQidx quant seg,
         lossless, allLossless, delta, lf, cdef, lr,
         txfmMode := if allLossless then 0 else 1 + tx,
         switchableCompRefs := scr, skipModeAllowed := skipRefs.isSome, skipModeEnabled := skipEn,
         skipModeRefs := skipRefs, warpMotion := warp, reducedTxtpSet := rtx, gmv,
         filmGrainPresent := fgp, filmGrainUpdate := fgu, filmGrain := fg,
         temporalId := c.temporalId, spatialId := c.spatialId }

theorem new_eq : parseNewFrameHdr c = parseFhBase c >>= tailHdr c := rfl

theorem size_same (o : Bool) (l : List Nat) : readFrameSize { c with refs := r } o false l = readFrameSize c o false l := by
  unfold readFrameSize
  have h1 : opt (false = true) (readFrameSizeRefs { c with refs := r } l) none = opt (false = true) (readFrameSizeRefs c l) none := by
    unfold opt; rw [if_neg (by decide), if_neg (by decide)]
  rw [h1]
  rfl

theorem intra_same (b : FhBase) : parseIntraRefs { c with refs := r } b = parseIntraRefs c b := by
  unfold parseIntraRefs
  simp only [size_same]
  rfl

theorem seg_same {b : FhBase} (hb : b.primaryRefFrame = PRIMARY_REF_NONE) (l : List Nat) : Same (parseSegmentation { c with refs := r } b l) (parseSegmentation c b l) := by
  unfold parseSegmentation
  refine .bind .rfl fun en => ?_
  split
  · refine .bind .rfl fun map => .bind .rfl fun t => ?_
    have : opt (¬ b.primaryRefFrame = PRIMARY_REF_NONE) flag true = pure true := by unfold opt; rw [if_neg (by simpa using hb)]
    rw [this]
    refine (Same.pure_bind ?_).trans (Same.pure_bind .rfl).symm
    simp only [if_true]
    exact .rfl
  · exact .rfl

theorem lf_same {b : FhBase} (hb : b.primaryRefFrame = PRIMARY_REF_NONE) (l : List Nat) (x y : Bool) :
    parseLoopFilter { c with refs := r } b l x y = parseLoopFilter c b l x y := by
  unfold parseLoopFilter
  have : ∀ c : FhCtx, opt (b.primaryRefFrame ≠ PRIMARY_REF_NONE) (do let h ← primaryRef c b l; pure h.lf.deltas) defaultLfDeltas = pure defaultLfDeltas := by
    intro c; unfold opt; rw [if_neg (by simpa using hb)]
  simp only [this]

theorem skip_same {b : FhBase} (hb : isInterOrSwitch b.frameType = false) (l : List Nat) (x : Bool) :
    parseSkipMode { c with refs := r } b l x = parseSkipMode c b l x := by
  unfold parseSkipMode
  simp [hb, rejectIf]

theorem grain_same {b : FhBase} (hb : b.frameType ≠ 1) (l : List Nat) : Same (parseFilmGrain { c with refs := r } b l) (parseFilmGrain c b l) := by
  unfold parseFilmGrain
  refine .bind .rfl fun p => ?_
  split
  · refine .bind .rfl fun sd => ?_
    have : opt (b.frameType = 1) flag true = pure true := by unfold opt; rw [if_neg hb]
    rw [this]
    refine (Same.pure_bind ?_).trans (Same.pure_bind .rfl).symm
    simp only [if_true]
    exact .rfl
  · exact .rfl

theorem tail_same {b : FhBase} (hb : isInterOrSwitch b.frameType = false) (hp : b.primaryRefFrame = PRIMARY_REF_NONE) :
    Same (tailHdr { c with refs := r } b) (tailHdr c b) := by
  have h1 : b.frameType ≠ 1 := by intro h; rw [h] at hb; exact absurd hb (by decide)
  unfold tailHdr
  rw [if_pos (by simp [isKeyOrIntra, hb]), if_pos (by simp [isKeyOrIntra, hb]), intra_same]
  refine .bind .rfl fun refs => .bind .rfl fun _ => .bind .rfl fun _ => .bind .rfl fun quant => .bind (seg_same _ _ hp _) fun seg => .bind .rfl fun _ => ?_
  dsimp only
  refine .bind (by rw [lf_same _ _ hp]; exact .rfl) fun _ => .bind .rfl fun _ => .bind .rfl fun _ => .bind .rfl fun _ => .bind .rfl fun _ =>
    .bind (by rw [skip_same _ _ hb]; exact .rfl) fun _ => .bind .rfl fun _ => .bind .rfl fun _ => .bind ?_ fun _ => .bind (grain_same _ _ h1 _) fun _ => .rfl
  unfold opt
  rw [if_neg (by simp [hb]), if_neg (by simp [hb])]
  exact .rfl

/-- Every accepted result satisfies `Q`. -/
def Gives {α : Type} (p : HProg α) (Q : α → Prop) : Prop := ∀ s a s', p.exec s = (some a, s') → Q a

theorem Gives.pure {α : Type} {a : α} {Q : α → Prop} (h : Q a) : Gives (Pure.pure a : HProg α) Q := by
  intro s x s' he
  rw [exec_pure] at he
  cases he
  exact h

theorem Gives.bind {α β : Type} {p : HProg α} {g : α → HProg β} {P : α → Prop} {Q : β → Prop} (h : Gives p P)
    (h2 : ∀ a, P a → Gives (g a) Q) : Gives (p >>= g) Q := by
  intro s b s' he
  rw [exec_bind] at he
  generalize hx : p.exec s = x at he
  obtain ⟨o, s1⟩ := x
  cases o with
  | none => exact absurd he (by simp)
  | some a => exact h2 a (h _ _ _ hx) _ _ _ he

theorem Gives.any {α : Type} {p : HProg α} : Gives p (fun _ => True) := fun _ _ _ _ => trivial

theorem base_gives : Gives (parseFhBase c) (fun b => isInterOrSwitch b.frameType = false → b.primaryRefFrame = PRIMARY_REF_NONE) := by
  unfold parseFhBase
  refine .bind .any fun t _ => .bind .any fun _ _ => .bind .any fun _ _ => .bind .any fun _ _ => .bind .any fun err _ => .bind .any fun _ _ =>
    .bind .any fun _ _ => .bind .any fun _ _ => .bind .any fun _ _ => .bind .any fun _ _ => .bind .any fun _ _ =>
    .bind (P := fun v => isInterOrSwitch t = false → v = PRIMARY_REF_NONE) ?_ fun _ hp => .bind .any fun _ _ => .bind .any fun _ _ => .pure hp
  unfold opt
  split
  · rename_i h
    intro _ _ _ _ h'
    rw [h.2] at h'
    cases h'
  · exact .pure fun _ => Eq.refl _

theorem tail_gives (b : FhBase) : Gives (tailHdr c b) (fun h => h.base = b) := by
  unfold tailHdr
  refine .bind .any fun _ _ => .bind .any fun _ _ => .bind .any fun _ _ => .bind .any fun _ _ => .bind .any fun _ _ => .bind .any fun _ _ => ?_
  dsimp only
  refine .bind .any fun _ _ => .bind .any fun _ _ => .bind .any fun _ _ => .bind .any fun _ _ => .bind .any fun _ _ => .bind .any fun _ _ =>
    .bind .any fun _ _ => .bind .any fun _ _ => .bind .any fun _ _ => .bind .any fun _ _ => .pure (Eq.refl _)

theorem showExisting_gives : Gives (parseShowExisting c) (fun r => ∀ h, r ≠ .frame h) := by
  unfold parseShowExisting
  refine .bind .any fun _ _ => .bind .any fun _ _ => ?_
  split
  · refine .bind .any fun _ _ => ?_
    split
    · intro s a s' he
      exact absurd he (by simp [HProg.fail, HProg.exec])
    · exact .bind .any fun _ _ => .pure (by simp)
  · exact .pure (by simp)

/-- A parser that accepts a key frame (or another intra frame) does so whatever the slots hold. -/
theorem key_same {b b' : BitSt} {h : FrameHdr} (he : (parseFrameHdr c).exec b = (some (.frame h), b')) (hh : isInterOrSwitch h.base.frameType = false) :
    (parseFrameHdr { c with refs := r }).exec b = (some (.frame h), b') := by
  unfold parseFrameHdr at he ⊢
  rw [exec_bind] at he ⊢
  dsimp only
  generalize (opt (¬c.seq.reducedStillPictureHeader = true) flag false).exec b = x at he ⊢
  obtain ⟨o, b1⟩ := x
  cases o with
  | none => exact he
  | some se =>
    dsimp only at he ⊢
    cases se with
    | true =>
      simp only [if_true] at he
      exact absurd rfl (showExisting_gives c _ _ _ he h)
    | false =>
      simp only [Bool.false_eq_true, if_false] at he ⊢
      rw [exec_bind, new_eq, exec_bind] at he ⊢
      rw [base_same]
      generalize hx : (parseFhBase c).exec b1 = x at he ⊢
      obtain ⟨o, b2⟩ := x
      cases o with
      | none => exact absurd he (by simp)
      | some base =>
        dsimp only at he ⊢
        have hbase := base_gives c _ _ _ hx
        have ht : (∃ k, isInterOrSwitch base.frameType = k) := ⟨_, Eq.refl _⟩
        generalize hy : (tailHdr c base).exec b2 = y at he
        obtain ⟨o, b3⟩ := y
        cases o with
        | none => exact absurd he (by simp)
        | some h' =>
          dsimp only at he
          rw [exec_pure] at he
          have hb := tail_gives c base _ _ _ hy
          cases he
          rw [hb] at hh
          rw [tail_same c r hh (hbase hh), hy]
          rfl

end Dav1d.Recover
