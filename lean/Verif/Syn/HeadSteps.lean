import Verif.Syn.HeadLemmas
/-!
# The beginning of a block: its parts
-/
set_option linter.unusedSectionVars false
namespace Dav1d.Syn
open CdfTab (Field ModeF)
open Dav1d.Part (Call bsW bsH sbStep)
open Dav1d.Part.Ctx (Edge Seg Blk getSkipCtx getSkipModeCtx getSegPredCtx getIntraCtx getCurFrameSegid)

/-- The segment ids, and the features that are used. -/
def SegRel (H : Hdr) (always : Bool) (p : Nat × Bool × Option Seg) (q : Int × Bool) : Prop :=
  (p.1 : Int) = q.1 ∧ p.1 < 8 ∧ p.2.1 = q.2 ∧
  p.2.2 = if H.segEnabled && (!H.updateMap || H.preskip || always) then some (H.seg p.1) else none

section
variable {bw bh : Nat} {H : Hdr} {F : Av1.Frm} (hF : Agrees bw bh H F) {c : Call} {E : Around} {P : Av1.Pos} (hE : Sees H F c E P)
include hF hE

theorem segPre_same : Same (segOk F P) (SegRel H false) (readSegPre H E c) (Av1.inter_segment_id F P false true) := by
  obtain ⟨p1, p2⟩ := predSegid_eq hF hE
  have rid := readId_same hF hE
  unfold readSegPre Av1.inter_segment_id
  rw [hF.enabled, hF.update, hF.preskip, hF.temporal, p1]
  refine Same.ite Iff.rfl (fun he => ?_) (fun he => ?_)
  · cases hu : F.segmentation_update_map with
    | false =>
      rw [if_pos (by decide)]
      exact ⟨rfl, p2, rfl, by rw [hF.enabled, he, hF.update, hu]; rfl⟩
    | true =>
      rw [if_neg (by decide)]
      cases hp : F.SegIdPreSkip with
      | false => exact ⟨rfl, by decide, rfl, by rw [hF.enabled, he, hF.update, hu, hF.preskip, hp]; rfl⟩
      | true =>
        have fin : ∀ (a : Nat) (b : Int) (sp : Bool), (a : Int) = b ∧ a < 8 → SegRel H false (a, sp, some (H.seg a)) (b, sp) := by
          rintro a b sp ⟨h1, h2⟩
          exact ⟨h1, h2, rfl, by rw [hF.enabled, he, hF.update, hu, hF.preskip, hp]; rfl⟩
        cases ht : F.segmentation_temporal_update with
        | false =>
          show Same _ _ (readSegDiff H E c >>= fun id => pure (id, false, some (H.seg id))) (Av1.read_segment_id F P false >>= fun id => pure (id, false))
          exact Same.bind (rid false rfl) fun a b h => fin a b false h
        | true =>
          refine Same.bind (flag_S (e := .seg_id_predicted _) (by rw [hE.segPred]; rfl)) ?_
          rintro sp v rfl
          by_cases hv : v ≠ 0
          · rw [if_pos hv, decide_eq_true hv]
            exact fin _ _ true ⟨rfl, p2⟩
          · rw [if_neg hv, decide_eq_false hv]
            exact Same.bind (rid false rfl) fun a b h => fin a b false h
  · exact ⟨rfl, by decide, rfl, by rw [hF.enabled]; simp [he]⟩

theorem segPost_same (hp : F.SegIdPreSkip = false) (skip : Bool) (found : Nat × Bool × Option Seg) (was : Int × Bool)
    (hf : SegRel H false found was) (hw : F.segmentation_update_map = false ∨ F.segmentation_enabled = false → Av1.inter_segment_id F P skip false = pure was) :
    Same (segOk F P) (SegRel H true) (readSegPost H E c skip found) (Av1.inter_segment_id F P skip false) := by
  obtain ⟨p1, p2⟩ := predSegid_eq hF hE
  have rid := readId_same hF hE
  unfold readSegPost
  by_cases hu : F.segmentation_update_map = false ∨ F.segmentation_enabled = false
  · rw [hw hu, hF.enabled, hF.update, if_neg (by rcases hu with h | h <;> simp [h])]
    obtain ⟨f1, f2, f3, f4⟩ := hf
    refine ⟨f1, f2, f3, ?_⟩
    rw [f4, hF.enabled, hF.update, hF.preskip]
    rcases hu with h | h <;> simp [h]
  · have he : F.segmentation_enabled = true := by cases h : F.segmentation_enabled <;> simp [h] at hu ⊢
    have hu : F.segmentation_update_map = true := by cases h : F.segmentation_update_map <;> simp [h] at hu ⊢
    unfold Av1.inter_segment_id
    rw [hF.enabled, hF.update, hF.preskip, hF.temporal, he, hu, hp, if_pos (by decide), if_pos rfl, if_pos rfl, p1]
    rw [if_neg (show ¬ ((false && !false) = true) by decide)]
    have fin : ∀ (a : Nat) (b : Int) (sp : Bool), (a : Int) = b ∧ a < 8 → SegRel H true (a, sp, some (H.seg a)) (b, sp) := by
      rintro a b sp ⟨h1, h2⟩
      exact ⟨h1, h2, rfl, by rw [hF.enabled, he]; simp⟩
    cases skip with
    | true =>
      obtain ⟨g1, g2⟩ := hE.seg
      have g3 := hE.segLt
      generalize getCurFrameSegid E.curSeg c.x c.y E.haveTop E.haveLeft = q at *
      refine fin _ _ false ⟨?_, ?_⟩
      · rw [if_neg (by omega)]; exact g1
      · rw [if_neg (by omega)]; exact g3
    | false =>
      cases ht : F.segmentation_temporal_update with
      | false =>
        show Same _ _ (readSegDiff H E c >>= fun id => pure (id, false, some (H.seg id))) (Av1.read_segment_id F P false >>= fun id => pure (id, false))
        exact Same.bind (rid false rfl) fun a b h => fin a b false h
      | true =>
        refine Same.bind (flag_S (e := .seg_id_predicted _) (by rw [hE.segPred]; rfl)) ?_
        rintro sp v rfl
        by_cases hv : v ≠ 0
        · rw [if_pos hv, decide_eq_true hv]
          exact fin _ _ true ⟨rfl, p2⟩
        · rw [if_neg hv, decide_eq_false hv]
          exact Same.bind (rid false rfl) fun a b h => fin a b false h

theorem active {always : Bool} {p : Nat × Bool × Option Seg} {q : Int × Bool} (h : SegRel H always p q) :
    noFeature p.2.2 = !(Av1.skipActive F q.1 || Av1.refActive F q.1 || Av1.gmvActive F q.1) ∧
    segSkip p.2.2 = (F.SegIdPreSkip && Av1.skipActive F q.1) := by
  obtain ⟨h1, h2, h3, h4⟩ := h
  have hr := hF.ref _ h2
  have hg := hF.globalmv _ h2
  have hs := hF.skip _ h2
  have hpre := hF.pre
  rw [h4, ← h1, hF.enabled, hF.preskip]
  unfold Av1.skipActive Av1.refActive Av1.gmvActive
  simp only [Int.toNat_natCast]
  rw [hr.2, hg, hs]
  cases he : F.segmentation_enabled
  · simp [noFeature, segSkip]
  · cases hp : F.SegIdPreSkip with
    | true =>
      simp only [Bool.true_and, Bool.or_true, Bool.true_or, if_true]
      generalize H.seg p.1 = g
      refine ⟨?_, rfl⟩
      unfold noFeature
      by_cases hh : g.ref = -1 <;> cases h5 : g.globalmv <;> cases h6 : g.skip <;> simp [hh, h5, h6]
    | false =>
      obtain ⟨x1, x2, x3⟩ := hpre hp _ h2
      rw [hr.2] at x1
      rw [hg] at x2
      rw [hs] at x3
      have x1 : (H.seg p.1).ref = -1 := by
        by_cases hh : (H.seg p.1).ref = -1
        · exact hh
        · rw [if_neg hh] at x1; cases x1
      rw [x1, x2, x3]
      by_cases hx : (true && (!H.updateMap || false || always)) = true
      · rw [if_pos hx]; simp [x1, x2, x3, noFeature, segSkip]
      · rw [if_neg hx]; simp [noFeature, segSkip]

theorem skipMode_same {p : Nat × Bool × Option Seg} {q : Int × Bool} (h : SegRel H false p q) :
    Same (segOk F P) Eq (readSkipMode H E c p.2.2) (Av1.read_skip_mode F P q.1) := by
  obtain ⟨a1, -⟩ := active hF hE h
  obtain ⟨p1, p2, p3, p4⟩ := hE.at_
  unfold readSkipMode Av1.read_skip_mode
  rw [a1, hF.skipMode, p3, p4]
  generalize (Av1.skipActive F q.1 || Av1.refActive F q.1 || Av1.gmvActive F q.1) = z
  have key : decide (min (bsW c.bs) (bsH c.bs) > 1) = !(decide (4 * bsW c.bs < 8) || decide (4 * bsH c.bs < 8)) := by
    by_cases h1 : 4 * bsW c.bs < 8
    · rw [decide_eq_false (by omega), decide_eq_true h1]; rfl
    · by_cases h2 : 4 * bsH c.bs < 8
      · rw [decide_eq_false (by omega), decide_eq_true h2, Bool.or_true]; rfl
      · rw [decide_eq_true (by omega), decide_eq_false h1, decide_eq_false h2]; rfl
  rw [key]
  rw [Bool.or_assoc (_ || _)]
  generalize (decide (4 * bsW c.bs < 8) || decide (4 * bsH c.bs < 8)) = small
  have go : Same (segOk F P) Eq (flag .skipMode [getSkipModeCtx E.a E.l]) (Av1.S (.skip_mode (Dav1d.Part.Ctx.Av1.skipModeCtx P.A P.L)) >>= fun v => pure (decide (v ≠ 0))) := by
    refine Same.bind (R := fun a b => a = decide (b ≠ 0)) (f := pure) (p := flag .skipMode [getSkipModeCtx E.a E.l]) (flag_S (e := .skip_mode _) (by rw [hE.skipMode]; rfl)) ?_
    rintro a b rfl; exact rfl
  cases z <;> cases F.skip_mode_present <;> cases small <;> first | exact go | exact rfl

theorem skip_same {p : Nat × Bool × Option Seg} {q : Int × Bool} (h : SegRel H false p q) (skipMode : Bool) :
    Same (segOk F P) Eq (readSkip E p.2.2 skipMode) (if skipMode then pure true else Av1.read_skip F P q.1) := by
  obtain ⟨-, a2⟩ := active hF hE h
  unfold readSkip Av1.read_skip
  rw [a2]
  cases skipMode with
  | true => exact rfl
  | false =>
    rw [Bool.false_or]
    rw [if_neg (show ¬ (false = true) by decide)]
    refine Same.ite Iff.rfl (fun _ => rfl) (fun _ => ?_)
    refine Same.bind (R := fun a b => a = decide (b ≠ 0)) (f := pure) (p := flag .skip [getSkipCtx E.a E.l]) (flag_S (e := .skip _) (by rw [hE.skip]; rfl)) ?_
    rintro a b rfl; exact rfl

theorem isInter_same {p : Nat × Bool × Option Seg} {q : Int × Bool} (h : SegRel H true p q) (hi : F.FrameIsIntra = false) (skipMode : Bool) :
    Same (segOk F P) (fun a b => a = !b) (readIntra H E p.2.2 skipMode) (Av1.read_is_inter F P q.1 skipMode) := by
  obtain ⟨h1, h2, h3, h4⟩ := h
  have hr := hF.ref _ h2
  have hg := hF.globalmv _ h2
  unfold readIntra Av1.read_is_inter
  have hinter : H.inter = true := by rw [hF.intra, hi]; rfl
  cases skipMode with
  | true => exact rfl
  | false =>
    rw [if_neg (by decide), if_pos hinter, if_neg (by decide)]
    have last : Same (segOk F P) (fun a b => a = !b)
        (do let v ← flag .intra [getIntraCtx E.a.refs E.l.refs E.haveTop E.haveLeft]
            pure !v)
        (do let v ← Av1.S (.is_inter (Dav1d.Part.Ctx.Av1.isInterCtx (Dav1d.Part.Ctx.Av1.nb P.A) (Dav1d.Part.Ctx.Av1.nb P.L)))
            pure (decide (v ≠ 0))) := by
      refine Same.bind (flag_S (e := .is_inter _) (by rw [hE.isInter hinter]; rfl)) ?_
      rintro a b rfl; exact rfl
    rw [h4, hF.enabled]
    unfold Av1.refActive Av1.gmvActive
    rw [← h1]
    simp only [Int.toNat_natCast, Bool.or_true, Bool.and_true, hr.2, hg]
    have hr1 := hr.1
    cases F.segmentation_enabled with
    | false => simpa using last
    | true =>
      generalize H.seg p.1 = g at *
      by_cases hh : g.ref = -1
      · cases hgm : g.globalmv with
        | true => simp [hh, hgm]; exact rfl
        | false => simpa [hh, hgm] using last
      · have hge : g.ref ≥ 0 := by omega
        simp only [hh, hge, if_false, if_true, true_or, Option.isSome_some, Bool.and_true, Option.getD_some]
        by_cases h0 : g.ref = 0
        · simp [h0]; exact rfl
        · simp [h0]; exact rfl

end

end Dav1d.Syn
