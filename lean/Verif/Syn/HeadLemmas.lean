import Verif.Syn.HeadModel
import Verif.Syn.HeadSpec
/-!
# The beginning of a block: lemmas
-/
set_option linter.unusedSectionVars false
namespace Dav1d.Syn
open CdfTab (Field ModeF)
open Dav1d.Part (Call bsW bsH sbStep)
open Dav1d.Part.Ctx (Edge Seg Blk getSkipCtx getSkipModeCtx getSegPredCtx getIntraCtx getCurFrameSegid)

/-- The fields of the frame header are those of the specification. -/
structure Agrees (bw bh : Nat) (H : Hdr) (F : Av1.Frm) : Prop where
  intra : H.inter = !F.FrameIsIntra
  sb128 : H.sb128 = F.use_128x128_superblock
  mono : H.mono = decide (F.NumPlanes = 1)
  planes : F.NumPlanes = 1 ∨ F.NumPlanes = 3
  rows : bh = F.MiRows
  cols : bw = F.MiCols
  enabled : H.segEnabled = F.segmentation_enabled
  update : H.updateMap = F.segmentation_update_map
  temporal : H.temporal = F.segmentation_temporal_update
  preskip : H.preskip = F.SegIdPreSkip
  /-- dav1d has -1 where no feature is used, the specification 0. -/
  last : F.LastActiveSegId = max 0 H.lastActive ∧ -1 ≤ H.lastActive ∧ H.lastActive ≤ 7
  ref : ∀ i < 8, (-1 ≤ (H.seg i).ref) ∧ F.refFrame i = if (H.seg i).ref = -1 then none else some (H.seg i).ref
  globalmv : ∀ i < 8, F.globalmv i = (H.seg i).globalmv
  skip : ∀ i < 8, F.skipFeature i = (H.seg i).skip
  altQ : ∀ i < 8, H.segDq i = (F.altQ i).getD 0
  /-- SegIdPreSkip is set by these features. -/
  pre : F.SegIdPreSkip = false → ∀ i < 8, F.refFrame i = none ∧ F.globalmv i = false ∧ F.skipFeature i = false
  /-- Segment ids in the map of the reference are below 8; without a map they are 0. -/
  prev : match H.prevSeg with
    | some m => ∀ x y, F.PrevSegmentIds y x = m x y ∧ m x y < 8
    | none => ∀ x y, F.PrevSegmentIds y x = 0
  /-- In frames without inter prediction the map is always read and never predicted from another frame. -/
  still : F.FrameIsIntra = true → F.segmentation_enabled = true → F.segmentation_update_map = true ∧ F.segmentation_temporal_update = false
  skipMode : H.skipModeEnabled = F.skip_mode_present
  noSkipMode : F.FrameIsIntra = true → F.skip_mode_present = false
  cdef : if F.CodedLossless || !F.enable_cdef || F.allow_intrabc then H.cdefBits = 0 else H.cdefBits = F.cdef_bits
  dq : H.dqPresent = F.delta_q_present ∧ H.dqRes = F.delta_q_res
  dlf : H.dlfPresent = F.delta_lf_present ∧ H.dlfRes = F.delta_lf_res ∧ H.dlfMulti = F.delta_lf_multi
  base : H.yac = F.base_q_idx ∧ 0 ≤ H.yac ∧ H.yac ≤ 255 ∧ (H.dqPresent = true → 1 ≤ H.yac)
  deltas : H.ydcDelta = F.DeltaQYDc ∧ H.udcDelta = F.DeltaQUDc ∧ H.uacDelta = F.DeltaQUAc ∧ H.vdcDelta = F.DeltaQVDc ∧ H.vacDelta = F.DeltaQVAc
  intrabc : H.allowIntrabc = F.allow_intrabc
  noIntrabc : F.FrameIsIntra = false → F.allow_intrabc = false

/-- What decode_b sees of the blocks around is what the specification says about them. -/
structure Sees (H : Hdr) (F : Av1.Frm) (c : Call) (E : Around) (P : Av1.Pos) : Prop where
  bs : c.bs < 22
  at_ : P.MiRow = c.y ∧ P.MiCol = c.x ∧ P.bw4 = bsW c.bs ∧ P.bh4 = bsH c.bs
  size : E.w4 = min (F.MiCols - c.x) (bsW c.bs) ∧ E.h4 = min (F.MiRows - c.y) (bsH c.bs) ∧ 0 < E.w4 ∧ 0 < E.h4
  wide : bsW c.bs ≤ 16 ∨ bsW c.bs = 32 ∧ c.x % 32 = 0
  high : bsH c.bs ≤ 16 ∨ bsH c.bs = 32 ∧ c.y % 32 = 0
  skip : getSkipCtx E.a E.l = Dav1d.Part.Ctx.Av1.skipCtx P.A P.L
  skipMode : getSkipModeCtx E.a E.l = Dav1d.Part.Ctx.Av1.skipModeCtx P.A P.L
  segPred : getSegPredCtx E.a E.l = Dav1d.Part.Ctx.Av1.segIdPredictedCtx P.A P.L
  isInter : H.inter = true → getIntraCtx E.a.refs E.l.refs E.haveTop E.haveLeft = Dav1d.Part.Ctx.Av1.isInterCtx (Dav1d.Part.Ctx.Av1.nb P.A) (Dav1d.Part.Ctx.Av1.nb P.L)
  seg : ((getCurFrameSegid E.curSeg c.x c.y E.haveTop E.haveLeft).1 : Int) = Dav1d.Part.Ctx.Av1.segmentPred P.prevUL P.prevU P.prevL ∧
    (getCurFrameSegid E.curSeg c.x c.y E.haveTop E.haveLeft).2 = Dav1d.Part.Ctx.Av1.segmentCtx P.prevUL P.prevU P.prevL
  segLt : (getCurFrameSegid E.curSeg c.x c.y E.haveTop E.haveLeft).1 < 8

/-- What is read for segment_id leads to an id from 0 to LastActiveSegId before it is clipped. -/
def segOk (F : Av1.Frm) (P : Av1.Pos) : Req → Nat → Prop := fun r v =>
  ∀ ctx, r = (Av1.El.segment_id ctx).req →
    0 ≤ Av1.neg_deinterleave v (Dav1d.Part.Ctx.Av1.segmentPred P.prevUL P.prevU P.prevL) (F.LastActiveSegId + 1) ∧
    Av1.neg_deinterleave v (Dav1d.Part.Ctx.Av1.segmentPred P.prevUL P.prevU P.prevL) (F.LastActiveSegId + 1) ≤ F.LastActiveSegId

theorem nd_eq (d r m : Int) : negDeinterleave d r m = Av1.neg_deinterleave d r m := rfl

theorem S_same {ok : Req → Nat → Prop} {f : ModeF} {idx : List Nat} {n : Nat} {e : Av1.El} (h : .sym (.mode f) idx n = e.req) :
    Same ok (fun a b => a = b ∧ a ≤ n ∧ ok e.req a) (mode f idx n) (Av1.S e) := by
  unfold mode Av1.S; rw [h]
  exact ⟨rfl, fun v hv ho => ⟨rfl, by rw [← h] at hv; exact hv, ho⟩⟩

theorem flag_S {ok : Req → Nat → Prop} {f : ModeF} {idx : List Nat} {e : Av1.El} (h : .sym (.mode f) idx 1 = e.req) :
    Same ok (fun a b => a = decide (b ≠ 0)) (flag f idx) (Av1.S e) := by
  unfold flag Av1.S; rw [h]
  exact ⟨rfl, fun v hv ho => rfl⟩

/-! ## Segment ids -/

theorem le_prevRow (m : Nat → Nat → Nat) (y k : Nat) : ∀ (w x s : Nat), k ≤ prevRow m x y w s ↔ k ≤ s ∧ ∀ i < w, k ≤ m (x + i) y
  | 0, x, s => by simp [prevRow]
  | w + 1, x, s => by
    rw [prevRow, le_prevRow m y k w]
    constructor
    · rintro ⟨h1, h2⟩
      refine ⟨by omega, fun i hi => ?_⟩
      cases i with
      | zero => simp only [Nat.add_zero]; omega
      | succ i => have := h2 i (by omega); rwa [show x + 1 + i = x + (i + 1) by omega] at this
    · rintro ⟨h1, h2⟩
      have h0 := h2 0 (by omega)
      rw [Nat.add_zero] at h0
      refine ⟨by omega, fun i hi => ?_⟩
      have := h2 (i + 1) (by omega)
      rwa [show x + 1 + i = x + (i + 1) by omega]

theorem le_prevRows (m : Nat → Nat → Nat) (x w k : Nat) : ∀ (h y s : Nat), 0 < h → (k ≤ prevRows m x y w h s ↔ k ≤ s ∧ ∀ j < h, ∀ i < w, k ≤ m (x + i) (y + j))
  | 0, _, _, h => absurd h (by omega)
  | 1, y, s, _ => by
    rw [prevRows, le_prevRow]
    constructor
    · rintro ⟨h1, h2⟩
      refine ⟨h1, fun j hj i hi => ?_⟩
      rw [show j = 0 by omega]; exact h2 i hi
    · rintro ⟨h1, h2⟩
      exact ⟨h1, fun i hi => h2 0 (by omega) i hi⟩
  | h + 2, y, s, _ => by
    rw [prevRows]
    have hr := le_prevRow m y
    by_cases h0 : prevRow m x y w s = 0
    · rw [if_pos h0]
      constructor
      · intro hk
        have : k = 0 := by omega
        subst this
        exact ⟨Nat.zero_le _, fun _ _ _ _ => Nat.zero_le _⟩
      · rintro ⟨h1, h2⟩
        rw [← h0]
        exact (hr k w x s).2 ⟨h1, fun i hi => by have := h2 0 (by omega) i hi; rwa [Nat.add_zero] at this⟩
    · rw [if_neg h0, le_prevRows m x w k (h + 1) _ _ (by omega), hr k]
      constructor
      · rintro ⟨⟨h1, h2⟩, h3⟩
        refine ⟨h1, fun j hj i hi => ?_⟩
        cases j with
        | zero => exact h2 i hi
        | succ j => have := h3 j (by omega) i hi; rwa [show y + 1 + j = y + (j + 1) by omega] at this
      · rintro ⟨h1, h2⟩
        refine ⟨⟨h1, fun i hi => h2 0 (by omega) i hi⟩, fun j hj i hi => ?_⟩
        have := h2 (j + 1) (by omega) i hi
        rwa [show y + 1 + j = y + (j + 1) by omega]

theorem le_foldl_min (k : Nat) : ∀ (l : List Nat) (s : Nat), k ≤ l.foldl min s ↔ k ≤ s ∧ ∀ a ∈ l, k ≤ a
  | [], s => by simp
  | b :: l, s => by
    rw [List.foldl_cons, le_foldl_min k l]
    simp only [List.mem_cons, forall_eq_or_imp]
    constructor
    · rintro ⟨h1, h2⟩; exact ⟨by omega, by omega, h2⟩
    · rintro ⟨h1, h2, h3⟩; exact ⟨by omega, h3⟩

section
variable {bw bh : Nat} {H : Hdr} {F : Av1.Frm} (hF : Agrees bw bh H F) {c : Call} {E : Around} {P : Av1.Pos} (hE : Sees H F c E P)
include hF hE

theorem predSegid_eq : predSegid H E c = pure (Av1.get_segment_id F P) ∧ Av1.get_segment_id F P < 8 := by
  have hprev := hF.prev
  obtain ⟨p1, p2, p3, p4⟩ := hE.at_
  obtain ⟨s1, s2, s3, s4⟩ := hE.size
  have key : ∀ k, k ≤ Av1.get_segment_id F P ↔ k ≤ 7 ∧ ∀ j < E.h4, ∀ i < E.w4, k ≤ F.PrevSegmentIds (c.y + j) (c.x + i) := by
    intro k
    unfold Av1.get_segment_id
    rw [le_foldl_min, p1, p2, p3, p4, ← s1, ← s2]
    simp only [List.mem_flatMap, List.mem_range, List.mem_map]
    constructor
    · rintro ⟨h1, h2⟩; exact ⟨h1, fun j hj i hi => h2 _ ⟨j, hj, i, hi, rfl⟩⟩
    · rintro ⟨h1, h2⟩
      refine ⟨h1, ?_⟩
      rintro a ⟨j, hj, i, hi, rfl⟩
      exact h2 j hj i hi
  have hlt : Av1.get_segment_id F P < 8 := by have := (key (Av1.get_segment_id F P)).1 (Nat.le_refl _); omega
  refine ⟨?_, hlt⟩
  unfold predSegid
  cases hm : H.prevSeg with
  | none =>
    rw [hm] at hprev
    dsimp only at hprev ⊢
    have : Av1.get_segment_id F P = 0 := by
      have := ((key (Av1.get_segment_id F P)).1 (Nat.le_refl _)).2 0 s4 0 s3
      rw [hprev] at this; omega
    rw [this]
  | some m =>
    rw [hm] at hprev
    dsimp only at hprev ⊢
    have k2 : ∀ k, k ≤ prevRows m c.x c.y E.w4 E.h4 8 ↔ k ≤ Av1.get_segment_id F P := by
      intro k
      rw [key, le_prevRows _ _ _ _ _ _ _ s4]
      constructor
      · rintro ⟨h1, h2⟩
        refine ⟨?_, fun j hj i hi => by rw [(hprev _ _).1]; exact h2 j hj i hi⟩
        have := h2 0 s4 0 s3
        have := (hprev (c.x + 0) (c.y + 0)).2
        omega
      · rintro ⟨h1, h2⟩
        exact ⟨by omega, fun j hj i hi => by rw [← (hprev _ _).1]; exact h2 j hj i hi⟩
    have e : prevRows m c.x c.y E.w4 E.h4 8 = Av1.get_segment_id F P :=
      Nat.le_antisymm ((k2 _).1 (Nat.le_refl _)) ((k2 _).2 (Nat.le_refl _))
    rw [e, if_neg (by omega)]

/-- The id is the one of the specification when it needs no clipping. -/
theorem segidOf_eq {pred v : Nat} (hp : (pred : Int) = Dav1d.Part.Ctx.Av1.segmentPred P.prevUL P.prevU P.prevL)
    (ho : ∀ ctx, segOk F P (Av1.El.segment_id ctx).req v) :
    (segidOf H pred v : Int) = Av1.Clip3 0 F.LastActiveSegId (Av1.neg_deinterleave v (Dav1d.Part.Ctx.Av1.segmentPred P.prevUL P.prevU P.prevL) (F.LastActiveSegId + 1)) ∧
    segidOf H pred v < 8 := by
  obtain ⟨o1, o2⟩ := ho 0 0 rfl
  obtain ⟨l1, l2, l3⟩ := hF.last
  rw [← hp] at o1 o2 ⊢
  unfold Av1.Clip3
  rw [if_neg (by omega), if_neg (by omega)]
  unfold segidOf
  rw [nd_eq]
  by_cases hl : H.lastActive = -1
  · rw [hl] at l1 ⊢
    have e : F.LastActiveSegId = 0 := by omega
    rw [e] at o1 o2 ⊢
    have z : Av1.neg_deinterleave v pred (0 + 1) = 0 := by omega
    rw [z]
    have : (v : Int) = 0 := by
      unfold Av1.neg_deinterleave at z
      by_cases h0 : (pred : Int) = 0
      · rw [if_pos h0] at z; exact z
      · rw [if_neg h0, if_pos (by omega)] at z; omega
    rw [this]
    by_cases h0 : (pred : Int) = 0
    · rw [h0]; decide
    · have : Av1.neg_deinterleave 0 pred (-1 + 1) = -1 := by
        unfold Av1.neg_deinterleave; rw [if_neg h0, if_pos (by omega)]; rfl
      rw [this]; decide
  · have e : F.LastActiveSegId = H.lastActive := by omega
    rw [e] at o1 o2 ⊢
    generalize Av1.neg_deinterleave v pred (H.lastActive + 1) = z at *
    dsimp only
    have e1 : z % 256 = z := by omega
    have e2 : H.lastActive % 2 ^ 32 = H.lastActive := by omega
    rw [e1, e2, if_neg (show ¬ H.lastActive < ((z.toNat : Nat) : Int) by omega), if_neg (by omega)]
    omega

theorem readId_same (b : Bool) (hb : b = false) :
    Same (segOk F P) (fun (a : Nat) (b : Int) => (a : Int) = b ∧ a < 8)
      (readSegDiff H E c) (Av1.read_segment_id F P b) := by
  obtain ⟨g1, g2⟩ := hE.seg
  unfold Av1.read_segment_id readSegDiff
  subst hb
  dsimp only
  rw [if_neg (by decide)]
  refine Same.bind (S_same (e := .segment_id _) (by rw [g2]; rfl)) ?_
  rintro a _ ⟨rfl, h1, h2⟩
  exact Same.ret (segidOf_eq hF hE g1 (fun ctx => by
    intro ctx' _
    exact h2 _ rfl))

end

end Dav1d.Syn
