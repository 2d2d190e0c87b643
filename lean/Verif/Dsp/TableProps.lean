import Verif.Dsp.Tables
import Verif.Dsp.McTables
import Verif.Dsp.Mc
import Verif.Dsp.Ipred
import Verif.Dsp.WarpLemmas
import Verif.Obu.FrameModel
import Verif.Obu.FrameProps
/-!
# Property C45: laws of the constant tables, and the weights of distance-weighted compound prediction
-/
namespace Dav1d.Tables

/-! ### Quantizers -/

/-- `dav1d_dq_tbl[depth][q][k]`, `k` = 0 for DC and 1 for AC. -/
def dq (depth q k : Nat) : Nat := ((dqTbl.getD depth []).getD q []).getD k 0

theorem dq_step : ∀ d ∈ List.range 3, ∀ q ∈ List.range 255, dq d q 1 < dq d (q + 1) 1 ∧ dq d q 0 ≤ dq d (q + 1) 0 := by decide +kernel

/-- **C45**: a greater index never gives a finer quantizer, and for AC coefficients always a coarser one. -/
theorem C45_quantizers {d q q' : Nat} (hd : d < 3) (h : q < q') (hq : q' < 256) : dq d q 1 < dq d q' 1 ∧ dq d q 0 ≤ dq d q' 0 := by
  induction q' with
  | zero => omega
  | succ n ih =>
    have s := dq_step d (List.mem_range.mpr hd) n (List.mem_range.mpr (by omega))
    by_cases e : q = n
    · subst e; exact s
    · have := ih (by omega) (by omega); omega

/-- DC quantizers of 8 bits are not strictly increasing. -/
theorem C45_dc_not_strict : dq 0 1 0 = dq 0 2 0 := by decide +kernel

/-- **C45**: index 0 of 8 bits, which lossless coding uses, quantizes by 4, and higher bit depths start there too; a coefficient of a pixel difference is
quantized at most 1336, 5347 or 21387 fold (DC), 1828, 7312 or 29247 fold (AC). -/
theorem C45_quantizer_range {d q : Nat} (hd : d < 3) (hq : q < 256) : 4 ≤ dq d q 0 ∧ 4 ≤ dq d q 1 ∧
    dq d q 0 ≤ [1336, 5347, 21387].getD d 0 ∧ dq d q 1 ≤ [1828, 7312, 29247].getD d 0 := by
  have : ∀ d ∈ List.range 3, ∀ q ∈ List.range 256, 4 ≤ dq d q 0 ∧ 4 ≤ dq d q 1 ∧
    dq d q 0 ≤ [1336, 5347, 21387].getD d 0 ∧ dq d q 1 ≤ [1828, 7312, 29247].getD d 0 := by decide +kernel
  exact this d (List.mem_range.mpr hd) q (List.mem_range.mpr hq)

/-! ### Filters -/

/-- **C45**: interpolation filters have unity gain (64), and the filter for a position is the mirror image of that for the position from the
other side. -/
theorem C45_subpel : ∀ t ∈ subpelFilters, ∀ k ∈ List.range 15, (t.getD k []).length = 8 ∧ (t.getD k []).sum = 64 ∧
    (t.getD (14 - k) []) = (t.getD k []).reverse := by decide +kernel

/-- **C45**: warp filters have unity gain (128), and all but the outermost ones are mirror images. -/
theorem C45_warp : ∀ k ∈ List.range 193, (warpFilters.getD k []).length = 8 ∧ (warpFilters.getD k []).sum = 128 ∧
    (0 < k → k < 192 → warpFilters.getD (192 - k) [] = (warpFilters.getD k []).reverse) := by decide +kernel

/-- **C45**: the filters of super-resolution have gain -128, the code negates; all but the one for no displacement are mirror images. -/
theorem C45_resize : ∀ k ∈ List.range 64, (resizeFilters.getD k []).length = 8 ∧ (resizeFilters.getD k []).sum = -128 ∧
    (0 < k → resizeFilters.getD (64 - k) [] = (resizeFilters.getD k []).reverse) := by decide +kernel

/-! ### Weights -/

/-- **C45**: the smooth weights of a dimension begin with 255 and never increase; a weight and what is left for the opposite edge, 256 minus the
weight, are both positive. -/
theorem C45_smooth : ∀ n ∈ [4, 8, 16, 32, 64], Ipred.smWeights.getD n 0 = 255 ∧
    ∀ x ∈ List.range n, 0 < Ipred.smWeights.getD (n + x) 0 ∧ 0 < 256 - Ipred.smWeights.getD (n + x) 0 ∧
      (x + 1 < n → Ipred.smWeights.getD (n + x + 1) 0 ≤ Ipred.smWeights.getD (n + x) 0) := by decide +kernel

theorem obmc_check : ∀ n ∈ [2, 4, 8, 16, 32], ∀ x ∈ List.range n, ∃ m, obmcMasks[n + x]? = some m ∧ 0 ≤ m ∧ m < 32 ∧ (n * 3 / 4 ≤ x → m = 0) := by
  intro n hn x hx
  have c : ∀ n ∈ [2, 4, 8, 16, 32], ∀ x ∈ List.range n, n + x < obmcMasks.length ∧ 0 ≤ obmcMasks.getD (n + x) 0 ∧ obmcMasks.getD (n + x) 0 < 32 ∧
      (n * 3 / 4 ≤ x → obmcMasks.getD (n + x) 0 = 0) := by decide +kernel
  obtain ⟨h0, h⟩ := c n hn x hx
  refine ⟨obmcMasks[n + x], List.getElem?_eq_getElem h0, ?_⟩
  rw [List.getD_eq_getElem?_getD, List.getElem?_eq_getElem h0, Option.getD_some] at h
  exact h

/-- **C45**: the prediction from a neighbour's motion vector never has more weight than the block's own, and the last quarter of the pixels, which
blend_v_c and blend_h_c leave alone, would not be changed by blending with the table's weights either. -/
theorem C45_obmc {n x : Nat} (hn : n ∈ [2, 4, 8, 16, 32]) (hx : x < n) (dst tmp : Int) :
    ∃ m : Int, obmcMasks[n + x]? = some m ∧ 0 ≤ m ∧ m < 64 - m ∧ blendV n x dst tmp = some (blendPx dst tmp m) ∧ blendH n x dst tmp = some (blendPx dst tmp m) := by
  obtain ⟨m, h1, h2, h3, h4⟩ := obmc_check n hn x (List.mem_range.mpr hx)
  refine ⟨m, h1, h2, by omega, ?_⟩
  unfold blendV blendH
  by_cases h : x < n * 3 / 4
  · rw [if_pos h, h1]; exact ⟨rfl, rfl⟩
  · rw [if_neg h, h4 (by omega)]
    have : blendPx dst tmp 0 = dst := by unfold blendPx asr; omega
    rw [this]; exact ⟨rfl, rfl⟩

/-- **C45**: the division table contains the rounded reciprocals: entry `f` times `256 + f` differs from 2^22 by at most half of `256 + f`. -/
theorem C45_division {f : Nat} (h : f ≤ 256) : ∃ v, Warp.divLut[f]? = some v ∧ 2 * |v * (256 + f) - 2 ^ 22| ≤ (256 + f : Int) :=
  ⟨_, Warp.divLut_eq h, (Warp.recip_bounds h).2.2⟩

/-! ### Dimensions -/

/-- The block sizes in the order of enum BlockSize, by their names: width and height in pixels. -/
def bsNames : List (Nat × Nat) := [(128, 128), (128, 64), (64, 128), (64, 64), (64, 32), (64, 16), (32, 64), (32, 32), (32, 16), (32, 8), (16, 64),
  (16, 32), (16, 16), (16, 8), (16, 4), (8, 32), (8, 16), (8, 8), (8, 4), (4, 16), (4, 8), (4, 4)]

/-- The transform sizes in the order of enum TxfmSize and enum RectTxfmSize, by their names. -/
def txNames : List (Nat × Nat) := [(4, 4), (8, 8), (16, 16), (32, 32), (64, 64), (4, 8), (8, 4), (8, 16), (16, 8), (16, 32), (32, 16), (32, 64), (64, 32),
  (4, 16), (16, 4), (8, 32), (32, 8), (16, 64), (64, 16)]

def bsw (b : Nat) : Nat := (bsNames.getD b (0, 0)).1
def bsh (b : Nat) : Nat := (bsNames.getD b (0, 0)).2
def txw (t : Nat) : Nat := (txNames.getD t (0, 0)).1
def txh (t : Nat) : Nat := (txNames.getD t (0, 0)).2

/-- **C45**: the dimensions of a block in units of 4 pixels are those of its name, powers of two with the given logarithms. -/
theorem C45_block : ∀ b ∈ List.range 22, let r := blockDims.getD b []
    4 * r.getD 0 0 = bsw b ∧ 4 * r.getD 1 0 = bsh b ∧ 2 ^ r.getD 2 0 = r.getD 0 0 ∧ 2 ^ r.getD 3 0 = r.getD 1 0 := by decide +kernel

/-- **C45**: likewise for transforms; `min` and `max` are the smaller and greater logarithm, `ctx` is their rounded mean, and splitting a transform
(`sub`) halves its longer side, or both of a square. -/
theorem C45_transform : ∀ t ∈ List.range 19, let r := txDims.getD t []
    4 * r.getD 0 0 = txw t ∧ 4 * r.getD 1 0 = txh t ∧ 2 ^ r.getD 2 0 = r.getD 0 0 ∧ 2 ^ r.getD 3 0 = r.getD 1 0 ∧
    r.getD 4 0 = min (r.getD 2 0) (r.getD 3 0) ∧ r.getD 5 0 = max (r.getD 2 0) (r.getD 3 0) ∧ r.getD 7 0 = (r.getD 4 0 + r.getD 5 0 + 1) / 2 ∧
    (0 < t → (txw (r.getD 6 0) = if txw t ≥ txh t then txw t / 2 else txw t) ∧ (txh (r.getD 6 0) = if txh t ≥ txw t then txh t / 2 else txh t)) := by
  decide +kernel

/-- **C45**: the greatest transform of a block has the dimensions of the block, at most 64 in luma; in chroma those of the subsampled block, at least 4
and at most 32. 4:2:2 has no blocks that are taller than wide. -/
theorem C45_max_transform : ∀ b ∈ List.range 22, let r := maxTx.getD b []
    (txw (r.getD 0 0) = min 64 (bsw b) ∧ txh (r.getD 0 0) = min 64 (bsh b)) ∧
    (txw (r.getD 1 0) = min 32 (max 4 (bsw b / 2)) ∧ txh (r.getD 1 0) = min 32 (max 4 (bsh b / 2))) ∧
    (bsh b ≤ bsw b → txw (r.getD 2 0) = min 32 (max 4 (bsw b / 2)) ∧ txh (r.getD 2 0) = min 32 (bsh b)) ∧
    (txw (r.getD 3 0) = min 32 (bsw b) ∧ txh (r.getD 3 0) = min 32 (bsh b)) := by decide +kernel

/-- **C45**: splitting a pair of filters, vertical `a` and horizontal `b`, gives back what it was combined from. Filter 3 is bilinear, which is
never combined with others. -/
theorem C45_filters : ∀ a ∈ List.range 4, ∀ b ∈ List.range 4, (a = 3 ↔ b = 3) → filterDir.getD ((filter2d.getD a []).getD b 0) [] = [b, a] := by decide +kernel

/-! ### Distance weights -/

/-- quant_dist_weight and quant_dist_lookup_table, src/decode.c:3105-3110. -/
def quantDistWeight : List (List Nat) := [[2, 3], [2, 5], [2, 7]]
def quantDistLookup : List (List Nat) := [[9, 7], [11, 5], [12, 4], [13, 3]]

/-- The loop of src/decode.c:3113-3119 from `k` on, `n` steps before the end. -/
def distLoop (d0 d1 order : Nat) : Nat → Nat → Nat
  | 0, k => k
  | n + 1, k =>
    let c0 := (quantDistWeight.getD k []).getD order 0
    let c1 := (quantDistWeight.getD k []).getD (1 - order) 0
    if (d0 > d1 ∧ d0 * c0 < d1 * c1) ∨ (d0 ≤ d1 ∧ d0 * c0 > d1 * c1) then k else distLoop d0 d1 order n (k + 1)

/-- `f->jnt_weights[i][j]`, src/decode.c:3091-3122, from the order hints of the two references and of the frame. -/
def jntWeight (nBits : Nat) (ref0poc ref1poc cur : Int) : Nat :=
  let d1 := min (getPocDiff nBits ref0poc cur).natAbs 31
  let d0 := min (getPocDiff nBits ref1poc cur).natAbs 31
  let order := if d0 ≤ d1 then 1 else 0
  (quantDistLookup.getD (distLoop d0 d1 order 3 0) []).getD order 0

/-- The weights in 1/16 of the reference that is farther away, by the ratio of the distances. -/
def Spec.farWeight (near far : Nat) : Nat :=
  if 2 * far < 3 * near then 7 else if 2 * far < 5 * near then 5 else if 2 * far < 7 * near then 4 else 3

/-- 7.11.3.15, the weights of the two predictions: the nearer reference gets more, the first one less if they are equally far. Distances above 31 count
as 31. -/
def Spec.distWeights (dist0 dist1 : Nat) : Nat × Nat :=
  if dist1 ≤ dist0 then (farWeight dist1 dist0, 16 - farWeight dist1 dist0) else (16 - farWeight dist0 dist1, farWeight dist0 dist1)

/-- **C45**: w_avg_c multiplies the first prediction by `jnt_weight` and the second by 16 minus it (src/mc_tmpl.c:604-620); these are the weights of the
specification. -/
theorem C45_distance (nBits : Nat) (ref0poc ref1poc cur : Int) :
    (jntWeight nBits ref0poc ref1poc cur, 16 - jntWeight nBits ref0poc ref1poc cur) =
      Spec.distWeights (min (getPocDiff nBits ref0poc cur).natAbs 31) (min (getPocDiff nBits ref1poc cur).natAbs 31) := by
  unfold jntWeight
  generalize min (getPocDiff nBits ref0poc cur).natAbs 31 = d1
  generalize min (getPocDiff nBits ref1poc cur).natAbs 31 = d0
  have e0 : distLoop d0 d1 0 3 0 = if (d0 > d1 ∧ d0 * 2 < d1 * 3) ∨ (d0 ≤ d1 ∧ d0 * 2 > d1 * 3) then 0 else
      if (d0 > d1 ∧ d0 * 2 < d1 * 5) ∨ (d0 ≤ d1 ∧ d0 * 2 > d1 * 5) then 1 else
      if (d0 > d1 ∧ d0 * 2 < d1 * 7) ∨ (d0 ≤ d1 ∧ d0 * 2 > d1 * 7) then 2 else 3 := rfl
  have e1 : distLoop d0 d1 1 3 0 = if (d0 > d1 ∧ d0 * 3 < d1 * 2) ∨ (d0 ≤ d1 ∧ d0 * 3 > d1 * 2) then 0 else
      if (d0 > d1 ∧ d0 * 5 < d1 * 2) ∨ (d0 ≤ d1 ∧ d0 * 5 > d1 * 2) then 1 else
      if (d0 > d1 ∧ d0 * 7 < d1 * 2) ∨ (d0 ≤ d1 ∧ d0 * 7 > d1 * 2) then 2 else 3 := rfl
  by_cases h : d0 ≤ d1
  · simp only [Spec.distWeights, if_pos h, e1, Spec.farWeight]
    clear e0 e1
    split_ifs <;> first | rfl | omega
  · simp only [Spec.distWeights, if_neg h, e0, Spec.farWeight]
    clear e0 e1
    split_ifs <;> first | rfl | omega

/-- **C45**: the weights add up to 16, both positive, and exchanging references at different distances exchanges them. -/
theorem C45_distance_sum (a b : Nat) : (Spec.distWeights a b).1 + (Spec.distWeights a b).2 = 16 ∧ 0 < (Spec.distWeights a b).1 ∧ 0 < (Spec.distWeights a b).2 ∧
    (a ≠ b → Spec.distWeights b a = ((Spec.distWeights a b).2, (Spec.distWeights a b).1)) ∧ (a < b → (Spec.distWeights a b).2 < (Spec.distWeights a b).1) := by
  unfold Spec.distWeights Spec.farWeight
  refine ⟨?_, ?_, ?_, ?_, ?_⟩
  · split_ifs <;> simp only <;> omega
  · split_ifs <;> simp only <;> omega
  · split_ifs <;> simp only <;> omega
  · intro h
    rcases Nat.lt_or_gt_of_ne h with h | h
    · rw [if_pos (show a ≤ b by omega), if_neg (show ¬ b ≤ a by omega)]
    · rw [if_neg (show ¬ a ≤ b by omega), if_pos (show b ≤ a by omega)]
  · intro h
    rw [if_neg (by omega)]
    split_ifs <;> simp only <;> omega

/-! ### Examples -/

example : dq 0 100 1 < dq 0 101 1 ∧ dq 0 100 0 ≤ dq 0 101 0 := C45_quantizers (by decide) (by decide) (by decide)
example : blendV 16 13 200 7 = some (blendPx 200 7 0) := by decide +kernel
/-- References 2 and 5 frames away, with order hints of 7 bits that wrap around: 12/16 of the nearer. -/
example : jntWeight 7 126 5 0 = 12 := by decide +kernel
example : (jntWeight 7 126 5 0, 16 - jntWeight 7 126 5 0) = Spec.distWeights 2 5 := C45_distance 7 126 5 0
example : ∃ m : Int, obmcMasks[8 + 2]? = some m ∧ 0 ≤ m ∧ m < 64 - m ∧ blendV 8 2 10 20 = some (blendPx 10 20 m) ∧ blendH 8 2 10 20 = some (blendPx 10 20 m) :=
  C45_obmc (by decide) (by decide) 10 20

end Dav1d.Tables
