import Verif.Dsp.IpredProps
import Mathlib.Tactic.Linarith
/-!
# C42 and C58 for the other predictors: DC, vertical, horizontal, smooth, Paeth, palette
-/
namespace Dav1d.Ipred

open Lf

variable {d : Depth} {f : Int → Int → Int} {p : Prep}

/-- Width and height of the transforms, in units of 4 pixels (TxfmSize and RectTxfmSize, src/levels.h:62-92). -/
def txSizes : List (Nat × Nat) :=
  [(1, 1), (2, 2), (4, 4), (8, 8), (16, 16), (1, 2), (2, 1), (2, 4), (4, 2), (4, 8), (8, 4), (8, 16), (16, 8),
    (1, 4), (4, 1), (2, 8), (8, 2), (4, 16), (16, 4)]

/-- The block has the size of a transform and starts inside the picture. -/
structure Prep.Tx (p : Prep) : Prop where
  x : p.x < p.w
  y : p.y < p.h
  tx : (p.tw, p.th) ∈ txSizes

theorem txSizes_range : ∀ s ∈ txSizes, 1 ≤ s.1 ∧ s.1 ≤ 16 ∧ 1 ≤ s.2 ∧ s.2 ≤ 16 := by decide

theorem Prep.Tx.sized (T : p.Tx) : p.Sized := by
  obtain ⟨hx, hy, ht⟩ := T
  have := txSizes_range _ ht
  exact ⟨hx, hy, this.1, this.2.1, this.2.2.1, this.2.2.2⟩

/-! ### Sums -/

theorem addPixels_eq {pp : Nat → Option Int} {v : Nat → Int} {M : Int} {n : Nat} (h : ∀ k < n, pp k = some (v k)) (hv : ∀ k, 0 ≤ v k ∧ v k ≤ M) {a : Int} (h0 : 0 ≤ a)
    (hlt : a + n * M < 2 ^ 32) : addPixels pp n a = some (a + ∑ k ∈ Finset.range n, v k) ∧ 0 ≤ ∑ k ∈ Finset.range n, v k ∧ ∑ k ∈ Finset.range n, v k ≤ n * M := by
  have hM : 0 ≤ M := le_trans (hv 0).1 (hv 0).2
  induction n with
  | zero => simp [addPixels]
  | succ n ih =>
    have e : ((n + 1 : Nat) : Int) * M = n * M + M := by push_cast; ring
    rw [e] at hlt
    obtain ⟨i1, i2, i3⟩ := ih (fun k hk => h k (by omega)) (by omega)
    have hn := hv n
    refine ⟨?_, ?_, ?_⟩
    · simp only [addPixels]
      rw [i1, h n (by omega), Option.bind_some, Option.map_some, Finset.sum_range_succ, Int.emod_eq_of_lt (by omega) (by omega)]
      congr 1; omega
    · rw [Finset.sum_range_succ]; omega
    · rw [Finset.sum_range_succ, e]; omega

theorem addPixels_bounds {v : Nat → Int} {lo hi : Int} (n : Nat) (hv : ∀ k < n, lo ≤ v k ∧ v k ≤ hi) :
    n * lo ≤ ∑ k ∈ Finset.range n, v k ∧ ∑ k ∈ Finset.range n, v k ≤ n * hi := by
  induction n with
  | zero => simp
  | succ n ih =>
    have e1 : ((n + 1 : Nat) : Int) * lo = n * lo + lo := by push_cast; ring
    have e2 : ((n + 1 : Nat) : Int) * hi = n * hi + hi := by push_cast; ring
    have := ih (fun k hk => hv k (by omega))
    have := hv n (by omega)
    rw [Finset.sum_range_succ, e1, e2]
    omega

theorem max_le (d : Depth) : d.max ≤ 4095 ∧ 255 ≤ d.max := by cases d <;> decide

theorem mul1x2_eq (d : Depth) {t : Int} (h0 : 0 ≤ t) (h1 : t ≤ 3 * d.max + 2) : asr (t * mul1x2 d % 4294967296) (baseShift d) = t / 3 := by
  obtain ⟨q, r, hr0, hr1, rfl⟩ : ∃ q r : Int, 0 ≤ r ∧ r < 3 ∧ t = 3 * q + r := ⟨t / 3, t % 3, by omega, by omega, by omega⟩
  rw [show (3 * q + r) / 3 = q by omega]
  cases d <;> norm_num [Depth.max, Depth.bpc] at h1 <;> unfold asr <;> simp only [mul1x2, baseShift] <;> norm_num <;>
    (rw [Int.emod_eq_of_lt (by omega) (by omega)]; omega)

theorem mul1x4_eq (d : Depth) {t : Int} (h0 : 0 ≤ t) (h1 : t ≤ 5 * d.max + 3) : asr (t * mul1x4 d % 4294967296) (baseShift d) = t / 5 := by
  obtain ⟨q, r, hr0, hr1, rfl⟩ : ∃ q r : Int, 0 ≤ r ∧ r < 5 ∧ t = 5 * q + r := ⟨t / 5, t % 5, by omega, by omega, by omega⟩
  rw [show (5 * q + r) / 5 = q by omega]
  cases d <;> norm_num [Depth.max, Depth.bpc] at h1 <;> unfold asr <;> simp only [mul1x4, baseShift] <;> norm_num <;>
    (rw [Int.emod_eq_of_lt (by omega) (by omega)]; omega)

theorem ctz_vals : ctz 8 = 3 ∧ ctz 16 = 4 ∧ ctz 32 = 5 ∧ ctz 64 = 6 ∧ ctz 128 = 7 ∧ ctz 12 = 2 ∧ ctz 24 = 3 ∧ ctz 48 = 4 ∧ ctz 96 = 5 ∧ ctz 20 = 2 ∧ ctz 40 = 3 ∧
    ctz 80 = 4 ∧ ctz 4 = 2 := by decide

/-- The division of dc_gen by multiplication is exact. -/
theorem dc_div (d : Depth) {w h : Nat} (ht : (w, h) ∈ txSizes) {s : Int} (h0 : 0 ≤ s) (h1 : s ≤ (4 * w + 4 * h) * d.max + (2 * w + 2 * h)) :
    (if 4 * w ≠ 4 * h then asr (asr s (ctz (4 * w + 4 * h)) * (if 4 * w > 4 * h * 2 ∨ 4 * h > 4 * w * 2 then mul1x4 d else mul1x2 d) % 2 ^ 32) (baseShift d)
      else asr s (ctz (4 * w + 4 * h))) = s / (4 * w + 4 * h) := by
  simp only [txSizes, List.mem_cons, Prod.mk.injEq, List.not_mem_nil, or_false] at ht
  obtain ⟨c8, c16, c32, c64, c128, c12, c24, c48, c96, c20, c40, c80, c4⟩ := ctz_vals
  rcases ht with ⟨rfl, rfl⟩ | ⟨rfl, rfl⟩ | ⟨rfl, rfl⟩ | ⟨rfl, rfl⟩ | ⟨rfl, rfl⟩ | ⟨rfl, rfl⟩ | ⟨rfl, rfl⟩ | ⟨rfl, rfl⟩ | ⟨rfl, rfl⟩ | ⟨rfl, rfl⟩ | ⟨rfl, rfl⟩ | ⟨rfl, rfl⟩ |
    ⟨rfl, rfl⟩ | ⟨rfl, rfl⟩ | ⟨rfl, rfl⟩ | ⟨rfl, rfl⟩ | ⟨rfl, rfl⟩ | ⟨rfl, rfl⟩ | ⟨rfl, rfl⟩ <;>
  (norm_num [c8, c16, c32, c64, c128, c12, c24, c48, c96, c20, c40, c80] at h1 ⊢
   first
   | (unfold asr; norm_num; done)
   | (rw [mul1x2_eq d (by unfold asr; norm_num; omega) (by unfold asr; norm_num; omega)]; unfold asr; norm_num; omega)
   | (rw [mul1x4_eq d (by unfold asr; norm_num; omega) (by unfold asr; norm_num; omega)]; unfold asr; norm_num; omega))

/-! ### DC -/

theorem ctz_pow : ∀ n ∈ [1, 2, 4, 8, 16], (2 : Int) ^ ctz (4 * n) = 4 * n := by decide

theorem tx_ctz : ∀ s ∈ txSizes, (2 : Int) ^ ctz (4 * s.1) = 4 * s.1 ∧ (2 : Int) ^ ctz (4 * s.2) = 4 * s.2 := by decide

theorem mean_range {s n lo hi : Int} (hn : 0 < n) (h0 : n * lo ≤ s) (h1 : s ≤ n * hi) : lo ≤ (s + n / 2) / n ∧ (s + n / 2) / n ≤ hi := by
  constructor
  · refine Int.le_ediv_of_mul_le hn ?_
    rw [Int.mul_comm]; omega
  · have : (s + n / 2) / n < hi + 1 := by
      refine Int.ediv_lt_of_lt_mul hn ?_
      rw [show (hi + 1) * n = n * hi + n by ring]; omega
    omega

/-- **C58, C42**: DC prediction is the rounded mean of the available neighbours (half the range if there are none). -/
theorem C58_dc (T : p.Tx) (R : p.Reads f) (hf : Pixels d f) (delta : Int) (flags : Nat) (maxW maxH : Int) (x y : Nat) :
    p.predict d .dc delta flags maxW maxH x y =
      some (Spec.dc d (Spec.aboveRow d f p.block) (Spec.leftCol d f p.block) p.haveLeft p.haveTop (4 * p.tw) (4 * p.th)) := by
  have S := T.sized
  obtain ⟨Sx, Sy, w1, w16, h1, h16⟩ := id S
  have hA := aboveRow_px hf p.block
  have hL := leftCol_px hf p.block
  obtain ⟨cw, ch⟩ := tx_ctz _ T.tx
  obtain ⟨m1, m2⟩ := max_le d
  have hAm : ((4 * p.tw : Nat) : Int) * d.max ≤ 64 * 4095 := Int.mul_le_mul (by push_cast; omega) m1 (by omega) (by omega)
  have hLm : ((4 * p.th : Nat) : Int) * d.max ≤ 64 * 4095 := Int.mul_le_mul (by push_cast; omega) m1 (by omega) (by omega)
  unfold Prep.predict
  rw [if_pos ⟨Sx, Sy⟩]
  simp only [predOf]
  unfold Spec.dc
  have ea (q : Pred) (hq : q.needsTop = true) : ∀ k < 4 * p.tw, p.edge d q (1 + (k : Int)) = some (Spec.aboveRow d f p.block k) := by
    intro k hk
    rw [edge_above S R hq (by omega) (by left; omega), show (1 + (k : Int)) - 1 = k by omega]
  have el (q : Pred) (hq : q.needsLeft = true) : ∀ k < 4 * p.th, p.edge d q (-(1 + (k : Int))) = some (Spec.leftCol d f p.block k) := by
    intro k hk
    rw [edge_left S R hq (by omega) (by left; omega)]
  have cast4 : ∀ n : Nat, ((4 * n : Nat) : Int) = 4 * (n : Int) := fun n => by push_cast; rfl
  rcases (Bool.eq_false_or_eq_true p.haveLeft).symm with hl | hl <;> rcases (Bool.eq_false_or_eq_true p.haveTop).symm with ht | ht <;>
    simp only [hl, ht, if_true, Bool.false_eq_true, if_false]
  · unfold splat
    cases d <;> rfl
  · obtain ⟨e1, e2, e3⟩ := addPixels_eq (n := 4 * p.tw) (pp := fun i : Nat => p.edge d .topDc (1 + i)) (v := fun k => Spec.aboveRow d f p.block k) (ea _ rfl) (fun k => hA k)
      (a := asr ((4 * p.tw : Nat) : Int) 1) (by unfold asr; norm_num; omega) (by unfold asr; norm_num; push_cast at hAm; omega)
    unfold dcGenTop
    rw [e1]
    simp only [Option.map_some, Option.bind_some]
    have h2 : asr (asr ((4 * p.tw : Nat) : Int) 1 + ∑ k ∈ Finset.range (4 * p.tw), Spec.aboveRow d f p.block k) (ctz (4 * p.tw))
        = (∑ k ∈ Finset.range (4 * p.tw), Spec.aboveRow d f p.block k + ((4 * p.tw : Nat) : Int) / 2) / ((4 * p.tw : Nat) : Int) := by
      unfold asr
      rw [cw, cast4]
      norm_num
      rw [add_comm]
    rw [h2]
    unfold splat
    rw [if_pos]
    have e0 : ((4 * p.tw : Nat) : Int) * 0 = 0 := Int.mul_zero _
    exact (mean_range (lo := 0) (by push_cast; omega) (by omega) e3).2
  · obtain ⟨e1, e2, e3⟩ := addPixels_eq (n := 4 * p.th) (pp := fun i : Nat => p.edge d .leftDc (-(1 + i))) (v := fun k => Spec.leftCol d f p.block k) (el _ rfl) (fun k => hL k)
      (a := asr ((4 * p.th : Nat) : Int) 1) (by unfold asr; norm_num; omega) (by unfold asr; norm_num; push_cast at hLm; omega)
    unfold dcGenLeft
    rw [e1]
    simp only [Option.map_some, Option.bind_some]
    have h2 : asr (asr ((4 * p.th : Nat) : Int) 1 + ∑ k ∈ Finset.range (4 * p.th), Spec.leftCol d f p.block k) (ctz (4 * p.th))
        = (∑ k ∈ Finset.range (4 * p.th), Spec.leftCol d f p.block k + ((4 * p.th : Nat) : Int) / 2) / ((4 * p.th : Nat) : Int) := by
      unfold asr
      rw [ch, cast4]
      norm_num
      rw [add_comm]
    rw [h2]
    unfold splat
    rw [if_pos]
    have e0 : ((4 * p.th : Nat) : Int) * 0 = 0 := Int.mul_zero _
    exact (mean_range (lo := 0) (by push_cast; omega) (by omega) e3).2
  · have a0 : 0 ≤ asr (((4 * p.tw : Nat) : Int) + ((4 * p.th : Nat) : Int)) 1 ∧ asr (((4 * p.tw : Nat) : Int) + ((4 * p.th : Nat) : Int)) 1 ≤ 64 := by
      unfold asr; norm_num; omega
    obtain ⟨e1, e2, e3⟩ := addPixels_eq (n := 4 * p.tw) (pp := fun i : Nat => p.edge d .dc (i + 1)) (v := fun k => Spec.aboveRow d f p.block k)
      (fun k hk => by rw [add_comm]; exact ea _ rfl k hk) (fun k => hA k) (a := asr (((4 * p.tw : Nat) : Int) + ((4 * p.th : Nat) : Int)) 1) a0.1 (by norm_num; push_cast at hAm a0 ⊢; omega)
    obtain ⟨l1, l2, l3⟩ := addPixels_eq (n := 4 * p.th) (pp := fun i : Nat => p.edge d .dc (-(i + 1))) (v := fun k => Spec.leftCol d f p.block k)
      (fun k hk => by rw [add_comm (k : Int)]; exact el _ rfl k hk) (fun k => hL k)
      (a := asr (((4 * p.tw : Nat) : Int) + ((4 * p.th : Nat) : Int)) 1 + ∑ k ∈ Finset.range (4 * p.tw), Spec.aboveRow d f p.block k) (by omega)
      (by norm_num; push_cast at hAm hLm a0 ⊢; push_cast at e3; omega)
    unfold dcGen
    rw [e1, Option.bind_some, l1]
    simp only [Option.map_some, Option.bind_some]
    generalize ∑ k ∈ Finset.range (4 * p.tw), Spec.aboveRow d f p.block k = sA at *
    generalize ∑ k ∈ Finset.range (4 * p.th), Spec.leftCol d f p.block k = sL at *
    have ead : (4 * (p.tw : Int) + 4 * p.th) * d.max = ((4 * p.tw : Nat) : Int) * d.max + ((4 * p.th : Nat) : Int) * d.max := by push_cast; ring
    have ed := dc_div d T.tx (s := asr (((4 * p.tw : Nat) : Int) + ((4 * p.th : Nat) : Int)) 1 + sA + sL) (by omega) (by
      rw [ead]
      have : asr (((4 * p.tw : Nat) : Int) + ((4 * p.th : Nat) : Int)) 1 = 2 * p.tw + 2 * p.th := by unfold asr; norm_num; omega
      omega)
    rw [ed]
    have e2 : (asr (((4 * p.tw : Nat) : Int) + ((4 * p.th : Nat) : Int)) 1 + sA + sL) / (4 * (p.tw : Int) + 4 * p.th)
        = (sA + sL + (((4 * p.tw : Nat) : Int) + ((4 * p.th : Nat) : Int)) / 2) / (((4 * p.tw : Nat) : Int) + ((4 * p.th : Nat) : Int)) := by
      unfold asr; push_cast; norm_num; congr 1; ring
    rw [e2]
    unfold splat
    rw [if_pos]
    have e0 : (((4 * p.tw : Nat) : Int) + ((4 * p.th : Nat) : Int)) * 0 = 0 := Int.mul_zero _
    exact (mean_range (lo := 0) (by push_cast; omega) (by omega) (by push_cast at *; omega)).2

/-! ### Paeth -/

theorem C58_paeth (T : p.Tx) (R : p.Reads f) (delta : Int) (flags : Nat) (maxW maxH : Int) {x y : Nat} (hx : x < 4 * p.tw) (hy : y < 4 * p.th) :
    p.predict d .paeth delta flags maxW maxH x y = some (Spec.paeth (Spec.aboveRow d f p.block) (Spec.leftCol d f p.block) y x) := by
  have S := T.sized
  obtain ⟨Sx, Sy, w1, w16, h1, h16⟩ := id S
  unfold Prep.predict
  rw [if_pos ⟨Sx, Sy⟩]
  simp only [predOf]
  rcases (Bool.eq_false_or_eq_true p.haveLeft).symm with hl | hl <;> rcases (Bool.eq_false_or_eq_true p.haveTop).symm with ht | ht <;>
    simp only [hl, ht, if_true, Bool.false_eq_true, if_false]
  · have hxn : ¬ (x : Int) = -1 := by omega
    have hyn : ¬ (y : Int) = -1 := by omega
    unfold splat
    simp only [Spec.paeth, Spec.aboveRow, Spec.leftCol, hl, ht, hxn, hyn, if_true, if_false, Bool.false_eq_true]
    cases d <;> decide
  · rw [predV, edge_above S R rfl (by omega) (by left; omega), show (1 + (x : Int)) - 1 = x by omega]
    have e1 : Spec.leftCol d f p.block y = Spec.aboveRow d f p.block (-1) := by
      simp [Spec.leftCol, Spec.aboveRow, hl, ht, show ¬ (y : Int) = -1 by omega]
    unfold Spec.paeth
    dsimp only
    rw [e1]
    generalize Spec.aboveRow d f p.block (-1) = c
    generalize Spec.aboveRow d f p.block x = a
    congr 1
    split_ifs <;> omega
  · rw [predH, edge_left S R rfl (by omega) (by left; omega)]
    have e1 : Spec.aboveRow d f p.block x = Spec.aboveRow d f p.block (-1) := by
      simp [Spec.aboveRow, hl, ht, show ¬ (x : Int) = -1 by omega]
    unfold Spec.paeth
    dsimp only
    rw [e1]
    congr 1
    split_ifs <;> omega
  · unfold paeth
    rw [edge_corner S R rfl (by decide), show -((y : Int) + 1) = -(1 + y) by omega, edge_left S R rfl (by omega) (by left; omega),
      edge_above S R rfl (by omega) (by left; omega), show (1 + (x : Int)) - 1 = x by omega]
    simp only [Option.bind_some, Option.map_some]
    unfold Spec.paeth
    dsimp only
    generalize Spec.aboveRow d f p.block (-1) = c
    generalize Spec.aboveRow d f p.block x = a
    generalize Spec.leftCol d f p.block y = l
    congr 1
    split_ifs <;> omega

/-! ### Smooth -/

theorem sm_get : ∀ n ∈ [1, 2, 4, 8, 16], ∀ i ∈ List.range (4 * n), smWeights[4 * n + i]? = some (((Spec.smWeights (4 * n))[i]?).getD 0) ∧
    4 ≤ ((Spec.smWeights (4 * n))[i]?).getD 0 ∧ ((Spec.smWeights (4 * n))[i]?).getD 0 ≤ 255 := by decide +kernel

theorem tx_mem : ∀ s ∈ txSizes, s.1 ∈ [1, 2, 4, 8, 16] ∧ s.2 ∈ [1, 2, 4, 8, 16] := by decide

theorem convex {lo hi w a b : Int} (h0 : 0 ≤ w) (h1 : w ≤ 256) (ha : lo ≤ a ∧ a ≤ hi) (hb : lo ≤ b ∧ b ≤ hi) :
    256 * lo ≤ w * a + (256 - w) * b ∧ w * a + (256 - w) * b ≤ 256 * hi := by
  have i1 := Int.mul_nonneg h0 (show 0 ≤ a - lo by omega)
  have i2 := Int.mul_nonneg h0 (show 0 ≤ hi - a by omega)
  have i3 := Int.mul_nonneg (show 0 ≤ 256 - w by omega) (show 0 ≤ b - lo by omega)
  have i4 := Int.mul_nonneg (show 0 ≤ 256 - w by omega) (show 0 ≤ hi - b by omega)
  constructor <;> nlinarith

/-- All pixels above the block, where there are any, are in `lo .. hi`, and so are the ones on the left; the pixels behind the end of the
picture are not counted. -/
structure Prep.Within (p : Prep) (f : Int → Int → Int) (lo hi : Int) : Prop where
  any : p.haveTop = true ∨ p.haveLeft = true
  top : p.haveTop = true → ∀ c : Int, 0 ≤ c → c < 4 * p.tw → c < 4 * (p.w - p.x) → lo ≤ f (4 * p.y - 1) (4 * p.x + c) ∧ f (4 * p.y - 1) (4 * p.x + c) ≤ hi
  left : p.haveLeft = true → ∀ r : Int, 0 ≤ r → r < 4 * p.th → r < 4 * (p.h - p.y) → lo ≤ f (4 * p.y + r) (4 * p.x - 1) ∧ f (4 * p.y + r) (4 * p.x - 1) ≤ hi

theorem within_above {lo hi : Int} (W : p.Within f lo hi) (S : p.Sized) {i : Int} (h0 : 0 ≤ i) (h1 : i < 4 * p.tw) :
    lo ≤ Spec.aboveRow d f p.block i ∧ Spec.aboveRow d f p.block i ≤ hi := by
  obtain ⟨Sx, Sy, w1, w16, hh1, h16⟩ := id S
  unfold Spec.aboveRow
  rw [if_neg (by omega : ¬ i = -1)]
  rcases (Bool.eq_false_or_eq_true p.haveTop).symm with ht | ht
  · have hl : p.haveLeft = true := by have := W.any; simpa [ht] using this
    simp only [ht, hl, if_true, Bool.false_eq_true, if_false]
    simpa using W.left hl 0 (by omega) (by omega) (by omega)
  · simp only [ht, if_true]
    rw [if_pos (by push_cast; omega), show min (4 * (p.w : Int) - 1) (4 * (p.x : Int) + i) = 4 * p.x + min (4 * ((p.w : Int) - p.x) - 1) i by omega]
    exact W.top ht _ (by omega) (by omega) (by omega)

theorem within_left {lo hi : Int} (W : p.Within f lo hi) (S : p.Sized) {i : Int} (h0 : 0 ≤ i) (h1 : i < 4 * p.th) :
    lo ≤ Spec.leftCol d f p.block i ∧ Spec.leftCol d f p.block i ≤ hi := by
  obtain ⟨Sx, Sy, w1, w16, hh1, h16⟩ := id S
  unfold Spec.leftCol
  rw [if_neg (by omega : ¬ i = -1)]
  rcases (Bool.eq_false_or_eq_true p.haveLeft).symm with ht | ht
  · have hl : p.haveTop = true := by have := W.any; simpa [ht] using this
    simp only [ht, hl, if_true, Bool.false_eq_true, if_false]
    simpa using W.top hl 0 (by omega) (by omega) (by omega)
  · simp only [ht, if_true]
    rw [if_pos (by push_cast; omega), show min (4 * (p.h : Int) - 1) (4 * (p.y : Int) + i) = 4 * p.y + min (4 * ((p.h : Int) - p.y) - 1) i by omega]
    exact W.left ht _ (by omega) (by omega) (by omega)

section
variable (T : p.Tx) (R : p.Reads f) (hf : Pixels d f) (delta : Int) (flags : Nat) (maxW maxH : Int) {x y : Nat} (hx : x < 4 * p.tw) (hy : y < 4 * p.th)
include T R hf hx hy

theorem C58_smooth : p.predict d .smooth delta flags maxW maxH x y =
    some (Spec.smooth (Spec.aboveRow d f p.block) (Spec.leftCol d f p.block) (4 * p.tw) (4 * p.th) y x) := by
  have S := T.sized
  obtain ⟨Sx, Sy, w1, w16, h1, h16⟩ := id S
  obtain ⟨tw, th⟩ := tx_mem _ T.tx
  obtain ⟨gx, x0, x1⟩ := sm_get _ tw x (List.mem_range.mpr hx)
  obtain ⟨gy, y0, y1⟩ := sm_get _ th y (List.mem_range.mpr hy)
  dsimp only at gx gy x0 x1 y0 y1
  have hA := aboveRow_px hf p.block
  have hL := leftCol_px hf p.block
  unfold Prep.predict
  rw [if_pos ⟨Sx, Sy⟩]
  simp only [predOf]
  unfold smooth
  rw [gx, gy, edge_above S R rfl (by push_cast; omega) (by left; push_cast; omega), show -((4 * p.th : Nat) : Int) = -(1 + (((4 * p.th : Nat) : Int) - 1)) by omega,
    edge_left S R rfl (by push_cast; omega) (by left; push_cast; omega), edge_above S R rfl (by omega) (by left; omega), edge_left S R rfl (by omega) (by left; omega),
    show (1 + (x : Int)) - 1 = x by omega]
  simp only [Option.bind_some, Option.map_some]
  unfold Spec.smooth Spec.Round2 asr
  dsimp only
  generalize (Spec.smWeights (4 * p.tw))[x]?.getD 0 = wx at *
  generalize (Spec.smWeights (4 * p.th))[y]?.getD 0 = wy at *
  have c1 := convex (w := wy) (by omega) (by omega) (hA x) (hL (((4 * p.th : Nat) : Int) - 1))
  have c2 := convex (w := wx) (by omega) (by omega) (hL y) (hA (((4 * p.tw : Nat) : Int) - 1))
  generalize Spec.leftCol d f p.block (((4 * p.th : Nat) : Int) - 1) = fl at *
  generalize Spec.aboveRow d f p.block (((4 * p.tw : Nat) : Int) - 1) = fa at *
  rw [toPixel_id (by norm_num; omega)]
  norm_num

theorem C58_smoothV : p.predict d .smoothV delta flags maxW maxH x y =
    some (Spec.smoothV (Spec.aboveRow d f p.block) (Spec.leftCol d f p.block) (4 * p.th) y x) := by
  have S := T.sized
  obtain ⟨Sx, Sy, w1, w16, h1, h16⟩ := id S
  obtain ⟨tw, th⟩ := tx_mem _ T.tx
  obtain ⟨gy, y0, y1⟩ := sm_get _ th y (List.mem_range.mpr hy)
  dsimp only at gy y0 y1
  have hA := aboveRow_px hf p.block
  have hL := leftCol_px hf p.block
  unfold Prep.predict
  rw [if_pos ⟨Sx, Sy⟩]
  simp only [predOf]
  unfold smoothV
  rw [gy, show -((4 * p.th : Nat) : Int) = -(1 + (((4 * p.th : Nat) : Int) - 1)) by omega,
    edge_left S R rfl (by push_cast; omega) (by left; push_cast; omega), edge_above S R rfl (by omega) (by left; omega),
    show (1 + (x : Int)) - 1 = x by omega]
  simp only [Option.bind_some, Option.map_some]
  unfold Spec.smoothV Spec.Round2 asr
  dsimp only
  generalize (Spec.smWeights (4 * p.th))[y]?.getD 0 = wy at *
  have c1 := convex (w := wy) (by omega) (by omega) (hA x) (hL (((4 * p.th : Nat) : Int) - 1))
  generalize Spec.leftCol d f p.block (((4 * p.th : Nat) : Int) - 1) = fl at *
  generalize Spec.aboveRow d f p.block (((4 * p.tw : Nat) : Int) - 1) = fa at *
  rw [toPixel_id (by norm_num; omega)]
  norm_num

theorem C58_smoothH : p.predict d .smoothH delta flags maxW maxH x y =
    some (Spec.smoothH (Spec.aboveRow d f p.block) (Spec.leftCol d f p.block) (4 * p.tw) y x) := by
  have S := T.sized
  obtain ⟨Sx, Sy, w1, w16, h1, h16⟩ := id S
  obtain ⟨tw, th⟩ := tx_mem _ T.tx
  obtain ⟨gx, x0, x1⟩ := sm_get _ tw x (List.mem_range.mpr hx)
  dsimp only at gx x0 x1
  have hA := aboveRow_px hf p.block
  have hL := leftCol_px hf p.block
  unfold Prep.predict
  rw [if_pos ⟨Sx, Sy⟩]
  simp only [predOf]
  unfold smoothH
  rw [gx, edge_above S R rfl (by push_cast; omega) (by left; push_cast; omega), show -((y : Int) + 1) = -(1 + y) by omega, edge_left S R rfl (by omega) (by left; omega)]
  simp only [Option.bind_some, Option.map_some]
  unfold Spec.smoothH Spec.Round2 asr
  dsimp only
  generalize (Spec.smWeights (4 * p.tw))[x]?.getD 0 = wx at *
  have c2 := convex (w := wx) (by omega) (by omega) (hL y) (hA (((4 * p.tw : Nat) : Int) - 1))
  generalize Spec.leftCol d f p.block (((4 * p.th : Nat) : Int) - 1) = fl at *
  generalize Spec.aboveRow d f p.block (((4 * p.tw : Nat) : Int) - 1) = fa at *
  rw [toPixel_id (by norm_num; omega)]
  norm_num

variable {lo hi : Int} (W : p.Within f lo hi)
include W

/-- **C42**: the DC prediction is between the smallest and the largest pixel used. -/
theorem C42_dc : ∃ v, p.predict d .dc delta flags maxW maxH x y = some v ∧ lo ≤ v ∧ v ≤ hi := by
  have S := T.sized
  refine ⟨_, C58_dc T R hf delta flags maxW maxH x y, ?_⟩
  have sA := addPixels_bounds (4 * p.tw) (v := fun k => Spec.aboveRow d f p.block k) fun k hk => within_above (d := d) W S (i := k) (by omega) (by omega)
  have sL := addPixels_bounds (4 * p.th) (v := fun k => Spec.leftCol d f p.block k) fun k hk => within_left (d := d) W S (i := k) (by omega) (by omega)
  have := S.tw1
  have := S.th1
  have any := W.any
  unfold Spec.dc
  rcases (Bool.eq_false_or_eq_true p.haveLeft).symm with hl | hl <;> rcases (Bool.eq_false_or_eq_true p.haveTop).symm with ht | ht <;> simp only [hl, ht]
  · simp [hl, ht] at any
  · exact mean_range (by push_cast; omega) sA.1 sA.2
  · exact mean_range (by push_cast; omega) sL.1 sL.2
  · refine mean_range (by push_cast; omega) ?_ ?_ <;> rw [Int.add_mul] <;> omega

/-- **C42**: vertical prediction (V_PRED without angle delta). -/
theorem C42_vert (sm : Bool) (hW : min (4 * (p.tw : Int)) maxW = min (4 * (p.tw : Int)) (4 * ((p.w : Int) - p.x))) (hH : min (4 * (p.th : Int)) maxH = min (4 * (p.th : Int)) (4 * ((p.h : Int) - p.y))) :
    ∃ v, p.predict d (.dir 0) 0 (dirFlags p.filterEdge sm) maxW maxH x y = some v ∧ lo ≤ v ∧ v ≤ hi :=
  ⟨_, C58_directional T.sized R hf 0 (by omega) sm hW hH hx hy, within_above W T.sized (i := x) (by omega) (by omega)⟩

/-- **C42**: horizontal prediction (H_PRED without angle delta). -/
theorem C42_hor (sm : Bool) (hW : min (4 * (p.tw : Int)) maxW = min (4 * (p.tw : Int)) (4 * ((p.w : Int) - p.x))) (hH : min (4 * (p.th : Int)) maxH = min (4 * (p.th : Int)) (4 * ((p.h : Int) - p.y))) :
    ∃ v, p.predict d (.dir 1) 0 (dirFlags p.filterEdge sm) maxW maxH x y = some v ∧ lo ≤ v ∧ v ≤ hi :=
  ⟨_, C58_directional T.sized R hf 1 (by omega) sm hW hH hx hy, within_left W T.sized (i := y) (by omega) (by omega)⟩

/-- **C42**: Paeth prediction; with both neighbours it also uses the pixel above and left of the block. -/
theorem C42_paeth (hc : p.haveTop = true → p.haveLeft = true → lo ≤ f (4 * p.y - 1) (4 * p.x - 1) ∧ f (4 * p.y - 1) (4 * p.x - 1) ≤ hi) :
    ∃ v, p.predict d .paeth delta flags maxW maxH x y = some v ∧ lo ≤ v ∧ v ≤ hi := by
  have S := T.sized
  obtain ⟨Sx, Sy, w1, w16, h1, h16⟩ := id S
  refine ⟨_, C58_paeth T R delta flags maxW maxH hx hy, ?_⟩
  have a := within_above (d := d) W S (i := x) (by omega) (by omega)
  have l := within_left (d := d) W S (i := y) (by omega) (by omega)
  have c : lo ≤ Spec.aboveRow d f p.block (-1) ∧ Spec.aboveRow d f p.block (-1) ≤ hi := by
    have any := W.any
    unfold Spec.aboveRow
    rw [if_pos rfl]
    rcases (Bool.eq_false_or_eq_true p.haveLeft).symm with hl | hl <;> rcases (Bool.eq_false_or_eq_true p.haveTop).symm with ht | ht <;> simp only [hl, ht]
    · simp [hl, ht] at any
    · simpa using W.top ht 0 (by omega) (by omega) (by omega)
    · simpa using W.left hl 0 (by omega) (by omega) (by omega)
    · exact hc ht hl
  unfold Spec.paeth
  dsimp only
  split_ifs
  · exact l
  · exact a
  · exact c

/-- **C42**: smooth prediction. -/
theorem C42_smooth : ∃ v, p.predict d .smooth delta flags maxW maxH x y = some v ∧ lo ≤ v ∧ v ≤ hi := by
  have S := T.sized
  refine ⟨_, C58_smooth T R hf delta flags maxW maxH hx hy, ?_⟩
  obtain ⟨tw, th⟩ := tx_mem _ T.tx
  obtain ⟨-, x0, x1⟩ := sm_get _ tw x (List.mem_range.mpr hx)
  obtain ⟨-, y0, y1⟩ := sm_get _ th y (List.mem_range.mpr hy)
  dsimp only at x0 x1 y0 y1
  have := S.tw1
  have := S.th1
  have c1 := convex (w := (Spec.smWeights (4 * p.th))[y]?.getD 0) (by omega) (by omega) (within_above (d := d) W S (i := x) (by omega) (by omega))
    (within_left (d := d) W S (i := ((4 * p.th : Nat) : Int) - 1) (by push_cast; omega) (by push_cast; omega))
  have c2 := convex (w := (Spec.smWeights (4 * p.tw))[x]?.getD 0) (by omega) (by omega) (within_left (d := d) W S (i := y) (by omega) (by omega))
    (within_above (d := d) W S (i := ((4 * p.tw : Nat) : Int) - 1) (by push_cast; omega) (by push_cast; omega))
  unfold Spec.smooth Spec.Round2
  dsimp only
  rw [show ((2 : Int) ^ 9) = 512 from rfl]
  omega

/-- **C42**: vertical smooth prediction. -/
theorem C42_smoothV : ∃ v, p.predict d .smoothV delta flags maxW maxH x y = some v ∧ lo ≤ v ∧ v ≤ hi := by
  have S := T.sized
  refine ⟨_, C58_smoothV T R hf delta flags maxW maxH hx hy, ?_⟩
  obtain ⟨tw, th⟩ := tx_mem _ T.tx
  obtain ⟨-, y0, y1⟩ := sm_get _ th y (List.mem_range.mpr hy)
  dsimp only at y0 y1
  have := S.tw1
  have := S.th1
  have c1 := convex (w := (Spec.smWeights (4 * p.th))[y]?.getD 0) (by omega) (by omega) (within_above (d := d) W S (i := x) (by omega) (by omega))
    (within_left (d := d) W S (i := ((4 * p.th : Nat) : Int) - 1) (by push_cast; omega) (by push_cast; omega))
  unfold Spec.smoothV Spec.Round2
  dsimp only
  rw [show ((2 : Int) ^ 8) = 256 from rfl]
  omega

/-- **C42**: horizontal smooth prediction. -/
theorem C42_smoothH : ∃ v, p.predict d .smoothH delta flags maxW maxH x y = some v ∧ lo ≤ v ∧ v ≤ hi := by
  have S := T.sized
  refine ⟨_, C58_smoothH T R hf delta flags maxW maxH hx hy, ?_⟩
  obtain ⟨tw, th⟩ := tx_mem _ T.tx
  obtain ⟨-, x0, x1⟩ := sm_get _ tw x (List.mem_range.mpr hx)
  dsimp only at x0 x1
  have := S.tw1
  have := S.th1
  have c2 := convex (w := (Spec.smWeights (4 * p.tw))[x]?.getD 0) (by omega) (by omega) (within_left (d := d) W S (i := y) (by omega) (by omega))
    (within_above (d := d) W S (i := ((4 * p.tw : Nat) : Int) - 1) (by push_cast; omega) (by push_cast; omega))
  unfold Spec.smoothH Spec.Round2
  dsimp only
  rw [show ((2 : Int) ^ 8) = 256 from rfl]
  omega
end

/-- **C42**: a palette prediction is one of the palette's colours, hence between its smallest and largest. -/
theorem C42_palette {pal : Nat → Option Int} {idx : Nat → Option Nat} {w x y : Nat} {v : Int} (h : palPred pal idx w x y = some v) : ∃ i < 8, pal i = some v := by
  unfold palPred at h
  obtain ⟨i, -, h⟩ := Option.bind_eq_some_iff.mp h
  split at h
  · refine ⟨_, ?_, h⟩
    split <;> omega
  · simp at h

/-- The colour is the one of the pixel's index: two indices are packed in one byte. -/
theorem C42_palette_index {pal : Nat → Int} {index : Nat → Nat → Nat} {w h : Nat} (hw : w % 2 = 0) (hi : ∀ x y, index x y < 8) {idx : Nat → Option Nat}
    (hx : ∀ b < w / 2 * h, idx b = some (index (2 * (b % (w / 2))) (b / (w / 2)) + 16 * index (2 * (b % (w / 2)) + 1) (b / (w / 2)))) {x y : Nat} (h1 : x < w) (h2 : y < h) :
    palPred (fun i => some (pal i)) idx w x y = some (pal (index x y)) := by
  unfold palPred
  have hw2 : (w + 1) / 2 = w / 2 := by omega
  have hlt : y * (w / 2) + x / 2 < w / 2 * h := by
    calc y * (w / 2) + x / 2 < y * (w / 2) + w / 2 := by omega
      _ = (y + 1) * (w / 2) := by ring
      _ ≤ h * (w / 2) := Nat.mul_le_mul_right _ h2
      _ = _ := Nat.mul_comm _ _
  have e1 : (y * (w / 2) + x / 2) / (w / 2) = y := by
    rw [Nat.add_comm, Nat.add_mul_div_right _ _ (by omega), Nat.div_eq_of_lt (by omega), Nat.zero_add]
  have e2 : (y * (w / 2) + x / 2) % (w / 2) = x / 2 := by
    rw [Nat.add_comm, Nat.add_mul_mod_self_right, Nat.mod_eq_of_lt (by omega)]
  rw [hw2, hx _ hlt, e1, e2, Option.bind_some]
  have i1 := hi (2 * (x / 2)) y
  have i2 := hi (2 * (x / 2) + 1) y
  rw [if_pos (by omega)]
  by_cases hm : x % 2 = 0
  · rw [if_pos hm, show 2 * (x / 2) = x by omega]
    rw [show 2 * (x / 2) = x by omega] at i1 i2
    congr 2; omega
  · rw [if_neg hm, show 2 * (x / 2) + 1 = x by omega]
    rw [show 2 * (x / 2) + 1 = x by omega] at i2
    congr 2; omega

end Dav1d.Ipred
