import Verif.Dsp.IpredZ2
/-!
# The edge dav1d_prepare_intra_edges prepares is the specified one
-/
namespace Dav1d.Ipred

open Lf

variable {d : Depth} {f : Int → Int → Int} {p : Prep}

/-- The block whose edge is prepared, in pixels. -/
@[reducible] def Prep.block (p : Prep) : Spec.Block where
  x := 4 * p.x
  y := 4 * p.y
  w := 4 * p.tw
  h := 4 * p.th
  haveLeft := p.haveLeft
  haveAbove := p.haveTop
  haveAboveRt := p.hasRight
  haveBelowLft := p.hasBottom
  maxX := 4 * p.w - 1
  maxY := 4 * p.h - 1

/-- The memory holds the plane `f` (before the loop filters) next to the block, where it says it does. -/
structure Prep.Reads (p : Prep) (f : Int → Int → Int) : Prop where
  top : p.haveTop = true → ∀ c : Int, 0 ≤ c → (c < 4 * p.tw ∨ p.hasRight = true ∧ c < 8 * p.tw) → c < 4 * (p.w - p.x) →
    p.top c = some (f (4 * p.y - 1) (4 * p.x + c))
  left : p.haveLeft = true → ∀ r : Int, 0 ≤ r → (r < 4 * p.th ∨ p.hasBottom = true ∧ r < 8 * p.th) → r < 4 * (p.h - p.y) →
    p.dst r (-1) = some (f (4 * p.y + r) (4 * p.x - 1))
  corner : p.haveTop = true → p.haveLeft = true → p.top (-1) = some (f (4 * p.y - 1) (4 * p.x - 1))

theorem half_pow (d : Depth) : asr (2 ^ d.bpc) 1 = 2 ^ (d.bpc - 1) := by cases d <;> rfl

theorem above_eq (R : p.Reads f) (hx : p.x < p.w) (hy : p.y < p.h) (ht : 1 ≤ p.tw) (hth : 1 ≤ p.th) {i : Int} (h0 : 0 ≤ i) (h1 : i < 4 * p.tw + 4 * min (p.tw : Int) p.th) :
    p.above d i = some (Spec.aboveRow d f p.block i) := by
  unfold Prep.above Spec.aboveRow
  rw [if_neg (show ¬ i = -1 by omega), half_pow]
  simp only [Prep.block]
  rcases (Bool.eq_false_or_eq_true p.haveTop).symm with hT | hT
  · rcases (Bool.eq_false_or_eq_true p.haveLeft).symm with hL | hL
    · simp [hT, hL]
    · have := R.left hL 0 (by omega) (by omega) (by omega)
      simp [hT, hL, this]
  · simp only [hT, if_true, Bool.not_true, Bool.false_or]
    by_cases hs : i < (p.tw : Int) * 4
    · rw [if_pos hs, R.top hT _ (by omega) (by omega) (by omega), if_pos (by push_cast; omega)]
      congr 2
      push_cast
      omega
    · rw [if_neg hs, if_neg (show ¬ i < ((4 * p.tw : Nat) : Int) by push_cast; omega)]
      rcases (Bool.eq_false_or_eq_true p.hasRight).symm with hR | hR
      · simp only [hR, Bool.and_false, Bool.false_eq_true, if_false]
        rw [R.top hT _ (by omega) (by omega) (by omega)]
        congr 2
        push_cast
        omega
      · simp only [hR, Bool.and_true, if_true]
        by_cases hw : p.x + p.tw ≥ p.w
        · rw [if_neg (by simpa using hw), R.top hT _ (by omega) (by omega) (by omega)]
          congr 2
          push_cast
          omega
        · rw [if_pos (by simpa using hw), R.top hT _ (by omega) (Or.inr ⟨hR, by omega⟩) (by omega)]
          congr 2
          push_cast
          omega

theorem left_eq (R : p.Reads f) (hx : p.x < p.w) (hy : p.y < p.h) (ht : 1 ≤ p.tw) (hth : 1 ≤ p.th) {i : Int} (h0 : 0 ≤ i) (h1 : i < 4 * p.th + 4 * min (p.tw : Int) p.th) :
    p.left d i = some (Spec.leftCol d f p.block i) := by
  unfold Prep.left Spec.leftCol
  rw [if_neg (show ¬ i = -1 by omega), half_pow]
  simp only [Prep.block]
  rcases (Bool.eq_false_or_eq_true p.haveLeft).symm with hT | hT
  · rcases (Bool.eq_false_or_eq_true p.haveTop).symm with hL | hL
    · simp [hT, hL]
    · have := R.top hL 0 (by omega) (by omega) (by omega)
      simp [hT, hL, this]
  · simp only [hT, if_true, Bool.not_true, Bool.false_or]
    by_cases hs : i < (p.th : Int) * 4
    · rw [if_pos hs, R.left hT _ (by omega) (by omega) (by omega), if_pos (by push_cast; omega)]
      congr 2
      push_cast
      omega
    · rw [if_neg hs, if_neg (show ¬ i < ((4 * p.th : Nat) : Int) by push_cast; omega)]
      rcases (Bool.eq_false_or_eq_true p.hasBottom).symm with hR | hR
      · simp only [hR, Bool.and_false, Bool.false_eq_true, if_false]
        rw [R.left hT _ (by omega) (by omega) (by omega)]
        congr 2
        push_cast
        omega
      · simp only [hR, Bool.and_true, if_true]
        by_cases hw : p.y + p.th ≥ p.h
        · rw [if_neg (by simpa using hw), R.left hT _ (by omega) (by omega) (by omega)]
          congr 2
          push_cast
          omega
        · rw [if_pos (by simpa using hw), R.left hT _ (by omega) (Or.inr ⟨hR, by omega⟩) (by omega)]
          congr 2
          push_cast
          omega

/-- The pixel above and left of the block, before the corner filter. -/
theorem corner_eq (R : p.Reads f) (hx : p.x < p.w) (hy : p.y < p.h) (ht : 1 ≤ p.tw) (hth : 1 ≤ p.th) :
    (if p.haveLeft then (if p.haveTop then p.top (-1) else p.dst 0 (-1))
      else (if p.haveTop then p.top 0 else some (asr (2 ^ d.bpc) 1))) = some (Spec.aboveRow d f p.block (-1)) := by
  unfold Spec.aboveRow
  rw [if_pos rfl, half_pow]
  simp only [Prep.block]
  cases hT : p.haveLeft <;> cases hL : p.haveTop <;> simp
  · have := R.top hL 0 (by omega) (by omega) (by omega); simpa using this
  · have := R.left hT 0 (by omega) (by omega) (by omega); simpa using this
  · exact R.corner hL hT

/-- Every pixel of the plane is one. -/
def Pixels (d : Depth) (f : Int → Int → Int) : Prop := ∀ r c, 0 ≤ f r c ∧ f r c ≤ d.max

theorem half_range (d : Depth) : (1 : Int) ≤ 2 ^ (d.bpc - 1) ∧ (2 : Int) ^ (d.bpc - 1) + 1 ≤ d.max := by cases d <;> decide

theorem aboveRow_px (hf : Pixels d f) (b : Spec.Block) : Px d (Spec.aboveRow d f b) := by
  intro k
  have := half_range d
  unfold Spec.aboveRow
  split
  · split <;> first | exact hf _ _ | omega
  · split
    · exact hf _ _
    · split
      · exact hf _ _
      · omega

theorem leftCol_px (hf : Pixels d f) (b : Spec.Block) : Px d (Spec.leftCol d f b) := by
  intro k
  have := half_range d
  unfold Spec.leftCol
  split
  · exact aboveRow_px hf _ _
  · split
    · exact hf _ _
    · split
      · exact hf _ _
      · omega

theorem aboveRow_const {b : Spec.Block} {c : Int} (h0 : 0 ≤ c) (hc : (b.haveAboveRt = false ∧ c ≥ b.w - 1) ∨ c ≥ b.w + min (b.w : Int) b.h - 1 ∨ b.maxX ≤ b.x + c) (hw : 1 ≤ b.w) (hh : 1 ≤ b.h) :
    ConstFrom (Spec.aboveRow d f b) c := by
  intro i hi
  unfold Spec.aboveRow
  rw [if_neg (show ¬ i = -1 by omega), if_neg (show ¬ c = -1 by omega)]
  split
  · congr 1
    rcases hc with ⟨hr, hc⟩ | hc | hc
    · simp only [hr, Bool.false_eq_true, if_false]; split_ifs <;> omega
    · split_ifs <;> omega
    · split_ifs <;> omega
  · rfl

theorem leftCol_const {b : Spec.Block} {c : Int} (h0 : 0 ≤ c) (hc : (b.haveBelowLft = false ∧ c ≥ b.h - 1) ∨ c ≥ b.h + min (b.w : Int) b.h - 1 ∨ b.maxY ≤ b.y + c) (hw : 1 ≤ b.w) (hh : 1 ≤ b.h) :
    ConstFrom (Spec.leftCol d f b) c := by
  intro i hi
  unfold Spec.leftCol
  rw [if_neg (show ¬ i = -1 by omega), if_neg (show ¬ c = -1 by omega)]
  split
  · congr 1
    rcases hc with ⟨hr, hc⟩ | hc | hc
    · simp only [hr, Bool.false_eq_true, if_false]; split_ifs <;> omega
    · split_ifs <;> omega
    · split_ifs <;> omega
  · rfl

end Dav1d.Ipred
