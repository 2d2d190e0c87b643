import Verif.Dsp.LrSpec
import Mathlib.Tactic.Ring
/-!
# The restoration filters move with the picture

They depend on samples at most three columns away, and moving the picture by an even number of rows moves the result.
-/
namespace Dav1d.Lrs
open Dav1d.Lr.Spec

variable {s t : Int → Int → Int} {a b y x : Int}

theorem wiener_shift {bd : Nat} {hc vc : Nat → Int} (h : ∀ j i, x - 3 ≤ i → i ≤ x + 3 → s j i = t (j + a) (i + b)) :
    wiener bd hc vc s y x = wiener bd hc vc t (y + a) (x + b) := by
  have key : ∀ row : Int, (∑ k ∈ Finset.range 7, Dav1d.Lr.Spec.getFilter hc k * s (row - 3) (x + k - 3)) = ∑ k ∈ Finset.range 7, Dav1d.Lr.Spec.getFilter hc k * t (row + a - 3) (x + b + k - 3) := fun row =>
    Finset.sum_congr rfl fun k hk => by
      have := Finset.mem_range.1 hk
      rw [h _ _ (by omega) (by omega), show row - 3 + a = row + a - 3 by ring, show x + (k : Int) - 3 + b = x + b + k - 3 by ring]
  unfold wiener
  simp only [key]
  simp only [show ∀ k : Nat, y + (k : Int) + a = y + a + k from fun k => by ring]

theorem boxSum_shift {r : Int} {g : Int → Int} (h : ∀ j i, x - r ≤ i → i ≤ x + r → s j i = t (j + a) (i + b)) : boxSum r g s y x = boxSum r g t (y + a) (x + b) := by
  unfold boxSum
  refine Finset.sum_congr rfl fun dy _ => Finset.sum_congr rfl fun dx hx => ?_
  have := Finset.mem_Icc.1 hx
  rw [h _ _ (by omega) (by omega), show y + dy + a = y + a + dy by ring, show x + dx + b = x + b + dx by ring]

theorem boxAB_shift {bd : Nat} {r m : Int} (h : ∀ j i, x - r ≤ i → i ≤ x + r → s j i = t (j + a) (i + b)) : boxAB bd r m s y x = boxAB bd r m t (y + a) (x + b) := by
  unfold boxAB
  simp only [boxSum_shift (y := y) h]

theorem boxFilter_shift {bd pass : Nat} {r m : Int} (ha : a % 2 = 0) (hr : 0 ≤ r ∧ r ≤ 2) (h : ∀ j i, x - 3 ≤ i → i ≤ x + 3 → s j i = t (j + a) (i + b)) :
    boxFilter bd pass r m s y x = boxFilter bd pass r m t (y + a) (x + b) := by
  have k1 : ∀ dy dx : Int, dx ∈ Finset.Icc (-1 : Int) 1 → weight pass y dy dx = weight pass (y + a) dy dx ∧ boxAB bd r m s (y + dy) (x + dx) = boxAB bd r m t (y + a + dy) (x + b + dx) := by
    intro dy dx hd
    have := Finset.mem_Icc.1 hd
    constructor
    · unfold weight
      rw [show (y + a + dy) % 2 = (y + dy) % 2 by omega]
    · rw [boxAB_shift (a := a) (b := b) (t := t) (fun j i h1 h2 => h j i (by omega) (by omega)), show y + dy + a = y + a + dy by ring, show x + dx + b = x + b + dx by ring]
  unfold boxFilter
  rw [show (y + a) % 2 = y % 2 by omega]
  simp only
  rw [h y x (by omega) (by omega)]
  congr 2
  · congr 1
    exact Finset.sum_congr rfl fun dy _ => Finset.sum_congr rfl fun dx hx => by rw [(k1 dy dx hx).1, (k1 dy dx hx).2]
  · exact Finset.sum_congr rfl fun dy _ => Finset.sum_congr rfl fun dx hx => by rw [(k1 dy dx hx).1, (k1 dy dx hx).2]

theorem radius_le : ∀ set : Fin 16, (0 ≤ (sgrParams.getD set ((0, 0), (0, 0))).1.1 ∧ (sgrParams.getD set ((0, 0), (0, 0))).1.1 ≤ 2) ∧
    (0 ≤ (sgrParams.getD set ((0, 0), (0, 0))).2.1 ∧ (sgrParams.getD set ((0, 0), (0, 0))).2.1 ≤ 2) := by decide

theorem selfGuided_shift {bd set : Nat} {w0 w1 : Int} (hs : set < 16) (ha : a % 2 = 0) (h : ∀ j i, x - 3 ≤ i → i ≤ x + 3 → s j i = t (j + a) (i + b)) :
    selfGuided bd set w0 w1 s y x = selfGuided bd set w0 w1 t (y + a) (x + b) := by
  have R := radius_le ⟨set, hs⟩
  unfold selfGuided
  simp only
  rw [boxFilter_shift (y := y) ha R.1 h, boxFilter_shift (y := y) ha R.2 h, h y x (by omega) (by omega)]

end Dav1d.Lrs
