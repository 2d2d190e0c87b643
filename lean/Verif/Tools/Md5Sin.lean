import Verif.Tools.Md5Spec
import Mathlib.Analysis.SpecialFunctions.Exponential
import Mathlib.Tactic.Linarith
import Mathlib.Tactic.Ring
import Mathlib.Tactic.FieldSimp
import Mathlib.Tactic.NormNum
import Mathlib.Tactic.Positivity

/-! The constants of md5.c are those of RFC 1321, `⌊2^32 |sin (i + 1)|⌋`: by the Taylor polynomial
of degree 249, evaluated exactly. -/

namespace Dav1d.Md5

open Finset

/-- The imaginary part of a partial sum of the exponential series. -/
theorem im_sum (x : ℝ) (N : ℕ) :
    (∑ m ∈ range (2 * N), ((x : ℂ) * Complex.I) ^ m / m.factorial).im =
      ∑ j ∈ range N, (-1) ^ j * x ^ (2 * j + 1) / (2 * j + 1).factorial := by
  have hsq (j : ℕ) : ((x : ℂ) * Complex.I) ^ (2 * j) = (((-1) ^ j * x ^ (2 * j) : ℝ) : ℂ) := by
    rw [pow_mul, mul_pow, Complex.I_sq]
    push_cast
    rw [pow_mul, ← mul_pow]
    congr 1
    ring
  induction N with
  | zero => simp
  | succ N ih =>
    rw [show 2 * (N + 1) = 2 * N + 1 + 1 by ring, sum_range_succ, sum_range_succ, sum_range_succ,
      ← ih, Complex.add_im, Complex.add_im]
    have e1 : (((x : ℂ) * Complex.I) ^ (2 * N) / ((2 * N).factorial : ℂ)).im = 0 := by
      rw [hsq]
      have : ((((-1) ^ N * x ^ (2 * N) : ℝ) : ℂ) / ((2 * N).factorial : ℂ)) =
          (((-1) ^ N * x ^ (2 * N) / (2 * N).factorial : ℝ) : ℂ) := by push_cast; rfl
      rw [this, Complex.ofReal_im]
    have e2 : (((x : ℂ) * Complex.I) ^ (2 * N + 1) / ((2 * N + 1).factorial : ℂ)).im =
        (-1) ^ N * x ^ (2 * N + 1) / (2 * N + 1).factorial := by
      rw [pow_succ, hsq]
      have : ((((-1) ^ N * x ^ (2 * N) : ℝ) : ℂ) * ((x : ℂ) * Complex.I) /
          ((2 * N + 1).factorial : ℂ)) =
          (((-1) ^ N * x ^ (2 * N + 1) / (2 * N + 1).factorial : ℝ) : ℂ) * Complex.I := by
        push_cast
        rw [pow_succ]
        ring
      rw [this, Complex.im_ofReal_mul, Complex.I_im, mul_one]
    rw [e1, e2]
    ring

/-- Taylor's theorem for the sine, with a crude bound of the remainder. -/
theorem sin_taylor (x : ℝ) (hx0 : 0 ≤ x) (N : ℕ) (hx : x / (2 * N + 1) ≤ 1 / 2) :
    |Real.sin x - ∑ j ∈ range N, (-1) ^ j * x ^ (2 * j + 1) / (2 * j + 1).factorial| ≤
      x ^ (2 * N) / (2 * N).factorial * 2 := by
  have hn : ‖(x : ℂ) * Complex.I‖ = x := by
    rw [norm_mul, Complex.norm_I, mul_one, Complex.norm_real, Real.norm_eq_abs, abs_of_nonneg hx0]
  have h := Complex.exp_bound' (x := (x : ℂ) * Complex.I) (n := 2 * N)
    (by rw [hn]; push_cast; exact hx)
  rw [hn] at h
  refine le_trans ?_ h
  refine le_trans (le_of_eq ?_) (Complex.abs_im_le_norm _)
  rw [Complex.sub_im, im_sum, Complex.exp_ofReal_mul_I_im]

/-- `F` times the first terms of the Taylor series at a natural number, an integer. -/
def taylor (F n : Nat) : Nat → Int
  | 0 => 0
  | j + 1 => taylor F n j +
    (-1) ^ j * (n : Int) ^ (2 * j + 1) * ((F / Nat.factorial (2 * j + 1) : Nat) : Int)

theorem taylor_eq (F n : Nat) : ∀ N, (∀ j < N, (2 * j + 1).factorial ∣ F) → (taylor F n N : ℝ) =
    (F : ℝ) * ∑ j ∈ range N, (-1) ^ j * (n : ℝ) ^ (2 * j + 1) / (2 * j + 1).factorial := by
  intro N
  induction N with
  | zero => intro _; simp [taylor]
  | succ N ih =>
    intro hN
    rw [taylor, sum_range_succ, mul_add, ← ih (fun j hj => hN j (by omega))]
    obtain ⟨q, hq⟩ := hN N (by omega)
    have hp : 0 < (2 * N + 1).factorial := Nat.factorial_pos _
    have h0 : ((2 * N + 1).factorial : ℝ) ≠ 0 := by exact_mod_cast hp.ne'
    rw [show F / (2 * N + 1).factorial = q by rw [hq]; exact Nat.mul_div_cancel_left q hp]
    rw [show (F : ℝ) = ((2 * N + 1).factorial : ℝ) * q by rw [hq]; push_cast; rfl]
    push_cast
    field_simp

/-- What is to be checked of a constant: `2^32 |taylor n| / F` is inside `[v, v + 1)` by more than
the remainder, where `(2 N)! = G F`. -/
def okAt (N F G n v : Nat) : Bool :=
  let t : Nat := (taylor F n N).natAbs
  decide (0 < v ∧ v * F * G + n ^ (2 * N) * 2 * 4294967296 ≤ 4294967296 * t * G ∧
    4294967296 * t * G + n ^ (2 * N) * 2 * 4294967296 < (v + 1) * F * G)

theorem floor_of_ok (N F G n v : Nat) (hN : 64 ≤ N) (hn : n ≤ 64) (hF : 0 < F) (hG : 0 < G)
    (hf : (2 * N).factorial = G * F)
    (hd : ∀ j < N, (2 * j + 1).factorial ∣ F) (h : okAt N F G n v = true) :
    ⌊4294967296 * |Real.sin (n : ℝ)|⌋₊ = v := by
  simp only [okAt, decide_eq_true_eq] at h
  obtain ⟨h0, h1, h2⟩ := h
  have hs := sin_taylor (n : ℝ) (by positivity) N (by
    have h1 : (n : ℝ) ≤ 64 := by exact_mod_cast hn
    have h2 : (64 : ℝ) ≤ N := by exact_mod_cast hN
    rw [div_le_iff₀ (by positivity)]
    linarith)
  have ht := taylor_eq F n N hd
  have hF : (0 : ℝ) < (F : ℝ) := by exact_mod_cast hF
  have hG : (0 : ℝ) < (G : ℝ) := by exact_mod_cast hG
  rw [hf] at hs
  generalize taylor F n N = t at *
  generalize ∑ j ∈ range N, (-1) ^ j * (n : ℝ) ^ (2 * j + 1) / (2 * j + 1).factorial = S at *
  have hta : (t.natAbs : ℝ) = F * |S| := by
    rw [Nat.cast_natAbs, Int.cast_abs, ht, abs_mul, abs_of_pos hF]
  have h1' : (v : ℝ) * F * G + (n : ℝ) ^ (2 * N) * 2 * 4294967296 ≤
      4294967296 * (F * |S|) * G := by
    rw [← hta]; exact_mod_cast h1
  have h2' : 4294967296 * (F * |S|) * G + (n : ℝ) ^ (2 * N) * 2 * 4294967296 <
      ((v : ℝ) + 1) * F * G := by
    rw [← hta]; exact_mod_cast h2
  clear h1 h2 hta ht
  have hab : |(|Real.sin n| - |S|)| ≤ (n : ℝ) ^ (2 * N) / ((G * F : ℕ) : ℝ) * 2 :=
    le_trans (abs_abs_sub_abs_le _ _) hs
  push_cast at hab
  generalize (n : ℝ) ^ (2 * N) = P at *
  generalize |Real.sin n| = A at *
  generalize |S| = B at *
  have e : P / (G * F) * 2 * (G * F) = P * 2 := by field_simp
  obtain ⟨l, r⟩ := abs_le.1 hab
  have hF' : (0 : ℝ) < G * F := by positivity
  have l' := mul_le_mul_of_nonneg_right l hF'.le
  have r' := mul_le_mul_of_nonneg_right r hF'.le
  rw [e] at r'
  rw [neg_mul, e] at l'
  refine (Nat.floor_eq_iff' (by omega)).2 ⟨?_, ?_⟩
  · refine le_of_mul_le_mul_right ?_ hF'
    nlinarith
  · refine lt_of_mul_lt_mul_right ?_ hF'.le
    nlinarith

theorem fact_eq (N m : Nat) (h : 2 * N = m + 1) : (2 * N).factorial = (m + 1) * m.factorial := by
  rw [h, Nat.factorial_succ]

theorem table_ok : ∀ i ∈ List.range 64,
    okAt 125 (Nat.factorial 249) (249 + 1) (i + 1) (k i).toNat = true := by
  decide +kernel

/-- The constants are those of the RFC. -/
theorem k_eq (i : Nat) (hi : i < 64) : k i = Spec.T i := by
  have := floor_of_ok 125 (Nat.factorial 249) (249 + 1) (i + 1) (k i).toNat (by decide) (by omega)
    (Nat.factorial_pos 249) (by decide) (fact_eq 125 249 (by decide))
    (fun j hj => Nat.factorial_dvd_factorial (by omega)) (table_ok i (List.mem_range.2 hi))
  unfold Spec.T
  rw [show ((i : ℝ) + 1) = ((i + 1 : ℕ) : ℝ) by push_cast; rfl, this, UInt32.ofNat_toNat]

end Dav1d.Md5
