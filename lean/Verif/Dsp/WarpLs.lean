import Verif.Dsp.WarpLocal
/-! # The least squares solution does not overflow: C47 -/
namespace Dav1d.Warp
open List
open Spec (Block)

theorem perm_map_exists {α β : Type} (f : α → β) {s t : List β} (h : s ~ t) : ∀ l : List α, t = l.map f → ∃ l', l' ~ l ∧ s = l'.map f := by
  induction h with
  | nil => intro l hl; exact ⟨l, Perm.refl _, hl⟩
  | cons x h ih =>
    intro l hl
    cases l with
    | nil => simp at hl
    | cons a l =>
      simp only [List.map_cons, List.cons.injEq] at hl
      obtain ⟨l', h1, h2⟩ := ih l hl.2
      exact ⟨a :: l', h1.cons a, by rw [List.map_cons, h2, hl.1]⟩
  | swap x y t =>
    intro l hl
    match l, hl with
    | a :: c :: l, hl =>
      simp only [List.map_cons, List.cons.injEq] at hl
      exact ⟨c :: a :: l, Perm.swap _ _ _, by simp [hl.1, hl.2.1, hl.2.2]⟩
    | [a], hl => simp at hl
    | [], hl => simp at hl
  | trans _ _ ih1 ih2 =>
    intro l hl
    obtain ⟨l1, h1, h2⟩ := ih2 l hl
    obtain ⟨l2, h3, h4⟩ := ih1 l1 h2
    exact ⟨l2, h3.trans h1, h4⟩

/-! ## An inequality about least squares

`p` and `q` are the (odd) coordinates, `e` the difference in motion. -/
section
variable {α : Type} (p q e : α → Int)

def S (l : List α) (f : α → Int) : Int := (l.map f).sum

theorem S_nil (f : α → Int) : S [] f = 0 := rfl
theorem S_cons (a : α) (l : List α) (f : α → Int) : S (a :: l) f = f a + S l f := by simp [S]

/-- Each residual is weighed against its square. -/
theorem weigh (P Q : Int) (hP : 0 ≤ P) (l : List α) (he : ∀ c ∈ l, |e c| ≤ 255) :
    |2 * P * (P * S l (fun c => e c * p c) - Q * S l (fun c => e c * q c))| ≤
      255 * (P * P * S l (fun c => p c * p c) - 2 * P * Q * S l (fun c => p c * q c) + Q * Q * S l (fun c => q c * q c) + l.length * (P * P)) := by
  induction l with
  | nil => simp [S_nil]
  | cons a l ih =>
    have ih := ih (fun c hc => he c (by simp [hc]))
    have ha := abs_le.mp (he a (by simp))
    simp only [S_cons, List.length_cons]
    push_cast
    have hstep : |2 * P * (e a * (P * p a - Q * q a))| ≤ 255 * ((P * p a - Q * q a) ^ 2 + P ^ 2) := by
      generalize P * p a - Q * q a = w
      rw [abs_mul, abs_of_nonneg (by omega : 0 ≤ 2 * P), abs_mul]
      have h1 : |e a| * |w| ≤ 255 * |w| := mul_le_mul_of_nonneg_right (he a (by simp)) (abs_nonneg _)
      have h2 : 2 * P * |w| ≤ w ^ 2 + P ^ 2 := by
        have := sq_nonneg (|w| - P)
        have hw : |w| ^ 2 = w ^ 2 := sq_abs w
        nlinarith
      have h3 : 2 * P * (|e a| * |w|) ≤ 2 * P * (255 * |w|) := mul_le_mul_of_nonneg_left h1 (by omega)
      linarith
    have hsum := abs_add_le (2 * P * (e a * (P * p a - Q * q a))) (2 * P * (P * S l (fun c => e c * p c) - Q * S l (fun c => e c * q c)))
    have e1 : 2 * P * (e a * (P * p a - Q * q a)) + 2 * P * (P * S l (fun c => e c * p c) - Q * S l (fun c => e c * q c)) =
        2 * P * (P * (e a * p a + S l (fun c => e c * p c)) - Q * (e a * q a + S l (fun c => e c * q c))) := by ring
    rw [e1] at hsum
    nlinarith

theorem sum_abs_le (l : List α) (hp : ∀ c ∈ l, p c ≠ 0) (he : ∀ c ∈ l, |e c| ≤ 255) :
    |S l (fun c => e c * p c)| ≤ 255 * S l (fun c => p c * p c) := by
  induction l with
  | nil => simp [S_nil]
  | cons a l ih =>
    have ih := ih (fun c hc => hp c (by simp [hc])) (fun c hc => he c (by simp [hc]))
    simp only [S_cons]
    have h1 : |e a * p a| ≤ 255 * (p a * p a) := by
      rw [abs_mul]
      have h2 : |p a| ≤ p a * p a := by
        rw [← abs_mul_abs_self]
        have : 1 ≤ |p a| := Int.one_le_abs (hp a (by simp))
        nlinarith
      have h3 := mul_le_mul (he a (by simp)) h2 (abs_nonneg _) (by norm_num)
      exact h3
    have := abs_add_le (e a * p a) (S l fun c => e c * p c)
    linarith

theorem sum_sq_pos (l : List α) (hq : ∀ c ∈ l, q c ≠ 0) : (l.length : Int) ≤ S l (fun c => q c * q c) := by
  induction l with
  | nil => simp [S_nil]
  | cons a l ih =>
    have ih := ih (fun c hc => hq c (by simp [hc]))
    have : 1 ≤ q a * q a := by
      have := mul_self_pos.mpr (hq a (by simp)); omega
    simp only [S_cons, List.length_cons]
    push_cast
    linarith

/-- Cauchy's inequality. -/
theorem gram_nonneg (l : List α) (hq : ∀ c ∈ l, q c ≠ 0) (hl : l ≠ []) :
    0 ≤ S l (fun c => p c * p c) * S l (fun c => q c * q c) - S l (fun c => p c * q c) * S l (fun c => p c * q c) := by
  have hpos : 0 < S l (fun c => q c * q c) := by
    have h1 := sum_sq_pos q l hq
    have := List.length_pos_iff.mpr hl
    omega
  have h := weigh p q (fun _ => 0) (S l (fun c => q c * q c)) (S l (fun c => p c * q c)) hpos.le l (by simp)
  -- the squares alone
  have hs : ∀ (P Q : Int) (l : List α), 0 ≤ P * P * S l (fun c => p c * p c) - 2 * P * Q * S l (fun c => p c * q c) + Q * Q * S l (fun c => q c * q c) := by
    intro P Q l
    induction l with
    | nil => simp [S_nil]
    | cons a l ih =>
      simp only [S_cons]
      have := sq_nonneg (P * p a - Q * q a)
      nlinarith
  have h2 := hs (S l (fun c => q c * q c)) (S l (fun c => p c * q c)) l
  generalize S l (fun c => q c * q c) = H11 at *
  generalize S l (fun c => p c * q c) = H01 at *
  generalize S l (fun c => p c * p c) = H00 at *
  have h3 : 0 ≤ H11 * (H00 * H11 - H01 * H01) := by nlinarith
  exact nonneg_of_mul_nonneg_right h3 hpos

/-- The numerator of a solution is at most 382.5 times the denominator. -/
theorem solution_le (l : List α) (hp : ∀ c ∈ l, p c ≠ 0) (hq : ∀ c ∈ l, q c ≠ 0) (he : ∀ c ∈ l, |e c| ≤ 255) (hl : l ≠ []) :
    2 * |(S l (fun c => q c * q c) + l.length) * S l (fun c => e c * p c) - S l (fun c => p c * q c) * S l (fun c => e c * q c)| ≤
      765 * ((S l (fun c => p c * p c) + l.length) * (S l (fun c => q c * q c) + l.length) - S l (fun c => p c * q c) * S l (fun c => p c * q c)) := by
  have hn : (0 : Int) < l.length := by have := List.length_pos_iff.mpr hl; omega
  have hqq := sum_sq_pos q l hq
  have hpp := sum_sq_pos p l hp
  have hg := gram_nonneg p q l hq hl
  have h1 := weigh p q e (S l (fun c => q c * q c)) (S l (fun c => p c * q c)) (by omega) l he
  have h2 := sum_abs_le p e l hp he
  generalize S l (fun c => q c * q c) = H11 at *
  generalize S l (fun c => p c * q c) = H01 at *
  generalize S l (fun c => p c * p c) = H00 at *
  generalize S l (fun c => e c * p c) = c0 at *
  generalize S l (fun c => e c * q c) = c1 at *
  generalize (l.length : Int) = n at *
  have hpos : 0 < H11 := by omega
  -- divide by H11
  have h3 : 2 * |H11 * c0 - H01 * c1| ≤ 255 * (H00 * H11 - H01 * H01 + n * H11) := by
    rw [abs_mul, abs_of_nonneg (by omega : 0 ≤ 2 * H11)] at h1
    have h4 : H11 * (2 * |H11 * c0 - H01 * c1|) ≤ H11 * (255 * (H00 * H11 - H01 * H01 + n * H11)) := by nlinarith
    exact le_of_mul_le_mul_left h4 hpos
  have h5 : |n * c0| ≤ n * (255 * H00) := by
    rw [abs_mul, abs_of_nonneg hn.le]; exact mul_le_mul_of_nonneg_left h2 hn.le
  have h6 := abs_add_le (H11 * c0 - H01 * c1) (n * c0)
  have e1 : H11 * c0 - H01 * c1 + n * c0 = (H11 + n) * c0 - H01 * c1 := by ring
  rw [e1] at h6
  have h7 : 0 ≤ n * H00 := by nlinarith
  have h8 : 0 ≤ n * H11 := by nlinarith
  have h9 : 0 ≤ n * n := by nlinarith
  nlinarith

end

end Dav1d.Warp
