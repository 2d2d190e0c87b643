import Verif.Dsp.WarpSpec
import Verif.Dsp.McLemmas
import Mathlib.Tactic.Linarith
import Mathlib.Tactic.Ring
import Mathlib.Algebra.Order.Ring.Int
import Mathlib.Algebra.Order.Ring.Abs
/-! # Lemmas about the warp parameters -/
namespace Dav1d.Warp

theorem i32_eq {v : Int} (h : -(2 ^ 31) ≤ v ∧ v < 2 ^ 31) : i32 v = some v := if_pos h
theorem i64_eq {v : Int} (h : -(2 ^ 63) ≤ v ∧ v < 2 ^ 63) : i64 v = some v := if_pos h

theorem toI32_eq {v : Int} (h : -(2 ^ 31) ≤ v ∧ v < 2 ^ 31) : toI32 v = v := by
  unfold toI32; rw [Int.emod_eq_of_lt (by omega) (by omega)]; omega

theorem toI16_eq {v : Int} (h : -(2 ^ 15) ≤ v ∧ v < 2 ^ 15) : toI16 v = v := by
  unfold toI16; rw [Int.emod_eq_of_lt (by omega) (by omega)]; omega

theorem abs_eq (v : Int) : abs v = |v| := by
  unfold abs; split
  · rw [abs_of_neg (by omega)]
  · rw [abs_of_nonneg (by omega)]

theorem iclip_eq (v lo hi : Int) (h : lo ≤ hi) : iclip v lo hi = Spec.clip3 lo hi v := by
  unfold iclip Spec.clip3; split <;> [skip; split] <;> omega

theorem asr_two (n : Nat) : asr (2 ^ n) 1 = 2 ^ n / 2 := by unfold asr; norm_num

theorem round_eq (v : Int) (n : Nat) : applySign (asr (abs v + 2 ^ n / 2) n) v = Spec.round2Signed v n := by
  unfold applySign Spec.round2Signed asr abs
  split
  · rw [if_neg (by omega)]
  · rw [if_pos (by omega)]

theorem iclipWmp_eq (v : Int) : iclipWmp v = Spec.reduce v := by
  unfold iclipWmp Spec.reduce
  rw [iclip_eq _ _ _ (by decide), ← round_eq]
  norm_num

/-- The quotient of an absolute value and a power of 2. -/
theorem round_abs_le {v b : Int} {n : Nat} (h : |v| ≤ b * 2 ^ n) : |Spec.round2Signed v n| ≤ b := by
  have hp : (0 : Int) < 2 ^ n := by positivity
  have key : ∀ x : Int, 0 ≤ x → x ≤ b * 2 ^ n → 0 ≤ (x + 2 ^ n / 2) / 2 ^ n ∧ (x + 2 ^ n / 2) / 2 ^ n ≤ b := by
    intro x h0 h1
    have hq : (2 : Int) ^ n / 2 < 2 ^ n := by omega
    refine ⟨Int.ediv_nonneg (by omega) (by omega), ?_⟩
    have : (x + 2 ^ n / 2) / 2 ^ n < b + 1 := by
      apply Int.ediv_lt_of_lt_mul hp; nlinarith
    omega
  unfold Spec.round2Signed
  split
  · rename_i h0
    rw [abs_of_nonneg h0] at h
    have := key v h0 h
    rw [abs_of_nonneg this.1]; exact this.2
  · rename_i h0
    rw [abs_of_neg (by omega)] at h
    have := key (-v) (by omega) h
    rw [abs_neg, abs_of_nonneg this.1]; exact this.2

theorem mulShift_eq {v b : Int} {n : Nat} (h : |v| ≤ b * 2 ^ n) (hb : b < 2 ^ 31) (h64 : |v| < 2 ^ 62) (hn : n ≤ 61) :
    mulShift v (2 ^ n / 2) n = some (Spec.round2Signed v n) := by
  unfold mulShift
  have hp : (0 : Int) < 2 ^ n := by positivity
  have hn' : (2 : Int) ^ n ≤ 2 ^ 61 := pow_le_pow_right₀ (by norm_num) hn
  have ha : 0 ≤ |v| := abs_nonneg v
  rw [abs_eq, i64_eq ⟨by omega, by omega⟩, Option.map_some]
  have h1 : asr (|v| + 2 ^ n / 2) n = |Spec.round2Signed v n| := by
    rw [← round_eq]
    unfold applySign
    have : 0 ≤ asr (abs v + 2 ^ n / 2) n := by
      unfold asr; rw [abs_eq]; exact Int.ediv_nonneg (by omega) (by omega)
    rw [abs_eq] at *
    split
    · rw [abs_neg, abs_of_nonneg this]
    · rw [abs_of_nonneg this]
  have h2 := round_abs_le h
  have h3 : 0 ≤ |Spec.round2Signed v n| := abs_nonneg _
  rw [toI32_eq (by rw [h1]; omega), ← abs_eq, round_eq]

/-! ## The division table -/

theorem divLut_get : ∀ f ∈ List.range 257, divLut[f]? = some (Spec.recip f) := by decide +kernel

theorem divLut_eq {f : Nat} (h : f ≤ 256) : divLut[f]? = some (Spec.recip f) :=
  divLut_get f (List.mem_range.mpr (by omega))

theorem fraction_le {d : Nat} (h : 0 < d) : Spec.fraction d ≤ 256 := by
  have h1 := Nat.log2_self_le (n := d) (by omega)
  have h2 := Nat.lt_log2_self (n := d)
  unfold Spec.fraction
  dsimp only
  generalize Nat.log2 d = n at *
  split
  · have e : 2 ^ n = 2 ^ (n - 8) * 256 := by rw [show (256 : Nat) = 2 ^ 8 from rfl, ← pow_add]; congr 1; omega
    have h3 : d < 2 * 2 ^ n := by rw [← pow_succ']; exact h2
    have hp : 0 < 2 ^ (n - 8) := by positivity
    have : (d - 2 ^ n + 2 ^ (n - 8) / 2) / 2 ^ (n - 8) < 257 := by
      rw [Nat.div_lt_iff_lt_mul hp]; omega
    omega
  · have e : 2 ^ n * 2 ^ (8 - n) = 256 := by rw [← pow_add, show n + (8 - n) = 8 by omega]; rfl
    have h3 : d < 2 * 2 ^ n := by rw [← pow_succ']; exact h2
    have : (d - 2 ^ n) * 2 ^ (8 - n) ≤ 2 ^ n * 2 ^ (8 - n) := Nat.mul_le_mul_right _ (by omega)
    omega

theorem resolve_eq {bits d : Nat} (h : 0 < d) (hd : d < 2 ^ bits) :
    resolveDivisor bits d = some (Spec.divFactor d, Spec.divShift d) := by
  unfold resolveDivisor
  rw [if_neg (by omega)]
  have hf := fraction_le h
  have e : (if 8 < Nat.log2 d then (d - 2 ^ Nat.log2 d + 2 ^ (Nat.log2 d - 9)) / 2 ^ (Nat.log2 d - 8) else
      (d - 2 ^ Nat.log2 d) * 2 ^ (8 - Nat.log2 d)) = Spec.fraction d := by
    unfold Spec.fraction
    dsimp only
    split
    · rename_i h8
      have : 2 ^ (Nat.log2 d - 9) = 2 ^ (Nat.log2 d - 8) / 2 := by
        rw [show Nat.log2 d - 8 = (Nat.log2 d - 9) + 1 by omega, pow_succ]; omega
      rw [this]
    · rfl
  dsimp only
  rw [e, divLut_eq hf]
  rfl

theorem recip_range : ∀ f ∈ List.range 257, 8192 ≤ Spec.recip f ∧ Spec.recip f ≤ 16384 ∧
    2 * |Spec.recip f * (256 + f) - 2 ^ 22| ≤ (256 + f : Int) := by decide +kernel

theorem recip_bounds {f : Nat} (h : f ≤ 256) : 8192 ≤ Spec.recip f ∧ Spec.recip f ≤ 16384 ∧
    2 * |Spec.recip f * (256 + f) - 2 ^ 22| ≤ (256 + f : Int) := recip_range f (List.mem_range.mpr (by omega))

theorem divFactor_bounds {d : Int} (h : 0 < d) : 8192 ≤ Spec.divFactor d ∧ Spec.divFactor d ≤ 16384 := by
  have := recip_bounds (fraction_le (d := d.toNat) (by omega))
  exact ⟨this.1, this.2.1⟩

/-- The reciprocal is off by at most 1/256. -/
theorem divFactor_near {d : Int} (h : 0 < d) : 256 * |Spec.divFactor d * d - 2 ^ Spec.divShift d| ≤ 2 ^ Spec.divShift d := by
  obtain ⟨n, rfl⟩ : ∃ n : Nat, d = n := ⟨d.toNat, by omega⟩
  have hd : 0 < n := by omega
  have hf := fraction_le hd
  obtain ⟨r1, r2, r3⟩ := recip_bounds hf
  have h1 := Nat.log2_self_le (n := n) (by omega)
  have h2 : n < 2 * 2 ^ Nat.log2 n := by rw [← pow_succ']; exact Nat.lt_log2_self
  unfold Spec.divFactor Spec.divShift
  rw [Int.toNat_natCast]
  generalize hy : Spec.recip (Spec.fraction n) = y at *
  have key : ∀ m : Nat, m = Nat.log2 n →
      256 * |y * n - 2 ^ (m + 14)| ≤ 2 ^ (m + 14) := by
    intro m hm
    rw [← hm] at h1 h2
    have hfe : Spec.fraction n = if 8 < m then (n - 2 ^ m + 2 ^ (m - 8) / 2) / 2 ^ (m - 8) else (n - 2 ^ m) * 2 ^ (8 - m) := by
      unfold Spec.fraction; rw [← hm]
    have hpm : (2 : Int) ^ (m + 14) = 2 ^ m * 16384 := by rw [pow_add]; norm_num
    rw [hpm]
    have r3' := abs_le.mp (show |y * (256 + (Spec.fraction n : Int)) - 2 ^ 22| ≤ (256 + Spec.fraction n : Int) / 2 by omega)
    by_cases h8 : 8 < m
    · rw [if_pos h8] at hfe
      obtain ⟨k, rfl⟩ : ∃ k, m = k + 9 := ⟨m - 9, by omega⟩
      rw [show k + 9 - 8 = k + 1 by omega, pow_succ 2 k, show 2 ^ (k + 9) = 2 ^ k * 512 by rw [pow_add]; norm_num] at hfe
      rw [show (2 : Nat) ^ (k + 9) = 2 ^ k * 512 by rw [pow_add]; norm_num] at h1 h2
      rw [show (2 : Int) ^ (k + 9) = 2 ^ k * 512 by rw [pow_add]; norm_num]
      have hc : ((2 ^ k : Nat) : Int) = 2 ^ k := by push_cast; rfl
      rw [← hc]
      generalize 2 ^ k = P at *
      have hP : 0 < P := by omega
      generalize hF : Spec.fraction n = F at *
      have e1 := Nat.div_add_mod (n - P * 512 + P * 2 / 2) (P * 2)
      have e2 := Nat.mod_lt (n - P * 512 + P * 2 / 2) (show 0 < P * 2 by omega)
      rw [← hfe] at e1
      generalize (n - P * 512 + P * 2 / 2) % (P * 2) = R at *
      have e3 : (P : Int) * 2 * F + R = n - P * 512 + P := by
        have : P * 2 * F + R = n - P * 512 + P := by rw [e1]; omega
        have h' : P * 2 * F + R + P * 512 = n + P := by omega
        have := congrArg (Nat.cast (R := Int)) h'
        push_cast at this; linarith
      -- n = 2P(256 + F) + R - P
      have hn : (n : Int) = P * 2 * (256 + F) + (R - P) := by linarith
      have hyn : y * n - P * 512 * 16384 = P * 2 * (y * (256 + F) - 2 ^ 22) + y * (R - P) := by rw [hn]; ring
      have b1 : |(P : Int) * 2 * (y * (256 + F) - 2 ^ 22)| ≤ (P * 2 * 256 : Int) := by
        rw [abs_mul, abs_of_nonneg (show (0 : Int) ≤ P * 2 by omega)]
        apply mul_le_mul_of_nonneg_left _ (by omega)
        rw [abs_le]; omega
      have b2 : |y * ((R : Int) - P)| ≤ 16384 * P := by
        rw [abs_mul, abs_of_nonneg (show (0 : Int) ≤ y by omega)]
        apply mul_le_mul r2 _ (abs_nonneg _) (by omega)
        rw [abs_le]; omega
      have b3 := abs_add_le ((P : Int) * 2 * (y * (256 + F) - 2 ^ 22)) (y * ((R : Int) - P))
      rw [hyn]
      have hP' : (0 : Int) < P := by omega
      omega
    · rw [if_neg h8] at hfe
      have hF : 256 + Spec.fraction n = n * 2 ^ (8 - m) := by
        rw [hfe]
        have e : 2 ^ m * 2 ^ (8 - m) = 256 := by rw [← pow_add, show m + (8 - m) = 8 by omega]; rfl
        rw [Nat.sub_mul, e]
        have : 2 ^ m * 2 ^ (8 - m) ≤ n * 2 ^ (8 - m) := Nat.mul_le_mul_right _ h1
        omega
      have hF' : (256 + Spec.fraction n : Int) = n * 2 ^ (8 - m) := by exact_mod_cast hF
      rw [hF'] at r3'
      have e : (2 : Int) ^ m * 2 ^ (8 - m) = 256 := by rw [← pow_add, show m + (8 - m) = 8 by omega]; norm_num
      have hq : (0 : Int) < 2 ^ (8 - m) := by positivity
      have hx : (y * n - 2 ^ m * 16384) * 2 ^ (8 - m) = y * (n * 2 ^ (8 - m)) - 2 ^ 22 := by
        rw [sub_mul, show (2 : Int) ^ m * 16384 * 2 ^ (8 - m) = (2 ^ m * 2 ^ (8 - m)) * 16384 by ring, e]; ring
      have hb : |y * n - 2 ^ m * 16384| ≤ n := by
        have h5 : |y * n - 2 ^ m * 16384| * 2 ^ (8 - m) ≤ n * 2 ^ (8 - m) := by
          rw [← abs_of_nonneg (show (0 : Int) ≤ 2 ^ (8 - m) by omega), ← abs_mul, abs_of_nonneg (show (0 : Int) ≤ 2 ^ (8 - m) by omega), hx, abs_le]
          omega
        exact le_of_mul_le_mul_right h5 hq
      have hn : (n : Int) < 2 * 2 ^ m := by exact_mod_cast h2
      have hp : (0 : Int) < 2 ^ m := by positivity
      linarith
  exact key _ rfl

end Dav1d.Warp
