import Verif.Dsp.WarpLemmas
import Verif.Dsp.McProps
import Verif.Obu.FrameSpec
/-!
# Warp parameters: C47

`C47_divisor`, `C47_reciprocal`, `C47_shear`, `C47_global` are about dav1d_get_shear_params, `C47_local` and `C47_second_pass` about
derive_warpmv. All say that the functions neither overflow nor read outside of the table (`some`) and compute what
`WarpSpec` says.
-/
namespace Dav1d.Warp

/-- Every divisor is looked up inside of the table, and the result is the rounded reciprocal. -/
theorem C47_divisor {bits d : Nat} (h0 : 0 < d) (h : d < 2 ^ bits) :
    resolveDivisor bits d = some (Spec.divFactor d, Spec.divShift d) := resolve_eq h0 h

example : resolveDivisor 31 100000 = some (10727, 30) := by decide +kernel

/-- The reciprocal is correct to 1/256. -/
theorem C47_reciprocal {bits d : Nat} (h0 : 0 < d) (h : d < 2 ^ bits) :
    ∃ y s, resolveDivisor bits d = some (y, s) ∧ 256 * |y * d - 2 ^ s| ≤ 2 ^ s :=
  ⟨_, _, resolve_eq h0 h, divFactor_near (by omega)⟩

/-- The entries of a matrix that can be coded or derived. -/
structure Codable (w : Wm) : Prop where
  m2 : -(2 ^ 13) ≤ w.m2 - 2 ^ 16 ∧ w.m2 - 2 ^ 16 ≤ 2 ^ 13
  m3 : -(2 ^ 13) ≤ w.m3 ∧ w.m3 ≤ 2 ^ 13
  m4 : -(2 ^ 13) ≤ w.m4 ∧ w.m4 ≤ 2 ^ 13
  m5 : -(2 ^ 13) ≤ w.m5 - 2 ^ 16 ∧ w.m5 - 2 ^ 16 ≤ 2 ^ 13

theorem reduce_le {x B : Int} (h : |x| ≤ B * 64) : |Spec.reduce x| ≤ B * 64 := by
  unfold Spec.reduce
  rw [abs_mul]
  have : |Spec.clip3 (-32768) 32767 x| ≤ B * 2 ^ 6 := by
    rw [abs_le] at *; unfold Spec.clip3; omega
  have := round_abs_le this
  norm_num
  omega

theorem abs_mul_le {a b A B : Int} (ha : |a| ≤ A) (hb : |b| ≤ B) : |a * b| ≤ A * B := by
  rw [abs_mul]
  exact mul_le_mul ha hb (abs_nonneg _) (le_trans (abs_nonneg _) ha)

theorem divShift_codable {m : Int} (h : -(2 ^ 13) ≤ m - 2 ^ 16 ∧ m - 2 ^ 16 ≤ 2 ^ 13) : Spec.divShift m = 29 ∨ Spec.divShift m = 30 := by
  unfold Spec.divShift
  have h1 : Nat.log2 m.toNat < 17 := by
    rw [Nat.log2_lt (by omega)]; omega
  have h2 : ¬ Nat.log2 m.toNat < 15 := by
    rw [Nat.log2_lt (by omega)]; omega
  omega

/-- The parameters of `w` with the shear of its matrix. -/
def withShear (w : Wm) : Wm :=
  { w with alpha := (Spec.shear w.m2 w.m3 w.m4 w.m5).alpha, beta := (Spec.shear w.m2 w.m3 w.m4 w.m5).beta,
           gamma := (Spec.shear w.m2 w.m3 w.m4 w.m5).gamma, delta := (Spec.shear w.m2 w.m3 w.m4 w.m5).delta }

/-- The shear parameters are those of the specification, and the matrix is accepted if and only if they are valid. -/
theorem C47_shear (w : Wm) (h : Codable w) :
    getShearParams w = some (if (Spec.shear w.m2 w.m3 w.m4 w.m5).Valid then 0 else 1, withShear w) := by
  obtain ⟨h2, h3, h4, h5⟩ := h
  have hs := divShift_codable h2
  have hf := divFactor_bounds (d := w.m2) (by omega)
  have a3 : |w.m3| ≤ 2 ^ 13 := abs_le.mpr h3
  have a4 : |w.m4| ≤ 2 ^ 13 := abs_le.mpr h4
  have af : |Spec.divFactor w.m2| ≤ 2 ^ 14 := by rw [abs_le]; omega
  have at1 : |w.m4 * 2 ^ 16| ≤ 2 ^ 13 * 2 ^ 16 := abs_mul_le a4 (by norm_num)
  have av1 : |w.m4 * 2 ^ 16 * Spec.divFactor w.m2| ≤ 2 ^ 13 * 2 ^ 16 * 2 ^ 14 := abs_mul_le at1 af
  have at2 : |w.m3 * w.m4| ≤ 2 ^ 13 * 2 ^ 13 := abs_mul_le a3 a4
  have av2 : |w.m3 * w.m4 * Spec.divFactor w.m2| ≤ 2 ^ 13 * 2 ^ 13 * 2 ^ 14 := abs_mul_le at2 af
  have hpow : (2 : Int) ^ 29 ≤ 2 ^ Spec.divShift w.m2 := pow_le_pow_right₀ (by norm_num) (by omega)
  have hpow' : (2 : Int) ^ Spec.divShift w.m2 ≤ 2 ^ 30 := pow_le_pow_right₀ (by norm_num) (by omega)
  have hn : Spec.divShift w.m2 ≤ 61 := by omega
  have ab1 : |w.m4 * 2 ^ 16 * Spec.divFactor w.m2| ≤ 2 ^ 14 * 2 ^ Spec.divShift w.m2 := by linarith
  have ab2 : |w.m3 * w.m4 * Spec.divFactor w.m2| ≤ 2 ^ 11 * 2 ^ Spec.divShift w.m2 := by linarith
  have e1 := mulShift_eq ab1 (by norm_num) (by omega) hn
  have e2 := mulShift_eq ab2 (by norm_num) (by omega) hn
  have r1 := round_abs_le ab1
  have r2 := round_abs_le ab2
  have b1 : |Spec.reduce (w.m2 - 2 ^ 16)| ≤ 2 ^ 7 * 64 := reduce_le (by rw [abs_le]; omega)
  have b2 : |Spec.reduce w.m3| ≤ 2 ^ 7 * 64 := reduce_le (by rw [abs_le]; omega)
  have b3 : |Spec.reduce (Spec.round2Signed (w.m4 * 2 ^ 16 * Spec.divFactor w.m2) (Spec.divShift w.m2))| ≤ 2 ^ 8 * 64 := reduce_le (by omega)
  rw [abs_le] at r2 r1
  have b4 : |Spec.reduce (w.m5 - Spec.round2Signed (w.m3 * w.m4 * Spec.divFactor w.m2) (Spec.divShift w.m2) - 2 ^ 16)| ≤ 2 ^ 8 * 64 :=
    reduce_le (by rw [abs_le]; omega)
  rw [abs_le] at b1 b2 b3 b4
  rw [abs_le] at at1 at2 av1 av2
  have hres : resolveDivisor 31 w.m2.natAbs = some (Spec.divFactor w.m2, Spec.divShift w.m2) := by
    have := resolve_eq (bits := 31) (d := w.m2.natAbs) (by omega) (by omega)
    rw [this, Int.natCast_natAbs, abs_of_nonneg (by omega)]
  have hy : applySign (Spec.divFactor w.m2) w.m2 = Spec.divFactor w.m2 := by unfold applySign; rw [if_neg (by omega)]
  unfold getShearParams
  rw [if_neg (by omega), i32_eq (by omega), Option.bind_some, hres, Option.bind_some]
  dsimp only
  rw [hy, show (0x10000 : Int) = 2 ^ 16 by norm_num, i64_eq (by omega), Option.bind_some, i64_eq (by omega), Option.bind_some,
    i32_eq (by omega), Option.bind_some, asr_two, e1, Option.bind_some, i64_eq (by omega), Option.bind_some, i64_eq (by omega),
    Option.bind_some, e2, Option.bind_some, i32_eq (by omega), Option.bind_some, i32_eq (by omega), Option.bind_some]
  rw [iclipWmp_eq, iclipWmp_eq, iclipWmp_eq, iclipWmp_eq, toI16_eq (by omega), toI16_eq (by omega), toI16_eq (by omega), toI16_eq (by omega)]
  simp only [abs_eq]
  by_cases hv : (Spec.shear w.m2 w.m3 w.m4 w.m5).Valid
  · rw [if_pos hv]
    unfold Spec.Shear.Valid Spec.shear at hv
    dsimp only at hv
    rw [if_neg (by omega)]
    rfl
  · rw [if_neg hv]
    unfold Spec.Shear.Valid Spec.shear at hv
    dsimp only at hv
    rw [if_pos (by omega)]
    rfl

example : Codable ⟨0, 0, 68235, -173, 4066, 63522, 0, 0, 0, 0⟩ := ⟨by decide, by decide, by decide, by decide⟩
example : getShearParams ⟨0, 0, 68235, -173, 4066, 63522, 0, 0, 0, 0⟩ = some (0, ⟨0, 0, 68235, -173, 4066, 63522, 2688, -192, 3904, -1984⟩) := by
  decide +kernel
/-- A matrix that is not accepted. -/
example : (getShearParams ⟨0, 0, 57344, 8192, -8192, 73728, 0, 0, 0, 0⟩).map Prod.fst = some 1 := by decide +kernel

/-- The parameters of a frame header; the shear is not set yet. -/
def ofHeader (w : WmParams) : Wm := ⟨w.m0, w.m1, w.m2, w.m3, w.m4, w.m5, 0, 0, 0, 0⟩

/-- Global motion of any accepted frame header (`WmOk` holds for it by `C52_ranges`): nothing overflows, and blocks are warped
if and only if the shear is valid. -/
theorem C47_global (w : WmParams) (h : WmOk w) :
    gmvWarpAllowed w.type (ofHeader w) = some (decide (1 < w.type ∧ (Spec.shear w.m2 w.m3 w.m4 w.m5).Valid)) := by
  unfold gmvWarpAllowed
  split
  · rename_i ht
    rw [C47_shear _ ⟨h.m2, h.m3, h.m4, h.m5⟩]
    show some _ = some _
    congr 1
    simp only [ofHeader]
    by_cases hv : (Spec.shear w.m2 w.m3 w.m4 w.m5).Valid
    · simp [hv, ht]
    · simp [hv]
  · rename_i ht
    simp [ht]

/-- What is accepted is what the warp filter requires: all its filters are in the table and its results fit. -/
theorem C47_usable (s : Spec.Shear) (hv : s.Valid) {x y px py : Nat} (hx : x < 8) (hy : y < 8) (hpx : px < 65536) (hpy : py < 65536) :
    (McJob.warp s.alpha s.beta s.gamma s.delta px py).Ok x y := by
  unfold Spec.Shear.Valid at hv
  refine ⟨hx, hy, hpx, hpy, ?_, ?_⟩
  · have := hv.1; rw [Int.abs_eq_natAbs, Int.abs_eq_natAbs] at this; omega
  · have := hv.2; rw [Int.abs_eq_natAbs, Int.abs_eq_natAbs] at this; omega

end Dav1d.Warp
