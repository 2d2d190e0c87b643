import Verif.Dsp.Ipred
import Verif.Dsp.IpredSpec
import Verif.Dsp.LfProps
import Mathlib.Tactic.Linarith
import Mathlib.Tactic.Ring
import Mathlib.Tactic.NormNum
/-!
# The directional predictors compute what is specified, C58
-/
namespace Dav1d.Ipred
open Lf

/-- All pixels of an edge are in range. -/
def Px (d : Depth) (A : Int → Int) : Prop := ∀ k, 0 ≤ A k ∧ A k ≤ d.max

/-- From index `c` on the edge repeats one pixel. -/
def ConstFrom (A : Int → Int) (c : Int) : Prop := ∀ i, c ≤ i → A i = A c

theorem ConstFrom.eq {A : Int → Int} {c i j : Int} (h : ConstFrom A c) (hi : c ≤ i) (hj : c ≤ j) : A i = A j := by
  rw [h i hi, h j hj]

/-- Clamping the index behind the last different pixel does not change what is read. -/
theorem clamp_read {A : Int → Int} {c e f : Int} (h : ConstFrom A c) (he : c ≤ e) (hf : c ≤ f) (hc : -1 ≤ c) (v : Int) :
    A (iclip v (-1) e) = A (iclip v (-1) f) := by
  unfold iclip
  by_cases h1 : v < -1
  · rw [if_pos h1, if_pos h1]
  · rw [if_neg h1, if_neg h1]
    by_cases h2 : v > e <;> by_cases h3 : v > f <;> simp only [h2, h3, if_true, if_false]
    · exact h.eq (by omega) (by omega)
    · exact h.eq (by omega) (by omega)
    · exact h.eq (by omega) (by omega)

/-- The weighted mean of the five pixels around one, `kernel[strength - 1]`. -/
def five (str : Nat) (a b c e f : Int) : Int :=
  Spec.kernel str 0 * a + Spec.kernel str 1 * b + Spec.kernel str 2 * c + Spec.kernel str 3 * e + Spec.kernel str 4 * f

theorem five_comm (str : Nat) (h : 1 ≤ str ∧ str ≤ 3) (a b c e f : Int) : five str f e c b a = five str a b c e f := by
  obtain ⟨h1, h2⟩ := h
  rcases (by omega : str = 1 ∨ str = 2 ∨ str = 3) with rfl | rfl | rfl <;> simp only [five, Spec.kernel] <;> ring

theorem five_range (str : Nat) (h : 1 ≤ str ∧ str ≤ 3) {lo hi a b c e f : Int} (ha : lo ≤ a ∧ a ≤ hi) (hb : lo ≤ b ∧ b ≤ hi) (hc : lo ≤ c ∧ c ≤ hi)
    (he : lo ≤ e ∧ e ≤ hi) (hf : lo ≤ f ∧ f ≤ hi) : lo ≤ asr (five str a b c e f + 8) 4 ∧ asr (five str a b c e f + 8) 4 ≤ hi := by
  obtain ⟨h1, h2⟩ := h
  have e16 : (2 : Int) ^ 4 = 16 := rfl
  rcases (by omega : str = 1 ∨ str = 2 ∨ str = 3) with rfl | rfl | rfl <;> simp only [five, Spec.kernel, asr, e16] <;> omega

theorem five_const (str : Nat) (h : 1 ≤ str ∧ str ≤ 3) (a : Int) : asr (five str a a a a a + 8) 4 = a := by
  have := five_range str h (lo := a) (hi := a) (a := a) (b := a) (c := a) (e := a) (f := a) (by omega) (by omega) (by omega) (by omega) (by omega)
  omega

theorem kernel_get (str : Nat) (h : 1 ≤ str ∧ str ≤ 3) :
    edgeKernels[str - 1]? = some [Spec.kernel str 0, Spec.kernel str 1, Spec.kernel str 2, Spec.kernel str 3, Spec.kernel str 4] := by
  obtain ⟨h1, h2⟩ := h
  rcases (by omega : str = 1 ∨ str = 2 ∨ str = 3) with rfl | rfl | rfl <;> rfl

theorem tapSum5 {inp : Edge} {fr tt i : Int} {R : Int → Int} (hr : ∀ v, rd inp fr tt v = some (R v)) (str : Nat) :
    tapSum inp fr tt [Spec.kernel str 0, Spec.kernel str 1, Spec.kernel str 2, Spec.kernel str 3, Spec.kernel str 4] (i - 2)
      = some (five str (R (i - 2)) (R (i - 1)) (R i) (R (i + 1)) (R (i + 2))) := by
  simp only [tapSum, hr, Option.bind_some, Option.map_some, five]
  rw [show i - 2 + 1 = i - 1 by omega, show i - 1 + 1 = i by omega, show i + 1 + 1 = i + 2 by omega]
  congr 1; ring

theorem tapSum4 {inp : Edge} {fr tt i : Int} {R : Int → Int} (hr : ∀ v, rd inp fr tt v = some (R v)) :
    tapSum inp fr tt [-1, 9, 9, -1] (i - 1) = some (-R (i - 1) + 9 * R i + 9 * R (i + 1) - R (i + 2)) := by
  simp only [tapSum, hr, Option.bind_some, Option.map_some]
  rw [show i - 1 + 1 = i by omega, show i + 1 + 1 = i + 2 by omega]
  congr 1; ring

/-- The specified filter as the mean of five pixels. -/
theorem edgeFilter_eq (sz : Int) (str : Nat) (B : Int → Int) (k : Int) :
    Spec.edgeFilter sz str B k = if str ≠ 0 ∧ 0 ≤ k ∧ k + 1 < sz then
      asr (five str (B (iclip (k - 2) (-1) (sz - 2))) (B (iclip (k - 1) (-1) (sz - 2))) (B (iclip k (-1) (sz - 2)))
        (B (iclip (k + 1) (-1) (sz - 2))) (B (iclip (k + 2) (-1) (sz - 2))) + 8) 4 else B k := by
  have hc : ∀ v : Int, Spec.Clip3 0 (sz - 1) (v + 1) - 1 = iclip v (-1) (sz - 2) := by
    intro v
    unfold Spec.Clip3 iclip
    by_cases h1 : v < -1
    · rw [if_pos h1, if_pos (by omega)]; omega
    · rw [if_neg h1, if_neg (by omega)]
      by_cases h2 : v > sz - 2
      · rw [if_pos h2, if_pos (by omega)]; omega
      · rw [if_neg h2, if_neg (by omega)]; omega
  unfold Spec.edgeFilter
  split
  · simp only [Finset.sum_range_succ, Finset.sum_range_zero, five, asr]
    rw [show k + 1 - 2 + ((0 : Nat) : Int) = k - 2 + 1 by push_cast; ring, show k + 1 - 2 + ((1 : Nat) : Int) = k - 1 + 1 by push_cast; ring,
      show k + 1 - 2 + ((2 : Nat) : Int) = k + 1 by push_cast; ring, show k + 1 - 2 + ((3 : Nat) : Int) = k + 1 + 1 by push_cast; ring,
      show k + 1 - 2 + ((4 : Nat) : Int) = k + 2 + 1 by push_cast; ring]
    simp only [hc]
    norm_num
  · rfl

theorem upsample_eq (d : Depth) (n : Int) (B : Int → Int) (k : Int) :
    Spec.upsample d n B k = if k % 2 = 0 then B (k / 2) else
      d.clip (asr (-B (iclip (k / 2 - 1) (-1) (n - 1)) + 9 * B (iclip (k / 2) (-1) (n - 1)) + 9 * B (iclip (k / 2 + 1) (-1) (n - 1))
        - B (iclip (k / 2 + 2) (-1) (n - 1)) + 8) 4) := by
  unfold Spec.upsample
  dsimp only
  split
  · rfl
  · rename_i h
    have e : (k + 1) / 2 = k / 2 + 1 := by omega
    rw [e, show k / 2 + 1 - 2 = k / 2 - 1 by omega, show k / 2 + 1 + 1 - 2 = k / 2 by omega, show k / 2 + 1 + 2 - 2 = k / 2 + 1 by omega,
      show k / 2 + 1 + 3 - 2 = k / 2 + 2 by omega]
    rfl

/-- Strength and upsampling are selected as specified. -/
theorem strength_eq (w h : Nat) (a : Int) (sm : Bool) : getFilterStrength (w + h) a sm = if 0 ≤ a then Spec.strength (w + h) sm a else getFilterStrength (w + h) a sm := by
  split
  · rename_i ha
    unfold getFilterStrength Spec.strength
    have hn : ∀ n : Nat, (a ≥ (n : Int)) ↔ (a.natAbs ≥ n) := fun n => by omega
    have hw : ∀ n : Nat, ((w : Int) + h ≤ n) ↔ (w + h ≤ n) := fun n => by omega
    have h64 := hn 64; have h40 := hn 40; have h48 := hn 48; have h20 := hn 20; have h4 := hn 4; have h56 := hn 56; have h32 := hn 32
    have h16 := hn 16; have h8 := hn 8
    have w8 := hw 8; have w16 := hw 16; have w24 := hw 24; have w32 := hw 32
    push_cast at *
    simp only [h64, h40, h48, h20, h4, h56, h32, h16, h8, w8, w16, w24, w32]
    cases sm <;> simp
    split_ifs <;> first | rfl | omega
  · rfl

theorem upsample_sel {w h : Nat} {a : Int} {sm : Bool} (ha : 0 < a) : getUpsample (w + h) a sm = Spec.useUpsample (w + h) sm a := by
  unfold getUpsample Spec.useUpsample
  cases sm <;> simp <;> (rw [Bool.eq_iff_iff]; simp) <;> omega

/-- An edge that is upsampled is not filtered. -/
theorem up_strength {wh : Nat} {sm : Bool} {a : Int} (h : Spec.useUpsample wh sm a = true) : Spec.strength wh sm a = 0 := by
  unfold Spec.useUpsample at h
  unfold Spec.strength
  cases sm <;> simp at h <;> simp <;> split_ifs <;> omega

theorem strength_le (wh : Nat) (sm : Bool) (a : Int) : Spec.strength wh sm a ≤ 3 := by
  unfold Spec.strength
  cases sm <;> simp <;> split_ifs <;> omega

theorem interp_const {E : Int → Int} {up : Bool} {b idx c : Int} (h0 : E b = c) (h1 : E (b + 1) = c) : Spec.interp E up b idx = c := by
  unfold Spec.interp Spec.Round2
  rw [h0, h1]
  dsimp only
  generalize (if up then idx else idx / 2) % 32 = s
  have : c * (32 - s) + c * s = c * 32 := by ring
  rw [this]; norm_num; omega

theorem interp_eq {E : Int → Int} {up : Bool} {b idx : Int} {p q frac : Int} (h0 : E b = p) (h1 : E (b + 1) = q)
    (hf : frac = 2 * ((if up then idx else idx / 2) % 32)) : asr (p * (64 - frac) + q * frac + 32) 6 = Spec.interp E up b idx := by
  unfold Spec.interp Spec.Round2 asr
  rw [h0, h1, hf]
  dsimp only
  generalize (if up then idx else idx / 2) % 32 = s
  have : p * (64 - 2 * s) + q * (2 * s) + 32 = 2 * (p * (32 - s) + q * s + 16) := by ring
  rw [this]
  norm_num
  omega

theorem interp_range {E : Int → Int} {up : Bool} {b idx lo hi : Int} (h0 : lo ≤ E b ∧ E b ≤ hi) (h1 : lo ≤ E (b + 1) ∧ E (b + 1) ≤ hi) :
    lo ≤ Spec.interp E up b idx ∧ Spec.interp E up b idx ≤ hi := by
  unfold Spec.interp Spec.Round2
  dsimp only
  have hs0 : 0 ≤ (if up then idx else idx / 2) % 32 := by omega
  have hs1 : (if up then idx else idx / 2) % 32 ≤ 31 := by omega
  generalize (if up then idx else idx / 2) % 32 = s at *
  generalize E b = p at *
  generalize E (b + 1) = q at *
  have a1 : lo * (32 - s) ≤ p * (32 - s) := mul_le_mul_of_nonneg_right h0.1 (by omega)
  have a2 : p * (32 - s) ≤ hi * (32 - s) := mul_le_mul_of_nonneg_right h0.2 (by omega)
  have a3 : lo * s ≤ q * s := mul_le_mul_of_nonneg_right h1.1 (by omega)
  have a4 : q * s ≤ hi * s := mul_le_mul_of_nonneg_right h1.2 (by omega)
  have e1 : lo * (32 - s) + lo * s = lo * 32 := by ring
  have e2 : hi * (32 - s) + hi * s = hi * 32 := by ring
  generalize p * (32 - s) = u at *
  generalize q * s = v at *
  norm_num
  omega

/-- Angles below 90 degrees with a derivative. -/
def goodAngles : List Nat := [3, 6, 9, 14, 17, 20, 23, 26, 29, 32, 36, 39, 42, 45, 48, 51, 54, 58, 61, 64, 67, 70, 73, 76, 81, 84, 87]

theorem derivative_get : ∀ n ∈ goodAngles, drDerivative[n / 2]? = some (Spec.derivative n) ∧ 3 ≤ Spec.derivative n ∧ Spec.derivative n ≤ 1023 := by
  decide +kernel

theorem derivative_mul : ∀ n ∈ goodAngles, Spec.derivative n * Spec.derivative ((90 - n : Nat) : Int) ≤ 4096 := by decide +kernel

/-- The angles the bitstream can code. -/
def angles : List Int := [81, 84, 87, 90, 93, 96, 99, 171, 174, 177, 180, 183, 186, 189, 36, 39, 42, 45, 48, 51, 54, 126, 129, 132, 135, 138, 141, 144, 104, 107,
  110, 113, 116, 119, 122, 148, 151, 154, 157, 160, 163, 166, 194, 197, 200, 203, 206, 209, 212, 58, 61, 64, 67, 70, 73, 76]

theorem angle_list {p : Int} (h : Spec.Angle p) : p ∈ angles := by
  obtain ⟨b, hb, delta, h0, h1, rfl⟩ := h
  rcases (by omega : delta = -3 ∨ delta = -2 ∨ delta = -1 ∨ delta = 0 ∨ delta = 1 ∨ delta = 2 ∨ delta = 3) with rfl | rfl | rfl | rfl | rfl | rfl | rfl <;>
    (simp only [Spec.modeToAngle, List.mem_cons, List.not_mem_nil, or_false] at hb; rcases hb with rfl | rfl | rfl | rfl | rfl | rfl | rfl | rfl <;> decide)

theorem angle_le : ∀ p ∈ angles, 36 ≤ p ∧ p ≤ 212 := by decide +kernel
theorem angles_z1 : ∀ n : Nat, n < 90 → (n : Int) ∈ angles → n ∈ goodAngles := by decide +kernel
theorem angles_z2 : ∀ n ∈ List.range 180, (90 < n ∧ (n : Int) ∈ angles) → n - 90 ∈ goodAngles ∧ 180 - n ∈ goodAngles := by decide +kernel
theorem angles_z3 : ∀ n ∈ List.range 213, (180 < n ∧ (n : Int) ∈ angles) → 270 - n ∈ goodAngles ∧ Spec.derivative ((270 - n : Nat) : Int) ≤ 40 := by decide +kernel

theorem angle_z1 {n : Nat} (h : Spec.Angle n) (h1 : n < 90) : n ∈ goodAngles := angles_z1 n h1 (angle_list h)

theorem angle_z2 {n : Nat} (h : Spec.Angle n) (h1 : 90 < n) (h2 : n < 180) : n - 90 ∈ goodAngles ∧ 180 - n ∈ goodAngles :=
  angles_z2 n (List.mem_range.mpr h2) ⟨h1, angle_list h⟩

theorem angle_z3 {n : Nat} (h : Spec.Angle n) (h1 : 180 < n) : n ≤ 212 ∧ 270 - n ∈ goodAngles ∧ Spec.derivative ((270 - n : Nat) : Int) ≤ 40 := by
  have := (angle_le _ (angle_list h)).2
  exact ⟨by omega, angles_z3 n (List.mem_range.mpr (by omega)) ⟨h1, angle_list h⟩⟩

theorem filterEdge_spec {d : Depth} {A : Int → Int} {sz limTo c e sz' i : Int} {inp : Edge} {fr tt : Int} {str : Nat} (hs : 1 ≤ str ∧ str ≤ 3) (hp : Px d A)
    (hr : ∀ v, rd inp fr tt v = some (A (iclip v (-1) e))) (hc : ConstFrom A c) (h1 : -1 ≤ c) (he : c ≤ e) (hz : c ≤ sz' - 2) (hi : 0 ≤ i ∧ i < sz) (hie : i ≤ e ∨ c ≤ i)
    (hl : 0 ≤ limTo) (hf : (i < limTo ∧ i + 1 < sz') ∨ (i < limTo ∧ c ≤ i - 2) ∨ (limTo ≤ i ∧ sz' ≤ i + 1)) :
    filterEdge d sz 0 limTo inp fr tt str i = some (Spec.edgeFilter sz' str A i) := by
  unfold filterEdge
  rw [if_pos hi, if_neg (by omega), edgeFilter_eq]
  by_cases hl' : i < limTo
  · rw [if_pos (by omega), kernel_get str hs]
    simp only [Option.bind_some]
    rw [tapSum5 hr, Option.map_some, toPixel_id (five_range str hs (hp _) (hp _) (hp _) (hp _) (hp _))]
    by_cases hk : i + 1 < sz'
    · rw [if_pos ⟨by omega, by omega, hk⟩]
      simp only [clamp_read hc he hz h1]
    · rw [if_neg (by omega)]
      have hci : c ≤ i - 2 := by omega
      have hk : ∀ v, c ≤ v → A (iclip v (-1) e) = A i := by
        intro v hv
        refine hc.eq ?_ (by omega)
        unfold iclip; split_ifs <;> omega
      rw [hk _ (by omega), hk _ (by omega), hk _ (by omega), hk _ (by omega), hk _ (by omega), five_const str hs]
  · rw [if_neg (by omega), if_neg (by omega), hr]
    congr 1
    unfold iclip
    rw [if_neg (by omega)]
    by_cases h3 : i > e
    · rw [if_pos h3]; exact hc.eq he (by omega)
    · rw [if_neg h3]

theorem upsampleEdge_spec {d : Depth} {A : Int → Int} {hsz c e n k : Int} {inp : Edge} {fr tt : Int}
    (hr : ∀ v, rd inp fr tt v = some (A (iclip v (-1) e))) (hc : ConstFrom A c) (h1 : -1 ≤ c) (he : c ≤ e) (hz : c ≤ n - 1) (hk : 0 ≤ k ∧ k ≤ 2 * hsz - 2) :
    upsampleEdge d hsz inp fr tt k = some (Spec.upsample d n A k) := by
  unfold upsampleEdge
  rw [if_pos hk, upsample_eq]
  by_cases h2 : k % 2 = 0
  · rw [if_pos h2, if_pos h2, hr]
    congr 1
    unfold iclip
    rw [if_neg (by omega)]
    by_cases h3 : k / 2 > e
    · rw [if_pos h3]; exact hc.eq he (by omega)
    · rw [if_neg h3]
  · rw [if_neg h2, if_neg h2, tapSum4 hr, Option.map_some]
    simp only [clamp_read hc he hz h1]

theorem and3E_eq (v : Int) : and3E v = 2 * (v / 2 % 32) := by unfold and3E; omega
theorem and3E_two (v : Int) : and3E (2 * v) = 2 * (v % 32) := by unfold and3E; omega

theorem withCorner_self (B : Int → Int) : Spec.withCorner (B (-1)) B = B := by
  funext k; unfold Spec.withCorner; split <;> simp_all

theorem edgeFilter_range {d : Depth} {A : Int → Int} (hp : Px d A) (sz : Int) {str : Nat} (hs : str ≤ 3) : Px d (Spec.edgeFilter sz str A) := by
  intro k
  rw [edgeFilter_eq]
  split
  · exact five_range str (by omega) (hp _) (hp _) (hp _) (hp _) (hp _)
  · exact hp k

theorem upsample_range {d : Depth} {A : Int → Int} (hp : Px d A) (n : Int) : Px d (Spec.upsample d n A) := by
  intro k
  rw [upsample_eq]
  split
  · exact hp _
  · exact clip_range d _

/-- Two pixels of the edge interpolated as the code does it. -/
theorem lerp_spec {d : Depth} {E : Int → Int} {edge : Edge} (hp : Px d E) {b idx frac : Int} {up : Bool} (h0 : edge b = some (E b)) (h1 : edge (b + 1) = some (E (b + 1)))
    (hf : frac = 2 * ((if up then idx else idx / 2) % 32)) :
    ((edge b).bind fun p => (edge (b + 1)).map fun q => toPixel d (asr (p * (64 - frac) + q * frac + 32) 6)) = some (Spec.interp E up b idx) := by
  rw [h0, h1, Option.bind_some, Option.map_some, interp_eq rfl rfl hf, toPixel_id (interp_range (hp _) (hp _))]

end Dav1d.Ipred
