import Verif.Dsp.WarpLs
/-!
# The warp parameters derived from neighbouring blocks: C47

The coordinates of neighbours are multiples of 16, so nothing is lost by the shifts in the sums, and the matrix of the least
squares problem is 4·(Σ u uᵀ + n) for vectors u with odd entries. That bounds the solution, so conversions to `int` keep it.
-/
namespace Dav1d.Warp
open List
open Spec (Block)

/-- A quarter of the distance of the centres plus 1. -/
def hx (b c : Block) : Int := 4 * (2 * (c.x - b.x) + (c.w - b.w)) + 1
def hy (b c : Block) : Int := 4 * (2 * (c.y - b.y) + (c.h - b.h)) + 1
def ex (b c : Block) : Int := c.mv.x - b.mv.x
def ey (b c : Block) : Int := c.mv.y - b.mv.y

theorem ls_eq (k q : Int) : Spec.lsProduct (16 * k) q = 4 * k * q + (16 * k + q) := by
  unfold Spec.lsProduct
  rw [show 16 * k * q = 4 * k * q * 4 by ring, Int.mul_ediv_cancel _ (by norm_num)]

theorem a00_eq (b : Block) (l : List Block) : Spec.a00 b l = 4 * (S l (fun c => hx b c * hx b c) + l.length) := by
  unfold Spec.a00
  induction l with
  | nil => rfl
  | cons c l ih =>
    rw [S_cons]
    simp only [Spec.sum, List.map_cons, List.sum_cons, List.length_cons] at ih ⊢
    rw [ih, sx_eq, ls_eq]; unfold hx; push_cast; ring

theorem a01_eq (b : Block) (l : List Block) : Spec.a01 b l = 4 * S l (fun c => hx b c * hy b c) := by
  unfold Spec.a01
  induction l with
  | nil => rfl
  | cons c l ih =>
    rw [S_cons]
    simp only [Spec.sum, List.map_cons, List.sum_cons] at ih ⊢
    rw [ih, sx_eq, sy_eq, ls_eq]; unfold hx hy; ring

theorem a11_eq (b : Block) (l : List Block) : Spec.a11 b l = 4 * (S l (fun c => hy b c * hy b c) + l.length) := by
  unfold Spec.a11
  induction l with
  | nil => rfl
  | cons c l ih =>
    rw [S_cons]
    simp only [Spec.sum, List.map_cons, List.sum_cons, List.length_cons] at ih ⊢
    rw [ih, sy_eq, ls_eq]; unfold hy; push_cast; ring

theorem bx0_eq (b : Block) (l : List Block) : Spec.bx0 b l = Spec.a00 b l + S l (fun c => ex b c * hx b c) := by
  unfold Spec.bx0 Spec.a00
  induction l with
  | nil => rfl
  | cons c l ih =>
    rw [S_cons]
    simp only [Spec.sum, List.map_cons, List.sum_cons] at ih ⊢
    rw [ih, dx_eq, sx_eq, ls_eq, ls_eq]; unfold hx ex; ring

theorem bx1_eq (b : Block) (l : List Block) : Spec.bx1 b l = Spec.a01 b l + S l (fun c => ex b c * hy b c) := by
  unfold Spec.bx1 Spec.a01
  induction l with
  | nil => rfl
  | cons c l ih =>
    rw [S_cons]
    simp only [Spec.sum, List.map_cons, List.sum_cons] at ih ⊢
    rw [ih, dx_eq, sx_eq, sy_eq, ls_eq, ls_eq]; unfold hy ex; ring

theorem by0_eq (b : Block) (l : List Block) : Spec.by0 b l = Spec.a01 b l + S l (fun c => ey b c * hx b c) := by
  unfold Spec.by0 Spec.a01
  induction l with
  | nil => rfl
  | cons c l ih =>
    rw [S_cons]
    simp only [Spec.sum, List.map_cons, List.sum_cons] at ih ⊢
    rw [ih, dy_eq, sx_eq, sy_eq, ls_eq, ls_eq]; unfold hx ey; ring

theorem by1_eq (b : Block) (l : List Block) : Spec.by1 b l = Spec.a11 b l + S l (fun c => ey b c * hy b c) := by
  unfold Spec.by1 Spec.a11
  induction l with
  | nil => rfl
  | cons c l ih =>
    rw [S_cons]
    simp only [Spec.sum, List.map_cons, List.sum_cons] at ih ⊢
    rw [ih, dy_eq, sy_eq, ls_eq, ls_eq]; unfold hy ey; ring

/-- The determinant. -/
def det (b : Block) (l : List Block) : Int := Spec.a00 b l * Spec.a11 b l - Spec.a01 b l * Spec.a01 b l

theorem S_comm {α : Type} (l : List α) (p q : α → Int) : S l (fun c => p c * q c) = S l (fun c => q c * p c) := by
  congr 1; funext c; ring

/-- The determinant is positive, and the four numerators are at most 97 times as large. -/
theorem solution_bounds (b : Block) (l : List Block) (hl : l ≠ []) (hu : ∀ c ∈ l, isUsed b c = true) :
    16 ≤ det b l ∧
    |Spec.a11 b l * Spec.bx0 b l - Spec.a01 b l * Spec.bx1 b l| ≤ 97 * det b l ∧
    |Spec.a00 b l * Spec.bx1 b l - Spec.a01 b l * Spec.bx0 b l| ≤ 97 * det b l ∧
    |Spec.a11 b l * Spec.by0 b l - Spec.a01 b l * Spec.by1 b l| ≤ 97 * det b l ∧
    |Spec.a00 b l * Spec.by1 b l - Spec.a01 b l * Spec.by0 b l| ≤ 97 * det b l := by
  have hp : ∀ c ∈ l, hx b c ≠ 0 := by intro c _; unfold hx; omega
  have hq : ∀ c ∈ l, hy b c ≠ 0 := by intro c _; unfold hy; omega
  have hu' : ∀ c ∈ l, |ex b c| ≤ 255 ∧ |ey b c| ≤ 255 := by
    intro c hc
    have h0 := hu c hc
    unfold isUsed at h0
    have h1 := of_decide_eq_true h0
    unfold ex ey; omega
  have hn : (0 : Int) < l.length := by have := List.length_pos_iff.mpr hl; omega
  have hqq := sum_sq_pos (hy b) l hq
  have hpp := sum_sq_pos (hx b) l hp
  have hg := gram_nonneg (hx b) (hy b) l hq hl
  have s1 := solution_le (hx b) (hy b) (ex b) l hp hq (fun c hc => (hu' c hc).1) hl
  have s2 := solution_le (hy b) (hx b) (ex b) l hq hp (fun c hc => (hu' c hc).1) hl
  have s3 := solution_le (hx b) (hy b) (ey b) l hp hq (fun c hc => (hu' c hc).2) hl
  have s4 := solution_le (hy b) (hx b) (ey b) l hq hp (fun c hc => (hu' c hc).2) hl
  rw [S_comm l (hy b) (hx b)] at s2 s4
  rw [bx0_eq, bx1_eq, by0_eq, by1_eq]
  unfold det
  rw [a00_eq, a01_eq, a11_eq]
  generalize S l (fun c => hy b c * hy b c) = H11 at *
  generalize S l (fun c => hx b c * hy b c) = H01 at *
  generalize S l (fun c => hx b c * hx b c) = H00 at *
  generalize S l (fun c => ex b c * hx b c) = c0 at *
  generalize S l (fun c => ex b c * hy b c) = c1 at *
  generalize S l (fun c => ey b c * hx b c) = d0 at *
  generalize S l (fun c => ey b c * hy b c) = d1 at *
  generalize (l.length : Int) = n at *
  have hD : n * n ≤ (H00 + n) * (H11 + n) - H01 * H01 := by nlinarith
  have hD1 : 1 ≤ (H00 + n) * (H11 + n) - H01 * H01 := by nlinarith
  rw [show (H11 + n) * (H00 + n) - H01 * H01 = (H00 + n) * (H11 + n) - H01 * H01 by ring] at s2 s4
  have e0 : 4 * (H00 + n) * (4 * (H11 + n)) - 4 * H01 * (4 * H01) = 16 * ((H00 + n) * (H11 + n) - H01 * H01) := by ring
  have e1 : 4 * (H11 + n) * (4 * (H00 + n) + c0) - 4 * H01 * (4 * H01 + c1) =
      16 * ((H00 + n) * (H11 + n) - H01 * H01) + 4 * ((H11 + n) * c0 - H01 * c1) := by ring
  have e2 : 4 * (H00 + n) * (4 * H01 + c1) - 4 * H01 * (4 * (H00 + n) + c0) = 4 * ((H00 + n) * c1 - H01 * c0) := by ring
  have e3 : 4 * (H11 + n) * (4 * H01 + d0) - 4 * H01 * (4 * (H11 + n) + d1) = 4 * ((H11 + n) * d0 - H01 * d1) := by ring
  have e4 : 4 * (H00 + n) * (4 * (H11 + n) + d1) - 4 * H01 * (4 * H01 + d0) =
      16 * ((H00 + n) * (H11 + n) - H01 * H01) + 4 * ((H00 + n) * d1 - H01 * d0) := by ring
  rw [e0, e1, e2, e3, e4]
  generalize (H00 + n) * (H11 + n) - H01 * H01 = D at *
  generalize (H11 + n) * c0 - H01 * c1 = x1 at *
  generalize (H00 + n) * c1 - H01 * c0 = x2 at *
  generalize (H11 + n) * d0 - H01 * d1 = x3 at *
  generalize (H00 + n) * d1 - H01 * d0 = x4 at *
  have t1 := neg_abs_le x1; have u1 := le_abs_self x1
  have t2 := neg_abs_le x2; have u2 := le_abs_self x2
  have t3 := neg_abs_le x3; have u3 := le_abs_self x3
  have t4 := neg_abs_le x4; have u4 := le_abs_self x4
  simp only [abs_le]
  omega

/-- One entry of the solution. -/
theorem multShift_eq {dt px lo hi : Int} (hd : 16 ≤ dt) (hd' : dt ≤ 2 ^ 48) (hpx : |px| ≤ 97 * dt) (hpx' : |px| ≤ 2 ^ 48 - 2 ^ 46) (hlo : lo ≤ hi) :
    multShift lo hi px (Spec.divFactor dt) (Spec.divShift dt - 16) = some (Spec.clip3 lo hi (Spec.quotient dt px)) := by
  have hf := divFactor_bounds (d := dt) (by omega)
  have af : |Spec.divFactor dt| ≤ 2 ^ 14 := by rw [abs_le]; omega
  have hlog : 4 ≤ Nat.log2 dt.toNat := by
    by_contra hc
    have : Nat.log2 dt.toNat < 4 := by omega
    rw [Nat.log2_lt (by omega)] at this
    omega
  have hlog' : Nat.log2 dt.toNat < 49 := by
    rw [Nat.log2_lt (by omega)]; omega
  have hs : Spec.divShift dt = Nat.log2 dt.toNat + 14 := rfl
  have hb : |px * Spec.divFactor dt| ≤ (2 ^ 48 - 2 ^ 46) * 2 ^ 14 := abs_mul_le hpx' af
  have hnear := divFactor_near (d := dt) (by omega)
  have hpow : (2 : Int) ^ Spec.divShift dt = 2 ^ (Spec.divShift dt - 16) * 65536 := by
    rw [show (65536 : Int) = 2 ^ 16 by norm_num, ← pow_add]; congr 1; omega
  have hq : |px * Spec.divFactor dt| ≤ 2 ^ 23 * 2 ^ (Spec.divShift dt - 16) := by
    rw [abs_mul, abs_of_nonneg (show 0 ≤ Spec.divFactor dt by omega)]
    have h1 : |px| * Spec.divFactor dt ≤ 97 * dt * Spec.divFactor dt := mul_le_mul_of_nonneg_right hpx (by omega)
    have h2 := le_abs_self (Spec.divFactor dt * dt - 2 ^ Spec.divShift dt)
    rw [hpow] at h2 hnear
    have hp : (0 : Int) < 2 ^ (Spec.divShift dt - 16) := by positivity
    generalize (2 : Int) ^ (Spec.divShift dt - 16) = P at *
    have h3 : 97 * dt * Spec.divFactor dt = 97 * (Spec.divFactor dt * dt) := by ring
    rw [h3] at h1
    omega
  unfold multShift
  rw [abs_le] at hb
  rw [i64_eq (by omega), Option.bind_some, asr_two, mulShift_eq hq (by norm_num) (by rw [abs_lt]; omega) (by omega), Option.map_some,
    iclip_eq _ _ _ hlo]
  rfl

/-- The position of a block, the block's motion and its size. -/
structure BlockOk (b : Block) : Prop where
  x : 0 ≤ b.x ∧ b.x ≤ 16384
  y : 0 ≤ b.y ∧ b.y ≤ 16384
  w : 1 ≤ b.w ∧ b.w ≤ 32
  h : 1 ≤ b.h ∧ b.h ≤ 32
  mvx : -32768 ≤ b.mv.x ∧ b.mv.x ≤ 32767
  mvy : -32768 ≤ b.mv.y ∧ b.mv.y ≤ 32767

/-- The last two entries of the matrix. -/
theorem setAffine_eq (b : Block) (hb : BlockOk b) (w : Wm) (h : Codable w) :
    setAffineMv2d b.w b.h b.mv w b.x b.y = some { w with
      m0 := Spec.clip3 (-(2 ^ 23)) (2 ^ 23 - 1) (b.mv.x * 2 ^ 13 - ((4 * b.x + 2 * b.w - 1) * (w.m2 - 2 ^ 16) + (4 * b.y + 2 * b.h - 1) * w.m3))
      m1 := Spec.clip3 (-(2 ^ 23)) (2 ^ 23 - 1) (b.mv.y * 2 ^ 13 - ((4 * b.x + 2 * b.w - 1) * w.m4 + (4 * b.y + 2 * b.h - 1) * (w.m5 - 2 ^ 16))) } := by
  obtain ⟨hx, hy, hw, hh, hmx, hmy⟩ := hb
  obtain ⟨h2, h3, h4, h5⟩ := h
  have bx : |4 * b.x + 2 * b.w - 1| ≤ 65600 := by rw [abs_le]; omega
  have by_ : |4 * b.y + 2 * b.h - 1| ≤ 65600 := by rw [abs_le]; omega
  have p1 := abs_mul_le bx (show |w.m2 - 2 ^ 16| ≤ 2 ^ 13 by rw [abs_le]; omega)
  have p2 := abs_mul_le by_ (show |w.m3| ≤ 2 ^ 13 by rw [abs_le]; omega)
  have p3 := abs_mul_le bx (show |w.m4| ≤ 2 ^ 13 by rw [abs_le]; omega)
  have p4 := abs_mul_le by_ (show |w.m5 - 2 ^ 16| ≤ 2 ^ 13 by rw [abs_le]; omega)
  rw [abs_le] at p1 p2 p3 p4
  unfold setAffineMv2d
  dsimp only
  rw [show b.x * 4 + (2 * b.w - 1) = 4 * b.x + 2 * b.w - 1 by ring, show b.y * 4 + (2 * b.h - 1) = 4 * b.y + 2 * b.h - 1 by ring,
    show (0x10000 : Int) = 2 ^ 16 by norm_num]
  rw [i32_eq (by omega), Option.bind_some, i32_eq (by omega), Option.bind_some, i32_eq (by omega), Option.bind_some, i32_eq (by omega),
    Option.bind_some, i32_eq (by omega), Option.bind_some, i32_eq (by omega), Option.bind_some, i32_eq (by omega), Option.bind_some,
    i32_eq (by omega), Option.bind_some, iclip_eq _ _ _ (by decide), iclip_eq _ _ _ (by decide)]
  rfl

theorem sum_perm {l l' : List Block} (h : l ~ l') (f : Block → Int) : Spec.sum l f = Spec.sum l' f := (h.map f).sum_eq

theorem clip3_bounds (lo hi x : Int) (h : lo ≤ hi) : lo ≤ Spec.clip3 lo hi x ∧ Spec.clip3 lo hi x ≤ hi := by
  unfold Spec.clip3; omega

/-- The matrix of the specification, before it is checked. -/
def specMatrix (b : Block) (l : List Block) (w : Wm) : Wm :=
  let dt := det b l
  let m2 := Spec.diag dt (Spec.a11 b l * Spec.bx0 b l - Spec.a01 b l * Spec.bx1 b l)
  let m3 := Spec.nondiag dt (Spec.a00 b l * Spec.bx1 b l - Spec.a01 b l * Spec.bx0 b l)
  let m4 := Spec.nondiag dt (Spec.a11 b l * Spec.by0 b l - Spec.a01 b l * Spec.by1 b l)
  let m5 := Spec.diag dt (Spec.a00 b l * Spec.by1 b l - Spec.a01 b l * Spec.by0 b l)
  { w with
    m2, m3, m4, m5
    m0 := Spec.clip3 (-(2 ^ 23)) (2 ^ 23 - 1) (b.mv.x * 2 ^ 13 - ((4 * b.x + 2 * b.w - 1) * (m2 - 2 ^ 16) + (4 * b.y + 2 * b.h - 1) * m3))
    m1 := Spec.clip3 (-(2 ^ 23)) (2 ^ 23 - 1) (b.mv.y * 2 ^ 13 - ((4 * b.x + 2 * b.w - 1) * m4 + (4 * b.y + 2 * b.h - 1) * (m5 - 2 ^ 16))) }

theorem specMatrix_codable (b : Block) (l : List Block) (w : Wm) : Codable (specMatrix b l w) ∧
    -(2 ^ 13) < (specMatrix b l w).m2 - 2 ^ 16 ∧ -(2 ^ 13) < (specMatrix b l w).m5 - 2 ^ 16 := by
  have d1 := clip3_bounds (2 ^ 16 - 2 ^ 13 + 1) (2 ^ 16 + 2 ^ 13 - 1) (Spec.quotient (det b l) (Spec.a11 b l * Spec.bx0 b l - Spec.a01 b l * Spec.bx1 b l)) (by norm_num)
  have d2 := clip3_bounds (2 ^ 16 - 2 ^ 13 + 1) (2 ^ 16 + 2 ^ 13 - 1) (Spec.quotient (det b l) (Spec.a00 b l * Spec.by1 b l - Spec.a01 b l * Spec.by0 b l)) (by norm_num)
  have n1 := clip3_bounds (-(2 ^ 13) + 1) (2 ^ 13 - 1) (Spec.quotient (det b l) (Spec.a00 b l * Spec.bx1 b l - Spec.a01 b l * Spec.bx0 b l)) (by norm_num)
  have n2 := clip3_bounds (-(2 ^ 13) + 1) (2 ^ 13 - 1) (Spec.quotient (det b l) (Spec.a11 b l * Spec.by0 b l - Spec.a01 b l * Spec.by1 b l)) (by norm_num)
  refine ⟨⟨?_, ?_, ?_, ?_⟩, ?_, ?_⟩ <;> simp only [specMatrix, Spec.diag, Spec.nondiag] <;> omega

theorem used_nil (b : Block) : det b [] = 0 := rfl

/-- dav1d_find_affine_int on samples near the block. -/
theorem findAffine_eq (b : Block) (hb : BlockOk b) (l : List Block) (hl : ∀ c ∈ l, Near b c) (hlen : l.length ≤ 8) (w : Wm) :
    findAffineInt (l.map (ptOf b)) b.w b.h b.mv w b.x b.y =
      some (if det b (l.filter (isUsed b)) = 0 then none else some (specMatrix b (l.filter (isUsed b)) w)) := by
  obtain ⟨h1, h2⟩ := fold_eq b l hl ⟨0, 0, 0, 0, 0, 0, 0⟩ 0 (by norm_num) (by omega) (by constructor <;> norm_num)
  unfold findAffineInt
  dsimp only
  rw [h1, Option.bind_some]
  have hall : ∀ c ∈ l.filter (isUsed b), isUsed b c = true := fun c hc => (List.mem_filter.mp hc).2
  generalize hU : l.filter (isUsed b) = U at *
  have hadd : (⟨0, 0, 0, 0, 0, 0, 0⟩ : Acc).add b U = ⟨Spec.a00 b U, Spec.a01 b U, Spec.a11 b U, Spec.bx0 b U, Spec.bx1 b U, Spec.by0 b U, Spec.by1 b U⟩ := by
    simp [Acc.add]
  rw [hadd] at h2 ⊢
  obtain ⟨b00, b01, b11, bb0, bb1, bc0, bc1⟩ := h2
  dsimp only at b00 b01 b11 bb0 bb1 bc0 bc1 ⊢
  have prod : ∀ {x y : Int}, |x| ≤ 8 * 1200000 → |y| ≤ 8 * 1200000 → -92160000000000 ≤ x * y ∧ x * y ≤ 92160000000000 := by
    intro x y hx hy
    have := abs_mul_le hx hy
    rw [abs_le] at this; omega
  have q1 := prod b00 b11
  have q2 := prod b01 b01
  rw [i64_eq (by omega), Option.bind_some, i64_eq (by omega), Option.bind_some, i64_eq (by omega), Option.bind_some]
  have hdet : Spec.a00 b U * Spec.a11 b U - Spec.a01 b U * Spec.a01 b U = det b U := rfl
  rw [hdet]
  by_cases h0 : det b U = 0
  · rw [if_pos h0, if_pos h0]
  · rw [if_neg h0, if_neg h0]
    have hne : U ≠ [] := by intro h; rw [h] at h0; exact h0 rfl
    obtain ⟨hD, s1, s2, s3, s4⟩ := solution_bounds b U hne hall
    have hD' : det b U ≤ 184320000000000 := by rw [← hdet]; omega
    have hinv : invDet (det b U) = some (Spec.divFactor (det b U), Spec.divShift (det b U) - 16) := by
      unfold invDet
      have := resolve_eq (bits := 63) (d := (det b U).natAbs) (by omega) (by omega)
      rw [this, Int.natCast_natAbs, abs_of_nonneg (by omega), Option.bind_some]
      dsimp only
      have hlog : 4 ≤ Nat.log2 (det b U).toNat := by
        by_contra hc
        have : Nat.log2 (det b U).toNat < 4 := by omega
        rw [Nat.log2_lt (by omega)] at this
        omega
      rw [if_neg (by unfold Spec.divShift; omega)]
      unfold applySign
      rw [if_neg (by omega)]
    rw [hinv, Option.bind_some]
    dsimp only
    have hp48 : (184320000000000 : Int) ≤ 2 ^ 48 - 2 ^ 46 := by norm_num
    have x1 := prod b11 bb0; have x2 := prod b01 bb1
    have x3 := prod b00 bb1; have x4 := prod b01 bb0
    have x5 := prod b11 bc0; have x6 := prod b01 bc1
    have x7 := prod b00 bc1; have x8 := prod b01 bc0
    have m2e := multShift_eq (lo := 0xe001) (hi := 0x11fff) hD (by omega) s1 (by rw [abs_le]; omega) (by norm_num)
    have m3e := multShift_eq (lo := -0x1fff) (hi := 0x1fff) hD (by omega) s2 (by rw [abs_le]; omega) (by norm_num)
    have m4e := multShift_eq (lo := -0x1fff) (hi := 0x1fff) hD (by omega) s3 (by rw [abs_le]; omega) (by norm_num)
    have m5e := multShift_eq (lo := 0xe001) (hi := 0x11fff) hD (by omega) s4 (by rw [abs_le]; omega) (by norm_num)
    rw [i64_eq (by omega), Option.bind_some, i64_eq (by omega), Option.bind_some, i64_eq (by omega), Option.bind_some, m2e, Option.bind_some]
    rw [i64_eq (by omega), Option.bind_some, i64_eq (by omega), Option.bind_some, i64_eq (by omega), Option.bind_some, m3e, Option.bind_some]
    rw [i64_eq (by omega), Option.bind_some, i64_eq (by omega), Option.bind_some, i64_eq (by omega), Option.bind_some, m4e, Option.bind_some]
    rw [i64_eq (by omega), Option.bind_some, i64_eq (by omega), Option.bind_some, i64_eq (by omega), Option.bind_some, m5e, Option.bind_some]
    have hc := (specMatrix_codable b U w).1
    have hset := setAffine_eq b hb { w with
      m2 := (specMatrix b U w).m2, m3 := (specMatrix b U w).m3, m4 := (specMatrix b U w).m4, m5 := (specMatrix b U w).m5 } ⟨hc.m2, hc.m3, hc.m4, hc.m5⟩
    exact congrArg (Option.map some) hset

/-- A block and its neighbours as derive_warpmv sees them: the offset of add_sample is that of the neighbour's left (upper)
end if it extends to the right (down) from there, of its other end if not. -/
def Neighbour.block (b : Block) (n : Neighbour) : Block :=
  ⟨if n.sgnx = 1 then b.x + n.dx else b.x + n.dx - n.w4, if n.sgny = 1 then b.y + n.dy else b.y + n.dy - n.h4, n.w4, n.h4, n.mv⟩

/-- What neighbours can be: blocks have at most 32 units in either direction, they start at most 31 units before the block
and at most 32 units behind its start. -/
structure NeighbourOk (n : Neighbour) : Prop where
  dx : -31 ≤ n.dx ∧ n.dx ≤ 32
  dy : -31 ≤ n.dy ∧ n.dy ≤ 32
  sgnx : n.sgnx = 1 ∨ n.sgnx = -1
  sgny : n.sgny = 1 ∨ n.sgny = -1
  w : 1 ≤ n.w4 ∧ n.w4 ≤ 32
  h : 1 ≤ n.h4 ∧ n.h4 ≤ 32

theorem near_block (b : Block) (hb : BlockOk b) (n : Neighbour) (hn : NeighbourOk n) : Near b (n.block b) ∧ n.pt = ptOf b (n.block b) := by
  obtain ⟨hdx, hdy, hsx, hsy, hw, hh⟩ := hn
  have h1 := hb.w; have h2 := hb.h
  refine ⟨⟨?_, ?_⟩, ?_⟩
  · unfold Neighbour.block; dsimp only; rw [abs_le]; rcases hsx with h | h <;> simp only [h] <;> norm_num <;> omega
  · unfold Neighbour.block; dsimp only; rw [abs_le]; rcases hsy with h | h <;> simp only [h] <;> norm_num <;> omega
  · have ex : 16 * (2 * n.dx + n.sgnx * n.w4) - 8 = Spec.sx b (n.block b) + (2 * b.w - 1) * 8 := by
      rw [sx_eq]; unfold Neighbour.block; rcases hsx with h | h <;> simp only [h] <;> norm_num <;> ring
    have ey : 16 * (2 * n.dy + n.sgny * n.h4) - 8 = Spec.sy b (n.block b) + (2 * b.h - 1) * 8 := by
      rw [sy_eq]; unfold Neighbour.block; rcases hsy with h | h <;> simp only [h] <;> norm_num <;> ring
    unfold Neighbour.pt ptOf
    dsimp only
    rw [ex, ey]; rfl

theorem mvd_ptOf (b c : Block) : (mvd (thresh b.w b.h) b.mv (ptOf b c)).isSome = decide (Spec.mvDiff c b ≤ 4 * Spec.clip3 4 28 (max b.w b.h)) := by
  unfold mvd thresh Spec.mvDiff
  rw [iclip_eq _ _ _ (by decide), abs_eq, abs_eq]
  have e1 : (ptOf b c).outx - (ptOf b c).inx - b.mv.x = c.mv.x - b.mv.x := by unfold ptOf; dsimp only; ring
  have e2 : (ptOf b c).outy - (ptOf b c).iny - b.mv.y = c.mv.y - b.mv.y := by unfold ptOf; dsimp only; ring
  rw [e1, e2]
  dsimp only
  split
  · rename_i h
    simp only [Option.isSome_none]
    symm; rw [decide_eq_false_iff_not]; omega
  · rename_i h
    simp only [Option.isSome_some]
    symm; rw [decide_eq_true_iff]; omega

/-- For every block with one to eight neighbours, derive_warpmv neither overflows nor reads outside of an array, and finds
the parameters the specification gives for the block and its neighbours, in the order they were found. -/
theorem C47_local (b : Block) (hb : BlockOk b) (ns : List Neighbour) (hn : ∀ n ∈ ns, NeighbourOk n) (hlen : ns.length ≤ 8) (w : Wm) :
    deriveWarpmv (ns.map Neighbour.pt) b.w b.h b.mv w b.x b.y = some (Spec.localWarp b (ns.map (Neighbour.block b))) := by
  have hpts : ns.map Neighbour.pt = (ns.map (Neighbour.block b)).map (ptOf b) := by
    rw [List.map_map]; apply List.map_congr_left; intro n h; exact (near_block b hb n (hn n h)).2
  have hnear : ∀ c ∈ ns.map (Neighbour.block b), Near b c := by
    intro c hc
    obtain ⟨n, h1, rfl⟩ := List.mem_map.mp hc
    exact (near_block b hb n (hn n h1)).1
  have hlen' : (ns.map (Neighbour.block b)).length ≤ 8 := by simpa using hlen
  rw [hpts]
  generalize ns.map (Neighbour.block b) = cs at *
  obtain ⟨sel, h1, h2⟩ := select_spec (cs.map (ptOf b)) b.w b.h b.mv
  have hfilt : (cs.map (ptOf b)).filter (fun p => (mvd (thresh b.w b.h) b.mv p).isSome) =
      (cs.filter (fun c => Spec.mvDiff c b ≤ 4 * Spec.clip3 4 28 (max b.w b.h))).map (ptOf b) := by
    rw [List.filter_map]
    congr 1
    apply List.filter_congr
    intro c _
    exact mvd_ptOf b c
  have hsel : (if (cs.map (ptOf b)).filter (fun p => (mvd (thresh b.w b.h) b.mv p).isSome) = [] then (cs.map (ptOf b)).take 1
        else (cs.map (ptOf b)).filter (fun p => (mvd (thresh b.w b.h) b.mv p).isSome)) = (Spec.selected b cs).map (ptOf b) := by
    rw [hfilt]
    unfold Spec.selected
    dsimp only
    by_cases he : cs.filter (fun c => decide (Spec.mvDiff c b ≤ 4 * Spec.clip3 4 28 (max b.w b.h))) = []
    · rw [if_pos (by rw [he]; rfl), if_pos he, List.map_take]
    · rw [if_neg (by simpa using he), if_neg he]
  rw [hsel] at h2
  obtain ⟨l', h3, rfl⟩ := perm_map_exists (ptOf b) h2 _ rfl
  have hsub : ∀ c ∈ Spec.selected b cs, c ∈ cs := by
    intro c hc
    unfold Spec.selected at hc
    dsimp only at hc
    split at hc
    · exact List.mem_of_mem_take hc
    · exact (List.mem_filter.mp hc).1
  have hsl : (Spec.selected b cs).length ≤ 8 := by
    unfold Spec.selected
    dsimp only
    split
    · rw [List.length_take]; omega
    · exact le_trans (List.length_filter_le _ _) hlen'
  unfold deriveWarpmv
  rw [h1, Option.bind_some, findAffine_eq b hb l' (fun c hc => hnear c (hsub c (h3.mem_iff.mp hc))) (by rw [h3.length_eq]; exact hsl) w, Option.bind_some]
  have hused : l'.filter (isUsed b) ~ Spec.used b cs := h3.filter _
  have e00 : Spec.a00 b (l'.filter (isUsed b)) = Spec.a00 b (Spec.used b cs) := sum_perm hused _
  have e01 : Spec.a01 b (l'.filter (isUsed b)) = Spec.a01 b (Spec.used b cs) := sum_perm hused _
  have e11 : Spec.a11 b (l'.filter (isUsed b)) = Spec.a11 b (Spec.used b cs) := sum_perm hused _
  have f0 : Spec.bx0 b (l'.filter (isUsed b)) = Spec.bx0 b (Spec.used b cs) := sum_perm hused _
  have f1 : Spec.bx1 b (l'.filter (isUsed b)) = Spec.bx1 b (Spec.used b cs) := sum_perm hused _
  have g0 : Spec.by0 b (l'.filter (isUsed b)) = Spec.by0 b (Spec.used b cs) := sum_perm hused _
  have g1 : Spec.by1 b (l'.filter (isUsed b)) = Spec.by1 b (Spec.used b cs) := sum_perm hused _
  have ed : det b (l'.filter (isUsed b)) = det b (Spec.used b cs) := by unfold det; rw [e00, e01, e11]
  have em : specMatrix b (l'.filter (isUsed b)) w = specMatrix b (Spec.used b cs) w := by
    unfold specMatrix; rw [ed, e00, e01, e11, f0, f1, g0, g1]
  rw [ed, em]
  unfold Spec.localWarp
  dsimp only
  have hdet : Spec.a00 b (Spec.used b cs) * Spec.a11 b (Spec.used b cs) - Spec.a01 b (Spec.used b cs) * Spec.a01 b (Spec.used b cs) = det b (Spec.used b cs) := rfl
  rw [hdet]
  by_cases h0 : det b (Spec.used b cs) = 0
  · rw [if_pos h0, if_pos h0]
  · rw [if_neg h0, if_neg h0]
    dsimp only
    rw [C47_shear _ (specMatrix_codable b _ w).1, Option.map_some]
    dsimp only
    by_cases hv : (Spec.shear (specMatrix b (Spec.used b cs) w).m2 (specMatrix b (Spec.used b cs) w).m3 (specMatrix b (Spec.used b cs) w).m4
      (specMatrix b (Spec.used b cs) w).m5).Valid
    · rw [if_pos hv, if_pos rfl]
      refine Eq.trans ?_ (congrArg some (if_pos hv).symm)
      rfl
    · rw [if_neg hv, if_neg (by decide)]
      refine Eq.trans ?_ (congrArg some (if_neg hv).symm)
      rfl

/-- A block of 32x32 pixels with four neighbours, one of them moving differently. -/
def demoBlock : Block := ⟨16, 24, 8, 8, ⟨12, 18⟩⟩
def demoNeighbours : List Neighbour :=
  [⟨0, 0, 1, -1, 4, 4, ⟨10, 20⟩⟩, ⟨4, 0, 1, -1, 2, 4, ⟨14, 26⟩⟩, ⟨0, 2, -1, 1, 2, 2, ⟨30, -20⟩⟩, ⟨0, 0, -1, -1, 8, 8, ⟨14, 22⟩⟩]

example : BlockOk demoBlock ∧ (∀ n ∈ demoNeighbours, NeighbourOk n) ∧ demoNeighbours.length ≤ 8 := by
  refine ⟨⟨by decide, by decide, by decide, by decide, by decide, by decide⟩, ?_, by decide⟩
  intro n hn
  simp only [demoNeighbours, List.mem_cons, List.not_mem_nil, or_false] at hn
  rcases hn with rfl | rfl | rfl | rfl <;> exact ⟨by decide, by decide, by decide, by decide, by decide, by decide⟩

example : (Spec.selected demoBlock (demoNeighbours.map (Neighbour.block demoBlock))).length = 3 ∧
    (Spec.localWarp demoBlock (demoNeighbours.map (Neighbour.block demoBlock))).isSome = true := by decide +kernel

/-- Accepted parameters satisfy the bounds of the specification and of the warp filter. -/
theorem C47_local_valid (b : Block) (cs : List Block) (w : Wm) (h : Spec.localWarp b cs = some w) :
    4 * |w.alpha| + 7 * |w.beta| < 2 ^ 16 ∧ 4 * |w.gamma| + 4 * |w.delta| < 2 ^ 16 := by
  unfold Spec.localWarp at h
  dsimp only at h
  split at h
  · cases h
  · split at h
    · rename_i hv
      cases h
      exact hv
    · cases h

/-- Decoding a frame in two passes uses the same parameters: what the second pass makes of the numbers kept by the first is
what the first pass found, whatever `t->warpmv` held before. -/
theorem C47_second_pass (b : Block) (hb : BlockOk b) (cs : List Block) (w : Wm) :
    restore (store (Spec.localWarp b cs)) b.w b.h b.mv w b.x b.y = some (Spec.localWarp b cs) := by
  cases h : Spec.localWarp b cs with
  | none => rfl
  | some v =>
    obtain ⟨hv, hm⟩ : (Spec.shear v.m2 v.m3 v.m4 v.m5).Valid ∧ ∃ w', v = withShear (specMatrix b (Spec.used b cs) w') := by
      unfold Spec.localWarp at h
      dsimp only at h
      split at h
      · cases h
      · split at h
        · rename_i hv
          cases h
          exact ⟨hv, ⟨0, 0, 0, 0, 0, 0, 0, 0, 0, 0⟩, rfl⟩
        · cases h
    obtain ⟨w', rfl⟩ := hm
    obtain ⟨⟨c2, c3, c4, c5⟩, n2, n5⟩ := specMatrix_codable b (Spec.used b cs) w'
    have e2 : (withShear (specMatrix b (Spec.used b cs) w')).m2 = (specMatrix b (Spec.used b cs) w').m2 := rfl
    have e3 : (withShear (specMatrix b (Spec.used b cs) w')).m3 = (specMatrix b (Spec.used b cs) w').m3 := rfl
    have e4 : (withShear (specMatrix b (Spec.used b cs) w')).m4 = (specMatrix b (Spec.used b cs) w').m4 := rfl
    have e5 : (withShear (specMatrix b (Spec.used b cs) w')).m5 = (specMatrix b (Spec.used b cs) w').m5 := rfl
    unfold store restore
    dsimp only
    rw [e2, e3, e4, e5, toI16_eq (by omega), toI16_eq (by omega), toI16_eq (by omega), toI16_eq (by omega), if_neg (by omega)]
    rw [show ∀ x : Int, x - 0x10000 + 0x10000 = x by intro x; ring, show ∀ x : Int, x - 0x10000 + 0x10000 = x by intro x; ring]
    rw [setAffine_eq b hb { w with
      m2 := (specMatrix b (Spec.used b cs) w').m2, m3 := (specMatrix b (Spec.used b cs) w').m3,
      m4 := (specMatrix b (Spec.used b cs) w').m4, m5 := (specMatrix b (Spec.used b cs) w').m5 } ⟨c2, c3, c4, c5⟩, Option.bind_some]
    have hs := C47_shear { specMatrix b (Spec.used b cs) w' with alpha := w.alpha, beta := w.beta, gamma := w.gamma, delta := w.delta } ⟨c2, c3, c4, c5⟩
    exact congrArg (Option.map fun r => some r.2) hs

end Dav1d.Warp
