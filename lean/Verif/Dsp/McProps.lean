import Verif.Dsp.McLemmas
import Mathlib.Algebra.Order.Ring.Abs
import Mathlib.Tactic.Ring
/-!
# C36: motion compensation
-/
namespace Dav1d

/-- A call of one of the prediction functions. The numbers are its arguments: block size, position or fraction, steps,
filter types. -/
inductive McJob where
  | tap (w h mx my th tv : Nat)
  | tapScaled (w h mx my dx dy th tv : Nat)
  | bilin (mx my : Nat)
  | bilinScaled (h mx my dx dy : Nat)
  /-- `px`, `py` are the fractions of the position of the 8x8 block in units of 1/65536 -/
  | warp (alpha beta gamma delta : Int) (px py : Nat)

/-- The first argument of the warp functions, src/recon_tmpl.c:1147-1151: `(p - s) & ~0x3f`. -/
def warpStart (p : Nat) (s : Int) : Int := (p - s) / 64 * 64

/-- The predicted pixel (c->mc, c->mc_scaled, c->warp8x8). -/
def McJob.put (d : Depth) (src : Plane) (x y : Nat) : McJob → Option Int
  | .tap w h mx my th tv => put8tap d src w h mx my th tv x y
  | .tapScaled w h mx my dx dy th tv => put8tapScaled d src w h mx my dx dy th tv x y
  | .bilin mx my => putBilin d src mx my x y
  | .bilinScaled h mx my dx dy => putBilinScaled d src h mx my dx dy x y
  | .warp a b g e px py => warp8x8 d src a b g e (warpStart px (4 * a + 7 * b)) (warpStart py (4 * g + 4 * e)) x y

/-- The intermediate value for compound predictions (c->mct, c->mct_scaled, c->warp8x8t). -/
def McJob.prep (d : Depth) (src : Plane) (x y : Nat) : McJob → Option Int
  | .tap w h mx my th tv => prep8tap d src w h mx my th tv x y
  | .tapScaled w h mx my dx dy th tv => prep8tapScaled d src w h mx my dx dy th tv x y
  | .bilin mx my => prepBilin d src mx my x y
  | .bilinScaled h mx my dx dy => prepBilinScaled d src h mx my dx dy x y
  | .warp a b g e px py => warp8x8t d src a b g e (warpStart px (4 * a + 7 * b)) (warpStart py (4 * g + 4 * e)) x y

/-- What the arguments may be for a pixel (x, y) of the block: blocks have at most 128 rows and columns, fractions are
below 1, a step is at most 2 (a reference frame is at most twice as large, obu.c), there are three filter types, and the
shear of a warp is what dav1d_get_shear_params accepts. -/
def McJob.Ok (x y : Nat) : McJob → Prop
  | .tap w h mx my th tv => x < w ∧ y < h ∧ mx < 16 ∧ my < 16 ∧ th < 3 ∧ tv < 3
  | .tapScaled w h mx my dx dy th tv => x < w ∧ w ≤ 128 ∧ y < h ∧ h ≤ 128 ∧ mx < 1024 ∧ my < 1024 ∧ dx ≤ 2048 ∧ dy ≤ 2048 ∧ th < 3 ∧ tv < 3
  | .bilin mx my => mx < 16 ∧ my < 16
  | .bilinScaled h mx my dx dy => x < 128 ∧ y < h ∧ h ≤ 128 ∧ mx < 1024 ∧ my < 1024 ∧ dx ≤ 2048 ∧ dy ≤ 2048
  | .warp a b g e px py => x < 8 ∧ y < 8 ∧ px < 65536 ∧ py < 65536 ∧ 4 * a.natAbs + 7 * b.natAbs < 65536 ∧ 4 * g.natAbs + 4 * e.natAbs < 65536

/-- The source has only pixels of the bit depth. -/
def PlaneIn (d : Depth) (src : Plane) : Prop := ∀ y x, 0 ≤ src y x ∧ src y x ≤ d.max

theorem depth_pos (d : Depth) : 0 ≤ d.max := by cases d <;> decide

/-- Bounds of the values in `mid` after horizontal filters. -/
def midLo : Depth → Int
  | .b8 => -5000 | .b10 => -7200 | .b12 => -7200
def midHi : Depth → Int
  | .b8 => 5900 | .b10 => 23600 | .b12 => 23600

theorem tap_h {d : Depth} {F : List Int} (hF : Kernel 64 28 F) {s : Int → Int} (hs : ∀ k ∈ taps, 0 ≤ s k ∧ s k ≤ d.max) :
    midLo d ≤ firRnd F s (6 - d.bits) ∧ firRnd F s (6 - d.bits) ≤ midHi d := by
  have := hF.bounds (depth_pos d) hs
  unfold firRnd half asr
  cases d <;> simp only [Depth.max, Depth.bits, Depth.bpc, midLo, midHi] at * <;> omega

theorem warp_h {d : Depth} {F : List Int} (hF : Kernel 128 47 F) {s : Int → Int} (hs : ∀ k ∈ taps, 0 ≤ s k ∧ s k ≤ d.max) :
    midLo d ≤ firRnd F s (7 - d.bits) ∧ firRnd F s (7 - d.bits) ≤ midHi d := by
  have := hF.bounds (depth_pos d) hs
  unfold firRnd half asr
  cases d <;> simp only [Depth.max, Depth.bits, Depth.bpc, midLo, midHi] at * <;> omega

theorem bilin_bounds {a b : Int} {m : Nat} (hm : m < 16) {s : Int → Int} (h0 : a ≤ s 0 ∧ s 0 ≤ b) (h1 : a ≤ s 1 ∧ s 1 ≤ b) :
    16 * a ≤ 16 * s 0 + m * (s 1 - s 0) ∧ 16 * s 0 + m * (s 1 - s 0) ≤ 16 * b := by
  have hm1 : (0 : Int) ≤ m := by omega
  have hm2 : (0 : Int) ≤ 16 - m := by omega
  constructor <;> nlinarith [mul_nonneg hm1 (sub_nonneg.2 h1.1), mul_nonneg hm1 (sub_nonneg.2 h1.2), mul_nonneg hm2 (sub_nonneg.2 h0.1), mul_nonneg hm2 (sub_nonneg.2 h0.2)]

theorem bilin_h {d : Depth} {m : Nat} (hm : m < 16) {s : Int → Int} (hs : ∀ k, 0 ≤ s k ∧ s k ≤ d.max) :
    midLo d ≤ bilinRnd s m (4 - d.bits) ∧ bilinRnd s m (4 - d.bits) ≤ midHi d := by
  have := bilin_bounds hm (hs 0) (hs 1)
  unfold bilinRnd half asr
  generalize (m : Int) * (s 1 - s 0) = z at *
  cases d <;> simp only [Depth.max, Depth.bits, Depth.bpc, midLo, midHi] at * <;> omega

theorem none_h {d : Depth} {v : Int} (hs : 0 ≤ v ∧ v ≤ d.max) : midLo d ≤ v * 2 ^ d.bits ∧ v * 2 ^ d.bits ≤ midHi d := by
  cases d <;> simp only [Depth.max, Depth.bits, Depth.bpc, midLo, midHi] at * <;> omega

theorem mid_fits {d : Depth} {v : Int} (h : midLo d ≤ v ∧ v ≤ midHi d) : -32768 ≤ v ∧ v ≤ 32767 := by
  cases d <;> simp only [midLo, midHi] at * <;> omega

theorem mid_bias {d : Depth} {v : Int} (h : midLo d ≤ v ∧ v ≤ midHi d) : -32768 ≤ v - d.bias ∧ v - d.bias ≤ 32767 := by
  cases d <;> simp only [midLo, midHi, Depth.bias] at * <;> omega

theorem mid_le (d : Depth) : midLo d ≤ midHi d := by cases d <;> decide

theorem tap_v {d : Depth} {F : List Int} (hF : Kernel 64 28 F) {s : Int → Int} (hs : ∀ k ∈ taps, midLo d ≤ s k ∧ s k ≤ midHi d) :
    -32768 ≤ firRnd F s 6 - d.bias ∧ firRnd F s 6 - d.bias ≤ 32767 := by
  have := hF.bounds (mid_le d) hs
  unfold firRnd half asr
  cases d <;> simp only [midLo, midHi, Depth.bias] at * <;> omega

theorem warp_v {d : Depth} {F : List Int} (hF : Kernel 128 47 F) {s : Int → Int} (hs : ∀ k ∈ taps, midLo d ≤ s k ∧ s k ≤ midHi d) :
    -32768 ≤ firRnd F s 7 - d.bias ∧ firRnd F s 7 - d.bias ≤ 32767 := by
  have := hF.bounds (mid_le d) hs
  unfold firRnd half asr
  cases d <;> simp only [midLo, midHi, Depth.bias] at * <;> omega

theorem bilin_v {d : Depth} {m : Nat} (hm : m < 16) {s : Int → Int} (hs : ∀ k ∈ [0, 1], midLo d ≤ s k ∧ s k ≤ midHi d) :
    -32768 ≤ bilinRnd s m 4 - d.bias ∧ bilinRnd s m 4 - d.bias ≤ 32767 := by
  have := bilin_bounds hm (hs 0 (by simp)) (hs 1 (by simp))
  unfold bilinRnd half asr
  generalize (m : Int) * (s 1 - s 0) = z at *
  cases d <;> simp only [midLo, midHi, Depth.bias] at * <;> omega

-- values on a constant source
theorem tap_h_flat {d : Depth} {c : Int} {F : List Int} (hF : Kernel 64 28 F) {s : Int → Int} (hs : ∀ k ∈ taps, s k = c) :
    firRnd F s (6 - d.bits) = c * 2 ^ d.bits := by
  have := hF.flat hs
  unfold firRnd half asr
  cases d <;> simp only [Depth.bits, Depth.bpc] at * <;> omega
theorem warp_h_flat {d : Depth} {c : Int} {F : List Int} (hF : Kernel 128 47 F) {s : Int → Int} (hs : ∀ k ∈ taps, s k = c) :
    firRnd F s (7 - d.bits) = c * 2 ^ d.bits := by
  have := hF.flat hs
  unfold firRnd half asr
  cases d <;> simp only [Depth.bits, Depth.bpc] at * <;> omega
theorem bilin_h_flat {d : Depth} {c : Int} {m : Nat} {s : Int → Int} (h0 : s 0 = c) (h1 : s 1 = c) :
    bilinRnd s m (4 - d.bits) = c * 2 ^ d.bits := by
  unfold bilinRnd half asr
  rw [h0, h1, sub_self, mul_zero]
  cases d <;> simp only [Depth.bits, Depth.bpc] at * <;> omega
theorem tap_put_flat {d : Depth} {c : Int} {F : List Int} (hF : Kernel 64 28 F) {s : Int → Int} (hs : ∀ k ∈ taps, s k = c * 2 ^ d.bits) :
    firRnd F s (6 + d.bits) = c := by
  have := hF.flat hs
  unfold firRnd half asr
  cases d <;> simp only [Depth.bits, Depth.bpc] at * <;> omega
theorem warp_put_flat {d : Depth} {c : Int} {F : List Int} (hF : Kernel 128 47 F) {s : Int → Int} (hs : ∀ k ∈ taps, s k = c * 2 ^ d.bits) :
    firRnd F s (7 + d.bits) = c := by
  have := hF.flat hs
  unfold firRnd half asr
  cases d <;> simp only [Depth.bits, Depth.bpc] at * <;> omega
theorem bilin_put_flat {d : Depth} {c : Int} {m : Nat} {s : Int → Int} (h0 : s 0 = c * 2 ^ d.bits) (h1 : s 1 = c * 2 ^ d.bits) :
    bilinRnd s m (4 + d.bits) = c := by
  unfold bilinRnd half asr
  rw [h0, h1, sub_self, mul_zero]
  cases d <;> simp only [Depth.bits, Depth.bpc] at * <;> omega
theorem tap_prep_flat {c : Int} {F : List Int} (hF : Kernel 64 28 F) {s : Int → Int} (hs : ∀ k ∈ taps, s k = c) : firRnd F s 6 = c := by
  have := hF.flat hs
  unfold firRnd half asr
  omega
theorem warp_prep_flat {c : Int} {F : List Int} (hF : Kernel 128 47 F) {s : Int → Int} (hs : ∀ k ∈ taps, s k = c) : firRnd F s 7 = c := by
  have := hF.flat hs
  unfold firRnd half asr
  omega
theorem bilin_prep_flat {c : Int} {m : Nat} {s : Int → Int} (h0 : s 0 = c) (h1 : s 1 = c) : bilinRnd s m 4 = c := by
  unfold bilinRnd half asr
  rw [h0, h1, sub_self, mul_zero]
  omega

/-- What is shown of the intermediate rows: the values are in range, and on a constant source they are the constant. -/
def MidOk (d : Depth) (src : Plane) (at_ : List Int) (mid : Int → Int) : Prop :=
  (∀ k ∈ at_, midLo d ≤ mid k ∧ mid k ≤ midHi d) ∧ ∀ c, (∀ y x, src y x = c) → ∀ k ∈ at_, mid k = c * 2 ^ d.bits

theorem MidOk.fits {d : Depth} {src : Plane} {l : List Int} {mid : Int → Int} (h : MidOk d src l mid) : mid16 l mid = some mid :=
  mid16_some (fun k hk => mid_fits (h.1 k hk))

theorem midOk_tap {d : Depth} {src : Plane} (hs : PlaneIn d src) {F : List Int} (hF : Kernel 64 28 F) (x y : Int) :
    MidOk d src taps (fun j => firRnd F (fun k => src (y + j) (x + k)) (6 - d.bits)) :=
  ⟨fun _ _ => tap_h hF (fun _ _ => hs _ _), fun _ hc _ _ => tap_h_flat hF (fun _ _ => hc _ _)⟩

theorem midOk_none {d : Depth} {src : Plane} (hs : PlaneIn d src) (x y : Int) : MidOk d src taps (fun j => src (y + j) x * 2 ^ d.bits) :=
  ⟨fun _ _ => none_h (hs _ _), fun c hc _ _ => by simp only [hc]⟩

theorem midOk_bilin {d : Depth} {src : Plane} (hs : PlaneIn d src) {m : Nat} (hm : m < 16) (x y : Int) :
    MidOk d src [0, 1] (fun j => bilinRnd (fun k => src (y + j) (x + k)) m (4 - d.bits)) :=
  ⟨fun _ _ => bilin_h hm (fun _ => hs _ _), fun _ hc _ _ => bilin_h_flat (hc _ _) (hc _ _)⟩

theorem mid8tapScaled_ok {d : Depth} {src : Plane} (hs : PlaneIn d src) {w h mx my dx dy th tv x y : Nat}
    (ok : (McJob.tapScaled w h mx my dx dy th tv).Ok x y) :
    ∃ mid fv, mid8tapScaled d src w h mx my dx dy th tv x y = some (mid, fv) ∧ MidOk d src taps mid ∧ ∀ F, fv = some F → Kernel 64 28 F := by
  obtain ⟨hx, hw, hy, hh, hmx, hmy, hdx, hdy, hth, htv⟩ := ok
  unfold mid8tapScaled
  rw [scaledPos_eq hmx, scaledPos_eq hmy]
  have hrow : (my + y * dy) / 1024 + 8 ≤ ((h - 1) * dy + my) / 1024 + 8 := by
    have : y * dy ≤ (h - 1) * dy := Nat.mul_le_mul_right _ (by omega)
    omega
  have htmp : ((h - 1) * dy + my) / 1024 + 8 ≤ 256 + 7 := by
    have : (h - 1) * dy ≤ 127 * 2048 := Nat.mul_le_mul (by omega) hdy
    omega
  have hc : x < 128 ∧ ((h - 1) * dy + my) / 1024 + 8 ≤ 256 + 7 ∧ (my + y * dy) / 1024 + 8 ≤ ((h - 1) * dy + my) / 1024 + 8 := ⟨by omega, htmp, hrow⟩
  have hfx : (mx + x * dx) % 1024 / 64 < 16 := by omega
  have hfy : (my + y * dy) % 1024 / 64 < 16 := by omega
  simp only [if_pos hc]
  generalize (mx + x * dx) % 1024 / 64 = ix at *
  generalize (my + y * dy) % 1024 / 64 = iy at *
  have hv : ∃ fv, getFilter (h > 4) tv iy = some fv ∧ ∀ F, fv = some F → Kernel 64 28 F := by
    by_cases h0 : iy = 0
    · subst h0; exact ⟨none, getFilter_zero _ _, fun _ h => by cases h⟩
    · obtain ⟨F, hF, hk⟩ := getFilter_pos (h > 4) htv hfy h0
      exact ⟨some F, hF, fun _ h => by cases h; exact hk⟩
  obtain ⟨fv, hfv, hkv⟩ := hv
  by_cases h0 : ix = 0
  · subst h0
    have hm := midOk_none hs (((mx + x * dx) / 1024 : Nat) : Int) (((my + y * dy) / 1024 : Nat) : Int)
    refine ⟨_, fv, ?_, hm, hkv⟩
    simp only [getFilter_zero, hfv, Option.bind_eq_bind, Option.bind_some, hm.fits]
  · obtain ⟨F, hF, hk⟩ := getFilter_pos (w > 4) hth hfx h0
    have hm := midOk_tap hs hk (((mx + x * dx) / 1024 : Nat) : Int) (((my + y * dy) / 1024 : Nat) : Int)
    refine ⟨_, fv, ?_, hm, hkv⟩
    simp only [hF, hfv, Option.bind_eq_bind, Option.bind_some, hm.fits]

theorem midBilinScaled_ok {d : Depth} {src : Plane} (hs : PlaneIn d src) {h mx my dx dy x y : Nat}
    (ok : (McJob.bilinScaled h mx my dx dy).Ok x y) :
    ∃ mid m, midBilinScaled d src h mx my dx dy x y = some (mid, m) ∧ MidOk d src [0, 1] mid ∧ m < 16 := by
  obtain ⟨hx, hy, hh, hmx, hmy, hdx, hdy⟩ := ok
  unfold midBilinScaled
  rw [scaledPos_eq hmx, scaledPos_eq hmy]
  have hrow : (my + y * dy) / 1024 + 2 ≤ ((h - 1) * dy + my) / 1024 + 2 := by
    have : y * dy ≤ (h - 1) * dy := Nat.mul_le_mul_right _ (by omega)
    omega
  have htmp : ((h - 1) * dy + my) / 1024 + 2 ≤ 256 + 1 := by
    have : (h - 1) * dy ≤ 127 * 2048 := Nat.mul_le_mul (by omega) hdy
    omega
  have hc : x < 128 ∧ ((h - 1) * dy + my) / 1024 + 2 ≤ 256 + 1 ∧ (my + y * dy) / 1024 + 2 ≤ ((h - 1) * dy + my) / 1024 + 2 := ⟨by omega, htmp, hrow⟩
  have hfx : (mx + x * dx) % 1024 / 64 < 16 := by omega
  have hm := midOk_bilin hs hfx (((mx + x * dx) / 1024 : Nat) : Int) (((my + y * dy) / 1024 : Nat) : Int)
  refine ⟨_, (my + y * dy) % 1024 / 64, ?_, hm, by omega⟩
  simp only [if_pos hc, Option.bind_eq_bind, Option.bind_some, hm.fits]

/-- The filter of a warped pixel is in the table. -/
theorem warp_index {p : Nat} (hp : p < 65536) {a b : Int} {i j : Int} (hi : 0 ≤ i ∧ i ≤ 7) {n : Int} (hj : 0 ≤ j ∧ j ≤ 2 * n) (hn : n = 4 ∨ n = 7)
    (h : 4 * a.natAbs + n * b.natAbs < 65536) :
    ∃ F, warpFilter (warpStart p (4 * a + n * b) + j * b + i * a) = some F ∧ Kernel 128 47 F := by
  have h1 : |(i - 4) * a| ≤ 4 * |a| := by rw [abs_mul]; exact mul_le_mul_of_nonneg_right (by rw [abs_le]; omega) (abs_nonneg a)
  have h2 : |(j - n) * b| ≤ n * |b| := by rw [abs_mul]; exact mul_le_mul_of_nonneg_right (by rw [abs_le]; omega) (abs_nonneg b)
  rw [abs_le] at h1 h2
  have ha : ((a.natAbs : Nat) : Int) = |a| := Int.natCast_natAbs a
  have hb : ((b.natAbs : Nat) : Int) = |b| := Int.natCast_natAbs b
  rw [ha, hb] at h
  have e1 : (i - 4) * a = i * a - 4 * a := by ring
  have e2 : (j - n) * b = j * b - n * b := by ring
  rw [e1] at h1; rw [e2] at h2
  have hd : (p : Int) - (4 * a + n * b) - 63 ≤ warpStart p (4 * a + n * b) ∧ warpStart p (4 * a + n * b) ≤ p - (4 * a + n * b) := by unfold warpStart; omega
  generalize n * |b| = z2 at *
  generalize i * a = z3 at *
  generalize j * b = z4 at *
  generalize n * b = z5 at *
  apply warpFilter_get <;> omega

theorem warpMid_ok {d : Depth} {src : Plane} (hs : PlaneIn d src) {a b : Int} {px x y : Nat} (hp : px < 65536) (hx : x < 8) (hy : y < 8)
    (h : 4 * a.natAbs + 7 * b.natAbs < 65536) : ∃ mid, warpMid d src a b (warpStart px (4 * a + 7 * b)) x y = some mid ∧ MidOk d src taps mid := by
  have hf : ∀ j ∈ taps, ∃ F, warpFilter (warpStart px (4 * a + 7 * b) + ((y : Int) + j + 3) * b + x * a) = some F ∧ Kernel 128 47 F := by
    intro j hj
    have : -3 ≤ j ∧ j ≤ 4 := by simp only [taps, List.mem_cons, List.not_mem_nil, or_false] at hj; omega
    exact warp_index hp (by omega) (by omega) (Or.inr rfl) (by omega)
  unfold warpMid
  simp only [taps, List.mem_cons, List.not_mem_nil, or_false, forall_eq_or_imp, forall_eq] at hf
  obtain ⟨⟨F0, h0, k0⟩, ⟨F1, h1, k1⟩, ⟨F2, h2, k2⟩, ⟨F3, h3, k3⟩, ⟨F4, h4, k4⟩, ⟨F5, h5, k5⟩, ⟨F6, h6, k6⟩, ⟨F7, h7, k7⟩⟩ := hf
  have hfs : taps.mapM (fun j => warpFilter (warpStart px (4 * a + 7 * b) + ((y : Int) + j + 3) * b + x * a)) = some [F0, F1, F2, F3, F4, F5, F6, F7] := by
    simp only [taps, List.mapM_cons, List.mapM_nil, h0, h1, h2, h3, h4, h5, h6, h7, Option.bind_eq_bind, Option.bind_some, Option.pure_def]
  rw [hfs]
  simp only [Option.bind_eq_bind, Option.bind_some]
  have hk : ∀ j ∈ taps, Kernel 128 47 ([F0, F1, F2, F3, F4, F5, F6, F7].getD (j + 3).toNat []) := by
    simp only [taps, List.mem_cons, List.not_mem_nil, or_false, forall_eq_or_imp, forall_eq]
    exact ⟨k0, k1, k2, k3, k4, k5, k6, k7⟩
  have hm : MidOk d src taps (fun j => firRnd ([F0, F1, F2, F3, F4, F5, F6, F7].getD (j + 3).toNat []) (fun k => src (y + j) (x + k)) (7 - d.bits)) :=
    ⟨fun j hj => warp_h (hk j hj) (fun _ _ => hs _ _), fun _ hc j hj => warp_h_flat (hk j hj) (fun _ _ => hc _ _)⟩
  exact ⟨_, hm.fits, hm⟩

/-- Everything that is shown about one pixel of a prediction. -/
theorem mc_ok {d : Depth} {src : Plane} (hs : PlaneIn d src) {x y : Nat} {j : McJob} (ok : j.Ok x y) :
    ∃ v p, j.put d src x y = some v ∧ j.prep d src x y = some p ∧ (0 ≤ v ∧ v ≤ d.max) ∧ (-32768 ≤ p ∧ p ≤ 32767) ∧
      ∀ c, (∀ y x, src y x = c) → v = c ∧ p = c * 2 ^ d.bits - d.bias := by
  cases j with
  | tap w h mx my th tv =>
    obtain ⟨-, -, hmx, hmy, hth, htv⟩ := ok
    simp only [McJob.put, McJob.prep, put8tap, prep8tap]
    by_cases hx0 : mx = 0
    · subst hx0
      rw [getFilter_zero]
      by_cases hy0 : my = 0
      · subst hy0
        rw [getFilter_zero]
        have hb := mid_bias (none_h (hs y x))
        simp only [Option.bind_eq_bind, Option.bind_some, int16_some hb]
        exact ⟨_, _, rfl, rfl, hs _ _, hb, fun c hc => by rw [hc]; exact ⟨rfl, rfl⟩⟩
      · obtain ⟨F, hF, hk⟩ := getFilter_pos (h > 4) htv hmy hy0
        rw [hF]
        have hb := mid_bias (tap_h hk (s := fun k => src (y + k) x) (fun _ _ => hs _ _))
        simp only [Option.bind_eq_bind, Option.bind_some, int16_some hb]
        refine ⟨_, _, rfl, rfl, clip_range _ _, hb, fun c hc => ⟨?_, ?_⟩⟩
        · have := hs 0 0
          rw [hc] at this
          rw [tap_prep_flat hk (fun _ _ => hc _ _), clip_id this]
        · rw [tap_h_flat hk (fun _ _ => hc _ _)]
    · obtain ⟨F, hF, hk⟩ := getFilter_pos (w > 4) hth hmx hx0
      rw [hF]
      by_cases hy0 : my = 0
      · subst hy0
        rw [getFilter_zero]
        have hb := mid_bias (tap_h hk (s := fun k => src y (x + k)) (fun _ _ => hs _ _))
        simp only [Option.bind_eq_bind, Option.bind_some, int16_some hb]
        refine ⟨_, _, rfl, rfl, clip_range _ _, hb, fun c hc => ⟨?_, ?_⟩⟩
        · have := hs 0 0
          rw [hc] at this
          rw [hk.flat (fun _ _ => hc _ _)]
          refine Eq.trans (congrArg d.clip ?_) (clip_id this)
          unfold half asr
          cases d <;> simp only [Depth.bits, Depth.bpc] <;> omega
        · rw [tap_h_flat hk (fun _ _ => hc _ _)]
      · obtain ⟨G, hG, hkv⟩ := getFilter_pos (h > 4) htv hmy hy0
        rw [hG]
        have hm := midOk_tap hs hk x y
        have hb := tap_v hkv hm.1
        simp only [Option.bind_eq_bind, Option.bind_some, hm.fits, int16_some hb]
        refine ⟨_, _, rfl, rfl, clip_range _ _, hb, fun c hc => ⟨?_, ?_⟩⟩
        · have := hs 0 0
          rw [hc] at this
          rw [tap_put_flat hkv (hm.2 c hc), clip_id this]
        · rw [tap_prep_flat hkv (hm.2 c hc)]
  | tapScaled w h mx my dx dy th tv =>
    obtain ⟨mid, fv, hmid, hm, hkv⟩ := mid8tapScaled_ok hs ok
    simp only [McJob.put, McJob.prep, put8tapScaled, prep8tapScaled, hmid, Option.bind_eq_bind, Option.bind_some]
    cases fv with
    | none =>
      have hb := mid_bias (hm.1 0 (by decide))
      simp only [int16_some hb]
      refine ⟨_, _, rfl, rfl, clip_range _ _, hb, fun c hc => ⟨?_, ?_⟩⟩
      · have := hs 0 0
        rw [hc] at this
        rw [hm.2 c hc 0 (by decide)]
        refine Eq.trans (congrArg d.clip ?_) (clip_id this)
        unfold half asr
        cases d <;> simp only [Depth.bits, Depth.bpc] <;> omega
      · rw [hm.2 c hc 0 (by decide)]
    | some F =>
      have hk := hkv F rfl
      have hb := tap_v hk hm.1
      simp only [int16_some hb]
      refine ⟨_, _, rfl, rfl, clip_range _ _, hb, fun c hc => ⟨?_, ?_⟩⟩
      · have := hs 0 0
        rw [hc] at this
        rw [tap_put_flat hk (hm.2 c hc), clip_id this]
      · rw [tap_prep_flat hk (hm.2 c hc)]
  | bilin mx my =>
    obtain ⟨hmx, hmy⟩ := ok
    simp only [McJob.put, McJob.prep, putBilin, prepBilin]
    by_cases hx0 : mx = 0
    · subst hx0
      simp only [ne_eq, not_true, if_false]
      by_cases hy0 : my = 0
      · subst hy0
        have hb := mid_bias (none_h (hs y x))
        simp only [not_true, if_false, int16_some hb]
        exact ⟨_, _, rfl, rfl, hs _ _, hb, fun c hc => by rw [hc]; exact ⟨rfl, rfl⟩⟩
      · have hb := mid_bias (bilin_h hmy (s := fun k => src (y + k) x) (fun _ => hs _ _))
        simp only [hy0, not_false_eq_true, if_true, int16_some hb]
        refine ⟨_, _, rfl, rfl, clip_range _ _, hb, fun c hc => ⟨?_, ?_⟩⟩
        · have := hs 0 0
          rw [hc] at this
          rw [bilin_prep_flat (s := fun k => src (y + k) x) (hc _ _) (hc _ _), clip_id this]
        · rw [bilin_h_flat (s := fun k => src (y + k) x) (hc _ _) (hc _ _)]
    · simp only [ne_eq, hx0, not_false_eq_true, if_true]
      by_cases hy0 : my = 0
      · subst hy0
        have hb := mid_bias (bilin_h hmx (s := fun k => src y (x + k)) (fun _ => hs _ _))
        simp only [not_true, if_false, int16_some hb]
        refine ⟨_, _, rfl, rfl, clip_range _ _, hb, fun c hc => ⟨?_, ?_⟩⟩
        · have := hs 0 0
          rw [hc] at this
          rw [bilin_h_flat (s := fun k => src y (x + k)) (hc _ _) (hc _ _)]
          refine Eq.trans (congrArg d.clip ?_) (clip_id this)
          unfold half asr
          cases d <;> simp only [Depth.bits, Depth.bpc] <;> omega
        · rw [bilin_h_flat (s := fun k => src y (x + k)) (hc _ _) (hc _ _)]
      · have hm := midOk_bilin hs hmx x y
        have hb := bilin_v hmy hm.1
        simp only [hy0, not_false_eq_true, if_true, Option.bind_eq_bind, Option.bind_some, hm.fits, int16_some hb]
        refine ⟨_, _, rfl, rfl, clip_range _ _, hb, fun c hc => ⟨?_, ?_⟩⟩
        · have := hs 0 0
          rw [hc] at this
          rw [bilin_put_flat (hm.2 c hc 0 (by simp)) (hm.2 c hc 1 (by simp)), clip_id this]
        · rw [bilin_prep_flat (hm.2 c hc 0 (by simp)) (hm.2 c hc 1 (by simp))]
  | bilinScaled h mx my dx dy =>
    obtain ⟨mid, m, hmid, hm, hlt⟩ := midBilinScaled_ok hs ok
    have hb := bilin_v hlt hm.1
    simp only [McJob.put, McJob.prep, putBilinScaled, prepBilinScaled, hmid, Option.bind_eq_bind, Option.bind_some, int16_some hb]
    refine ⟨_, _, rfl, rfl, clip_range _ _, hb, fun c hc => ⟨?_, ?_⟩⟩
    · have := hs 0 0
      rw [hc] at this
      rw [bilin_put_flat (hm.2 c hc 0 (by simp)) (hm.2 c hc 1 (by simp)), clip_id this]
    · rw [bilin_prep_flat (hm.2 c hc 0 (by simp)) (hm.2 c hc 1 (by simp))]
  | warp a b g e px py =>
    obtain ⟨hx, hy, hpx, hpy, h1, h2⟩ := ok
    obtain ⟨mid, hmid, hm⟩ := warpMid_ok hs hpx hx hy h1
    obtain ⟨F, hF, hk⟩ := warp_index (i := x) (j := y) (n := 4) hpy (a := g) (b := e) (by omega) (by omega) (Or.inl rfl) (by omega)
    have hb := warp_v hk hm.1
    simp only [McJob.put, McJob.prep, warp8x8, warp8x8t, hmid, hF, Option.bind_eq_bind, Option.bind_some, int16_some hb]
    refine ⟨_, _, rfl, rfl, clip_range _ _, hb, fun c hc => ⟨?_, ?_⟩⟩
    · have := hs 0 0
      rw [hc] at this
      rw [warp_put_flat hk (hm.2 c hc), clip_id this]
    · rw [warp_prep_flat hk (hm.2 c hc)]

/-- C36, range: whatever the reference contains, every prediction function gives a pixel of the bit depth, and an
intermediate value that fits the 16 bits it is stored in; no table is read outside of its bounds. -/
theorem C36_range {d : Depth} {src : Plane} (hs : PlaneIn d src) {x y : Nat} {j : McJob} (ok : j.Ok x y) :
    (∃ v, j.put d src x y = some v ∧ 0 ≤ v ∧ v ≤ d.max) ∧ ∃ p, j.prep d src x y = some p ∧ -2 ^ 15 ≤ p ∧ p < 2 ^ 15 := by
  obtain ⟨v, p, h1, h2, h3, h4, -⟩ := mc_ok hs ok
  exact ⟨⟨v, h1, h3⟩, p, h2, by omega, by omega⟩

/-- C36, flat areas: on a constant reference every prediction function gives that constant. -/
theorem C36_flat {d : Depth} {c : Int} (hc : 0 ≤ c ∧ c ≤ d.max) {x y : Nat} {j : McJob} (ok : j.Ok x y) : j.put d (fun _ _ => c) x y = some c := by
  obtain ⟨v, p, h1, -, -, -, h5⟩ := mc_ok (src := fun _ _ => c) (fun _ _ => hc) ok
  rw [h1, (h5 c (fun _ _ => rfl)).1]

/-- How two intermediate values are combined. -/
inductive Combine where
  | avg | wAvg (weight : Int) | mask (m : Int) | wMask

def Combine.px (d : Depth) (a b : Int) : Combine → Int
  | .avg => avgPx d a b
  | .wAvg w => wAvgPx d w a b
  | .mask m => maskPx d m a b
  | .wMask => wMaskPx d a b

/-- C36, range of compound predictions: the result is a pixel for all intermediate values. -/
theorem C36_compound_range (d : Depth) (k : Combine) (a b : Int) : 0 ≤ k.px d a b ∧ k.px d a b ≤ d.max := by
  cases k <;> exact clip_range _ _

/-- C36, compound predictions of positions without fraction are the weighted averages of the two pixels, rounded to the
nearest: `u` and `v` are the pixels, the intermediate values are those of prep_c. -/
theorem C36_compound_exact {d : Depth} {u v : Int} (hu : 0 ≤ u ∧ u ≤ d.max) (hv : 0 ≤ v ∧ v ≤ d.max) :
    avgPx d (u * 2 ^ d.bits - d.bias) (v * 2 ^ d.bits - d.bias) = (u + v + 1) / 2 ∧
    (∀ w, 0 ≤ w → w ≤ 16 → wAvgPx d w (u * 2 ^ d.bits - d.bias) (v * 2 ^ d.bits - d.bias) = (u * w + v * (16 - w) + 8) / 16) ∧
    (∀ m, 0 ≤ m → m ≤ 64 → maskPx d m (u * 2 ^ d.bits - d.bias) (v * 2 ^ d.bits - d.bias) = (u * m + v * (64 - m) + 32) / 64) := by
  refine ⟨?_, ?_, ?_⟩
  · unfold avgPx
    have h : asr (u * 2 ^ d.bits - d.bias + (v * 2 ^ d.bits - d.bias) + (2 ^ d.bits + d.bias * 2)) (d.bits + 1) = (u + v + 1) / 2 := by
      unfold asr
      cases d <;> simp only [Depth.bits, Depth.bpc, Depth.bias] <;> omega
    rw [h]
    exact clip_id (by omega)
  · intro w h0 h1
    unfold wAvgPx
    have hz : 0 ≤ u * w + v * (16 - w) ∧ u * w + v * (16 - w) ≤ 16 * d.max := by
      have : 0 ≤ 16 - w := by omega
      constructor <;> nlinarith [mul_nonneg hu.1 h0, mul_nonneg hv.1 this, mul_nonneg (sub_nonneg.2 hu.2) h0, mul_nonneg (sub_nonneg.2 hv.2) this]
    have e : (u * 2 ^ d.bits - d.bias) * w + (v * 2 ^ d.bits - d.bias) * (16 - w) = (u * w + v * (16 - w)) * 2 ^ d.bits - 16 * d.bias := by ring
    rw [e]
    generalize u * w + v * (16 - w) = z at *
    have h : asr (z * 2 ^ d.bits - 16 * d.bias + (8 * 2 ^ d.bits + d.bias * 16)) (d.bits + 4) = (z + 8) / 16 := by
      unfold asr
      cases d <;> simp only [Depth.bits, Depth.bpc, Depth.bias] <;> omega
    rw [h]
    exact clip_id (by omega)
  · intro w h0 h1
    unfold maskPx
    have hz : 0 ≤ u * w + v * (64 - w) ∧ u * w + v * (64 - w) ≤ 64 * d.max := by
      have : 0 ≤ 64 - w := by omega
      constructor <;> nlinarith [mul_nonneg hu.1 h0, mul_nonneg hv.1 this, mul_nonneg (sub_nonneg.2 hu.2) h0, mul_nonneg (sub_nonneg.2 hv.2) this]
    have e : (u * 2 ^ d.bits - d.bias) * w + (v * 2 ^ d.bits - d.bias) * (64 - w) = (u * w + v * (64 - w)) * 2 ^ d.bits - 64 * d.bias := by ring
    rw [e]
    generalize u * w + v * (64 - w) = z at *
    have h : asr (z * 2 ^ d.bits - 64 * d.bias + (32 * 2 ^ d.bits + d.bias * 64)) (d.bits + 6) = (z + 32) / 64 := by
      unfold asr
      cases d <;> simp only [Depth.bits, Depth.bpc, Depth.bias] <;> omega
    rw [h]
    exact clip_id (by omega)

theorem wMaskWeight_range (d : Depth) (a b : Int) : 38 ≤ wMaskWeight d a b ∧ wMaskWeight d a b ≤ 64 := by
  unfold wMaskWeight asr
  have : 0 ≤ (((a - b).natAbs : Int) + 2 ^ (d.bpc + d.bits - 4 - 5)) / 2 ^ (d.bpc + d.bits - 4) := Int.ediv_nonneg (by positivity) (by positivity)
  simp only
  omega

/-- C36, flat areas, compound predictions: when both references are the same constant, so is the result, for every pair
of prediction functions and every way of combining them. -/
theorem C36_compound_flat {d : Depth} {c : Int} (hc : 0 ≤ c ∧ c ≤ d.max) {x y : Nat} {i j : McJob} (hi : i.Ok x y) (hj : j.Ok x y) (k : Combine)
    (hw : ∀ w, k = .wAvg w → 0 ≤ w ∧ w ≤ 16) (hm : ∀ m, k = .mask m → 0 ≤ m ∧ m ≤ 64) :
    ∃ a b, i.prep d (fun _ _ => c) x y = some a ∧ j.prep d (fun _ _ => c) x y = some b ∧ k.px d a b = c := by
  obtain ⟨_, p, -, h2, -, -, h5⟩ := mc_ok (src := fun _ _ => c) (fun _ _ => hc) hi
  obtain ⟨_, q, -, h2', -, -, h5'⟩ := mc_ok (src := fun _ _ => c) (fun _ _ => hc) hj
  refine ⟨p, q, h2, h2', ?_⟩
  rw [(h5 c (fun _ _ => rfl)).2, (h5' c (fun _ _ => rfl)).2]
  obtain ⟨e1, e2, e3⟩ := C36_compound_exact hc hc
  cases k with
  | avg => exact e1.trans (by omega)
  | wAvg w =>
    obtain ⟨h0, h1⟩ := hw w rfl
    refine (e2 w h0 h1).trans ?_
    have : c * w + c * (16 - w) = 16 * c := by ring
    rw [this]; omega
  | mask m =>
    obtain ⟨h0, h1⟩ := hm m rfl
    refine (e3 m h0 h1).trans ?_
    have : c * m + c * (64 - m) = 64 * c := by ring
    rw [this]; omega
  | wMask =>
    have hr := wMaskWeight_range d (c * 2 ^ d.bits - d.bias) (c * 2 ^ d.bits - d.bias)
    refine (e3 _ (by omega) hr.2).trans ?_
    generalize wMaskWeight d _ _ = m
    have : c * m + c * (64 - m) = 64 * c := by ring
    rw [this]; omega

theorem unscaled (n : Nat) : (0 + n * 1024) % 1024 / 64 = 0 ∧ (0 + n * 1024) / 1024 = n := by
  rw [Nat.zero_add, Nat.mul_mod_left, Nat.mul_div_cancel _ (by omega)]
  exact ⟨rfl, rfl⟩

/-- C36, copies: without fraction (and, for the functions that scale, without scaling) the prediction is the pixel of the
reference at the same position. -/
theorem C36_copy {d : Depth} {src : Plane} (hs : PlaneIn d src) (w h th tv x y : Nat) :
    (McJob.tap w h 0 0 th tv).put d src x y = some (src y x) ∧
    (McJob.bilin 0 0).put d src x y = some (src y x) ∧
    (x < w → w ≤ 128 → y < h → h ≤ 128 →
      (McJob.tapScaled w h 0 0 1024 1024 th tv).put d src x y = some (src y x) ∧ (McJob.bilinScaled h 0 0 1024 1024).put d src x y = some (src y x)) := by
  refine ⟨rfl, rfl, fun h1 h2 h3 h4 => ⟨?_, ?_⟩⟩
  · simp only [McJob.put, put8tapScaled, mid8tapScaled, scaledPos_eq (show (0 : Nat) < 1024 by omega)]
    rw [(unscaled x).1, (unscaled y).1, (unscaled x).2, (unscaled y).2]
    have hc : x < 128 ∧ ((h - 1) * 1024 + 0) / 1024 + 8 ≤ 256 + 7 ∧ y + 8 ≤ ((h - 1) * 1024 + 0) / 1024 + 8 := by omega
    have hm := midOk_none hs (x : Int) (y : Int)
    simp only [getFilter_zero, Option.bind_eq_bind, Option.bind_some, if_pos hc, hm.fits]
    rw [Int.add_zero]
    refine congrArg some (Eq.trans (congrArg d.clip ?_) (clip_id (hs y x)))
    unfold half asr
    cases d <;> simp only [Depth.bits, Depth.bpc] <;> omega
  · simp only [McJob.put, putBilinScaled, midBilinScaled, scaledPos_eq (show (0 : Nat) < 1024 by omega)]
    rw [(unscaled x).1, (unscaled y).1, (unscaled x).2, (unscaled y).2]
    have hc : x < 128 ∧ ((h - 1) * 1024 + 0) / 1024 + 2 ≤ 256 + 1 ∧ y + 2 ≤ ((h - 1) * 1024 + 0) / 1024 + 2 := by omega
    have hm := midOk_bilin hs (show (0 : Nat) < 16 by omega) (x : Int) (y : Int)
    simp only [Option.bind_eq_bind, Option.bind_some, if_pos hc, hm.fits]
    refine congrArg some (Eq.trans (congrArg d.clip ?_) (clip_id (hs y x)))
    unfold bilinRnd half asr
    simp only [Nat.cast_zero, zero_mul, add_zero]
    cases d <;> simp only [Depth.bits, Depth.bpc] <;> omega

/-- C36, range of blends: the result lies between the two pixels. -/
theorem blendPx_between {a b m : Int} (h0 : 0 ≤ m) (h1 : m ≤ 64) : min a b ≤ blendPx a b m ∧ blendPx a b m ≤ max a b := by
  unfold blendPx asr
  have h2 : 0 ≤ 64 - m := by omega
  rcases le_total a b with h | h
  · rw [min_eq_left h, max_eq_right h]
    have e1 : 64 * a ≤ a * (64 - m) + b * m := by nlinarith [mul_nonneg (sub_nonneg.2 h) h0]
    have e2 : a * (64 - m) + b * m ≤ 64 * b := by nlinarith [mul_nonneg (sub_nonneg.2 h) h2]
    generalize a * (64 - m) + b * m = z at *
    omega
  · rw [min_eq_right h, max_eq_left h]
    have e1 : 64 * b ≤ a * (64 - m) + b * m := by nlinarith [mul_nonneg (sub_nonneg.2 h) h2]
    have e2 : a * (64 - m) + b * m ≤ 64 * a := by nlinarith [mul_nonneg (sub_nonneg.2 h) h0]
    generalize a * (64 - m) + b * m = z at *
    omega

theorem obmc_range : ∀ m ∈ obmcMasks, 0 ≤ m ∧ m ≤ 64 := by decide +kernel

/-- C36, blends: with a mask in 0..64 the result lies between the two pixels; the overlapped predictions of blocks of 2 to
32 pixels use weights inside of the table and do the same. -/
theorem C36_blend {a b : Int} :
    (∀ m, 0 ≤ m → m ≤ 64 → min a b ≤ blendPx a b m ∧ blendPx a b m ≤ max a b) ∧
    ∀ n i, n ∈ [2, 4, 8, 16, 32] → i < n →
      (∃ v, blendV n i a b = some v ∧ min a b ≤ v ∧ v ≤ max a b) ∧ ∃ v, blendH n i a b = some v ∧ min a b ≤ v ∧ v ≤ max a b := by
  refine ⟨fun m h0 h1 => blendPx_between h0 h1, fun n i hn hi => ?_⟩
  have hl : n + i < obmcMasks.length := by
    have : obmcMasks.length = 64 := by decide +kernel
    simp only [List.mem_cons, List.not_mem_nil, or_false] at hn
    omega
  have hm := obmc_range _ (List.getElem_mem hl)
  have hb := blendPx_between (a := a) (b := b) hm.1 hm.2
  unfold blendV blendH
  rw [List.getElem?_eq_getElem hl]
  by_cases h : i < n * 3 / 4
  · simp only [if_pos h, Option.map_some]
    exact ⟨⟨_, rfl, hb⟩, _, rfl, hb⟩
  · simp only [if_neg h]
    exact ⟨⟨_, rfl, min_le_left _ _, le_max_left _ _⟩, _, rfl, min_le_left _ _, le_max_left _ _⟩

/-- C36, masks made from the difference of two predictions: weights are in 38..64 and masks for subsampled planes are their
averages, in the same range, so they can be used as weights. -/
theorem C36_wmask (d : Depth) (a b : Int) {sign : Int} (hs : sign = 0 ∨ sign = 1) {m0 n0 m1 n1 : Int}
    (h : ∀ m ∈ [m0, n0, m1, n1], 38 ≤ m ∧ m ≤ 64) :
    (38 ≤ wMaskWeight d a b ∧ wMaskWeight d a b ≤ 64) ∧ (38 ≤ wMask422 sign m0 n0 ∧ wMask422 sign m0 n0 ≤ 64) ∧
    (38 ≤ wMask420 sign m0 n0 m1 n1 ∧ wMask420 sign m0 n0 m1 n1 ≤ 64) ∧ m0 + n0 < 256 := by
  simp only [List.mem_cons, List.not_mem_nil, or_false, forall_eq_or_imp, forall_eq] at h
  refine ⟨wMaskWeight_range d a b, ?_⟩
  unfold wMask422 wMask420 asr
  omega

/-- C36 for super-resolution: on a constant row resize gives the constant, its result is always a pixel, and only pixels
of the row are used: with rows that agree on `0 .. srcW - 1` it gives the same. -/
theorem C36_resize {d : Depth} {src : Int → Int} {srcW dx mx0 x : Nat} (hw : 0 < srcW) (hm : mx0 < 16384) :
    (∃ v, resizePx d src srcW dx mx0 x = some v ∧ 0 ≤ v ∧ v ≤ d.max) ∧
    (∀ c, 0 ≤ c → c ≤ d.max → (∀ i : Int, 0 ≤ i → i < srcW → src i = c) → resizePx d src srcW dx mx0 x = some c) ∧
    ∀ src', (∀ i : Int, 0 ≤ i → i < srcW → src i = src' i) → resizePx d src srcW dx mx0 x = resizePx d src' srcW dx mx0 x := by
  have hcl : ∀ v : Int, 0 ≤ iclip v 0 ((srcW : Int) - 1) ∧ iclip v 0 ((srcW : Int) - 1) < srcW := by
    intro v; unfold iclip; split
    · omega
    · split <;> omega
  unfold resizePx
  rw [resizePos_eq hm]
  obtain ⟨F, hF, hk⟩ := resizeFilter_get (m := (mx0 + x * dx) % 16384) (by omega)
  simp only [hF, Option.bind_eq_bind, Option.bind_some, if_neg (show ¬srcW = 0 by omega)]
  refine ⟨⟨_, rfl, clip_range _ _⟩, fun c h0 h1 hc => ?_, fun src' h => ?_⟩
  · rw [hk.flat (fun k _ => hc _ (hcl _).1 (hcl _).2)]
    refine congrArg some (Eq.trans (congrArg d.clip ?_) (clip_id ⟨h0, h1⟩))
    unfold asr; omega
  · have : (fun k => src (iclip ((((mx0 + x * dx) / 16384 : Nat) : Int) - 1 + k) 0 ((srcW : Int) - 1))) =
        fun k => src' (iclip ((((mx0 + x * dx) / 16384 : Nat) : Int) - 1 + k) 0 ((srcW : Int) - 1)) := funext (fun k => h _ (hcl _).1 (hcl _).2)
    rw [this]

-- arguments as they occur
example : (McJob.tap 8 8 3 9 2 0).Ok 7 7 ∧ (McJob.tapScaled 128 128 1023 1023 2048 2048 0 2).Ok 127 127 ∧ (McJob.bilinScaled 16 5 5 1000 1500).Ok 4 4 ∧
    (McJob.warp 100 (-200) 300 64 65535 0).Ok 7 7 := by simp [McJob.Ok]
example : (McJob.tap 8 8 3 9 2 0).put .b10 (fun y x => (y * 37 + x * 101) % 1024) 3 4 = some 490 := by decide +kernel
example : PlaneIn .b10 (fun y x => (y * 37 + x * 101) % 1024) := fun y x => by simp only [Depth.max, Depth.bpc]; omega

end Dav1d
