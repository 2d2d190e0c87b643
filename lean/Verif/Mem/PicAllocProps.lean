import Verif.Mem.PicAlloc
import Mathlib.Tactic.Ring
import Mathlib.Tactic.NormNum
/-!
# C19: default picture allocation
-/
namespace Dav1d

/-- Rounded up to the next multiple of 128. -/
def up128 (n : Nat) : Nat := (n + 127) / 128 * 128

/-- A plane of `rows` rows of `width` bytes at `off` with the given stride: aligned, and rows fit the stride. -/
structure PlaneOk (off stride width rows next : Nat) : Prop where
  offset : off % 64 = 0
  strideAligned : stride % 64 = 0
  odd : stride % 1024 ≠ 0
  fits : width ≤ stride
  /-- the plane ends before the next one begins -/
  ends : off + stride * rows ≤ next

/-- A picture buffer as include/dav1d/picture.h:109-117 asks for it (positions are relative to memory aligned to 64 bytes). -/
structure PicOk (layout : Layout) (bpc w h : Nat) (g : PicGeometry) : Prop where
  planes : ∃ e, e + 64 ≤ g.alloc ∧
    match layout with
    | .I400 => g.u = none ∧ g.v = none ∧ PlaneOk g.y g.strideY (up128 w * if bpc > 8 then 2 else 1) (up128 h) e
    | l => ∃ u v, g.u = some u ∧ g.v = some v ∧ PlaneOk g.y g.strideY (up128 w * if bpc > 8 then 2 else 1) (up128 h) u ∧
        PlaneOk u g.strideUV (up128 w / (if l = .I444 then 1 else 2) * if bpc > 8 then 2 else 1) (up128 h / if l = .I420 then 2 else 1) v ∧
        PlaneOk v g.strideUV (up128 w / (if l = .I444 then 1 else 2) * if bpc > 8 then 2 else 1) (up128 h / if l = .I420 then 2 else 1) e

/-- Nothing overflows: all sizes and layouts with 64-bit pointers, and up to 8192 * 8192 pixels (the limit dav1d_open
sets there, src/lib.c:206-211) with 32-bit pointers. -/
def PicSizeOk (bits w h : Nat) : Prop :=
  1 ≤ w ∧ w ≤ 65536 ∧ 1 ≤ h ∧ h ≤ 65536 ∧ (bits = 64 ∨ (bits = 32 ∧ w * h ≤ 8192 * 8192))

theorem up128_facts (n : Nat) (h1 : 1 ≤ n) (h2 : n ≤ 65536) : ∃ k, up128 n = 128 * k ∧ 1 ≤ k ∧ k ≤ 512 ∧ 128 * k ≤ n + 127 := ⟨(n + 127) / 128, by unfold up128; omega, by omega, by omega, by omega⟩

/-- The padding of strides. -/
def pad1024 (x : Nat) : Nat := if x % 1024 = 0 then x + 64 else x

theorem pad_le (x : Nat) : x ≤ pad1024 x ∧ pad1024 x ≤ x + 64 := by unfold pad1024; split <;> omega

theorem pad_mod {x : Nat} (h : x % 64 = 0) : pad1024 x % 64 = 0 ∧ pad1024 x % 1024 ≠ 0 := by unfold pad1024; split <;> omega

theorem signedFits_bind {α : Type} {bits v : Nat} (h : v < 2 ^ (bits - 1)) (f : Nat → Option α) : (signedFits bits v >>= f) = f v := by
  unfold signedFits; rw [if_pos h]; rfl

theorem unsignedFits_bind {α : Type} {bits v : Nat} (h : v < 2 ^ bits) (f : Nat → Option α) : (unsignedFits bits v >>= f) = f v := by
  unfold unsignedFits; rw [if_pos h]; rfl

/-- The bytes per row asked for. -/
def rowY (bpc w : Nat) : Nat := up128 w * if bpc > 8 then 2 else 1
def rowUV (layout : Layout) (bpc w : Nat) : Nat := up128 w / (if layout = .I444 then 1 else 2) * if bpc > 8 then 2 else 1
def rowsUV (layout : Layout) (h : Nat) : Nat := up128 h / if layout = .I420 then 2 else 1

/-- Bounds on the products. -/
theorem area_bound {bits w h : Nat} (hs : PicSizeOk bits w h) : ∃ B, (2 * up128 w + 64) * up128 h ≤ B ∧ 3 * B + 64 < 2 ^ (bits - 1) ∧ 3 * B + 64 < 2 ^ bits := by
  obtain ⟨w1, w2, h1, h2, hb⟩ := hs
  obtain ⟨k, ek, k1, k2, k3⟩ := up128_facts w w1 w2
  obtain ⟨m, em, m1, m2, m3⟩ := up128_facts h h1 h2
  rw [ek, em]
  have e : (2 * (128 * k) + 64) * (128 * m) = 32768 * (k * m) + 8192 * m := by ring
  rw [e]
  rcases hb with rfl | ⟨rfl, ha⟩
  · have : k * m ≤ 512 * 512 := Nat.mul_le_mul k2 m2
    exact ⟨32768 * (512 * 512) + 8192 * 512, by omega, by norm_num, by norm_num⟩
  · have hp : (128 * k) * (128 * m) ≤ (w + 127) * (h + 127) := Nat.mul_le_mul k3 m3
    have e2 : (128 * k) * (128 * m) = 16384 * (k * m) := by ring
    have e3 : (w + 127) * (h + 127) = w * h + 127 * w + 127 * h + 16129 := by ring
    rw [e2, e3] at hp
    have : k * m ≤ 5120 := by omega
    exact ⟨32768 * 5120 + 8192 * 512, by omega, by norm_num, by norm_num⟩

theorem defaultAlloc_eq {bits w h : Nat} (layout : Layout) (bpc : Nat) (hs : PicSizeOk bits w h) :
    defaultAlloc bits layout bpc w h =
      some { strideY := pad1024 (rowY bpc w), strideUV := if layout = .I400 then 0 else pad1024 (rowUV layout bpc w), y := 0
             u := if layout = .I400 then none else some (pad1024 (rowY bpc w) * up128 h)
             v := if layout = .I400 then none else some (pad1024 (rowY bpc w) * up128 h + pad1024 (rowUV layout bpc w) * rowsUV layout h)
             asked := pad1024 (rowY bpc w) * up128 h + 2 * (if layout = .I400 then 0 else pad1024 (rowUV layout bpc w) * rowsUV layout h) + 64 - 2 * (bits / 8)
             alloc := pad1024 (rowY bpc w) * up128 h + 2 * (if layout = .I400 then 0 else pad1024 (rowUV layout bpc w) * rowsUV layout h) + 64 } := by
  obtain ⟨B, hB, hB1, hB2⟩ := area_bound hs
  obtain ⟨w1, w2, h1, h2, hb⟩ := hs
  obtain ⟨k, ek, k1, k2, k3⟩ := up128_facts w w1 w2
  obtain ⟨m, em, m1, m2, m3⟩ := up128_facts h h1 h2
  have hpad : ∀ (x : Nat) (f : Nat → Option PicGeometry), x ≤ 131072 → (padStride bits true x >>= f) = f (pad1024 x) := by
    intro x f hx
    unfold pad1024 padStride
    by_cases h : x % 1024 = 0
    · rw [if_pos ⟨h, rfl⟩, if_pos h, signedFits_bind]; rcases hb with rfl | ⟨rfl, _⟩ <;> norm_num <;> omega
    · rw [if_neg (fun hh => h hh.1), if_neg h]; rfl
  have hY : rowY bpc w ≤ 2 * up128 w := by unfold rowY; split <;> omega
  have hUV : rowUV layout bpc w ≤ 2 * up128 w := by unfold rowUV; split <;> split <;> omega
  have hR : rowsUV layout h ≤ up128 h := by unfold rowsUV; split <;> omega
  have bY : pad1024 (rowY bpc w) * up128 h ≤ B := Nat.le_trans (Nat.mul_le_mul_right _ (by have := pad_le (rowY bpc w); omega)) hB
  have bUV : pad1024 (rowUV layout bpc w) * rowsUV layout h ≤ B :=
    Nat.le_trans (Nat.mul_le_mul (by have := pad_le (rowUV layout bpc w); omega) hR) hB
  unfold defaultAlloc
  dsimp only
  rw [signedFits_bind (by norm_num; omega), signedFits_bind (by norm_num; omega)]
  have eY : ((w + 127) / 128 * 128) <<< (if bpc > 8 then 1 else 0) = rowY bpc w := by
    unfold rowY up128; split <;> simp [Nat.shiftLeft_eq]
  rw [eY, signedFits_bind (by norm_num; omega), hpad _ _ (by omega)]
  have eUV : layout ≠ .I400 → rowY bpc w >>> (if (layout != Layout.I444) = true then 1 else 0) = rowUV layout bpc w := by
    intro _
    unfold rowY rowUV
    rw [ek]
    cases layout <;> split <;> simp [Nat.shiftRight_eq_div_pow] <;> omega
  have eR : up128 h >>> (if layout = Layout.I420 then 1 else 0) = rowsUV layout h := by
    unfold rowsUV
    split <;> simp [Nat.shiftRight_eq_div_pow]
  have eH : (h + 127) / 128 * 128 = up128 h := rfl
  rw [eH, eR]
  have h64 : 2 * (bits / 8) ≤ 64 := by rcases hb with rfl | ⟨rfl, _⟩ <;> norm_num
  by_cases hl : layout = .I400
  · subst hl
    simp only [bne_self_eq_false, Bool.false_eq_true, if_false, if_true]
    have : padStride bits false 0 = some 0 := rfl
    rw [this]
    show (signedFits bits _ >>= _) = _
    rw [signedFits_bind (by omega)]
    rw [Nat.zero_mul, signedFits_bind (by omega), unsignedFits_bind (by omega), unsignedFits_bind (by omega), unsignedFits_bind (by omega)]
    congr 2
    omega
  · have hne : (layout != Layout.I400) = true := by simpa using hl
    rw [hne]
    simp only [if_true, if_neg hl]
    rw [eUV hl, hpad _ _ (by omega), signedFits_bind (by omega), signedFits_bind (by omega), unsignedFits_bind (by omega), unsignedFits_bind (by omega), unsignedFits_bind (by omega)]
    congr 2
    omega

/-- C19: for every size up to 65536 by 65536, layout and bit depth nothing overflows and the buffer is as promised. (With
32-bit pointers for pictures of at most 8192 * 8192 pixels.) The pool is asked for a multiple of the pointer size, as it
asserts. -/
theorem C19_geometry {bits w h : Nat} (layout : Layout) (bpc : Nat) (hs : PicSizeOk bits w h) :
    ∃ g, defaultAlloc bits layout bpc w h = some g ∧ PicOk layout bpc w h g ∧ g.asked % (bits / 8) = 0 := by
  refine ⟨_, defaultAlloc_eq layout bpc hs, ?_, ?_⟩
  all_goals
    obtain ⟨w1, w2, h1, h2, hb⟩ := hs
    obtain ⟨k, ek, k1, k2, k3⟩ := up128_facts w w1 w2
    obtain ⟨m, em, m1, m2, m3⟩ := up128_facts h h1 h2
    have y64 : rowY bpc w % 64 = 0 := by unfold rowY; rw [ek]; split <;> omega
    have uv64 : rowUV layout bpc w % 64 = 0 := by unfold rowUV; rw [ek]; split <;> split <;> omega
    have pY := pad_mod y64
    have pUV := pad_mod uv64
    have mY : (pad1024 (rowY bpc w) * up128 h) % 64 = 0 := by rw [Nat.mul_mod, pY.1, Nat.zero_mul, Nat.zero_mod]
    have mUV : (pad1024 (rowUV layout bpc w) * rowsUV layout h) % 64 = 0 := by rw [Nat.mul_mod, pUV.1, Nat.zero_mul, Nat.zero_mod]
  · constructor
    refine ⟨pad1024 (rowY bpc w) * up128 h + 2 * (if layout = .I400 then 0 else pad1024 (rowUV layout bpc w) * rowsUV layout h), Nat.le_refl _, ?_⟩
    have hY : PlaneOk 0 (pad1024 (rowY bpc w)) (rowY bpc w) (up128 h) (pad1024 (rowY bpc w) * up128 h) :=
      ⟨rfl, pY.1, pY.2, (pad_le _).1, by omega⟩
    have hU : PlaneOk (pad1024 (rowY bpc w) * up128 h) (pad1024 (rowUV layout bpc w)) (rowUV layout bpc w) (rowsUV layout h)
        (pad1024 (rowY bpc w) * up128 h + pad1024 (rowUV layout bpc w) * rowsUV layout h) := ⟨mY, pUV.1, pUV.2, (pad_le _).1, by omega⟩
    have hV : PlaneOk (pad1024 (rowY bpc w) * up128 h + pad1024 (rowUV layout bpc w) * rowsUV layout h) (pad1024 (rowUV layout bpc w)) (rowUV layout bpc w) (rowsUV layout h)
        (pad1024 (rowY bpc w) * up128 h + 2 * (pad1024 (rowUV layout bpc w) * rowsUV layout h)) := ⟨by omega, pUV.1, pUV.2, (pad_le _).1, by omega⟩
    cases layout with
    | I400 => exact ⟨rfl, rfl, hY⟩
    | I420 => exact ⟨_, _, rfl, rfl, hY, hU, hV⟩
    | I422 => exact ⟨_, _, rfl, rfl, hY, hU, hV⟩
    | I444 => exact ⟨_, _, rfl, rfl, hY, hU, hV⟩
  · dsimp only
    split
    · rcases hb with rfl | ⟨rfl, _⟩ <;> norm_num <;> omega
    · rcases hb with rfl | ⟨rfl, _⟩ <;> norm_num <;> omega

-- 1920 x 1080 4:2:0 with 10 bits; the largest picture; one pixel
example : defaultAlloc 64 .I420 10 1920 1080 = some ⟨3840, 1920, 0, some (3840 * 1152), some (3840 * 1152 + 1920 * 576), 3840 * 1152 + 2 * (1920 * 576) + 48, 3840 * 1152 + 2 * (1920 * 576) + 64⟩ := by
  decide +kernel
example : PicSizeOk 64 65536 65536 ∧ PicSizeOk 32 65536 1024 ∧ PicSizeOk 64 1 1 := by unfold PicSizeOk; omega
-- with 32-bit pointers larger pictures would overflow
example : defaultAlloc 32 .I444 10 65536 65536 = none := by decide +kernel

end Dav1d
