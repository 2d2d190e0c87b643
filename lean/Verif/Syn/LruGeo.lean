import Verif.Syn.LruCode
import Verif.Part.Spec
/-!
# Where units are
-/
set_option linter.unusedVariables false
set_option linter.unusedSimpArgs false
namespace Dav1d.Syn.Lru
open Dav1d.Part (Tile)

/-- What headers guarantee: src/obu.c:352-386 and 927-963. -/
structure CfgOk (f : Cfg) : Prop where
  w : 0 < f.w
  h : 0 < f.h
  layout : f.layout ≤ 3
  usY : 6 + (if f.sb128 then 1 else 0) ≤ f.usY ∧ f.usY ≤ 8
  usUv : f.usUv = f.usY ∨ f.layout = 1 ∧ f.usUv + 1 = f.usY
  type : ∀ p, f.type p ≤ 3 ∧ (3 ≤ p → f.type p = 0)
  mono : f.layout = 0 → ∀ p, p ≠ 0 → f.type p = 0
  width : f.d = 8 ∧ f.w = f.srw ∨ 9 ≤ f.d ∧ f.d ≤ 16 ∧ f.w = max ((8 * f.srw + f.d / 2) / f.d) (min 16 f.srw)

/-- restoration.type as the specification's FrameRestorationType. -/
def rtype : Nat → Av1.RType
  | 0 => .NONE
  | 1 => .SWITCHABLE
  | 2 => .WIENER
  | _ => .SGRPROJ

/-- The frame for the specification. -/
def envOf (f : Cfg) (intrabc : Bool) : Av1.Env :=
  { NumPlanes := if f.layout = 0 then 1 else 3, subsampling_x := if f.layout = 3 then 0 else 1, subsampling_y := if f.layout ≤ 1 then 1 else 0
    FrameWidth := f.w, FrameHeight := f.h, UpscaledWidth := f.srw, use_superres := decide (f.d ≠ 8), SuperresDenom := f.d, allow_intrabc := intrabc
    use_128x128_superblock := f.sb128, FrameRestorationType := fun p => rtype (f.type p), LoopRestorationSize := fun p => 2 ^ f.us p }

/-- The place of a unit with its first sample at `py`, `px` of luma. -/
def locPx (f : Cfg) (py px : Nat) : Ptr := (py / 128 * f.srSb128w + px / 128, py % 128 / 64 * 2 + px % 128 / 64)
def loc (f : Cfg) (p row col : Nat) : Ptr := locPx f (row * 2 ^ (f.us p + f.ssV p)) (col * 2 ^ (f.us p + f.ssH p))

/-- The sizes in a plane, all numerals. -/
structure Sizes (U V H S : Nat) : Prop where
  u : U = 32 ∨ U = 64 ∨ U = 128 ∨ U = 256
  sv : V = 0 ∨ V = 1
  sh : H = 0 ∨ H = 1
  st : S = 16 ∨ S = 32
  v : S * 4 ≤ U * 2 ^ V
  h : S * 4 ≤ U * 2 ^ H

theorem sizes {f : Cfg} (hf : CfgOk f) {p : Nat} (hp : f.type p ≠ 0) : Sizes (2 ^ f.us p) (f.ssV p) (f.ssH p) f.step := by
  obtain ⟨u1, u2⟩ := hf.usY
  have u3 := hf.usUv
  have hl := hf.layout
  have hm := hf.mono
  have hus : f.us p = 5 ∨ f.us p = 6 ∨ f.us p = 7 ∨ f.us p = 8 := by
    unfold Cfg.us
    split at u1 <;> split <;> omega
  have hstep : f.step = if f.sb128 then 32 else 16 := rfl
  have hsV : f.ssV p = if p ≠ 0 ∧ f.layout = 1 then 1 else 0 := rfl
  have hsH : f.ssH p = if p ≠ 0 ∧ f.layout ≠ 3 then 1 else 0 := rfl
  have key : f.step * 4 ≤ 2 ^ f.us p * 2 ^ f.ssV p ∧ f.step * 4 ≤ 2 ^ f.us p * 2 ^ f.ssH p := by
    rw [← Nat.pow_add, ← Nat.pow_add]
    have e : f.step * 4 = 2 ^ (6 + if f.sb128 then 1 else 0) := by rw [hstep]; split <;> rfl
    rw [e]
    have a1 : 6 + (if f.sb128 then 1 else 0) ≤ f.us p + f.ssV p := by
      rw [hsV]; unfold Cfg.us
      by_cases hp0 : p = 0
      · rw [if_pos hp0]; omega
      · rw [if_neg hp0]
        by_cases h1 : f.layout = 1
        · rw [if_pos (c := p ≠ 0 ∧ f.layout = 1) ⟨hp0, h1⟩]; omega
        · omega
    have a2 : 6 + (if f.sb128 then 1 else 0) ≤ f.us p + f.ssH p := by
      rw [hsH]; unfold Cfg.us
      by_cases hp0 : p = 0
      · rw [if_pos hp0]; omega
      · rw [if_neg hp0]
        by_cases h1 : f.layout = 1
        · rw [if_pos (c := p ≠ 0 ∧ f.layout ≠ 3) ⟨hp0, by omega⟩]; omega
        · omega
    exact ⟨Nat.pow_le_pow_right (by decide) a1, Nat.pow_le_pow_right (by decide) a2⟩
  refine ⟨?_, ?_, ?_, ?_, key.1, key.2⟩
  · rcases hus with h | h | h | h <;> rw [h] <;> decide
  · rw [hsV]; split <;> simp
  · rw [hsH]; split <;> simp
  · rw [hstep]; split <;> simp

/-- A dimension without scaling: the unit that starts in a superblock. -/
theorem dim {U s st c n : Nat} (hU : U = 32 ∨ U = 64 ∨ U = 128 ∨ U = 256) (hs : s = 0 ∨ s = 1) (hst : st = 16 ∨ st = 32) (hv : st * 4 ≤ U * 2 ^ s) (hc : c % st = 0) :
    (c * 4 / 2 ^ s % U = 0 ∧ ¬ (c * 4 / 2 ^ s ≠ 0 ∧ n < c * 4 / 2 ^ s + U / 2) →
      (c * (4 / 2 ^ s) + U - 1) / U * (U * 2 ^ s) = c * 4 ∧ min (((c + st) * (4 / 2 ^ s) + U - 1) / U) (max ((n + U / 2) / U) 1) = (c * (4 / 2 ^ s) + U - 1) / U + 1) ∧
    (¬ (c * 4 / 2 ^ s % U = 0 ∧ ¬ (c * 4 / 2 ^ s ≠ 0 ∧ n < c * 4 / 2 ^ s + U / 2)) →
      min (((c + st) * (4 / 2 ^ s) + U - 1) / U) (max ((n + U / 2) / U) 1) ≤ (c * (4 / 2 ^ s) + U - 1) / U) := by
  rcases hs with rfl | rfl <;> rcases hst with rfl | rfl <;> rcases hU with rfl | rfl | rfl | rfl <;> omega

/-- A dimension with scaling. -/
theorem dimS {U s d x : Nat} (hU : U = 32 ∨ U = 64 ∨ U = 128 ∨ U = 256) (hs : s = 0 ∨ s = 1) :
    (4 * x * d / 2 ^ s + (U * 8 - 1)) / (U * 8) = (x * (4 / 2 ^ s * d) + U * 8 - 1) / (U * 8) := by
  have e : 4 * x * d = 4 * (x * d) := by rw [Nat.mul_assoc]
  have e2 : x * (4 / 2 ^ s * d) = 4 / 2 ^ s * (x * d) := by rw [← Nat.mul_assoc, Nat.mul_comm x, Nat.mul_assoc]
  rw [e, e2]
  generalize x * d = z
  rcases hs with rfl | rfl <;> rcases hU with rfl | rfl | rfl | rfl <;> omega

theorem pow_us (a b : Nat) : 2 ^ (a + b) = 2 ^ a * 2 ^ b := Nat.pow_add 2 a b

/-- Superblocks. -/
structure InFrame (f : Cfg) (bx by' : Nat) : Prop where
  x : bx % f.step = 0 ∧ bx < f.bw
  y : by' % f.step = 0 ∧ by' < f.bh

section
variable {f : Cfg} {p : Nat} {ibc : Bool}

theorem subs (hf : CfgOk f) (hp : f.type p ≠ 0) : (envOf f ibc).subX p = f.ssH p ∧ (envOf f ibc).subY p = f.ssV p := by
  have hm := hf.mono
  have hl := hf.layout
  unfold Av1.Env.subX Av1.Env.subY envOf Cfg.ssH Cfg.ssV
  dsimp only
  by_cases h0 : p = 0
  · simp [h0]
  · have hl0 : f.layout ≠ 0 := fun h => hp (hm h p h0)
    have : f.layout = 1 ∨ f.layout = 2 ∨ f.layout = 3 := by omega
    rcases this with h | h | h <;> simp [h0, h]

theorem round2 {x s : Nat} (hs : s = 0 ∨ s = 1) : Av1.Round2 x s = (x + s) / 2 ^ s := by
  unfold Av1.Round2
  rcases hs with rfl | rfl <;> simp

theorem rows_eq (hf : CfgOk f) (hp : f.type p ≠ 0) : Av1.unitRows (envOf f ibc) p = max (((f.h + f.ssV p) / 2 ^ f.ssV p + 2 ^ f.us p / 2) / 2 ^ f.us p) 1 := by
  have S := sizes hf hp
  unfold Av1.unitRows Av1.count_units_in_frame
  rw [(subs hf hp).2, show (envOf f ibc).LoopRestorationSize p = 2 ^ f.us p from rfl, show (envOf f ibc).FrameHeight = f.h from rfl, round2 S.sv]

theorem cols_eq (hf : CfgOk f) (hp : f.type p ≠ 0) : Av1.unitCols (envOf f ibc) p = max (((f.srw + f.ssH p) / 2 ^ f.ssH p + 2 ^ f.us p / 2) / 2 ^ f.us p) 1 := by
  have S := sizes hf hp
  unfold Av1.unitCols Av1.count_units_in_frame
  rw [(subs hf hp).1, show (envOf f ibc).LoopRestorationSize p = 2 ^ f.us p from rfl, show (envOf f ibc).UpscaledWidth = f.srw from rfl, round2 S.sh]

/-- Rows of units in a superblock. -/
theorem rowRange (hf : CfgOk f) (hp : f.type p ≠ 0) {by' : Nat} (hy : by' % f.step = 0) :
    (by' * 4 / 2 ^ f.ssV p % 2 ^ f.us p = 0 ∧ ¬ (by' * 4 / 2 ^ f.ssV p ≠ 0 ∧ (f.h + f.ssV p) / 2 ^ f.ssV p < by' * 4 / 2 ^ f.ssV p + 2 ^ f.us p / 2) →
      Av1.unitRowStart (envOf f ibc) p by' * 2 ^ (f.us p + f.ssV p) = by' * 4 ∧ Av1.unitRowEnd (envOf f ibc) p by' = Av1.unitRowStart (envOf f ibc) p by' + 1) ∧
    (¬ (by' * 4 / 2 ^ f.ssV p % 2 ^ f.us p = 0 ∧ ¬ (by' * 4 / 2 ^ f.ssV p ≠ 0 ∧ (f.h + f.ssV p) / 2 ^ f.ssV p < by' * 4 / 2 ^ f.ssV p + 2 ^ f.us p / 2)) →
      Av1.unitRowEnd (envOf f ibc) p by' ≤ Av1.unitRowStart (envOf f ibc) p by') := by
  have S := sizes hf hp
  unfold Av1.unitRowStart Av1.unitRowEnd
  rw [rows_eq hf hp, (subs hf hp).2, show (envOf f ibc).LoopRestorationSize p = 2 ^ f.us p from rfl, show (envOf f ibc).sbSize4 = f.step from rfl, pow_us]
  exact dim S.u S.sv S.st S.v hy

/-- Columns of units in a superblock, with scaling. -/
theorem colRange_resized (hf : CfgOk f) (hp : f.type p ≠ 0) (hr : f.resized) (x : Nat) :
    (4 * x * f.d / 2 ^ f.ssH p + (2 ^ f.us p * 8 - 1)) / 2 ^ (f.us p + 3) = (x * Av1.numerator (envOf f ibc) p + Av1.denominator (envOf f ibc) p - 1) / Av1.denominator (envOf f ibc) p := by
  have S := sizes hf hp
  have hd : f.d ≠ 8 := by
    rcases hf.width with h | h
    · exact absurd h.2 hr
    · omega
  unfold Av1.numerator Av1.denominator
  rw [(subs hf hp).1, show (envOf f ibc).LoopRestorationSize p = 2 ^ f.us p from rfl, show (envOf f ibc).SuperresDenom = f.d from rfl,
    show (envOf f ibc).use_superres = true from decide_eq_true hd, if_pos rfl, if_pos rfl, pow_us, show 2 ^ 3 = 8 from rfl]
  exact dimS S.u S.sh

/-- A frame that is not scaled although it could be is a single superblock wide. -/
theorem small (hf : CfgOk f) (hr : ¬ f.resized) (hd : f.d ≠ 8) : f.srw ≤ 16 := by
  have hr' : f.w = f.srw := Classical.not_not.1 hr
  rcases hf.width with h | ⟨h1, h2, h3⟩
  · exact absurd h.1 hd
  · rw [hr'] at h3
    have : f.d = 9 ∨ f.d = 10 ∨ f.d = 11 ∨ f.d = 12 ∨ f.d = 13 ∨ f.d = 14 ∨ f.d = 15 ∨ f.d = 16 := by omega
    rcases this with h | h | h | h | h | h | h | h <;> rw [h] at h3 <;> omega

/-- Columns of units in a superblock, without scaling. -/
theorem colRange (hf : CfgOk f) (hp : f.type p ≠ 0) (hr : ¬ f.resized) {bx : Nat} (hx : bx % f.step = 0) (hb : bx < f.bw) :
    (4 * bx / 2 ^ f.ssH p % 2 ^ f.us p = 0 ∧ ¬ (4 * bx / 2 ^ f.ssH p ≠ 0 ∧ (f.w + f.ssH p) / 2 ^ f.ssH p < 4 * bx / 2 ^ f.ssH p + 2 ^ f.us p / 2) →
      Av1.unitColStart (envOf f ibc) p bx * 2 ^ (f.us p + f.ssH p) = bx * 4 ∧ Av1.unitColEnd (envOf f ibc) p bx = Av1.unitColStart (envOf f ibc) p bx + 1) ∧
    (¬ (4 * bx / 2 ^ f.ssH p % 2 ^ f.us p = 0 ∧ ¬ (4 * bx / 2 ^ f.ssH p ≠ 0 ∧ (f.w + f.ssH p) / 2 ^ f.ssH p < 4 * bx / 2 ^ f.ssH p + 2 ^ f.us p / 2)) →
      Av1.unitColEnd (envOf f ibc) p bx ≤ Av1.unitColStart (envOf f ibc) p bx) := by
  have S := sizes hf hp
  have hr' : f.w = f.srw := Classical.not_not.1 hr
  unfold Av1.unitColStart Av1.unitColEnd
  rw [cols_eq hf hp, show (envOf f ibc).sbSize4 = f.step from rfl, pow_us, ← hr', Nat.mul_comm 4 bx]
  by_cases hd : f.d = 8
  · unfold Av1.numerator Av1.denominator
    rw [(subs hf hp).1, show (envOf f ibc).LoopRestorationSize p = 2 ^ f.us p from rfl, show (envOf f ibc).use_superres = false from decide_eq_false (fun h => h hd)]
    simp only [Bool.false_eq_true, if_false, Nat.mul_one]
    exact dim S.u S.sh S.st S.h hx
  · have hs := small hf hr hd
    have h0 : bx = 0 := by
      have h1 : f.bw = (f.w + 7) / 8 * 2 := rfl
      have h2 := S.st
      rcases h2 with h2 | h2 <;> rw [h2] at hx <;> omega
    subst h0
    have hU : 0 < 2 ^ f.us p := Nat.two_pow_pos _
    have hden : 0 < Av1.denominator (envOf f ibc) p := by
      unfold Av1.denominator
      rw [show (envOf f ibc).LoopRestorationSize p = 2 ^ f.us p from rfl]
      split <;> omega
    have hnum : 0 < Av1.numerator (envOf f ibc) p := by
      unfold Av1.numerator
      rw [(subs hf hp).1]
      have : 0 < 4 / 2 ^ f.ssH p := by rcases S.sh with h | h <;> rw [h] <;> decide
      refine Nat.mul_pos this ?_
      split
      · show 0 < f.d
        rcases hf.width with h | h <;> omega
      · decide
    have e1 : (0 * Av1.numerator (envOf f ibc) p + Av1.denominator (envOf f ibc) p - 1) / Av1.denominator (envOf f ibc) p = 0 := by
      rw [Nat.zero_mul, Nat.zero_add]
      exact Nat.div_eq_of_lt (by omega)
    have e2 : 1 ≤ ((0 + f.step) * Av1.numerator (envOf f ibc) p + Av1.denominator (envOf f ibc) p - 1) / Av1.denominator (envOf f ibc) p := by
      refine (Nat.le_div_iff_mul_le hden).2 ?_
      have : 0 < (0 + f.step) * Av1.numerator (envOf f ibc) p := Nat.mul_pos (by rcases S.st with h | h <;> omega) hnum
      omega
    have e3 : max (((f.w + f.ssH p) / 2 ^ f.ssH p + 2 ^ f.us p / 2) / 2 ^ f.us p) 1 = 1 := by
      have : ((f.w + f.ssH p) / 2 ^ f.ssH p + 2 ^ f.us p / 2) / 2 ^ f.us p ≤ 1 := by
        have hq : (f.w + f.ssH p) / 2 ^ f.ssH p ≤ 16 := by rcases S.sh with h | h <;> rw [h] <;> omega
        generalize (f.w + f.ssH p) / 2 ^ f.ssH p = q at hq
        rcases S.u with h | h | h | h <;> rw [h] <;> omega
      omega
    rw [e1, e3]
    refine ⟨fun _ => ⟨by simp, by omega⟩, fun h => absurd ⟨by simp, fun h' => h'.1 (by simp)⟩ h⟩
end

end Dav1d.Syn.Lru
