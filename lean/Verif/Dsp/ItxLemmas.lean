import Verif.Dsp.Itx
import Verif.Dsp.ItxAbs
import Verif.Dsp.ScanProps
import Mathlib.Tactic.NormNum
/-!
# Lemmas on the inverse transforms
-/
namespace Dav1d.Itx

/-! ## Loops -/

theorem collect_eq {α : Type} {f : Nat → Option α} {g : Nat → α} : ∀ {n : Nat}, (∀ i < n, f i = some (g i)) →
    collect n f = some ((List.range n).map g)
  | 0, _ => rfl
  | n + 1, h => by
    rw [collect, collect_eq fun i hi => h i (by omega), Option.bind_some, h n (by omega), Option.map_some, List.range_succ,
      List.map_append]
    rfl

theorem collect_congr {α : Type} {f g : Nat → Option α} : ∀ {n : Nat}, (∀ i < n, f i = g i) → collect n f = collect n g
  | 0, _ => rfl
  | n + 1, h => by rw [collect, collect, collect_congr fun i hi => h i (by omega), h n (by omega)]

theorem collect_ex {α : Type} {f : Nat → Option α} {P : α → Prop} : ∀ {n : Nat}, (∀ i < n, ∃ v, f i = some v ∧ P v) →
    ∃ l, collect n f = some l ∧ l.length = n ∧ ∀ v ∈ l, P v
  | 0, _ => ⟨[], rfl, rfl, fun v hv => by cases hv⟩
  | n + 1, h => by
    obtain ⟨l, h1, h2, h3⟩ := collect_ex fun i (hi : i < n) => h i (by omega)
    obtain ⟨v, hv1, hv2⟩ := h n (by omega)
    refine ⟨l ++ [v], by rw [collect, h1, Option.bind_some, hv1]; rfl, by simp [h2], fun w hw => ?_⟩
    rcases List.mem_append.1 hw with hw | hw
    · exact h3 w hw
    · rw [List.mem_singleton.1 hw]; exact hv2

/-! ## The one-dimensional transforms -/

theorem fn_bounded : ∀ {n : Nat} {k : Kind} {p : Prog}, fn n k = some p → bounded p (min n 32) n 524288 524288 2097152 = true := by
  intro n k p h
  unfold fn at h
  split at h <;> first | (obtain rfl := Option.some.inj h; decide +kernel) | cases h

theorem fn_zero : ∀ {n : Nat} {k : Kind} {p : Prog}, fn n k = some p → zeroFlat p (min n 32) n = true := by
  intro n k p h
  unfold fn at h
  split at h <;> first | (obtain rfl := Option.some.inj h; decide +kernel) | cases h

theorem fn_dc : ∀ {n : Nat} {p : Prog}, fn n .dct = some p → dcFlat p (min n 32 - 1) n = true := by
  intro n p h
  unfold fn at h
  split at h <;> first | (obtain rfl := Option.some.inj h; decide +kernel) | contradiction

theorem has_fn {tx : Tx} {ty : TxType} (h : tx.has ty = true) :
    ∃ p1 p2, fn tx.w ty.impl.kinds.1 = some p1 ∧ fn tx.h ty.impl.kinds.2 = some p2 := by
  cases tx <;> cases ty <;> first | exact ⟨_, _, rfl, rfl⟩ | cases h

theorem min_w (tx : Tx) : min tx.w 32 = tx.sw := by cases tx <;> rfl
theorem min_h (tx : Tx) : min tx.h 32 = tx.sh := by cases tx <;> rfl
theorem sw_pos (tx : Tx) : 0 < tx.sw := by cases tx <;> decide
theorem sh_pos (tx : Tx) : 0 < tx.sh := by cases tx <;> decide

/-- What holds of the clip limits. -/
structure Lim (lo : Int) : Prop where
  lo1 : -524288 ≤ lo
  lo0 : lo ≤ -32768

theorem row_lim (d : Depth) : Lim (rowMin d) := by cases d <;> exact ⟨by decide, by decide⟩
theorem col_lim (d : Depth) : Lim (colMin d) := by cases d <;> exact ⟨by decide, by decide⟩

theorem Lim.sym {lo : Int} (h : Lim lo) {v : Int} (h1 : -1048576 ≤ v) (h2 : v ≤ 1048576) : SymOk v lo (compl lo) := by
  have := h.lo1; have := h.lo0
  exact ⟨h1, h2, by omega, by omega, by rw [compl]; omega, by rw [compl]; omega⟩

theorem call_bounded {n : Nat} {k : Kind} {p : Prog} (h : fn n k = some p) {lo : Int} (hl : Lim lo) {x : List Int}
    (hx : x.length = min n 32) (hb : ∀ v ∈ x, v.natAbs ≤ 524288) :
    ∃ y, call (int32 lo (compl lo)) p n x = some y ∧ y.length = n ∧ ∀ v ∈ y, v.natAbs ≤ 2097152 := by
  have := hl.lo1; have := hl.lo0
  exact bounded_call (fn_bounded h) (by omega) (by rw [compl]; omega) (by rw [compl]; omega) hx hb

theorem call_zero {n : Nat} {k : Kind} {p : Prog} (h : fn n k = some p) {lo : Int} (hl : Lim lo) :
    call (int32 lo (compl lo)) p n (List.replicate (min n 32) 0) = some (List.replicate n 0) :=
  zeroFlat_call (fn_zero h) (hl.sym (by decide) (by decide))

theorem call_dc {n : Nat} {p : Prog} (h : fn n .dct = some p) {lo v : Int} (hl : Lim lo) (h1 : -1048576 ≤ v)
    (h2 : v ≤ 1048576) : call (int32 lo (compl lo)) p n (v :: List.replicate (min n 32 - 1) 0) =
      some (List.replicate n (iclip (asr (v * 181 + 128) 8) lo (compl lo))) :=
  dcFlat_call (fn_dc h) (hl.sym h1 h2)

/-! ## The range of coefficients -/

/-- The coefficients that decode_coefs stores, src/recon_tmpl.c:602, 639, 667, 683, 713: at most `cf_max = 2^(bpc + 7) - 1`,
and at least `-cf_max - 1`. -/
def CoefIn (d : Depth) (v : Int) : Prop := -(2 ^ (d.bpc + 7) : Int) ≤ v ∧ v ≤ 2 ^ (d.bpc + 7) - 1

def PixelIn (d : Depth) (v : Int) : Prop := 0 ≤ v ∧ v ≤ d.max

theorem CoefIn.abs {d : Depth} {v : Int} (h : CoefIn d v) : v.natAbs ≤ 524288 := by
  rw [CoefIn] at h
  cases d <;> norm_num [Depth.bpc] at h <;> omega

theorem mul181_eq {v : Int} (h : v.natAbs ≤ 1048576) : mul181 v = some (asr (v * 181 + 128) 8) := by
  rw [mul181, fit_of (by omega), Option.bind_some, fit_of (by omega), Option.map_some]

theorem asr8 (v : Int) : asr v 8 = v / 256 := by rw [asr]; norm_num
theorem asr4 (v : Int) : asr v 4 = v / 16 := by rw [asr]; norm_num
theorem asr12 (v : Int) : asr v 12 = v / 4096 := by rw [asr]; norm_num

theorem pixel_abs {d : Depth} {v : Int} (h : PixelIn d v) : v.natAbs ≤ 4095 := by
  rw [PixelIn] at h
  cases d <;> norm_num [Depth.max, Depth.bpc] at h <;> omega

theorem clip_pixel (d : Depth) (v : Int) : PixelIn d (d.clip v) := by
  have : 0 ≤ d.max := by cases d <;> decide
  rw [PixelIn, Depth.clip, iclip]
  split
  · omega
  · split <;> omega

theorem half_abs (tx : Tx) : (half tx.shift).natAbs ≤ 2 := by cases tx <;> decide

end Dav1d.Itx
