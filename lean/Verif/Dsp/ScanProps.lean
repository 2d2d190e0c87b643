import Verif.Dsp.Scan
import Mathlib.Data.List.Perm.Subperm
/-!
# C44: the scans visit every coefficient exactly once
-/
namespace Dav1d.Itx

/-- The set of the elements as a bit mask. -/
def bits (l : List Nat) : Nat := l.foldl (fun a k => a ||| 1 <<< k) 0

theorem testBit_foldl (k : Nat) : ∀ (l : List Nat) (a : Nat),
    (l.foldl (fun a k => a ||| 1 <<< k) a).testBit k = (a.testBit k || decide (k ∈ l))
  | [], a => by simp
  | x :: l, a => by
    rw [List.foldl_cons, testBit_foldl k l, Nat.testBit_or]
    by_cases h : k = x
    · subst h; simp [Nat.testBit_shiftLeft]
    · have : (1 <<< x).testBit k = false := by
        rw [Nat.one_shiftLeft, Nat.testBit_two_pow]; simp; omega
      rw [this]; simp [h]

/-- `l` lists the numbers below `n`. -/
def isScan (l : List Nat) (n : Nat) : Bool := Nat.beq l.length n && l.all (Nat.blt · n) && Nat.beq (bits l) (2 ^ n - 1)

theorem isScan_perm {l : List Nat} {n : Nat} (h : isScan l n = true) : (List.range n).Perm l := by
  rw [isScan, Bool.and_eq_true, Bool.and_eq_true] at h
  have hl := Nat.eq_of_beq_eq_true h.1.1
  have hb := Nat.eq_of_beq_eq_true h.2
  refine List.Subperm.perm_of_length_le (List.subperm_of_subset List.nodup_range fun k hk => ?_) (by simp [hl])
  have hk := List.mem_range.1 hk
  have := testBit_foldl k l 0
  rw [show l.foldl (fun a k => a ||| 1 <<< k) 0 = 2 ^ n - 1 from hb, Nat.testBit_two_pow_sub_one] at this
  simpa [hk] using this.symm

theorem isScan_bij {l : List Nat} {n : Nat} (h : isScan l n = true) :
    (∀ i < n, ∃ p < n, l[i]? = some p) ∧ ∀ p < n, ∃! i, i < n ∧ l[i]? = some p := by
  have hp := isScan_perm h
  have hlen : l.length = n := by simpa using hp.length_eq.symm
  have hnd : l.Nodup := hp.nodup_iff.1 List.nodup_range
  constructor
  · intro i hi
    refine ⟨l[i]'(by omega), ?_, List.getElem?_eq_getElem _⟩
    exact List.mem_range.1 (hp.mem_iff.2 (List.getElem_mem _))
  · intro p hp'
    have hm : p ∈ l := hp.mem_iff.1 (List.mem_range.2 hp')
    obtain ⟨i, hi, he⟩ := List.mem_iff_getElem.1 hm
    refine ⟨i, ⟨by omega, by rw [List.getElem?_eq_getElem hi, he]⟩, ?_⟩
    rintro j ⟨hj, hje⟩
    rw [List.getElem?_eq_getElem (by omega)] at hje
    exact (List.getElem_inj hnd).1 ((Option.some.inj hje).trans he.symm)

theorem scans_ok (tx : Tx) : isScan (scans tx) (tx.sw * tx.sh) = true := by
  cases tx <;> decide +kernel

/-- The vertical class counts the coefficients row by row. -/
theorem pos_v (tx : Tx) {i : Nat} (hi : i < tx.sw * tx.sh) : pos tx .v i = some (i % tx.sw * tx.sh + i / tx.sw) := by
  have e : pos tx .v i = some (((i &&& (4 <<< min tx.lw 3) - 1) <<< (min tx.lh 3 + 2)) ||| (i >>> (min tx.lw 3 + 2))) := rfl
  rw [e]
  have hw : tx.sw = 2 ^ (min tx.lw 3 + 2) := by cases tx <;> rfl
  have hh : tx.sh = 2 ^ (min tx.lh 3 + 2) := by cases tx <;> rfl
  have hm : (4 <<< min tx.lw 3) - 1 = 2 ^ (min tx.lw 3 + 2) - 1 := by cases tx <;> rfl
  rw [hm, Nat.and_two_pow_sub_one_eq_mod, Nat.shiftRight_eq_div_pow, Nat.shiftLeft_eq]
  rw [hw, hh] at hi
  rw [hw, hh]
  generalize 2 ^ (min tx.lw 3 + 2) = W at *
  have hlt : i / W < 2 ^ (min tx.lh 3 + 2) := Nat.div_lt_of_lt_mul hi
  rw [Nat.mul_comm (i % W), ← Nat.two_pow_add_eq_or_of_lt hlt]

/-- **C44**: for every transform size and class the coefficients, numbered in coding order, are stored in positions of the
`sw * sh` elements of the buffer, and every position is used for exactly one coefficient. -/
theorem C44_scan (tx : Tx) (cls : TxClass) :
    (∀ i < tx.sw * tx.sh, ∃ p < tx.sw * tx.sh, pos tx cls i = some p) ∧
    ∀ p < tx.sw * tx.sh, ∃! i, i < tx.sw * tx.sh ∧ pos tx cls i = some p := by
  cases cls with
  | d2 => exact isScan_bij (scans_ok tx)
  | h => exact ⟨fun i hi => ⟨i, hi, rfl⟩, fun p hp => ⟨p, ⟨hp, rfl⟩, fun j hj => Option.some.inj hj.2⟩⟩
  | v =>
    have hw : 0 < tx.sw := by cases tx <;> decide
    have hh : 0 < tx.sh := by cases tx <;> decide
    have hb : ∀ {x y : Nat}, x < tx.sw → y < tx.sh → x * tx.sh + y < tx.sw * tx.sh := by
      intro x y hx hy
      calc x * tx.sh + y < x * tx.sh + tx.sh := by omega
        _ = (x + 1) * tx.sh := by rw [Nat.add_mul, Nat.one_mul]
        _ ≤ tx.sw * tx.sh := Nat.mul_le_mul_right _ hx
    constructor
    · intro i hi
      exact ⟨_, hb (Nat.mod_lt _ hw) (Nat.div_lt_of_lt_mul hi), pos_v tx hi⟩
    · intro p hp
      have hx : p / tx.sh < tx.sw := Nat.div_lt_of_lt_mul (by rw [Nat.mul_comm]; exact hp)
      have hy : p % tx.sh < tx.sh := Nat.mod_lt _ hh
      have hi : p % tx.sh * tx.sw + p / tx.sh < tx.sw * tx.sh := by
        calc p % tx.sh * tx.sw + p / tx.sh < p % tx.sh * tx.sw + tx.sw := by omega
          _ = (p % tx.sh + 1) * tx.sw := by rw [Nat.add_mul, Nat.one_mul]
          _ ≤ tx.sh * tx.sw := Nat.mul_le_mul_right _ hy
          _ = tx.sw * tx.sh := Nat.mul_comm ..
      refine ⟨p % tx.sh * tx.sw + p / tx.sh, ⟨hi, ?_⟩, ?_⟩
      · rw [pos_v tx hi, Nat.mul_comm (p % tx.sh), Nat.mul_add_mod, Nat.mod_eq_of_lt hx, Nat.mul_add_div hw, Nat.div_eq_of_lt hx,
          Nat.add_zero, Nat.mul_comm, Nat.div_add_mod]
      · rintro j ⟨hj, hje⟩
        rw [pos_v tx hj] at hje
        have hje := Option.some.inj hje
        have h1 : j / tx.sw < tx.sh := Nat.div_lt_of_lt_mul hj
        rw [← hje, Nat.mul_comm (j % tx.sw), Nat.mul_add_mod, Nat.mod_eq_of_lt h1, Nat.mul_add_div hh, Nat.div_eq_of_lt h1,
          Nat.add_zero, Nat.mul_comm, Nat.div_add_mod]

/-- The first coefficients of an 8x8 block of class 2D and V. -/
example : [pos .x8x8 .d2 0, pos .x8x8 .d2 1, pos .x8x8 .d2 2, pos .x8x8 .d2 63] = [some 0, some 8, some 1, some 63] ∧
    [pos .x16x4 .v 1, pos .x16x4 .v 17] = [some 4, some 5] := by decide +kernel

end Dav1d.Itx
