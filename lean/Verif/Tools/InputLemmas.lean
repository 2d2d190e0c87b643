import Verif.Tools.InputSpec

/-
Lemmas about the file primitives and the leb128 reader.
-/

namespace Dav1d.Input

open Spec

/-- What is left of the file at the position. -/
def Stream.rest (s : Stream) : List UInt8 := s.data.drop s.pos

theorem skip_rest (s : Stream) {a b : List UInt8} (h : s.rest = a ++ b) :
    (skip a.length s).rest = b := by
  unfold Stream.rest skip at *
  show s.data.drop (s.pos + a.length) = b
  rw [← List.drop_drop, h, List.drop_left]

theorem rest_pos (s : Stream) {a b : List UInt8} (h : s.rest = a ++ b) (ha : a ≠ []) :
    s.pos + a.length + b.length = s.data.length := by
  have := congrArg List.length h
  unfold Stream.rest at this
  rw [List.length_drop, List.length_append] at this
  have : 0 < a.length := List.length_pos_iff.2 ha
  omega

theorem fread_ok (s : Stream) {a b : List UInt8} (h : s.rest = a ++ b) (ha : a ≠ []) :
    fread a.length s = (some a, skip a.length s) := by
  have hp := rest_pos s h ha
  have h0 : a.length ≠ 0 := by simpa using ha
  unfold fread
  rw [if_neg h0, if_pos (by omega)]
  unfold Stream.rest at h
  rw [h, List.take_left]
  rfl

theorem fread_some {n : Nat} {s t : Stream} {a : List UInt8} (h : fread n s = (some a, t)) :
    a.length = n ∧ a ≠ [] ∧ s.rest = a ++ t.rest ∧ t = skip n s ∧ t.pos ≤ t.data.length := by
  unfold fread at h
  split at h
  · simp at h
  · split at h
    · rename_i h0 hn
      simp only [Prod.mk.injEq, Option.some.injEq] at h
      obtain ⟨rfl, rfl⟩ := h
      have hl : ((s.data.drop s.pos).take n).length = n := by
        rw [List.length_take, List.length_drop]; omega
      refine ⟨hl, ?_, ?_, rfl, hn⟩
      · intro hc; rw [hc] at hl; exact h0 hl.symm
      · show s.data.drop s.pos = _ ++ s.data.drop (s.pos + n)
        rw [← List.drop_drop, List.take_append_drop]
    · simp at h

theorem fread_none {n : Nat} {s t : Stream} (h : fread n s = (none, t)) :
    t.data = s.data ∧ (n = 0 ∧ t = s ∨ s.rest.length < n ∧ t.pos = max s.pos s.data.length) := by
  unfold fread at h
  split at h
  · rename_i h0
    simp only [Prod.mk.injEq, true_and] at h
    exact ⟨by rw [h], .inl ⟨h0, h.symm⟩⟩
  · split at h
    · simp at h
    · simp only [Prod.mk.injEq, true_and] at h
      subst h
      refine ⟨rfl, .inr ⟨?_, rfl⟩⟩
      unfold Stream.rest; rw [List.length_drop]; omega

theorem fread_short {n : Nat} {s : Stream} (hn : n ≠ 0) (h : s.rest.length < n) :
    fread n s = (none, { s with pos := max s.pos s.data.length }) := by
  unfold fread
  unfold Stream.rest at h; rw [List.length_drop] at h
  rw [if_neg hn, if_neg (by omega)]

theorem fread_data (n : Nat) (s : Stream) : (fread n s).2.data = s.data := by
  unfold fread; split
  · rfl
  · split <;> rfl

theorem fread_one {s t : Stream} {a : List UInt8} (h : fread 1 s = (some a, t)) :
    ∃ b, a = [b] ∧ s.rest = b :: t.rest ∧ t = skip 1 s ∧ t.pos ≤ t.data.length := by
  obtain ⟨hl, hn, hr, ht, hp⟩ := fread_some h
  match a, hl with
  | [b], _ => exact ⟨b, rfl, hr, ht, hp⟩

theorem fread_one_ok {s : Stream} {b : UInt8} {l : List UInt8} (h : s.rest = b :: l) :
    fread 1 s = (some [b], skip 1 s) :=
  fread_ok s (a := [b]) (b := l) h (by simp)

theorem rest_skip_one {s : Stream} {b : UInt8} {l : List UInt8} (h : s.rest = b :: l) :
    (skip 1 s).rest = l :=
  skip_rest s (a := [b]) (b := l) h

/-! ### leb128 -/

theorem Spec.Terminated.ne_nil {l : List UInt8} (h : Terminated l) : l ≠ [] := by
  rintro rfl; exact h

theorem terminated_cons {b : UInt8} {l : List UInt8} (hl : l ≠ []) :
    Terminated (b :: l) ↔ 128 ≤ b.toNat ∧ Terminated l := by
  cases l with
  | nil => exact absurd rfl hl
  | cons c l => exact Iff.rfl

theorem and127 (b : UInt8) : b.toNat &&& 0x7F = b.toNat % 128 :=
  Nat.and_two_pow_sub_one_eq_mod b.toNat 7

theorem and128 (b : UInt8) : b.toNat &&& 0x80 = 0 ↔ b.toNat < 128 := by
  have : ∀ n ∈ List.range 256, n &&& 0x80 = 0 ↔ n < 128 := by decide +kernel
  exact this _ (List.mem_range.2 b.toNat_lt)

theorem or_shift {val x i : Nat} (h : val < 2 ^ (7 * i)) :
    val ||| (x <<< (i * 7)) = val + 2 ^ (7 * i) * x := by
  rw [Nat.mul_comm i 7, Nat.shiftLeft_eq, Nat.or_comm, Nat.mul_comm x,
    ← Nat.two_pow_add_eq_or_of_lt h, Nat.add_comm]

theorem step_lt {val i : Nat} (b : UInt8) (h : val < 2 ^ (7 * i)) :
    val + 2 ^ (7 * i) * (b.toNat % 128) < 2 ^ (7 * (i + 1)) := by
  have e : 2 ^ (7 * (i + 1)) = 2 ^ (7 * i) * 128 := by rw [Nat.mul_add, Nat.pow_add]
  have hb : b.toNat % 128 ≤ 127 := by omega
  have := Nat.mul_le_mul_left (2 ^ (7 * i)) hb
  rw [e]; omega

theorem step_value {val i : Nat} (b : UInt8) (l : List UInt8) :
    val + 2 ^ (7 * i) * (b.toNat % 128) + 2 ^ (7 * (i + 1)) * lebValue l
      = val + 2 ^ (7 * i) * lebValue (b :: l) := by
  have e : 2 ^ (7 * (i + 1)) = 2 ^ (7 * i) * 128 := by rw [Nat.mul_add, Nat.pow_add]
  rw [e, lebValue, Nat.mul_add, Nat.mul_assoc]; omega

theorem lebLoop_ok : ∀ (fuel i val : Nat) (l b : List UInt8) (s : Stream),
    s.rest = l ++ b → Terminated l → l.length ≤ fuel → val < 2 ^ (7 * i) →
    val + 2 ^ (7 * i) * lebValue l < 2 ^ 32 →
    leb128Loop fuel i val s
      = (some (i + l.length, val + 2 ^ (7 * i) * lebValue l), skip l.length s)
  | 0, _, _, l, _, _, _, ht, hl, _, _ => by
    have := ht.ne_nil
    have : 0 < l.length := List.length_pos_iff.2 this
    omega
  | fuel + 1, i, val, [], _, _, _, ht, _, _, _ => absurd ht id
  | fuel + 1, i, val, [c], b, s, hr, ht, _, hv, hlt => by
    have hc : c.toNat < 128 := ht
    rw [leb128Loop, fread_one_ok (l := b) hr]
    simp only [and127, or_shift hv, (and128 c).2 hc, if_true]
    have e : lebValue [c] = c.toNat % 128 := by simp [lebValue]
    rw [e] at hlt ⊢
    rw [if_neg (by omega)]
    rfl
  | fuel + 1, i, val, c :: d :: l, b, s, hr, ht, hl, hv, hlt => by
    have hc : 128 ≤ c.toNat := ht.1
    have hn : ¬ (c.toNat &&& 0x80 = 0) := fun hh => by have := (and128 c).1 hh; omega
    rw [leb128Loop, fread_one_ok (l := (d :: l) ++ b) hr]
    simp only [and127, or_shift hv, hn, if_false]
    have e := step_value (val := val) (i := i) c (d :: l)
    rw [lebLoop_ok fuel (i + 1) _ (d :: l) b _ (rest_skip_one hr) ht.2
      (by simpa using hl) (step_lt c hv) (by rw [e]; exact hlt), e]
    congr 1
    · congr 2; simp only [List.length_cons]; omega
    · unfold skip; simp only [List.length_cons]; congr 1; omega

theorem leb128_ok {s : Stream} {l b : List UInt8} {v : Nat} (h : IsLeb l v) (hr : s.rest = l ++ b) :
    leb128 s = (some (l.length, v), skip l.length s) := by
  obtain ⟨ht, hl, hv, h32⟩ := h
  have := lebLoop_ok 8 0 0 l b s hr ht hl (by simp) (by simp [hv, h32])
  rw [leb128, this, hv]; simp

theorem lebLoop_some : ∀ (fuel i val : Nat) (s t : Stream) (n v : Nat),
    leb128Loop fuel i val s = (some (n, v), t) → val < 2 ^ (7 * i) →
    ∃ l, Terminated l ∧ l.length ≤ fuel ∧ n = i + l.length ∧ v = val + 2 ^ (7 * i) * lebValue l ∧
      v < 2 ^ 32 ∧ s.rest = l ++ t.rest ∧ t = skip l.length s ∧ t.pos ≤ t.data.length
  | 0, _, _, _, _, _, _, h, _ => by simp [leb128Loop] at h
  | fuel + 1, i, val, s, t, n, v, h, hv => by
    rw [leb128Loop] at h
    cases hf : fread 1 s with
    | mk o u =>
      rw [hf] at h
      cases o with
      | none => simp at h
      | some a =>
        obtain ⟨c, rfl, hr, hu, hp⟩ := fread_one hf
        simp only [and127, or_shift hv] at h
        by_cases hc : c.toNat < 128
        · simp only [(and128 c).2 hc, if_true] at h
          split at h
          · simp at h
          · simp only [Prod.mk.injEq, Option.some.injEq] at h
            obtain ⟨⟨rfl, rfl⟩, rfl⟩ := h
            exact ⟨[c], hc, by simp, by simp, by simp [lebValue], by omega, hr, hu, hp⟩
        · have hn : ¬ (c.toNat &&& 0x80 = 0) := fun hh => hc ((and128 c).1 hh)
          simp only [hn, if_false] at h
          obtain ⟨l, h1, h2, h3, h4, h5, h6, h7, h8⟩ :=
            lebLoop_some fuel (i + 1) _ u t n v h (step_lt c hv)
          refine ⟨c :: l, (terminated_cons h1.ne_nil).2 ⟨by omega, h1⟩, by simpa using h2,
            by simp only [List.length_cons]; omega, by rw [h4, step_value], h5,
            by rw [hr, h6]; rfl, ?_, h8⟩
          rw [h7, hu]; unfold skip; simp only [List.length_cons]; congr 1; omega

theorem leb128_some {s t : Stream} {n v : Nat} (h : leb128 s = (some (n, v), t)) :
    ∃ l, IsLeb l v ∧ l.length = n ∧ s.rest = l ++ t.rest ∧ t = skip n s ∧ t.pos ≤ t.data.length := by
  obtain ⟨l, h1, h2, h3, h4, h5, h6, h7, h8⟩ := lebLoop_some 8 0 0 s t n v h (by simp)
  have e : l.length = n := by omega
  exact ⟨l, ⟨h1, h2, by simpa using h4.symm, h5⟩, e, h6, by rw [← e]; exact h7, h8⟩

theorem lebLoop_data : ∀ (fuel i val : Nat) (s : Stream), (leb128Loop fuel i val s).2.data = s.data
  | 0, _, _, _ => rfl
  | fuel + 1, i, val, s => by
    rw [leb128Loop]
    have hd := fread_data 1 s
    split
    · rename_i hf
      rw [hf] at hd
      dsimp only
      split
      · split <;> exact hd
      · rw [lebLoop_data]; exact hd
    · rename_i hf
      rw [hf] at hd; exact hd

theorem leb128_data (s : Stream) : (leb128 s).2.data = s.data := lebLoop_data ..

theorem Spec.IsLeb.pos {l : List UInt8} {v : Nat} (h : IsLeb l v) : 0 < l.length :=
  List.length_pos_iff.2 h.1.ne_nil

/-! ### Little endian numbers -/

theorem leBytes_length : ∀ n v, (leBytes n v).length = n
  | 0, _ => rfl
  | n + 1, v => by rw [leBytes, List.length_cons, leBytes_length]

theorem le_leBytes : ∀ n v, v < 256 ^ n → le (leBytes n v) = v
  | 0, v, h => by simp at h; simp [leBytes, le, h]
  | n + 1, v, h => by
    have : v / 256 < 256 ^ n := by
      rw [Nat.div_lt_iff_lt_mul (by decide)]; rwa [Nat.pow_succ] at h
    rw [leBytes, le, le_leBytes n _ this]
    simp only [UInt8.toNat_ofNat']
    omega

theorem leBytes_le : ∀ l : List UInt8, leBytes l.length (le l) = l
  | [] => rfl
  | b :: l => by
    have hb := b.toNat_lt
    have e : (b.toNat + 256 * le l) / 256 = le l := by omega
    rw [List.length_cons, le, leBytes, e, leBytes_le l]
    congr 1
    apply UInt8.toNat_inj.1
    simp only [UInt8.toNat_ofNat']
    omega

theorem le_lt : ∀ l : List UInt8, le l < 256 ^ l.length
  | [] => by simp [le]
  | b :: l => by
    have := le_lt l
    have := b.toNat_lt
    rw [le, List.length_cons, Nat.pow_succ]; omega

end Dav1d.Input
