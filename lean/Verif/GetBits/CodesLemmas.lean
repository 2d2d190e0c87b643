import Verif.GetBits.CodesSpec
import Verif.GetBits.Lemmas
/-! Correctness of the variable-length codes. -/
namespace Dav1d
namespace Prog

theorem natBits_byte_split (b : UInt8) (l : List UInt8) :
    bytesBits (b :: l) = natBits 8 b.toNat ++ bytesBits l := bytesBits_cons b l

theorem or_shift_add {val x i : Nat} (h : val < 2 ^ i) : val ||| (x <<< i) = val + x * 2 ^ i := by
  rw [Nat.shiftLeft_eq, Nat.or_comm, Nat.mul_comm, ← Nat.two_pow_add_eq_or_of_lt h]
  ring

theorem and_7f (v : Nat) : v &&& 0x7F = v % 128 := Nat.and_two_pow_sub_one_eq_mod v 7

theorem and_80 {v : Nat} (h : v < 256) : (v &&& 0x80 ≠ 0) ↔ 128 ≤ v := by
  have : ∀ w : Fin 256, (w.val &&& 0x80 ≠ 0) ↔ 128 ≤ w.val := by decide +kernel
  exact this ⟨v, h⟩

theorem reads_uleb128Loop (k : Nat) : ∀ (v j val : Nat), 1 ≤ k → j + k ≤ 8 → v < 2 ^ (7 * k) →
    val < 2 ^ (7 * j) →
    Reads (uleb128Loop val (7 * j)) (val + v * 2 ^ (7 * j), false) (bytesBits (lebBytes k v)) := by
  induction k with
  | zero => intro v j val h; omega
  | succ k ih =>
    intro v j val _ hj hv hval
    rcases k with _ | k
    · have hv : v < 128 := by simpa using hv
      have h1 := reads_getBits (n := 8) (v := v) (by omega)
      rw [uleb128Loop]
      have e : bytesBits (lebBytes 1 v) = natBits 8 v ++ [] := by
        rw [lebBytes, bytesBits_cons, bytesBits_nil, UInt8.toNat_ofNat', Nat.mod_eq_of_lt hv,
          Nat.mod_eq_of_lt (by omega)]
      rw [e]
      refine h1.bind ?_
      have hm : v &&& 0x80 = 0 := by
        by_contra hc; have := (and_80 (by omega)).1 hc; omega
      simp only [hm, ne_eq, not_true_eq_false, false_and, if_false]
      rw [and_7f, Nat.mod_eq_of_lt hv, or_shift_add hval]
      exact Reads.ret _
    · have h8 : 128 + v % 128 < 2 ^ 8 := by have := Nat.mod_lt v (show 128 > 0 by omega); omega
      have h1 := reads_getBits h8
      rw [uleb128Loop]
      have e : bytesBits (lebBytes (k + 2) v) = natBits 8 (128 + v % 128) ++ bytesBits (lebBytes (k + 1) (v / 128)) := by
        rw [lebBytes, bytesBits_cons, UInt8.toNat_ofNat', Nat.mod_eq_of_lt h8]
      rw [e]
      refine h1.bind ?_
      have hm : (128 + v % 128) &&& 0x80 ≠ 0 := (and_80 (by omega)).2 (by omega)
      simp only [hm, ne_eq, not_false_eq_true, true_and]
      rw [if_pos (by omega), and_7f, or_shift_add hval, show 7 * j + 7 = 7 * (j + 1) by ring]
      have hmod : (128 + v % 128) % 128 = v % 128 := by omega
      rw [hmod]
      have hv2 : v / 128 < 2 ^ (7 * (k + 1)) := by
        rw [Nat.div_lt_iff_lt_mul (by omega)]
        calc v < _ := hv
          _ = 2 ^ (7 * (k + 1)) * 128 := by rw [show 7 * (k + 1 + 1) = 7 * (k + 1) + 7 by ring, Nat.pow_add]
      have hval2 : val + v % 128 * 2 ^ (7 * j) < 2 ^ (7 * (j + 1)) := by
        have := Nat.mod_lt v (show 128 > 0 by omega)
        rw [show 7 * (j + 1) = 7 * j + 7 by ring, Nat.pow_add]
        have : (v % 128) * 2 ^ (7 * j) ≤ 127 * 2 ^ (7 * j) := Nat.mul_le_mul_right _ (by omega)
        omega
      have := ih (v / 128) (j + 1) _ (by omega) (by omega) hv2 hval2
      have ev : val + v % 128 * 2 ^ (7 * j) + v / 128 * 2 ^ (7 * (j + 1)) = val + v * 2 ^ (7 * j) := by
        rw [show 7 * (j + 1) = 7 * j + 7 by ring, Nat.pow_add]
        have := Nat.mod_add_div v 128
        conv_rhs => rw [← this]
        ring
      rwa [ev] at this

theorem reads_getUleb128 {k v : Nat} (h1 : 1 ≤ k) (h8 : k ≤ 8) (hv : v < 2 ^ (7 * k)) (h32 : v < 2 ^ 32) :
    Reads getUleb128 v (bytesBits (lebBytes k v)) := by
  have := reads_uleb128Loop k v 0 0 h1 (by omega) hv (by simp)
  rw [← List.append_nil (bytesBits _)]
  unfold getUleb128
  refine Reads.bind this ?_
  simp only [Nat.mul_zero, Nat.pow_zero, Nat.mul_one, Nat.zero_add]
  rw [if_neg (by simp; omega)]
  exact Reads.ret _

/-- The scan characterizes every outcome of the loop. -/
theorem uleb128Loop_sound (r : Nat) : ∀ (j val : Nat) (s : BitSt) (d : List UInt8), j + r = 8 → 1 ≤ r →
    s.rem = bytesBits d → val < 2 ^ (7 * j) →
    ((uleb128Loop val (7 * j)).run s).2.err = true ∨ ((uleb128Loop val (7 * j)).run s).1.2 = true ∨
    ∃ k v, 1 ≤ k ∧ k ≤ r ∧ v < 2 ^ (7 * k) ∧ lebBytes k v <+: d ∧
      ((uleb128Loop val (7 * j)).run s).1 = (val + v * 2 ^ (7 * j), false) := by
  induction r with
  | zero => intros; omega
  | succ r ih =>
    intro j val s d hj _ hs hval
    rcases d with _ | ⟨b, d⟩
    · left
      rw [bytesBits_nil] at hs
      clear ih
      have key : ∀ (n j val : Nat) (s : BitSt), 56 - 7 * j = n → s.rem = [] → ((uleb128Loop val (7 * j)).run s).2.err = true := by
        intro n
        induction n using Nat.strong_induction_on with
        | _ n ihn =>
          intro j val s hn hs
          rw [uleb128Loop, run_bind]
          have e : ((getBits 8).run s) = (bitsVal (s.peek 8), s.advance 8) := rfl
          rw [e]
          simp only
          split
          · rename_i hc
            rw [show 7 * j + 7 = 7 * (j + 1) by ring]
            exact ihn (56 - 7 * (j + 1)) (by omega) (j + 1) _ _ rfl (by simp [BitSt.advance, hs])
          · simp [BitSt.advance, hs]
      exact key _ _ _ _ rfl hs
    · rw [bytesBits_cons] at hs
      have hb := reads_getBits (n := 8) (v := b.toNat) b.toNat_lt s _ hs
      rw [uleb128Loop, run_bind, hb]
      simp only
      by_cases hm : 128 ≤ b.toNat
      · have hm' := (and_80 (v := b.toNat) b.toNat_lt).2 hm
        by_cases hr : r = 0
        · right; left
          rw [if_neg (by omega)]
          simpa using hm'
        · rw [if_pos ⟨hm', by omega⟩, show 7 * j + 7 = 7 * (j + 1) by ring, and_7f, or_shift_add hval]
          have hval2 : val + b.toNat % 128 * 2 ^ (7 * j) < 2 ^ (7 * (j + 1)) := by
            have := Nat.mod_lt b.toNat (show 128 > 0 by omega)
            rw [show 7 * (j + 1) = 7 * j + 7 by ring, Nat.pow_add]
            have : (b.toNat % 128) * 2 ^ (7 * j) ≤ 127 * 2 ^ (7 * j) := Nat.mul_le_mul_right _ (by omega)
            omega
          rcases ih (j + 1) _ { s with rem := bytesBits d } d (by omega) (by omega) rfl hval2 with h | h | ⟨k, v, h1, h2, h3, h4, h5⟩
          · exact Or.inl h
          · exact Or.inr (Or.inl h)
          · refine Or.inr (Or.inr ⟨k + 1, b.toNat % 128 + 128 * v, by omega, by omega, ?_, ?_, ?_⟩)
            · rw [show 7 * (k + 1) = 7 * k + 7 by ring, Nat.pow_add]
              have := Nat.mod_lt b.toNat (show 128 > 0 by omega)
              omega
            · obtain ⟨k, rfl⟩ : ∃ k', k = k' + 1 := ⟨k - 1, by omega⟩
              rw [lebBytes]
              have e1 : (b.toNat % 128 + 128 * v) % 128 = b.toNat % 128 := by omega
              have e2 : (b.toNat % 128 + 128 * v) / 128 = v := by omega
              rw [e1, e2]
              have hbn := b.toNat_lt
              have e3 : UInt8.ofNat (128 + b.toNat % 128) = b := by
                apply UInt8.toNat_inj.1
                rw [UInt8.toNat_ofNat']
                omega
              rw [e3]
              exact List.prefix_cons_inj b |>.2 h4
            · rw [h5]
              congr 1
              rw [show 7 * (j + 1) = 7 * j + 7 by ring, Nat.pow_add]; ring
      · have hm' : b.toNat &&& 0x80 = 0 := by
          by_contra hc; exact hm ((and_80 b.toNat_lt).1 hc)
        right; right
        refine ⟨1, b.toNat, by omega, by omega, by omega, ?_, ?_⟩
        · rw [lebBytes, Nat.mod_eq_of_lt (by omega), UInt8.ofNat_toNat]
          exact List.prefix_cons_inj b |>.2 (List.nil_prefix)
        · simp only [hm', ne_eq, not_true_eq_false, false_and, if_false, run_ret]
          rw [and_7f, Nat.mod_eq_of_lt (by omega), or_shift_add hval]
          rfl

theorem uleb128Loop_err (n : Nat) : ∀ (val i : Nat) (s : BitSt), 56 - i = n → s.err = true →
    ((uleb128Loop val i).run s).2.err = true := by
  induction n using Nat.strong_induction_on with
  | _ n ihn =>
    intro val i s hn hs
    rw [uleb128Loop, run_bind]
    have e : ((getBits 8).run s) = (bitsVal (s.peek 8), s.advance 8) := rfl
    rw [e]
    simp only
    split
    · rename_i hc
      exact ihn (56 - (i + 7)) (by omega) _ (i + 7) _ rfl (by simp [BitSt.advance, hs])
    · simp [BitSt.advance, hs]

theorem getUleb128_sound (s : BitSt) (d : List UInt8) (hs : s.rem = bytesBits d)
    (he : (getUleb128.run s).2.err = false) :
    ∃ k v, 1 ≤ k ∧ k ≤ 8 ∧ v < 2 ^ 32 ∧ v < 2 ^ (7 * k) ∧ lebBytes k v <+: d ∧ (getUleb128.run s).1 = v := by
  unfold getUleb128 at he ⊢
  rw [run_bind] at he ⊢
  have := uleb128Loop_sound 8 0 0 s d rfl (by omega) hs (by simp)
  rw [Nat.mul_zero] at this
  generalize hr : (uleb128Loop 0 0).run s = r at *
  obtain ⟨⟨val, more⟩, s'⟩ := r
  simp only at he this ⊢
  by_cases hc : val > 0xFFFFFFFF ∨ more = true
  · rw [if_pos hc] at he
    rw [run_bind] at he
    simp [raise, run] at he
  · rw [if_neg hc] at he ⊢
    push Not at hc
    rcases this with h | h | ⟨k, v, h1, h2, h3, h4, h5⟩
    · simp [h] at he
    · simp [h] at hc
    · simp only [Nat.pow_zero, Nat.mul_one, Nat.zero_add, Prod.mk.injEq] at h5
      refine ⟨k, v, h1, h2, ?_, h3, h4, ?_⟩
      · omega
      · simp [h5.1]

theorem log2_bounds {n : Nat} (h : 0 < n) : 2 ^ Nat.log2 n ≤ n ∧ n < 2 ^ (Nat.log2 n + 1) :=
  ⟨Nat.log2_self_le (by omega), Nat.lt_log2_self⟩

theorem reads_getUniform {n v : Nat} (hn : 1 < n) (hv : v < n) : Reads (getUniform n) v (nsBits n v) := by
  obtain ⟨h1, h2⟩ := log2_bounds (n := n) (by omega)
  unfold getUniform nsBits
  simp only [Nat.add_sub_cancel]
  rw [Nat.pow_succ] at h2
  by_cases hc : v < 2 ^ (Nat.log2 n + 1) - n
  · rw [if_pos hc, ← List.append_nil (natBits _ _)]
    refine (reads_getBits (v := v) (by rw [Nat.pow_succ] at hc; omega)).bind ?_
    rw [if_pos hc]
    exact Reads.ret _
  · rw [if_neg hc]
    rw [Nat.pow_succ] at hc ⊢
    set m := 2 ^ Nat.log2 n * 2 - n with hm
    refine (reads_getBits (v := (v + m) / 2) (by omega)).bind ?_
    rw [if_neg (by omega), ← List.append_nil [_]]
    refine (reads_getBit _).bind ?_
    have : (v + m) / 2 * 2 - m + ((v + m) % 2 == 1).toNat = v := by
      rcases Nat.mod_two_eq_zero_or_one (v + m) with h | h <;> simp [h] <;> omega
    rw [this]
    exact Reads.ret _

theorem getUniform_lt {n : Nat} (hn : 1 < n) (s : BitSt) : ((getUniform n).run s).1 < n := by
  obtain ⟨h1, h2⟩ := log2_bounds (n := n) (by omega)
  unfold getUniform
  simp only [Nat.add_sub_cancel, run_bind]
  have e : ((getBits (Nat.log2 n)).run s) = (bitsVal (s.peek (Nat.log2 n)), s.advance (Nat.log2 n)) := rfl
  rw [e]
  have hlt := bitsVal_lt (s.peek (Nat.log2 n))
  rw [peek_length] at hlt
  simp only
  rw [Nat.pow_succ] at h2 ⊢
  split
  · simp only [run_ret]; omega
  · rw [run_bind]
    generalize s.advance (Nat.log2 n) = s'
    have e : (getBit.run s') = (bitsVal (s'.peek 1), s'.advance 1) := rfl
    rw [e]
    have hlt2 := bitsVal_lt (s'.peek 1)
    rw [peek_length] at hlt2
    simp only [run_ret]
    omega

theorem reads_vlcLoop (z : Nat) : ∀ (nb x : Nat), nb + 1 + z < 32 → x < 2 ^ (nb + 1 + z) →
    Reads (vlcLoop nb) (2 ^ (nb + 1 + z) - 1 + x)
      (List.replicate z false ++ [true] ++ natBits (nb + 1 + z) x) := by
  induction z with
  | zero =>
    intro nb x h hx
    rw [vlcLoop, if_neg (by omega)]
    simp only [List.replicate_zero, List.nil_append]
    refine (reads_getBit true).bind ?_
    simp only [Bool.toNat_true, one_ne_zero, if_false]
    rw [← List.append_nil (natBits _ _)]
    exact (reads_getBits hx).bind (Reads.ret _)
  | succ z ih =>
    intro nb x h hx
    rw [vlcLoop, if_neg (by omega)]
    have := ih (nb + 1) x (by omega) (by rwa [show nb + 1 + 1 + z = nb + 1 + (z + 1) by ring])
    rw [show nb + 1 + 1 + z = nb + 1 + (z + 1) by ring] at this
    rw [List.replicate_succ, List.cons_append, List.cons_append]
    exact (reads_getBit false).bind this

theorem reads_getVlc {v : Nat} (h : v < 2 ^ 32 - 1) : Reads getVlc v (uvlcBits v) := by
  obtain ⟨h1, h2⟩ := log2_bounds (n := v + 1) (by omega)
  unfold getVlc uvlcBits
  simp only
  have h32 : Nat.log2 (v + 1) < 32 := by
    rw [Nat.log2_lt (by omega)]; omega
  rcases hz : Nat.log2 (v + 1) with _ | z
  · rw [hz] at h2
    have : v = 0 := by simp at h2; omega
    subst this
    refine (reads_getBit true).bind (w' := natBits 0 _) ?_
    exact Reads.ret 0
  · rw [hz] at h1 h2 h32
    rw [List.replicate_succ, List.cons_append, List.cons_append]
    refine (reads_getBit false).bind (w' := List.replicate z false ++ [true] ++ natBits (z + 1) (v + 1 - 2 ^ (z + 1))) ?_
    simp only [Bool.toNat_false, ne_eq, not_true_eq_false, if_false]
    have := reads_vlcLoop z 0 (v + 1 - 2 ^ (z + 1)) (by omega) (by rw [show 0 + 1 + z = z + 1 by ring]; omega)
    rw [show 0 + 1 + z = z + 1 by ring] at this
    have e : 2 ^ (z + 1) - 1 + (v + 1 - 2 ^ (z + 1)) = v := by
      have := Nat.two_pow_pos (z + 1); omega
    rwa [e] at this

theorem invRecenter_recenter (r x : Nat) : invRecenter r (recenter r x) = x := by
  unfold invRecenter recenter
  split_ifs <;> omega

theorem invRecenter_le {r v n : Nat} (hv : v ≤ n) (hr : r * 2 ≤ n) : invRecenter r v ≤ n := by
  unfold invRecenter
  split_ifs <;> omega

theorem recenter_le {r x n : Nat} (hx : x ≤ n) (hr : r * 2 ≤ n) : recenter r x ≤ n := by
  unfold recenter
  split_ifs <;> omega

theorem reads_subexpLoop (n v : Nat) (hv : v ≤ n) (fuel : Nat) : ∀ (mk i : Nat), mk ≤ v → mk < n → n < mk + fuel →
    Reads (subexpLoop n mk i) v (subexpBits (n + 1) v fuel mk i) := by
  induction fuel with
  | zero => intros; omega
  | succ fuel ih =>
    intro mk i h1 h2 h3
    rw [subexpLoop, subexpBits]
    have hp := Nat.two_pow_pos (subexpB i)
    have hsb : (if i = 0 then 3 else 3 + i - 1) = subexpB i := rfl
    simp only [hsb]
    by_cases hc : n < mk + 3 * 2 ^ subexpB i
    · rw [dif_pos hc, if_pos (by omega), ← List.append_nil (nsBits _ _)]
      have := reads_getUniform (n := n - mk + 1) (v := v - mk) (by omega) (by omega)
      rw [show n + 1 - mk = n - mk + 1 by omega]
      refine this.bind ?_
      rw [Nat.add_sub_cancel' h1]
      exact Reads.ret _
    · rw [dif_neg hc, if_neg (by omega)]
      by_cases hc2 : v < mk + 2 ^ subexpB i
      · rw [if_pos hc2]
        refine (reads_getBit false).bind (w' := natBits _ _) ?_
        simp only [Bool.toNat_false, if_true]
        rw [← List.append_nil (natBits _ _)]
        refine (reads_getBits (v := v - mk) (by omega)).bind ?_
        rw [Nat.add_sub_cancel' h1]
        exact Reads.ret _
      · rw [if_neg hc2]
        refine (reads_getBit true).bind (w' := subexpBits _ _ _ _ _) ?_
        simp only [Bool.toNat_true, one_ne_zero, if_false]
        exact ih _ _ (by omega) (by omega) (by omega)

theorem subexpLoop_le (n : Nat) (k : Nat) : ∀ (mk i : Nat) (s : BitSt), n - mk = k → mk < n →
    ((subexpLoop n mk i).run s).1 ≤ n := by
  induction k using Nat.strong_induction_on with
  | _ k ih =>
    intro mk i s hk h
    have hp := Nat.two_pow_pos (subexpB i)
    rw [subexpLoop]
    by_cases hc : n < mk + 3 * 2 ^ subexpB i
    · rw [dif_pos hc, run_bind]
      have := getUniform_lt (n := n - mk + 1) (by omega) s
      simp only [run_ret]; omega
    · rw [dif_neg hc, run_bind]
      split
      · rw [run_bind]
        generalize (getBit.run s).2 = s'
        have e : ((getBits (subexpB i)).run s') = (bitsVal (s'.peek (subexpB i)), s'.advance (subexpB i)) := rfl
        rw [e]
        have hlt := bitsVal_lt (s'.peek (subexpB i))
        rw [peek_length] at hlt
        simp only [run_ret]; omega
      · exact ih (n - (mk + 2 ^ subexpB i)) (by omega) _ _ _ rfl (by omega)

theorem reads_getSubexpU {n ref x : Nat} (hn : 0 < n) (he : n % 2 = 0) (hr : ref ≤ n) (hx : x ≤ n) :
    Reads (getSubexpU ref n) x (subexpRefBits (n + 1) ref x) := by
  unfold getSubexpU subexpRefBits
  simp only [Nat.add_sub_cancel]
  rw [← List.append_nil (subexpBits _ _ _ _ _)]
  by_cases hc : ref * 2 ≤ n
  · rw [if_pos (by omega)]
    refine (reads_subexpLoop n (recenter ref x) (recenter_le hx hc) (n + 1 + 1) 0 0 (by omega) hn (by omega)).bind ?_
    simp only [if_pos hc, invRecenter_recenter]
    exact Reads.ret _
  · rw [if_neg (by omega)]
    refine (reads_subexpLoop n (recenter (n - ref) (n - x)) (recenter_le (by omega) (by omega)) (n + 1 + 1) 0 0 (by omega) hn (by omega)).bind ?_
    simp only [if_neg hc, invRecenter_recenter]
    rw [show n - (n - x) = x by omega]
    exact Reads.ret _

theorem getSubexpU_le {n ref : Nat} (hn : 0 < n) (s : BitSt) :
    ((getSubexpU ref n).run s).1 ≤ n := by
  unfold getSubexpU
  rw [run_bind]
  have := subexpLoop_le n _ 0 0 s rfl hn
  simp only [run_ret]
  split
  · exact invRecenter_le this (by assumption)
  · omega

theorem wf_getBits {n : Nat} (h : 0 < n) (h32 : n ≤ 32) : (getBits n).WF := ⟨h, h32, fun _ _ => trivial⟩
theorem wf_getSBits {n : Nat} (h : 0 < n) (h32 : n ≤ 32) : (getSBits n).WF := ⟨h, h32, fun _ _ _ => trivial⟩
theorem wf_getBit : getBit.WF := fun _ _ => trivial
theorem wf_getFlag : getFlag.WF := fun _ _ => trivial
theorem wf_ret {α : Type} (a : α) : (ret a).WF := trivial

theorem wf_uleb128Loop (n : Nat) : ∀ val i, 56 - i = n → (uleb128Loop val i).WF := by
  induction n using Nat.strong_induction_on with
  | _ n ih =>
    intro val i hn
    rw [uleb128Loop]
    refine wf_bind (wf_getBits (by omega) (by omega)) (fun v => ?_)
    simp only
    split
    · exact ih (56 - (i + 7)) (by omega) _ _ rfl
    · exact wf_ret _

theorem wf_getUleb128 : getUleb128.WF := by
  unfold getUleb128
  refine wf_bind (wf_uleb128Loop _ _ _ rfl) (fun ⟨val, more⟩ => ?_)
  simp only
  split
  · exact wf_bind (p := raise) trivial (fun _ => wf_ret _)
  · exact wf_ret _

theorem wf_getUniform {n : Nat} (h : 1 < n) (h32 : n < 2 ^ 32) : (getUniform n).WF := by
  unfold getUniform
  have h1 : Nat.log2 n < 32 := (Nat.log2_lt (by omega)).2 h32
  have h2 : 1 ≤ Nat.log2 n := (Nat.le_log2 (by omega)).2 (by omega)
  refine wf_bind (wf_getBits (by omega) (by omega)) (fun v => ?_)
  split
  · exact wf_ret _
  · exact wf_bind wf_getBit (fun _ => wf_ret _)

theorem wf_vlcLoop (n : Nat) : ∀ nb, 32 - nb = n → (vlcLoop nb).WF := by
  induction n using Nat.strong_induction_on with
  | _ n ih =>
    intro nb hn
    rw [vlcLoop]
    split
    · exact wf_ret _
    · refine wf_bind wf_getBit (fun v => ?_)
      split
      · exact ih (32 - (nb + 1)) (by omega) _ rfl
      · exact wf_bind (wf_getBits (by omega) (by omega)) (fun _ => wf_ret _)

theorem wf_getVlc : getVlc.WF := by
  unfold getVlc
  refine wf_bind wf_getBit (fun v => ?_)
  split
  · exact wf_ret _
  · exact wf_vlcLoop _ _ rfl

theorem wf_subexpLoop (n : Nat) (h32 : n < 2 ^ 31) (k : Nat) : ∀ mk i, n - mk = k → mk < n →
    (subexpLoop n mk i).WF := by
  induction k using Nat.strong_induction_on with
  | _ k ih =>
    intro mk i hk h
    have hp := Nat.two_pow_pos (subexpB i)
    rw [subexpLoop]
    split
    · exact wf_bind (wf_getUniform (by omega) (by omega)) (fun _ => wf_ret _)
    · rename_i hc
      refine wf_bind wf_getBit (fun v => ?_)
      split
      · have : subexpB i < 31 := by
          by_contra hcc
          have : 2 ^ 31 ≤ 2 ^ subexpB i := Nat.pow_le_pow_right (by omega) (by omega)
          omega
        have : 0 < subexpB i := by unfold subexpB; split <;> omega
        exact wf_bind (wf_getBits (by omega) (by omega)) (fun _ => wf_ret _)
      · exact ih (n - (mk + 2 ^ subexpB i)) (by omega) _ _ rfl (by omega)

theorem wf_getSubexp (ref : Int) {n : Nat} (hn : n < 30) : (getSubexp ref n).WF := by
  unfold getSubexp getSubexpU
  have : 2 ^ n ≤ 2 ^ 29 := Nat.pow_le_pow_right (by omega) (by omega)
  have := Nat.two_pow_pos n
  exact wf_bind (wf_bind (wf_subexpLoop _ (by omega) _ _ _ rfl (by omega)) (fun _ => wf_ret _)) (fun _ => wf_ret _)

end Prog
end Dav1d
