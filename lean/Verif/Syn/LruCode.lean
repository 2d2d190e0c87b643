import Verif.Syn.LruModel
import Verif.Syn.LruSpec
/-!
# The codes for numbers
-/
set_option linter.unusedSimpArgs false
set_option linter.unnecessarySeqFocus false
namespace Dav1d.Syn.Lru
variable {ok : Req → Nat → Prop}

theorem bind_congr' {α β : Type} {p : Prog α} {f g : α → Prog β} (h : ∀ a, f a = g a) : p >>= f = p >>= g := by rw [funext h]

theorem boolsAcc_eq : ∀ (n v : Nat), boolsAcc n v = Av1.L n >>= fun x => pure (v * 2 ^ n + x)
  | 0, v => by
    unfold boolsAcc Av1.L
    rw [pure_bind']; simp
  | n + 1, v => by
    unfold boolsAcc Av1.L
    rw [bind_assoc']
    refine bind_congr' fun b => ?_
    rw [boolsAcc_eq n, bind_assoc']
    refine bind_congr' fun x => ?_
    rw [pure_bind']
    congr 1
    rw [Nat.pow_succ, Nat.add_mul]
    rw [show v * (2 ^ n * 2) = 2 * v * 2 ^ n from by rw [Nat.mul_comm (2 ^ n) 2, ← Nat.mul_assoc, Nat.mul_comm v 2]]
    omega

theorem bools_eq (n : Nat) : bools n = Av1.L n := by
  unfold bools
  rw [boolsAcc_eq]
  simp only [Nat.zero_mul, Nat.zero_add]
  exact bind_pure' _

theorem L_one : Av1.L 1 = bit >>= fun b => pure b.toNat := by
  unfold Av1.L Av1.L
  refine bind_congr' fun b => ?_
  rw [pure_bind']; simp

theorem L_snoc : ∀ n : Nat, Av1.L (n + 1) = Av1.L n >>= fun x => Av1.L 1 >>= fun e => pure (2 * x + e)
  | 0 => by
    rw [show Av1.L 0 = pure 0 from rfl, pure_bind']
    simp only [Nat.mul_zero, Nat.zero_add]
    exact (bind_pure' _).symm
  | n + 1 => by
    rw [show Av1.L (n + 1 + 1) = bit >>= fun b => Av1.L (n + 1) >>= fun x => pure (b.toNat * 2 ^ (n + 1) + x) from rfl]
    conv => rhs; rw [show Av1.L (n + 1) = bit >>= fun b => Av1.L n >>= fun x => pure (b.toNat * 2 ^ n + x) from rfl]
    rw [bind_assoc']
    refine bind_congr' fun b => ?_
    rw [L_snoc n, bind_assoc', bind_assoc']
    refine bind_congr' fun x => ?_
    rw [bind_assoc', pure_bind']
    refine bind_congr' fun e => ?_
    rw [pure_bind']
    congr 1
    rw [Nat.pow_succ]
    cases b <;> simp <;> omega

theorem L_congr {α : Type} : ∀ (n : Nat) {f g : Nat → Prog α}, (∀ x, x < 2 ^ n → f x = g x) → Av1.L n >>= f = Av1.L n >>= g
  | 0, f, g, h => h 0 (by simp)
  | n + 1, f, g, h => by
    unfold Av1.L
    rw [bind_assoc', bind_assoc']
    refine bind_congr' fun b => ?_
    rw [bind_assoc', bind_assoc']
    refine L_congr n fun x hx => ?_
    rw [pure_bind', pure_bind']
    refine h _ ?_
    rw [Nat.pow_succ]
    cases b <;> simp <;> omega

theorem L_same (n : Nat) : Same ok (fun a b => a = b ∧ a < 2 ^ n) (Av1.L n) (Av1.L n) := by
  have h : Av1.L n = Av1.L n >>= fun x => if x < 2 ^ n then pure x else pure 0 := by
    conv => lhs; rw [← bind_pure' (Av1.L n)]
    refine L_congr n fun x hx => ?_
    rw [if_pos hx]
  rw [h]
  refine Same.bind (R := Eq) (Same.refl (fun _ => rfl) _) fun a b hab => ?_
  subst hab
  by_cases ha : a < 2 ^ n
  · rw [if_pos ha]; exact Same.ret ⟨rfl, ha⟩
  · rw [if_neg ha]; exact Same.ret ⟨rfl, Nat.two_pow_pos n⟩

/-- The code of both, for `n = 8 * 2 ^ k`. -/
def tree (k : Nat) : Prog Nat :=
  bit >>= fun b0 => if b0 = false then Av1.L k else
  bit >>= fun b1 => if b1 = false then Av1.L k >>= fun x => pure (x + 2 ^ k) else
  bit >>= fun b2 => Av1.L (k + b2.toNat + 1) >>= fun x => pure (x + 2 ^ (k + b2.toNat + 1))

theorem NS_six (k : Nat) : Av1.NS (6 * 2 ^ k) = bit >>= fun b2 => Av1.L (k + b2.toNat + 1) >>= fun x => pure (x + (2 ^ (k + b2.toNat + 1) - 2 * 2 ^ k)) := by
  have hp := Nat.two_pow_pos k
  have e1 : 2 ^ (k + 1) = 2 * 2 ^ k := by rw [Nat.pow_succ]; omega
  have e2 : 2 ^ (k + 2) = 4 * 2 ^ k := by rw [Nat.pow_succ, e1]; omega
  have e3 : 2 ^ (k + 3) = 8 * 2 ^ k := by rw [Nat.pow_succ, e2]; omega
  have hl : Nat.log2 (6 * 2 ^ k) = k + 2 := by
    rw [Nat.log2_eq_iff (by omega)]
    constructor <;> omega
  unfold Av1.NS
  rw [hl]
  dsimp only
  rw [show k + 2 + 1 - 1 = k + 1 + 1 from rfl, show k + 2 + 1 = k + 3 from rfl, show Av1.L (k + 1 + 1) = bit >>= fun b => Av1.L (k + 1) >>= fun x => pure (b.toNat * 2 ^ (k + 1) + x) from rfl,
    bind_assoc']
  refine bind_congr' fun b => ?_
  rw [bind_assoc']
  cases b with
  | false =>
    refine L_congr (k + 1) fun x hx => ?_
    rw [pure_bind', if_pos (by simp; omega)]
    congr 1
    simp; omega
  | true =>
    rw [show k + true.toNat + 1 = k + 1 + 1 from rfl, L_snoc (k + 1), bind_assoc']
    refine bind_congr' fun x => ?_
    rw [pure_bind', if_neg (by simp; omega), bind_assoc']
    refine bind_congr' fun e => ?_
    rw [pure_bind']
    congr 1
    rw [show k + 1 + 1 = k + 2 from rfl]
    simp; omega

theorem decode_eq (k fuel : Nat) : Av1.decode_subexp_bool (8 * 2 ^ k) k (fuel + 3) 0 0 = tree k := by
  have hp := Nat.two_pow_pos k
  have e1 : 2 ^ (k + 1) = 2 * 2 ^ k := by rw [Nat.pow_succ]; omega
  have e2 : 2 ^ (k + 2) = 4 * 2 ^ k := by rw [Nat.pow_succ, e1]; omega
  unfold Av1.decode_subexp_bool tree
  dsimp only
  rw [if_neg (by simp only [ne_eq, not_true_eq_false, if_false]; omega), L_one, bind_assoc']
  refine bind_congr' fun b0 => ?_
  rw [pure_bind']
  cases b0 with
  | false =>
    rw [if_neg (by decide), if_pos rfl]
    simp only [Nat.add_zero]
    exact bind_pure' _
  | true =>
    rw [if_pos (by decide), if_neg (by decide)]
    unfold Av1.decode_subexp_bool
    dsimp only
    rw [if_neg (by simp; omega), L_one, bind_assoc']
    refine bind_congr' fun b1 => ?_
    rw [pure_bind']
    cases b1 with
    | false =>
      rw [if_neg (show ¬ (false.toNat = 1) from by decide), if_pos rfl]
      simp
    | true =>
      rw [if_pos (by decide), if_neg (show ¬ (true = false) from by decide)]
      unfold Av1.decode_subexp_bool
      dsimp only
      simp only [ne_eq, not_true_eq_false, if_false, Nat.zero_add, Nat.add_sub_cancel, if_true, show ¬ (1 + 1 = 0) from by decide, not_false_eq_true, show ¬ (1 = 0) from by decide,
        show k + (1 + 1) - 1 = k + 1 from rfl, e1]
      rw [if_pos (by omega), show 8 * 2 ^ k - (2 ^ k + 2 ^ k) = 6 * 2 ^ k from by omega, NS_six, bind_assoc']
      refine bind_congr' fun b2 => ?_
      rw [bind_assoc']
      refine bind_congr' fun x => ?_
      rw [pure_bind']
      congr 1
      cases b2 with
      | false => simp only [Bool.toNat_false, Nat.add_zero]; omega
      | true => simp only [Bool.toNat_true]; rw [show k + 1 + 1 = k + 2 from rfl]; omega

theorem tree_same (k : Nat) : Same ok (fun a b => a = b ∧ a < 8 * 2 ^ k) (tree k) (tree k) := by
  have hp := Nat.two_pow_pos k
  have e1 : 2 ^ (k + 1) = 2 * 2 ^ k := by rw [Nat.pow_succ]; omega
  have e2 : 2 ^ (k + 2) = 4 * 2 ^ k := by rw [Nat.pow_succ, e1]; omega
  unfold tree
  refine Same.bind bit_same fun b0 b0' h0 => ?_
  subst h0
  refine Same.ite Iff.rfl (fun _ => (L_same k).mono fun a b h => ⟨h.1, by omega⟩) fun _ => ?_
  refine Same.bind bit_same fun b1 b1' h1 => ?_
  subst h1
  refine Same.ite Iff.rfl (fun _ => Same.bind (L_same k) fun a b h => Same.ret ⟨by rw [h.1], by omega⟩) fun _ => ?_
  refine Same.bind bit_same fun b2 b2' h2 => ?_
  subst h2
  refine Same.bind (L_same _) fun a b h => Same.ret ⟨by rw [h.1], ?_⟩
  cases b2 with
  | false => simp only [Bool.toNat_false, Nat.add_zero] at h ⊢; omega
  | true => simp only [Bool.toNat_true] at h ⊢; rw [show k + 1 + 1 = k + 2 from rfl] at h ⊢; omega

theorem subexp_eq {ref : Int} {n k : Nat} (h : 0 ≤ ref ∧ ref < n) : subexp ref n k = tree k >>= fun v =>
    pure (if ref.toNat * 2 ≤ n then (invRecenter ref.toNat v : Int) else ((n - 1 - invRecenter (n - 1 - ref.toNat) v : Nat) : Int)) := by
  unfold subexp tree
  dsimp only
  rw [if_neg (by omega), bind_assoc']
  refine bind_congr' fun b0 => ?_
  cases b0 with
  | false => rw [if_pos rfl, if_pos rfl, bools_eq]; rfl
  | true =>
    rw [if_neg (by decide), if_neg (by decide), bind_assoc']
    refine bind_congr' fun b1 => ?_
    cases b1 with
    | false => rw [if_pos rfl, if_pos rfl, bools_eq, bind_assoc']; rfl
    | true =>
      rw [if_neg (by decide), if_neg (by decide), bind_assoc']
      refine bind_congr' fun b2 => ?_
      rw [bools_eq, bind_assoc']; rfl

theorem recenter_eq (r v : Nat) : invRecenter r v = Av1.inverse_recenter r v := by
  unfold invRecenter Av1.inverse_recenter
  by_cases h : 2 * r < v
  · rw [if_pos h, if_pos h]
  · rw [if_neg h, if_neg h]
    by_cases h2 : v % 2 = 0
    · rw [if_pos h2, if_neg (by omega)]; omega
    · rw [if_neg h2, if_pos (by omega)]

theorem recenter_lt {r v n : Nat} (h : 2 * r ≤ n) (hv : v < n) : Av1.inverse_recenter r v < n := by
  unfold Av1.inverse_recenter
  split
  · exact hv
  · split <;> omega

/-- A number of a unit. -/
theorem coef_same {ref off lo hi : Int} {n k : Nat} (hn : n = 8 * 2 ^ k) (h3 : 3 ≤ n) (h1 : off = -lo) (h2 : hi - lo = n) (h4 : -128 ≤ lo ∧ hi ≤ 128) (hr : lo ≤ ref ∧ ref < hi) :
    Same ok (fun a b => a = b ∧ lo ≤ a ∧ a < hi) (coef ref off n k) (Av1.decode_signed_subexp_with_ref_bool lo hi k ref) := by
  subst h1
  unfold coef Av1.decode_signed_subexp_with_ref_bool Av1.decode_unsigned_subexp_with_ref_bool
  obtain ⟨m, rfl⟩ : ∃ m, n = m + 3 := ⟨n - 3, by omega⟩
  rw [show (hi - lo).toNat = m + 3 from by omega, subexp_eq (by omega)]
  rw [show Av1.decode_subexp_bool (m + 3) k (m + 3) 0 0 = tree k from by rw [show Av1.decode_subexp_bool (m + 3) k = Av1.decode_subexp_bool (8 * 2 ^ k) k from by rw [hn]]; exact decode_eq k m]
  rw [bind_assoc', bind_assoc']
  refine Same.bind (tree_same k) fun v v' hv => ?_
  obtain ⟨rfl, hv⟩ := hv
  rw [pure_bind', pure_bind', show (ref + -lo).toNat = (ref - lo).toNat from by omega]
  rw [← hn] at hv
  generalize hR : (ref - lo).toNat = r
  have hrn : r < m + 3 := by omega
  by_cases hc : 2 * r ≤ m + 3
  · rw [if_pos (by omega), if_pos hc, recenter_eq]
    have := recenter_lt hc hv
    refine Same.ret ⟨?_, ?_, ?_⟩ <;> unfold i8 <;> omega
  · rw [if_neg (by omega), if_neg hc, recenter_eq]
    have := recenter_lt (r := m + 3 - 1 - r) (v := v) (n := m + 3) (by omega) hv
    refine Same.ret ⟨?_, ?_, ?_⟩ <;> unfold i8 <;> omega

end Dav1d.Syn.Lru
