import Verif.Coef.Rel
/-!
# The word arithmetic on the contexts of neighbouring blocks
-/
namespace Dav1d.Coef
open Itx (Tx TxClass)

theorem and63 (x : Nat) : x &&& 63 = x % 64 := Nat.and_two_pow_sub_one_eq_mod x 6

/-! ### Loads -/

theorem testBit_load {p : Nat → Nat} (hp : ∀ k, p k < 256) : ∀ n off j,
    (load p off n).testBit j = (decide (j < 8 * n) && (p (off + j / 8)).testBit (j % 8))
  | 0, off, j => by simp [load]
  | n + 1, off, j => by
    rw [load, Nat.add_comm, show 256 = 2 ^ 8 from rfl, Nat.testBit_two_pow_mul_add _ (hp off)]
    split
    · next h =>
      rw [Nat.div_eq_of_lt h, Nat.mod_eq_of_lt h]
      simp; omega
    · next h =>
      rw [testBit_load hp n (off + 1) (j - 8)]
      have e1 : off + 1 + (j - 8) / 8 = off + j / 8 := by omega
      have e2 : (j - 8) % 8 = j % 8 := by omega
      have e3 : (j - 8 < 8 * n) = (j < 8 * (n + 1)) := by apply propext; omega
      rw [e1, e2]; simp only [e3]

/-- Union of the bits of `p 0` to `p (n - 1)`. -/
def orTo (p : Nat → Nat) : Nat → Nat
  | 0 => 0
  | n + 1 => orTo p n ||| p n

theorem orTo_mod_lt (p : Nat → Nat) (m : Nat) (hm : m ≤ 6) : ∀ n, orTo p n % 64 < 2 ^ m ↔ ∀ k, k < n → p k % 64 < 2 ^ m
  | 0 => by simp only [orTo]; exact ⟨fun _ k hk => absurd hk (Nat.not_lt_zero k), fun _ => Nat.two_pow_pos m⟩
  | n + 1 => by
    have e : orTo p (n + 1) % 64 = orTo p n % 64 ||| p n % 64 := by
      rw [orTo, ← and63, ← and63, ← and63, Nat.and_or_distrib_right]
    have h : orTo p (n + 1) % 64 < 2 ^ m ↔ orTo p n % 64 < 2 ^ m ∧ p n % 64 < 2 ^ m := by
      rw [e]
      exact ⟨fun h => ⟨Nat.lt_of_le_of_lt Nat.left_le_or h, Nat.lt_of_le_of_lt Nat.right_le_or h⟩,
        fun h => Nat.or_lt_two_pow h.1 h.2⟩
    rw [h, orTo_mod_lt p m hm n]
    constructor
    · intro h k hk
      by_cases e : k = n
      · subst e; exact h.2
      · exact h.1 k (by omega)
    · intro h; exact ⟨fun k hk => h k (by omega), h n (by omega)⟩

theorem testBit_mod64 (x : Nat) (j : Nat) : (x % 64).testBit j = (decide (j < 6) && x.testBit j) := by
  rw [show 64 = 2 ^ 6 from rfl, Nat.testBit_mod_two_pow]

theorem lumaMerge_eq {p : Nat → Nat} (hp : ∀ k, p k < 256) {lw : Nat} (h : lw ≤ 4) :
    ∃ x, lumaMerge p lw = some x ∧ x &&& 63 = orTo p (2 ^ lw) % 64 := by
  have t := testBit_load hp
  have t32 : ∀ x i, (x % 4294967296).testBit i = (decide (i < 32) && x.testBit i) := fun x i => Nat.testBit_mod_two_pow x 32 i
  rcases (show lw = 0 ∨ lw = 1 ∨ lw = 2 ∨ lw = 3 ∨ lw = 4 by omega) with e | e | e | e | e <;> subst e
  all_goals
    refine ⟨_, rfl, ?_⟩
    rw [and63]
    apply Nat.eq_of_testBit_eq
    intro j
    rw [testBit_mod64, testBit_mod64]
    by_cases hj : j < 6
    case neg => simp [hj]
    have a0 : j / 8 = 0 := by omega
    have a1 : (8 + j) / 8 = 1 := by omega
    have a2 : (16 + j) / 8 = 2 := by omega
    have a3 : (24 + j) / 8 = 3 := by omega
    have a4 : (32 + j) / 8 = 4 := by omega
    have a5 : (40 + j) / 8 = 5 := by omega
    have a6 : (48 + j) / 8 = 6 := by omega
    have a7 : (56 + j) / 8 = 7 := by omega
    have b0 : j % 8 = j := by omega
    have b1 : (8 + j) % 8 = j := by omega
    have b2 : (16 + j) % 8 = j := by omega
    have b3 : (24 + j) % 8 = j := by omega
    have b4 : (32 + j) % 8 = j := by omega
    have b5 : (40 + j) % 8 = j := by omega
    have b6 : (48 + j) % 8 = j := by omega
    have b7 : (56 + j) % 8 = j := by omega
    have c0 : j < 8 := by omega
    have c00 : j < 32 := by omega
    have c01 : j < 16 := by omega
    have c02 : j < 64 := by omega
    have c1 : 8 + j < 16 := by omega
    have c2 : 8 + j < 32 := by omega
    have c3 : 16 + j < 32 := by omega
    have c4 : 24 + j < 32 := by omega
    have d1 : 8 + j < 64 := by omega
    have d2 : 16 + j < 64 := by omega
    have d3 : 24 + j < 64 := by omega
    have d4 : 32 + j < 64 := by omega
    have d5 : 40 + j < 64 := by omega
    have d6 : 48 + j < 64 := by omega
    have d7 : 56 + j < 64 := by omega
    have e1 : 16 + (8 + j) = 24 + j := by omega
    have e2 : 32 + (8 + j) = 40 + j := by omega
    have e3 : 32 + (16 + j) = 48 + j := by omega
    have e4 : 32 + (24 + j) = 56 + j := by omega
    simp only [orTo, Nat.testBit_or, Nat.testBit_shiftRight, t32, t, hj, a0, a1, a2, a3, a4, a5, a6, a7,
      b0, b1, b2, b3, b4, b5, b6, b7, c0, c00, c01, c02, c1, c2, c3, c4, d1, d2, d3, d4, d5, d6, d7, e1, e2, e3, e4,
      Nat.zero_testBit, decide_true, Bool.true_and, Bool.false_or, Nat.reducePow, Nat.reduceMul, Nat.reduceAdd,
      Nat.zero_add]
    try simp only [Bool.or_assoc, Bool.or_comm, Bool.or_left_comm]

theorem chromaMerge_eq {p : Nat → Nat} (hp : ∀ k, p k < 256) {lw : Nat} (h : lw ≤ 3) :
    chromaMerge p lw = some (if (List.range (2 ^ lw)).any (fun k => decide (p k ≠ 64)) then 1 else 0) := by
  have h0 := hp 0; have h1 := hp 1; have h2 := hp 2; have h3 := hp 3
  have h4 := hp 4; have h5 := hp 5; have h6 := hp 6; have h7 := hp 7
  rcases (show lw = 0 ∨ lw = 1 ∨ lw = 2 ∨ lw = 3 by omega) with e | e | e | e <;> subst e <;>
    simp only [chromaMerge, load, Nat.reduceAdd, Nat.reducePow, List.range, List.range.loop, List.any_cons, List.any_nil,
      Bool.or_false, Bool.or_eq_true, decide_eq_true_eq, Option.some.injEq] <;>
    congr 1 <;> apply propext <;> omega

theorem lt_top {p : Nat → Nat} (h : ∀ k, p k < 192) : ∀ k, p k < 256 := fun k => Nat.lt_trans (h k) (by omega)

theorem ctxOf_ne {n : Nat} (h : n < 192) : ((ctxOf n).level != 0 || (ctxOf n).cat != 0) = decide (n ≠ 64) := by
  have : ∀ n ∈ List.range 192, ((ctxOf n).level != 0 || (ctxOf n).cat != 0) = decide (n ≠ 64) := by decide +kernel
  exact this n (List.mem_range.2 h)

theorem catSign_ctxOf {n : Nat} (h : n < 192) : Spec.catSign (ctxOf n).cat = (n / 64 : Nat) - 1 := by
  have : ∀ n ∈ List.range 192, Spec.catSign (ctxOf n).cat = (n / 64 : Nat) - 1 := by decide +kernel
  exact this n (List.mem_range.2 h)

/-! ### The context of `all_zero` -/

theorem skipTab_eq {i j : Nat} (hi : i < 5) (hj : j < 5) : (skipTab.getD i [])[j]? = some
    (if i = 0 ∧ j = 0 then 1 else if i = 0 ∨ j = 0 then 2 + (if max i j > 3 then 1 else 0)
      else if max i j ≤ 3 then 4 else if min i j ≤ 3 then 5 else 6) := by
  have : ∀ i ∈ List.range 5, ∀ j ∈ List.range 5, (skipTab.getD i [])[j]? = some
    (if i = 0 ∧ j = 0 then 1 else if i = 0 ∨ j = 0 then 2 + (if max i j > 3 then 1 else 0)
      else if max i j ≤ 3 then 4 else if min i j ≤ 3 then 5 else 6) := by decide +kernel
  exact this i (List.mem_range.2 hi) j (List.mem_range.2 hj)

theorem foldMax_lt (f : Nat → Nat) (m : Nat) : ∀ (n t : Nat),
    (List.range n).foldl (fun t k => max t (f k)) t < m ↔ t < m ∧ ∀ k, k < n → f k < m
  | 0, t => by simp
  | n + 1, t => by
    rw [List.range_succ, List.foldl_append, List.foldl_cons, List.foldl_nil, Nat.max_lt, foldMax_lt f m n t]
    constructor
    · rintro ⟨⟨h1, h2⟩, h3⟩
      refine ⟨h1, fun k hk => ?_⟩
      by_cases e : k = n
      · subst e; exact h3
      · exact h2 k (by omega)
    · rintro ⟨h1, h2⟩
      exact ⟨⟨h1, fun k hk => h2 k (by omega)⟩, h2 n (by omega)⟩

theorem tx_w4 (tx : Tx) : tx.w / 4 = 2 ^ dim tx 2 ∧ tx.h / 4 = 2 ^ dim tx 3 ∧ dim tx 2 ≤ 4 ∧ dim tx 3 ≤ 4 ∧
    tx.w = 4 * 2 ^ dim tx 2 ∧ tx.h = 4 * 2 ^ dim tx 3 := by
  cases tx <;> decide

theorem bs_pix {bs : Nat} (h : bs < 22) : (bsPix bs).1 = 4 * 2 ^ bdim bs 2 ∧ (bsPix bs).2 = 4 * 2 ^ bdim bs 3 ∧
    bdim bs 2 ≤ 5 ∧ bdim bs 3 ≤ 5 := by
  have : ∀ bs ∈ List.range 22, (bsPix bs).1 = 4 * 2 ^ bdim bs 2 ∧ (bsPix bs).2 = 4 * 2 ^ bdim bs 3 ∧
    bdim bs 2 ≤ 5 ∧ bdim bs 3 ≤ 5 := by decide +kernel
  exact this bs (List.mem_range.2 h)

theorem sz_ctx (tx : Tx) : (Nat.log2 (min tx.w tx.h) - 2 + (Nat.log2 (max tx.w tx.h) - 2) + 1) / 2 = dim tx 7 ∧
    Nat.log2 (min tx.w tx.h) - 2 = dim tx 4 ∧ Nat.log2 (max tx.w tx.h) - 2 = dim tx 5 := by
  cases tx <;> decide +kernel

/-- Merging the levels by bits and taking their maximum leads to the same context. -/
theorem merge_ctx {o m : Nat} (h0 : o % 64 < 2 ^ 0 ↔ m < 1) (h2 : o % 64 < 2 ^ 2 ↔ m < 4) :
    (min (o % 64) 4 = 0 ↔ m = 0) ∧ (min (o % 64) 4 > 3 ↔ m > 3) := by
  constructor <;> omega

theorem pow2_inj {a b : Nat} (h : 2 ^ a = 2 ^ b) : a = b :=
  Nat.le_antisymm ((Nat.pow_le_pow_iff_right (by omega)).1 (Nat.le_of_eq h))
    ((Nat.pow_le_pow_iff_right (by omega)).1 (Nat.le_of_eq h.symm))

theorem skipCtx_eq {b : Arg} (hb : b.Ok) : skipCtx b = some (Spec.allZeroCtx b.spec) := by
  obtain ⟨w4, h4, lw, lh, ew, eh⟩ := tx_w4 b.tx
  obtain ⟨pw, ph, bw, bh⟩ := bs_pix hb.bs
  by_cases hpl : b.plane = 0
  · have hc : b.chroma = 0 := by simp [Arg.chroma, hpl]
    have e1 : b.pw = 4 * 2 ^ bdim b.bs 2 := by simp [Arg.pw, hpl, pw]
    have e2 : b.ph = 4 * 2 ^ bdim b.bs 3 := by simp [Arg.ph, hpl, ph]
    have i1 : (bdim b.bs 2 = dim b.tx 2) ↔ b.pw = b.tx.w := by
      rw [e1, ew]
      exact ⟨fun h => by rw [h], fun h => pow2_inj (by omega)⟩
    have i2 : (bdim b.bs 3 = dim b.tx 3) ↔ b.ph = b.tx.h := by
      rw [e2, eh]
      exact ⟨fun h => by rw [h], fun h => pow2_inj (by omega)⟩
    simp only [skipCtx, hc, show ¬((0 : Nat) = 1) by decide, if_false, Spec.allZeroCtx, Arg.spec, hpl, if_true]
    by_cases he : b.pw = b.tx.w ∧ b.ph = b.tx.h
    · rw [if_pos he, if_pos (by rw [i1, i2]; exact he)]
    · rw [if_neg he, if_neg (by rw [i1, i2]; exact he)]
      obtain ⟨x, hx, hxo⟩ := lumaMerge_eq (lt_top hb.a) lw
      obtain ⟨y, hy, hyo⟩ := lumaMerge_eq (lt_top hb.l) lh
      rw [hx, hy]
      dsimp only
      rw [show (0x3f : Nat) = 63 from rfl, hxo, hyo, w4, h4]
      have lev : ∀ n, (ctxOf n).level = n % 64 := fun _ => rfl
      simp only [lev]
      have mA : ∀ m, (List.range (2 ^ dim b.tx 2)).foldl (fun t k => max t (b.a k % 64)) 0 < m ↔
          0 < m ∧ ∀ k, k < 2 ^ dim b.tx 2 → b.a k % 64 < m := fun m => foldMax_lt (fun k => b.a k % 64) m _ _
      have mL : ∀ m, (List.range (2 ^ dim b.tx 3)).foldl (fun t k => max t (b.l k % 64)) 0 < m ↔
          0 < m ∧ ∀ k, k < 2 ^ dim b.tx 3 → b.l k % 64 < m := fun m => foldMax_lt (fun k => b.l k % 64) m _ _
      generalize (List.range (2 ^ dim b.tx 2)).foldl (fun t k => max t (b.a k % 64)) 0 = top at *
      generalize (List.range (2 ^ dim b.tx 3)).foldl (fun t k => max t (b.l k % 64)) 0 = left at *
      obtain ⟨a0, a3⟩ := merge_ctx (o := orTo b.a (2 ^ dim b.tx 2)) (m := top)
        (by rw [orTo_mod_lt _ 0 (by omega), mA]; simp) (by rw [orTo_mod_lt _ 2 (by omega), mA]; simp)
      obtain ⟨l0, l3⟩ := merge_ctx (o := orTo b.l (2 ^ dim b.tx 3)) (m := left)
        (by rw [orTo_mod_lt _ 0 (by omega), mL]; simp) (by rw [orTo_mod_lt _ 2 (by omega), mL]; simp)
      rw [skipTab_eq (by omega) (by omega)]
      generalize min (orTo b.a (2 ^ dim b.tx 2) % 64) 4 = o at *
      generalize min (orTo b.l (2 ^ dim b.tx 3) % 64) 4 = o' at *
      congr 1
      have q1 : (o = 0 ∧ o' = 0) ↔ (top = 0 ∧ left = 0) := by rw [a0, l0]
      have q2 : (o = 0 ∨ o' = 0) ↔ (top = 0 ∨ left = 0) := by rw [a0, l0]
      have q3 : max o o' > 3 ↔ max top left > 3 := by omega
      have q4 : max o o' ≤ 3 ↔ max top left ≤ 3 := by omega
      have q5 : min o o' ≤ 3 ↔ min top left ≤ 3 := by omega
      simp only [q1, q2, q3, q4, q5]
  · have hc : b.chroma = 1 := by simp [Arg.chroma, hpl]
    have hm := hb.uvMax hpl
    have hm1 : dim b.tx 2 ≤ 3 := by
      have := hm.1; rw [ew] at this
      rcases Nat.lt_or_ge 3 (dim b.tx 2) with h | h
      · rw [show dim b.tx 2 = 4 by omega] at this; omega
      · exact h
    have hm2 : dim b.tx 3 ≤ 3 := by
      have := hm.2; rw [eh] at this
      rcases Nat.lt_or_ge 3 (dim b.tx 3) with h | h
      · rw [show dim b.tx 3 = 4 by omega] at this; omega
      · exact h
    simp only [skipCtx, hc, if_true, Spec.allZeroCtx, Arg.spec, hpl, if_false]
    rw [chromaMerge_eq (lt_top hb.a) hm1, chromaMerge_eq (lt_top hb.l) hm2]
    dsimp only
    simp only [w4, h4, ctxOf_ne (hb.a _), ctxOf_ne (hb.l _)]
    congr 1
    have e1 : b.pw = 4 * 2 ^ (bdim b.bs 2 - (if bdim b.bs 2 ≠ 0 ∧ b.layout ≠ 3 then 1 else 0)) := by
      simp only [Arg.pw, pw, hpl, ne_eq, not_false_eq_true, true_and]
      rcases (show bdim b.bs 2 = 0 ∨ bdim b.bs 2 = 1 ∨ bdim b.bs 2 = 2 ∨ bdim b.bs 2 = 3 ∨ bdim b.bs 2 = 4 ∨ bdim b.bs 2 = 5
        by omega) with e | e | e | e | e | e <;> rw [e] <;> by_cases h3 : b.layout = 3 <;> simp [h3]
    have e2 : b.ph = 4 * 2 ^ (bdim b.bs 3 - (if bdim b.bs 3 ≠ 0 ∧ b.layout = 1 then 1 else 0)) := by
      simp only [Arg.ph, ph, hpl, ne_eq, not_false_eq_true, true_and]
      rcases (show bdim b.bs 3 = 0 ∨ bdim b.bs 3 = 1 ∨ bdim b.bs 3 = 2 ∨ bdim b.bs 3 = 3 ∨ bdim b.bs 3 = 4 ∨ bdim b.bs 3 = 5
        by omega) with e | e | e | e | e | e <;> rw [e] <;> by_cases h3 : b.layout = 1 <;> simp [h3]
    have hw := hb.fitW
    have hh := hb.fitH
    rw [e1, ew] at hw
    rw [e2, eh] at hh
    simp only [e1, e2, ew, eh]
    generalize bdim b.bs 2 - (if bdim b.bs 2 ≠ 0 ∧ b.layout ≠ 3 then 1 else 0) = x at *
    generalize bdim b.bs 3 - (if bdim b.bs 3 ≠ 0 ∧ b.layout = 1 then 1 else 0) = y at *
    have key : (x > dim b.tx 2 ∨ y > dim b.tx 3) ↔
        4 * 2 ^ x * (4 * 2 ^ y) > 4 * 2 ^ dim b.tx 2 * (4 * 2 ^ dim b.tx 3) := by
      have hw' : dim b.tx 2 ≤ x := (Nat.pow_le_pow_iff_right (by omega)).1 (by omega : 2 ^ dim b.tx 2 ≤ 2 ^ x)
      have hh' : dim b.tx 3 ≤ y := (Nat.pow_le_pow_iff_right (by omega)).1 (by omega : 2 ^ dim b.tx 3 ≤ 2 ^ y)
      have r : ∀ u v : Nat, 4 * 2 ^ u * (4 * 2 ^ v) = 2 ^ (u + v + 4) := by
        intro u v; rw [show u + v + 4 = (u + 2) + (v + 2) by omega, Nat.pow_add, Nat.pow_add, Nat.pow_add 2 v 2]
        rw [Nat.mul_comm 4, Nat.mul_comm 4]
      rw [r, r, gt_iff_lt, gt_iff_lt, gt_iff_lt, Nat.pow_lt_pow_iff_right (by omega)]
      omega
    by_cases hk : x > dim b.tx 2 ∨ y > dim b.tx 3
    · rw [if_pos hk, if_pos (key.1 hk)]; omega
    · rw [if_neg hk, if_neg (fun h => hk (key.2 h))]; omega

/-! ### The context of `dc_sign` -/

/-- `n` bytes with the upper two bits set. -/
def maskN : Nat → Nat
  | 0 => 0
  | n + 1 => 192 + 256 * maskN n

theorem and_split {a b c d : Nat} (ha : a < 256) (hc : c < 256) :
    (a + 256 * b) &&& (c + 256 * d) = (a &&& c) + 256 * (b &&& d) := by
  apply Nat.eq_of_testBit_eq
  intro j
  have hac : a &&& c < 2 ^ 8 := Nat.lt_of_le_of_lt Nat.and_le_left ha
  rw [Nat.testBit_and, Nat.add_comm a, Nat.add_comm c, Nat.add_comm (a &&& c), show 256 = 2 ^ 8 from rfl,
    Nat.testBit_two_pow_mul_add _ ha, Nat.testBit_two_pow_mul_add _ hc, Nat.testBit_two_pow_mul_add _ hac]
  split <;> rw [Nat.testBit_and]

theorem and192 {a : Nat} (h : a < 256) : a &&& 192 = 64 * (a / 64) := by
  have : ∀ a ∈ List.range 256, a &&& 192 = 64 * (a / 64) := by decide +kernel
  exact this a (List.mem_range.2 h)

theorem load_and {p : Nat → Nat} (hp : ∀ k, p k < 256) : ∀ n m off, n ≤ m →
    load p off n &&& maskN m = 64 * load (fun k => p k / 64) off n
  | 0, m, off, _ => by simp [load]
  | n + 1, 0, off, h => absurd h (by omega)
  | n + 1, m + 1, off, h => by
    rw [load, maskN, and_split (hp off) (by omega), and192 (hp off), load_and hp n m (off + 1) (by omega), load]
    omega

/-- The first `n` categories. -/
def catTo (p : Nat → Nat) (n : Nat) : Nat → Nat := fun k => if k < n then p k / 64 else 0

theorem mask_load {p : Nat → Nat} (hp : ∀ k, p k < 192) (off : Nat) :
    (load p off 8 &&& mask64) = 64 * load (fun k => p k / 64) off 8 ∧
    (∀ n ≤ 4, load p off n &&& mask32 = 64 * load (fun k => p k / 64) off n) :=
  ⟨load_and (lt_top hp) 8 8 off (by omega), fun n hn => load_and (lt_top hp) n 4 off hn⟩

theorem shr6 (x : Nat) : (64 * x) >>> 6 = x := by rw [Nat.shiftRight_eq_div_pow]; omega

/-- Sum of the first `n` values. -/
def sumTo (f : Nat → Nat) : Nat → Nat
  | 0 => 0
  | n + 1 => sumTo f n + f n

theorem load_add (f g : Nat → Nat) : ∀ n off, load f off n + load g off n = load (fun k => f k + g k) off n
  | 0, _ => rfl
  | n + 1, off => by rw [load, load, load, ← load_add f g n (off + 1)]; omega

theorem load_shift (f : Nat → Nat) (d : Nat) : ∀ n off, load f (off + d) n = load (fun k => f (k + d)) off n
  | 0, _ => rfl
  | n + 1, off => by
    rw [load, load, show off + d + 1 = (off + 1) + d by omega, load_shift f d n (off + 1)]

theorem load_catTo (f : Nat → Nat) (N : Nat) : ∀ n m off, n ≤ m → off + n = N →
    load f off n = load (fun k => if k < N then f k else 0) off m
  | 0, m, off, _, h => by
    have : ∀ m off, N ≤ off → load (fun k => if k < N then f k else 0) off m = 0 := by
      intro m
      induction m with
      | zero => intro off _; rfl
      | succ m ih => intro off h; rw [load, ih _ (by omega), if_neg (by omega)]
    rw [this m off (by omega)]; rfl
  | n + 1, 0, off, h, _ => absurd h (by omega)
  | n + 1, m + 1, off, h, e => by
    rw [load, load, load_catTo f N n m (off + 1) (by omega) (by omega), if_pos (by omega)]

theorem top_split {l t r : Nat} (hl : l < 2 ^ 56) (ht : t < 256) :
    (l + 2 ^ 56 * t + 2 ^ 64 * r) % 2 ^ 64 / 2 ^ 56 = t := by omega

theorem top64_load (f : Nat → Nat) (h : ∀ k, f k ≤ 8) : top64 (load f 0 8) = (sumTo f 8 : Nat) := by
  have h0 := h 0; have h1 := h 1; have h2 := h 2; have h3 := h 3
  have h4 := h 4; have h5 := h 5; have h6 := h 6; have h7 := h 7
  simp only [top64, mul64, load, sumTo, Nat.shiftRight_eq_div_pow, Nat.reduceAdd]
  generalize f 0 = x0 at *; generalize f 1 = x1 at *; generalize f 2 = x2 at *; generalize f 3 = x3 at *
  generalize f 4 = x4 at *; generalize f 5 = x5 at *; generalize f 6 = x6 at *; generalize f 7 = x7 at *
  clear h
  have e : (x0 + 256 * (x1 + 256 * (x2 + 256 * (x3 + 256 * (x4 + 256 * (x5 + 256 * (x6 + 256 * (x7 + 256 * 0)))))))) *
      72340172838076673 =
      (x0 + 256 * (x0 + x1) + 65536 * (x0 + x1 + x2) + 16777216 * (x0 + x1 + x2 + x3) +
        4294967296 * (x0 + x1 + x2 + x3 + x4) + 1099511627776 * (x0 + x1 + x2 + x3 + x4 + x5) +
        281474976710656 * (x0 + x1 + x2 + x3 + x4 + x5 + x6)) +
      2 ^ 56 * (0 + x0 + x1 + x2 + x3 + x4 + x5 + x6 + x7) +
      2 ^ 64 * ((x1 + x2 + x3 + x4 + x5 + x6 + x7) + 256 * (x2 + x3 + x4 + x5 + x6 + x7) +
        65536 * (x3 + x4 + x5 + x6 + x7) + 16777216 * (x4 + x5 + x6 + x7) + 4294967296 * (x5 + x6 + x7) +
        1099511627776 * (x6 + x7) + 281474976710656 * x7) := by omega
  rw [e, top_split (by omega) (by omega)]

theorem top_split32 {l t r : Nat} (hl : l < 2 ^ 24) (ht : t < 256) :
    (l + 2 ^ 24 * t + 2 ^ 32 * r) % 2 ^ 32 / 2 ^ 24 = t := by omega

theorem top32_load (f : Nat → Nat) (h : ∀ k, f k ≤ 8) : top32 (load f 0 4) = (sumTo f 4 : Nat) := by
  have h0 := h 0; have h1 := h 1; have h2 := h 2; have h3 := h 3
  simp only [top32, mul32, load, sumTo, Nat.shiftRight_eq_div_pow, Nat.reduceAdd]
  generalize f 0 = x0 at *; generalize f 1 = x1 at *; generalize f 2 = x2 at *; generalize f 3 = x3 at *
  clear h
  have e : (x0 + 256 * (x1 + 256 * (x2 + 256 * (x3 + 256 * 0)))) * 16843009 =
      (x0 + 256 * (x0 + x1) + 65536 * (x0 + x1 + x2)) + 2 ^ 24 * (0 + x0 + x1 + x2 + x3) +
      2 ^ 32 * ((x1 + x2 + x3) + 256 * (x2 + x3) + 65536 * x3) := by omega
  rw [e, top_split32 (by omega) (by omega)]

theorem top4_load (f : Nat → Nat) (h : ∀ k, f k ≤ 8) : top4 (64 * load f 0 2) = (sumTo f 2 : Nat) := by
  have h0 := h 0; have h1 := h 1
  simp only [top4, load, sumTo, Nat.shiftRight_eq_div_pow, Nat.reduceAdd]
  generalize f 0 = x0 at *; generalize f 1 = x1 at *
  clear h
  have e : 64 * (x0 + 256 * (x1 + 256 * 0)) * 67372036 =
      (256 * x0 + 65536 * (x0 + x1)) + 2 ^ 24 * (0 + x0 + x1) + 2 ^ 32 * (x0 + x1 + 256 * x1) := by omega
  rw [e, top_split32 (by omega) (by omega)]

theorem sumTo_add (f g : Nat → Nat) : ∀ n, sumTo (fun k => f k + g k) n = sumTo f n + sumTo g n
  | 0 => rfl
  | n + 1 => by rw [sumTo, sumTo, sumTo, sumTo_add f g n]; omega

theorem sumTo_congr {f g : Nat → Nat} : ∀ n, (∀ k, k < n → f k = g k) → sumTo f n = sumTo g n
  | 0, _ => rfl
  | n + 1, h => by rw [sumTo, sumTo, sumTo_congr n (fun k hk => h k (by omega)), h n (by omega)]

theorem sumTo_restrict (f : Nat → Nat) (n : Nat) : ∀ N, n ≤ N → sumTo (fun k => if k < n then f k else 0) N = sumTo f n
  | 0, h => by rw [show n = 0 by omega]; rfl
  | N + 1, h => by
    rcases Nat.lt_or_ge N n with h' | h'
    · have e : n = N + 1 := by omega
      subst e
      exact sumTo_congr _ (fun k hk => if_pos hk)
    · rw [sumTo, sumTo_restrict f n N h', if_neg (by omega)]; omega

/-- Sum of two loads of `n` and `m` bytes. -/
theorem load2 (f g : Nat → Nat) (N : Nat) {n m : Nat} (hn : n ≤ N) (hm : m ≤ N) (hf : ∀ k, f k ≤ 4) (hg : ∀ k, g k ≤ 4) :
    ∃ F : Nat → Nat, load f 0 n + load g 0 m = load F 0 N ∧ (∀ k, F k ≤ 8) ∧ sumTo F N = sumTo f n + sumTo g m := by
  refine ⟨fun k => (if k < n then f k else 0) + (if k < m then g k else 0), ?_, ?_, ?_⟩
  · rw [load_catTo f n n N 0 hn (by omega), load_catTo g m m N 0 hm (by omega), load_add]
  · intro k
    have := hf k; have := hg k
    dsimp only
    split <;> split <;> omega
  · rw [sumTo_add, sumTo_restrict f n N hn, sumTo_restrict g m N hm]

theorem load_le (f : Nat → Nat) (h : ∀ k, f k ≤ 2) :
    load f 0 1 ≤ 2 ∧ load f 0 2 ≤ 0x202 ∧ load f 0 4 ≤ 0x2020202 ∧ load f 0 8 ≤ 0x202020202020202 := by
  have h0 := h 0; have h1 := h 1; have h2 := h 2; have h3 := h 3
  have h4 := h 4; have h5 := h 5; have h6 := h 6; have h7 := h 7
  simp only [load, Nat.reduceAdd]
  omega

theorem shr6_32 {x y : Nat} (h : x + y < 2 ^ 26) : ((64 * x + 64 * y) % 2 ^ 32) >>> 6 = x + y := by
  rw [Nat.shiftRight_eq_div_pow]; omega

theorem shr6_64 {x y : Nat} (h : x + y < 2 ^ 58) : ((64 * x + 64 * y) % 2 ^ 64) >>> 6 = x + y := by
  rw [Nat.shiftRight_eq_div_pow, Nat.mod_eq_of_lt (by omega)]; omega

theorem sumTo_16 (f : Nat → Nat) : sumTo (fun k => f k + f (k + 8)) 8 = sumTo f 16 := by
  simp only [sumTo, Nat.reduceAdd]; omega

theorem load_16 (f : Nat → Nat) : load f 0 8 + load f 8 8 = load (fun k => f k + f (k + 8)) 0 8 := by
  have := load_shift f 8 8 0
  rw [Nat.zero_add] at this
  rw [this, load_add]

/-- The word arithmetic yields the sum of the categories. -/
theorem dcSum_eq {b : Arg} (hb : b.Ok) : dcSum b.tx b.a b.l =
    (sumTo (fun k => b.a k / 64) (b.tx.w / 4) : Nat) + (sumTo (fun k => b.l k / 64) (b.tx.h / 4) : Nat) -
      (b.tx.w / 4 : Nat) - (b.tx.h / 4 : Nat) := by
  have ma := mask_load hb.a
  have ml := mask_load hb.l
  have ha : ∀ k, (fun k => b.a k / 64) k ≤ 2 := fun k => by have := hb.a k; dsimp only; omega
  have hl : ∀ k, (fun k => b.l k / 64) k ≤ 2 := fun k => by have := hb.l k; dsimp only; omega
  have A1 := (ma 0).2 1 (by omega)
  have A2 := (ma 0).2 2 (by omega)
  have A4 := (ma 0).2 4 (by omega)
  have A8 := (ma 0).1
  have AA := (ma 8).1
  have L1 := (ml 0).2 1 (by omega)
  have L2 := (ml 0).2 2 (by omega)
  have L4 := (ml 0).2 4 (by omega)
  have L8 := (ml 0).1
  have LL := (ml 8).1
  have e1 : load b.a 0 1 >>> 6 = (fun k => b.a k / 64) 0 := by simp [load, Nat.shiftRight_eq_div_pow]
  have e2 : load b.l 0 1 >>> 6 = (fun k => b.l k / 64) 0 := by simp [load, Nat.shiftRight_eq_div_pow]
  clear ma ml
  generalize (fun k => b.a k / 64) = ca at *
  generalize (fun k => b.l k / 64) = cl at *
  have ba := load_le ca ha
  have bl := load_le cl hl
  have ha4 : ∀ k, ca k ≤ 4 := fun k => Nat.le_trans (ha k) (by omega)
  have hl4 : ∀ k, cl k ≤ 4 := fun k => Nat.le_trans (hl k) (by omega)
  have ha16 : ∀ k, (fun k => ca k + ca (k + 8)) k ≤ 4 := fun k => by have := ha k; have := ha (k + 8); dsimp only; omega
  have hl16 : ∀ k, (fun k => cl k + cl (k + 8)) k ≤ 4 := fun k => by have := hl k; have := hl (k + 8); dsimp only; omega
  have t4 : ∀ {n m}, n ≤ 2 → m ≤ 2 → top4 (64 * load ca 0 n + 64 * load cl 0 m) = ((sumTo ca n + sumTo cl m : Nat) : Int) := by
    intro n m hn hm
    obtain ⟨F, h1, h2, h3⟩ := load2 ca cl 2 hn hm ha4 hl4
    rw [← Nat.mul_add, h1, top4_load F h2, h3]
  have t32 : ∀ {n m}, n ≤ 4 → m ≤ 4 → top32 (load ca 0 n + load cl 0 m) = ((sumTo ca n + sumTo cl m : Nat) : Int) := by
    intro n m hn hm
    obtain ⟨F, h1, h2, h3⟩ := load2 ca cl 4 hn hm ha4 hl4
    rw [h1, top32_load F h2, h3]
  have t64 : ∀ {f g : Nat → Nat} {n m}, (∀ k, f k ≤ 4) → (∀ k, g k ≤ 4) → n ≤ 8 → m ≤ 8 →
      top64 (load f 0 n + load g 0 m) = ((sumTo f n + sumTo g m : Nat) : Int) := by
    intro f g n m hf hg hn hm
    obtain ⟨F, h1, h2, h3⟩ := load2 f g 8 hn hm hf hg
    rw [h1, top64_load F h2, h3]
  obtain ⟨ba1, ba2, ba4, ba8⟩ := ba
  obtain ⟨bl1, bl2, bl4, bl8⟩ := bl
  generalize b.tx = tx
  cases tx
  case x4x4 =>
    show ((load b.a 0 1 >>> 6 + load b.l 0 1 >>> 6 : Nat) : Int) - 1 - 1 = (sumTo ca 1 : Nat) + (sumTo cl 1 : Nat) - (1 : Nat) - (1 : Nat)
    rw [e1, e2]; simp only [sumTo]; omega
  case x8x8 => show (_ : Int) = (sumTo ca 2 : Nat) + (sumTo cl 2 : Nat) - (2 : Nat) - (2 : Nat); rw [dcSum, A2, L2, t4 (by omega) (by omega)]; omega
  case x4x8 => show (_ : Int) = (sumTo ca 1 : Nat) + (sumTo cl 2 : Nat) - (1 : Nat) - (2 : Nat); rw [dcSum, A1, L2, t4 (by omega) (by omega)]; omega
  case x8x4 => show (_ : Int) = (sumTo ca 2 : Nat) + (sumTo cl 1 : Nat) - (2 : Nat) - (1 : Nat); rw [dcSum, A2, L1, t4 (by omega) (by omega)]; omega
  case x16x16 => show (_ : Int) = (sumTo ca 4 : Nat) + (sumTo cl 4 : Nat) - (4 : Nat) - (4 : Nat); rw [dcSum, A4, L4, shr6, shr6, t32 (by omega) (by omega)]; omega
  case x8x16 => show (_ : Int) = (sumTo ca 2 : Nat) + (sumTo cl 4 : Nat) - (2 : Nat) - (4 : Nat); rw [dcSum, A2, L4, shr6_32 (by omega), t32 (by omega) (by omega)]; omega
  case x16x8 => show (_ : Int) = (sumTo ca 4 : Nat) + (sumTo cl 2 : Nat) - (4 : Nat) - (2 : Nat); rw [dcSum, A4, L2, shr6_32 (by omega), t32 (by omega) (by omega)]; omega
  case x4x16 => show (_ : Int) = (sumTo ca 1 : Nat) + (sumTo cl 4 : Nat) - (1 : Nat) - (4 : Nat); rw [dcSum, A1, L4, shr6_32 (by omega), t32 (by omega) (by omega)]; omega
  case x16x4 => show (_ : Int) = (sumTo ca 4 : Nat) + (sumTo cl 1 : Nat) - (4 : Nat) - (1 : Nat); rw [dcSum, A4, L1, shr6_32 (by omega), t32 (by omega) (by omega)]; omega
  case x32x32 => show (_ : Int) = (sumTo ca 8 : Nat) + (sumTo cl 8 : Nat) - (8 : Nat) - (8 : Nat); rw [dcSum, A8, L8, shr6, shr6, t64 ha4 hl4 (by omega) (by omega)]; omega
  case x16x32 => show (_ : Int) = (sumTo ca 4 : Nat) + (sumTo cl 8 : Nat) - (4 : Nat) - (8 : Nat); rw [dcSum, A4, L8, shr6_64 (by omega), t64 ha4 hl4 (by omega) (by omega)]; omega
  case x32x16 => show (_ : Int) = (sumTo ca 8 : Nat) + (sumTo cl 4 : Nat) - (8 : Nat) - (4 : Nat); rw [dcSum, A8, L4, shr6_64 (by omega), t64 ha4 hl4 (by omega) (by omega)]; omega
  case x8x32 => show (_ : Int) = (sumTo ca 2 : Nat) + (sumTo cl 8 : Nat) - (2 : Nat) - (8 : Nat); rw [dcSum, A2, L8, shr6_64 (by omega), t64 ha4 hl4 (by omega) (by omega)]; omega
  case x32x8 => show (_ : Int) = (sumTo ca 8 : Nat) + (sumTo cl 2 : Nat) - (8 : Nat) - (2 : Nat); rw [dcSum, A8, L2, shr6_64 (by omega), t64 ha4 hl4 (by omega) (by omega)]; omega
  case x64x64 =>
    show (_ : Int) = (sumTo ca 16 : Nat) + (sumTo cl 16 : Nat) - (16 : Nat) - (16 : Nat)
    rw [dcSum, A8, L8, AA, LL, shr6, shr6, shr6, shr6, load_16, Nat.add_assoc (load _ _ _), load_16,
      t64 ha16 hl16 (by omega) (by omega), sumTo_16, sumTo_16]; omega
  case x32x64 =>
    show (_ : Int) = (sumTo ca 8 : Nat) + (sumTo cl 16 : Nat) - (8 : Nat) - (16 : Nat)
    rw [dcSum, A8, L8, LL, shr6, shr6, shr6, Nat.add_assoc (load _ _ _), load_16,
      t64 ha4 hl16 (by omega) (by omega), sumTo_16]; omega
  case x64x32 =>
    show (_ : Int) = (sumTo ca 16 : Nat) + (sumTo cl 8 : Nat) - (16 : Nat) - (8 : Nat)
    rw [dcSum, A8, L8, AA, shr6, shr6, shr6, load_16, t64 ha16 hl4 (by omega) (by omega), sumTo_16]; omega
  case x16x64 =>
    show (_ : Int) = (sumTo ca 4 : Nat) + (sumTo cl 16 : Nat) - (4 : Nat) - (16 : Nat)
    rw [dcSum, A4, L8, LL, shr6, shr6_64 (by omega), Nat.add_assoc (load _ _ _), load_16,
      t64 ha4 hl16 (by omega) (by omega), sumTo_16]; omega
  case x64x16 =>
    show (_ : Int) = (sumTo ca 16 : Nat) + (sumTo cl 4 : Nat) - (16 : Nat) - (4 : Nat)
    rw [dcSum, A8, L4, AA, shr6, shr6_64 (by omega), Nat.add_right_comm, load_16,
      t64 ha16 hl4 (by omega) (by omega), sumTo_16]; omega

theorem sum_cat {p : Nat → Nat} (hp : ∀ k, p k < 192) : ∀ n,
    ((List.range n).map (fun k => Spec.catSign (ctxOf (p k)).cat)).sum = (sumTo (fun k => p k / 64) n : Nat) - (n : Nat)
  | 0 => rfl
  | n + 1 => by
    rw [List.range_succ, List.map_append, List.sum_append, sum_cat hp n]
    simp only [List.map_cons, List.map_nil, List.sum_cons, List.sum_nil, catSign_ctxOf (hp n), sumTo]
    omega

theorem dcSignCtx_eq {b : Arg} (hb : b.Ok) : dcSignCtx b = Spec.dcSignCtx b.spec := by
  have e : (List.map (fun k => Spec.catSign (b.spec.above k).cat) (List.range (b.spec.tx.w / 4))).sum +
      (List.map (fun k => Spec.catSign (b.spec.left k).cat) (List.range (b.spec.tx.h / 4))).sum = dcSum b.tx b.a b.l := by
    rw [dcSum_eq hb]
    show (List.map (fun k => Spec.catSign (ctxOf (b.a k)).cat) (List.range (b.tx.w / 4))).sum +
      (List.map (fun k => Spec.catSign (ctxOf (b.l k)).cat) (List.range (b.tx.h / 4))).sum = _
    rw [sum_cat hb.a, sum_cat hb.l]; omega
  simp only [dcSignCtx, Spec.dcSignCtx, e]
  split <;> split <;> (try split) <;> omega

end Dav1d.Coef
