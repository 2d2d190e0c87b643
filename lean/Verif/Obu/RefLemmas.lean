import Verif.Obu.RefSpec
import Mathlib.Tactic.LinearCombination
import Mathlib.Data.Int.ModEq
/-!
# Reference signalling: the loops compute the specified references
-/
namespace Dav1d

/-! ## Relative distance -/

theorem and_two_pow' (x i : Nat) : x &&& 2 ^ i = (x.testBit i).toNat * 2 ^ i := by
  apply Nat.eq_of_testBit_eq
  intro j
  rw [Nat.testBit_and, Nat.testBit_two_pow]
  by_cases h : i = j
  · subst h
    cases hx : x.testBit i <;> simp
  · cases hx : x.testBit i
    · simp [h]
    · simp [h]

theorem getPocDiff_eq {n : Nat} (h1 : 1 ≤ n) (h2 : n ≤ 31) (a b : Int) :
    getPocDiff n a b = (((a - b) % 2 ^ 32).toNat % 2 ^ (n - 1) : Nat)
      - ((((a - b) % 2 ^ 32).toNat.testBit (n - 1)).toNat * 2 ^ (n - 1) : Nat) := by
  have hp : 2 ^ (n - 1) ≤ 2 ^ 30 := Nat.pow_le_pow_right (by omega) (by omega)
  have hp0 := Nat.two_pow_pos (n - 1)
  unfold getPocDiff
  rw [if_neg (by omega)]
  simp only
  have hm : (1#32 <<< (n - 1)).toNat = 2 ^ (n - 1) := by
    rw [BitVec.toNat_shiftLeft]
    simp only [BitVec.toNat_ofNat, Nat.shiftLeft_eq]
    norm_num
    omega
  have hm1 : (1#32 <<< (n - 1) - 1#32).toNat = 2 ^ (n - 1) - 1 := by
    rw [BitVec.toNat_sub, hm]; simp only [BitVec.toNat_ofNat]; omega
  have hd : (BitVec.ofInt 32 (a - b)).toNat = ((a - b) % 2 ^ 32).toNat := by
    rw [BitVec.toNat_ofInt]; norm_num
  rw [BitVec.toInt_eq_toNat_of_lt, BitVec.toInt_eq_toNat_of_lt]
  · rw [BitVec.toNat_and, BitVec.toNat_and, hm, hm1, hd, Nat.and_two_pow_sub_one_eq_mod, and_two_pow']
  · rw [BitVec.toNat_and, hm]
    have := Nat.and_le_right (n := (BitVec.ofInt 32 (a - b)).toNat) (m := 2 ^ (n - 1))
    omega
  · rw [BitVec.toNat_and, hm1]
    have := Nat.and_le_right (n := (BitVec.ofInt 32 (a - b)).toNat) (m := 2 ^ (n - 1) - 1)
    omega

theorem getPocDiff_spec {n : Nat} (h1 : 1 ≤ n) (h2 : n ≤ 31) (a b : Int) :
    getPocDiff n a b % 2 ^ n = (a - b) % 2 ^ n ∧ -(2 ^ (n - 1)) ≤ getPocDiff n a b ∧
      getPocDiff n a b < 2 ^ (n - 1) := by
  rw [getPocDiff_eq h1 h2]
  have hp0 : (0:Int) < 2 ^ (n - 1) := by positivity
  obtain ⟨k, rfl⟩ : ∃ k, n = k + 1 := ⟨n - 1, by omega⟩
  simp only [Nat.add_sub_cancel] at hp0 ⊢
  generalize hx : ((a - b) % 2 ^ 32).toNat = x
  have hx' : (x : Int) = (a - b) % 2 ^ 32 := by rw [← hx]; exact Int.toNat_of_nonneg (by omega)
  have ht : (x.testBit k).toNat = x / 2 ^ k % 2 := by
    rw [Nat.testBit_eq_decide_div_mod_eq]
    rcases Nat.mod_two_eq_zero_or_one (x / 2 ^ k) with h | h <;> simp [h]
  rw [ht]
  obtain ⟨m, hm⟩ : ∃ m : Int, (x : Int) = (a - b) + 2 ^ (k + 1) * m := by
    refine ⟨-(2 ^ (31 - k) * ((a - b) / 2 ^ 32)), ?_⟩
    have h := Int.emod_add_mul_ediv (a - b) (2 ^ 32)
    have e : (2:Int) ^ 32 = 2 ^ (k + 1) * 2 ^ (31 - k) := by
      rw [← pow_add]; congr 1; omega
    rw [hx']
    generalize (a - b) / 2 ^ 32 = y at h ⊢
    generalize (a - b) % 2 ^ 32 = z at h ⊢
    rw [e] at h
    linear_combination h
  have h1' := Nat.div_add_mod x (2 ^ k)
  have h2' := Nat.div_add_mod (x / 2 ^ k) 2
  have hlt := Nat.mod_lt x (Nat.two_pow_pos k)
  have hb : x / 2 ^ k % 2 < 2 := Nat.mod_lt _ (by omega)
  generalize x / 2 ^ k % 2 = t at *
  generalize x / 2 ^ k / 2 = u at *
  generalize x / 2 ^ k = q at *
  generalize x % 2 ^ k = r at *
  have c1 : (2:Int) ^ k * q + r = x := by exact_mod_cast h1'
  have c2 : (2:Int) * u + t = q := by exact_mod_cast h2'
  have c3 : (r:Int) < 2 ^ k := by exact_mod_cast hlt
  refine ⟨?_, ?_, ?_⟩
  · have e : ((r : Int) - ((t * 2 ^ k : Nat) : Int)) = (a - b) + 2 ^ (k + 1) * (m - u - t) := by
      push_cast
      rw [pow_succ] at hm ⊢
      linear_combination hm + c1 + (2:Int) ^ k * c2
    rw [e, Int.add_mul_emod_self_left]
  · push_cast
    have : t = 0 ∨ t = 1 := by omega
    rcases this with rfl | rfl <;> push_cast <;> linarith [Int.natCast_nonneg r]
  · push_cast
    have : (0:Int) ≤ (t:Int) * 2 ^ k := by positivity
    linarith

theorem two_pow_pred {n : Nat} (h1 : 1 ≤ n) : (2:Int) ^ n = 2 * 2 ^ (n - 1) := by
  conv_lhs => rw [show n = (n - 1) + 1 by omega, pow_succ]
  ring

theorem relDist_spec {n : Nat} (h1 : 1 ≤ n) (a b : Int) :
    relDist n a b % 2 ^ n = (a - b) % 2 ^ n ∧ -(2 ^ (n - 1)) ≤ relDist n a b ∧ relDist n a b < 2 ^ (n - 1) := by
  have e := two_pow_pred h1
  have hp : (0:Int) < 2 ^ (n - 1) := by positivity
  have h2 := Int.emod_nonneg (a - b + 2 ^ (n - 1)) (b := 2 ^ n) (by positivity)
  have h3 := Int.emod_lt_of_pos (a - b + 2 ^ (n - 1)) (b := 2 ^ n) (by positivity)
  unfold relDist
  refine ⟨?_, by linarith, by linarith⟩
  have := Int.ModEq.sub_right (2 ^ (n - 1)) (Int.mod_modEq (a - b + 2 ^ (n - 1)) (2 ^ n))
  rw [add_sub_cancel_right] at this
  exact this

theorem relDist_unique {n : Nat} (h1 : 1 ≤ n) {a b d : Int} (h : d % 2 ^ n = (a - b) % 2 ^ n)
    (hl : -(2 ^ (n - 1)) ≤ d) (hu : d < 2 ^ (n - 1)) : d = relDist n a b := by
  have e := two_pow_pred h1
  have hp : (0:Int) < 2 ^ (n - 1) := by positivity
  have h2 : (d + 2 ^ (n - 1)) % 2 ^ n = (a - b + 2 ^ (n - 1)) % 2 ^ n := Int.ModEq.add_right _ h
  unfold relDist
  rw [← h2, Int.emod_eq_of_lt (by linarith) (by linarith)]
  ring

theorem getPocDiff_relDist {n : Nat} (h1 : 1 ≤ n) (h2 : n ≤ 31) (a b : Int) :
    getPocDiff n a b = relDist n a b := by
  obtain ⟨x, y, z⟩ := getPocDiff_spec h1 h2 a b
  exact relDist_unique h1 x y z

/-! ## Search loops -/

theorem searchFold (cond : Nat → Bool) (better : Int → Int → Bool) (hint : Nat → Int) (idx best : Int)
    (W : Nat → Nat → Prop) (hW0 : ∀ i, W i i) (hWtrans : ∀ j i i', i < i' → j < i' → W j i → better (hint i') (hint i) = true → W j i')
    (hWnew : ∀ i i', i < i' → better (hint i') (hint i) = false → W i' i)
    (hbest : ∀ i, cond i = true → better (hint i) best = true) (n : Nat) :
    let r := (List.range n).foldl (fun (s : Int × Int) i =>
      if cond i && better (hint i) s.2 then ((i : Int), hint i) else s) (idx, best)
    (r = (idx, best) ∧ ∀ j, j < n → cond j = false) ∨
    ∃ i, i < n ∧ cond i = true ∧ r = ((i : Int), hint i) ∧ ∀ j, j < n → cond j = true → W j i := by
  induction n with
  | zero => left; simp
  | succ n ih =>
    simp only [List.range_succ, List.foldl_append, List.foldl_cons, List.foldl_nil] at ih ⊢
    generalize (List.range n).foldl _ _ = r at ih ⊢
    rcases ih with ⟨hr, hno⟩ | ⟨i, hi, hci, hr, hall⟩
    · subst hr
      by_cases hc : cond n = true
      · right
        refine ⟨n, by omega, hc, ?_, ?_⟩
        · simp [hc, hbest n hc]
        · intro j hj hcj
          by_cases e : j = n
          · subst e; exact hW0 _
          · rw [hno j (by omega)] at hcj; simp at hcj
      · left
        refine ⟨by simp [hc], fun j hj => ?_⟩
        by_cases e : j = n
        · subst e; simpa using hc
        · exact hno j (by omega)
    · subst hr
      right
      by_cases hc : cond n = true
      · cases hb : better (hint n) (hint i)
        · refine ⟨i, by omega, hci, by simp [hc, hb], fun j hj hcj => ?_⟩
          by_cases e : j = n
          · subst e; exact hWnew i _ hi hb
          · exact hall j (by omega) hcj
        · refine ⟨n, by omega, hc, by simp [hc, hb], fun j hj hcj => ?_⟩
          by_cases e : j = n
          · subst e; exact hW0 _
          · exact hWtrans j i n hi (by omega) (hall j (by omega) hcj) hb
      · refine ⟨i, by omega, hci, by simp [hc], fun j hj hcj => ?_⟩
        by_cases e : j = n
        · subst e; exact absurd hcj hc
        · exact hall j (by omega) hcj

/-- Searching for the latest slot. -/
theorem search_latest (cond : Nat → Bool) (hint : Nat → Int) (idx : Int) (h0 : ∀ i, 0 ≤ hint i) :
    (searchLoop cond geB hint idx (-1) = (idx, -1) ∧ ∀ j, j < 8 → cond j = false) ∨
    ∃ i : Nat, searchLoop cond geB hint idx (-1) = ((i : Int), hint i) ∧ IsLatest hint (fun j => cond j = true) i := by
  have := searchFold cond geB hint idx (-1) (fun j i => hint j < hint i ∨ (hint j = hint i ∧ j ≤ i))
    (fun i => Or.inr ⟨rfl, le_refl _⟩)
    (fun j i i' h h' hw hb => by unfold geB at hb; simp at hb; omega)
    (fun i i' h hb => by unfold geB at hb; simp at hb; omega)
    (fun i _ => by unfold geB; have := h0 i; simp; omega) 8
  rcases this with ⟨h1, h2⟩ | ⟨i, h1, h2, h3, h4⟩
  · exact Or.inl ⟨h1, h2⟩
  · exact Or.inr ⟨i, h3, h1, h2, h4⟩

/-- Searching for the earliest slot. -/
theorem search_earliest (cond : Nat → Bool) (hint : Nat → Int) (idx : Int) (h0 : ∀ i, hint i < INT_MAX) :
    (searchLoop cond ltB hint idx INT_MAX = (idx, INT_MAX) ∧ ∀ j, j < 8 → cond j = false) ∨
    ∃ i : Nat, searchLoop cond ltB hint idx INT_MAX = ((i : Int), hint i) ∧ IsEarliest hint (fun j => cond j = true) i := by
  have := searchFold cond ltB hint idx INT_MAX (fun j i => hint i < hint j ∨ (hint j = hint i ∧ i ≤ j))
    (fun i => Or.inr ⟨rfl, le_refl _⟩)
    (fun j i i' h h' hw hb => by unfold ltB at hb; simp at hb; omega)
    (fun i i' h hb => by unfold ltB at hb; simp at hb; omega)
    (fun i _ => by unfold ltB; have := h0 i; simpa using this) 8
  rcases this with ⟨h1, h2⟩ | ⟨i, h1, h2, h3, h4⟩
  · exact Or.inl ⟨h1, h2⟩
  · exact Or.inr ⟨i, h3, h1, h2, h4⟩

/-! ## Short signalling -/

/-- -1 for an empty entry of `refidx`. -/
def optIdx : Option Nat → Int
  | none => -1
  | some i => i

/-- The C state represents the assignment. -/
def ShortRel (s : ShortSt) (a : RefAssign) : Prop :=
  (∀ k, s.refidx k = optIdx (a k)) ∧ ∀ j, s.used j = true ↔ a.Used j

/-- Any of the searches, in terms of `best`. -/
def SearchOk (better : Int → Int → Bool) (sentinel : Int) (hint : Nat → Int)
    (best : (Nat → Prop) → Nat → Prop) : Prop :=
  (∀ i, hint i ≠ sentinel) ∧ ∀ cond idx,
    (searchLoop cond better hint idx sentinel = (idx, sentinel) ∧ ∀ j, j < 8 → cond j = false) ∨
    ∃ i : Nat, searchLoop cond better hint idx sentinel = ((i : Int), hint i) ∧ best (fun j => cond j = true) i

theorem pick_fill {better sentinel hint best} (hs : SearchOk better sentinel hint best) (dir : Int → Bool)
    (k : Nat) (s : ShortSt) (a : RefAssign) (h : ShortRel s a) (hk : a k = none) :
    ∃ a', Fill best (fun j => dir (hint j) = true) k a a' ∧ ShortRel (pick hint dir better sentinel k s) a' := by
  obtain ⟨h1, h2⟩ := h
  have hcond : (fun j => (!s.used j && dir (hint j)) = true) = (fun j => ¬ a.Used j ∧ dir (hint j) = true) := by
    funext j
    have := h2 j
    cases hu : s.used j <;> simp [hu] at this ⊢ <;> simp [this]
  have hr := hs.2 (fun i => !s.used i && dir (hint i)) (s.refidx k)
  rw [hcond] at hr
  unfold pick
  simp only
  rcases hr with ⟨e, hno⟩ | ⟨i, e, hi⟩
  · refine ⟨a, ⟨fun _ _ => rfl, Or.inr (Or.inr ⟨hk, ?_, hk⟩)⟩, ?_, ?_⟩
    · intro j hj hc
      have := hno j hj
      have hc' := congrFun hcond j
      rw [eq_iff_iff] at hc'
      rw [this] at hc'
      simpa using hc'.2 hc
    · intro k'
      rw [e]
      simp only [setAt]
      split
      · rename_i hh; subst hh; exact h1 _
      · exact h1 _
    · intro j
      rw [e]
      simpa using h2 j
  · refine ⟨fun k' => if k' = k then some i else a k', ⟨fun k' hk' => by simp [hk'], Or.inr (Or.inl ⟨hk, i, hi, by simp⟩)⟩, ?_, ?_⟩
    · intro k'
      rw [e]
      simp only [setAt]
      split
      · rfl
      · exact h1 _
    · intro j
      rw [e]
      simp only [ne_eq, hs.1 i, not_false_eq_true, if_true, setAt, Int.toNat_natCast]
      split
      · rename_i hh; subst hh
        simp only [true_iff]
        exact ⟨k, by simp⟩
      · rename_i hj
        rw [h2 j]
        constructor
        · rintro ⟨k', hk'⟩
          refine ⟨k', ?_⟩
          have : k' ≠ k := by rintro rfl; rw [hk] at hk'; cases hk'
          simp [this, hk']
        · rintro ⟨k', hk'⟩
          by_cases e' : k' = k
          · subst e'; simp at hk'; omega
          · simp [e'] at hk'; exact ⟨k', hk'⟩

theorem pick_fill_if {hint best} (hs : SearchOk geB (-1) hint best) (dir : Int → Bool)
    (k : Nat) (s : ShortSt) (a : RefAssign) (h : ShortRel s a) :
    ∃ a', Fill best (fun j => dir (hint j) = true) k a a' ∧ ShortRel (pickIfUnset hint dir k s) a' := by
  unfold pickIfUnset
  cases hk : a k with
  | none =>
    have : s.refidx k < 0 := by rw [h.1 k, hk]; decide
    rw [if_pos this]
    exact pick_fill hs dir k s a h hk
  | some i =>
    have : ¬ s.refidx k < 0 := by rw [h.1 k, hk]; simp [optIdx]
    rw [if_neg this]
    exact ⟨a, ⟨fun _ _ => rfl, Or.inl ⟨by simp [hk], rfl⟩⟩, h⟩

theorem fill_none_of_ne {best dir k a a'} (h : Fill best dir k a a') {k'} (hk : k' ≠ k) (h0 : a k' = none) : a' k' = none := by
  rw [h.1 k' hk, h0]

theorem shortRefs_spec (hint : Nat → Int) (cur : Int) (last gold : Nat) (h0 : ∀ i, 0 ≤ hint i)
    (h1 : ∀ i, hint i < INT_MAX) :
    ∃ r, SetFrameRefs hint cur last gold r ∧ ∀ k, k < 7 → shortRefs hint cur last gold k = (r k : Int) := by
  have hL : SearchOk geB (-1) hint (IsLatest hint) :=
    ⟨fun i => by have := h0 i; omega, fun cond idx => search_latest cond hint idx h0⟩
  have hE : SearchOk ltB INT_MAX hint (IsEarliest hint) :=
    ⟨fun i => by have := h1 i; omega, fun cond idx => search_earliest cond hint idx h1⟩
  have eb : (fun j => decide (cur ≤ hint j) = true) = (fun j => cur ≤ hint j) := by funext j; simp
  have ef : (fun j => decide (hint j < cur) = true) = (fun j => hint j < cur) := by funext j; simp
  unfold shortRefs
  simp only [List.foldl_cons, List.foldl_nil]
  generalize hs0 : (⟨setAt (setAt (fun _ => -1) 0 (last:Int)) 3 (gold:Int), setAt (setAt (fun _ => false) last true) gold true⟩ : ShortSt) = s0
  have r0 : ShortRel s0 (fun k => if k = 0 then some last else if k = 3 then some gold else none) := by
    rw [← hs0]
    constructor
    · intro k
      simp only [setAt]
      split
      · rename_i e; subst e; simp [optIdx]
      · split
        · simp [optIdx]
        · simp [optIdx]
    · intro j
      simp only [setAt]
      constructor
      · intro h
        split at h
        · rename_i e; subst e; exact ⟨3, by simp⟩
        · split at h
          · rename_i e; subst e; exact ⟨0, by simp⟩
          · cases h
      · rintro ⟨k, hk⟩
        simp only at hk
        split at hk
        · cases hk; simp
        · split at hk
          · cases hk; simp
          · cases hk
  obtain ⟨a1, f1, r1⟩ := pick_fill hL (fun h => decide (cur ≤ h)) 6 _ _ r0 (by simp)
  obtain ⟨a2, f2, r2⟩ := pick_fill hE (fun h => decide (cur ≤ h)) 4 _ _ r1 (fill_none_of_ne f1 (by decide) (by simp))
  obtain ⟨a3, f3, r3⟩ := pick_fill hE (fun h => decide (cur ≤ h)) 5 _ _ r2
    (fill_none_of_ne f2 (by decide) (fill_none_of_ne f1 (by decide) (by simp)))
  obtain ⟨a4, f4, r4⟩ := pick_fill_if hL (fun h => decide (h < cur)) 1 _ _ r3
  obtain ⟨a5, f5, r5⟩ := pick_fill_if hL (fun h => decide (h < cur)) 2 _ _ r4
  obtain ⟨a6, f6, r6⟩ := pick_fill_if hL (fun h => decide (h < cur)) 4 _ _ r5
  obtain ⟨a7, f7, r7⟩ := pick_fill_if hL (fun h => decide (h < cur)) 5 _ _ r6
  obtain ⟨a8, f8, r8⟩ := pick_fill_if hL (fun h => decide (h < cur)) 6 _ _ r7
  have g3 : a5 3 = some gold := by
    rw [f5.1 3 (by decide), f4.1 3 (by decide), f3.1 3 (by decide), f2.1 3 (by decide), f1.1 3 (by decide)]; simp
  rw [eb] at f1 f2 f3
  rw [ef] at f4 f5 f6 f7 f8
  have n3 : ∀ s : ShortSt, ShortRel s a5 → pickIfUnset hint (fun h => decide (h < cur)) 3 s = s := by
    intro s hs
    unfold pickIfUnset
    rw [if_neg]; rw [hs.1 3, g3]; simp [optIdx]
  simp only [n3 _ r5]
  rcases search_earliest (fun _ => true) hint (-1) h1 with ⟨_, hno⟩ | ⟨e, he, hE'⟩
  · exact absurd (hno 0 (by omega)) (by simp)
  · refine ⟨fun k => (a8 k).getD e, ⟨_, a1, a2, a3, a4, a5, a6, a7, a8, e, rfl, f1, f2, f3, f4, f5, f6, f7, f8,
      by simpa using hE', fun _ _ => rfl⟩, ?_⟩
    intro k _
    simp only [he, r8.1 k]
    cases a8 k with
    | none => simp [optIdx, fillIdx]
    | some i =>
      simp only [optIdx, fillIdx, Option.getD_some]
      exact if_neg (by omega)

/-! ## The specification determines the result -/

theorem IsLatest.unique {hint P i j} (h : IsLatest hint P i) (h' : IsLatest hint P j) : i = j := by
  have a := h.2.2 j h'.1 h'.2.1
  have b := h'.2.2 i h.1 h.2.1
  omega

theorem IsEarliest.unique {hint P i j} (h : IsEarliest hint P i) (h' : IsEarliest hint P j) : i = j := by
  have a := h.2.2 j h'.1 h'.2.1
  have b := h'.2.2 i h.1 h.2.1
  omega

theorem Fill.unique {best : (Nat → Prop) → Nat → Prop} {dir k a a' a''}
    (hb : ∀ P i j, best P i → best P j → i = j) (hb' : ∀ P i, best P i → i < 8 ∧ P i)
    (h : Fill best dir k a a') (h' : Fill best dir k a a'') : a' = a'' := by
  funext k'
  by_cases e : k' = k
  · subst e
    rcases h.2 with ⟨x, y⟩ | ⟨x, i, y, z⟩ | ⟨x, y, z⟩ <;>
    rcases h'.2 with ⟨x', y'⟩ | ⟨x', i', y', z'⟩ | ⟨x', y', z'⟩
    · rw [y, y']
    · exact absurd x' x
    · exact absurd x' x
    · exact absurd x x'
    · rw [z, z', hb _ _ _ y y']
    · exact absurd (hb' _ _ y).2 (y' i (hb' _ _ y).1)
    · exact absurd x x'
    · exact absurd (hb' _ _ y').2 (y i' (hb' _ _ y').1)
    · rw [z, z']
  · rw [h.1 k' e, h'.1 k' e]

theorem SetFrameRefs.unique {hint cur last gold r r'} (h : SetFrameRefs hint cur last gold r)
    (h' : SetFrameRefs hint cur last gold r') : ∀ k, k < 7 → r k = r' k := by
  obtain ⟨a0, a1, a2, a3, a4, a5, a6, a7, a8, e, ha, f1, f2, f3, f4, f5, f6, f7, f8, he, hr⟩ := h
  obtain ⟨b0, b1, b2, b3, b4, b5, b6, b7, b8, e', hb, g1, g2, g3, g4, g5, g6, g7, g8, he', hr'⟩ := h'
  have uL := fun {dir k a a' a''} => @Fill.unique (IsLatest hint) dir k a a' a''
    (fun _ _ _ => IsLatest.unique) (fun _ _ h => ⟨h.1, h.2.1⟩)
  have uE := fun {dir k a a' a''} => @Fill.unique (IsEarliest hint) dir k a a' a''
    (fun _ _ _ => IsEarliest.unique) (fun _ _ h => ⟨h.1, h.2.1⟩)
  subst ha; subst hb
  cases uL f1 g1
  cases uE f2 g2
  cases uE f3 g3
  cases uL f4 g4
  cases uL f5 g5
  cases uL f6 g6
  cases uL f7 g7
  cases uL f8 g8
  cases he.unique he'
  intro k hk
  rw [hr k hk, hr' k hk]

theorem Fill.lt {best : (Nat → Prop) → Nat → Prop} {dir k a a'} (hb' : ∀ P i, best P i → i < 8 ∧ P i)
    (h : Fill best dir k a a') (ha : ∀ k i, a k = some i → i < 8) : ∀ k i, a' k = some i → i < 8 := by
  intro k' i hi
  by_cases e : k' = k
  · subst e
    rcases h.2 with ⟨x, y⟩ | ⟨x, j, y, z⟩ | ⟨x, y, z⟩
    · exact ha _ _ (y ▸ hi)
    · rw [z] at hi; cases hi; exact (hb' _ _ y).1
    · rw [z] at hi; cases hi
  · exact ha _ _ (h.1 k' e ▸ hi)

theorem SetFrameRefs.props {hint cur last gold r} (h : SetFrameRefs hint cur last gold r) (hl : last < 8)
    (hg : gold < 8) : r 0 = last ∧ r 3 = gold ∧ ∀ k, k < 7 → r k < 8 := by
  obtain ⟨a0, a1, a2, a3, a4, a5, a6, a7, a8, e, ha, f1, f2, f3, f4, f5, f6, f7, f8, he, hr⟩ := h
  have bL : ∀ P i, IsLatest hint P i → i < 8 ∧ P i := fun _ _ h => ⟨h.1, h.2.1⟩
  have bE : ∀ P i, IsEarliest hint P i → i < 8 ∧ P i := fun _ _ h => ⟨h.1, h.2.1⟩
  have l0 : ∀ k i, a0 k = some i → i < 8 := by
    intro k i hi
    rw [ha] at hi
    simp only at hi
    split at hi
    · cases hi; exact hl
    · split at hi
      · cases hi; exact hg
      · cases hi
  have l8 := f8.lt bL (f7.lt bL (f6.lt bL (f5.lt bL (f4.lt bL (f3.lt bE (f2.lt bE (f1.lt bL l0)))))))
  refine ⟨?_, ?_, ?_⟩
  · rw [hr 0 (by omega), f8.1 0 (by decide), f7.1 0 (by decide), f6.1 0 (by decide), f5.1 0 (by decide),
      f4.1 0 (by decide), f3.1 0 (by decide), f2.1 0 (by decide), f1.1 0 (by decide), ha]
    rfl
  · rw [hr 3 (by omega), f8.1 3 (by decide), f7.1 3 (by decide), f6.1 3 (by decide), f5.1 3 (by decide),
      f4.1 3 (by decide), f3.1 3 (by decide), f2.1 3 (by decide), f1.1 3 (by decide), ha]
    rfl
  · intro k hk
    rw [hr k hk]
    cases e8 : a8 k with
    | none => exact he.1
    | some i => exact l8 k i e8

/-! ## Skip mode -/

/-- Distances of two references on the same side compare like their difference. -/
theorem relDist_sub {n : Nat} (h1 : 1 ≤ n) {a b c : Int}
    (hl : -(2 ^ (n - 1)) ≤ relDist n a c - relDist n b c) (hu : relDist n a c - relDist n b c < 2 ^ (n - 1)) :
    relDist n a b = relDist n a c - relDist n b c := by
  symm
  apply relDist_unique h1 _ hl hu
  have ha := (relDist_spec h1 a c).1
  have hb := (relDist_spec h1 b c).1
  have := Int.ModEq.sub ha hb
  have e : a - c - (b - c) = a - b := by ring
  rw [e] at this
  exact this

/-- State of a search after `m` references. -/
def FInv (ref d : Nat → Int) (cand : Nat → Prop) (m : Nat) (s : Option (Int × Nat)) : Prop :=
  (s = none ∧ ∀ j, j < m → ¬ cand j) ∨
  ∃ i, i < m ∧ s = some (ref i, i) ∧ cand i ∧ ∀ j, j < m → cand j → d j < d i ∨ (d j = d i ∧ i ≤ j)

theorem FInv.skip {ref d cand m s} (h : FInv ref d cand m s) (hc : ¬ cand m) : FInv ref d cand (m + 1) s := by
  rcases h with ⟨h, hn⟩ | ⟨i, hi, h, hci, ha⟩
  · refine Or.inl ⟨h, fun j hj => ?_⟩
    by_cases e : j = m
    · subst e; exact hc
    · exact hn j (by omega)
  · refine Or.inr ⟨i, by omega, h, hci, fun j hj hcj => ?_⟩
    by_cases e : j = m
    · subst e; exact absurd hcj hc
    · exact ha j (by omega) hcj

theorem FInv.first {ref d cand m} (h : FInv ref d cand m none) (hc : cand m) :
    FInv ref d cand (m + 1) (some (ref m, m)) := by
  rcases h with ⟨_, hn⟩ | ⟨i, _, h, _⟩
  · refine Or.inr ⟨m, by omega, rfl, hc, fun j hj hcj => ?_⟩
    by_cases e : j = m
    · subst e; exact Or.inr ⟨rfl, le_refl _⟩
    · exact absurd hcj (hn j (by omega))
  · cases h

theorem FInv.next {ref d cand m b k} (h : FInv ref d cand m (some (b, k))) (hc : cand m) (better : Prop)
    [Decidable better] (hb : ∀ i, b = ref i → i < m → cand i → (better ↔ d i < d m)) :
    FInv ref d cand (m + 1) (if better then some (ref m, m) else some (b, k)) := by
  rcases h with ⟨h, _⟩ | ⟨i, hi, h, hci, ha⟩
  · cases h
  · cases h
    have hb' := hb k rfl hi hci
    split
    · rename_i hlt
      rw [hb'] at hlt
      refine Or.inr ⟨m, by omega, rfl, hc, fun j hj hcj => ?_⟩
      by_cases e : j = m
      · subst e; exact Or.inr ⟨rfl, le_refl _⟩
      · have := ha j (by omega) hcj; omega
    · rename_i hlt
      rw [hb'] at hlt
      refine Or.inr ⟨k, by omega, rfl, hci, fun j hj hcj => ?_⟩
      by_cases e : j = m
      · subst e; omega
      · exact ha j (by omega) hcj

theorem skipNearest_inv {n : Nat} (h1 : 1 ≤ n) (h2 : n ≤ 31) (poc : Int) (ref : Nat → Int) (m : Nat) :
    let r := (List.range m).foldl (fun (s : Option (Int × Nat) × Option (Int × Nat)) i =>
      skipStep n poc ref s i) (none, none)
    FInv ref (fun k => relDist n (ref k) poc) (fun k => relDist n (ref k) poc < 0) m r.1 ∧
    FInv ref (fun k => -relDist n (ref k) poc) (fun k => 0 < relDist n (ref k) poc) m r.2 := by
  induction m with
  | zero => exact ⟨Or.inl ⟨rfl, by simp⟩, Or.inl ⟨rfl, by simp⟩⟩
  | succ m ih =>
    simp only [List.range_succ, List.foldl_append, List.foldl_cons, List.foldl_nil] at ih ⊢
    generalize (List.range m).foldl _ _ = r at ih ⊢
    obtain ⟨i1, i2⟩ := ih
    obtain ⟨bef, aft⟩ := r
    simp only at i1 i2
    have hm := relDist_spec h1 (ref m) poc
    unfold skipStep
    simp only [getPocDiff_relDist h1 h2]
    by_cases c1 : 0 < relDist n (ref m) poc
    · rw [if_pos c1]
      cases aft with
      | none => exact ⟨i1.skip (by simp; omega), i2.first c1⟩
      | some x =>
        obtain ⟨b, k⟩ := x
        have hn := i2.next c1 (relDist n b (ref m) > 0) (fun i hb hi hci => by
          subst hb
          have hi' := relDist_spec h1 (ref i) poc
          rw [relDist_sub h1 (c := poc) (by linarith) (by linarith)]
          omega)
        simp only
        split
        · rename_i hc; rw [if_pos hc] at hn; exact ⟨i1.skip (by simp; omega), hn⟩
        · rename_i hc; rw [if_neg hc] at hn; exact ⟨i1.skip (by simp; omega), hn⟩
    · rw [if_neg c1]
      by_cases c2 : relDist n (ref m) poc < 0
      · rw [if_pos c2]
        cases bef with
        | none => exact ⟨i1.first c2, i2.skip c1⟩
        | some x =>
          obtain ⟨b, k⟩ := x
          have hn := i1.next c2 (relDist n (ref m) b > 0) (fun i hb hi hci => by
            subst hb
            have hi' := relDist_spec h1 (ref i) poc
            rw [relDist_sub h1 (c := poc) (by linarith) (by linarith)]
            omega)
          simp only
          split
          · rename_i hc; rw [if_pos hc] at hn; exact ⟨hn, i2.skip c1⟩
          · rename_i hc; rw [if_neg hc] at hn; exact ⟨hn, i2.skip c1⟩
      · rw [if_neg c2]
        exact ⟨i1.skip c2, i2.skip c1⟩

theorem skipSecond_inv {n : Nat} (h1 : 1 ≤ n) (h2 : n ≤ 31) (poc : Int) (ref : Nat → Int) (m : Nat) :
    FInv ref (fun k => relDist n (ref k) poc) (fun k => relDist n (ref k) poc < 0) m
      ((List.range m).foldl (fun (s : Option (Int × Nat)) i => skipStep2 n poc ref s i) none) := by
  induction m with
  | zero => exact Or.inl ⟨rfl, by simp⟩
  | succ m ih =>
    simp only [List.range_succ, List.foldl_append, List.foldl_cons, List.foldl_nil] at ih ⊢
    generalize (List.range m).foldl _ _ = bef at ih ⊢
    have hm := relDist_spec h1 (ref m) poc
    unfold skipStep2
    simp only [getPocDiff_relDist h1 h2]
    by_cases c2 : relDist n (ref m) poc < 0
    · rw [if_pos c2]
      cases bef with
      | none => exact ih.first c2
      | some x =>
        obtain ⟨b, k⟩ := x
        exact ih.next c2 (relDist n (ref m) b > 0) (fun i hb hi hci => by
          subst hb
          have hi' := relDist_spec h1 (ref i) poc
          rw [relDist_sub h1 (c := poc) (by linarith) (by linarith)]
          omega)
    · rw [if_neg c2]
      exact ih.skip c2

theorem FInv.cases {ref d cand s} (h : FInv ref d cand 7 s) :
    (s = none ∧ ∀ j, j < 7 → ¬ cand j) ∨ ∃ i, s = some (ref i, i) ∧ IsFirstMax d cand i := by
  rcases h with h | ⟨i, hi, h, hc, ha⟩
  · exact Or.inl h
  · exact Or.inr ⟨i, h, hi, hc, ha⟩

theorem IsFirstMax.unique {d cand i j} (h : IsFirstMax d cand i) (h' : IsFirstMax d cand j) : i = j := by
  have a := h.2.2 j h'.1 h'.2.1
  have b := h'.2.2 i h.1 h.2.1
  omega

theorem skipModeRefs_spec {n : Nat} (h1 : 1 ≤ n) (h2 : n ≤ 31) (poc : Int) (ref : Nat → Int) (x y : Nat) :
    skipModeRefs n poc ref = some (x, y) ↔
      ∃ i j, IsSkipPair n poc ref i j ∧ x = min i j ∧ y = max i j := by
  obtain ⟨i1, i2⟩ := skipNearest_inv h1 h2 poc ref 7
  unfold skipModeRefs skipNearest
  generalize (List.range 7).foldl _ _ = r at i1 i2 ⊢
  obtain ⟨bef, aft⟩ := r
  simp only at i1 i2
  rcases i1.cases with ⟨e1, hn1⟩ | ⟨i, e1, m1⟩
  · subst e1
    simp only [reduceCtorEq, false_iff]
    rintro ⟨i, j, ⟨hi, _⟩, _⟩
    exact hn1 i hi.1 hi.2.1
  · subst e1
    rcases i2.cases with ⟨e2, hn2⟩ | ⟨j, e2, m2⟩
    · subst e2
      simp only
      have i3 := skipSecond_inv h1 h2 (ref i) ref 7
      unfold skipSecond
      rcases i3.cases with ⟨e3, hn3⟩ | ⟨j, e3, m3⟩
      · rw [e3]
        simp only [reduceCtorEq, false_iff]
        rintro ⟨i', j', ⟨hi, hj⟩, _⟩
        cases hi.unique m1
        rcases hj with hj | ⟨_, hj⟩
        · exact hn2 _ hj.1 hj.2.1
        · exact hn3 _ hj.1 hj.2.1
      · rw [e3]
        simp only [Option.some.injEq, Prod.mk.injEq]
        constructor
        · rintro ⟨rfl, rfl⟩
          exact ⟨i, j, ⟨m1, Or.inr ⟨hn2, m3⟩⟩, rfl, rfl⟩
        · rintro ⟨i', j', ⟨hi, hj⟩, rfl, rfl⟩
          cases hi.unique m1
          rcases hj with hj | ⟨_, hj⟩
          · exact absurd hj.2.1 (hn2 _ hj.1)
          · cases hj.unique m3; exact ⟨rfl, rfl⟩
    · subst e2
      simp only [Option.some.injEq, Prod.mk.injEq]
      constructor
      · rintro ⟨rfl, rfl⟩
        exact ⟨i, j, ⟨m1, Or.inl m2⟩, rfl, rfl⟩
      · rintro ⟨i', j', ⟨hi, hj⟩, rfl, rfl⟩
        cases hi.unique m1
        rcases hj with hj | ⟨hj, _⟩
        · cases hj.unique m2; exact ⟨rfl, rfl⟩
        · exact absurd m2.2.1 (hj _ m2.1)

end Dav1d
