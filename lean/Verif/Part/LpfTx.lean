import Verif.Part.LpfSpec
import Verif.Part.LpfBits
/-!
# Transform trees
-/
set_option linter.unusedVariables false
namespace Dav1d.Part.Lpf

theorem tx_facts : ∀ tx < 19, txW tx = 2 ^ txLw tx ∧ txH tx = 2 ^ txLh tx ∧ txLw tx ≤ 4 ∧ txLh tx ≤ 4 ∧ (tx = 0 ↔ txW tx = 1 ∧ txH tx = 1) ∧
    (tx ≠ 0 → txSub tx < 19 ∧ txW (txSub tx) = (if txH tx ≤ txW tx then txW tx / 2 else txW tx) ∧
      txH (txSub tx) = (if txW tx ≤ txH tx then txH tx / 2 else txH tx) ∧ (¬ txMax tx > 1 → txSub tx = 0)) := by decide

theorem tx_pos {tx : Nat} (h : tx < 19) : 0 < txW tx ∧ 0 < txH tx := by
  obtain ⟨h1, h2, _⟩ := tx_facts tx h
  rw [h1, h2]
  exact ⟨Nat.two_pow_pos _, Nat.two_pow_pos _⟩

theorem lw_le {tx : Nat} (h : tx < 19) : (txLw tx ≥ txLh tx ↔ txW tx ≥ txH tx) ∧ (txLh tx ≥ txLw tx ↔ txH tx ≥ txW tx) := by
  obtain ⟨h1, h2, _⟩ := tx_facts tx h
  rw [h1, h2]
  exact ⟨(Nat.pow_le_pow_iff_right (by decide)).symm, (Nat.pow_le_pow_iff_right (by decide)).symm⟩

/-- The parts of a split transform: row and column. -/
def kids (tx : Nat) : List (Nat × Nat) :=
  (0, 0) :: ((if txW tx ≥ txH tx then [(0, 1)] else []) ++ if txH tx ≥ txW tx then (1, 0) :: (if txW tx ≥ txH tx then [(1, 1)] else []) else [])

theorem kids_mem {tx j i : Nat} : (j, i) ∈ kids tx ↔ (j < 2 ∧ i < 2 ∧ (i = 1 → txH tx ≤ txW tx) ∧ (j = 1 → txW tx ≤ txH tx)) := by
  unfold kids
  by_cases h1 : txW tx ≥ txH tx <;> by_cases h2 : txH tx ≥ txW tx <;> simp [h1, h2] <;> omega

theorem kids_ex {tx : Nat} {Q : Nat → Nat → Prop} : (∃ j i, (j, i) ∈ kids tx ∧ Q j i) ↔
    Q 0 0 ∨ (txW tx ≥ txH tx ∧ Q 0 1) ∨ (txH tx ≥ txW tx ∧ Q 1 0) ∨ (txH tx ≥ txW tx ∧ txW tx ≥ txH tx ∧ Q 1 1) := by
  constructor
  · rintro ⟨j, i, hm, hq⟩
    obtain ⟨m1, m2, m3, m4⟩ := kids_mem.1 hm
    have hj : j = 0 ∨ j = 1 := by omega
    have hi : i = 0 ∨ i = 1 := by omega
    rcases hj with rfl | rfl <;> rcases hi with rfl | rfl
    · exact .inl hq
    · exact .inr (.inl ⟨m3 rfl, hq⟩)
    · exact .inr (.inr (.inl ⟨m4 rfl, hq⟩))
    · exact .inr (.inr (.inr ⟨m4 rfl, m3 rfl, hq⟩))
  · rintro (h | ⟨h1, h⟩ | ⟨h1, h⟩ | ⟨h1, h2, h⟩)
    · exact ⟨0, 0, kids_mem.2 (by omega), h⟩
    · exact ⟨0, 1, kids_mem.2 (by omega), h⟩
    · exact ⟨1, 0, kids_mem.2 (by omega), h⟩
    · exact ⟨1, 1, kids_mem.2 (by omega), h⟩

/-! ## decomp_tx -/

/-- The transform at a unit, for given masks. -/
def leafM (ms : Nat × Nat) : (n depth tx yOff xOff y x r k : Nat) → Nat
  | 0, _, tx, _, _, _, _, _, _ => tx
  | n + 1, depth, tx, yOff, xOff, y, x, r, k =>
    if (if tx = 0 then false else (if depth = 0 then ms.1 else ms.2).testBit (yOff * 4 + xOff)) then
      leafM ms n (depth + 1) (txSub tx) (yOff * 2 + (r - y) / txH (txSub tx)) (xOff * 2 + (k - x) / txW (txSub tx))
        (y + (r - y) / txH (txSub tx) * txH (txSub tx)) (x + (k - x) / txW (txSub tx) * txW (txSub tx)) r k
    else tx

/-- What `txa` has to have for a unit in a transform. -/
structure Good (t : Txa) (r k tx : Nat) : Prop where
  w : t.w r k = min 2 (txLw tx)
  h : t.h r k = min 2 (txLh tx)
  sx : k % txW tx = 0 → t.stepX r k = txW tx
  sy : r % txH tx = 0 → t.stepY r k = txH tx

/-- The entries for a unit are the same. -/
structure Same (t a : Txa) (r k : Nat) : Prop where
  w : t.w r k = a.w r k
  h : t.h r k = a.h r k
  sx : t.stepX r k = a.stepX r k
  sy : t.stepY r k = a.stepY r k

theorem Same.refl (a : Txa) (r k : Nat) : Same a a r k := ⟨rfl, rfl, rfl, rfl⟩
theorem Same.trans {a b c : Txa} {r k : Nat} (h1 : Same a b r k) (h2 : Same b c r k) : Same a c r k :=
  ⟨h1.w.trans h2.w, h1.h.trans h2.h, h1.sx.trans h2.sx, h1.sy.trans h2.sy⟩
theorem Same.good {t a : Txa} {r k tx : Nat} (h : Same t a r k) (g : Good a r k tx) : Good t r k tx :=
  ⟨h.w.trans g.w, h.h.trans g.h, fun e => h.sx.trans (g.sx e), fun e => h.sy.trans (g.sy e)⟩

/-- The unit is in the rectangle. -/
def InR (y x h w r k : Nat) : Prop := y ≤ r ∧ r < y + h ∧ x ≤ k ∧ k < x + w

/-- Several assignments to rectangles: each gives the right values inside its own one and changes nothing outside. -/
theorem fold_good {ι : Type} (g : Txa → ι → Txa) (Own : ι → Prop) (r k tx : Nat) : ∀ (l : List ι),
    (∀ q ∈ l, ∀ a, (Own q → Good (g a q) r k tx) ∧ (¬ Own q → Same (g a q) a r k)) →
    (∀ a, (∀ q ∈ l, ¬ Own q) → Same (l.foldl g a) a r k) ∧ (∀ a, (Good a r k tx ∨ ∃ q ∈ l, Own q) → Good (l.foldl g a) r k tx)
  | [], h => ⟨fun a _ => Same.refl _ _ _, fun a ha => ha.elim id fun ⟨q, hq, _⟩ => absurd hq (by simp)⟩
  | q :: l, h => by
    obtain ⟨i1, i2⟩ := fold_good g Own r k tx l (fun q' hq' => h q' (List.mem_cons_of_mem _ hq'))
    constructor
    · intro a hno
      rw [List.foldl_cons]
      exact (i1 _ fun q' hq' => hno q' (List.mem_cons_of_mem _ hq')).trans ((h q List.mem_cons_self a).2 (hno q List.mem_cons_self))
    · intro a ha
      rw [List.foldl_cons]
      apply i2
      by_cases ho : Own q
      · exact .inl ((h q List.mem_cons_self a).1 ho)
      · rcases ha with ha | ⟨q', hq', ho'⟩
        · exact .inl (((h q List.mem_cons_self a).2 ho).good ha)
        · rcases List.mem_cons.1 hq' with rfl | hq'
          · exact absurd ho' ho
          · exact .inr ⟨q', hq', ho'⟩

theorem set_good {tx : Nat} (ht : tx < 19) {y x r k : Nat} (hy : y % txH tx = 0) (hx : x % txW tx = 0) (a : Txa) :
    (InR y x (txH tx) (txW tx) r k → Good (a.set tx y x) r k tx) ∧ (¬ InR y x (txH tx) (txW tx) r k → Same (a.set tx y x) a r k) := by
  obtain ⟨p1, p2⟩ := tx_pos ht
  unfold InR Txa.set
  constructor
  · rintro ⟨h1, h2, h3, h4⟩
    refine ⟨if_pos ⟨h1, h2, h3, h4⟩, if_pos ⟨h1, h2, h3, h4⟩, fun e => if_pos ⟨h1, h2, ?_⟩, fun e => if_pos ⟨?_, h3, h4⟩⟩
    · have e1 := Nat.div_add_mod k (txW tx)
      have e2 := Nat.div_add_mod x (txW tx)
      have : k / txW tx = x / txW tx := by
        rw [Nat.div_eq_iff p1, Nat.mul_comm]; omega
      rw [this] at e1; omega
    · have e1 := Nat.div_add_mod r (txH tx)
      have e2 := Nat.div_add_mod y (txH tx)
      have : r / txH tx = y / txH tx := by
        rw [Nat.div_eq_iff p2, Nat.mul_comm]; omega
      rw [this] at e1; omega
  · intro hno
    refine ⟨if_neg hno, if_neg hno, if_neg ?_, if_neg ?_⟩
    · rintro ⟨h1, h2, rfl⟩; exact hno ⟨h1, h2, Nat.le_refl _, by omega⟩
    · rintro ⟨rfl, h1, h2⟩; exact hno ⟨Nat.le_refl _, by omega, h1, h2⟩

theorem decomp_kids (ms : Nat × Nat) (n depth : Nat) {tx : Nat} (ht : tx < 19) (h0 : tx ≠ 0) (yOff xOff y x : Nat) (a : Txa)
    (hs : (if depth = 0 then ms.1 else ms.2).testBit (yOff * 4 + xOff) = true) :
    decompTx ms (n + 1) depth tx yOff xOff y x a = (kids tx).foldl (fun a q =>
      decompTx ms n (depth + 1) (txSub tx) (yOff * 2 + q.1) (xOff * 2 + q.2) (y + q.1 * txH (txSub tx)) (x + q.2 * txW (txSub tx)) a) a := by
  obtain ⟨-, -, -, -, -, h6⟩ := tx_facts tx ht
  obtain ⟨-, e1, e2, -⟩ := h6 h0
  rw [decompTx]
  simp only [h0, if_false, hs, if_true]
  have s1 : txW tx >>> 1 = txW tx / 2 := Nat.shiftRight_eq_div_pow _ 1
  have s2 : txH tx >>> 1 = txH tx / 2 := Nat.shiftRight_eq_div_pow _ 1
  unfold kids
  by_cases h1 : txW tx ≥ txH tx <;> by_cases h2 : txH tx ≥ txW tx
  · rw [if_pos h1] at e1; rw [if_pos h2] at e2
    simp only [h1, h2, if_true, List.foldl_cons, List.foldl_append, List.foldl_nil, Nat.add_zero, Nat.zero_mul, Nat.one_mul, s1, s2, ← e1, ← e2]
  · rw [if_pos h1] at e1
    simp only [h1, h2, if_true, if_false, List.foldl_cons, List.foldl_append, List.foldl_nil, Nat.add_zero, Nat.zero_mul, Nat.one_mul, s1, ← e1]
  · rw [if_pos h2] at e2
    simp only [h1, h2, if_true, if_false, List.foldl_cons, List.foldl_append, List.foldl_nil, Nat.add_zero, Nat.zero_mul, Nat.one_mul, s2, ← e2]
  · omega

/-- The parts of a split transform: sizes. -/
theorem kid_dims {tx : Nat} (ht : tx < 19) (h0 : tx ≠ 0) {j i : Nat} (hm : (j, i) ∈ kids tx) :
    j * txH (txSub tx) + txH (txSub tx) ≤ txH tx ∧ i * txW (txSub tx) + txW (txSub tx) ≤ txW tx := by
  obtain ⟨a1, a2, -, -, -, h6⟩ := tx_facts tx ht
  obtain ⟨-, e1, e2, -⟩ := h6 h0
  obtain ⟨m1, m2, m3, m4⟩ := kids_mem.1 hm
  rw [e1, e2]
  have hj : j = 0 ∨ j = 1 := by omega
  have hi : i = 0 ∨ i = 1 := by omega
  constructor
  · rcases hj with rfl | rfl
    · split <;> omega
    · rw [if_pos (m4 rfl)]; omega
  · rcases hi with rfl | rfl
    · split <;> omega
    · rw [if_pos (m3 rfl)]; omega

/-- The part with a unit. -/
theorem kid_at {tx : Nat} (ht : tx < 19) (h0 : tx ≠ 0) {y x r k : Nat} (hin : InR y x (txH tx) (txW tx) r k) :
    ((r - y) / txH (txSub tx), (k - x) / txW (txSub tx)) ∈ kids tx ∧
    ∀ j i, (j, i) ∈ kids tx → (InR (y + j * txH (txSub tx)) (x + i * txW (txSub tx)) (txH (txSub tx)) (txW (txSub tx)) r k ↔
      j = (r - y) / txH (txSub tx) ∧ i = (k - x) / txW (txSub tx)) := by
  have hf := tx_facts tx ht
  obtain ⟨a1, a2, -, -, a5, h6⟩ := hf
  obtain ⟨hl, e1, e2, -⟩ := h6 h0
  obtain ⟨p1, p2⟩ := tx_pos hl
  unfold InR at hin ⊢
  have hw : (txW (txSub tx) = txW tx ∧ ¬ txH tx ≤ txW tx) ∨ (2 * txW (txSub tx) = txW tx ∧ txH tx ≤ txW tx) := by
    by_cases hc : txH tx ≤ txW tx
    · rw [if_pos hc] at e1
      refine .inr ⟨?_, hc⟩
      rw [e1]
      cases hlw : txLw tx with
      | zero =>
        exfalso
        rw [hlw] at a1
        refine h0 (a5.2 ⟨by rw [a1], ?_⟩)
        have := tx_pos ht; omega
      | succ m => rw [a1, hlw, Nat.pow_succ]; omega
    · rw [if_neg hc] at e1; exact .inl ⟨e1, hc⟩
  have hh : (txH (txSub tx) = txH tx ∧ ¬ txW tx ≤ txH tx) ∨ (2 * txH (txSub tx) = txH tx ∧ txW tx ≤ txH tx) := by
    by_cases hc : txW tx ≤ txH tx
    · rw [if_pos hc] at e2
      refine .inr ⟨?_, hc⟩
      rw [e2]
      cases hlw : txLh tx with
      | zero =>
        exfalso
        rw [hlw] at a2
        refine h0 (a5.2 ⟨?_, by rw [a2]⟩)
        have := tx_pos ht; omega
      | succ m => rw [a2, hlw, Nat.pow_succ]; omega
    · rw [if_neg hc] at e2; exact .inl ⟨e2, hc⟩
  generalize txW (txSub tx) = sw at *
  generalize txH (txSub tx) = sh at *
  constructor
  · rw [kids_mem]
    refine ⟨?_, ?_, ?_, ?_⟩
    · rw [Nat.div_lt_iff_lt_mul p2]; omega
    · rw [Nat.div_lt_iff_lt_mul p1]; omega
    · intro hi
      rcases hw with ⟨hw, hc⟩ | ⟨hw, hc⟩
      · rw [Nat.div_eq_of_lt (by omega)] at hi; omega
      · exact hc
    · intro hi
      rcases hh with ⟨hw, hc⟩ | ⟨hw, hc⟩
      · rw [Nat.div_eq_of_lt (by omega)] at hi; omega
      · exact hc
  · intro j i _
    constructor
    · rintro ⟨h1, h2, h3, h4⟩
      constructor
      · symm; rw [Nat.div_eq_iff p2]; omega
      · symm; rw [Nat.div_eq_iff p1]; omega
    · rintro ⟨rfl, rfl⟩
      have d1 := Nat.div_add_mod (r - y) sh
      have d2 := Nat.div_add_mod (k - x) sw
      have m1 := Nat.mod_lt (r - y) p2
      have m2 := Nat.mod_lt (k - x) p1
      rw [Nat.mul_comm] at d1 d2
      refine ⟨?_, ?_, ?_, ?_⟩ <;> omega

theorem mod_kid {tx : Nat} (ht : tx < 19) (h0 : tx ≠ 0) {y x j i : Nat} (hy : y % txH tx = 0) (hx : x % txW tx = 0) :
    (y + j * txH (txSub tx)) % txH (txSub tx) = 0 ∧ (x + i * txW (txSub tx)) % txW (txSub tx) = 0 := by
  obtain ⟨a1, a2, -, -, -, h6⟩ := tx_facts tx ht
  obtain ⟨hl, e1, e2, -⟩ := h6 h0
  obtain ⟨b1, b2, _⟩ := tx_facts _ hl
  have p1 := tx_pos ht
  have hw : txW (txSub tx) ∣ txW tx := by
    rw [b1, a1]
    refine Nat.pow_dvd_pow 2 ((Nat.pow_le_pow_iff_right (a := 2) (by decide)).1 ?_)
    rw [← b1, ← a1, e1]; split <;> omega
  have hh : txH (txSub tx) ∣ txH tx := by
    rw [b2, a2]
    refine Nat.pow_dvd_pow 2 ((Nat.pow_le_pow_iff_right (a := 2) (by decide)).1 ?_)
    rw [← b2, ← a2, e2]; split <;> omega
  constructor
  · rw [Nat.add_mul_mod_self_right]
    exact Nat.mod_eq_zero_of_dvd (Nat.dvd_trans hh (Nat.dvd_of_mod_eq_zero hy))
  · rw [Nat.add_mul_mod_self_right]
    exact Nat.mod_eq_zero_of_dvd (Nat.dvd_trans hw (Nat.dvd_of_mod_eq_zero hx))

/-- decomp_tx writes the sizes of the transforms inside the node and nothing outside. -/
theorem decomp_good (ms : Nat × Nat) : ∀ (n depth tx yOff xOff y x : Nat) (a : Txa) (r k : Nat), tx < 19 → y % txH tx = 0 → x % txW tx = 0 →
    (InR y x (txH tx) (txW tx) r k → Good (decompTx ms n depth tx yOff xOff y x a) r k (leafM ms n depth tx yOff xOff y x r k)) ∧
    (¬ InR y x (txH tx) (txW tx) r k → Same (decompTx ms n depth tx yOff xOff y x a) a r k)
  | 0, depth, tx, yOff, xOff, y, x, a, r, k, ht, hy, hx => by
    unfold decompTx leafM
    exact set_good ht hy hx a
  | n + 1, depth, tx, yOff, xOff, y, x, a, r, k, ht, hy, hx => by
    by_cases hs : (if tx = 0 then false else (if depth = 0 then ms.1 else ms.2).testBit (yOff * 4 + xOff)) = true
    · have h0 : tx ≠ 0 := by intro h; rw [if_pos h] at hs; cases hs
      have hs' := hs
      rw [if_neg h0] at hs'
      rw [decomp_kids ms n depth ht h0 _ _ _ _ _ hs']
      have hl := ((tx_facts tx ht).2.2.2.2.2 h0).1
      have each := fun (q : Nat × Nat) (a : Txa) => decomp_good ms n (depth + 1) (txSub tx) (yOff * 2 + q.1) (xOff * 2 + q.2) (y + q.1 * txH (txSub tx))
        (x + q.2 * txW (txSub tx)) a r k hl (mod_kid (j := q.1) (i := q.2) ht h0 hy hx).1 (mod_kid (j := q.1) (i := q.2) ht h0 hy hx).2
      constructor
      · intro hin
        obtain ⟨k1, k2⟩ := kid_at ht h0 hin
        have hle : leafM ms (n + 1) depth tx yOff xOff y x r k = leafM ms n (depth + 1) (txSub tx) (yOff * 2 + (r - y) / txH (txSub tx)) (xOff * 2 + (k - x) / txW (txSub tx))
            (y + (r - y) / txH (txSub tx) * txH (txSub tx)) (x + (k - x) / txW (txSub tx) * txW (txSub tx)) r k := by
          rw [leafM, if_pos hs]
        rw [hle]
        refine (fold_good _ (fun q => InR (y + q.1 * txH (txSub tx)) (x + q.2 * txW (txSub tx)) (txH (txSub tx)) (txW (txSub tx)) r k) r k _ (kids tx) ?_).2 a
          (.inr ⟨_, k1, (k2 _ _ k1).2 ⟨rfl, rfl⟩⟩)
        rintro ⟨j, i⟩ hq a
        refine ⟨fun ho => ?_, (each (j, i) a).2⟩
        have := (each (j, i) a).1 ho
        obtain ⟨rfl, rfl⟩ := (k2 j i hq).1 ho
        exact this
      · intro hno
        have : ∀ q ∈ kids tx, ¬ InR (y + q.1 * txH (txSub tx)) (x + q.2 * txW (txSub tx)) (txH (txSub tx)) (txW (txSub tx)) r k := by
          rintro ⟨j, i⟩ hq hin
          have := kid_dims ht h0 hq
          unfold InR at hin hno
          dsimp only at hin
          omega
        exact (fold_good _ (fun q => InR (y + q.1 * txH (txSub tx)) (x + q.2 * txW (txSub tx)) (txH (txSub tx)) (txW (txSub tx)) r k) r k 0 (kids tx)
          (fun q hq a => ⟨fun ho => absurd ho (this q hq), (each q a).2⟩)).1 a this
    · have e1 : decompTx ms (n + 1) depth tx yOff xOff y x a = a.set tx y x := by
        unfold decompTx; dsimp only; rw [if_neg hs]
      have e2 : leafM ms (n + 1) depth tx yOff xOff y x r k = tx := by unfold leafM; rw [if_neg hs]
      rw [e1, e2]
      exact set_good ht hy hx a

/-- The units of the transform at a unit have the same transform. -/
theorem leaf_cell (ms : Nat × Nat) : ∀ (n depth tx yOff xOff y x r k r' k' : Nat), tx < 19 → y % txH tx = 0 → x % txW tx = 0 →
    InR y x (txH tx) (txW tx) r k →
    leafM ms n depth tx yOff xOff y x r k < 19 ∧ txW (leafM ms n depth tx yOff xOff y x r k) ∣ txW tx ∧ txH (leafM ms n depth tx yOff xOff y x r k) ∣ txH tx ∧
    (r' / txH (leafM ms n depth tx yOff xOff y x r k) = r / txH (leafM ms n depth tx yOff xOff y x r k) →
     k' / txW (leafM ms n depth tx yOff xOff y x r k) = k / txW (leafM ms n depth tx yOff xOff y x r k) →
     InR y x (txH tx) (txW tx) r' k' ∧ leafM ms n depth tx yOff xOff y x r' k' = leafM ms n depth tx yOff xOff y x r k)
  | 0, depth, tx, yOff, xOff, y, x, r, k, r', k', ht, hy, hx, hin => by
    simp only [leafM]
    refine ⟨ht, Nat.dvd_refl _, Nat.dvd_refl _, fun e1 e2 => ⟨?_, trivial⟩⟩
    obtain ⟨p1, p2⟩ := tx_pos ht
    unfold InR at hin ⊢
    have a1 := Nat.div_add_mod r (txH tx)
    have a2 := Nat.div_add_mod r' (txH tx)
    have a3 := Nat.div_add_mod k (txW tx)
    have a4 := Nat.div_add_mod k' (txW tx)
    have a5 := Nat.div_add_mod y (txH tx)
    have a6 := Nat.div_add_mod x (txW tx)
    have b1 := Nat.mod_lt r' p2
    have b2 := Nat.mod_lt k' p1
    have c1 : r / txH tx = y / txH tx := by rw [Nat.div_eq_iff p2, Nat.mul_comm]; omega
    have c2 : k / txW tx = x / txW tx := by rw [Nat.div_eq_iff p1, Nat.mul_comm]; omega
    rw [e1, c1] at a2
    rw [e2, c2] at a4
    omega
  | n + 1, depth, tx, yOff, xOff, y, x, r, k, r', k', ht, hy, hx, hin => by
    by_cases hs : (if tx = 0 then false else (if depth = 0 then ms.1 else ms.2).testBit (yOff * 4 + xOff)) = true
    · have h0 : tx ≠ 0 := by intro h; rw [if_pos h] at hs; cases hs
      have hl := ((tx_facts tx ht).2.2.2.2.2 h0).1
      obtain ⟨k1, k2⟩ := kid_at ht h0 hin
      have hle : ∀ r k, leafM ms (n + 1) depth tx yOff xOff y x r k = leafM ms n (depth + 1) (txSub tx) (yOff * 2 + (r - y) / txH (txSub tx)) (xOff * 2 + (k - x) / txW (txSub tx))
            (y + (r - y) / txH (txSub tx) * txH (txSub tx)) (x + (k - x) / txW (txSub tx) * txW (txSub tx)) r k := by
        intro r k; rw [leafM, if_pos hs]
      have hm := mod_kid (y := y) (x := x) (j := 0) (i := 0) ht h0 hy hx
      rw [hle]
      generalize hj : (r - y) / txH (txSub tx) = j at *
      generalize hi : (k - x) / txW (txSub tx) = i at *
      have hmk := mod_kid (y := y) (x := x) (j := j) (i := i) ht h0 hy hx
      obtain ⟨i1, i2, i3, i4⟩ := leaf_cell ms n (depth + 1) (txSub tx) (yOff * 2 + j) (xOff * 2 + i) (y + j * txH (txSub tx)) (x + i * txW (txSub tx)) r k r' k' hl hmk.1 hmk.2
        ((k2 j i k1).2 ⟨rfl, rfl⟩)
      have hwd : txW (txSub tx) ∣ txW tx ∧ txH (txSub tx) ∣ txH tx := by
        have q := mod_kid (y := txH tx) (x := txW tx) (j := 0) (i := 0) ht h0 (Nat.mod_self _) (Nat.mod_self _)
        simp only [Nat.zero_mul, Nat.add_zero] at q
        exact ⟨Nat.dvd_of_mod_eq_zero q.2, Nat.dvd_of_mod_eq_zero q.1⟩
      refine ⟨i1, Nat.dvd_trans i2 hwd.1, Nat.dvd_trans i3 hwd.2, fun e1 e2 => ?_⟩
      obtain ⟨j1, j2⟩ := i4 e1 e2
      have hd := kid_dims ht h0 k1
      have hin' : InR y x (txH tx) (txW tx) r' k' := by unfold InR at j1 ⊢; omega
      refine ⟨hin', ?_⟩
      obtain ⟨u1, u2⟩ := ((kid_at ht h0 hin').2 j i k1).1 j1
      rw [hle, ← u1, ← u2, j2]
    · have e : ∀ r k, leafM ms (n + 1) depth tx yOff xOff y x r k = tx := by intro r k; unfold leafM; rw [if_neg hs]
      rw [e, e]
      have := leaf_cell ms 0 depth tx yOff xOff y x r k r' k' ht hy hx hin
      simpa only [leafM] using this

theorem decompAll_good (ms : Nat × Nat) {tx : Nat} (ht : tx < 19) {h4 w4 r k : Nat} (hr : r < h4) (hk : k < w4) (a : Txa) :
    Good (decompAll ms tx h4 w4 a) r k (leafM ms 2 0 tx (r / txH tx) (k / txW tx) (r / txH tx * txH tx) (k / txW tx * txW tx) r k) := by
  obtain ⟨p1, p2⟩ := tx_pos ht
  have hrd := Nat.div_add_mod r (txH tx)
  have hkd := Nat.div_add_mod k (txW tx)
  have hrm := Nat.mod_lt r p2
  have hkm := Nat.mod_lt k p1
  have hr1 : r / txH tx * txH tx = txH tx * (r / txH tx) := Nat.mul_comm ..
  have hk1 : k / txW tx * txW tx = txW tx * (k / txW tx) := Nat.mul_comm ..
  unfold decompAll
  refine (fold_good _ (fun y => y ≤ r ∧ r < y + txH tx) r k _ _ ?_).2 a (.inr ⟨r / txH tx * txH tx, ?_, ?_⟩)
  · intro y hy a
    rw [forList_iff p2 (by omega)] at hy
    have hy0 : y % txH tx = 0 := by simpa using hy.2.2
    have each : ∀ x ∈ forList (txW tx) w4 w4 0, ∀ a, (InR y x (txH tx) (txW tx) r k →
          Good (decompTx ms 2 0 tx (y / txH tx) (x / txW tx) y x a) r k (leafM ms 2 0 tx (r / txH tx) (k / txW tx) (r / txH tx * txH tx) (k / txW tx * txW tx) r k)) ∧
        (¬ InR y x (txH tx) (txW tx) r k → Same (decompTx ms 2 0 tx (y / txH tx) (x / txW tx) y x a) a r k) := by
      intro x hx a
      rw [forList_iff p1 (by omega)] at hx
      have hx0 : x % txW tx = 0 := by simpa using hx.2.2
      obtain ⟨d1, d2⟩ := decomp_good ms 2 0 tx (y / txH tx) (x / txW tx) y x a r k ht hy0 hx0
      refine ⟨fun ho => ?_, d2⟩
      have := d1 ho
      have e1 := Nat.div_add_mod y (txH tx)
      have e2 := Nat.div_add_mod x (txW tx)
      unfold InR at ho
      have c1 : r / txH tx = y / txH tx := by rw [Nat.div_eq_iff p2, Nat.mul_comm]; omega
      have c2 : k / txW tx = x / txW tx := by rw [Nat.div_eq_iff p1, Nat.mul_comm]; omega
      rw [c1, c2, Nat.mul_comm (y / _), Nat.mul_comm (x / _), show txH tx * (y / txH tx) = y by omega, show txW tx * (x / txW tx) = x by omega]
      exact this
    have F := fold_good (fun a x => decompTx ms 2 0 tx (y / txH tx) (x / txW tx) y x a) (fun x => InR y x (txH tx) (txW tx) r k) r k _
      (forList (txW tx) w4 w4 0) each
    constructor
    · intro ho
      refine F.2 a (.inr ⟨k / txW tx * txW tx, ?_, ?_⟩)
      · rw [forList_iff p1 (by omega)]
        refine ⟨Nat.zero_le _, by omega, ?_⟩
        rw [Nat.sub_zero, Nat.mul_mod_left]
      · unfold InR; omega
    · intro ho
      refine F.1 a fun x hx hin => ho ?_
      unfold InR at hin; omega
  · rw [forList_iff p2 (by omega)]
    refine ⟨Nat.zero_le _, by omega, ?_⟩
    rw [Nat.sub_zero, Nat.mul_mod_left]
  · omega

/-! ## read_tx_tree -/

theorem rd_leaf (bw bh bx by' : Nat) (split : Nat → Nat → Nat → Bool) (tx xo yo x y : Nat) (ms : Nat × Nat) :
    readTxTree bw bh bx by' split 1 1 tx xo yo x y ms =
      if 0 < tx ∧ split 1 y x = true then (ms.1, ms.2 ||| 1 <<< (yo * 4 + xo)) else ms := by
  rw [readTxTree]
  simp only [readTxTree, ite_self]
  by_cases h : 0 < tx
  · cases hs : split 1 y x <;> simp [h]
  · simp [h]

theorem one_bit (n b : Nat) : (1 <<< n).testBit b = true ↔ b = n := by
  rw [Nat.shiftLeft_eq, Nat.one_mul, Nat.testBit_two_pow, decide_eq_true_iff]
  omega

theorem leaf_bits (bw bh bx by' : Nat) (split : Nat → Nat → Nat → Bool) (tx xo yo x y : Nat) (ms : Nat × Nat) (b : Nat) :
    ((readTxTree bw bh bx by' split 1 1 tx xo yo x y ms).1 = ms.1) ∧
    ((readTxTree bw bh bx by' split 1 1 tx xo yo x y ms).2.testBit b = true ↔ ms.2.testBit b = true ∨ (b = yo * 4 + xo ∧ 0 < tx ∧ split 1 y x = true)) := by
  rw [rd_leaf]
  by_cases h : 0 < tx ∧ split 1 y x = true
  · rw [if_pos h]
    refine ⟨rfl, ?_⟩
    rw [Nat.testBit_or, Bool.or_eq_true, one_bit]
    simp [h]
  · rw [if_neg h]
    refine ⟨rfl, ?_⟩
    constructor
    · exact .inl
    · rintro (h1 | ⟨-, h1⟩)
      · exact h1
      · exact absurd h1 h

/-- The bits of one tree. -/
theorem tree_bits (bw bh bx by' : Nat) (split : Nat → Nat → Nat → Bool) {tx : Nat} (ht : tx < 19) (xo yo x y : Nat) (ms : Nat × Nat) (b : Nat) :
    ((readTxTree bw bh bx by' split 2 0 tx xo yo x y ms).1.testBit b = true ↔ ms.1.testBit b = true ∨ (b = yo * 4 + xo ∧ 0 < tx ∧ split 0 y x = true)) ∧
    ((readTxTree bw bh bx by' split 2 0 tx xo yo x y ms).2.testBit b = true ↔ ms.2.testBit b = true ∨
      (0 < tx ∧ split 0 y x = true ∧ txMax tx > 1 ∧ ∃ j i, (j, i) ∈ kids tx ∧
        (i = 1 → bx + x + txW (txSub tx) < bw) ∧ (j = 1 → by' + y + txH (txSub tx) < bh) ∧
        b = (yo * 2 + j) * 4 + (xo * 2 + i) ∧ 0 < txSub tx ∧ split 1 (y + j * txH (txSub tx)) (x + i * txW (txSub tx)) = true)) := by
  obtain ⟨l1, l2⟩ := lw_le ht
  have L := fun xo yo x y ms => leaf_bits bw bh bx by' split (txSub tx) xo yo x y ms b
  rw [readTxTree]
  by_cases hs : 0 < tx ∧ split 0 y x = true
  · simp only [hs.1, hs.2, gt_iff_lt, if_true, Bool.true_and, decide_eq_true_eq]
    have base : (ms.1 ||| 1 <<< (yo * 4 + xo)).testBit b = true ↔ ms.1.testBit b = true ∨ (b = yo * 4 + xo ∧ True ∧ True) := by
      rw [Nat.testBit_or, Bool.or_eq_true, one_bit]; simp
    by_cases hm : txMax tx > 1
    · rw [if_pos hm]
      simp only [l1, l2]
      rw [kids_ex]
      by_cases h1 : txW tx ≥ txH tx <;> by_cases h2 : txH tx ≥ txW tx <;>
        by_cases h3 : bx + x + txW (txSub tx) < bw <;> by_cases h4 : by' + y + txH (txSub tx) < bh <;>
        simp only [h1, h2, h3, h4, and_true, and_false, and_self, if_true, if_false, (L _ _ _ _ _).1, (L _ _ _ _ _).2, base, true_and, hm,
          implies_true, Nat.zero_ne_one, false_and, or_false, Nat.zero_mul, Nat.one_mul, Nat.add_zero, or_assoc, imp_false, not_true_eq_false, not_false_eq_true, false_or]
    · rw [if_neg hm]
      refine ⟨base, ?_⟩
      simp [hm]
  · have : (if tx > 0 then split 0 y x else false) = false := by
      by_cases h0 : tx > 0
      · rw [if_pos h0]
        cases hx : split 0 y x with
        | false => rfl
        | true => exact absurd ⟨h0, hx⟩ hs
      · rw [if_neg h0]
    simp only [this, Bool.false_and, Bool.false_eq_true, if_false]
    constructor
    · constructor
      · exact .inl
      · rintro (h | ⟨-, h⟩)
        · exact h
        · exact absurd h hs
    · constructor
      · exact .inl
      · rintro (h | ⟨h1, h2, -⟩)
        · exact h
        · exact absurd ⟨h1, h2⟩ hs

theorem fold_bits {α ι : Type} (g : α → ι → α) (B : α → Prop) (P : ι → Prop) : ∀ (l : List ι) (a : α), (∀ q ∈ l, ∀ a, B (g a q) ↔ B a ∨ P q) →
    (B (l.foldl g a) ↔ B a ∨ ∃ q ∈ l, P q)
  | [], a, h => by simp
  | q :: l, a, h => by
    rw [List.foldl_cons, fold_bits g B P l _ (fun q' hq' => h q' (List.mem_cons_of_mem _ hq')), h q List.mem_cons_self]
    simp only [List.mem_cons, exists_eq_or_imp, or_assoc]

theorem vartx_bits (f : Frame) (c : Call) {b : LBlk} (ht : b.ytx < 19) (n : Nat) :
    ((readVartx f c b).1.testBit n = true ↔ ∃ y ∈ forList (txH b.ytx) (bsH c.bs) (bsH c.bs) 0, ∃ x ∈ forList (txW b.ytx) (bsW c.bs) (bsW c.bs) 0,
      n = y / txH b.ytx * 4 + x / txW b.ytx ∧ 0 < b.ytx ∧ b.split 0 y x = true) ∧
    ((readVartx f c b).2.testBit n = true ↔ ∃ y ∈ forList (txH b.ytx) (bsH c.bs) (bsH c.bs) 0, ∃ x ∈ forList (txW b.ytx) (bsW c.bs) (bsW c.bs) 0,
      (0 < b.ytx ∧ b.split 0 y x = true ∧ txMax b.ytx > 1 ∧ ∃ j i, (j, i) ∈ kids b.ytx ∧
        (i = 1 → c.x + x + txW (txSub b.ytx) < f.bw) ∧ (j = 1 → c.y + y + txH (txSub b.ytx) < f.bh) ∧
        n = (y / txH b.ytx * 2 + j) * 4 + (x / txW b.ytx * 2 + i) ∧ 0 < txSub b.ytx ∧
        b.split 1 (y + j * txH (txSub b.ytx)) (x + i * txW (txSub b.ytx)) = true)) := by
  unfold readVartx
  constructor
  · rw [fold_bits (fun ms y => (forList (txW b.ytx) (bsW c.bs) (bsW c.bs) 0).foldl (fun ms x =>
      readTxTree f.bw f.bh c.x c.y b.split 2 0 b.ytx (x / txW b.ytx) (y / txH b.ytx) x y ms) ms) (fun ms : Nat × Nat => ms.1.testBit n = true) (fun y =>
        ∃ x ∈ forList (txW b.ytx) (bsW c.bs) (bsW c.bs) 0, n = y / txH b.ytx * 4 + x / txW b.ytx ∧ 0 < b.ytx ∧ b.split 0 y x = true) _ (0, 0)]
    · simp
    · intro y _ ms
      exact fold_bits (fun ms x => readTxTree f.bw f.bh c.x c.y b.split 2 0 b.ytx (x / txW b.ytx) (y / txH b.ytx) x y ms) (fun ms : Nat × Nat => ms.1.testBit n = true) _ _ ms
        (fun x _ ms => (tree_bits f.bw f.bh c.x c.y b.split ht (x / txW b.ytx) (y / txH b.ytx) x y ms n).1)
  · rw [fold_bits (fun ms y => (forList (txW b.ytx) (bsW c.bs) (bsW c.bs) 0).foldl (fun ms x =>
      readTxTree f.bw f.bh c.x c.y b.split 2 0 b.ytx (x / txW b.ytx) (y / txH b.ytx) x y ms) ms) (fun ms : Nat × Nat => ms.2.testBit n = true) (fun y =>
        ∃ x ∈ forList (txW b.ytx) (bsW c.bs) (bsW c.bs) 0, (0 < b.ytx ∧ b.split 0 y x = true ∧ txMax b.ytx > 1 ∧ ∃ j i, (j, i) ∈ kids b.ytx ∧
        (i = 1 → c.x + x + txW (txSub b.ytx) < f.bw) ∧ (j = 1 → c.y + y + txH (txSub b.ytx) < f.bh) ∧
        n = (y / txH b.ytx * 2 + j) * 4 + (x / txW b.ytx * 2 + i) ∧ 0 < txSub b.ytx ∧
        b.split 1 (y + j * txH (txSub b.ytx)) (x + i * txW (txSub b.ytx)) = true)) _ (0, 0)]
    · simp
    · intro y _ ms
      exact fold_bits (fun ms x => readTxTree f.bw f.bh c.x c.y b.split 2 0 b.ytx (x / txW b.ytx) (y / txH b.ytx) x y ms) (fun ms : Nat × Nat => ms.2.testBit n = true) _ _ ms
        (fun x _ ms => (tree_bits f.bw f.bh c.x c.y b.split ht (x / txW b.ytx) (y / txH b.ytx) x y ms n).2)

theorem node_mem {s e k : Nat} (hs : 0 < s) (hk : k < e) : k / s * s ∈ forList s e e 0 := by
  rw [forList_iff hs (by omega)]
  have := Nat.div_mul_le_self k s
  refine ⟨by omega, by omega, ?_⟩
  rw [Nat.sub_zero, Nat.mul_mod_left]

theorem node_of {s e v : Nat} (hs : 0 < s) (h : v ∈ forList s e e 0) (he : e ≤ 2 * s) : v / s < 2 ∧ v = v / s * s := by
  rw [forList_iff hs (by omega)] at h
  obtain ⟨-, h2, h3⟩ := h
  rw [Nat.sub_zero] at h3
  refine ⟨?_, ?_⟩
  · rw [Nat.div_lt_iff_lt_mul hs]; omega
  · have := Nat.div_add_mod v s
    rw [Nat.mul_comm] at this; omega

theorem leaf_stop {ms : Nat × Nat} {n depth tx yOff xOff y x r k : Nat}
    (h : (if tx = 0 then false else (if depth = 0 then ms.1 else ms.2).testBit (yOff * 4 + xOff)) = false) :
    leafM ms (n + 1) depth tx yOff xOff y x r k = tx := by
  rw [leafM, h]; rfl

theorem varTx_stop {split : Nat → Nat → Nat → Bool} {n depth w h row col y x : Nat} (hh : (w = 1 ∧ h = 1) ∨ split depth row col = false) :
    Av1.varTx split (n + 1) depth w h row col y x = (w, h) := by
  rw [Av1.varTx, if_pos hh]

theorem inj1 {a b a' b' : Nat} (h : a * 4 + b = a' * 4 + b') (h1 : b < 2) (h2 : b' < 2) : a = a' ∧ b = b' := by omega

theorem inj2 {a b a' b' j i j' i' : Nat} (h : (a' * 2 + j') * 4 + (b' * 2 + i') = (a * 2 + j) * 4 + (b * 2 + i)) (h1 : b < 2) (h2 : b' < 2) (h3 : j < 2) (h4 : j' < 2)
    (h5 : i < 2) (h6 : i' < 2) : a = a' ∧ b = b' ∧ j = j' ∧ i = i' := by omega

/-- The transform that decomp_tx finds for a unit is the one of the specification. -/
theorem leaf_dims (f : Frame) (c : Call) {b : LBlk} (ht : b.ytx < 19)
    (hv : (∀ d r k, b.split d r k = false) ∨ (bsW c.bs ≤ 2 * txW b.ytx ∧ bsH c.bs ≤ 2 * txH b.ytx)) {r k : Nat}
    (hr : r < bsH c.bs) (hk : k < bsW c.bs) (fr : c.y + r < f.bh) (fk : c.x + k < f.bw) :
    (txW (leafM (readVartx f c b) 2 0 b.ytx (r / txH b.ytx) (k / txW b.ytx) (r / txH b.ytx * txH b.ytx) (k / txW b.ytx * txW b.ytx) r k),
     txH (leafM (readVartx f c b) 2 0 b.ytx (r / txH b.ytx) (k / txW b.ytx) (r / txH b.ytx * txH b.ytx) (k / txW b.ytx * txW b.ytx) r k)) =
    Av1.varTx b.split 2 0 (txW b.ytx) (txH b.ytx) (r / txH b.ytx * txH b.ytx) (k / txW b.ytx * txW b.ytx) r k := by
  obtain ⟨p1, p2⟩ := tx_pos ht
  obtain ⟨-, -, -, -, z1, z2⟩ := tx_facts _ ht
  by_cases h0 : b.ytx = 0
  · have e := z1.1 h0
    rw [varTx_stop (.inl e), leaf_stop (by rw [if_pos h0])]
  obtain ⟨hl, e1, e2, e3⟩ := z2 h0
  obtain ⟨q1, q2⟩ := tx_pos hl
  have my := node_mem p2 hr
  have mx := node_mem p1 hk
  have dy : r / txH b.ytx * txH b.ytx / txH b.ytx = r / txH b.ytx := Nat.mul_div_cancel _ p2
  have dx : k / txW b.ytx * txW b.ytx / txW b.ytx = k / txW b.ytx := Nat.mul_div_cancel _ p1
  have hin : InR (r / txH b.ytx * txH b.ytx) (k / txW b.ytx * txW b.ytx) (txH b.ytx) (txW b.ytx) r k := by
    have a1 := Nat.div_add_mod r (txH b.ytx)
    have a2 := Nat.div_add_mod k (txW b.ytx)
    have a3 := Nat.mod_lt r p2
    have a4 := Nat.mod_lt k p1
    rw [Nat.mul_comm] at a1 a2
    unfold InR; omega
  obtain ⟨hk1, -⟩ := kid_at ht h0 hin
  generalize hY : r / txH b.ytx * txH b.ytx = Y at *
  generalize hX : k / txW b.ytx * txW b.ytx = X at *
  -- the first bit
  have hb1 : (readVartx f c b).1.testBit (r / txH b.ytx * 4 + k / txW b.ytx) = true ↔ b.split 0 Y X = true := by
    rw [(vartx_bits f c ht _).1]
    constructor
    · rintro ⟨y, hy, x, hx, hn, -, hs⟩
      rcases hv with hv | ⟨hv1, hv2⟩
      · rw [hv] at hs; cases hs
      · obtain ⟨a1, a2⟩ := node_of p2 hy hv2
        obtain ⟨b1, b2⟩ := node_of p1 hx hv1
        obtain ⟨a3, -⟩ := node_of p2 my hv2
        obtain ⟨b3, -⟩ := node_of p1 mx hv1
        rw [dy] at a3; rw [dx] at b3
        obtain ⟨u1, u2⟩ := inj1 hn.symm b1 b3
        rw [u1, hY] at a2; rw [u2, hX] at b2
        rw [← a2, ← b2]; exact hs
    · intro hs
      exact ⟨Y, my, X, mx, by rw [dy, dx], by omega, hs⟩
  have hne : ¬ (txW b.ytx = 1 ∧ txH b.ytx = 1) := fun h => h0 (z1.2 h)
  rcases Bool.eq_false_or_eq_true (b.split 0 Y X) with hs | hs'
  rotate_left
  · rw [varTx_stop (.inr hs'), leaf_stop]
    rw [if_neg h0, if_pos rfl, Bool.eq_false_iff]
    exact fun h => by rw [hb1.1 h] at hs'; cases hs'
  have hb := hb1.2 hs
  rcases hv with hv | ⟨hv1, hv2⟩
  · rw [hv] at hs; cases hs
  have hs' : ¬ ((txW b.ytx = 1 ∧ txH b.ytx = 1) ∨ b.split 0 Y X = false) := by
    rintro (h | h)
    · exact hne h
    · rw [hs] at h; cases h
  rw [show (2 : Nat) = 1 + 1 from rfl, Av1.varTx, leafM, if_neg hs', if_pos (by rw [if_neg h0, if_pos rfl]; exact hb)]
  dsimp only
  rw [← e1, ← e2, Nat.zero_add]
  -- the second one
  obtain ⟨-, -, -, -, w1, w2⟩ := tx_facts _ hl
  by_cases hs0 : txSub b.ytx = 0
  · have e := w1.1 hs0
    rw [varTx_stop (.inl e), leaf_stop (by rw [if_pos hs0])]
  obtain ⟨-, f1, f2, -⟩ := w2 hs0
  have hne' : ¬ (txW (txSub b.ytx) = 1 ∧ txH (txSub b.ytx) = 1) := fun h => hs0 (w1.2 h)
  obtain ⟨m1, m2, -, -⟩ := kids_mem.1 hk1
  have hb2 : (readVartx f c b).2.testBit ((r / txH b.ytx * 2 + (r - Y) / txH (txSub b.ytx)) * 4 + (k / txW b.ytx * 2 + (k - X) / txW (txSub b.ytx))) = true ↔
      b.split 1 (Y + (r - Y) / txH (txSub b.ytx) * txH (txSub b.ytx)) (X + (k - X) / txW (txSub b.ytx) * txW (txSub b.ytx)) = true := by
    rw [(vartx_bits f c ht _).2]
    constructor
    · rintro ⟨y, hy, x, hx, -, -, -, j, i, hm, -, -, hn, -, hs⟩
      obtain ⟨a1, a2⟩ := node_of p2 hy hv2
      obtain ⟨b1, b2⟩ := node_of p1 hx hv1
      obtain ⟨a3, -⟩ := node_of p2 my hv2
      obtain ⟨b3, -⟩ := node_of p1 mx hv1
      rw [dy] at a3; rw [dx] at b3
      obtain ⟨n1, n2, -, -⟩ := kids_mem.1 hm
      generalize (r - Y) / txH (txSub b.ytx) = j' at *
      generalize (k - X) / txW (txSub b.ytx) = i' at *
      obtain ⟨u1, u2, u3, u4⟩ := inj2 hn b1 b3 n1 m1 n2 m2
      rw [u1, hY] at a2; rw [u2, hX] at b2
      rw [← a2, ← b2, ← u3, ← u4]; exact hs
    · intro hs2
      refine ⟨Y, my, X, mx, by omega, hs, ?_, _, _, hk1, ?_, ?_, by rw [dy, dx], by omega, hs2⟩
      · exact Classical.byContradiction fun h => hs0 (e3 h)
      · intro hi
        have := Nat.div_mul_le_self (k - X) (txW (txSub b.ytx))
        rw [hi, Nat.one_mul] at this
        omega
      · intro hi
        have := Nat.div_mul_le_self (r - Y) (txH (txSub b.ytx))
        rw [hi, Nat.one_mul] at this
        omega
  rcases Bool.eq_false_or_eq_true (b.split 1 (Y + (r - Y) / txH (txSub b.ytx) * txH (txSub b.ytx)) (X + (k - X) / txW (txSub b.ytx) * txW (txSub b.ytx))) with hs2 | hs2
  · have hn2 : ¬ ((txW (txSub b.ytx) = 1 ∧ txH (txSub b.ytx) = 1) ∨
        b.split 1 (Y + (r - Y) / txH (txSub b.ytx) * txH (txSub b.ytx)) (X + (k - X) / txW (txSub b.ytx) * txW (txSub b.ytx)) = false) := by
      rintro (h | h)
      · exact hne' h
      · rw [hs2] at h; cases h
    rw [Av1.varTx, leafM, if_neg hn2, if_pos (by rw [if_neg hs0, if_neg Nat.one_ne_zero]; exact hb2.2 hs2)]
    dsimp only
    rw [leafM, Av1.varTx, f1, f2]
  · rw [varTx_stop (.inr hs2), leaf_stop]
    rw [if_neg hs0, if_neg Nat.one_ne_zero, Bool.eq_false_iff]
    exact fun h => by rw [hb2.1 h] at hs2; cases hs2

end Dav1d.Part.Lpf
