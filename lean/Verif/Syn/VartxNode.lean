import Verif.Syn.VartxTree
/-!
# One tree of transforms: the nodes
-/
set_option linter.unusedVariables false
set_option linter.unusedSimpArgs false
namespace Dav1d.Syn.Vartx
open Dav1d.Part.Lpf (txW txH txLw txLh txMax txSub tx_facts tx_pos)

variable {ok : Req → Nat → Prop}

/-- The transform of a unit, as read_coef_tree finds it: 19 stands for a TX_4X4 that is split. -/
def coefTx (ms : Nat × Nat) : (n depth tx xo yo x y r k : Nat) → Nat
  | 0, _, tx, _, _, _, _, _, _ => tx
  | n + 1, depth, tx, xo, yo, x, y, r, k =>
    if bitOf ms depth (yo * 4 + xo) then
      if tx = 0 then 19
      else coefTx ms n (depth + 1) (txSub tx) (xo * 2 + (k - x) / txW (txSub tx)) (yo * 2 + (r - y) / txH (txSub tx))
        (x + (k - x) / txW (txSub tx) * txW (txSub tx)) (y + (r - y) / txH (txSub tx) * txH (txSub tx)) r k
    else tx

/-- The bits of a node and of those below. -/
def Own : (n depth xo yo d b : Nat) → Prop
  | 0, _, _, _, _, _ => False
  | n + 1, depth, xo, yo, d, b => (d = depth ∧ b = yo * 4 + xo) ∨ ∃ j i, j < 2 ∧ i < 2 ∧ Own n (depth + 1) (xo * 2 + i) (yo * 2 + j) d b

theorem own_level : ∀ {n depth xo yo d b : Nat}, Own n depth xo yo d b → depth ≤ d
  | n + 1, depth, xo, yo, d, b, .inl h => by omega
  | n + 1, depth, xo, yo, d, b, .inr ⟨j, i, _, _, h⟩ => by have := own_level h; omega

theorem own_kids_disjoint {n xo yo j i j' i' depth d b : Nat} (hn : n ≤ 1) (hx : n = 1 → xo < 2) (hi : i < 2) (hi' : i' < 2) (hne : j ≠ j' ∨ i ≠ i')
    (h1 : Own n depth (xo * 2 + i) (yo * 2 + j) d b) (h2 : Own n depth (xo * 2 + i') (yo * 2 + j') d b) : False := by
  have : n = 0 ∨ n = 1 := by omega
  rcases this with rfl | rfl
  · exact h1
  · have hx := hx rfl
    rcases h1 with ⟨-, h1⟩ | ⟨_, _, _, _, h⟩
    · rcases h2 with ⟨-, h2⟩ | ⟨_, _, _, _, h⟩
      · omega
      · exact h
    · exact h

/-- Facts on all transforms. -/
theorem tx_more : ∀ tx < 19, (tx ≠ 0 → txMax (txSub tx) + 1 = txMax tx) ∧ max (txW tx) (txH tx) = 2 ^ txMax tx ∧ txMax tx ≤ 4 ∧
    (tx ≠ 0 → Intra.Av1.Split_Tx_Size (szOf tx) = szOf (txSub tx)) ∧ (szOf tx = (4, 4) ↔ tx = 0) := by decide +kernel
theorem tx_more2 : ∀ tx < 19, (tx ≠ 0 → 1 ≤ txMax tx) ∧ (txLw tx ≥ txLh tx ↔ txH tx ≤ txW tx) ∧ (txLh tx ≥ txLw tx ↔ txW tx ≤ txH tx) ∧
    (tx ≠ 0 → ¬ txMax tx > 1 → tx = 1 ∨ tx = 5 ∨ tx = 6) := by decide +kernel
theorem tx_sub : ∀ tx < 19, txSub tx < 19 ∧ txW tx ≤ txW (txSub tx) + txW (txSub tx) ∧ txH tx ≤ txH (txSub tx) + txH (txSub tx) := by decide +kernel

/-- The transforms of the parts of a node. -/
theorem tx_kids : ∀ tx < 19, tx ≠ 0 →
    (txH tx = txW tx ∧ txW tx = txW (txSub tx) + txW (txSub tx) ∧ txH tx = txH (txSub tx) + txH (txSub tx)) ∨
    (txH tx < txW tx ∧ txW tx = txW (txSub tx) + txW (txSub tx) ∧ txH tx = txH (txSub tx)) ∨
    (txW tx < txH tx ∧ txW tx = txW (txSub tx) ∧ txH tx = txH (txSub tx) + txH (txSub tx)) := by decide +kernel

theorem idx0 {v s : Nat} (h : v < s) : v / s = 0 := Nat.div_eq_of_lt h
theorem idx1 {v s : Nat} (h0 : s ≤ v) (h : v < s + s) : v / s = 1 := by
  rw [Nat.div_eq_iff (by omega)]; omega

theorem idx_lt {v s : Nat} (hs : 0 < s) (h : v < s + s) : v / s < 2 := by
  rw [Nat.div_lt_iff_lt_mul hs]; omega

/-- The transform of a unit depends on the bits of the node only. -/
theorem coef_dep : ∀ (n depth tx xo yo x y : Nat), tx < 19 →
    Dep y x (txH tx) (txW tx) (Own n depth xo yo) fun ms r k => coefTx ms n depth tx xo yo x y r k
  | 0, depth, tx, xo, yo, x, y, ht, ms, ms', hb, r, k, hr => rfl
  | n + 1, depth, tx, xo, yo, x, y, ht, ms, ms', hb, r, k, hr => by
    obtain ⟨hs, hw, hh⟩ := tx_sub tx ht
    have hpos := tx_pos hs
    show coefTx ms (n + 1) depth tx xo yo x y r k = coefTx ms' (n + 1) depth tx xo yo x y r k
    unfold coefTx
    rw [hb depth (yo * 4 + xo) (.inl ⟨rfl, rfl⟩)]
    split
    · split
      · rfl
      have hj : (r - y) / txH (txSub tx) < 2 := idx_lt hpos.2 (by unfold InReg at hr; omega)
      have hi : (k - x) / txW (txSub tx) < 2 := idx_lt hpos.1 (by unfold InReg at hr; omega)
      have e1 := Nat.div_add_mod (r - y) (txH (txSub tx))
      have e2 := Nat.div_add_mod (k - x) (txW (txSub tx))
      have e3 := Nat.mod_lt (r - y) hpos.2
      have e4 := Nat.mod_lt (k - x) hpos.1
      rw [Nat.mul_comm] at e1 e2
      refine coef_dep n (depth + 1) (txSub tx) _ _ _ _ hs ms ms' (fun d b ho => hb d b (.inr ⟨_, _, hj, hi, ho⟩)) r k ?_
      unfold InReg at hr ⊢
      omega
    · rfl

/-! ## Leaves -/

theorem mark_bit (s : St) {depth k d b : Nat} (hd : depth ≤ 1) : bitOf (s.mark depth k).ms d b = (bitOf s.ms d b || decide (d = depth ∧ b = k)) := by
  have e : ∀ m : Nat, (m ||| 1 <<< k).testBit b = (m.testBit b || decide (b = k)) := by
    intro m
    rw [Nat.testBit_or, Bool.eq_iff_iff, Bool.or_eq_true, Bool.or_eq_true, Dav1d.Part.Lpf.one_bit, decide_eq_true_eq]
  have h1 : depth = 0 ∨ depth = 1 := by omega
  rcases h1 with rfl | rfl <;> rcases d with _ | _ | d <;> simp [bitOf, St.mark, e]

/-- Nothing is split. -/
theorem leaf_post {E : Av1.Env} {tx x y : Nat} (ht : tx < 19) (h32 : y % 32 + txH tx ≤ 32) {M : Nat → Nat → Prop} {D : Nat × Nat → Nat → Nat → Nat} (s : St) (t : Av1.TxSizes)
    (hD : ∀ r k, D s.ms r k = tx) :
    Post E y x (txH tx) (txW tx) M D s t (s.fill tx x y false) (Av1.fill y x ((szOf tx).2 / 4) ((szOf tx).1 / 4) (szOf tx) t) := by
  obtain ⟨f1, f2, -⟩ := tx_facts tx ht
  have hp := tx_pos ht
  have hin : ∀ r k, InReg y x (txH tx) (txW tx) r k → Av1.fill y x ((szOf tx).2 / 4) ((szOf tx).1 / 4) (szOf tx) t r k = szOf tx := by
    intro r k hr
    unfold InReg at hr
    unfold Av1.fill
    rw [if_pos]
    show y ≤ r ∧ r < y + 4 * txH tx / 4 ∧ x ≤ k ∧ k < x + 4 * txW tx / 4
    omega
  constructor
  · intro X hX; exact if_neg hX
  · intro i hi; exact if_neg hi
  · intro r k hr
    unfold Av1.fill
    refine if_neg fun hh => hr ?_
    have : y ≤ r ∧ r < y + 4 * txH tx / 4 ∧ x ≤ k ∧ k < x + 4 * txW tx / 4 := hh
    unfold InReg; omega
  · intro d b _; rfl
  · intro _ X x1 x2 x3
    rw [hin _ _ (by unfold InReg; omega)]
    show 4 * 2 ^ (if x ≤ X ∧ X < x + txW tx then txLw tx else s.a X) = 4 * txW tx
    rw [if_pos ⟨x1, x2⟩, f1]
  · intro _ Y y1 y2 y3
    rw [hin _ _ (by unfold InReg; omega)]
    show 4 * 2 ^ (if y % 32 ≤ Y % 32 ∧ Y % 32 < y % 32 + txH tx then txLh tx else s.l (Y % 32)) = 4 * txH tx
    rw [if_pos (by omega), f2]
  · intro r k hr _ _
    show _ = szOf (D s.ms r k) ∧ D s.ms r k < 19
    rw [hD, hin r k hr]; exact ⟨rfl, ht⟩

/-- One 4x4 transform of the specification. -/
def put (E : Av1.Env) (r k : Nat) (t : Av1.TxSizes) : Av1.TxSizes := fun r' k' => if r' = r ∧ k' = k ∧ r < E.MiRows ∧ k < E.MiCols then (4, 4) else t r' k'

theorem var_4x4 (E : Av1.Env) (n r k : Nat) (t : Av1.TxSizes) : Av1.read_var_tx_size E n r k (4, 4) t = pure (put E r k t) := by
  have key : (if r ≥ E.MiRows ∨ k ≥ E.MiCols then (pure t : Prog Av1.TxSizes) else pure (Av1.fill r k (4 / 4) (4 / 4) (4, 4) t)) = pure (put E r k t) := by
    by_cases h : r ≥ E.MiRows ∨ k ≥ E.MiCols
    · rw [if_pos h]
      congr 1
      funext r' k'
      unfold put
      rw [if_neg (by omega)]
    · rw [if_neg h]
      congr 1
      funext r' k'
      unfold put Av1.fill
      by_cases h1 : r' = r ∧ k' = k
      · rw [if_pos (by omega), if_pos (by omega)]
      · rw [if_neg (by omega), if_neg (by omega)]
  cases n with
  | zero => exact key
  | succ n =>
    unfold Av1.read_var_tx_size
    rw [if_pos rfl, pure_bind']
    exact key

/-- The 4x4 transforms of a node. -/
def putAll (E : Av1.Env) (y x h w : Nat) (t : Av1.TxSizes) : Av1.TxSizes := fun r k => if (y ≤ r ∧ r < y + h ∧ x ≤ k ∧ k < x + w) ∧ r < E.MiRows ∧ k < E.MiCols then (4, 4) else t r k

/-- Split into 4x4 transforms. -/
theorem quad_post {E : Av1.Env} {tx x y : Nat} (ht : tx < 19) (h32 : y % 32 + txH tx ≤ 32) {M : Nat → Nat → Prop} {D : Nat × Nat → Nat → Nat → Nat} (s s0 : St) (t : Av1.TxSizes)
    (ha : s0.a = s.a) (hl : s0.l = s.l) (hm : ∀ d b, ¬ M d b → bitOf s0.ms d b = bitOf s.ms d b)
    (hD : ∀ r k, InReg y x (txH tx) (txW tx) r k → D s0.ms r k = 0) :
    Post E y x (txH tx) (txW tx) M D s t (s0.fill tx x y true) (putAll E y x (txH tx) (txW tx) t) := by
  have hp := tx_pos ht
  have hin : ∀ r k, InReg y x (txH tx) (txW tx) r k → r < E.MiRows → k < E.MiCols → putAll E y x (txH tx) (txW tx) t r k = (4, 4) := fun r k h1 h2 h3 => if_pos ⟨h1, h2, h3⟩
  constructor
  · intro X hX; rw [← ha]; exact if_neg hX
  · intro i hi; rw [← hl]; exact if_neg hi
  · intro r k hr; exact if_neg fun hh => hr hh.1
  · intro d b h; exact hm d b h
  · intro _ X x1 x2 x3
    rw [hin _ _ (by unfold InReg; omega) (by omega) x3]
    show 4 * 2 ^ (if x ≤ X ∧ X < x + txW tx then 0 else s0.a X) = 4
    rw [if_pos ⟨x1, x2⟩]; rfl
  · intro _ Y y1 y2 y3
    rw [hin _ _ (by unfold InReg; omega) y3 (by omega)]
    show 4 * 2 ^ (if y % 32 ≤ Y % 32 ∧ Y % 32 < y % 32 + txH tx then 0 else s0.l (Y % 32)) = 4
    rw [if_pos (by omega)]; rfl
  · intro r k hr h1 h2
    show _ = szOf (D s0.ms r k) ∧ D s0.ms r k < 19
    rw [hD r k hr, hin r k hr h1 h2]; exact ⟨rfl, by omega⟩

/-- The loops of the specification over 4x4 transforms. -/
theorem var_quad (E : Av1.Env) {tx : Nat} (h : tx = 1 ∨ tx = 5 ∨ tx = 6) (n y x : Nat) (t : Av1.TxSizes) :
    ((Av1.steps ((szOf tx).2 / 4) ((szOf (txSub tx)).2 / 4)).foldlM (fun t i =>
      (Av1.steps ((szOf tx).1 / 4) ((szOf (txSub tx)).1 / 4)).foldlM (fun t j => Av1.read_var_tx_size E n (y + i) (x + j) (szOf (txSub tx)) t) t) t : Prog Av1.TxSizes) =
      pure (putAll E y x (txH tx) (txW tx) t) := by
  have s1 : Av1.steps 1 1 = [0] := by decide
  have s2 : Av1.steps 2 1 = [0, 1] := by decide
  rcases h with rfl | rfl | rfl
  · show ((Av1.steps 2 1).foldlM (fun t i => (Av1.steps 2 1).foldlM (fun t j => Av1.read_var_tx_size E n (y + i) (x + j) (4, 4) t) t) t : Prog Av1.TxSizes) = pure (putAll E y x 2 2 t)
    rw [s2]
    simp only [List.foldlM_cons, List.foldlM_nil, var_4x4, pure_bind', Nat.add_zero]
    congr 1
    funext r k
    unfold put putAll
    repeat' split
    all_goals first | rfl | (exfalso; omega)
  · show ((Av1.steps 2 1).foldlM (fun t i => (Av1.steps 1 1).foldlM (fun t j => Av1.read_var_tx_size E n (y + i) (x + j) (4, 4) t) t) t : Prog Av1.TxSizes) = pure (putAll E y x 2 1 t)
    rw [s1, s2]
    simp only [List.foldlM_cons, List.foldlM_nil, var_4x4, pure_bind', Nat.add_zero]
    congr 1
    funext r k
    unfold put putAll
    repeat' split
    all_goals first | rfl | (exfalso; omega)
  · show ((Av1.steps 1 1).foldlM (fun t i => (Av1.steps 2 1).foldlM (fun t j => Av1.read_var_tx_size E n (y + i) (x + j) (4, 4) t) t) t : Prog Av1.TxSizes) = pure (putAll E y x 1 2 t)
    rw [s1, s2]
    simp only [List.foldlM_cons, List.foldlM_nil, var_4x4, pure_bind', Nat.add_zero]
    congr 1
    funext r k
    unfold put putAll
    repeat' split
    all_goals first | rfl | (exfalso; omega)

/-! ## Nodes -/

theorem var_out (E : Av1.Env) (n : Nat) {r k : Nat} (sz : Nat × Nat) (h : ¬ (r < E.MiRows ∧ k < E.MiCols)) : Av1.read_var_tx_size E n r k sz = pure := by
  funext t
  cases n <;> unfold Av1.read_var_tx_size <;> rw [if_pos (by omega)]

theorem hdep {row col h w1 w2 : Nat} {M1 M2 M : Nat → Nat → Prop} {D1 D2 D : Nat × Nat → Nat → Nat → Nat} (d1 : Dep row col h w1 M1 D1) (d2 : Dep row (col + w1) h w2 M2 D2)
    (hM : ∀ d b, M1 d b ∨ M2 d b → M d b)
    (hD1 : ∀ ms r k, InReg row col h w1 r k → D ms r k = D1 ms r k) (hD2 : ∀ ms r k, InReg row (col + w1) h w2 r k → D ms r k = D2 ms r k) :
    Dep row col h (w1 + w2) M D := by
  intro ms ms' hb r k hr
  by_cases hk : k < col + w1
  · have hi : InReg row col h w1 r k := by unfold InReg at *; omega
    rw [hD1 _ _ _ hi, hD1 _ _ _ hi]
    exact d1 ms ms' (fun d b hm => hb d b (hM d b (.inl hm))) r k hi
  · have hi : InReg row (col + w1) h w2 r k := by unfold InReg at *; omega
    rw [hD2 _ _ _ hi, hD2 _ _ _ hi]
    exact d2 ms ms' (fun d b hm => hb d b (hM d b (.inr hm))) r k hi

theorem steps2 {m : Nat} (h : 0 < m) : Av1.steps (m + m) m = [0, m] := by
  have : (m + m) / m = 2 := by rw [← Nat.two_mul]; exact Nat.mul_div_cancel _ h
  unfold Av1.steps
  rw [this]
  simp [List.range_succ]
theorem steps1 {m : Nat} (h : 0 < m) : Av1.steps m m = [0] := by
  have : m / m = 1 := Nat.div_self h
  unfold Av1.steps
  rw [this]
  simp [List.range_succ]
theorem sz1 (tx : Nat) : (szOf tx).1 / 4 = txW tx := by show 4 * txW tx / 4 = _; omega
theorem sz2 (tx : Nat) : (szOf tx).2 / 4 = txH tx := by show 4 * txH tx / 4 = _; omega

/-- The contexts are the same. -/
theorem ctx_eq {E : Av1.Env} {s : St} {t : Av1.TxSizes} {tx depth x y : Nat} (ht : tx < 19) (hd : depth ≤ 1)
    (hmax : txMax tx + depth = Nat.log2 (min 64 (max (Av1.Block_Width E.MiSize) (Av1.Block_Height E.MiSize))) - 2) (h4 : txMax tx + depth ≤ 4)
    (ha : 4 * 2 ^ s.a x = Av1.get_above_tx_width E t y x) (hl : 4 * 2 ^ s.l (y % 32) = Av1.get_left_tx_height E t y x) :
    [2 * (4 - txMax tx) - depth, (if s.a x < txLw tx then 1 else 0) + (if s.l (y % 32) < txLh tx then 1 else 0)] =
      [Av1.splitCtx E t y x (szOf tx) / 3, Av1.splitCtx E t y x (szOf tx) % 3] := by
  obtain ⟨f1, f2, -⟩ := tx_facts tx ht
  have hup : Nat.log2 (max (szOf tx).1 (szOf tx).2) - 2 = txMax tx := by
    have : ∀ tx < 19, Nat.log2 (max (szOf tx).1 (szOf tx).2) - 2 = txMax tx := by decide +kernel
    exact this tx ht
  have ea : (Av1.get_above_tx_width E t y x < (szOf tx).1) ↔ s.a x < txLw tx := by
    rw [← ha]
    show 4 * 2 ^ s.a x < 4 * txW tx ↔ _
    rw [f1, Nat.mul_lt_mul_left (by decide), Nat.pow_lt_pow_iff_right (by decide)]
  have el : (Av1.get_left_tx_height E t y x < (szOf tx).2) ↔ s.l (y % 32) < txLh tx := by
    rw [← hl]
    show 4 * 2 ^ s.l (y % 32) < 4 * txH tx ↔ _
    rw [f2, Nat.mul_lt_mul_left (by decide), Nat.pow_lt_pow_iff_right (by decide)]
  unfold Av1.splitCtx
  simp only [ea, el, hup, ← hmax]
  have e1 : (if s.a x < txLw tx then 1 else 0) ≤ 1 := by split <;> omega
  have e2 : (if s.l (y % 32) < txLh tx then 1 else 0) ≤ 1 := by split <;> omega
  generalize (if s.a x < txLw tx then 1 else 0) = u at *
  generalize (if s.l (y % 32) < txLh tx then 1 else 0) = v at *
  have h01 : depth = 0 ∨ depth = 1 := by omega
  rcases h01 with rfl | rfl
  · rw [if_neg (by omega)]
    congr 1
    · omega
    · congr 1; omega
  · rw [if_pos (by omega)]
    congr 1
    · omega
    · congr 1; omega

/-- **One tree.** -/
theorem tree_ok (E : Av1.Env) : ∀ (n depth tx xo yo x y : Nat), n + depth = 2 → tx < 19 → (depth = 0 → xo < 2) → E.MiRow ≤ y → E.MiCol ≤ x → y % 32 + txH tx ≤ 32 →
    y < E.MiRows → x < E.MiCols → txMax tx + depth = Nat.log2 (min 64 (max (Av1.Block_Width E.MiSize) (Av1.Block_Height E.MiSize))) - 2 → txMax tx + depth ≤ 4 →
    RegionOk ok E y x (txH tx) (txW tx) (Own n depth xo yo) (fun ms r k => coefTx ms n depth tx xo yo x y r k)
      (readTxTree E.MiCols E.MiRows n depth tx xo yo x y) (Av1.read_var_tx_size E n y x (szOf tx))
  | 0, depth, tx, xo, yo, x, y, hn, ht, hxo, hr, hc, h32, hy, hx, hmax, h4, s, t, hp => by
    unfold readTxTree Av1.read_var_tx_size
    rw [if_neg (by omega)]
    exact Same.ret (leaf_post ht h32 s t fun r k => rfl)
  | n + 1, depth, tx, xo, yo, x, y, hn, ht, hxo, hr, hc, h32, hy, hx, hmax, h4, s, t, hp => by
    obtain ⟨m1, m2, m3, m4, m5⟩ := tx_more tx ht
    obtain ⟨m6, m7, m8, m9⟩ := tx_more2 tx ht
    have hpos := tx_pos ht
    have hclr : bitOf s.ms depth (yo * 4 + xo) = false := hp.clear _ _ (.inl ⟨rfl, rfl⟩)
    unfold readTxTree Av1.read_var_tx_size
    rw [if_neg (show ¬ (y ≥ E.MiRows ∨ x ≥ E.MiCols) by omega)]
    refine Same.bind (R := fun b b' => b = b' ∧ (b = true → tx ≠ 0)) ?_ ?_
    · by_cases h0 : tx = 0
      · rw [if_neg (by omega), if_pos (m5.2 h0)]
        exact Same.ret ⟨rfl, fun h => absurd h (by decide)⟩
      · rw [if_pos (by omega), if_neg (fun h => h0 (m5.1 h))]
        exact Same.mono (fun a b e => ⟨e, fun _ => h0⟩)
          (flag_same (ctx_eq ht (by omega) hmax h4 (hp.a x (by omega) (by omega) hx) (hp.l y (by omega) (by omega) hy)))
    · intro b b' hb
      obtain ⟨rfl, h0⟩ := hb
      cases b with
      | false =>
        simp only [Bool.false_eq_true, if_false, false_and]
        refine Same.ret (leaf_post ht h32 s t fun r k => ?_)
        unfold coefTx
        rw [hclr, if_neg (by decide)]
      | true =>
        have h0 := h0 rfl
        have hmk : ∀ d b, ¬ Own (n + 1) depth xo yo d b → bitOf (s.mark depth (yo * 4 + xo)).ms d b = bitOf s.ms d b := by
          intro d b ho
          rw [mark_bit s (by omega)]
          rw [decide_eq_false (fun hh => ho (.inl hh)), Bool.or_false]
        have hset : bitOf (s.mark depth (yo * 4 + xo)).ms depth (yo * 4 + xo) = true := by
          rw [mark_bit s (by omega)]; simp
        simp only [if_true, true_and]
        rw [m4 h0]
        by_cases h1 : txMax tx > 1
        swap
        · rw [if_neg h1, var_quad E (m9 h0 h1)]
          refine Same.ret (quad_post ht h32 s _ t rfl rfl hmk fun r k hr' => ?_)
          have hsz : txSub tx = 0 := ((tx_facts tx ht).2.2.2.2.2 h0).2.2.2 h1
          show coefTx _ (n + 1) depth tx xo yo x y r k = 0
          unfold coefTx
          rw [hset, if_pos rfl, if_neg h0, hsz]
          obtain ⟨hs1, hs2, hs3⟩ := tx_sub tx ht
          have hps := tx_pos hs1
          rw [hsz] at hs2 hs3
          have hj : (r - y) / txH 0 < 2 := idx_lt (by decide) (by unfold InReg at hr'; omega)
          have hi : (k - x) / txW 0 < 2 := idx_lt (by decide) (by unfold InReg at hr'; omega)
          have hn1 : n = 0 ∨ n = 1 := by omega
          rcases hn1 with rfl | rfl
          · rfl
          · unfold coefTx
            have hd0 : depth = 0 := by omega
            subst hd0
            rw [mark_bit s (by omega), hp.clear _ _ (.inr ⟨_, _, hj, hi, .inl ⟨rfl, rfl⟩⟩)]
            simp
        · rw [if_pos h1]
          have hs := (tx_sub tx ht).1
          have hps := tx_pos hs
          have hm := m1 h0
          have kid : ∀ i j x' y', i < 2 → x ≤ x' → y ≤ y' → y' % 32 + txH (txSub tx) ≤ 32 → y' < E.MiRows → x' < E.MiCols →
              RegionOk ok E y' x' (txH (txSub tx)) (txW (txSub tx)) (Own n (depth + 1) (xo * 2 + i) (yo * 2 + j))
                (fun ms r k => coefTx ms n (depth + 1) (txSub tx) (xo * 2 + i) (yo * 2 + j) x' y' r k)
                (readTxTree E.MiCols E.MiRows n (depth + 1) (txSub tx) (xo * 2 + i) (yo * 2 + j) x' y') (Av1.read_var_tx_size E n y' x' (szOf (txSub tx))) :=
            fun i j x' y' _ a1 a2 a3 a4 a5 => tree_ok E n (depth + 1) (txSub tx) _ _ x' y' (by omega) hs (by omega) (by omega) (by omega) a3 a4 a5 (by omega) (by omega)
          have kdep := fun i j x' y' => coef_dep n (depth + 1) (txSub tx) (xo * 2 + i) (yo * 2 + j) x' y' hs
          have kdis : ∀ i j i' j', i < 2 → i' < 2 → (j ≠ j' ∨ i ≠ i') → ∀ d b, Own n (depth + 1) (xo * 2 + i) (yo * 2 + j) d b → ¬ Own n (depth + 1) (xo * 2 + i') (yo * 2 + j') d b :=
            fun i j i' j' hi hi' hne d b o1 o2 => own_kids_disjoint (by omega) (by omega) hi hi' hne o1 o2
          have sub : ∀ j i d b, j < 2 → i < 2 → Own n (depth + 1) (xo * 2 + i) (yo * 2 + j) d b → ∃ j i, j < 2 ∧ i < 2 ∧ Own n (depth + 1) (xo * 2 + i) (yo * 2 + j) d b :=
            fun j i d b hj hi ho => ⟨j, i, hj, hi, ho⟩
          generalize hMK : (fun d b => ∃ j i, j < 2 ∧ i < 2 ∧ Own n (depth + 1) (xo * 2 + i) (yo * 2 + j) d b) = MK
          generalize hDK : (fun (ms : Nat × Nat) (r k : Nat) => coefTx ms n (depth + 1) (txSub tx) (xo * 2 + (k - x) / txW (txSub tx)) (yo * 2 + (r - y) / txH (txSub tx))
              (x + (k - x) / txW (txSub tx) * txW (txSub tx)) (y + (r - y) / txH (txSub tx) * txH (txSub tx)) r k) = DK
          have hMK1 : ∀ j i d b, j < 2 → i < 2 → Own n (depth + 1) (xo * 2 + i) (yo * 2 + j) d b → MK d b := fun j i d b hj hi ho => by rw [← hMK]; exact ⟨j, i, hj, hi, ho⟩
          have hMK2 : ∀ d b, MK d b → Own (n + 1) depth xo yo d b := fun d b hm => by rw [← hMK] at hm; exact .inr hm
          have hMK3 : ∀ b, ¬ MK depth b := fun b hm => by
            rw [← hMK] at hm
            obtain ⟨j, i, _, _, ho⟩ := hm
            have := own_level ho; omega
          have hDKat : ∀ i j ms r k, (k - x) / txW (txSub tx) = i → (r - y) / txH (txSub tx) = j →
              DK ms r k = coefTx ms n (depth + 1) (txSub tx) (xo * 2 + i) (yo * 2 + j) (x + i * txW (txSub tx)) (y + j * txH (txSub tx)) r k := by
            intro i j ms r k e1 e2; rw [← hDK]; dsimp only; rw [e1, e2]
          have D00 : ∀ ms r k, InReg y x (txH (txSub tx)) (txW (txSub tx)) r k → DK ms r k = coefTx ms n (depth + 1) (txSub tx) (xo * 2 + 0) (yo * 2 + 0) x y r k := by
            intro ms r k hi; rw [hDKat 0 0 ms r k (idx0 (by unfold InReg at hi; omega)) (idx0 (by unfold InReg at hi; omega))]; simp
          have D01 : ∀ ms r k, InReg y (x + txW (txSub tx)) (txH (txSub tx)) (txW (txSub tx)) r k →
              DK ms r k = coefTx ms n (depth + 1) (txSub tx) (xo * 2 + 1) (yo * 2 + 0) (x + txW (txSub tx)) y r k := by
            intro ms r k hi; rw [hDKat 1 0 ms r k (idx1 (by unfold InReg at hi; omega) (by unfold InReg at hi; omega)) (idx0 (by unfold InReg at hi; omega))]; simp
          have D10 : ∀ ms r k, InReg (y + txH (txSub tx)) x (txH (txSub tx)) (txW (txSub tx)) r k →
              DK ms r k = coefTx ms n (depth + 1) (txSub tx) (xo * 2 + 0) (yo * 2 + 1) x (y + txH (txSub tx)) r k := by
            intro ms r k hi; rw [hDKat 0 1 ms r k (idx0 (by unfold InReg at hi; omega)) (idx1 (by unfold InReg at hi; omega) (by unfold InReg at hi; omega))]; simp
          have D11 : ∀ ms r k, InReg (y + txH (txSub tx)) (x + txW (txSub tx)) (txH (txSub tx)) (txW (txSub tx)) r k →
              DK ms r k = coefTx ms n (depth + 1) (txSub tx) (xo * 2 + 1) (yo * 2 + 1) (x + txW (txSub tx)) (y + txH (txSub tx)) r k := by
            intro ms r k hi
            rw [hDKat 1 1 ms r k (idx1 (by unfold InReg at hi; omega) (by unfold InReg at hi; omega)) (idx1 (by unfold InReg at hi; omega) (by unfold InReg at hi; omega))]; simp
          have pre : Pre E y x (txH tx) (txW tx) MK (s.mark depth (yo * 4 + xo)) t := by
            refine ⟨hp.a, hp.l, fun d b hm => ?_⟩
            rw [mark_bit s (by omega), hp.clear d b (hMK2 d b hm), Bool.false_or]
            refine decide_eq_false fun hh => ?_
            rw [hh.1] at hm
            exact hMK3 b hm
          have fin : ∀ s' t', Post E y x (txH tx) (txW tx) MK DK (s.mark depth (yo * 4 + xo)) t s' t' →
              Post E y x (txH tx) (txW tx) (Own (n + 1) depth xo yo) (fun ms r k => coefTx ms (n + 1) depth tx xo yo x y r k) s t s' t' := by
            intro s' t' o
            refine ⟨o.fa, o.fl, o.ft, fun d b hm => ?_, o.oa, o.ol, fun r k a1 a2 a3 => ?_⟩
            · rw [o.fm d b (fun hh => hm (hMK2 d b hh)), hmk d b hm]
            · have hd := o.dec r k a1 a2 a3
              rw [← hDK] at hd
              dsimp only at hd ⊢
              rw [coefTx, o.fm depth _ (hMK3 _), hset, if_pos rfl, if_neg h0]
              exact hd
          rcases tx_kids tx ht h0 with ⟨k1, k2, k3⟩ | ⟨k1, k2, k3⟩ | ⟨k1, k2, k3⟩
          · -- four parts
            have c1 : txLw tx ≥ txLh tx := m7.2 (by omega)
            have c2 : txLh tx ≥ txLw tx := m8.2 (by omega)
            have top := hcomp (ok := ok) (p2 := readTxTree E.MiCols E.MiRows n (depth + 1) (txSub tx) (xo * 2 + 1) (yo * 2 + 0) (x + txW (txSub tx)) y)
              (q2 := Av1.read_var_tx_size E n y (x + txW (txSub tx)) (szOf (txSub tx)))
              (M := fun d b => Own n (depth + 1) (xo * 2 + 0) (yo * 2 + 0) d b ∨ Own n (depth + 1) (xo * 2 + 1) (yo * 2 + 0) d b) (D := DK) hps.1 (by omega)
              (kid 0 0 x y (by omega) (by omega) (by omega) (by omega) hy hx) (fun hin => kid 1 0 (x + txW (txSub tx)) y (by omega) (by omega) (by omega) (by omega) hy hin)
              (fun hin => var_out E n _ (by omega)) (kdis 0 0 1 0 (by omega) (by omega) (.inr (by omega))) (fun d b hm => hm) (kdep 0 0 x y) D00 D01
            have topd := hdep (M := fun d b => Own n (depth + 1) (xo * 2 + 0) (yo * 2 + 0) d b ∨ Own n (depth + 1) (xo * 2 + 1) (yo * 2 + 0) d b) (D := DK)
              (kdep 0 0 x y) (kdep 1 0 (x + txW (txSub tx)) y) (fun d b hm => hm) D00 D01
            have bot := fun (hin : y + txH (txSub tx) < E.MiRows) =>
              hcomp (ok := ok) (p2 := readTxTree E.MiCols E.MiRows n (depth + 1) (txSub tx) (xo * 2 + 1) (yo * 2 + 1) (x + txW (txSub tx)) (y + txH (txSub tx)))
              (q2 := Av1.read_var_tx_size E n (y + txH (txSub tx)) (x + txW (txSub tx)) (szOf (txSub tx)))
              (M := fun d b => Own n (depth + 1) (xo * 2 + 0) (yo * 2 + 1) d b ∨ Own n (depth + 1) (xo * 2 + 1) (yo * 2 + 1) d b) (D := DK) hps.1 (by omega)
              (kid 0 1 x (y + txH (txSub tx)) (by omega) (by omega) (by omega) (by omega) hin hx)
              (fun hin' => kid 1 1 (x + txW (txSub tx)) (y + txH (txSub tx)) (by omega) (by omega) (by omega) (by omega) hin hin')
              (fun hin' => var_out E n _ (by omega)) (kdis 0 1 1 1 (by omega) (by omega) (.inr (by omega))) (fun d b hm => hm) (kdep 0 1 x (y + txH (txSub tx))) D10 D11
            have all := vcomp (ok := ok) (M := MK) (D := DK) hps.2 hr (by omega) top bot
              (fun hin => by funext t; rw [var_out E n _ (by omega), var_out E n _ (by omega)]; rfl)
              (by
                rintro d b (o1 | o1) (o2 | o2)
                · exact kdis 0 0 0 1 (by omega) (by omega) (.inl (by omega)) d b o1 o2
                · exact kdis 0 0 1 1 (by omega) (by omega) (.inl (by omega)) d b o1 o2
                · exact kdis 1 0 0 1 (by omega) (by omega) (.inl (by omega)) d b o1 o2
                · exact kdis 1 0 1 1 (by omega) (by omega) (.inl (by omega)) d b o1 o2)
              (by
                rintro d b ((o | o) | (o | o))
                · exact hMK1 0 0 d b (by omega) (by omega) o
                · exact hMK1 0 1 d b (by omega) (by omega) o
                · exact hMK1 1 0 d b (by omega) (by omega) o
                · exact hMK1 1 1 d b (by omega) (by omega) o)
              topd (fun _ _ _ _ => rfl) (fun _ _ _ _ => rfl)
            rw [← k2, ← k3] at all
            have all := Same.mono fin (all _ t pre)
            have e1 : Av1.steps (txW tx) (txW (txSub tx)) = [0, txW (txSub tx)] := by rw [k2]; exact steps2 hps.1
            have e2 : Av1.steps (txH tx) (txH (txSub tx)) = [0, txH (txSub tx)] := by rw [k3]; exact steps2 hps.2
            simp only [sz1, sz2, e1, e2, List.foldlM_cons, List.foldlM_nil, bind_pure', Nat.add_zero, c1, c2, true_and]
            simp only [bind_assoc', Nat.add_zero] at all ⊢
            exact all
          · -- two parts side by side
            have c1 : txLw tx ≥ txLh tx := m7.2 (by omega)
            have c2 : ¬ txLh tx ≥ txLw tx := fun h => by have := m8.1 h; omega
            have all := hcomp (ok := ok) (p2 := readTxTree E.MiCols E.MiRows n (depth + 1) (txSub tx) (xo * 2 + 1) (yo * 2 + 0) (x + txW (txSub tx)) y)
              (q2 := Av1.read_var_tx_size E n y (x + txW (txSub tx)) (szOf (txSub tx)))
              (M := MK) (D := DK) hps.1 (by omega)
              (kid 0 0 x y (by omega) (by omega) (by omega) (by omega) hy hx) (fun hin => kid 1 0 (x + txW (txSub tx)) y (by omega) (by omega) (by omega) (by omega) hy hin)
              (fun hin => var_out E n _ (by omega)) (kdis 0 0 1 0 (by omega) (by omega) (.inr (by omega)))
              (by
                rintro d b (o | o)
                · exact hMK1 0 0 d b (by omega) (by omega) o
                · exact hMK1 0 1 d b (by omega) (by omega) o)
              (kdep 0 0 x y) D00 D01
            rw [← k2, ← k3] at all
            have all := Same.mono fin (all _ t pre)
            have e1 : Av1.steps (txW tx) (txW (txSub tx)) = [0, txW (txSub tx)] := by rw [k2]; exact steps2 hps.1
            have e2 : Av1.steps (txH tx) (txH (txSub tx)) = [0] := by rw [k3]; exact steps1 hps.2
            simp only [sz1, sz2, e1, e2, List.foldlM_cons, List.foldlM_nil, bind_pure', Nat.add_zero, c1, c2, true_and, false_and, if_false]
            simp only [bind_assoc', Nat.add_zero, bind_pure'] at all ⊢
            exact all
          · -- two parts one below the other
            have c1 : ¬ txLw tx ≥ txLh tx := fun h => by have := m7.1 h; omega
            have c2 : txLh tx ≥ txLw tx := m8.2 (by omega)
            have all := vcomp (ok := ok) (p2 := readTxTree E.MiCols E.MiRows n (depth + 1) (txSub tx) (xo * 2 + 0) (yo * 2 + 1) x (y + txH (txSub tx)))
              (q2 := Av1.read_var_tx_size E n (y + txH (txSub tx)) x (szOf (txSub tx)))
              (M := MK) (D := DK) hps.2 hr (by omega)
              (kid 0 0 x y (by omega) (by omega) (by omega) (by omega) hy hx) (fun hin => kid 0 1 x (y + txH (txSub tx)) (by omega) (by omega) (by omega) (by omega) hin hx)
              (fun hin => var_out E n _ (by omega)) (kdis 0 0 0 1 (by omega) (by omega) (.inl (by omega)))
              (by
                rintro d b (o | o)
                · exact hMK1 0 0 d b (by omega) (by omega) o
                · exact hMK1 1 0 d b (by omega) (by omega) o)
              (kdep 0 0 x y) D00 D10
            rw [← k2, ← k3] at all
            have all := Same.mono fin (all _ t pre)
            have e1 : Av1.steps (txW tx) (txW (txSub tx)) = [0] := by rw [k2]; exact steps1 hps.1
            have e2 : Av1.steps (txH tx) (txH (txSub tx)) = [0, txH (txSub tx)] := by rw [k3]; exact steps2 hps.2
            simp only [sz1, sz2, e1, e2, List.foldlM_cons, List.foldlM_nil, bind_pure', Nat.add_zero, c1, c2, true_and, false_and, if_false, pure_bind']
            simp only [bind_assoc', Nat.add_zero, bind_pure'] at all ⊢
            exact all

end Dav1d.Syn.Vartx
