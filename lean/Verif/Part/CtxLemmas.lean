import Verif.Part.CtxSpec
import Verif.Part.Order
/-!
# The entries of the contexts are those of the neighbours
-/
set_option linter.unusedVariables false
namespace Dav1d.Part.Ctx
variable {α β : Type}

/-- One step of `Ctxs.after`. -/
def Ctxs.step (st : Nat) (reset : α → α) (g : Call → Nat → α → α) (s : Ctxs α) (c : Call) : Ctxs α := (s.enter st reset c).update g c

theorem after_append (st : Nat) (reset : α → α) (g : Call → Nat → α → α) (old : Ctxs α) (p q : List Call) :
    Ctxs.after st reset g old (p ++ q) = q.foldl (Ctxs.step st reset g) (Ctxs.after st reset g old p) := by
  unfold Ctxs.after
  rw [List.foldl_append]; rfl

theorem enter_a (st : Nat) (reset : α → α) (s : Ctxs α) (c : Call) : (s.enter st reset c).a = s.a := by
  unfold Ctxs.enter; split <;> rfl

theorem enter_row (st : Nat) (reset : α → α) (s : Ctxs α) (c : Call) : (s.enter st reset c).row = some (c.y / st) := by
  unfold Ctxs.enter; split
  · assumption
  · rfl

theorem step_row (st : Nat) (reset : α → α) (g : Call → Nat → α → α) (s : Ctxs α) (c : Call) : (s.step st reset g c).row = some (c.y / st) :=
  enter_row st reset s c

/-- Blocks without the column leave the entry alone. -/
theorem fold_a (st : Nat) (reset : α → α) (g : Call → Nat → α → α) {X : Nat} : ∀ (cs : List Call) (s : Ctxs α), (∀ c ∈ cs, ¬ c.inX X) →
    (cs.foldl (Ctxs.step st reset g) s).a X = s.a X
  | [], s, h => rfl
  | c :: cs, s, h => by
    rw [List.foldl_cons, fold_a st reset g cs _ (fun d hd => h d (List.mem_cons_of_mem _ hd))]
    have := h c List.mem_cons_self
    unfold Call.inX at this
    unfold Ctxs.step Ctxs.update setN
    dsimp only
    rw [if_neg this, enter_a]

/-- Blocks of the same superblock row without the row leave the entry alone. -/
theorem fold_l (st : Nat) (reset : α → α) (g : Call → Nat → α → α) {i r : Nat} : ∀ (cs : List Call) (s : Ctxs α), s.row = some r →
    (∀ c ∈ cs, c.y / st = r ∧ ¬ (c.y % 32 ≤ i ∧ i < c.y % 32 + bsH c.bs)) →
    (cs.foldl (Ctxs.step st reset g) s).l i = s.l i ∧ (cs.foldl (Ctxs.step st reset g) s).row = some r
  | [], s, hr, h => ⟨rfl, hr⟩
  | c :: cs, s, hr, h => by
    obtain ⟨h1, h2⟩ := h c List.mem_cons_self
    have hs : (s.step st reset g c).row = some r := by rw [step_row, h1]
    obtain ⟨e1, e2⟩ := fold_l st reset g cs _ hs (fun d hd => h d (List.mem_cons_of_mem _ hd))
    rw [List.foldl_cons]
    refine ⟨?_, e2⟩
    rw [e1]
    unfold Ctxs.step Ctxs.update setN
    dsimp only
    rw [if_neg h2]
    unfold Ctxs.enter
    rw [h1, if_pos hr]

/-- The last row entered. -/
theorem after_row (st : Nat) (reset : α → α) (g : Call → Nat → α → α) (old : Ctxs α) (p : List Call) (c : Call) :
    (Ctxs.after st reset g old (p ++ [c])).row = some (c.y / st) := by
  rw [after_append]; exact step_row st reset g _ c

/-- The entry above. -/
theorem above_entry {f : Frame} {T : Tile} {log p q : List Ev} (h : AllOk f T log) {c : Call} (hl : log = p ++ .call c :: q) {X : Nat} (hx : c.inX X)
    (hX : X < T.x1) (st : Nat) (reset : α → α) (g : Call → Nat → α → α) (old : Ctxs α) (π : α → β) (r : β) (w : Call → Nat → β)
    (hr : ∀ e, π (reset e) = r) (hg : ∀ d i e, π (g d i e) = w d i) :
    π ((Ctxs.after st reset g old (blocks p)).a X) = match (if T.y0 < c.y then coverOf p X (c.y - 1) else none) with
      | some d => w d 0
      | none => r := by
  by_cases hy : T.y0 < c.y
  · obtain ⟨c0, p0, q0, hc, hs, hin, hno⟩ := last_above h hl hx hX hy
    rw [if_pos hy, hc, hs, blocks_append]
    have : blocks (.call c0 :: q0) = c0 :: blocks q0 := rfl
    rw [this, after_append, List.foldl_cons, fold_a st reset g _ _ hno]
    unfold Ctxs.step Ctxs.update setN
    dsimp only
    unfold Call.inX at hin
    rw [if_pos hin, hg]
  · rw [if_neg hy]
    have := none_above h hl hx hX hy
    unfold Ctxs.after
    have e := fold_a st reset g (blocks p) { a := fun i => reset (old.a i), l := old.l, row := none } this
    unfold Ctxs.step at e
    rw [e, hr]

/-- Sizes of blocks. -/
theorem bsH_dvd : ∀ b < 22, 0 < bsH b ∧ 32 % bsH b = 0 := by decide
theorem bsW_dvd : ∀ b < 22, 0 < bsW b ∧ 32 % bsW b = 0 := by decide

/-- Aligned blocks do not go over the end of the 32 entries. -/
theorem no_wrap {n y : Nat} (hn : 0 < n) (hd : 32 % n = 0) (hy : y % n = 0) : y % 32 + n ≤ 32 := by
  have h1 : n ∣ 32 := Nat.dvd_of_mod_eq_zero hd
  have h2 : n ∣ y := Nat.dvd_of_mod_eq_zero hy
  have h3 : n ∣ y % 32 := (Nat.dvd_mod_iff h1).2 h2
  obtain ⟨a, ha⟩ := h3
  obtain ⟨b, hb⟩ := h1
  have hlt : y % 32 < 32 := Nat.mod_lt _ (by decide)
  rw [ha, hb] at hlt
  have : a < b := Nat.lt_of_mul_lt_mul_left hlt
  rw [ha, hb]
  calc n * a + n = n * (a + 1) := by rw [Nat.mul_add, Nat.mul_one]
    _ ≤ n * b := Nat.mul_le_mul_left _ this

theorem rows_in {step y Y : Nat} {c : Call} (hs : step = 16 ∨ step = 32) (h : InRow step (step * (c.y / step)) c) (hY : c.inY Y) : Y / step = c.y / step := by
  have := h.y1
  unfold Call.inY at hY
  rcases hs with rfl | rfl <;> omega

/-- An index in the left array belongs to one row of the superblock row. -/
theorem idx_row {step Y : Nat} {c : Call} (hs : step = 16 ∨ step = 32) (h : InRow step (step * (c.y / step)) c) (hY : Y / step = c.y / step)
    (hi : c.y % 32 ≤ Y % 32 ∧ Y % 32 < c.y % 32 + bsH c.bs) : c.inY Y := by
  have := h.y1
  unfold Call.inY
  rcases hs with rfl | rfl <;> omega

theorem row_idx {Y : Nat} {c : Call} (hb : c.bs < 22) (ha : c.y % bsH c.bs = 0) (hY : c.inY Y) :
    c.y % 32 ≤ Y % 32 ∧ Y % 32 < c.y % 32 + bsH c.bs := by
  obtain ⟨h1, h2⟩ := bsH_dvd c.bs hb
  have := no_wrap h1 h2 ha
  unfold Call.inY at hY
  omega

/-- The entry on the left. -/
theorem left_entry {f : Frame} {T : Tile} {log p q : List Ev} (h : AllOk f T log) {st : Nat} (hst : st = 16 ∨ st = 32) {r0 : Nat}
    (hrows : RowsFrom st r0 (blocks log)) {c : Call} (hl : log = p ++ .call c :: q) {Y : Nat} (hy : c.inY Y)
    (hY : Y < T.y1) (reset : α → α) (g : Call → Nat → α → α) (old : Ctxs α) (π : α → β) (r : β) (w : Call → Nat → β)
    (hr : ∀ e, π (reset e) = r) (hg : ∀ d i e, π (g d i e) = w d i) :
    π (((Ctxs.after st reset g old (blocks p)).enter st reset c).l (Y % 32)) = match (if T.x0 < c.x then coverOf p (c.x - 1) Y else none) with
      | some d => w d 1
      | none => r := by
  obtain ⟨hp, hin⟩ := hrows
  have hb : blocks log = blocks p ++ c :: blocks q := by rw [hl, blocks_append]; rfl
  have hYc := rows_in (y := 0) hst (hin c (by rw [hb]; simp)).2 hy
  by_cases hx : T.x0 < c.x
  · obtain ⟨c0, p0, q0, hc, hs, hin0, hno⟩ := last_left h hl hy hY hx
    rw [if_pos hx, hc, hs, blocks_append]
    have hb0 : blocks (.call c0 :: q0) = c0 :: blocks q0 := rfl
    have hb1 : blocks log = blocks p0 ++ c0 :: (blocks q0 ++ c :: blocks q) := by rw [hb, hs, blocks_append, hb0]; simp
    have i0 := hin c0 (by rw [hb1]; simp)
    have hY0 := rows_in (y := 0) hst i0.2 hin0
    have hmid : ∀ d ∈ blocks q0, d.y / st = c0.y / st := by
      intro d hd
      rw [hb1] at hp
      have hp1 := (List.pairwise_append.1 hp).2.1
      have a1 := (List.pairwise_cons.1 hp1).1 d (List.mem_append_left _ hd)
      have a2 := (List.pairwise_append.1 (List.pairwise_cons.1 hp1).2).2.2 d hd c List.mem_cons_self
      omega
    rw [hb0, after_append, List.foldl_cons]
    generalize hS : (Ctxs.after st reset g old (blocks p0)).step st reset g c0 = S
    have hSr : S.row = some (c0.y / st) := by rw [← hS]; exact step_row ..
    obtain ⟨e1, e2⟩ := fold_l st reset g (i := Y % 32) (blocks q0) S hSr fun d hd => ⟨hmid d hd, fun hi => by
      have id := hin d (by rw [hb1]; simp [hd])
      exact hno d hd (idx_row hst id.2 (by rw [hmid d hd, hY0]) hi)⟩
    have : ((blocks q0).foldl (Ctxs.step st reset g) S).enter st reset c = (blocks q0).foldl (Ctxs.step st reset g) S := by
      unfold Ctxs.enter
      rw [e2, if_pos (by rw [← hY0, hYc])]
    rw [this, e1, ← hS]
    unfold Ctxs.step Ctxs.update setN
    dsimp only
    rw [if_pos (row_idx i0.2.bs i0.2.ay hin0), hg]
  · rw [if_neg hx]
    have hno := none_left h hl hy hY hx
    by_cases hrow : (Ctxs.after st reset g old (blocks p)).row = some (c.y / st)
    · -- the blocks of the superblock row so far
      unfold Ctxs.enter
      rw [if_pos hrow]
      suffices H : ∀ (n : Nat) (cs : List Call), cs.length = n → (∀ d ∈ cs, d ∈ blocks p) → (cs.Pairwise fun a b => a.y / st ≤ b.y / st) →
          (Ctxs.after st reset g old cs).row = some (c.y / st) → π ((Ctxs.after st reset g old cs).l (Y % 32)) = r by
        refine H _ _ rfl (fun _ hd => hd) ?_ hrow
        rw [hb] at hp
        exact (List.pairwise_append.1 hp).1
      intro n
      induction n with
      | zero =>
        intro cs hn _ _ hr'
        rw [List.length_eq_zero_iff.1 hn] at hr'
        simp [Ctxs.after] at hr'
      | succ n ih =>
        intro cs' hn hm hpw hrd
        rcases List.eq_nil_or_concat cs' with hcs | ⟨cs, d, hcs⟩
        · rw [hcs] at hn; simp at hn
        rw [List.concat_eq_append] at hcs
        subst hcs
        rw [after_row] at hrd
        have hdm := hm d (by simp)
        have id := hin d (by rw [hb]; simp [hdm])
        have hdr : d.y / st = c.y / st := by injection hrd
        have hni : ¬ (d.y % 32 ≤ Y % 32 ∧ Y % 32 < d.y % 32 + bsH d.bs) := fun hi =>
          hno d hdm (idx_row hst id.2 (by rw [hdr, hYc]) hi)
        rw [after_append]
        simp only [List.foldl_cons, List.foldl_nil]
        unfold Ctxs.step Ctxs.update setN
        dsimp only
        rw [if_neg hni]
        unfold Ctxs.enter
        by_cases hb2 : (Ctxs.after st reset g old cs).row = some (d.y / st)
        · rw [if_pos hb2]
          exact ih cs (by simpa using hn) (fun d' hd' => hm d' (by simp [hd'])) (List.pairwise_append.1 hpw).1 (by rw [hb2, hdr])
        · rw [if_neg hb2]
          exact hr _
    · unfold Ctxs.enter
      rw [if_neg hrow]
      exact hr _

end Dav1d.Part.Ctx
