import Verif.Part.Place
import Verif.Part.Props
/-!
# Which blocks come before which
-/
set_option linter.unusedVariables false
namespace Dav1d.Part

/-- Column `X` belongs to the block. -/
def Call.inX (c : Call) (X : Nat) : Prop := c.x ≤ X ∧ X < c.x + bsW c.bs
/-- Row `Y` belongs to the block. -/
def Call.inY (c : Call) (Y : Nat) : Prop := c.y ≤ Y ∧ Y < c.y + bsH c.bs

section
variable {f : Frame} {T : Tile} {log : List Ev}

theorem AllOk.call (h : AllOk f T log) {p q : List Ev} {c : Call} (hl : log = p ++ .call c :: q) : CallOk f T p c := h p _ q hl

/-- A call in a list of events with what is before and after it. -/
theorem split_call {l : List Ev} {c : Call} (h : Ev.call c ∈ l) : ∃ p q, l = p ++ .call c :: q := List.append_of_mem h

theorem Decoded.left {p q : List Ev} {a b : Nat} (h : Decoded p a b) : Decoded (p ++ q) a b := by
  obtain ⟨c, h1, h2⟩ := h
  exact ⟨c, List.mem_append_left _ h1, h2⟩

theorem luma_mem (f : Frame) : luma ∈ planes f := by simp [planes]

theorem luma_has (c : Call) (h : 0 < bsW c.bs ∧ 0 < bsH c.bs) : luma.hasBlock c := ⟨.inl h.1, .inl h.2⟩

/-- The units right above and left of a block were decoded before. -/
theorem CallOk.top (h : CallOk f T log c) {X : Nat} (hx : c.inX X) (hX : X < T.x1) (hy : T.y0 < c.y) : Decoded log X (c.y - 1) := by
  obtain ⟨h1, h2, h3, h4⟩ := h.start
  have := (h.around luma (luma_mem f) (luma_has c h.pos)).top (X - c.x) (c.y - 1)
  simp only [luma, Plane.lastX, Plane.lastY, Plane.x, Plane.y, Plane.w, Plane.h, Nat.pow_zero, Nat.div_one, Nat.mul_one, Nat.add_zero, Nat.add_sub_cancel] at this
  unfold Call.inX at hx
  rw [show c.x + (X - c.x) = X by omega] at this
  exact this (by omega) (by omega) ⟨by omega, hX, by omega, by omega⟩

theorem CallOk.leftOf (h : CallOk f T log c) {Y : Nat} (hy : c.inY Y) (hY : Y < T.y1) (hx : T.x0 < c.x) : Decoded log (c.x - 1) Y := by
  obtain ⟨h1, h2, h3, h4⟩ := h.start
  have := (h.around luma (luma_mem f) (luma_has c h.pos)).left (Y - c.y) (c.x - 1)
  simp only [luma, Plane.lastX, Plane.lastY, Plane.x, Plane.y, Plane.w, Plane.h, Nat.pow_zero, Nat.div_one, Nat.mul_one, Nat.add_zero, Nat.add_sub_cancel] at this
  unfold Call.inY at hy
  rw [show c.y + (Y - c.y) = Y by omega] at this
  exact this (by omega) (by omega) ⟨by omega, by omega, by omega, hY⟩

/-- All units of the tile above a block were decoded before. -/
theorem above_done (h : AllOk f T log) : ∀ (n : Nat) (p q : List Ev) (c : Call), p.length = n → log = p ++ .call c :: q →
    ∀ X Y, c.inX X → X < T.x1 → T.y0 ≤ Y → Y < c.y → Decoded p X Y := by
  intro n
  induction n using Nat.strongRecOn with
  | _ n ih =>
    intro p q c hn hl X Y hx hX hY hYc
    have hc := h.call hl
    obtain ⟨c1, m1, v1⟩ := hc.top hx hX (by omega)
    by_cases h1 : c1.y ≤ Y
    · exact ⟨c1, m1, v1.1, v1.2.1, h1, by have := v1.2.2; omega⟩
    · obtain ⟨p1, q1, hs⟩ := split_call m1
      have hl1 : log = p1 ++ .call c1 :: (q1 ++ .call c :: q) := by rw [hl, hs]; simp
      have := ih p1.length (by rw [← hn, hs]; simp) p1 _ c1 rfl hl1 X Y ⟨v1.1, v1.2.1⟩ hX hY (by omega)
      rw [hs]; exact this.left

/-- All units of the tile left of a block were decoded before. -/
theorem left_done (h : AllOk f T log) : ∀ (n : Nat) (p q : List Ev) (c : Call), p.length = n → log = p ++ .call c :: q →
    ∀ X Y, c.inY Y → Y < T.y1 → T.x0 ≤ X → X < c.x → Decoded p X Y := by
  intro n
  induction n using Nat.strongRecOn with
  | _ n ih =>
    intro p q c hn hl X Y hx hX hY hYc
    have hc := h.call hl
    obtain ⟨c1, m1, v1⟩ := hc.leftOf hx hX (by omega)
    by_cases h1 : c1.x ≤ X
    · exact ⟨c1, m1, h1, by have := v1.2; omega, v1.2.2⟩
    · obtain ⟨p1, q1, hs⟩ := split_call m1
      have hl1 : log = p1 ++ .call c1 :: (q1 ++ .call c :: q) := by rw [hl, hs]; simp
      have := ih p1.length (by rw [← hn, hs]; simp) p1 _ c1 rfl hl1 X Y v1.2.2 hX hY (by omega)
      rw [hs]; exact this.left

/-- A block decoded before another one that shares a column ends above it. -/
theorem order_x (h : AllOk f T log) {p q : List Ev} {c c1 : Call} (hl : log = p ++ .call c :: q) (h1 : Ev.call c1 ∈ p) {X : Nat}
    (hx : c.inX X) (hx1 : c1.inX X) (hX : X < T.x1) : c1.y + bsH c1.bs ≤ c.y := by
  have hc := h.call hl
  obtain ⟨s1, s2, s3, s4⟩ := hc.start
  obtain ⟨p1, q1, hs⟩ := split_call h1
  have hl1 : log = p1 ++ .call c1 :: (q1 ++ .call c :: q) := by rw [hl, hs]; simp
  have hc1 := h.call hl1
  refine Nat.le_of_not_lt fun hlt => ?_
  by_cases hy : c1.y ≤ c.y
  · exact hc.fresh X c.y ⟨hx.1, hx.2, Nat.le_refl _, by have := hc.pos; omega⟩ ⟨c1, h1, hx1.1, hx1.2, hy, hlt⟩
  · have := above_done h _ p1 _ c1 rfl hl1 X c.y hx1 hX s3 (by omega)
    exact hc.fresh X c.y ⟨hx.1, hx.2, Nat.le_refl _, by have := hc.pos; omega⟩ (by rw [hs]; exact this.left)

/-- A block decoded before another one that shares a row ends left of it. -/
theorem order_y (h : AllOk f T log) {p q : List Ev} {c c1 : Call} (hl : log = p ++ .call c :: q) (h1 : Ev.call c1 ∈ p) {Y : Nat}
    (hy : c.inY Y) (hy1 : c1.inY Y) (hY : Y < T.y1) : c1.x + bsW c1.bs ≤ c.x := by
  have hc := h.call hl
  obtain ⟨s1, s2, s3, s4⟩ := hc.start
  obtain ⟨p1, q1, hs⟩ := split_call h1
  have hl1 : log = p1 ++ .call c1 :: (q1 ++ .call c :: q) := by rw [hl, hs]; simp
  have hc1 := h.call hl1
  refine Nat.le_of_not_lt fun hlt => ?_
  by_cases hx : c1.x ≤ c.x
  · exact hc.fresh c.x Y ⟨Nat.le_refl _, by have := hc.pos; omega, hy⟩ ⟨c1, h1, hx, hlt, hy1⟩
  · have := left_done h _ p1 _ c1 rfl hl1 c.x Y hy1 hY s1 (by omega)
    exact hc.fresh c.x Y ⟨Nat.le_refl _, by have := hc.pos; omega, hy⟩ (by rw [hs]; exact this.left)

/-- The block above is the last one before with the column. -/
theorem last_above (h : AllOk f T log) {p q : List Ev} {c : Call} (hl : log = p ++ .call c :: q) {X : Nat} (hx : c.inX X) (hX : X < T.x1)
    (hy : T.y0 < c.y) : ∃ c0 p0 q0, coverOf p X (c.y - 1) = some c0 ∧ p = p0 ++ .call c0 :: q0 ∧ c0.inX X ∧
      ∀ c1 ∈ blocks q0, ¬ c1.inX X := by
  have hc := h.call hl
  have hd := hc.top hx hX hy
  cases hcov : coverOf p X (c.y - 1) with
  | none => exact absurd hd (cover_none.1 hcov)
  | some c0 =>
    obtain ⟨m0, v0⟩ := cover_some hcov
    obtain ⟨p0, q0, hs⟩ := split_call m0
    refine ⟨c0, p0, q0, rfl, hs, ⟨v0.1, v0.2.1⟩, fun c1 hc1 hx1 => ?_⟩
    have m1 : Ev.call c1 ∈ q0 := by
      obtain ⟨e, he, h2⟩ := List.mem_filterMap.1 hc1
      cases e with
      | read _ _ _ _ => simp at h2
      | call c' => simp only [Option.some.injEq] at h2; subst h2; exact he
    have o1 := order_x h hl (c1 := c1) (by rw [hs]; simp [m1]) hx hx1 hX
    obtain ⟨p1, q1, hs1⟩ := split_call m1
    have hl1 : log = (p0 ++ .call c0 :: p1) ++ .call c1 :: (q1 ++ .call c :: q) := by rw [hl, hs, hs1]; simp
    have o2 := order_x h hl1 (c1 := c0) (by simp) hx1 ⟨v0.1, v0.2.1⟩ hX
    have := v0.2.2
    have := (h.call hl1).pos
    omega

/-- In the first row of the tile no block before has the column. -/
theorem none_above (h : AllOk f T log) {p q : List Ev} {c : Call} (hl : log = p ++ .call c :: q) {X : Nat} (hx : c.inX X) (hX : X < T.x1)
    (hy : ¬ T.y0 < c.y) : ∀ c1 ∈ blocks p, ¬ c1.inX X := by
  intro c1 hc1 hx1
  have m1 : Ev.call c1 ∈ p := by
    obtain ⟨e, he, h2⟩ := List.mem_filterMap.1 hc1
    cases e with
    | read _ _ _ _ => simp at h2
    | call c' => simp only [Option.some.injEq] at h2; subst h2; exact he
  have o1 := order_x h hl m1 hx hx1 hX
  obtain ⟨p1, q1, hs1⟩ := split_call m1
  have hl1 : log = p1 ++ .call c1 :: (q1 ++ .call c :: q) := by rw [hl, hs1]; simp
  have := (h.call hl1).pos
  have := (h.call hl1).start
  unfold Tile.has at this
  omega

/-- The block on the left is the last one before with the row. -/
theorem last_left (h : AllOk f T log) {p q : List Ev} {c : Call} (hl : log = p ++ .call c :: q) {Y : Nat} (hy : c.inY Y) (hY : Y < T.y1)
    (hx : T.x0 < c.x) : ∃ c0 p0 q0, coverOf p (c.x - 1) Y = some c0 ∧ p = p0 ++ .call c0 :: q0 ∧ c0.inY Y ∧
      ∀ c1 ∈ blocks q0, ¬ c1.inY Y := by
  have hc := h.call hl
  have hd := hc.leftOf hy hY hx
  cases hcov : coverOf p (c.x - 1) Y with
  | none => exact absurd hd (cover_none.1 hcov)
  | some c0 =>
    obtain ⟨m0, v0⟩ := cover_some hcov
    obtain ⟨p0, q0, hs⟩ := split_call m0
    refine ⟨c0, p0, q0, rfl, hs, v0.2.2, fun c1 hc1 hy1 => ?_⟩
    have m1 : Ev.call c1 ∈ q0 := by
      obtain ⟨e, he, h2⟩ := List.mem_filterMap.1 hc1
      cases e with
      | read _ _ _ _ => simp at h2
      | call c' => simp only [Option.some.injEq] at h2; subst h2; exact he
    have o1 := order_y h hl (c1 := c1) (by rw [hs]; simp [m1]) hy hy1 hY
    obtain ⟨p1, q1, hs1⟩ := split_call m1
    have hl1 : log = (p0 ++ .call c0 :: p1) ++ .call c1 :: (q1 ++ .call c :: q) := by rw [hl, hs, hs1]; simp
    have o2 := order_y h hl1 (c1 := c0) (by simp) hy1 v0.2.2 hY
    have := v0.2
    have := (h.call hl1).pos
    omega

/-- In the first column of the tile no block before has the row. -/
theorem none_left (h : AllOk f T log) {p q : List Ev} {c : Call} (hl : log = p ++ .call c :: q) {Y : Nat} (hy : c.inY Y) (hY : Y < T.y1)
    (hx : ¬ T.x0 < c.x) : ∀ c1 ∈ blocks p, ¬ c1.inY Y := by
  intro c1 hc1 hy1
  have m1 : Ev.call c1 ∈ p := by
    obtain ⟨e, he, h2⟩ := List.mem_filterMap.1 hc1
    cases e with
    | read _ _ _ _ => simp at h2
    | call c' => simp only [Option.some.injEq] at h2; subst h2; exact he
  have o1 := order_y h hl m1 hy hy1 hY
  obtain ⟨p1, q1, hs1⟩ := split_call m1
  have hl1 : log = p1 ++ .call c1 :: (q1 ++ .call c :: q) := by rw [hl, hs1]; simp
  have := (h.call hl1).pos
  have := (h.call hl1).start
  unfold Tile.has at this
  omega

end

end Dav1d.Part
