import Verif.Part.CtxProps
/-!
# Superblocks are decoded row by row, and from left to right in a row
-/
set_option linter.unusedVariables false
namespace Dav1d.Part
variable {σ : Type}

/-- `c` does not come after `d` in the order of superblocks. -/
def SbLe (step : Nat) (c d : Call) : Prop := c.y / step < d.y / step ∨ (c.y / step = d.y / step ∧ c.x / step ≤ d.x / step)

theorem row_ord (S : Src σ) (hS : ∀ s bl ctx, (S.part s bl ctx).1 ≤ typeCount bl) {f : Frame} (hpass : f.pass ≠ 2) (sb128 : Bool) {y : Nat}
    (hy : y % sbStep sb128 = 0) :
    ∀ (n x : Nat) (st s : St σ), x % sbStep sb128 = 0 → rowLoop S f sb128 n x y st = .ok s →
      ∃ new, s.log = st.log ++ new ∧ (blocks new).Pairwise (SbLe (sbStep sb128)) ∧
        ∀ c ∈ blocks new, c.y / sbStep sb128 = y / sbStep sb128 ∧ x / sbStep sb128 ≤ c.x / sbStep sb128
  | 0, x, st, s, hx, h => by
    cases h
    exact ⟨[], by simp, List.Pairwise.nil, by intro c h; cases h⟩
  | n + 1, x, st, s, hx, h => by
    obtain ⟨s1, h1, h2⟩ := bind_ok h
    obtain ⟨n2, e2, q1, q2⟩ := row_ord S hS hpass sb128 hy n _ _ _ (by rw [Nat.add_mod_right]; exact hx) h2
    obtain ⟨n1, e1, p1⟩ := (sb_news S hS hpass _ (sb_le sb128) _ x y st s1 (by rw [← sb_step]; exact hx) (by rw [← sb_step]; exact hy) h1).ex
    have hin : ∀ c ∈ blocks n1, c.y / sbStep sb128 = y / sbStep sb128 ∧ c.x / sbStep sb128 = x / sbStep sb128 := by
      intro c hc
      obtain ⟨p1, p2, p3, p4, p5, p6, p7⟩ := p1 c hc
      have hb : ∀ b < 22, 0 < bsH b ∧ 0 < bsW b := by decide
      have hpos := hb c.bs p7
      rw [← sb_step] at p2 p4
      refine ⟨?_, ?_⟩ <;>
      cases sb128 <;> simp only [sbStep, Bool.false_eq_true, if_true, if_false] at * <;> omega
    have hstep : 0 < sbStep sb128 := by cases sb128 <;> decide
    have hd : (x + sbStep sb128) / sbStep sb128 = x / sbStep sb128 + 1 := Nat.add_div_right _ hstep
    refine ⟨n1 ++ n2, by rw [e2, e1]; simp, ?_, ?_⟩
    · rw [blocks_append]
      refine List.pairwise_append.2 ⟨?_, q1, ?_⟩
      · refine List.Pairwise.imp_of_mem (R := fun _ _ => True) ?_ (List.pairwise_of_forall (fun _ _ => trivial))
        intro c d hc hd' _
        have a1 := hin c hc; have a2 := hin d hd'
        exact .inr ⟨by omega, by omega⟩
      · intro c hc d hd'
        have a1 := hin c hc; have a2 := q2 d hd'
        exact .inr ⟨by omega, by omega⟩
    · intro c hc
      rw [blocks_append] at hc
      rcases List.mem_append.1 hc with hc | hc
      · have := hin c hc; omega
      · have := q2 c hc; omega

theorem tile_ord (S : Src σ) (hS : ∀ s bl ctx, (S.part s bl ctx).1 ≤ typeCount bl) {f : Frame} (hpass : f.pass ≠ 2) (sb128 : Bool) (x0 x1 : Nat)
    (hx : x0 % sbStep sb128 = 0) :
    ∀ (n y : Nat) (st s : St σ), y % sbStep sb128 = 0 → tileLoop S f sb128 x0 x1 n y st = .ok s →
      ∃ new, s.log = st.log ++ new ∧ (blocks new).Pairwise (SbLe (sbStep sb128)) ∧ ∀ c ∈ blocks new, y / sbStep sb128 ≤ c.y / sbStep sb128
  | 0, y, st, s, hy, h => by
    cases h
    exact ⟨[], by simp, List.Pairwise.nil, by intro c h; cases h⟩
  | n + 1, y, st, s, hy, h => by
    have hstep : 0 < sbStep sb128 := by cases sb128 <;> decide
    obtain ⟨s1, h1, h2⟩ := bind_ok h
    unfold tileSbrow at h1
    rw [if_neg hpass] at h1
    obtain ⟨n1, e1, p0, p1⟩ := row_ord S hS hpass sb128 hy _ _ _ _ hx h1
    obtain ⟨n2, e2, q1, q2⟩ := tile_ord S hS hpass sb128 x0 x1 hx n _ _ _ (by rw [Nat.add_mod_right]; exact hy) h2
    have hd : (y + sbStep sb128) / sbStep sb128 = y / sbStep sb128 + 1 := Nat.add_div_right _ hstep
    refine ⟨n1 ++ n2, by rw [e2, e1]; simp, ?_, ?_⟩
    · rw [blocks_append]
      refine List.pairwise_append.2 ⟨p0, q1, ?_⟩
      intro c hc d hd'
      have a1 := p1 c hc; have a2 := q2 d hd'
      exact .inl (by omega)
    · intro c hc
      rw [blocks_append] at hc
      rcases List.mem_append.1 hc with hc | hc
      · have := p1 c hc; omega
      · have := q2 c hc; omega

namespace Ctx
variable {f : Frame} {sb128 : Bool} {T : Tile} {before after : List Ev} {c : Call}

theorem Run.order (h : Run f sb128 T before after c) : (blocks (before ++ .call c :: after)).Pairwise (SbLe (sbStep sb128)) := by
  obtain ⟨hp, hT, σ, S, s, st, hS, h1, h2⟩ := h
  obtain ⟨new, e1, e2, -⟩ := tile_ord S hS hp sb128 T.x0 T.x1 hT.x0 _ _ _ _ hT.y0 h1
  have : st.log = new := e1
  rw [← h2, this]; exact e2

theorem Run.all (h : Run f sb128 T before after c) {X Y : Nat} (ht : T.has X Y) : Decoded (before ++ .call c :: after) X Y := by
  obtain ⟨hp, hT, σ, S, s, st, hS, h1, h2⟩ := h
  rcases decodeTile_ok S hS hp hT s with h3 | ⟨st', h3, h4, h5⟩
  · rw [h1] at h3; cases h3
  · rw [h1] at h3; cases h3
    rw [← h2]; exact h4 X Y ht

theorem mem_blocks' {log : List Ev} {d : Call} (h : Ev.call d ∈ log) : d ∈ blocks log := by
  unfold blocks
  exact List.mem_filterMap.2 ⟨_, h, rfl⟩

/-- All units of the tile in superblocks before the one of a block were decoded before the block. -/
theorem Run.sb_done (h : Run f sb128 T before after c) {X Y : Nat} (ht : T.has X Y)
    (hl : Y / sbStep sb128 < c.y / sbStep sb128 ∨ (Y / sbStep sb128 = c.y / sbStep sb128 ∧ X / sbStep sb128 < c.x / sbStep sb128)) :
    Decoded before X Y := by
  obtain ⟨d, m, v⟩ := h.all ht
  obtain ⟨-, r, -, h2⟩ := h.facts
  have hd := (h2 d (mem_blocks' m)).2
  have hsb : d.y / sbStep sb128 = Y / sbStep sb128 ∧ d.x / sbStep sb128 = X / sbStep sb128 := by
    obtain ⟨a1, a2, a3, a4, a5, a6⟩ := hd
    obtain ⟨v1, v2, v3, v4⟩ := v
    refine ⟨?_, ?_⟩ <;>
    cases sb128 <;> simp only [sbStep, Bool.false_eq_true, if_true, if_false] at * <;> omega
  have ho := h.order
  rw [blocks_append] at ho
  rcases List.mem_append.1 m with m | m
  · exact ⟨d, m, v⟩
  · exfalso
    rcases List.mem_cons.1 m with m | m
    · injection m with m
      subst m
      omega
    · have hb : blocks (Ev.call c :: after) = c :: blocks after := rfl
      rw [hb] at ho
      have := (List.pairwise_cons.1 (List.pairwise_append.1 ho).2.1).1 d (mem_blocks' m)
      unfold SbLe at this; omega

end Ctx
end Dav1d.Part
