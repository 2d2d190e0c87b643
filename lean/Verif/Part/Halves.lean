import Verif.Part.CtxProps
/-!
# Blocks of 128 samples have their second half inside the frame
-/
set_option linter.unusedSimpArgs false
set_option linter.unusedVariables false
namespace Dav1d.Part
variable {σ : Type}

/-- Of a block that is 128 samples wide or high more than 64 columns or rows are inside the frame. -/
structure Halves (f : Frame) (c : Call) : Prop where
  w : bsW c.bs = 32 → c.x + 16 < f.bw
  h : bsH c.bs = 32 → c.y + 16 < f.bh

theorem Placed.halves {f : Frame} {k x y : Nat} {c : Call} (hk : k ≤ 4) (p : Placed (2 ^ k) x y c) (h1 : bsW c.bs = 32 → k = 4 → x + 16 < f.bw) (h2 : bsH c.bs = 32 → k = 4 → y + 16 < f.bh) :
    Halves f c := by
  obtain ⟨p1, p2, p3, p4, -, -, -⟩ := p
  have hk : k = 0 ∨ k = 1 ∨ k = 2 ∨ k = 3 ∨ k = 4 := by omega
  rcases hk with rfl | rfl | rfl | rfl | rfl
  · exact ⟨fun h => by omega, fun h => by omega⟩
  · exact ⟨fun h => by omega, fun h => by omega⟩
  · exact ⟨fun h => by omega, fun h => by omega⟩
  · exact ⟨fun h => by omega, fun h => by omega⟩
  · refine ⟨fun h => ?_, fun h => ?_⟩
    · have := h1 h rfl; omega
    · have := h2 h rfl; omega

theorem sb_halves (S : Src σ) (hS : ∀ s bl ctx, (S.part s bl ctx).1 ≤ typeCount bl) {f : Frame} (hpass : f.pass ≠ 2) :
    ∀ k, k ≤ 4 → ∀ (t : Tree) (x y : Nat) (st s : St σ), x % (2 * 2 ^ k) = 0 → y % (2 * 2 ^ k) = 0 → decodeSb S f k t x y st = .ok s →
      News (Halves f) st s
  | 0, hk, t, x, y, st, s, hmx, hmy, h => by
    refine (sb_news S hS hpass 0 hk t x y st s hmx hmy h).mono fun c p => p.halves hk (fun _ h => by omega) (fun _ h => by omega)
  | k + 1, hk, .tip _ _ _ _, x, y, st, s, hmx, hmy, h => by
    unfold decodeSb at h; cases h
  | k + 1, hk, .branch n h4 v4 c0 c1 c2 c3, x, y, st, s, hmx, hmy, h => by
    have hpw : 2 ^ (k + 1) = 2 * 2 ^ k := by rw [Nat.pow_succ]; omega
    have ih := sb_halves S hS hpass k (by omega)
    have m1 : ∀ z, z % (2 * 2 ^ (k + 1)) = 0 → z % (2 * 2 ^ k) = 0 ∧ (z + 2 ^ (k + 1)) % (2 * 2 ^ k) = 0 := by
      intro z hz
      rw [hpw] at hz ⊢
      have : z % (2 * 2 ^ k) = 0 := Nat.mod_eq_zero_of_dvd (Nat.dvd_trans (⟨2, Nat.mul_comm _ _⟩) (Nat.dvd_of_mod_eq_zero hz))
      exact ⟨this, by rw [Nat.add_mod_right]; exact this⟩
    obtain ⟨mx0, mx1⟩ := m1 x hmx
    obtain ⟨my0, my1⟩ := m1 y hmy
    have rd : ∀ {st0 st1 s' : St σ} {e : List Ev}, st1.log = st0.log ++ e → blocks e = [] → News (Halves f) st1 s' →
        News (Halves f) st0 s' := by
      intro st0 st1 s' e hl he hn
      exact News.trans ⟨e, hl, by rw [he]; intro c hc; cases hc⟩ hn
    have four : k + 1 = 4 → 2 ^ (k + 1) = 16 := fun h => by rw [h]
    have all := sb_news S hS hpass (k + 1) hk (.branch n h4 v4 c0 c1 c2 c3) x y st s hmx hmy h
    unfold decodeSb at h
    dsimp only at h
    split at h
    · rename_i bw1
      split at h
      · rename_i bh1
        exact all.mono fun c p => p.halves hk (fun _ e => by have := four e; omega) (fun _ e => by have := four e; omega)
      · obtain ⟨e, he, hl⟩ := readTop_log S hpass (4 - (k + 1)) x y st
        split at h
        · obtain ⟨s0, h0, h⟩ := bind_ok h
          obtain ⟨s1, h1, h⟩ := bind_ok h
          exact rd hl he (((ih _ _ _ _ _ mx0 my0 h0).trans (ih _ _ _ _ _ mx1 my0 h1)).log rfl (setCtx_log h))
        · refine leaf_news S h hl he fun c hc => ?_
          simp only [List.mem_cons, List.not_mem_nil, or_false] at hc
          subst hc
          have hks : k = 0 ∨ k = 1 ∨ k = 2 ∨ k = 3 := by omega
          rcases hks with rfl | rfl | rfl | rfl
          · exact ⟨fun h => absurd h (by dsimp only; decide), fun h => absurd h (by dsimp only; decide)⟩
          · exact ⟨fun h => absurd h (by dsimp only; decide), fun h => absurd h (by dsimp only; decide)⟩
          · exact ⟨fun h => absurd h (by dsimp only; decide), fun h => absurd h (by dsimp only; decide)⟩
          · exact ⟨fun _ => by dsimp only; omega, fun h => absurd h (by dsimp only; decide)⟩
    · split at h
      · split at h
        · cases h
        · rename_i b st1 hrd
          obtain ⟨e, he, hl⟩ := readLeft_some S hpass hrd
          split at h
          · obtain ⟨s0, h0, h⟩ := bind_ok h
            obtain ⟨s1, h1, h⟩ := bind_ok h
            exact rd hl he (((ih _ _ _ _ _ mx0 my0 h0).trans (ih _ _ _ _ _ mx0 my1 h1)).log rfl (setCtx_log h))
          · refine leaf_news S h hl he fun c hc => ?_
            simp only [List.mem_cons, List.not_mem_nil, or_false] at hc
            subst hc
            have hks : k = 0 ∨ k = 1 ∨ k = 2 ∨ k = 3 := by omega
            rcases hks with rfl | rfl | rfl | rfl
            · exact ⟨fun h => absurd h (by dsimp only; decide), fun h => absurd h (by dsimp only; decide)⟩
            · exact ⟨fun h => absurd h (by dsimp only; decide), fun h => absurd h (by dsimp only; decide)⟩
            · exact ⟨fun h => absurd h (by dsimp only; decide), fun h => absurd h (by dsimp only; decide)⟩
            · exact ⟨fun h => absurd h (by dsimp only; decide), fun _ => by dsimp only; omega⟩
      · exact ih _ _ _ _ _ mx0 my0 h

theorem row_halves (S : Src σ) (hS : ∀ s bl ctx, (S.part s bl ctx).1 ≤ typeCount bl) {f : Frame} (hpass : f.pass ≠ 2) (sb128 : Bool) {y : Nat}
    (hy : y % sbStep sb128 = 0) :
    ∀ (n x : Nat) (st s : St σ), x % sbStep sb128 = 0 → rowLoop S f sb128 n x y st = .ok s → News (Halves f) st s
  | 0, x, st, s, hx, h => by cases h; exact News.refl _ _
  | n + 1, x, st, s, hx, h => by
    obtain ⟨s1, h1, h2⟩ := bind_ok h
    exact (sb_halves S hS hpass _ (sb_le sb128) _ x y st s1 (by rw [← sb_step]; exact hx) (by rw [← sb_step]; exact hy) h1).trans
      (row_halves S hS hpass sb128 hy n _ _ _ (by rw [Nat.add_mod_right]; exact hx) h2)

theorem tile_halves (S : Src σ) (hS : ∀ s bl ctx, (S.part s bl ctx).1 ≤ typeCount bl) {f : Frame} (hpass : f.pass ≠ 2) (sb128 : Bool) (x0 x1 : Nat)
    (hx : x0 % sbStep sb128 = 0) :
    ∀ (n y : Nat) (st s : St σ), y % sbStep sb128 = 0 → tileLoop S f sb128 x0 x1 n y st = .ok s → News (Halves f) st s
  | 0, y, st, s, hy, h => by cases h; exact News.refl _ _
  | n + 1, y, st, s, hy, h => by
    obtain ⟨s1, h1, h2⟩ := bind_ok h
    unfold tileSbrow at h1
    rw [if_neg hpass] at h1
    exact (News.log (a' := st) (b' := s1) (row_halves S hS hpass sb128 hy _ _ _ _ hx h1) rfl rfl).trans
      (tile_halves S hS hpass sb128 x0 x1 hx n _ _ _ (by rw [Nat.add_mod_right]; exact hy) h2)

namespace Ctx
theorem Run.halves {f : Frame} {sb128 : Bool} {T : Tile} {before after : List Ev} {c : Call} (h : Run f sb128 T before after c) : Halves f c := by
  obtain ⟨hp, hT, σ, S, s, st, hS, h1, h2⟩ := h
  obtain ⟨new, e1, e2⟩ := (tile_halves S hS hp sb128 T.x0 T.x1 hT.x0 _ _ _ _ hT.y0 h1).ex
  have : new = st.log := by rw [e1]; rfl
  rw [this, h2, blocks_append] at e2
  exact e2 c (List.mem_append_right _ List.mem_cons_self)
end Ctx

end Dav1d.Part
