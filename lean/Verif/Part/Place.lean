import Verif.Part.Replay
/-!
# Where the blocks of a run lie
-/
set_option linter.unusedSimpArgs false
set_option linter.unusedVariables false
namespace Dav1d.Part
variable {σ : Type}

/-- A block lies in the node at (x, y) of `2 * h` units and is aligned to its own size. -/
structure Placed (h x y : Nat) (c : Call) : Prop where
  x0 : x ≤ c.x
  x1 : c.x + bsW c.bs ≤ x + 2 * h
  y0 : y ≤ c.y
  y1 : c.y + bsH c.bs ≤ y + 2 * h
  ax : c.x % bsW c.bs = 0
  ay : c.y % bsH c.bs = 0
  bs : c.bs < 22

theorem Placed.mono {h x y h' x' y' : Nat} {c : Call} (p : Placed h' x' y' c) (h1 : x ≤ x') (h2 : x' + 2 * h' ≤ x + 2 * h) (h3 : y ≤ y')
    (h4 : y' + 2 * h' ≤ y + 2 * h) : Placed h x y c := by
  obtain ⟨a, b, c, d, e, f, g⟩ := p
  exact ⟨by omega, by omega, by omega, by omega, e, f, g⟩

/-- One direction of `Placed`. -/
def Fits (n x cx w : Nat) : Prop := x ≤ cx ∧ cx + w ≤ x + n ∧ cx % w = 0

theorem Fits.of {n x cx w : Nat} (v : Nat) (hv : w = v) (h1 : x ≤ cx) (h2 : cx + v ≤ x + n) (h3 : cx % v = 0) : Fits n x cx w := by
  subst hv; exact ⟨h1, h2, h3⟩

theorem placed_mk {h x y bl bs bp fl cx cy : Nat} (hb : bs < 22) (h1 : Fits (2 * h) x cx (bsW bs)) (h2 : Fits (2 * h) y cy (bsH bs)) :
    Placed h x y ⟨bl, bs, bp, fl, cx, cy⟩ := ⟨h1.1, h1.2.1, h2.1, h2.2.1, h1.2.2, h2.2.2, hb⟩

macro "fits" : tactic => `(tactic| first
  | exact Fits.of 1 rfl (by omega) (by omega) (by omega)
  | exact Fits.of 2 rfl (by omega) (by omega) (by omega)
  | exact Fits.of 4 rfl (by omega) (by omega) (by omega)
  | exact Fits.of 8 rfl (by omega) (by omega) (by omega)
  | exact Fits.of 16 rfl (by omega) (by omega) (by omega)
  | exact Fits.of 32 rfl (by omega) (by omega) (by omega))

set_option maxHeartbeats 1000000 in
theorem leaf_placed {f : Frame} {t : Tree} {k bp x y : Nat} {cs : List Call} (hk : k ≤ 4) (hx : x % (2 * 2 ^ k) = 0) (hy : y % (2 * 2 ^ k) = 0)
    (hbp : bp ≤ typeCount (4 - k)) (h : leafCalls f t (4 - k) bp (2 ^ k) x y = some cs) : ∀ c ∈ cs, Placed (2 ^ k) x y c := by
  have hks : k = 0 ∨ k = 1 ∨ k = 2 ∨ k = 3 ∨ k = 4 := by omega
  have hbs : bp = 0 ∨ bp = 1 ∨ bp = 2 ∨ bp = 3 ∨ bp = 4 ∨ bp = 5 ∨ bp = 6 ∨ bp = 7 ∨ bp = 8 ∨ bp = 9 := by
    rcases hks with rfl | rfl | rfl | rfl | rfl <;> simp [typeCount] at hbp <;> omega
  rcases hks with rfl | rfl | rfl | rfl | rfl <;> rcases hbs with rfl | rfl | rfl | rfl | rfl | rfl | rfl | rfl | rfl | rfl <;>
    first
    | (exfalso; revert hbp; decide)
    | (clear hbp hk; cases t <;> unfold leafCalls at h <;> dsimp only at h <;> first
        | (cases h; done)
        | (injection h with h
           subst h
           intro c hc
           simp only [List.mem_cons, List.not_mem_nil, or_false, List.mem_append, List.mem_ite_nil_right] at hc
           repeat' (rcases hc with hc | hc)
           all_goals (try (obtain ⟨_, rfl⟩ := hc))
           all_goals (try subst hc)
           all_goals (exact placed_mk (by decide) (by fits) (by fits))))

/-- The new events of a run. -/
structure News (P : Call → Prop) (st s : St σ) : Prop where
  ex : ∃ new, s.log = st.log ++ new ∧ ∀ c ∈ blocks new, P c

theorem News.refl (P : Call → Prop) (st : St σ) : News P st st := ⟨[], by simp, by intro c h; cases h⟩

theorem News.trans {P : Call → Prop} {a b c : St σ} (h1 : News P a b) (h2 : News P b c) : News P a c := by
  obtain ⟨n1, e1, p1⟩ := h1.ex
  obtain ⟨n2, e2, p2⟩ := h2.ex
  refine ⟨n1 ++ n2, by rw [e2, e1]; simp, fun c hc => ?_⟩
  rw [blocks_append] at hc
  rcases List.mem_append.1 hc with h | h
  · exact p1 c h
  · exact p2 c h

theorem News.mono {P Q : Call → Prop} {a b : St σ} (h : News P a b) (hq : ∀ c, P c → Q c) : News Q a b := by
  obtain ⟨n, e, p⟩ := h.ex
  exact ⟨n, e, fun c hc => hq c (p c hc)⟩

theorem News.log {P : Call → Prop} {a b a' b' : St σ} (h : News P a b) (h1 : a'.log = a.log) (h2 : b'.log = b.log) : News P a' b' := by
  obtain ⟨n, e, p⟩ := h.ex
  exact ⟨n, by rw [h1, h2, e], p⟩

/-- The blocks of a leaf and the contexts after it. -/
theorem leaf_news (S : Src σ) {P : Call → Prop} {f : Frame} {cs : List Call} {bl bp hsz x y : Nat} {st0 st s : St σ} {e : List Ev}
    (h : (blks S cs st).bind (setCtx f bl bp hsz x y) = .ok s) (he : st.log = st0.log ++ e) (hb : blocks e = [])
    (hp : ∀ c ∈ cs, P c) : News P st0 s := by
  obtain ⟨s1, h1, h2⟩ := bind_ok h
  refine ⟨e ++ cs.map .call, by rw [setCtx_log h2, blks_log S h1, he]; simp, fun c hc => ?_⟩
  rw [blocks_append, hb, blocks_map] at hc
  exact hp c hc

theorem part_range (S : Src σ) (hS : ∀ s bl ctx, (S.part s bl ctx).1 ≤ typeCount bl) {f : Frame} (hpass : f.pass ≠ 2) {bl x y bp : Nat} {st st1 : St σ}
    (h : readPart S f bl x y st = some (bp, st1)) : bp ≤ typeCount bl := by
  unfold readPart at h
  rw [if_neg hpass] at h
  dsimp only at h
  split at h
  · cases h
  · injection h with h
    injection h with h1 h2
    rw [← h1]; exact hS _ _ _

theorem sb_news (S : Src σ) (hS : ∀ s bl ctx, (S.part s bl ctx).1 ≤ typeCount bl) {f : Frame} (hpass : f.pass ≠ 2) :
    ∀ k, k ≤ 4 → ∀ (t : Tree) (x y : Nat) (st s : St σ), x % (2 * 2 ^ k) = 0 → y % (2 * 2 ^ k) = 0 → decodeSb S f k t x y st = .ok s →
      News (Placed (2 ^ k) x y) st s
  | 0, hk, t, x, y, st, s, hmx, hmy, h => by
    unfold decodeSb at h
    split at h
    · split at h
      · cases h
      · rename_i bp st1 hrd
        obtain ⟨e, he, hl⟩ := readPart_some S hpass hrd
        split at h
        · cases h
        · rename_i cs hcs
          exact leaf_news S h hl he (leaf_placed (k := 0) (by omega) hmx hmy (part_range S hS hpass hrd) hcs)
    · cases h
  | k + 1, hk, .tip _ _ _ _, x, y, st, s, hmx, hmy, h => by
    unfold decodeSb at h; cases h
  | k + 1, hk, .branch n h4 v4 c0 c1 c2 c3, x, y, st, s, hmx, hmy, h => by
    have hpw : 2 ^ (k + 1) = 2 * 2 ^ k := by rw [Nat.pow_succ]; omega
    have ih := sb_news S hS hpass k (by omega)
    have m1 : ∀ z, z % (2 * 2 ^ (k + 1)) = 0 → z % (2 * 2 ^ k) = 0 ∧ (z + 2 ^ (k + 1)) % (2 * 2 ^ k) = 0 := by
      intro z hz
      rw [hpw] at hz ⊢
      have : z % (2 * 2 ^ k) = 0 := Nat.mod_eq_zero_of_dvd (Nat.dvd_trans (⟨2, Nat.mul_comm _ _⟩) (Nat.dvd_of_mod_eq_zero hz))
      exact ⟨this, by rw [Nat.add_mod_right]; exact this⟩
    obtain ⟨mx0, mx1⟩ := m1 x hmx
    obtain ⟨my0, my1⟩ := m1 y hmy
    have q00 : ∀ c, Placed (2 ^ k) x y c → Placed (2 ^ (k + 1)) x y c := fun c p => p.mono (by omega) (by omega) (by omega) (by omega)
    have q10 : ∀ c, Placed (2 ^ k) (x + 2 ^ (k + 1)) y c → Placed (2 ^ (k + 1)) x y c := fun c p => p.mono (by omega) (by omega) (by omega) (by omega)
    have q01 : ∀ c, Placed (2 ^ k) x (y + 2 ^ (k + 1)) c → Placed (2 ^ (k + 1)) x y c := fun c p => p.mono (by omega) (by omega) (by omega) (by omega)
    have q11 : ∀ c, Placed (2 ^ k) (x + 2 ^ (k + 1)) (y + 2 ^ (k + 1)) c → Placed (2 ^ (k + 1)) x y c := fun c p => p.mono (by omega) (by omega) (by omega) (by omega)
    have rd : ∀ {st0 st1 s' : St σ} {e : List Ev}, st1.log = st0.log ++ e → blocks e = [] → News (Placed (2 ^ (k + 1)) x y) st1 s' →
        News (Placed (2 ^ (k + 1)) x y) st0 s' := by
      intro st0 st1 s' e hl he hn
      exact News.trans ⟨e, hl, by rw [he]; intro c hc; cases hc⟩ hn
    unfold decodeSb at h
    dsimp only at h
    split at h
    · split at h
      · split at h
        · cases h
        · rename_i bp st1 hrd
          obtain ⟨e, he, hl⟩ := readPart_some S hpass hrd
          split at h
          · obtain ⟨s0, h0, h⟩ := bind_ok h
            obtain ⟨s1, h1, h⟩ := bind_ok h
            obtain ⟨s2, h2, h⟩ := bind_ok h
            obtain ⟨s3, h3, h⟩ := bind_ok h
            have n := (((ih _ _ _ _ _ mx0 my0 h0).mono q00).trans ((ih _ _ _ _ _ mx1 my0 h1).mono q10)).trans
              (((ih _ _ _ _ _ mx0 my1 h2).mono q01).trans ((ih _ _ _ _ _ mx1 my1 h3).mono q11))
            exact rd hl he (n.log rfl (setCtx_log h))
          · split at h
            · cases h
            · rename_i hb3 _ cs hcs
              exact leaf_news S h hl he (leaf_placed hk hmx hmy (part_range S hS hpass hrd) hcs)
      · obtain ⟨e, he, hl⟩ := readTop_log S hpass (4 - (k + 1)) x y st
        split at h
        · obtain ⟨s0, h0, h⟩ := bind_ok h
          obtain ⟨s1, h1, h⟩ := bind_ok h
          exact rd hl he ((((ih _ _ _ _ _ mx0 my0 h0).mono q00).trans ((ih _ _ _ _ _ mx1 my0 h1).mono q10)).log rfl (setCtx_log h))
        · refine leaf_news S h hl he fun c hc => ?_
          refine leaf_placed (f := f) (t := .branch n h4 v4 c0 c1 c2 c3) (bp := 1) hk hmx hmy ?_ rfl c ?_
          · have : k = 0 ∨ k = 1 ∨ k = 2 ∨ k = 3 := by omega
            rcases this with rfl | rfl | rfl | rfl <;> decide
          · simp only [List.mem_cons, List.not_mem_nil, or_false] at hc ⊢
            exact .inl hc
    · split at h
      · split at h
        · cases h
        · rename_i b st1 hrd
          obtain ⟨e, he, hl⟩ := readLeft_some S hpass hrd
          split at h
          · obtain ⟨s0, h0, h⟩ := bind_ok h
            obtain ⟨s1, h1, h⟩ := bind_ok h
            exact rd hl he ((((ih _ _ _ _ _ mx0 my0 h0).mono q00).trans ((ih _ _ _ _ _ mx0 my1 h1).mono q01)).log rfl (setCtx_log h))
          · refine leaf_news S h hl he fun c hc => ?_
            refine leaf_placed (f := f) (t := .branch n h4 v4 c0 c1 c2 c3) (bp := 2) hk hmx hmy ?_ rfl c ?_
            · have : k = 0 ∨ k = 1 ∨ k = 2 ∨ k = 3 := by omega
              rcases this with rfl | rfl | rfl | rfl <;> decide
            · simp only [List.mem_cons, List.not_mem_nil, or_false] at hc ⊢
              exact .inl hc
      · exact (ih _ _ _ _ _ mx0 my0 h).mono q00

/-- A block of the superblock row at `y`. -/
structure InRow (step y : Nat) (c : Call) : Prop where
  row : c.y / step = y / step
  ax : c.x % bsW c.bs = 0
  ay : c.y % bsH c.bs = 0
  bs : c.bs < 22
  y1 : c.y + bsH c.bs ≤ y + step
  x1 : c.x % step + bsW c.bs ≤ step

theorem row_news (S : Src σ) (hS : ∀ s bl ctx, (S.part s bl ctx).1 ≤ typeCount bl) {f : Frame} (hpass : f.pass ≠ 2) (sb128 : Bool) {y : Nat}
    (hy : y % sbStep sb128 = 0) :
    ∀ (n x : Nat) (st s : St σ), x % sbStep sb128 = 0 → rowLoop S f sb128 n x y st = .ok s → News (InRow (sbStep sb128) y) st s
  | 0, x, st, s, hx, h => by cases h; exact News.refl _ _
  | n + 1, x, st, s, hx, h => by
    obtain ⟨s1, h1, h2⟩ := bind_ok h
    refine News.trans ?_ (row_news S hS hpass sb128 hy n _ _ _ (by rw [Nat.add_mod_right]; exact hx) h2)
    refine (sb_news S hS hpass _ (sb_le sb128) _ x y st s1 (by rw [← sb_step]; exact hx) (by rw [← sb_step]; exact hy) h1).mono fun c p => ?_
    obtain ⟨p1, p2, p3, p4, p5, p6, p7⟩ := p
    have hb : ∀ b < 22, 0 < bsH b := by decide
    have hpos := hb c.bs p7
    rw [← sb_step] at p2 p4
    refine ⟨?_, p5, p6, p7, p4, ?_⟩ <;>
    cases sb128 <;> simp only [sbStep, Bool.false_eq_true, if_true, if_false] at * <;> omega

/-- Blocks in the order of superblock rows, from the one with number `r` on. -/
def RowsFrom (step r : Nat) (cs : List Call) : Prop :=
  cs.Pairwise (fun c d => c.y / step ≤ d.y / step) ∧ ∀ c ∈ cs, r ≤ c.y / step ∧ InRow step (step * (c.y / step)) c

theorem tile_news (S : Src σ) (hS : ∀ s bl ctx, (S.part s bl ctx).1 ≤ typeCount bl) {f : Frame} (hpass : f.pass ≠ 2) (sb128 : Bool) (x0 x1 : Nat)
    (hx : x0 % sbStep sb128 = 0) :
    ∀ (n y : Nat) (st s : St σ), y % sbStep sb128 = 0 → tileLoop S f sb128 x0 x1 n y st = .ok s →
      ∃ new, s.log = st.log ++ new ∧ RowsFrom (sbStep sb128) (y / sbStep sb128) (blocks new)
  | 0, y, st, s, hy, h => by
    cases h
    exact ⟨[], by simp, List.Pairwise.nil, by intro c h; cases h⟩
  | n + 1, y, st, s, hy, h => by
    have hstep : 0 < sbStep sb128 := by cases sb128 <;> decide
    obtain ⟨s1, h1, h2⟩ := bind_ok h
    unfold tileSbrow at h1
    rw [if_neg hpass] at h1
    obtain ⟨n1, e1, p1⟩ := (row_news S hS hpass sb128 hy _ _ _ _ hx h1).ex
    obtain ⟨n2, e2, q1, q2⟩ := tile_news S hS hpass sb128 x0 x1 hx n _ _ _ (by rw [Nat.add_mod_right]; exact hy) h2
    have hd : (y + sbStep sb128) / sbStep sb128 = y / sbStep sb128 + 1 := Nat.add_div_right _ hstep
    have hm : y = sbStep sb128 * (y / sbStep sb128) := by
      have := Nat.div_add_mod y (sbStep sb128); omega
    refine ⟨n1 ++ n2, by rw [e2, e1]; simp, ?_, ?_⟩
    · rw [blocks_append]
      refine List.pairwise_append.2 ⟨?_, q1, ?_⟩
      · refine List.Pairwise.imp_of_mem (R := fun _ _ => True) ?_ (List.pairwise_of_forall (fun _ _ => trivial))
        intro c d hc hd' _
        rw [(p1 c hc).row, (p1 d hd').row]; exact Nat.le_refl _
      · intro c hc d hd'
        have := (q2 d hd').1
        rw [(p1 c hc).row]; omega
    · intro c hc
      rw [blocks_append] at hc
      rcases List.mem_append.1 hc with hc | hc
      · have := p1 c hc
        refine ⟨by rw [this.row]; exact Nat.le_refl _, ?_⟩
        rw [this.row, ← hm]; exact this
      · have := q2 c hc
        exact ⟨by omega, this.2⟩

end Dav1d.Part
