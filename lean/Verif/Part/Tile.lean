import Verif.Part.Split
/-!
# The superblocks of a tile
-/
set_option linter.unusedVariables false
namespace Dav1d.Part
variable {σ : Type}

/-- In the superblock row at `y`, before the superblock at `x`; `h` is half a superblock. -/
structure RowInv (f : Frame) (T : Tile) (h x y : Nat) (st : St σ) : Prop where
  dec : ∀ a b, T.has a b → (Decoded st.log a b ↔ b < y ∨ (b < y + 2 * h ∧ a < x))
  out : ∀ a b, Decoded st.log a b → T.x0 ≤ a ∧ T.y0 ≤ b ∧ (b < y ∨ (b < y + 2 * h ∧ a < x))
  ok : AllOk f T st.log
  done : ∀ i, T.x0 ≤ 2 * i → 2 * i < T.x1 → 2 * i < x → y + 2 * h ≤ T.y1 → DescA st i (y + 2 * h)
  todo : ∀ i, T.x0 ≤ 2 * i → 2 * i < T.x1 → x ≤ 2 * i → DescA st i y
  left : x < T.x1 → ∀ i, y ≤ 2 * i → 2 * i < y + 2 * h → 2 * i < T.y1 → DescL st i x

section
variable {f : Frame} {T : Tile} {h x y : Nat} {st st' : St σ}

theorem RowInv.pre (hi : RowInv f T h x y st) (g : Geo f T h x y) : Pre f T h x y True False st := by
  obtain ⟨g1, g2, g3, g4, g5, g6, g7, g8, g9, g10⟩ := g
  refine ⟨?_, ?_, hi.ok, ?_, ?_⟩
  · intro a b ht h1 h2 h3 h4
    rw [hi.dec a b ht]
    simp only [Ring, or_true, or_false, and_true]; omega
  · intro a b hs hd
    have := hi.out a b hd
    unfold Sq at hs; omega
  · intro i h1 h2 h3
    exact hi.todo i (by omega) h3 (by omega)
  · intro i h1 h2 h3
    exact hi.left g2 i (by omega) (by omega) h3

theorem RowInv.step (h1 : 1 ≤ h) (hi : RowInv f T h x y st) (g : Geo f T h x y) (p : Post f T h x y st st') : RowInv f T h (x + 2 * h) y st' := by
  obtain ⟨g1, g2, g3, g4, g5, g6, g7, g8, g9, g10⟩ := g
  refine ⟨?_, ?_, p.ok, ?_, ?_, ?_⟩
  · intro a b ht
    rw [p.iff ht, hi.dec a b ht]
    unfold Tile.has at ht
    unfold Sq; omega
  · intro a b hd
    rcases p.within a b hd with hd | hd
    · have := hi.out a b hd; omega
    · unfold Sq at hd; omega
  · intro i h2 h3 h4 h5
    by_cases hx : 2 * i < x
    · exact p.descA (hi.done i h2 h3 hx h5) (by omega) (by unfold Sq; omega)
    · exact p.ctxA i (by omega) (by omega) h3 h5
  · intro i h2 h3 h4
    exact p.descA (hi.todo i h2 h3 (by omega)) (by omega) (by unfold Sq; omega)
  · intro h2 i h3 h4 h5
    exact p.ctxL i (by omega) (by omega) h5 (by omega)

end

theorem sb_step (sb128 : Bool) : sbStep sb128 = 2 * 2 ^ sbK sb128 := by cases sb128 <;> rfl
theorem sb_le (sb128 : Bool) : sbK sb128 ≤ 4 := by cases sb128 <;> decide
theorem sb_root (sb128 : Bool) : root sb128 = initNode (sbK sb128) true false := rfl

theorem tile_geo {f : Frame} {sb128 : Bool} {T : Tile} (hT : TileOk f sb128 T) {x y : Nat} (hx : x % sbStep sb128 = 0) (hy : y % sbStep sb128 = 0)
    (hx0 : T.x0 ≤ x) (hy0 : T.y0 ≤ y) (hx1 : x < T.x1) (hy1 : y < T.y1) : Geo f T (2 ^ sbK sb128) x y := by
  obtain ⟨t1, t2, t3, t4, t5, t6⟩ := hT
  cases sb128 <;> simp only [sbStep, sbK, Bool.false_eq_true, if_true, if_false] at * <;> refine ⟨?_, ?_, ?_, ?_, ?_, ?_, ?_, ?_, ?_, ?_, ?_, ?_⟩ <;> omega

theorem row_ok (S : Src σ) (hS : ∀ s bl ctx, (S.part s bl ctx).1 ≤ typeCount bl) {f : Frame} {sb128 : Bool} {T : Tile} (hpass : f.pass ≠ 2)
    (hT : TileOk f sb128 T) {y : Nat} (hy : y % sbStep sb128 = 0) (hy0 : T.y0 ≤ y) (hy1 : y < T.y1) :
    ∀ (n x : Nat) (st : St σ), n = (T.x1 - x + sbStep sb128 - 1) / sbStep sb128 → x % sbStep sb128 = 0 → T.x0 ≤ x →
      RowInv f T (2 ^ sbK sb128) x y st →
      Fine (rowLoop S f sb128 n x y st) (fun st' => ∃ x', T.x1 ≤ x' ∧ RowInv f T (2 ^ sbK sb128) x' y st')
  | 0, x, st, hn, hx, hx0, hi => by
    refine .inr ⟨st, rfl, x, ?_, hi⟩
    cases sb128 <;> simp only [sbStep, Bool.false_eq_true, if_true, if_false] at * <;> omega
  | n + 1, x, st, hn, hx, hx0, hi => by
    have hx1 : x < T.x1 := by
      cases sb128 <;> simp only [sbStep, Bool.false_eq_true, if_true, if_false] at * <;> omega
    have g := tile_geo hT hx hy hx0 hy0 hx1 hy1
    have hp := (hi.pre g).congr (tr' := true = true) (bl' := false = true) (by simp) (by simp)
    unfold rowLoop
    refine (sb_ok S hS hpass (sbK sb128) (sb_le sb128) true false x y st (by rw [← sb_step]; exact hy) g hp).bind fun s p => ?_
    have hi' := hi.step (Nat.pow_pos (by decide)) g p
    rw [← sb_step] at hi'
    refine row_ok S hS hpass hT hy hy0 hy1 n _ s ?_ ?_ (by omega) hi'
    · cases sb128 <;> simp only [sbStep, Bool.false_eq_true, if_true, if_false] at * <;> omega
    · rw [Nat.add_mod_right]; exact hx

/-- Before the superblock row at `y`. -/
structure TileInv (f : Frame) (T : Tile) (y : Nat) (st : St σ) : Prop where
  dec : ∀ a b, T.has a b → (Decoded st.log a b ↔ b < y)
  out : ∀ a b, Decoded st.log a b → T.x0 ≤ a ∧ T.y0 ≤ b ∧ b < y
  ok : AllOk f T st.log
  above : y < T.y1 → ∀ i, T.x0 ≤ 2 * i → 2 * i < T.x1 → DescA st i y

theorem TileInv.row {f : Frame} {T : Tile} {y : Nat} {st : St σ} (h : Nat) (hi : TileInv f T y st) (hy1 : y < T.y1) :
    RowInv f T h T.x0 y { st with l := fun _ => 0 } := by
  refine ⟨?_, ?_, hi.ok, ?_, ?_, ?_⟩
  · intro a b ht
    have := hi.dec a b ht
    unfold Tile.has at ht
    exact this.trans (by omega)
  · intro a b hd
    have := hi.out a b hd; omega
  · intro i h1 h2 h3; omega
  · intro i h1 h2 h3
    exact hi.above hy1 i h1 h2
  · intro h1 i h2 h3 h4 j hj
    simp only [Nat.zero_testBit, Bool.false_eq_true, false_iff]
    rintro ⟨h5, c, h6, _⟩
    obtain ⟨h7, h8⟩ := cover_some h6
    have := hi.out _ _ ⟨c, h7, h8⟩
    omega

theorem RowInv.tile {f : Frame} {T : Tile} {h x y : Nat} {st : St σ} (hi : RowInv f T h x y st) (hx : T.x1 ≤ x) : TileInv f T (y + 2 * h) st := by
  refine ⟨?_, ?_, hi.ok, ?_⟩
  · intro a b ht
    rw [hi.dec a b ht]
    unfold Tile.has at ht; omega
  · intro a b hd
    have := hi.out a b hd; omega
  · intro h1 i h2 h3
    exact hi.done i h2 h3 (by omega) (by omega)

theorem tile_ok (S : Src σ) (hS : ∀ s bl ctx, (S.part s bl ctx).1 ≤ typeCount bl) {f : Frame} {sb128 : Bool} {T : Tile} (hpass : f.pass ≠ 2)
    (hT : TileOk f sb128 T) :
    ∀ (n y : Nat) (st : St σ), n = (T.y1 - y + sbStep sb128 - 1) / sbStep sb128 → y % sbStep sb128 = 0 → T.y0 ≤ y →
      TileInv f T y st →
      Fine (tileLoop S f sb128 T.x0 T.x1 n y st) (fun st' => ∃ y', T.y1 ≤ y' ∧ TileInv f T y' st')
  | 0, y, st, hn, hy, hy0, hi => by
    refine .inr ⟨st, rfl, y, ?_, hi⟩
    cases sb128 <;> simp only [sbStep, Bool.false_eq_true, if_true, if_false] at * <;> omega
  | n + 1, y, st, hn, hy, hy0, hi => by
    have hy1 : y < T.y1 := by
      cases sb128 <;> simp only [sbStep, Bool.false_eq_true, if_true, if_false] at * <;> omega
    unfold tileLoop tileSbrow
    rw [if_neg hpass]
    refine (row_ok S hS hpass hT hy hy0 hy1 _ T.x0 _ rfl hT.x0 (Nat.le_refl _) (hi.row _ hy1)).bind fun s ⟨x', hx', hi'⟩ => ?_
    have ht := hi'.tile hx'
    rw [← sb_step] at ht
    refine tile_ok S hS hpass hT n _ s ?_ ?_ (by omega) ht
    · cases sb128 <;> simp only [sbStep, Bool.false_eq_true, if_true, if_false] at * <;> omega
    · rw [Nat.add_mod_right]; exact hy

theorem start_ok {f : Frame} {T : Tile} (s : σ) : TileInv f T T.y0 (⟨fun _ => 0, fun _ => 0, s, []⟩ : St σ) := by
  have hn : ∀ a b, ¬ Decoded [] a b := by rintro a b ⟨c, h, _⟩; cases h
  refine ⟨?_, ?_, ?_, ?_⟩
  · intro a b ht
    unfold Tile.has at ht
    exact ⟨fun h => absurd h (hn a b), fun h => by omega⟩
  · intro a b hd; exact absurd hd (hn a b)
  · intro pre e post h
    have := congrArg List.length h
    simp at this
  · intro _ i _ _ j _
    simp only [Nat.zero_testBit, Bool.false_eq_true, false_iff]
    rintro ⟨_, c, h, _⟩
    cases h

/-- A whole tile. -/
theorem decodeTile_ok (S : Src σ) (hS : ∀ s bl ctx, (S.part s bl ctx).1 ≤ typeCount bl) {f : Frame} {sb128 : Bool} {T : Tile} (hpass : f.pass ≠ 2)
    (hT : TileOk f sb128 T) (s : σ) : Fine (decodeTile S f sb128 T.x0 T.x1 T.y0 T.y1 s)
      (fun st => (∀ a b, T.has a b → Decoded st.log a b) ∧ AllOk f T st.log) := by
  unfold decodeTile
  refine (tile_ok S hS hpass hT _ T.y0 _ rfl hT.y0 (Nat.le_refl _) (start_ok s)).mono fun st ⟨y', hy', hi⟩ => ⟨?_, hi.ok⟩
  intro a b ht
  rw [hi.dec a b ht]
  unfold Tile.has at ht; omega

end Dav1d.Part
