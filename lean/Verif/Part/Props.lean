import Verif.Part.Replay
/-!
# Partitioning: the properties
-/
namespace Dav1d.Part
variable {σ τ : Type}

/-! ## Blocks cover a tile once -/

theorem times_snoc (log : List Ev) (e : Ev) (a b : Nat) : times (log ++ [e]) a b =
    times log a b + (match e with | .call c => if c.covers a b then 1 else 0 | .read _ _ _ _ => 0) := by
  unfold times
  rw [blocks_append, List.countP_append]
  cases e with
  | read => rfl
  | call c => simp [blocks, List.countP_cons]

theorem times_pos {log : List Ev} {a b : Nat} : 0 < times log a b ↔ Decoded log a b := by
  unfold times Decoded
  rw [List.countP_pos_iff]
  constructor
  · rintro ⟨c, h1, h2⟩
    obtain ⟨e, h3, h4⟩ := List.mem_filterMap.1 h1
    cases e with
    | read => cases h4
    | call d => cases h4; exact ⟨c, h3, of_decide_eq_true h2⟩
  · rintro ⟨c, h1, h2⟩
    exact ⟨c, List.mem_filterMap.2 ⟨_, h1, rfl⟩, decide_eq_true h2⟩

theorem times_le {f : Frame} {T : Tile} (a b : Nat) : ∀ (n : Nat) (log : List Ev), log.length = n → AllOk f T log → times log a b ≤ 1
  | 0, log, hn, _ => by
    cases List.eq_nil_of_length_eq_zero hn
    exact Nat.zero_le _
  | n + 1, log, hn, h => by
    rcases List.eq_nil_or_concat log with rfl | ⟨l, e, rfl⟩
    · cases hn
    rw [List.concat_eq_append] at hn h ⊢
    have hl : AllOk f T l := fun pre x post hx => h pre x (post ++ [e]) (by rw [hx]; simp)
    have he := h l e [] rfl
    have ih := times_le a b n l (by simpa using hn) hl
    rw [times_snoc]
    cases e with
    | read => exact ih
    | call c =>
      dsimp only
      split
      · rename_i hc
        have : ¬ 0 < times l a b := fun h => he.fresh a b hc (times_pos.1 h)
        omega
      · exact ih

/-- **C67.** Whatever partition symbols come out of the data, the blocks that decode_sb hands to decode_b in a tile cover
each 4x4 unit of the tile exactly once, no unit twice, and begin in the tile; and no assertion fails. -/
theorem C67_blocks (S : Src σ) (hS : ∀ s bl ctx, (S.part s bl ctx).1 ≤ typeCount bl) {f : Frame} {sb128 : Bool} {T : Tile}
    (hpass : f.pass ≠ 2) (hT : TileOk f sb128 T) (s : σ) :
    decodeTile S f sb128 T.x0 T.x1 T.y0 T.y1 s ≠ .ub ∧
    ∀ st, decodeTile S f sb128 T.x0 T.x1 T.y0 T.y1 s = .ok st →
      (∀ a b, T.has a b → times st.log a b = 1) ∧ (∀ a b, times st.log a b ≤ 1) ∧ ∀ c ∈ blocks st.log, T.has c.x c.y := by
  have h := decodeTile_ok S hS hpass hT s
  refine ⟨?_, fun st hst => ?_⟩
  · rcases h with h | ⟨st, h, _⟩ <;> rw [h] <;> exact nofun
  · rcases h with h | ⟨st', h, h1, h2⟩
    · rw [hst] at h; cases h
    · rw [hst] at h; cases h
      refine ⟨fun a b hab => ?_, fun a b => times_le a b _ _ rfl h2, fun c hc => ?_⟩
      · have := times_le a b _ _ rfl h2
        have := times_pos.2 (h1 a b hab)
        omega
      · obtain ⟨e, h3, h4⟩ := List.mem_filterMap.1 hc
        cases e with
        | read => cases h4
        | call d =>
          cases h4
          obtain ⟨pre, post, h5⟩ := List.append_of_mem h3
          exact (h2 pre _ post h5).start

/-- **C68.** The edge flags handed to decode_b with a block are right for luma and for chroma: the flag for the units above
and to the right of the block (as many as it is wide), and the one for the units below and to the left (as many as it is high),
are set exactly if these units were decoded before, for all units inside the tile. -/
theorem C68_edges (S : Src σ) (hS : ∀ s bl ctx, (S.part s bl ctx).1 ≤ typeCount bl) {f : Frame} {sb128 : Bool} {T : Tile}
    (hpass : f.pass ≠ 2) (hT : TileOk f sb128 T) (s : σ) {st : St σ} (h : decodeTile S f sb128 T.x0 T.x1 T.y0 T.y1 s = .ok st)
    {before after : List Ev} {c : Call} (hc : st.log = before ++ .call c :: after) {p : Plane} (hp : p ∈ planes f) (hb : p.hasBlock c) :
    EdgesOk T p before c := by
  rcases decodeTile_ok S hS hpass hT s with h1 | ⟨st', h1, h2, h3⟩
  · rw [h] at h1; cases h1
  · rw [h] at h1; cases h1
    exact (h3 before _ after hc).edges hp hb

/-- **C69.** Every partition symbol and every split flag is read with the context of the AV1 specification: whether the
block above the node is narrower than the node and whether the block to its left is lower, among the blocks of the tile. -/
theorem C69_contexts (S : Src σ) (hS : ∀ s bl ctx, (S.part s bl ctx).1 ≤ typeCount bl) {f : Frame} {sb128 : Bool} {T : Tile}
    (hpass : f.pass ≠ 2) (hT : TileOk f sb128 T) (s : σ) {st : St σ} (h : decodeTile S f sb128 T.x0 T.x1 T.y0 T.y1 s = .ok st)
    {before after : List Ev} {bl ctx x y : Nat} (hc : st.log = before ++ .read bl ctx x y :: after) :
    ctx = specCtx before (32 / 2 ^ bl) x y := by
  rcases decodeTile_ok S hS hpass hT s with h1 | ⟨st', h1, h2, h3⟩
  · rw [h] at h1; cases h1
  · rw [h] at h1; cases h1
    exact h3 before _ after hc

/-- **C69.** At the bottom edge of the frame the split flag has the probability of the partitions that divide the node
from left to right: V, split, T_TOP_SPLIT, T_LEFT_SPLIT, T_RIGHT_SPLIT and, unless the node is 128x128, V4. -/
theorem C69_split_bottom (c : Nat → Int) (bl : Nat) (hend : if bl = 0 then c 7 = 0 else c 9 = 0) :
    gatherTop c bl = sumProb c ([2, 3, 4, 6, 7] ++ if bl = 0 then [] else [9]) := by
  unfold gatherTop sumProb symProb
  by_cases h : bl = 0
  · rw [if_pos h] at hend
    simp [h]; omega
  · rw [if_neg h] at hend
    simp [h]; omega

/-- **C69.** At the right edge of the frame it has the probability of those that divide it from top to bottom: H, split,
T_TOP_SPLIT, T_BOTTOM_SPLIT, T_LEFT_SPLIT and, unless the node is 128x128, H4. -/
theorem C69_split_right (c : Nat → Int) (bl : Nat) :
    gatherLeft c bl = sumProb c ([1, 3, 4, 5, 6] ++ if bl = 0 then [] else [8]) := by
  unfold gatherLeft sumProb symProb
  by_cases h : bl = 0
  · simp [h]; omega
  · simp [h]; omega

/-- **C70.** With frame threads a tile is gone through twice. The second pass reads no symbols; it finds the level and
the partition that decode_b stored for each block in the first pass at the position of the block, and whatever else is
stored elsewhere, it visits the same blocks with the same flags in the same order (unless a block fails). -/
theorem C70_second_pass (S₁ : Src σ) (S₂ : Src τ) {f : Frame} (hpass : f.pass ≠ 2) (sb128 : Bool) (T : Tile) {s₁ : σ} {st : St σ}
    (h : decodeTile S₁ f sb128 T.x0 T.x1 T.y0 T.y1 s₁ = .ok st)
    {saved : Nat → Nat → Nat × Nat} (hsaved : ∀ c ∈ blocks st.log, saved c.x c.y = (c.bl, c.bp)) (s₂ : τ) :
    decodeTile S₂ { f with pass := 2, saved := saved } sb128 T.x0 T.x1 T.y0 T.y1 s₂ = .err ∨
    ∃ st₂, decodeTile S₂ { f with pass := 2, saved := saved } sb128 T.x0 T.x1 T.y0 T.y1 s₂ = .ok st₂ ∧
      st₂.log = (blocks st.log).map .call := by
  obtain ⟨new, h1, -, h2⟩ := (tile_repeats S₁ S₂ hpass saved sb128 T.x0 T.x1 _ _ _ _ h).ex
  have h3 : st.log = new := by rw [h1]; rfl
  rw [← h3] at h2
  rcases h2 hsaved ⟨fun _ => 0, fun _ => 0, s₂, []⟩ with h4 | ⟨st2, h4, h5⟩
  · exact .inl h4
  · exact .inr ⟨st2, h4, h5⟩

/-! ## An example -/

/-- Symbols and split flags from a list; decode_b never fails. -/
def scripted : Src (List Nat) where
  part s bl _ := (min (s.headD 0) (typeCount bl), s.tail)
  top s _ _ := (s.headD 0 == 1, s.tail)
  left s _ _ := (s.headD 0 == 1, s.tail)
  block s _ := some s

theorem scripted_range (s : List Nat) (bl ctx : Nat) : (scripted.part s bl ctx).1 ≤ typeCount bl := Nat.min_le_right _ _

/-- A frame of 56x40 samples with superblocks of 64x64. -/
def smallFrame : Frame := ⟨14, 10, false, 1, fun _ _ => (0, 0)⟩
def smallTile : Tile := ⟨0, 14, 0, 10⟩

theorem smallTile_ok : TileOk smallFrame false smallTile := by
  constructor <;> decide

/-- What a run records. -/
def logOf (r : Res σ) : List Ev := match r with
  | .ok st => st.log
  | _ => []

/-- A run with blocks of several shapes: the left 32x32 node is divided by T_TOP_SPLIT, the next one reaches over the
right edge of the frame and is split there, with H4 and H below, and the lower half reaches over the bottom edge. -/
def smallRun : Res (List Nat) := decodeTile scripted smallFrame false 0 14 0 10 [3, 4, 3, 8, 9, 1, 3, 1, 2, 0, 1, 7, 3, 1, 1, 0, 2, 3]

/-- C67: the run ends with 18 blocks. -/
example : ∃ st, smallRun = .ok st ∧ (blocks st.log).length = 18 ∧
    (blocks st.log).head? = some ⟨2, bsOf 2 4 0, 4, ALL_TR_BL, 0, 0⟩ := by
  refine ⟨_, rfl, ?_, ?_⟩ <;> decide +kernel

example : smallRun ≠ .ub := (C67_blocks scripted scripted_range (by decide) smallTile_ok _).1

/-- C68: a block of this run, 16x4 at (8, 1), has chroma units of its own together with the blocks around it only in the
odd rows; the units above and to the right and below and to the left are in the tile. -/
example : ∃ st before after, smallRun = .ok st ∧ st.log = before ++ .call ⟨3, 14, 8, 60, 8, 1⟩ :: after ∧
    before.length = 8 ∧ chroma420 ∈ planes smallFrame ∧ chroma420.hasBlock ⟨3, 14, 8, 60, 8, 1⟩ ∧
    smallTile.has (luma.lastX (8 + 4)) 0 ∧ smallTile.has 7 2 ∧ smallTile.has 7 (chroma420.lastY 1) := by
  refine ⟨_, (logOf smallRun).take 8, (logOf smallRun).drop 9, rfl, ?_, ?_, ?_, ?_, ?_, ?_, ?_⟩
  · decide +kernel
  · decide +kernel
  · simp [planes, smallFrame]
  · unfold Plane.hasBlock; decide
  all_goals unfold Tile.has; decide

/-- C69: a context of this run with smaller blocks above and to the left. -/
example : ∃ st before after, smallRun = .ok st ∧ st.log = before ++ .read 3 3 12 4 :: after ∧ before.length = 16 := by
  refine ⟨_, (logOf smallRun).take 16, (logOf smallRun).drop 17, rfl, ?_, ?_⟩ <;> decide +kernel

/-- The CDF of a 64x64 node with equal probabilities, and of a 128x128 node. -/
example : (if (1 : Nat) = 0 then ([(29492 : Int), 26215, 22938, 19661, 16384, 13107, 9830, 6554, 3277, 0].getD 7 0 = 0) else
    ([(29492 : Int), 26215, 22938, 19661, 16384, 13107, 9830, 6554, 3277, 0].getD 9 0 = 0)) := by decide

/-- C70: what decode_b stores in this run; everywhere else there is something else. -/
def smallSaved (x y : Nat) : Nat × Nat :=
  match (blocks (logOf smallRun)).find? (fun c => c.x == x && c.y == y) with
  | some c => (c.bl, c.bp)
  | none => (4, 7)

example : ∀ c ∈ blocks (logOf smallRun), smallSaved c.x c.y = (c.bl, c.bp) := by decide +kernel

end Dav1d.Part
