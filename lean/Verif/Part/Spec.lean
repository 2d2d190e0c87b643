import Verif.Part.Model
/-!
# What the partitioning of a tile has to achieve

Only the record of a run is looked at: the calls of decode_b and the contexts used for reading partition symbols.
-/
namespace Dav1d.Part

/-- Block `c` covers the 4x4 unit in column `a` and row `b`. -/
def Call.covers (c : Call) (a b : Nat) : Prop :=
  c.x ≤ a ∧ a < c.x + bsW c.bs ∧ c.y ≤ b ∧ b < c.y + bsH c.bs

instance (c : Call) (a b : Nat) : Decidable (c.covers a b) := by unfold Call.covers; infer_instance

/-- The block covering a unit among the events so far. -/
def coverOf (log : List Ev) (a b : Nat) : Option Call :=
  log.findSome? fun e => match e with
    | .call c => if c.covers a b then some c else none
    | .read _ _ _ _ => none

/-- The unit was decoded by one of the blocks so far. -/
def Decoded (log : List Ev) (a b : Nat) : Prop := ∃ c, Ev.call c ∈ log ∧ c.covers a b

/-- The blocks in the order of decoding. -/
def blocks (log : List Ev) : List Call := log.filterMap fun e => match e with
  | .call c => some c
  | .read _ _ _ _ => none

/-- How many blocks cover a unit. -/
def times (log : List Ev) (a b : Nat) : Nat := (blocks log).countP fun c => decide (c.covers a b)

/-- A tile: columns x0 to x1 - 1, rows y0 to y1 - 1. -/
structure Tile where
  x0 : Nat
  x1 : Nat
  y0 : Nat
  y1 : Nat

def Tile.has (T : Tile) (a b : Nat) : Prop := T.x0 ≤ a ∧ a < T.x1 ∧ T.y0 ≤ b ∧ b < T.y1

/-- A tile begins at a superblock and ends at one or with the frame, whose size is a multiple of 8 samples
(src/decode.c:3556-3557; C08 for the tiles). -/
structure TileOk (f : Frame) (sb128 : Bool) (T : Tile) : Prop where
  x0 : T.x0 % sbStep sb128 = 0
  y0 : T.y0 % sbStep sb128 = 0
  x1 : T.x1 = f.bw ∨ (T.x1 % sbStep sb128 = 0 ∧ T.x1 ≤ f.bw)
  y1 : T.y1 = f.bh ∨ (T.y1 % sbStep sb128 = 0 ∧ T.y1 ≤ f.bh)
  bw : f.bw % 2 = 0
  bh : f.bh % 2 = 0

/-! ## Available edges -/

/-- A plane: its subsampling, and the bit of `enum EdgeFlags` for the top right edge (the one for the bottom left edge
is three further). -/
structure Plane where
  ssH : Nat
  ssV : Nat
  bit : Nat

/-- Luma, and chroma in 4:4:4. -/
def luma : Plane := ⟨0, 0, 0⟩
/-- Chroma in 4:2:2 and 4:2:0. -/
def chroma422 : Plane := ⟨1, 0, 1⟩
def chroma420 : Plane := ⟨1, 1, 2⟩

/-- The planes to look at. -/
def planes (f : Frame) : List Plane := [luma, if f.i422 then chroma422 else chroma420]

/-- Whether the block has samples of the plane: the AV1 specification's HasChroma for chroma. A block that is too small
to have a 4x4 unit of its own in the plane leaves it to the last block of the 8x8 area. -/
def Plane.hasBlock (p : Plane) (c : Call) : Prop :=
  (bsW c.bs > p.ssH ∨ c.x % 2 = 1) ∧ (bsH c.bs > p.ssV ∨ c.y % 2 = 1)

/-- Position and size of the block in 4x4 units of the plane. -/
def Plane.x (p : Plane) (c : Call) : Nat := c.x / 2 ^ p.ssH
def Plane.y (p : Plane) (c : Call) : Nat := c.y / 2 ^ p.ssV
def Plane.w (p : Plane) (c : Call) : Nat := (bsW c.bs + p.ssH) / 2 ^ p.ssH
def Plane.h (p : Plane) (c : Call) : Nat := (bsH c.bs + p.ssV) / 2 ^ p.ssV

/-- The last luma column (row) of a column (row) of units of the plane. -/
def Plane.lastX (p : Plane) (a : Nat) : Nat := (a + 1) * 2 ^ p.ssH - 1
def Plane.lastY (p : Plane) (b : Nat) : Nat := (b + 1) * 2 ^ p.ssV - 1

/-- The flag for the units right of and above the block in the plane, as many as the block is wide, tells whether these
units were decoded before, and so does the flag for the units left of and below it, as many as the block is high. Units
outside of the tile are left to other checks. -/
structure EdgesOk (T : Tile) (p : Plane) (before : List Ev) (c : Call) : Prop where
  topRight : ∀ i b, i < p.w c → p.y c = b + 1 → T.has (p.lastX (p.x c + p.w c + i)) (p.lastY b) →
    (c.flags.testBit p.bit = true ↔ Decoded before (p.lastX (p.x c + p.w c + i)) (p.lastY b))
  bottomLeft : ∀ i a, i < p.h c → p.x c = a + 1 → T.has (p.lastX a) (p.lastY (p.y c + p.h c + i)) →
    (c.flags.testBit (p.bit + 3) = true ↔ Decoded before (p.lastX a) (p.lastY (p.y c + p.h c + i)))

/-! ## Contexts -/

/-- The AV1 specification's context for a partition symbol of a node of `size` units at (x, y): whether the block above
is narrower and whether the block on the left is lower than the node; blocks that do not exist count as large. -/
def specCtx (before : List Ev) (size x y : Nat) : Nat :=
  let above := if y = 0 then none else coverOf before x (y - 1)
  let left := if x = 0 then none else coverOf before (x - 1) y
  (match above with | some c => if bsW c.bs < size then 1 else 0 | none => 0) +
  2 * (match left with | some c => if bsH c.bs < size then 1 else 0 | none => 0)

/-- The probability (times 32768, from the inverse CDF `c`) of a set of partition symbols. -/
def symProb (c : Nat → Int) (i : Nat) : Int := (if i = 0 then 32768 else c (i - 1)) - c i

/-- Sum over a list of symbols. -/
def sumProb (c : Nat → Int) (l : List Nat) : Int := (l.map (symProb c)).sum

end Dav1d.Part
