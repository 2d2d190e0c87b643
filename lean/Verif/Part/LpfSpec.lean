import Verif.Part.LpfModel
/-!
# Which edges the AV1 specification filters

Section numbers are those of the AV1 bitstream specification: 5.11.17 (read_var_tx_size), 7.14.2 (edge loop filter process),
7.14.3 (filter size process) and 7.14.4 (adaptive filter strength process).
-/
namespace Dav1d.Part.Lpf.Av1

/-- read_var_tx_size (5.11.17): width and height of the transform at row `y` and column `x` of a block, when a node of `w` by `h` units at
(`row`, `col`) can be split `n` times more. A node is split along its longer sides. `split` are the values of txfm_split. -/
def varTx (split : Nat → Nat → Nat → Bool) : (n depth w h row col y x : Nat) → Nat × Nat
  | 0, _, w, h, _, _, _, _ => (w, h)
  | n + 1, depth, w, h, row, col, y, x =>
    if (w = 1 ∧ h = 1) ∨ split depth row col = false then (w, h)
    else
      let w' := if h ≤ w then w / 2 else w
      let h' := if w ≤ h then h / 2 else h
      varTx split n (depth + 1) w' h' (row + (y - row) / h' * h') (col + (x - col) / w' * w') y x

/-- LoopfilterTxSizes: width and height, in units, of the transform that has the unit at row `y` and column `x` of a block. MAX_VARTX_DEPTH is 2. -/
def txDim (C : Comp) (b : LBlk) (y x : Nat) : Nat × Nat := match C with
  | .y =>
    if b.intra then (txW b.ytx, txH b.ytx)
    else varTx b.split 2 0 (txW b.ytx) (txH b.ytx) (y / txH b.ytx * txH b.ytx) (x / txW b.ytx * txW b.ytx) y x
  | .uv _ => (txW b.uvtx, txH b.uvtx)

/-- The size, in units, of the transform at a unit of the plane across the edges of a pass: width in pass 0, height in pass 1. -/
def txSize (C : Comp) (info : Call → LBlk) (pass : Nat) (c : Call) (X Y : Nat) : Nat :=
  let d := txDim C (info c) (Y - C.plane.y c) (X - C.plane.x c)
  if pass = 0 then d.1 else d.2

/-- The width or height of the block in the plane. -/
def blockSize (p : Plane) (pass : Nat) (c : Call) : Nat := if pass = 0 then p.w c else p.h c

/-- The number of units of the plane that are (partly) inside the picture. -/
def cols (p : Plane) (D : Dims) : Nat := (D.w4 + p.ssH) / 2 ^ p.ssH
def rows (p : Plane) (D : Dims) : Nat := (D.h4 + p.ssV) / 2 ^ p.ssV

/-- 7.14.3: Min(16, baseSize) for luma, and Min(8, baseSize) for chroma, in samples. -/
def filterSize (C : Comp) (base : Nat) : Nat := match C with
  | .y => min 16 (4 * base)
  | .uv _ => min 8 (4 * base)

/-- The number of samples that loop_filter is told for a size: in chroma the filter for 8 has 6 taps (7.14.6.2: filterLen is 6). -/
def taps (C : Comp) (size : Nat) : Nat := match C with
  | .y => size
  | .uv _ => if size = 8 then 6 else size

/-- Block `c`, one of `blocks`, has the unit (X, Y) of the plane. -/
def At (p : Plane) (blocks : List Call) (c : Call) (X Y : Nat) : Prop := c ∈ blocks ∧ c.covers (p.lastX X) (p.lastY Y)

/-- 7.14.2: in pass 0 (edges between columns) and pass 1 (edges between rows), the edge before the unit (X, Y) is filtered with level `L` (one of
index `k` of the levels of a block) and `wd` samples. -/
def Filtered (C : Comp) (D : Dims) (info : Call → LBlk) (blocks : List Call) (pass k : Nat) (op : Op) : Prop :=
  let p := C.plane
  op.x < cols p D ∧ op.y < rows p D ∧ (if pass = 0 then 0 < op.x else 0 < op.y) ∧
  ∃ c prev,
    At p blocks c op.x op.y ∧
    (if pass = 0 then At p blocks prev (op.x - 1) op.y else At p blocks prev op.x (op.y - 1)) ∧
    let at_ := if pass = 0 then op.x else op.y
    let size := txSize C info pass c op.x op.y
    let prevSize := if pass = 0 then txSize C info pass prev (op.x - 1) op.y else txSize C info pass prev op.x (op.y - 1)
    -- isTxEdge
    at_ % size = 0 ∧
    -- isBlockEdge, skip, isIntra
    (at_ % blockSize p pass c = 0 ∨ (info c).skip = false ∨ (info c).intra = true) ∧
    op.lvl = (if (info c).lvl k ≠ 0 then (info c).lvl k else (info prev).lvl k) ∧ op.lvl ≠ 0 ∧
    op.wd = taps C (filterSize C (min size prevSize))

end Dav1d.Part.Lpf.Av1

namespace Dav1d.Part.Lpf

/-- What can be said about the blocks: transforms fit in the block. For an inter block that was asked for splits the luma transform is the largest one, and only
blocks of 128 samples have two of them side by side. -/
structure LBlk.Valid (C : Comp) (c : Call) (b : LBlk) : Prop where
  y : C = .y → b.ytx < 19 ∧ txW b.ytx ≤ bsW c.bs ∧ txH b.ytx ≤ bsH c.bs ∧
    (b.intra = false → (∀ d r k, b.split d r k = false) ∨ (bsW c.bs ≤ 2 * txW b.ytx ∧ bsH c.bs ≤ 2 * txH b.ytx))
  uv : ∀ p, C = .uv p → hasPlane p c = true → b.uvtx < 19 ∧ txW b.uvtx ≤ p.w c ∧ txH b.uvtx ≤ p.h c

end Dav1d.Part.Lpf
