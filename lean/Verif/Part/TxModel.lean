import Verif.Part.Spec
/-!
# The transform blocks of intra blocks

The loops of src/recon_tmpl.c:1179-1558 (dav1d_recon_b_intra) over the transform blocks of a block, in one plane, with
what is handed to dav1d_prepare_intra_edges about the surroundings.
-/
namespace Dav1d.Part

/-- A transform block: position and size in 4x4 units of the plane, and the arguments have_left, have_top and edge_flags
(EDGE_I444_TOP_HAS_RIGHT and EDGE_I444_LEFT_HAS_BOTTOM) of dav1d_prepare_intra_edges. A block that is not intra counts as
one transform block without these arguments (`intra` is false). -/
structure Tb where
  x : Nat
  y : Nat
  w : Nat
  h : Nat
  intra : Bool
  left : Bool
  top : Bool
  tr : Bool
  bl : Bool
  deriving DecidableEq, Repr

/-- The values of `v` in `for (; v < e; v += s)`, at most `n` of them. -/
def forList (s e : Nat) : (n v : Nat) → List Nat
  | 0, _ => []
  | n + 1, v => if v < e then v :: forList s e n (v + s) else []

/-- has_chroma, src/recon_tmpl.c:1194-1196; always true for luma, where ssH = ssV = 0. -/
def hasPlane (p : Plane) (c : Call) : Bool :=
  decide ((bsW c.bs > p.ssH ∨ c.x % 2 = 1) ∧ (bsH c.bs > p.ssV ∨ c.y % 2 = 1))

/-- A transform block at column `x` and row `y` of the block in the plane; `bx` and `by'` are the position of the block,
`x0`, `y0` the begin of the tile. In the inner loop t->bx is `bx + (x << ss_hor)`: the begin of the chunk is added before
it (src/recon_tmpl.c:1242, 1430) and `tw << ss_hor` with each step; have_left and have_top are those of 1259-1262 and
1465-1470. -/
def tbAt (p : Plane) (x0 y0 bx by' tw th : Nat) (tr bl : Bool) (y x : Nat) : Tb :=
  let xpos := (bx + (x <<< p.ssH)) >>> p.ssH
  let ypos := (by' + (y <<< p.ssV)) >>> p.ssV
  { x := xpos, y := ypos, w := tw, h := th, intra := true, tr := tr, bl := bl
    left := decide (xpos > x0 >>> p.ssH)
    top := decide (ypos > y0 >>> p.ssV) }

/-- The transform blocks of one chunk of 64x64 luma samples at (initX, initY) of the block, src/recon_tmpl.c:1209, 1233-1276
for luma and 1211, 1415-1477 for chroma. `cw`, `ch` are the size of the block in the plane inside the frame, `tw`, `th` the
size of the transform. -/
def chunkTbs (p : Plane) (x0 y0 bx by' cw ch tw th flags initY initX : Nat) : List Tb :=
  let subH := min ch ((initY + 16) >>> p.ssV)
  let subW := min cw ((initX + 16) >>> p.ssH)
  let hasTr := if (initX + 16) >>> p.ssH < cw then true else if initY ≠ 0 then false else flags.testBit p.bit
  let hasBl := if initX ≠ 0 then false else if (initY + 16) >>> p.ssV < ch then true else flags.testBit (p.bit + 3)
  (forList th subH subH (initY >>> p.ssV)).flatMap fun y =>
    (forList tw subW subW (initX >>> p.ssH)).map fun x =>
      tbAt p x0 y0 bx by' tw th
        (!((decide (y > initY >>> p.ssV) || !hasTr) && decide (x + tw ≥ subW)))
        (!(decide (x > initX >>> p.ssH) || (!hasBl && decide (y + th ≥ subH)))) y x

/-- The loops over the chunks, src/recon_tmpl.c:1189-1191, 1207-1210 and 1343. -/
def intraTbs (f : Frame) (T : Tile) (p : Plane) (c : Call) (tw th : Nat) : List Tb :=
  let w4 := min (bsW c.bs) (f.bw - c.x)
  let h4 := min (bsH c.bs) (f.bh - c.y)
  let cw := (w4 + p.ssH) >>> p.ssH
  let ch := (h4 + p.ssV) >>> p.ssV
  (forList 16 h4 h4 0).flatMap fun initY =>
    (forList 16 w4 w4 0).flatMap fun initX =>
      if hasPlane p c then chunkTbs p T.x0 T.y0 c.x c.y cw ch tw th c.flags initY initX else []

/-- What is reconstructed of a block in the plane: `tx` is the size of the transforms of an intra block, `none` for a
block that is not intra. Such a block is predicted as a whole (src/recon_tmpl.c:1560-1960); for its samples of the plane
see `Plane.x` to `Plane.h`. -/
def blockTbs (f : Frame) (T : Tile) (p : Plane) (tx : Option (Nat × Nat)) (c : Call) : List Tb :=
  match tx with
  | some (tw, th) => intraTbs f T p c tw th
  | none => if hasPlane p c then [⟨p.x c, p.y c, p.w c, p.h c, false, false, false, false, false⟩] else []

/-- What is reconstructed in the plane by a sequence of blocks, each with its transform size. -/
def planeTbs (f : Frame) (T : Tile) (p : Plane) (tx : Call → Option (Nat × Nat)) (cs : List Call) : List Tb :=
  cs.flatMap fun c => blockTbs f T p (tx c) c

/-! ## Which transforms intra blocks have -/

/-- `dav1d_txfm_dimensions[tx].sub` repeated, the loop of src/decode.c:1202-1205. -/
def subTx : (depth tx : Nat) → Nat
  | 0, tx => tx
  | n + 1, tx => subTx n ((Tables.txDims.getD tx []).getD 6 0)

/-- The channels of a picture. -/
inductive Chan where
  | y | uv
  deriving DecidableEq, Repr

/-- Subsampling of a channel and its edge flags; `layout` is 1, 2 or 3 for 4:2:0, 4:2:2 and 4:4:4 (src/recon_tmpl.c:1186-1187,
1422-1424 and 1448-1450: the flags are shifted according to the layout, and the ones of luma serve for 4:4:4). -/
def Chan.plane (layout : Nat) : Chan → Plane
  | .y => luma
  | .uv => if layout = 1 then chroma420 else if layout = 2 then chroma422 else luma

/-- The transform of an intra block, src/decode.c:1187-1206: TX_4X4 if it is lossless, else the largest one of the block size;
in luma it may have been made smaller `depth` times. -/
def intraTx (layout : Nat) (ch : Chan) (lossless : Bool) (depth bs : Nat) : Nat :=
  if lossless then 0 else match ch with
  | .y => subTx depth ((Tables.maxTx.getD bs []).getD 0 0)
  | .uv => (Tables.maxTx.getD bs []).getD layout 0

/-- Its size in 4x4 units. -/
def txSize (tx : Nat) : Nat × Nat := ((Tables.txDims.getD tx []).getD 0 0, (Tables.txDims.getD tx []).getD 1 0)

/-- What decode_b found out about a block as far as it matters here: `none` for blocks that are not intra, and for intra blocks
whether they are lossless and the transform depth. -/
abbrev Info := Call → Option (Bool × Nat)

/-- The transform sizes of the blocks. -/
def txOf (layout : Nat) (ch : Chan) (info : Info) (c : Call) : Option (Nat × Nat) :=
  (info c).map fun i => txSize (intraTx layout ch i.1 i.2 c.bs)

/-! ## What they have to satisfy -/

def Tb.covers (t : Tb) (a b : Nat) : Prop := t.x ≤ a ∧ a < t.x + t.w ∧ t.y ≤ b ∧ b < t.y + t.h

instance (t : Tb) (a b : Nat) : Decidable (t.covers a b) := by unfold Tb.covers; infer_instance

/-- The unit of the plane has been reconstructed. -/
def Made (ts : List Tb) (a b : Nat) : Prop := ∃ t ∈ ts, t.covers a b

/-- The tile in units of the plane. -/
def Tile.inPlane (T : Tile) (p : Plane) : Tile := ⟨T.x0 / 2 ^ p.ssH, T.x1 / 2 ^ p.ssH, T.y0 / 2 ^ p.ssV, T.y1 / 2 ^ p.ssV⟩

/-- The transforms of a block are powers of two of at most 64x64 luma samples and not larger than the block in the
plane. -/
def TxFits (p : Plane) (c : Call) (tw th : Nat) : Prop :=
  (∃ i, tw = 2 ^ i) ∧ (∃ j, th = 2 ^ j) ∧ tw ≤ p.w c ∧ th ≤ p.h c ∧ tw ≤ 16 / 2 ^ p.ssH ∧ th ≤ 16 / 2 ^ p.ssV

/-- What a transform block is told about its surroundings is right: `P` is the tile in the plane and `before` what was
reconstructed before. -/
structure TbEdges (P : Tile) (before : List Tb) (t : Tb) : Prop where
  /-- it begins in the tile, and nothing of it was reconstructed before -/
  start : P.has t.x t.y
  fresh : ∀ a b, P.has a b → t.covers a b → ¬ Made before a b
  /-- have_left and have_top: there are units on the left (above) in the tile -/
  left : t.left = true ↔ P.x0 < t.x
  top : t.top = true ↔ P.y0 < t.y
  /-- and these have been reconstructed -/
  leftUnits : P.x0 < t.x → ∀ i, i < t.h → P.has (t.x - 1) (t.y + i) → Made before (t.x - 1) (t.y + i)
  topUnits : P.y0 < t.y → ∀ i, i < t.w → P.has (t.x + i) (t.y - 1) → Made before (t.x + i) (t.y - 1)
  corner : P.x0 < t.x → P.y0 < t.y → Made before (t.x - 1) (t.y - 1)
  /-- the units on the right of those above, as many as the transform is wide, have been reconstructed exactly if the
  flag says so -/
  topRight : P.y0 < t.y → ∀ i, i < t.w → P.has (t.x + t.w + i) (t.y - 1) → (t.tr = true ↔ Made before (t.x + t.w + i) (t.y - 1))
  /-- and so for the units below those on the left -/
  bottomLeft : P.x0 < t.x → ∀ i, i < t.h → P.has (t.x - 1) (t.y + t.h + i) → (t.bl = true ↔ Made before (t.x - 1) (t.y + t.h + i))

end Dav1d.Part
