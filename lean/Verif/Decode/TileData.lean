import Verif.Obu.ObuModel
/-!
# Model of the splitting of tile groups into tiles, src/decode.c:3144-3196

`none` is an access outside the tile group payload, outside `f->ts[]` or outside the tables of tile boundaries. Only
what concerns the tile data is modelled of setup_tile (src/decode.c:2427-2465); copying of CDFs and the reset of the
above contexts are not.
-/
namespace Dav1d
variable {κ : Type}

/-- What setup_tile is told about a tile: `f->ts[index]`, tile row and column, and the range of bytes of the payload
of tile group `group`. -/
structure TileSetup where
  index : Nat
  row : Nat
  col : Nat
  group : Nat
  off : Nat
  size : Nat
  deriving DecidableEq, Repr

/-- The tile size field, src/decode.c:3164-3166: `nb` bytes from `off`, least significant first, in 32-bit
arithmetic. -/
def readTileSize (data : List UInt8) (off : Nat) : Nat → Nat → Option Nat
  | _, 0 => some 0
  | k, n + 1 =>
    match data[off + k]? with
    | none => none
    | some b => (readTileSize data off (k + 1) n).map (fun r => (b.toNat <<< (k * 8)) % 2 ^ 32 ||| r)

/-- Position in the frame: tile row and column, and whether the tile whose CDFs are kept was seen. -/
structure TilePos where
  row : Nat := 0
  col : Nat := 0
  updateSet : Bool := false
  deriving DecidableEq, Repr

/-- After a tile, src/decode.c:3172-3180. -/
def TilePos.next (h : FrameHdr) (p : TilePos) (j : Nat) : TilePos :=
  { row := if p.col + 1 = h.tiling.cols then p.row + 1 else p.row
    col := if p.col + 1 = h.tiling.cols then 0 else p.col + 1
    updateSet := p.updateSet || (j == h.tiling.update && h.refreshContext) }

/-- The accesses of setup_tile to `f->ts[j]` and the tile boundaries, src/decode.c:2433-2437 and 3172, are in range. -/
def setupInRange (h : FrameHdr) (p : TilePos) (j : Nat) : Bool :=
  decide (j < h.tiling.cols * h.tiling.rows) && (h.tiling.colStart[p.col + 1]?).isSome && (h.tiling.rowStart[p.row + 1]?).isSome

/-- The tiles `j` to `last` of one group, src/decode.c:3158-3183: `off` is the position of `data` in the payload
and `size` what is left. An error is `.error ()`. -/
def splitGroup (h : FrameHdr) (i : Nat) (data : List UInt8) : (n j off size : Nat) → TilePos → Option (Except Unit (List TileSetup × TilePos))
  | 0, _, _, _, p => some (.ok ([], p))
  | 1, j, off, size, p =>
    if setupInRange h p j then some (.ok ([⟨j, p.row, p.col, i, off, size⟩], p.next h j)) else none
  | n + 2, j, off, size, p =>
    if h.tiling.nBytes > size then some (.error ())
    else
      match readTileSize data off 0 h.tiling.nBytes with
      | none => none
      | some z =>
        let sz := z + 1
        let size := size - h.tiling.nBytes
        if sz > size then some (.error ())
        else if !setupInRange h p j then none
        else
          let off := off + h.tiling.nBytes
          match splitGroup h i data (n + 1) (j + 1) (off + sz) (size - sz) (p.next h j) with
          | none => none
          | some (.error e) => some (.error e)
          | some (.ok (l, q)) => some (.ok (⟨j, p.row, p.col, i, off, sz⟩ :: l, q))

/-- The loop over the tile groups, src/decode.c:3154-3184. -/
def splitGroups (h : FrameHdr) : Nat → List TileGroup → TilePos → Option (Except Unit (List TileSetup × TilePos))
  | _, [], p => some (.ok ([], p))
  | i, g :: l, p =>
    match splitGroup h i g.data (g.last + 1 - g.first) g.first 0 g.data.length p with
    | none => none
    | some (.error e) => some (.error e)
    | some (.ok (a, p)) =>
      match splitGroups h (i + 1) l p with
      | none => none
      | some (.error e) => some (.error e)
      | some (.ok (b, p)) => some (.ok (a ++ b, p))

/-- dav1d_decode_frame_init_cdf, src/decode.c:3144-3196, as far as the tile data are concerned: the tiles set up and
`update_set`, or an error. -/
def initTiles (f : FrameIn κ) : Option (Except Unit (List TileSetup × Bool)) :=
  match splitGroups f.hdr 0 f.tiles {} with
  | none => none
  | some (.error e) => some (.error e)
  | some (.ok (l, p)) => some (.ok (l, p.updateSet))

end Dav1d
