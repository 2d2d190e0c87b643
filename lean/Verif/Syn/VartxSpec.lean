import Verif.Syn.IntraSpec
/-!
# The transform sizes of inter blocks in the AV1 specification: read_block_tx_size and read_var_tx_size (sections 5.11.15 and 5.11.17), the CDF for txfm_split (section 8.3.2),
transform_tree and residual (sections 5.11.34 and 5.11.36)

Transform sizes are given by width and height in samples.
-/
namespace Dav1d.Syn.Vartx.Av1
open Dav1d.Syn.Intra.Av1 (blockSizes Split_Tx_Size Max_Tx_Size_Rect)

/-- InterTxSizes, by row and column. -/
abbrev TxSizes := Nat → Nat → Nat × Nat

/-- What the syntax depends on: the block, the headers, and the arrays Skips, IsInters and MiSizes, by row and column. -/
structure Env where
  MiSize : Nat
  MiRow : Nat
  MiCol : Nat
  MiRows : Nat
  MiCols : Nat
  TX_MODE_SELECT : Bool
  Lossless : Bool
  skip : Bool
  AvailU : Bool
  AvailL : Bool
  Skips : Nat → Nat → Bool
  IsInters : Nat → Nat → Bool
  MiSizes : Nat → Nat → Nat

/-- Block_Width and Block_Height. -/
def Block_Width (s : Nat) : Nat := (blockSizes.getD s (0, 0)).1
def Block_Height (s : Nat) : Nat := (blockSizes.getD s (0, 0)).2

/-- get_above_tx_width -/
def get_above_tx_width (E : Env) (InterTxSizes : TxSizes) (row col : Nat) : Nat :=
  if row = E.MiRow then
    if E.AvailU = false then 64
    else if E.Skips (row - 1) col ∧ E.IsInters (row - 1) col then Block_Width (E.MiSizes (row - 1) col)
    else (InterTxSizes (row - 1) col).1
  else (InterTxSizes (row - 1) col).1

/-- get_left_tx_height -/
def get_left_tx_height (E : Env) (InterTxSizes : TxSizes) (row col : Nat) : Nat :=
  if col = E.MiCol then
    if E.AvailL = false then 64
    else if E.Skips row (col - 1) ∧ E.IsInters row (col - 1) then Block_Height (E.MiSizes row (col - 1))
    else (InterTxSizes row (col - 1)).2
  else (InterTxSizes row (col - 1)).2

/-- The context for txfm_split. The number of a square size is 0 for 4 samples, 1 for 8, and so on; Tx_Size_Sqr_Up is the square with the longer side; TX_SIZES is 5. -/
def splitCtx (E : Env) (InterTxSizes : TxSizes) (row col : Nat) (txSz : Nat × Nat) : Nat :=
  let above := if get_above_tx_width E InterTxSizes row col < txSz.1 then 1 else 0
  let left := if get_left_tx_height E InterTxSizes row col < txSz.2 then 1 else 0
  let size := min 64 (max (Block_Width E.MiSize) (Block_Height E.MiSize))
  let maxTxSz := Nat.log2 size - 2
  let txSzSqrUp := Nat.log2 (max txSz.1 txSz.2) - 2
  (if txSzSqrUp ≠ maxTxSz then 1 else 0) * 3 + (5 - 1 - maxTxSz) * 6 + above + left

/-- InterTxSizes is set for `h` rows and `w` columns. -/
def fill (row col h w : Nat) (txSz : Nat × Nat) (t : TxSizes) : TxSizes := fun r k => if row ≤ r ∧ r < row + h ∧ col ≤ k ∧ k < col + w then txSz else t r k

/-- The values of `i` in `for (i = 0; i < stop; i += step)`, where `stop` is a multiple of `step`. -/
def steps (stop step : Nat) : List Nat := (List.range (stop / step)).map (· * step)

/-- read_var_tx_size: `n` is MAX_VARTX_DEPTH - depth. The table for txfm_split has its 21 contexts in 7 groups of 3. -/
def read_var_tx_size (E : Env) : (n row col : Nat) → Nat × Nat → TxSizes → Prog TxSizes
  | 0, row, col, txSz, t =>
    if row ≥ E.MiRows ∨ col ≥ E.MiCols then pure t
    else pure (fill row col (txSz.2 / 4) (txSz.1 / 4) txSz t)
  | n + 1, row, col, txSz, t =>
    if row ≥ E.MiRows ∨ col ≥ E.MiCols then pure t
    else
      (if txSz = (4, 4) then pure false else flag .txpart [splitCtx E t row col txSz / 3, splitCtx E t row col txSz % 3]) >>= fun txfm_split =>
      if txfm_split then
        let subTxSz := Split_Tx_Size txSz
        (steps (txSz.2 / 4) (subTxSz.2 / 4)).foldlM (fun t i =>
          (steps (txSz.1 / 4) (subTxSz.1 / 4)).foldlM (fun t j => read_var_tx_size E n (row + i) (col + j) subTxSz t) t) t
      else pure (fill row col (txSz.2 / 4) (txSz.1 / 4) txSz t)

/-- read_block_tx_size, for a block with is_inter. Here read_tx_size reads nothing: its second condition, allowSelect (`!skip`) with TX_MODE_SELECT and MiSize > BLOCK_4X4, is that of the
first branch. BLOCK_4X4 is 0. -/
def read_block_tx_size (E : Env) (t : TxSizes) : Prog TxSizes :=
  let bw4 := Block_Width E.MiSize / 4
  let bh4 := Block_Height E.MiSize / 4
  let maxTxSz := Max_Tx_Size_Rect (Block_Width E.MiSize, Block_Height E.MiSize)
  if E.TX_MODE_SELECT = true ∧ E.MiSize > 0 ∧ E.skip = false ∧ E.Lossless = false then
    (steps bh4 (maxTxSz.2 / 4)).foldlM (fun t i =>
      (steps bw4 (maxTxSz.1 / 4)).foldlM (fun t j => read_var_tx_size E 2 (E.MiRow + i) (E.MiCol + j) maxTxSz t) t) t
  else pure (fill E.MiRow E.MiCol bh4 bw4 (if E.Lossless then (4, 4) else maxTxSz) t)

/-- get_tx_size for chroma (and TX_4X4 for lossless blocks): the largest transform of the block in the plane, but none of 64 samples. -/
def uvTxSize (Lossless subX subY : Bool) (w h : Nat) : Nat × Nat :=
  if Lossless then (4, 4)
  else
    let uvTx := Max_Tx_Size_Rect (max 4 (if subX then w / 2 else w), max 4 (if subY then h / 2 else h))
    if uvTx.1 = 64 ∨ uvTx.2 = 64 then (if uvTx.1 = 16 then (16, 32) else if uvTx.2 = 16 then (32, 16) else (32, 32)) else uvTx

/-- transform_tree: the calls of transform_block for luma, as size, startX and startY, in order; the sizes are halved until they are not larger than InterTxSizes. `n` bounds the
depth: 5 is enough, as 64 samples can be halved 4 times only. -/
def transform_tree (MiRows MiCols : Nat) (InterTxSizes : TxSizes) : (n startX startY w h : Nat) → List ((Nat × Nat) × Nat × Nat)
  | 0, _, _, _, _ => []
  | n + 1, startX, startY, w, h =>
    if startX ≥ MiCols * 4 ∨ startY ≥ MiRows * 4 then []
    else
      let lumaTxSz := InterTxSizes (startY / 4) (startX / 4)
      if w ≤ lumaTxSz.1 ∧ h ≤ lumaTxSz.2 then [((w, h), startX, startY)]
      else if w > h then
        transform_tree MiRows MiCols InterTxSizes n startX startY (w / 2) h ++ transform_tree MiRows MiCols InterTxSizes n (startX + w / 2) startY (w / 2) h
      else if w < h then
        transform_tree MiRows MiCols InterTxSizes n startX startY w (h / 2) ++ transform_tree MiRows MiCols InterTxSizes n startX (startY + h / 2) w (h / 2)
      else
        transform_tree MiRows MiCols InterTxSizes n startX startY (w / 2) (h / 2) ++
        transform_tree MiRows MiCols InterTxSizes n (startX + w / 2) startY (w / 2) (h / 2) ++
        transform_tree MiRows MiCols InterTxSizes n startX (startY + h / 2) (w / 2) (h / 2) ++
        transform_tree MiRows MiCols InterTxSizes n (startX + w / 2) (startY + h / 2) (w / 2) (h / 2)

/-- residual: the calls of transform_block for luma that do not return at once as they start outside of the frame, for a block with is_inter; chunks have 64 samples. -/
def residual_luma (E : Env) (InterTxSizes : TxSizes) : List ((Nat × Nat) × Nat × Nat) :=
  let widthChunks := max 1 (Block_Width E.MiSize / 64)
  let heightChunks := max 1 (Block_Height E.MiSize / 64)
  let w := if widthChunks > 1 ∨ heightChunks > 1 then 64 else Block_Width E.MiSize
  let h := if widthChunks > 1 ∨ heightChunks > 1 then 64 else Block_Height E.MiSize
  (List.range heightChunks).flatMap fun chunkY => (List.range widthChunks).flatMap fun chunkX =>
    let baseX := (E.MiCol + chunkX * 16) * 4
    let baseY := (E.MiRow + chunkY * 16) * 4
    if E.Lossless = false then transform_tree E.MiRows E.MiCols InterTxSizes 5 baseX baseY w h
    else
      (steps h 4).flatMap fun y => (steps w 4).flatMap fun x =>
        if baseX + x ≥ E.MiCols * 4 ∨ baseY + y ≥ E.MiRows * 4 then [] else [((4, 4), baseX + x, baseY + y)]

end Dav1d.Syn.Vartx.Av1
