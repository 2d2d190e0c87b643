import Verif.Syn.PalSpec
/-!
# Intra blocks of the AV1 specification: intra_frame_mode_info, intra_block_mode_info, palette_mode_info, filter_intra_mode_info, palette_tokens and read_tx_size
(sections 5.11.7, 5.11.22, 5.11.46, 5.11.24, 5.11.49 and 5.11.16), with the selection of CDFs of section 8.3.2

The tables of symbols are those of `Verif.Cdf.Layout`; `bsRow` is the row for the block size where a table has one for each.
-/
namespace Dav1d.Syn.Intra.Av1
open CdfTab (ModeF)
open Dav1d.Syn.Pal.Av1 (Around palette_y palette_uv palette_tokens onscreen)

/-- Block_Width and Block_Height, in the order of the block sizes: BLOCK_4X4 is 0, BLOCK_8X8 3, BLOCK_128X128 15, BLOCK_4X16 16. -/
def blockSizes : List (Nat × Nat) :=
  [(4, 4), (4, 8), (8, 4), (8, 8), (8, 16), (16, 8), (16, 16), (16, 32), (32, 16), (32, 32), (32, 64), (64, 32), (64, 64), (64, 128), (128, 64), (128, 128),
   (4, 16), (16, 4), (8, 32), (32, 8), (16, 64), (64, 16)]

/-- Size_Group -/
def Size_Group : List Nat := [0, 0, 0, 1, 1, 1, 2, 2, 2, 3, 3, 3, 3, 3, 3, 3, 0, 0, 1, 1, 2, 2]

/-- Max_Tx_Depth -/
def Max_Tx_Depth : List Nat := [0, 1, 1, 1, 2, 2, 2, 3, 3, 3, 4, 4, 4, 4, 4, 4, 2, 2, 3, 3, 4, 4]

/-- What the syntax depends on: the block (`w` and `h` are Block_Width and Block_Height of MiSize), the headers, and what the selection of the CDFs takes from the blocks around. -/
structure Env where
  MiSize : Nat
  MiRow : Nat
  MiCol : Nat
  MiRows : Nat
  MiCols : Nat
  bsRow : Nat
  HasChroma : Bool
  Lossless : Bool
  FrameIsIntra : Bool
  allow_screen_content_tools : Bool
  enable_filter_intra : Bool
  TX_MODE_SELECT : Bool
  BitDepth : Nat
  subX : Bool
  subY : Bool
  aboveModeCtx : Nat
  leftModeCtx : Nat
  palCtx : Nat
  txCtx : (maxTxWidth maxTxHeight : Nat) → Nat
  above : Nat → Around
  left : Nat → Around

def Env.w (E : Env) : Nat := (blockSizes.getD E.MiSize (0, 0)).1
def Env.h (E : Env) : Nat := (blockSizes.getD E.MiSize (0, 0)).2

/-- What is known of the block in the end. The palettes are empty if there are none, the maps are for blocks with palettes only. TxSize is given by width and height. -/
structure Res where
  YMode : Nat
  AngleDeltaY : Int
  UVMode : Nat
  AngleDeltaUV : Int
  CflAlphaU : Int
  CflAlphaV : Int
  palette_colors_y : List Nat
  palette_colors_u : List Nat
  palette_colors_v : List Nat
  use_filter_intra : Bool
  filter_intra_mode : Nat
  ColorMapY : Nat → Nat → Nat
  ColorMapUV : Nat → Nat → Nat
  TxSize : Nat × Nat

/-- intra_frame_y_mode or y_mode -/
def y_mode (E : Env) : Prog Nat :=
  if E.FrameIsIntra then .read (.sym .kfym [E.aboveModeCtx, E.leftModeCtx] 12) .ret else mode .yMode [Size_Group.getD E.MiSize 0] 12

/-- is_directional_mode: from V_PRED to D67_PRED. -/
def is_directional_mode (m : Nat) : Prop := 1 ≤ m ∧ m ≤ 8
instance (m : Nat) : Decidable (is_directional_mode m) := by unfold is_directional_mode; infer_instance

/-- intra_angle_info_y and intra_angle_info_uv; MAX_ANGLE_DELTA is 3. -/
def intra_angle_info (E : Env) (m : Nat) : Prog Int :=
  if E.MiSize ≥ 3 then
    if is_directional_mode m then mode .angleDelta [m - 1] 6 >>= fun d => pure ((d : Int) - 3) else pure 0
  else pure 0

/-- get_plane_residual_size for chroma: not less than 4 samples in each direction. -/
def residualSize (E : Env) : Nat × Nat := (max 4 (if E.subX then E.w / 2 else E.w), max 4 (if E.subY then E.h / 2 else E.h))

/-- uv_mode may be UV_CFL_PRED. -/
def cflAllowed (E : Env) : Bool :=
  if E.Lossless && decide (residualSize E = (4, 4)) then true
  else if !E.Lossless && decide (max E.w E.h ≤ 32) then true
  else false

/-- read_cfl_alphas: CFL_SIGN_ZERO is 0, CFL_SIGN_NEG 1, CFL_SIGN_POS 2. -/
def read_cfl_alphas : Prog (Int × Int) :=
  mode .cflSign [] 7 >>= fun cfl_alpha_signs =>
  let signU := (cfl_alpha_signs + 1) / 3
  let signV := (cfl_alpha_signs + 1) % 3
  (if signU ≠ 0 then mode .cflAlpha [(signU - 1) * 3 + signV] 15 >>= fun v => pure (if signU = 1 then -(1 + (v : Int)) else 1 + (v : Int)) else pure 0) >>= fun u =>
  (if signV ≠ 0 then mode .cflAlpha [(signV - 1) * 3 + signU] 15 >>= fun v => pure (if signV = 1 then -(1 + (v : Int)) else 1 + (v : Int)) else pure 0) >>= fun v =>
  pure (u, v)

/-- uv_mode, the factors of CFL and the angle. UV_CFL_PRED is 13. -/
def uv_info (E : Env) (YMode : Nat) : Prog (Nat × (Int × Int) × Int) :=
  mode .uvMode [if cflAllowed E then 1 else 0, YMode] (if cflAllowed E then 13 else 12) >>= fun UVMode =>
  (if UVMode = 13 then read_cfl_alphas else pure (0, 0)) >>= fun a =>
  intra_angle_info E UVMode >>= fun g => pure (UVMode, a, g)

/-- palette_mode_info, when palettes are allowed for the block. DC_PRED is 0. -/
def palette_mode_info (E : Env) (YMode UVMode : Nat) : Prog (List Nat × (List Nat × List Nat)) :=
  let bsizeCtx := Nat.log2 (E.w / 4) + Nat.log2 (E.h / 4) - 2
  (if YMode = 0 then
    flag .palY [bsizeCtx, E.palCtx] >>= fun has => if has then palette_y E.BitDepth bsizeCtx E.MiRow (E.above 0) (E.left 0) else pure []
  else pure []) >>= fun y =>
  (if E.HasChroma ∧ UVMode = 0 then
    flag .palUv [if y.length > 0 then 1 else 0] >>= fun has =>
      if has then palette_uv E.BitDepth bsizeCtx E.MiRow (E.above 1) (E.left 1) else pure ([], [])
  else pure ([], [])) >>= fun uv => pure (y, uv)

/-- The condition for it. -/
def paletteAllowed (E : Env) : Prop := E.MiSize ≥ 3 ∧ E.w ≤ 64 ∧ E.h ≤ 64 ∧ E.allow_screen_content_tools = true
instance (E : Env) : Decidable (paletteAllowed E) := by unfold paletteAllowed; infer_instance

/-- filter_intra_mode_info: use_filter_intra and filter_intra_mode. -/
def filter_intra_mode_info (E : Env) (YMode PaletteSizeY : Nat) : Prog (Bool × Nat) :=
  if E.enable_filter_intra = true ∧ YMode = 0 ∧ PaletteSizeY = 0 ∧ max E.w E.h ≤ 32 then
    flag .useFilterIntra [E.bsRow] >>= fun use => if use then mode .filterIntra [] 4 >>= fun m => pure (true, m) else pure (false, 0)
  else pure (false, 0)

/-- palette_tokens for ColorMapY and ColorMapUV. -/
def palette_maps (E : Env) (PaletteSizeY PaletteSizeUV : Nat) : Prog ((Nat → Nat → Nat) × (Nat → Nat → Nat)) :=
  (if PaletteSizeY ≠ 0 then palette_tokens 0 PaletteSizeY (min E.w ((E.MiCols - E.MiCol) * 4)) (min E.h ((E.MiRows - E.MiRow) * 4)) else pure fun _ _ => 0) >>= fun y =>
  (if E.HasChroma ∧ PaletteSizeUV ≠ 0 then palette_tokens 1 PaletteSizeUV (onscreen E.subX E.w E.MiCols E.MiCol).2 (onscreen E.subY E.h E.MiRows E.MiRow).2
  else pure fun _ _ => 0) >>= fun uv => pure (y, uv)

/-- Split_Tx_Size: the longer side is halved, or both sides. -/
def Split_Tx_Size (t : Nat × Nat) : Nat × Nat :=
  if t.1 = t.2 then (max 4 (t.1 / 2), max 4 (t.2 / 2)) else if t.1 > t.2 then (t.1 / 2, t.2) else (t.1, t.2 / 2)

/-- Max_Tx_Size_Rect -/
def Max_Tx_Size_Rect (s : Nat × Nat) : Nat × Nat := (min 64 s.1, min 64 s.2)

/-- read_tx_size, for a block that is not inter. The tables for tx_depth are those for transforms of 8, 16, 32 and 64 samples; the first one has two symbols and the others three. -/
def read_tx_size (E : Env) : Prog (Nat × Nat) :=
  if E.Lossless then pure (4, 4)
  else
    let maxRectTxSize := Max_Tx_Size_Rect (E.w, E.h)
    let maxTxDepth := Max_Tx_Depth.getD E.MiSize 0
    if E.MiSize > 0 ∧ E.TX_MODE_SELECT = true then
      mode .txsz [maxTxDepth - 1, E.txCtx maxRectTxSize.1 maxRectTxSize.2] (if maxTxDepth = 1 then 1 else 2) >>= fun tx_depth =>
      pure (Nat.repeat Split_Tx_Size tx_depth maxRectTxSize)
    else pure maxRectTxSize

/-- get_tx_size for chroma, and TX_4X4 for lossless blocks: the largest transform of the block in the plane, but none of 64 samples. -/
def uvTxSize (E : Env) : Nat × Nat :=
  if E.Lossless then (4, 4)
  else
    let uvTx := Max_Tx_Size_Rect (residualSize E)
    if uvTx.1 = 64 ∨ uvTx.2 = 64 then (if uvTx.1 = 16 then (16, 32) else if uvTx.2 = 16 then (32, 16) else (32, 32)) else uvTx

/-- intra_frame_mode_info or intra_block_mode_info after the part that is common to all blocks, then palette_tokens and read_block_tx_size. -/
def intra_block (E : Env) : Prog Res :=
  y_mode E >>= fun YMode =>
  intra_angle_info E YMode >>= fun AngleDeltaY =>
  (if E.HasChroma then uv_info E YMode else pure (0, (0, 0), 0)) >>= fun uv =>
  (if paletteAllowed E then palette_mode_info E YMode uv.1 else pure ([], ([], []))) >>= fun pal =>
  filter_intra_mode_info E YMode pal.1.length >>= fun fi =>
  palette_maps E pal.1.length pal.2.1.length >>= fun maps =>
  read_tx_size E >>= fun tx =>
  pure { YMode := YMode, AngleDeltaY := AngleDeltaY, UVMode := uv.1, AngleDeltaUV := uv.2.2, CflAlphaU := uv.2.1.1, CflAlphaV := uv.2.1.2,
         palette_colors_y := pal.1, palette_colors_u := pal.2.1, palette_colors_v := pal.2.2, use_filter_intra := fi.1, filter_intra_mode := fi.2,
         ColorMapY := maps.1, ColorMapUV := maps.2, TxSize := tx }

end Dav1d.Syn.Intra.Av1
