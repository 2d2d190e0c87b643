import Verif.Syn.PalProps
import Verif.Part.TxModel
/-!
# Intra blocks: src/decode.c:1052-1207
-/
namespace Dav1d.Syn.Intra
open CdfTab (Field ModeF)
open Dav1d.Part (Call Frame bsW bsH subTx)
open Dav1d.Part.Ctx (Edge bsLog getKfModeCtx getPalCtx getTxCtx)
open Dav1d.Syn.Pal (PalSt leftPal abovePal readPalPlane readPalUv readMap)

/-- What is used of the headers, and of the segment of the block: IS_INTER_OR_SWITCH, `allow_screen_content_tools`, `filter_intra`,
`txfm_mode == DAV1D_TX_SWITCHABLE`, `segmentation.lossless[b->seg_id]`, `f->cur.p.layout` (1, 2, 3 for 4:2:0, 4:2:2 and 4:4:4) and the bits of a sample. -/
structure Cfg where
  inter : Bool
  screen : Bool
  filterIntra : Bool
  switchable : Bool
  lossless : Bool
  layout : Nat
  bpc : Nat

/-- The members of Av1Block for an intra block (src/levels.h:254-286), the palettes (`t->scratch.pal`, or the entry of `f->frame_thread.pal`), and the memory with the indices. -/
structure Out where
  yMode : Nat
  yAngle : Int
  uvMode : Nat
  uvAngle : Int
  cfl : Int × Int
  palY : Nat × (Nat → Nat)
  palUv : Nat × (Nat → Nat) × (Nat → Nat)
  mem : Nat → Nat
  tx : Nat
  uvtx : Nat

/-- dav1d_ymode_size_context, src/tables.c:250-273. -/
def ymodeSizeCtx (bs : Nat) : Nat := [3, 3, 3, 3, 3, 2, 3, 3, 2, 1, 2, 2, 2, 1, 0, 1, 1, 1, 0, 0, 0, 0].getD bs 0

/-- cfl_allowed_mask, src/tables.h:70-84: BS_32x32 is 7, BS_16x64 is 10, BS_4x4 is 21. -/
def cflMask (bs : Nat) : Bool := [7, 8, 9, 11, 12, 13, 14, 15, 16, 17, 18, 19, 20, 21].contains bs

/-- The mode of luma, src/decode.c:1052-1057. -/
def readYMode (H : Cfg) (c : Call) (a l : Edge) : Prog Nat :=
  if H.inter then mode .yMode [ymodeSizeCtx c.bs] 12
  else .read (.sym .kfym [(getKfModeCtx a l).1, (getKfModeCtx a l).2] 12) .ret

/-- An angle, src/decode.c:1062-1071 and 1109-1115. -/
def readAngle (c : Call) (m : Nat) : Prog Int :=
  if bsLog c.bs 0 + bsLog c.bs 1 ≥ 2 ∧ m ≥ 1 ∧ m ≤ 8 then mode .angleDelta [m - 1] 6 >>= fun angle => pure ((angle : Int) - 3)
  else pure 0

/-- One factor of CFL, src/decode.c:1089-1096 and 1097-1104: `s` is its sign and `o` that of the other one. -/
def readAlpha (s o : Nat) : Prog Int :=
  if s ≠ 0 then
    mode .cflAlpha [(if s = 2 then 1 else 0) * 3 + o] 15 >>= fun v => pure (if s = 1 then -((v : Int) + 1) else (v : Int) + 1)
  else pure 0

/-- The factors of CFL, src/decode.c:1083-1108. -/
def readCfl : Prog (Int × Int) :=
  mode .cflSign [] 7 >>= fun v =>
  let sign := v + 1
  let signU := (sign * 0x56) >>> 8
  let signV := sign - signU * 3
  readAlpha signU signV >>= fun u => readAlpha signV signU >>= fun v => pure (u, v)

/-- The chroma mode, src/decode.c:1073-1116. -/
def readUv (H : Cfg) (F : Copy.Av1.Fmt) (c : Call) (yMode : Nat) (cfl0 : Int × Int) : Prog (Nat × Int × (Int × Int)) :=
  let cbw4 := (bsW c.bs + F.subX.toNat) >>> F.subX.toNat
  let cbh4 := (bsH c.bs + F.subY.toNat) >>> F.subY.toNat
  let allowed := if H.lossless then decide (cbw4 = 1 ∧ cbh4 = 1) else cflMask c.bs
  mode .uvMode [allowed.toNat, yMode] (if allowed then 13 else 12) >>= fun m =>
  if m = 13 then readCfl >>= fun a => pure (m, 0, a) else readAngle c m >>= fun g => pure (m, g, cfl0)

/-- The palettes, src/decode.c:1118-1142; `o` is what was there before. -/
def readPals (H : Cfg) (hasChroma : Bool) (c : Call) (a l : Edge) (ps : PalSt) (yMode uvMode : Nat) (o : Out) : Prog ((Nat × (Nat → Nat)) × (Nat × (Nat → Nat) × (Nat → Nat))) :=
  if H.screen ∧ max (bsW c.bs) (bsH c.bs) ≤ 16 ∧ bsW c.bs + bsH c.bs ≥ 4 then
    let szCtx := bsLog c.bs 0 + bsLog c.bs 1 - 2
    (if yMode = 0 then
      flag .palY [szCtx, getPalCtx a l] >>= fun use =>
      if use then readPalPlane H.bpc 0 szCtx (leftPal ps l 0 c) (abovePal ps a 0 c) o.palY.2 else pure (0, o.palY.2)
    else pure (0, o.palY.2)) >>= fun y =>
    (if hasChroma ∧ uvMode = 0 then
      flag .palUv [if y.1 > 0 then 1 else 0] >>= fun use =>
      if use then readPalUv H.bpc szCtx (leftPal ps l 1 c) (abovePal ps a 1 c) o.palUv.2.1 o.palUv.2.2 else pure (0, o.palUv.2)
    else pure (0, o.palUv.2)) >>= fun uv => pure (y, uv)
  else pure ((0, o.palY.2), (0, o.palUv.2))

/-- Filter intra, src/decode.c:1144-1157: FILTER_PRED is 13, and its mode is kept as angle. -/
def readFilter (H : Cfg) (c : Call) (yMode : Nat) (yAngle : Int) (palSz : Nat) : Prog (Nat × Int) :=
  if yMode = 0 ∧ palSz = 0 ∧ max (bsLog c.bs 0) (bsLog c.bs 1) ≤ 3 ∧ H.filterIntra then
    flag .useFilterIntra [c.bs] >>= fun use => if use then mode .filterIntra [] 4 >>= fun m => pure (13, (m : Int)) else pure (yMode, yAngle)
  else pure (yMode, yAngle)

/-- The indices, src/decode.c:1159-1185: `dy` and `du` are where they go, `tmp` is `t->scratch.pal_idx_uv`. -/
def readMaps (f : Frame) (F : Copy.Av1.Fmt) (hasChroma : Bool) (c : Call) (szY szUv dy du tmp : Nat) (mem : Nat → Nat) : Prog (Nat → Nat) :=
  (if szY ≠ 0 then readMap f F c false szY dy tmp mem else pure mem) >>= fun mem =>
  (if hasChroma ∧ szUv ≠ 0 then readMap f F c true szUv du tmp mem else pure mem)

/-- `dav1d_txfm_dimensions[tx].lw`, `.lh` and `.max`, src/tables.c:140-200. -/
def txLw (tx : Nat) : Nat := (Tables.txDims.getD tx []).getD 2 0
def txLh (tx : Nat) : Nat := (Tables.txDims.getD tx []).getD 3 0
def txMax (tx : Nat) : Nat := (Tables.txDims.getD tx []).getD 5 0

/-- The transform sizes, src/decode.c:1187-1207. -/
def readTx (H : Cfg) (c : Call) (a l : Edge) : Prog (Nat × Nat) :=
  if H.lossless then pure (0, 0)
  else
    let tx := (Tables.maxTx.getD c.bs []).getD 0 0
    let uvtx := (Tables.maxTx.getD c.bs []).getD H.layout 0
    if H.switchable ∧ txMax tx > 0 then
      mode .txsz [txMax tx - 1, getTxCtx a l (txLw tx) (txLh tx)] (min (txMax tx) 2) >>= fun depth => pure (subTx depth tx, uvtx)
    else pure (tx, uvtx)

/-- src/decode.c:1052-1207 for an intra block: `a` and `l` are the entries of `t->a` and `t->l`, `ps` the palettes around, `o` what was in the block and in memory before. -/
def readIntraBlk (H : Cfg) (f : Frame) (F : Copy.Av1.Fmt) (hasChroma : Bool) (c : Call) (a l : Edge) (ps : PalSt) (dy du tmp : Nat) (o : Out) : Prog Out :=
  readYMode H c a l >>= fun yMode =>
  readAngle c yMode >>= fun yAngle =>
  (if hasChroma then readUv H F c yMode o.cfl else pure (o.uvMode, o.uvAngle, o.cfl)) >>= fun uv =>
  readPals H hasChroma c a l ps yMode uv.1 o >>= fun pal =>
  readFilter H c yMode yAngle pal.1.1 >>= fun y =>
  readMaps f F hasChroma c pal.1.1 pal.2.1 dy du tmp o.mem >>= fun mem =>
  readTx H c a l >>= fun tx =>
  pure { yMode := y.1, yAngle := y.2, uvMode := uv.1, uvAngle := uv.2.1, cfl := uv.2.2, palY := pal.1, palUv := pal.2, mem := mem, tx := tx.1, uvtx := tx.2 }

end Dav1d.Syn.Intra
