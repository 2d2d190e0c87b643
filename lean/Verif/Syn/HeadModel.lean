import Verif.Syn.Base
import Verif.Part.CtxModel
/-!
# decode_b: what comes before the prediction of a block

src/decode.c:812-1049: segment id, skip mode, skip, index of CDEF, differences of quantizer and loop filter levels, and
whether the block is intra.
-/
namespace Dav1d.Syn
open CdfTab (Field ModeF)
open Dav1d.Part (Call bsW bsH sbStep)
open Dav1d.Part.Ctx (Edge Seg getSkipCtx getSkipModeCtx getSegPredCtx getIntraCtx getCurFrameSegid)

/-- The members of Dav1dFrameHeader, Dav1dSequenceHeader and Dav1dFrameContext that are used (include/dav1d/headers.h). `seg` and `segDq` are
`segmentation.seg_data.d[]`, `prevSeg` is `f->prev_segmap` (as a function of column and row). -/
structure Hdr where
  /-- IS_INTER_OR_SWITCH -/
  inter : Bool
  sb128 : Bool
  mono : Bool
  segEnabled : Bool
  updateMap : Bool
  temporal : Bool
  preskip : Bool
  lastActive : Int
  seg : Nat → Seg
  segDq : Nat → Int
  prevSeg : Option (Nat → Nat → Nat)
  skipModeEnabled : Bool
  cdefBits : Nat
  dqPresent : Bool
  dqRes : Nat
  dlfPresent : Bool
  dlfMulti : Bool
  dlfRes : Nat
  yac : Int
  ydcDelta : Int
  uacDelta : Int
  udcDelta : Int
  vacDelta : Int
  vdcDelta : Int
  allowIntrabc : Bool

/-- What decode_b sees of the blocks before: the entries of `t->a` and `t->l`, `f->cur_segmap`, `have_top` and `have_left`, and the size
of the block inside the frame (`w4` and `h4`, src/decode.c:699). -/
structure Around where
  a : Edge
  l : Edge
  curSeg : Nat → Nat → Nat
  haveTop : Bool
  haveLeft : Bool
  w4 : Nat
  h4 : Nat

/-- neg_deinterleave, src/decode.c:169-189. -/
def negDeinterleave (diff ref max : Int) : Int :=
  if ref = 0 then diff
  else if ref ≥ max - 1 then max - diff - 1
  else if 2 * ref < max then
    if diff ≤ 2 * ref then (if diff % 2 = 1 then ref + (diff + 1) / 2 else ref - diff / 2) else diff
  else
    if diff ≤ 2 * (max - ref - 1) then (if diff % 2 = 1 then ref + (diff + 1) / 2 else ref - diff / 2) else max - (diff + 1)

/-- The loop over the columns in get_prev_frame_segid, src/decode.c:505-506. -/
def prevRow (m : Nat → Nat → Nat) (x y : Nat) : (w4 : Nat) → (seg : Nat) → Nat
  | 0, s => s
  | w + 1, s => prevRow m (x + 1) y w (min s (m x y))

/-- The loop over the rows, src/decode.c:504-508: at least one, and none after a 0. -/
def prevRows (m : Nat → Nat → Nat) (x : Nat) : (y w4 h4 : Nat) → (seg : Nat) → Nat
  | y, w, 0, s => prevRow m x y w s
  | y, w, 1, s => prevRow m x y w s
  | y, w, h + 2, s => let s := prevRow m x y w s; if s = 0 then 0 else prevRows m x (y + 1) w (h + 1) s

/-- get_prev_frame_segid, src/decode.c:494-512, and the test of its result at 823, 841 and 910. -/
def predSegid (H : Hdr) (E : Around) (c : Call) : Prog Nat :=
  match H.prevSeg with
  | some m =>
    let s := prevRows m c.x c.y E.w4 E.h4 8
    if s ≥ 8 then .err else pure s
  | none => pure 0

/-- The id from what was read, src/decode.c:853-859 and 925-932: `b->seg_id` is an uint8_t, `last_active_seg_id` is unsigned. -/
def segidOf (H : Hdr) (pred diff : Nat) : Nat :=
  let id := (negDeinterleave diff pred (H.lastActive + 1) % 256).toNat
  let id := if H.lastActive % 2 ^ 32 < id then 0 else id
  if id ≥ 8 then 0 else id

/-- Reading of an id, src/decode.c:847-859 and 918-932. -/
def readSegDiff (H : Hdr) (E : Around) (c : Call) : Prog Nat :=
  mode .segId [(getCurFrameSegid E.curSeg c.x c.y E.haveTop E.haveLeft).2] 7 >>= fun diff =>
  pure (segidOf H (getCurFrameSegid E.curSeg c.x c.y E.haveTop E.haveLeft).1 diff)

/-- segment_id before skip, src/decode.c:814-870: `b->seg_id`, `seg_pred` and `seg`. (`b->seg_id` keeps an old value in the case of
the end, where it is written after skip before it is used.) -/
def readSegPre (H : Hdr) (E : Around) (c : Call) : Prog (Nat × Bool × Option Seg) :=
  if H.segEnabled then
    if !H.updateMap then do
      let id ← predSegid H E c
      pure (id, false, some (H.seg id))
    else if H.preskip then do
      let sp ← (if H.temporal then flag .segPred [getSegPredCtx E.a E.l] else pure false)
      let id ← (if sp then predSegid H E c else readSegDiff H E c)
      pure (id, sp, some (H.seg id))
    else pure (0, false, none)
  else pure (0, false, none)

/-- `!seg || (!seg->globalmv && seg->ref == -1 && !seg->skip)`, src/decode.c:873. -/
def noFeature : Option Seg → Bool
  | none => true
  | some g => !g.globalmv && decide (g.ref = -1) && !g.skip

/-- `seg && seg->skip`, src/decode.c:886. -/
def segSkip : Option Seg → Bool
  | none => false
  | some g => g.skip

/-- skip_mode, src/decode.c:873-883. -/
def readSkipMode (H : Hdr) (E : Around) (c : Call) (seg : Option Seg) : Prog Bool :=
  if noFeature seg && H.skipModeEnabled && decide (min (bsW c.bs) (bsH c.bs) > 1) then
    flag .skipMode [getSkipModeCtx E.a E.l]
  else pure false

/-- skip, src/decode.c:886-893. -/
def readSkip (E : Around) (seg : Option Seg) (skipMode : Bool) : Prog Bool :=
  if skipMode || segSkip seg then pure true else flag .skip [getSkipCtx E.a E.l]

/-- segment_id after skip, src/decode.c:896-940. -/
def readSegPost (H : Hdr) (E : Around) (c : Call) (skip : Bool) (found : Nat × Bool × Option Seg) : Prog (Nat × Bool × Option Seg) :=
  if H.segEnabled && H.updateMap && !H.preskip then do
    let sp ← (if !skip && H.temporal then flag .segPred [getSegPredCtx E.a E.l] else pure false)
    let pred := (getCurFrameSegid E.curSeg c.x c.y E.haveTop E.haveLeft).1
    let id ← (if sp then predSegid H E c else if skip then pure (if pred ≥ 8 then 0 else pred) else readSegDiff H E c)
    pure (id, sp, some (H.seg id))
  else pure found

/-- The state that decode_b changes: `cdef_idx` of the masks (as a function of column and row of the 128x128 area and of the index), `last_qidx`,
`last_delta_lf` (4 numbers), and what `ts->dq` and `ts->lflvl` point to. `dqmem` and `lflvlmem` are used by these pointers only. -/
structure TS (L : Type) where
  cdef : Nat → Nat → Nat → Int
  lastQ : Int
  lastLf : List Int
  dq : Nat → Nat → Nat → Nat
  lflvl : L

/-- Writing of an index. -/
def TS.setCdef {L : Type} (t : TS L) (X Y i : Nat) (v : Int) : TS L :=
  { t with cdef := fun x y j => if x = X ∧ y = Y ∧ j = i then v else t.cdef x y j }

/-- cur_sb_cdef_idx_ptr as an index of cdef_idx, src/decode.c:2652-2663: 0 with superblocks of 128x128. -/
def cdefBase (sb128 : Bool) (x y : Nat) : Nat := if sb128 then 0 else x / 16 % 2 + 2 * (y / 16 % 2)

/-- The index of CDEF, src/decode.c:943-958. -/
def readCdef {L : Type} (H : Hdr) (c : Call) (skip : Bool) (t : TS L) : Prog (TS L) :=
  let X := c.x / 32
  let Y := c.y / 32
  let i := cdefBase H.sb128 c.x c.y + (if H.sb128 then c.x / 16 % 2 + 2 * (c.y / 16 % 2) else 0)
  if !skip && decide (t.cdef X Y i = -1) then
    bits H.cdefBits >>= fun v =>
    let t := t.setCdef X Y i v
    let t := if bsW c.bs > 16 then t.setCdef X Y (i + 1) v else t
    let t := if bsH c.bs > 16 then t.setCdef X Y (i + 2) v else t
    pure (if bsW c.bs = 32 ∧ bsH c.bs = 32 then t.setCdef X Y (i + 3) v else t)
  else pure t

/-- The difference of a quantizer index or level, src/decode.c:971-981 and 992-1003. -/
def readDelta (f : ModeF) (idx : List Nat) (res : Nat) : Prog Int := do
  let d ← mode f idx 3
  let d ← (if d = 3 then do
      let n ← bits 3
      let v ← bits (1 + n)
      pure (v + 1 + 2 ^ (1 + n))
    else pure d)
  (if d ≠ 0 then do
    let neg ← bit
    pure ((if neg then -(d : Int) else d) * 2 ^ res)
  else pure 0)

/-- iclip, include/common/intops.h. -/
def iclip (v lo hi : Int) : Int := if v < lo then lo else if v > hi then hi else v

/-- The loop for the levels, src/decode.c:991-1009, for `n` more from `i` on. -/
def readLfs (H : Hdr) : (n i : Nat) → List Int → Prog (List Int)
  | 0, _, lf => pure lf
  | n + 1, i, lf => do
    let d ← readDelta .deltaLf [i + H.dlfMulti.toNat] H.dlfRes
    readLfs H n (i + 1) (lf.set i (iclip (lf.getD i 0 + d) (-63) 63))

/-- init_quant_tables, src/decode.c:54-76: the quantizers of DC (0) and AC (1) of the three planes for the segments. `tbl` is dav1d_dq_tbl of
the bit depth. -/
def initQuant (H : Hdr) (tbl : Nat → Nat → Nat) (qidx : Int) (i plane ac : Nat) : Nat :=
  let u8 (v : Int) : Nat := (iclip v 0 255).toNat
  let yac : Int := if H.segEnabled then iclip (qidx + H.segDq i) 0 255 else qidx
  match plane, ac with
  | 0, 0 => tbl (u8 (yac + H.ydcDelta)) 0
  | 0, _ => tbl yac.toNat 1
  | 1, 0 => tbl (u8 (yac + H.udcDelta)) 0
  | 1, _ => tbl (u8 (yac + H.uacDelta)) 1
  | _, 0 => tbl (u8 (yac + H.vdcDelta)) 0
  | _, _ => tbl (u8 (yac + H.vacDelta)) 1

/-- BS_128x128 and BS_64x64, src/levels.h:160-163. -/
def bsSb (sb128 : Bool) : Nat := if sb128 then 0 else 3

/-- Reading of the differences, src/decode.c:970-1011. -/
def readQLf {L : Type} (H : Hdr) (c : Call) (skip : Bool) (t : TS L) : Prog (TS L) :=
  if H.dqPresent && (c.bs ≠ bsSb H.sb128 || !skip) then do
    let d ← readDelta .deltaQ [] H.dqRes
    let lf ← (if H.dlfPresent then readLfs H (if H.dlfMulti then (if !H.mono then 4 else 2) else 1) 0 t.lastLf else pure t.lastLf)
    pure { t with lastQ := iclip (t.lastQ + d) 1 255, lastLf := lf }
  else pure t

/-- The choice of the tables, src/decode.c:1012-1027; `t0` is the state before. `tbl` is dav1d_dq_tbl and `lfv` is dav1d_calc_lf_values of the frame header.
`f->dq` is made by init_quant_tables with `quant.yac` (src/decode.c:3079) and `f->lf.lvl` by dav1d_calc_lf_values with zeros (src/decode.c:3040). -/
def TS.tables {L : Type} (H : Hdr) (tbl : Nat → Nat → Nat) (lfv : List Int → L) (t0 t : TS L) : TS L :=
  { t with
    dq := if t.lastQ = H.yac then initQuant H tbl H.yac else if t.lastQ ≠ t0.lastQ then initQuant H tbl t.lastQ else t.dq
    lflvl := if t.lastLf = [0, 0, 0, 0] then lfv [0, 0, 0, 0] else if t.lastLf ≠ t0.lastLf then lfv t.lastLf else t.lflvl }

/-- delta-q/lf, src/decode.c:961-1028. -/
def readDeltas {L : Type} (H : Hdr) (tbl : Nat → Nat → Nat) (lfv : List Int → L) (c : Call) (skip : Bool) (t : TS L) : Prog (TS L) :=
  if c.x % sbStep H.sb128 = 0 ∧ c.y % sbStep H.sb128 = 0 then
    readQLf H c skip t >>= fun t' => pure (TS.tables H tbl lfv t t')
  else pure t

/-- Whether the block is intra, src/decode.c:1030-1049. -/
def readIntra (H : Hdr) (E : Around) (seg : Option Seg) (skipMode : Bool) : Prog Bool :=
  if skipMode then pure false
  else if H.inter then
    match (match seg with | some g => if g.ref ≥ 0 ∨ g.globalmv then some (decide (g.ref = 0)) else none | none => none) with
    | some i => pure i
    | none => do
      let v ← flag .intra [getIntraCtx E.a.refs E.l.refs E.haveTop E.haveLeft]
      pure !v
  else if H.allowIntrabc then do
    let v ← flag .intrabc []
    pure !v
  else pure true

/-- What is known of the block then. -/
structure Head where
  segId : Nat
  segPred : Bool
  skipMode : Bool
  skip : Bool
  intra : Bool
  seg : Option Seg

/-- src/decode.c:812-1049. -/
def readHead {L : Type} (H : Hdr) (tbl : Nat → Nat → Nat) (lfv : List Int → L) (E : Around) (c : Call) (t : TS L) : Prog (Head × TS L) := do
  let pre ← readSegPre H E c
  let skipMode ← readSkipMode H E c pre.2.2
  let skip ← readSkip E pre.2.2 skipMode
  let post ← readSegPost H E c skip pre
  let t ← readCdef H c skip t
  let t ← readDeltas H tbl lfv c skip t
  let intra ← readIntra H E post.2.2 skipMode
  pure (⟨post.1, post.2.1, skipMode, skip, intra, post.2.2⟩, t)

/-- Tile start, src/decode.c:2455-2456: nothing is written to `ts->dq` and `ts->lflvl`. -/
def TS.tileStart {L : Type} (H : Hdr) (t : TS L) : TS L := { t with lastQ := H.yac, lastLf := [0, 0, 0, 0] }

/-- Start of a superblock, src/decode.c:2652-2663. -/
def TS.sbStart {L : Type} (sb128 : Bool) (x y : Nat) (t : TS L) : TS L :=
  if sb128 then (((t.setCdef (x / 32) (y / 32) 0 (-1)).setCdef (x / 32) (y / 32) 1 (-1)).setCdef (x / 32) (y / 32) 2 (-1)).setCdef (x / 32) (y / 32) 3 (-1)
  else t.setCdef (x / 32) (y / 32) (cdefBase false x y) (-1)

end Dav1d.Syn
