import Verif.Obu.FrameTypes
/-!
# Model of the frame header parser, src/obu.c:341-1196
-/
namespace Dav1d
open HProg

/-- What the frame header parser reads besides the bits: the sequence header, the frame headers of the
eight reference slots (`c->refs[i].p.p.frame_hdr`), the layer ids of the OBU, and
`strict_std_compliance`. -/
structure FhCtx where
  seq : SeqHdr
  refs : Nat → Option FrameHdr
  temporalId : Nat
  spatialId : Nat
  strict : Bool

/-- `IS_INTER_OR_SWITCH`, include/common/frame.h:35-36 (bit 0 of the frame type). -/
def isInterOrSwitch (frameType : Nat) : Bool := frameType % 2 = 1
/-- `IS_KEY_OR_INTRA`, include/common/frame.h:42-43. -/
def isKeyOrIntra (frameType : Nat) : Bool := !isInterOrSwitch frameType

/-- `DAV1D_PRIMARY_REF_NONE`, include/dav1d/headers.h:45. -/
def PRIMARY_REF_NONE : Nat := 7

/-- `get_poc_diff`, src/env.h:237-244, on 32-bit integers. -/
def getPocDiff (nBits : Nat) (poc0 poc1 : Int) : Int :=
  if nBits = 0 then 0
  else
    let mask : BitVec 32 := 1#32 <<< (nBits - 1)
    let diff : BitVec 32 := BitVec.ofInt 32 (poc0 - poc1)
    (diff &&& (mask - 1#32)).toInt - (diff &&& mask).toInt

/-- Read `n` values with the same program. -/
def replicateM' {α : Type} (p : HProg α) : Nat → HProg (List α)
  | 0 => pure []
  | n + 1 => do
    let a ← p
    let as ← replicateM' p n
    pure (a :: as)

/-! ## Frame size, src/obu.c:341-397 -/

/-- Super resolution, src/obu.c:357-366 and 379-386: coded width and scaling denominator for an upscaled
width. -/
def readSuperRes (seq : SeqHdr) (width1 : Nat) : HProg (Bool × Nat × Nat) := do
  let enabled ← opt (seq.tools.superRes = true) flag false
  if enabled then do
    let d ← f 3
    pure (true, 9 + d, max ((width1 * 8 + (9 + d) / 2) / (9 + d)) (min 16 width1))
  else pure (false, 8, width1)

/-- The loop over references, src/obu.c:347-370, for the remaining references `l`. `none` as result means
that no reference was chosen. -/
def readFrameSizeRefs (c : FhCtx) : List Nat → HProg (Option FrameSize)
  | [] => pure none
  | r :: l => do
    let found ← flag
    if found then
      match c.refs r with
      | none => fail
      | some h => do
        let (sr, d, w0) ← readSuperRes c.seq h.refs.size.width1
        pure (some (⟨w0, h.refs.size.width1, h.refs.size.height, h.refs.size.renderWidth,
          h.refs.size.renderHeight, sr, d, false⟩ : FrameSize))
    else readFrameSizeRefs c l

/-- The explicit size, src/obu.c:372-396. -/
def readFrameSizeExplicit (c : FhCtx) (override : Bool) : HProg FrameSize := do
  let w ← opt (override = true) (do let w ← f c.seq.widthNBits; pure (w + 1)) c.seq.maxWidth
  let h ← opt (override = true) (do let h ← f c.seq.heightNBits; pure (h + 1)) c.seq.maxHeight
  let (sr, d, w0) ← readSuperRes c.seq w
  let have_ ← flag
  let rw ← opt (have_ = true) (do let w ← f 16; pure (w + 1)) w
  let rh ← opt (have_ = true) (do let h ← f 16; pure (h + 1)) h
  pure (⟨w0, w, h, rw, rh, sr, d, have_⟩ : FrameSize)

/-- `read_frame_size`, src/obu.c:341-397. -/
def readFrameSize (c : FhCtx) (override useRef : Bool) (refidx : List Nat) : HProg FrameSize := do
  let r ← opt (useRef = true) (readFrameSizeRefs c refidx) none
  match r with
  | some s => pure s
  | none => readFrameSizeExplicit c override

/-! ## First part, src/obu.c:436-492 -/

/-- `buffer_removal_time` loop, src/obu.c:481-490. -/
def readBufferRemoval (c : FhCtx) : List SeqOp → HProg (List Nat)
  | [] => pure []
  | op :: l => do
    let t ← opt (op.decoderModelParamPresent = true ∧ (op.idc = 0 ∨
        ((op.idc >>> c.temporalId) % 2 = 1 ∧ (op.idc >>> (c.spatialId + 8)) % 2 = 1)))
      (f c.seq.timing.bufferRemovalDelayLength) 0
    let ts ← readBufferRemoval c l
    pure (t :: ts)

/-- `frame_presentation_delay`, src/obu.c:426-427 and 439-440. -/
def readPresentationDelay (c : FhCtx) : HProg Nat :=
  opt (c.seq.timing.decoderModelInfoPresent = true ∧ ¬ c.seq.timing.equalPictureInterval = true)
    (f c.seq.timing.framePresentationDelayLength) 0

/-- src/obu.c:436-492. -/
def parseFhBase (c : FhCtx) : HProg FhBase := do
  let reduced := c.seq.reducedStillPictureHeader
  let frameType ← opt (¬ reduced = true) (f 2) 0
  let showFrame ← opt (¬ reduced = true) flag true
  let delay ← opt (showFrame = true) (readPresentationDelay c) 0
  let showable ← opt (¬ showFrame = true) flag (frameType ≠ 0)
  let err ← opt (¬ ((frameType = 0 ∧ showFrame = true) ∨ frameType = 3 ∨ reduced = true)) flag true
  let disableCdf ← flag
  let sct ← opt (c.seq.tools.screenContentTools = 2) flag (c.seq.tools.screenContentTools ≠ 0)
  let imv ← opt (sct = true ∧ c.seq.tools.forceIntegerMv = 2) flag
    (sct && decide (c.seq.tools.forceIntegerMv ≠ 0))
  let frameId ← opt (c.seq.frameIdNumbersPresent = true) (f c.seq.frameIdNBits) 0
  let override ← opt (¬ reduced = true ∧ frameType ≠ 3) flag (!reduced)
  let offset ← opt (c.seq.tools.orderHint = true) (f c.seq.tools.orderHintNBits) 0
  let prim ← opt (¬ err = true ∧ isInterOrSwitch frameType = true) (f 3) PRIMARY_REF_NONE
  let brp ← opt (c.seq.timing.decoderModelInfoPresent = true) flag false
  let brt ← opt (brp = true) (readBufferRemoval c c.seq.ops) []
  pure { frameType, showFrame, showableFrame := showable, framePresentationDelay := delay,
         errorResilient := err, disableCdfUpdate := disableCdf, allowScreenContentTools := sct,
         forceIntegerMv := imv || isKeyOrIntra frameType, frameId, frameSizeOverride := override,
         frameOffset := offset, primaryRefFrame := prim, bufferRemovalTimePresent := brp,
         bufferRemovalTimes := brt }

/-! ## Short reference signalling, src/obu.c:518-607 -/

/-- One search loop of the short signalling process, e.g. src/obu.c:538-547: scan the slots in order,
taking slot `i` when `cond i` and its hint beats the best one so far. -/
def searchLoop (cond : Nat → Bool) (better : Int → Int → Bool) (hint : Nat → Int) (idx best : Int) : Int × Int :=
  (List.range 8).foldl (fun (s : Int × Int) i =>
    if cond i && better (hint i) s.2 then ((i : Int), hint i) else s) (idx, best)

/-- `hint >= latest_frame_offset`. -/
def geB (a b : Int) : Bool := b ≤ a
/-- `hint < earliest_frame_offset`. -/
def ltB (a b : Int) : Bool := a < b
/-- `INT_MAX`. -/
def INT_MAX : Int := 2147483647

/-- State of the process: `refidx[0..6]` (-1 when not yet chosen) and `used_frame`. -/
structure ShortSt where
  refidx : Nat → Int
  used : Nat → Bool

/-- Write an array element. -/
def setAt {α : Type} (a : Nat → α) (i : Nat) (v : α) : Nat → α := fun j => if j = i then v else a j

/-- One search and the update of `refidx[k]` and `used_frame`, e.g. src/obu.c:538-549. `sentinel` is the
initial best value, by which the code also recognizes that nothing was found. -/
def pick (hint : Nat → Int) (dir : Int → Bool) (better : Int → Int → Bool) (sentinel : Int) (k : Nat)
    (s : ShortSt) : ShortSt :=
  let r := searchLoop (fun i => !s.used i && dir (hint i)) better hint (s.refidx k) sentinel
  { refidx := setAt s.refidx k r.1, used := if r.2 ≠ sentinel then setAt s.used r.1.toNat true else s.used }

/-- Body of the last loop, src/obu.c:604-605. -/
def fillIdx (idx ref : Int) : Int := if idx < 0 then ref else idx

/-- One iteration of the loop over the references still unset, src/obu.c:577-592. -/
def pickIfUnset (hint : Nat → Int) (dir : Int → Bool) (k : Nat) (s : ShortSt) : ShortSt :=
  if s.refidx k < 0 then pick hint dir geB (-1) k s else s

/-- src/obu.c:519-522 and 534-606: the whole process after the order hints have been computed; `cur` is
`current_frame_offset`. -/
def shortRefs (hint : Nat → Int) (cur : Int) (last gold : Nat) : Nat → Int :=
  let s : ShortSt :=
    { refidx := setAt (setAt (fun _ => -1) 0 last) 3 gold,
      used := setAt (setAt (fun _ => false) last true) gold true }
  let bwd := fun h : Int => decide (cur ≤ h)
  let fwd := fun h : Int => decide (h < cur)
  let s := pick hint bwd geB (-1) 6 s
  let s := pick hint bwd ltB INT_MAX 4 s
  let s := pick hint bwd ltB INT_MAX 5 s
  let s := [1, 2, 3, 4, 5, 6].foldl (fun s i => pickIfUnset hint fwd i s) s
  let ref := (searchLoop (fun _ => true) ltB hint (-1) INT_MAX).1
  fun i => fillIdx (s.refidx i) ref

/-- src/obu.c:519-532: the two explicit indices and the shifted order hints. -/
def parseShortRefs (c : FhCtx) (frameOffset : Nat) : HProg (List Nat) := do
  let last ← f 3
  let gold ← f 3
  rejectIf ((List.range 8).any (fun i => (c.refs i).isNone) = true)
  let cur : Int := 2 ^ (c.seq.tools.orderHintNBits - 1)
  let hint := fun i => cur + getPocDiff c.seq.tools.orderHintNBits
    (((c.refs i).map (fun h => (h.base.frameOffset : Int))).getD 0) frameOffset
  pure ((List.range 7).map (fun i => (shortRefs hint cur last gold i).toNat))

/-- One reference of the loop of src/obu.c:608-617. -/
def readRef (c : FhCtx) (frameId : Nat) (short : Option Nat) : HProg Nat := do
  let r ← (match short with
    | some r => pure r
    | none => f 3)
  if c.seq.frameIdNumbersPresent then do
    let d ← f c.seq.deltaFrameIdNBits
    let refId := (frameId + 2 ^ c.seq.frameIdNBits - (d + 1)) % 2 ^ c.seq.frameIdNBits
    match c.refs r with
    | none => fail
    | some h => do
      rejectIf (h.base.frameId ≠ refId)
      pure r
  else pure r

/-- The loop of src/obu.c:608-617. -/
def readRefs (c : FhCtx) (frameId : Nat) : List (Option Nat) → HProg (List Nat)
  | [] => pure []
  | s :: l => do
    let r ← readRef c frameId s
    let rs ← readRefs c frameId l
    pure (r :: rs)

/-- Unused order hints, src/obu.c:497-499 and 513-515. -/
def skipOrderHints (c : FhCtx) (cond : Bool) : HProg Unit := do
  let _ ← opt (cond = true) (replicateM' (f c.seq.tools.orderHintNBits) 8) []
  pure ()

/-- Key and intra frames, src/obu.c:494-508. -/
def parseIntraRefs (c : FhCtx) (b : FhBase) : HProg FhRefs := do
  let flags ← opt (¬ (b.frameType = 0 ∧ b.showFrame = true)) (f 8) 0xff
  skipOrderHints c (decide (flags ≠ 0xff) && b.errorResilient && c.seq.tools.orderHint)
  rejectIf (c.strict = true ∧ b.frameType = 2 ∧ flags = 0xff)
  let size ← readFrameSize c b.frameSizeOverride false []
  let ibc ← opt (b.allowScreenContentTools = true ∧ ¬ size.superRes = true) flag false
  pure { refreshFrameFlags := flags, size, allowIntrabc := ibc, shortSignaling := false, refidx := [],
         hp := false, subpelFilterMode := 0, switchableMotionMode := false, useRefFrameMvs := false }

/-- Inter and switch frames, src/obu.c:509-628. -/
def parseInterRefs (c : FhCtx) (b : FhBase) : HProg FhRefs := do
  let flags ← opt (b.frameType ≠ 3) (f 8) 0xff
  skipOrderHints c (b.errorResilient && c.seq.tools.orderHint)
  let short ← opt (c.seq.tools.orderHint = true) flag false
  let sr ← opt (short = true) (do let l ← parseShortRefs c b.frameOffset; pure (l.map some))
    (List.replicate 7 none)
  let refidx ← readRefs c b.frameId sr
  let size ← readFrameSize c b.frameSizeOverride (!b.errorResilient && b.frameSizeOverride) refidx
  let hp ← opt (¬ b.forceIntegerMv = true) flag false
  let sw ← flag
  let filter ← opt (¬ sw = true) (f 2) 4
  let smm ← flag
  let mfmv ← opt (¬ b.errorResilient = true ∧ c.seq.tools.refFrameMvs = true ∧ c.seq.tools.orderHint = true)
    flag false
  pure { refreshFrameFlags := flags, size, allowIntrabc := false, shortSignaling := short, refidx,
         hp, subpelFilterMode := filter, switchableMotionMode := smm, useRefFrameMvs := mfmv }

/-! ## Tiling, src/obu.c:641-710 -/

/-- `tile_log2`, src/obu.c:398-402. The loop ends because the shifted size eventually reaches `tgt`
(for `sz > 0`); the fuel is the target itself, which is enough. -/
def tileLog2Loop (sz tgt : Nat) : Nat → Nat → Nat
  | 0, k => k
  | n + 1, k => if sz * 2 ^ k < tgt then tileLog2Loop sz tgt n (k + 1) else k

/-- `tile_log2`, src/obu.c:398-402. -/
def tileLog2 (sz tgt : Nat) : Nat := tileLog2Loop sz tgt tgt 0

/-- The increment loops of src/obu.c:655-657 and 665-667: `k` grows while below `max` and a one bit
follows; `n` is the number of iterations left, `max - k`. -/
def readIncrement : Nat → Nat → HProg Nat
  | 0, k => pure k
  | n + 1, k => do
    let more ← flag
    if more then readIncrement n (k + 1) else pure k

/-- The uniform start positions, src/obu.c:660-661 and 670-671: 0, step, 2*step, … below `sb`. -/
def uniformStarts (sb step : Nat) : Nat → Nat → List Nat
  | 0, _ => []
  | n + 1, x => if x < sb then x :: uniformStarts sb step n (x + step) else []

/-- The non-uniform loops, src/obu.c:675-683 and 689-696: positions and the widest tile; `n` is the number
of tiles still allowed, `x` the current position. -/
def explicitStarts (sb maxSz : Nat) : Nat → Nat → Nat → HProg (List Nat × Nat)
  | 0, _, widest => pure ([], widest)
  | n + 1, x, widest =>
    if x < sb then do
      let lim := min (sb - x) maxSz
      let w ← opt (lim > 1) (do let v ← rd (Prog.getUniform lim); pure (1 + v)) 1
      let (l, wd) ← explicitStarts sb maxSz n (x + w) (max widest w)
      pure (x :: l, wd)
    else pure ([], widest)

/-- The tile layout without update and n_bytes fields, as (log2_cols, min_log2_rows, log2_rows, column
starts, row starts), src/obu.c:654-698. -/
def parseTileLayout (uniform : Bool) (sbw sbh maxTileWidthSb minLog2Cols maxLog2Cols maxLog2Rows
    minLog2Tiles : Nat) : HProg (Nat × Nat × Nat × List Nat × List Nat) :=
  if uniform then do
    let log2Cols ← readIncrement (maxLog2Cols - minLog2Cols) minLog2Cols
    let tileW := 1 + (sbw - 1) / 2 ^ log2Cols
    let cols := uniformStarts sbw tileW sbw 0
    let minLog2Rows := minLog2Tiles - log2Cols
    let log2Rows ← readIncrement (maxLog2Rows - minLog2Rows) minLog2Rows
    let tileH := 1 + (sbh - 1) / 2 ^ log2Rows
    let rows := uniformStarts sbh tileH sbh 0
    pure (log2Cols, minLog2Rows, log2Rows, cols, rows)
  else do
    let (cols, widest) ← explicitStarts sbw maxTileWidthSb 64 0 0
    let area := if minLog2Tiles ≠ 0 then sbw * sbh / 2 ^ (minLog2Tiles + 1) else sbw * sbh
    let (rows, _) ← explicitStarts sbh (max (area / widest) 1) 64 0 0
    pure (tileLog2 1 cols.length, 0, tileLog2 1 rows.length, cols, rows)

/-- Tiling, src/obu.c:641-710. -/
def parseTiling (sb128 : Bool) (width0 height : Nat) : HProg Tiling := do
  let uniform ← flag
  let lg := 6 + sb128.toNat
  let sbw := (width0 + (2 ^ lg - 1)) / 2 ^ lg
  let sbh := (height + (2 ^ lg - 1)) / 2 ^ lg
  let maxTileWidthSb := 4096 / 2 ^ lg
  let maxTileAreaSb := 4096 * 2304 / 2 ^ (2 * lg)
  let minLog2Cols := tileLog2 maxTileWidthSb sbw
  let maxLog2Cols := tileLog2 1 (min sbw 64)
  let maxLog2Rows := tileLog2 1 (min sbh 64)
  let minLog2Tiles := max (tileLog2 maxTileAreaSb (sbw * sbh)) minLog2Cols
  let (log2Cols, minLog2Rows, log2Rows, cols, rows) ←
    parseTileLayout uniform sbw sbh maxTileWidthSb minLog2Cols maxLog2Cols maxLog2Rows minLog2Tiles
  let update ← opt (log2Cols ≠ 0 ∨ log2Rows ≠ 0) (f (log2Cols + log2Rows)) 0
  rejectIf ((log2Cols ≠ 0 ∨ log2Rows ≠ 0) ∧ cols.length * rows.length ≤ update)
  let nBytes ← opt (log2Cols ≠ 0 ∨ log2Rows ≠ 0) (do let n ← f 2; pure (n + 1)) 0
  pure { uniform, nBytes, minLog2Cols, maxLog2Cols, log2Cols, cols := cols.length, minLog2Rows,
         maxLog2Rows, log2Rows, rows := rows.length, colStart := cols ++ [sbw], rowStart := rows ++ [sbh],
         update }

/-! ## Quantizer, segmentation, deltas, src/obu.c:716-859 -/

/-- `dav1d_get_bit(gb) ? dav1d_get_sbits(gb, 7) : 0`. -/
def readDelta (n : Nat) (d : Int) : HProg Int := do
  let b ← flag
  opt (b = true) (su n) d

/-- src/obu.c:716-745. -/
def parseQuant (c : FhCtx) : HProg Quant := do
  let yac ← f 8
  let ydc ← readDelta 7 0
  let mono := c.seq.color.monochrome
  let diff ← opt (¬ mono = true ∧ c.seq.color.separateUvDeltaQ = true) flag false
  let udc ← opt (¬ mono = true) (readDelta 7 0) 0
  let uac ← opt (¬ mono = true) (readDelta 7 0) 0
  let vdc ← opt (diff = true) (readDelta 7 0) udc
  let vac ← opt (diff = true) (readDelta 7 0) uac
  let qm ← flag
  let qmY ← opt (qm = true) (f 4) 0
  let qmU ← opt (qm = true) (f 4) 0
  let qmV ← opt (qm = true ∧ c.seq.color.separateUvDeltaQ = true) (f 4) qmU
  pure { yac, ydcDelta := ydc, udcDelta := udc, uacDelta := uac, vdcDelta := vdc, vacDelta := vac,
         qm, qmY, qmU, qmV }

/-- One segment together with whether any feature was signalled in it (src/obu.c:771-815 set
`last_active_segid` exactly then). -/
def readSegmentA : HProg (SegData × Bool) := do
  let hq ← flag
  let q ← opt (hq = true) (su 9) 0
  let hyv ← flag
  let yv ← opt (hyv = true) (su 7) 0
  let hyh ← flag
  let yh ← opt (hyh = true) (su 7) 0
  let hu ← flag
  let u ← opt (hu = true) (su 7) 0
  let hv ← flag
  let v ← opt (hv = true) (su 7) 0
  let hasRef ← flag
  let ref ← opt (hasRef = true) (do let r ← f 3; pure (r : Int)) (-1)
  let skip ← flag
  let gmv ← flag
  pure ({ deltaQ := q, deltaLfYV := yv, deltaLfYH := yh, deltaLfU := u, deltaLfV := v, ref,
          skip, globalmv := gmv }, hq || hyv || hyh || hu || hv || hasRef || skip || gmv)

/-- Index of the last `true` of a list, counting from `i`, or `d`. -/
def lastActive : List Bool → Nat → Int → Int
  | [], _, d => d
  | b :: l, i, d => lastActive l (i + 1) (if b then (i : Int) else d)

/-- Segment data, src/obu.c:765-816. -/
def parseSegData : HProg SegDataSet := do
  let l ← replicateM' readSegmentA 8
  pure { d := l.map (·.1), preskip := l.any (fun s => decide (0 ≤ s.1.ref) || s.1.skip || s.1.globalmv),
         lastActiveSegid := lastActive (l.map (·.2)) 0 (-1) }

/-- Frame header of the primary reference frame, e.g. src/obu.c:821-822; `goto error` if it is missing. -/
def primaryRef (c : FhCtx) (b : FhBase) (refidx : List Nat) : HProg FrameHdr :=
  match c.refs (refidx.getD b.primaryRefFrame 0) with
  | none => fail
  | some h => pure h

/-- src/obu.c:751-830. -/
def parseSegmentation (c : FhCtx) (b : FhBase) (refidx : List Nat) : HProg Segmentation := do
  let enabled ← flag
  if enabled then do
    let none_ := b.primaryRefFrame = PRIMARY_REF_NONE
    let map ← opt (¬ none_) flag true
    let temporal ← opt (¬ none_ ∧ map = true) flag false
    let upd ← opt (¬ none_) flag true
    let data ← (if upd then parseSegData else do
      let h ← primaryRef c b refidx
      pure h.seg.data)
    pure { enabled := true, updateMap := map, temporal, updateData := upd, data }
  else pure { enabled := false, data := { d := List.replicate 8 {} } }

/-- src/obu.c:837-842. -/
def parseDelta (yac : Nat) (allowIntrabc : Bool) : HProg Delta := do
  let qp ← opt (yac ≠ 0) flag false
  let qr ← opt (qp = true) (f 2) 0
  let lp ← opt (qp = true ∧ ¬ allowIntrabc = true) flag false
  let lr ← opt (lp = true) (f 2) 0
  let lm ← opt (lp = true) flag false
  pure ⟨qp, qr, lp, lr, lm⟩

/-- `iclip_u8`, include/common/intops.h:55-57. -/
def iclipU8 (v : Int) : Nat := (if v < 0 then 0 else if v > 255 then 255 else v).toNat

/-- `segmentation.qidx[]`, src/obu.c:852-855. -/
def deriveQidx (q : Quant) (s : Segmentation) : List Nat :=
  s.data.d.map (fun d => if s.enabled then iclipU8 ((q.yac : Int) + d.deltaQ) else q.yac)

/-- `delta_lossless`, src/obu.c:849-850. -/
def deltaLossless (q : Quant) : Bool :=
  q.ydcDelta == 0 && q.udcDelta == 0 && q.uacDelta == 0 && q.vdcDelta == 0 && q.vacDelta == 0

/-- `segmentation.lossless[]`, src/obu.c:856-857. -/
def deriveLossless (q : Quant) (s : Segmentation) : List Bool :=
  (deriveQidx q s).map (fun i => i == 0 && deltaLossless q)

/-! ## Filters, src/obu.c:861-967 -/

/-- `default_mode_ref_deltas`, src/obu.c:404-407. -/
def defaultLfDeltas : LfDeltas := { modeDelta := [0, 0], refDelta := [1, 0, 0, 0, -1, 0, -1, -1] }

/-- Loops updating the deltas, src/obu.c:892-899. -/
def readDeltas : List Int → HProg (List Int)
  | [] => pure []
  | d :: l => do
    let d' ← readDelta 7 d
    let l' ← readDeltas l
    pure (d' :: l')

/-- src/obu.c:861-902. -/
def parseLoopFilter (c : FhCtx) (b : FhBase) (refidx : List Nat) (allLossless allowIntrabc : Bool) :
    HProg LoopFilter :=
  if allLossless || allowIntrabc then
    pure ⟨0, 0, 0, 0, true, true, defaultLfDeltas, 0⟩
  else do
    let y0 ← f 6
    let y1 ← f 6
    let u ← opt (¬ c.seq.color.monochrome = true ∧ (y0 ≠ 0 ∨ y1 ≠ 0)) (f 6) 0
    let v ← opt (¬ c.seq.color.monochrome = true ∧ (y0 ≠ 0 ∨ y1 ≠ 0)) (f 6) 0
    let sharp ← f 3
    let deltas ← opt (b.primaryRefFrame ≠ PRIMARY_REF_NONE) (do
      let h ← primaryRef c b refidx
      pure h.lf.deltas) defaultLfDeltas
    let en ← flag
    let upd ← opt (en = true) flag false
    let rd ← opt (upd = true) (readDeltas deltas.refDelta) deltas.refDelta
    let md ← opt (upd = true) (readDeltas deltas.modeDelta) deltas.modeDelta
    pure ⟨y0, y1, u, v, en, upd, ⟨md, rd⟩, sharp⟩

/-- One CDEF strength pair, src/obu.c:913-915. -/
def readCdefStrength (mono : Bool) : HProg (Nat × Nat) := do
  let y ← f 6
  let uv ← opt (¬ mono = true) (f 6) 0
  pure (y, uv)

/-- src/obu.c:908-921. -/
def parseCdef (c : FhCtx) (allLossless allowIntrabc : Bool) : HProg Cdef :=
  if !allLossless && c.seq.tools.cdef && !allowIntrabc then do
    let damping ← f 2
    let n ← f 2
    let l ← replicateM' (readCdefStrength c.seq.color.monochrome) (2 ^ n)
    pure ⟨damping + 3, n, l.map (·.1), l.map (·.2)⟩
  else pure ⟨0, 0, [0], [0]⟩

/-- src/obu.c:927-963. -/
def parseRestoration (c : FhCtx) (allLossless superRes allowIntrabc : Bool) : HProg Restoration :=
  if (!allLossless || superRes) && c.seq.tools.restoration && !allowIntrabc then do
    let t0 ← f 2
    let t1 ← opt (¬ c.seq.color.monochrome = true) (f 2) 0
    let t2 ← opt (¬ c.seq.color.monochrome = true) (f 2) 0
    if t0 ≠ 0 ∨ t1 ≠ 0 ∨ t2 ≠ 0 then do
      let b1 ← bit
      let b2 ← opt (b1 ≠ 0 ∧ ¬ c.seq.tools.sb128 = true) bit 0
      let b3 ← opt ((t1 ≠ 0 ∨ t2 ≠ 0) ∧ c.seq.color.ssHor = true ∧ c.seq.color.ssVer = true) bit 0
      let u0 := 6 + c.seq.tools.sb128.toNat + b1 + b2
      pure ⟨t0, t1, t2, u0, u0 - b3⟩
    else pure ⟨t0, t1, t2, 8, 0⟩
  else pure ⟨0, 0, 0, 0, 0⟩

/-! ## Skip mode, src/obu.c:980-1035 -/

/-- One iteration of the first loop, src/obu.c:986-1005. The state is the nearest forward and the nearest
backward reference so far, as (order hint, index). The code's sentinels 0xFFFFFFFF and -1 are `none`: order
hints are 8-bit numbers. -/
def skipStep (n : Nat) (poc : Int) (refpoc : Nat → Int) (s : Option (Int × Nat) × Option (Int × Nat)) (i : Nat) :
    Option (Int × Nat) × Option (Int × Nat) :=
  if getPocDiff n (refpoc i) poc > 0 then
    match s.2 with
    | none => (s.1, some (refpoc i, i))
    | some (a, _) => if getPocDiff n a (refpoc i) > 0 then (s.1, some (refpoc i, i)) else s
  else if getPocDiff n (refpoc i) poc < 0 then
    match s.1 with
    | none => (some (refpoc i, i), s.2)
    | some (b, _) => if getPocDiff n (refpoc i) b > 0 then (some (refpoc i, i), s.2) else s
  else s

/-- First loop, src/obu.c:983-1005: nearest forward and backward reference. -/
def skipNearest (n : Nat) (poc : Int) (refpoc : Nat → Int) : Option (Int × Nat) × Option (Int × Nat) :=
  (List.range 7).foldl (fun s i => skipStep n poc refpoc s i) (none, none)

/-- One iteration of the second loop, src/obu.c:1014-1027. -/
def skipStep2 (n : Nat) (before : Int) (refpoc : Nat → Int) (s : Option (Int × Nat)) (i : Nat) :
    Option (Int × Nat) :=
  if getPocDiff n (refpoc i) before < 0 then
    match s with
    | none => some (refpoc i, i)
    | some (b, _) => if getPocDiff n (refpoc i) b > 0 then some (refpoc i, i) else s
  else s

/-- Second loop, src/obu.c:1012-1027: second nearest forward reference. -/
def skipSecond (n : Nat) (before : Int) (refpoc : Nat → Int) : Option (Int × Nat) :=
  (List.range 7).foldl (fun s i => skipStep2 n before refpoc s i) none

/-- src/obu.c:1007-1034: the chosen pair (the array indices are written in increasing order). -/
def skipModeRefs (n : Nat) (poc : Int) (refpoc : Nat → Int) : Option (Nat × Nat) :=
  match skipNearest n poc refpoc with
  | (some (_, b), some (_, a)) => some (min b a, max b a)
  | (some (bp, b), none) =>
    match skipSecond n bp refpoc with
    | some (_, b2) => some (min b b2, max b b2)
    | none => none
  | _ => none

/-- src/obu.c:980-1036: allowed references and the enable flag. -/
def parseSkipMode (c : FhCtx) (b : FhBase) (refidx : List Nat) (switchable : Bool) :
    HProg (Option (Nat × Nat) × Bool) := do
  let cond := switchable && isInterOrSwitch b.frameType && c.seq.tools.orderHint
  rejectIf (cond = true ∧ (List.range 7).any (fun i => (c.refs (refidx.getD i 0)).isNone) = true)
  let refpoc := fun i => ((c.refs (refidx.getD i 0)).map (fun h => (h.base.frameOffset : Int))).getD 0
  let r := if cond then skipModeRefs c.seq.tools.orderHintNBits b.frameOffset refpoc else none
  let en ← opt (r.isSome = true) flag false
  pure (r, en)

/-! ## Global motion, src/obu.c:1053-1101 -/

/-- `dav1d_default_wm_params`, src/tables.c:388-398. -/
def defaultWm : WmParams := ⟨0, 0, 0, 65536, 0, 0, 65536⟩

/-- Type, src/obu.c:1058-1061. -/
def readWmType : HProg Nat := do
  let a ← flag
  if a then do
    let b ← flag
    if b then pure 2 else do
      let t ← flag
      pure (if t then 1 else 3)
  else pure 0

/-- `dav1d_get_bits_subexp`. -/
def subexp (ref : Int) (n : Nat) : HProg Int := rd (Prog.getSubexp ref n)

/-- The matrix of one reference, src/obu.c:1073-1099. `ref_mat[i] >> s` is an arithmetic shift. -/
def readWmMatrix (type : Nat) (hp : Bool) (r : WmParams) : HProg WmParams := do
  let m2 ← opt (2 ≤ type) (do let v ← subexp ((r.m2 - 65536) / 2) 12; pure (65536 + 2 * v)) 65536
  let m3 ← opt (2 ≤ type) (do let v ← subexp (r.m3 / 2) 12; pure (2 * v)) 0
  let m4 ← opt (type = 3) (do let v ← subexp (r.m4 / 2) 12; pure (2 * v)) (-m3)
  let m5 ← opt (type = 3) (do let v ← subexp ((r.m5 - 65536) / 2) 12; pure (65536 + 2 * v)) m2
  let bits := if 2 ≤ type then 12 else 9 - (!hp).toNat
  let shift := if 2 ≤ type then 10 else 13 + (!hp).toNat
  let m0 ← subexp (r.m0 / 2 ^ shift) bits
  let m1 ← subexp (r.m1 / 2 ^ shift) bits
  pure ⟨type, m0 * 2 ^ shift, m1 * 2 ^ shift, m2, m3, m4, m5⟩

/-- One iteration, src/obu.c:1058-1099, for reference `i`. -/
def readGmv (c : FhCtx) (b : FhBase) (refidx : List Nat) (hp : Bool) (i : Nat) : HProg WmParams := do
  let type ← readWmType
  if type = 0 then pure defaultWm
  else do
    let r ← opt (b.primaryRefFrame ≠ PRIMARY_REF_NONE) (do
      let h ← primaryRef c b refidx
      pure (h.gmv.getD i defaultWm)) defaultWm
    readWmMatrix type hp r

/-- The loop, src/obu.c:1057-1100, for the remaining references. -/
def readGmvs (c : FhCtx) (b : FhBase) (refidx : List Nat) (hp : Bool) : List Nat → HProg (List WmParams)
  | [] => pure []
  | i :: l => do
    let g ← readGmv c b refidx hp i
    let gs ← readGmvs c b refidx hp l
    pure (g :: gs)

/-! ## Film grain, src/obu.c:1107-1185 -/

/-- Scaling points, e.g. src/obu.c:1128-1133; `prev` is the previous point value. -/
def readPoints : Nat → Option Nat → HProg (List (Nat × Nat))
  | 0, _ => pure []
  | n + 1, prev => do
    let x ← f 8
    rejectIf (∃ p, prev = some p ∧ x ≤ p)
    let y ← f 8
    let l ← readPoints n (some x)
    pure ((x, y) :: l)

/-- Number of points followed by the points. -/
def readPointList (max : Nat) : HProg (List (Nat × Nat)) := do
  let n ← f 4
  rejectIf (n > max)
  readPoints n none

/-- `dav1d_get_bits(gb, 8) - 128`. -/
def readCoeff : HProg Int := do
  let v ← f 8
  pure ((v : Int) - 128)

/-- Chroma auto-regressive coefficients of one plane, src/obu.c:1164-1171. -/
def readArUv (present : Bool) (numYPos : Nat) (hasY : Bool) : HProg (List Int) :=
  opt (present = true) (do
    let l ← replicateM' readCoeff (numYPos + hasY.toNat)
    pure (if hasY then l else l ++ [0])) []

/-- Chroma multipliers of one plane, src/obu.c:1174-1179. -/
def readUvMult (present : Bool) : HProg (Int × Int × Int) :=
  opt (present = true) (do
    let m ← readCoeff
    let l ← readCoeff
    let o ← f 9
    pure (m, l, (o : Int) - 256)) (0, 0, 0)

/-- New film grain parameters, src/obu.c:1123-1181. -/
def readFilmGrain (c : FhCtx) (seed : Nat) : HProg FilmGrainData := do
  let color := c.seq.color
  let y ← readPointList 14
  let cfl ← opt (¬ color.monochrome = true) flag false
  let noUv := color.monochrome || cfl || (color.ssVer && color.ssHor && y.isEmpty)
  let uv0 ← opt (¬ noUv = true) (readPointList 10) []
  let uv1 ← opt (¬ noUv = true) (readPointList 10) []
  rejectIf (color.ssHor = true ∧ color.ssVer = true ∧ uv0.isEmpty ≠ uv1.isEmpty)
  let ss ← f 2
  let lag ← f 2
  let numYPos := 2 * lag * (lag + 1)
  let arY ← opt (¬ y.isEmpty = true) (replicateM' readCoeff numYPos) []
  let ar0 ← readArUv (!uv0.isEmpty || cfl) numYPos (!y.isEmpty)
  let ar1 ← readArUv (!uv1.isEmpty || cfl) numYPos (!y.isEmpty)
  let as ← f 2
  let gs ← f 2
  let m0 ← readUvMult (!uv0.isEmpty)
  let m1 ← readUvMult (!uv1.isEmpty)
  let ov ← flag
  let clip ← flag
  pure { seed, yPoints := y, chromaScalingFromLuma := cfl, uvPoints0 := uv0, uvPoints1 := uv1,
         scalingShift := ss + 8, arCoeffLag := lag, arCoeffsY := arY, arCoeffsUv0 := ar0, arCoeffsUv1 := ar1,
         arCoeffShift := as + 6, grainScaleShift := gs, uvMult0 := m0, uvMult1 := m1, overlapFlag := ov,
         clipToRestrictedRange := clip }

/-- Film grain, src/obu.c:1107-1185: present, update, data. -/
def parseFilmGrain (c : FhCtx) (b : FhBase) (refidx : List Nat) : HProg (Bool × Bool × FilmGrainData) := do
  let present ← opt (c.seq.filmGrainPresent = true ∧ (b.showFrame = true ∨ b.showableFrame = true)) flag false
  if present then do
    let seed ← f 16
    let upd ← opt (b.frameType = 1) flag true
    if upd then do
      let d ← readFilmGrain c seed
      pure (true, true, d)
    else do
      let r ← f 3
      rejectIf (¬ r ∈ refidx)
      match c.refs r with
      | none => fail
      | some h => pure (true, false, { h.filmGrain with seed := seed })
  else pure (false, false, {})

/-! ## The whole header -/

/-- `parse_frame_hdr` for a new frame, src/obu.c:436-1191. -/
def parseNewFrameHdr (c : FhCtx) : HProg FrameHdr := do
  let base ← parseFhBase c
  let refs ← (if isKeyOrIntra base.frameType then parseIntraRefs c base else parseInterRefs c base)
  let noRefreshCtx ← opt (¬ c.seq.reducedStillPictureHeader = true ∧ ¬ base.disableCdfUpdate = true) flag true
  let tiling ← parseTiling c.seq.tools.sb128 refs.size.width0 refs.size.height
  let quant ← parseQuant c
  let seg ← parseSegmentation c base refs.refidx
  let delta ← parseDelta quant.yac refs.allowIntrabc
  let lossless := deriveLossless quant seg
  let allLossless := lossless.all id
  let lf ← parseLoopFilter c base refs.refidx allLossless refs.allowIntrabc
  let cdef ← parseCdef c allLossless refs.allowIntrabc
  let lr ← parseRestoration c allLossless refs.size.superRes refs.allowIntrabc
  let tx ← opt (¬ allLossless = true) bit 0
  let scr ← opt (isInterOrSwitch base.frameType = true) flag false
  let (skipRefs, skipEn) ← parseSkipMode c base refs.refidx scr
  let warp ← opt (¬ base.errorResilient = true ∧ isInterOrSwitch base.frameType = true ∧
    c.seq.tools.warpedMotion = true) flag false
  let rtx ← flag
  let gmv ← opt (isInterOrSwitch base.frameType = true)
    (readGmvs c base refs.refidx refs.hp [0, 1, 2, 3, 4, 5, 6]) (List.replicate 7 defaultWm)
  let (fgp, fgu, fg) ← parseFilmGrain c base refs.refidx
  pure { base, refs, refreshContext := !noRefreshCtx, tiling, quant, seg, qidx := deriveQidx quant seg,
         lossless, allLossless, delta, lf, cdef, lr,
         txfmMode := if allLossless then 0 else 1 + tx,
         switchableCompRefs := scr, skipModeAllowed := skipRefs.isSome, skipModeEnabled := skipEn,
         skipModeRefs := skipRefs, warpMotion := warp, reducedTxtpSet := rtx, gmv,
         filmGrainPresent := fgp, filmGrainUpdate := fgu, filmGrain := fg,
         temporalId := c.temporalId, spatialId := c.spatialId }

/-- A parsed frame header: either a request to show an existing frame (index, presentation delay, frame id)
or a new frame. -/
inductive FrameHdrResult where
  | showExisting (idx : Nat) (delay : Nat) (frameId : Nat)
  | frame (h : FrameHdr)
  deriving DecidableEq, Repr

/-- Show-existing-frame header, src/obu.c:424-433. -/
def parseShowExisting (c : FhCtx) : HProg FrameHdrResult := do
  let idx ← f 3
  let delay ← readPresentationDelay c
  if c.seq.frameIdNumbersPresent then do
    let id ← f c.seq.frameIdNBits
    match c.refs idx with
    | none => fail
    | some h => do
      rejectIf (h.base.frameId ≠ id)
      pure (.showExisting idx delay id)
  else pure (.showExisting idx delay 0)

/-- `parse_frame_hdr`, src/obu.c:409-1196. -/
def parseFrameHdr (c : FhCtx) : HProg FrameHdrResult := do
  let se ← opt (¬ c.seq.reducedStillPictureHeader = true) flag false
  if se then parseShowExisting c
  else do
    let h ← parseNewFrameHdr c
    pure (.frame h)

end Dav1d
