import Verif.Obu.FrameModel
import Verif.Obu.SeqParseModel
/-!
# Model of dav1d_parse_obus, src/obu.c:1198-1738, and of the parts of dav1d_submit_frame,
src/decode.c:3329-3748, and src/picture.c visible to its caller

Pixel decoding itself is a parameter (`Env.dec`): a function of the sequence header, the frame header, the
tile data and the reference slots. Reference counts are not represented here (a picture is a value), memory
allocation outside dav1d_submit_frame succeeds. Both bit depths are assumed to be compiled in.
-/
namespace Dav1d
open HProg

/-- `PICTURE_FLAG_*`, src/picture.h:46-50. -/
structure PicFlags where
  newSeq : Bool := false
  newOp : Bool := false
  newTu : Bool := false
  deriving DecidableEq, Repr

/-- `Dav1dContentLightLevel`, include/dav1d/headers.h:184-187. -/
structure ContentLight where
  maxCll : Nat
  maxFall : Nat
  deriving DecidableEq, Repr

/-- `Dav1dMasteringDisplay`, include/dav1d/headers.h:189-194. -/
structure MasteringDisplay where
  primaries : List (Nat × Nat)
  whitePoint : Nat × Nat
  maxLuminance : Nat
  minLuminance : Nat
  deriving DecidableEq, Repr

/-- `Dav1dITUTT35`, include/dav1d/headers.h:196-201. -/
structure T35 where
  countryCode : Nat
  countryCodeExt : Nat
  payload : List UInt8
  deriving DecidableEq, Repr

/-- Metadata attached to a picture, include/dav1d/picture.h:80-96. -/
structure PicInfo where
  cll : Option ContentLight := none
  mdcv : Option MasteringDisplay := none
  t35 : List T35 := []
  deriving DecidableEq, Repr

/-- `Dav1dDataProps` (include/dav1d/common.h:77-83) of a packet, as an opaque tag. -/
abbrev Props := Nat

/-- `Dav1dThreadPicture`, src/picture.h:52-63, with its headers and metadata. `content` is what decoding
produces (pixels, CDFs, segmentation map, motion vectors), or the error it ends with. -/
structure Pic (κ : Type) where
  seq : SeqHdr
  hdr : FrameHdr
  content : Except Err κ
  visible : Bool
  showable : Bool
  flags : PicFlags
  info : PicInfo
  props : Props

/-- `c->refs[i].p.p`: empty, only a frame header (a skipped frame), or a picture. -/
inductive RefPic (κ : Type) where
  | empty
  | hdrOnly (h : FrameHdr)
  | pic (p : Pic κ)

/-- `p.frame_hdr` of a slot. -/
def RefPic.hdr {κ : Type} : RefPic κ → Option FrameHdr
  | empty => none
  | hdrOnly h => some h
  | pic p => some p.hdr

/-- A slot of `c->refs` and `c->cdf`, src/internal.h:168-175: the picture, the frame that the CDFs and
the segmentation map come from, and the frame that the motion vectors come from. -/
structure RefSlot (κ : Type) where
  p : RefPic κ := .empty
  aux : Option (Except Err κ) := none
  mvs : Option (Except Err κ) := none

/-- `struct Dav1dTileGroup`, src/internal.h:72-75; `props` are the properties of its packet. -/
structure TileGroup where
  first : Nat
  last : Nat
  data : List UInt8
  props : Props
  deriving DecidableEq, Repr

/-- One frame context as far as the caller sees it, for `n_fc > 1`: `frame_thread.out_delayed[i]`,
`fc[i].task_thread.retval` and `fc[i].task_thread.error`. -/
structure Slot (κ : Type) where
  pic : Option (Pic κ) := none
  retval : Option Err := none
  error : Bool := false

/-- The settings of `Dav1dSettings` used here. `decodeFrameType` is `enum Dav1dDecodeFrameType`: 0 all,
1 reference, 2 intra, 3 key; include/dav1d/dav1d.h:71-76. -/
structure Settings where
  strict : Bool := false
  operatingPoint : Nat := 0
  allLayers : Bool := true
  frameSizeLimit : Nat := 0
  decodeFrameType : Nat := 0
  outputInvisible : Bool := false
  applyGrain : Bool := false
  nFc : Nat := 1
  deriving DecidableEq, Repr

/-- A packet (`Dav1dData`): what is left of its bytes, and its properties. -/
structure Packet where
  data : List UInt8
  props : Props
  deriving DecidableEq, Repr

/-- What decoding a frame depends on. -/
structure FrameIn (κ : Type) where
  seq : SeqHdr
  hdr : FrameHdr
  tiles : List TileGroup
  refs : Nat → RefSlot κ

/-- `Dav1dContext`, src/internal.h:93-202, as far as it is used by the functions modelled. -/
structure Dec (κ : Type) where
  opIdc : Nat := 0
  maxSpatialId : Nat := 0
  seq : Option SeqHdr := none
  /-- `c->frame_hdr` -/
  frameHdr : Option FrameHdrResult := none
  refs : Nat → RefSlot κ := fun _ => {}
  /-- `c->tile[0..n_tile_data)` -/
  tiles : List TileGroup := []
  nTiles : Nat := 0
  frameFlags : PicFlags := {}
  /-- `c->event_flags`: new sequence, new operating parameters -/
  eventFlags : Bool × Bool := (false, false)
  /-- `c->content_light`, `c->mastering_display`, `c->itut_t35` -/
  info : PicInfo := {}
  errProps : Option Props := none
  cachedError : Option Err := none
  out : Option (Pic κ) := none
  cache : Option (Pic κ) := none
  /-- `c->fc[]` and `frame_thread.out_delayed[]` -/
  ring : Nat → Slot κ := fun _ => {}
  /-- `frame_thread.next` -/
  next : Nat := 0
  input : Option Packet := none
  drain : Bool := false
  /-- number of calls of dav1d_submit_frame so far (not in the C code; lets `Env` answer differently) -/
  submitted : Nat := 0
  /-- the frames a picture was allocated for and that were given to the decoding stage, in order (not in the C
  code; only written) -/
  decoded : List (FrameIn κ) := []

/-- Where an allocation inside dav1d_submit_frame fails: not at all; before the tiles are taken over
(src/decode.c:3500-3516); the picture (3523); the unscaled picture (3527); motion vectors or segmentation map
(3574-3660). -/
inductive Oom where
  | no | early | pic | copy | late
  deriving DecidableEq

/-- The parameters of the model: the outcome of decoding a frame, failing allocations (as a function of the
number of the frame), and film grain synthesis. -/
structure Env (κ : Type) where
  dec : FrameIn κ → Except Err κ
  oom : Nat → Oom
  grain : FilmGrainData → κ → Except Err κ

variable {κ : Type}

/-! ## Output and event flags -/

/-- `c->event_flags |= dav1d_picture_get_event_flags(p)`, src/picture.c:331-339. -/
def addFlags (e : Bool × Bool) (f : PicFlags) : Bool × Bool := (e.1 || f.newSeq, e.2 || f.newOp)

/-- Move a picture into `c->out`; a picture already there violates the assertion of src/picture.c:259. -/
def setOut (c : Dec κ) (p : Pic κ) : Option (Dec κ) :=
  match c.out with
  | some _ => none
  | none => some { c with out := some p }

/-- `frame_thread.next` advanced cyclically, src/decode.c:3337-3339. -/
def ringNext (nFc next : Nat) : Nat := if next + 1 = nFc then 0 else next + 1

/-- Write slot `i`. -/
def setSlot (c : Dec κ) (i : Nat) (s : Slot κ) : Dec κ := { c with ring := fun j => if j = i then s else c.ring j }

/-- Whether a delayed picture is handed out, src/decode.c:3366-3371. -/
def Pic.shown (s : Settings) (p : Pic κ) : Bool := (p.visible || s.outputInvisible) && p.content.isOk

/-- A delayed picture is moved to `c->out` if it is to be shown, src/decode.c:3366-3371. -/
def showDelayed (s : Settings) (c : Dec κ) (p : Pic κ) : Option (Dec κ) :=
  if p.shown s then setOut { c with eventFlags := addFlags c.eventFlags p.flags } p else some c

/-- The frame context in turn is emptied: src/decode.c:3334-3373 and (identical) src/obu.c:1609-1646. The wait
until its frame is finished is implicit: `retval` and `content` are the final ones. `frame_thread.next` is
advanced. -/
def ringPop (s : Settings) (c : Dec κ) : Option (Dec κ) :=
  let i := c.next
  let sl := c.ring i
  let c := { c with next := ringNext s.nFc i }
  match sl.retval with
  | some e =>
    some (setSlot { c with cachedError := some e, errProps := sl.pic.map (·.props) } i
      { sl with retval := none, pic := none })
  | none =>
    match sl.pic with
    | none => some c
    | some p => showDelayed s (setSlot c i { sl with pic := none }) p

/-! ## dav1d_submit_frame -/

/-- One reference is unusable, src/decode.c:3457-3463. -/
def refUnusable (q : SeqHdr) (h : FrameHdr) (r : RefPic κ) : Bool :=
  match r with
  | .pic p =>
    h.refs.size.width0 * 2 < p.hdr.refs.size.width1 || h.refs.size.height * 2 < p.hdr.refs.size.height ||
    p.hdr.refs.size.width1 * 16 < h.refs.size.width0 || p.hdr.refs.size.height * 16 < h.refs.size.height ||
    q.color.layout != p.seq.color.layout || q.color.hbd != p.seq.color.hbd
  | _ => true

/-- The check of all references, src/decode.c:3447-3469 (the one of the primary reference is contained). -/
def refsUnusable (q : SeqHdr) (h : FrameHdr) (refs : Nat → RefSlot κ) : Bool :=
  isInterOrSwitch h.base.frameType && h.refs.refidx.any (fun r => refUnusable q h (refs r).p)

/-- Reference slots selected by `refresh_frame_flags`. -/
def refreshed (flags i : Nat) : Bool := decide (i < 8) && flags.testBit i

/-- Update of the reference slots, src/decode.c:3670-3697. The motion vectors of a frame with intra block
copy are not kept. -/
def refreshRefs (h : FrameHdr) (p : Pic κ) (refs : Nat → RefSlot κ) : Nat → RefSlot κ := fun i =>
  if refreshed h.refs.refreshFrameFlags i then
    { p := .pic p, aux := some p.content, mvs := if h.refs.allowIntrabc then none else some p.content }
  else refs i

/-- The reference slots are emptied if decoding fails, src/decode.c:3702-3710. -/
def dropRefs (h : FrameHdr) (refs : Nat → RefSlot κ) : Nat → RefSlot κ := fun i =>
  if refreshed h.refs.refreshFrameFlags i then {} else refs i

/-- The error exit of dav1d_submit_frame, src/decode.c:3719-3747; `i` is the frame context. -/
def submitError (s : Settings) (c : Dec κ) (i : Nat) (props : Props) (e : Err) : Dec κ × Option Err :=
  let c := { c with errProps := some props }
  if s.nFc = 1 then ({ c with out := none }, some e)
  else (setSlot c i { c.ring i with pic := none, error := true }, some e)

/-- The flags kept in `c->frame_flags` after a picture was allocated, src/picture.c:204-210. -/
def keptFlags (s : Settings) (c : Dec κ) (h : FrameHdr) : PicFlags :=
  if (h.base.showFrame || s.outputInvisible) && c.maxSpatialId == h.spatialId then {}
  else { c.frameFlags with newTu := false }

/-- The picture allocated for a frame, src/picture.c:192-235; `first` are the properties of the packet
with the first tile group. -/
def newPic (c : Dec κ) (q : SeqHdr) (h : FrameHdr) (first : Props) (content : Except Err κ) : Pic κ :=
  { seq := q, hdr := h, content, visible := h.base.showFrame, showable := h.base.showableFrame,
    flags := c.frameFlags, info := if h.base.showFrame then c.info else {}, props := first }

/-- The context after the picture was allocated, src/picture.c:204-228. -/
def afterAlloc (s : Settings) (c : Dec κ) (h : FrameHdr) : Dec κ :=
  { c with frameFlags := keptFlags s c h
           info := if h.base.showFrame then { c.info with t35 := [] } else c.info }

/-- Last part of dav1d_submit_frame for one frame context, src/decode.c:3544-3549 and 3670-3712. -/
def submitSync (s : Settings) (c : Dec κ) (oom : Oom) (h : FrameHdr) (p : Pic κ) (props : Props) :
    Option (Dec κ × Option Err) :=
  match (if h.base.showFrame || s.outputInvisible then
      setOut { c with eventFlags := addFlags c.eventFlags p.flags } p else some c) with
  | none => none
  | some c =>
    if oom = .late then some (submitError s c 0 props .ENOMEM)
    else match p.content with
      | .error e => some (submitError s { c with refs := dropRefs h c.refs } 0 props e)
      | .ok _ => some ({ c with refs := refreshRefs h p c.refs }, none)

/-- Last part of dav1d_submit_frame for several frame contexts, src/decode.c:3550-3552, 3565, 3670-3697
and 3713-3716: the frame is queued in context `i`; a decoding error will show up there. -/
def submitAsync (s : Settings) (c : Dec κ) (oom : Oom) (i : Nat) (h : FrameHdr) (p : Pic κ) (props : Props) :
    Dec κ × Option Err :=
  if oom = .late then submitError s c i props .ENOMEM
  else
    (setSlot { c with refs := refreshRefs h p c.refs } i
      { pic := some p
        retval := match p.content with | .error e => some e | .ok _ => none
        error := !p.content.isOk }, none)

/-- `dav1d_submit_frame`, src/decode.c:3329-3748. -/
def submitFrame (s : Settings) (env : Env κ) (c : Dec κ) (q : SeqHdr) (h : FrameHdr) (props : Props) :
    Option (Dec κ × Option Err) :=
  let i := c.next
  let oom := env.oom c.submitted
  match (if s.nFc = 1 then some c else ringPop s c) with
  | none => none
  | some c =>
    let c := { c with frameHdr := none, submitted := c.submitted + 1 }
    if refsUnusable q h c.refs then some (submitError s c i props .EINVAL)
    else if oom = .early then some (submitError s c i props .ENOMEM)
    else
      let tiles := c.tiles
      let c := { c with tiles := [] }
      if oom = .pic then some (submitError s c i props .ENOMEM)
      else
        let fi : FrameIn κ := { seq := q, hdr := h, tiles, refs := c.refs }
        let p := newPic c q h ((tiles.head?.map (·.props)).getD 0) (env.dec fi)
        let c := { afterAlloc s c h with decoded := c.decoded ++ [fi] }
        if oom = .copy then some (submitError s c i props .ENOMEM)
        else if s.nFc = 1 then submitSync s c oom h p props
        else some (submitAsync s c oom i h p props)

/-! ## The OBU payloads -/

/-- Result of the switch of dav1d_parse_obus: the context and an error; `none` as a whole is an access
outside the buffer. -/
abbrev CaseRes (κ : Type) := Option (Dec κ × Option Err)

/-- `parse_tile_hdr`, src/obu.c:1198-1211: first and last tile. -/
def parseTileHdr (t : Tiling) : Prog (Nat × Nat) := do
  let n := t.cols * t.rows
  let pos ← if n > 1 then Prog.getFlag else pure false
  if pos then do
    let first ← Prog.getBits (t.log2Cols + t.log2Rows)
    let last ← Prog.getBits (t.log2Cols + t.log2Rows)
    pure (first, last)
  else pure (0, n - 1)

/-- Tile group, src/obu.c:1368-1398, for the frame header of a new frame. -/
def tileGroup (c : Dec κ) (h : FrameHdr) (props : Props) : Prog (CaseRes κ) := do
  let (first, last) ← parseTileHdr h.tiling
  Prog.byteAlign
  let e ← Prog.getErr
  if e then pure (some (c, some .EINVAL))
  else do
    let data ← Prog.getRest
    if first > last ∨ first ≠ c.nTiles then
      pure (some ({ c with tiles := [], nTiles := 0 }, some .EINVAL))
    else
      pure (some ({ c with tiles := c.tiles ++ [{ first, last, data, props }],
                           nTiles := c.nTiles + (1 + last - first) }, none))

/-- Tile group OBU, src/obu.c:1366-1399. A left-over show_existing_frame header has zero tiles: first 0,
last -1, which is rejected. -/
def tileGroupCase (c : Dec κ) (props : Props) : Prog (CaseRes κ) :=
  match c.frameHdr with
  | none => pure (some (c, some .EINVAL))
  | some (.frame h) => tileGroup c h props
  | some (.showExisting _ _ _) => pure (some ({ c with tiles := [], nTiles := 0 }, some .EINVAL))

/-- The context of the frame header parser. -/
def fhCtx (s : Settings) (c : Dec κ) (q : SeqHdr) (temporalId spatialId : Nat) : FhCtx :=
  { seq := q, refs := fun i => (c.refs i).p.hdr, temporalId, spatialId, strict := s.strict }

/-- `(int64_t)width[1] * height`, src/obu.c:1344; zero for show_existing_frame. -/
def hdrPixels : FrameHdrResult → Nat
  | .frame h => h.refs.size.width1 * h.refs.size.height
  | .showExisting _ _ _ => 0

/-- Frame and frame header OBUs after the check for a sequence header, src/obu.c:1316-1398. -/
def frameHdrBody (s : Settings) (c : Dec κ) (q : SeqHdr) (type temporalId spatialId : Nat) (props : Props) :
    Prog (CaseRes κ) := do
  let r ← OptionT.run (parseFrameHdr (fhCtx s c q temporalId spatialId))
  match r with
  | none => pure (some ({ c with frameHdr := none }, some .EINVAL))
  | some h => do
    let c := { c with frameHdr := some h, tiles := [], nTiles := 0 }
    let t ← OptionT.run (opt (type ≠ 6) (checkTrailingBits s.strict) ())
    match t with
    | none => pure (some ({ c with frameHdr := none }, some .EINVAL))
    | some () =>
      if s.frameSizeLimit ≠ 0 ∧ hdrPixels h > s.frameSizeLimit then
        pure (some ({ c with frameHdr := none }, some .ERANGE))
      else if type ≠ 6 then pure (some (c, none))
      else match h with
        | .showExisting _ _ _ => pure (some ({ c with frameHdr := none }, some .EINVAL))
        | .frame h => do
          Prog.byteAlign
          tileGroup c h props

/-- Frame and frame header OBUs, src/obu.c:1308-1398. -/
def frameHdrCase (s : Settings) (c : Dec κ) (type temporalId spatialId : Nat) (props : Props) :
    Prog (CaseRes κ) :=
  match c.seq with
  | none => pure (some (c, some .EINVAL))
  | some q => frameHdrBody s c q type temporalId spatialId props

/-- `spatial_mask ? ulog2(spatial_mask) : 0`, src/obu.c:1271-1272. -/
def maxSpatialOf (idc : Nat) : Nat := if idc / 256 = 0 then 0 else Nat.log2 (idc / 256)

/-- The sequence header without `operating_parameter_info`, src/obu.c:1283. -/
def SeqHdr.core (q : SeqHdr) : SeqHdr := { q with opInfo := [] }

/-- A sequence header becomes the active one, src/obu.c:1268-1305. -/
def activateSeq (s : Settings) (c : Dec κ) (q : SeqHdr) : Dec κ :=
  let idx := if s.operatingPoint < q.ops.length then s.operatingPoint else 0
  let idc := (q.ops[idx]?.map (·.idc)).getD 0
  let c := { c with opIdc := idc, maxSpatialId := maxSpatialOf idc }
  let c := match c.seq with
    | none => { c with frameHdr := none, frameFlags := { c.frameFlags with newSeq := true } }
    | some q' =>
      if q.core ≠ q'.core then
        { c with frameHdr := none, info := { c.info with cll := none, mdcv := none },
                 refs := fun i => if i < 8 then {} else c.refs i,
                 frameFlags := { c.frameFlags with newSeq := true } }
      else if q.opInfo ≠ q'.opInfo then { c with frameFlags := { c.frameFlags with newOp := true } }
      else c
  { c with seq := some q }

/-- Sequence header OBU, src/obu.c:1257-1307. -/
def seqCase (s : Settings) (c : Dec κ) : Prog (CaseRes κ) := do
  let r ← OptionT.run (parseSeqHdr s.strict)
  match r with
  | none => pure (some (c, some .EINVAL))
  | some q => pure (some (activateSeq s c q, none))

/-- The loop `while (payload_size > 0 && !gb.ptr[payload_size - 1]) payload_size--`, src/obu.c:1492-1493, on
the bytes from `gb.ptr` on. -/
def t35Trim (d : List UInt8) : Nat := (d.reverse.dropWhile (· == 0)).length

/-- `itu_t_t35_country_code_extension_byte`, src/obu.c:1499-1502. -/
def t35Ext (cc : Nat) : Prog Nat := if cc = 0xFF then Prog.getBits 8 else pure 0

/-- ITU-T T.35 metadata, src/obu.c:1489-1546. -/
def t35Case (c : Dec κ) : Prog (CaseRes κ) := do
  let d ← Prog.getRest
  let size : Int := (t35Trim d : Int) - 1
  let cc ← Prog.getBits 8
  let size := size - 1
  let ext ← t35Ext cc
  let size := if cc = 0xFF then size - 1 else size
  let d ← Prog.getRest
  if size ≤ 0 then pure (some (c, none))
  else match d[size.toNat]? with
    | none => pure none
    | some b =>
      if b ≠ 0x80 then pure (some (c, none))
      else
        pure (some ({ c with info := { c.info with t35 := c.info.t35 ++
          [{ countryCode := cc, countryCodeExt := ext, payload := d.take size.toNat }] } }, none))

/-- Content light level, src/obu.c:1410-1438. -/
def cllCase (s : Settings) (c : Dec κ) : Prog (CaseRes κ) := do
  let a ← Prog.getBits 16
  let b ← Prog.getBits 16
  let t ← OptionT.run (checkTrailingBits s.strict)
  match t with
  | none => pure (some (c, some .EINVAL))
  | some () => pure (some ({ c with info := { c.info with cll := some ⟨a, b⟩ } }, none))

/-- Mastering display, src/obu.c:1439-1488. -/
def mdcvCase (s : Settings) (c : Dec κ) : Prog (CaseRes κ) := do
  let p0 ← Prog.getBits 16
  let q0 ← Prog.getBits 16
  let p1 ← Prog.getBits 16
  let q1 ← Prog.getBits 16
  let p2 ← Prog.getBits 16
  let q2 ← Prog.getBits 16
  let wx ← Prog.getBits 16
  let wy ← Prog.getBits 16
  let mx ← Prog.getBits 32
  let mn ← Prog.getBits 32
  let t ← OptionT.run (checkTrailingBits s.strict)
  match t with
  | none => pure (some (c, some .EINVAL))
  | some () =>
    let md : MasteringDisplay := ⟨[(p0, q0), (p1, q1), (p2, q2)], (wx, wy), mx, mn⟩
    pure (some ({ c with info := { c.info with mdcv := some md } }, none))

/-- Metadata OBU, src/obu.c:1400-1558. The types are 1 HDR_CLL, 2 HDR_MDCV, 4 ITUT_T35, src/levels.h:36-42;
others are ignored. -/
def metaCase (s : Settings) (c : Dec κ) : Prog (CaseRes κ) := do
  let type ← Prog.getUleb128
  let e ← Prog.getErr
  if e then pure (some (c, some .EINVAL))
  else if type = 1 then cllCase s c
  else if type = 2 then mdcvCase s c
  else if type = 4 then t35Case c
  else pure (some (c, none))

/-- The switch over the OBU type, src/obu.c:1256-1569. The types are 1 SEQ_HDR, 2 TD, 3 FRAME_HDR, 4 TILE_GRP,
5 METADATA, 6 FRAME, 7 REDUNDANT_FRAME_HDR; others are ignored. -/
def obuCase (s : Settings) (c : Dec κ) (type temporalId spatialId : Nat) (props : Props) : Prog (CaseRes κ) :=
  if type = 1 then seqCase s c
  else if type = 7 ∧ c.frameHdr.isSome then pure (some (c, none))
  else if type = 7 ∨ type = 6 ∨ type = 3 then frameHdrCase s c type temporalId spatialId props
  else if type = 4 then tileGroupCase c props
  else if type = 5 then metaCase s c
  else if type = 2 then pure (some ({ c with frameFlags := { c.frameFlags with newTu := true } }, none))
  else pure (some (c, none))

/-! ## After the switch, src/obu.c:1571-1731 -/

/-- Whether a frame to be shown again is skipped because of its type, src/obu.c:1574-1586. -/
def skipShown (s : Settings) (frameType : Nat) : Bool :=
  if frameType = 1 ∨ frameType = 3 then s.decodeFrameType > 1
  else if frameType = 2 then s.decodeFrameType > 2
  else false

/-- Whether a complete frame is skipped because of its type, src/obu.c:1684-1700. -/
def skipFrame (s : Settings) (h : FrameHdr) : Bool :=
  if h.base.frameType = 1 ∨ h.base.frameType = 3 then
    s.decodeFrameType > 1 || (s.decodeFrameType == 1 && h.refs.refreshFrameFlags == 0)
  else if h.base.frameType = 2 then
    s.decodeFrameType > 2 || (s.decodeFrameType == 1 && h.refs.refreshFrameFlags == 0)
  else false

/-- The label `skip`, src/obu.c:1713-1731, for a frame with header `h`. The CDFs etc. of the slots stay. -/
def skipRefs (h : FrameHdr) (refs : Nat → RefSlot κ) : Nat → RefSlot κ := fun i =>
  if refreshed h.refs.refreshFrameFlags i then { refs i with p := .hdrOnly h } else refs i

/-- All slots are refreshed from slot `r` when a key frame is shown, src/obu.c:1662-1681: the other slots
lose their motion vectors. -/
def keyRefresh (r : Nat) (p : Pic κ) (refs : Nat → RefSlot κ) : Nat → RefSlot κ := fun i =>
  if i = r then { refs i with p := .pic { p with showable := false } }
  else if i < 8 then { p := .pic { p with showable := false }, aux := (refs r).aux, mvs := none }
  else refs i

/-- A stored picture is put out, src/obu.c:1593-1661. -/
def showPic (s : Settings) (c : Dec κ) (p : Pic κ) (props : Props) : Option (Dec κ) :=
  let p' := { p with info := c.info, props := props }
  let c' := { c with info := { c.info with t35 := [] } }
  if s.nFc = 1 then setOut { c' with eventFlags := addFlags c.eventFlags p.flags } p'
  else
    match ringPop s c' with
    | none => none
    | some d => some (setSlot d c.next { d.ring c.next with pic := some { p' with visible := true } })

/-- show_existing_frame, src/obu.c:1572-1682. -/
def showExisting (s : Settings) (c : Dec κ) (idx : Nat) (props : Props) : Option (Dec κ × Option Err) :=
  match (c.refs idx).p.hdr with
  | none => some ({ c with errProps := some props }, some .EINVAL)
  | some h =>
    if skipShown s h.base.frameType then some ({ c with frameHdr := none, nTiles := 0 }, none)
    else match (c.refs idx).p with
      | .pic p =>
        if s.strict ∧ ¬ p.showable = true then some ({ c with errProps := some props }, some .EINVAL)
        else match showPic s c p props with
          | none => none
          | some c =>
            if p.hdr.base.frameType = 0 then
              some ({ c with refs := keyRefresh idx p c.refs, frameHdr := none }, none)
            else some ({ c with frameHdr := none }, none)
      | _ => some ({ c with errProps := some props }, some .EINVAL)

/-- A frame whose tile groups are complete, src/obu.c:1684-1707. -/
def frameComplete (s : Settings) (env : Env κ) (c : Dec κ) (q : SeqHdr) (h : FrameHdr) (props : Props) :
    Option (Dec κ × Option Err) :=
  if skipFrame s h then
    some ({ c with refs := skipRefs h c.refs, frameHdr := none, nTiles := 0 }, none)
  else if c.tiles = [] then some ({ c with errProps := some props }, some .EINVAL)
  else match submitFrame s env c q h props with
    | none => none
    | some (c, some e) => some (c, some e)
    | some (c, none) => if c.tiles = [] then some ({ c with frameHdr := none, nTiles := 0 }, none) else none

/-- src/obu.c:1571-1709. -/
def finishObu (s : Settings) (env : Env κ) (c : Dec κ) (props : Props) : Option (Dec κ × Option Err) :=
  match c.seq, c.frameHdr with
  | some _, some (.showExisting idx _ _) => showExisting s c idx props
  | some q, some (.frame h) =>
    if c.nTiles = h.tiling.cols * h.tiling.rows then frameComplete s env c q h props else some (c, none)
  | _, _ => some (c, none)

/-! ## The whole function -/

/-- Fields of the OBU header. -/
structure ObuHdr where
  type : Nat
  ext : Bool
  hasLen : Bool
  temporalId : Nat
  spatialId : Nat
  deriving DecidableEq, Repr

/-- The OBU header, src/obu.c:1219-1232; `none` if the forbidden bit is rejected. -/
def readObuHdr (strict : Bool) : Prog (Option ObuHdr) := do
  let forbidden ← Prog.getBit
  if strict ∧ forbidden ≠ 0 then pure none
  else do
    let type ← Prog.getBits 4
    let ext ← Prog.getFlag
    let hasLen ← Prog.getFlag
    let _ ← Prog.getBit
    if ext then do
      let t ← Prog.getBits 3
      let sp ← Prog.getBits 2
      let _ ← Prog.getBits 3
      pure (some ⟨type, ext, hasLen, t, sp⟩)
    else pure (some ⟨type, ext, hasLen, 0, 0⟩)

/-- The OBU is dropped, src/obu.c:1246-1254. -/
def dropObu (opIdc : Nat) (h : ObuHdr) : Bool :=
  h.type != 1 && h.type != 2 && h.ext && opIdc != 0 &&
    (opIdc / 2 ^ h.temporalId % 2 == 0 || opIdc / 2 ^ (h.spatialId + 8) % 2 == 0)

/-- The label `error` for an error of the switch; ERANGE is returned directly, src/obu.c:1344-1351, 1733-1737. -/
def caseError (c : Dec κ) (props : Props) (e : Err) : Dec κ × Except Err Nat :=
  (if e = .ERANGE then c else { c with errProps := some props }, .error e)

/-- After the header: the switch and what follows it, on a reader `g` confined to the OBU. -/
def obuBody (s : Settings) (env : Env κ) (c : Dec κ) (h : ObuHdr) (g : GetBits) (props : Props) :
    Option (Dec κ × Except Err Nat) :=
  match (obuCase s c h.type h.temporalId h.spatialId props).runC g with
  | none => none
  | some (none, _) => none
  | some (some (c, some e), _) => some (caseError c props e)
  | some (some (c, none), _) =>
    match finishObu s env c props with
    | none => none
    | some (c, some e) => some (c, .error e)
    | some (c, none) => some (c, .ok g.data.length)

/-- `dav1d_parse_obus`, src/obu.c:1213-1738, for a non-empty buffer: the new context and the number of bytes
consumed or an error. `none`: undefined behaviour or a failed assertion. -/
def parseObus (s : Settings) (env : Env κ) (c : Dec κ) (pkt : Packet) : Option (Dec κ × Except Err Nat) :=
  match (readObuHdr s.strict).runC (GetBits.init pkt.data) with
  | none => none
  | some (none, _) => some (caseError c pkt.props .EINVAL)
  | some (some h, g) =>
    match obuEnd h.hasLen g with
    | none => none
    | some (.error _, _) => some (caseError c pkt.props .EINVAL)
    | some (.ok oe, g) =>
      let g := { g with data := g.data.take oe }
      if g.error then some (caseError c pkt.props .EINVAL)
      else if g.bitsLeft ≠ 0 then none
      else if dropObu c.opIdc h then some (c, .ok g.data.length)
      else obuBody s env c h g pkt.props

end Dav1d
