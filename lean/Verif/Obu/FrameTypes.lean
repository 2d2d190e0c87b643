import Verif.Obu.SeqModel
/-!
# Frame header types, include/dav1d/headers.h:296-434

Fixed-size C arrays of which only a prefix is meaningful are lists of that prefix.
-/
namespace Dav1d

/-- `Dav1dSegmentationData`, include/dav1d/headers.h:296-302. -/
structure SegData where
  deltaQ : Int := 0
  deltaLfYV : Int := 0
  deltaLfYH : Int := 0
  deltaLfU : Int := 0
  deltaLfV : Int := 0
  ref : Int := -1
  skip : Bool := false
  globalmv : Bool := false
  deriving DecidableEq, Repr

/-- `Dav1dSegmentationDataSet`, include/dav1d/headers.h:304-308. -/
structure SegDataSet where
  d : List SegData
  preskip : Bool := false
  lastActiveSegid : Int := 0
  deriving DecidableEq, Repr

/-- `Dav1dLoopfilterModeRefDeltas`, include/dav1d/headers.h:310-313. -/
structure LfDeltas where
  modeDelta : List Int
  refDelta : List Int
  deriving DecidableEq, Repr

/-- `Dav1dFilmGrainData`, include/dav1d/headers.h:315-333. The default value is the zeroed structure. -/
structure FilmGrainData where
  seed : Nat := 0
  yPoints : List (Nat × Nat) := []
  chromaScalingFromLuma : Bool := false
  uvPoints0 : List (Nat × Nat) := []
  uvPoints1 : List (Nat × Nat) := []
  scalingShift : Nat := 0
  arCoeffLag : Nat := 0
  arCoeffsY : List Int := []
  arCoeffsUv0 : List Int := []
  arCoeffsUv1 : List Int := []
  arCoeffShift : Nat := 0
  grainScaleShift : Nat := 0
  uvMult0 : Int × Int × Int := (0, 0, 0)
  uvMult1 : Int × Int × Int := (0, 0, 0)
  overlapFlag : Bool := false
  clipToRestrictedRange : Bool := false
  deriving DecidableEq, Repr

/-- `Dav1dWarpedMotionParams`, include/dav1d/headers.h:97-106 (type and matrix). The type is
`DAV1D_WM_TYPE_*`: 0 identity, 1 translation, 2 rotzoom, 3 affine. -/
structure WmParams where
  type : Nat
  m0 : Int
  m1 : Int
  m2 : Int
  m3 : Int
  m4 : Int
  m5 : Int
  deriving DecidableEq, Repr

/-- Frame size fields of `Dav1dFrameHeader`, include/dav1d/headers.h:341, 363-368. `width0` is the coded
width, `width1` the upscaled width. -/
structure FrameSize where
  width0 : Nat
  width1 : Nat
  height : Nat
  renderWidth : Nat
  renderHeight : Nat
  superRes : Bool
  denom : Nat
  haveRenderSize : Bool := false
  deriving DecidableEq, Repr

/-- Tiling fields, include/dav1d/headers.h:377-385. -/
structure Tiling where
  uniform : Bool
  nBytes : Nat
  minLog2Cols : Nat
  maxLog2Cols : Nat
  log2Cols : Nat
  cols : Nat
  minLog2Rows : Nat
  maxLog2Rows : Nat
  log2Rows : Nat
  rows : Nat
  /-- `col_start_sb[0..cols]` -/
  colStart : List Nat
  /-- `row_start_sb[0..rows]` -/
  rowStart : List Nat
  update : Nat
  deriving DecidableEq, Repr

/-- Quantizer fields, include/dav1d/headers.h:386-391. -/
structure Quant where
  yac : Nat
  ydcDelta : Int
  udcDelta : Int := 0
  uacDelta : Int := 0
  vdcDelta : Int := 0
  vacDelta : Int := 0
  qm : Bool := false
  qmY : Nat := 0
  qmU : Nat := 0
  qmV : Nat := 0
  deriving DecidableEq, Repr

/-- Segmentation fields, include/dav1d/headers.h:392-396. -/
structure Segmentation where
  enabled : Bool
  updateMap : Bool := false
  temporal : Bool := false
  updateData : Bool := false
  data : SegDataSet
  deriving DecidableEq, Repr

/-- Delta q/lf fields, include/dav1d/headers.h:397-407. -/
structure Delta where
  qPresent : Bool
  qResLog2 : Nat
  lfPresent : Bool
  lfResLog2 : Nat
  lfMulti : Bool
  deriving DecidableEq, Repr

/-- Loop filter fields, include/dav1d/headers.h:409-416. -/
structure LoopFilter where
  levelY0 : Nat
  levelY1 : Nat
  levelU : Nat
  levelV : Nat
  deltaEnabled : Bool
  deltaUpdate : Bool
  deltas : LfDeltas
  sharpness : Nat
  deriving DecidableEq, Repr

/-- CDEF fields, include/dav1d/headers.h:417-422. -/
structure Cdef where
  damping : Nat
  nBits : Nat
  yStrength : List Nat
  uvStrength : List Nat
  deriving DecidableEq, Repr

/-- Loop restoration fields, include/dav1d/headers.h:423-426. -/
structure Restoration where
  type0 : Nat
  type1 : Nat
  type2 : Nat
  unitSize0 : Nat
  unitSize1 : Nat
  deriving DecidableEq, Repr

/-- The part of `Dav1dFrameHeader` read first, include/dav1d/headers.h:340-361. `frameType` is
`enum Dav1dFrameType`: 0 key, 1 inter, 2 intra, 3 switch. -/
structure FhBase where
  frameType : Nat
  showFrame : Bool
  showableFrame : Bool
  framePresentationDelay : Nat
  errorResilient : Bool
  disableCdfUpdate : Bool
  allowScreenContentTools : Bool
  forceIntegerMv : Bool
  frameId : Nat
  frameSizeOverride : Bool
  frameOffset : Nat
  primaryRefFrame : Nat
  bufferRemovalTimePresent : Bool
  bufferRemovalTimes : List Nat
  deriving DecidableEq, Repr

/-- Frame type dependent part, include/dav1d/headers.h:362-375. `refidx` is empty for key and intra
frames. -/
structure FhRefs where
  refreshFrameFlags : Nat
  size : FrameSize
  allowIntrabc : Bool
  shortSignaling : Bool
  refidx : List Nat
  hp : Bool
  subpelFilterMode : Nat
  switchableMotionMode : Bool
  useRefFrameMvs : Bool
  deriving DecidableEq, Repr

/-- `Dav1dFrameHeader` of a new frame, include/dav1d/headers.h:335-434. -/
structure FrameHdr where
  base : FhBase
  refs : FhRefs
  refreshContext : Bool
  tiling : Tiling
  quant : Quant
  seg : Segmentation
  /-- `segmentation.qidx[]` and `segmentation.lossless[]` -/
  qidx : List Nat
  lossless : List Bool
  allLossless : Bool
  delta : Delta
  lf : LoopFilter
  cdef : Cdef
  lr : Restoration
  /-- 0: 4x4 only, 1: largest, 2: switchable -/
  txfmMode : Nat
  switchableCompRefs : Bool
  skipModeAllowed : Bool
  skipModeEnabled : Bool
  /-- `none` when not written -/
  skipModeRefs : Option (Nat × Nat)
  warpMotion : Bool
  reducedTxtpSet : Bool
  gmv : List WmParams
  filmGrainPresent : Bool
  filmGrainUpdate : Bool
  filmGrain : FilmGrainData
  temporalId : Nat
  spatialId : Nat
  deriving DecidableEq, Repr

end Dav1d
