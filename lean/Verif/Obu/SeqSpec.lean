import Verif.GetBits.CodesSpec
import Verif.Obu.SeqModel
/-!
# Sequence header syntax of the AV1 specification (5.5.1 - 5.5.4, 5.3.4)

`SeqSyntax` holds the syntax elements, `SeqSyntax.bits` is the bit string an encoder writes for them
(elements that are absent according to the syntax tables are not written), `SeqSyntax.Valid` the ranges
required by the specification, and `SeqSyntax.hdr` what a decoder reports: the elements, and the inferred
values for the absent ones. The parser is not mentioned; only the output structure `SeqHdr` is shared.
-/
namespace Dav1d

/-- decoder_model_info(), 5.5.4 -/
structure DecModelSyntax where
  bufferDelayLengthMinus1 : Nat
  numUnitsInDecodingTick : Nat
  bufferRemovalTimeLengthMinus1 : Nat
  framePresentationTimeLengthMinus1 : Nat

/-- timing_info(), 5.5.3, and the decoder model that may follow -/
structure TimingSyntax where
  numUnitsInDisplayTick : Nat
  timeScale : Nat
  /-- present iff equal_picture_interval -/
  numTicksPerPictureMinus1 : Option Nat
  /-- present iff decoder_model_info_present_flag -/
  decoderModel : Option DecModelSyntax

/-- One operating point of sequence_header_obu() -/
structure OpSyntax where
  operatingPointIdc : Nat
  seqLevelIdx : Nat
  /-- only written if `seqLevelIdx > 7` -/
  seqTier : Bool
  /-- operating_parameters_info(): decoder and encoder buffer delay, low delay flag; only written if the
  decoder model is present, `none` when decoder_model_present_for_this_op is 0 -/
  params : Option (Nat × Nat × Bool)
  /-- initial_display_delay_minus_1, only written if initial_display_delay_present_flag, `none` when
  initial_display_delay_present_for_this_op is 0 -/
  displayDelayMinus1 : Option Nat

/-- color_config(), 5.5.2 -/
structure ColorSyntax where
  highBitdepth : Bool
  twelveBit : Bool
  monoChrome : Bool
  /-- colour_primaries, transfer_characteristics, matrix_coefficients if color_description_present_flag -/
  description : Option (Nat × Nat × Nat)
  colorRange : Bool
  subsamplingX : Bool
  subsamplingY : Bool
  chromaSamplePosition : Nat
  separateUvDeltaQ : Bool

/-- sequence_header_obu(), 5.5.1 -/
structure SeqSyntax where
  seqProfile : Nat
  stillPicture : Bool
  reducedStillPictureHeader : Bool
  /-- seq_level_idx[0] of a reduced still picture header -/
  reducedLevelIdx : Nat
  timing : Option TimingSyntax
  initialDisplayDelayPresent : Bool
  ops : List OpSyntax
  frameWidthBitsMinus1 : Nat
  frameHeightBitsMinus1 : Nat
  maxFrameWidthMinus1 : Nat
  maxFrameHeightMinus1 : Nat
  /-- delta_frame_id_length_minus_2 and additional_frame_id_length_minus_1 -/
  frameIds : Option (Nat × Nat)
  use128 : Bool
  filterIntra : Bool
  intraEdge : Bool
  interIntra : Bool
  masked : Bool
  warped : Bool
  dualFilter : Bool
  /-- enable_jnt_comp, enable_ref_frame_mvs and order_hint_bits_minus_1 if enable_order_hint -/
  orderHint : Option (Bool × Bool × Nat)
  /-- `none` when chosen per frame -/
  forceScreenContent : Option Bool
  /-- `none` when chosen per frame -/
  forceIntegerMv : Option Bool
  superres : Bool
  cdef : Bool
  restoration : Bool
  color : ColorSyntax
  filmGrainParamsPresent : Bool

/-- A presence flag followed by the bits of the element if it is present. -/
def optBits {α : Type} (g : α → List Bool) : Option α → List Bool
  | none => [false]
  | some x => [true] ++ g x

/-- decoder_model_info() bits -/
def DecModelSyntax.bits (d : DecModelSyntax) : List Bool :=
  natBits 5 d.bufferDelayLengthMinus1 ++ natBits 32 d.numUnitsInDecodingTick ++
  natBits 5 d.bufferRemovalTimeLengthMinus1 ++ natBits 5 d.framePresentationTimeLengthMinus1

/-- timing_info() bits followed by the decoder model flag and info -/
def TimingSyntax.bits (t : TimingSyntax) : List Bool :=
  natBits 32 t.numUnitsInDisplayTick ++ natBits 32 t.timeScale ++
  optBits uvlcBits t.numTicksPerPictureMinus1 ++ optBits DecModelSyntax.bits t.decoderModel

/-- operating_parameters_info() of an operating point, written if there is a decoder model -/
def OpSyntax.paramBits (dec : Option DecModelSyntax) (o : OpSyntax) : List Bool :=
  match dec with
  | none => []
  | some d =>
    optBits (fun (x, y, l) => natBits (d.bufferDelayLengthMinus1 + 1) x ++
      natBits (d.bufferDelayLengthMinus1 + 1) y ++ [l]) o.params

/-- Operating point bits; `dec` is the decoder model of the sequence, `disp` the flag
initial_display_delay_present_flag. -/
def OpSyntax.bits (dec : Option DecModelSyntax) (disp : Bool) (o : OpSyntax) : List Bool :=
  natBits 12 o.operatingPointIdc ++ natBits 5 o.seqLevelIdx ++
  (if o.seqLevelIdx > 7 then [o.seqTier] else []) ++
  o.paramBits dec ++
  (if disp then optBits (natBits 4) o.displayDelayMinus1 else [])

/-- The colour description, 2 ("unspecified") when absent. -/
def ColorSyntax.desc (c : ColorSyntax) : Nat × Nat × Nat := c.description.getD (2, 2, 2)

/-- BitDepth of 5.5.2 -/
def ColorSyntax.bitDepth (profile : Nat) (c : ColorSyntax) : Nat :=
  if profile = 2 ∧ c.highBitdepth then (if c.twelveBit then 12 else 10)
  else if c.highBitdepth then 10 else 8

/-- The sRGB case of 5.5.2 (CP_BT_709, TC_SRGB, MC_IDENTITY) -/
def ColorSyntax.isRgb (c : ColorSyntax) : Bool := c.desc == (1, 13, 0)

/-- mono_chrome is written unless the profile is 1 -/
def ColorSyntax.mono (profile : Nat) (c : ColorSyntax) : Bool := decide (profile ≠ 1) && c.monoChrome

/-- (subsampling_x, subsampling_y) as inferred or written -/
def ColorSyntax.subsampling (profile : Nat) (c : ColorSyntax) : Bool × Bool :=
  if c.mono profile then (true, true)
  else if c.isRgb then (false, false)
  else if profile = 0 then (true, true)
  else if profile = 1 then (false, false)
  else if c.bitDepth profile = 12 then (c.subsamplingX, c.subsamplingX && c.subsamplingY)
  else (true, false)

/-- color_config() bits -/
def ColorSyntax.bits (profile : Nat) (c : ColorSyntax) : List Bool :=
  [c.highBitdepth] ++
  (if profile = 2 ∧ c.highBitdepth then [c.twelveBit] else []) ++
  (if profile ≠ 1 then [c.monoChrome] else []) ++
  optBits (fun (p, t, m) => natBits 8 p ++ natBits 8 t ++ natBits 8 m) c.description ++
  (if c.mono profile then [c.colorRange]
   else if c.isRgb then [c.separateUvDeltaQ]
   else [c.colorRange] ++
    (if profile = 2 ∧ c.bitDepth profile = 12 then
      [c.subsamplingX] ++ (if c.subsamplingX then [c.subsamplingY] else []) else []) ++
    (if c.subsampling profile = (true, true) then natBits 2 c.chromaSamplePosition else []) ++
    [c.separateUvDeltaQ])

/-- SELECT_SCREEN_CONTENT_TOOLS / SELECT_INTEGER_MV are 2 -/
def selectVal : Option Bool → Nat
  | none => 2
  | some b => b.toNat

/-- The bits of a "choose" flag and, if not chosen per frame, the forced value -/
def chooseBits : Option Bool → List Bool
  | none => [true]
  | some b => [false, b]

/-- The feature flags of sequence_header_obu() -/
def SeqSyntax.toolBits (s : SeqSyntax) : List Bool :=
  [s.use128, s.filterIntra, s.intraEdge] ++
  (if s.reducedStillPictureHeader then []
   else
    [s.interIntra, s.masked, s.warped, s.dualFilter] ++
    optBits (fun (j, m, _) => [j, m]) s.orderHint ++
    chooseBits s.forceScreenContent ++
    (if selectVal s.forceScreenContent > 0 then chooseBits s.forceIntegerMv else []) ++
    (s.orderHint.map (fun (_, _, n) => natBits 3 n)).getD []) ++
  [s.superres, s.cdef, s.restoration]

/-- sequence_header_obu() bits (without trailing_bits()) -/
def SeqSyntax.bits (s : SeqSyntax) : List Bool :=
  natBits 3 s.seqProfile ++ [s.stillPicture, s.reducedStillPictureHeader] ++
  (if s.reducedStillPictureHeader then natBits 5 s.reducedLevelIdx
   else
    optBits TimingSyntax.bits s.timing ++
    [s.initialDisplayDelayPresent] ++ natBits 5 (s.ops.length - 1) ++
    s.ops.flatMap (OpSyntax.bits (s.timing.bind (·.decoderModel)) s.initialDisplayDelayPresent)) ++
  natBits 4 s.frameWidthBitsMinus1 ++ natBits 4 s.frameHeightBitsMinus1 ++
  natBits (s.frameWidthBitsMinus1 + 1) s.maxFrameWidthMinus1 ++
  natBits (s.frameHeightBitsMinus1 + 1) s.maxFrameHeightMinus1 ++
  (if s.reducedStillPictureHeader then []
   else optBits (fun (d, n) => natBits 4 d ++ natBits 3 n) s.frameIds) ++
  s.toolBits ++
  s.color.bits s.seqProfile ++
  [s.filmGrainParamsPresent]

/-- What a decoder reports for the timing part. -/
def SeqSyntax.timingInfo (s : SeqSyntax) : SeqTiming :=
  if s.reducedStillPictureHeader then {}
  else match s.timing with
    | none => {}
    | some t =>
      { timingInfoPresent := true
        numUnitsInTick := t.numUnitsInDisplayTick
        timeScale := t.timeScale
        equalPictureInterval := t.numTicksPerPictureMinus1.isSome
        numTicksPerPicture := (t.numTicksPerPictureMinus1.map (· + 1)).getD 0
        decoderModelInfoPresent := t.decoderModel.isSome
        encoderDecoderBufferDelayLength := (t.decoderModel.map (·.bufferDelayLengthMinus1 + 1)).getD 0
        numUnitsInDecodingTick := (t.decoderModel.map (·.numUnitsInDecodingTick)).getD 0
        bufferRemovalDelayLength := (t.decoderModel.map (·.bufferRemovalTimeLengthMinus1 + 1)).getD 0
        framePresentationDelayLength := (t.decoderModel.map (·.framePresentationTimeLengthMinus1 + 1)).getD 0 }

/-- What a decoder reports for an operating point. The level is `X.Y` with
`seq_level_idx = 4 * (X - 2) + Y` (Annex A.3). -/
def OpSyntax.op (dec : Option DecModelSyntax) (disp : Bool) (o : OpSyntax) : SeqOp :=
  { idc := o.operatingPointIdc
    majorLevel := 2 + o.seqLevelIdx / 4
    minorLevel := o.seqLevelIdx % 4
    tier := decide (o.seqLevelIdx > 7) && o.seqTier
    decoderModelParamPresent := dec.isSome && o.params.isSome
    displayModelParamPresent := disp && o.displayDelayMinus1.isSome
    initialDisplayDelay := if disp then (o.displayDelayMinus1.map (· + 1)).getD 10 else 10 }

/-- What a decoder reports for the operating parameters. -/
def OpSyntax.info (dec : Option DecModelSyntax) (o : OpSyntax) : SeqOpInfo :=
  match dec, o.params with
  | some _, some (x, y, l) => ⟨x, y, l⟩
  | _, _ => ⟨0, 0, false⟩

/-- What a decoder reports for the tools. -/
def SeqSyntax.toolInfo (s : SeqSyntax) : SeqTools :=
  if s.reducedStillPictureHeader then
    { sb128 := s.use128, filterIntra := s.filterIntra, intraEdgeFilter := s.intraEdge,
      superRes := s.superres, cdef := s.cdef, restoration := s.restoration }
  else
    { sb128 := s.use128, filterIntra := s.filterIntra, intraEdgeFilter := s.intraEdge
      interIntra := s.interIntra, maskedCompound := s.masked, warpedMotion := s.warped
      dualFilter := s.dualFilter, orderHint := s.orderHint.isSome
      jntComp := (s.orderHint.map (·.1)).getD false
      refFrameMvs := (s.orderHint.map (·.2.1)).getD false
      screenContentTools := selectVal s.forceScreenContent
      forceIntegerMv := if selectVal s.forceScreenContent > 0 then selectVal s.forceIntegerMv else 2
      orderHintNBits := (s.orderHint.map (·.2.2 + 1)).getD 0
      superRes := s.superres, cdef := s.cdef, restoration := s.restoration }

/-- What a decoder reports for the colour description. -/
def ColorSyntax.info (profile : Nat) (c : ColorSyntax) : SeqColor :=
  { hbd := (c.bitDepth profile - 8) / 2
    monochrome := c.mono profile
    colorDescriptionPresent := c.description.isSome
    pri := c.desc.1, trc := c.desc.2.1, mtrx := c.desc.2.2
    colorRange := if !c.mono profile && c.isRgb then true else c.colorRange
    layout := if c.mono profile then .I400
              else match c.subsampling profile with
                | (true, true) => .I420
                | (true, false) => .I422
                | (false, _) => .I444
    ssHor := (c.subsampling profile).1, ssVer := (c.subsampling profile).2
    chr := if !c.mono profile && decide (c.subsampling profile = (true, true)) then c.chromaSamplePosition else 0
    separateUvDeltaQ := !c.mono profile && c.separateUvDeltaQ }

/-- What a decoder reports for a sequence header, with `lvl` the major level reported for a
reduced still picture header. -/
def SeqSyntax.hdrWith (lvl : Nat) (s : SeqSyntax) : SeqHdr :=
  let dec := s.timing.bind (·.decoderModel)
  { profile := s.seqProfile
    stillPicture := s.stillPicture
    reducedStillPictureHeader := s.reducedStillPictureHeader
    timing := s.timingInfo
    displayModelInfoPresent := !s.reducedStillPictureHeader && s.initialDisplayDelayPresent
    ops := if s.reducedStillPictureHeader then [⟨0, lvl, s.reducedLevelIdx % 4, false, false, false, 10⟩]
           else s.ops.map (OpSyntax.op dec s.initialDisplayDelayPresent)
    opInfo := if s.reducedStillPictureHeader then [⟨0, 0, false⟩] else s.ops.map (OpSyntax.info dec)
    widthNBits := s.frameWidthBitsMinus1 + 1
    heightNBits := s.frameHeightBitsMinus1 + 1
    maxWidth := s.maxFrameWidthMinus1 + 1
    maxHeight := s.maxFrameHeightMinus1 + 1
    frameIdNumbersPresent := !s.reducedStillPictureHeader && s.frameIds.isSome
    deltaFrameIdNBits := if s.reducedStillPictureHeader then 0 else (s.frameIds.map (·.1 + 2)).getD 0
    frameIdNBits := if s.reducedStillPictureHeader then 0 else (s.frameIds.map (fun p => p.1 + p.2 + 3)).getD 0
    tools := s.toolInfo
    color := s.color.info s.seqProfile
    filmGrainPresent := s.filmGrainParamsPresent }

/-- What a decoder reports according to the specification: the level of a reduced still picture header
is coded like any other level. -/
def SeqSyntax.hdr (s : SeqSyntax) : SeqHdr := s.hdrWith (2 + s.reducedLevelIdx / 4)

/-- Ranges of the syntax elements, and the constraints of section 6.4. -/
structure SeqSyntax.Valid (s : SeqSyntax) : Prop where
  profile : s.seqProfile ≤ 2
  still : s.reducedStillPictureHeader = true → s.stillPicture = true
  level : s.reducedLevelIdx < 32
  timing : ∀ t, s.timing = some t → t.numUnitsInDisplayTick < 2 ^ 32 ∧ t.timeScale < 2 ^ 32 ∧
    (∀ n, t.numTicksPerPictureMinus1 = some n → n < 2 ^ 32 - 1) ∧
    (∀ d, t.decoderModel = some d → d.bufferDelayLengthMinus1 < 32 ∧ d.numUnitsInDecodingTick < 2 ^ 32 ∧
      d.bufferRemovalTimeLengthMinus1 < 32 ∧ d.framePresentationTimeLengthMinus1 < 32)
  opCount : 1 ≤ s.ops.length ∧ s.ops.length ≤ 32
  ops : ∀ o ∈ s.ops, o.operatingPointIdc < 2 ^ 12 ∧ o.seqLevelIdx < 32 ∧
    -- a non-zero operating point has at least one temporal and one spatial layer
    (o.operatingPointIdc = 0 ∨ (o.operatingPointIdc % 256 ≠ 0 ∧ o.operatingPointIdc / 256 ≠ 0)) ∧
    (∀ d x y l, s.timing.bind (·.decoderModel) = some d → o.params = some (x, y, l) →
      x < 2 ^ (d.bufferDelayLengthMinus1 + 1) ∧ y < 2 ^ (d.bufferDelayLengthMinus1 + 1)) ∧
    (∀ n, o.displayDelayMinus1 = some n → n < 16)
  width : s.frameWidthBitsMinus1 < 16 ∧ s.maxFrameWidthMinus1 < 2 ^ (s.frameWidthBitsMinus1 + 1)
  height : s.frameHeightBitsMinus1 < 16 ∧ s.maxFrameHeightMinus1 < 2 ^ (s.frameHeightBitsMinus1 + 1)
  frameIds : ∀ d n, s.frameIds = some (d, n) → d < 16 ∧ n < 8
  orderHint : ∀ j m n, s.orderHint = some (j, m, n) → n < 8
  desc : ∀ p t m, s.color.description = some (p, t, m) → p < 256 ∧ t < 256 ∧ m < 256
  chroma : s.color.chromaSamplePosition < 4
  /-- 4:4:4 sRGB needs profile 1, or 12 bits in profile 2 -/
  rgb : s.color.isRgb = true → s.color.mono s.seqProfile = false →
    s.seqProfile = 1 ∨ (s.seqProfile = 2 ∧ s.color.bitDepth s.seqProfile = 12)

/-- The additional constraints a strict decoder enforces (6.4.2, 6.4.3, 6.4.4). -/
structure SeqSyntax.StrictlyValid (s : SeqSyntax) : Prop where
  ticks : ∀ t, s.timing = some t → t.numUnitsInDisplayTick ≠ 0 ∧ t.timeScale ≠ 0 ∧
    ∀ d, t.decoderModel = some d → d.numUnitsInDecodingTick ≠ 0
  identity : s.color.desc.2.2 = 0 → (s.color.info s.seqProfile).layout = .I444

end Dav1d
