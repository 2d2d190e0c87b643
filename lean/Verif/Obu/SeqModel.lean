import Verif.GetBits.Hoare
/-!
# Model of the sequence header parser, src/obu.c:48-300

C flags (`uint8_t` holding 0/1) are `Bool`, numbers are `Nat`. The two arrays of 32 operating points are
lists of length `num_operating_points` (the C arrays are zero beyond that length because of the `memset`
on line 82).
-/
namespace Dav1d
open HProg

/-- `struct Dav1dSequenceHeaderOperatingPoint`, include/dav1d/headers.h:236-243. -/
structure SeqOp where
  idc : Nat
  majorLevel : Nat
  minorLevel : Nat
  tier : Bool
  decoderModelParamPresent : Bool
  displayModelParamPresent : Bool
  initialDisplayDelay : Nat
  deriving DecidableEq, Repr

/-- `struct Dav1dSequenceHeaderOperatingParameterInfo`, include/dav1d/headers.h:289-293. -/
structure SeqOpInfo where
  decoderBufferDelay : Nat
  encoderBufferDelay : Nat
  lowDelayMode : Bool
  deriving DecidableEq, Repr

/-- Timing and decoder model part of `Dav1dSequenceHeader`, include/dav1d/headers.h:247-256. -/
structure SeqTiming where
  timingInfoPresent : Bool := false
  numUnitsInTick : Nat := 0
  timeScale : Nat := 0
  equalPictureInterval : Bool := false
  numTicksPerPicture : Nat := 0
  decoderModelInfoPresent : Bool := false
  encoderDecoderBufferDelayLength : Nat := 0
  numUnitsInDecodingTick : Nat := 0
  bufferRemovalDelayLength : Nat := 0
  framePresentationDelayLength : Nat := 0
  deriving DecidableEq, Repr

/-- Tool flags part of `Dav1dSequenceHeader`, include/dav1d/headers.h:262-277. -/
structure SeqTools where
  sb128 : Bool
  filterIntra : Bool
  intraEdgeFilter : Bool
  interIntra : Bool := false
  maskedCompound : Bool := false
  warpedMotion : Bool := false
  dualFilter : Bool := false
  orderHint : Bool := false
  jntComp : Bool := false
  refFrameMvs : Bool := false
  screenContentTools : Nat := 2
  forceIntegerMv : Nat := 2
  orderHintNBits : Nat := 0
  superRes : Bool
  cdef : Bool
  restoration : Bool
  deriving DecidableEq, Repr

/-- `enum Dav1dPixelLayout`, include/dav1d/headers.h:108-113. -/
inductive Layout where
  | I400 | I420 | I422 | I444
  deriving DecidableEq, Repr

/-- Colour part of `Dav1dSequenceHeader`, include/dav1d/headers.h:214-233, 278-280. -/
structure SeqColor where
  hbd : Nat
  monochrome : Bool
  colorDescriptionPresent : Bool
  pri : Nat
  trc : Nat
  mtrx : Nat
  colorRange : Bool
  layout : Layout
  ssHor : Bool
  ssVer : Bool
  chr : Nat
  separateUvDeltaQ : Bool
  deriving DecidableEq, Repr

/-- `Dav1dSequenceHeader`, include/dav1d/headers.h:203-294. -/
structure SeqHdr where
  profile : Nat
  stillPicture : Bool
  reducedStillPictureHeader : Bool
  timing : SeqTiming
  displayModelInfoPresent : Bool
  ops : List SeqOp
  opInfo : List SeqOpInfo
  widthNBits : Nat
  heightNBits : Nat
  maxWidth : Nat
  maxHeight : Nat
  frameIdNumbersPresent : Bool
  deltaFrameIdNBits : Nat
  frameIdNBits : Nat
  tools : SeqTools
  color : SeqColor
  filmGrainPresent : Bool
  deriving DecidableEq, Repr

/-- `check_trailing_bits`, src/obu.c:48-70. -/
def checkTrailingBits (strict : Bool) : HProg Unit := do
  let one ← flag
  let e ← rd Prog.getErr
  rejectIf (e = true)
  if strict then do
    let z ← rd Prog.isRestZero
    rejectIf (¬ one = true ∨ ¬ z = true)
  else pure ()

/-- Decoder model info, src/obu.c:118-126. -/
def parseDecModel (strict : Bool) (t : SeqTiming) : HProg SeqTiming := do
  let present ← flag
  if present then do
    let n ← f 5
    let u ← f 32
    rejectIf (strict ∧ u = 0)
    let b ← f 5
    let p ← f 5
    pure { t with decoderModelInfoPresent := true, encoderDecoderBufferDelayLength := n + 1,
                  numUnitsInDecodingTick := u, bufferRemovalDelayLength := b + 1,
                  framePresentationDelayLength := p + 1 }
  else pure t

/-- Timing info, src/obu.c:104-127. -/
def parseTiming (strict : Bool) : HProg SeqTiming := do
  let present ← flag
  if present then do
    let u ← f 32
    let ts ← f 32
    rejectIf (strict ∧ (u = 0 ∨ ts = 0))
    let eq ← flag
    if eq then do
      let n ← rd Prog.getVlc
      rejectIf (n = 0xFFFFFFFF)
      parseDecModel strict
        { timingInfoPresent := true, numUnitsInTick := u, timeScale := ts, equalPictureInterval := true,
          numTicksPerPicture := n + 1 }
    else
      parseDecModel strict { timingInfoPresent := true, numUnitsInTick := u, timeScale := ts }
  else pure {}

/-- Operating parameter info, src/obu.c:145-156; returns `decoder_model_param_present` and the info. -/
def parseOpInfo (t : SeqTiming) : HProg (Bool × SeqOpInfo) :=
  if t.decoderModelInfoPresent then do
    let present ← flag
    if present then do
      let d ← f t.encoderDecoderBufferDelayLength
      let e ← f t.encoderDecoderBufferDelayLength
      let l ← flag
      pure (true, ⟨d, e, l⟩)
    else pure (false, ⟨0, 0, false⟩)
  else pure (false, ⟨0, 0, false⟩)

/-- One operating point, src/obu.c:136-160. -/
def parseOp (t : SeqTiming) (displayInfo : Bool) : HProg (SeqOp × SeqOpInfo) := do
  let idc ← f 12
  rejectIf (idc ≠ 0 ∧ (idc &&& 0xff = 0 ∨ idc &&& 0xf00 = 0))
  let major ← f 3
  let minor ← f 2
  let tier ← opt (2 + major > 3) flag false
  let (dp, info) ← parseOpInfo t
  let dm ← opt (displayInfo = true) flag false
  let delay ← opt (dm = true) (do let d ← f 4; pure (d + 1)) 10
  pure ({ idc, majorLevel := 2 + major, minorLevel := minor, tier, decoderModelParamPresent := dp,
          displayModelParamPresent := dm, initialDisplayDelay := delay }, info)

/-- The loop over operating points, src/obu.c:135-161, for `n` remaining points. -/
def parseOps (t : SeqTiming) (displayInfo : Bool) : Nat → HProg (List (SeqOp × SeqOpInfo))
  | 0 => pure []
  | n + 1 => do
    let o ← parseOp t displayInfo
    let os ← parseOps t displayInfo n
    pure (o :: os)

/-- Last feature flags, src/obu.c:214-216. -/
def finishTools (t : SeqTools) : HProg SeqTools := do
  let sr ← flag
  let cdef ← flag
  let rest ← flag
  pure { t with superRes := sr, cdef := cdef, restoration := rest }

/-- Feature flags, src/obu.c:188-216. -/
def parseTools (reduced : Bool) : HProg SeqTools := do
  let sb128 ← flag
  let fi ← flag
  let ie ← flag
  if reduced then
    finishTools { sb128, filterIntra := fi, intraEdgeFilter := ie, superRes := false, cdef := false,
                  restoration := false }
  else do
    let inter ← flag
    let masked ← flag
    let warped ← flag
    let dual ← flag
    let oh ← flag
    let jnt ← opt (oh = true) flag false
    let mvs ← opt (oh = true) flag false
    let choose ← flag
    let sct ← opt (¬ choose = true) bit 2
    let imv ← opt (sct ≠ 0) (do let c ← flag; opt (¬ c = true) bit 2) 2
    let nb ← opt (oh = true) (do let n ← f 3; pure (n + 1)) 0
    finishTools { sb128, filterIntra := fi, intraEdgeFilter := ie, superRes := false, cdef := false,
                  restoration := false, interIntra := inter, maskedCompound := masked, warpedMotion := warped,
                  dualFilter := dual, orderHint := oh, jntComp := jnt, refFrameMvs := mvs,
                  screenContentTools := sct, forceIntegerMv := imv, orderHintNBits := nb }

/-- Subsampling of profile 2, src/obu.c:252-270 (and the other cases of that switch). -/
def parseSubsampling (profile hbd : Nat) : HProg (Bool × Bool) :=
  if profile = 0 then pure (true, true)
  else if profile = 1 then pure (false, false)
  else if hbd = 2 then do
    let h ← flag
    let v ← opt (h = true) flag false
    pure (h, v)
  else pure (true, false)

/-- The layout chosen on src/obu.c:253-268 for given subsampling. -/
def layoutOf (h v : Bool) : Layout := if h then (if v then .I420 else .I422) else .I444

/-- `color_config`, src/obu.c:222-280. -/
def parseColor (strict : Bool) (profile : Nat) : HProg SeqColor := do
  let hb ← bit
  let tw ← opt (profile = 2 ∧ hb ≠ 0) bit 0
  let hbd := hb + tw
  let mono ← opt (profile ≠ 1) flag false
  let cd ← flag
  let pri ← opt (cd = true) (f 8) 2
  let trc ← opt (cd = true) (f 8) 2
  let mtrx ← opt (cd = true) (f 8) 2
  if mono then do
    let range ← flag
    rejectIf (strict = true ∧ mtrx = 0)
    pure ⟨hbd, mono, cd, pri, trc, mtrx, range, .I400, true, true, 0, false⟩
  else if pri = 1 ∧ trc = 13 ∧ mtrx = 0 then do
    rejectIf (profile ≠ 1 ∧ ¬ (profile = 2 ∧ hbd = 2))
    let sep ← flag
    pure ⟨hbd, mono, cd, pri, trc, mtrx, true, .I444, false, false, 0, sep⟩
  else do
    let range ← flag
    let (h, v) ← parseSubsampling profile hbd
    let chr ← opt (h = true ∧ v = true) (f 2) 0
    rejectIf (strict = true ∧ mtrx = 0 ∧ layoutOf h v ≠ .I444)
    let sep ← flag
    pure ⟨hbd, mono, cd, pri, trc, mtrx, range, layoutOf h v, h, v, chr, sep⟩

/-- First part of `parse_seq_hdr`, src/obu.c:98-166: everything up to and including the operating points.
Returns the timing info, `display_model_info_present` and the operating points. Line 100 does not add 2
to the level of a reduced still picture header. -/
def parseSeqOps (strict reduced : Bool) : HProg (SeqTiming × Bool × List (SeqOp × SeqOpInfo)) :=
  if reduced then do
    let major ← f 3
    let minor ← f 2
    pure ({}, false, [((⟨0, major, minor, false, false, false, 10⟩ : SeqOp), (⟨0, 0, false⟩ : SeqOpInfo))])
  else do
    let t ← parseTiming strict
    let disp ← flag
    let n ← f 5
    let ops ← parseOps t disp (n + 1)
    pure (t, disp, ops)

/-- Frame id lengths, src/obu.c:176-182. -/
def parseFrameIds (reduced : Bool) : HProg (Bool × Nat × Nat) :=
  if reduced then pure (false, 0, 0)
  else do
    let present ← flag
    if present then do
      let d ← f 4
      let n ← f 3
      pure (true, d + 2, n + (d + 2) + 1)
    else pure (false, 0, 0)

/-- `parse_seq_hdr` without the final call, src/obu.c:72-289. -/
def parseSeqBody (strict : Bool) : HProg SeqHdr := do
  let profile ← f 3
  rejectIf (profile > 2)
  let still ← flag
  let reduced ← flag
  rejectIf (reduced = true ∧ ¬ still = true)
  let (timing, disp, ops) ← parseSeqOps strict reduced
  let wb ← f 4
  let hb ← f 4
  let w ← f (wb + 1)
  let h ← f (hb + 1)
  let (idp, idd, idn) ← parseFrameIds reduced
  let tools ← parseTools reduced
  let color ← parseColor strict profile
  let fg ← flag
  pure { profile, stillPicture := still, reducedStillPictureHeader := reduced, timing,
         displayModelInfoPresent := disp, ops := ops.map (·.1), opInfo := ops.map (·.2),
         widthNBits := wb + 1, heightNBits := hb + 1, maxWidth := w + 1, maxHeight := h + 1,
         frameIdNumbersPresent := idp, deltaFrameIdNBits := idd, frameIdNBits := idn,
         tools, color, filmGrainPresent := fg }

/-- `parse_seq_hdr`, src/obu.c:72-300. -/
def parseSeqHdr (strict : Bool) : HProg SeqHdr := do
  let h ← parseSeqBody strict
  checkTrailingBits strict
  pure h

end Dav1d
