import Verif.Part.CtxModel
import Verif.Part.Spec
/-!
# The contexts of the AV1 specification

Section numbers are those of the AV1 bitstream specification: 5.11.25 (reference frames syntax), 5.11.9 (segment ids) and
8.3.2 (selection of the CDFs).
-/
namespace Dav1d.Part.Ctx

/-- What can be said about the blocks of a frame: intra frames have no inter blocks and inter frames no intra block copy;
a single reference is one of 0 to 6, and two references are in increasing order (the last follows from the syntax, see
`C75_range`). -/
def Blk.Valid (inter : Bool) (b : Blk) : Prop :=
  match b.kind with
  | .intra yMode _ _ _ => yMode ≤ 13
  | .copy => inter = false
  | .inter _ comp ref0 ref1 _ _ mode _ => inter = true ∧ comp ≤ 4 ∧ mode ≤ 7 ∧
      0 ≤ ref0 ∧ ref0 ≤ 6 ∧ (if comp = 0 then ref1 = -1 else ref0 < ref1 ∧ ref1 ≤ 6)

/-- The blocks above and on the left of `c`, if they are in the tile (AvailU and AvailL of the specification): those that
cover the unit above and the unit on the left of the first unit of the block. -/
def nbAbove (T : Tile) (before : List Ev) (c : Call) : Option Call := if T.y0 < c.y then coverOf before c.x (c.y - 1) else none
def nbLeft (T : Tile) (before : List Ev) (c : Call) : Option Call := if T.x0 < c.x then coverOf before (c.x - 1) c.y else none

namespace Av1

/-- RefFrame[0] and RefFrame[1] of a block: INTRA_FRAME is 0, LAST_FRAME 1 to ALTREF_FRAME 7, NONE is -1. Inter-intra
blocks have INTRA_FRAME as second one. -/
def refFrame0 (b : Blk) : Int := match b.kind with
  | .inter _ _ r _ _ _ _ _ => r + 1
  | _ => 0
def refFrame1 (b : Blk) : Int := match b.kind with
  | .inter _ comp _ r _ _ _ ii => if comp ≠ 0 then r + 1 else if ii then 0 else -1
  | _ => -1

/-- CompGroupIdx: difference and wedge masks (COMP_INTER_SEG, COMP_INTER_WEDGE) have 1. CompoundIdx: only distance
weights (COMP_INTER_WEIGHTED_AVG) have 0. -/
def compGroupIdx (b : Blk) : Nat := match b.kind with
  | .inter _ comp _ _ _ _ _ _ => if comp = 3 ∨ comp = 4 then 1 else 0
  | _ => 0
def compoundIdx (b : Blk) : Nat := match b.kind with
  | .inter _ comp _ _ _ _ _ _ => if comp = 1 then 0 else 1
  | _ => 1

/-- The variables AvailU, AboveRefFrame[0..1], and CompGroupIdxs and CompoundIdxs of the block above, or those of the
left. -/
structure Nb where
  avail : Bool
  ref0 : Int
  ref1 : Int
  group : Nat
  idx : Nat
  deriving DecidableEq, Repr

def nb : Option Blk → Nb
  | none => ⟨false, 0, -1, 0, 0⟩
  | some b => ⟨true, refFrame0 b, refFrame1 b, compGroupIdx b, compoundIdx b⟩

/-- AboveIntra, LeftIntra; AboveSingle, LeftSingle. -/
def Nb.intra (n : Nb) : Bool := n.ref0 ≤ 0
def Nb.single (n : Nb) : Bool := n.ref1 ≤ 0

section
variable (A L : Nb)

/-- is_inter. -/
def isInterCtx : Nat :=
  if A.avail && L.avail then (if L.intra && A.intra then 3 else (L.intra || A.intra).toNat)
  else if A.avail || L.avail then 2 * (if A.avail then A.intra else L.intra).toNat
  else 0

/-- check_backward: BWDREF_FRAME to ALTREF_FRAME. -/
def checkBackward (r : Int) : Bool := 5 ≤ r && r ≤ 7

/-- comp_mode. -/
def compModeCtx : Nat :=
  if A.avail && L.avail then
    if A.single && L.single then (checkBackward A.ref0 ^^ checkBackward L.ref0).toNat
    else if A.single then 2 + (checkBackward A.ref0 || A.intra).toNat
    else if L.single then 2 + (checkBackward L.ref0 || L.intra).toNat
    else 4
  else if A.avail then (if A.single then (checkBackward A.ref0).toNat else 3)
  else if L.avail then (if L.single then (checkBackward L.ref0).toNat else 3)
  else 1

/-- is_samedir_ref_frame. -/
def sameDir (r0 r1 : Int) : Bool := 0 < r0 && 0 < r1 && ((5 ≤ r0 : Bool) == (5 ≤ r1 : Bool))

/-- comp_ref_type. -/
def compRefTypeCtx : Nat :=
  let aComp := A.avail && !A.intra && !A.single
  let lComp := L.avail && !L.intra && !L.single
  let aUni := aComp && sameDir A.ref0 A.ref1
  let lUni := lComp && sameDir L.ref0 L.ref1
  if A.avail && !A.intra && L.avail && !L.intra then
    let samedir := (sameDir A.ref0 L.ref0).toNat
    if !aComp && !lComp then 1 + 2 * samedir
    else if !aComp then (if !lUni then 1 else 3 + samedir)
    else if !lComp then (if !aUni then 1 else 3 + samedir)
    else if !aUni && !lUni then 0
    else if !aUni || !lUni then 2
    else 3 + ((A.ref0 = 5 : Bool) == (L.ref0 = 5 : Bool)).toNat
  else if A.avail && L.avail then
    if aComp then 1 + 2 * aUni.toNat
    else if lComp then 1 + 2 * lUni.toNat
    else 2
  else if aComp then 4 * aUni.toNat
  else if lComp then 4 * lUni.toNat
  else 2

/-- count_refs. -/
def countRefs (frame : Int) : Nat :=
  (if A.avail then (A.ref0 = frame : Bool).toNat + (A.ref1 = frame : Bool).toNat else 0) +
  (if L.avail then (L.ref0 = frame : Bool).toNat + (L.ref1 = frame : Bool).toNat else 0)

/-- ref_count_ctx. -/
def refCountCtx (c0 c1 : Nat) : Nat := if c0 < c1 then 0 else if c0 = c1 then 1 else 2

/-- single_ref_p1: forward against backward references. -/
def singleRefP1 : Nat :=
  refCountCtx (countRefs A L 1 + countRefs A L 2 + countRefs A L 3 + countRefs A L 4) (countRefs A L 5 + countRefs A L 6 + countRefs A L 7)
/-- single_ref_p2, comp_bwdref: BWDREF and ALTREF2 against ALTREF. -/
def singleRefP2 : Nat := refCountCtx (countRefs A L 5 + countRefs A L 6) (countRefs A L 7)
/-- single_ref_p3, comp_ref: LAST and LAST2 against LAST3 and GOLDEN. -/
def singleRefP3 : Nat := refCountCtx (countRefs A L 1 + countRefs A L 2) (countRefs A L 3 + countRefs A L 4)
/-- single_ref_p4, comp_ref_p1: LAST against LAST2. -/
def singleRefP4 : Nat := refCountCtx (countRefs A L 1) (countRefs A L 2)
/-- single_ref_p5, comp_ref_p2, uni_comp_ref_p2: LAST3 against GOLDEN. -/
def singleRefP5 : Nat := refCountCtx (countRefs A L 3) (countRefs A L 4)
/-- single_ref_p6, comp_bwdref_p1: BWDREF against ALTREF2. -/
def singleRefP6 : Nat := refCountCtx (countRefs A L 5) (countRefs A L 6)
/-- uni_comp_ref_p1: LAST2 against LAST3 and GOLDEN. -/
def uniCompRefP1 : Nat := refCountCtx (countRefs A L 2) (countRefs A L 3 + countRefs A L 4)

/-- comp_group_idx. -/
def compGroupIdxCtx : Nat :=
  let part (n : Nb) : Nat := if n.avail then (if !n.single then n.group else if n.ref0 = 7 then 3 else 0) else 0
  min 5 (part A + part L)

/-- compound_idx; `fwd` and `bck` are the distances to the two references. -/
def compoundIdxCtx (fwd bck : Nat) : Nat :=
  let part (n : Nb) : Nat := if n.avail then (if !n.single then n.idx else if n.ref0 = 7 then 1 else 0) else 0
  (if fwd = bck then 3 else 0) + part A + part L

end

/-- get_relative_dist, 7.9.3. -/
def relativeDist (orderHintBits : Nat) (a b : Int) : Int :=
  if orderHintBits = 0 then 0
  else
    let diff := a - b
    let m : Int := 2 ^ (orderHintBits - 1)
    diff % m - (if diff / m % 2 = 1 then m else 0)

/-- interp_filter[dir]. -/
def interpFilter (b : Blk) (dir : Nat) : Nat := match b.kind with
  | .inter _ _ _ _ f0 f1 _ _ => if dir = 0 then f0 else f1
  | _ => 3

/-- aboveType, leftType: 3 without a block that uses the reference `ref0`. -/
def filterType (o : Option Blk) (ref0 : Int) (dir : Nat) : Nat := match o with
  | some b => if refFrame0 b = ref0 ∨ refFrame1 b = ref0 then interpFilter b dir else 3
  | none => 3

/-- interp_filter for direction `dir` of a block with first reference `ref0` (a value of RefFrame) which has two
references or not. -/
def interpFilterCtx (A L : Option Blk) (ref0 : Int) (compound : Bool) (dir : Nat) : Nat :=
  let leftType := filterType L ref0 dir
  let aboveType := filterType A ref0 dir
  let ctx := ((dir % 2) * 2 + compound.toNat) * 4
  if leftType = aboveType then ctx + leftType
  else if leftType = 3 then ctx + aboveType
  else if aboveType = 3 then ctx + leftType
  else ctx + 3

/-- The sum over the available neighbours of what they have of something. -/
def sumCtx (A L : Option Blk) (v : Blk → Bool) : Nat :=
  (match A with | some b => (v b).toNat | none => 0) + (match L with | some b => (v b).toNat | none => 0)

/-- skip_mode and has_palette_y of a block. -/
def usesSkipMode (b : Blk) : Bool := match b.kind with | .inter sm _ _ _ _ _ _ _ => sm | _ => false
def hasPalette (b : Blk) : Bool := match b.kind with | .intra _ p _ _ => decide (p > 0) | _ => false

/-- skip, skip_mode, seg_id_predicted, has_palette_y. -/
def skipCtx (A L : Option Blk) : Nat := sumCtx A L (·.skip)
def skipModeCtx (A L : Option Blk) : Nat := sumCtx A L usesSkipMode
def segIdPredictedCtx (A L : Option Blk) : Nat := sumCtx A L (·.segPred)
def hasPaletteYCtx (A L : Option Blk) : Nat := sumCtx A L hasPalette

/-- YMode of a block of an intra frame: filter intra blocks have DC_PRED, and so have those of intra block copy. -/
def yMode (b : Blk) : Nat := match b.kind with
  | .intra m _ _ _ => if m = 13 then 0 else m
  | _ => 0

/-- The mode above and on the left for intra_frame_y_mode: DC_PRED when there is no block. -/
def modeOf (o : Option Blk) : Nat := match o with
  | some b => yMode b
  | none => 0

/-- Intra_Mode_Context: DC_PRED 0, V_PRED 1, H_PRED 2, D45_PRED 3, D135_PRED 4, D113_PRED 5, D157_PRED 6, D203_PRED 7,
D67_PRED 8, SMOOTH_PRED 9, SMOOTH_V_PRED 10, SMOOTH_H_PRED 11, PAETH_PRED 12. -/
def intraModeContext : Nat → Nat
  | 0 => 0 | 1 => 1 | 2 => 2 | 3 => 3 | 4 => 4 | 5 => 4 | 6 => 4 | 7 => 4 | 8 => 3 | 9 => 0 | 10 => 1 | 11 => 2 | _ => 0

/-- tx_depth: the width above and the height on the left, in samples: that of the transform of an intra block and that of
the whole block otherwise; `maxW` and `maxH` are those of the largest transform. -/
def txDepthCtx (A L : Option (Blk × Nat)) (maxW maxH : Nat) : Nat :=
  (if aboveW A ≥ maxW then 1 else 0) + (if leftH L ≥ maxH then 1 else 0)
where
  aboveW (A : Option (Blk × Nat)) : Nat := match A with
    | some (b, bs) => (match b.kind with | .intra _ _ lw _ => 4 * 2 ^ lw | _ => 4 * bsW bs)
    | none => 0
  leftH (L : Option (Blk × Nat)) : Nat := match L with
    | some (b, bs) => (match b.kind with | .intra _ _ _ lh => 4 * 2 ^ lh | _ => 4 * bsH bs)
    | none => 0

/-- is_smooth for luma, 7.11.2.3: whether the block above (on the left) has a smooth mode. -/
def isSmooth (o : Option Blk) : Bool := match o with
  | some b => (match b.kind with | .intra m _ _ _ => m = 9 || m = 10 || m = 11 | _ => false)
  | none => false

/-- What the contexts should hold of a block: skip_mode, size of the luma palette, mode, whether it is intra, and the
logarithm of the width (`i = 0`) or height (`i = 1`) that matters for tx_depth. -/
def skipModeOf (b : Blk) : Nat := match b.kind with | .inter sm _ _ _ _ _ _ _ => sm.toNat | _ => 0
def palSzOf (b : Blk) : Nat := match b.kind with | .intra _ n _ _ => n | _ => 0
def intraOf (b : Blk) : Nat := match b.kind with | .intra _ _ _ _ => 1 | _ => 0
def anyModeOf (b : Blk) : Nat := match b.kind with | .inter _ _ _ _ _ _ m _ => m | _ => yMode b
def txOf (b : Blk) (bs i : Nat) : Nat := match b.kind with | .intra _ _ lw lh => (if i = 0 then lw else lh) | _ => bsLog bs i

/-- What an entry of `t->a` (`i = 0`) or of `t->l` (`i = 1`) should hold when the neighbouring block and its size are `o`.
References (one less than RefFrame, none is -1) and filters matter in inter frames only. -/
structure Shows (inter : Bool) (i : Nat) (o : Option (Blk × Nat)) (e : Edge) : Prop where
  skip : e.skip = o.elim 0 (·.1.skip.toNat)
  segPred : e.segPred = o.elim 0 (·.1.segPred.toNat)
  skipMode : e.skipMode = o.elim 0 (skipModeOf ·.1)
  palSz : e.palSz = o.elim 0 (palSzOf ·.1)
  mode : e.mode = o.elim 0 (anyModeOf ·.1)
  intra : e.refs.intra = o.elim (if inter then 0 else 1) (intraOf ·.1)
  tx : e.txIntra = o.elim (-1) fun p => (txOf p.1 p.2 i : Int)
  comp : inter = true → e.refs.comp = o.elim 0 fun p => match p.1.kind with | .inter _ c _ _ _ _ _ _ => c | _ => 0
  ref0 : inter = true → e.refs.ref0 = o.elim (-1) fun p => refFrame0 p.1 - 1
  ref1 : inter = true → e.refs.ref1 = o.elim (-1) fun p => max (refFrame1 p.1 - 1) (-1)
  filter0 : inter = true → e.filter0 = o.elim 3 fun p => interpFilter p.1 0
  filter1 : inter = true → e.filter1 = o.elim 3 fun p => interpFilter p.1 1

/-! ## 5.11.25 -/

/-- The syntax elements for reference frames. -/
inductive Elem where
  | comp_mode | comp_ref_type | uni_comp_ref | uni_comp_ref_p1 | uni_comp_ref_p2 | comp_ref | comp_ref_p1 | comp_ref_p2
  | comp_bwdref | comp_bwdref_p1 | single_ref_p1 | single_ref_p2 | single_ref_p3 | single_ref_p4 | single_ref_p5 | single_ref_p6
  deriving DecidableEq, Repr

/-- Where dav1d keeps the CDF of each of them, src/cdf.h. -/
def Elem.cdf : Elem → RefCdf
  | comp_mode => .comp | comp_ref_type => .compDir
  | uni_comp_ref => .compUniRef 0 | uni_comp_ref_p1 => .compUniRef 1 | uni_comp_ref_p2 => .compUniRef 2
  | comp_ref => .compFwdRef 0 | comp_ref_p1 => .compFwdRef 1 | comp_ref_p2 => .compFwdRef 2
  | comp_bwdref => .compBwdRef 0 | comp_bwdref_p1 => .compBwdRef 1
  | single_ref_p1 => .ref 0 | single_ref_p2 => .ref 1 | single_ref_p3 => .ref 2 | single_ref_p4 => .ref 3
  | single_ref_p5 => .ref 4 | single_ref_p6 => .ref 5

/-- The context of each element, 8.3.2. -/
def Elem.ctx (A L : Nb) : Elem → Nat
  | comp_mode => compModeCtx A L | comp_ref_type => compRefTypeCtx A L
  | uni_comp_ref => singleRefP1 A L | uni_comp_ref_p1 => uniCompRefP1 A L | uni_comp_ref_p2 => singleRefP5 A L
  | comp_ref => singleRefP3 A L | comp_ref_p1 => singleRefP4 A L | comp_ref_p2 => singleRefP5 A L
  | comp_bwdref => singleRefP2 A L | comp_bwdref_p1 => singleRefP6 A L
  | single_ref_p1 => singleRefP1 A L | single_ref_p2 => singleRefP2 A L | single_ref_p3 => singleRefP3 A L
  | single_ref_p4 => singleRefP4 A L | single_ref_p5 => singleRefP5 A L | single_ref_p6 => singleRefP6 A L

/-- read_ref_frames( ): RefFrame[0..1]. `rd` reads a syntax element. `segRef` is FeatureData of SEG_LVL_REF_FRAME if the
feature is active, `segOther` tells whether SEG_LVL_SKIP or SEG_LVL_GLOBALMV is. -/
def readRefFrames {σ : Type} (rd : Elem → σ → Bool × σ) (skipMode : Bool) (skipModeFrame : Int × Int) (segRef : Option Int) (segOther : Bool)
    (referenceSelect : Bool) (bw4 bh4 : Nat) (s : σ) : (Int × Int) × σ :=
  if skipMode then (skipModeFrame, s)
  else match segRef with
  | some r => ((r, -1), s)
  | none =>
    if segOther then ((1, -1), s)
    else
      let (compMode, s) := if referenceSelect && decide (min bw4 bh4 ≥ 2) then rd .comp_mode s else (false, s)
      if compMode then
        let (bidir, s) := rd .comp_ref_type s
        if !bidir then
          let (u, s) := rd .uni_comp_ref s
          if u then ((5, 7), s)
          else
            let (u1, s) := rd .uni_comp_ref_p1 s
            if u1 then
              let (u2, s) := rd .uni_comp_ref_p2 s
              if u2 then ((1, 4), s) else ((1, 3), s)
            else ((1, 2), s)
        else
          let (c, s) := rd .comp_ref s
          let (r0, s) : Int × σ :=
            if !c then
              let (c1, s) := rd .comp_ref_p1 s
              (if c1 then 2 else 1, s)
            else
              let (c2, s) := rd .comp_ref_p2 s
              (if c2 then 4 else 3, s)
          let (b, s) := rd .comp_bwdref s
          if !b then
            let (b1, s) := rd .comp_bwdref_p1 s
            ((r0, if b1 then 6 else 5), s)
          else ((r0, 7), s)
      else
        let (p1, s) := rd .single_ref_p1 s
        if p1 then
          let (p2, s) := rd .single_ref_p2 s
          if !p2 then
            let (p6, s) := rd .single_ref_p6 s
            ((if p6 then 6 else 5, -1), s)
          else ((7, -1), s)
        else
          let (p3, s) := rd .single_ref_p3 s
          if p3 then
            let (p5, s) := rd .single_ref_p5 s
            ((if p5 then 4 else 3, -1), s)
          else
            let (p4, s) := rd .single_ref_p4 s
            ((if p4 then 2 else 1, -1), s)

/-! ## 5.11.9 -/

/-- read_segment_id( ): the predicted id and the context; prevUL, prevU and prevL are -1 where there is no block. -/
def segmentPred (prevUL prevU prevL : Int) : Int :=
  if prevU = -1 then (if prevL = -1 then 0 else prevL)
  else if prevL = -1 then prevU
  else if prevUL = prevU then prevU else prevL

def segmentCtx (prevUL prevU prevL : Int) : Nat :=
  if prevUL < 0 then 0
  else if prevUL = prevU ∧ prevUL = prevL then 2
  else if prevUL = prevU ∨ prevUL = prevL ∨ prevU = prevL then 1
  else 0

end Av1

end Dav1d.Part.Ctx
