import Verif.Obu.TileSpec
import Verif.Obu.RefSpec
/-!
# Accepted frame headers and the ranges of their fields
-/
namespace Dav1d
open HProg

/-- A sequence header the parser produces from some input. -/
def SeqAccepted (q : SeqHdr) : Prop := ∃ strict s s', (parseSeqHdr strict).exec s = (some q, s')

mutual
/-- A frame header the parser produces from some input in a reachable decoder state. -/
inductive Accepted : FrameHdr → Prop
  | mk {c : FhCtx} {s s' : BitSt} {h : FrameHdr} : ReachableCtx c →
      (parseNewFrameHdr c).exec s = (some h, s') → Accepted h
/-- A reachable decoder state: an accepted sequence header and reference slots that are empty or hold
accepted frames (not necessarily of the same sequence). -/
inductive ReachableCtx : FhCtx → Prop
  | mk {c : FhCtx} : SeqAccepted c.seq → (∀ i h, c.refs i = some h → Accepted h) → ReachableCtx c
end

/-- Frame sizes. -/
structure SizeOk (z : FrameSize) : Prop where
  width : 1 ≤ z.width1 ∧ z.width1 ≤ 65536
  height : 1 ≤ z.height ∧ z.height ≤ 65536
  coded : min 16 z.width1 ≤ z.width0 ∧ z.width0 ≤ z.width1
  render : 1 ≤ z.renderWidth ∧ z.renderWidth ≤ 65536 ∧ 1 ≤ z.renderHeight ∧ z.renderHeight ≤ 65536
  denom : 8 ≤ z.denom ∧ z.denom ≤ 16

/-- Signed field of `n + 1` bits. -/
def InSigned (n : Nat) (v : Int) : Prop := -(2 ^ n) ≤ v ∧ v < 2 ^ n

/-- Segmentation features. -/
structure SegOk (s : SegDataSet) : Prop where
  count : s.d.length = 8
  ranges : ∀ d ∈ s.d, InSigned 8 d.deltaQ ∧ InSigned 6 d.deltaLfYV ∧ InSigned 6 d.deltaLfYH ∧
    InSigned 6 d.deltaLfU ∧ InSigned 6 d.deltaLfV ∧ -1 ≤ d.ref ∧ d.ref ≤ 7
  last : -1 ≤ s.lastActiveSegid ∧ s.lastActiveSegid ≤ 7

/-- Loop filter deltas. -/
structure LfDeltasOk (d : LfDeltas) : Prop where
  counts : d.modeDelta.length = 2 ∧ d.refDelta.length = 8
  ranges : (∀ v ∈ d.modeDelta, InSigned 6 v) ∧ ∀ v ∈ d.refDelta, InSigned 6 v

/-- Global motion parameters. -/
structure WmOk (w : WmParams) : Prop where
  type : w.type ≤ 3
  m0 : -(2 ^ 22) ≤ w.m0 ∧ w.m0 ≤ 2 ^ 22
  m1 : -(2 ^ 22) ≤ w.m1 ∧ w.m1 ≤ 2 ^ 22
  m2 : -(2 ^ 13) ≤ w.m2 - 2 ^ 16 ∧ w.m2 - 2 ^ 16 ≤ 2 ^ 13
  m3 : -(2 ^ 13) ≤ w.m3 ∧ w.m3 ≤ 2 ^ 13
  m4 : -(2 ^ 13) ≤ w.m4 ∧ w.m4 ≤ 2 ^ 13
  m5 : -(2 ^ 13) ≤ w.m5 - 2 ^ 16 ∧ w.m5 - 2 ^ 16 ≤ 2 ^ 13

/-- A scaling function: at most `n` points, 8-bit coordinates, strictly increasing positions. -/
structure PointsOk (n : Nat) (l : List (Nat × Nat)) : Prop where
  count : l.length ≤ n
  range : ∀ p ∈ l, p.1 ≤ 255 ∧ p.2 ≤ 255
  increasing : l.Pairwise (fun p q => p.1 < q.1)

/-- Film grain parameters within the ranges of film_grain_params_syntax, AV1 specification 5.9.30. -/
structure FgOk (g : FilmGrainData) : Prop where
  y : PointsOk 14 g.yPoints
  uv0 : PointsOk 10 g.uvPoints0
  uv1 : PointsOk 10 g.uvPoints1
  scalingShift : 8 ≤ g.scalingShift ∧ g.scalingShift ≤ 11
  lag : g.arCoeffLag ≤ 3
  counts : g.arCoeffsY.length ≤ 24 ∧ g.arCoeffsUv0.length ≤ 25 ∧ g.arCoeffsUv1.length ≤ 25
  coeffs : ∀ v, v ∈ g.arCoeffsY ∨ v ∈ g.arCoeffsUv0 ∨ v ∈ g.arCoeffsUv1 → InSigned 7 v
  arShift : 6 ≤ g.arCoeffShift ∧ g.arCoeffShift ≤ 9
  grainShift : g.grainScaleShift ≤ 3
  mult0 : InSigned 7 g.uvMult0.1 ∧ InSigned 7 g.uvMult0.2.1 ∧ InSigned 8 g.uvMult0.2.2
  mult1 : InSigned 7 g.uvMult1.1 ∧ InSigned 7 g.uvMult1.2.1 ∧ InSigned 8 g.uvMult1.2.2

/-- Film grain parameters as held in a header: legal ones, or the all-zero structure with a seed, which has
no scaling points and so no effect. -/
def FgHeld (g : FilmGrainData) : Prop := g.seed < 65536 ∧ (FgOk g ∨ g = { seed := g.seed })

/-- Everything later stages rely on in a header, apart from the tile layout. -/
structure FrameOk (h : FrameHdr) : Prop where
  size : SizeOk h.refs.size
  frameType : h.base.frameType ≤ 3
  offset : h.base.frameOffset ≤ 255
  primary : h.base.primaryRefFrame ≤ 7
  refresh : h.refs.refreshFrameFlags ≤ 255
  refidx : ∀ r ∈ h.refs.refidx, r < 8
  refidxCount : h.refs.refidx.length = if h.base.frameType % 2 = 1 then 7 else 0
  filter : h.refs.subpelFilterMode ≤ 4
  quant : h.quant.yac ≤ 255 ∧ InSigned 6 h.quant.ydcDelta ∧ InSigned 6 h.quant.udcDelta ∧
    InSigned 6 h.quant.uacDelta ∧ InSigned 6 h.quant.vdcDelta ∧ InSigned 6 h.quant.vacDelta ∧
    h.quant.qmY ≤ 15 ∧ h.quant.qmU ≤ 15 ∧ h.quant.qmV ≤ 15
  seg : SegOk h.seg.data
  qidx : h.qidx.length = 8 ∧ ∀ q ∈ h.qidx, q ≤ 255
  delta : h.delta.qResLog2 ≤ 3 ∧ h.delta.lfResLog2 ≤ 3
  lf : h.lf.levelY0 ≤ 63 ∧ h.lf.levelY1 ≤ 63 ∧ h.lf.levelU ≤ 63 ∧ h.lf.levelV ≤ 63 ∧ h.lf.sharpness ≤ 7
  lfDeltas : LfDeltasOk h.lf.deltas
  cdef : h.cdef.damping ≤ 6 ∧ h.cdef.nBits ≤ 3 ∧ h.cdef.yStrength.length = 2 ^ h.cdef.nBits ∧
    h.cdef.uvStrength.length = 2 ^ h.cdef.nBits ∧ (∀ v ∈ h.cdef.yStrength, v ≤ 63) ∧
    ∀ v ∈ h.cdef.uvStrength, v ≤ 63
  lr : h.lr.type0 ≤ 3 ∧ h.lr.type1 ≤ 3 ∧ h.lr.type2 ≤ 3 ∧
    (h.lr.type0 ≠ 0 ∨ h.lr.type1 ≠ 0 ∨ h.lr.type2 ≠ 0 →
      6 ≤ h.lr.unitSize0 ∧ h.lr.unitSize0 ≤ 8 ∧ 5 ≤ h.lr.unitSize1 ∧ h.lr.unitSize1 ≤ h.lr.unitSize0)
  txfm : h.txfmMode ≤ 2
  gmvCount : h.gmv.length = 7
  gmv : ∀ w ∈ h.gmv, WmOk w
  grain : FgHeld h.filmGrain

end Dav1d
