import Verif.Dsp.FgTables
import Verif.Obu.FrameTypes
import Mathlib.Algebra.BigOperators.Intervals
import Mathlib.Algebra.Order.BigOperators.Group.Finset

/-!
# Film grain synthesis, AV1 specification section 7.18.3

Transcribed from the specification; the templates are given by the equations they satisfy instead of by the loops. `sx`
and `sy` are subX and subY of the plane, 0 for luma.
-/
namespace Dav1d.Fg.Spec
open Dav1d

/-- Round2 of section 4.7. -/
def round2 (x : Int) (n : Nat) : Int := if n = 0 then x else (x + 2 ^ (n - 1)) / 2 ^ n

/-- Clip3 of section 4.7. -/
def clip3 (lo hi x : Int) : Int := if x < lo then lo else if x > hi then hi else x

/-! ## 7.18.3.2 Random numbers -/

/-- The new value of RandomRegister: a 16-bit shift register, the new top bit is the parity of four of the bits. -/
def shiftReg (r : Nat) : Nat := r / 2 + 32768 * ((r + r / 2 + r / 8 + r / 4096) % 2)

/-- RandomRegister after `n` numbers. -/
def register (seed : Nat) : Nat → Nat
  | 0 => seed
  | n + 1 => shiftReg (register seed n)

/-- The `n`-th number, counted from 0, with the given number of bits: the top bits of the register. -/
def random (bits seed n : Nat) : Nat := register seed (n + 1) / 2 ^ (16 - bits) % 2 ^ bits

/-! ## 7.18.3.3 Grain templates -/

def grainMin (bitDepth : Nat) : Int := -(128 * 2 ^ (bitDepth - 8))
def grainMax (bitDepth : Nat) : Int := 128 * 2 ^ (bitDepth - 8) - 1

/-- White noise: row by row, with `w` columns. -/
def white (bitDepth : Nat) (g : FilmGrainData) (seed w y x : Nat) : Int :=
  round2 (gaussianSequence.getD (random 11 seed (y * w + x)) 0) (12 - bitDepth + g.grainScaleShift)

/-- The auto-regressive filter: the `lag` rows above and the `lag` positions to the left, coefficients in raster order. -/
def regress (c : List Int) (lag : Nat) (G : Int → Int → Int) (y x : Int) : Int :=
  (∑ i ∈ Finset.range lag, ∑ j ∈ Finset.range (2 * lag + 1), c.getD (i * (2 * lag + 1) + j) 0 * G (y + i - lag) (x + j - lag)) +
    ∑ j ∈ Finset.range lag, c.getD (lag * (2 * lag + 1) + j) 0 * G y (x + j - lag)

/-- `G` is what the filter makes of the noise `N`, with `extra` added to the sum. -/
def IsGrain (bitDepth : Nat) (g : FilmGrainData) (c : List Int) (w h : Nat) (N extra : Nat → Nat → Int) (G : Int → Int → Int) :
    Prop :=
  ∀ y x : Nat, y < h → x < w →
    G y x = if 3 ≤ y ∧ 3 ≤ x ∧ x < w - 3 then
        clip3 (grainMin bitDepth) (grainMax bitDepth)
          (N y x + round2 (regress c g.arCoeffLag G y x + extra y x) g.arCoeffShift)
      else N y x

/-- LumaGrain. -/
def IsLumaGrain (bitDepth : Nat) (g : FilmGrainData) (G : Int → Int → Int) : Prop :=
  IsGrain bitDepth g g.arCoeffsY 82 73
    (fun y x => if g.yPoints.length > 0 then white bitDepth g g.seed 82 y x else 0) (fun _ _ => 0) G

/-- The dimensions of the chroma templates. -/
def chromaWidth (sx : Nat) : Nat := if sx = 1 then 44 else 82
def chromaHeight (sy : Nat) : Nat := if sy = 1 then 38 else 73

/-- The average of the luma grain at a position of the chroma template. -/
def lumaGrain (sx sy : Nat) (GY : Int → Int → Int) (y x : Nat) : Int :=
  round2 (∑ i ∈ Finset.range (sy + 1), ∑ j ∈ Finset.range (sx + 1),
    GY ((y - 3) * 2 ^ sy + 3 + i : Nat) ((x - 3) * 2 ^ sx + 3 + j : Nat)) (sx + sy)

/-- CbGrain and CrGrain: `c` are the coefficients of the plane, the last one is for luma, `mask` changes the seed. -/
def IsChromaGrain (bitDepth : Nat) (g : FilmGrainData) (c : List Int) (mask sx sy : Nat) (GY G : Int → Int → Int) : Prop :=
  IsGrain bitDepth g c (chromaWidth sx) (chromaHeight sy) (white bitDepth g (g.seed ^^^ mask) (chromaWidth sx))
    (fun y x => if g.yPoints.length > 0 then
      c.getD (2 * g.arCoeffLag * (g.arCoeffLag + 1)) 0 * lumaGrain sx sy GY y x else 0) G

/-! ## 7.18.3.4 Scaling functions -/

/-- Between two points the function is linear, from the last point on constant. -/
def segments : List (Nat × Nat) → Nat → Int
  | [], _ => 0
  | [p], _ => p.2
  | p :: q :: r, x =>
    if x < q.1 then
      let deltaY := (q.2 : Int) - p.2
      let deltaX := q.1 - p.1
      let delta := deltaY * ((65536 + deltaX / 2) / deltaX : Nat)
      p.2 + (((x - p.1 : Nat) : Int) * delta + 32768) / 65536
    else segments (q :: r) x

/-- ScalingLut: up to the first point the function is constant. -/
def scalingLut (points : List (Nat × Nat)) (x : Nat) : Int :=
  match points with
  | [] => 0
  | p :: r => if x < p.1 then p.2 else segments (p :: r) x

/-- scale_lut. -/
def scaleLut (bitDepth : Nat) (points : List (Nat × Nat)) (index : Nat) : Int :=
  let shift := bitDepth - 8
  let x := index / 2 ^ shift
  let rem := index - x * 2 ^ shift
  if bitDepth = 8 ∨ x = 255 then scalingLut points x
  else
    let start := scalingLut points x
    start + round2 ((scalingLut points (x + 1) - start) * rem) shift

/-! ## 7.18.3.5 Adding noise -/

/-- Initial RandomRegister of a stripe of 32 luma rows. -/
def stripeSeed (g : FilmGrainData) (n : Nat) : Nat :=
  g.seed ^^^ ((n * 37 + 178) % 256 * 256) ^^^ ((n * 173 + 105) % 256)

/-- Width and height of the blocks. -/
def blk (s : Nat) : Nat := 32 / 2 ^ s

/-- The grain at row `i` and column `j` of block `b` of stripe `n`; blocks are larger than the distance between them. -/
def block (g : FilmGrainData) (sx sy : Nat) (G : Int → Int → Int) (n b i j : Nat) : Int :=
  let rand := random 8 (stripeSeed g n) b
  let offX := if sx = 1 then 6 + rand / 16 else 9 + rand / 16 * 2
  let offY := if sy = 1 then 6 + rand % 16 else 9 + rand % 16 * 2
  G (offY + i : Nat) (offX + j : Nat)

/-- Blending where blocks or stripes overlap, at distance `j` from the edge. -/
def blend (bitDepth s j : Nat) (old new : Int) : Int :=
  clip3 (grainMin bitDepth) (grainMax bitDepth)
    (round2 (if s = 1 then old * 23 + new * 22 else if j = 0 then old * 27 + new * 17 else old * 17 + new * 27) 5)

/-- NoiseStripe. -/
def stripe (bitDepth : Nat) (g : FilmGrainData) (sx sy : Nat) (G : Int → Int → Int) (n i x : Nat) : Int :=
  let b := x / blk sx
  let j := x % blk sx
  let new := block g sx sy G n b i j
  if g.overlapFlag = true ∧ b > 0 ∧ j < 2 / 2 ^ sx then blend bitDepth sx j (block g sx sy G n (b - 1) i (j + blk sx)) new
  else new

/-- NoiseImage. -/
def image (bitDepth : Nat) (g : FilmGrainData) (sx sy : Nat) (G : Int → Int → Int) (y x : Nat) : Int :=
  let n := y / blk sy
  let i := y % blk sy
  let new := stripe bitDepth g sx sy G n i x
  if g.overlapFlag = true ∧ n > 0 ∧ i < 2 / 2 ^ sy then blend bitDepth sy i (stripe bitDepth g sx sy G (n - 1) (i + blk sy) x) new
  else new

def minValue (bitDepth : Nat) (g : FilmGrainData) : Int := if g.clipToRestrictedRange then 16 * 2 ^ (bitDepth - 8) else 0

def maxLuma (bitDepth : Nat) (g : FilmGrainData) : Int :=
  if g.clipToRestrictedRange then 235 * 2 ^ (bitDepth - 8) else 256 * 2 ^ (bitDepth - 8) - 1

def maxChroma (bitDepth : Nat) (g : FilmGrainData) (mcIdentity : Bool) : Int :=
  if g.clipToRestrictedRange then (if mcIdentity then 235 else 240) * 2 ^ (bitDepth - 8) else 256 * 2 ^ (bitDepth - 8) - 1

/-- The output for luma. -/
def luma (bitDepth : Nat) (g : FilmGrainData) (G Y : Int → Int → Int) (y x : Nat) : Int :=
  if g.yPoints.length > 0 then
    let noise := image bitDepth g 0 0 G y x
    let noise := round2 (scaleLut bitDepth g.yPoints (Y y x).toNat * noise) g.scalingShift
    clip3 (minValue bitDepth g) (maxLuma bitDepth g) (Y y x + noise)
  else Y y x

/-- The output for a chroma plane, given its points, multipliers and grain. `w` is the width of luma, `Y` the decoded luma. -/
def chroma (bitDepth : Nat) (g : FilmGrainData) (points : List (Nat × Nat)) (mult : Int × Int × Int) (mcIdentity : Bool)
    (w sx sy : Nat) (G Y C : Int → Int → Int) (y x : Nat) : Int :=
  if points.length > 0 ∨ g.chromaScalingFromLuma = true then
    let lumaX := x * 2 ^ sx
    let lumaY := y * 2 ^ sy
    let lumaNextX := min (lumaX + 1) (w - 1)
    let averageLuma := if sx = 1 then round2 (Y lumaY lumaX + Y lumaY lumaNextX) 1 else Y lumaY lumaX
    let orig := C y x
    let merged := if g.chromaScalingFromLuma then averageLuma
      else
        let combined := averageLuma * mult.2.1 + orig * mult.1
        clip3 0 (2 ^ bitDepth - 1) (combined / 64 + mult.2.2 * 2 ^ (bitDepth - 8))
    let pts := if g.chromaScalingFromLuma then g.yPoints else points
    let noise := image bitDepth g sx sy G y x
    let noise := round2 (scaleLut bitDepth pts merged.toNat * noise) g.scalingShift
    clip3 (minValue bitDepth g) (maxChroma bitDepth g mcIdentity) (orig + noise)
  else C y x

end Dav1d.Fg.Spec
