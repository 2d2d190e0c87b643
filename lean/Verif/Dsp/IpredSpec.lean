import Verif.Dsp.Mc
import Mathlib.Algebra.BigOperators.Intervals
import Mathlib.Algebra.BigOperators.Group.Finset.Basic
/-!
# Intra prediction as specified (AV1 specification, section 7.11.2)

Written with the specification's names and independently of the model: `A i` is AboveRow[ i ] and `L i` is LeftCol[ i ], with
index -1 for the pixel above and left of the block. `j` is the column and `i` the row of the predicted pixel. Nothing here is
about arrays of limited size, order of reading or packed arguments.
-/
namespace Dav1d.Ipred.Spec

variable (d : Depth) (A L : Int → Int)

/-- Round2( x, n ) -/
def Round2 (x : Int) (n : Nat) : Int := (x + 2 ^ n / 2) / 2 ^ n

/-- Clip3( lo, hi, x ) -/
def Clip3 (lo hi x : Int) : Int := if x < lo then lo else if x > hi then hi else x

/-- 7.11.2.5, DC: the rounded mean of the available neighbours. -/
def dc (haveLeft haveAbove : Bool) (w h : Nat) : Int :=
  let sumA := ∑ k ∈ Finset.range w, A k
  let sumL := ∑ k ∈ Finset.range h, L k
  match haveLeft, haveAbove with
  | true, true => (sumA + sumL + (w + h) / 2) / (w + h)
  | true, false => (sumL + h / 2) / h
  | false, true => (sumA + w / 2) / w
  | false, false => 2 ^ (d.bpc - 1)

/-- 7.11.2.2, Paeth -/
def paeth (i j : Nat) : Int :=
  let base := A j + L i - A (-1)
  let pLeft := (base - L i).natAbs
  let pTop := (base - A j).natAbs
  let pTopLeft := (base - A (-1)).natAbs
  if pLeft ≤ pTop ∧ pLeft ≤ pTopLeft then L i else if pTop ≤ pTopLeft then A j else A (-1)

/-- Sm_Weights_Tx_4x4 and so on: the weights of the nearer pixel for an edge of `n` pixels. -/
def smWeights : Nat → List Int
  | 4 => [255, 149, 85, 64]
  | 8 => [255, 197, 146, 105, 73, 50, 37, 32]
  | 16 => [255, 225, 196, 170, 145, 123, 102, 84, 68, 54, 43, 33, 26, 20, 17, 16]
  | 32 => [255, 240, 225, 210, 196, 182, 169, 157, 145, 133, 122, 111, 101, 92, 83, 74, 66, 59, 52, 45, 39, 34, 29, 25, 21, 17,
      14, 12, 10, 9, 8, 8]
  | 64 => [255, 248, 240, 233, 225, 218, 210, 203, 196, 189, 182, 176, 169, 163, 156, 150, 144, 138, 133, 127, 121, 116, 111,
      106, 101, 96, 91, 86, 82, 77, 73, 69, 65, 61, 57, 54, 50, 47, 44, 41, 38, 35, 32, 29, 27, 25, 22, 20, 18, 16, 15, 13, 12,
      10, 9, 8, 7, 6, 6, 5, 5, 4, 4, 4]
  | _ => []

/-- 7.11.2.6, smooth -/
def smooth (w h i j : Nat) : Int :=
  let wy := (smWeights h)[i]?.getD 0
  let wx := (smWeights w)[j]?.getD 0
  Round2 (wy * A j + (256 - wy) * L (h - 1) + wx * L i + (256 - wx) * A (w - 1)) 9

def smoothV (h i j : Nat) : Int :=
  let wy := (smWeights h)[i]?.getD 0
  Round2 (wy * A j + (256 - wy) * L (h - 1)) 8

def smoothH (w i j : Nat) : Int :=
  let wx := (smWeights w)[j]?.getD 0
  Round2 (wx * L i + (256 - wx) * A (w - 1)) 8

/-- Dr_Intra_Derivative, by angle in degrees -/
def derivative (angle : Int) : Int :=
  (([(3, 1023), (6, 547), (9, 372), (14, 273), (17, 215), (20, 178), (23, 151), (26, 132), (29, 116), (32, 102), (36, 90), (39, 80),
    (42, 71), (45, 64), (48, 57), (51, 51), (54, 45), (58, 40), (61, 35), (64, 31), (67, 27), (70, 23), (73, 19), (76, 15), (81, 11),
    (84, 7), (87, 3)] : List (Int × Int)).lookup angle).getD 0

/-- 7.11.2.9, intra edge filter strength; `delta` is the distance of the angle from 90 or 180 degrees. -/
def strength (wh : Nat) (smoothNeighbour : Bool) (delta : Int) : Nat :=
  let a := delta.natAbs
  if smoothNeighbour = false then
    if wh ≤ 8 then (if a ≥ 56 then 1 else 0)
    else if wh ≤ 12 then (if a ≥ 40 then 1 else 0)
    else if wh ≤ 16 then (if a ≥ 40 then 1 else 0)
    else if wh ≤ 24 then (if a ≥ 32 then 3 else if a ≥ 16 then 2 else if a ≥ 8 then 1 else 0)
    else if wh ≤ 32 then (if a ≥ 32 then 3 else if a ≥ 4 then 2 else 1)
    else 3
  else
    if wh ≤ 8 then (if a ≥ 64 then 2 else if a ≥ 40 then 1 else 0)
    else if wh ≤ 16 then (if a ≥ 48 then 2 else if a ≥ 20 then 1 else 0)
    else if wh ≤ 24 then (if a ≥ 4 then 3 else 0)
    else 3

/-- 7.11.2.10, intra edge upsample selection -/
def useUpsample (wh : Nat) (smoothNeighbour : Bool) (delta : Int) : Bool :=
  0 < delta.natAbs ∧ delta.natAbs < 40 ∧ wh ≤ (if smoothNeighbour then 8 else 16)

/-- Intra_Edge_Kernel -/
def kernel : Nat → Nat → Int
  | 1, 1 => 4 | 1, 2 => 8 | 1, 3 => 4
  | 2, 1 => 5 | 2, 2 => 6 | 2, 3 => 5
  | 3, 0 => 2 | 3, 1 => 4 | 3, 2 => 4 | 3, 3 => 4 | 3, 4 => 2
  | _, _ => 0

/-- 7.11.2.12, intra edge filter: `sz` pixels from index -1 on are looked at, all but the first are filtered. -/
def edgeFilter (sz : Int) (str : Nat) (B : Int → Int) : Int → Int := fun k =>
  if str ≠ 0 ∧ 0 ≤ k ∧ k + 1 < sz then
    (∑ t ∈ Finset.range 5, kernel str t * B (Clip3 0 (sz - 1) (k + 1 - 2 + t) - 1) + 8) / 16
  else B k

/-- 7.11.2.11, intra edge upsample of the `numPx` pixels from index 0 on and of the one before: afterwards the pixel at index
`i` is at `2 * i` and between each two there is an interpolated one. -/
def upsample (numPx : Int) (B : Int → Int) : Int → Int := fun k =>
  let dup : Int → Int := fun i => B (Clip3 (-1) (numPx - 1) (i - 2))
  if k % 2 = 0 then B (k / 2)
  else
    let i := (k + 1) / 2
    d.clip (Round2 (-dup i + 9 * dup (i + 1) + 9 * dup (i + 2) - dup (i + 3)) 4)

/-- What the directional prediction depends on besides the pixels. -/
structure Dir where
  w : Nat
  h : Nat
  /-- enable_intra_edge_filter -/
  filter : Bool
  /-- get_filter_type: a neighbouring block is smooth -/
  sm : Bool
  haveAbove : Bool
  haveLeft : Bool
  /-- maxX - x + 1 and maxY - y + 1: the pixels up to the end of the picture -/
  availX : Int
  availY : Int

/-- 7.11.2.7, filter corner -/
def corner (D : Dir) (pAngle : Int) : Int :=
  if D.filter ∧ 90 < pAngle ∧ pAngle < 180 ∧ D.w + D.h ≥ 24 then Round2 (L 0 * 5 + A (-1) * 6 + A 0 * 5) 4 else A (-1)

/-- An edge with its corner replaced -/
def withCorner (c : Int) (B : Int → Int) : Int → Int := fun k => if k = -1 then c else B k

/-- 7.11.2.4, steps 4 and 5, for the pixels above -/
def aboveEdge (D : Dir) (pAngle : Int) : Int → Int :=
  let B := withCorner (corner A L D pAngle) A
  if D.filter then
    let B := if D.haveAbove then
      edgeFilter (min (D.w : Int) D.availX + (if pAngle < 90 then D.h else 0) + 1)
        (strength (D.w + D.h) D.sm (pAngle - 90)) B else B
    if useUpsample (D.w + D.h) D.sm (pAngle - 90) then upsample d (D.w + (if pAngle < 90 then D.h else 0)) B else B
  else B

/-- and for the ones on the left -/
def leftEdge (D : Dir) (pAngle : Int) : Int → Int :=
  let B := withCorner (corner A L D pAngle) L
  if D.filter then
    let B := if D.haveLeft then
      edgeFilter (min (D.h : Int) D.availY + (if pAngle > 180 then D.w else 0) + 1)
        (strength (D.w + D.h) D.sm (pAngle - 180)) B else B
    if useUpsample (D.w + D.h) D.sm (pAngle - 180) then upsample d (D.h + (if pAngle > 180 then D.w else 0)) B else B
  else B

/-- Interpolation between two neighbouring pixels of an edge at `idx` 64ths (32nds if upsampled) of a pixel. -/
def interp (E : Int → Int) (up : Bool) (base idx : Int) : Int :=
  let shift := (if up then idx else idx / 2) % 32
  Round2 (E base * (32 - shift) + E (base + 1) * shift) 5

/-- 7.11.2.4, directional prediction: the pixel in row `i` and column `j` -/
def directional (D : Dir) (pAngle : Int) (i j : Nat) : Int :=
  let E := aboveEdge d A L D pAngle
  let F := leftEdge d A L D pAngle
  let upA := D.filter && useUpsample (D.w + D.h) D.sm (pAngle - 90)
  let upL := D.filter && useUpsample (D.w + D.h) D.sm (pAngle - 180)
  let sa : Nat := if upA then 1 else 0
  let sl : Nat := if upL then 1 else 0
  if pAngle < 90 then
    let dx := derivative pAngle
    let idx := (i + 1) * dx
    let base := idx / 2 ^ (6 - sa) + j * 2 ^ sa
    let maxBaseX : Int := (D.w + D.h - 1) * 2 ^ sa
    if base < maxBaseX then interp E upA base idx else E maxBaseX
  else if pAngle = 90 then A j
  else if pAngle < 180 then
    let dx := derivative (180 - pAngle)
    let dy := derivative (pAngle - 90)
    let idx := (j : Int) * 2 ^ 6 - (i + 1) * dx
    let base := idx / 2 ^ (6 - sa)
    if base ≥ -(2 ^ sa) then interp E upA base idx
    else
      let idx := (i : Int) * 2 ^ 6 - (j + 1) * dy
      let base := idx / 2 ^ (6 - sl)
      interp F upL base idx
  else if pAngle = 180 then L i
  else
    let dy := derivative (270 - pAngle)
    let idx := (j + 1) * dy
    let base := idx / 2 ^ (6 - sl) + i * 2 ^ sl
    interp F upL base idx

/-- Mode_To_Angle for V_PRED, H_PRED, D45_PRED, D135_PRED, D113_PRED, D157_PRED, D203_PRED, D67_PRED -/
def modeToAngle : List Int := [90, 180, 45, 135, 113, 157, 203, 67]

/-- An angle the bitstream can code. -/
def Angle (pAngle : Int) : Prop := ∃ base ∈ modeToAngle, ∃ delta : Int, -3 ≤ delta ∧ delta ≤ 3 ∧ pAngle = base + 3 * delta

/-- Round2Signed( x, n ) -/
def Round2Signed (x : Int) (n : Nat) : Int := if x ≥ 0 then Round2 x n else -Round2 (-x) n

/-- 7.11.2.3, recursive intra prediction: `p[ k ]` of the block of 4x2 pixels number `i2`, `j4`, taken from the neighbours and from the
part `P` of the block that has been predicted already. -/
def recursiveIn (P : Int → Int → Int) (i2 j4 : Int) (k : Int) : Int :=
  if k < 5 then
    if i2 = 0 then A (4 * j4 + k - 1)
    else if j4 = 0 ∧ k = 0 then L (2 * i2 - 1)
    else P (2 * i2 - 1) (4 * j4 + k - 1)
  else
    if j4 = 0 then L (2 * i2 + k - 5) else P (2 * i2 + k - 5) (4 * j4 - 1)

/-- Intra_Filter_Taps, as in the specification: for every mode and pixel of a 4x2 block the factors of the 7 neighbours. -/
def intraFilterTaps : List (List (List Int)) := [
  [[-6, 10, 0, 0, 0, 12, 0], [-5, 2, 10, 0, 0, 9, 0], [-3, 1, 1, 10, 0, 7, 0], [-3, 1, 1, 2, 10, 5, 0],
   [-4, 6, 0, 0, 0, 2, 12], [-3, 2, 6, 0, 0, 2, 9], [-3, 2, 2, 6, 0, 2, 7], [-3, 1, 2, 2, 6, 3, 5]],
  [[-10, 16, 0, 0, 0, 10, 0], [-6, 0, 16, 0, 0, 6, 0], [-4, 0, 0, 16, 0, 4, 0], [-2, 0, 0, 0, 16, 2, 0],
   [-10, 16, 0, 0, 0, 0, 10], [-6, 0, 16, 0, 0, 0, 6], [-4, 0, 0, 16, 0, 0, 4], [-2, 0, 0, 0, 16, 0, 2]],
  [[-8, 8, 0, 0, 0, 16, 0], [-8, 0, 8, 0, 0, 16, 0], [-8, 0, 0, 8, 0, 16, 0], [-8, 0, 0, 0, 8, 16, 0],
   [-4, 4, 0, 0, 0, 0, 16], [-4, 0, 4, 0, 0, 0, 16], [-4, 0, 0, 4, 0, 0, 16], [-4, 0, 0, 0, 4, 0, 16]],
  [[-2, 8, 0, 0, 0, 10, 0], [-1, 3, 8, 0, 0, 6, 0], [-1, 2, 3, 8, 0, 4, 0], [0, 1, 2, 3, 8, 2, 0],
   [-1, 4, 0, 0, 0, 3, 10], [-1, 3, 4, 0, 0, 4, 6], [-1, 2, 3, 4, 0, 4, 4], [-1, 2, 2, 3, 4, 3, 3]],
  [[-12, 14, 0, 0, 0, 14, 0], [-10, 0, 14, 0, 0, 12, 0], [-9, 0, 0, 14, 0, 11, 0], [-8, 0, 0, 0, 14, 10, 0],
   [-10, 12, 0, 0, 0, 0, 14], [-9, 1, 12, 0, 0, 0, 12], [-8, 0, 0, 12, 0, 1, 11], [-7, 0, 0, 1, 12, 1, 9]]]

def filterTap (mode pos k : Nat) : Int := ((intraFilterTaps.getD mode []).getD pos []).getD k 0

/-- `P` is the recursive prediction with the taps Intra_Filter_Taps[ mode ]. -/
def Recursive (taps : Nat → Nat → Int) (w h : Nat) (P : Int → Int → Int) : Prop :=
  ∀ i j : Nat, i < h → j < w →
    P i j = d.clip (Round2Signed (∑ k ∈ Finset.range 7, taps (i % 2 * 4 + j % 4) k * recursiveIn A L P (i / 2) (j / 4) k) 4)

/-- 7.11.5, chroma from luma: the sum of the luma pixels of the chroma pixel in row `i` and column `j`, scaled to 8 times a pixel.
`availW` and `availH` are the sizes of the part of the block that has luma, in chroma pixels. -/
def cflLuma (luma : Int → Int → Int) (subX subY : Bool) (availW availH : Nat) (i j : Nat) : Int :=
  let sx : Nat := if subX then 1 else 0
  let sy : Nat := if subY then 1 else 0
  let lumaY := min (i * 2 ^ sy) ((availH - 1) * 2 ^ sy)
  let lumaX := min (j * 2 ^ sx) ((availW - 1) * 2 ^ sx)
  (∑ dy ∈ Finset.range (sy + 1), ∑ dx ∈ Finset.range (sx + 1), luma (lumaY + dy : Nat) (lumaX + dx : Nat)) * 2 ^ (3 - sx - sy)

/-- The mean of these sums over the block of `2 ^ log2W` times `2 ^ log2H` pixels. -/
def cflAvg (luma : Int → Int → Int) (subX subY : Bool) (availW availH : Nat) (log2W log2H : Nat) : Int :=
  Round2 (∑ i ∈ Finset.range (2 ^ log2H), ∑ j ∈ Finset.range (2 ^ log2W), cflLuma luma subX subY availW availH i j) (log2W + log2H)

/-- The predicted chroma pixel, `dc` being the DC prediction. -/
def cfl (luma : Int → Int → Int) (subX subY : Bool) (availW availH : Nat) (log2W log2H : Nat) (alpha dc : Int) (i j : Nat) : Int :=
  d.clip (dc + Round2Signed (alpha * (cflLuma luma subX subY availW availH i j - cflAvg luma subX subY availW availH log2W log2H)) 6)

/-- A block of `w` times `h` pixels at row `y` and column `x` of a plane, the neighbours of it that are available, and the last
row and column of the picture (for a tile: that its blocks may use). -/
structure Block where
  x : Int
  y : Int
  w : Nat
  h : Nat
  haveLeft : Bool
  haveAbove : Bool
  haveAboveRt : Bool
  haveBelowLft : Bool
  maxX : Int
  maxY : Int

/-- 7.11.2: AboveRow[ i ] for `i < w + h`. At most `w` pixels above and right of the block are used; the last pixel is repeated (and so
is the last entry, which nothing depends on). -/
def aboveRow (f : Int → Int → Int) (b : Block) (i : Int) : Int :=
  if i = -1 then
    match b.haveLeft, b.haveAbove with
    | true, true => f (b.y - 1) (b.x - 1)
    | false, true => f (b.y - 1) b.x
    | true, false => f b.y (b.x - 1)
    | false, false => 2 ^ (d.bpc - 1)
  else if b.haveAbove then
    f (b.y - 1) (min b.maxX (b.x + (if i < b.w then i else if b.haveAboveRt then min i (b.w + min (b.w : Int) b.h - 1) else b.w - 1)))
  else if b.haveLeft then f b.y (b.x - 1)
  else 2 ^ (d.bpc - 1) - 1

/-- 7.11.2: LeftCol[ i ], likewise. -/
def leftCol (f : Int → Int → Int) (b : Block) (i : Int) : Int :=
  if i = -1 then aboveRow d f b (-1)
  else if b.haveLeft then
    f (min b.maxY (b.y + (if i < b.h then i else if b.haveBelowLft then min i (b.h + min (b.w : Int) b.h - 1) else b.h - 1))) (b.x - 1)
  else if b.haveAbove then f (b.y - 1) b.x
  else 2 ^ (d.bpc - 1) + 1

end Dav1d.Ipred.Spec
