import Verif.Dsp.FgTables
import Verif.Dsp.Mc
import Verif.Obu.FrameTypes

/-!
# Model of film grain: src/filmgrain_tmpl.c and src/fg_apply_tmpl.c

Simplifications:

* A plane or a grain table is a function of row and column, with absolute positions; strides are left out, so is the order
  of the bytes for negative strides. Uninitialised memory is a parameter.
* `int` is the set of integers, the states of the random number generator are natural numbers below 2^16. Values kept in
  `entry`, in pixels and in the bytes of the scaling table are reduced to those types.
* The four loops over the parts of a block, src/filmgrain_tmpl.c:228-274 and 354-400, write each pixel of a block once, and
  only read the source: the model has one assignment for the whole block with the four cases.
* fgy_32x32xn_c and fguv_32x32xn_c have the same structure; what is shared is defined once, for luma with `sx` and `sy` 0.
* The C versions of the functions are modelled, not the assembly ones.
-/
namespace Dav1d.Fg
open Dav1d

/-- `for (i = 0; i < n; i++)` -/
def loop {σ : Type} (n : Nat) (f : Nat → σ → σ) (s : σ) : σ := (List.range n).foldl (fun s i => f i s) s

/-- Writing one element. -/
def setAt (b : Plane) (y x v : Int) : Plane := fun y' x' => if y' = y ∧ x' = x then v else b y' x'

/-- Storing in an `entry`: int8_t or int16_t, src/filmgrain.h:38-44. -/
def entry (d : Depth) (v : Int) : Int :=
  match d with
  | .b8 => (v + 128) % 256 - 128
  | _ => (v + 32768) % 65536 - 32768

/-- Storing in a `pixel`. -/
def pixel (d : Depth) (v : Int) : Int :=
  match d with
  | .b8 => v % 256
  | _ => v % 65536

/-- `bitdepth_min_8` -/
def min8 (d : Depth) : Nat := d.bpc - 8

/-! ## The random numbers -/

/-- get_random_number, src/filmgrain_tmpl.c:38-44: the new state. -/
def nextState (r : Nat) : Nat := (r >>> 1) ||| (((r ^^^ (r >>> 1) ^^^ (r >>> 3) ^^^ (r >>> 12)) &&& 1) <<< 15)

/-- get_random_number, src/filmgrain_tmpl.c:38-44: the number, from the new state. -/
def number (bits : Nat) (state : Nat) : Nat := (state >>> (16 - bits)) &&& ((1 <<< bits) - 1)

/-- round2, src/filmgrain_tmpl.c:46-48. -/
def round2 (x : Int) (shift : Nat) : Int := asr (x + half shift) shift

/-! ## The grain templates -/

/-- The state of the first loop: `seed` and `buf`. -/
structure NoiseSt where
  seed : Nat
  buf : Plane

/-- The body of the loop, src/filmgrain_tmpl.c:62-63 and 105-106. -/
def noiseStep (d : Depth) (g : FilmGrainData) (y x : Nat) (s : NoiseSt) : NoiseSt :=
  let seed := nextState s.seed
  let shift := 4 - min8 d + g.grainScaleShift
  ⟨seed, setAt s.buf y x (entry d (round2 (gaussianSequence.getD (number 11 seed) 0) shift))⟩

/-- The first loop, src/filmgrain_tmpl.c:60-65 and 103-108. -/
def noise (d : Depth) (g : FilmGrainData) (w h seed : Nat) (junk : Plane) : Plane :=
  (loop h (fun y => loop w (fun x => noiseStep d g y x)) ⟨seed, junk⟩).buf

/-- The loop over dx, src/filmgrain_tmpl.c:75-79: it ends with dx -1 for dy 0. The state is how far `coeff` was moved and
`sum`. -/
def arRow (c : List Int) (buf : Plane) (lag : Nat) (y x dy : Int) (s : Nat × Int) : Nat × Int :=
  loop (if dy = 0 then lag else 2 * lag + 1) (fun i s => (s.1 + 1, s.2 + c.getD s.1 0 * buf (y + dy) (x + i - lag))) s

/-- The loop over dy, src/filmgrain_tmpl.c:74-80 and 117-139 without 121-135. -/
def arSum (c : List Int) (buf : Plane) (lag : Nat) (y x : Int) : Nat × Int :=
  loop (lag + 1) (fun i => arRow c buf lag y x ((i : Int) - lag)) (0, 0)

/-- The second loop, src/filmgrain_tmpl.c:70-85 and 113-144: `last k` is what is added to the sum in the end, `k` being how
far `coeff` was moved. -/
def autoReg (d : Depth) (g : FilmGrainData) (c : List Int) (w h : Nat) (last : Nat → Nat → Nat → Int) (buf : Plane) : Plane :=
  loop (h - 3) (fun i => loop (w - 6) (fun j buf =>
    let y := i + 3
    let x := j + 3
    let s := arSum c buf g.arCoeffLag y x
    let grain := buf y x + round2 (s.2 + last s.1 y x) g.arCoeffShift
    setAt buf y x (entry d (iclip grain (-(128 * 2 ^ min8 d)) (128 * 2 ^ min8 d - 1))))) buf

/-- generate_grain_y_c, src/filmgrain_tmpl.c:50-86. -/
def generateGrainY (d : Depth) (g : FilmGrainData) (junk : Plane) : Plane :=
  autoReg d g g.arCoeffsY 82 73 (fun _ _ _ => 0) (noise d g 82 73 g.seed junk)

/-- data->ar_coeffs_uv[uv] -/
def arCoeffsUv (g : FilmGrainData) (uv : Bool) : List Int := if uv then g.arCoeffsUv1 else g.arCoeffsUv0

/-- data->uv_points[uv] -/
def uvPoints (g : FilmGrainData) (uv : Bool) : List (Nat × Nat) := if uv then g.uvPoints1 else g.uvPoints0

/-- data->uv_mult[uv], data->uv_luma_mult[uv], data->uv_offset[uv] -/
def uvMult (g : FilmGrainData) (uv : Bool) : Int × Int × Int := if uv then g.uvMult1 else g.uvMult0

/-- chromaW, src/filmgrain_tmpl.c:100 -/
def chromaW (sx : Nat) : Nat := if sx ≠ 0 then 44 else 82

/-- chromaH, src/filmgrain_tmpl.c:101 -/
def chromaH (sy : Nat) : Nat := if sy ≠ 0 then 38 else 73

/-- The part of luma, src/filmgrain_tmpl.c:122-134. -/
def lumaPart (g : FilmGrainData) (c : List Int) (bufY : Plane) (sx sy : Nat) (k y x : Nat) : Int :=
  if g.yPoints.length = 0 then 0
  else
    let lumaX := (x - 3) <<< sx + 3
    let lumaY := (y - 3) <<< sy + 3
    let luma := loop (sy + 1) (fun i => loop (sx + 1) (fun j s => s + bufY ((lumaY + i : Nat) : Int) ((lumaX + j : Nat) : Int))) 0
    round2 luma (sx + sy) * c.getD k 0

/-- generate_grain_uv_c, src/filmgrain_tmpl.c:88-145. -/
def generateGrainUv (d : Depth) (g : FilmGrainData) (uv : Bool) (sx sy : Nat) (bufY junk : Plane) : Plane :=
  let seed := g.seed ^^^ (if uv then 0x49d8 else 0xb524)
  autoReg d g (arCoeffsUv g uv) (chromaW sx) (chromaH sy) (lumaPart g (arCoeffsUv g uv) bufY sx sy)
    (noise d g (chromaW sx) (chromaH sy) seed junk)

/-! ## The scaling tables -/

/-- Storing in an uint8_t. -/
def byte (v : Int) : Int := v % 256

/-- memset of `n` bytes from position `i`. -/
def fill (s : Int → Int) (i n : Nat) (v : Int) : Int → Int := fun j => if i ≤ j ∧ j < i + n then byte v else s j

/-- The loop over x, src/fg_apply_tmpl.c:72-75. The state is the table and `d`. -/
def interpSeg (shiftX : Nat) (p q : Nat × Nat) (s : Int → Int) : Int → Int :=
  let dx := q.1 - p.1
  let dy := (q.2 : Int) - p.2
  let delta := dy * ((0x10000 + (dx >>> 1)) / dx : Nat)
  (loop dx (fun x (s : (Int → Int) × Int) =>
    ((fun j => if j = ((p.1 + x) <<< shiftX : Nat) then byte (p.2 + asr s.2 16) else s.1 j), s.2 + delta)) (s, 0x8000)).1

/-- The loop over the segments, src/fg_apply_tmpl.c:63-76. -/
def interpAll (shiftX : Nat) : List (Nat × Nat) → (Int → Int) → Int → Int
  | p :: q :: r, s => interpAll shiftX (q :: r) (interpSeg shiftX p q s)
  | _, s => s

/-- The loops over x and n, src/fg_apply_tmpl.c:88-94. The state of the inner one is the table and `r`. -/
def padSeg (shiftX : Nat) (p q : Nat × Nat) (s : Int → Int) : Int → Int :=
  let pad := 1 <<< shiftX
  let bx := p.1 <<< shiftX
  let dx := q.1 <<< shiftX - bx
  loop ((dx + pad - 1) / pad) (fun i s =>
    let x := i * pad
    let range := s ((bx + x + pad : Nat) : Int) - s ((bx + x : Nat) : Int)
    (loop (pad - 1) (fun k (t : (Int → Int) × Int) =>
      let r := t.2 + range
      ((fun j => if j = ((bx + x + (k + 1) : Nat) : Int) then byte (t.1 ((bx + x : Nat) : Int) + asr r shiftX) else t.1 j), r))
      (s, (pad >>> 1 : Nat))).1) s

/-- The loop over the segments, src/fg_apply_tmpl.c:84-95. -/
def padAll (shiftX : Nat) : List (Nat × Nat) → (Int → Int) → Int → Int
  | p :: q :: r, s => padAll shiftX (q :: r) (padSeg shiftX p q s)
  | _, s => s

/-- generate_scaling, src/fg_apply_tmpl.c:41-97. -/
def generateScaling (d : Depth) (points : List (Nat × Nat)) (junk : Int → Int) : Int → Int :=
  let shiftX := min8 d
  let size := 1 <<< d.bpc
  match points with
  | [] => fill junk 0 size 0
  | p :: r =>
    let s := fill junk 0 (p.1 <<< shiftX) p.2
    let s := interpAll shiftX (p :: r) s
    let q := (p :: r).getLast (by simp)
    let n := q.1 <<< shiftX
    let s := fill s n (size - n) q.2
    if d = .b8 then s else padAll shiftX (p :: r) s

/-! ## Adding the noise -/

/-- `offsets[2][2]`: the number for this block and the one before it, in this row and the one above. -/
structure Offs where
  cur : Nat
  curUp : Nat
  prev : Nat
  prevUp : Nat

/-- sample_lut, src/filmgrain_tmpl.c:158-167. -/
def sampleLut (lut : Plane) (randval sx sy bx by_ : Nat) (x y : Int) : Int :=
  let offx := 3 + (2 >>> sx) * (3 + (randval >>> 4))
  let offy := 3 + (2 >>> sy) * (3 + (randval &&& 0xF))
  lut (offy + y + (32 >>> sy : Nat) * by_) (offx + x + (32 >>> sx : Nat) * bx)

/-- `w[sx][x]`, src/filmgrain_tmpl.c:220 and 330-333. -/
def overlapW (s : Nat) (x : Int) : Int × Int :=
  if s = 0 then (if x = 0 then (27, 17) else (17, 27)) else (23, 22)

/-- Two grains mixed, src/filmgrain_tmpl.c:239-240 etc. -/
def mix (d : Depth) (s : Nat) (x old grain : Int) : Int :=
  iclip (round2 (old * (overlapW s x).1 + grain * (overlapW s x).2) 5) (-(128 * 2 ^ min8 d)) (128 * 2 ^ min8 d - 1)

/-- The grain for a position of the block, src/filmgrain_tmpl.c:228-274 and 354-400. -/
def grainAt (d : Depth) (lut : Plane) (o : Offs) (sx sy xstart ystart : Nat) (x y : Int) : Int :=
  if ystart ≤ y then
    if xstart ≤ x then sampleLut lut o.cur sx sy 0 0 x y
    else mix d sx x (sampleLut lut o.prev sx sy 1 0 x y) (sampleLut lut o.cur sx sy 0 0 x y)
  else
    if xstart ≤ x then mix d sy y (sampleLut lut o.curUp sx sy 0 1 x y) (sampleLut lut o.cur sx sy 0 0 x y)
    else
      let top := mix d sx x (sampleLut lut o.prevUp sx sy 1 1 x y) (sampleLut lut o.curUp sx sy 0 1 x y)
      let grain := mix d sx x (sampleLut lut o.prev sx sy 1 0 x y) (sampleLut lut o.cur sx sy 0 0 x y)
      mix d sy y top grain

/-- `seed[i]`, src/filmgrain_tmpl.c:190-196. -/
def rowSeed (g : FilmGrainData) (row : Nat) : Nat :=
  g.seed ^^^ (((row * 37 + 178) &&& 0xFF) <<< 8) ^^^ ((row * 173 + 105) &&& 0xFF)

/-- The state of the loop over the blocks of a row: `seed[0]`, `seed[1]`, `offsets` and the picture. -/
structure RowSt where
  seed : Nat
  seedUp : Nat
  offs : Offs
  dst : Plane

/-- The body of the loop over the blocks, src/filmgrain_tmpl.c:203-275 and 314-401. `put grain y x` is add_noise_y or
add_noise_uv; `y0` is the row `dst_row` points to. -/
def blockStep (d : Depth) (g : FilmGrainData) (lut : Plane) (sx sy pw bh row : Nat) (y0 : Int) (put : Int → Int → Int → Int)
    (k : Nat) (s : RowSt) : RowSt :=
  let bs := 32 >>> sx
  let bx := k * bs
  let bw := min bs (pw - bx)
  let two := g.overlapFlag = true ∧ row > 0
  let o := s.offs
  let o := if g.overlapFlag = true ∧ bx ≠ 0 then
      { o with prev := o.cur, prevUp := if two then o.curUp else o.prevUp } else o
  let seed := nextState s.seed
  let seedUp := if two then nextState s.seedUp else s.seedUp
  let o := { o with cur := number 8 seed, curUp := if two then number 8 seedUp else o.curUp }
  let ystart := if g.overlapFlag = true ∧ row ≠ 0 then min (2 >>> sy) bh else 0
  let xstart := if g.overlapFlag = true ∧ bx ≠ 0 then min (2 >>> sx) bw else 0
  let dst : Plane := fun Y X =>
    if y0 ≤ Y ∧ Y < y0 + bh ∧ bx ≤ X ∧ X < bx + bw then put (grainAt d lut o sx sy xstart ystart (X - bx) (Y - y0)) (Y - y0) X
    else s.dst Y X
  ⟨seed, seedUp, o, dst⟩

/-- fgy_32x32xn_c and fguv_32x32xn_c, src/filmgrain_tmpl.c:169-276 and 278-402. -/
def fgRow (d : Depth) (g : FilmGrainData) (lut : Plane) (sx sy pw bh row : Nat) (y0 : Int) (put : Int → Int → Int → Int)
    (junk : Offs) (junkSeed : Nat) (dst : Plane) : Plane :=
  let seedUp := if g.overlapFlag = true ∧ row > 0 then rowSeed g (row - 1) else junkSeed
  (loop ((pw + (32 >>> sx) - 1) / (32 >>> sx)) (blockStep d g lut sx sy pw bh row y0 put)
    ⟨rowSeed g row, seedUp, junk, dst⟩).dst

/-- `min_value`, src/filmgrain_tmpl.c:181-188. -/
def minValue (d : Depth) (g : FilmGrainData) : Int := if g.clipToRestrictedRange then 16 * 2 ^ min8 d else 0

/-- `max_value`, src/filmgrain_tmpl.c:181-188 and 292-299: `m` is 235 or 240. -/
def maxValue (d : Depth) (g : FilmGrainData) (m : Int) : Int := if g.clipToRestrictedRange then m * 2 ^ min8 d else d.max

/-- add_noise_y, src/filmgrain_tmpl.c:222-226. `src` and `y0` are as for the row: positions are those in the row. -/
def addNoiseY (d : Depth) (g : FilmGrainData) (scaling : Int → Int) (src : Plane) (y0 : Int) (grain y x : Int) : Int :=
  let v := src (y0 + y) x
  let noise := round2 (scaling v * grain) g.scalingShift
  pixel d (iclip (v + noise) (minValue d g) (maxValue d g 235))

/-- add_noise_uv, src/filmgrain_tmpl.c:335-352. `ly0` is the row `luma_row` points to. -/
def addNoiseUv (d : Depth) (g : FilmGrainData) (uv isId : Bool) (sx sy : Nat) (scaling : Int → Int) (src luma : Plane)
    (y0 ly0 : Int) (grain y x : Int) : Int :=
  let lx := x * 2 ^ sx
  let ly := y * 2 ^ sy
  let avg := luma (ly0 + ly) lx
  let avg := if sx ≠ 0 then pixel d (asr (avg + luma (ly0 + ly) (lx + 1) + 1) 1) else avg
  let v := src (y0 + y) x
  let m := uvMult g uv
  let val := if g.chromaScalingFromLuma then avg
    else d.clip (asr (avg * m.2.1 + v * m.1) 6 + m.2.2 * 2 ^ min8 d)
  let noise := round2 (scaling val * grain) g.scalingShift
  pixel d (iclip (v + noise) (minValue d g) (maxValue d g (if isId then 235 else 240)))

/-! ## The picture -/

/-- enum Dav1dPixelLayout, include/dav1d/headers.h. -/
inductive Layout where
  | i400 | i420 | i422 | i444
  deriving DecidableEq

/-- `ss_x`, src/fg_apply_tmpl.c:171. -/
def Layout.sx (l : Layout) : Nat := if l = .i444 then 0 else 1

/-- `ss_y`, src/fg_apply_tmpl.c:170. -/
def Layout.sy (l : Layout) : Nat := if l = .i420 then 1 else 0

/-- What is needed of Dav1dPicture beside the planes: `p.w`, `p.h`, `p.bpc`, `p.layout`, `seq_hdr->mtrx == DAV1D_MC_IDENTITY`
and the film grain data. -/
structure PicInfo where
  w : Nat
  h : Nat
  depth : Depth
  layout : Layout
  isId : Bool
  grain : FilmGrainData

/-- The planes of the input, of which the luma padding is written, and of the output. -/
structure Planes where
  inY : Plane
  inU : Plane
  inV : Plane
  outY : Plane
  outU : Plane
  outV : Plane

/-- `scaling` and `grain_lut`. -/
structure Luts where
  scY : Int → Int
  scU : Int → Int
  scV : Int → Int
  y : Plane
  u : Plane
  v : Plane

/-- memcpy of `h` rows. -/
def copyRows (h : Nat) (src dst : Plane) : Plane := fun y x => if 0 ≤ y ∧ y < h then src y x else dst y x

/-- dav1d_prep_grain, src/fg_apply_tmpl.c:111-126: the tables. -/
def prepLuts (p : PicInfo) (junk : Luts) : Luts :=
  let g := p.grain
  let y := generateGrainY p.depth g junk.y
  let cfl := g.chromaScalingFromLuma
  { y := y
    u := if g.uvPoints0.length ≠ 0 ∨ cfl = true then generateGrainUv p.depth g false p.layout.sx p.layout.sy y junk.u else junk.u
    v := if g.uvPoints1.length ≠ 0 ∨ cfl = true then generateGrainUv p.depth g true p.layout.sx p.layout.sy y junk.v else junk.v
    scY := if g.yPoints.length ≠ 0 ∨ cfl = true then generateScaling p.depth g.yPoints junk.scY else junk.scY
    scU := if g.uvPoints0.length ≠ 0 then generateScaling p.depth g.uvPoints0 junk.scU else junk.scU
    scV := if g.uvPoints1.length ≠ 0 then generateScaling p.depth g.uvPoints1 junk.scV else junk.scV }

/-- dav1d_prep_grain, src/fg_apply_tmpl.c:129-158: the planes. -/
def prepPlanes (p : PicInfo) (s : Planes) : Planes :=
  let g := p.grain
  let outY := if g.yPoints.length = 0 then copyRows p.h s.inY s.outY else s.outY
  let chroma := p.layout ≠ .i400 ∧ g.chromaScalingFromLuma = false
  let ch := (p.h + p.layout.sy) >>> p.layout.sy
  { s with
    outY := outY
    outU := if chroma ∧ g.uvPoints0.length = 0 then copyRows ch s.inU s.outU else s.outU
    outV := if chroma ∧ g.uvPoints1.length = 0 then copyRows ch s.inV s.outV else s.outV }

/-- The padding of luma, src/fg_apply_tmpl.c:196-202. -/
def padLuma (p : PicInfo) (row bh : Nat) (inY : Plane) : Plane :=
  if p.w &&& p.layout.sx ≠ 0 then
    loop bh (fun y s => setAt s (row * 32 + y * 2 ^ p.layout.sy) p.w (s (row * 32 + y * 2 ^ p.layout.sy) (p.w - 1))) inY
  else inY

/-- Uninitialised locals of the row functions. -/
structure RowJunk where
  offs : Offs
  seed : Nat

/-- dav1d_apply_grain_row, src/fg_apply_tmpl.c:161-223. -/
def applyGrainRow (p : PicInfo) (l : Luts) (junk : RowJunk) (s : Planes) (row : Nat) : Planes :=
  let g := p.grain
  let d := p.depth
  let sx := p.layout.sx
  let sy := p.layout.sy
  let cpw := (p.w + sx) >>> sx
  let bh := min (p.h - row * 32) 32
  let outY := if g.yPoints.length ≠ 0 then
      fgRow d g l.y 0 0 p.w bh row (row * 32) (addNoiseY d g l.scY s.inY (row * 32)) junk.offs junk.seed s.outY
    else s.outY
  let s := { s with outY := outY }
  if g.uvPoints0.length = 0 ∧ g.uvPoints1.length = 0 ∧ g.chromaScalingFromLuma = false then s
  else
    let bh := (bh + sy) >>> sy
    let inY := padLuma p row bh s.inY
    let y0 : Int := ((row * 32) >>> sy : Nat)
    let u (scaling : Int → Int) : Plane := fgRow d g l.u sx sy cpw bh row y0
      (addNoiseUv d g false p.isId sx sy scaling s.inU inY y0 (row * 32)) junk.offs junk.seed s.outU
    let v (scaling : Int → Int) : Plane := fgRow d g l.v sx sy cpw bh row y0
      (addNoiseUv d g true p.isId sx sy scaling s.inV inY y0 (row * 32)) junk.offs junk.seed s.outV
    if g.chromaScalingFromLuma then { s with inY := inY, outU := u l.scY, outV := v l.scY }
    else
      { s with
        inY := inY
        outU := if g.uvPoints0.length ≠ 0 then u l.scU else s.outU
        outV := if g.uvPoints1.length ≠ 0 then v l.scV else s.outV }

/-- dav1d_apply_grain, src/fg_apply_tmpl.c:225-240, with the rows in the given order; there it is 0, 1, 2, ... With threads,
src/thread_task.c:474-550, each row is done by one of the threads. -/
def applyGrain (p : PicInfo) (junk : Luts) (rowJunk : Nat → RowJunk) (rows : List Nat) (s : Planes) : Planes :=
  rows.foldl (fun s row => applyGrainRow p (prepLuts p junk) (rowJunk row) s row) (prepPlanes p s)

/-- `rows`, src/fg_apply_tmpl.c:235. -/
def numRows (p : PicInfo) : Nat := (p.h + 31) / 32

/-- has_grain, src/lib.c:301-308. -/
def hasGrain (g : FilmGrainData) : Bool :=
  g.yPoints.length ≠ 0 ∨ g.uvPoints0.length ≠ 0 ∨ g.uvPoints1.length ≠ 0 ∨
    (g.clipToRestrictedRange = true ∧ g.chromaScalingFromLuma = true)

end Dav1d.Fg
