import Verif.Dsp.Lf
/-!
# Model of the intra predictors, src/ipred_tmpl.c, and of their edges, src/ipred_prepare_tmpl.c

* A pointer to edge pixels is a function from the index to the pixel there, `none` where there is none to read: outside of
  the array or not written yet. A predictor whose value is `none` read such a place, failed an assertion or wrote behind
  the end of one of its local arrays.
* The loops over a block compute each pixel from the edge alone (except ipred_filter_c), so the model has the value at
  column `x` and row `y`. Strides and addresses of `dst` are left out.
* `int` is the set of integers; every value here is far below 2^31. `unsigned` sums are taken modulo 2^32. Pixels stored
  are reduced to 8 or 16 bits.
* The C versions are modelled, not the assembly ones.
-/
namespace Dav1d.Ipred
open Lf

/-- dav1d_sm_weights, src/tables.c:686-712. -/
def smWeights : List Int :=
  [0, 0, 255, 128, 255, 149, 85, 64, 255, 197, 146, 105, 73, 50, 37, 32, 255, 225, 196, 170, 145, 123, 102, 84, 68, 54, 43, 33, 26, 20, 17,
   16, 255, 240, 225, 210, 196, 182, 169, 157, 145, 133, 122, 111, 101, 92, 83, 74, 66, 59, 52, 45, 39, 34, 29, 25, 21, 17, 14, 12, 10, 9,
   8, 8, 255, 248, 240, 233, 225, 218, 210, 203, 196, 189, 182, 176, 169, 163, 156, 150, 144, 138, 133, 127, 121, 116, 111, 106, 101, 96,
   91, 86, 82, 77, 73, 69, 65, 61, 57, 54, 50, 47, 44, 41, 38, 35, 32, 29, 27, 25, 22, 20, 18, 16, 15, 13, 12, 10, 9, 8, 7, 6, 6, 5, 5, 4,
   4, 4]

/-- dav1d_dr_intra_derivative, src/tables.c:714-744. -/
def drDerivative : List Int :=
  [0, 1023, 0, 547, 372, 0, 0, 273, 215, 0, 178, 151, 0, 132, 116, 0, 102, 0, 90, 80, 0, 71, 64, 0, 57, 51, 0, 45, 0, 40, 35, 0, 31, 27, 0,
   23, 19, 0, 15, 0, 11, 0, 7, 3]

/-- dav1d_filter_intra_taps, src/tables.c:759-806. For each of the five modes the seven factors of each of the 8 pixels; the
layout of the array, which differs between x86 and other architectures (746-758) and is undone by FILTER in
src/ipred_tmpl.c:601-615, is left out. -/
def filterIntraTaps : List (List (List Int)) :=
  [[[-6, 10, 0, 0, 0, 12, 0],
    [-5, 2, 10, 0, 0, 9, 0],
    [-3, 1, 1, 10, 0, 7, 0],
    [-3, 1, 1, 2, 10, 5, 0],
    [-4, 6, 0, 0, 0, 2, 12],
    [-3, 2, 6, 0, 0, 2, 9],
    [-3, 2, 2, 6, 0, 2, 7],
    [-3, 1, 2, 2, 6, 3, 5]],
   [[-10, 16, 0, 0, 0, 10, 0],
    [-6, 0, 16, 0, 0, 6, 0],
    [-4, 0, 0, 16, 0, 4, 0],
    [-2, 0, 0, 0, 16, 2, 0],
    [-10, 16, 0, 0, 0, 0, 10],
    [-6, 0, 16, 0, 0, 0, 6],
    [-4, 0, 0, 16, 0, 0, 4],
    [-2, 0, 0, 0, 16, 0, 2]],
   [[-8, 8, 0, 0, 0, 16, 0],
    [-8, 0, 8, 0, 0, 16, 0],
    [-8, 0, 0, 8, 0, 16, 0],
    [-8, 0, 0, 0, 8, 16, 0],
    [-4, 4, 0, 0, 0, 0, 16],
    [-4, 0, 4, 0, 0, 0, 16],
    [-4, 0, 0, 4, 0, 0, 16],
    [-4, 0, 0, 0, 4, 0, 16]],
   [[-2, 8, 0, 0, 0, 10, 0],
    [-1, 3, 8, 0, 0, 6, 0],
    [-1, 2, 3, 8, 0, 4, 0],
    [0, 1, 2, 3, 8, 2, 0],
    [-1, 4, 0, 0, 0, 3, 10],
    [-1, 3, 4, 0, 0, 4, 6],
    [-1, 2, 3, 4, 0, 4, 4],
    [-1, 2, 2, 3, 4, 3, 3]],
   [[-12, 14, 0, 0, 0, 14, 0],
    [-10, 0, 14, 0, 0, 12, 0],
    [-9, 0, 0, 14, 0, 11, 0],
    [-8, 0, 0, 0, 14, 10, 0],
    [-10, 12, 0, 0, 0, 0, 14],
    [-9, 1, 12, 0, 0, 0, 12],
    [-8, 0, 0, 12, 0, 1, 11],
    [-7, 0, 0, 1, 12, 1, 9]]]

/-- Pixels of an edge: `none` cannot be read. -/
abbrev Edge := Int → Option Int

/-- ctz, include/common/attributes.h:149-153 and 176-178: the lowest bit set of a 32 bit number. -/
def ctz (n : Nat) : Nat := ((List.range 32).find? (fun i => n.testBit i)).getD 0

/-- `for (int i = 0; i < n; i++) dc += p[i];` with `dc` unsigned. -/
def addPixels (p : Nat → Option Int) : Nat → Int → Option Int
  | 0, a => some a
  | n + 1, a => (addPixels p n a).bind fun s => (p n).map fun v => (s + v) % 2 ^ 32

/-- dc_gen_top, src/ipred_tmpl.c:86-91. -/
def dcGenTop (tl : Edge) (w : Nat) : Option Int :=
  (addPixels (fun i => tl (1 + i)) w (asr w 1)).map fun dc => asr dc (ctz w)

/-- dc_gen_left, src/ipred_tmpl.c:113-118. -/
def dcGenLeft (tl : Edge) (h : Nat) : Option Int :=
  (addPixels (fun i => tl (-(1 + i))) h (asr h 1)).map fun dc => asr dc (ctz h)

/-- MULTIPLIER_1x2, MULTIPLIER_1x4, BASE_SHIFT, src/ipred_tmpl.c:140-148. -/
def mul1x2 : Depth → Int | .b8 => 0x5556 | _ => 0xAAAB
def mul1x4 : Depth → Int | .b8 => 0x3334 | _ => 0x6667
def baseShift : Depth → Nat | .b8 => 16 | _ => 17

/-- dc_gen, src/ipred_tmpl.c:150-166. -/
def dcGen (d : Depth) (tl : Edge) (w h : Nat) : Option Int :=
  (addPixels (fun i => tl (i + 1)) w (asr (w + h) 1)).bind fun s =>
  (addPixels (fun i => tl (-(i + 1))) h s).map fun s =>
  let dc := asr s (ctz (w + h))
  if w ≠ h then asr (dc * (if w > h * 2 ∨ h > w * 2 then mul1x4 d else mul1x2 d) % 2 ^ 32) (baseShift d) else dc

/-- ipred_dc_128_c, src/ipred_tmpl.c:192-204. -/
def dc128 (d : Depth) : Int := match d with
  | .b8 => 128
  | d => asr (d.max + 1) 1

/-- splat_dc, src/ipred_tmpl.c:39-69: each byte (16 bits) of the product is `dc` if the assertion holds. -/
def splat (d : Depth) (dc : Int) : Option Int := if dc ≤ d.max then some dc else none

/-- cfl_pred, src/ipred_tmpl.c:71-84, with the value of `ac` at the pixel. -/
def cflPx (d : Depth) (dc ac alpha : Int) : Int :=
  let diff := alpha * ac
  let v := asr ((diff.natAbs : Int) + 32) 6
  d.clip (dc + (if diff < 0 then -v else v))

/-- ipred_v_c, src/ipred_tmpl.c:220-230. -/
def predV (tl : Edge) (x _y : Nat) : Option Int := tl (1 + x)

/-- ipred_h_c, src/ipred_tmpl.c:232-242. -/
def predH (tl : Edge) (_x y : Nat) : Option Int := tl (-(1 + y))

/-- ipred_paeth_c, src/ipred_tmpl.c:244-265. -/
def paeth (tl : Edge) (x y : Nat) : Option Int :=
  (tl 0).bind fun topleft => (tl (-(y + 1))).bind fun left => (tl (1 + x)).map fun top =>
  let base := left + top - topleft
  let ldiff := (left - base).natAbs
  let tdiff := (top - base).natAbs
  let tldiff := (topleft - base).natAbs
  if ldiff ≤ tdiff ∧ ldiff ≤ tldiff then left else if tdiff ≤ tldiff then top else topleft

/-- ipred_smooth_c, src/ipred_tmpl.c:267-287. -/
def smooth (d : Depth) (tl : Edge) (w h x y : Nat) : Option Int :=
  (smWeights[w + x]?).bind fun wh => (smWeights[h + y]?).bind fun wv =>
  (tl w).bind fun right => (tl (-h)).bind fun bottom =>
  (tl (1 + x)).bind fun top => (tl (-(1 + y))).map fun left =>
  toPixel d (asr (wv * top + (256 - wv) * bottom + wh * left + (256 - wh) * right + 256) 9)

/-- ipred_smooth_v_c, src/ipred_tmpl.c:289-306. -/
def smoothV (d : Depth) (tl : Edge) (_w h x y : Nat) : Option Int :=
  (smWeights[h + y]?).bind fun wv => (tl (-h)).bind fun bottom => (tl (1 + x)).map fun top =>
  toPixel d (asr (wv * top + (256 - wv) * bottom + 128) 8)

/-- ipred_smooth_h_c, src/ipred_tmpl.c:308-325. -/
def smoothH (d : Depth) (tl : Edge) (w _h x y : Nat) : Option Int :=
  (smWeights[w + x]?).bind fun wh => (tl w).bind fun right => (tl (-(y + 1))).map fun left =>
  toPixel d (asr (wh * left + (256 - wh) * right + 128) 8)

/-- get_filter_strength, src/ipred_tmpl.c:327-360. -/
def getFilterStrength (wh angle : Int) (isSm : Bool) : Nat :=
  if isSm then
    if wh ≤ 8 then
      if angle ≥ 64 then 2 else if angle ≥ 40 then 1 else 0
    else if wh ≤ 16 then
      if angle ≥ 48 then 2 else if angle ≥ 20 then 1 else 0
    else if wh ≤ 24 then
      if angle ≥ 4 then 3 else 0
    else 3
  else
    if wh ≤ 8 then
      if angle ≥ 56 then 1 else 0
    else if wh ≤ 16 then
      if angle ≥ 40 then 1 else 0
    else if wh ≤ 24 then
      if angle ≥ 32 then 3 else if angle ≥ 16 then 2 else if angle ≥ 8 then 1 else 0
    else if wh ≤ 32 then
      if angle ≥ 32 then 3 else if angle ≥ 4 then 2 else 1
    else 3

/-- `in[iclip(i, from, to - 1)]` -/
def rd (inp : Edge) (fr tt i : Int) : Option Int := inp (iclip i fr (tt - 1))

/-- `kernel` of filter_edge, src/ipred_tmpl.c:367-371. -/
def edgeKernels : List (List Int) := [[0, 4, 8, 4, 0], [0, 5, 6, 5, 0], [2, 4, 4, 4, 2]]

/-- The sum over the taps `k`, the first of them applied to the pixel at `i`, src/ipred_tmpl.c:378-380 and 400-402. -/
def tapSum (inp : Edge) (fr tt : Int) : List Int → Int → Option Int
  | [], _ => some 0
  | k :: ks, i => (rd inp fr tt i).bind fun v => (tapSum inp fr tt ks (i + 1)).map fun s => v * k + s

/-- The array filter_edge writes, src/ipred_tmpl.c:362-385. -/
def filterEdge (d : Depth) (sz limFrom limTo : Int) (inp : Edge) (fr tt : Int) (strength : Nat) : Edge := fun i =>
  if 0 ≤ i ∧ i < sz then
    if i < min sz limFrom then rd inp fr tt i
    else if i < min limTo sz then
      (edgeKernels[strength - 1]?).bind fun k => (tapSum inp fr tt k (i - 2)).map fun s => toPixel d (asr (s + 8) 4)
    else rd inp fr tt i
  else none

/-- get_upsample, src/ipred_tmpl.c:387-389. -/
def getUpsample (wh angle : Int) (isSm : Bool) : Bool := angle < 40 && wh ≤ (if isSm then 8 else 16)

/-- The array upsample_edge writes, src/ipred_tmpl.c:391-406. -/
def upsampleEdge (d : Depth) (hsz : Int) (inp : Edge) (fr tt : Int) : Edge := fun k =>
  if 0 ≤ k ∧ k ≤ 2 * hsz - 2 then
    if k % 2 = 0 then rd inp fr tt (k / 2)
    else (tapSum inp fr tt [-1, 9, 9, -1] (k / 2 - 1)).map fun s => d.clip (asr (s + 8) 4)
  else none

/-- A local array of `n` pixels of which `used` are written. -/
def inArray (n used : Int) (e : Edge) : Option Edge := if used ≤ n then some e else none

/-- `v & 0x3E` -/
def and3E (v : Int) : Int := v % 64 - v % 2

/-- The argument `angle` of the directional predictors: `is_sm`, `enable_intra_edge_filter` and the angle,
src/ipred_tmpl.c:414-416, 468-470, 548-550; set by src/recon_tmpl.c:1280, 1487-1491 and src/ipred_prepare.h:90-91. -/
def argSm (a : Nat) : Bool := a / 512 % 2 = 1
def argFilter (a : Nat) : Bool := a / 1024 ≠ 0
def argAngle (a : Nat) : Nat := a % 512

/-- The edge ipred_z1_c and ipred_z3_c use, with the last index, the step between rows and whether it is upsampled. -/
structure Dir where
  edge : Edge
  maxBase : Int
  step : Int
  up : Bool

/-- The part of ipred_z1_c before the loops, src/ipred_tmpl.c:414-443. -/
def z1Setup (d : Depth) (tl : Edge) (w h : Nat) (a : Nat) : Option Dir :=
  if argAngle a < 90 then
    (drDerivative[argAngle a / 2]?).bind fun dx =>
    let inp : Edge := fun k => tl (1 + k)
    let ang : Int := 90 - argAngle a
    let tt : Int := w + min (w : Int) h
    if argFilter a && getUpsample (w + h) ang (argSm a) then
      (inArray 128 (2 * (w + h) - 1) (upsampleEdge d (w + h) inp (-1) tt)).map fun e => ⟨e, 2 * (w + h) - 2, 2 * dx, true⟩
    else
      let fs := if argFilter a then getFilterStrength (w + h) ang (argSm a) else 0
      if fs ≠ 0 then
        (inArray 128 (w + h) (filterEdge d (w + h) 0 (w + h) inp (-1) tt fs)).map fun e => ⟨e, w + h - 1, dx, false⟩
      else some ⟨inp, tt - 1, dx, false⟩
  else none

/-- ipred_z1_c, src/ipred_tmpl.c:408-460. `base` grows along a row, so all pixels from the first one with
`base >= max_base_x` on are the last pixel of the edge. -/
def z1 (d : Depth) (tl : Edge) (w h : Nat) (a x y : Nat) : Option Int :=
  (z1Setup d tl w h a).bind fun s =>
  let xpos := s.step * (y + 1)
  let frac := and3E xpos
  let base := asr xpos 6 + x * (if s.up then 2 else 1)
  if base < s.maxBase then
    (s.edge base).bind fun p => (s.edge (base + 1)).map fun q => toPixel d (asr (p * (64 - frac) + q * frac + 32) 6)
  else s.edge s.maxBase

/-- The part of ipred_z3_c before the loops, src/ipred_tmpl.c:548-581. The pixel at `i` of the edge is `left[-i]`. -/
def z3Setup (d : Depth) (tl : Edge) (w h : Nat) (a : Nat) : Option Dir :=
  if argAngle a > 180 then
    if argAngle a ≤ 270 then
    (drDerivative[(270 - argAngle a) / 2]?).bind fun dy =>
    let inp : Edge := fun k => tl (-(w + h) + k)
    let ang : Int := argAngle a - 180
    let fr : Int := max ((w : Int) - h) 0
    if argFilter a && getUpsample (w + h) ang (argSm a) then
      (inArray 128 (2 * (w + h) - 1) (upsampleEdge d (w + h) inp fr (w + h + 1))).map fun e =>
        ⟨fun i => e (2 * (w + h) - 2 - i), 2 * (w + h) - 2, 2 * dy, true⟩
    else
      let fs := if argFilter a then getFilterStrength (w + h) ang (argSm a) else 0
      if fs ≠ 0 then
        (inArray 128 (w + h) (filterEdge d (w + h) 0 (w + h) inp fr (w + h + 1) fs)).map fun e =>
          ⟨fun i => e (w + h - 1 - i), w + h - 1, dy, false⟩
      else some ⟨fun i => tl (-1 - i), h + min (w : Int) h - 1, dy, false⟩
    else none
  else none

/-- ipred_z3_c, src/ipred_tmpl.c:542-599. As in `z1`, `base` grows down a column. -/
def z3 (d : Depth) (tl : Edge) (w h : Nat) (a x y : Nat) : Option Int :=
  (z3Setup d tl w h a).bind fun s =>
  let ypos := s.step * (x + 1)
  let frac := and3E ypos
  let base := asr ypos 6 + y * (if s.up then 2 else 1)
  if base < s.maxBase then
    (s.edge base).bind fun p => (s.edge (base + 1)).map fun q => toPixel d (asr (p * (64 - frac) + q * frac + 32) 6)
  else s.edge s.maxBase

/-- The part of `edge` right of the corner, as `topleft[k]` with `k > 0`, and the number of pixels written there,
src/ipred_tmpl.c:481-496. -/
def z2Above (d : Depth) (tl : Edge) (w h : Nat) (a : Nat) (maxW : Int) : Edge × Int :=
  let ang : Int := argAngle a - 90
  if argFilter a && getUpsample (w + h) ang (argSm a) then (upsampleEdge d (w + 1) tl 0 (w + 1), 2 * w)
  else
    let fs := if argFilter a then getFilterStrength (w + h) ang (argSm a) else 0
    (if fs ≠ 0 then fun k => filterEdge d w 0 maxW (fun i => tl (1 + i)) (-1) w fs (k - 1)
     else fun k => if 1 ≤ k ∧ k ≤ w then tl k else none, w)

/-- The part of `edge` left of the corner, as `topleft[k]` with `k < 0`, and the number of pixels written there,
src/ipred_tmpl.c:497-512. -/
def z2Left (d : Depth) (tl : Edge) (w h : Nat) (a : Nat) (maxH : Int) : Edge × Int :=
  let ang : Int := 180 - argAngle a
  if argFilter a && getUpsample (w + h) ang (argSm a) then
    (fun k => upsampleEdge d (h + 1) (fun i => tl (-h + i)) 0 (h + 1) (k + 2 * h), 2 * h)
  else
    let fs := if argFilter a then getFilterStrength (w + h) ang (argSm a) else 0
    (if fs ≠ 0 then fun k => filterEdge d h (h - maxH) h (fun i => tl (-h + i)) 0 (h + 1) fs (k + h)
     else fun k => if -(h : Int) ≤ k ∧ k ≤ -1 then tl k else none, h)

/-- `topleft` of ipred_z2_c, src/ipred_tmpl.c:479 and 513. -/
def z2Topleft (tl above left : Edge) : Edge := fun k => if k = 0 then tl 0 else if k > 0 then above k else left k

/-- ipred_z2_c, src/ipred_tmpl.c:462-540. `edge` has 64 pixels on either side of the corner. -/
def z2 (d : Depth) (tl : Edge) (w h : Nat) (a : Nat) (maxW maxH : Int) (x y : Nat) : Option Int :=
  if argAngle a > 90 ∧ argAngle a < 180 then
    (drDerivative[(argAngle a - 90) / 2]?).bind fun dy0 => (drDerivative[(180 - argAngle a) / 2]?).bind fun dx0 =>
    let upL := argFilter a && getUpsample (w + h) (180 - argAngle a) (argSm a)
    let upA := argFilter a && getUpsample (w + h) (argAngle a - 90) (argSm a)
    let above := z2Above d tl w h a maxW
    let left := z2Left d tl w h a maxH
    if above.2 ≤ 64 ∧ left.2 ≤ 64 then
      let topleft := z2Topleft tl above.1 left.1
      let dx := if upA then 2 * dx0 else dx0
      let dy := if upL then 2 * dy0 else dy0
      let incX : Int := if upA then 2 else 1
      let incY : Int := if upL then 2 else 1
      let xpos := incX * 64 - dx * (y + 1)
      let baseX := asr xpos 6 + x * incX
      let fracX := and3E xpos
      if baseX ≥ 0 then
        (topleft baseX).bind fun p => (topleft (baseX + 1)).map fun q => toPixel d (asr (p * (64 - fracX) + q * fracX + 32) 6)
      else
        let ypos := y * (64 * incY) - dy * (x + 1)
        let baseY := asr ypos 6
        let fracY := and3E ypos
        if baseY ≥ -incY then
          (topleft (-incY - baseY)).bind fun p => (topleft (-incY - (baseY + 1))).map fun q =>
            toPixel d (asr (p * (64 - fracY) + q * fracY + 32) 6)
        else none
    else none
  else none

/-- FILTER, src/ipred_tmpl.c:601-615. -/
def filterAcc (f p : List Int) : Int := (List.zipWith (· * ·) f p).sum

/-- The picture `dst` points into: row, column; `none` is not written yet. -/
abbrev Dst := Int → Int → Option Int

/-- The seven pixels a block of 4x2 pixels at `(x, y)` is computed from, src/ipred_tmpl.c:628-636 and 647-652. -/
def filterIn (tl : Edge) (dst : Dst) (x y : Nat) : Option (List Int) :=
  let top : Edge := fun k => if y = 0 then tl (1 + x + k) else dst (y - 1) (x + k)
  let topleft := if x = 0 then tl (-y) else top (-1)
  let left : Edge := fun r => if x = 0 then tl (-y - 1 - r) else dst (y + r) (x - 1)
  topleft.bind fun p0 => (top 0).bind fun p1 => (top 1).bind fun p2 => (top 2).bind fun p3 => (top 3).bind fun p4 =>
  (left 0).bind fun p5 => (left 1).map fun p6 => [p0, p1, p2, p3, p4, p5, p6]

/-- One block of ipred_filter_c, src/ipred_tmpl.c:633-651. -/
def filterBlock (d : Depth) (f : List (List Int)) (tl : Edge) (x y : Nat) (dst : Dst) : Dst :=
  let p := filterIn tl dst x y
  fun r c =>
    if y ≤ r ∧ r < y + 2 ∧ x ≤ c ∧ c < x + 4 then
      p.bind fun p => (f[((r - y) * 4 + (c - x)).toNat]?).map fun t => d.clip (asr (filterAcc t p + 8) 4)
    else dst r c

/-- The loops of ipred_filter_c, src/ipred_tmpl.c:629-654: `w4` blocks in a row, `h2` rows. -/
def filterRow (d : Depth) (f : List (List Int)) (tl : Edge) (y : Nat) : Nat → Dst → Dst
  | 0, dst => dst
  | n + 1, dst => filterBlock d f tl (4 * n) y (filterRow d f tl y n dst)

def filterRows (d : Depth) (f : List (List Int)) (tl : Edge) (w4 : Nat) : Nat → Dst → Dst
  | 0, dst => dst
  | n + 1, dst => filterRow d f tl (2 * n) w4 (filterRows d f tl w4 n dst)

/-- ipred_filter_c, src/ipred_tmpl.c:617-655. -/
def predFilter (d : Depth) (tl : Edge) (w h a : Nat) (x y : Nat) : Option Int :=
  if a % 512 < 5 then
    (filterIntraTaps[a % 512]?).bind fun f => filterRows d f tl ((w + 3) / 4) ((h + 1) / 2) (fun _ _ => none) y x
  else none

/-- The sum of luma pixels of one chroma position, src/ipred_tmpl.c:670-676; `none` if it does not fit `int16_t`. -/
def cflLuma (ypx : Dst) (ssHor ssVer : Bool) (x y : Nat) : Option Int :=
  let row : Int := if ssVer then 2 * y else y
  let col : Int := if ssHor then 2 * x else x
  (ypx row col).bind fun a =>
  (if ssHor then ypx row (2 * x + 1) else some 0).bind fun b =>
  (if ssVer then ypx (row + 1) col else some 0).bind fun c =>
  (if ssVer && ssHor then ypx (row + 1) (2 * x + 1) else some 0).bind fun e =>
  int16 ((a + b + c + e) * 2 ^ (1 + (if ssVer then 0 else 1) + (if ssHor then 0 else 1)))

/-- `ac` before the mean is subtracted: columns and rows behind the last one with luma repeat the last one,
src/ipred_tmpl.c:668-686. -/
def cflAcSum (ypx : Dst) (ssHor ssVer : Bool) (wPad hPad w h x y : Nat) : Option Int :=
  cflLuma ypx ssHor ssVer (min x (w - 4 * wPad - 1)) (min y (h - 4 * hPad - 1))

/-- `for (x = 0; x < n; x++) sum += ac[x];` -/
def addInt (p : Nat → Option Int) : Nat → Int → Option Int
  | 0, a => some a
  | n + 1, a => (addInt p n a).bind fun s => (p n).map fun v => s + v

/-- The sum over all rows, src/ipred_tmpl.c:689-694. -/
def addRows (p : Nat → Nat → Option Int) (w : Nat) : Nat → Int → Option Int
  | 0, a => some a
  | n + 1, a => (addRows p w n a).bind fun s => addInt (fun x => p x n) w s

/-- cfl_ac_c, src/ipred_tmpl.c:657-703: the value at column `x` and row `y`. -/
def cflAc (ypx : Dst) (ssHor ssVer : Bool) (wPad hPad w h x y : Nat) : Option Int :=
  if wPad * 4 < w ∧ hPad * 4 < h then
    let log2sz := ctz w + ctz h
    (addRows (cflAcSum ypx ssHor ssVer wPad hPad w h) w h (asr (2 ^ log2sz) 1)).bind fun sum =>
    (cflAcSum ypx ssHor ssVer wPad hPad w h x y).bind fun v => int16 (v - asr sum log2sz)
  else none

/-- pal_pred_c, src/ipred_tmpl.c:717-730. `pal` has 8 entries, `idx` the two indices of a pair of pixels in one byte. -/
def palPred (pal : Nat → Option Int) (idx : Nat → Option Nat) (w x y : Nat) : Option Int :=
  (idx (y * ((w + 1) / 2) + x / 2)).bind fun i =>
  if i % 16 < 8 ∧ i / 16 < 8 then pal (if x % 2 = 0 then i % 8 else i / 16) else none

/-- The modes of the bitstream, enum IntraPredMode, src/levels.h:108-133: the eight directional ones are numbered from
VERT_PRED on; `filter` is FILTER_PRED. -/
inductive Mode where
  | dc | dir (m : Fin 8) | smooth | smoothV | smoothH | paeth | filter
  deriving DecidableEq

/-- The predictors, src/levels.h:108-133 and src/ipred_tmpl.c:744-763. -/
inductive Pred where
  | dc | vert | hor | leftDc | topDc | dc128 | z1 | z2 | z3 | smooth | smoothV | smoothH | paeth | filter
  deriving DecidableEq

/-- av1_intra_prediction_edges, src/ipred_prepare_tmpl.c:50-74. -/
def Pred.needsLeft : Pred → Bool
  | .dc | .hor | .leftDc | .z2 | .z3 | .smooth | .smoothV | .smoothH | .paeth | .filter => true
  | _ => false
def Pred.needsTop : Pred → Bool
  | .dc | .vert | .topDc | .z1 | .z2 | .smooth | .smoothV | .smoothH | .paeth | .filter => true
  | _ => false
def Pred.needsTopleft : Pred → Bool
  | .z1 | .z2 | .z3 | .paeth | .filter => true
  | _ => false
def Pred.needsTopright : Pred → Bool
  | .z1 => true
  | _ => false
def Pred.needsBottomleft : Pred → Bool
  | .z3 => true
  | _ => false

/-- av1_mode_to_angle_map, src/ipred_prepare_tmpl.c:46-48. -/
def modeAngle (m : Fin 8) : Int := [90, 180, 45, 135, 113, 157, 203, 67][m]

/-- The absolute angle, src/ipred_prepare_tmpl.c:98; `delta` is the value of `*angle` on entry. Other modes keep it. -/
def absAngle (m : Mode) (delta : Int) : Int := match m with
  | .dir m => modeAngle m + 3 * delta
  | _ => delta

/-- The switch of dav1d_prepare_intra_edges, src/ipred_prepare_tmpl.c:89-114, with av1_mode_conv, 37-44. -/
def predOf (m : Mode) (delta : Int) (haveLeft haveTop : Bool) : Pred := match m with
  | .dir _ =>
    let angle := absAngle m delta
    if angle ≤ 90 then (if angle < 90 && haveTop then .z1 else .vert)
    else if angle < 180 then .z2
    else (if angle > 180 && haveLeft then .z3 else .hor)
  | .dc => if haveLeft then (if haveTop then .dc else .leftDc) else (if haveTop then .topDc else .dc128)
  | .paeth => if haveLeft then (if haveTop then .paeth else .hor) else (if haveTop then .vert else .dc128)
  | .smooth => .smooth
  | .smoothV => .smoothV
  | .smoothH => .smoothH
  | .filter => .filter

/-- Arguments of dav1d_prepare_intra_edges, src/ipred_prepare_tmpl.c:77-87: positions and sizes in units of 4 pixels.
`dst r c` is the pixel at row `r` and column `c` from the block on, `sbEdge` the row `prefilter_toplevel_sb_edge`. -/
structure Prep where
  x : Nat
  haveLeft : Bool
  y : Nat
  haveTop : Bool
  w : Nat
  h : Nat
  hasRight : Bool
  hasBottom : Bool
  dst : Dst
  sbEdge : Option Edge
  tw : Nat
  th : Nat
  filterEdge : Bool

variable (p : Prep)

/-- `dst_top`, src/ipred_prepare_tmpl.c:116-127. -/
def Prep.top (i : Int) : Option Int := match p.sbEdge with
  | some e => e (p.x * 4 + i)
  | none => p.dst (-1) i

/-- The pixels left of the block, `topleft_out[-(1 + i)]` for `i < 8 * th`, src/ipred_prepare_tmpl.c:129-160. -/
def Prep.left (d : Depth) (i : Int) : Option Int :=
  let sz : Int := p.th * 4
  let near : Edge := fun i =>
    if p.haveLeft then p.dst (min i (min sz (((p.h : Int) - p.y) * 4) - 1)) (-1)
    else if p.haveTop then p.top 0 else some (asr (2 ^ d.bpc) 1 + 1)
  if i < sz then near i
  else if (!p.haveLeft || p.y + p.th ≥ p.h) = false && p.hasBottom then
    p.dst (sz + min (i - sz) (min sz (((p.h : Int) - p.y - p.th) * 4) - 1)) (-1)
  else near (sz - 1)

/-- The pixels above the block, `topleft_out[1 + i]` for `i < 8 * tw`, src/ipred_prepare_tmpl.c:162-189. -/
def Prep.above (d : Depth) (i : Int) : Option Int :=
  let sz : Int := p.tw * 4
  let near : Edge := fun i =>
    if p.haveTop then p.top (min i (min sz (((p.w : Int) - p.x) * 4) - 1))
    else if p.haveLeft then p.dst 0 (-1) else some (asr (2 ^ d.bpc) 1 - 1)
  if i < sz then near i
  else if (!p.haveTop || p.x + p.tw ≥ p.w) = false && p.hasRight then
    p.top (sz + min (i - sz) (min sz (((p.w : Int) - p.x - p.tw) * 4) - 1))
  else near (sz - 1)

/-- The pixel above and left of the block, src/ipred_prepare_tmpl.c:191-200, for predictor `q`. -/
def Prep.corner (d : Depth) (q : Pred) : Option Int :=
  let c := if p.haveLeft then (if p.haveTop then p.top (-1) else p.dst 0 (-1))
    else (if p.haveTop then p.top 0 else some (asr (2 ^ d.bpc) 1))
  if q = .z2 ∧ p.tw + p.th ≥ 6 ∧ p.filterEdge then
    c.bind fun c => (p.left d 0).bind fun l => (p.above d 0).map fun t => toPixel d (asr ((l + t) * 5 + c * 6 + 8) 4)
  else c

/-- dav1d_prepare_intra_edges, src/ipred_prepare_tmpl.c:76-203: the edge for predictor `q`; what the predictor does not
need is not written. -/
def Prep.edge (d : Depth) (q : Pred) : Edge := fun k =>
  if k = 0 then (if q.needsTopleft then p.corner d q else none)
  else if k > 0 then
    if q.needsTop ∧ k ≤ p.tw * 4 * (if q.needsTopright then 2 else 1) then p.above d (k - 1) else none
  else
    if q.needsLeft ∧ -k ≤ p.th * 4 * (if q.needsBottomleft then 2 else 1) then p.left d (-k - 1) else none

/-- dav1d_prepare_intra_edges followed by the predictor of the block, src/recon_tmpl.c:1265-1283 and 1476-1496: `flags`
is ANGLE_USE_EDGE_FILTER_FLAG and ANGLE_SMOOTH_EDGE_FLAG, `maxW` and `maxH` the pixels up to the end of the picture. For
the mode FILTER_PRED `delta` is the filter. -/
def Prep.predict (d : Depth) (m : Mode) (delta : Int) (flags : Nat) (maxW maxH : Int) (x y : Nat) : Option Int :=
  if p.x < p.w ∧ p.y < p.h then
    let q := predOf m delta p.haveLeft p.haveTop
    let a := (absAngle m delta).toNat + flags
    let tl := p.edge d q
    let w := 4 * p.tw
    let h := 4 * p.th
    match q with
    | .dc => (dcGen d tl w h).bind (splat d)
    | .vert => predV tl x y
    | .hor => predH tl x y
    | .leftDc => (dcGenLeft tl h).bind (splat d)
    | .topDc => (dcGenTop tl w).bind (splat d)
    | .dc128 => splat d (dc128 d)
    | .z1 => z1 d tl w h a x y
    | .z2 => z2 d tl w h a maxW maxH x y
    | .z3 => z3 d tl w h a x y
    | .smooth => smooth d tl w h x y
    | .smoothV => smoothV d tl w h x y
    | .smoothH => smoothH d tl w h x y
    | .paeth => paeth tl x y
    | .filter => predFilter d tl w h a x y
  else none

end Dav1d.Ipred
