import Verif.Dsp.McTables
/-!
# Model of the motion compensation functions, src/mc_tmpl.c

The loops of these functions compute every pixel of a block from the source alone, so the model gives the value of the
pixel at column `x` and row `y` of the block. Simplifications:

* A plane is a function of row and column; addresses and strides are left out. Row 0 and column 0 are where `src` points,
  so filters use negative positions.
* `int` is the set of integers. All sums here are far from 2^31: the results are shown to fit 16 bits before a shift by at
  most 11 bits, and a sum has 8 terms.
* Values stored in `int16_t` have to fit: `none` means they do not. `none` is also a read outside of a table or of the
  part of `mid` that was written.
* The C versions of the functions are modelled, not the assembly ones.
-/
namespace Dav1d

/-- Bits per component. With 8 bits the code is compiled with BITDEPTH 8, otherwise with BITDEPTH 16 and
`bitdepth_max` 1023 or 4095, include/common/bitdepth.h:36-84. -/
inductive Depth where
  | b8 | b10 | b12
  deriving DecidableEq

def Depth.bpc : Depth → Nat
  | .b8 => 8 | .b10 => 10 | .b12 => 12

/-- `bitdepth_max` -/
def Depth.max (d : Depth) : Int := 2 ^ d.bpc - 1

/-- get_intermediate_bits, src/mc_tmpl.c:39 and 44. -/
def Depth.bits : Depth → Nat
  | .b8 => 4
  | d => 14 - d.bpc

/-- PREP_BIAS, src/mc_tmpl.c:41 and 47. -/
def Depth.bias : Depth → Int
  | .b8 => 0
  | _ => 8192

/-- `v >> n` for `int`. -/
def asr (v : Int) (n : Nat) : Int := v / 2 ^ n

/-- iclip, include/common/intops.h:50-52. -/
def iclip (v lo hi : Int) : Int := if v < lo then lo else if v > hi then hi else v

/-- iclip_pixel, include/common/bitdepth.h:49 and 71. -/
def Depth.clip (d : Depth) (v : Int) : Int := iclip v 0 d.max

/-- `(1 << sh) >> 1` -/
def half (sh : Nat) : Int := asr (2 ^ sh) 1

/-- Storing in an `int16_t`. -/
def int16 (v : Int) : Option Int := if -32768 ≤ v ∧ v ≤ 32767 then some v else none

/-- A plane: row, column. -/
abbrev Plane := Int → Int → Int

/-- The positions of the 8 taps. -/
def taps : List Int := [-3, -2, -1, 0, 1, 2, 3, 4]

/-- FILTER_8TAP, src/mc_tmpl.c:77-85, and the sum of FILTER_WARP_RND, 744-753. `s k` is `src[x + k * stride]`. -/
def fir (F : List Int) (s : Int → Int) : Int := (List.zipWith (fun f k => f * s k) F taps).sum

/-- DAV1D_FILTER_8TAP_RND, src/mc_tmpl.c:87-88. -/
def firRnd (F : List Int) (s : Int → Int) (sh : Nat) : Int := asr (fir F s + half sh) sh

/-- Values of `mid` at the given positions, which have to fit `int16_t`. -/
def mid16 (at_ : List Int) (s : Int → Int) : Option (Int → Int) := if ∀ k ∈ at_, -32768 ≤ s k ∧ s k ≤ 32767 then some s else none

/-- GET_H_FILTER and GET_V_FILTER, src/mc_tmpl.c:99-107: `big` is `w > 4` or `h > 4`, `ty` the filter type of this
direction, `m` the fraction. The inner `none` is NULL. -/
def getFilter (big : Bool) (ty m : Nat) : Option (Option (List Int)) :=
  if m = 0 then some none
  else ((subpelFilters[if big then ty else 3 + ty % 2]?).bind (fun t => t[m - 1]?)).map some

/-- The filter type of one direction: DAV1D_FILTER_8TAP_REGULAR, SMOOTH, SHARP are 0, 1, 2. `filter_type` is
`type_h | (type_v << 2)`, so `filter_type & 3` is the one and `filter_type >> 2` the other; the model has two arguments. -/
abbrev TapType := Nat

/-- put_8tap_c, src/mc_tmpl.c:113-171. -/
def put8tap (d : Depth) (src : Plane) (w h mx my : Nat) (th tv : TapType) (x y : Int) : Option Int := do
  let fh ← getFilter (w > 4) th mx
  let fv ← getFilter (h > 4) tv my
  match fh, fv with
  | some fh, some fv =>
    let mid ← mid16 taps (fun j => firRnd fh (fun k => src (y + j) (x + k)) (6 - d.bits))
    some (d.clip (firRnd fv mid (6 + d.bits)))
  | some fh, none => some (d.clip (asr (fir fh (fun k => src y (x + k)) + (32 + half (6 - d.bits))) 6))
  | none, some fv => some (d.clip (firRnd fv (fun k => src (y + k) x) 6))
  | none, none => some (src y x)

/-- prep_c, src/mc_tmpl.c:63-75, and prep_8tap_c, 223-282. -/
def prep8tap (d : Depth) (src : Plane) (w h mx my : Nat) (th tv : TapType) (x y : Int) : Option Int := do
  let fh ← getFilter (w > 4) th mx
  let fv ← getFilter (h > 4) tv my
  match fh, fv with
  | some fh, some fv =>
    let mid ← mid16 taps (fun j => firRnd fh (fun k => src (y + j) (x + k)) (6 - d.bits))
    int16 (firRnd fv mid 6 - d.bias)
  | some fh, none => int16 (firRnd fh (fun k => src y (x + k)) (6 - d.bits) - d.bias)
  | none, some fv => int16 (firRnd fv (fun k => src (y + k) x) (6 - d.bits) - d.bias)
  | none, none => int16 (src y x * 2 ^ d.bits - d.bias)

/-- The position in the scaled reference after `n` pixels or rows: the fraction `imx` and the offset `ioff`,
src/mc_tmpl.c:190-202 and 208-220. -/
def scaledPos (m step : Nat) : Nat → Nat × Nat
  | 0 => (m, 0)
  | n + 1 =>
    let imx := (scaledPos m step n).1 + step
    (imx % 1024, (scaledPos m step n).2 + imx / 1024)

/-- The rows of `mid` of put_8tap_scaled_c and prep_8tap_scaled_c and the filters used, src/mc_tmpl.c:174-206 and
285-317. `mid` has 128 columns and 256 + 7 rows, of which `tmp_h` are written. -/
def mid8tapScaled (d : Depth) (src : Plane) (w h mx my dx dy : Nat) (th tv : TapType) (x y : Nat) : Option ((Int → Int) × Option (List Int)) := do
  let tmpH := ((h - 1) * dy + my) / 1024 + 8
  let (imx, ioff) := scaledPos mx dx x
  let (imy, row) := scaledPos my dy y
  let fh ← getFilter (w > 4) th (imx / 64)
  let fv ← getFilter (h > 4) tv (imy / 64)
  if x < 128 ∧ tmpH ≤ 256 + 7 ∧ row + 8 ≤ tmpH then
    let mid ← mid16 taps (fun j =>
      match fh with
      | some fh => firRnd fh (fun k => src (row + j) (ioff + k)) (6 - d.bits)
      | none => src (row + j) ioff * 2 ^ d.bits)
    some (mid, fv)
  else none

/-- put_8tap_scaled_c, src/mc_tmpl.c:173-221. -/
def put8tapScaled (d : Depth) (src : Plane) (w h mx my dx dy : Nat) (th tv : TapType) (x y : Nat) : Option Int := do
  match ← mid8tapScaled d src w h mx my dx dy th tv x y with
  | (mid, some fv) => some (d.clip (firRnd fv mid (6 + d.bits)))
  | (mid, none) => some (d.clip (asr (mid 0 + half d.bits) d.bits))

/-- prep_8tap_scaled_c, src/mc_tmpl.c:284-328. -/
def prep8tapScaled (d : Depth) (src : Plane) (w h mx my dx dy : Nat) (th tv : TapType) (x y : Nat) : Option Int := do
  match ← mid8tapScaled d src w h mx my dx dy th tv x y with
  | (mid, some fv) => int16 (firRnd fv mid 6 - d.bias)
  | (mid, none) => int16 (mid 0 - d.bias)

/-- FILTER_BILIN_RND, src/mc_tmpl.c:386-390. -/
def bilinRnd (s : Int → Int) (m : Nat) (sh : Nat) : Int := asr (16 * s 0 + m * (s 1 - s 0) + half sh) sh

/-- put_bilin_c, src/mc_tmpl.c:395-450. -/
def putBilin (d : Depth) (src : Plane) (mx my : Nat) (x y : Int) : Option Int :=
  if mx ≠ 0 then
    if my ≠ 0 then do
      let mid ← mid16 [0, 1] (fun j => bilinRnd (fun k => src (y + j) (x + k)) mx (4 - d.bits))
      some (d.clip (bilinRnd mid my (4 + d.bits)))
    else some (d.clip (asr (bilinRnd (fun k => src y (x + k)) mx (4 - d.bits) + half d.bits) d.bits))
  else if my ≠ 0 then some (d.clip (bilinRnd (fun k => src (y + k) x) my 4))
  else some (src y x)

/-- prep_bilin_c, src/mc_tmpl.c:493-546. -/
def prepBilin (d : Depth) (src : Plane) (mx my : Nat) (x y : Int) : Option Int :=
  if mx ≠ 0 then
    if my ≠ 0 then do
      let mid ← mid16 [0, 1] (fun j => bilinRnd (fun k => src (y + j) (x + k)) mx (4 - d.bits))
      int16 (bilinRnd mid my 4 - d.bias)
    else int16 (bilinRnd (fun k => src y (x + k)) mx (4 - d.bits) - d.bias)
  else if my ≠ 0 then int16 (bilinRnd (fun k => src (y + k) x) my (4 - d.bits) - d.bias)
  else int16 (src y x * 2 ^ d.bits - d.bias)

/-- The rows of `mid` of put_bilin_scaled_c and prep_bilin_scaled_c and the vertical fraction, src/mc_tmpl.c:452-480 and
548-574. -/
def midBilinScaled (d : Depth) (src : Plane) (h mx my dx dy : Nat) (x y : Nat) : Option ((Int → Int) × Nat) := do
  let tmpH := ((h - 1) * dy + my) / 1024 + 2
  let (imx, ioff) := scaledPos mx dx x
  let (imy, row) := scaledPos my dy y
  if x < 128 ∧ tmpH ≤ 256 + 1 ∧ row + 2 ≤ tmpH then
    let mid ← mid16 [0, 1] (fun j => bilinRnd (fun k => src (row + j) (ioff + k)) (imx / 64) (4 - d.bits))
    some (mid, imy / 64)
  else none

/-- put_bilin_scaled_c, src/mc_tmpl.c:452-491. -/
def putBilinScaled (d : Depth) (src : Plane) (h mx my dx dy : Nat) (x y : Nat) : Option Int := do
  let (mid, m) ← midBilinScaled d src h mx my dx dy x y
  some (d.clip (bilinRnd mid m (4 + d.bits)))

/-- prep_bilin_scaled_c, src/mc_tmpl.c:548-585. -/
def prepBilinScaled (d : Depth) (src : Plane) (h mx my dx dy : Nat) (x y : Nat) : Option Int := do
  let (mid, m) ← midBilinScaled d src h mx my dx dy x y
  int16 (bilinRnd mid m 4 - d.bias)

/-- avg_c, src/mc_tmpl.c:587-602, for one pixel. -/
def avgPx (d : Depth) (a b : Int) : Int := d.clip (asr (a + b + (2 ^ d.bits + d.bias * 2)) (d.bits + 1))

/-- w_avg_c, src/mc_tmpl.c:604-620, for one pixel. -/
def wAvgPx (d : Depth) (weight : Int) (a b : Int) : Int :=
  d.clip (asr (a * weight + b * (16 - weight) + (8 * 2 ^ d.bits + d.bias * 16)) (d.bits + 4))

/-- mask_c, src/mc_tmpl.c:622-639, for one pixel. -/
def maskPx (d : Depth) (m : Int) (a b : Int) : Int :=
  d.clip (asr (a * m + b * (64 - m) + (32 * 2 ^ d.bits + d.bias * 64)) (d.bits + 6))

/-- blend_px, src/mc_tmpl.c:641, for one pixel of blend_c, 642-653. -/
def blendPx (a b m : Int) : Int := asr (a * (64 - m) + b * m + 32) 6

/-- blend_v_c, src/mc_tmpl.c:655-666: pixel of column `x`. `none` is a read outside of the table. -/
def blendV (w x : Nat) (dst tmp : Int) : Option Int :=
  if x < w * 3 / 4 then (obmcMasks[w + x]?).map (blendPx dst tmp) else some dst

/-- blend_h_c, src/mc_tmpl.c:668-681: pixel of row `y`. -/
def blendH (h y : Nat) (dst tmp : Int) : Option Int :=
  if y < h * 3 / 4 then (obmcMasks[h + y]?).map (blendPx dst tmp) else some dst

/-- The weight of a pixel in w_mask_c, src/mc_tmpl.c:690-698. -/
def wMaskWeight (d : Depth) (a b : Int) : Int :=
  let sh := d.bpc + d.bits - 4
  min (38 + asr ((a - b).natAbs + 2 ^ (sh - 5)) sh) 64

/-- w_mask_c, src/mc_tmpl.c:683-726: the pixel. -/
def wMaskPx (d : Depth) (a b : Int) : Int := maskPx d (wMaskWeight d a b) a b

/-- w_mask_c: the mask of a pixel of 4:4:4, of a pair of pixels of 4:2:2 and of 2x2 pixels of 4:2:0, whose first row
stores `m + n` in the mask. -/
def wMask444 (m : Int) : Int := m
def wMask422 (sign : Int) (m n : Int) : Int := asr (m + n + 1 - sign) 1
def wMask420 (sign : Int) (m0 n0 m1 n1 : Int) : Int := asr (m1 + n1 + (m0 + n0) + 2 - sign) 2

/-- The filter of a warped pixel, `dav1d_mc_warp_filter[64 + ((tmx + 512) >> 10)]`; `none` is outside of the table. -/
def warpFilter (t : Int) : Option (List Int) :=
  let i := 64 + asr (t + 512) 10
  if 0 ≤ i then warpFilters[i.toNat]? else none

/-- The 8 rows of `mid` above and below one pixel of warp_affine_8x8_c and warp_affine_8x8t_c, src/mc_tmpl.c:766-776:
row `y + j + 3` is reached with `mx + (y + j + 3) * abcd[1]`. -/
def warpMid (d : Depth) (src : Plane) (alpha beta mx : Int) (x y : Nat) : Option (Int → Int) := do
  let fs ← taps.mapM (fun j => warpFilter (mx + (y + j + 3) * beta + x * alpha))
  mid16 taps (fun j => firRnd (fs.getD (j + 3).toNat []) (fun k => src (y + j) (x + k)) (7 - d.bits))

/-- warp_affine_8x8_c, src/mc_tmpl.c:758-791: pixel (x, y) of the 8x8 block. -/
def warp8x8 (d : Depth) (src : Plane) (alpha beta gamma delta mx my : Int) (x y : Nat) : Option Int := do
  let mid ← warpMid d src alpha beta mx x y
  let f ← warpFilter (my + y * delta + x * gamma)
  some (d.clip (firRnd f mid (7 + d.bits)))

/-- warp_affine_8x8t_c, src/mc_tmpl.c:793-825. -/
def warp8x8t (d : Depth) (src : Plane) (alpha beta gamma delta mx my : Int) (x y : Nat) : Option Int := do
  let mid ← warpMid d src alpha beta mx x y
  let f ← warpFilter (my + y * delta + x * gamma)
  int16 (firRnd f mid 7 - d.bias)

/-- The position in resize_c after `n` pixels: `mx` and `src_x`, src/mc_tmpl.c:884-898. -/
def resizePos (mx0 dx : Nat) : Nat → Nat × Int
  | 0 => (mx0, -1)
  | n + 1 =>
    let mx := (resizePos mx0 dx n).1 + dx
    (mx % 16384, (resizePos mx0 dx n).2 + mx / 16384)

/-- resize_c, src/mc_tmpl.c:877-903: pixel `x` of a row. `none` is a read outside of the table or of the row. -/
def resizePx (d : Depth) (src : Int → Int) (srcW dx mx0 x : Nat) : Option Int := do
  let (mx, sx) := resizePos mx0 dx x
  let F ← resizeFilters[mx / 256]?
  if srcW = 0 then none
  else some (d.clip (asr (-(fir F (fun k => src (iclip (sx + k) 0 (srcW - 1)))) + 64) 7))

end Dav1d
