import Verif.Dsp.Mc
/-!
# Model of the warp parameter functions, src/warpmv.c, and of their use in src/decode.c

`int` and `int64_t` operations that overflow, shifts of negative values to the left, logarithms of zero and reads outside
of the table are `none`. Conversions to narrower signed types wrap around, which is what all supported compilers do.
-/
namespace Dav1d.Warp

/-- The value of an `int` operation. -/
def i32 (v : Int) : Option Int := if -(2 ^ 31) ≤ v ∧ v < 2 ^ 31 then some v else none

/-- The value of an `int64_t` operation. -/
def i64 (v : Int) : Option Int := if -(2 ^ 63) ≤ v ∧ v < 2 ^ 63 then some v else none

/-- Conversion to `int`. -/
def toI32 (v : Int) : Int := (v + 2 ^ 31) % 2 ^ 32 - 2 ^ 31

/-- Conversion to `int16_t`. -/
def toI16 (v : Int) : Int := (v + 2 ^ 15) % 2 ^ 16 - 2 ^ 15

/-- abs and llabs; the most negative value is not used here. -/
def abs (v : Int) : Int := if v < 0 then -v else v

/-- apply_sign and apply_sign64, include/common/intops.h:59-65. -/
def applySign (v s : Int) : Int := if s < 0 then -v else v

/-- div_lut, src/warpmv.c:36-61. -/
def divLut : List Int := [
  16384, 16320, 16257, 16194, 16132, 16070, 16009, 15948, 15888, 15828, 15768, 15709, 15650, 15592, 15534, 15477, 15420, 15364, 15308, 15252,
  15197, 15142, 15087, 15033, 14980, 14926, 14873, 14821, 14769, 14717, 14665, 14614, 14564, 14513, 14463, 14413, 14364, 14315, 14266, 14218,
  14170, 14122, 14075, 14028, 13981, 13935, 13888, 13843, 13797, 13752, 13707, 13662, 13618, 13574, 13530, 13487, 13443, 13400, 13358, 13315,
  13273, 13231, 13190, 13148, 13107, 13066, 13026, 12985, 12945, 12906, 12866, 12827, 12788, 12749, 12710, 12672, 12633, 12596, 12558, 12520,
  12483, 12446, 12409, 12373, 12336, 12300, 12264, 12228, 12193, 12157, 12122, 12087, 12053, 12018, 11984, 11950, 11916, 11882, 11848, 11815,
  11782, 11749, 11716, 11683, 11651, 11619, 11586, 11555, 11523, 11491, 11460, 11429, 11398, 11367, 11336, 11305, 11275, 11245, 11215, 11185,
  11155, 11125, 11096, 11067, 11038, 11009, 10980, 10951, 10923, 10894, 10866, 10838, 10810, 10782, 10755, 10727, 10700, 10673, 10645, 10618,
  10592, 10565, 10538, 10512, 10486, 10460, 10434, 10408, 10382, 10356, 10331, 10305, 10280, 10255, 10230, 10205, 10180, 10156, 10131, 10107,
  10082, 10058, 10034, 10010, 9986, 9963, 9939, 9916, 9892, 9869, 9846, 9823, 9800, 9777, 9754, 9732, 9709, 9687, 9664, 9642,
  9620, 9598, 9576, 9554, 9533, 9511, 9489, 9468, 9447, 9425, 9404, 9383, 9362, 9341, 9321, 9300, 9279, 9259, 9239, 9218,
  9198, 9178, 9158, 9138, 9118, 9098, 9079, 9059, 9039, 9020, 9001, 8981, 8962, 8943, 8924, 8905, 8886, 8867, 8849, 8830,
  8812, 8793, 8775, 8756, 8738, 8720, 8702, 8684, 8666, 8648, 8630, 8613, 8595, 8577, 8560, 8542, 8525, 8508, 8490, 8473,
  8456, 8439, 8422, 8405, 8389, 8372, 8355, 8339, 8322, 8306, 8289, 8273, 8257, 8240, 8224, 8208, 8192]

/-- iclip_wmp, src/warpmv.c:63-67. -/
def iclipWmp (v : Int) : Int :=
  let cv := iclip v (-32768) 32767
  applySign (asr (abs cv + 32) 6) cv * 64

/-- resolve_divisor_32 with `bits` 31 and resolve_divisor_64 with `bits` 63, src/warpmv.c:69-78 and 102-111: the
multiplier and the shift. `d` with more bits makes `1 << *shift` overflow. -/
def resolveDivisor (bits : Nat) (d : Nat) : Option (Int × Nat) :=
  if d = 0 ∨ 2 ^ bits ≤ d then none
  else
    let shift := Nat.log2 d
    let e := d - 2 ^ shift
    let f := if 8 < shift then (e + 2 ^ (shift - 9)) / 2 ^ (shift - 8) else e * 2 ^ (8 - shift)
    (divLut[f]?).map (fun y => (y, shift + 14))

/-- `Dav1dWarpedMotionParams`, include/dav1d/headers.h:97-106: the matrix and the shear parameters. The type is kept by
the callers in this model. -/
structure Wm where
  m0 : Int
  m1 : Int
  m2 : Int
  m3 : Int
  m4 : Int
  m5 : Int
  alpha : Int
  beta : Int
  gamma : Int
  delta : Int
  deriving DecidableEq, Repr

/-- `(llabs(v) + rnd) >> shift` with the sign of `v`, src/warpmv.c:92, 95, 117-119 and 127-129. -/
def mulShift (v rnd : Int) (shift : Nat) : Option Int :=
  (i64 (abs v + rnd)).map (fun s => applySign (toI32 (asr s shift)) v)

/-- dav1d_get_shear_params, src/warpmv.c:80-100: the result is the return value and the structure. -/
def getShearParams (w : Wm) : Option (Int × Wm) :=
  if w.m2 ≤ 0 then some (1, w)
  else
    (i32 (w.m2 - 0x10000)).bind fun a0 =>
    let alpha := toI16 (iclipWmp a0)
    let beta := toI16 (iclipWmp w.m3)
    (resolveDivisor 31 w.m2.natAbs).bind fun (d, shift) =>
    let y := applySign d w.m2
    (i64 (w.m4 * 0x10000)).bind fun t1 =>
    (i64 (t1 * y)).bind fun v1 =>
    (i32 (2 ^ shift)).bind fun one =>
    let rnd := asr one 1
    (mulShift v1 rnd shift).bind fun g =>
    let gamma := toI16 (iclipWmp g)
    (i64 (w.m3 * w.m4)).bind fun t2 =>
    (i64 (t2 * y)).bind fun v2 =>
    (mulShift v2 rnd shift).bind fun s2 =>
    (i32 (w.m5 - s2)).bind fun d1 =>
    (i32 (d1 - 0x10000)).bind fun d0 =>
    let delta := toI16 (iclipWmp d0)
    some (if 4 * abs alpha + 7 * abs beta ≥ 0x10000 ∨ 4 * abs gamma + 4 * abs delta ≥ 0x10000 then 1 else 0,
      { w with alpha, beta, gamma, delta })

/-- get_mult_shift_ndiag and get_mult_shift_diag, src/warpmv.c:113-131, with the bounds of the final clip. -/
def multShift (lo hi : Int) (px idet : Int) (shift : Nat) : Option Int :=
  (i64 (px * idet)).bind fun v1 =>
  (mulShift v1 (asr (2 ^ shift) 1) shift).map fun v2 => iclip v2 lo hi

/-- A motion vector. -/
structure Mv where
  x : Int
  y : Int
  deriving DecidableEq, Repr

/-- dav1d_set_affine_mv2d, src/warpmv.c:133-147, also lines 203-206. -/
def setAffineMv2d (bw4 bh4 : Int) (mv : Mv) (w : Wm) (bx4 by4 : Int) : Option Wm :=
  let isuy := by4 * 4 + (2 * bh4 - 1)
  let isux := bx4 * 4 + (2 * bw4 - 1)
  (i32 (isux * (w.m2 - 0x10000))).bind fun a =>
  (i32 (isuy * w.m3)).bind fun b =>
  (i32 (a + b)).bind fun ab =>
  (i32 (mv.x * 0x2000 - ab)).bind fun vx =>
  (i32 (isux * w.m4)).bind fun c =>
  (i32 (isuy * (w.m5 - 0x10000))).bind fun e =>
  (i32 (c + e)).bind fun ce =>
  (i32 (mv.y * 0x2000 - ce)).bind fun vy =>
  some { w with m0 := iclip vx (-0x800000) 0x7fffff, m1 := iclip vy (-0x800000) 0x7fffff }

/-- One element of `pts`: position in the current frame and in the reference. -/
structure Pt where
  inx : Int
  iny : Int
  outx : Int
  outy : Int
  deriving DecidableEq, Repr

/-- The sums of dav1d_find_affine_int, src/warpmv.c:155-157. -/
structure Acc where
  a00 : Int
  a01 : Int
  a11 : Int
  bx0 : Int
  bx1 : Int
  by0 : Int
  by1 : Int
  deriving DecidableEq, Repr

/-- One term, `((p * q) >> 2) + p + q + k`, added to a sum. `sx * 2` is `sx + sx`. -/
def addTerm (acc p q k : Int) : Option Int :=
  (i32 (p * q)).bind fun pq =>
  (i32 (asr pq 2 + p + q + k)).bind fun t => i32 (acc + t)

/-- The loop body, src/warpmv.c:168-180. -/
def addSample (dux duy sux suy : Int) (A : Acc) (p : Pt) : Option Acc :=
  let dx := p.outx - dux
  let dy := p.outy - duy
  let sx := p.inx - sux
  let sy := p.iny - suy
  if abs (sx - dx) < 256 ∧ abs (sy - dy) < 256 then
    (addTerm A.a00 sx sx 8).bind fun a00 =>
    (addTerm A.a01 sx sy 4).bind fun a01 =>
    (addTerm A.a11 sy sy 8).bind fun a11 =>
    (addTerm A.bx0 sx dx 8).bind fun bx0 =>
    (addTerm A.bx1 sy dx 4).bind fun bx1 =>
    (addTerm A.by0 sx dy 4).bind fun by0 =>
    (addTerm A.by1 sy dy 8).bind fun by1 =>
    some ⟨a00, a01, a11, bx0, bx1, by0, by1⟩
  else some A

/-- src/warpmv.c:186-191: `idet` and `shift`. -/
def invDet (det : Int) : Option (Int × Nat) :=
  (resolveDivisor 63 det.natAbs).bind fun (d, s) =>
  let idet := applySign d det
  if s < 16 then (if idet < 0 then none else (i32 (idet * 2 ^ (16 - s))).map fun v => (v, 0)) else some (idet, s - 16)

/-- dav1d_find_affine_int, src/warpmv.c:149-209: `some none` is return value 1. -/
def findAffineInt (pts : List Pt) (bw4 bh4 : Int) (mv : Mv) (w : Wm) (bx4 by4 : Int) : Option (Option Wm) :=
  let suy := (2 * bh4 - 1) * 8
  let sux := (2 * bw4 - 1) * 8
  (pts.foldlM (addSample (sux + mv.x) (suy + mv.y) sux suy) ⟨0, 0, 0, 0, 0, 0, 0⟩).bind fun A =>
  (i64 (A.a00 * A.a11)).bind fun d1 =>
  (i64 (A.a01 * A.a01)).bind fun d2 =>
  (i64 (d1 - d2)).bind fun det =>
  if det = 0 then some none
  else
    (invDet det).bind fun (idet, shift) =>
    let solve (lo hi a b c d : Int) : Option Int :=
      (i64 (a * b)).bind fun ab => (i64 (c * d)).bind fun cd => (i64 (ab - cd)).bind fun px => multShift lo hi px idet shift
    (solve 0xe001 0x11fff A.a11 A.bx0 A.a01 A.bx1).bind fun m2 =>
    (solve (-0x1fff) 0x1fff A.a00 A.bx1 A.a01 A.bx0).bind fun m3 =>
    (solve (-0x1fff) 0x1fff A.a11 A.by0 A.a01 A.by1).bind fun m4 =>
    (solve 0xe001 0x11fff A.a00 A.by1 A.a01 A.by0).bind fun m5 =>
    (setAffineMv2d bw4 bh4 mv { w with m2, m3, m4, m5 } bx4 by4).map some

/-- A neighbouring block as add_sample sees it, src/decode.c:272-278: offset of the block in units of 4 pixels, the
direction of its centre from there, its dimensions and its motion vector. Which blocks those are (find_matching_ref and
the masks, src/decode.c:186-262 and 280-305) is not modelled. -/
structure Neighbour where
  dx : Int
  dy : Int
  sgnx : Int
  sgny : Int
  w4 : Int
  h4 : Int
  mv : Mv

/-- add_sample, src/decode.c:272-278. -/
def Neighbour.pt (n : Neighbour) : Pt :=
  let x := 16 * (2 * n.dx + n.sgnx * n.w4) - 8
  let y := 16 * (2 * n.dy + n.sgny * n.h4) - 8
  ⟨x, y, x + n.mv.x, y + n.mv.y⟩

/-- `thresh`, src/decode.c:310. -/
def thresh (bw4 bh4 : Int) : Int := 4 * iclip (max bw4 bh4) 4 28

/-- `mvd[i]`, src/decode.c:312-317: `none` is -1. -/
def mvd (th : Int) (mv : Mv) (p : Pt) : Option Int :=
  let d := abs (p.outx - p.inx - mv.x) + abs (p.outy - p.iny - mv.y)
  if d > th then none else some d

/-- `while (mvd[i] != -1) i++;`, src/decode.c:322; `none` runs out of the array. -/
def nextBad (l : List (Option Int × Pt)) (i : Nat) : Option Nat :=
  match h : l[i]? with
  | none => none
  | some (none, _) => some i
  | some (some _, _) => nextBad l (i + 1)
termination_by l.length - i
decreasing_by
  have := (List.getElem?_eq_some_iff.mp h).1
  omega

/-- `while (mvd[j] == -1) j--;`, src/decode.c:323. -/
def prevGood (l : List (Option Int × Pt)) : Nat → Option Nat
  | 0 => match l[0]? with
    | some (some _, _) => some 0
    | _ => none
  | j + 1 => match l[j + 1]? with
    | none => none
    | some (some _, _) => some (j + 1)
    | some (none, _) => prevGood l j

/-- The loop that moves the selected samples to the front, src/decode.c:321-329; `n` is `np - ret - k`. At
`j - 1`, `j` is above `i` and hence not 0. -/
def compact : Nat → List (Option Int × Pt) → Nat → Nat → Option (List (Option Int × Pt))
  | 0, l, _, _ => some l
  | n + 1, l, i, j =>
    (nextBad l i).bind fun i =>
    (prevGood l j).bind fun j =>
    if i = j then none
    else if i > j then some l
    else (l[j]?).bind fun e => compact n (l.set i e) (i + 1) (j - 1)

/-- The samples given to dav1d_find_affine_int, src/decode.c:308-329. -/
def select (pts : List Pt) (bw4 bh4 : Int) (mv : Mv) : Option (List Pt) :=
  let l := pts.map (fun p => (mvd (thresh bw4 bh4) mv p, p))
  let ret := (l.filter (fun e => e.1.isSome)).length
  if ret = 0 then some (pts.take 1)
  else (compact (pts.length - ret) l 0 (pts.length - 1)).map fun l => (l.take ret).map Prod.snd

/-- derive_warpmv, src/decode.c:308-337, from the samples on: `none` inside is DAV1D_WM_TYPE_IDENTITY. -/
def deriveWarpmv (pts : List Pt) (bw4 bh4 : Int) (mv : Mv) (w : Wm) (bx4 by4 : Int) : Option (Option Wm) :=
  (select pts bw4 bh4 mv).bind fun sel =>
  (findAffineInt sel bw4 bh4 mv w bx4 by4).bind fun
    | none => some none
    | some w => (getShearParams w).map fun (r, w) => if r = 0 then some w else none

/-- What the first pass of a two-pass decoder keeps of the result, src/decode.c:1818-1827. -/
def store : Option Wm → List Int
  | some w => [toI16 (w.m2 - 0x10000), toI16 w.m3, toI16 w.m4, toI16 (w.m5 - 0x10000)]
  | none => [-32768]

/-- What the second pass makes of it, src/decode.c:742-751, `w` being what `t->warpmv` held before. -/
def restore (m : List Int) (bw4 bh4 : Int) (mv : Mv) (w : Wm) (bx4 by4 : Int) : Option (Option Wm) :=
  match m with
  | [] => none
  | a :: r =>
    if a = -32768 then some none
    else match r with
      | [b, c, d] =>
        (setAffineMv2d bw4 bh4 mv { w with m2 := a + 0x10000, m3 := b, m4 := c, m5 := d + 0x10000 } bx4 by4).bind fun w =>
        (getShearParams w).map fun (_, w) => some w
      | _ => none

/-- `f->gmv_warp_allowed[i]`, src/decode.c:3486-3489, without the conditions on `force_integer_mv` and scaling; the type
is above DAV1D_WM_TYPE_TRANSLATION. -/
def gmvWarpAllowed (type : Nat) (w : Wm) : Option Bool :=
  if type > 1 then (getShearParams w).map fun (r, _) => r == 0 else some false

end Dav1d.Warp
