import Verif.Dsp.Mc
/-!
# Model of the loop restoration filters, src/looprestoration_tmpl.c

Simplifications:

* Pixel buffers are functions of row and column. `dst` and `lpf` have row 0 and column 0 where the pointers point.
  `tmp` and `hor` of the Wiener filter are addressed by row and column instead of by one index with a stride of 390; the
  columns used are below `w + 6`, which is at most 390 when `w` is at most 384.
* `sumsq` and `sum` (`A` and `B`) rows are moved and written together in the code, each pair is one row of pairs here.
* `int` is the set of integers. Values stored in `coef`, `int32_t` and `uint16_t` and computed as `unsigned` wrap.
* The C versions of the functions are modelled, not the assembly ones.
-/
namespace Dav1d.Lr

/-- enum LrEdgeFlags, src/looprestoration.h:36-41. -/
structure Edges where
  left : Bool
  right : Bool
  top : Bool
  bottom : Bool
  deriving DecidableEq

/-- The arguments of a filter function, src/looprestoration.h:65-72: the pixels to filter, the columns to the left of them
before filtering (`left[j][i]`), the rows above and below before CDEF, and the size. -/
structure Args where
  dst : Int → Int → Int
  left : Nat → Nat → Int
  lpf : Int → Int → Int
  w : Nat
  h : Nat
  e : Edges

/-- A loop with `n` iterations. -/
def iter {α : Type} (n : Nat) (f : Nat → α → α) (a : α) : α :=
  match n with
  | 0 => a
  | n + 1 => f n (iter n f a)

/-- A buffer of pixels: row, column. -/
abbrev Buf := Nat → Nat → Int

/-- pixel_copy of `n` pixels to column `c0` of row `r0`. -/
def Buf.copy (b : Buf) (r0 c0 : Nat) (src : Nat → Int) (n : Nat) : Buf :=
  fun r c => if r = r0 ∧ c0 ≤ c ∧ c < c0 + n then src (c - c0) else b r c

namespace Args

/-- `3 * have_left` -/
def hl (a : Args) : Nat := if a.e.left then 3 else 0

/-- `unit_w` after line 53 of src/looprestoration_tmpl.c. -/
def uw (a : Args) : Nat := a.w + a.hl + (if a.e.right then 3 else 0)

/-- The column `dst_l` points to. -/
def dl (a : Args) : Nat := 3 - a.hl

/-- A row of `p` after line 55 of src/looprestoration_tmpl.c. -/
def p (a : Args) (r : Int) (c : Nat) : Int := a.dst r ((c : Int) - a.hl)

/-- A row of `lpf` after line 56 of src/looprestoration_tmpl.c. -/
def lpfRow (a : Args) (r : Int) (c : Nat) : Int := a.lpf r ((c : Int) - a.hl)

/-- `&left[r][1]` -/
def lft (a : Args) (r c : Nat) : Int := a.left r (c + 1)

end Args

/-- The three rows above, src/looprestoration_tmpl.c:58-76. -/
def padTop (a : Args) (b : Buf) : Buf :=
  if a.e.top then
    ((b.copy 0 a.dl (a.lpfRow 0) a.uw).copy 1 a.dl (a.lpfRow 0) a.uw).copy 2 a.dl (a.lpfRow 1) a.uw
  else
    let b := ((b.copy 0 a.dl (a.p 0) a.uw).copy 1 a.dl (a.p 0) a.uw).copy 2 a.dl (a.p 0) a.uw
    if a.e.left then ((b.copy 0 a.dl (a.lft 0) 3).copy 1 a.dl (a.lft 0) 3).copy 2 a.dl (a.lft 0) 3 else b

/-- The three rows below, src/looprestoration_tmpl.c:78-97. -/
def padBottom (a : Args) (b : Buf) : Buf :=
  if a.e.bottom then
    ((b.copy (3 + a.h) a.dl (a.lpfRow 6) a.uw).copy (3 + (a.h + 1)) a.dl (a.lpfRow 7) a.uw).copy (3 + (a.h + 2)) a.dl
      (a.lpfRow 7) a.uw
  else
    let last := a.p ((a.h : Int) - 1)
    let b := ((b.copy (3 + a.h) a.dl last a.uw).copy (3 + (a.h + 1)) a.dl last a.uw).copy (3 + (a.h + 2)) a.dl last a.uw
    if a.e.left then
      ((b.copy (3 + a.h) a.dl (a.lft (a.h - 1)) 3).copy (3 + (a.h + 1)) a.dl (a.lft (a.h - 1)) 3).copy (3 + (a.h + 2)) a.dl
        (a.lft (a.h - 1)) 3
    else b

/-- The block and the columns to its right, src/looprestoration_tmpl.c:99-104. -/
def padInner (a : Args) (b : Buf) : Buf :=
  iter a.h (fun j b => b.copy (3 + j) (a.dl + a.hl) (fun c => a.p j (c + a.hl)) (a.uw - a.hl)) b

/-- The right columns when there are no pixels, src/looprestoration_tmpl.c:106-115. -/
def padRight (a : Args) (b : Buf) : Buf :=
  if a.e.right then b
  else iter (a.h + 6) (fun j b => b.copy j (a.dl + a.uw) (fun _ => b j (a.dl + a.uw - 1)) 3) b

/-- The left columns, src/looprestoration_tmpl.c:117-130. -/
def padLeft (a : Args) (b : Buf) : Buf :=
  if a.e.left then iter a.h (fun j b => b.copy (3 + j) 0 (a.lft j) 3) b
  else iter (a.h + 6) (fun j b => b.copy j 0 (fun _ => b j a.dl) 3) b

/-- padding, src/looprestoration_tmpl.c:45-131. `b` is what the buffer holds before. -/
def padding (a : Args) (b : Buf) : Buf := padLeft a (padRight a (padInner a (padBottom a (padTop a b))))

/-- The taps: `filter[0]` and `filter[1]`. -/
structure Taps where
  hor : Nat → Int
  ver : Nat → Int

/-- The Wiener part of lr_stripe, src/lr_apply_tmpl.c:54-70: the taps from the coded coefficients. -/
def taps (d : Depth) (fh fv : Nat → Int) : Taps :=
  let sym (f : Nat → Int) (mid : Int) : Nat → Int := fun k =>
    if k = 0 ∨ k = 6 then f 0 else if k = 1 ∨ k = 5 then f 1 else if k = 2 ∨ k = 4 then f 2 else mid
  { hor := sym fh (-(fh 0 + fh 1 + fh 2) * 2 + if d = .b8 then 0 else 128)
    ver := sym fv (128 - (fv 0 + fv 1 + fv 2) * 2) }

/-- Conversion to `uint16_t`. -/
def u16 (v : Int) : Int := v % 2 ^ 16

/-- `round_bits_h`, src/looprestoration_tmpl.c:158. -/
def roundH (d : Depth) : Nat := 3 + (if d = .b12 then 2 else 0)

/-- `round_bits_v`, src/looprestoration_tmpl.c:178. -/
def roundV (d : Depth) : Nat := 11 - (if d = .b12 then 2 else 0)

/-- The value of `sum` after the loop over the 7 taps. -/
def sum7 (init : Int) (f : Nat → Int) (px : Nat → Int) : Int := iter 7 (fun k s => s + px k * f k) init

/-- The first loop of wiener_c, src/looprestoration_tmpl.c:161-176: `hor[j][i]`. -/
def wienerHor (d : Depth) (t : Taps) (tmp : Buf) (j i : Nat) : Int :=
  let init : Int := 2 ^ (d.bpc + 6) + if d = .b8 then tmp j (i + 3) * 128 else 0
  let sum := sum7 init t.hor (fun k => tmp j (i + k))
  u16 (iclip (asr (sum + 2 ^ (roundH d - 1)) (roundH d)) 0 (2 ^ (d.bpc + 1 + 7 - roundH d) - 1))

/-- wiener_c, src/looprestoration_tmpl.c:137-193. `b` is what `tmp` holds before. The result is the plane afterwards. -/
def wiener (d : Depth) (t : Taps) (a : Args) (b : Buf) : Int → Int → Int :=
  let tmp := padding a b
  fun y x =>
    if 0 ≤ y ∧ y < a.h ∧ 0 ≤ x ∧ x < a.w then
      let sum := sum7 (-2 ^ (d.bpc + (roundV d - 1))) t.ver (fun k => wienerHor d t tmp (y.toNat + k) x.toNat)
      d.clip (asr (sum + 2 ^ (roundV d - 1)) (roundV d))
    else a.dst y x

/-! ## The self-guided filter -/

/-- A row of `sumsq` and `sum`, or of `A` and `B`. Entry 0 is for column -1. -/
abbrev Row := Nat → Int × Int

/-- Row pointers and the rows they point to. -/
structure Ring where
  ptr : Nat → Nat
  buf : Nat → Row

namespace Ring

/-- `ptrs[i]` as a row. -/
def get (r : Ring) (i : Nat) : Row := r.buf (r.ptr i)

/-- Change the row `rows[k]`. -/
def putRow (r : Ring) (k : Nat) (f : Row → Row) : Ring := { r with buf := fun j => if j = k then f (r.buf j) else r.buf j }

/-- Change the row `ptrs[i]` points to. -/
def put (r : Ring) (i : Nat) (f : Row → Row) : Ring := r.putRow (r.ptr i) f

/-- `ptrs[i] = rows[k]` -/
def point (r : Ring) (i k : Nat) : Ring := { r with ptr := fun j => if j = i then k else r.ptr j }

/-- `ptrs[i] = ptrs[j]` -/
def alias (r : Ring) (i j : Nat) : Ring := r.point i (r.ptr j)

/-- rotate, src/looprestoration_tmpl.c:196-206. -/
def rotate (r : Ring) (n : Nat) : Ring :=
  { r with ptr := fun i => if i + 1 < n then r.ptr (i + 1) else if i + 1 = n then r.ptr 0 else r.ptr i }

/-- rotate5_x2, src/looprestoration_tmpl.c:208-224. -/
def rotate5x2 (r : Ring) : Ring :=
  { r with ptr := fun i => if i < 3 then r.ptr (i + 2) else if i < 5 then r.ptr (i - 3) else r.ptr i }

end Ring

/-- Conversion to `coef`: int16_t with 8 bits, else int32_t, include/common/bitdepth.h:44 and 62. -/
def coef (d : Depth) (v : Int) : Int :=
  if d = .b8 then (v + 2 ^ 15) % 2 ^ 16 - 2 ^ 15 else (v + 2 ^ 31) % 2 ^ 32 - 2 ^ 31

/-- Conversion to `int32_t`. -/
def i32 (v : Int) : Int := (v + 2 ^ 31) % 2 ^ 32 - 2 ^ 31

/-- Conversion to `unsigned`. -/
def u32 (v : Int) : Int := v % 2 ^ 32

/-- `(x < w || (edges & LR_HAVE_RIGHT)) ? src[x] : src[w - 1]` -/
def rightPx (a : Args) (src : Int → Int) (x : Int) : Int := if x < a.w ∨ a.e.right then src x else src (a.w - 1)

/-- `edges & LR_HAVE_LEFT ? (left ? left[0][4 - k] : src[-k]) : src[0]`. `left` is `none` for a null pointer. -/
def leftPx (a : Args) (left : Option (Nat → Int)) (src : Int → Int) (k : Nat) : Int :=
  if a.e.left then (match left with | some l => l (4 - k) | none => src (-k)) else src 0

/-- sgr_box3_row_h, src/looprestoration_tmpl.c:226-242. Iteration `i` is for `x = i - 1`. -/
def box3RowH (d : Depth) (a : Args) (left : Option (Nat → Int)) (src : Int → Int) (row : Row) : Row :=
  (iter (a.w + 2) (fun i (s : (Int × Int) × Row) =>
      let c := rightPx a src i
      ((s.1.2, c),
       fun k => if k = i then
           (i32 (s.1.1 * s.1.1 + s.1.2 * s.1.2 + c * c), coef d (s.1.1 + s.1.2 + c))
         else s.2 k))
    ((leftPx a left src 2, leftPx a left src 1), row)).2

/-- sgr_box5_row_h, src/looprestoration_tmpl.c:244-264. -/
def box5RowH (d : Depth) (a : Args) (left : Option (Nat → Int)) (src : Int → Int) (row : Row) : Row :=
  (iter (a.w + 2) (fun i (s : (Int × Int × Int × Int) × Row) =>
      let e := rightPx a src (i + 1)
      ((s.1.2.1, s.1.2.2.1, s.1.2.2.2, e),
       fun k => if k = i then
           (i32 (s.1.1 * s.1.1 + s.1.2.1 * s.1.2.1 + s.1.2.2.1 * s.1.2.2.1 + s.1.2.2.2 * s.1.2.2.2 + e * e),
            coef d (s.1.1 + s.1.2.1 + s.1.2.2.1 + s.1.2.2.2 + e))
         else s.2 k))
    ((leftPx a left src 3, leftPx a left src 2, leftPx a left src 1, src 0), row)).2

/-- sgr_box3_row_v, src/looprestoration_tmpl.c:276-290. -/
def box3RowV (d : Depth) (w : Nat) (r : Ring) (out : Row) : Row := fun x =>
  if x < w + 2 then
    (i32 ((r.get 0 x).1 + (r.get 1 x).1 + (r.get 2 x).1), coef d ((r.get 0 x).2 + (r.get 1 x).2 + (r.get 2 x).2))
  else out x

/-- sgr_box5_row_v, src/looprestoration_tmpl.c:292-310. -/
def box5RowV (d : Depth) (w : Nat) (r : Ring) (out : Row) : Row := fun x =>
  if x < w + 2 then
    (i32 ((r.get 0 x).1 + (r.get 1 x).1 + (r.get 2 x).1 + (r.get 3 x).1 + (r.get 4 x).1),
     coef d ((r.get 0 x).2 + (r.get 1 x).2 + (r.get 2 x).2 + (r.get 3 x).2 + (r.get 4 x).2))
  else out x

/-- dav1d_sgr_x_by_x, src/tables.c:422-441. -/
def xByX : List Int := [
  255, 128, 85, 64, 51, 43, 37, 32, 28, 26, 23, 21, 20, 18, 17, 16, 15, 14, 13, 13, 12, 12, 11, 11,
  10, 10, 9, 9, 9, 9, 8, 8, 8, 8, 7, 7, 7, 7, 7, 6, 6, 6, 6, 6, 6, 6, 5, 5,
  5, 5, 5, 5, 5, 5, 5, 5, 4, 4, 4, 4, 4, 4, 4, 4, 4, 4, 4, 4, 4, 4, 4, 4,
  4, 3, 3, 3, 3, 3, 3, 3, 3, 3, 3, 3, 3, 3, 3, 3, 3, 3, 3, 3, 3, 3, 3, 3,
  3, 3, 3, 3, 3, 3, 2, 2, 2, 2, 2, 2, 2, 2, 2, 2, 2, 2, 2, 2, 2, 2, 2, 2,
  2, 2, 2, 2, 2, 2, 2, 2, 2, 2, 2, 2, 2, 2, 2, 2, 2, 2, 2, 2, 2, 2, 2, 2,
  2, 2, 2, 2, 2, 2, 2, 2, 2, 2, 2, 2, 2, 2, 2, 2, 2, 2, 2, 2, 2, 2, 2, 2,
  2, 2, 1, 1, 1, 1, 1, 1, 1, 1, 1, 1, 1, 1, 1, 1, 1, 1, 1, 1, 1, 1, 1, 1,
  1, 1, 1, 1, 1, 1, 1, 1, 1, 1, 1, 1, 1, 1, 1, 1, 1, 1, 1, 1, 1, 1, 1, 1,
  1, 1, 1, 1, 1, 1, 1, 1, 1, 1, 1, 1, 1, 1, 1, 1, 1, 1, 1, 1, 1, 1, 1, 1,
  1, 1, 1, 1, 1, 1, 1, 1, 1, 1, 1, 1, 1, 1, 1, 0]

/-- dav1d_sgr_params, src/tables.c:415-420. -/
def sgrParams : List (Int × Int) := [
  (140, 3236), (112, 2158), (93, 1618), (80, 1438),
  (70, 1295), (58, 1177), (47, 1079), (37, 996),
  (30, 925), (25, 863), (0, 2589), (0, 1618),
  (0, 1177), (0, 925), (56, 0), (22, 0)]

/-- The body of the loop of sgr_calc_row_ab, src/looprestoration_tmpl.c:316-328. -/
def calcAb (d : Depth) (s n oneByX : Int) (v : Int × Int) : Int × Int :=
  let m := d.bpc - 8
  let a := asr (v.1 + asr (2 ^ (2 * m)) 1) (2 * m)
  let b := asr (v.2 + asr (2 ^ m) 1) m
  let p := max (a * n - b * b) 0
  let z := asr (u32 (p * s + 2 ^ 19)) 20
  let x := xByX.getD (min z 255).toNat 0
  (i32 (asr (u32 (x * v.2 * oneByX + 2 ^ 11)) 12), coef d x)

/-- sgr_calc_row_ab, src/looprestoration_tmpl.c:312-330. -/
def calcRowAb (d : Depth) (w : Nat) (s n oneByX : Int) (row : Row) : Row := fun i =>
  if i < w + 2 then calcAb d s n oneByX (row i) else row i

/-- EIGHT_NEIGHBORS, src/looprestoration_tmpl.c:367-370. `P k i` is `P[k][i]`. -/
def eightNeighbors (P : Nat → Nat → Int) (i : Nat) : Int :=
  (P 1 i + P 1 (i - 1) + P 1 (i + 1) + P 0 i + P 2 i) * 4 + (P 0 (i - 1) + P 2 (i - 1) + P 0 (i + 1) + P 2 (i + 1)) * 3

/-- SIX_NEIGHBORS, src/looprestoration_tmpl.c:387-390. -/
def sixNeighbors (P : Nat → Nat → Int) (i : Nat) : Int :=
  (P 0 i + P 1 i) * 6 + (P 0 (i - 1) + P 1 (i - 1) + P 0 (i + 1) + P 1 (i + 1)) * 5

/-- sgr_finish_filter_row1, src/looprestoration_tmpl.c:362-377: `tmp[i]`. `o` is the offset of the rows in `r`. -/
def finishRow1 (d : Depth) (src : Int → Int) (r : Ring) (o i : Nat) : Int :=
  let a := eightNeighbors (fun k j => (r.get (k + o) j).2) (i + 1)
  let b := eightNeighbors (fun k j => (r.get (k + o) j).1) (i + 1)
  coef d (asr (b - a * src i + 2 ^ 8) 9)

/-- sgr_finish_filter2, src/looprestoration_tmpl.c:381-408: `tmp[i]` of the first row. -/
def finish2First (d : Depth) (src : Int → Int) (r : Ring) (i : Nat) : Int :=
  let a := sixNeighbors (fun k j => (r.get k j).2) (i + 1)
  let b := sixNeighbors (fun k j => (r.get k j).1) (i + 1)
  coef d (asr (b - a * src i + 2 ^ 8) 9)

/-- sgr_finish_filter2, src/looprestoration_tmpl.c:381-408: `tmp[i]` of the second row, when `h` is 2. -/
def finish2Second (d : Depth) (src : Int → Int) (r : Ring) (i : Nat) : Int :=
  let B : Nat → Int := fun j => (r.get 1 j).2
  let A : Nat → Int := fun j => (r.get 1 j).1
  let a := B (i + 1) * 6 + (B i + B (i + 2)) * 5
  let b := A (i + 1) * 6 + (A i + A (i + 2)) * 5
  coef d (asr (b - a * src i + 2 ^ 7) 8)

/-- sgr_weighted_row1, src/looprestoration_tmpl.c:410-417, on row `y`. -/
def weightedRow1 (d : Depth) (w : Nat) (w1 : Int) (t1 : Nat → Int) (y : Nat) (dst : Int → Int → Int) : Int → Int → Int :=
  fun r c => if r = y ∧ 0 ≤ c ∧ c < w then
      d.clip (dst r c + asr (w1 * t1 c.toNat + 2 ^ 10) 11)
    else dst r c

/-- One iteration of the outer loop of sgr_weighted2, src/looprestoration_tmpl.c:419-433, on row `y`. -/
def weightedRow2 (d : Depth) (w : Nat) (w0 w1 : Int) (t1 t2 : Nat → Int) (y : Nat) (dst : Int → Int → Int) :
    Int → Int → Int :=
  fun r c => if r = y ∧ 0 ≤ c ∧ c < w then
      d.clip (dst r c + asr (w0 * t1 c.toNat + w1 * t2 c.toNat + 2 ^ 10) 11)
    else dst r c

/-- LooprestorationParams.sgr, src/looprestoration.h:51-54. -/
structure Sgr where
  s0 : Int
  s1 : Int
  w0 : Int
  w1 : Int

/-- The self-guided part of lr_stripe, src/lr_apply_tmpl.c:74-80. The `int16_t` of the weights is left out: the values are
small. -/
def sgrOf (idx : Nat) (w0 w1 : Int) : Sgr :=
  let p := sgrParams.getD idx (0, 0)
  { s0 := p.1, s1 := p.2, w0 := w0, w1 := 128 - (w0 + w1) }

/-- What stays the same during a call. -/
structure Ctx where
  d : Depth
  a : Args
  g : Sgr

/-- The state of sgr_3x3_c: `sy` is the row of `src`, and of `left`, `y` the row of `dst`. -/
structure St3 where
  sum : Ring
  ab : Ring
  dst : Int → Int → Int
  sy : Nat
  y : Nat

namespace St3

/-- sgr_box3_vert, src/looprestoration_tmpl.c:332-339, with `A_ptrs[k]`. -/
def vert (c : Ctx) (s : St3) : St3 :=
  { s with
    ab := s.ab.put 2 (fun out => calcRowAb c.d c.a.w c.g.s1 9 455 (box3RowV c.d c.a.w s.sum out))
    sum := s.sum.rotate 3 }

/-- sgr_box3_hv with `left` and `src`, `left++`, `src += stride`, src/looprestoration_tmpl.c:350-360, 525-528. -/
def hv (c : Ctx) (s : St3) : St3 :=
  vert c { s with sum := s.sum.put 2 (box3RowH c.d c.a (some (c.a.left s.sy)) (s.dst s.sy)), sy := s.sy + 1 }

/-- sgr_box3_hv with a row of `lpf`. -/
def hvLpf (c : Ctx) (k : Int) (s : St3) : St3 :=
  vert c { s with sum := s.sum.put 2 (box3RowH c.d c.a none (c.a.lpf k)) }

/-- `rotate(A_ptrs, B_ptrs, 3)` -/
def rot (s : St3) : St3 := { s with ab := s.ab.rotate 3 }

/-- sgr_finish1, src/looprestoration_tmpl.c:435-446. -/
def finish1 (c : Ctx) (s : St3) : St3 :=
  { s with
    dst := weightedRow1 c.d c.a.w c.g.w1 (finishRow1 c.d (s.dst s.y) s.ab 0) s.y s.dst
    y := s.y + 1
    ab := s.ab.rotate 3 }

/-- The label `output_1` of sgr_3x3_c, src/looprestoration_tmpl.c:613-621. -/
def output1 (c : Ctx) (s : St3) : St3 := finish1 c (vert c { s with sum := s.sum.alias 2 1 })

/-- The label `vert_2`, src/looprestoration_tmpl.c:604-611. -/
def vert2 (c : Ctx) (s : St3) : St3 := output1 c (finish1 c (vert c { s with sum := s.sum.alias 2 1 }))

/-- The label `vert_1`, src/looprestoration_tmpl.c:623-629. -/
def vert1 (c : Ctx) (s : St3) : St3 := output1 c (rot (vert c { s with sum := s.sum.alias 2 1 }))

/-- The loop, src/looprestoration_tmpl.c:577-585, with `n` iterations. -/
def rows (c : Ctx) (n : Nat) (s : St3) : St3 := iter n (fun _ s => finish1 c (hv c s)) s

/-- From the loop to the end or `vert_2`, src/looprestoration_tmpl.c:577-602, with `n` for `h`, which is positive. -/
def main (c : Ctx) (n : Nat) (s : St3) : St3 :=
  let s := rows c n s
  if c.a.e.bottom then finish1 c (hvLpf c 7 (finish1 c (hvLpf c 6 s))) else vert2 c s

/-- The pointers with rows above, and these rows, src/looprestoration_tmpl.c:514-523. -/
def initTop (c : Ctx) (s : St3) : St3 :=
  let r : Ring := (⟨fun i => i, s.sum.buf⟩ : Ring).putRow 0 (box3RowH c.d c.a none (c.a.lpf 0))
  { s with sum := r.putRow 1 (box3RowH c.d c.a none (c.a.lpf 1)) }

/-- After the first row with rows above, src/looprestoration_tmpl.c:531-541 and from 577. -/
def restTop (c : Ctx) (s : St3) : St3 :=
  if c.a.h ≤ 1 then vert1 c s
  else if c.a.h ≤ 2 then vert2 c (rot (hv c s))
  else main c (c.a.h - 2) (rot (hv c s))

/-- The pointers without rows above, and the first row, src/looprestoration_tmpl.c:543-552. -/
def initFirst (c : Ctx) (s : St3) : St3 :=
  { s with
    sum := (⟨fun _ => 0, s.sum.buf⟩ : Ring).putRow 0 (box3RowH c.d c.a (some (c.a.left s.sy)) (s.dst s.sy))
    sy := s.sy + 1 }

/-- The second row without rows above, src/looprestoration_tmpl.c:561-568. -/
def second (c : Ctx) (s : St3) : St3 := rot (hv c { s with sum := s.sum.point 2 1 })

/-- After the first row without rows above, src/looprestoration_tmpl.c:558-575 and from 577. -/
def restFirst (c : Ctx) (s : St3) : St3 :=
  if c.a.h ≤ 1 then vert1 c s
  else if c.a.h ≤ 2 then vert2 c (second c s)
  else main c (c.a.h - 2) { second c s with sum := (second c s).sum.point 2 2 }

/-- sgr_3x3_c from line 513: `s` has the uninitialised rows. `h` is positive. -/
def run (c : Ctx) (s : St3) : St3 :=
  if c.a.e.top then restTop c (rot (hv c (initTop c s))) else restFirst c (rot (vert c (initFirst c s)))

end St3

/-- What the local arrays hold before they are written. -/
structure Junk where
  sum3 : Nat → Row
  ab3 : Nat → Row
  sum5 : Nat → Row
  ab5 : Nat → Row

/-- sgr_3x3_c, src/looprestoration_tmpl.c:486-630: the plane afterwards. -/
def sgr3x3 (c : Ctx) (j : Junk) : Int → Int → Int :=
  (St3.run c { sum := { ptr := fun _ => 0, buf := j.sum3 }, ab := { ptr := fun i => i, buf := j.ab3 }, dst := c.a.dst,
               sy := 0, y := 0 }).dst

/-- The state of sgr_5x5_c. -/
structure St5 where
  sum : Ring
  ab : Ring
  dst : Int → Int → Int
  sy : Nat
  y : Nat

namespace St5

/-- sgr_box5_vert, src/looprestoration_tmpl.c:341-348. -/
def vert (c : Ctx) (s : St5) : St5 :=
  { s with
    ab := s.ab.put 1 (fun out => calcRowAb c.d c.a.w c.g.s0 25 164 (box5RowV c.d c.a.w s.sum out))
    sum := s.sum.rotate5x2 }

/-- sgr_box5_row_h to `rows[k]` with `left` and `src`, `left++`, `src += stride`. -/
def rowH (c : Ctx) (k : Nat) (s : St5) : St5 :=
  { s with sum := s.sum.putRow k (box5RowH c.d c.a (some (c.a.left s.sy)) (s.dst s.sy)), sy := s.sy + 1 }

/-- sgr_box5_row_h to `rows[k]` with a row of `lpf`. -/
def rowLpf (c : Ctx) (k : Nat) (r : Int) (s : St5) : St5 :=
  { s with sum := s.sum.putRow k (box5RowH c.d c.a none (c.a.lpf r)) }

/-- `rotate(A_ptrs, B_ptrs, 2)` -/
def rot (s : St5) : St5 := { s with ab := s.ab.rotate 2 }

/-- sgr_finish2 with `h` 2, src/looprestoration_tmpl.c:448-463. -/
def finish2 (c : Ctx) (s : St5) : St5 :=
  let t0 := finish2First c.d (s.dst s.y) s.ab
  let t1 := finish2Second c.d (s.dst ((s.y + 1 : Nat) : Int)) s.ab
  { s with
    dst := weightedRow1 c.d c.a.w c.g.w0 t1 (s.y + 1) (weightedRow1 c.d c.a.w c.g.w0 t0 s.y s.dst)
    y := s.y + 2
    ab := s.ab.rotate 2 }

/-- sgr_finish2 with `h` 1. -/
def finish2One (c : Ctx) (s : St5) : St5 :=
  { s with
    dst := weightedRow1 c.d c.a.w c.g.w0 (finish2First c.d (s.dst s.y) s.ab) s.y s.dst
    y := s.y + 1
    ab := s.ab.rotate 2 }

/-- The label `output_2`, src/looprestoration_tmpl.c:783-788. -/
def output2 (c : Ctx) (s : St5) : St5 := finish2 c (vert c s)

/-- The label `vert_2`, src/looprestoration_tmpl.c:790-796. -/
def vert2 (c : Ctx) (s : St5) : St5 := output2 c { s with sum := (s.sum.alias 3 2).alias 4 2 }

/-- The label `output_1`, src/looprestoration_tmpl.c:808-820. -/
def output1 (c : Ctx) (s : St5) : St5 := finish2One c (vert c { s with sum := (s.sum.alias 3 2).alias 4 2 })

/-- The label `odd`, src/looprestoration_tmpl.c:798-806. -/
def odd (c : Ctx) (s : St5) : St5 := output1 c (finish2 c (vert c { s with sum := s.sum.alias 4 3 }))

/-- The label `vert_1`, src/looprestoration_tmpl.c:822-831. -/
def vert1 (c : Ctx) (s : St5) : St5 := output1 c (rot (vert c { s with sum := s.sum.alias 4 3 }))

/-- From the loop to the end or `vert_2`, src/looprestoration_tmpl.c:758-781. `n` is `h`, which is positive at the start of
an iteration; with 0 the loop has been left. -/
def main (c : Ctx) (n : Nat) (s : St5) : St5 :=
  match n with
  | 0 =>
    if c.a.e.bottom then output2 c (rowLpf c (s.sum.ptr 4) 7 (rowLpf c (s.sum.ptr 3) 6 s)) else vert2 c s
  | 1 => odd c (rowH c (s.sum.ptr 3) s)
  | n + 2 => main c n (finish2 c (vert c (rowH c (s.sum.ptr 4) (rowH c (s.sum.ptr 3) s))))

/-- The pointers with rows above, these rows and the first row, src/looprestoration_tmpl.c:659-676. -/
def initTop (c : Ctx) (s : St5) : St5 :=
  rowH c 2 (rowLpf c 1 1 (rowLpf c 0 0 { s with sum := ⟨fun i => i - 1, s.sum.buf⟩ }))

/-- The second row with rows above, src/looprestoration_tmpl.c:681-686. -/
def secondTop (c : Ctx) (s : St5) : St5 := rot (vert c (rowH c 3 s))

/-- After the first row with rows above, src/looprestoration_tmpl.c:678-694 and from 758. -/
def restTop (c : Ctx) (s : St5) : St5 :=
  if c.a.h ≤ 1 then vert1 c s
  else if c.a.h ≤ 2 then vert2 c (secondTop c s)
  else main c (c.a.h - 2) { secondTop c s with sum := (secondTop c s).sum.point 3 4 }

/-- The pointers without rows above, and the first row, src/looprestoration_tmpl.c:696-709. -/
def initFirst (c : Ctx) (s : St5) : St5 := rowH c 0 { s with sum := ⟨fun _ => 0, s.sum.buf⟩ }

/-- The second row without rows above, src/looprestoration_tmpl.c:714-723. -/
def second (c : Ctx) (s : St5) : St5 := rot (vert c (rowH c 1 { s with sum := s.sum.point 4 1 }))

/-- The third row without rows above, src/looprestoration_tmpl.c:728-735. -/
def third (c : Ctx) (s : St5) : St5 := rowH c 2 { s with sum := (s.sum.point 3 2).point 4 3 }

/-- The fourth row without rows above, src/looprestoration_tmpl.c:740-747. -/
def fourth (c : Ctx) (s : St5) : St5 := finish2 c (vert c (rowH c 3 s))

/-- After the first row without rows above, src/looprestoration_tmpl.c:711-756 and from 758. -/
def restFirst (c : Ctx) (s : St5) : St5 :=
  if c.a.h ≤ 1 then vert1 c s
  else if c.a.h ≤ 2 then vert2 c (second c s)
  else if c.a.h ≤ 3 then odd c (third c (second c s))
  else if c.a.h ≤ 4 then vert2 c (fourth c (third c (second c s)))
  else
    let s := fourth c (third c (second c s))
    main c (c.a.h - 4) { s with sum := s.sum.point 3 4 }

/-- sgr_5x5_c from line 658: `s` has the uninitialised rows. `h` is positive. -/
def run (c : Ctx) (s : St5) : St5 := if c.a.e.top then restTop c (initTop c s) else restFirst c (initFirst c s)

end St5

/-- sgr_5x5_c, src/looprestoration_tmpl.c:632-832: the plane afterwards. -/
def sgr5x5 (c : Ctx) (j : Junk) : Int → Int → Int :=
  (St5.run c { sum := { ptr := fun _ => 0, buf := j.sum5 }, ab := { ptr := fun i => i, buf := j.ab5 }, dst := c.a.dst,
               sy := 0, y := 0 }).dst

/-- The state of sgr_mix_c. -/
structure StM where
  sum5 : Ring
  sum3 : Ring
  ab5 : Ring
  ab3 : Ring
  dst : Int → Int → Int
  sy : Nat
  y : Nat

namespace StM

/-- sgr_box5_vert, src/looprestoration_tmpl.c:341-348. -/
def vert5 (c : Ctx) (s : StM) : StM :=
  { s with
    ab5 := s.ab5.put 1 (fun out => calcRowAb c.d c.a.w c.g.s0 25 164 (box5RowV c.d c.a.w s.sum5 out))
    sum5 := s.sum5.rotate5x2 }

/-- sgr_box3_vert, src/looprestoration_tmpl.c:332-339, with `A3_ptrs[3]`. -/
def vert3 (c : Ctx) (s : StM) : StM :=
  { s with
    ab3 := s.ab3.put 3 (fun out => calcRowAb c.d c.a.w c.g.s1 9 455 (box3RowV c.d c.a.w s.sum3 out))
    sum3 := s.sum3.rotate 3 }

/-- `rotate(A5_ptrs, B5_ptrs, 2)` -/
def rot5 (s : StM) : StM := { s with ab5 := s.ab5.rotate 2 }

/-- `rotate(A3_ptrs, B3_ptrs, 4)` -/
def rot3 (s : StM) : StM := { s with ab3 := s.ab3.rotate 4 }

/-- sgr_box35_row_h to `rows3[k3]` and `rows5[k5]` with `left` and `src`, `left++`, `src += stride`,
src/looprestoration_tmpl.c:266-274. -/
def rowH (c : Ctx) (k3 k5 : Nat) (s : StM) : StM :=
  { s with
    sum3 := s.sum3.putRow k3 (box3RowH c.d c.a (some (c.a.left s.sy)) (s.dst s.sy))
    sum5 := s.sum5.putRow k5 (box5RowH c.d c.a (some (c.a.left s.sy)) (s.dst s.sy))
    sy := s.sy + 1 }

/-- sgr_box35_row_h with a row of `lpf`. -/
def rowLpf (c : Ctx) (k3 k5 : Nat) (r : Int) (s : StM) : StM :=
  { s with
    sum3 := s.sum3.putRow k3 (box3RowH c.d c.a none (c.a.lpf r))
    sum5 := s.sum5.putRow k5 (box5RowH c.d c.a none (c.a.lpf r)) }

/-- sgr_finish_mix with `h` 2, src/looprestoration_tmpl.c:465-483. -/
def finish (c : Ctx) (s : StM) : StM :=
  let t50 := finish2First c.d (s.dst s.y) s.ab5
  let t51 := finish2Second c.d (s.dst ((s.y + 1 : Nat) : Int)) s.ab5
  let t30 := finishRow1 c.d (s.dst s.y) s.ab3 0
  let t31 := finishRow1 c.d (s.dst ((s.y + 1 : Nat) : Int)) s.ab3 1
  { s with
    dst := weightedRow2 c.d c.a.w c.g.w0 c.g.w1 t51 t31 (s.y + 1) (weightedRow2 c.d c.a.w c.g.w0 c.g.w1 t50 t30 s.y s.dst)
    y := s.y + 2
    ab5 := s.ab5.rotate 2
    ab3 := s.ab3.rotate 4 }

/-- sgr_finish_mix with `h` 1. -/
def finishOne (c : Ctx) (s : StM) : StM :=
  { s with
    dst := weightedRow2 c.d c.a.w c.g.w0 c.g.w1 (finish2First c.d (s.dst s.y) s.ab5) (finishRow1 c.d (s.dst s.y) s.ab3 0) s.y
      s.dst
    y := s.y + 1
    ab5 := s.ab5.rotate 2
    ab3 := s.ab3.rotate 4 }

/-- The label `output_2`, src/looprestoration_tmpl.c:1077-1085. -/
def output2 (c : Ctx) (s : StM) : StM := finish c (vert3 c (vert5 c s))

/-- `ptrs[3] = ptrs[2]; ptrs[4] = ptrs[2]`, src/looprestoration_tmpl.c:1088-1092. -/
def dup5 (s : StM) : StM := { s with sum5 := (s.sum5.alias 3 2).alias 4 2 }

/-- `ptrs[4] = ptrs[3]`, src/looprestoration_tmpl.c:1106-1108. -/
def pad5 (s : StM) : StM := { s with sum5 := s.sum5.alias 4 3 }

/-- `ptrs[2] = ptrs[1]`, src/looprestoration_tmpl.c:1094-1095. -/
def dup3 (s : StM) : StM := { s with sum3 := s.sum3.alias 2 1 }

/-- The label `vert_2`, src/looprestoration_tmpl.c:1087-1103. -/
def vert2 (c : Ctx) (s : StM) : StM := output2 c (dup3 (rot3 (vert3 c (dup3 (dup5 s)))))

/-- The label `output_1`, src/looprestoration_tmpl.c:1121-1140. -/
def output1 (c : Ctx) (s : StM) : StM := finishOne c (rot3 (vert3 c (vert5 c (dup3 (dup5 s)))))

/-- The label `odd`, src/looprestoration_tmpl.c:1105-1119. -/
def odd (c : Ctx) (s : StM) : StM := output1 c (finish c (vert3 c (vert5 c (dup3 (pad5 s)))))

/-- The label `vert_1`, src/looprestoration_tmpl.c:1142-1157. -/
def vert1 (c : Ctx) (s : StM) : StM := output1 c (rot3 (vert3 c (rot5 (vert5 c (dup3 (pad5 s))))))

/-- From the loop to the end or `vert_2`, src/looprestoration_tmpl.c:1033-1075. `n` is `h`, which is positive at the start of an iteration; with 0 the loop has
been left. -/
def main (c : Ctx) (n : Nat) (s : StM) : StM :=
  match n with
  | 0 =>
    if c.a.e.bottom then
      let s := rot3 (vert3 c (rowLpf c (s.sum3.ptr 2) (s.sum5.ptr 3) 6 s))
      output2 c (rowLpf c (s.sum3.ptr 2) (s.sum5.ptr 4) 7 s)
    else vert2 c s
  | 1 => odd c (rot3 (vert3 c (rowH c (s.sum3.ptr 2) (s.sum5.ptr 3) s)))
  | n + 2 =>
    let s := rot3 (vert3 c (rowH c (s.sum3.ptr 2) (s.sum5.ptr 3) s))
    main c n (finish c (vert3 c (vert5 c (rowH c (s.sum3.ptr 2) (s.sum5.ptr 4) s))))

/-- The pointers with rows above, these rows and the first row, src/looprestoration_tmpl.c:877-911. -/
def initTop (c : Ctx) (s : StM) : StM :=
  rot3 (vert3 c (rowH c 2 2 (rowLpf c 1 1 1 (rowLpf c 0 0 0
    { s with sum5 := ⟨fun i => i - 1, s.sum5.buf⟩, sum3 := ⟨fun i => i, s.sum3.buf⟩ }))))

/-- The second row with rows above, src/looprestoration_tmpl.c:916-926. -/
def secondTop (c : Ctx) (s : StM) : StM := rot3 (vert3 c (rot5 (vert5 c (rowH c (s.sum3.ptr 2) 3 s))))

/-- After the first row with rows above, src/looprestoration_tmpl.c:913-934 and from 1033. -/
def restTop (c : Ctx) (s : StM) : StM :=
  if c.a.h ≤ 1 then vert1 c s
  else if c.a.h ≤ 2 then vert2 c (secondTop c s)
  else main c (c.a.h - 2) { secondTop c s with sum5 := (secondTop c s).sum5.point 3 4 }

/-- The pointers without rows above, and the first row, src/looprestoration_tmpl.c:936-962. -/
def initFirst (c : Ctx) (s : StM) : StM :=
  rot3 (vert3 c (rowH c 0 0 { s with sum5 := ⟨fun _ => 0, s.sum5.buf⟩, sum3 := ⟨fun _ => 0, s.sum3.buf⟩ }))

/-- The second row without rows above, src/looprestoration_tmpl.c:967-984. -/
def second (c : Ctx) (s : StM) : StM :=
  rot3 (vert3 c (rot5 (vert5 c (rowH c 1 1 { s with sum5 := s.sum5.point 4 1, sum3 := s.sum3.point 2 1 }))))

/-- The third row without rows above, src/looprestoration_tmpl.c:989-1005. -/
def third (c : Ctx) (s : StM) : StM :=
  rot3 (vert3 c (rowH c 2 2 { s with sum5 := (s.sum5.point 3 2).point 4 3, sum3 := s.sum3.point 2 2 }))

/-- The fourth row without rows above, src/looprestoration_tmpl.c:1010-1022. -/
def fourth (c : Ctx) (s : StM) : StM := finish c (vert3 c (vert5 c (rowH c (s.sum3.ptr 2) 3 s)))

/-- After the first row without rows above, src/looprestoration_tmpl.c:964-1030 and from 1033. -/
def restFirst (c : Ctx) (s : StM) : StM :=
  if c.a.h ≤ 1 then vert1 c s
  else if c.a.h ≤ 2 then vert2 c (second c s)
  else if c.a.h ≤ 3 then odd c (third c (second c s))
  else if c.a.h ≤ 4 then vert2 c (fourth c (third c (second c s)))
  else
    let s := fourth c (third c (second c s))
    main c (c.a.h - 4) { s with sum5 := s.sum5.point 3 4 }

/-- sgr_mix_c from line 876: `s` has the uninitialised rows. `h` is positive. -/
def run (c : Ctx) (s : StM) : StM := if c.a.e.top then restTop c (initTop c s) else restFirst c (initFirst c s)

end StM

/-- sgr_mix_c, src/looprestoration_tmpl.c:834-1158: the plane afterwards. -/
def sgrMix (c : Ctx) (j : Junk) : Int → Int → Int :=
  (StM.run c { sum5 := { ptr := fun _ => 0, buf := j.sum5 }, sum3 := { ptr := fun _ => 0, buf := j.sum3 }, ab5 := { ptr := fun i => i, buf := j.ab5 }, ab3 := { ptr := fun i => i, buf := j.ab3 }, dst := c.a.dst, sy := 0, y := 0 }).dst

/-- The choice of the filter by lr_stripe, src/lr_apply_tmpl.c:82, from the arrays set up by
dav1d_loop_restoration_dsp_init, src/looprestoration_tmpl.c:1176-1178. -/
def sgrFilter (c : Ctx) (j : Junk) : Int → Int → Int :=
  match (if c.g.s0 ≠ 0 then 1 else 0) + (if c.g.s1 ≠ 0 then 1 else 0) * 2 - 1 with
  | 0 => sgr5x5 c j
  | 1 => sgr3x3 c j
  | _ => sgrMix c j

end Dav1d.Lr
