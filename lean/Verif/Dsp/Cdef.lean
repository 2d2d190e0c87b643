import Verif.Dsp.Mc
/-!
# Model of the constrained directional enhancement filter, src/cdef_tmpl.c

Simplifications:

* Pixels are given by functions of row and column; addresses and strides are left out. `dst` and `src` are relative to the
  first pixel of the block, `top` and `bottom` to the first column of the block (row 0 is where the pointer points, row 1
  one stride below), `left` is the array of pairs.
* A block is filtered in place, but the loops read no pixel of `dst` after it was written, except through the copy `tmp`, so
  the model gives each pixel of the result.
* `int` is the set of integers: nothing here is above 2^20. A result is stored in a `pixel` by wrapping.
* `none` is undefined behaviour: a read of `tmp` outside of what padding wrote, a read outside of a table, a shift by a
  negative count.
-/
namespace Dav1d.Cdef

/-- dav1d_cdef_directions, src/tables.c:400-413. -/
def directions : List (List Int) := [
  [1 * 12 + 0, 2 * 12 + 0], [1 * 12 + 0, 2 * 12 - 1], [-1 * 12 + 1, -2 * 12 + 2], [0 * 12 + 1, -1 * 12 + 2],
  [0 * 12 + 1, 0 * 12 + 2], [0 * 12 + 1, 1 * 12 + 2], [1 * 12 + 1, 2 * 12 + 2], [1 * 12 + 0, 2 * 12 + 1],
  [1 * 12 + 0, 2 * 12 + 0], [1 * 12 + 0, 2 * 12 - 1], [-1 * 12 + 1, -2 * 12 + 2], [0 * 12 + 1, -1 * 12 + 2]]

/-- enum CdefEdgeFlags, src/cdef.h. -/
structure Edges where
  left : Bool
  right : Bool
  top : Bool
  bottom : Bool

/-- The pixels given to a call: the block and what is right of it, left of it, above and below. -/
structure Input where
  dst : Int → Int → Int
  left : Int → Int → Int
  top : Int → Int → Int
  bottom : Int → Int → Int

/-- constrain, src/cdef_tmpl.c:37-42; `shift` is not negative. -/
def constrain (diff threshold : Int) (shift : Nat) : Int :=
  let adiff : Int := diff.natAbs
  let v := min adiff (max 0 (threshold - asr adiff shift))
  if diff < 0 then -v else v

/-- The buffer `tmp`, indexed relative to `tmp`; `none` was not written. -/
abbrev Buf := Int → Option Int

/-- Column and row of an element of the buffer, with `tmp_stride` 12 and two columns left of `tmp`. -/
def col (i : Int) : Int := (i + 2) % 12 - 2
def row (i : Int) : Int := (i + 2) / 12

/-- Two nested loops assigning `f y x` to row `y` and column `x`, for `y0 ≤ y < y1` and `x0 ≤ x < x1`. -/
def rect (x0 x1 y0 y1 : Int) (f : Int → Int → Int) (b : Buf) : Buf := fun i =>
  if x0 ≤ col i ∧ col i < x1 ∧ y0 ≤ row i ∧ row i < y1 then some (f (row i) (col i)) else b i

/-- fill, src/cdef_tmpl.c:44-54: INT16_MIN in a rectangle. -/
def fill (x0 x1 y0 y1 : Int) (b : Buf) : Buf := rect x0 x1 y0 y1 (fun _ _ => -32768) b

/-- padding, src/cdef_tmpl.c:56-103. -/
def padding (e : Edges) (w h : Int) (p : Input) : Buf :=
  let yStart : Int := if e.top then -2 else 0
  let yEnd : Int := if e.bottom then h + 2 else h
  let xStart : Int := if e.left then -2 else 0
  let xEnd : Int := if e.right then w + 2 else w
  let b : Buf := fun _ => none
  let b := if e.top then b else fill (-2) (w + 2) (-2) 0 b
  let b := if e.bottom then b else fill (-2) (w + 2) h (h + 2) b
  let b := if e.left then b else fill (-2) 0 yStart yEnd b
  let b := if e.right then b else fill w (w + 2) yStart yEnd b
  let b := rect xStart xEnd yStart 0 (fun y x => p.top (y - yStart) x) b
  let b := rect xStart 0 0 h (fun y x => p.left y (2 + x)) b
  let b := rect 0 xEnd 0 h (fun y x => p.dst y x) b
  rect xStart xEnd h yEnd (fun y x => p.bottom (y - h) x) b

/-- The taps: in the primary direction, and in the two secondary ones, `dir + 2` and `dir - 2`. -/
inductive Sel where
  | pri | secP | secM
  deriving DecidableEq

/-- `dav1d_cdef_directions[dir + 2][k]`, `[dir + 4][k]` and `[dir + 0][k]`, src/cdef_tmpl.c:134-148. -/
def offset (dir : Nat) (s : Sel) (k : Nat) : Option Int :=
  (directions[dir + match s with | .pri => 2 | .secP => 4 | .secM => 0]?).bind fun r => r[k]?

/-- umin of two `int`, include/common/intops.h:46-48: both are converted to `unsigned`, and the result back. -/
def umin (a b : Int) : Int := if a % 2 ^ 32 < b % 2 ^ 32 then a else b

/-- The strengths, taps and shifts of one block, src/cdef_tmpl.c:121-126. -/
structure Params where
  pri : Nat
  sec : Nat
  dir : Nat
  damping : Nat

/-- `pri_tap_k` in round `k`, src/cdef_tmpl.c:123, 132 and 140. -/
def priTap (d : Depth) (q : Params) (k : Nat) : Int :=
  let t := 4 - ((q.pri >>> (d.bpc - 8)) &&& 1)
  if k = 0 then t else ((t &&& 3) ||| 2 : Nat)

/-- `damping - ulog2(sec_strength)`, a negative shift count is undefined, src/cdef_tmpl.c:126 and 187. -/
def secShift (q : Params) : Option Nat := if Nat.log2 q.sec ≤ q.damping then some (q.damping - Nat.log2 q.sec) else none

/-- `imax(0, damping - ulog2(pri_strength))`, src/cdef_tmpl.c:124. -/
def priShift (q : Params) : Nat := q.damping - Nat.log2 q.pri

structure Acc where
  sum : Int
  min : Int
  max : Int

/-- `pri_tap_k * constrain(v - px, pri_strength, pri_shift)` or `sec_tap * constrain(v - px, sec_strength, sec_shift)`,
src/cdef_tmpl.c:137-155. -/
def scaled (d : Depth) (q : Params) (px v : Int) (k : Nat) : Sel → Option Int
  | .pri => some (priTap d q k * constrain (v - px) q.pri (priShift q))
  | _ => (secShift q).map fun sh => (2 - (k : Int)) * constrain (v - px) q.sec sh

/-- A tap: the value read, its weight times the constrained difference is added, src/cdef_tmpl.c:135-165. `t.2.2` is whether
the offset is added or subtracted. -/
def tap (d : Depth) (q : Params) (b : Buf) (px : Int) (at_ : Int) (a : Acc) (t : Sel × Nat × Bool) : Option Acc :=
  (offset q.dir t.1 t.2.1).bind fun off =>
  (b (if t.2.2 then at_ + off else at_ - off)).bind fun v =>
  (scaled d q px v t.2.1 t.1).map fun c => ⟨a.sum + c, umin v a.min, max v a.max⟩

/-- All taps, in the order of the loop at src/cdef_tmpl.c:133-166. -/
def bothTaps : List (Sel × Nat × Bool) :=
  [0, 1].flatMap fun k => [(.pri, k, true), (.pri, k, false), (.secP, k, true), (.secP, k, false), (.secM, k, true), (.secM, k, false)]

/-- src/cdef_tmpl.c:176-183. -/
def priTaps : List (Sel × Nat × Bool) := [0, 1].flatMap fun k => [(.pri, k, true), (.pri, k, false)]

/-- src/cdef_tmpl.c:192-204. -/
def secTaps : List (Sel × Nat × Bool) :=
  [0, 1].flatMap fun k => [(.secP, k, true), (.secP, k, false), (.secM, k, true), (.secM, k, false)]

/-- `px + ((sum - (sum < 0) + 8) >> 4)` -/
def rounded (px sum : Int) : Int := px + asr (sum - (if sum < 0 then 1 else 0) + 8) 4

/-- The conversion to `pixel`. -/
def toPixel (d : Depth) (v : Int) : Int := match d with
  | .b8 => v % 256
  | _ => v % 65536

/-- One pixel of cdef_filter_block_c, src/cdef_tmpl.c:105-213. -/
def pixel (d : Depth) (q : Params) (b : Buf) (p : Input) (y x : Int) : Option Int :=
  let px := p.dst y x
  let a0 : Acc := ⟨0, px, px⟩
  if q.pri ≠ 0 then
    if q.sec ≠ 0 then
      (bothTaps.foldlM (tap d q b px (y * 12 + x)) a0).map fun a => toPixel d (iclip (rounded px a.sum) a.min a.max)
    else
      (priTaps.foldlM (tap d q b px (y * 12 + x)) a0).map fun a => toPixel d (rounded px a.sum)
  else if q.sec ≠ 0 then
    (secTaps.foldlM (tap d q b px (y * 12 + x)) a0).map fun a => toPixel d (rounded px a.sum)
  else none

/-- cdef_filter_block_c, src/cdef_tmpl.c:105-213: the pixel at row `y` and column `x` of the block afterwards. -/
def filterBlock (d : Depth) (q : Params) (e : Edges) (w h : Nat) (p : Input) (y x : Nat) : Option Int :=
  pixel d q (padding e w h p) p y x

/-! ## Direction search -/

/-- The result of an operation on `int`, which must not overflow. -/
def int (v : Int) : Option Int := if -2 ^ 31 ≤ v ∧ v ≤ 2 ^ 31 - 1 then some v else none

/-- `c += v` for `unsigned` and an `int`. -/
def uadd (c : Nat) (v : Int) : Nat := ((c + v) % 2 ^ 32).toNat

/-- `(img[x] >> bitdepth_min_8) - 128`, src/cdef_tmpl.c:245. -/
def norm (d : Depth) (img : Nat → Nat → Int) (y x : Nat) : Int := asr (img y x) (d.bpc - 8) - 128

/-- All positions of an 8x8 block in the order of the loops. -/
def block : List (Nat × Nat) := (List.range 8).flatMap fun y => (List.range 8).map fun x => (y, x)

/-- Element `i` of one of the arrays of partial sums after the loops at src/cdef_tmpl.c:243-258; `idx` is the element the
pixel is added to. -/
def partialSum (d : Depth) (img : Nat → Nat → Int) (idx : Nat → Nat → Nat) (i : Nat) : Int :=
  (block.map fun p => if idx p.1 p.2 = i then norm d img p.1 p.2 else 0).sum

/-- The indices of src/cdef_tmpl.c:247-254, in the order of the elements of `cost` they are used for. -/
def lineIdx (k y x : Nat) : Nat := match k with
  | 0 => y + x
  | 1 => y + (x >>> 1)
  | 2 => y
  | 3 => 3 + y - (x >>> 1)
  | 4 => 7 + y - x
  | 5 => 3 - (y >>> 1) + x
  | 6 => x
  | _ => (y >>> 1) + x

/-- div_table, src/cdef_tmpl.c:268. -/
def divTable : List Int := [840, 420, 280, 210, 168, 140, 120]

/-- `v * v` -/
def sq (v : Int) : Option Int := int (v * v)

/-- cost[2] and cost[6], src/cdef_tmpl.c:260-266. -/
def costHv (s : Nat → Int) : Option Nat :=
  ((List.range 8).foldlM (fun c n => (sq (s n)).map (uadd c)) 0).map fun c => c * 105 % 2 ^ 32

/-- `(a * a + b * b) * d` -/
def sq2 (a b d : Int) : Option Int :=
  (sq a).bind fun a2 => (sq b).bind fun b2 => (int (a2 + b2)).bind fun s => int (s * d)

/-- cost[0] and cost[4], src/cdef_tmpl.c:269-277. -/
def costDiag (s : Nat → Int) : Option Nat :=
  ((List.range 7).foldlM (fun c n => (divTable[n]?).bind fun d => (sq2 (s n) (s (14 - n)) d).map (uadd c)) 0).bind fun c =>
  (sq (s 7)).bind fun v => (int (v * 105)).map (uadd c)

/-- cost[1], cost[3], cost[5] and cost[7], src/cdef_tmpl.c:279-289. -/
def costAlt (s : Nat → Int) : Option Nat :=
  ((List.range 5).foldlM (fun c m => (sq (s (3 + m))).map (uadd c)) 0).bind fun c =>
  (List.range 3).foldlM (fun c m => (divTable[2 * m + 1]?).bind fun d => (sq2 (s m) (s (10 - m)) d).map (uadd c)) (c * 105 % 2 ^ 32)

/-- The element `k` of `cost`. -/
def cost (d : Depth) (img : Nat → Nat → Int) (k : Nat) : Option Nat :=
  let s := partialSum d img (lineIdx k)
  if k % 4 = 2 then costHv s else if k % 4 = 0 then costDiag s else costAlt s

/-- The loop at src/cdef_tmpl.c:291-298: best direction and its cost. -/
def best (c : List Nat) : Nat × Nat :=
  (List.range 7).foldl (fun b n => if c.getD (n + 1) 0 > b.2 then (n + 1, c.getD (n + 1) 0) else b) (0, c.getD 0 0)

/-- cdef_find_dir_c, src/cdef_tmpl.c:234-302: the direction and the variance. -/
def findDir (d : Depth) (img : Nat → Nat → Int) : Option (Nat × Nat) :=
  (List.range 8).mapM (cost d img) |>.map fun c =>
  let b := best c
  (b.1, ((b.2 + 2 ^ 32 - c.getD (b.1 ^^^ 4) 0) % 2 ^ 32) >>> 10)

/-- adjust_strength, src/cdef_apply_tmpl.c:92-96. -/
def adjustStrength (strength var : Nat) : Nat :=
  if var = 0 then 0
  else (strength * (4 + if var >>> 6 ≠ 0 then min (Nat.log2 (var >>> 6)) 12 else 0) + 8) >>> 4

/-- The levels derived from a strength of the frame header, src/cdef_apply_tmpl.c:157-169: primary and secondary. -/
def levels (d : Depth) (lvl : Nat) : Nat × Nat :=
  let sec := lvl &&& 3
  ((lvl >>> 2) <<< (d.bpc - 8), (if sec = 3 then sec + 1 else sec) <<< (d.bpc - 8))

end Dav1d.Cdef
