import Verif.Dsp.LfLevel
/-!
# Model of the deblocking filter, src/loopfilter_tmpl.c

Simplifications:

* One line of pixels across an edge is a function of the position: `dst[strideb * k]` is `px k`, so `px (-1)` is `p0` and
  `px 0` is `q0`.
* `int` is the set of integers: sums have at most 16 terms of at most 16 bits.
* Results are stored in a `pixel` by wrapping.
-/
namespace Dav1d.Lf

/-- Storing in a `pixel`. -/
def toPixel (d : Depth) (v : Int) : Int := match d with
  | .b8 => v % 256
  | _ => v % 65536

/-- `abs(a - b)` -/
def absDiff (a b : Int) : Int := (a - b).natAbs

/-- `fm`, src/loopfilter_tmpl.c:49-71, with limits already scaled to the bit depth. -/
def mask (E I : Int) (wd : Nat) (px : Int → Int) : Bool :=
  let p1 := px (-2); let p0 := px (-1); let q0 := px 0; let q1 := px 1
  let fm := absDiff p1 p0 ≤ I ∧ absDiff q1 q0 ≤ I ∧ absDiff p0 q0 * 2 + asr (absDiff p1 q1) 1 ≤ E
  if wd > 4 then
    let p2 := px (-3); let q2 := px 2
    let fm := fm ∧ absDiff p2 p1 ≤ I ∧ absDiff q2 q1 ≤ I
    if wd > 6 then
      let p3 := px (-4); let q3 := px 3
      fm ∧ absDiff p3 p2 ≤ I ∧ absDiff q3 q2 ≤ I
    else fm
  else fm

/-- `flat8out`, src/loopfilter_tmpl.c:73-84. -/
def flat8out (F : Int) (px : Int → Int) : Bool :=
  let p0 := px (-1); let q0 := px 0
  absDiff (px (-7)) p0 ≤ F ∧ absDiff (px (-6)) p0 ≤ F ∧ absDiff (px (-5)) p0 ≤ F ∧ absDiff (px 4) q0 ≤ F ∧
    absDiff (px 5) q0 ≤ F ∧ absDiff (px 6) q0 ≤ F

/-- `flat8in`, src/loopfilter_tmpl.c:86-91, for `wd >= 6`. -/
def flat8in (F : Int) (wd : Nat) (px : Int → Int) : Bool :=
  let p0 := px (-1); let q0 := px 0
  let f := absDiff (px (-3)) p0 ≤ F ∧ absDiff (px (-2)) p0 ≤ F ∧ absDiff (px 1) q0 ≤ F ∧ absDiff (px 2) q0 ≤ F
  if wd ≥ 8 then f ∧ absDiff (px (-4)) p0 ≤ F ∧ absDiff (px 3) q0 ≤ F else f

/-- The assignments of src/loopfilter_tmpl.c:93-117. -/
def wide16 (px : Int → Int) : List (Int × Int) :=
  let p6 := px (-7); let p5 := px (-6); let p4 := px (-5); let p3 := px (-4); let p2 := px (-3); let p1 := px (-2); let p0 := px (-1)
  let q0 := px 0; let q1 := px 1; let q2 := px 2; let q3 := px 3; let q4 := px 4; let q5 := px 5; let q6 := px 6
  [(-6, asr (p6 + p6 + p6 + p6 + p6 + p6 * 2 + p5 * 2 + p4 * 2 + p3 + p2 + p1 + p0 + q0 + 8) 4),
   (-5, asr (p6 + p6 + p6 + p6 + p6 + p5 * 2 + p4 * 2 + p3 * 2 + p2 + p1 + p0 + q0 + q1 + 8) 4),
   (-4, asr (p6 + p6 + p6 + p6 + p5 + p4 * 2 + p3 * 2 + p2 * 2 + p1 + p0 + q0 + q1 + q2 + 8) 4),
   (-3, asr (p6 + p6 + p6 + p5 + p4 + p3 * 2 + p2 * 2 + p1 * 2 + p0 + q0 + q1 + q2 + q3 + 8) 4),
   (-2, asr (p6 + p6 + p5 + p4 + p3 + p2 * 2 + p1 * 2 + p0 * 2 + q0 + q1 + q2 + q3 + q4 + 8) 4),
   (-1, asr (p6 + p5 + p4 + p3 + p2 + p1 * 2 + p0 * 2 + q0 * 2 + q1 + q2 + q3 + q4 + q5 + 8) 4),
   (0, asr (p5 + p4 + p3 + p2 + p1 + p0 * 2 + q0 * 2 + q1 * 2 + q2 + q3 + q4 + q5 + q6 + 8) 4),
   (1, asr (p4 + p3 + p2 + p1 + p0 + q0 * 2 + q1 * 2 + q2 * 2 + q3 + q4 + q5 + q6 + q6 + 8) 4),
   (2, asr (p3 + p2 + p1 + p0 + q0 + q1 * 2 + q2 * 2 + q3 * 2 + q4 + q5 + q6 + q6 + q6 + 8) 4),
   (3, asr (p2 + p1 + p0 + q0 + q1 + q2 * 2 + q3 * 2 + q4 * 2 + q5 + q6 + q6 + q6 + q6 + 8) 4),
   (4, asr (p1 + p0 + q0 + q1 + q2 + q3 * 2 + q4 * 2 + q5 * 2 + q6 + q6 + q6 + q6 + q6 + 8) 4),
   (5, asr (p0 + q0 + q1 + q2 + q3 + q4 * 2 + q5 * 2 + q6 * 2 + q6 + q6 + q6 + q6 + q6 + 8) 4)]

/-- src/loopfilter_tmpl.c:118-124. -/
def wide8 (px : Int → Int) : List (Int × Int) :=
  let p3 := px (-4); let p2 := px (-3); let p1 := px (-2); let p0 := px (-1)
  let q0 := px 0; let q1 := px 1; let q2 := px 2; let q3 := px 3
  [(-3, asr (p3 + p3 + p3 + 2 * p2 + p1 + p0 + q0 + 4) 3),
   (-2, asr (p3 + p3 + p2 + 2 * p1 + p0 + q0 + q1 + 4) 3),
   (-1, asr (p3 + p2 + p1 + 2 * p0 + q0 + q1 + q2 + 4) 3),
   (0, asr (p2 + p1 + p0 + 2 * q0 + q1 + q2 + q3 + 4) 3),
   (1, asr (p1 + p0 + q0 + 2 * q1 + q2 + q3 + q3 + 4) 3),
   (2, asr (p0 + q0 + q1 + 2 * q2 + q3 + q3 + q3 + 4) 3)]

/-- src/loopfilter_tmpl.c:125-129. -/
def wide6 (px : Int → Int) : List (Int × Int) :=
  let p2 := px (-3); let p1 := px (-2); let p0 := px (-1); let q0 := px 0; let q1 := px 1; let q2 := px 2
  [(-2, asr (p2 + 2 * p2 + 2 * p1 + 2 * p0 + q0 + 4) 3),
   (-1, asr (p2 + 2 * p1 + 2 * p0 + 2 * q0 + q1 + 4) 3),
   (0, asr (p1 + 2 * p0 + 2 * q0 + 2 * q1 + q2 + 4) 3),
   (1, asr (p0 + 2 * q0 + 2 * q1 + 2 * q2 + q2 + 4) 3)]

/-- iclip_diff, src/loopfilter_tmpl.c:133-134. -/
def iclipDiff (d : Depth) (v : Int) : Int := iclip v (-128 * 2 ^ (d.bpc - 8)) (128 * 2 ^ (d.bpc - 8) - 1)

/-- src/loopfilter_tmpl.c:130-159. -/
def narrow (d : Depth) (H : Int) (px : Int → Int) : List (Int × Int) :=
  let p1 := px (-2); let p0 := px (-1); let q0 := px 0; let q1 := px 1
  let top : Int := 128 * 2 ^ (d.bpc - 8) - 1
  if absDiff p1 p0 > H ∨ absDiff q1 q0 > H then
    let f := iclipDiff d (p1 - q1)
    let f := iclipDiff d (3 * (q0 - p0) + f)
    let f1 := asr (min (f + 4) top) 3
    let f2 := asr (min (f + 3) top) 3
    [(-1, d.clip (p0 + f2)), (0, d.clip (q0 - f1))]
  else
    let f := iclipDiff d (3 * (q0 - p0))
    let f1 := asr (min (f + 4) top) 3
    let f2 := asr (min (f + 3) top) 3
    let f := asr (f1 + 1) 1
    [(-1, d.clip (p0 + f2)), (0, d.clip (q0 - f1)), (-2, d.clip (p1 + f)), (1, d.clip (q1 - f))]

/-- The pixels written for one line across the edge, with their values, src/loopfilter_tmpl.c:42-160. -/
def writes (d : Depth) (E I H : Nat) (wd : Nat) (px : Int → Int) : List (Int × Int) :=
  let F : Int := 2 ^ (d.bpc - 8)
  let E : Int := E * 2 ^ (d.bpc - 8)
  let I : Int := I * 2 ^ (d.bpc - 8)
  let H : Int := H * 2 ^ (d.bpc - 8)
  if mask E I wd px = false then []
  else if wd ≥ 16 ∧ flat8out F px ∧ flat8in F wd px then wide16 px
  else if wd ≥ 8 ∧ flat8in F wd px then wide8 px
  else if wd = 6 ∧ flat8in F wd px then wide6 px
  else narrow d H px

/-- The line afterwards. -/
def line (d : Depth) (E I H : Nat) (wd : Nat) (px : Int → Int) (k : Int) : Int :=
  match (writes d E I H wd px).lookup k with
  | none => px k
  | some v => toPixel d v

/-- A plane: row, column. -/
abbrev Pl := Int → Int → Int

/-- loop_filter for an edge between columns, src/loopfilter_tmpl.c:37-161 with `stridea` the stride and `strideb` 1: four rows at
row `y`, the edge left of column `x`. -/
def edgeCols (d : Depth) (E I H : Nat) (wd : Nat) (y x : Int) (p : Pl) : Pl := fun j i =>
  if y ≤ j ∧ j < y + 4 then line d E I H wd (fun k => p j (x + k)) (i - x) else p j i

/-- loop_filter for an edge between rows: `stridea` is 1 and `strideb` the stride. -/
def edgeRows (d : Depth) (E I H : Nat) (wd : Nat) (y x : Int) (p : Pl) : Pl := fun j i =>
  if x ≤ i ∧ i < x + 4 then line d E I H wd (fun k => p (y + k) i) (j - y) else p j i

/-- The loop of the sb128 functions: `bit` is the number of the bit in the mask, `f` filters at this bit. It runs while there
are bits of `vm` at or above the current one; with `y` at bit 32, which is 0, `~(y - 1)` is 0. -/
def bits (vm : Nat) (f : Nat → Pl → Pl) (p : Pl) : Pl :=
  let rec go : Nat → Nat → Pl → Pl
    | 0, _, p => p
    | n + 1, bit, p => if vm >>> bit = 0 then p else go n (bit + 1) (if vm.testBit bit then f bit p else p)
  go 32 0 p

/-- The level of an edge and the filtering done: `L`, `H`, `E`, `I`, src/loopfilter_tmpl.c:174-177. `l` and `lp` are the level of
the block and of the one before. -/
def at_ (lut : Lut) (l lp : Nat) (f : Nat → Nat → Nat → Pl → Pl) (p : Pl) : Pl :=
  let L := if l ≠ 0 then l else lp
  if L = 0 then p else f (lut.e L) (lut.i L) (L >>> 4) p

/-- `idx` for luma, src/loopfilter_tmpl.c:178. -/
def idxY (vmask : Nat → Nat) (bit : Nat) : Nat := if (vmask 2).testBit bit then 2 else if (vmask 1).testBit bit then 1 else 0

/-- loop_filter_h_sb128y_c, src/loopfilter_tmpl.c:163-183: the edge left of column `x`, from row `y` on; `l b k` is the level
`l[b * b4_stride + k][0]`. -/
def hSb128y (d : Depth) (vmask : Nat → Nat) (l : Nat → Int → Nat) (lut : Lut) (y x : Int) (p : Pl) : Pl :=
  bits (vmask 0 ||| vmask 1 ||| vmask 2) (fun b => at_ lut (l b 0) (l b (-1)) fun E I H =>
    edgeCols d E I H (4 <<< idxY vmask b) (y + 4 * b) x) p

/-- loop_filter_v_sb128y_c, src/loopfilter_tmpl.c:185-203: the edge above row `y`, from column `x` on; `l b k` is the level
`l[b + k * b4_stride][0]`. -/
def vSb128y (d : Depth) (vmask : Nat → Nat) (l : Nat → Int → Nat) (lut : Lut) (y x : Int) (p : Pl) : Pl :=
  bits (vmask 0 ||| vmask 1 ||| vmask 2) (fun b => at_ lut (l b 0) (l b (-1)) fun E I H =>
    edgeRows d E I H (4 <<< idxY vmask b) y (x + 4 * b)) p

/-- loop_filter_h_sb128uv_c, src/loopfilter_tmpl.c:205-225. -/
def hSb128uv (d : Depth) (vmask : Nat → Nat) (l : Nat → Int → Nat) (lut : Lut) (y x : Int) (p : Pl) : Pl :=
  bits (vmask 0 ||| vmask 1) (fun b => at_ lut (l b 0) (l b (-1)) fun E I H =>
    edgeCols d E I H (4 + 2 * (if (vmask 1).testBit b then 1 else 0)) (y + 4 * b) x) p

/-- loop_filter_v_sb128uv_c, src/loopfilter_tmpl.c:227-245. -/
def vSb128uv (d : Depth) (vmask : Nat → Nat) (l : Nat → Int → Nat) (lut : Lut) (y x : Int) (p : Pl) : Pl :=
  bits (vmask 0 ||| vmask 1) (fun b => at_ lut (l b 0) (l b (-1)) fun E I H =>
    edgeRows d E I H (4 + 2 * (if (vmask 1).testBit b then 1 else 0)) y (x + 4 * b)) p

end Dav1d.Lf
