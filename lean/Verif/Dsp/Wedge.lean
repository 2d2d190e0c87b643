/-!
# Model of the wedge and inter-intra masks, src/wedge.c

* The arrays of `dav1d_masks` are separate memories, functions from the index to the byte, 0 at first (static storage). A
  pointer into one of them is the array and an index. Pointers are kept as 16-bit multiples of 8 bytes from the start of
  the structure (MASK_OFFSET); `Wedge.fields` is the layout of the structure, by which `C46_offsets` shows that nothing is lost.
* Loops that write each element of a range once are one write.
* Each `fill` in dav1d_init_ii_wedge_masks names arrays that no other `fill` names, so the sizes are independent.
-/
namespace Dav1d.Wedge

/-- `wedge_master_border`, src/wedge.c:217-221. -/
def borderOdd : List Nat := [1, 2, 6, 18, 37, 53, 60, 63]
def borderEven : List Nat := [1, 4, 11, 27, 46, 58, 62, 63]
def borderVert : List Nat := [0, 2, 7, 21, 43, 57, 62, 64]

/-- insert_border, src/wedge.c:88-95: byte `x` of `dst`, for `4 ≤ ctr ≤ 60` (the only values are 15..48), where all eight
bytes of `src` are copied. -/
def insertBorder (src : List Nat) (ctr x : Nat) : Nat :=
  if x < ctr - 4 then 0 else if x < ctr + 4 then src.getD (x - (ctr - 4)) 0 else 64

/-- enum WedgeDirectionType, src/wedge.c:37-45. -/
inductive Dir where
  | horizontal | vertical | oblique27 | oblique63 | oblique117 | oblique153
  deriving DecidableEq, Repr

/-- `master[WEDGE_VERTICAL]` and `master[WEDGE_OBLIQUE63]`, src/wedge.c:225-236: row `y`, column `x`. -/
def masterVert (_y x : Nat) : Nat := insertBorder borderVert 32 x
def master63 (y x : Nat) : Nat :=
  if y % 2 = 0 then insertBorder borderEven (48 - y / 2) x else insertBorder borderOdd (48 - y / 2 - 1) x

/-- transpose, src/wedge.c:97-101. -/
def transpose (src : Nat → Nat → Nat) (y x : Nat) : Nat := src x y

/-- hflip, src/wedge.c:103-107. -/
def hflip (src : Nat → Nat → Nat) (y x : Nat) : Nat := src y (63 - x)

/-- `master`, src/wedge.c:225-241. -/
def master : Dir → Nat → Nat → Nat
  | .vertical => masterVert
  | .oblique63 => master63
  | .oblique27 => transpose master63
  | .horizontal => transpose masterVert
  | .oblique117 => hflip master63
  | .oblique153 => hflip (transpose master63)

/-- wedge_code_type, src/wedge.c:47-51. -/
structure Code where
  dir : Dir
  x : Nat
  y : Nat

open Dir in
/-- wedge_codebook_16_hgtw, src/wedge.c:53-62. -/
def hgtw : List Code := [
  ⟨oblique27, 4, 4⟩, ⟨oblique63, 4, 4⟩, ⟨oblique117, 4, 4⟩, ⟨oblique153, 4, 4⟩,
  ⟨horizontal, 4, 2⟩, ⟨horizontal, 4, 4⟩, ⟨horizontal, 4, 6⟩, ⟨vertical, 4, 4⟩,
  ⟨oblique27, 4, 2⟩, ⟨oblique27, 4, 6⟩, ⟨oblique153, 4, 2⟩, ⟨oblique153, 4, 6⟩,
  ⟨oblique63, 2, 4⟩, ⟨oblique63, 6, 4⟩, ⟨oblique117, 2, 4⟩, ⟨oblique117, 6, 4⟩]

open Dir in
/-- wedge_codebook_16_hltw, src/wedge.c:64-73. -/
def hltw : List Code := [
  ⟨oblique27, 4, 4⟩, ⟨oblique63, 4, 4⟩, ⟨oblique117, 4, 4⟩, ⟨oblique153, 4, 4⟩,
  ⟨vertical, 2, 4⟩, ⟨vertical, 4, 4⟩, ⟨vertical, 6, 4⟩, ⟨horizontal, 4, 4⟩,
  ⟨oblique27, 4, 2⟩, ⟨oblique27, 4, 6⟩, ⟨oblique153, 4, 2⟩, ⟨oblique153, 4, 6⟩,
  ⟨oblique63, 2, 4⟩, ⟨oblique63, 6, 4⟩, ⟨oblique117, 2, 4⟩, ⟨oblique117, 6, 4⟩]

open Dir in
/-- wedge_codebook_16_heqw, src/wedge.c:75-84. -/
def heqw : List Code := [
  ⟨oblique27, 4, 4⟩, ⟨oblique63, 4, 4⟩, ⟨oblique117, 4, 4⟩, ⟨oblique153, 4, 4⟩,
  ⟨horizontal, 4, 2⟩, ⟨horizontal, 4, 6⟩, ⟨vertical, 2, 4⟩, ⟨vertical, 6, 4⟩,
  ⟨oblique27, 4, 2⟩, ⟨oblique27, 4, 6⟩, ⟨oblique153, 4, 2⟩, ⟨oblique153, 4, 6⟩,
  ⟨oblique63, 2, 4⟩, ⟨oblique63, 6, 4⟩, ⟨oblique117, 2, 4⟩, ⟨oblique117, 6, 4⟩]

/-- An array of bytes. -/
abbrev Mem := Nat → Nat

/-- Writing `len` bytes at `base`. -/
def Mem.write (m : Mem) (base len : Nat) (f : Nat → Nat) : Mem := fun i => if base ≤ i ∧ i < base + len then f (i - base) else m i

/-- copy2d, src/wedge.c:109-127, to index `base`. Bytes are unsigned, but no mask exceeds 64. -/
def copy2d (m : Mem) (base : Nat) (src : Nat → Nat → Nat) (sign : Bool) (w h xoff yoff : Nat) : Mem :=
  m.write base (w * h) fun i =>
    let v := src (yoff + i / w) (xoff + i % w)
    if sign then 64 - v else v

/-- init_chroma, src/wedge.c:131-146: the luma mask is at index `lbase` of `luma`. -/
def initChroma (m : Mem) (base : Nat) (luma : Mem) (lbase : Nat) (sign : Bool) (w h : Nat) (ssVer : Bool) : Mem :=
  m.write base ((w / 2) * (if ssVer then (h + 1) / 2 else h)) fun i =>
    let x := 2 * (i % (w / 2))
    let row := lbase + (i / (w / 2)) * (if ssVer then 2 * w else w)
    let sum := luma (row + x) + luma (row + x + 1) + 1
    let sum := if ssVer then sum + luma (row + w + x) + luma (row + w + x + 1) + 1 else sum
    (sum - (if sign then 1 else 0)) / (if ssVer then 4 else 2)

/-- The arrays of one block size, and the index of each mask in them: `wedge[sign][n]` of the three layouts. -/
structure Masks where
  m444 : Mem
  m422 : Mem
  m420 : Mem
  off444 : Bool → Nat → Nat
  off422 : Bool → Nat → Nat
  off420 : Bool → Nat → Nat

/-- Setting `wedge[s][n]`. -/
def setOff (f : Bool → Nat → Nat) (s : Bool) (n v : Nat) : Bool → Nat → Nat := fun s' n' => if s' = s ∧ n' = n then v else f s' n'

def b2n (b : Bool) : Nat := if b then 1 else 0

/-- The body of the loop of fill2d_16x2, src/wedge.c:162-185, for the mask `n`. -/
def fillOne (w h : Nat) (cb : List Code) (signs : Nat) (M : Masks) (n : Nat) : Masks :=
  let sign := (signs / 2 ^ n) % 2 == 1
  let c := cb.getD n ⟨.horizontal, 0, 0⟩
  let s444 := w * h
  let s422 := s444 / 2
  let s420 := s444 / 4
  let p444 := n * s444
  let m444 := copy2d M.m444 p444 (master c.dir) sign w h (32 - w * c.x / 8) (32 - h * c.y / 8)
  let p422 (s : Bool) := n * s422 + b2n s * (16 * s422)
  let p420 (s : Bool) := n * s420 + b2n s * (16 * s420)
  let m422 := initChroma (initChroma M.m422 (p422 sign) m444 p444 false w h false) (p422 (!sign)) m444 p444 true w h false
  let m420 := initChroma (initChroma M.m420 (p420 sign) m444 p444 false w h true) (p420 (!sign)) m444 p444 true w h true
  { m444, m422, m420
    off444 := setOff (setOff M.off444 true n p444) false n p444
    off422 := setOff (setOff M.off422 false n (p422 sign)) true n (p422 (!sign))
    off420 := setOff (setOff M.off420 false n (p420 sign)) true n (p420 (!sign)) }

/-- fill2d_16x2, src/wedge.c:148-186. -/
def fill (w h : Nat) (cb : List Code) (signs : Nat) : Masks :=
  (List.range 16).foldl (fillOne w h cb signs) ⟨fun _ => 0, fun _ => 0, fun _ => 0, fun _ _ => 0, fun _ _ => 0, fun _ _ => 0⟩

/-- The block sizes with wedge masks, src/wedge.c:251-259. -/
inductive Size where
  | s32x32 | s32x16 | s32x8 | s16x32 | s16x16 | s16x8 | s8x32 | s8x16 | s8x8
  deriving DecidableEq, Repr

def Size.all : List Size := [.s32x32, .s32x16, .s32x8, .s16x32, .s16x16, .s16x8, .s8x32, .s8x16, .s8x8]

/-- The arguments of `fill`, src/wedge.c:251-259. -/
def Size.w : Size → Nat
  | .s32x32 | .s32x16 | .s32x8 => 32 | .s16x32 | .s16x16 | .s16x8 => 16 | .s8x32 | .s8x16 | .s8x8 => 8
def Size.h : Size → Nat
  | .s32x32 | .s16x32 | .s8x32 => 32 | .s32x16 | .s16x16 | .s8x16 => 16 | .s32x8 | .s16x8 | .s8x8 => 8
def Size.cb : Size → List Code
  | .s32x32 | .s16x16 | .s8x8 => heqw | .s32x16 | .s32x8 | .s16x8 => hltw | .s16x32 | .s8x32 | .s8x16 => hgtw
def Size.signs : Size → Nat
  | .s32x32 | .s16x16 | .s8x8 => 0x7bfb | .s32x16 | .s16x32 | .s16x8 | .s8x16 => 0x7beb | .s32x8 => 0x6beb | .s8x32 => 0x7aeb

def Size.masks (z : Size) : Masks := fill z.w z.h z.cb z.signs

/-- Subsampling of the plane: 444 (and luma), 422, 420. -/
inductive Layout where
  | l444 | l422 | l420
  deriving DecidableEq, Repr

def Layout.ssHor : Layout → Bool | .l444 => false | _ => true
def Layout.ssVer : Layout → Bool | .l420 => true | _ => false

/-- The byte of `WEDGE_MASK(c, bs, sign, idx)` at column `x` and row `y`, src/wedge.h:88-90. -/
def wedgeMask (z : Size) (c : Layout) (sign : Bool) (idx x y : Nat) : Nat :=
  match c with
  | .l444 => z.masks.m444 (z.masks.off444 sign idx + y * z.w + x)
  | .l422 => z.masks.m422 (z.masks.off422 sign idx + y * (z.w / 2) + x)
  | .l420 => z.masks.m420 (z.masks.off420 sign idx + y * (z.w / 2) + x)

/-- `mask` given to c->mask for a plane, src/recon_tmpl.c:1822-1829 and 1861-1867: luma uses sign 0, chroma `mask_sign`; the
first source, which gets the mask as its weight, is `tmp[b->mask_sign]`, the other one gets 64 minus the mask
(mask_c, src/mc_tmpl.c:622-640). This is the weight of predictor `p`. -/
def weight (z : Size) (chroma : Option Layout) (maskSign : Bool) (idx x y : Nat) (p : Bool) : Int :=
  let m : Int := match chroma with
    | none => wedgeMask z .l444 false idx x y
    | some c => wedgeMask z c maskSign idx x y
  if p = maskSign then m else 64 - m

/-! ## Inter-intra masks -/

/-- ii_weights_1d, src/wedge.c:191-194. -/
def iiWeights1d : List Nat :=
  [60, 52, 45, 39, 34, 30, 26, 22, 19, 17, 15, 13, 11, 10, 8, 7, 6, 6, 5, 4, 4, 3, 3, 2, 2, 2, 2, 1, 1, 1, 1, 1]

/-- build_nondc_ii_masks, src/wedge.c:188-205: the array at `mask_v`. -/
def buildNondc (w h step : Nat) : Mem :=
  ((Mem.write (fun _ => 0) 0 (w * h) fun i => iiWeights1d.getD (i / w * step) 0).write (w * h) (w * h)
    fun i => iiWeights1d.getD (i % w * step) 0).write (2 * (w * h)) (w * h)
    fun i => iiWeights1d.getD (min (i % w) (i / w) * step) 0

/-- The arrays `ii_nondc_WxH`, src/wedge.c:281-289. -/
def iiStep : Nat → Nat → Option Nat
  | 32, 32 => some 1 | 16, 32 => some 1 | 16, 16 => some 2 | 8, 32 => some 1 | 8, 16 => some 2 | 8, 8 => some 4
  | 4, 16 => some 2 | 4, 8 => some 4 | 4, 4 => some 8 | _, _ => none

/-- ASSIGN_NONDC_II_OFFSET, src/wedge.c:290-298: the dimensions of the array for a block size and layout. -/
def iiArray (z : Size) (c : Layout) : Option (Nat × Nat) :=
  match z, c with
  | .s32x32, .l444 => some (32, 32) | .s32x32, .l422 => some (16, 32) | .s32x32, .l420 => some (16, 16)
  | .s32x16, .l444 => some (32, 32) | .s32x16, .l422 => some (16, 16) | .s32x16, .l420 => some (16, 16)
  | .s16x32, .l444 => some (16, 32) | .s16x32, .l422 => some (8, 32) | .s16x32, .l420 => some (8, 16)
  | .s16x16, .l444 => some (16, 16) | .s16x16, .l422 => some (8, 16) | .s16x16, .l420 => some (8, 8)
  | .s16x8, .l444 => some (16, 16) | .s16x8, .l422 => some (8, 8) | .s16x8, .l420 => some (8, 8)
  | .s8x16, .l444 => some (8, 16) | .s8x16, .l422 => some (4, 16) | .s8x16, .l420 => some (4, 8)
  | .s8x8, .l444 => some (8, 8) | .s8x8, .l422 => some (4, 8) | .s8x8, .l420 => some (4, 4)
  | _, _ => none

/-- enum InterIntraPredMode, src/levels.h:135-141. -/
inductive IiMode where
  | dc | vert | hor | smooth
  deriving DecidableEq

def IiMode.num : IiMode → Nat
  | .dc => 0 | .vert => 1 | .hor => 2 | .smooth => 3

/-- The byte of `II_MASK(c, bs, b)` for INTER_INTRA_BLEND, src/wedge.h:82-86 and src/wedge.c:262-298: the mask of a plane of
`w` columns is read with stride `w` (blend_c, src/mc_tmpl.c:642-654). `ii_dc` is 32 everywhere. -/
def iiMask (z : Size) (c : Layout) (mode : IiMode) (x y : Nat) : Option Nat :=
  (iiArray z c).bind fun (w, h) =>
  (iiStep w h).bind fun step =>
  let stride := if c.ssHor then z.w / 2 else z.w
  match mode with
  | .dc => if y * stride + x < 32 * 32 then some 32 else none
  | m => some (buildNondc w h step ((m.num - 1) * w * h + y * stride + x))

/-! ## Layout of the structure -/

/-- The members of `Dav1dMasks`, src/wedge.h:33-80, bytes and alignment; the first one has 3 · 11 · 36 `uint16_t`. -/
def fields : List (Nat × Nat) := [
  (3 * 11 * 36 * 2, 2),
  (16 * 32 * 32, 64), (16 * 32 * 16, 64), (16 * 32 * 8, 64), (16 * 16 * 32, 64), (16 * 16 * 16, 64), (16 * 16 * 8, 64),
  (16 * 8 * 32, 64), (16 * 8 * 16, 64), (16 * 8 * 8, 64),
  (2 * 16 * 16 * 32, 64), (2 * 16 * 16 * 16, 64), (2 * 16 * 16 * 8, 64), (2 * 16 * 8 * 32, 64), (2 * 16 * 8 * 16, 64),
  (2 * 16 * 8 * 8, 64), (2 * 16 * 4 * 32, 64), (2 * 16 * 4 * 16, 64), (2 * 16 * 4 * 8, 64),
  (2 * 16 * 16 * 16, 64), (2 * 16 * 16 * 8, 64), (2 * 16 * 16 * 4, 64), (2 * 16 * 8 * 16, 64), (2 * 16 * 8 * 8, 64),
  (2 * 16 * 8 * 4, 64), (2 * 16 * 4 * 16, 64), (2 * 16 * 4 * 8, 64), (2 * 16 * 4 * 4, 64),
  (32 * 32, 64), (3 * 32 * 32, 64), (3 * 16 * 32, 64), (3 * 16 * 16, 64), (3 * 8 * 32, 64), (3 * 8 * 16, 64), (3 * 8 * 8, 64),
  (3 * 4 * 16, 64), (3 * 4 * 8, 32), (3 * 4 * 4, 16)]

/-- The offsets of the members from `at_` on. -/
def fieldOffsets : List (Nat × Nat) → Nat → List Nat
  | [], _ => []
  | (sz, al) :: r, p => let q := (p + al - 1) / al * al; q :: fieldOffsets r (q + sz)

end Dav1d.Wedge
