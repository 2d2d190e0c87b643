import Verif.Dsp.Warp
import Mathlib.Algebra.Order.Group.Unbundled.Int
/-!
# What the warp parameters are meant to be

The AV1 specification's resolve divisor process (7.11.3.7), setup shear process (7.11.3.6), warp estimation process
(7.11.3.8) and selection of samples (7.10.4.2), over the integers: nothing wraps around or overflows here. Positions are
absolute. Written from memory of the specification; the division table is given by its formula.
-/
namespace Dav1d.Warp.Spec

/-- Round2Signed. -/
def round2Signed (x : Int) (n : Nat) : Int :=
  if 0 ≤ x then (x + 2 ^ n / 2) / 2 ^ n else -((-x + 2 ^ n / 2) / 2 ^ n)

def clip3 (lo hi x : Int) : Int := max lo (min hi x)

/-- 2^22 divided by 256 + f, rounded to the nearest integer. -/
def recip (f : Nat) : Int := (2 ^ 22 + (256 + f) / 2) / (256 + f)

/-- The divisor `d > 0` without its leading bit, as a fraction of 256, rounded. -/
def fraction (d : Nat) : Nat :=
  let n := Nat.log2 d
  if 8 < n then (d - 2 ^ n + 2 ^ (n - 8) / 2) / 2 ^ (n - 8) else (d - 2 ^ n) * 2 ^ (8 - n)

/-- divFactor for `d > 0`. -/
def divFactor (d : Int) : Int := recip (fraction d.toNat)

/-- divShift for `d > 0`. -/
def divShift (d : Int) : Nat := Nat.log2 d.toNat + 14

/-- The rounding of the shear parameters to multiples of 64. -/
def reduce (x : Int) : Int := round2Signed (clip3 (-32768) 32767 x) 6 * 64

/-- The shear of a matrix with rows (m2, m3) and (m4, m5). -/
structure Shear where
  alpha : Int
  beta : Int
  gamma : Int
  delta : Int
  deriving DecidableEq, Repr

def shear (m2 m3 m4 m5 : Int) : Shear where
  alpha := reduce (m2 - 2 ^ 16)
  beta := reduce m3
  gamma := reduce (round2Signed (m4 * 2 ^ 16 * divFactor m2) (divShift m2))
  delta := reduce (m5 - round2Signed (m3 * m4 * divFactor m2) (divShift m2) - 2 ^ 16)

/-- warpValid -/
def Shear.Valid (s : Shear) : Prop := 4 * |s.alpha| + 7 * |s.beta| < 2 ^ 16 ∧ 4 * |s.gamma| + 4 * |s.delta| < 2 ^ 16

instance (s : Shear) : Decidable s.Valid := by unfold Shear.Valid; infer_instance

/-- A block: position and size in units of 4 pixels and motion vector in units of 1/8 pixel. -/
structure Block where
  x : Int
  y : Int
  w : Int
  h : Int
  mv : Mv
  deriving DecidableEq, Repr

/-- The centre of a block in units of 1/8 pixel. -/
def Block.cx (b : Block) : Int := 8 * (4 * b.x + 2 * b.w - 1)
def Block.cy (b : Block) : Int := 8 * (4 * b.y + 2 * b.h - 1)

/-- How much the motion of two blocks differs. -/
def mvDiff (a b : Block) : Int := |a.mv.x - b.mv.x| + |a.mv.y - b.mv.y|

/-- The neighbours that take part: those with similar motion, or the first one. -/
def selected (b : Block) (cands : List Block) : List Block :=
  let near := cands.filter (fun c => mvDiff c b ≤ 4 * clip3 4 28 (max b.w b.h))
  if near = [] then cands.take 1 else near

/-- Neighbours whose motion differs by less than LS_MV_MAX in each direction. -/
def used (b : Block) (cands : List Block) : List Block :=
  (selected b cands).filter (fun c => |c.mv.x - b.mv.x| < 256 ∧ |c.mv.y - b.mv.y| < 256)

/-- ls_product -/
def lsProduct (p q : Int) : Int := p * q / 4 + (p + q)

/-- Position of a neighbour's centre relative to the block's. -/
def sx (b c : Block) : Int := c.cx - b.cx
def sy (b c : Block) : Int := c.cy - b.cy
/-- The same in the reference frame. -/
def dx (b c : Block) : Int := c.cx + c.mv.x - (b.cx + b.mv.x)
def dy (b c : Block) : Int := c.cy + c.mv.y - (b.cy + b.mv.y)

/-- A sum over the neighbours. -/
def sum (l : List Block) (f : Block → Int) : Int := (l.map f).sum

def a00 (b : Block) (l : List Block) : Int := sum l fun c => lsProduct (sx b c) (sx b c) + 8
def a01 (b : Block) (l : List Block) : Int := sum l fun c => lsProduct (sx b c) (sy b c) + 4
def a11 (b : Block) (l : List Block) : Int := sum l fun c => lsProduct (sy b c) (sy b c) + 8
def bx0 (b : Block) (l : List Block) : Int := sum l fun c => lsProduct (sx b c) (dx b c) + 8
def bx1 (b : Block) (l : List Block) : Int := sum l fun c => lsProduct (sy b c) (dx b c) + 4
def by0 (b : Block) (l : List Block) : Int := sum l fun c => lsProduct (sx b c) (dy b c) + 4
def by1 (b : Block) (l : List Block) : Int := sum l fun c => lsProduct (sy b c) (dy b c) + 8

/-- A·B - C·D divided by the determinant, in units of 2^-16, for a determinant of at least 4. -/
def quotient (det x : Int) : Int := round2Signed (x * divFactor det) (divShift det - 16)

def nondiag (det x : Int) : Int := clip3 (-(2 ^ 13) + 1) (2 ^ 13 - 1) (quotient det x)
def diag (det x : Int) : Int := clip3 (2 ^ 16 - 2 ^ 13 + 1) (2 ^ 16 + 2 ^ 13 - 1) (quotient det x)

/-- LocalWarpParams with its shear; `none` if not valid. -/
def localWarp (b : Block) (cands : List Block) : Option Wm :=
  let l := used b cands
  let det := a00 b l * a11 b l - a01 b l * a01 b l
  if det = 0 then none
  else
    let m2 := diag det (a11 b l * bx0 b l - a01 b l * bx1 b l)
    let m3 := nondiag det (a00 b l * bx1 b l - a01 b l * bx0 b l)
    let m4 := nondiag det (a11 b l * by0 b l - a01 b l * by1 b l)
    let m5 := diag det (a00 b l * by1 b l - a01 b l * by0 b l)
    let midX := 4 * b.x + 2 * b.w - 1
    let midY := 4 * b.y + 2 * b.h - 1
    let m0 := clip3 (-(2 ^ 23)) (2 ^ 23 - 1) (b.mv.x * 2 ^ 13 - (midX * (m2 - 2 ^ 16) + midY * m3))
    let m1 := clip3 (-(2 ^ 23)) (2 ^ 23 - 1) (b.mv.y * 2 ^ 13 - (midX * m4 + midY * (m5 - 2 ^ 16)))
    let s := shear m2 m3 m4 m5
    if s.Valid then some ⟨m0, m1, m2, m3, m4, m5, s.alpha, s.beta, s.gamma, s.delta⟩ else none

end Dav1d.Warp.Spec
