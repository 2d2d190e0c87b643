import Verif.Dsp.Lr
import Mathlib.Algebra.BigOperators.Group.Finset.Basic
import Mathlib.Algebra.BigOperators.Intervals
import Mathlib.Order.Interval.Finset.Nat
import Mathlib.Data.Int.Interval
/-!
# What the loop restoration filters have to compute

After section 7.17 of the AV1 specification (from memory). `src y x` is the sample of the get source sample process for the
position `x`, `y` of the block, which can be outside of it.
-/
namespace Dav1d.Lr.Spec

/-- Round2 of the specification. -/
def round2 (x : Int) (n : Nat) : Int := if n = 0 then x else (x + 2 ^ (n - 1)) / 2 ^ n

/-- Clip3 of the specification. -/
def clip3 (lo hi x : Int) : Int := if x < lo then lo else if x > hi then hi else x

/-- Clip1 of the specification. -/
def clip1 (bitDepth : Nat) (x : Int) : Int := clip3 0 (2 ^ bitDepth - 1) x

/-- The get filter process: 7 taps from 3 coded coefficients. -/
def getFilter (coeff : Nat → Int) (t : Nat) : Int :=
  if t < 3 then coeff t else if t = 3 then 128 - 2 * (coeff 0 + coeff 1 + coeff 2) else coeff (6 - t)

/-- InterRound0 and InterRound1 of the rounding variables derivation process with isCompound equal to 0. -/
def interRound (bitDepth : Nat) : Nat × Nat := if bitDepth = 12 then (5, 9) else (3, 11)

/-- The Wiener filter process. -/
def wiener (bitDepth : Nat) (hcoeff vcoeff : Nat → Int) (src : Int → Int → Int) (y x : Int) : Int :=
  let r := interRound bitDepth
  let offset : Int := 2 ^ (bitDepth + 7 - r.1 - 1)
  let limit : Int := 2 ^ (bitDepth + 1 + 7 - r.1) - 1
  let intermediate (row : Int) : Int :=
    clip3 (-offset) (limit - offset)
      (round2 (∑ t ∈ Finset.range 7, getFilter hcoeff t * src (row - 3) (x + t - 3)) r.1)
  clip1 bitDepth (round2 (∑ t ∈ Finset.range 7, getFilter vcoeff t * intermediate (y + t)) r.2)

/-- Sgr_Params of the specification: the radius and the strength for the two passes. -/
def sgrParams : List ((Int × Int) × (Int × Int)) := [
  ((2, 140), (1, 3236)), ((2, 112), (1, 2158)), ((2, 93), (1, 1618)), ((2, 80), (1, 1438)),
  ((2, 70), (1, 1295)), ((2, 58), (1, 1177)), ((2, 47), (1, 1079)), ((2, 37), (1, 996)),
  ((2, 30), (1, 925)), ((2, 25), (1, 863)), ((0, -1), (1, 2589)), ((0, -1), (1, 1618)),
  ((0, -1), (1, 1177)), ((0, -1), (1, 925)), ((2, 56), (0, -1)), ((2, 22), (0, -1))]

/-- The sum over the box with radius `r` around a sample. -/
def boxSum (r : Int) (f : Int → Int) (src : Int → Int → Int) (y x : Int) : Int :=
  ∑ dy ∈ Finset.Icc (-r) r, ∑ dx ∈ Finset.Icc (-r) r, f (src (y + dy) (x + dx))

/-- a2 of the box filter process for z. -/
def a2 (z : Int) : Int := if z ≥ 255 then 256 else if z = 0 then 1 else (z * 256 + z / 2) / (z + 1)

/-- The arrays A and B of the box filter process. -/
def boxAB (bitDepth : Nat) (r s : Int) (src : Int → Int → Int) (y x : Int) : Int × Int :=
  let n := (2 * r + 1) * (2 * r + 1)
  let oneByN := (2 ^ 12 + n / 2) / n
  let a := round2 (boxSum r (fun c => c * c) src y x) (2 * (bitDepth - 8))
  let b := boxSum r (fun c => c) src y x
  let d := round2 b (bitDepth - 8)
  let p := max 0 (a * n - d * d)
  let z := round2 (p * s) 20
  (a2 z, round2 ((256 - a2 z) * b * oneByN) 12)

/-- The weight of the neighbour at `dy`, `dx` in the box filter process. -/
def weight (pass : Nat) (y dy dx : Int) : Int :=
  if pass = 0 then (if (y + dy) % 2 = 1 then (if dx = 0 then 6 else 5) else 0)
  else if dx = 0 ∨ dy = 0 then 4 else 3

/-- The box filter process: F. -/
def boxFilter (bitDepth : Nat) (pass : Nat) (r s : Int) (src : Int → Int → Int) (y x : Int) : Int :=
  let shift := if pass = 0 ∧ y % 2 = 1 then 4 else 5
  let a := ∑ dy ∈ Finset.Icc (-1 : Int) 1, ∑ dx ∈ Finset.Icc (-1 : Int) 1,
    weight pass y dy dx * (boxAB bitDepth r s src (y + dy) (x + dx)).1
  let b := ∑ dy ∈ Finset.Icc (-1 : Int) 1, ∑ dx ∈ Finset.Icc (-1 : Int) 1,
    weight pass y dy dx * (boxAB bitDepth r s src (y + dy) (x + dx)).2
  round2 (a * src y x + b) (8 + shift - 4)

/-- The self guided filter process. -/
def selfGuided (bitDepth : Nat) (set : Nat) (xqd0 xqd1 : Int) (src : Int → Int → Int) (y x : Int) : Int :=
  let p := sgrParams.getD set ((0, 0), (0, 0))
  let w2 := 128 - xqd0 - xqd1
  let u := src y x * 16
  let f0 := if p.1.1 = 0 then u else boxFilter bitDepth 0 p.1.1 p.1.2 src y x
  let f1 := if p.2.1 = 0 then u else boxFilter bitDepth 1 p.2.1 p.2.2 src y x
  clip1 bitDepth (round2 (xqd1 * u + xqd0 * f0 + w2 * f1) 11)

/-- The samples a filter function is given: the block, three columns to the left and to the right of it or its first or
last column again, two rows above and below it before CDEF, the outer one twice, or its first or last row again. -/
def source (a : Args) (y x : Int) : Int :=
  let x := if x < 0 ∧ ¬a.e.left then 0 else if a.w ≤ x ∧ ¬a.e.right then (a.w : Int) - 1 else x
  if y < 0 ∧ a.e.top then a.lpf (if y = -1 then 1 else 0) x
  else if a.h ≤ y ∧ a.e.bottom then a.lpf (if y = a.h then 6 else 7) x
  else
    let y := if y < 0 then 0 else if a.h ≤ y then (a.h : Int) - 1 else y
    if x < 0 then a.left y.toNat (x + 4).toNat else a.dst y x

end Dav1d.Lr.Spec
