import Verif.Syn.LruSpec
/-!
# Loop restoration of a frame in the AV1 specification

7.17 (loop restore block process) and 7.17.6 (get source sample process), from memory.
-/
namespace Dav1d.Lrs.Av1
open Dav1d.Syn.Lru.Av1

def StripeNum (E : Env) (plane y : Nat) : Nat :=
  let row := y * 2 ^ E.subY plane / 4
  let lumaY := row * 4
  (lumaY + 8) / 64
def StripeStartY (E : Env) (plane y : Nat) : Int := (-8 + (StripeNum E plane y : Int) * 64) / 2 ^ E.subY plane
def StripeEndY (E : Env) (plane y : Nat) : Int := StripeStartY E plane y + 64 / 2 ^ E.subY plane - 1
def PlaneEndX (E : Env) (plane : Nat) : Int := (Round2 E.UpscaledWidth (E.subX plane) : Int) - 1
def PlaneEndY (E : Env) (plane : Nat) : Int := (Round2 E.FrameHeight (E.subY plane) : Int) - 1

/-- get_source_sample for samples that are filtered in the stripe `start`..`stop`: from the frame after CDEF, but outside of the stripe from the frame before it, and at most two rows away. -/
def get_source_sample (E : Env) (plane : Nat) (UpscaledCdefFrame UpscaledCurrFrame : Int → Int → Int) (start stop : Int) (y x : Int) : Int :=
  let x := max 0 (min (PlaneEndX E plane) x)
  let y := max 0 (min (PlaneEndY E plane) y)
  if y < start then UpscaledCurrFrame (max (start - 2) y) x
  else if stop < y then UpscaledCurrFrame (min (stop + 2) y) x
  else UpscaledCdefFrame y x

def coeffs (a : Int × Int × Int) (k : Nat) : Int := [a.1, a.2.1, a.2.2].getD k 0

/-- LrFrame: the sample at `y`, `x` of a plane after loop restoration, where `u` is its unit. Pass 0 is vertical, pass 1 horizontal. -/
def LrFrame (E : Env) (BitDepth plane : Nat) (UpscaledCdefFrame UpscaledCurrFrame : Int → Int → Int) (u : LrUnit) (y x : Nat) : Int :=
  let src := get_source_sample E plane UpscaledCdefFrame UpscaledCurrFrame (StripeStartY E plane y) (StripeEndY E plane y)
  match u with
  | .none => UpscaledCdefFrame y x
  | .wiener vfilter hfilter => Dav1d.Lr.Spec.wiener BitDepth (coeffs hfilter) (coeffs vfilter) src y x
  | .sgrproj set xqd => Dav1d.Lr.Spec.selfGuided BitDepth set xqd.1 xqd.2 src y x

end Dav1d.Lrs.Av1
