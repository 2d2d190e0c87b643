import Verif.Dsp.CdefProps
import Verif.Dsp.CdefDir
/-!
# CDEF of a frame, sections 7.15 to 7.15.2 of the AV1 specification (from memory)

The filter for one sample, given the samples around it that are available, is `specFilter` of `Dsp/CdefProps.lean` (section 7.15.2), the cost of a direction is `energy` of `Dsp/CdefDir.lean`
(section 7.15.1).
-/
namespace Dav1d.Cdf.Av1
open Dav1d.Cdef

/-- What the process uses: variables of the frame, `cdef_idx` and `Skips` for units of 4x4 luma samples, and CurrFrame, the frame after the deblocking filter. -/
structure Env where
  MiRows : Nat
  MiCols : Nat
  NumPlanes : Nat
  subsampling_x : Nat
  subsampling_y : Nat
  depth : Depth
  CdefDamping : Nat
  cdef_y_pri_strength : Nat → Nat
  cdef_y_sec_strength : Nat → Nat
  cdef_uv_pri_strength : Nat → Nat
  cdef_uv_sec_strength : Nat → Nat
  cdef_idx : Nat → Nat → Int
  Skips : Nat → Nat → Bool
  CurrFrame : Nat → Int → Int → Int

variable (e : Env)

def subX (plane : Nat) : Nat := if plane = 0 then 0 else e.subsampling_x
def subY (plane : Nat) : Nat := if plane = 0 then 0 else e.subsampling_y

/-- is_inside_filter_region. -/
def is_inside_filter_region (candR candC : Int) : Prop := 0 ≤ candC ∧ candC < e.MiCols ∧ 0 ≤ candR ∧ candR < e.MiRows
instance (a b : Int) : Decidable (is_inside_filter_region e a b) := inferInstanceAs (Decidable (_ ∧ _))

/-- CdefAvailable, and the sample of CurrFrame if it is. -/
def available (plane : Nat) (y x : Int) : Option Int :=
  if is_inside_filter_region e (y * 2 ^ subY e plane / 4) (x * 2 ^ subX e plane / 4) then some (e.CurrFrame plane y x) else none

/-- The CDEF direction process: the direction with the largest cost, the first one of equal ones, and the variance. -/
def yDir (cost : Nat → Nat) : Nat := (List.range 8).foldl (fun best d => if cost d > cost best then d else best) 0
def variance (cost : Nat → Nat) : Nat := (cost (yDir cost) - cost ((yDir cost + 4) % 8)) / 2 ^ 10

/-- Cdef_Uv_Dir. -/
def Cdef_Uv_Dir (subX subY dir : Nat) : Nat := if subX = 1 ∧ subY = 0 then [7, 0, 2, 4, 5, 6, 6, 6].getD dir 0 else dir

/-- The CDEF block process: the strengths, direction and damping for a plane of the block at `r`, `c`. -/
def blockParams (plane r c : Nat) : Params :=
  let idx := (e.cdef_idx r c).toNat
  let coeffShift := e.depth.bpc - 8
  let cost := energy e.depth fun y x => e.CurrFrame 0 (r * 4 + y : Nat) (c * 4 + x : Nat)
  if plane = 0 then
    let priStr := e.cdef_y_pri_strength idx * 2 ^ coeffShift
    let var := variance cost
    let varStr := if var / 64 ≠ 0 then min (Nat.log2 (var / 64)) 12 else 0
    ⟨if var ≠ 0 then (priStr * (4 + varStr) + 8) / 16 else 0, e.cdef_y_sec_strength idx * 2 ^ coeffShift, if priStr = 0 then 0 else yDir cost, e.CdefDamping + coeffShift⟩
  else
    let priStr := e.cdef_uv_pri_strength idx * 2 ^ coeffShift
    ⟨priStr, e.cdef_uv_sec_strength idx * 2 ^ coeffShift, if priStr = 0 then 0 else Cdef_Uv_Dir e.subsampling_x e.subsampling_y (yDir cost), e.CdefDamping + coeffShift - 1⟩

/-- The block of 8x8 luma samples at `r`, `c` is all skipped. -/
def skip (r c : Nat) : Bool := e.Skips r c && e.Skips (r + 1) c && e.Skips r (c + 1) && e.Skips (r + 1) (c + 1)

/-- CdefFrame: the sample in row `Y` and column `X` of a plane. -/
def CdefFrame (plane Y X : Nat) : Int :=
  let r := Y * 2 ^ subY e plane / 8 * 2
  let c := X * 2 ^ subX e plane / 8 * 2
  if e.cdef_idx r c = -1 ∨ skip e r c then e.CurrFrame plane Y X
  else specFilter e.depth (blockParams e plane r c) (available e plane) (e.CurrFrame plane Y X) Y X

end Dav1d.Cdf.Av1
