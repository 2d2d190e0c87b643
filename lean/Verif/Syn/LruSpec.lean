import Verif.Syn.Base
import Verif.Dsp.LrSpec
/-!
# Restoration units in the AV1 specification

5.11.57 (read_lr), 5.11.58 (read_lr_unit and the codes for numbers), 5.11.2 (clear at the start of a tile), 7.17 (the unit of a sample).
-/
namespace Dav1d.Syn.Lru.Av1

/-- RESTORE_NONE etc. -/
inductive RType where
  | NONE | WIENER | SGRPROJ | SWITCHABLE
  deriving DecidableEq, Repr

structure Env where
  NumPlanes : Nat
  subsampling_x : Nat
  subsampling_y : Nat
  FrameWidth : Nat
  FrameHeight : Nat
  UpscaledWidth : Nat
  use_superres : Bool
  SuperresDenom : Nat
  allow_intrabc : Bool
  use_128x128_superblock : Bool
  FrameRestorationType : Nat → RType
  LoopRestorationSize : Nat → Nat

namespace Env
def subX (E : Env) (plane : Nat) : Nat := if plane = 0 then 0 else E.subsampling_x
def subY (E : Env) (plane : Nat) : Nat := if plane = 0 then 0 else E.subsampling_y
def MiCols (E : Env) : Nat := 2 * ((E.FrameWidth + 7) / 8)
def MiRows (E : Env) : Nat := 2 * ((E.FrameHeight + 7) / 8)
/-- Num_4x4_Blocks_Wide[ sbSize ] -/
def sbSize4 (E : Env) : Nat := if E.use_128x128_superblock then 32 else 16
end Env

/-- LrType with LrWiener[pass], or LrSgrSet and LrSgrXqd, of a unit. -/
inductive LrUnit where
  | none
  | wiener (pass0 pass1 : Int × Int × Int)
  | sgrproj (set : Nat) (xqd : Int × Int)
  deriving DecidableEq, Repr

/-- RefLrWiener[plane][pass], RefSgrXqd[plane], and the units of the frame that were read. -/
structure State where
  RefLrWiener : Nat → Nat → Int × Int × Int
  RefSgrXqd : Nat → Int × Int
  units : Nat → Nat → Nat → Option LrUnit

/-- The start of a tile. -/
def clear (s : State) : State := { s with RefLrWiener := fun _ _ => (3, -7, 15), RefSgrXqd := fun _ => (-32, 31) }

/-- L(n): bits, the first is the most significant. -/
def L : Nat → Prog Nat
  | 0 => pure 0
  | n + 1 => bit >>= fun b => L n >>= fun x => pure (b.toNat * 2 ^ n + x)

/-- NS(n) -/
def NS (n : Nat) : Prog Nat :=
  let w := Nat.log2 n + 1
  let m := 2 ^ w - n
  L (w - 1) >>= fun v => if v < m then pure v else L 1 >>= fun extra => pure (2 * v - m + extra)

def inverse_recenter (r v : Nat) : Nat := if v > 2 * r then v else if v % 2 = 1 then r - (v + 1) / 2 else r + v / 2

/-- decode_subexp_bool; `fuel` bounds the number of turns (it is enough for all values of `numSyms` below 2 ^ fuel). -/
def decode_subexp_bool (numSyms k : Nat) : (fuel i mk : Nat) → Prog Nat
  | 0, _, _ => .err
  | fuel + 1, i, mk =>
    let b2 := if i ≠ 0 then k + i - 1 else k
    let a := 2 ^ b2
    if numSyms ≤ mk + 3 * a then NS (numSyms - mk) >>= fun subexp_unif_bools => pure (subexp_unif_bools + mk)
    else L 1 >>= fun subexp_more_bools =>
      if subexp_more_bools = 1 then decode_subexp_bool numSyms k fuel (i + 1) (mk + a)
      else L b2 >>= fun subexp_bools => pure (subexp_bools + mk)

def decode_unsigned_subexp_with_ref_bool (mx k r : Nat) : Prog Nat :=
  decode_subexp_bool mx k mx 0 0 >>= fun v =>
  pure (if 2 * r ≤ mx then inverse_recenter r v else mx - 1 - inverse_recenter (mx - 1 - r) v)

def decode_signed_subexp_with_ref_bool (low high : Int) (k : Nat) (r : Int) : Prog Int :=
  decode_unsigned_subexp_with_ref_bool (high - low).toNat k (r - low).toNat >>= fun x => pure (x + low)

/-- Wiener_Taps_Min, Wiener_Taps_Max and Wiener_Taps_K. -/
def wienerTap (j : Nat) (ref : Int) : Prog Int :=
  if j = 0 then decode_signed_subexp_with_ref_bool (-5) (10 + 1) 1 ref
  else if j = 1 then decode_signed_subexp_with_ref_bool (-23) (8 + 1) 2 ref
  else decode_signed_subexp_with_ref_bool (-17) (46 + 1) 3 ref

/-- The taps of one pass; the first is not read for chroma. -/
def wienerPass (plane : Nat) (ref : Int × Int × Int) : Prog (Int × Int × Int) :=
  (if plane ≠ 0 then pure 0 else wienerTap 0 ref.1) >>= fun v0 =>
  wienerTap 1 ref.2.1 >>= fun v1 =>
  wienerTap 2 ref.2.2 >>= fun v2 =>
  pure (v0, v1, v2)

def Clip3 (lo hi x : Int) : Int := if x < lo then lo else if x > hi then hi else x

/-- restoration_type, or use_wiener or use_sgrproj -/
def restorationType (t : RType) : Prog RType :=
  match t with
  | .WIENER => flag .restoreWiener [] >>= fun use_wiener => pure (if use_wiener then .WIENER else .NONE)
  | .SGRPROJ => flag .restoreSgrproj [] >>= fun use_sgrproj => pure (if use_sgrproj then .SGRPROJ else .NONE)
  | _ => mode .restoreSwitchable [] 2 >>= fun t => pure (if t = 0 then .NONE else if t = 1 then .WIENER else .SGRPROJ)

def setUnit (s : State) (plane row col : Nat) (u : LrUnit) : State :=
  { s with units := fun p r c => if p = plane ∧ r = row ∧ c = col then some u else s.units p r c }

/-- In RefLrWiener the first number is not changed for chroma. -/
def keepFirst (plane : Nat) (old new : Int × Int × Int) : Int × Int × Int := if plane ≠ 0 then (old.1, new.2) else new

def read_lr_unit (E : Env) (plane row col : Nat) (s : State) : Prog State :=
  restorationType (E.FrameRestorationType plane) >>= fun t =>
  match t with
  | .WIENER =>
    wienerPass plane (s.RefLrWiener plane 0) >>= fun a =>
    wienerPass plane (s.RefLrWiener plane 1) >>= fun b =>
    pure (setUnit { s with RefLrWiener := fun p pass => if p = plane then (if pass = 0 then keepFirst plane (s.RefLrWiener p 0) a else keepFirst plane (s.RefLrWiener p 1) b)
                                                        else s.RefLrWiener p pass } plane row col (.wiener a b))
  | .SGRPROJ =>
    L 4 >>= fun lr_sgr_set =>
    let radius := Dav1d.Lr.Spec.sgrParams.getD lr_sgr_set ((0, 0), (0, 0))
    (if radius.1.1 ≠ 0 then decode_signed_subexp_with_ref_bool (-96) (31 + 1) 4 (s.RefSgrXqd plane).1 else pure 0) >>= fun v0 =>
    (if radius.2.1 ≠ 0 then decode_signed_subexp_with_ref_bool (-32) (95 + 1) 4 (s.RefSgrXqd plane).2 else pure (Clip3 (-32) 95 (2 ^ 7 - v0))) >>= fun v1 =>
    pure (setUnit { s with RefSgrXqd := fun p => if p = plane then (v0, v1) else s.RefSgrXqd p } plane row col (.sgrproj lr_sgr_set (v0, v1)))
  | _ => pure (setUnit s plane row col .none)

def Round2 (x n : Nat) : Nat := if n = 0 then x else (x + 2 ^ (n - 1)) / 2 ^ n

def count_units_in_frame (unitSize frameSize : Nat) : Nat := max ((frameSize + unitSize / 2) / unitSize) 1

def unitRows (E : Env) (plane : Nat) : Nat := count_units_in_frame (E.LoopRestorationSize plane) (Round2 E.FrameHeight (E.subY plane))
def unitCols (E : Env) (plane : Nat) : Nat := count_units_in_frame (E.LoopRestorationSize plane) (Round2 E.UpscaledWidth (E.subX plane))

def numerator (E : Env) (plane : Nat) : Nat := 4 / 2 ^ E.subX plane * if E.use_superres then E.SuperresDenom else 1
def denominator (E : Env) (plane : Nat) : Nat := E.LoopRestorationSize plane * if E.use_superres then 8 else 1

/-- unitRowStart, unitRowEnd, unitColStart and unitColEnd of the superblock at `r`, `c`. -/
def unitRowStart (E : Env) (plane r : Nat) : Nat := (r * (4 / 2 ^ E.subY plane) + E.LoopRestorationSize plane - 1) / E.LoopRestorationSize plane
def unitRowEnd (E : Env) (plane r : Nat) : Nat :=
  min (((r + E.sbSize4) * (4 / 2 ^ E.subY plane) + E.LoopRestorationSize plane - 1) / E.LoopRestorationSize plane) (unitRows E plane)
def unitColStart (E : Env) (plane c : Nat) : Nat := (c * numerator E plane + denominator E plane - 1) / denominator E plane
def unitColEnd (E : Env) (plane c : Nat) : Nat := min (((c + E.sbSize4) * numerator E plane + denominator E plane - 1) / denominator E plane) (unitCols E plane)

/-- `for (v = a; v < b; v++)` -/
def forN (g : Nat → State → Prog State) : (n v : Nat) → State → Prog State
  | 0, _, s => pure s
  | n + 1, v, s => g v s >>= forN g n (v + 1)
def forRange (a b : Nat) (g : Nat → State → Prog State) (s : State) : Prog State := forN g (b - a) a s

def read_lr_plane (E : Env) (r c plane : Nat) (s : State) : Prog State :=
  if E.FrameRestorationType plane = .NONE then pure s else
  forRange (unitRowStart E plane r) (unitRowEnd E plane r) (fun unitRow s =>
    forRange (unitColStart E plane c) (unitColEnd E plane c) (fun unitCol s => read_lr_unit E plane unitRow unitCol s) s) s

def read_lr (E : Env) (r c : Nat) (s : State) : Prog State :=
  if E.allow_intrabc then pure s else forRange 0 E.NumPlanes (fun plane s => read_lr_plane E r c plane s) s

/-- The unit of a sample of a plane, 7.17: the block of 4x4 luma samples at `row`, `col` that it is in has the unit `unitRow`, `unitCol`. -/
def unitRow (E : Env) (plane y : Nat) : Nat :=
  let row := y * 2 ^ E.subY plane / 4
  min (unitRows E plane - 1) ((row * 4 + 8) / 2 ^ E.subY plane / E.LoopRestorationSize plane)
def unitCol (E : Env) (plane x : Nat) : Nat :=
  let col := x * 2 ^ E.subX plane / 4
  min (unitCols E plane - 1) (col * 4 / 2 ^ E.subX plane / E.LoopRestorationSize plane)

end Dav1d.Syn.Lru.Av1
