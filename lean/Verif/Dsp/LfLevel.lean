import Verif.Dsp.Mc
import Verif.Obu.FrameTypes
/-!
# Model of the loop filter levels and limits, src/lf_mask.c:385-468, and of the choice of the level table, src/decode.c:960-1028
-/
namespace Dav1d.Lf

/-- Storing in a `uint8_t`. -/
def u8 (v : Int) : Nat := (v % 256).toNat

/-- Av1FilterLUT, src/lf_mask.h:36-40, without `sharp`, which the C code does not read. -/
structure Lut where
  e : Nat → Nat
  i : Nat → Nat

/-- `limit` for one level, src/lf_mask.c:389-395. -/
def calcLimit (sharp level : Nat) : Int :=
  let limit : Int := if sharp > 0 then min (asr level ((sharp + 3) / 4)) (9 - sharp) else level
  max limit 1

/-- dav1d_calc_eih, src/lf_mask.c:385-402. Only the 64 entries written are meaningful. -/
def calcEih (sharp : Nat) : Lut where
  i level := u8 (calcLimit sharp level)
  e level := u8 (2 * (level + 2) + calcLimit sharp level)

/-- calc_lf_value, src/lf_mask.c:404-425: entry `[r][m]`. `none` is a read outside of `ref_delta` or `mode_delta`. -/
def calcLfValue (base_lvl lf_delta seg_delta : Int) (mr : Option LfDeltas) (r m : Nat) : Option Nat :=
  let base := iclip (iclip (base_lvl + lf_delta) 0 63 + seg_delta) 0 63
  match mr with
  | none => some (u8 base)
  | some mr =>
    let sh := if base ≥ 32 then 1 else 0
    if r = 0 then (mr.refDelta[0]?).map fun a => u8 (iclip (base + a * 2 ^ sh) 0 63)
    else (mr.modeDelta[m]?).bind fun a => (mr.refDelta[r]?).map fun b => u8 (iclip (base + (a + b) * 2 ^ sh) 0 63)

/-- calc_lf_value_chroma, src/lf_mask.c:427-436. -/
def calcLfValueChroma (base_lvl lf_delta seg_delta : Int) (mr : Option LfDeltas) (r m : Nat) : Option Nat :=
  if base_lvl = 0 then some 0 else calcLfValue base_lvl lf_delta seg_delta mr r m

/-- dav1d_calc_lf_values, src/lf_mask.c:438-468: entry `lflvl_values[s][p][r][m]`, where `s` is one of the segments computed.
`none` is a read outside of an array. -/
def calcLfValues (lf : LoopFilter) (seg : Segmentation) (multi : Bool) (lf_delta : List Int) (s p r m : Nat) : Option Nat :=
  if lf.levelY0 = 0 ∧ lf.levelY1 = 0 then some 0
  else
    let mr := if lf.deltaEnabled then some lf.deltas else none
    (if seg.enabled then (seg.data.d[s]?).map some else some none).bind fun segd =>
    match p with
    | 0 => (lf_delta[0]?).bind fun dl => calcLfValue lf.levelY0 dl ((segd.map (·.deltaLfYV)).getD 0) mr r m
    | 1 => (lf_delta[if multi then 1 else 0]?).bind fun dl => calcLfValue lf.levelY1 dl ((segd.map (·.deltaLfYH)).getD 0) mr r m
    | 2 => (lf_delta[if multi then 2 else 0]?).bind fun dl => calcLfValueChroma lf.levelU dl ((segd.map (·.deltaLfU)).getD 0) mr r m
    | _ => (lf_delta[if multi then 3 else 0]?).bind fun dl => calcLfValueChroma lf.levelV dl ((segd.map (·.deltaLfV)).getD 0) mr r m

/-- The level table of a tile: `ts->last_delta_lf`, the deltas `ts->lflvlmem` was computed from, and which table `ts->lflvl`
points to (`none`: not set yet). Tables are identified with the deltas they were computed from; the frame's one is computed
from zeros, src/decode.c:3040. -/
structure LvSt where
  last : List Int
  mem : Option (List Int)
  cur : Option Bool

/-- dav1d_decode_tile_init, src/decode.c:2456: `lflvlmem` and `lflvl` keep what they were. -/
def LvSt.init (s : LvSt) : LvSt := { s with last := [0, 0, 0, 0] }

/-- One delta as decoded, src/decode.c:999-1005. -/
def addDelta (last dl : Int) (res : Nat) : Int := iclip (last + dl * 2 ^ res) (-63) 63

/-- src/decode.c:968-1006 and 1020-1027: at the start of a superblock the first `ds.length` deltas change by `ds`. -/
def LvSt.sb (s : LvSt) (ds : List Int) (res : Nat) : LvSt :=
  let new := List.zipWith (fun l dl => addDelta l dl res) s.last ds ++ s.last.drop ds.length
  if new = [0, 0, 0, 0] then { s with last := new, cur := some false }
  else if new ≠ s.last then { last := new, mem := some new, cur := some true }
  else { s with last := new }

/-- The deltas the table in use was computed from. -/
def LvSt.used (s : LvSt) : Option (List Int) := s.cur.bind fun b => if b then s.mem else some [0, 0, 0, 0]

end Dav1d.Lf
