import Verif.Syn.Base
import Verif.Dsp.Lr
/-!
# Restoration units: reading their parameters, and finding them again

src/decode.c:2467-2505 (start of a tile), 2513-2574 (read_restoration_info), 2664-2715 (a superblock), and the choice of
the unit in src/lr_apply_tmpl.c:104-205.
-/
namespace Dav1d.Syn.Lru

/-- Av1RestorationUnit, src/lf_mask.h:42-48. -/
structure RUnit where
  type : Nat
  v0 : Int
  v1 : Int
  v2 : Int
  h0 : Int
  h1 : Int
  h2 : Int
  w0 : Int
  w1 : Int
  deriving DecidableEq, Repr

/-- What the reading depends on: f->cur.p.w and h, f->sr_cur.p.p.w, width_scale_denominator, the layout (0 for I400 to 3 for I444), restoration.type and unit_size, sb128.
DAV1D_RESTORATION_NONE, SWITCHABLE, WIENER, SGRPROJ are 0 to 3, include/dav1d/headers.h:83-88. -/
structure Cfg where
  w : Nat
  h : Nat
  srw : Nat
  d : Nat
  layout : Nat
  type : Nat → Nat
  usY : Nat
  usUv : Nat
  sb128 : Bool

namespace Cfg
/-- `width[0] != width[1]`. -/
def resized (f : Cfg) : Prop := f.w ≠ f.srw
instance (f : Cfg) : Decidable f.resized := inferInstanceAs (Decidable (f.w ≠ f.srw))
/-- `ss_ver`, src/decode.c:2669. -/
def ssV (f : Cfg) (p : Nat) : Nat := if p ≠ 0 ∧ f.layout = 1 then 1 else 0
/-- `ss_hor`, src/decode.c:2670. -/
def ssH (f : Cfg) (p : Nat) : Nat := if p ≠ 0 ∧ f.layout ≠ 3 then 1 else 0
/-- `restoration.unit_size[!!p]`. -/
def us (f : Cfg) (p : Nat) : Nat := if p = 0 then f.usY else f.usUv
/-- src/decode.c:3556-3562. -/
def bw (f : Cfg) : Nat := (f.w + 7) / 8 * 2
def bh (f : Cfg) : Nat := (f.h + 7) / 8 * 2
def sb128w (f : Cfg) : Nat := (f.bw + 31) / 32
def sb128h (f : Cfg) : Nat := (f.bh + 31) / 32
def step (f : Cfg) : Nat := if f.sb128 then 32 else 16
def sbh (f : Cfg) : Nat := (f.bh + f.step - 1) / f.step
/-- src/decode.c:3021. -/
def srSb128w (f : Cfg) : Nat := (f.srw + 127) / 128
end Cfg

/-- A pointer into lr_mask[sb_idx].lr[p][unit_idx], for a known plane. -/
abbrev Ptr := Nat × Nat

/-- f->lf.lr_mask, as a function of plane and pointer, and ts->lr_ref. -/
structure St where
  mem : Nat → Ptr → RUnit
  ref : Nat → Ptr

def St.write (s : St) (p : Nat) (a : Ptr) (u : RUnit) : St := { s with mem := fun q b => if q = p ∧ b = a then u else s.mem q b }
def St.setRef (s : St) (p : Nat) (a : Ptr) : St := { s with ref := fun q => if q = p then a else s.ref q }

/-- src/decode.c:2467-2505 for one plane with `x` already chosen: the defaults. The type is left. -/
def defaults (u : RUnit) : RUnit := { u with v0 := 3, v1 := -7, v2 := 15, h0 := 3, h1 := -7, h2 := 15, w0 := -32, w1 := 31 }

/-- tile_init for the restoration units of a plane, src/decode.c:2478-2505; `row_start` and `col_start` in units of 4 samples. -/
def initPlane (f : Cfg) (rowStart colStart p : Nat) (s : St) : St :=
  if f.type p = 0 then s else
  if f.resized then
    let rnd := 2 ^ f.us p * 8 - 1
    let x := (4 * colStart * f.d / 2 ^ f.ssH p + rnd) / 2 ^ (f.us p + 3)
    let px := x * 2 ^ (f.us p + f.ssH p)
    if f.srSb128w ≤ px / 128 then s else
    let a : Ptr := (rowStart / 32 * f.srSb128w + px / 128, rowStart % 32 / 16 * 2 + px % 128 / 64)
    (s.write p a (defaults (s.mem p a))).setRef p a
  else
    let a : Ptr := (rowStart / 32 * f.sb128w + colStart / 32, rowStart % 32 / 16 * 2 + colStart % 32 / 16)
    (s.write p a (defaults (s.mem p a))).setRef p a

/-- All planes, src/decode.c:2467-2505. -/
def tileInit (f : Cfg) (rowStart colStart : Nat) (s : St) : St := initPlane f rowStart colStart 2 (initPlane f rowStart colStart 1 (initPlane f rowStart colStart 0 s))

/-- dav1d_msac_decode_bools, src/msac.h:94-99: one bit after the other. -/
def boolsAcc : Nat → Nat → Prog Nat
  | 0, v => pure v
  | n + 1, v => bit >>= fun b => boolsAcc n (2 * v + b.toNat)
def bools (n : Nat) : Prog Nat := boolsAcc n 0

/-- inv_recenter, include/common/intops.h:75-82. -/
def invRecenter (r v : Nat) : Nat := if 2 * r < v then v else if v % 2 = 0 then v / 2 + r else r - (v + 1) / 2

/-- dav1d_msac_decode_subexp, src/msac.c:60-74. A reference outside of 0..n-1 is an error here. -/
def subexp (ref : Int) (n k : Nat) : Prog Int :=
  let fin (a k : Nat) : Prog Int := bools k >>= fun u =>
    let v := u + a
    pure (if ref.toNat * 2 ≤ n then (invRecenter ref.toNat v : Int) else ((n - 1 - invRecenter (n - 1 - ref.toNat) v : Nat) : Int))
  if ref < 0 ∨ (n : Int) ≤ ref then .err else
  bit >>= fun b0 => if b0 = false then fin 0 k else
  bit >>= fun b1 => if b1 = false then fin (2 ^ k) k else
  bit >>= fun b2 => fin (2 ^ (k + b2.toNat + 1)) (k + b2.toNat + 1)

/-- Conversion to int8_t. -/
def i8 (x : Int) : Int := (x + 128) % 256 - 128

/-- One number: a member of the unit, from the reference. -/
def coef (ref off : Int) (n k : Nat) : Prog Int := subexp (ref + off) n k >>= fun v => pure (i8 (v - off))

/-- The type, src/decode.c:2520-2531. -/
def readType (ft : Nat) : Prog Nat :=
  if ft = 1 then mode .restoreSwitchable [] 2 >>= fun x => pure (x + if x ≠ 0 then 1 else 0)
  else flag (if ft = 2 then .restoreWiener else .restoreSgrproj) [] >>= fun t => pure (if t then ft else 0)

/-- read_restoration_info, src/decode.c:2513-2574. The unit that is written may be the reference itself; every member is read from the reference before it is written, and only members of
other names are written before. -/
def readInfo (p : Nat) (a : Ptr) (ft : Nat) (s : St) : Prog St :=
  readType ft >>= fun t =>
  let s := s.write p a { s.mem p a with type := t }
  let r := s.mem p (s.ref p)
  if t = 2 then
    (if p ≠ 0 then pure 0 else coef r.v0 5 16 1) >>= fun v0 =>
    coef r.v1 23 32 2 >>= fun v1 =>
    coef r.v2 17 64 3 >>= fun v2 =>
    (if p ≠ 0 then pure 0 else coef r.h0 5 16 1) >>= fun h0 =>
    coef r.h1 23 32 2 >>= fun h1 =>
    coef r.h2 17 64 3 >>= fun h2 =>
    pure ((s.write p a ⟨t, v0, v1, v2, h0, h1, h2, r.w0, r.w1⟩).setRef p a)
  else if t = 3 then
    bools 4 >>= fun idx =>
    let q := Dav1d.Lr.sgrParams.getD idx (0, 0)
    (if q.1 ≠ 0 then coef r.w0 96 128 4 else pure 0) >>= fun w0 =>
    (if q.2 ≠ 0 then coef r.w1 32 128 4 else pure 95) >>= fun w1 =>
    pure ((s.write p a ⟨t + idx, r.v0, r.v1, r.v2, r.h0, r.h1, r.h2, w0, w1⟩).setRef p a)
  else pure s

/-- `for (x = x0; x < x1; x++)` -/
def upto (g : Nat → St → Prog St) : (n x : Nat) → St → Prog St
  | 0, _, s => pure s
  | n + 1, x, s => g x s >>= upto g n (x + 1)

/-- A plane of the superblock at `bx`, `by`, src/decode.c:2665-2714. -/
def readPlane (f : Cfg) (bx by' p : Nat) (s : St) : Prog St :=
  if f.type p = 0 then pure s else
  let y := by' * 4 / 2 ^ f.ssV p
  let h := (f.h + f.ssV p) / 2 ^ f.ssV p
  let unit := 2 ^ f.us p
  let half := unit / 2
  if y % unit ≠ 0 then pure s else
  if y ≠ 0 ∧ h < y + half then pure s else
  if f.resized then
    let w := (f.srw + f.ssH p) / 2 ^ f.ssH p
    let nUnits := max 1 ((w + half) / 2 ^ f.us p)
    let rnd := unit * 8 - 1
    let x0 := (4 * bx * f.d / 2 ^ f.ssH p + rnd) / 2 ^ (f.us p + 3)
    let x1 := (4 * (bx + f.step) * f.d / 2 ^ f.ssH p + rnd) / 2 ^ (f.us p + 3)
    upto (fun x s =>
      let px := x * 2 ^ (f.us p + f.ssH p)
      readInfo p (by' / 32 * f.srSb128w + px / 128, by' % 32 / 16 * 2 + px % 128 / 64) (f.type p) s) (min x1 nUnits - x0) x0 s
  else
    let x := 4 * bx / 2 ^ f.ssH p
    if x % unit ≠ 0 then pure s else
    let w := (f.w + f.ssH p) / 2 ^ f.ssH p
    if x ≠ 0 ∧ w < x + half then pure s else
    readInfo p (by' / 32 * f.srSb128w + bx / 32, by' % 32 / 16 * 2 + bx % 32 / 16) (f.type p) s

/-- All planes, src/decode.c:2664-2715. -/
def readLr (f : Cfg) (bx by' : Nat) (s : St) : Prog St :=
  readPlane f bx by' 0 s >>= fun s => readPlane f bx by' 1 s >>= fun s => readPlane f bx by' 2 s

/-! ## Use -/

/-- The loop over the units of a row in lr_sbrow, src/lr_apply_tmpl.c:147-165: position, width and pointer, from the unit at `x` on. -/
def rowUnits (us shift w sbIdx unitIdx : Nat) : (n x : Nat) → List (Nat × Nat × Ptr)
  | 0, _ => []
  | n + 1, x =>
    let a : Ptr := (sbIdx + x / 2 ^ shift, unitIdx + x / 2 ^ (shift - 1) % 2)
    if x + (2 ^ us + 2 ^ us / 2) ≤ w then (x, 2 ^ us, a) :: rowUnits us shift w sbIdx unitIdx n (x + 2 ^ us) else [(x, w - x, a)]

/-- dav1d_lr_sbrow and lr_sbrow, src/lr_apply_tmpl.c:104-205, for a plane and a row of superblocks: the first row of samples, the one after the last, and the units that are used for them.
The filtering itself is in `Dsp/Lr.lean`. -/
def lrSbrow (f : Cfg) (p sby : Nat) : Nat × Nat × List (Nat × Nat × Ptr) :=
  let ssV := f.ssV p
  let h := (f.h + ssV) / 2 ^ ssV
  let w := (f.srw + f.ssH p) / 2 ^ f.ssH p
  let lg := 6 - ssV + if f.sb128 then 1 else 0
  let nextRow := (sby + 1) * 2 ^ lg
  let rowH := min (nextRow - 8 / 2 ^ ssV * if sby + 1 < f.sbh then 1 else 0) h
  let y := sby * 2 ^ lg - (if sby ≠ 0 then 8 else 0) / 2 ^ ssV
  let rowY := y + 8 / 2 ^ ssV * if y ≠ 0 then 1 else 0
  let unit := 2 ^ f.us p
  let pos := rowY / unit * unit
  let pos := if pos ≠ 0 ∧ h < pos + unit / 2 then pos - unit else pos
  let pos := pos * 2 ^ ssV
  (y, rowH, rowUnits (f.us p) (7 - f.ssH p) w (pos / 128 * f.srSb128w) (pos / 64 % 2 * 2) (w + 1) 0)

end Dav1d.Syn.Lru
