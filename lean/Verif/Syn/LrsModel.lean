import Verif.Syn.LruModel
/-!
# Loop restoration in place: stripes, borders and saved lines

src/lf_apply_tmpl.c:36-172 (backup_lpf for loop restoration, dav1d_copy_lpf) and src/lr_apply_tmpl.c:36-205 (lr_stripe, lr_sbrow), for one plane. Which unit is used where is `lrSbrow` of
`LruModel.lean`, the filters are those of `Dsp/Lr.lean`.
-/
namespace Dav1d.Lrs
open Dav1d.Syn.Lru (Cfg RUnit Ptr lrSbrow)
open Dav1d.Lr (Args Buf Junk)

/-- Samples of a plane, or lines of f->lf.lr_lpf_line: row and column. -/
abbrev Plane := Int → Int → Int

/-- pixel_copy of a line. Lines are modelled as long as is needed. -/
def setLine (b : Plane) (j : Int) (l : Int → Int) : Plane := fun k => if k = j then l else b k

/-- The height of the plane, src/lf_apply_tmpl.c:133 and 154. -/
def planeH (f : Cfg) (p : Nat) : Nat := (f.h + f.ssV p) / 2 ^ f.ssV p

/-- The width of the plane, src/lr_apply_tmpl.c:178 and 189. -/
def planeW (f : Cfg) (p : Nat) : Nat := (f.srw + f.ssH p) / 2 ^ f.ssH p

/-- `6 - ss_ver + sb128`: the logarithm of the height of a superblock. -/
def lg (f : Cfg) (p : Nat) : Nat := 6 - f.ssV p + if f.sb128 then 1 else 0

/-- `y_stripe`, src/lf_apply_tmpl.c:136 and 158, src/lr_apply_tmpl.c:181 and 193. -/
def yStripe (f : Cfg) (p sby : Nat) : Nat := sby * 2 ^ lg f p - (if sby ≠ 0 then 8 else 0) / 2 ^ f.ssV p

/-- The four lines at the end of a stripe, src/lf_apply_tmpl.c:83-94 and 98-104: `D` has the rows before CDEF. With super-resolution each row is scaled when it is saved (mc.resize); `D` then
is the scaled frame, as rows are scaled independently of each other. -/
def saveFour (D : Plane) (h row sh : Nat) (dst : Int) (b : Plane) : Plane :=
  let nLines := 4 - if row + sh + 1 = h then 1 else 0
  let one (b : Plane) (i : Nat) : Plane := setLine b (dst + i) (if i = nLines then b (dst + i - 1) else D ((row + sh : Nat) - 2 + i))
  one (one (one (one b 0) 1) 2) 3

/-- The loops of backup_lpf, src/lf_apply_tmpl.c:81-109; `n` bounds the number of turns. -/
def saveLoop (D : Plane) (h ss rowH : Nat) : (n row sh : Nat) → (dst : Int) → Plane → Plane
  | 0, _, _, _, b => b
  | n + 1, row, sh, dst, b =>
    if row + sh ≤ rowH then saveLoop D h ss rowH n (row + sh) (64 / 2 ^ ss) (dst + 4) (saveFour D h row sh dst b) else b

/-- dav1d_copy_lpf and backup_lpf with lr_backup, src/lf_apply_tmpl.c:41-172, for a plane with restoration. `tt`: more than one thread. `b`: the lines f->lf.lr_lpf_line. -/
def copyLpf (f : Cfg) (p : Nat) (tt : Bool) (D : Plane) (sby : Nat) (b : Plane) : Plane :=
  let h := planeH f p
  let rowH := min ((sby + 1) * 2 ^ lg f p) (h - 1)
  let y := yStripe f p sby
  let sh := (64 - 8 * if y = 0 then 1 else 0) / 2 ^ f.ssV p
  let top : Nat := 4 * if f.sb128 then 2 else 1
  if tt then saveLoop D h (f.ssV p) rowH (h + 1) y sh (sby * top : Nat) b
  else
    let cp (b : Plane) (i : Nat) : Plane := setLine b i (b (top + i : Nat))
    saveLoop D h (f.ssV p) rowH (h + 1) y sh 4 (if y ≠ 0 then cp (cp (cp (cp b 0) 1) 2) 3 else b)

/-- The choice of the filter and its parameters in lr_stripe, src/lr_apply_tmpl.c:53-83: the plane afterwards, as seen from the block. `j`: what the filters' own buffers hold before. The choice
between the assembly-only variants `wiener[0]` and `wiener[1]` is not modelled. -/
def lrFn (d : Depth) (u : RUnit) (a : Args) (j : Buf × Junk) : Plane :=
  if u.type = 2 then Lr.wiener d (Lr.taps d (fun k => [u.h0, u.h1, u.h2].getD k 0) (fun k => [u.v0, u.v1, u.v2].getD k 0)) a j.1
  else Lr.sgrFilter ⟨d, a, Lr.sgrOf (u.type - 3) u.w0 u.w1⟩ j.2

/-- What stays the same in a call of lr_stripe; `last` is `sby + 1 == f->sbh`. -/
structure Call where
  d : Depth
  u : RUnit
  junk : Buf × Junk
  /-- f->lf.lr_lpf_line -/
  lines : Plane
  last : Bool
  ss : Nat
  x : Nat
  w : Nat
  rowH : Nat
  /-- LR_HAVE_LEFT and LR_HAVE_RIGHT -/
  hasL : Bool
  hasR : Bool

/-- What a filter is called with, src/lr_apply_tmpl.c:86-88. -/
def Call.args (c : Call) (y sh : Nat) (lpf : Int) (top : Bool) (left : Nat → Nat → Int) (fr : Plane) : Args where
  dst := fun j i => fr (y + j) (c.x + i)
  left := left
  lpf := fun j i => c.lines (lpf + j) (c.x + i)
  w := c.w
  h := sh
  e := { left := c.hasL, right := c.hasR, top := top, bottom := decide (c.last = false ∨ y + sh ≠ c.rowH) }

/-- The loop of lr_stripe, src/lr_apply_tmpl.c:85-97. -/
def stripeLoop (c : Call) : (n y sh : Nat) → (lpf : Int) → (top : Bool) → (left : Nat → Nat → Int) → Plane → Plane
  | 0, _, _, _, _, _, fr => fr
  | n + 1, y, sh, lpf, top, left, fr =>
    if y + sh ≤ c.rowH then
      let out := lrFn c.d c.u (c.args y sh lpf top left fr) c.junk
      let fr : Plane := fun Y X => out (Y - y) (X - c.x)
      let sh' := min (64 / 2 ^ c.ss) (c.rowH - (y + sh))
      if sh' = 0 then fr else stripeLoop c n (y + sh) sh' (lpf + 4) true (fun j => left (sh + j)) fr
    else fr

/-- lr_stripe, src/lr_apply_tmpl.c:36-98. -/
def lrStripe (f : Cfg) (p : Nat) (tt : Bool) (d : Depth) (junk : Buf × Junk) (lines : Plane) (u : RUnit) (x y w rowH : Nat) (hasL hasR : Bool) (left : Nat → Nat → Int) (fr : Plane) : Plane :=
  let ss := f.ssV p
  let sby := (y + if y ≠ 0 then 8 * 2 ^ ss else 0) / 2 ^ lg f p
  let lpf : Int := if tt then (sby : Int) * (4 * if f.sb128 then 2 else 1) - 4 else 0
  let c : Call := ⟨d, u, junk, lines, decide (sby + 1 = f.sbh), ss, x, w, rowH, hasL, hasR⟩
  stripeLoop c (rowH + 1) y (min ((64 - 8 * if y = 0 then 1 else 0) / 2 ^ ss) (rowH - y)) lpf (decide (0 < y)) left fr

/-- The loop of lr_sbrow, src/lr_apply_tmpl.c:145-165, over the units of the row. `left` is what was saved last (of the two buffers pre_lr_border the other one is written in the meantime): the
last four columns before the unit, if it is to be restored. -/
def unitLoop (f : Cfg) (p : Nat) (tt : Bool) (d : Depth) (junk : Buf × Junk) (lines : Plane) (mem : Ptr → RUnit) (y rowH : Nat) :
    List (Nat × Nat × Ptr) → (hasL : Bool) → (left : Nat → Nat → Int) → Plane → Plane
  | [], _, _, fr => fr
  | e :: rest, hasL, left, fr =>
    let restoreNext : Bool := match rest.head? with | some e' => decide ((mem e'.2.2).type ≠ 0) | none => false
    let saved : Nat → Nat → Int := if restoreNext then fun j k => fr (y + j) (e.1 + e.2.1 - 4 + k) else left
    let fr := if (mem e.2.2).type ≠ 0 then lrStripe f p tt d junk lines (mem e.2.2) e.1 y e.2.1 rowH hasL (!rest.isEmpty) left fr else fr
    unitLoop f p tt d junk lines mem y rowH rest true saved fr

/-- dav1d_lr_sbrow and lr_sbrow for a plane, src/lr_apply_tmpl.c:107-202. `left`: what pre_lr_border holds before, not initialised. -/
def lrSbrowPlane (f : Cfg) (p : Nat) (tt : Bool) (d : Depth) (junk : Buf × Junk) (left : Nat → Nat → Int) (lines : Plane) (mem : Ptr → RUnit) (sby : Nat) (fr : Plane) : Plane :=
  unitLoop f p tt d junk lines mem (lrSbrow f p sby).1 (lrSbrow f p sby).2.1 (lrSbrow f p sby).2.2 false left fr

end Dav1d.Lrs
