import Verif.Syn.LrsModel
import Verif.Dsp.Mc
/-!
# Super-resolution: `get_upscale_x0` and the steps of src/decode.c:3323-3327 and 3533-3542, dav1d_filter_sbrow_resize of src/recon_tmpl.c:2056-2089

A row of pixels is the model of resize_c of C36 (`resizePx`). Pixels of the upscaled frame are `none` if undefined behaviour gave them. Planes are functions of row and column; strides are not modelled.
-/
namespace Dav1d.Sres
open Dav1d.Syn.Lru (Cfg)

/-- A value of type int; `none` for an overflow. -/
def i32 (v : Int) : Option Int := if -2147483648 ≤ v ∧ v ≤ 2147483647 then some v else none

/-- scale_fac, src/decode.c:3475-3476. -/
def scaleFac (ref this : Int) : Option Int := do
  let a ← i32 (ref * 16384)
  let b ← i32 (a + this / 2)
  some (b.tdiv this)

/-- get_upscale_x0, src/decode.c:3323-3327; a shift of a negative number is `none`. -/
def getUpscaleX0 (inW outW step : Int) : Option Int := do
  let p ← i32 (outW * step)
  let q ← i32 (inW * 16384)
  let err ← i32 (p - q)
  let a ← if outW - inW < 0 then none else i32 ((outW - inW) * 8192)
  let b ← i32 (-a + outW / 2)
  let c ← i32 (b.tdiv outW + 128)
  let x0 ← i32 (c - err.tdiv 2)
  some (x0 % 16384)

/-- Widths of the plane before and after, src/decode.c:3535-3537 and src/recon_tmpl.c:2081. -/
def inW (f : Cfg) (pl : Nat) : Int := ((f.w + f.ssH pl) >>> f.ssH pl : Nat)
def outW (f : Cfg) (pl : Nat) : Int := ((f.srw + f.ssH pl) >>> f.ssH pl : Nat)

/-- `f->resize_step[!!pl]` and `f->resize_start[!!pl]`, src/decode.c:3534-3541. -/
def resizeStep (f : Cfg) (pl : Nat) : Option Int := scaleFac (inW f pl) (outW f pl)
def resizeStart (f : Cfg) (pl : Nat) : Option Int := do
  let s ← resizeStep f pl
  getUpscaleX0 (inW f pl) (outW f pl) s

/-- One row of the call of resize, src/recon_tmpl.c:2082 for `src_w`. -/
def resizeRow (f : Cfg) (d : Depth) (pl : Nat) (src : Int → Int) (x : Nat) : Option Int := do
  let step ← resizeStep f pl
  let start ← resizeStart f pl
  resizePx d src ((4 * f.bw + f.ssH pl) >>> f.ssH pl) step.toNat start.toNat x

/-- dav1d_filter_sbrow_resize, src/recon_tmpl.c:2056-2089. The loop over rows of resize_c is a do-while, so that the number of rows has to be positive. -/
def filterSbrowResize (f : Cfg) (d : Depth) (sby : Nat) (fr : Nat → Plane) (sr : Nat → Int → Int → Option Int) : Nat → Int → Int → Option Int := fun pl Y X =>
  if pl < 1 + 2 * (if f.layout ≠ 0 then 1 else 0) then
    let ss := f.ssV pl
    let y : Int := ((sby * f.step * 4) >>> ss : Nat)
    let hStart : Int := ((8 * if sby ≠ 0 then 1 else 0) >>> ss : Nat)
    let hEnd : Int := ((4 * (f.step - 2 * if sby + 1 < f.sbh then 1 else 0)) >>> ss : Nat)
    let imgH : Int := ((f.h : Int) - f.step * 4 * sby + ss) / 2 ^ ss
    let n := min imgH hEnd + hStart
    if n ≤ 0 then none
    else if y - hStart ≤ Y ∧ Y < y - hStart + n ∧ 0 ≤ X ∧ X < outW f pl then resizeRow f d pl (fr pl Y) X.toNat
    else sr pl Y X
  else sr pl Y X

end Dav1d.Sres
