import Verif.Syn.Base
import Verif.Part.Model
import Verif.Dsp.Emu
/-!
# Motion vector differences and intra block copy: src/decode.c:76-117 and 1268-1346, src/recon_tmpl.c:941-991 and 1586-1598
-/
namespace Dav1d.Syn.Copy
open CdfTab (Field MvF)

/-- union mv, src/levels.h:247-252: two `int16_t`. -/
structure Mv where
  y : Int
  x : Int
  deriving DecidableEq, Repr

/-- Conversion to `int16_t`. -/
def wrap16 (v : Int) : Int := (v + 32768) % 65536 - 32768

/-- A symbol of `ts->cdf.mv.comp[second]`. -/
def mvSym (second : Bool) (f : MvF) (idx : List Nat) (n : Nat) : Prog Nat := .read (.sym (.mv second f) idx n) .ret

/-- The loop of src/decode.c:93-94: `k` more bits from bit `n` on. -/
def readUp (second : Bool) : (k n up : Nat) → Prog Nat
  | 0, _, up => pure up
  | k + 1, n, up => mvSym second .classN [n] 1 >>= fun b => readUp second k (n + 1) (up ||| (b <<< n))

/-- Fraction bits: `(fp << 1) | hp` with 3 and 1 where they are not read, src/decode.c:82-100. -/
def readFrac (second : Bool) (fpF : MvF) (fpIdx : List Nat) (hpF : MvF) (prec : Int) : Prog Nat :=
  if prec ≥ 0 then
    mvSym second fpF fpIdx 3 >>= fun fp =>
      if prec > 0 then mvSym second hpF [] 1 >>= fun hp => pure ((fp <<< 1) ||| hp) else pure ((fp <<< 1) ||| 1)
  else pure ((3 <<< 1) ||| 1)

/-- read_mv_component_diff, src/decode.c:76-105. -/
def readComponent (second : Bool) (prec : Int) : Prog Int :=
  mvSym second .sign [] 1 >>= fun sign =>
  mvSym second .classes [] 10 >>= fun cl =>
  ((if cl = 0 then
      mvSym second .class0 [] 1 >>= fun up =>
      readFrac second .class0Fp [up] .class0Hp prec >>= fun fr => pure (up, fr)
    else
      readUp second cl 0 (1 <<< cl) >>= fun up =>
      readFrac second .classNFp [] .classNHp prec >>= fun fr => pure (up, fr)) : Prog (Nat × Nat)) >>= fun r =>
  let diff : Int := (((r.1 <<< 3) ||| r.2) + 1 : Nat)
  pure (if sign ≠ 0 then -diff else diff)

/-- read_mv_residual, src/decode.c:107-117; `+=` on an `int16_t` wraps. MV_JOINT_H is 1 and MV_JOINT_V is 2,
src/levels.h:198-204. -/
def readResidual (ref : Mv) (prec : Int) : Prog Mv :=
  Prog.read (.sym .joint [] 3) Prog.ret >>= fun joint =>
  (if joint &&& 2 ≠ 0 then readComponent false prec >>= fun d => pure { ref with y := wrap16 (ref.y + d) } else pure ref) >>= fun ref =>
  (if joint &&& 1 ≠ 0 then readComponent true prec >>= fun d => pure { ref with x := wrap16 (ref.x + d) } else pure ref)

/-- What the code uses of frame, tile and block: layout without chroma, subsampling, `seq_hdr->sb128`, `ts->tiling`, position and size
(units of 4 luma samples). -/
structure Geo where
  mono : Bool
  ssH : Bool
  ssV : Bool
  sb128 : Bool
  colStart : Nat
  colEnd : Nat
  rowStart : Nat
  bx : Nat
  b_y : Nat
  bw4 : Nat
  bh4 : Nat
  deriving Repr

/-- `has_chroma`, src/decode.c:702-704 and src/recon_tmpl.c:1572-1574. -/
def Geo.hasChroma (g : Geo) : Bool :=
  !g.mono && (decide (g.bw4 > g.ssH.toNat) || g.bx % 2 == 1) && (decide (g.bh4 > g.ssV.toNat) || g.b_y % 2 == 1)

/-- The choice of the predicted vector, src/decode.c:1275-1287; `st0` and `st1` are `mvstack[0].mv.mv[0]` and `mvstack[1].mv.mv[0]` as dav1d_refmvs_find left
them. `n` is both components together. -/
def predMv (g : Geo) (st0 st1 : Mv) : Mv :=
  if st0.y ≠ 0 ∨ st0.x ≠ 0 then st0
  else if st1.y ≠ 0 ∨ st1.x ≠ 0 then st1
  else if (g.b_y : Int) - (16 <<< g.sb128.toNat : Nat) < g.rowStart then ⟨0, -(512 <<< g.sb128.toNat : Nat) - 2048⟩
  else ⟨-(512 <<< g.sb128.toNat : Nat), 0⟩

/-- `src_left`, `src_top`, `src_right`, `src_bottom`. -/
structure Box where
  left : Int
  top : Int
  right : Int
  bottom : Int
  deriving DecidableEq, Repr

/-- `border_left` and `border_top`, src/decode.c:1293-1300. -/
def Geo.borderLeft (g : Geo) : Int := g.colStart * 4 + (if g.hasChroma && decide (g.bw4 < 2) && g.ssH then 4 else 0)
def Geo.borderTop (g : Geo) : Int := g.rowStart * 4 + (if g.hasChroma && decide (g.bh4 < 2) && g.ssV then 4 else 0)
/-- `border_right`, src/decode.c:1305; `bw4` is a power of two, so masking its lower bits is rounding down to a multiple. -/
def Geo.borderRight (g : Geo) : Int := ((g.colEnd + (g.bw4 - 1)) / g.bw4 * g.bw4 * 4 : Nat)

/-- src/decode.c:1301-1304: the source that the vector names. -/
def Geo.src (g : Geo) (mv : Mv) : Box :=
  let left := g.bx * 4 + mv.x / 8
  let top := g.b_y * 4 + mv.y / 8
  ⟨left, top, left + g.bw4 * 4, top + g.bh4 * 4⟩

/-- src/decode.c:1307-1314. -/
def Geo.clipSides (g : Geo) (b : Box) : Box :=
  if b.left < g.borderLeft then { b with right := b.right + (g.borderLeft - b.left), left := b.left + (g.borderLeft - b.left) }
  else if b.right > g.borderRight then { b with left := b.left - (b.right - g.borderRight), right := b.right - (b.right - g.borderRight) }
  else b

/-- src/decode.c:1315-1319. -/
def Geo.clipTop (g : Geo) (b : Box) : Box :=
  if b.top < g.borderTop then { b with bottom := b.bottom + (g.borderTop - b.top), top := b.top + (g.borderTop - b.top) } else b

/-- `sbx`, `sby` and `sb_size`, src/decode.c:1321-1323. -/
def Geo.sbx (g : Geo) : Int := ((g.bx >>> (4 + g.sb128.toNat)) <<< (6 + g.sb128.toNat) : Nat)
def Geo.sby (g : Geo) : Int := ((g.b_y >>> (4 + g.sb128.toNat)) <<< (6 + g.sb128.toNat) : Nat)
def Geo.sbSize (g : Geo) : Int := (1 <<< (6 + g.sb128.toNat) : Nat)

/-- src/decode.c:1324-1335: out of the current superblock. -/
def Geo.leaveSb (g : Geo) (b : Box) : Box :=
  if b.bottom > g.sby ∧ b.right > g.sbx then
    if b.top - g.borderTop ≥ b.bottom - g.sby then { b with top := b.top - (b.bottom - g.sby), bottom := b.bottom - (b.bottom - g.sby) }
    else if b.left - g.borderLeft ≥ b.right - g.sbx then { b with left := b.left - (b.right - g.sbx), right := b.right - (b.right - g.sbx) }
    else b
  else b

/-- src/decode.c:1336-1340. -/
def Geo.leaveBelow (g : Geo) (b : Box) : Box :=
  if b.bottom > g.sby + g.sbSize then
    { b with top := b.top - (b.bottom - (g.sby + g.sbSize)), bottom := b.bottom - (b.bottom - (g.sby + g.sbSize)) }
  else b

/-- The whole correction of the vector, src/decode.c:1292-1346; `none` is the error of lines 1341-1343. -/
def Geo.clip (g : Geo) (mv : Mv) : Option Mv :=
  let b := g.leaveBelow (g.leaveSb (g.clipTop (g.clipSides (g.src mv))))
  if b.bottom > g.sby ∧ b.right > g.sbx then none
  else some { x := wrap16 ((b.left - g.bx * 4) * 8), y := wrap16 ((b.top - g.b_y * 4) * 8) }

/-- The vector of a block with intra block copy, src/decode.c:1275-1346. -/
def readVector (g : Geo) (st0 st1 : Mv) : Prog Mv :=
  readResidual (predMv g st0 st1) (-1) >>= fun mv =>
    match g.clip mv with
    | none => .err
    | some mv => pure mv

/-- mc(), src/recon_tmpl.c:941-993, with FILTER_2D_BILINEAR for the picture `pic` itself: the sample in column `x` and row `y` of the block. The frame has
`fw` times `fh` units of 4 luma samples; `ssH` and `ssV` are 0 for luma. `buf` is what was in `emu_edge_buf` before. -/
def mcSelf (d : Depth) (pic buf : Plane) (fw fh : Nat) (ssH ssV : Nat) (bw4 bh4 bx b_y : Nat) (mv : Mv) (x y : Nat) : Option Int :=
  let hMul := 4 >>> ssH
  let vMul := 4 >>> ssV
  let mx := (mv.x % (16 >>> (1 - ssH) : Nat)).toNat
  let my := (mv.y % (16 >>> (1 - ssV) : Nat)).toNat
  let dx : Int := (bx * hMul : Nat) + mv.x / 2 ^ (3 + ssH)
  let dy : Int := (b_y * vMul : Nat) + mv.y / 2 ^ (3 + ssV)
  let w := (fw * 4) >>> ssH
  let h := (fh * 4) >>> ssV
  (mcSource pic w h dx dy (bw4 * hMul : Nat) (bh4 * vMul : Nat) mx my buf).bind fun src =>
    putBilin d src (mx <<< (1 - ssH)) (my <<< (1 - ssV)) x y

/-- The part of dav1d_recon_b_inter for intra block copy, src/recon_tmpl.c:1586-1598, in luma (`chroma` is false) or in one chroma plane:
`none` in chroma for a block without chroma. -/
def Geo.predict (g : Geo) (d : Depth) (fw fh : Nat) (chroma : Bool) (pic buf : Plane) (mv : Mv) (x y : Nat) : Option Int :=
  if chroma then
    if g.hasChroma then
      mcSelf d pic buf fw fh g.ssH.toNat g.ssV.toNat (g.bw4 <<< (if g.bw4 = g.ssH.toNat then 1 else 0)) (g.bh4 <<< (if g.bh4 = g.ssV.toNat then 1 else 0))
        (g.bx - g.bx % 2 * g.ssH.toNat) (g.b_y - g.b_y % 2 * g.ssV.toNat) mv x y
    else none
  else mcSelf d pic buf fw fh 0 0 g.bw4 g.bh4 g.bx g.b_y mv x y

/-- Width and height of the predicted block in the plane, src/recon_tmpl.c:1588-1596 with 986-987. -/
def Geo.width (g : Geo) (chroma : Bool) : Nat :=
  if chroma then (g.bw4 <<< (if g.bw4 = g.ssH.toNat then 1 else 0)) * (4 >>> g.ssH.toNat) else g.bw4 * 4
def Geo.height (g : Geo) (chroma : Bool) : Nat :=
  if chroma then (g.bh4 <<< (if g.bh4 = g.ssV.toNat then 1 else 0)) * (4 >>> g.ssV.toNat) else g.bh4 * 4

end Dav1d.Syn.Copy
