import Verif.Syn.LrsModel
import Verif.Dsp.Cdef
/-!
# CDEF in place: strips, blocks, saved lines and columns

src/cdef_apply_tmpl.c:41-309, src/recon_tmpl.c:2028-2054 and the lines saved for it with more than one thread, src/lf_apply_tmpl.c:36-172. The filter and the search for the direction are those
of `Dsp/Cdef.lean`.

Pointers into planes are rows and columns. The pointers `ptrs`, `iptrs` and `bptrs` that move with the loops are replaced by the position they have, the flags `edges` that are changed in the loops
by their value: HAVE_LEFT is set after the first block, HAVE_RIGHT is cleared from the last block on, HAVE_TOP is set when `by_start` is not 0 or after the first strip, HAVE_BOTTOM is cleared from
the last strip on.
-/
namespace Dav1d.Cdf
open Dav1d.Syn.Lru (Cfg)
open Dav1d.Lrs (Plane planeH lg yStripe saveLoop)
open Dav1d.Cdef

/-- The part of Av1Filter that is used, src/lf_mask.h: `cdef_idx[4]` and `noskip_mask[16][2]`. -/
structure Mask where
  cdefIdx : Nat → Int
  noskip : Nat → Nat × Nat

/-- `y_strength`, `uv_strength` and `damping` of the frame header. -/
structure Hdr where
  yStr : Nat → Nat
  uvStr : Nat → Nat
  damping : Nat

/-- The planes, `lr_bak[bit][pl]`, f->lf.cdef_line[tf][pl], and the variables of the loops. `lr_bak` is a new variable in each strip; that nothing of it is used from the strip before is part of what is
proved, as its contents at the start are arbitrary. -/
structure St where
  fr : Nat → Plane
  bak : Bool → Nat → Plane
  line : Bool → Nat → Plane
  tf : Bool
  bit : Bool
  lastSkip : Bool
  prevY : Bool
  prevUv : Bool

/-- What dav1d_cdef_brow is given. `lpf`: f->lf.lr_lpf_line, or f->lf.cdef_lpf_line with super-resolution. -/
structure Ctx where
  f : Cfg
  d : Depth
  hdr : Hdr
  tt : Bool
  lpf : Nat → Plane
  lflvl : Nat → Mask
  sby : Nat
  byStart : Nat
  byEnd : Nat
  sbrowStart : Bool

/-- Height and width of a block of 8x8 luma samples in a plane, and the position of the block at `by`, `bx` (in units of 4 luma samples), src/cdef_apply_tmpl.c:293-307. -/
def bkH (f : Cfg) (pl : Nat) : Nat := 8 / 2 ^ f.ssV pl
def bkW (f : Cfg) (pl : Nat) : Nat := 8 / 2 ^ f.ssH pl
def y0 (f : Cfg) (pl by_ : Nat) : Nat := by_ * 4 / 2 ^ f.ssV pl
def x0 (f : Cfg) (pl bx : Nat) : Nat := bx * 4 / 2 ^ f.ssH pl

/-- The first line of f->lf.cdef_line used for a row of superblocks, src/cdef_apply_tmpl.c:134-138, 218, 230, 260 and 273. -/
def lineOff (tt : Bool) (sby pl : Nat) : Int := if tt then (sby * if pl = 0 then 4 else 8 : Nat) else 0

/-- backup2lines, src/cdef_apply_tmpl.c:41-63: the last two rows of the strip. -/
def backup2lines (f : Cfg) (fr : Nat → Plane) (by_ : Nat) (off : Nat → Int) (dst : Nat → Plane) : Nat → Plane := fun pl j x =>
  if (pl = 0 ∨ f.layout ≠ 0) ∧ off pl ≤ j ∧ j < off pl + 2 then fr pl (y0 f pl by_ + (bkH f pl - 2 : Nat) + (j - off pl)) x else dst pl j x

/-- backup2x8, src/cdef_apply_tmpl.c:65-90: the two columns left of `x_off`. -/
def backup2x8 (f : Cfg) (fr : Nat → Plane) (by_ bx xOff : Nat) (fy fuv : Bool) (dst : Nat → Plane) : Nat → Plane := fun pl y x =>
  if (pl = 0 ∧ fy = true ∨ pl ≠ 0 ∧ f.layout ≠ 0 ∧ fuv = true) ∧ 0 ≤ y ∧ y < bkH f pl ∧ 0 ≤ x ∧ x < 2 then
    fr pl (y0 f pl by_ + y) ((x0 f pl bx + xOff / 2 ^ f.ssH pl : Nat) - 2 + x)
  else dst pl y x

/-- `uv_dirs`, src/cdef_apply_tmpl.c:115-117. -/
def uvDir (layout dir : Nat) : Nat := if layout = 2 then [7, 0, 2, 4, 5, 6, 6, 6].getD dir 0 else [0, 1, 2, 3, 4, 5, 6, 7].getD dir 0

/-- The two lines above the strip, src/cdef_apply_tmpl.c:197-221 and 247-275; `r` is 0 or 1, `X` the column in the plane. -/
def topLn (c : Ctx) (by_ : Nat) (s : St) (pl : Nat) (r X : Int) : Int :=
  if c.tt ∧ c.sbrowStart ∧ by_ = c.byStart then
    c.lpf pl ((if c.f.resized then ((c.sby : Int) - 1) * 4 else (c.sby : Int) * (if c.f.sb128 then 8 else 4) - 4) + r) X
  else s.line s.tf pl (lineOff c.tt c.sby pl + r) X

/-- The two lines below the strip, src/cdef_apply_tmpl.c:197-221 and 247-275. -/
def botLn (c : Ctx) (by_ : Nat) (s : St) (pl : Nat) (r X : Int) : Int :=
  if c.tt ∧ ¬(c.sbrowStart ∧ by_ = c.byStart) ∧ ¬c.sbrowStart ∧ by_ + 2 ≥ c.byEnd then
    c.lpf pl ((if c.f.resized then (c.sby : Int) * 4 + 2 else (c.sby : Int) * (if c.f.sb128 then 8 else 4) + (if c.f.sb128 then 4 else 0) + 2) + r) X
  else s.fr pl ((y0 c.f pl by_ + bkH c.f pl : Nat) + r) X

/-- The flags of a block. -/
def edges (f : Cfg) (by_ bx : Nat) : Edges := ⟨bx ≠ 0, bx + 2 < f.bw, by_ ≠ 0, by_ + 2 < f.bh⟩

/-- A call of dsp->cdef.fb: the plane afterwards. A result that is not defined is stored as -1, which no sample of a frame is. -/
def fb (c : Ctx) (by_ bx : Nat) (s : St) (pl : Nat) (q : Params) : Plane := fun Y X =>
  if y0 c.f pl by_ ≤ Y ∧ Y < y0 c.f pl by_ + bkH c.f pl ∧ x0 c.f pl bx ≤ X ∧ X < x0 c.f pl bx + bkW c.f pl then
    (filterBlock c.d q (edges c.f by_ bx) (bkW c.f pl) (bkH c.f pl)
      ⟨fun y x => s.fr pl (y0 c.f pl by_ + y) (x0 c.f pl bx + x), s.bak s.bit pl,
        fun r x => topLn c by_ s pl r (x0 c.f pl bx + x), fun r x => botLn c by_ s pl r (x0 c.f pl bx + x)⟩
      (Y - y0 c.f pl by_).toNat (X - x0 c.f pl bx).toNat).getD (-1)
  else s.fr pl Y X

/-- src/cdef_apply_tmpl.c:187-191: direction and variance, if one of them is needed. -/
def dirVar (c : Ctx) (by_ bx : Nat) (s : St) (yPri uvPri : Nat) : Nat × Nat :=
  if yPri ≠ 0 ∨ uvPri ≠ 0 then (findDir c.d fun y x => s.fr 0 (y0 c.f 0 by_ + y : Nat) (x0 c.f 0 bx + x : Nat)).getD (0, 0) else (0, 0)

/-- The columns that are saved before a block is filtered, src/cdef_apply_tmpl.c:172-182. -/
def saveCols (c : Ctx) (by_ bx : Nat) (fy fuv : Bool) (s : St) : Bool → Nat → Plane :=
  let dy := if s.lastSkip then fy else (s.prevY ^^ fy) && fy
  let du := if s.lastSkip then fuv else (s.prevUv ^^ fuv) && fuv
  let e := edges c.f by_ bx
  let bak := if (dy || du) && e.left then (fun b => if b = s.bit then backup2x8 c.f s.fr by_ bx 0 dy du (s.bak b) else s.bak b) else s.bak
  if e.right then fun b => if b = !s.bit then backup2x8 c.f s.fr by_ bx 8 fy fuv (bak b) else bak b else bak

/-- The calls for a block, src/cdef_apply_tmpl.c:184-286: a plane afterwards. The planes do not depend on each other, except for the direction, which is found first. -/
def callFb (c : Ctx) (by_ bx yLvl uvLvl : Nat) (s : St) (pl : Nat) : Plane :=
  let yl := levels c.d yLvl
  let ul := levels c.d uvLvl
  let damping := c.hdr.damping + (c.d.bpc - 8)
  let dv := dirVar c by_ bx s yl.1 ul.1
  if pl = 0 then
    if yl.1 ≠ 0 then
      let adj := adjustStrength yl.1 dv.2
      if adj ≠ 0 ∨ yl.2 ≠ 0 then fb c by_ bx s 0 ⟨adj, yl.2, dv.1, damping⟩ else s.fr 0
    else if yl.2 ≠ 0 then fb c by_ bx s 0 ⟨0, yl.2, 0, damping⟩ else s.fr 0
  else if uvLvl = 0 ∨ 2 < pl then s.fr pl
  else fb c by_ bx s pl ⟨ul.1, ul.2, if ul.1 ≠ 0 then uvDir c.f.layout dv.1 else 0, damping - 1⟩

/-- One block, src/cdef_apply_tmpl.c:162-292. -/
def block (c : Ctx) (by_ yLvl uvLvl noskip bx : Nat) (s : St) : St :=
  if noskip &&& (3 <<< (bx &&& 30)) = 0 then { s with lastSkip := true }
  else
    let s1 := { s with bak := saveCols c by_ bx (yLvl ≠ 0) (uvLvl ≠ 0) s }
    { s1 with fr := callFb c by_ bx yLvl uvLvl s1, bit := !s.bit, lastSkip := false, prevY := yLvl ≠ 0, prevUv := uvLvl ≠ 0 }

/-- The loop over the blocks of 64 luma columns, src/cdef_apply_tmpl.c:159-296, for `n` more blocks. -/
def blocks (c : Ctx) (by_ yLvl uvLvl noskip : Nat) : (n bx : Nat) → St → St
  | 0, _, s => s
  | n + 1, bx, s => blocks c by_ yLvl uvLvl noskip n (bx + 2) (block c by_ yLvl uvLvl noskip bx s)

/-- 64 luma columns, src/cdef_apply_tmpl.c:130-300; the loop ends at `imin((sbx + 1) * 16, f->bw)`. -/
def sb64 (c : Ctx) (by_ sbx : Nat) (s : St) : St :=
  let m := c.lflvl (sbx >>> 1)
  let idx := m.cdefIdx (((by_ &&& 16) >>> 3) + (sbx &&& 1))
  if idx = -1 ∨ c.hdr.yStr idx.toNat = 0 ∧ c.hdr.uvStr idx.toNat = 0 then { s with lastSkip := true }
  else
    let ns := m.noskip ((by_ &&& 30) >>> 1)
    blocks c by_ (c.hdr.yStr idx.toNat) (c.hdr.uvStr idx.toNat) (ns.2 <<< 16 ||| ns.1) ((min ((sbx + 1) * 16) c.f.bw - sbx * 16 + 1) / 2) (sbx * 16) s

/-- The loop over a strip, for `n` more columns of 64. -/
def sbs (c : Ctx) (by_ : Nat) : (n sbx : Nat) → St → St
  | 0, _, s => s
  | n + 1, sbx, s => sbs c by_ n (sbx + 1) (sb64 c by_ sbx s)

/-- One strip of 8 luma rows, src/cdef_apply_tmpl.c:124-308. -/
def strip (c : Ctx) (by_ : Nat) (s : St) : St :=
  let line := if (c.tt = false ∨ c.sbrowStart ∨ by_ + 2 < c.byEnd) ∧ by_ + 2 < c.f.bh then
      (fun t => if t = !s.tf then backup2lines c.f s.fr by_ (lineOff c.tt c.sby) (s.line t) else s.line t) else s.line
  let s := sbs c by_ (c.f.sb128w <<< 1) 0 { s with line := line, lastSkip := true, prevY := false, prevUv := false }
  { s with tf := !s.tf }

/-- The loop over the strips, src/cdef_apply_tmpl.c:124, for `n` more. -/
def strips (c : Ctx) : (n by_ : Nat) → St → St
  | 0, _, s => s
  | n + 1, by_, s => strips c n (by_ + 2) (strip c by_ s)

/-- dav1d_cdef_brow, src/cdef_apply_tmpl.c:98-309. -/
def cdefBrow (c : Ctx) (s : St) : St := strips c ((c.byEnd - c.byStart + 1) / 2) c.byStart { s with bit := false }

/-- dav1d_filter_sbrow_cdef, src/recon_tmpl.c:2028-2054; `mask`: f->lf.mask. Only called if CDEF is enabled. -/
def filterSbrowCdef (f : Cfg) (d : Depth) (hdr : Hdr) (tt : Bool) (mask : Nat → Mask) (lpf : Nat → Plane) (sby : Nat) (s : St) : St :=
  let sh (n : Nat) : Nat := if f.sb128 then n else n / 2
  let start := sby * f.step
  let s := if sby ≠ 0 then cdefBrow ⟨f, d, hdr, tt, lpf, fun k => mask (sh (sby - 1) * f.sb128w + k), sby, start - 2, start, true⟩ s else s
  let nBlks := f.step - 2 * if sby + 1 < f.sbh then 1 else 0
  cdefBrow ⟨f, d, hdr, tt, lpf, fun k => mask (sh sby * f.sb128w + k), sby, start, min (start + nBlks) f.bh, false⟩ s

/-- backup_lpf without lr_backup in dav1d_copy_lpf, src/lf_apply_tmpl.c:36-172, for a plane: the lines f->lf.cdef_lpf_line `b`, with more than one thread and super-resolution. -/
def copyCdef (f : Cfg) (p : Nat) (D : Plane) (sby : Nat) (b : Plane) : Plane :=
  let h := planeH f p
  let y := yStripe f p sby
  saveLoop D h (f.ssV p) (min ((sby + 1) * 2 ^ lg f p) (h - 1)) (h + 1) y (((64 <<< if f.sb128 then 1 else 0) - 8 * if y = 0 then 1 else 0) / 2 ^ f.ssV p) (sby * 4 : Nat) b

end Dav1d.Cdf
