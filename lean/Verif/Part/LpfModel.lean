import Verif.Part.TxModel
/-!
# Which edges are deblocked: src/lf_mask.c:39-384, src/lf_apply_tmpl.c:176-466, src/loopfilter_tmpl.c:163-248

While blocks are decoded, bits for the edges of transform blocks are collected in `Av1Filter`. They are corrected at the
edges of tiles when a superblock row is filtered, and then select the calls of loop_filter. Positions are in units of 4x4
samples of the plane in question. The planes of chroma share their bits.
-/
namespace Dav1d.Part.Lpf

/-! ## Transform sizes -/

/-- dav1d_txfm_dimensions[tx]: w, h, lw, lh and sub, src/tables.c:123-169. -/
def txW (tx : Nat) : Nat := (Tables.txDims.getD tx []).getD 0 0
def txH (tx : Nat) : Nat := (Tables.txDims.getD tx []).getD 1 0
def txLw (tx : Nat) : Nat := (Tables.txDims.getD tx []).getD 2 0
def txLh (tx : Nat) : Nat := (Tables.txDims.getD tx []).getD 3 0
def txMax (tx : Nat) : Nat := (Tables.txDims.getD tx []).getD 5 0
def txSub (tx : Nat) : Nat := (Tables.txDims.getD tx []).getD 6 0

/-- What decode_b found out about a block as far as deblocking is concerned: intra or inter, `b->skip`, the luma transform
(for inter blocks the largest one, TX_4X4 for lossless ones, src/decode.c:1891-1895), what reading of the split flag gave at each node
(`depth`, row and column in the block; false where nothing was read), the chroma transform, and the four filter levels
(src/decode.c:1221-1222, 1888-1889). -/
structure LBlk where
  intra : Bool
  skip : Bool
  ytx : Nat
  split : Nat → Nat → Nat → Bool
  uvtx : Nat
  lvl : Nat → Nat

/-! ## Reading the transform tree -/

/-- read_tx_tree, src/decode.c:119-166, as far as the masks go: `n` is `2 - depth`; `x` and `y` are the position of the node in
the block at (bx, by'). TX_8X8 is 1. The assignments `masks[depth] |= ...` are to the first or second component. -/
def readTxTree (bw bh bx by' : Nat) (split : Nat → Nat → Nat → Bool) : (n depth tx xOff yOff x y : Nat) → Nat × Nat → Nat × Nat
  | 0, _, _, _, _, _, _, ms => ms
  | n + 1, depth, tx, xOff, yOff, x, y, ms =>
    let isSplit := if tx > 0 then split depth y x else false
    let b := 1 <<< (yOff * 4 + xOff)
    let ms := if isSplit then (if depth = 0 then (ms.1 ||| b, ms.2) else (ms.1, ms.2 ||| b)) else ms
    if isSplit && decide (txMax tx > 1) then
      let sub := txSub tx
      let sw := txW sub
      let sh := txH sub
      let ms := readTxTree bw bh bx by' split n (depth + 1) sub (xOff * 2) (yOff * 2) x y ms
      let ms := if txLw tx ≥ txLh tx ∧ bx + x + sw < bw then
          readTxTree bw bh bx by' split n (depth + 1) sub (xOff * 2 + 1) (yOff * 2) (x + sw) y ms else ms
      if txLh tx ≥ txLw tx ∧ by' + y + sh < bh then
        let ms := readTxTree bw bh bx by' split n (depth + 1) sub (xOff * 2) (yOff * 2 + 1) x (y + sh) ms
        if txLw tx ≥ txLh tx ∧ bx + x + sw < bw then
          readTxTree bw bh bx by' split n (depth + 1) sub (xOff * 2 + 1) (yOff * 2 + 1) (x + sw) (y + sh) ms else ms
      else ms
    else ms

/-- The loops of read_vartx_tree over the largest transforms, src/decode.c:472-483: `y_off` and `x_off` count them. Where the C code reads
nothing (lossless, 4x4, skipped blocks and frames without switchable transforms, src/decode.c:456-469) `split` is false and the masks stay 0. -/
def readVartx (f : Frame) (c : Call) (b : LBlk) : Nat × Nat :=
  (forList (txH b.ytx) (bsH c.bs) (bsH c.bs) 0).foldl (fun ms y =>
    (forList (txW b.ytx) (bsW c.bs) (bsW c.bs) 0).foldl (fun ms x =>
      readTxTree f.bw f.bh c.x c.y b.split 2 0 b.ytx (x / txW b.ytx) (y / txH b.ytx) x y ms) ms) (0, 0)

/-! ## decomp_tx -/

/-- `txa[edge][0]`, the transform sizes, and `txa[edge][1]`, the steps: functions of row and column. -/
structure Txa where
  w : Nat → Nat → Nat
  h : Nat → Nat → Nat
  stepX : Nat → Nat → Nat
  stepY : Nat → Nat → Nat

/-- The assignments of decomp_tx where it does not split, src/lf_mask.c:63-76, at row `y` and column `x`. -/
def Txa.set (a : Txa) (tx y x : Nat) : Txa :=
  { w := fun r k => if y ≤ r ∧ r < y + txH tx ∧ x ≤ k ∧ k < x + txW tx then min 2 (txLw tx) else a.w r k
    h := fun r k => if y ≤ r ∧ r < y + txH tx ∧ x ≤ k ∧ k < x + txW tx then min 2 (txLh tx) else a.h r k
    stepX := fun r k => if y ≤ r ∧ r < y + txH tx ∧ k = x then txW tx else a.stepX r k
    stepY := fun r k => if r = y ∧ x ≤ k ∧ k < x + txW tx then txH tx else a.stepY r k }

/-- decomp_tx, src/lf_mask.c:39-77: `n` is `2 - depth`. -/
def decompTx (ms : Nat × Nat) : (n depth tx yOff xOff y x : Nat) → Txa → Txa
  | 0, _, tx, _, _, y, x, a => a.set tx y x
  | n + 1, depth, tx, yOff, xOff, y, x, a =>
    let isSplit := if tx = 0 then false else (if depth = 0 then ms.1 else ms.2).testBit (yOff * 4 + xOff)
    if isSplit then
      let sub := txSub tx
      let hw := txW tx >>> 1
      let hh := txH tx >>> 1
      let a := decompTx ms n (depth + 1) sub (yOff * 2) (xOff * 2) y x a
      let a := if txW tx ≥ txH tx then decompTx ms n (depth + 1) sub (yOff * 2) (xOff * 2 + 1) y (x + hw) a else a
      if txH tx ≥ txW tx then
        let a := decompTx ms n (depth + 1) sub (yOff * 2 + 1) (xOff * 2) (y + hh) x a
        if txW tx ≥ txH tx then decompTx ms n (depth + 1) sub (yOff * 2 + 1) (xOff * 2 + 1) (y + hh) (x + hw) a else a
      else a
    else a.set tx y x

/-- The first loops of mask_edges_inter, src/lf_mask.c:90-93. `a` is what was in `txa` before (it is not initialised). -/
def decompAll (ms : Nat × Nat) (tx h4 w4 : Nat) (a : Txa) : Txa :=
  (forList (txH tx) h4 h4 0).foldl (fun a y =>
    (forList (txW tx) w4 w4 0).foldl (fun a x => decompTx ms 2 0 tx (y / txH tx) (x / txW tx) y x a) a) a

/-! ## The bits -/

/-- `filter_y` or `filter_uv` of one Av1Filter, src/lf_mask.h:53-54: a word of 16 bits for direction (0 for edges between columns),
line, size and half. -/
abbrev Mask := Nat → Nat → Nat → Nat → Nat

/-- `masks[dir][line][size][half] |= bits`. -/
def Mask.or (m : Mask) (dir line size half bits : Nat) : Mask := fun d k s h =>
  if d = dir ∧ k = line ∧ s = size ∧ h = half then (m d k s h ||| bits) % 65536 else m d k s h

/-- `sidx` and `smask` for `mask = 1U << k`, src/lf_mask.c:98-99 (luma, `ss = 0`), 219-220, 226-227. -/
def sidx (ss k : Nat) : Nat := if 1 <<< k ≥ 1 <<< (16 >>> ss) then 1 else 0
def smask (ss k : Nat) : Nat := (1 <<< k) >>> (sidx ss k <<< (4 - ss))

/-- The loops for the left and the top edge of a block, for example src/lf_mask.c:96-101 and 104-108. -/
def edgeLoop (ss dir line off n : Nat) (sz : Nat → Nat) (m : Mask) : Mask :=
  (List.range n).foldl (fun m i => m.or dir line (sz i) (sidx ss (off + i)) (smask ss (off + i))) m

/-- The loops for the inner edges where all transforms have one size, for example src/lf_mask.c:174-181 and 187-194: `off` and `n` are
position and length of the edges, `len` the size of the block across them. -/
def innerLoop (ss dir line off n step len size : Nat) (m : Mask) : Mask :=
  let inner := (1 <<< off <<< n - 1 <<< off) % 4294967296
  let inner1 := inner &&& (1 <<< (16 >>> ss) - 1)
  let inner2 := inner >>> (16 >>> ss)
  (forList step len len step).foldl (fun m x =>
    let m := if inner1 ≠ 0 then m.or dir (line + x) size 0 inner1 else m
    if inner2 ≠ 0 then m.or dir (line + x) size 1 inner2 else m) m

/-- The loop over one line of transforms, src/lf_mask.c:115-122 and 131-138: at most `n` times. `w` and `step` are the rows or columns
of `txa`. -/
def walk (dir line len half bits : Nat) (w step : Nat → Nat) : (n x last : Nat) → Mask → Mask
  | 0, _, _, m => m
  | n + 1, x, last, m =>
    if x < len then
      walk dir line len half bits w step n (x + step x) (w x) (m.or dir (line + x) (min (w x) last) half bits)
    else m

/-- mask_edges_intra without the update of `a` and `l`, src/lf_mask.c:154-194. -/
def maskEdgesIntra (m : Mask) (by4 bx4 w4 h4 tx : Nat) (a l : Nat → Nat) : Mask :=
  let twl4c := min 2 (txLw tx)
  let thl4c := min 2 (txLh tx)
  let m := edgeLoop 0 0 bx4 by4 h4 (fun y => min twl4c (l y)) m
  let m := edgeLoop 0 1 by4 bx4 w4 (fun x => min thl4c (a x)) m
  let m := innerLoop 0 0 bx4 by4 h4 (txW tx) w4 twl4c m
  innerLoop 0 1 by4 bx4 w4 (txH tx) h4 thl4c m

/-- mask_edges_inter without the update of `a` and `l`, src/lf_mask.c:95-140. -/
def maskEdgesInter (m : Mask) (by4 bx4 w4 h4 : Nat) (skip : Bool) (t : Txa) (a l : Nat → Nat) : Mask :=
  let m := edgeLoop 0 0 bx4 by4 h4 (fun y => min (t.w y 0) (l y)) m
  let m := edgeLoop 0 1 by4 bx4 w4 (fun x => min (t.h 0 x) (a x)) m
  if skip then m
  else
    let m := (List.range h4).foldl (fun m y =>
      walk 0 bx4 w4 (sidx 0 (by4 + y)) (smask 0 (by4 + y)) (t.w y) (t.stepX y) w4 (t.stepX y 0) (t.w y 0) m) m
    (List.range w4).foldl (fun m x =>
      walk 1 by4 h4 (sidx 0 (bx4 + x)) (smask 0 (bx4 + x)) (fun y => t.h y x) (fun y => t.stepY y x) h4 (t.stepY 0 x) (t.h 0 x) m) m

/-- mask_edges_chroma without the update of `a` and `l`, src/lf_mask.c:208-253. -/
def maskEdgesChroma (ssH ssV : Nat) (m : Mask) (cby4 cbx4 cw4 ch4 : Nat) (skipInter : Bool) (tx : Nat) (a l : Nat → Nat) : Mask :=
  let twl4c := if txLw tx = 0 then 0 else 1
  let thl4c := if txLh tx = 0 then 0 else 1
  let m := edgeLoop ssV 0 cbx4 cby4 ch4 (fun y => min twl4c (l y)) m
  let m := edgeLoop ssH 1 cby4 cbx4 cw4 (fun x => min thl4c (a x)) m
  if skipInter then m
  else
    let m := innerLoop ssV 0 cbx4 cby4 ch4 (txW tx) cw4 twl4c m
    innerLoop ssH 1 cby4 cbx4 cw4 (txH tx) ch4 thl4c m

/-! ## One block -/

/-- The contexts of a tile in one plane: `tx_lpf_y` or `tx_lpf_uv` of `t->a` (numbered through the columns, as in `St`) and of `t->l`, and the
superblock row `t->l` was reset for. -/
structure Loc where
  a : Nat → Nat
  l : Nat → Nat
  row : Option Nat

/-- What all tiles write in one plane: the words of all Av1Filter (row and column in `f->lf.mask`), and `f->lf.level` (column, row, index). -/
structure Shared where
  m : Nat → Nat → Mask
  lvl : Nat → Nat → Nat → Nat

/-- `f->w4` and `f->h4`, src/decode.c:3554-3555. -/
structure Dims where
  w4 : Nat
  h4 : Nat

/-- Change of the Av1Filter of the block: `t->lf_mask` is advanced with each 128 columns (src/decode.c:2647, 2718-2721). -/
def Shared.mask (s : Shared) (c : Call) (g : Mask → Mask) : Nat → Nat → Mask := fun r k =>
  if r = c.y / 32 ∧ k = c.x / 32 then g (s.m r k) else s.m r k

/-- The size of the luma block inside the picture, src/lf_mask.c:273-274, 336-337. The differences are not negative. -/
def lumaW (D : Dims) (c : Call) : Nat := min (D.w4 - c.x) (bsW c.bs)
def lumaH (D : Dims) (c : Call) : Nat := min (D.h4 - c.y) (bsH c.bs)

/-- `txa` of an inter block. `junk` is what was there before. -/
def txaOf (f : Frame) (D : Dims) (junk : Txa) (b : LBlk) (c : Call) : Txa :=
  decompAll (readVartx f c b) b.ytx (lumaH D c) (lumaW D c) junk

/-- The luma part of dav1d_create_lf_mask_intra and dav1d_create_lf_mask_inter, src/lf_mask.c:272-290, 335-354: levels and bits. -/
def lumaShared (f : Frame) (D : Dims) (info : Call → LBlk) (junk : Txa) (L : Loc) (s : Shared) (c : Call) : Shared :=
  let b := info c
  let bw4 := lumaW D c
  let bh4 := lumaH D c
  let bx4 := c.x % 32
  let by4 := c.y % 32
  if bw4 ≠ 0 ∧ bh4 ≠ 0 then
    let a := fun i => L.a (c.x + i)
    let l := fun i => L.l (by4 + i)
    { lvl := fun x y k => if c.x ≤ x ∧ x < c.x + bw4 ∧ c.y ≤ y ∧ y < c.y + bh4 ∧ k < 2 then b.lvl k else s.lvl x y k
      m := s.mask c fun m =>
        if b.intra then maskEdgesIntra m by4 bx4 bw4 bh4 b.ytx a l
        else maskEdgesInter m by4 bx4 bw4 bh4 b.skip (txaOf f D junk b c) a l }
  else s

/-- Its updates of the contexts: src/lf_mask.c:142-144, 196-197. -/
def lumaLoc (f : Frame) (D : Dims) (info : Call → LBlk) (junk : Txa) (L : Loc) (c : Call) : Loc :=
  let b := info c
  let bw4 := lumaW D c
  let bh4 := lumaH D c
  let by4 := c.y % 32
  if bw4 ≠ 0 ∧ bh4 ≠ 0 then
    let t := txaOf f D junk b c
    { L with
      a := fun i => if c.x ≤ i ∧ i < c.x + bw4 then (if b.intra then min 2 (txLh b.ytx) else t.h (bh4 - 1) (i - c.x)) else L.a i
      l := fun i => if by4 ≤ i ∧ i < by4 + bh4 then (if b.intra then min 2 (txLw b.ytx) else t.w (i - by4) (bw4 - 1)) else L.l i }
  else L

/-- The size of the chroma block inside the picture, src/lf_mask.c:296-299, 360-363. -/
def chromaW (p : Plane) (D : Dims) (c : Call) : Nat := min (((D.w4 + p.ssH) >>> p.ssH) - (c.x >>> p.ssH)) ((bsW c.bs + p.ssH) >>> p.ssH)
def chromaH (p : Plane) (D : Dims) (c : Call) : Nat := min (((D.h4 + p.ssV) >>> p.ssV) - (c.y >>> p.ssV)) ((bsH c.bs + p.ssV) >>> p.ssV)

/-- The chroma part, src/lf_mask.c:292-318, 356-382: levels and bits; nothing is done without chroma (src/decode.c:1226-1227, 1900-1901: `auv` is
NULL). -/
def chromaShared (p : Plane) (D : Dims) (info : Call → LBlk) (L : Loc) (s : Shared) (c : Call) : Shared :=
  let b := info c
  let cbw4 := chromaW p D c
  let cbh4 := chromaH p D c
  let cbx4 := (c.x % 32) >>> p.ssH
  let cby4 := (c.y % 32) >>> p.ssV
  let px := c.x >>> p.ssH
  let py := c.y >>> p.ssV
  if hasPlane p c ∧ cbw4 ≠ 0 ∧ cbh4 ≠ 0 then
    let a := fun i => L.a (px + i)
    let l := fun i => L.l (cby4 + i)
    { lvl := fun x y k => if px ≤ x ∧ x < px + cbw4 ∧ py ≤ y ∧ y < py + cbh4 ∧ 2 ≤ k then b.lvl k else s.lvl x y k
      m := s.mask c fun m => maskEdgesChroma p.ssH p.ssV m cby4 cbx4 cbw4 cbh4 (!b.intra && b.skip) b.uvtx a l }
  else s

/-- Its updates of the contexts: src/lf_mask.c:255-256. -/
def chromaLoc (p : Plane) (D : Dims) (info : Call → LBlk) (L : Loc) (c : Call) : Loc :=
  let b := info c
  let cbw4 := chromaW p D c
  let cbh4 := chromaH p D c
  let cby4 := (c.y % 32) >>> p.ssV
  let px := c.x >>> p.ssH
  if hasPlane p c ∧ cbw4 ≠ 0 ∧ cbh4 ≠ 0 then
    { L with
      a := fun i => if px ≤ i ∧ i < px + cbw4 then (if txLh b.uvtx = 0 then 0 else 1) else L.a i
      l := fun i => if cby4 ≤ i ∧ i < cby4 + cbh4 then (if txLw b.uvtx = 0 then 0 else 1) else L.l i }
  else L

/-! ## All blocks -/

/-- Luma or one of the planes of chroma. -/
inductive Comp where
  | y
  | uv (p : Plane)

def Comp.plane : Comp → Plane
  | .y => luma
  | .uv p => p

/-- What does not change while the blocks are decoded. -/
structure Cfg where
  f : Frame
  sb128 : Bool
  D : Dims
  info : Call → LBlk
  junk : Txa
  comp : Comp

/-- reset_context, src/decode.c:2403-2404: `tx_lpf_y` to 2, `tx_lpf_uv` to 1. -/
def Cfg.reset (C : Cfg) : Nat := match C.comp with
  | .y => 2
  | .uv _ => 1

/-- dav1d_decode_tile_sbrow resets `t->l` (src/decode.c:2621) before the first block of a superblock row. Here this is done when the
first block of the row comes. -/
def Cfg.enter (C : Cfg) (L : Loc) (c : Call) : Loc :=
  if L.row = some (c.y / sbStep C.sb128) then L else { L with l := fun _ => C.reset, row := some (c.y / sbStep C.sb128) }

/-- One block: the contexts. -/
def Cfg.loc (C : Cfg) (L : Loc) (c : Call) : Loc := match C.comp with
  | .y => lumaLoc C.f C.D C.info C.junk (C.enter L c) c
  | .uv p => chromaLoc p C.D C.info (C.enter L c) c

/-- One block: levels and bits. -/
def Cfg.shared (C : Cfg) (L : Loc) (s : Shared) (c : Call) : Shared := match C.comp with
  | .y => lumaShared C.f C.D C.info C.junk (C.enter L c) s c
  | .uv p => chromaShared p C.D C.info (C.enter L c) s c

/-- The contexts of a tile at its beginning (src/decode.c:3189, 3209) and after some blocks. -/
def Cfg.start (C : Cfg) : Loc := ⟨fun _ => C.reset, fun _ => C.reset, none⟩
def Cfg.after (C : Cfg) (cs : List Call) : Loc := cs.foldl C.loc C.start

/-- The state while all tiles of a frame are decoded, in any order and also at the same time: each tile, given by row and column, has its
own contexts (`t->a` belongs to a row of tiles, and tiles of one row have different columns). -/
structure FSt where
  loc : Nat × Nat → Loc
  sh : Shared

def Cfg.step (C : Cfg) (s : FSt) (e : (Nat × Nat) × Call) : FSt :=
  { loc := fun t => if t = e.1 then C.loc (s.loc t) e.2 else s.loc t
    sh := C.shared (s.loc e.1) s.sh e.2 }

/-- All blocks of the frame, beginning with no bits (src/decode.c:3041) and any levels. -/
def Cfg.run (C : Cfg) (lvl : Nat → Nat → Nat → Nat) (order : List ((Nat × Nat) × Call)) : FSt :=
  order.foldl C.step ⟨fun _ => C.start, ⟨fun _ _ _ _ _ _ => 0, lvl⟩⟩

/-- The blocks of one tile. -/
def callsOf (order : List ((Nat × Nat) × Call)) (t : Nat × Nat) : List Call :=
  order.filterMap fun e => if e.1 = t then some e.2 else none

/-! ## Edges of tiles -/

/-- The tiles: how many rows and columns, and where they begin (in superblocks), `row_start_sb` and `col_start_sb`. -/
structure Grid where
  rows : Nat
  cols : Nat
  rs : Nat → Nat
  cs : Nat → Nat

/-- `f->lf.tx_lpf_right_edge[..][align_h * tile_col + ..]`, src/decode.c:2734-2742: for a row of units, `t->l` as it was after the
superblock row; `t->l.tx_lpf_y[t->by & 16]` and the following. -/
def Cfg.rightEdge (C : Cfg) (order : List ((Nat × Nat) × Call)) (t : Nat × Nat) (Y : Nat) : Nat :=
  let ss := C.comp.plane.ssV
  (C.after ((callsOf order t).filter fun c => decide (c.y / sbStep C.sb128 ≤ (Y <<< ss) / sbStep C.sb128))).l (Y % (32 >>> ss))

/-- How many sizes there are. -/
def Comp.sizes : Comp → Nat
  | .y => 3
  | .uv _ => 2

/-- `idx` in the loops that correct the bits, src/lf_apply_tmpl.c:344-345, 359, 380-381, 394. -/
def Comp.idx (w : Nat → Nat) (b : Nat) : Comp → Nat
  | .y => 2 * (if w 2 &&& b ≠ 0 then 1 else 0) + (if w 1 &&& b ≠ 0 then 1 else 0)
  | .uv _ => if w 1 &&& b ≠ 0 then 1 else 0

/-- One step of the loops that correct the bits, src/lf_apply_tmpl.c:342-349, 357-362, 378-385, 392-397, for the bit `k` of the words of
direction `dir` and line `line`: `lim` is the size in the other tile. -/
def Mask.fix (C : Comp) (ss dir line k lim : Nat) (m : Mask) : Mask :=
  let w := fun s => m dir line s (sidx ss k)
  let b := smask ss k
  let idx := C.idx w b
  let m' : Mask := fun d n s h =>
    if d = dir ∧ n = line ∧ s < C.sizes ∧ h = sidx ss k then m d n s h &&& (b ^^^ 65535) else m d n s h
  m'.or dir line (min idx lim) (sidx ss k) b

/-- What dav1d_loopfilter_sbrow_cols and dav1d_loopfilter_sbrow_rows begin with, src/lf_apply_tmpl.c:319-329, 435-442; `starty4` and `endy4` also
for chroma (425, 464). -/
def Cfg.sbsz (C : Cfg) : Nat := 32 >>> (if C.sb128 then 0 else 1)
def Cfg.starty4 (C : Cfg) (sby : Nat) : Nat := (if C.sb128 then 0 else sby % 2) <<< 4
def Cfg.endy4 (C : Cfg) (sby : Nat) : Nat := C.starty4 sby + min (C.D.h4 - sby * C.sbsz) C.sbsz
def Cfg.starty (C : Cfg) (sby : Nat) : Nat := C.starty4 sby >>> C.comp.plane.ssV
def Cfg.endy (C : Cfg) (sby : Nat) : Nat := (C.endy4 sby + C.comp.plane.ssV) >>> C.comp.plane.ssV
/-- The row of `f->lf.mask`, src/recon_tmpl.c:2003, 2016. -/
def Cfg.maskRow (C : Cfg) (sby : Nat) : Nat := sby >>> (if C.sb128 then 0 else 1)
/-- The number of Av1Filter in a row, src/decode.c:3558. -/
def Cfg.sb128w (C : Cfg) : Nat := (C.f.bw + 31) >>> 5

/-- Change of one Av1Filter. -/
def setMask (m : Nat → Nat → Mask) (r k : Nat) (g : Mask → Mask) : Nat → Nat → Mask := fun r' k' =>
  if r' = r ∧ k' = k then g (m r' k') else m r' k'

/-- The loop over the tile columns, src/lf_apply_tmpl.c:331-367, at most `n` times; `lim` is `lpf_y` or `lpf_uv` of tile column `tc - 1` as a
function of the row in the superblock row. -/
def Cfg.fixCols (C : Cfg) (G : Grid) (sby : Nat) (lim : Nat → Nat → Nat) : (n tc : Nat) → (Nat → Nat → Mask) → Nat → Nat → Mask
  | 0, _, m => m
  | n + 1, tc, m =>
    let x := G.cs tc
    if x <<< (if C.sb128 then 5 else 4) ≥ C.f.bw then m
    else
      let bx4 := if C.sb128 then 0 else (if x % 2 = 1 then 16 else 0)
      let m := setMask m (C.maskRow sby) (x >>> (if C.sb128 then 0 else 1)) fun w =>
        (List.range (C.endy sby - C.starty sby)).foldl (fun w i =>
          w.fix C.comp C.comp.plane.ssV 0 (bx4 >>> C.comp.plane.ssH) (C.starty sby + i) (lim (tc - 1) i)) w
      C.fixCols G sby lim n (tc + 1) m

/-- The correction at the begin of a row of tiles, src/lf_apply_tmpl.c:369-401: `lim` is `a->tx_lpf_y` or `a->tx_lpf_uv` of the row of tiles above as a
function of the column. -/
def Cfg.fixRow (C : Cfg) (sby : Nat) (lim : Nat → Nat) (m : Nat → Nat → Mask) : Nat → Nat → Mask :=
  let p := C.comp.plane
  (List.range C.sb128w).foldl (fun m x =>
    let w := min 32 (C.D.w4 - (x <<< 5))
    let cw := (w + p.ssH) >>> p.ssH
    setMask m (C.maskRow sby) x fun q =>
      (List.range cw).foldl (fun q i => q.fix C.comp p.ssH 1 (C.starty sby) i (lim (x * (32 >>> p.ssH) + i))) q) m

/-- `f->lf.start_of_tile_row[sby]`, src/decode.c:2765-2770: the row of tiles that begins with the superblock row, else 0. -/
def Grid.startOf (G : Grid) (sby : Nat) : Nat := ((List.range G.rows).find? fun r => G.rs r = sby).getD 0

/-- The column of tiles at a column of units. -/
def Grid.colAt (G : Grid) (step x : Nat) : Nat := ((List.range G.cols).find? fun k => x < G.cs (k + 1) * step).getD 0

/-- Both corrections for a superblock row, which lies in the row `tr` of tiles. The contexts of the row of tiles above are those at the end of
these tiles. -/
def Cfg.fixups (C : Cfg) (G : Grid) (order : List ((Nat × Nat) × Call)) (tr sby : Nat) (m : Nat → Nat → Mask) : Nat → Nat → Mask :=
  let p := C.comp.plane
  let m := C.fixCols G sby (fun tc i => C.rightEdge order (tr, tc) (((sby * C.sbsz) >>> p.ssV) + i)) G.cols 1 m
  if G.startOf sby ≠ 0 then
    C.fixRow sby (fun X => (C.after (callsOf order (G.startOf sby - 1, G.colAt (sbStep C.sb128) (X <<< p.ssH)))).a X) m
  else m

/-! ## The calls of loop_filter -/

/-- A call of loop_filter: column and row of the unit after the edge, level `L`, and `wd`. -/
structure Op where
  x : Nat
  y : Nat
  lvl : Nat
  wd : Nat
  deriving DecidableEq, Repr

/-- `vm`, src/loopfilter_tmpl.c:169, 191, 211, 233. -/
def Comp.vm (w : Nat → Nat) : Comp → Nat
  | .y => w 0 ||| w 1 ||| w 2
  | .uv _ => w 0 ||| w 1

/-- `wd` for bit `i`, src/loopfilter_tmpl.c:178-180, 198-200, 220-222, 240-242. -/
def Comp.wd (w : Nat → Nat) (i : Nat) : Comp → Nat
  | .y => 4 <<< (if (w 2).testBit i then 2 else if (w 1).testBit i then 1 else 0)
  | .uv _ => 4 + 2 * (if (w 1).testBit i then 1 else 0)

/-- The loops of loop_filter_h_sb128y_c and so on, src/loopfilter_tmpl.c:163-248: from bit `i` on, at most `n` bits. `w` are the words, `cur` and `prev`
the levels on both sides. -/
def sbLoop (C : Comp) (w cur prev : Nat → Nat) (at_ : Nat → Nat × Nat) : (n i : Nat) → List Op
  | 0, _ => []
  | n + 1, i =>
    if C.vm w >>> i = 0 then []
    else
      (if (C.vm w).testBit i then
        let L := if cur i ≠ 0 then cur i else prev i
        if L = 0 then []
        else [⟨(at_ i).1, (at_ i).2, L, C.wd w i⟩]
      else []) ++ sbLoop C w cur prev at_ n (i + 1)

/-- filter_plane_cols_y and filter_plane_cols_uv, src/lf_apply_tmpl.c:176-210, 242-277, in dav1d_loopfilter_sbrow_cols, 403-426, for the index `k` of the
levels (0 for luma, 2 and 3 for chroma). -/
def Cfg.colsOps (C : Cfg) (S : Shared) (sby k : Nat) : List Op :=
  let p := C.comp.plane
  let base := (sby * C.sbsz) >>> p.ssV
  (List.range C.sb128w).flatMap fun xx =>
    (List.range ((min 32 (C.D.w4 - xx * 32) + p.ssH) >>> p.ssH)).flatMap fun x =>
      if xx = 0 ∧ x = 0 then []
      else
        let X := xx * (32 >>> p.ssH) + x
        let mask := S.m (C.maskRow sby) xx
        let w := fun s =>
          if C.starty sby = 0 then
            mask 0 x s 0 ||| (if C.endy sby > 16 >>> p.ssV then mask 0 x s 1 <<< (16 >>> p.ssV) else 0)
          else mask 0 x s 1
        sbLoop C.comp w (fun i => S.lvl X (base + i) k) (fun i => S.lvl (X - 1) (base + i) k) (fun i => (X, base + i)) 32 0

/-- filter_plane_rows_y and filter_plane_rows_uv, src/lf_apply_tmpl.c:212-240, 279-311, in dav1d_loopfilter_sbrow_rows, 444-465, for the index `k` of the
levels (1 for luma, 2 and 3 for chroma). -/
def Cfg.rowsOps (C : Cfg) (S : Shared) (sby k : Nat) : List Op :=
  let p := C.comp.plane
  let base := (sby * C.sbsz) >>> p.ssV
  (List.range C.sb128w).flatMap fun xx =>
    (List.range (C.endy sby - C.starty sby)).flatMap fun j =>
      let y := C.starty sby + j
      if sby = 0 ∧ y = 0 then []
      else
        let X0 := xx * (32 >>> p.ssH)
        let mask := S.m (C.maskRow sby) xx
        let w := fun s => mask 1 y s 0 ||| mask 1 y s 1 <<< (16 >>> p.ssH)
        sbLoop C.comp w (fun i => S.lvl (X0 + i) (base + j) k) (fun i => S.lvl (X0 + i) (base + j - 1) k) (fun i => (X0 + i, base + j)) 32 0

/-! ## The whole frame -/

/-- The row of tiles of a superblock row. -/
def Grid.rowAt (G : Grid) (sby : Nat) : Nat := ((List.range G.rows).find? fun r => sby < G.rs (r + 1)).getD 0

/-- The words after the corrections for the first superblock rows. dav1d_filter_sbrow_deblock_cols is called for one superblock row after the other
(src/recon_tmpl.c:1990-2006, 2104-2105, src/decode.c:3231-3235, src/thread_task.c:807-819). -/
def Cfg.maskAt (C : Cfg) (G : Grid) (order : List ((Nat × Nat) × Call)) (m : Nat → Nat → Mask) : (n : Nat) → Nat → Nat → Mask
  | 0 => m
  | n + 1 => C.fixups G order (G.rowAt n) n (C.maskAt G order m n)

/-- `f->sbh`, src/decode.c:3562. -/
def Cfg.sbh (C : Cfg) : Nat := (C.f.bh + sbStep C.sb128 - 1) / sbStep C.sb128

/-- All calls of loop_filter for one index of the levels in one pass (0 for columns, 1 for rows). -/
def Cfg.frameOps (C : Cfg) (G : Grid) (order : List ((Nat × Nat) × Call)) (lvl : Nat → Nat → Nat → Nat) (pass k : Nat) : List Op :=
  let sh := (C.run lvl order).sh
  (List.range C.sbh).flatMap fun sby =>
    let S : Shared := ⟨C.maskAt G order sh.m (sby + 1), sh.lvl⟩
    if pass = 0 then C.colsOps S sby k else C.rowsOps S sby k

end Dav1d.Part.Lpf
