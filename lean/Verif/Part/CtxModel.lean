import Verif.Part.Model
/-!
# The contexts of a block: BlockContext, its updates, and the functions of src/env.h

`t->a` and `t->l` hold what later blocks need of the blocks above and on the left.
-/
namespace Dav1d.Part.Ctx

/-! ## BlockContext -/

/-- What the contexts of the reference frames depend on: `intra`, `comp_type` and `ref[0..1]`, src/env.h:46-48. -/
structure Refs where
  intra : Nat
  comp : Nat
  ref0 : Int
  ref1 : Int
  deriving DecidableEq, Repr

/-- One entry of the arrays of BlockContext, src/env.h:39-57. The arrays for coefficients, loop filter, transform trees,
partitions and chroma modes are left out (partitions are in `St`). -/
structure Edge where
  mode : Nat
  segPred : Nat
  skip : Nat
  skipMode : Nat
  refs : Refs
  filter0 : Nat
  filter1 : Nat
  txIntra : Int
  palSz : Nat
  deriving DecidableEq, Repr

/-- reset_context, src/decode.c:2392-2416, for pass 0 and 1: some entries stay what they were. NEARESTMV and DC_PRED are
both 0. -/
def Edge.reset (key : Bool) (e : Edge) : Edge :=
  { mode := 0, segPred := 0, skip := 0, skipMode := 0,
    refs := { intra := if key then 1 else 0
              comp := if key then e.refs.comp else 0
              ref0 := if key then e.refs.ref0 else -1
              ref1 := if key then e.refs.ref1 else -1 },
    filter0 := 3, filter1 := 3, txIntra := -1, palSz := 0 }

/-- reset_context for pass 2, src/decode.c:2393-2398. -/
def Edge.reset2 (key : Bool) (e : Edge) : Edge :=
  { e with mode := if key then 0 else e.mode, refs := { e.refs with intra := if key then 1 else 0 } }

/-- What decode_b found out about a block: intra prediction with the mode of luma (13 for FILTER_PRED), the size of the
luma palette and the width and height of the transform (logarithms, units of 4 samples); intra block copy; or inter
prediction with skip_mode, comp_type, references, filters, mode and inter-intra. -/
inductive Kind where
  | intra (yMode palSz lw lh : Nat)
  | copy
  | inter (skipMode : Bool) (comp : Nat) (ref0 ref1 : Int) (filter0 filter1 mode : Nat) (interintra : Bool)
  deriving DecidableEq, Repr

structure Blk where
  skip : Bool
  segPred : Bool
  kind : Kind
  deriving DecidableEq, Repr

/-- The logarithms `b_dim[2 + i]` of the size of a block, src/tables.c:104-127; `i` is 0 above and 1 on the left. -/
def bsLog (bs i : Nat) : Nat := (Tables.blockDims.getD bs []).getD (2 + i) 0

/-- The update of one entry by a block of an inter frame or of another one, in `t->a` (`i = 0`) or in `t->l` (`i = 1`),
for pass 0 and 1: src/decode.c:1229-1253 for intra prediction, 1365-1379 for intra block copy, 1909-1926 for inter
prediction. -/
def Blk.set (inter : Bool) (b : Blk) (bs i : Nat) (e : Edge) : Edge :=
  match b.kind with
  | .intra yMode palSz lw lh =>
    { mode := if yMode = 13 then 0 else yMode
      segPred := b.segPred.toNat
      skip := b.skip.toNat
      skipMode := 0
      refs := { intra := 1
                comp := if inter then 0 else e.refs.comp
                ref0 := if inter then -1 else e.refs.ref0
                ref1 := if inter then -1 else e.refs.ref1 }
      filter0 := if inter then 3 else e.filter0
      filter1 := if inter then 3 else e.filter1
      txIntra := if i = 0 then lw else lh
      palSz := palSz }
  | .copy =>
    { e with
      mode := 0, segPred := b.segPred.toNat, skip := b.skip.toNat, skipMode := 0
      refs := { e.refs with intra := 0 }
      txIntra := bsLog bs i
      palSz := 0 }
  | .inter sm comp ref0 ref1 f0 f1 mode _ =>
    { mode := mode, segPred := b.segPred.toNat, skip := b.skip.toNat, skipMode := sm.toNat
      refs := { intra := 0, comp := comp, ref0 := ref0, ref1 := ref1 }
      filter0 := f0, filter1 := f1
      txIntra := bsLog bs i
      palSz := 0 }

/-- The update in pass 2: src/decode.c:710-719 for intra prediction, 767-776 otherwise. -/
def Blk.set2 (b : Blk) (e : Edge) : Edge :=
  match b.kind with
  | .intra yMode _ _ _ => { e with mode := if yMode = 13 then 0 else yMode, refs := { e.refs with intra := 1 } }
  | .copy => { e with refs := { e.refs with intra := 0 } }
  | .inter _ _ _ _ f0 f1 _ _ => { e with filter0 := f0, filter1 := f1, refs := { e.refs with intra := 0 } }

/-- The state: `t->a` numbered through the columns of the frame (it is advanced with each 128 columns,
src/decode.c:2630-2633 and 2716-2719, so that entry bx & 31 is the entry bx), `t->l` with 32 entries, and the superblock row in which
`t->l` was reset last. -/
structure Ctxs (α : Type) where
  a : Nat → α
  l : Nat → α
  row : Option Nat

variable {α : Type}

/-- case_set, src/ctx.h:69-78: the `n` entries from `off` on are set. -/
def setN (off n : Nat) (g : α → α) (arr : Nat → α) : Nat → α := fun i => if off ≤ i ∧ i < off + n then g (arr i) else arr i

/-- dav1d_decode_tile_sbrow resets `t->l` (src/decode.c:2621) before the first block of a superblock row. Here this is done
when the first block of the row comes. -/
def Ctxs.enter (step : Nat) (reset : α → α) (s : Ctxs α) (c : Call) : Ctxs α :=
  if s.row = some (c.y / step) then s else { s with l := fun i => reset (s.l i), row := some (c.y / step) }

/-- The updates of decode_b: `bx4 = t->bx & 31` and `by4 = t->by & 31` are the first entries, src/decode.c:693. -/
def Ctxs.update (g : Call → Nat → α → α) (s : Ctxs α) (c : Call) : Ctxs α :=
  { s with a := setN c.x (bsW c.bs) (g c 0) s.a, l := setN (c.y % 32) (bsH c.bs) (g c 1) s.l }

/-- The contexts after some blocks of a tile: at the beginning `t->a` is reset (src/decode.c:3189, 3209). -/
def Ctxs.after (step : Nat) (reset : α → α) (g : Call → Nat → α → α) (old : Ctxs α) (cs : List Call) : Ctxs α :=
  cs.foldl (fun s c => (s.enter step reset c).update g c) { a := fun i => reset (old.a i), l := old.l, row := none }

/-- The contexts decode_b finds for block `c` after the blocks `cs` of the tile: above at `t->bx & 31`, on the left at
`t->by & 31`. -/
def Ctxs.found (step : Nat) (reset : α → α) (g : Call → Nat → α → α) (old : Ctxs α) (cs : List Call) (c : Call) : α × α :=
  let s := (Ctxs.after step reset g old cs).enter step reset c
  (s.a c.x, s.l (c.y % 32))

/-! ## The functions of src/env.h -/

def b2n (b : Bool) : Nat := b.toNat

/-- get_intra_ctx, src/env.h:59-73. -/
def getIntraCtx (a l : Refs) (haveTop haveLeft : Bool) : Nat :=
  if haveLeft then
    if haveTop then (let ctx := l.intra + a.intra; ctx + if ctx = 2 then 1 else 0)
    else l.intra * 2
  else if haveTop then a.intra * 2 else 0

/-- get_tx_ctx, src/env.h:75-81; `lw` and `lh` are those of the largest transform of the block. -/
def getTxCtx (a l : Edge) (lw lh : Nat) : Nat :=
  (if l.txIntra ≥ (lh : Int) then 1 else 0) + (if a.txIntra ≥ (lw : Int) then 1 else 0)

/-- get_filter_ctx, src/env.h:135-154. DAV1D_N_SWITCHABLE_FILTERS is 3. -/
def getFilterCtx (a l : Edge) (comp : Nat) (dir : Nat) (ref : Int) : Nat :=
  let af := if a.refs.ref0 = ref ∨ a.refs.ref1 = ref then (if dir = 0 then a.filter0 else a.filter1) else 3
  let lf := if l.refs.ref0 = ref ∨ l.refs.ref1 = ref then (if dir = 0 then l.filter0 else l.filter1) else 3
  if af = lf then comp * 4 + af
  else if af = 3 then comp * 4 + lf
  else if lf = 3 then comp * 4 + af
  else comp * 4 + 3

/-- `(unsigned) ref >= 4U` of an int8_t. -/
def uge4 (r : Int) : Bool := decide (r < 0 ∨ r ≥ 4)

/-- get_comp_ctx, src/env.h:156-184. -/
def getCompCtx (a l : Refs) (haveTop haveLeft : Bool) : Nat :=
  if haveTop then
    if haveLeft then
      if a.comp ≠ 0 then
        if l.comp ≠ 0 then 4 else 2 + b2n (uge4 l.ref0)
      else if l.comp ≠ 0 then 2 + b2n (uge4 a.ref0)
      else b2n (decide (l.ref0 ≥ 4) ^^ decide (a.ref0 ≥ 4))
    else if a.comp ≠ 0 then 3 else b2n (decide (a.ref0 ≥ 4))
  else if haveLeft then
    if l.comp ≠ 0 then 3 else b2n (decide (l.ref0 ≥ 4))
  else 1

/-- has_uni_comp, src/env.h:191-192. -/
def hasUniComp (e : Refs) : Bool := decide (e.ref0 < 4) == decide (e.ref1 < 4)

/-- get_comp_dir_ctx, src/env.h:186-235. -/
def getCompDirCtx (a l : Refs) (haveTop haveLeft : Bool) : Nat :=
  if haveTop && haveLeft then
    if a.intra ≠ 0 ∧ l.intra ≠ 0 then 2
    else if a.intra ≠ 0 ∨ l.intra ≠ 0 then
      let edge := if a.intra ≠ 0 then l else a
      if edge.comp = 0 then 2 else 1 + 2 * b2n (hasUniComp edge)
    else
      let aComp := decide (a.comp ≠ 0)
      let lComp := decide (l.comp ≠ 0)
      if !aComp && !lComp then 1 + 2 * b2n (decide (a.ref0 ≥ 4) == decide (l.ref0 ≥ 4))
      else if !aComp || !lComp then
        let edge := if aComp then a else l
        if !hasUniComp edge then 1 else 3 + b2n (decide (a.ref0 ≥ 4) == decide (l.ref0 ≥ 4))
      else
        let aUni := hasUniComp a
        let lUni := hasUniComp l
        if !aUni && !lUni then 0
        else if !aUni || !lUni then 2
        else 3 + b2n (decide (a.ref0 = 4) == decide (l.ref0 = 4))
  else if haveTop || haveLeft then
    let edge := if haveLeft then l else a
    if edge.intra ≠ 0 then 2
    else if edge.comp = 0 then 2
    else 4 * b2n (hasUniComp edge)
  else 2

/-- get_poc_diff, src/env.h:237-244: both order hints have `n` bits, so that the difference of `int` does not overflow
and its low bits are those of the mathematical difference: `diff & (mask - 1)` is the remainder by `mask` and `diff & mask`
the next bit. -/
def pocDiff (n : Nat) (poc0 poc1 : Int) : Int :=
  if n = 0 then 0
  else
    let mask : Int := 2 ^ (n - 1)
    (poc0 - poc1) % mask - mask * ((poc0 - poc1) / mask % 2)

/-- get_jnt_comp_ctx, src/env.h:246-262. COMP_INTER_AVG is 2. -/
def getJntCompCtx (n : Nat) (poc ref0poc ref1poc : Int) (a l : Refs) : Nat :=
  let d0 := (pocDiff n ref0poc poc).natAbs
  let d1 := (pocDiff n poc ref1poc).natAbs
  let offset := if d0 = d1 then 1 else 0
  let aCtx := if a.comp ≥ 2 ∨ a.ref0 = 6 then 1 else 0
  let lCtx := if l.comp ≥ 2 ∨ l.ref0 = 6 then 1 else 0
  3 * offset + aCtx + lCtx

/-- get_mask_comp_ctx, src/env.h:264-274. COMP_INTER_SEG is 3. -/
def getMaskCompCtx (a l : Refs) : Nat :=
  let aCtx := if a.comp ≥ 3 then 1 else if a.ref0 = 6 then 3 else 0
  let lCtx := if l.comp ≥ 3 then 1 else if l.ref0 = 6 then 3 else 0
  min (aCtx + lCtx) 5

/-- Entry `i` of an array `cnt` after the two increments for one neighbour, where `slot` is the entry a reference is
counted in, if at all. -/
def cntOf (slot : Int → Option Nat) (e : Refs) (have_ : Bool) (i : Nat) : Nat :=
  if have_ ∧ e.intra = 0 then
    (if slot e.ref0 = some i then 1 else 0) + (if e.comp ≠ 0 ∧ slot e.ref1 = some i then 1 else 0)
  else 0

/-- The comparison at the end of these functions. -/
def cmpCtx (c0 c1 : Nat) : Nat := if c0 = c1 then 1 else if c0 < c1 then 0 else 2

section
variable (a l : Refs) (haveTop haveLeft : Bool)

/-- av1_get_ref_ctx, src/env.h:284-302. -/
def getRefCtx : Nat :=
  let cnt := fun i => let s := fun r : Int => some (if r ≥ 4 then 1 else 0); cntOf s a haveTop i + cntOf s l haveLeft i
  cmpCtx (cnt 0) (cnt 1)

/-- av1_get_fwd_ref_ctx, src/env.h:304-325. A negative reference would be counted before the array: it does not occur
without `intra`. -/
def getFwdRefCtx : Nat :=
  let cnt := fun i => let s := fun r : Int => if r < 4 then some r.toNat else none; cntOf s a haveTop i + cntOf s l haveLeft i
  cmpCtx (cnt 0 + cnt 1) (cnt 2 + cnt 3)

/-- av1_get_fwd_ref_1_ctx, src/env.h:327-345. -/
def getFwdRef1Ctx : Nat :=
  let cnt := fun i => let s := fun r : Int => if r < 2 then some r.toNat else none; cntOf s a haveTop i + cntOf s l haveLeft i
  cmpCtx (cnt 0) (cnt 1)

/-- av1_get_fwd_ref_2_ctx, src/env.h:347-365: `(ref ^ 2U) < 2` holds for 2 and 3. -/
def getFwdRef2Ctx : Nat :=
  let cnt := fun i => let s := fun r : Int => if r = 2 ∨ r = 3 then some (r - 2).toNat else none; cntOf s a haveTop i + cntOf s l haveLeft i
  cmpCtx (cnt 0) (cnt 1)

/-- av1_get_bwd_ref_ctx, src/env.h:367-387. -/
def getBwdRefCtx : Nat :=
  let cnt := fun i => let s := fun r : Int => if r ≥ 4 then some (r - 4).toNat else none; cntOf s a haveTop i + cntOf s l haveLeft i
  let c1 := cnt 1 + cnt 0
  if cnt 2 = c1 then 1 else if c1 < cnt 2 then 0 else 2

/-- av1_get_bwd_ref_1_ctx, src/env.h:389-407. -/
def getBwdRef1Ctx : Nat :=
  let cnt := fun i => let s := fun r : Int => if r ≥ 4 then some (r - 4).toNat else none; cntOf s a haveTop i + cntOf s l haveLeft i
  cmpCtx (cnt 0) (cnt 1)

/-- av1_get_uni_p1_ctx, src/env.h:409-429: `ref - 1U < 3` holds for 1, 2 and 3. -/
def getUniP1Ctx : Nat :=
  let cnt := fun i => let s := fun r : Int => if 1 ≤ r ∧ r ≤ 3 then some (r - 1).toNat else none; cntOf s a haveTop i + cntOf s l haveLeft i
  cmpCtx (cnt 0) (cnt 1 + cnt 2)

end

/-- The contexts of skip (src/decode.c:889), skip_mode (src/decode.c:876), seg_id_predicted (src/decode.c:832-833, 902-903)
and of the luma palette flag (src/decode.c:1124). -/
def getSkipCtx (a l : Edge) : Nat := a.skip + l.skip
def getSkipModeCtx (a l : Edge) : Nat := a.skipMode + l.skipMode
def getSegPredCtx (a l : Edge) : Nat := a.segPred + l.segPred
def getPalCtx (a l : Edge) : Nat := (if a.palSz > 0 then 1 else 0) + (if l.palSz > 0 then 1 else 0)

/-- The contexts of the luma mode in frames without inter prediction, src/decode.c:1055-1056, with
dav1d_intra_mode_context, src/tables.c:360-374. -/
def getKfModeCtx (a l : Edge) : Nat × Nat :=
  let t := [0, 1, 2, 3, 4, 4, 4, 4, 3, 0, 1, 2, 0]
  (t.getD a.mode 0, t.getD l.mode 0)

/-- sm_flag, src/ipred_prepare.h:95-100, as a truth value. -/
def smFlag (e : Edge) : Bool := e.refs.intra ≠ 0 && (e.mode = 9 || e.mode = 10 || e.mode = 11)

/-! ## Reading the reference frames -/

/-- The CDFs used for reference frames, src/cdf.h: comp, comp_dir, comp_fwd_ref[i], comp_bwd_ref[i], comp_uni_ref[i],
ref[i]. -/
inductive RefCdf where
  | comp | compDir | compFwdRef (i : Nat) | compBwdRef (i : Nat) | compUniRef (i : Nat) | ref (i : Nat)
  deriving DecidableEq, Repr

/-- Reading one bool with a CDF and a context. -/
abbrev BoolSrc (σ κ : Type) := σ → κ → Nat → Bool × σ

/-- What of the segment matters: `seg->ref`, `seg->globalmv`, `seg->skip`; `none` without segmentation. -/
structure Seg where
  ref : Int
  globalmv : Bool
  skip : Bool

/-- Reading the references of an inter block, src/decode.c:1386-1403, 1405-1407, 1427-1501 and 1614-1658: references
`b->ref[0..1]` (0 to 6, -1 for none). `minDim` is `imin(bw4, bh4)`. -/
def readRefs {σ : Type} (R : BoolSrc σ RefCdf) (seg : Option Seg) (skipMode : Bool) (skipRefs : Int × Int) (switchable : Bool) (minDim : Nat)
    (a l : Refs) (ht hl : Bool) (s : σ) : (Int × Int) × σ :=
  if skipMode then (skipRefs, s)
  else
    let (isComp, s) :=
      if compAllowed seg switchable minDim then
        R s .comp (getCompCtx a l ht hl)
      else (false, s)
    if isComp then
      let (dir, s) := R s .compDir (getCompDirCtx a l ht hl)
      if dir then
        let (b, s) := R s (.compFwdRef 0) (getFwdRefCtx a l ht hl)
        let (ref0, s) : Int × σ :=
          if b then
            let (b2, s) := R s (.compFwdRef 2) (getFwdRef2Ctx a l ht hl)
            (2 + (b2n b2 : Int), s)
          else
            let (b2, s) := R s (.compFwdRef 1) (getFwdRef1Ctx a l ht hl)
            ((b2n b2 : Int), s)
        let (b, s) := R s (.compBwdRef 0) (getBwdRefCtx a l ht hl)
        if b then ((ref0, 6), s)
        else
          let (b2, s) := R s (.compBwdRef 1) (getBwdRef1Ctx a l ht hl)
          ((ref0, 4 + (b2n b2 : Int)), s)
      else
        let (b, s) := R s (.compUniRef 0) (getRefCtx a l ht hl)
        if b then ((4, 6), s)
        else
          let (b1, s) := R s (.compUniRef 1) (getUniP1Ctx a l ht hl)
          let ref1 : Int := 1 + (b2n b1 : Int)
          if ref1 = 2 then
            let (b2, s) := R s (.compUniRef 2) (getFwdRef2Ctx a l ht hl)
            ((0, ref1 + (b2n b2 : Int)), s)
          else ((0, ref1), s)
    else
      match seg with
      | some g =>
        if g.ref > 0 then ((g.ref - 1, -1), s)
        else if g.globalmv || g.skip then ((0, -1), s)
        else single R a l ht hl s
      | none => single R a l ht hl s
where
  /-- src/decode.c:1386-1389. -/
  compAllowed (seg : Option Seg) (switchable : Bool) (minDim : Nat) : Bool :=
    (match seg with | none => true | some g => g.ref = -1 && !g.globalmv && !g.skip) && switchable && decide (minDim > 1)
  /-- src/decode.c:1622-1657. -/
  single {σ : Type} (R : BoolSrc σ RefCdf) (a l : Refs) (ht hl : Bool) (s : σ) : (Int × Int) × σ :=
    let (b, s) := R s (.ref 0) (getRefCtx a l ht hl)
    if b then
      let (b, s) := R s (.ref 1) (getBwdRefCtx a l ht hl)
      if b then ((6, -1), s)
      else
        let (b, s) := R s (.ref 5) (getBwdRef1Ctx a l ht hl)
        ((4 + (b2n b : Int), -1), s)
    else
      let (b, s) := R s (.ref 2) (getFwdRefCtx a l ht hl)
      if b then
        let (b, s) := R s (.ref 4) (getFwdRef2Ctx a l ht hl)
        ((2 + (b2n b : Int), -1), s)
      else
        let (b, s) := R s (.ref 3) (getFwdRef1Ctx a l ht hl)
        (((b2n b : Int), -1), s)

/-! ## Segment ids -/

/-- Writing of the segmentation map, src/decode.c:1938-1951. -/
def setSeg (m : Nat → Nat → Nat) (c : Call) (id : Nat) : Nat → Nat → Nat := fun x y =>
  if c.y ≤ y ∧ y < c.y + bsH c.bs ∧ c.x ≤ x ∧ x < c.x + bsW c.bs then id else m x y

/-- The map after some blocks. -/
def segAfter (old : Nat → Nat → Nat) (id : Call → Nat) (cs : List Call) : Nat → Nat → Nat :=
  cs.foldl (fun m c => setSeg m c (id c)) old

/-- get_cur_frame_segid, src/env.h:440-461: predicted id and context. -/
def getCurFrameSegid (m : Nat → Nat → Nat) (x y : Nat) (haveTop haveLeft : Bool) : Nat × Nat :=
  if haveLeft && haveTop then
    let l := m (x - 1) y
    let a := m x (y - 1)
    let al := m (x - 1) (y - 1)
    (if a = al then a else l, if l = a ∧ al = l then 2 else if l = a ∨ al = l ∨ a = al then 1 else 0)
  else (if haveLeft then m (x - 1) y else if haveTop then m x (y - 1) else 0, 0)

end Dav1d.Part.Ctx
