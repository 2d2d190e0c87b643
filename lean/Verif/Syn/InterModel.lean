import Verif.Syn.CopyProps
import Verif.Syn.IntraModel
/-!
# Inter blocks: src/decode.c:1383-1872, and the vectors of src/env.h:431-521
-/
namespace Dav1d.Syn.Inter
open CdfTab (ModeF)
open Dav1d.Part (Call Frame bsW bsH)
open Dav1d.Part.Ctx
open Dav1d.Syn.Copy (Mv wrap16 readResidual precOf)
open Dav1d.Syn.Intra (ymodeSizeCtx)

/-! ## Vectors -/

/-- fix_int_mv_precision, src/env.h:463-466: `v >> 15` of an `int16_t` is -1 for negative numbers and 0 otherwise, and masking the three lower bits is rounding down to a multiple of 8. -/
def fixInt (v : Int) : Int := wrap16 ((v - v / 2 ^ 15 + 3) / 8 * 8)

/-- fix_mv_precision, src/env.h:468-478. -/
def fixMv (forceInteger hp : Bool) (m : Mv) : Mv :=
  if forceInteger then ⟨fixInt m.y, fixInt m.x⟩
  else if !hp then ⟨wrap16 ((m.y - m.y / 2 ^ 15) / 2 * 2), wrap16 ((m.x - m.x / 2 ^ 15) / 2 * 2)⟩
  else m

/-- Dav1dWarpedMotionParams: the type (0 identity, 1 translation, 2 rotation and zoom, 3 affine) and the matrix. -/
structure Gmv where
  type : Nat
  matrix : Nat → Int

/-- apply_sign, include/common/intops.h:59-61. -/
def applySign (v s : Int) : Int := if s < 0 then -v else v

/-- get_gmv_2d, src/env.h:479-519. The sums are `int` in the code; here they do not overflow (the
factors of a header are at most 2^13 and positions less than 2^17). -/
def gmv2d (g : Gmv) (bx4 by4 bw4 bh4 : Nat) (forceInteger hp : Bool) : Mv :=
  if g.type = 1 then
    let res : Mv := ⟨wrap16 (g.matrix 0 / 2 ^ 13), wrap16 (g.matrix 1 / 2 ^ 13)⟩
    if forceInteger then ⟨fixInt res.y, fixInt res.x⟩ else res
  else if g.type = 0 then ⟨0, 0⟩
  else
    let x : Int := bx4 * 4 + bw4 * 2 - 1
    let y : Int := by4 * 4 + bh4 * 2 - 1
    let xc := (g.matrix 2 - 2 ^ 16) * x + g.matrix 3 * y + g.matrix 0
    let yc := (g.matrix 5 - 2 ^ 16) * y + g.matrix 4 * x + g.matrix 1
    let low : Nat := if hp then 0 else 1
    let shift := 16 - (3 - low)
    let round : Int := (1 <<< shift : Nat) / 2
    let conv (v : Int) : Int := wrap16 (applySign ((v.natAbs + round) / 2 ^ shift * 2 ^ low) v)
    let res : Mv := ⟨conv yc, conv xc⟩
    if forceInteger then ⟨fixInt res.y, fixInt res.x⟩ else res

/-! ## The block -/

/-- What dav1d_refmvs_find leaves: `mvstack[i].mv.mv[k]`, `mvstack[i].weight`, `n_mvs` and `ctx`. It is not modelled. -/
structure Found where
  n : Nat
  mv : Nat → Nat → Mv
  weight : Nat → Nat
  ctx : Nat

/-- What is used of the headers: `switchable_comp_refs`, `skip_mode_refs`, `hp`, `force_integer_mv`, `gmv[ref]`, `masked_compound`, `jnt_comp`, `inter_intra`,
`switchable_motion_mode`, `warp_motion`, `f->svc[ref][0].scale`, `subpel_filter_mode`, `dual_filter`, `order_hint_n_bits` and the `frame_offset` of the frame and of the references. -/
structure Cfg where
  switchableComp : Bool
  skipRefs : Int × Int
  hp : Bool
  forceInteger : Bool
  gmv : Int → Gmv
  maskedCompound : Bool
  jntComp : Bool
  interIntra : Bool
  switchableMotion : Bool
  warpMotion : Bool
  scaled : Int → Bool
  filterMode : Nat
  dualFilter : Bool
  orderBits : Nat
  poc : Int
  refPoc : Int → Int

/-- The members of Av1Block for an inter block (src/levels.h:262-285), `filter` of decode_b, and `has_subpel_filter`. -/
structure Out where
  ref0 : Int
  ref1 : Int
  comp : Nat
  mode : Nat
  drl : Nat
  mv0 : Mv
  mv1 : Mv
  wedge : Nat
  sign : Bool
  iiType : Nat
  iiMode : Nat
  motion : Nat
  filter0 : Nat
  filter1 : Nat

section
variable (a l : Edge) (ht hl : Bool)

/-- `is_comp`, src/decode.c:1386-1399, for a block without skip_mode. -/
def readIsComp (H : Cfg) (seg : Option Seg) (c : Call) : Prog Bool :=
  if readRefs.compAllowed seg H.switchableComp (min (bsW c.bs) (bsH c.bs)) then flag .comp [getCompCtx a.refs l.refs ht hl] else pure false

/-- The references of a compound block, src/decode.c:1425-1482. -/
def readCompRefs : Prog (Int × Int) :=
  flag .compDir [getCompDirCtx a.refs l.refs ht hl] >>= fun dir =>
  if dir then
    flag .compFwdRef [0, getFwdRefCtx a.refs l.refs ht hl] >>= fun b =>
    (if b then flag .compFwdRef [2, getFwdRef2Ctx a.refs l.refs ht hl] >>= fun b2 => pure (2 + (b2n b2 : Int))
     else flag .compFwdRef [1, getFwdRef1Ctx a.refs l.refs ht hl] >>= fun b2 => pure (b2n b2 : Int)) >>= fun ref0 =>
    flag .compBwdRef [0, getBwdRefCtx a.refs l.refs ht hl] >>= fun b =>
    if b then pure (ref0, 6)
    else flag .compBwdRef [1, getBwdRef1Ctx a.refs l.refs ht hl] >>= fun b2 => pure (ref0, 4 + (b2n b2 : Int))
  else
    flag .compUniRef [0, getRefCtx a.refs l.refs ht hl] >>= fun b =>
    if b then pure (4, 6)
    else
      flag .compUniRef [1, getUniP1Ctx a.refs l.refs ht hl] >>= fun b1 =>
      if 1 + (b2n b1 : Int) = 2 then flag .compUniRef [2, getFwdRef2Ctx a.refs l.refs ht hl] >>= fun b2 => pure (0, 1 + (b2n b1 : Int) + (b2n b2 : Int))
      else pure (0, 1 + (b2n b1 : Int))

/-- The reference of a block with one, src/decode.c:1617-1659. -/
def readSingleRef (seg : Option Seg) : Prog Int :=
  let read : Prog Int :=
    flag .ref [0, getRefCtx a.refs l.refs ht hl] >>= fun b =>
    if b then
      flag .ref [1, getBwdRefCtx a.refs l.refs ht hl] >>= fun b =>
      if b then pure 6 else flag .ref [5, getBwdRef1Ctx a.refs l.refs ht hl] >>= fun b => pure (4 + (b2n b : Int))
    else
      flag .ref [2, getFwdRefCtx a.refs l.refs ht hl] >>= fun b =>
      if b then flag .ref [4, getFwdRef2Ctx a.refs l.refs ht hl] >>= fun b => pure (2 + (b2n b : Int))
      else flag .ref [3, getFwdRef1Ctx a.refs l.refs ht hl] >>= fun b => pure (b2n b : Int)
  match seg with
  | some g => if g.ref > 0 then pure (g.ref - 1) else if g.globalmv || g.skip then pure 0 else read
  | none => read

end

/-- get_drl_context, src/env.h:431-438. -/
def drlCtx (st : Found) (i : Nat) : Nat :=
  if st.weight i ≥ 640 then (if st.weight (i + 1) < 640 then 1 else 0) else (if st.weight (i + 1) < 640 then 2 else 0)

/-- `drl_idx`, src/decode.c:1502-1517 and 1717-1727 with `first` 0, 1518-1533 and 1688-1699 with `first` 1. -/
def readDrl (st : Found) (first : Nat) : Prog Nat :=
  if st.n > first + 1 then
    flag .drlBit [drlCtx st first] >>= fun b =>
    if first + b2n b = first + 1 ∧ st.n > first + 2 then flag .drlBit [drlCtx st (first + 1)] >>= fun b2 => pure (first + b2n b + b2n b2)
    else pure (first + b2n b)
  else pure first

/-- dav1d_comp_inter_pred_modes, src/tables.c:215-226: NEARESTMV is 0, NEARMV 1, GLOBALMV 2, NEWMV 3. -/
def compModes (m : Nat) : Nat × Nat := [(0, 0), (1, 1), (0, 3), (3, 0), (1, 3), (3, 1), (2, 2), (3, 3)].getD m (0, 0)

/-- assign_comp_mv, src/decode.c:1535-1553, without the change of `has_subpel_filter`. -/
def assignComp (H : Cfg) (c : Call) (st : Found) (im drl : Nat) (ref : Int) (k : Nat) : Prog Mv :=
  if im = 2 then pure (gmv2d (H.gmv ref) c.x c.y (bsW c.bs) (bsH c.bs) H.forceInteger H.hp)
  else if im = 3 then readResidual (st.mv drl k) (precOf H.forceInteger H.hp)
  else pure (fixMv H.forceInteger H.hp (st.mv drl k))

/-- wedge_allowed_mask, interintra_allowed_mask and dav1d_wedge_ctx_lut, src/tables.h:86-104 and src/tables.c:376-386: BS_32x32 is 7 and BS_8x8 is 17. -/
def wedgeMask (bs : Nat) : Bool := [7, 8, 9, 11, 12, 13, 15, 16, 17].contains bs
def interintraMask (bs : Nat) : Bool := [7, 8, 11, 12, 13, 16, 17].contains bs
def wedgeCtx (bs : Nat) : Nat := [0, 0, 0, 0, 0, 0, 0, 6, 5, 8, 0, 4, 3, 2, 0, 7, 1, 0, 0, 0, 0, 0].getD bs 0

/-- The kind of a compound block, src/decode.c:1564-1613: `comp_type`, `wedge_idx` and `mask_sign`. -/
def readCompType (H : Cfg) (c : Call) (a l : Edge) (ref0 ref1 : Int) (o : Out) : Prog (Nat × Nat × Bool) :=
  (if H.maskedCompound then flag .maskComp [getMaskCompCtx a.refs l.refs] else pure false) >>= fun isSegwedge =>
  if !isSegwedge then
    if H.jntComp then
      flag .jntComp [getJntCompCtx H.orderBits H.poc (H.refPoc ref0) (H.refPoc ref1) a.refs l.refs] >>= fun b => pure (1 + b2n b, o.wedge, o.sign)
    else pure (2, o.wedge, o.sign)
  else
    (if wedgeMask c.bs then
      flag .wedgeComp [wedgeCtx c.bs] >>= fun b =>
      if 4 - b2n b = 4 then mode .wedgeIdx [wedgeCtx c.bs] 15 >>= fun i => pure (4 - b2n b, i) else pure (4 - b2n b, o.wedge)
    else pure (3, o.wedge)) >>= fun (t : Nat × Nat) =>
    bit >>= fun s => pure (t.1, t.2, s)

/-- src/decode.c:1495-1557: `inter_mode`, `drl_idx` and the vectors of a compound block. -/
def readCompMode (H : Cfg) (c : Call) (refs : Int × Int) (st : Found) : Prog (Nat × Nat × Mv × Mv) :=
  mode .compInterMode [st.ctx] 7 >>= fun m =>
  (if m = 7 then readDrl st 0 else if (compModes m).1 = 1 ∨ (compModes m).2 = 1 then readDrl st 1 else pure 0) >>= fun drl =>
  assignComp H c st (compModes m).1 drl refs.1 0 >>= fun mv0 =>
  assignComp H c st (compModes m).2 drl refs.2 1 >>= fun mv1 => pure (m, drl, mv0, mv1)

/-- `has_subpel_filter` of a compound block, src/decode.c:1543-1544 and 1554-1557. -/
def compSubpel (H : Cfg) (c : Call) (refs : Int × Int) (m : Nat) : Bool :=
  decide (min (bsW c.bs) (bsH c.bs) = 1) || decide (m ≠ 6) ||
    (decide ((compModes m).1 = 2) && decide ((H.gmv refs.1).type = 1)) || (decide ((compModes m).2 = 2) && decide ((H.gmv refs.2).type = 1))

/-- src/decode.c:1424-1613: a compound block, with `has_subpel_filter`. -/
def readComp (H : Cfg) (c : Call) (find : Int × Int → Found) (a l : Edge) (ht hl : Bool) (o : Out) : Prog (Out × Bool) :=
  readCompRefs a l ht hl >>= fun refs =>
  readCompMode H c refs (find refs) >>= fun m =>
  readCompType H c a l refs.1 refs.2 o >>= fun t =>
  pure ({ o with ref0 := refs.1, ref1 := refs.2, mode := m.1, drl := m.2.1, mv0 := m.2.2.1, mv1 := m.2.2.2, comp := t.1, wedge := t.2.1, sign := t.2.2 }, compSubpel H c refs m.1)

/-- `seg && (seg->skip || seg->globalmv)`, src/decode.c:1669 and 1673. -/
def segGlobal (seg : Option Seg) : Bool := match seg with
  | some g => g.skip || g.globalmv
  | none => false

/-- src/decode.c:1668-1744: `inter_mode`, `drl_idx`, the vector and `has_subpel_filter` of a block with one reference. -/
def readSingleMode (H : Cfg) (seg : Option Seg) (c : Call) (ref : Int) (st : Found) (o : Out) : Prog (Nat × Nat × Mv × Bool) :=
  (if segGlobal seg then pure true else flag .newmvMode [st.ctx &&& 7]) >>= fun b =>
  if b then
    (if segGlobal seg then pure true else flag .globalmvMode [(st.ctx >>> 3) &&& 1] >>= fun b => pure (!b)) >>= fun g =>
    if g then
      pure (2, o.drl, gmv2d (H.gmv ref) c.x c.y (bsW c.bs) (bsH c.bs) H.forceInteger H.hp, decide (min (bsW c.bs) (bsH c.bs) = 1) || decide ((H.gmv ref).type = 1))
    else
      flag .refmvMode [(st.ctx >>> 4) &&& 15] >>= fun near =>
      (if near then readDrl st 1 >>= fun d => pure (1, d) else pure (0, 0)) >>= fun (r : Nat × Nat) =>
      pure (r.1, r.2, (if r.2 < 2 then fixMv H.forceInteger H.hp (st.mv r.2 0) else st.mv r.2 0), true)
  else
    readDrl st 0 >>= fun drl =>
    readResidual (if st.n > 1 then st.mv drl 0 else fixMv H.forceInteger H.hp (st.mv 0 0)) (precOf H.forceInteger H.hp) >>= fun mv =>
    pure (3, drl, mv, true)

/-- Inter-intra, src/decode.c:1746-1765: `interintra_type`, `interintra_mode` and `wedge_idx`. -/
def readInterintra (H : Cfg) (c : Call) (o : Out) : Prog (Nat × Nat × Nat) :=
  (if H.interIntra ∧ interintraMask c.bs then flag .interintra [ymodeSizeCtx c.bs] else pure false) >>= fun ii =>
  if ii then
    mode .interintraMode [ymodeSizeCtx c.bs] 3 >>= fun m =>
    flag .interintraWedge [wedgeCtx c.bs] >>= fun w =>
    if 1 + b2n w = 2 then mode .wedgeIdx [wedgeCtx c.bs] 15 >>= fun i => pure (1 + b2n w, m, i) else pure (1 + b2n w, m, o.wedge)
  else pure (0, o.iiMode, o.wedge)

/-- findoddzero, src/decode.c:339-343, of entries from `off` on. -/
def findOddZero (buf : Nat → Edge) (off len : Nat) : Bool := (List.range len).any fun n => (buf (off + n * 2)).refs.intra = 0

/-- The condition of src/decode.c:1780-1782 on the blocks around; `w4` and `h4` are those of lines 695-696. -/
def overlaps (f : Frame) (c : Call) (s : Ctxs Edge) (ht hl : Bool) : Bool :=
  (hl && findOddZero s.l (c.y % 32 + 1) (min (bsH c.bs) (f.bh - c.y) >>> 1)) || (ht && findOddZero s.a (c.x + 1) (min (bsW c.bs) (f.bw - c.x) >>> 1))

/-- Motion mode, src/decode.c:1774-1835, without deriving the warp parameters; `samples` tells whether find_matching_ref has found something for the reference (it is not modelled). -/
def readMotion (H : Cfg) (c : Call) (overlap : Bool) (samples : Int → Bool) (m : Nat) (ref : Int) (iiType : Nat) : Prog Nat :=
  if H.switchableMotion ∧ iiType = 0 ∧ min (bsW c.bs) (bsH c.bs) ≥ 2 ∧ ¬ (H.forceInteger = false ∧ m = 2 ∧ (H.gmv ref).type > 1) ∧ overlap then
    if !H.scaled ref && !H.forceInteger && H.warpMotion && samples ref then mode .motionMode [c.bs] 2
    else flag .obmc [c.bs] >>= fun b => pure (b2n b)
  else pure 0

/-- src/decode.c:1614-1836: a block with one reference. MM_WARP is 2. -/
def readSingle (H : Cfg) (seg : Option Seg) (c : Call) (find : Int × Int → Found) (overlap : Bool) (samples : Int → Bool) (a l : Edge) (ht hl : Bool) (o : Out) : Prog (Out × Bool) :=
  readSingleRef a l ht hl seg >>= fun ref =>
  readSingleMode H seg c ref (find (ref, -1)) o >>= fun m =>
  readInterintra H c o >>= fun ii =>
  readMotion H c overlap samples m.1 ref ii.1 >>= fun mm =>
  pure ({ o with ref0 := ref, ref1 := -1, comp := 0, mode := m.1, drl := m.2.1, mv0 := m.2.2.1, iiType := ii.1, iiMode := ii.2.1, wedge := ii.2.2, motion := mm },
    if mm = 2 then false else m.2.2.2)

/-- src/decode.c:1401-1419: a block with skip_mode. -/
def skipModeBlk (H : Cfg) (find : Int × Int → Found) (o : Out) : Out × Bool :=
  let st := find H.skipRefs
  ({ o with ref0 := H.skipRefs.1, ref1 := H.skipRefs.2, comp := 2, mode := 0, drl := 0, mv0 := fixMv H.forceInteger H.hp (st.mv 0 0),
            mv1 := fixMv H.forceInteger H.hp (st.mv 0 1) }, false)

/-- The filters, src/decode.c:1838-1871. DAV1D_FILTER_SWITCHABLE is 4. -/
def readFilters (H : Cfg) (a l : Edge) (comp : Nat) (ref0 : Int) (sub : Bool) : Prog (Nat × Nat) :=
  if H.filterMode = 4 then
    if sub then
      mode .filter [0, getFilterCtx a l (if comp ≠ 0 then 1 else 0) 0 ref0] 2 >>= fun f0 =>
      if H.dualFilter then mode .filter [1, getFilterCtx a l (if comp ≠ 0 then 1 else 0) 1 ref0] 2 >>= fun f1 => pure (f0, f1)
      else pure (f0, f0)
    else pure (0, 0)
  else pure (H.filterMode, H.filterMode)

/-- src/decode.c:1384-1872: an inter block up to the transform tree; `a` and `l` are the entries of `t->a` and `t->l`, `o` what was in the block before. -/
def readInterBlk (H : Cfg) (seg : Option Seg) (skipMode : Bool) (c : Call) (find : Int × Int → Found) (overlap : Bool) (samples : Int → Bool) (a l : Edge) (ht hl : Bool) (o : Out) : Prog Out :=
  (if skipMode then pure (skipModeBlk H find o)
   else readIsComp a l ht hl H seg c >>= fun isComp =>
     if isComp then readComp H c find a l ht hl o else readSingle H seg c find overlap samples a l ht hl o) >>= fun r =>
  readFilters H a l r.1.comp r.1.ref0 r.2 >>= fun fl => pure { r.1 with filter0 := fl.1, filter1 := fl.2 }

end Dav1d.Syn.Inter
