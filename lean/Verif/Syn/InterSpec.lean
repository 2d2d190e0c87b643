import Verif.Syn.CopySpec
import Verif.Syn.IntraSpec
import Verif.Part.CtxSpec
/-!
# Inter blocks of the AV1 specification: inter_block_mode_info and what it calls
(sections 5.11.23 and 5.11.25 to 5.11.29), global motion vectors (7.10.2.1, 7.10.2.3) and the selection of CDFs of section 8.3.2

The process for finding motion vectors (7.10.2) and for warp samples (7.10.4) are parameters. The tables of symbols are those of `Verif.Cdf.Layout`; `bsRow` is the row for
the block size where a table has one for each.
-/
namespace Dav1d.Syn.Inter.Av1
open CdfTab (ModeF)
open Dav1d.Part.Ctx (Blk)
open Dav1d.Part.Ctx.Av1
open Dav1d.Syn.Copy (Mv)
open Dav1d.Syn.Copy.Av1 (read_mv)
open Dav1d.Syn.Intra.Av1 (blockSizes Size_Group)

/-! ## Vectors -/

/-- Round2Signed -/
def Round2Signed (x : Int) (n : Nat) : Int := if x ≥ 0 then (x + 2 ^ n / 2) / 2 ^ n else -((-x + 2 ^ n / 2) / 2 ^ n)

/-- lower_mv_precision for one component. -/
def lowerComp (force_integer_mv allow_high_precision_mv : Bool) (v : Int) : Int :=
  if allow_high_precision_mv then v
  else if force_integer_mv then
    let aInt : Int := (v.natAbs + 3) / 8
    if aInt > 0 then (if v > 0 then aInt * 8 else -(aInt * 8)) else 0
  else if v % 2 = 1 then (if v > 0 then v - 1 else v + 1)
  else v

/-- lower_mv_precision -/
def lower_mv_precision (force_integer_mv allow_high_precision_mv : Bool) (m : Mv) : Mv :=
  ⟨lowerComp force_integer_mv allow_high_precision_mv m.y, lowerComp force_integer_mv allow_high_precision_mv m.x⟩

/-- setup_global_mv for a reference frame with the type `typ` (IDENTITY 0, TRANSLATION 1, ROTZOOM 2, AFFINE 3) and the parameters `gm`; `bw` and `bh` in samples. -/
def setup_global_mv (typ : Nat) (gm : Nat → Int) (MiRow MiCol bw bh : Int) (force_integer_mv allow_high_precision_mv : Bool) : Mv :=
  lower_mv_precision force_integer_mv allow_high_precision_mv
    (if typ = 0 then ⟨0, 0⟩
     else if typ = 1 then ⟨gm 0 / 2 ^ 13, gm 1 / 2 ^ 13⟩
     else
       let x := MiCol * 4 + bw / 2 - 1
       let y := MiRow * 4 + bh / 2 - 1
       let xc := (gm 2 - 2 ^ 16) * x + gm 3 * y + gm 0
       let yc := gm 4 * x + (gm 5 - 2 ^ 16) * y + gm 1
       if allow_high_precision_mv then ⟨Round2Signed yc 13, Round2Signed xc 13⟩ else ⟨Round2Signed yc 14 * 2, Round2Signed xc 14 * 2⟩)

/-! ## The syntax -/

/-- The results of the process for finding motion vectors: NumMvFound, RefStackMv[ i ][ list ], WeightStack[ i ], NewMvContext, ZeroMvContext, RefMvContext, and the context of
compound_mode. -/
structure Cands where
  NumMvFound : Nat
  RefStackMv : Nat → Nat → Mv
  WeightStack : Nat → Nat
  NewMvContext : Nat
  ZeroMvContext : Nat
  RefMvContext : Nat
  compoundModeCtx : Nat

/-- What the syntax depends on; `A` and `L` are the blocks above and on the left, if available, references are numbered as RefFrame. -/
structure Env where
  MiSize : Nat
  MiRow : Nat
  MiCol : Nat
  bsRow : Nat
  A : Option Blk
  L : Option Blk
  skip_mode : Bool
  SkipModeFrame : Int × Int
  segRef : Option Int
  segSkip : Bool
  segGlobalmv : Bool
  reference_select : Bool
  find_mv_stack : Int × Int → Cands
  gm_type : Int → Nat
  gm_params : Int → Nat → Int
  force_integer_mv : Bool
  allow_high_precision_mv : Bool
  enable_interintra_compound : Bool
  enable_masked_compound : Bool
  enable_jnt_comp : Bool
  is_motion_mode_switchable : Bool
  allow_warped_motion : Bool
  is_scaled : Int → Bool
  hasSamples : Int → Bool
  overlappable : Bool
  interpolation_filter : Nat
  enable_dual_filter : Bool
  OrderHintBits : Nat
  OrderHint : Int
  OrderHints : Int → Int

def Env.w (E : Env) : Nat := (blockSizes.getD E.MiSize (0, 0)).1
def Env.h (E : Env) : Nat := (blockSizes.getD E.MiSize (0, 0)).2

/-- What is known of the block in the end. YMode: NEARESTMV is 13, NEARMV 14, GLOBALMV 15, NEWMV 16, then NEAREST_NEARESTMV 17, NEAR_NEARMV 18, NEAREST_NEWMV 19, NEW_NEARESTMV 20,
NEAR_NEWMV 21, NEW_NEARMV 22, GLOBAL_GLOBALMV 23, NEW_NEWMV 24. compound_type: COMPOUND_WEDGE 0, COMPOUND_DIFFWTD 1, COMPOUND_AVERAGE 2, COMPOUND_INTRA 3, COMPOUND_DISTANCE 4.
motion_mode: SIMPLE 0, OBMC 1, LOCALWARP 2. -/
structure Res where
  RefFrame : Int × Int
  YMode : Nat
  RefMvIdx : Nat
  Mv0 : Mv
  Mv1 : Mv
  interintra : Bool
  interintra_mode : Nat
  wedge_interintra : Bool
  motion_mode : Nat
  compound_type : Nat
  wedge_index : Nat
  wedge_sign : Bool
  mask_type : Bool
  interp_filter : Nat × Nat

/-- Reading a flag for reference frames: the table and the context of the element. -/
def refElem (E : Env) (e : Elem) : Prog Bool :=
  let ctx := e.ctx (nb E.A) (nb E.L)
  match e.cdf with
  | .comp => flag .comp [ctx]
  | .compDir => flag .compDir [ctx]
  | .compFwdRef i => flag .compFwdRef [i, ctx]
  | .compBwdRef i => flag .compBwdRef [i, ctx]
  | .compUniRef i => flag .compUniRef [i, ctx]
  | .ref i => flag .ref [i, ctx]

/-- The part of read_ref_frames for two references. -/
def comp_ref_frames (E : Env) : Prog (Int × Int) :=
  refElem E .comp_ref_type >>= fun comp_ref_type =>
  if !comp_ref_type then
    refElem E .uni_comp_ref >>= fun u =>
    if u then pure (5, 7)
    else refElem E .uni_comp_ref_p1 >>= fun u1 => if u1 then refElem E .uni_comp_ref_p2 >>= fun u2 => pure (1, if u2 then 4 else 3) else pure (1, 2)
  else
    refElem E .comp_ref >>= fun c =>
    (if !c then refElem E .comp_ref_p1 >>= fun c1 => pure (if c1 then 2 else 1) else refElem E .comp_ref_p2 >>= fun c2 => pure (if c2 then 4 else 3)) >>= fun (r0 : Int) =>
    refElem E .comp_bwdref >>= fun b =>
    if !b then refElem E .comp_bwdref_p1 >>= fun b1 => pure (r0, if b1 then 6 else 5) else pure (r0, 7)

/-- The part of read_ref_frames for one reference. -/
def single_ref_frames (E : Env) : Prog (Int × Int) :=
  refElem E .single_ref_p1 >>= fun p1 =>
  if p1 then
    refElem E .single_ref_p2 >>= fun p2 =>
    if !p2 then refElem E .single_ref_p6 >>= fun p6 => pure (if p6 then 6 else 5, -1) else pure (7, -1)
  else
    refElem E .single_ref_p3 >>= fun p3 =>
    if p3 then refElem E .single_ref_p5 >>= fun p5 => pure (if p5 then 4 else 3, -1)
    else refElem E .single_ref_p4 >>= fun p4 => pure (if p4 then 2 else 1, -1)

/-- read_ref_frames -/
def read_ref_frames (E : Env) : Prog (Int × Int) :=
  if E.skip_mode then pure E.SkipModeFrame
  else match E.segRef with
  | some r => pure (r, -1)
  | none =>
    if E.segSkip || E.segGlobalmv then pure (1, -1)
    else
      (if E.reference_select = true ∧ min E.w E.h ≥ 8 then refElem E .comp_mode else pure false) >>= fun comp_mode =>
      if comp_mode then comp_ref_frames E else single_ref_frames E

/-- The mode. -/
def y_mode (E : Env) (isCompound : Bool) (S : Cands) : Prog Nat :=
  if E.skip_mode then pure 17
  else if E.segSkip || E.segGlobalmv then pure 15
  else if isCompound then mode .compInterMode [S.compoundModeCtx] 7 >>= fun compound_mode => pure (17 + compound_mode)
  else
    flag .newmvMode [S.NewMvContext] >>= fun new_mv =>
    if !new_mv then pure 16
    else
      flag .globalmvMode [S.ZeroMvContext] >>= fun zero_mv =>
      if !zero_mv then pure 15 else flag .refmvMode [S.RefMvContext] >>= fun ref_mv => pure (if ref_mv then 14 else 13)

/-- DrlCtxStack[ idx ]; REF_CAT_LEVEL is 640. -/
def DrlCtxStack (S : Cands) (idx : Nat) : Nat :=
  if idx + 1 < S.NumMvFound then
    if S.WeightStack idx ≥ 640 then (if S.WeightStack (idx + 1) < 640 then 1 else 0) else 2
  else 0

/-- `for ( idx = k; idx < last; idx++ ) if ( NumMvFound > idx + 1 ) { drl_mode; if ( drl_mode == 0 ) { RefMvIdx = idx; break }; RefMvIdx = idx + 1 }`; `left` is `last` - `idx`. -/
def drlLoop (S : Cands) : (left idx RefMvIdx : Nat) → Prog Nat
  | 0, _, RefMvIdx => pure RefMvIdx
  | left + 1, idx, RefMvIdx =>
    if S.NumMvFound > idx + 1 then
      flag .drlBit [DrlCtxStack S idx] >>= fun drl_mode => if !drl_mode then pure idx else drlLoop S left (idx + 1) (idx + 1)
    else drlLoop S left (idx + 1) RefMvIdx

/-- has_nearmv -/
def has_nearmv (YMode : Nat) : Prop := YMode = 14 ∨ YMode = 18 ∨ YMode = 21 ∨ YMode = 22
instance (m : Nat) : Decidable (has_nearmv m) := by unfold has_nearmv; infer_instance

/-- RefMvIdx -/
def ref_mv_idx (S : Cands) (YMode : Nat) : Prog Nat :=
  if YMode = 16 ∨ YMode = 24 then drlLoop S 2 0 0
  else if has_nearmv YMode then drlLoop S 2 1 1
  else pure 0

/-- get_mode -/
def get_mode (YMode refList : Nat) : Nat :=
  if refList = 0 then
    (if YMode < 17 then YMode
     else if YMode = 24 ∨ YMode = 20 ∨ YMode = 22 then 16
     else if YMode = 17 ∨ YMode = 19 then 13
     else if YMode = 18 ∨ YMode = 21 then 14
     else 15)
  else
    (if YMode = 24 ∨ YMode = 19 ∨ YMode = 21 then 16
     else if YMode = 17 ∨ YMode = 20 then 13
     else if YMode = 18 ∨ YMode = 22 then 14
     else 15)

/-- assign_mv for one of the vectors. -/
def assign_mv (E : Env) (S : Cands) (YMode RefMvIdx refList : Nat) (ref : Int) : Prog Mv :=
  let compMode := get_mode YMode refList
  if compMode = 15 then
    pure (setup_global_mv (E.gm_type ref) (E.gm_params ref) E.MiRow E.MiCol E.w E.h E.force_integer_mv E.allow_high_precision_mv)
  else
    let pos := if compMode = 13 then 0 else if compMode = 16 ∧ S.NumMvFound ≤ 1 then 0 else RefMvIdx
    if compMode = 16 then read_mv (S.RefStackMv pos refList) E.force_integer_mv E.allow_high_precision_mv else pure (S.RefStackMv pos refList)

/-- The block sizes for which Wedge_Bits is not 0, in the order of the tables of CDFs: 8x8, 8x16, 16x8, 16x16, 16x32, 32x16, 32x32, 8x32, 32x8. -/
def wedgeSizes : List Nat := [3, 4, 5, 6, 7, 8, 9, 18, 19]

/-- read_interintra_mode: interintra, interintra_mode, wedge_interintra, wedge_index. The tables for interintra and interintra_mode have an unused first row. BLOCK_8X8 is 3 and BLOCK_32X32 is 9. -/
def read_interintra_mode (E : Env) (isCompound : Bool) : Prog (Bool × Nat × Bool × Nat) :=
  if E.skip_mode = false ∧ E.enable_interintra_compound = true ∧ isCompound = false ∧ E.MiSize ≥ 3 ∧ E.MiSize ≤ 9 then
    flag .interintra [Size_Group.getD E.MiSize 0 - 1 + 1] >>= fun interintra =>
    if interintra then
      mode .interintraMode [Size_Group.getD E.MiSize 0 - 1 + 1] 3 >>= fun m =>
      flag .interintraWedge [wedgeSizes.idxOf E.MiSize] >>= fun w =>
      if w then mode .wedgeIdx [wedgeSizes.idxOf E.MiSize] 15 >>= fun i => pure (true, m, true, i) else pure (true, m, false, 0)
    else pure (false, 0, false, 0)
  else pure (false, 0, false, 0)

/-- read_motion_mode -/
def read_motion_mode (E : Env) (isCompound interintra : Bool) (YMode : Nat) (ref0 : Int) : Prog Nat :=
  if E.skip_mode then pure 0
  else if E.is_motion_mode_switchable = false then pure 0
  else if min E.w E.h < 8 then pure 0
  else if E.force_integer_mv = false ∧ (YMode = 15 ∨ YMode = 23) ∧ E.gm_type ref0 > 1 then pure 0
  else if isCompound = true ∨ interintra = true ∨ E.overlappable = false then pure 0
  else if E.force_integer_mv = true ∨ E.hasSamples ref0 = false ∨ E.allow_warped_motion = false ∨ E.is_scaled ref0 = true then
    flag .obmc [E.bsRow] >>= fun use_obmc => pure (if use_obmc then 1 else 0)
  else mode .motionMode [E.bsRow] 2

/-- read_compound_type: compound_type, wedge_index, wedge_sign, mask_type. -/
def read_compound_type (E : Env) (isCompound interintra wedge_interintra : Bool) (wedge_index : Nat) (refs : Int × Int) : Prog (Nat × Nat × Bool × Bool) :=
  if E.skip_mode then pure (2, wedge_index, false, false)
  else if isCompound then
    (if E.enable_masked_compound then flag .maskComp [compGroupIdxCtx (nb E.A) (nb E.L)] else pure false) >>= fun comp_group_idx =>
    (if !comp_group_idx then
      if E.enable_jnt_comp then
        flag .jntComp [compoundIdxCtx (nb E.A) (nb E.L) (relativeDist E.OrderHintBits (E.OrderHints refs.1) E.OrderHint).natAbs
          (relativeDist E.OrderHintBits (E.OrderHints refs.2) E.OrderHint).natAbs] >>= fun compound_idx => pure (if compound_idx then 2 else 4)
      else pure 2
    else
      if E.MiSize ∈ wedgeSizes then flag .wedgeComp [wedgeSizes.idxOf E.MiSize] >>= fun compound_type => pure (if compound_type then 1 else 0)
      else pure 1) >>= fun (compound_type : Nat) =>
    if compound_type = 0 then mode .wedgeIdx [wedgeSizes.idxOf E.MiSize] 15 >>= fun i => bit >>= fun s => pure (compound_type, i, s, false)
    else if compound_type = 1 then bit >>= fun s => pure (compound_type, wedge_index, false, s)
    else pure (compound_type, wedge_index, false, false)
  else pure (if interintra then (if wedge_interintra then 0 else 3) else 2, wedge_index, false, false)

/-- needs_interp_filter -/
def needs_interp_filter (E : Env) (YMode motion_mode : Nat) (refs : Int × Int) : Bool :=
  if E.skip_mode = true ∨ motion_mode = 2 then false
  else if min E.w E.h ≥ 8 ∧ YMode = 15 then decide (E.gm_type refs.1 = 1)
  else if min E.w E.h ≥ 8 ∧ YMode = 23 then decide (E.gm_type refs.2 = 1)
  else true

/-- interp_filter[ dir ]: there are 8 rows for each direction. -/
def interp_filter (E : Env) (isCompound : Bool) (ref0 : Int) (dir : Nat) : Prog Nat :=
  mode .filter [dir, interpFilterCtx E.A E.L ref0 isCompound dir - 8 * dir] 2

/-- The filters. EIGHTTAP is 0, SWITCHABLE is 4. -/
def interp_filters (E : Env) (isCompound : Bool) (ref0 : Int) (needs : Bool) : Prog (Nat × Nat) :=
  if E.interpolation_filter = 4 then
    (if needs then interp_filter E isCompound ref0 0 else pure 0) >>= fun f0 =>
    if E.enable_dual_filter then (if needs then interp_filter E isCompound ref0 1 else pure 0) >>= fun f1 => pure (f0, f1)
    else pure (f0, f0)
  else pure (E.interpolation_filter, E.interpolation_filter)

/-- From the mode to assign_mv: YMode, RefMvIdx, Mv[ 0 ], Mv[ 1 ]. -/
def mode_and_mvs (E : Env) (refs : Int × Int) : Prog (Nat × Nat × Mv × Mv) :=
  y_mode E (decide (refs.2 > 0)) (E.find_mv_stack refs) >>= fun YMode =>
  ref_mv_idx (E.find_mv_stack refs) YMode >>= fun RefMvIdx =>
  assign_mv E (E.find_mv_stack refs) YMode RefMvIdx 0 refs.1 >>= fun Mv0 =>
  (if refs.2 > 0 then assign_mv E (E.find_mv_stack refs) YMode RefMvIdx 1 refs.2 else pure ⟨0, 0⟩) >>= fun Mv1 => pure (YMode, RefMvIdx, Mv0, Mv1)

/-- inter_block_mode_info after read_ref_frames. -/
def after_refs (E : Env) (refs : Int × Int) : Prog Res :=
  let isCompound := decide (refs.2 > 0)
  mode_and_mvs E refs >>= fun m =>
  read_interintra_mode E isCompound >>= fun ii =>
  read_motion_mode E isCompound ii.1 m.1 refs.1 >>= fun motion_mode =>
  read_compound_type E isCompound ii.1 ii.2.2.1 ii.2.2.2 refs >>= fun ct =>
  interp_filters E isCompound refs.1 (needs_interp_filter E m.1 motion_mode refs) >>= fun fl =>
  pure { RefFrame := (refs.1, if ii.1 then 0 else refs.2), YMode := m.1, RefMvIdx := m.2.1, Mv0 := m.2.2.1, Mv1 := m.2.2.2, interintra := ii.1, interintra_mode := ii.2.1,
         wedge_interintra := ii.2.2.1, motion_mode := motion_mode, compound_type := ct.1, wedge_index := ct.2.1, wedge_sign := ct.2.2.1, mask_type := ct.2.2.2, interp_filter := fl }

/-- inter_block_mode_info -/
def inter_block_mode_info (E : Env) : Prog Res := read_ref_frames E >>= after_refs E

/-- has_overlappable_candidates, section 5.11.28; `RefFrames r c` is RefFrames[ r ][ c ][ 0 ], `w4` and `h4` are the size of the block in units of 4 samples. -/
def has_overlappable_candidates (AvailU AvailL : Prop) (MiRow MiCol MiRows MiCols w4 h4 : Nat) (RefFrames : Nat → Nat → Int) : Prop :=
  (AvailU ∧ ∃ x4, MiCol ≤ x4 ∧ x4 < min MiCols (MiCol + w4) ∧ (x4 - MiCol) % 2 = 0 ∧
    RefFrames (MiRow - 1) (let x5 := x4 / 2 * 2 + 1; if x5 ≥ MiCols then MiCols - 1 else x5) > 0) ∨
  (AvailL ∧ ∃ y4, MiRow ≤ y4 ∧ y4 < min MiRows (MiRow + h4) ∧ (y4 - MiRow) % 2 = 0 ∧
    RefFrames (let y5 := y4 / 2 * 2 + 1; if y5 ≥ MiRows then MiRows - 1 else y5) (MiCol - 1) > 0)

end Dav1d.Syn.Inter.Av1
