import Verif.Syn.Base
import Verif.Part.CtxSpec
/-!
# The syntax of the AV1 specification before the prediction of a block

Sections 5.11.7 (intra_frame_mode_info), 5.11.9 (read_segment_id), 5.11.10 (read_skip_mode), 5.11.11 (read_skip), 5.11.18
(inter_frame_mode_info), 5.11.19 (inter_segment_id), 5.11.20 (read_is_inter), 5.11.38 to 5.11.40 (read_delta_qindex,
read_delta_lf) and 5.11.56 (read_cdef), written with the names of the specification. Syntax elements are read with the
contexts of `Dav1d.Part.Ctx.Av1`.
-/
namespace Dav1d.Syn.Av1
open CdfTab (Field ModeF)
open Dav1d.Part (Call bsW bsH sbStep)
open Dav1d.Part.Ctx (Blk)
open Dav1d.Part.Ctx.Av1 (segIdPredictedCtx skipModeCtx skipCtx isInterCtx nb segmentPred segmentCtx)

/-- The syntax elements that are coded with CDFs, with their contexts. -/
inductive El where
  | seg_id_predicted (ctx : Nat)
  | segment_id (ctx : Nat)
  | skip_mode (ctx : Nat)
  | skip (ctx : Nat)
  | delta_q_abs
  /-- DeltaLFCdf, or DeltaLFMulti[ i ] -/
  | delta_lf_abs (i : Option Nat)
  | is_inter (ctx : Nat)
  | use_intrabc
  deriving DecidableEq

/-- Where dav1d has the CDF of an element, and the largest value. The flag `intra` of dav1d is is_inter. -/
def El.req : El → Req
  | .seg_id_predicted ctx => .sym (.mode .segPred) [ctx] 1
  | .segment_id ctx => .sym (.mode .segId) [ctx] 7
  | .skip_mode ctx => .sym (.mode .skipMode) [ctx] 1
  | .skip ctx => .sym (.mode .skip) [ctx] 1
  | .delta_q_abs => .sym (.mode .deltaQ) [] 3
  | .delta_lf_abs none => .sym (.mode .deltaLf) [0] 3
  | .delta_lf_abs (some i) => .sym (.mode .deltaLf) [1 + i] 3
  | .is_inter ctx => .sym (.mode .intra) [ctx] 1
  | .use_intrabc => .sym (.mode .intrabc) [] 1

/-- S() and NS-like flags: an element; L(n): `n` bits. -/
def S (e : El) : Prog Nat := .read e.req .ret
def L (n : Nat) : Prog Nat := if n = 0 then .ret 0 else .read (.lit n) .ret

/-- The variables of the frame. -/
structure Frm where
  FrameIsIntra : Bool
  use_128x128_superblock : Bool
  NumPlanes : Nat
  MiRows : Nat
  MiCols : Nat
  segmentation_enabled : Bool
  segmentation_update_map : Bool
  segmentation_temporal_update : Bool
  SegIdPreSkip : Bool
  LastActiveSegId : Int
  /-- FeatureData[ i ][ SEG_LVL_ALT_Q ] and [ SEG_LVL_REF_FRAME ] where enabled -/
  altQ : Nat → Option Int
  refFrame : Nat → Option Int
  /-- FeatureEnabled[ i ][ SEG_LVL_SKIP ] and [ SEG_LVL_GLOBALMV ] -/
  skipFeature : Nat → Bool
  globalmv : Nat → Bool
  /-- by row and column -/
  PrevSegmentIds : Nat → Nat → Nat
  skip_mode_present : Bool
  CodedLossless : Bool
  enable_cdef : Bool
  allow_intrabc : Bool
  cdef_bits : Nat
  delta_q_present : Bool
  delta_q_res : Nat
  delta_lf_present : Bool
  delta_lf_multi : Bool
  delta_lf_res : Nat
  base_q_idx : Int
  DeltaQYDc : Int
  DeltaQUDc : Int
  DeltaQUAc : Int
  DeltaQVDc : Int
  DeltaQVAc : Int

/-- The variables that change from block to block. -/
structure St where
  /-- by row and column -/
  cdef_idx : Nat → Nat → Int
  CurrentQIndex : Int
  DeltaLF : List Int
  ReadDeltas : Bool

/-- The block: its place and size, the blocks above and on the left, and the segment ids around it (-1 where there is no block). -/
structure Pos where
  MiRow : Nat
  MiCol : Nat
  bw4 : Nat
  bh4 : Nat
  A : Option Blk
  L : Option Blk
  prevUL : Int
  prevU : Int
  prevL : Int

def Clip3 (lo hi x : Int) : Int := if x < lo then lo else if x > hi then hi else x

/-- neg_deinterleave( diff, ref, max ) -/
def neg_deinterleave (diff ref max : Int) : Int :=
  if ref = 0 then diff
  else if ref ≥ max - 1 then max - diff - 1
  else if 2 * ref < max then
    if diff ≤ 2 * ref then (if diff % 2 = 1 then ref + ((diff + 1) / 2) else ref - (diff / 2)) else diff
  else
    if diff ≤ 2 * (max - ref - 1) then (if diff % 2 = 1 then ref + ((diff + 1) / 2) else ref - (diff / 2)) else max - (diff + 1)

/-- read_segment_id( ) -/
def read_segment_id (F : Frm) (P : Pos) (skip : Bool) : Prog Int := do
  let pred := segmentPred P.prevUL P.prevU P.prevL
  (if skip then pure pred
  else do
    let segment_id ← S (.segment_id (segmentCtx P.prevUL P.prevU P.prevL))
    pure (Clip3 0 F.LastActiveSegId (neg_deinterleave segment_id pred (F.LastActiveSegId + 1))))

/-- get_segment_id( ): the smallest id in the part of the block inside the frame. -/
def get_segment_id (F : Frm) (P : Pos) : Nat :=
  ((List.range (min (F.MiRows - P.MiRow) P.bh4)).flatMap fun y => (List.range (min (F.MiCols - P.MiCol) P.bw4)).map fun x =>
    F.PrevSegmentIds (P.MiRow + y) (P.MiCol + x)).foldl min 7

/-- intra_segment_id( ) -/
def intra_segment_id (F : Frm) (P : Pos) (skip : Bool) : Prog Int :=
  if F.segmentation_enabled then read_segment_id F P skip else pure 0

/-- inter_segment_id( preSkip ): segment_id and seg_id_predicted (0 where it is not read). -/
def inter_segment_id (F : Frm) (P : Pos) (skip preSkip : Bool) : Prog (Int × Bool) :=
  if F.segmentation_enabled then
    let predictedSegmentId : Int := get_segment_id F P
    if F.segmentation_update_map then
      if preSkip && !F.SegIdPreSkip then pure (0, false)
      else if !preSkip && skip then do
        let id ← read_segment_id F P skip
        pure (id, false)
      else if F.segmentation_temporal_update then do
        let seg_id_predicted ← S (.seg_id_predicted (segIdPredictedCtx P.A P.L))
        (if seg_id_predicted ≠ 0 then pure (predictedSegmentId, true)
        else do
          let id ← read_segment_id F P skip
          pure (id, false))
      else do
        let id ← read_segment_id F P skip
        pure (id, false)
    else pure (predictedSegmentId, false)
  else pure (0, false)

/-- seg_feature_active( feature ) for SEG_LVL_REF_FRAME, SEG_LVL_SKIP and SEG_LVL_GLOBALMV -/
def refActive (F : Frm) (id : Int) : Bool := F.segmentation_enabled && (F.refFrame id.toNat).isSome
def skipActive (F : Frm) (id : Int) : Bool := F.segmentation_enabled && F.skipFeature id.toNat
def gmvActive (F : Frm) (id : Int) : Bool := F.segmentation_enabled && F.globalmv id.toNat

/-- read_skip_mode( ) -/
def read_skip_mode (F : Frm) (P : Pos) (id : Int) : Prog Bool :=
  if skipActive F id || refActive F id || gmvActive F id || !F.skip_mode_present || decide (4 * P.bw4 < 8) || decide (4 * P.bh4 < 8) then pure false
  else do
    let v ← S (.skip_mode (skipModeCtx P.A P.L))
    pure (v ≠ 0)

/-- read_skip( ) -/
def read_skip (F : Frm) (P : Pos) (id : Int) : Prog Bool :=
  if F.SegIdPreSkip && skipActive F id then pure true
  else do
    let v ← S (.skip (skipCtx P.A P.L))
    pure (v ≠ 0)

/-- read_cdef( ): the loops write the entries of all 64x64 areas that the block covers. -/
def read_cdef (F : Frm) (P : Pos) (skip : Bool) (s : St) : Prog St :=
  if skip || F.CodedLossless || !F.enable_cdef || F.allow_intrabc then pure s
  else
    let r := P.MiRow / 16 * 16
    let c := P.MiCol / 16 * 16
    if s.cdef_idx r c = -1 then do
      let v ← L F.cdef_bits
      pure { s with cdef_idx := fun y x =>
        if (y % 16 = 0 ∧ r ≤ y ∧ y < r + P.bh4) ∧ (x % 16 = 0 ∧ c ≤ x ∧ x < c + P.bw4) then v else s.cdef_idx y x }
    else pure s

/-- The magnitude and the sign: delta_q_abs or delta_lf_abs, rem_bits, abs_bits and sign_bit. `small` is DELTA_Q_SMALL = DELTA_LF_SMALL. -/
def read_delta_value (e : El) : Prog Int := do
  let abs ← S e
  let abs ← (if abs = 3 then do
      let rem_bits ← L 3
      let abs_bits ← L (rem_bits + 1)
      pure (abs_bits + 2 ^ (rem_bits + 1) + 1)
    else pure abs)
  (if abs ≠ 0 then do
    let sign_bit ← L 1
    pure (if sign_bit ≠ 0 then -(abs : Int) else abs)
  else pure 0)

/-- MiSize == sbSize -/
def isSb (F : Frm) (P : Pos) : Bool := P.bw4 = sbStep F.use_128x128_superblock && P.bh4 = sbStep F.use_128x128_superblock

/-- read_delta_qindex( ) -/
def read_delta_qindex (F : Frm) (P : Pos) (skip : Bool) (s : St) : Prog St :=
  if isSb F P && skip then pure s
  else if s.ReadDeltas then do
    let v ← read_delta_value .delta_q_abs
    pure (if v ≠ 0 then { s with CurrentQIndex := Clip3 1 255 (s.CurrentQIndex + v * 2 ^ F.delta_q_res) } else s)
  else pure s

/-- The loop of read_delta_lf( ). -/
def delta_lf_loop (F : Frm) : (n i : Nat) → List Int → Prog (List Int)
  | 0, _, lf => pure lf
  | n + 1, i, lf => do
    let v ← read_delta_value (.delta_lf_abs (if F.delta_lf_multi then some i else none))
    delta_lf_loop F n (i + 1) (if v ≠ 0 then lf.set i (Clip3 (-63) 63 (lf.getD i 0 + v * 2 ^ F.delta_lf_res)) else lf)

/-- read_delta_lf( ) -/
def read_delta_lf (F : Frm) (P : Pos) (skip : Bool) (s : St) : Prog St :=
  if isSb F P && skip then pure s
  else if s.ReadDeltas && F.delta_lf_present then do
    let frameLfCount := if F.delta_lf_multi then (if F.NumPlanes > 1 then 4 else 2) else 1
    let lf ← delta_lf_loop F frameLfCount 0 s.DeltaLF
    pure { s with DeltaLF := lf }
  else pure s

/-- read_is_inter( ) -/
def read_is_inter (F : Frm) (P : Pos) (id : Int) (skip_mode : Bool) : Prog Bool :=
  if skip_mode then pure true
  else if refActive F id then pure ((F.refFrame id.toNat).getD 0 ≠ 0)
  else if gmvActive F id then pure true
  else do
    let v ← S (.is_inter (isInterCtx (nb P.A) (nb P.L)))
    pure (v ≠ 0)

/-- What is known of the block then. -/
structure Hd where
  segment_id : Int
  seg_id_predicted : Bool
  skip_mode : Bool
  skip : Bool
  is_inter : Bool
  use_intrabc : Bool

/-- The beginning of intra_frame_mode_info( ) -/
def intra_frame_head (F : Frm) (P : Pos) (s : St) : Prog (Hd × St) := do
  let id ← (if F.SegIdPreSkip then intra_segment_id F P false else pure 0)
  let skip ← read_skip F P id
  let id ← (if !F.SegIdPreSkip then intra_segment_id F P skip else pure id)
  let s ← read_cdef F P skip s
  let s ← read_delta_qindex F P skip s
  let s ← read_delta_lf F P skip s
  let s := { s with ReadDeltas := false }
  let use_intrabc ← (if F.allow_intrabc then S .use_intrabc else pure 0)
  pure (⟨id, false, false, skip, false, use_intrabc ≠ 0⟩, s)

/-- The beginning of inter_frame_mode_info( ) -/
def inter_frame_head (F : Frm) (P : Pos) (s : St) : Prog (Hd × St) := do
  let ids ← inter_segment_id F P false true
  let skip_mode ← read_skip_mode F P ids.1
  let skip ← (if skip_mode then pure true else read_skip F P ids.1)
  let ids ← (if !F.SegIdPreSkip then inter_segment_id F P skip false else pure ids)
  let s ← read_cdef F P skip s
  let s ← read_delta_qindex F P skip s
  let s ← read_delta_lf F P skip s
  let s := { s with ReadDeltas := false }
  let is_inter ← read_is_inter F P ids.1 skip_mode
  pure (⟨ids.1, ids.2, skip_mode, skip, is_inter, false⟩, s)

/-- mode_info( ) -/
def head (F : Frm) (P : Pos) (s : St) : Prog (Hd × St) := if F.FrameIsIntra then intra_frame_head F P s else inter_frame_head F P s

/-- Before a tile is read, 5.11.1: CurrentQIndex = base_q_idx, DeltaLF[ i ] = 0. -/
def tileStart (F : Frm) (s : St) : St := { s with CurrentQIndex := F.base_q_idx, DeltaLF := [0, 0, 0, 0] }

/-- Before a superblock is read, 5.11.2 and 5.11.3: ReadDeltas = delta_q_present, clear_cdef( r, c ). -/
def sbStart (F : Frm) (r c : Nat) (s : St) : St :=
  { s with ReadDeltas := F.delta_q_present
           cdef_idx := fun y x => if y = r ∧ x = c ∨ F.use_128x128_superblock = true ∧ (y = r ∨ y = r + 16) ∧ (x = c ∨ x = c + 16) then -1 else s.cdef_idx y x }

/-- get_qidx( 0, segmentId ), 7.12.2 -/
def get_qidx (F : Frm) (s : St) (id : Nat) : Int :=
  match (if F.segmentation_enabled then F.altQ id else none) with
  | some data => Clip3 0 255 ((if F.delta_q_present then s.CurrentQIndex else F.base_q_idx) + data)
  | none => if F.delta_q_present then s.CurrentQIndex else F.base_q_idx

/-- get_dc_quant( plane ) and get_ac_quant( plane ), 7.12.2, for a segment; `Dc` and `Ac` are the rows of Dc_Qlookup and Ac_Qlookup of the bit depth. -/
def dc_q (Dc : Nat → Nat) (b : Int) : Nat := Dc (Clip3 0 255 b).toNat
def get_dc_quant (F : Frm) (Dc : Nat → Nat) (s : St) (id plane : Nat) : Nat :=
  if plane = 0 then dc_q Dc (get_qidx F s id + F.DeltaQYDc)
  else if plane = 1 then dc_q Dc (get_qidx F s id + F.DeltaQUDc)
  else dc_q Dc (get_qidx F s id + F.DeltaQVDc)
def get_ac_quant (F : Frm) (Ac : Nat → Nat) (s : St) (id plane : Nat) : Nat :=
  if plane = 0 then dc_q Ac (get_qidx F s id)
  else if plane = 1 then dc_q Ac (get_qidx F s id + F.DeltaQUAc)
  else dc_q Ac (get_qidx F s id + F.DeltaQVAc)

end Dav1d.Syn.Av1
