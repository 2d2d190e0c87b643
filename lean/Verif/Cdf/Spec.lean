import Verif.Cdf.Layout
import Verif.Cdf.Default
import Verif.Cdf.Coef0
import Verif.Cdf.Coef1
import Verif.Cdf.Coef2
import Verif.Cdf.Coef3
import Verif.Msac.Spec
/-!
# What the specification says about the probability tables of a frame

A table is one row of a member of `CdfContext`. The specification (AV1 spec 5.9.2, 7.20, 8.3.1, 8.3.2) keeps a complete
set of tables per frame: they start with the default tables or with all the tables saved with the primary reference
frame, every tile starts with a copy of them, the tables at the end of the tile `context_update_tile_id` replace them
if `disable_frame_end_update_cdf` is 0, with cleared counters, and the result is saved in all refreshed slots. The
tables for block vectors (intra block copy) are separate from those for motion vectors (`MvCtx`).

Nothing here refers to the functions of src/cdf.c; only the numbers of the default tables and the names of the members
are taken from there.
-/
namespace Dav1d.CdfTab

/-- The initialisers of `default_cdf.m`, src/cdf.c:78-611. -/
def modeRows : ModeF → List (List Nat)
  | .uvMode => mode_uvMode
  | .partition => mode_partition
  | .cflAlpha => mode_cflAlpha
  | .txtpInter1 => mode_txtpInter1
  | .txtpInter2 => mode_txtpInter2
  | .txtpIntra1 => mode_txtpIntra1
  | .txtpIntra2 => mode_txtpIntra2
  | .cflSign => mode_cflSign
  | .angleDelta => mode_angleDelta
  | .filterIntra => mode_filterIntra
  | .segId => mode_segId
  | .palSz => mode_palSz
  | .colorMap => mode_colorMap
  | .txsz => mode_txsz
  | .deltaQ => mode_deltaQ
  | .deltaLf => mode_deltaLf
  | .restoreSwitchable => mode_restoreSwitchable
  | .restoreWiener => mode_restoreWiener
  | .restoreSgrproj => mode_restoreSgrproj
  | .txtpInter3 => mode_txtpInter3
  | .useFilterIntra => mode_useFilterIntra
  | .txpart => mode_txpart
  | .skip => mode_skip
  | .palY => mode_palY
  | .palUv => mode_palUv
  | .intrabc => mode_intrabc
  | .yMode => mode_yMode
  | .wedgeIdx => mode_wedgeIdx
  | .compInterMode => mode_compInterMode
  | .filter => mode_filter
  | .interintraMode => mode_interintraMode
  | .motionMode => mode_motionMode
  | .skipMode => mode_skipMode
  | .newmvMode => mode_newmvMode
  | .globalmvMode => mode_globalmvMode
  | .refmvMode => mode_refmvMode
  | .drlBit => mode_drlBit
  | .intra => mode_intra
  | .comp => mode_comp
  | .compDir => mode_compDir
  | .jntComp => mode_jntComp
  | .maskComp => mode_maskComp
  | .wedgeComp => mode_wedgeComp
  | .ref => mode_ref
  | .compFwdRef => mode_compFwdRef
  | .compBwdRef => mode_compBwdRef
  | .compUniRef => mode_compUniRef
  | .segPred => mode_segPred
  | .interintra => mode_interintra
  | .interintraWedge => mode_interintraWedge
  | .obmc => mode_obmc

/-- The initialisers of `default_cdf.mv.comp`, src/cdf.c:613-635. -/
def mvRows : MvF → List (List Nat)
  | .classes => mv_classes
  | .sign => mv_sign
  | .class0 => mv_class0
  | .class0Fp => mv_class0Fp
  | .class0Hp => mv_class0Hp
  | .classN => mv_classN
  | .classNFp => mv_classNFp
  | .classNHp => mv_classNHp

/-- The initialisers of `default_coef_cdf[q]`, src/cdf.c:699-3953; there are four. -/
def coefRows (q : Nat) : CoefF → List (List Nat)
  | .eobBin16 => match q with | 0 => coef0_eobBin16 | 1 => coef1_eobBin16 | 2 => coef2_eobBin16 | 3 => coef3_eobBin16 | _ => []
  | .eobBin32 => match q with | 0 => coef0_eobBin32 | 1 => coef1_eobBin32 | 2 => coef2_eobBin32 | 3 => coef3_eobBin32 | _ => []
  | .eobBin64 => match q with | 0 => coef0_eobBin64 | 1 => coef1_eobBin64 | 2 => coef2_eobBin64 | 3 => coef3_eobBin64 | _ => []
  | .eobBin128 => match q with | 0 => coef0_eobBin128 | 1 => coef1_eobBin128 | 2 => coef2_eobBin128 | 3 => coef3_eobBin128 | _ => []
  | .eobBin256 => match q with | 0 => coef0_eobBin256 | 1 => coef1_eobBin256 | 2 => coef2_eobBin256 | 3 => coef3_eobBin256 | _ => []
  | .eobBin512 => match q with | 0 => coef0_eobBin512 | 1 => coef1_eobBin512 | 2 => coef2_eobBin512 | 3 => coef3_eobBin512 | _ => []
  | .eobBin1024 => match q with | 0 => coef0_eobBin1024 | 1 => coef1_eobBin1024 | 2 => coef2_eobBin1024 | 3 => coef3_eobBin1024 | _ => []
  | .eobBaseTok => match q with | 0 => coef0_eobBaseTok | 1 => coef1_eobBaseTok | 2 => coef2_eobBaseTok | 3 => coef3_eobBaseTok | _ => []
  | .baseTok => match q with | 0 => coef0_baseTok | 1 => coef1_baseTok | 2 => coef2_baseTok | 3 => coef3_baseTok | _ => []
  | .brTok => match q with | 0 => coef0_brTok | 1 => coef1_brTok | 2 => coef2_brTok | 3 => coef3_brTok | _ => []
  | .eobHiBit => match q with | 0 => coef0_eobHiBit | 1 => coef1_eobHiBit | 2 => coef2_eobHiBit | 3 => coef3_eobHiBit | _ => []
  | .skip => match q with | 0 => coef0_skip | 1 => coef1_skip | 2 => coef2_skip | 3 => coef3_skip | _ => []
  | .dcSign => match q with | 0 => coef0_dcSign | 1 => coef1_dcSign | 2 => coef2_dcSign | 3 => coef3_dcSign | _ => []

/-- The default rows of a member; `q` selects the coefficient tables. Both motion vector components have the same. -/
def initRows (q : Nat) : Field → List (List Nat)
  | .coef f => coefRows q f
  | .mode f => modeRows f
  | .mv _ f => mvRows f
  | .joint => mv_joint
  | .kfym => kfym_

/-- A table: a row of a member. -/
structure Tab where
  field : Field
  row : Nat
  deriving DecidableEq

/-- Number of probabilities of a table, one less than the number of symbols: the argument `n_symbols` where the table
is read, src/decode.c:80-112 (motion vectors), 426, 832-1197, 1394-1855, 2143-2231, 2522-2528 and src/recon_tmpl.c:341-613,
2182. The row index of a table with several dimensions is the flattened index. -/
def nsym : Field → Nat → Nat
  | .coef .eobBin16, _ => 4
  | .coef .eobBin32, _ => 5
  | .coef .eobBin64, _ => 6
  | .coef .eobBin128, _ => 7
  | .coef .eobBin256, _ => 8
  | .coef .eobBin512, _ => 9
  | .coef .eobBin1024, _ => 10
  | .coef .eobBaseTok, _ => 2
  | .coef .baseTok, _ => 3
  | .coef .brTok, _ => 3
  | .coef .eobHiBit, _ => 1
  | .coef .skip, _ => 1
  | .coef .dcSign, _ => 1
  /- `[cfl_allowed][y_mode]`: one mode more if chroma from luma is allowed -/
  | .mode .uvMode, r => if r / 13 = 0 then 12 else 13
  /- `[block level][ctx]`: 8 partitions of 128x128, 10 in between, 4 of 8x8 -/
  | .mode .partition, r => if r / 4 = 0 then 7 else if r / 4 = 4 then 3 else 9
  | .mode .cflAlpha, _ => 15
  | .mode .txtpInter1, _ => 15
  | .mode .txtpInter2, _ => 11
  | .mode .txtpIntra1, _ => 6
  | .mode .txtpIntra2, _ => 4
  | .mode .cflSign, _ => 7
  | .mode .angleDelta, _ => 6
  | .mode .filterIntra, _ => 4
  | .mode .segId, _ => 7
  | .mode .palSz, _ => 6
  /- `[plane][palette size - 2][ctx]`: as many symbols as colours -/
  | .mode .colorMap, r => r / 5 % 7 + 1
  /- `[largest size - 1][ctx]`: two choices for 8x8, else three -/
  | .mode .txsz, r => if r / 3 = 0 then 1 else 2
  | .mode .deltaQ, _ => 3
  | .mode .deltaLf, _ => 3
  | .mode .restoreSwitchable, _ => 2
  | .mode .yMode, _ => 12
  | .mode .wedgeIdx, _ => 15
  | .mode .compInterMode, _ => 7
  | .mode .filter, _ => 2
  | .mode .interintraMode, _ => 3
  | .mode .motionMode, _ => 2
  | .mode _, _ => 1
  | .mv _ .classes, _ => 10
  | .mv _ .class0Fp, _ => 3
  | .mv _ .classNFp, _ => 3
  | .mv _ _, _ => 1
  | .joint, _ => 3
  | .kfym, _ => 12

/-- Number of probabilities of a table. -/
def Tab.n (t : Tab) : Nat := nsym t.field t.row

/-- Key and intra only frames, or inter and switch frames. -/
inductive Kind where
  | intra
  | inter
  deriving DecidableEq

/-- Members that only frames with inter prediction read, src/decode.c:1038-1039 (`IS_INTER_OR_SWITCH`) and the branches
below. -/
def interOnly : ModeF → Bool
  | .yMode | .wedgeIdx | .compInterMode | .filter | .interintraMode | .motionMode | .skipMode | .newmvMode
  | .globalmvMode | .refmvMode | .drlBit | .intra | .comp | .compDir | .jntComp | .maskComp | .wedgeComp | .ref
  | .compFwdRef | .compBwdRef | .compUniRef | .segPred | .interintra | .interintraWedge | .obmc => true
  | _ => false

/-- Rows of a member that a block can select. Overlapped and warped prediction need 8 pixels in both directions
(src/decode.c:1769: no blocks of size 16x4, 8x4, 4x16, 4x8, 4x4), and there are four block size groups for
inter-intra prediction (src/decode.c:1748). -/
def rowUsed (f : Field) (r : Nat) : Bool :=
  decide (r < f.rows) &&
  match f with
  | .mode .motionMode | .mode .obmc => !([14, 18, 19, 20, 21].contains r)
  | .mode .interintra => decide (r < 4)
  | _ => true

/-- The tables that a frame may read: intra frames everything but `interOnly` members (motion vector tables are read
for block vectors), inter frames everything but the tables of `intrabc` (src/decode.c:1043-1044) and of `kfym`
(src/decode.c:1053-1057). -/
def Tab.readBy (t : Tab) (k : Kind) : Bool :=
  rowUsed t.field t.row &&
  match k, t.field with
  | .intra, .mode f => !interOnly f
  | .intra, _ => true
  | .inter, .mode .intrabc => false
  | .inter, .kfym => false
  | .inter, _ => true

/-- A table that frames of kind `k` may read. -/
abbrev RTab (k : Kind) : Type := { t : Tab // t.readBy k = true }

/-- What a tile sees of the tables when it starts. -/
abbrev View (k : Kind) : Type := RTab k → SpecCdf

/-- A tile: which symbols it decodes with which tables, depending in any way on the contents of the tables it may
read. (The symbols are those of the table.) -/
structure Tile (k : Kind) where
  run : View k → List (RTab k × Nat)
  ok : ∀ v, ∀ e ∈ run v, e.2 ≤ e.1.1.n

/-- A frame: kind, slot of the primary reference frame if there is one, `base_q_idx`,
`disable_frame_end_update_cdf == 0`, tiles, `context_update_tile_id`, refreshed slots. -/
structure Frame where
  kind : Kind
  primary : Option Nat
  qidx : Nat
  refreshContext : Bool
  tiles : List (Tile kind)
  update : Nat
  refresh : Nat → Bool

/-- What happens to the saved tables: a frame is decoded; a key frame in a slot is shown again and refreshes all slots
(AV1 spec 7.21); slots are dropped. -/
inductive Ev where
  | frame (f : Frame)
  | showKey (slot : Nat)
  | drop (slots : Nat → Bool)

/-- Frames without inter prediction have no primary reference frame (AV1 spec 5.9.2:
`if (FrameIsIntra || error_resilient_mode) primary_ref_frame = PRIMARY_REF_NONE`). -/
def Ev.WF : Ev → Prop
  | .frame f => f.kind = .intra → f.primary = none
  | _ => True

namespace Spec

/-- The tables of the specification: block vectors have tables of their own (`MvCtx = MV_INTRABC_CONTEXT`). -/
inductive Id where
  | main (t : Tab)
  | blockVector (t : Tab)
  deriving DecidableEq

/-- A complete set of tables. -/
abbrev Tables := Id → SpecCdf

/-- Which coefficient tables belong to a `base_q_idx` (AV1 spec, init_coeff_cdfs). -/
def qcat (qidx : Nat) : Nat := if qidx ≤ 20 then 0 else if qidx ≤ 60 then 1 else if qidx ≤ 120 then 2 else 3

/-- A default table: the listed values, 32768 for the last symbol, counter 0. -/
def defaultCdf (q : Nat) (t : Tab) : SpecCdf := ⟨(initRows q t.field).getD t.row [] ++ [32768], 0⟩

/-- All default tables (AV1 spec, init_non_coeff_cdfs and init_coeff_cdfs). -/
def defaults (qidx : Nat) : Tables
  | .main t => defaultCdf (qcat qidx) t
  | .blockVector t => defaultCdf (qcat qidx) t

/-- Whether a member belongs to the motion vector tables. -/
def isMv : Field → Bool
  | .mv _ _ => true
  | .joint => true
  | _ => false

/-- The table of the specification that a frame uses. -/
def ident (k : Kind) (t : Tab) : Id := if k = .intra ∧ isMv t.field = true then .blockVector t else .main t

/-- What a tile sees. -/
def view (k : Kind) (s : Tables) : View k := fun t => s (ident k t.1)

/-- Adapt a table. -/
def adapt (k : Kind) (s : Tables) (e : RTab k × Nat) : Tables :=
  fun i => if i = ident k e.1.1 then (s i).adapt e.2 else s i

/-- The tables at the end of a tile. -/
def runTile {k : Kind} (s : Tables) (t : Tile k) : Tables := (t.run (view k s)).foldl (adapt k) s

/-- Clear the counters. -/
def clear (s : Tables) : Tables := fun i => { s i with count := 0 }

/-- The tables a frame starts with. -/
def start (slots : Nat → Option Tables) (f : Frame) : Option Tables :=
  match f.primary with
  | none => some (defaults f.qidx)
  | some i => slots i

/-- The tables a frame saves. -/
def finish (f : Frame) (s : Tables) : Option Tables :=
  if f.refreshContext then f.tiles[f.update]?.map (fun t => clear (runTile s t)) else some s

/-- One event: new slots and, for a frame, what its tiles see when they start. -/
def step (slots : Nat → Option Tables) : Ev → Option ((Nat → Option Tables) × List (Σ k, View k))
  | .frame f =>
    match start slots f with
    | none => none
    | some s =>
      match finish f s with
      | none => none
      | some e => some (fun i => if f.refresh i then some e else slots i, [⟨f.kind, view f.kind s⟩])
  | .showKey j => some (fun _ => slots j, [])
  | .drop d => some (fun i => if d i then none else slots i, [])

/-- A sequence of events: what the tiles of each frame see. `none` if a frame refers to an empty slot or has no tile
`context_update_tile_id`. -/
def session : (Nat → Option Tables) → List Ev → Option (List (Σ k, View k))
  | _, [] => some []
  | slots, e :: l =>
    match step slots e with
    | none => none
    | some (slots, o) => (session slots l).map (o ++ ·)

end Spec
end Dav1d.CdfTab
