import Verif.Cdf.Spec
import Verif.Msac.Refine
/-!
# Model of src/cdf.c:3955-4110 and of the handling of the tables of a frame

The contents of a `CdfContext` are a function from member and word index to the word. Copies of several members at once
are copies of ranges of word offsets, as in the C code; they depend on the layout in `Layout.lean`.
-/
namespace Dav1d.CdfTab

/-- The contents of a `CdfContext`, src/cdf.h:129-134. Padding is not represented. -/
abbrev Mem := Field → Nat → Nat

/-- A word of an initialised member: `CDF1(x)` is `32768 - x`, words without initialiser are 0 (src/cdf.c:37, 77-3953). -/
def initWord (rows : List (List Nat)) (width i : Nat) : Nat :=
  match (rows.getD (i / width) [])[i % width]? with
  | some x => 32768 - x
  | none => 0

/-- The word at offset `w` of `default_cdf`, src/cdf.c:77-697; 0 in the padding. -/
def defWord (w : Nat) : Nat :=
  match defFields.find? (fun f => decide (defOff f ≤ w ∧ w < defOff f + f.size)) with
  | some f => initWord (initRows 0 f) f.width (w - defOff f)
  | none => 0

/-- The second case of `dav1d_cdf_thread_copy`, src/cdf.c:4072-4076: `coef` is copied from `default_coef_cdf[qcat]`, then
`offsetof(CdfDefaultContext, mv.joint)` bytes to `m`, then everything from `mv.comp` on to `mv.comp[1]`. -/
def copyStatic (qcat : Nat) (dst : Mem) : Mem :=
  let d1 : Mem := fun f i =>
    match f with
    | .coef c => initWord (coefRows qcat c) f.width i
    | _ => dst f i
  let d2 : Mem := fun f i =>
    if ctxM ≤ ctxOff f + i ∧ ctxOff f + i < ctxM + defOff .joint then defWord (ctxOff f + i - ctxM) else d1 f i
  fun f i =>
    let comp1 := ctxMv + mvCompSize
    if comp1 ≤ ctxOff f + i ∧ ctxOff f + i < comp1 + (defSize - defMv) then defWord (ctxOff f + i - comp1 + defMv)
    else d2 f i

/-- `CdfThreadContext`, src/cdf.h:136-143: static tables, or allocated ones. -/
inductive Thread where
  | static (qcat : Nat)
  | mem (m : Mem)

/-- `dav1d_cdf_thread_init_static`, src/cdf.c:4063-4066. -/
def initStatic (qidx : Nat) : Thread :=
  .static ((if qidx > 20 then 1 else 0) + (if qidx > 60 then 1 else 0) + (if qidx > 120 then 1 else 0))

/-- `dav1d_cdf_thread_copy`, src/cdf.c:4068-4078. -/
def threadCopy (dst : Mem) : Thread → Mem
  | .mem m => m
  | .static q => copyStatic q dst

/-- `update_cdf_1d`, src/cdf.c:3959-3962, applied to the row starting at word `base` of a member: the word cleared. -/
def upd1 (base n1d : Nat) : List Nat := [base + n1d]

/-- `update_cdf_2d`, src/cdf.c:3963-3964, applied to a subarray starting at word `base`. -/
def upd2 (f : Field) (base n1d n2d : Nat) : List Nat :=
  (List.range n1d).flatMap (fun j => upd1 (base + j * f.width) n2d)

/-- `update_cdf_3d`, src/cdf.c:3965-3966; the last argument may depend on the index `k`. The second to last
dimension is `dim2`. -/
def upd3 (f : Field) (dim2 base n1d n2d : Nat) (n3d : Nat → Nat) : List Nat :=
  (List.range n1d).flatMap (fun k => upd2 f (base + k * dim2 * f.width) n2d (n3d k))

/-- `update_cdf_4d`, src/cdf.c:3967-3968. -/
def upd4 (f : Field) (dim2 dim3 n1d n2d n3d : Nat) (n4d : Nat → Nat) : List Nat :=
  (List.range n1d).flatMap (fun l => upd3 f dim3 (l * dim2 * dim3 * f.width) n2d n3d n4d)

/-- Second to last dimension of a member (src/cdf.h:39-134). -/
def Field.dim (f : Field) : Nat := f.decl.dims.dropLast.getLastD 1

/-- Third to last dimension of a member (src/cdf.h:39-134). -/
def Field.dim' (f : Field) : Nat := f.decl.dims.dropLast.dropLast.getLastD 1

/-- `update_cdf_1d(n, f)` for a member, src/cdf.c:3959-3962. -/
def u1 (n : Nat) (f : Field) : Field × List Nat := (f, upd1 0 n)

/-- `update_cdf_2d(n1, n2, f)` for a member, src/cdf.c:3963-3964. -/
def u2 (n1 n2 : Nat) (f : Field) : Field × List Nat := (f, upd2 f 0 n1 n2)

/-- `update_cdf_3d(n1, n2, n3, f)` for a member, src/cdf.c:3965-3966. -/
def u3 (n1 n2 : Nat) (n3 : Nat → Nat) (f : Field) : Field × List Nat := (f, upd3 f f.dim 0 n1 n2 n3)

/-- `update_cdf_4d(n1, n2, n3, n4, f)` for a member, src/cdf.c:3967-3968. -/
def u4 (n1 n2 n3 : Nat) (n4 : Nat → Nat) (f : Field) : Field × List Nat := (f, upd4 f f.dim' f.dim n1 n2 n3 n4)

/-- `update_cdf_2d(4, n, m.partition[bl])`, src/cdf.c:3987-3990. -/
def uPartition (bl n : Nat) : Field × List Nat :=
  (.mode .partition, upd2 (.mode .partition) (bl * Field.dim (.mode .partition) * Field.width (.mode .partition)) 4 n)

/-- The words cleared in every frame, src/cdf.c:3972-4012. -/
def commonStores : List (Field × List Nat) := [
  u3 2 2 (fun _ => 4) (.coef .eobBin16),
  u3 2 2 (fun _ => 5) (.coef .eobBin32),
  u3 2 2 (fun _ => 6) (.coef .eobBin64),
  u3 2 2 (fun _ => 7) (.coef .eobBin128),
  u3 2 2 (fun _ => 8) (.coef .eobBin256),
  u2 2 9 (.coef .eobBin512),
  u2 2 10 (.coef .eobBin1024),
  u4 5 2 4 (fun _ => 2) (.coef .eobBaseTok),
  u4 5 2 41 (fun _ => 3) (.coef .baseTok),
  u4 4 2 21 (fun _ => 3) (.coef .brTok),
  u4 5 2 11 (fun _ => 1) (.coef .eobHiBit),
  u3 5 13 (fun _ => 1) (.coef .skip),
  u3 2 3 (fun _ => 1) (.coef .dcSign),
  u3 2 13 (fun k => 14 - 1 - (if k = 0 then 1 else 0)) (.mode .uvMode),
  uPartition 0 (10 - 3),
  uPartition 1 (10 - 1),
  uPartition 2 (10 - 1),
  uPartition 3 (10 - 1),
  uPartition 4 (4 - 1),
  u2 6 15 (.mode .cflAlpha),
  u2 2 15 (.mode .txtpInter1),
  u1 11 (.mode .txtpInter2),
  u3 2 13 (fun _ => 6) (.mode .txtpIntra1),
  u3 3 13 (fun _ => 4) (.mode .txtpIntra2),
  u1 7 (.mode .cflSign),
  u2 8 6 (.mode .angleDelta),
  u1 4 (.mode .filterIntra),
  u2 3 (8 - 1) (.mode .segId),
  u3 2 7 (fun _ => 6) (.mode .palSz),
  u4 2 7 5 (fun k => k + 1) (.mode .colorMap),
  u3 (5 - 1) 3 (fun k => min (k + 1) 2) (.mode .txsz),
  u1 3 (.mode .deltaQ),
  u2 5 3 (.mode .deltaLf),
  u1 2 (.mode .restoreSwitchable),
  u1 1 (.mode .restoreWiener),
  u1 1 (.mode .restoreSgrproj),
  u2 4 1 (.mode .txtpInter3),
  u2 22 1 (.mode .useFilterIntra),
  u3 7 3 (fun _ => 1) (.mode .txpart),
  u2 3 1 (.mode .skip),
  u3 7 3 (fun _ => 1) (.mode .palY),
  u2 2 1 (.mode .palUv)]

/-- The words cleared in inter frames, src/cdf.c:4020-4057. -/
def interStores : List (Field × List Nat) := [
  u2 4 (13 - 1) (.mode .yMode),
  u2 9 15 (.mode .wedgeIdx),
  u2 8 (8 - 1) (.mode .compInterMode),
  u3 2 8 (fun _ => 3 - 1) (.mode .filter),
  u2 4 3 (.mode .interintraMode),
  u2 22 2 (.mode .motionMode),
  u2 3 1 (.mode .skipMode),
  u2 6 1 (.mode .newmvMode),
  u2 2 1 (.mode .globalmvMode),
  u2 6 1 (.mode .refmvMode),
  u2 3 1 (.mode .drlBit),
  u2 4 1 (.mode .intra),
  u2 5 1 (.mode .comp),
  u2 5 1 (.mode .compDir),
  u2 6 1 (.mode .jntComp),
  u2 6 1 (.mode .maskComp),
  u2 9 1 (.mode .wedgeComp),
  u3 6 3 (fun _ => 1) (.mode .ref),
  u3 3 3 (fun _ => 1) (.mode .compFwdRef),
  u3 2 3 (fun _ => 1) (.mode .compBwdRef),
  u3 3 3 (fun _ => 1) (.mode .compUniRef),
  u2 3 1 (.mode .segPred),
  u2 4 1 (.mode .interintra),
  u2 7 1 (.mode .interintraWedge),
  u2 22 1 (.mode .obmc),
  u1 10 (.mv false .classes), u1 10 (.mv true .classes),
  u1 1 (.mv false .sign), u1 1 (.mv true .sign),
  u1 1 (.mv false .class0), u1 1 (.mv true .class0),
  u2 2 3 (.mv false .class0Fp), u2 2 3 (.mv true .class0Fp),
  u1 1 (.mv false .class0Hp), u1 1 (.mv true .class0Hp),
  u2 10 1 (.mv false .classN), u2 10 1 (.mv true .classN),
  u1 3 (.mv false .classNFp), u1 3 (.mv true .classNFp),
  u1 1 (.mv false .classNHp), u1 1 (.mv true .classNHp),
  u1 (4 - 1) .joint]

/-- The words of a member among those cleared (src/cdf.c:3959-4057). -/
def storesTo (l : List (Field × List Nat)) (f : Field) : List Nat := (l.filter (fun p => p.1 = f)).flatMap (·.2)

/-- Store 0 to words (src/cdf.c:3959-4057). -/
def zero (l : List (Field × List Nat)) (m : Mem) : Mem := fun f i => if i ∈ storesTo l f then 0 else m f i

/-- `dav1d_cdf_thread_update`, src/cdf.c:3955-4058. -/
def threadUpdate (k : Kind) (dst src : Mem) : Mem :=
  let d1 : Mem := fun f i => if ctxOff f + i < ctxOff (.mode .intrabc) then src f i else dst f i
  let d2 := zero commonStores d1
  match k with
  | .intra => d2
  | .inter =>
    let d3 : Mem := fun f i =>
      if ctxOff (.mode .yMode) ≤ ctxOff f + i ∧
          ctxOff f + i < ctxOff (.mode .yMode) + (ctxOff .kfym - ctxOff (.mode .yMode)) then src f i else d2 f i
    zero interStores d3

/-- The array that the symbol decoder gets for a table: its probabilities and its counter (the pointer arguments of the
calls listed at `nsym`, e.g. src/decode.c:81). -/
def Mem.row (m : Mem) (t : Tab) : List Nat := (List.range (t.n + 1)).map (fun i => m t.field (t.row * t.field.width + i))

/-- The adaptation of a table by the symbol decoder, src/msac.c:155-162, in place. -/
def Mem.adapt (m : Mem) (t : Tab) (sym : Nat) : Mem := fun f i =>
  if f = t.field ∧ t.row * t.field.width ≤ i ∧ i ≤ t.row * t.field.width + t.n then
    (Msac.adaptCdf (m.row t) t.n sym).getD (i - t.row * t.field.width) 0
  else m f i

/-- What a tile sees of its tables, in the representation of the specification (src/decode.c:2454). -/
def Mem.view (k : Kind) (m : Mem) : View k := fun t => toSpec (m.row t.1)

/-- The tables of a tile at its end (adaptation in place in `ts->cdf`, e.g. src/decode.c:81; never with
`disable_cdf_update`, where the tile's decoder does not adapt - that is a frame without `refreshContext`). -/
def runTile {k : Kind} (m : Mem) (t : Tile k) : Mem := (t.run (m.view k)).foldl (fun m e => m.adapt e.1.1 e.2) m

/-- `f->in_cdf`, src/decode.c:3493-3499. -/
def frameIn (slots : Nat → Option Thread) (f : Frame) : Option Thread :=
  match f.primary with
  | none => some (initStatic f.qidx)
  | some i => slots i

/-- What is saved in the refreshed slots, src/decode.c:3676-3683: `f->out_cdf` with `refresh_context`, else `f->in_cdf`.
`out_cdf` starts as a copy of `in_cdf` (src/decode.c:3148-3149; `junk` is the old memory) and is updated from the
tables of the tile `tiling.update` (src/decode.c:3311-3313, src/thread_task.c:784-792), whose tables started as a copy of
`in_cdf`, too (src/decode.c:2454). -/
def frameOut (junk : Mem) (f : Frame) (t : Thread) : Option Thread :=
  if f.refreshContext then
    f.tiles[f.update]?.map (fun tile => .mem (threadUpdate f.kind (threadCopy junk t) (runTile (threadCopy junk t) tile)))
  else some t

/-- One event: the slots `c->cdf` afterwards (src/decode.c:3676-3683; src/obu.c:1662-1680 for a shown key frame;
src/obu.c:1289-1295, src/decode.c:3702-3710 and src/lib.c:539 where slots are dropped) and, for a frame, what its tiles
see at the start. With several frame contexts, this is the order in which the frames are submitted: a frame waits for
`in_cdf` (src/thread_task.c:585-586, 697). Frames that fail are not modelled here, but for dropping their slots. -/
def step (junk : Mem) (slots : Nat → Option Thread) : Ev → Option ((Nat → Option Thread) × List (Σ k, View k))
  | .frame f =>
    match frameIn slots f with
    | none => none
    | some t =>
      match frameOut junk f t with
      | none => none
      | some e => some (fun i => if f.refresh i then some e else slots i, [⟨f.kind, (threadCopy junk t).view f.kind⟩])
  | .showKey j => some (fun i => if i = j then slots i else slots j, [])
  | .drop d => some (fun i => if d i then none else slots i, [])

/-- A sequence of events (the calls of src/decode.c:3442-3745 and src/obu.c:1571-1690 one after the other): what the
tiles of each frame see. -/
def session (junk : Mem) : (Nat → Option Thread) → List Ev → Option (List (Σ k, View k))
  | _, [] => some []
  | slots, e :: l =>
    match step junk slots e with
    | none => none
    | some (slots, o) => (session junk slots l).map (o ++ ·)

end Dav1d.CdfTab
