/-!
# Layout of the probability tables, src/cdf.h:39-134

Offsets and sizes are counted in 16-bit words: every member is an array of `uint16_t`. The layout rules are those of C:
a member starts at the next multiple of its alignment, a structure is padded to its largest alignment.
-/
namespace Dav1d.CdfTab

/-- A member `ALIGN(uint16_t name[dims...], align)`, src/cdf.h:39-134 (alignment in bytes). -/
structure Decl where
  dims : List Nat
  align : Nat

/-- Number of rows: product of all dimensions but the last (src/cdf.h:39-134). -/
def Decl.rows (d : Decl) : Nat := d.dims.dropLast.foldl (· * ·) 1

/-- Words per row: the last dimension (src/cdf.h:39-134). -/
def Decl.width (d : Decl) : Nat := d.dims.getLastD 1

/-- Words of a member (src/cdf.h:39-134). -/
def Decl.size (d : Decl) : Nat := d.rows * d.width

/-- Round up to a multiple of `a` (layout rule of C for src/cdf.h:39-134). -/
def alignUp (x a : Nat) : Nat := (x + a - 1) / a * a

/-- Offsets of the members of a structure whose first free word is `pos` (layout rule of C for src/cdf.h:39-134). -/
def place {F : Type} (decl : F → Decl) : Nat → List F → List (F × Nat)
  | _, [] => []
  | pos, f :: fs =>
    let o := alignUp pos ((decl f).align / 2)
    (f, o) :: place decl (o + (decl f).size) fs

/-- Offset of a member, given the list of placed members (src/cdf.h:39-134). -/
def offsetIn {F : Type} [DecidableEq F] (l : List (F × Nat)) (f : F) : Nat :=
  ((l.find? (fun p => p.1 = f)).map (·.2)).getD 0

/-- `sizeof` of a structure with alignment 32 bytes = 16 words (all structures of src/cdf.h:39-134 contain a member with
that alignment). -/
def sizeOf16 {F : Type} (decl : F → Decl) (l : List (F × Nat)) : Nat :=
  alignUp (l.foldl (fun m p => max m (p.2 + (decl p.1).size)) 0) 16

/-- The members of `CdfModeContext`, src/cdf.h:39-95. -/
inductive ModeF where
  | uvMode | partition | cflAlpha | txtpInter1 | txtpInter2 | txtpIntra1 | txtpIntra2 | cflSign | angleDelta
  | filterIntra | segId | palSz | colorMap | txsz | deltaQ | deltaLf | restoreSwitchable | restoreWiener
  | restoreSgrproj | txtpInter3 | useFilterIntra | txpart | skip | palY | palUv | intrabc | yMode | wedgeIdx
  | compInterMode | filter | interintraMode | motionMode | skipMode | newmvMode | globalmvMode | refmvMode
  | drlBit | intra | comp | compDir | jntComp | maskComp | wedgeComp | ref | compFwdRef | compBwdRef
  | compUniRef | segPred | interintra | interintraWedge | obmc
  deriving DecidableEq, Repr

/-- Declarations of the members of `CdfModeContext`, src/cdf.h:39-95. -/
def ModeF.decl : ModeF → Decl
  | .uvMode => ⟨[2, 13, 16], 32⟩
  | .partition => ⟨[5, 4, 16], 32⟩
  | .cflAlpha => ⟨[6, 16], 32⟩
  | .txtpInter1 => ⟨[2, 16], 32⟩
  | .txtpInter2 => ⟨[16], 32⟩
  | .txtpIntra1 => ⟨[2, 13, 8], 16⟩
  | .txtpIntra2 => ⟨[3, 13, 8], 16⟩
  | .cflSign => ⟨[8], 16⟩
  | .angleDelta => ⟨[8, 8], 16⟩
  | .filterIntra => ⟨[8], 16⟩
  | .segId => ⟨[3, 8], 16⟩
  | .palSz => ⟨[2, 7, 8], 16⟩
  | .colorMap => ⟨[2, 7, 5, 8], 16⟩
  | .txsz => ⟨[4, 3, 4], 8⟩
  | .deltaQ => ⟨[4], 8⟩
  | .deltaLf => ⟨[5, 4], 8⟩
  | .restoreSwitchable => ⟨[4], 8⟩
  | .restoreWiener => ⟨[2], 4⟩
  | .restoreSgrproj => ⟨[2], 4⟩
  | .txtpInter3 => ⟨[4, 2], 4⟩
  | .useFilterIntra => ⟨[22, 2], 4⟩
  | .txpart => ⟨[7, 3, 2], 4⟩
  | .skip => ⟨[3, 2], 4⟩
  | .palY => ⟨[7, 3, 2], 4⟩
  | .palUv => ⟨[2, 2], 4⟩
  | .intrabc => ⟨[2], 4⟩
  | .yMode => ⟨[4, 16], 32⟩
  | .wedgeIdx => ⟨[9, 16], 32⟩
  | .compInterMode => ⟨[8, 8], 16⟩
  | .filter => ⟨[2, 8, 4], 8⟩
  | .interintraMode => ⟨[4, 4], 8⟩
  | .motionMode => ⟨[22, 4], 8⟩
  | .skipMode => ⟨[3, 2], 4⟩
  | .newmvMode => ⟨[6, 2], 4⟩
  | .globalmvMode => ⟨[2, 2], 4⟩
  | .refmvMode => ⟨[6, 2], 4⟩
  | .drlBit => ⟨[3, 2], 4⟩
  | .intra => ⟨[4, 2], 4⟩
  | .comp => ⟨[5, 2], 4⟩
  | .compDir => ⟨[5, 2], 4⟩
  | .jntComp => ⟨[6, 2], 4⟩
  | .maskComp => ⟨[6, 2], 4⟩
  | .wedgeComp => ⟨[9, 2], 4⟩
  | .ref => ⟨[6, 3, 2], 4⟩
  | .compFwdRef => ⟨[3, 3, 2], 4⟩
  | .compBwdRef => ⟨[2, 3, 2], 4⟩
  | .compUniRef => ⟨[3, 3, 2], 4⟩
  | .segPred => ⟨[3, 2], 4⟩
  | .interintra => ⟨[7, 2], 4⟩
  | .interintraWedge => ⟨[7, 2], 4⟩
  | .obmc => ⟨[22, 2], 4⟩

/-- The members of `CdfModeContext` in the order of src/cdf.h:39-95. -/
def ModeF.all : List ModeF :=
  [.uvMode, .partition, .cflAlpha, .txtpInter1, .txtpInter2, .txtpIntra1, .txtpIntra2, .cflSign, .angleDelta,
   .filterIntra, .segId, .palSz, .colorMap, .txsz, .deltaQ, .deltaLf, .restoreSwitchable, .restoreWiener,
   .restoreSgrproj, .txtpInter3, .useFilterIntra, .txpart, .skip, .palY, .palUv, .intrabc, .yMode, .wedgeIdx,
   .compInterMode, .filter, .interintraMode, .motionMode, .skipMode, .newmvMode, .globalmvMode, .refmvMode,
   .drlBit, .intra, .comp, .compDir, .jntComp, .maskComp, .wedgeComp, .ref, .compFwdRef, .compBwdRef,
   .compUniRef, .segPred, .interintra, .interintraWedge, .obmc]

/-- The members of `CdfCoefContext`, src/cdf.h:97-111. -/
inductive CoefF where
  | eobBin16 | eobBin32 | eobBin64 | eobBin128 | eobBin256 | eobBin512 | eobBin1024 | eobBaseTok | baseTok
  | brTok | eobHiBit | skip | dcSign
  deriving DecidableEq, Repr

/-- Declarations of the members of `CdfCoefContext`, src/cdf.h:97-111. -/
def CoefF.decl : CoefF → Decl
  | .eobBin16 => ⟨[2, 2, 8], 16⟩
  | .eobBin32 => ⟨[2, 2, 8], 16⟩
  | .eobBin64 => ⟨[2, 2, 8], 16⟩
  | .eobBin128 => ⟨[2, 2, 8], 16⟩
  | .eobBin256 => ⟨[2, 2, 16], 32⟩
  | .eobBin512 => ⟨[2, 16], 32⟩
  | .eobBin1024 => ⟨[2, 16], 32⟩
  | .eobBaseTok => ⟨[5, 2, 4, 4], 8⟩
  | .baseTok => ⟨[5, 2, 41, 4], 8⟩
  | .brTok => ⟨[4, 2, 21, 4], 8⟩
  | .eobHiBit => ⟨[5, 2, 11, 2], 4⟩
  | .skip => ⟨[5, 13, 2], 4⟩
  | .dcSign => ⟨[2, 3, 2], 4⟩

/-- The members of `CdfCoefContext` in the order of src/cdf.h:97-111. -/
def CoefF.all : List CoefF :=
  [.eobBin16, .eobBin32, .eobBin64, .eobBin128, .eobBin256, .eobBin512, .eobBin1024, .eobBaseTok, .baseTok,
   .brTok, .eobHiBit, .skip, .dcSign]

/-- The members of `CdfMvComponent`, src/cdf.h:113-122. -/
inductive MvF where
  | classes | sign | class0 | class0Fp | class0Hp | classN | classNFp | classNHp
  deriving DecidableEq, Repr

/-- Declarations of the members of `CdfMvComponent`, src/cdf.h:113-122. -/
def MvF.decl : MvF → Decl
  | .classes => ⟨[16], 32⟩
  | .sign => ⟨[2], 4⟩
  | .class0 => ⟨[2], 4⟩
  | .class0Fp => ⟨[2, 4], 8⟩
  | .class0Hp => ⟨[2], 4⟩
  | .classN => ⟨[10, 2], 4⟩
  | .classNFp => ⟨[4], 8⟩
  | .classNHp => ⟨[2], 4⟩

/-- The members of `CdfMvComponent` in the order of src/cdf.h:113-122. -/
def MvF.all : List MvF :=
  [.classes, .sign, .class0, .class0Fp, .class0Hp, .classN, .classNFp, .classNHp]

/-- A member of `CdfContext`, src/cdf.h:129-134: `coef`, `m`, `mv.comp[0]` or `mv.comp[1]`, `mv.joint`, `kfym`. -/
inductive Field where
  | coef (f : CoefF)
  | mode (f : ModeF)
  | mv (second : Bool) (f : MvF)
  | joint
  | kfym
  deriving DecidableEq, Repr

/-- Declarations, src/cdf.h:39-134. -/
def Field.decl : Field → Decl
  | .coef f => f.decl
  | .mode f => f.decl
  | .mv _ f => f.decl
  | .joint => ⟨[4], 8⟩
  | .kfym => ⟨[5, 5, 16], 32⟩

/-- Words per row, src/cdf.h:39-134. -/
def Field.width (f : Field) : Nat := f.decl.width

/-- Rows, src/cdf.h:39-134. -/
def Field.rows (f : Field) : Nat := f.decl.rows

/-- Words, src/cdf.h:39-134. -/
def Field.size (f : Field) : Nat := f.rows * f.width

/-- `offsetof(CdfModeContext, f)`, src/cdf.h:39-95. -/
def ModeF.off (f : ModeF) : Nat := offsetIn (place ModeF.decl 0 ModeF.all) f

/-- `sizeof(CdfModeContext)`, src/cdf.h:39-95. -/
def modeSize : Nat := sizeOf16 ModeF.decl (place ModeF.decl 0 ModeF.all)

/-- `offsetof(CdfCoefContext, f)`, src/cdf.h:97-111. -/
def CoefF.off (f : CoefF) : Nat := offsetIn (place CoefF.decl 0 CoefF.all) f

/-- `sizeof(CdfCoefContext)`, src/cdf.h:97-111. -/
def coefSize : Nat := sizeOf16 CoefF.decl (place CoefF.decl 0 CoefF.all)

/-- `offsetof(CdfMvComponent, f)`, src/cdf.h:113-122. -/
def MvF.off (f : MvF) : Nat := offsetIn (place MvF.decl 0 MvF.all) f

/-- `sizeof(CdfMvComponent)`, src/cdf.h:113-122. -/
def mvCompSize : Nat := sizeOf16 MvF.decl (place MvF.decl 0 MvF.all)

/-- `sizeof(CdfMvContext)`, src/cdf.h:124-127. -/
def mvSize : Nat := alignUp (alignUp (2 * mvCompSize) 4 + 4) 16

/-- `offsetof(CdfContext, m)`, src/cdf.h:129-134. -/
def ctxM : Nat := coefSize

/-- `offsetof(CdfContext, mv)`, src/cdf.h:129-134. -/
def ctxMv : Nat := ctxM + modeSize

/-- `offsetof(CdfContext, f)`, src/cdf.h:124-134. -/
def ctxOff : Field → Nat
  | .coef f => f.off
  | .mode f => ctxM + f.off
  | .mv s f => ctxMv + (if s then mvCompSize else 0) + f.off
  | .joint => ctxMv + alignUp (2 * mvCompSize) 4
  | .kfym => alignUp (ctxMv + mvSize) 16

/-- `sizeof(CdfContext)`, src/cdf.h:129-134. -/
def ctxSize : Nat := alignUp (ctxOff .kfym + Field.size .kfym) 16

/-- All members of `CdfContext` in order, src/cdf.h:129-134. -/
def ctxFields : List Field :=
  CoefF.all.map .coef ++ ModeF.all.map .mode ++ MvF.all.map (.mv false) ++ MvF.all.map (.mv true) ++ [.joint, .kfym]

/-- `offsetof(CdfDefaultContext, mv.comp)`, src/cdf.c:68-75. -/
def defMv : Nat := modeSize

/-- `offsetof(CdfDefaultContext, f)`, src/cdf.c:68-75: `m`, one motion vector component, `joint` and `kfym`. -/
def defOff : Field → Nat
  | .coef _ => 0
  | .mode f => f.off
  | .mv _ f => defMv + f.off
  | .joint => defMv + alignUp mvCompSize 4
  | .kfym => alignUp (defMv + alignUp (alignUp mvCompSize 4 + 4) 16) 16

/-- `sizeof(CdfDefaultContext)`, src/cdf.c:68-75. -/
def defSize : Nat := alignUp (defOff .kfym + Field.size .kfym) 16

/-- All members of `CdfDefaultContext` in order, src/cdf.c:68-75. -/
def defFields : List Field := ModeF.all.map .mode ++ MvF.all.map (.mv false) ++ [.joint, .kfym]

end Dav1d.CdfTab
