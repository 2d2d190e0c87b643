import Verif.Cdf.Spec
import Verif.Dsp.Scan
import Verif.Dsp.Tables
/-!
# Residual syntax of a transform block: AV1 spec 5.11.39 (coeffs), 5.11.47 (transform type) and 7.12.3 (dequantisation)

The symbols come from a `Source`. Everything is stated with rows and columns of the coefficients; nothing here knows
how the decoder stores levels, coefficients and contexts.
-/
namespace Dav1d.Coef
open CdfTab (Field CoefF ModeF)

/-- An adaptive probability table: member and indices. -/
structure Cdf where
  field : Field
  idx : List Nat
  deriving DecidableEq

/-- A source of symbols: any state machine that answers a request for a symbol of a table (with symbols `0..n`) or for
a bit. The answer may depend on the table asked for and on everything asked before. -/
structure Source (σ : Type) where
  sym : Cdf → Nat → σ → Nat × σ
  bit : σ → Nat × σ
  sym_le : ∀ c n s, (sym c n s).1 ≤ n
  bit_le : ∀ s, (bit s).1 ≤ 1

namespace Spec
open Itx (Tx TxClass)

/-- Transform types, AV1 spec 6.10.19, and the Walsh-Hadamard transform of lossless blocks. -/
inductive TxType where
  | dctDct | adstDct | dctAdst | adstAdst | flipadstDct | dctFlipadst | flipadstFlipadst | adstFlipadst | flipadstAdst
  | idtx | vDct | hDct | vAdst | hAdst | vFlipadst | hFlipadst | wht
  deriving DecidableEq, Repr

/-- Classes: a type is one-dimensional if it is the identity in the other direction. -/
def TxType.cls : TxType → TxClass
  | .vDct | .vAdst | .vFlipadst => .v
  | .hDct | .hAdst | .hFlipadst => .h
  | _ => .d2

/-- Types with a sine or cosine transform in both directions, the ones that use quantizer matrices (`< IDTX`). -/
def TxType.usesMatrix : TxType → Bool
  | .idtx | .vDct | .hDct | .vAdst | .hAdst | .vFlipadst | .hFlipadst | .wht => false
  | _ => true

/-- A context left behind by a transform block: `culLevel` and `dcCategory` (0 none, 1 negative, 2 positive). -/
structure Ctx where
  level : Nat
  cat : Nat
  deriving DecidableEq

/-- What the syntax knows about the transform block. -/
structure Blk where
  tx : Tx
  /-- size of the block in the plane, in pixels -/
  bw : Nat
  bh : Nat
  plane : Nat
  isInter : Bool
  lossless : Bool
  /-- quantizer index of the segment -/
  qidx : Nat
  reducedTxSet : Bool
  /-- luma prediction mode (that of the filter for recursive prediction), `intraDir` -/
  intraDir : Nat
  /-- the transform type that belongs to the chroma prediction mode, `Mode_To_Txfm` -/
  uvType : TxType
  /-- transform type of the luma block at this position -/
  lumaType : TxType
  /-- contexts above and left, in units of 4 pixels; places outside of the frame count as empty -/
  above : Nat → Ctx
  left : Nat → Ctx
  dcQ : Nat
  acQ : Nat
  /-- quantizer matrix if used: by row and column -/
  qm : Option (Nat → Nat → Nat)
  bitDepth : Nat

/-- Coded part of the block: at most 32 by 32. -/
def Blk.W (b : Blk) : Nat := min 32 b.tx.w
/-- Coded part of the block: at most 32 by 32. -/
def Blk.H (b : Blk) : Nat := min 32 b.tx.h
/-- Squares with the shorter and the longer side, in powers of two (`Tx_Size_Sqr`, `Tx_Size_Sqr_Up`): 0 is 4x4, 4 is 64x64. -/
def Blk.sqr (b : Blk) : Nat := Nat.log2 (min b.tx.w b.tx.h) - 2
/-- Likewise for the longer side. -/
def Blk.sqrUp (b : Blk) : Nat := Nat.log2 (max b.tx.w b.tx.h) - 2
/-- `txSzCtx`. -/
def Blk.szCtx (b : Blk) : Nat := (b.sqr + b.sqrUp + 1) / 2
/-- `ptype`. -/
def Blk.ptype (b : Blk) : Nat := if b.plane = 0 then 0 else 1

/-! ### Transform type -/

/-- Sets of transform types. -/
inductive TxSet where
  | dctOnly | intra1 | intra2 | inter1 | inter2 | inter3
  deriving DecidableEq

/-- get_tx_set, AV1 spec 5.11.48. -/
def txSet (b : Blk) : TxSet :=
  if b.sqrUp > 3 then .dctOnly
  else if b.isInter then
    if b.reducedTxSet ∨ b.sqrUp = 3 then .inter3 else if b.sqr = 2 then .inter2 else .inter1
  else
    if b.sqrUp = 3 then .dctOnly else if b.reducedTxSet then .intra2 else if b.sqr = 2 then .intra2 else .intra1

/-- The types of a set in the order of their symbols (Tx_Type_Intra_Inv_Set1 etc.). -/
def TxSet.types : TxSet → List TxType
  | .dctOnly => [.dctDct]
  | .intra1 => [.idtx, .dctDct, .vDct, .hDct, .adstAdst, .adstDct, .dctAdst]
  | .intra2 => [.idtx, .dctDct, .adstAdst, .adstDct, .dctAdst]
  | .inter1 => [.idtx, .vDct, .hDct, .vAdst, .hAdst, .vFlipadst, .hFlipadst, .dctDct, .adstDct, .dctAdst, .flipadstDct,
      .dctFlipadst, .adstAdst, .flipadstFlipadst, .adstFlipadst, .flipadstAdst]
  | .inter2 => [.idtx, .vDct, .hDct, .dctDct, .adstDct, .dctAdst, .flipadstDct, .dctFlipadst, .adstAdst,
      .flipadstFlipadst, .adstFlipadst, .flipadstAdst]
  | .inter3 => [.idtx, .dctDct]

/-- Table with which a type of the set is coded. -/
def typeCdf (b : Blk) : TxSet → Cdf
  | .dctOnly => ⟨.mode .txtpInter2, []⟩
  | .intra1 => ⟨.mode .txtpIntra1, [b.sqr, b.intraDir]⟩
  | .intra2 => ⟨.mode .txtpIntra2, [b.sqr, b.intraDir]⟩
  | .inter1 => ⟨.mode .txtpInter1, [b.sqr]⟩
  | .inter2 => ⟨.mode .txtpInter2, []⟩
  | .inter3 => ⟨.mode .txtpInter3, [b.sqr]⟩

variable {σ : Type}

/-- transform_type and compute_tx_type, AV1 spec 5.11.47 and 5.11.40: luma types are coded if there is a choice and the
quantizer index is not zero, chroma types are derived and replaced by DCT_DCT if the set does not have them. -/
def readType (src : Source σ) (b : Blk) (s : σ) : TxType × σ :=
  if b.lossless then (.wht, s)
  else if b.plane = 0 then
    if txSet b ≠ .dctOnly ∧ 0 < b.qidx then
      let r := src.sym (typeCdf b (txSet b)) ((txSet b).types.length - 1) s
      ((txSet b).types.getD r.1 .dctDct, r.2)
    else (.dctDct, s)
  else
    let t := if b.isInter then b.lumaType else b.uvType
    (if t ∈ (txSet b).types then t else .dctDct, s)

/-! ### Scans -/

/-- Positions (row, column) of the anti-diagonal `d`, from the top row downwards. -/
def diag (W H d : Nat) : List (Nat × Nat) :=
  ((List.range H).filter (fun r => decide (r ≤ d) && decide (d - r < W))).map (fun r => (r, d - r))

/-- Scan of a `W` by `H` block: by anti-diagonals for two-dimensional types, upwards in wide blocks, downwards in tall
ones and in turns in square ones; by columns for horizontal types, by rows for vertical ones (get_scan, AV1 spec
5.11.41). -/
def scan (W H : Nat) : TxClass → List (Nat × Nat)
  | .d2 => ((List.range (W + H - 1)).map fun d =>
      if W < H ∨ (W = H ∧ d % 2 = 1) then diag W H d else (diag W H d).reverse).flatten
  | .h => (List.range (W * H)).map fun i => (i % H, i / H)
  | .v => (List.range (W * H)).map fun i => (i / W, i % W)

/-! ### Contexts -/

/-- Context of `all_zero`, AV1 spec 8.3.2. -/
def allZeroCtx (b : Blk) : Nat :=
  let n := b.tx.w / 4
  let m := b.tx.h / 4
  if b.plane = 0 then
    let top := (List.range n).foldl (fun t k => max t (b.above k).level) 0
    let left := (List.range m).foldl (fun t k => max t (b.left k).level) 0
    if b.bw = b.tx.w ∧ b.bh = b.tx.h then 0
    else if top = 0 ∧ left = 0 then 1
    else if top = 0 ∨ left = 0 then 2 + (if max top left > 3 then 1 else 0)
    else if max top left ≤ 3 then 4
    else if min top left ≤ 3 then 5
    else 6
  else
    let above := (List.range n).any (fun k => (b.above k).level != 0 || (b.above k).cat != 0)
    let left := (List.range m).any (fun k => (b.left k).level != 0 || (b.left k).cat != 0)
    7 + (if above then 1 else 0) + (if left then 1 else 0) + (if b.bw * b.bh > b.tx.w * b.tx.h then 3 else 0)

/-- Sign that a category counts for. -/
def catSign (c : Nat) : Int := if c = 1 then -1 else if c = 2 then 1 else 0

/-- Context of `dc_sign`, AV1 spec 8.3.2: which sign prevails around the block. -/
def dcSignCtx (b : Blk) : Nat :=
  let t := ((List.range (b.tx.w / 4)).map (fun k => catSign (b.above k).cat)).sum +
    ((List.range (b.tx.h / 4)).map (fun k => catSign (b.left k).cat)).sum
  if t < 0 then 1 else if t > 0 then 2 else 0

/-- Neighbours (row and column offsets) for `coeff_base`: Sig_Ref_Diff_Offset. -/
def baseNbrs : TxClass → List (Nat × Nat)
  | .d2 => [(0, 1), (1, 0), (1, 1), (0, 2), (2, 0)]
  | .h => [(0, 1), (1, 0), (0, 2), (0, 3), (0, 4)]
  | .v => [(1, 0), (0, 1), (2, 0), (3, 0), (4, 0)]

/-- Neighbours for `coeff_br`: Mag_Ref_Offset_With_Tx_Class. -/
def brNbrs : TxClass → List (Nat × Nat)
  | .d2 => [(0, 1), (1, 0), (1, 1)]
  | .h => [(0, 1), (1, 0), (0, 2)]
  | .v => [(0, 1), (1, 0), (2, 0)]

/-- Sum of the levels of the neighbours inside the block, each counted at most as `m`. -/
def nbrSum (b : Blk) (q : Nat → Nat → Nat) (m : Nat) (l : List (Nat × Nat)) (r c : Nat) : Nat :=
  (l.map fun o => if r + o.1 < b.H ∧ c + o.2 < b.W then min m (q (r + o.1) (c + o.2)) else 0).sum

/-- Context of `coeff_base`, AV1 spec 8.3.2 (the offsets of two-dimensional types by the rule that generates
Coeff_Base_Ctx_Offset). -/
def baseCtx (b : Blk) (cls : TxClass) (q : Nat → Nat → Nat) (r c : Nat) : Nat :=
  let n := min ((nbrSum b q 3 (baseNbrs cls) r c + 1) / 2) 4
  match cls with
  | .d2 =>
    if r = 0 ∧ c = 0 then 0
    else if b.tx.w < b.tx.h ∧ r < 2 then n + 11
    else if b.tx.w > b.tx.h ∧ c < 2 then n + 16
    else if r + c < 2 then n + 1
    else if r + c < 4 then n + 6
    else n + 21
  | .h => n + 26 + 5 * min c 2
  | .v => n + 26 + 5 * min r 2

/-- Context of `coeff_base_eob`: position `c` of the last coefficient in the scan. -/
def eobCtx (b : Blk) (c : Nat) : Nat :=
  if c = 0 then 0 else if c ≤ b.W * b.H / 8 then 1 else if c ≤ b.W * b.H / 4 then 2 else 3

/-- Context of `coeff_br`. -/
def brCtx (b : Blk) (cls : TxClass) (q : Nat → Nat → Nat) (r c : Nat) : Nat :=
  let n := min ((nbrSum b q 15 (brNbrs cls) r c + 1) / 2) 6
  if r = 0 ∧ c = 0 then n
  else match cls with
    | .d2 => if r < 2 ∧ c < 2 then n + 7 else n + 14
    | .h => if c = 0 then n + 7 else n + 14
    | .v => if r = 0 then n + 7 else n + 14

/-! ### Syntax -/

/-- Bits, most significant first, appended to `v`. -/
def readBits (src : Source σ) : Nat → Nat → σ → Nat × σ
  | 0, v, s => (v, s)
  | n + 1, v, s => let r := src.bit s; readBits src n (2 * v + r.1) r.2

/-- Number of coded coefficients: table by size, AV1 spec 5.11.39 (`eob_pt_16` to `eob_pt_1024`). The tables for 512 and
1024 do not depend on the class. -/
def eobPtCdf (b : Blk) (cls : TxClass) : Cdf × Nat :=
  let c := if cls = .d2 then 0 else 1
  match Nat.log2 (b.W * b.H) - 4 with
  | 0 => (⟨.coef .eobBin16, [b.ptype, c]⟩, 4)
  | 1 => (⟨.coef .eobBin32, [b.ptype, c]⟩, 5)
  | 2 => (⟨.coef .eobBin64, [b.ptype, c]⟩, 6)
  | 3 => (⟨.coef .eobBin128, [b.ptype, c]⟩, 7)
  | 4 => (⟨.coef .eobBin256, [b.ptype, c]⟩, 8)
  | 5 => (⟨.coef .eobBin512, [b.ptype]⟩, 9)
  | _ => (⟨.coef .eobBin1024, [b.ptype]⟩, 10)

/-- `eob`: `eobPt` selects 1, 2, 3..4, 5..8, and so on; the first bit of the offset is coded with a table of its own
(which the decoder stores at `eobPt - 1`), the others as bits. -/
def readEob (src : Source σ) (b : Blk) (cls : TxClass) (s : σ) : Nat × σ :=
  let r := src.sym (eobPtCdf b cls).1 (eobPtCdf b cls).2 s
  let eobPt := r.1 + 1
  if eobPt < 3 then (eobPt, r.2)
  else
    let x := src.sym ⟨.coef .eobHiBit, [b.szCtx, b.ptype, eobPt - 1]⟩ 1 r.2
    let y := readBits src (eobPt - 3) x.1 x.2
    (2 ^ (eobPt - 2) + 1 + y.1, y.2)

/-- `coeff_br`: up to four increments of at most 3, while they are 3. -/
def readBr (src : Source σ) (c : Cdf) : Nat → Nat → σ → Nat × σ
  | 0, level, s => (level, s)
  | n + 1, level, s =>
    let r := src.sym c 3 s
    if r.1 < 3 then (level + r.1, r.2) else readBr src c n (level + r.1) r.2

/-- The level of coefficient number `c` of `eob` at row and column `p`, given those read before. -/
def readLevel (src : Source σ) (b : Blk) (cls : TxClass) (eob c : Nat) (p : Nat × Nat) (q : Nat → Nat → Nat) (s : σ) :
    Nat × σ :=
  let r :=
    if c = eob - 1 then
      let r := src.sym ⟨.coef .eobBaseTok, [b.szCtx, b.ptype, eobCtx b c]⟩ 2 s
      (r.1 + 1, r.2)
    else src.sym ⟨.coef .baseTok, [b.szCtx, b.ptype, baseCtx b cls q p.1 p.2]⟩ 3 s
  if r.1 > 2 then readBr src ⟨.coef .brTok, [min b.szCtx 3, b.ptype, brCtx b cls q p.1 p.2]⟩ 4 r.1 r.2 else r

/-- Replace an entry. -/
def set2 {α : Type} (q : Nat → Nat → α) (p : Nat × Nat) (v : α) : Nat → Nat → α :=
  fun r c => if r = p.1 ∧ c = p.2 then v else q r c

/-- The levels, from coefficient `n - 1` down to the first. -/
def readLevels (src : Source σ) (b : Blk) (cls : TxClass) (sc : List (Nat × Nat)) (eob : Nat) :
    Nat → (Nat → Nat → Nat) → σ → (Nat → Nat → Nat) × σ
  | 0, q, s => (q, s)
  | n + 1, q, s =>
    let p := sc.getD n (0, 0)
    let r := readLevel src b cls eob n p q s
    readLevels src b cls sc eob n (set2 q p r.1) r.2

/-- Zeros before the first one (the decoder gives up after 32; AV1 requires fewer than 20). -/
def golombZeros (src : Source σ) : Nat → Nat → σ → Nat × σ
  | 0, n, s => let r := src.bit s; (n, r.2)
  | f + 1, n, s => let r := src.bit s; if r.1 = 1 then (n, r.2) else golombZeros src f (n + 1) r.2

/-- `golomb_length_bit` and `golomb_data_bit`: the value `x`. -/
def readGolomb (src : Source σ) (s : σ) : Nat × σ :=
  let r := golombZeros src 32 0 s
  readBits src r.1 1 r.2

/-- Dequantisation, AV1 spec 7.12.3, of a level at a position. -/
def dequant (b : Blk) (t : TxType) (p : Nat × Nat) (level : Nat) (neg : Bool) : Int :=
  let q := if p = (0, 0) then b.dcQ else b.acQ
  let q := match b.qm with
    | some f => if t.usesMatrix then (q * f p.1 p.2 + 16) / 32 else q
    | none => q
  let denom := if b.tx.w * b.tx.h > 1024 then 4 else if b.tx.w * b.tx.h > 256 then 2 else 1
  let dq := level * q % 2 ^ 24 / denom
  if neg then -(min dq (2 ^ (7 + b.bitDepth)) : Nat) else (min dq (2 ^ (7 + b.bitDepth) - 1) : Nat)

/-- What is known after some of the signs. -/
structure Acc where
  coef : Nat → Nat → Int := fun _ _ => 0
  cul : Nat := 0
  cat : Nat := 0

/-- Sign and remainder of the coefficients in scan order; `first` is true at the first position. -/
def readSigns (src : Source σ) (b : Blk) (t : TxType) (q : Nat → Nat → Nat) :
    Bool → List (Nat × Nat) → Acc → σ → Acc × σ
  | _, [], a, s => (a, s)
  | first, p :: l, a, s =>
    if q p.1 p.2 = 0 then readSigns src b t q false l a s
    else
      let sg := if first then src.sym ⟨.coef .dcSign, [b.ptype, dcSignCtx b]⟩ 1 s else src.bit s
      let g := if q p.1 p.2 > 14 then let x := readGolomb src sg.2; (x.1 + 14, x.2) else (q p.1 p.2, sg.2)
      let level := g.1 % 2 ^ 20
      let a := { coef := set2 a.coef p (dequant b t p level (sg.1 = 1)), cul := a.cul + level,
                 cat := if p = (0, 0) then (if sg.1 = 1 then 1 else 2) else a.cat }
      readSigns src b t q false l a g.2

/-- What parsing a transform block yields. -/
structure Out where
  type : TxType
  /-- number of coefficients, 0 if all are zero -/
  eob : Nat
  /-- Dequant, by row and column -/
  coef : Nat → Nat → Int
  /-- context for later blocks -/
  ctx : Ctx

/-- coeffs, AV1 spec 5.11.39. -/
def coeffs (src : Source σ) (b : Blk) (s : σ) : Out × σ :=
  let z := src.sym ⟨.coef .skip, [b.szCtx, allZeroCtx b]⟩ 1 s
  if z.1 = 1 then (⟨if b.lossless then .wht else .dctDct, 0, fun _ _ => 0, ⟨0, 0⟩⟩, z.2)
  else
    let t := readType src b z.2
    let sc := scan b.W b.H t.1.cls
    let e := readEob src b t.1.cls t.2
    let q := readLevels src b t.1.cls sc e.1 e.1 (fun _ _ => 0) e.2
    let r := readSigns src b t.1 q.1 true (sc.take e.1) {} q.2
    (⟨t.1, e.1, r.1.coef, ⟨min 63 r.1.cul, r.1.cat⟩⟩, r.2)

end Spec
end Dav1d.Coef
