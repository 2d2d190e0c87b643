import Verif.Coef.Model
/-!
# What the arguments of decode_coefs mean

The syntax element view (`Spec.Blk`) of the arguments, and the conditions under which decode_coefs is called.
-/
namespace Dav1d.Coef
open Itx (Tx TxClass)

/-- Transform types by their number in the code, src/levels.h:80-100. -/
def typeOf : Nat → Spec.TxType
  | 0 => .dctDct | 1 => .adstDct | 2 => .dctAdst | 3 => .adstAdst | 4 => .flipadstDct | 5 => .dctFlipadst
  | 6 => .flipadstFlipadst | 7 => .adstFlipadst | 8 => .flipadstAdst | 9 => .idtx | 10 => .vDct | 11 => .hDct
  | 12 => .vAdst | 13 => .hAdst | 14 => .vFlipadst | 15 => .hFlipadst | _ => .wht

/-- Mode_To_Txfm, AV1 spec 5.11.47: the type for a chroma mode (0 DC, 1 V, 2 H, 3 D45, 4 D135, 5 D113, 6 D157, 7 D203,
8 D67, 9 SMOOTH, 10 SMOOTH_V, 11 SMOOTH_H, 12 PAETH, 13 CFL). -/
def modeToTxfm : Nat → Spec.TxType
  | 1 | 5 | 8 | 10 => .adstDct
  | 2 | 6 | 7 | 11 => .dctAdst
  | 4 | 9 | 12 => .adstAdst
  | _ => .dctDct

/-- Prediction direction of the filters of recursive intra prediction, AV1 spec 8.3.2 (Filter_Intra_Mode_To_Intra_Dir). -/
def filterDir : Nat → Nat
  | 1 => 1
  | 2 => 2
  | 3 => 6
  | _ => 0

/-- A context byte: the level in the low six bits, above it 0 for a negative DC coefficient, 1 for none, 2 for a positive
one. -/
def ctxByte (c : Spec.Ctx) : Nat := c.level + 64 * (if c.cat = 1 then 0 else if c.cat = 2 then 2 else 1)

/-- The context that a byte stands for. -/
def ctxOf (n : Nat) : Spec.Ctx := ⟨n % 64, if n / 64 = 0 then 1 else if n / 64 = 2 then 2 else 0⟩

/-- Size of a block by its number: names of enum BlockSize, src/levels.h:158-182. -/
def bsPix : Nat → Nat × Nat
  | 0 => (128, 128) | 1 => (128, 64) | 2 => (64, 128) | 3 => (64, 64) | 4 => (64, 32) | 5 => (64, 16) | 6 => (32, 64)
  | 7 => (32, 32) | 8 => (32, 16) | 9 => (32, 8) | 10 => (16, 64) | 11 => (16, 32) | 12 => (16, 16) | 13 => (16, 8)
  | 14 => (16, 4) | 15 => (8, 32) | 16 => (8, 16) | 17 => (8, 8) | 18 => (8, 4) | 19 => (4, 16) | 20 => (4, 8)
  | _ => (4, 4)

/-- The block in the plane: subsampled in 4:2:0 and 4:2:2 chroma, but at least 4 pixels wide and high. -/
def Arg.pw (b : Arg) : Nat := if b.plane ≠ 0 ∧ b.layout ≠ 3 then max 4 ((bsPix b.bs).1 / 2) else (bsPix b.bs).1
/-- Height of the block in the plane. -/
def Arg.ph (b : Arg) : Nat := if b.plane ≠ 0 ∧ b.layout = 1 then max 4 ((bsPix b.bs).2 / 2) else (bsPix b.bs).2

/-- The block as the syntax sees it. -/
def Arg.spec (b : Arg) : Spec.Blk where
  tx := b.tx
  bw := b.pw
  bh := b.ph
  plane := b.plane
  isInter := !b.intra
  lossless := b.lossless
  qidx := b.qidx
  reducedTxSet := b.reduced
  intraDir := if b.yMode = 13 then filterDir b.yAngle else b.yMode
  uvType := modeToTxfm b.uvMode
  lumaType := typeOf b.txtp
  above := fun k => ctxOf (b.a k)
  left := fun k => ctxOf (b.l k)
  dcQ := b.dq 0
  acQ := b.dq 1
  qm := b.qm.map fun m r c => m (c * min 32 b.tx.h + r)
  bitDepth := b.bpc

/-- Conditions under which decode_coefs is called. -/
structure Arg.Ok (b : Arg) : Prop where
  bs : b.bs < 22
  layout : b.layout < 4
  plane : b.plane < 3
  /-- there is no chroma in monochrome -/
  mono : b.plane ≠ 0 → b.layout ≠ 0
  /-- the transform is inside the block -/
  fitW : b.tx.w ≤ b.pw
  fitH : b.tx.h ≤ b.ph
  /-- chroma has no transforms with 64 pixels -/
  uvMax : b.plane ≠ 0 → b.tx.w ≤ 32 ∧ b.tx.h ≤ 32
  /-- lossless blocks have 4x4 transforms -/
  lossless : b.lossless = true → b.tx = .x4x4
  /-- 13 is FILTER_PRED, with the filter in `y_angle` -/
  yMode : b.yMode < 13 ∨ b.yMode = 13 ∧ b.yAngle < 5
  uvMode : b.uvMode < 14
  /-- the type of the luma block: with the reduced set one of two -/
  txtp : b.lossless = false → b.txtp < 16
  txtpReduced : b.lossless = false → b.reduced = true → b.txtp = 0 ∨ b.txtp = 9
  /-- contexts left behind by earlier blocks -/
  a : ∀ k, b.a k < 192
  l : ∀ k, b.l k < 192
  bpc : b.bpc = 8 ∨ b.bpc = 10 ∨ b.bpc = 12
  /-- an entry of the table of quantizers for the bit depth -/
  dq : ∃ i j, i < 256 ∧ j < 256 ∧ b.dq 0 = ((Tables.dqTbl.getD ((b.bpc - 8) / 2) []).getD i []).getD 0 0 ∧
    b.dq 1 = ((Tables.dqTbl.getD ((b.bpc - 8) / 2) []).getD j []).getD 1 0
  /-- matrix entries are bytes -/
  qm : ∀ m, b.qm = some m → ∀ i, m i < 256

end Dav1d.Coef
