import Verif.Syn.CopyModel
import Verif.Part.SbOrder
/-!
# What the AV1 specification says about motion vector differences and block vectors

Sections 5.11.26 (assign_mv), 5.11.31 and 5.11.32 (read_mv, read_mv_component), 6.10.25 (the conditions on block vectors), written down
from the specification in its own names. The tables of symbols are those of `Verif.Cdf.Layout`: MvJointCdf is `joint`, MvClassCdf `classes`, MvSignCdf `sign`,
MvClass0BitCdf `class0`, MvClass0FrCdf `class0Fp`, MvClass0HpCdf `class0Hp`, MvBitCdf `classN`, MvFrCdf `classNFp` and MvHpCdf `classNHp`; that intra frames
have tables of their own for them (MvCtx) is the subject of C64.
-/
namespace Dav1d.Syn.Copy.Av1
open CdfTab (Field MvF)

/-- A symbol for the component `comp` (0 is the row, 1 the column). -/
def el (comp : Bool) (f : MvF) (idx : List Nat) (n : Nat) : Prog Nat := .read (.sym (.mv comp f) idx n) .ret

/-- `for ( i = 0; i < mv_class; i++ ) { mv_bit; d |= mv_bit << i }`: `k` bits are left. -/
def mvBits (comp : Bool) : (k i d : Nat) → Prog Nat
  | 0, _, d => pure d
  | k + 1, i, d => el comp .classN [i] 1 >>= fun mv_bit => mvBits comp k (i + 1) (d + mv_bit * 2 ^ i)

/-- read_mv_component -/
def read_mv_component (comp force_integer_mv allow_high_precision_mv : Bool) : Prog Int :=
  el comp .sign [] 1 >>= fun mv_sign =>
  el comp .classes [] 10 >>= fun mv_class =>
  ((if mv_class = 0 then
      el comp .class0 [] 1 >>= fun mv_class0_bit =>
      (if force_integer_mv then pure 3 else el comp .class0Fp [mv_class0_bit] 3) >>= fun mv_class0_fr =>
      (if allow_high_precision_mv then el comp .class0Hp [] 1 else pure 1) >>= fun mv_class0_hp =>
      pure (mv_class0_bit * 8 + mv_class0_fr * 2 + mv_class0_hp + 1)
    else
      mvBits comp mv_class 0 0 >>= fun d =>
      (if force_integer_mv then pure 3 else el comp .classNFp [] 3) >>= fun mv_fr =>
      (if allow_high_precision_mv then el comp .classNHp [] 1 else pure 1) >>= fun mv_hp =>
      pure (2 * 2 ^ (mv_class + 2) + (d * 8 + mv_fr * 2 + mv_hp + 1))) : Prog Nat) >>= fun mag =>
  pure (if mv_sign ≠ 0 then -(mag : Int) else mag)

/-- read_mv: MV_JOINT_HNZVZ is 1 (only the column changes), MV_JOINT_HZVNZ 2, MV_JOINT_HNZVNZ 3. -/
def read_mv (PredMv : Mv) (force_integer_mv allow_high_precision_mv : Bool) : Prog Mv :=
  Prog.read (.sym .joint [] 3) Prog.ret >>= fun mv_joint =>
  (if mv_joint = 2 ∨ mv_joint = 3 then read_mv_component false force_integer_mv allow_high_precision_mv else pure 0) >>= fun diff0 =>
  (if mv_joint = 1 ∨ mv_joint = 3 then read_mv_component true force_integer_mv allow_high_precision_mv else pure 0) >>= fun diff1 =>
  pure ⟨PredMv.y + diff0, PredMv.x + diff1⟩

/-- The sequence header's and the frame's part: NumPlanes = 1, subsampling_x, subsampling_y. -/
structure Fmt where
  mono : Bool
  subX : Bool
  subY : Bool

/-- A block in its tile: positions in units of 4 samples, sizes in samples. -/
structure Blk where
  use128 : Bool
  MiRowStart : Int
  MiRowEnd : Int
  MiColStart : Int
  MiColEnd : Int
  MiRow : Int
  MiCol : Int
  bw : Int
  bh : Int

/-- HasChroma of decode_block, section 5.11.5. -/
def HasChroma (F : Fmt) (b : Blk) : Prop :=
  F.mono = false ∧ ¬ (b.bh = 4 ∧ F.subY = true ∧ b.MiRow % 2 = 0) ∧ ¬ (b.bw = 4 ∧ F.subX = true ∧ b.MiCol % 2 = 0)

/-- The height of a superblock in units of 4 samples. -/
def sbSize4 (use128 : Bool) : Int := if use128 then 32 else 16

/-- assign_mv for use_intrabc; RefStackMv[ 0 ][ 0 ] and RefStackMv[ 1 ][ 0 ] are the results of the process for finding motion vectors. In intra frames
force_integer_mv is 1 and allow_high_precision_mv is 0. -/
def assign_mv (b : Blk) (stack0 stack1 : Mv) : Prog Mv :=
  let p := if stack0.y = 0 ∧ stack0.x = 0 then stack1 else stack0
  let p : Mv :=
    if p.y = 0 ∧ p.x = 0 then
      if b.MiRow - sbSize4 b.use128 < b.MiRowStart then ⟨0, -(sbSize4 b.use128 * 4 + 256) * 8⟩ else ⟨-(sbSize4 b.use128 * 4 * 8), 0⟩
    else p
  read_mv p true false

/-- The conditions that the specification puts on a block vector. -/
structure Valid (F : Fmt) (b : Blk) (mv : Mv) : Prop where
  range : -2 ^ 14 < mv.y ∧ mv.y < 2 ^ 14 ∧ -2 ^ 14 < mv.x ∧ mv.x < 2 ^ 14
  whole : mv.y % 8 = 0 ∧ mv.x % 8 = 0
  top : b.MiRowStart * 4 ≤ b.MiRow * 4 + mv.y / 8
  left : b.MiColStart * 4 ≤ b.MiCol * 4 + mv.x / 8
  topSmall : HasChroma F b → b.bh < 8 → F.subY = true → b.MiRowStart * 4 ≤ b.MiRow * 4 + mv.y / 8 - 4
  leftSmall : HasChroma F b → b.bw < 8 → F.subX = true → b.MiColStart * 4 ≤ b.MiCol * 4 + mv.x / 8 - 4
  bottom : b.MiRow * 4 + mv.y / 8 + b.bh ≤ b.MiRowEnd * 4
  right : b.MiCol * 4 + mv.x / 8 + b.bw ≤ b.MiColEnd * 4
  /-- srcSb64 < activeSb64 - INTRABC_DELAY_SB64 -/
  delay :
    let sbH := sbSize4 b.use128 * 4
    let total := (b.MiColEnd - b.MiColStart - 1) / 16 + 1
    (b.MiRow * 4 + mv.y / 8 + b.bh - 1) / sbH * total + (b.MiCol * 4 + mv.x / 8 + b.bw - 1) / 64 < b.MiRow * 4 / sbH * total + b.MiCol * 4 / 64 - 4
  row :
    let sbH := sbSize4 b.use128 * 4
    (b.MiRow * 4 + mv.y / 8 + b.bh - 1) / sbH ≤ b.MiRow * 4 / sbH
  /-- The wave front: srcSb64Col < activeSb64Col - INTRABC_DELAY_SB64 + gradient * (activeSbRow - srcSbRow) -/
  front :
    let sbH := sbSize4 b.use128 * 4
    (b.MiCol * 4 + mv.x / 8 + b.bw - 1) / 64 <
      b.MiCol * 4 / 64 - 4 + (1 + 4 + (if b.use128 then 1 else 0)) * (b.MiRow * 4 / sbH - (b.MiRow * 4 + mv.y / 8 + b.bh - 1) / sbH)

end Dav1d.Syn.Copy.Av1

namespace Dav1d.Syn.Copy
open Dav1d.Part (Call Tile Ev Frame bsW bsH Decoded)

/-- The call of decode_b for `c`, for the code … -/
def geoAt (F : Av1.Fmt) (sb128 : Bool) (T : Tile) (c : Call) : Geo :=
  { mono := F.mono, ssH := F.subX, ssV := F.subY, sb128 := sb128, colStart := T.x0, colEnd := T.x1, rowStart := T.y0, bx := c.x, b_y := c.y,
    bw4 := bsW c.bs, bh4 := bsH c.bs }

/-- … and for the specification. -/
def blkAt (sb128 : Bool) (T : Tile) (c : Call) : Av1.Blk :=
  { use128 := sb128, MiRowStart := T.y0, MiRowEnd := T.y1, MiColStart := T.x0, MiColEnd := T.x1, MiRow := c.y, MiCol := c.x, bw := bsW c.bs * 4,
    bh := bsH c.bs * 4 }

/-- The sample in row `r` and column `k` of the luma plane or of a chroma plane was completely decoded before: it is in the tile, and the last 4x4 luma unit of its 4x4 unit (for
subsampled chroma the one that brings the chroma samples) belongs to a block before. -/
def DoneAt (F : Av1.Fmt) (T : Tile) (before : List Ev) (chroma : Bool) (r k : Int) : Prop :=
  ∃ X Y : Nat, (k / 4 + 1) * (if chroma ∧ F.subX then 2 else 1) - 1 = X ∧ (r / 4 + 1) * (if chroma ∧ F.subY then 2 else 1) - 1 = Y ∧
    T.has X Y ∧ Decoded before X Y

/-- Vectors are pairs of 16-bit numbers. -/
def In16 (v : Mv) : Prop := -32768 ≤ v.y ∧ v.y ≤ 32767 ∧ -32768 ≤ v.x ∧ v.x ≤ 32767

end Dav1d.Syn.Copy
