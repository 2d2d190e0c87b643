import Verif.Coef.Spec
/-!
# Model of decode_coefs, src/recon_tmpl.c:49-740

`none` is undefined behaviour: an access outside of an array or to an element without value, a table index out of
range, a wrong number of symbols for a table, a value that does not fit its type, a failed assertion or a loop that
does not end. The entropy decoder is a `Source`; programs are written with continuations.
The debug output is left out. `DECODE_COEFS_CLASS` chooses between `levels + rc` and `levels + x * stride + y` by
`if (TX_CLASS_2D)`, which is the constant 0: the model has the second.
-/
namespace Dav1d.Coef
open CdfTab (Field)
open Itx (Tx TxClass)

/-- Row of a table: the flattened index (layout rule of C for src/cdf.h:39-134). -/
def flatRow (dims idx : List Nat) : Nat := (List.zip dims idx).foldl (fun a p => a * p.1 + p.2) 0

/-- The indices are inside the declared dimensions and the table has symbols `0..n`, src/cdf.h:39-134 and the
comment at `CdfTab.nsym`. -/
def Cdf.ok (c : Cdf) (n : Nat) : Bool :=
  let dims := c.field.decl.dims.dropLast
  decide (c.idx.length = dims.length) && (List.zip dims c.idx).all (fun p => decide (p.2 < p.1)) &&
    decide (n = CdfTab.nsym c.field (flatRow dims c.idx))

variable {σ α : Type}

/-- `dav1d_msac_decode_symbol_adapt*` and `dav1d_msac_decode_bool_adapt` on an element of `ts->cdf`, src/msac.h:61-92. -/
def rd (src : Source σ) (c : Cdf) (n : Nat) (s : σ) (k : Nat → σ → Option α) : Option α :=
  if c.ok n then k (src.sym c n s).1 (src.sym c n s).2 else none

/-- `dav1d_msac_decode_bools`, src/msac.h:94-99. -/
def bools (src : Source σ) : Nat → Nat → σ → Nat × σ
  | 0, v, s => (v, s)
  | n + 1, v, s => bools src n ((v <<< 1) ||| (src.bit s).1) (src.bit s).2

/-- `dav1d_msac_decode_hi_tok_c`, src/msac.c:187-202. -/
def hiTok (src : Source σ) (c : Cdf) (s : σ) (k : Nat → σ → Option α) : Option α :=
  rd src c 3 s fun t s => if t ≠ 3 then k (3 + t) s else
  rd src c 3 s fun t s => if t ≠ 3 then k (6 + t) s else
  rd src c 3 s fun t s => if t ≠ 3 then k (9 + t) s else
  rd src c 3 s fun t s => k (12 + t) s

/-- First loop of `read_golomb`, src/recon_tmpl.c:53; `fuel = 32 - len`. -/
def golombLen (src : Source σ) : Nat → Nat → σ → Nat × σ
  | 0, len, s => (len, (src.bit s).2)
  | fuel + 1, len, s => if (src.bit s).1 = 0 then golombLen src fuel (len + 1) (src.bit s).2 else (len, (src.bit s).2)

/-- Second loop of `read_golomb`, src/recon_tmpl.c:54 (`val` is a 32-bit unsigned). -/
def golombVal (src : Source σ) : Nat → Nat → σ → Nat × σ
  | 0, v, s => (v, s)
  | n + 1, v, s => golombVal src n (((v <<< 1) % 2 ^ 32 + (src.bit s).1) % 2 ^ 32) (src.bit s).2

/-- `read_golomb`, src/recon_tmpl.c:49-57. -/
def golomb (src : Source σ) (s : σ) : Nat × σ :=
  let l := golombLen src 32 0 s
  let v := golombVal src l.1 1 l.2
  ((v.1 + (2 ^ 32 - 1)) % 2 ^ 32, v.2)

/-- The number of a transform size, enum TxfmSize and RectTxfmSize, src/levels.h:44-83. -/
def txNum : Tx → Nat
  | .x4x4 => 0 | .x8x8 => 1 | .x16x16 => 2 | .x32x32 => 3 | .x64x64 => 4 | .x4x8 => 5 | .x8x4 => 6 | .x8x16 => 7
  | .x16x8 => 8 | .x16x32 => 9 | .x32x16 => 10 | .x32x64 => 11 | .x64x32 => 12 | .x4x16 => 13 | .x16x4 => 14
  | .x8x32 => 15 | .x32x8 => 16 | .x16x64 => 17 | .x64x16 => 18

/-- Columns of dav1d_txfm_dimensions: w, h, lw, lh, min, max, sub, ctx; src/tables.c:129-168. -/
def dim (tx : Tx) (k : Nat) : Nat := (Tables.txDims.getD (txNum tx) []).getD k 0

/-- Columns of dav1d_block_dimensions: width and height and their logarithms in units of 4 pixels; src/tables.c:104-127. -/
def bdim (bs k : Nat) : Nat := (Tables.blockDims.getD bs []).getD k 0

/-- What decode_coefs reads of its arguments and of the frame, src/recon_tmpl.c:321-337: transform size, `bs`, `layout`
(0 is I400, 1 is I420, 2 is I422, 3 is I444), plane, intra, lossless and qidx of the segment, reduced_txtp_set,
`b->y_mode`, `b->y_angle`, `b->uv_mode`, `*txtp` (valid in chroma of inter blocks), the contexts `a` and `l`,
`ts->dq[seg_id][plane]`, `f->qm[tx][plane]`, `f->cur.p.bpc`. -/
structure Arg where
  tx : Tx
  bs : Nat
  layout : Nat
  plane : Nat
  intra : Bool
  lossless : Bool
  qidx : Nat
  reduced : Bool
  yMode : Nat
  yAngle : Nat
  uvMode : Nat
  txtp : Nat
  a : Nat → Nat
  l : Nat → Nat
  dq : Nat → Nat
  qm : Option (Nat → Nat)
  bpc : Nat

/-- `!!plane`, src/recon_tmpl.c:329. -/
def Arg.chroma (b : Arg) : Nat := if b.plane = 0 then 0 else 1

/-! ### Contexts of neighbouring blocks -/

/-- A little-endian load of `n` bytes, as in src/recon_tmpl.c:75, 104-114, 158-304. (The results do not depend on the
order of the bytes.) -/
def load (p : Nat → Nat) (off : Nat) : Nat → Nat
  | 0 => 0
  | n + 1 => p off + 256 * load p (off + 1) n

/-- MERGE_CTX of chroma, src/recon_tmpl.c:74-94. `none`: assert(0). -/
def chromaMerge (p : Nat → Nat) (lw : Nat) : Option Nat :=
  match lw with
  | 0 => some (if load p 0 1 ≠ 0x40 then 1 else 0)
  | 1 => some (if load p 0 2 ≠ 0x4040 then 1 else 0)
  | 2 => some (if load p 0 4 ≠ 0x40404040 then 1 else 0)
  | 3 => some (if load p 0 8 ≠ 0x4040404040404040 then 1 else 0)
  | _ => none

/-- MERGE_CTX of luma, src/recon_tmpl.c:103-134. -/
def lumaMerge (p : Nat → Nat) (lw : Nat) : Option Nat :=
  match lw with
  | 0 => some (load p 0 1)
  | 1 => let l := load p 0 2; some (l ||| l >>> 8)
  | 2 => let l := load p 0 4; let l := l ||| l >>> 16; some (l ||| l >>> 8)
  | 3 =>
    let l := load p 0 4 ||| load p 4 4
    let l := l ||| l >>> 16
    some (l ||| l >>> 8)
  | 4 =>
    let tmp := load p 0 8 ||| load p 8 8
    let l := (tmp >>> 32) % 2 ^ 32 ||| tmp % 2 ^ 32
    let l := l ||| l >>> 16
    some (l ||| l >>> 8)
  | _ => none

/-- dav1d_skip_ctx, src/tables.c:297-303. -/
def skipTab : List (List Nat) := [[1, 2, 2, 2, 3], [2, 4, 4, 4, 5], [2, 4, 4, 4, 5], [2, 4, 4, 4, 5], [3, 5, 5, 5, 6]]

/-- `get_skip_ctx`, src/recon_tmpl.c:59-139. -/
def skipCtx (b : Arg) : Option Nat :=
  let bd2 := bdim b.bs 2
  let bd3 := bdim b.bs 3
  let lw := dim b.tx 2
  let lh := dim b.tx 3
  if b.chroma = 1 then
    let ssVer := b.layout = 1
    let ssHor := b.layout ≠ 3
    let notOne := bd2 - (if bd2 ≠ 0 ∧ ssHor then 1 else 0) > lw ∨ bd3 - (if bd3 ≠ 0 ∧ ssVer then 1 else 0) > lh
    match chromaMerge b.a lw, chromaMerge b.l lh with
    | some ca, some cl => some (7 + (if notOne then 1 else 0) * 3 + ca + cl)
    | _, _ => none
  else if bd2 = lw ∧ bd3 = lh then some 0
  else
    match lumaMerge b.a lw, lumaMerge b.l lh with
    | some la, some ll => (skipTab.getD (min (la &&& 0x3f) 4) [])[min (ll &&& 0x3f) 4]?
    | _, _ => none

/-- The constant `mask` and its low half, src/recon_tmpl.c:145. -/
def mask64 : Nat := 0xC0C0C0C0C0C0C0C0
/-- `(uint32_t) mask`, src/recon_tmpl.c:145. -/
def mask32 : Nat := 0xC0C0C0C0
/-- The constant `mul`, src/recon_tmpl.c:145. -/
def mul64 : Nat := 0x0101010101010101
/-- `(uint32_t) mul`, src/recon_tmpl.c:145. -/
def mul32 : Nat := 0x01010101

/-- `t *= 0x04040404U; t >> 24` on a 32-bit unsigned, src/recon_tmpl.c:164-165 (and 195-196, 202-203). -/
def top4 (t : Nat) : Int := ((t * 0x04040404 % 2 ^ 32) >>> 24 : Nat)
/-- `t *= (uint32_t) mul; t >> 24`, src/recon_tmpl.c:171-172 (and the like). -/
def top32 (t : Nat) : Int := ((t * mul32 % 2 ^ 32) >>> 24 : Nat)
/-- `t *= mul; t >> 56`, src/recon_tmpl.c:178-179 (and the like). -/
def top64 (t : Nat) : Int := ((t * mul64 % 2 ^ 64) >>> 56 : Nat)

/-- The value of `s` in `get_dc_sign_ctx`, src/recon_tmpl.c:155-305. -/
def dcSum (tx : Tx) (a l : Nat → Nat) : Int :=
  match tx with
  | .x4x4 => ((load a 0 1 >>> 6 + load l 0 1 >>> 6 : Nat) : Int) - 1 - 1
  | .x8x8 => top4 ((load a 0 2 &&& mask32) + (load l 0 2 &&& mask32)) - 2 - 2
  | .x16x16 => top32 ((load a 0 4 &&& mask32) >>> 6 + (load l 0 4 &&& mask32) >>> 6) - 4 - 4
  | .x32x32 => top64 ((load a 0 8 &&& mask64) >>> 6 + (load l 0 8 &&& mask64) >>> 6) - 8 - 8
  | .x64x64 => top64 ((load a 0 8 &&& mask64) >>> 6 + (load a 8 8 &&& mask64) >>> 6 + (load l 0 8 &&& mask64) >>> 6 +
      (load l 8 8 &&& mask64) >>> 6) - 16 - 16
  | .x4x8 => top4 ((load a 0 1 &&& mask32) + (load l 0 2 &&& mask32)) - 1 - 2
  | .x8x4 => top4 ((load a 0 2 &&& mask32) + (load l 0 1 &&& mask32)) - 2 - 1
  | .x8x16 => top32 ((((load a 0 2 &&& mask32) + (load l 0 4 &&& mask32)) % 2 ^ 32) >>> 6) - 2 - 4
  | .x16x8 => top32 ((((load a 0 4 &&& mask32) + (load l 0 2 &&& mask32)) % 2 ^ 32) >>> 6) - 4 - 2
  | .x16x32 => top64 ((((load a 0 4 &&& mask32) + (load l 0 8 &&& mask64)) % 2 ^ 64) >>> 6) - 4 - 8
  | .x32x16 => top64 ((((load a 0 8 &&& mask64) + (load l 0 4 &&& mask32)) % 2 ^ 64) >>> 6) - 8 - 4
  | .x32x64 => top64 ((load a 0 8 &&& mask64) >>> 6 + (load l 0 8 &&& mask64) >>> 6 + (load l 8 8 &&& mask64) >>> 6) - 8 - 16
  | .x64x32 => top64 ((load a 0 8 &&& mask64) >>> 6 + (load a 8 8 &&& mask64) >>> 6 + (load l 0 8 &&& mask64) >>> 6) - 16 - 8
  | .x4x16 => top32 ((((load a 0 1 &&& mask32) + (load l 0 4 &&& mask32)) % 2 ^ 32) >>> 6) - 1 - 4
  | .x16x4 => top32 ((((load a 0 4 &&& mask32) + (load l 0 1 &&& mask32)) % 2 ^ 32) >>> 6) - 4 - 1
  | .x8x32 => top64 ((((load a 0 2 &&& mask32) + (load l 0 8 &&& mask64)) % 2 ^ 64) >>> 6) - 2 - 8
  | .x32x8 => top64 ((((load a 0 8 &&& mask64) + (load l 0 2 &&& mask32)) % 2 ^ 64) >>> 6) - 8 - 2
  | .x16x64 => top64 ((((load a 0 4 &&& mask32) + (load l 0 8 &&& mask64)) % 2 ^ 64) >>> 6 + (load l 8 8 &&& mask64) >>> 6)
      - 4 - 16
  | .x64x16 => top64 ((((load a 0 8 &&& mask64) + (load l 0 4 &&& mask32)) % 2 ^ 64) >>> 6 + (load a 8 8 &&& mask64) >>> 6)
      - 16 - 4

/-- `get_dc_sign_ctx`, src/recon_tmpl.c:141-308. -/
def dcSignCtx (b : Arg) : Nat :=
  let s := dcSum b.tx b.a b.l
  (if s ≠ 0 then 1 else 0) + (if s > 0 then 1 else 0)

/-! ### Transform type -/

/-- DCT_DCT, src/levels.h:81. -/
def DCT_DCT : Nat := 0
/-- IDTX, src/levels.h:90. -/
def IDTX : Nat := 9
/-- WHT_WHT, src/levels.h:98. -/
def WHT_WHT : Nat := 16

/-- dav1d_txtp_from_uvmode, src/tables.c:197-213 (CFL_PRED has no initialiser: 0). -/
def txtpFromUvmode : List Nat := [0, 1, 2, 0, 3, 1, 2, 2, 1, 3, 1, 2, 3, 0]

/-- dav1d_tx_types_per_set, src/tables.c:236-248. -/
def typesPerSet : List Nat :=
  [9, 0, 3, 1, 2,
   9, 0, 10, 11, 3, 1, 2,
   9, 10, 11, 0, 1, 2, 4, 5, 3, 6, 7, 8,
   9, 10, 11, 12, 13, 14, 15, 0, 1, 2, 4, 5, 3, 6, 7, 8]

/-- dav1d_tx_type_class, src/tables.c:305-323. -/
def typeClass : List TxClass :=
  [.d2, .d2, .d2, .d2, .d2, .d2, .d2, .d2, .d2, .d2, .v, .h, .v, .h, .v, .h, .d2]

/-- dav1d_filter_mode_to_y_mode, src/tables.c:356-358. -/
def filterModeToYMode : List Nat := [0, 1, 2, 6, 0]

/-- `get_uv_inter_txtp`, src/env.h:120-133. -/
def uvInterTxtp (tx : Tx) (ytxtp : Nat) : Nat :=
  if dim tx 5 = 3 then (if ytxtp = IDTX then IDTX else DCT_DCT)
  else if dim tx 4 = 2 ∧ (1 <<< ytxtp) &&& ((1 <<< 15) ||| (1 <<< 14) ||| (1 <<< 13) ||| (1 <<< 12)) ≠ 0 then DCT_DCT
  else ytxtp

/-- Transform type, src/recon_tmpl.c:351-401. -/
def readTxtp (src : Source σ) (b : Arg) (s : σ) (k : Nat → σ → Option α) : Option α :=
  if b.lossless then (if dim b.tx 5 = 0 then k WHT_WHT s else none)
  else if dim b.tx 5 + (if b.intra then 1 else 0) ≥ 4 then k DCT_DCT s
  else if b.chroma = 1 then
    if b.intra then
      match txtpFromUvmode[b.uvMode]? with
      | none => none
      | some t => k t s
    else k (uvInterTxtp b.tx b.txtp) s
  else if b.qidx = 0 then k DCT_DCT s
  else if b.intra then
    match (if b.yMode = 13 then filterModeToYMode[b.yAngle]? else some b.yMode) with
    | none => none
    | some yModeNofilt =>
      if b.reduced ∨ dim b.tx 4 = 2 then
        rd src ⟨.mode .txtpIntra2, [dim b.tx 4, yModeNofilt]⟩ 4 s fun idx s =>
          match typesPerSet[idx + 0]? with
          | none => none
          | some t => k t s
      else
        rd src ⟨.mode .txtpIntra1, [dim b.tx 4, yModeNofilt]⟩ 6 s fun idx s =>
          match typesPerSet[idx + 5]? with
          | none => none
          | some t => k t s
  else
    if b.reduced ∨ dim b.tx 5 = 3 then
      rd src ⟨.mode .txtpInter3, [dim b.tx 4]⟩ 1 s fun idx s => k (((idx + (2 ^ 32 - 1)) % 2 ^ 32) &&& IDTX) s
    else if dim b.tx 4 = 2 then
      rd src ⟨.mode .txtpInter2, []⟩ 11 s fun idx s =>
        match typesPerSet[idx + 12]? with
        | none => none
        | some t => k t s
    else
      rd src ⟨.mode .txtpInter1, [dim b.tx 4]⟩ 15 s fun idx s =>
        match typesPerSet[idx + 24]? with
        | none => none
        | some t => k t s

/-! ### End of block -/

/-- `slw` and `slh`, src/recon_tmpl.c:405. -/
def slw (b : Arg) : Nat := min (dim b.tx 2) 3
/-- `slw` and `slh`, src/recon_tmpl.c:405. -/
def slh (b : Arg) : Nat := min (dim b.tx 3) 3

/-- The eob_bin table and its number of symbols, src/recon_tmpl.c:409-424. -/
def eobBinCdf (b : Arg) (is1d : Nat) : Option (Cdf × Nat) :=
  match slw b + slh b with
  | 0 => some (⟨.coef .eobBin16, [b.chroma, is1d]⟩, 4 + 0)
  | 1 => some (⟨.coef .eobBin32, [b.chroma, is1d]⟩, 4 + 1)
  | 2 => some (⟨.coef .eobBin64, [b.chroma, is1d]⟩, 4 + 2)
  | 3 => some (⟨.coef .eobBin128, [b.chroma, is1d]⟩, 4 + 3)
  | 4 => some (⟨.coef .eobBin256, [b.chroma, is1d]⟩, 4 + 4)
  | 5 => some (⟨.coef .eobBin512, [b.chroma]⟩, 4 + 5)
  | 6 => some (⟨.coef .eobBin1024, [b.chroma]⟩, 4 + 6)
  | _ => none

/-- End of block, src/recon_tmpl.c:403-444. -/
def readEob (src : Source σ) (b : Arg) (cls : TxClass) (s : σ) (k : Nat → σ → Option α) : Option α :=
  match eobBinCdf b (if cls ≠ .d2 then 1 else 0) with
  | none => none
  | some (c, n) =>
    rd src c n s fun eobBin s =>
    if eobBin > 1 then
      rd src ⟨.coef .eobHiBit, [dim b.tx 7, b.chroma, eobBin]⟩ 1 s fun hi s =>
      let r := bools src (eobBin - 2) 0 s
      k (((hi ||| 2) <<< (eobBin - 2)) ||| r.1) r.2
    else k eobBin s

/-! ### Levels -/

/-- The buffer `levels`: `none` is an element outside or without value, src/internal.h:423. -/
abbrev Lev : Type := Nat → Option Nat

/-- `memset(levels, 0, n)`, src/recon_tmpl.c:564, 572, 580; the buffer has 32 * 34 bytes. -/
def levInit (n : Nat) : Option Lev := if n ≤ 32 * 34 then some (fun i => if i < n then some 0 else none) else none

/-- Write a byte to `levels`, src/recon_tmpl.c:485, 520, 526. -/
def levSet (L : Lev) (i v : Nat) : Option Lev :=
  if i < 32 * 34 then some (fun j => if j = i then some (v % 256) else L j) else none

/-- Write to the coefficient buffer of `n` elements: the type is int16_t for 8 bits per component, else int32_t
(include/common/bitdepth.h). -/
def cfSet (n bpc : Nat) (cf : Nat → Int) (i : Nat) (v : Int) : Option (Nat → Int) :=
  let m : Int := if bpc = 8 then 2 ^ 15 else 2 ^ 31
  if i < n ∧ -m ≤ v ∧ v < m then some (fun j => if j = i then v else cf j) else none

/-- dav1d_lo_ctx_offsets, src/tables.c:275-295. -/
def loCtxOffsets : List (List (List Nat)) :=
  [[[0, 1, 6, 6, 21], [1, 6, 6, 21, 21], [6, 6, 21, 21, 21], [6, 21, 21, 21, 21], [21, 21, 21, 21, 21]],
   [[0, 16, 6, 6, 21], [16, 16, 6, 21, 21], [16, 16, 21, 21, 21], [16, 16, 21, 21, 21], [16, 16, 21, 21, 21]],
   [[0, 11, 11, 11, 11], [11, 11, 11, 11, 11], [6, 6, 21, 21, 21], [6, 21, 21, 21, 21], [21, 21, 21, 21, 21]]]

/-- What DECODE_COEFS_CLASS gets from the three cases, src/recon_tmpl.c:551-585. -/
structure Cls where
  cls : TxClass
  scan : List Nat
  offsets : List (List Nat)
  stride : Nat
  shift : Nat
  shift2 : Nat
  mask : Nat
  /-- bytes cleared -/
  clear : Nat

/-- The three cases, src/recon_tmpl.c:551-585 (`scan` and `lo_ctx_offsets` are not used for the one-dimensional
classes). -/
def clsOf (b : Arg) : TxClass → Cls
  | .d2 =>
    let ns := if txNum b.tx ≥ 5 then 1 else 0
    { cls := .d2, scan := Itx.scans b.tx, offsets := loCtxOffsets.getD (ns + (txNum b.tx &&& ns)) [],
      stride := 4 <<< slh b, shift := slh b + 2, shift2 := 0, mask := (4 <<< slh b) - 1,
      clear := (4 <<< slh b) * ((4 <<< slw b) + 2) }
  | .h =>
    { cls := .h, scan := [], offsets := [], stride := 16, shift := slh b + 2, shift2 := 0, mask := (4 <<< slh b) - 1,
      clear := 16 * ((4 <<< slh b) + 2) }
  | .v =>
    { cls := .v, scan := [], offsets := [], stride := 16, shift := slw b + 2, shift2 := slh b + 2,
      mask := (4 <<< slw b) - 1, clear := 16 * ((4 <<< slw b) + 2) }

/-- `rc`, `x` and `y` of coefficient number `i`, src/recon_tmpl.c:463-469 and 490-496. -/
def posXY (c : Cls) (i : Nat) : Option (Nat × Nat × Nat) :=
  match c.cls with
  | .d2 =>
    match c.scan[i]? with
    | none => none
    | some rc => some (rc, rc >>> c.shift, rc &&& c.mask)
  | .h => some (i, i &&& c.mask, i >>> c.shift)
  | .v => some (((i &&& c.mask) <<< c.shift2) ||| (i >>> c.shift), i &&& c.mask, i >>> c.shift)

/-- `get_lo_ctx`, src/recon_tmpl.c:310-319, with `levels` pointing to element `p`: the context and `*hi_mag`. -/
def getLoCtx (c : Cls) (L : Lev) (p x y : Nat) : Option (Nat × Nat) :=
  match L (p + 1), L (p + c.stride) with
  | some u, some v =>
    match c.cls with
    | .d2 =>
      match L (p + c.stride + 1), L (p + 2), L (p + 2 * c.stride), (c.offsets.getD (min y 4) [])[min x 4]? with
      | some w, some m, some n, some offset =>
        let mag := u + v + w + m + n
        some (offset + (if mag > 512 then 4 else (mag + 64) >>> 7), u + v + w)
      | _, _, _, _ => none
    | _ =>
      match L (p + 2), L (p + 3), L (p + 4) with
      | some w, some m, some n =>
        let mag := u + v + w + m + n
        some (26 + (if y > 1 then 10 else y * 5) + (if mag > 512 then 4 else (mag + 64) >>> 7), u + v + w)
      | _, _, _ => none
  | _, _ => none

/-- `eob_cdf[ctx]`, src/recon_tmpl.c:447. -/
def eobCdf (b : Arg) (ctx : Nat) : Cdf := ⟨.coef .eobBaseTok, [dim b.tx 7, b.chroma, ctx]⟩
/-- `hi_cdf[ctx]`, src/recon_tmpl.c:448. -/
def hiCdf (b : Arg) (ctx : Nat) : Cdf := ⟨.coef .brTok, [min (dim b.tx 7) 3, b.chroma, ctx]⟩
/-- `lo_cdf[ctx]`, src/recon_tmpl.c:452. -/
def loCdf (b : Arg) (ctx : Nat) : Cdf := ⟨.coef .baseTok, [dim b.tx 7, b.chroma, ctx]⟩

/-- Elements of the coefficient buffer of a block, `imin(t_dim->w, 8) * imin(t_dim->h, 8) * 16`, src/recon_tmpl.c:786. -/
def cfSize (b : Arg) : Nat := min (dim b.tx 0) 8 * min (dim b.tx 1) 8 * 16

/-- State between the coefficients: `rc`, `levels`, `cf`. -/
structure St where
  rc : Nat
  L : Lev
  cf : Nat → Int

/-- The AC loop from coefficient `i` down to 1, src/recon_tmpl.c:486-533. -/
def acLoop (src : Source σ) (b : Arg) (c : Cls) : Nat → St → σ → (St → σ → Option α) → Option α
  | 0, st, s, k => k st s
  | i + 1, st, s, k =>
    match posXY c (i + 1) with
    | none => none
    | some (rci, x, y) =>
      if ¬(x < 32 ∧ y < 32) then none else
      let p := x * c.stride + y
      match getLoCtx c st.L p x y with
      | none => none
      | some (ctx, mag) =>
        let y' := if c.cls = .d2 then y ||| x else y
        rd src (loCdf b ctx) 3 s fun tok s =>
        if tok = 3 then
          let mag := mag &&& 63
          let ctx := (if y' > (if c.cls = .d2 then 1 else 0) then 14 else 7) + (if mag > 12 then 6 else (mag + 1) >>> 1)
          hiTok src (hiCdf b ctx) s fun tok s =>
          match levSet st.L p (tok + (3 <<< 6)), cfSet (cfSize b) b.bpc st.cf rci (((tok <<< 11) ||| st.rc : Nat) : Int) with
          | some L, some cf => acLoop src b c i ⟨rci, L, cf⟩ s k
          | _, _ => none
        else
          let t : Nat := tok * 0x17ff41
          let v : Nat := (t >>> 9) &&& ((st.rc + (2 ^ 32 - 1 - 0x7ff)) % 2 ^ 32)
          match levSet st.L p t, cfSet (cfSize b) b.bpc st.cf rci (v : Int) with
          | some L, some cf => acLoop src b c i ⟨if v ≠ 0 then rci else st.rc, L, cf⟩ s k
          | _, _ => none

/-- The last coefficient, src/recon_tmpl.c:455-485. -/
def eobTok (src : Source σ) (b : Arg) (c : Cls) (eob : Nat) (cf : Nat → Int) (s : σ) (k : St → σ → Option α) : Option α :=
  let sz := slw b + slh b
  let ctx := 1 + (if eob > 2 <<< sz then 1 else 0) + (if eob > 4 <<< sz then 1 else 0)
  rd src (eobCdf b ctx) 2 s fun eobTok s =>
  match levInit c.clear, posXY c eob with
  | some L, some (rc, x, y) =>
    let fin (tok levelTok : Nat) (s : σ) : Option α :=
      match cfSet (cfSize b) b.bpc cf rc ((tok <<< 11 : Nat) : Int), levSet L (x * c.stride + y) levelTok with
      | some cf, some L => k ⟨rc, L, cf⟩ s
      | _, _ => none
    if eobTok = 2 then
      let ctx := if (if c.cls = .d2 then (x ||| y) > 1 else y ≠ 0) then 14 else 7
      hiTok src (hiCdf b ctx) s fun tok s => fin tok (tok + (3 <<< 6)) s
    else fin (eobTok + 1) ((eobTok + 1) * 0x41) s
  | _, _ => none

/-- The DC token after the AC loop, src/recon_tmpl.c:535-550: `dc_tok`. -/
def dcTok (src : Source σ) (b : Arg) (c : Cls) (L : Lev) (s : σ) (k : Nat → σ → Option α) : Option α :=
  match (if c.cls = .d2 then some (0, 0) else getLoCtx c L 0 0 0) with
  | none => none
  | some (ctx, mag) =>
    rd src (loCdf b ctx) 3 s fun tok s =>
    if tok = 3 then
      match (if c.cls = .d2 then
          match L 1, L c.stride, L (c.stride + 1) with
          | some u, some v, some w => some (u + v + w)
          | _, _, _ => none
        else some mag) with
      | none => none
      | some mag =>
        let mag := mag &&& 63
        hiTok src (hiCdf b (if mag > 12 then 6 else (mag + 1) >>> 1)) s k
    else k tok s

/-- Tokens, src/recon_tmpl.c:446-597: `rc`, `dc_tok` and the coefficient buffer. -/
def tokens (src : Source σ) (b : Arg) (cls : TxClass) (eob : Nat) (cf : Nat → Int) (s : σ)
    (k : Nat → Nat → (Nat → Int) → σ → Option α) : Option α :=
  if eob ≠ 0 then
    let c := clsOf b cls
    eobTok src b c eob cf s fun st s =>
    acLoop src b c (eob - 1) st s fun st s =>
    dcTok src b c st.L s fun dc s => k st.rc dc st.cf s
  else
    rd src (eobCdf b 0) 2 s fun tokBr s =>
    if tokBr = 2 then hiTok src (hiCdf b 0) s fun dc s => k 0 dc cf s
    else k 0 (1 + tokBr) cf s

/-! ### Residual and sign -/

/-- `cf_max`, src/recon_tmpl.c:602. -/
def cfMax (b : Arg) : Nat := 2 ^ 32 - 1 - ((2 ^ 32 - 1 - 127) <<< (if b.bpc = 8 then 8 else b.bpc)) % 2 ^ 32

/-- `dq_shift`, src/recon_tmpl.c:601. -/
def dqShift (b : Arg) : Nat := dim b.tx 7 - 2

/-- `read_golomb() + 15`, then `& 0xfffff`, src/recon_tmpl.c:629-634, 660-665, 687-692, 713-719. -/
def golombTok (src : Source σ) (s : σ) : Nat × σ :=
  let g := golomb src s
  (((g.1 + 15) % 2 ^ 32) &&& 0xfffff, g.2)

/-- A signed coefficient, src/recon_tmpl.c:645, 674, 700, 727. -/
def signed (sign dq : Nat) : Int := if sign ≠ 0 then -(dq : Int) else (dq : Int)

/-- Dequantisation of a token with matrix, src/recon_tmpl.c:625-644 and 654-673: `tok` and `dq`. -/
def dqQm (src : Source σ) (b : Arg) (q m : Nat) (tok sign : Nat) (s : σ) (k : Nat → Nat → σ → Option α) : Option α :=
  let dq := (q * m + 16) >>> 5
  if tok ≥ 15 then
    let t := golombTok src s
    k t.1 (min (((dq * t.1 % 2 ^ 32) &&& 0xffffff) >>> dqShift b) (cfMax b + sign)) t.2
  else
    if dq * tok ≤ 0xffffff then k tok (min ((dq * tok) >>> dqShift b) (cfMax b + sign)) s else none

/-- Dequantisation of a token without matrix, src/recon_tmpl.c:685-699 and 708-726: `tok` and `dq`. -/
def dqNoQm (src : Source σ) (b : Arg) (q : Nat) (tok sign : Nat) (s : σ) (k : Nat → Nat → σ → Option α) : Option α :=
  if tok ≥ 15 then
    let t := golombTok src s
    k t.1 (min (((q * t.1 % 2 ^ 32) &&& 0xffffff) >>> dqShift b) (cfMax b + sign)) t.2
  else
    let dq := (q * tok) >>> dqShift b
    if dq ≤ cfMax b then k tok dq s else none

/-- Dequantisation at position `rc` with or without matrix. The matrix has an element for every position of the
buffer. -/
def dqTok (src : Source σ) (b : Arg) (qm : Option (Nat → Nat)) (q rc tok sign : Nat) (s : σ)
    (k : Nat → Nat → σ → Option α) : Option α :=
  match qm with
  | some m => if rc < cfSize b then dqQm src b q (m rc) tok sign s k else none
  | none => dqNoQm src b q tok sign s k

/-- The loops over the AC coefficients, src/recon_tmpl.c:647-677 and 703-732. `rc_tok >= (15 << 11)` is the test for a
token of 15. -/
def acSigns (src : Source σ) (b : Arg) (qm : Option (Nat → Nat)) : Nat → Nat → (Nat → Int) → Nat → σ →
    ((Nat → Int) → Nat → σ → Option α) → Option α
  | 0, _, _, _, _, _ => none
  | fuel + 1, rc, cf, cul, s, k =>
    let sign := (src.bit s).1
    let s := (src.bit s).2
    if rc < cfSize b then
      let rcTok := (cf rc % 2 ^ 32).toNat
      dqTok src b qm (b.dq 1) rc (if rcTok ≥ 15 <<< 11 then 15 else rcTok >>> 11) sign s fun tok dq s =>
      match cfSet (cfSize b) b.bpc cf rc (signed sign dq) with
      | none => none
      | some cf =>
        let rc := rcTok &&& 0x3ff
        if rc ≠ 0 then acSigns src b qm fuel rc cf ((cul + tok) % 2 ^ 32) s k
        else k cf ((cul + tok) % 2 ^ 32) s
    else none

/-- Residual and sign, src/recon_tmpl.c:598-738: the coefficients and `*res_ctx`. -/
def residual (src : Source σ) (b : Arg) (txtp rc dcTok : Nat) (cf : Nat → Int) (s : σ)
    (k : (Nat → Int) → Nat → σ → Option α) : Option α :=
  let qm := if txtp < IDTX then b.qm else none
  let fin (lvl : Nat) (cf : Nat → Int) (cul : Nat) (s : σ) : Option α := k cf (min cul 63 ||| lvl) s
  if dcTok = 0 then acSigns src b qm 1025 rc cf 0 s (fin (1 <<< 6))
  else
    rd src ⟨.coef .dcSign, [b.chroma, dcSignCtx b]⟩ 1 s fun sign s =>
    let lvl := if sign = 0 then 2 <<< 6 else 0
    dqTok src b qm (b.dq 0) 0 dcTok sign s fun tok dq s =>
    match cfSet (cfSize b) b.bpc cf 0 (signed sign dq) with
    | none => none
    | some cf => if rc ≠ 0 then acSigns src b qm 1025 rc cf tok s (fin lvl) else fin lvl cf tok s

/-- What decode_coefs returns and stores: the return value, `*txtp`, `cf` and `*res_ctx`. -/
structure Out where
  ret : Int
  txtp : Nat
  cf : Nat → Int
  resCtx : Nat

/-- `decode_coefs`, src/recon_tmpl.c:321-740. -/
def decodeCoefs (src : Source σ) (b : Arg) (cf : Nat → Int) (s : σ) : Option (Out × σ) :=
  match skipCtx b with
  | none => none
  | some sctx =>
    rd src ⟨.coef .skip, [dim b.tx 7, sctx]⟩ 1 s fun allSkip s =>
    if allSkip ≠ 0 then some (⟨-1, (if b.lossless then 1 else 0) * WHT_WHT, cf, 0x40⟩, s)
    else
      readTxtp src b s fun txtp s =>
      match typeClass[txtp]? with
      | none => none
      | some cls =>
        readEob src b cls s fun (eob : Nat) s =>
        tokens src b cls eob cf s fun rc dc cf s =>
        residual src b txtp rc dc cf s fun cf ctx s => some (⟨(eob : Int), txtp, cf, ctx⟩, s)

end Dav1d.Coef
