import Verif.Dsp.Itx1d
import Verif.Dsp.Scan
/-!
# Model of the two-dimensional inverse transforms, src/itx_tmpl.c

The coefficient buffer is a function of the index; the pixels of the block are a function of row and column, and the result
is the list of its rows. `none` is undefined behaviour: an `int` overflow, the use of an array element without value, a read
outside of a table, or a call of a function pointer that is NULL.
-/
namespace Dav1d.Itx

/-- enum TxfmType without WHT_WHT, src/levels.h:80-100. -/
inductive TxType where
  | dctDct | adstDct | dctAdst | adstAdst | flipadstDct | dctFlipadst | flipadstFlipadst | adstFlipadst | flipadstAdst | idtx
  | vDct | hDct | vAdst | hAdst | vFlipadst | hFlipadst
  deriving DecidableEq

/-- dav1d_tx1d_types, src/itx_1d.c:1043-1060. -/
def TxType.kinds : TxType → Kind × Kind
  | .dctDct => (.dct, .dct)
  | .adstDct => (.adst, .dct)
  | .dctAdst => (.dct, .adst)
  | .adstAdst => (.adst, .adst)
  | .flipadstDct => (.flipadst, .dct)
  | .dctFlipadst => (.dct, .flipadst)
  | .flipadstFlipadst => (.flipadst, .flipadst)
  | .adstFlipadst => (.adst, .flipadst)
  | .flipadstAdst => (.flipadst, .adst)
  | .idtx => (.identity, .identity)
  | .vDct => (.dct, .identity)
  | .hDct => (.identity, .dct)
  | .vAdst => (.adst, .identity)
  | .hAdst => (.identity, .adst)
  | .vFlipadst => (.flipadst, .identity)
  | .hFlipadst => (.identity, .flipadst)

/-- dav1d_tx_type_class, src/tables.c:305-323. -/
def TxType.cls : TxType → TxClass
  | .vDct | .vAdst | .vFlipadst => .v
  | .hDct | .hAdst | .hFlipadst => .h
  | _ => .d2

/-- The `txtp` argument of inv_txfm_add_c in the function that `itxfm_add[tx][txtp]` points to: the macros
assign_itx_all_fn, src/itx_tmpl.c:221-262, assign the function of the transposed type, and inv_txfm_fn, 121-158, gives the
type that belongs to a name. -/
def TxType.impl : TxType → TxType
  | .dctDct => .dctDct
  | .idtx => .idtx
  | .dctAdst => .adstDct
  | .adstDct => .dctAdst
  | .adstAdst => .adstAdst
  | .adstFlipadst => .flipadstAdst
  | .flipadstAdst => .adstFlipadst
  | .dctFlipadst => .flipadstDct
  | .flipadstDct => .dctFlipadst
  | .flipadstFlipadst => .flipadstFlipadst
  | .hDct => .vDct
  | .vDct => .hDct
  | .hFlipadst => .vFlipadst
  | .vFlipadst => .hFlipadst
  | .hAdst => .vAdst
  | .vAdst => .hAdst

/-- Whether `itxfm_add[tx][txtp]` is assigned, src/itx_tmpl.c:221-288: assign_itx_all_fn64, 32, 16 or 84. -/
def Tx.has (tx : Tx) (ty : TxType) : Bool :=
  match tx with
  | .x4x4 | .x4x8 | .x4x16 | .x8x4 | .x8x8 | .x8x16 | .x16x4 | .x16x8 => true
  | .x16x16 => match ty with
    | .hFlipadst | .vFlipadst | .hAdst | .vAdst => false
    | _ => true
  | .x8x32 | .x16x32 | .x32x8 | .x32x16 | .x32x32 => match ty with
    | .dctDct | .idtx => true
    | _ => false
  | .x16x64 | .x32x64 | .x64x16 | .x64x32 | .x64x64 => match ty with
    | .dctDct => true
    | _ => false

/-- The `shift` argument, src/itx_tmpl.c:160-178. -/
def Tx.shift : Tx → Nat
  | .x4x4 | .x4x8 | .x8x4 => 0
  | .x4x16 | .x8x8 | .x8x16 | .x16x4 | .x16x8 | .x16x32 | .x32x16 | .x32x64 | .x64x32 => 1
  | .x8x32 | .x16x16 | .x16x64 | .x32x8 | .x32x32 | .x64x16 | .x64x64 => 2

/-- `is_rect2`, src/itx_tmpl.c:55. -/
def Tx.rect2 (tx : Tx) : Bool := tx.w * 2 == tx.h || tx.h * 2 == tx.w

/-- `row_clip_min`, src/itx_tmpl.c:77 and 80; the maximum is its complement, 83. -/
def rowMin : Depth → Int
  | .b8 => -32768
  | d => (-d.max - 1) * 2 ^ 7

/-- `col_clip_min`, src/itx_tmpl.c:78 and 81; the maximum is its complement, 84. -/
def colMin : Depth → Int
  | .b8 => -32768
  | d => (-d.max - 1) * 2 ^ 5

/-- `~v` -/
def compl (v : Int) : Int := -v - 1

/-- `(v * 181 + 128) >> 8` -/
def mul181 (v : Int) : Option Int := (fit (v * 181)).bind fun a => (fit (a + 128)).map fun b => asr b 8

/-- All results of a loop. -/
def collect {α : Type} : Nat → (Nat → Option α) → Option (List α)
  | 0, _ => some []
  | n + 1, f => (collect n f).bind fun l => (f n).map fun v => l ++ [v]

/-- The assignment to `dst[x]`, `dst[x] = iclip_pixel(dst[x] + v)`, src/itx_tmpl.c:68 and 118. -/
def addPx (d : Depth) (p v : Int) : Option Int := (fit (p + v)).map d.clip

/-- The pixels and the coefficient buffer after the call. -/
abbrev Out := List (List Int) × (Nat → Int)

/-- The DC-only case of inv_txfm_add_c, src/itx_tmpl.c:58-70. -/
def invTxfmDc (d : Depth) (tx : Tx) (coeff : Nat → Int) (dst : Nat → Nat → Int) : Option Out :=
  (if tx.rect2 then mul181 (coeff 0) else some (coeff 0)).bind fun dc =>
  (mul181 dc).bind fun dc =>
  (fit (dc + half tx.shift)).bind fun dc =>
  let dc := asr dc tx.shift
  (fit (dc * 181)).bind fun dc => (fit (dc + 128)).bind fun dc => (fit (dc + 2048)).bind fun dc =>
  let dc := asr dc 12
  (collect tx.h fun y => collect tx.w fun x => addPx d (dst y x) dc).map fun out =>
  (out, fun i => if i = 0 then 0 else coeff i)

/-- init_tbl, src/scan.c:319-331: the largest `rc & (h - 1)` of the first `eob + 1` coefficients, for a table of `n`
elements and height `h`. -/
def lastCol (scan : List Nat) (h eob : Nat) : Option Nat :=
  if eob < scan.length then some ((scan.take (eob + 1)).foldl (fun m rc => max m (rc &&& (h - 1))) 0) else none

/-- `last_nonzero_col`, src/itx_tmpl.c:87-94. dav1d_last_nonzero_col_from_eob, src/scan.c:355-375, has for each size the table
made from the scan that dav1d_scans has for it, 333-347, with the height of this scan, which is `sh`. -/
def lastNonzero (tx : Tx) (ty : TxType) (eob : Nat) : Option Nat :=
  if ty.kinds.2 = .identity ∧ ty.kinds.1 ≠ .identity then some (min (tx.sh - 1) eob)
  else if ty.kinds.1 = .identity ∧ ty.kinds.2 ≠ .identity then some (eob >>> (tx.lw + 2))
  else lastCol (scans tx) tx.sh eob

/-- One row of the first pass, src/itx_tmpl.c:97-103. -/
def firstRow (d : Depth) (tx : Tx) (p : Prog) (coeff : Nat → Int) (y : Nat) : Option (List Int) :=
  (collect tx.sw fun x => if tx.rect2 then mul181 (coeff (y + x * tx.sh)) else some (coeff (y + x * tx.sh))).bind fun c =>
  call (int32 (rowMin d) (compl (rowMin d))) p tx.w c

/-- The first pass and the rounding, src/itx_tmpl.c:96-110: rows up to `last`, then zeros. -/
def pass1 (d : Depth) (tx : Tx) (p : Prog) (last : Nat) (coeff : Nat → Int) : Option (List (List Int)) :=
  collect tx.sh fun y =>
    (if y ≤ last then firstRow d tx p coeff y else some (List.replicate tx.w 0)).bind fun row =>
    collect tx.w fun x => (row[x]?).bind fun v => (fit (v + half tx.shift)).map fun v =>
      iclip (asr v tx.shift) (colMin d) (compl (colMin d))

/-- The second pass, src/itx_tmpl.c:112-113. -/
def pass2 (d : Depth) (tx : Tx) (p : Prog) (tmp : List (List Int)) : Option (List (List Int)) :=
  collect tx.w fun x => (collect tx.sh fun y => (tmp[y]?).bind fun row => row[x]?).bind fun col =>
    call (int32 (colMin d) (compl (colMin d))) p tx.h col

/-- The output, src/itx_tmpl.c:115-118. -/
def output (d : Depth) (tx : Tx) (cols : List (List Int)) (dst : Nat → Nat → Int) : Option (List (List Int)) :=
  collect tx.h fun y => collect tx.w fun x => (cols[x]?).bind fun col => (col[y]?).bind fun v =>
    (fit (v + 8)).bind fun v => addPx d (dst y x) (asr v 4)

/-- The general case of inv_txfm_add_c, src/itx_tmpl.c:72-118. The case `last ≥ sh` is excluded by the assertion of line 95. -/
def invTxfmFull (d : Depth) (tx : Tx) (ty : TxType) (eob : Nat) (coeff : Nat → Int) (dst : Nat → Nat → Int) : Option Out :=
  (fn tx.w ty.kinds.1).bind fun p1 => (fn tx.h ty.kinds.2).bind fun p2 =>
  (lastNonzero tx ty eob).bind fun last =>
  if last < tx.sh then
    (pass1 d tx p1 last coeff).bind fun tmp => (pass2 d tx p2 tmp).bind fun cols =>
    (output d tx cols dst).map fun out => (out, fun i => if i < tx.sw * tx.sh then 0 else coeff i)
  else none

/-- inv_txfm_add_c, src/itx_tmpl.c:42-119. -/
def invTxfmAdd (d : Depth) (tx : Tx) (ty : TxType) (eob : Nat) (coeff : Nat → Int) (dst : Nat → Nat → Int) : Option Out :=
  if eob < (if ty = .dctDct then 1 else 0) then invTxfmDc d tx coeff dst else invTxfmFull d tx ty eob coeff dst

/-- A call of `itxfm_add[tx][txtp]`. -/
def itxfmAdd (d : Depth) (tx : Tx) (ty : TxType) (eob : Nat) (coeff : Nat → Int) (dst : Nat → Nat → Int) : Option Out :=
  if tx.has ty then invTxfmAdd d tx ty.impl eob coeff dst else none

/-! ## Lossless blocks -/

/-- dav1d_inv_wht4_1d_c, src/itx_1d.c:1066-1081. -/
def wht4 (in0 in1 in2 in3 : Int) : Option (List Int) :=
  (fit (in0 + in1)).bind fun t0 =>
  (fit (in2 - in3)).bind fun t2 =>
  (fit (t0 - t2)).bind fun s =>
  let t4 := asr s 1
  (fit (t4 - in3)).bind fun t3 =>
  (fit (t4 - in1)).bind fun t1 =>
  (fit (t0 - t3)).bind fun c0 =>
  (fit (t2 + t1)).map fun c3 => [c0, t3, t1, c3]

/-- inv_txfm_add_wht_wht_4x4_c, src/itx_tmpl.c:184-203. -/
def invWht (d : Depth) (coeff : Nat → Int) (dst : Nat → Nat → Int) : Option Out :=
  (collect 4 fun y => wht4 (asr (coeff y) 2) (asr (coeff (y + 4)) 2) (asr (coeff (y + 8)) 2) (asr (coeff (y + 12)) 2)).bind fun tmp =>
  (collect 4 fun x => (collect 4 fun y => (tmp[y]?).bind fun row => row[x]?).bind fun col =>
    match col with
    | [a, b, c, d] => wht4 a b c d
    | _ => none).bind fun cols =>
  (collect 4 fun y => collect 4 fun x => (cols[x]?).bind fun col => (col[y]?).bind fun v => addPx d (dst y x) v).map fun out =>
  (out, fun i => if i < 16 then 0 else coeff i)

end Dav1d.Itx
