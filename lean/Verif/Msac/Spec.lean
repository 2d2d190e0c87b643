import Verif.GetBits.Spec
import Verif.Msac.Prog
/-!
# The AV1 specification's symbol decoder (section 8.2) and encoder interval

Everything here is written from the text of the specification; nothing refers to the decoder model.
-/
namespace Dav1d

/-- State of the specification's symbol decoder: the unread bits of the tile, `SymbolValue`,
`SymbolRange` and `SymbolMaxBits`. -/
structure SymDec where
  rem : List Bool
  value : Nat
  range : Nat
  maxBits : Int
  deriving DecidableEq, Repr

namespace SymDec

/-- init_symbol(sz), AV1 spec 8.2.2. -/
def init (data : List UInt8) : SymDec :=
  let numBits := min (data.length * 8) 15
  let buf := bitsVal ((bytesBits data).take numBits)
  let paddedBuf := buf <<< (15 - numBits)
  { rem := (bytesBits data).drop numBits
    value := (2 ^ 15 - 1) ^^^ paddedBuf
    range := 2 ^ 15
    maxBits := 8 * (data.length : Int) - 15 }

/-- The interval boundary computed for a cumulative probability `f` (spec representation, increasing up to
32768) when `left` symbols follow it, AV1 spec 8.2.6. -/
def boundary (range f left : Nat) : Nat :=
  (((range >>> 8) * ((32768 - f) >>> 6)) >>> 1) + 4 * left

/-- The do-while loop of decode_symbol, AV1 spec 8.2.6, over the remaining entries of the CDF array.
Returns symbol, prev and cur. -/
def pick (range value : Nat) : List Nat → (cur symbol : Nat) → Nat × Nat × Nat
  | [], cur, symbol => (symbol, cur, cur)
  | f :: fs, prev, symbol =>
    let cur := boundary range f fs.length
    if value < cur then pick range value fs cur (symbol + 1) else (symbol, prev, cur)

/-- Renormalization, AV1 spec 8.2.6, for `SymbolRange = range` and `SymbolValue = value`. -/
def renorm (s : SymDec) (range value : Nat) : SymDec :=
  let bits := 15 - Nat.log2 range
  let numBits := min bits (max 0 s.maxBits).toNat
  let newData := bitsVal (s.rem.take numBits)
  let paddedData := newData <<< (bits - numBits)
  { rem := s.rem.drop numBits
    value := paddedData ^^^ (((value + 1) <<< bits) - 1)
    range := range <<< bits
    maxBits := s.maxBits - bits }

/-- decode_symbol without adaptation, AV1 spec 8.2.6. The cdf is given as the array
`cdf[0..N-1]` (the last entry is 32768) without the counter. -/
def decode (s : SymDec) (cdf : List Nat) : Nat × SymDec :=
  let r := pick s.range s.value cdf s.range 0
  (r.1, s.renorm (r.2.1 - r.2.2) (s.value - r.2.2))

end SymDec

/-- A CDF array of the specification: `probs = cdf[0..N-1]`, `count = cdf[N]`. -/
structure SpecCdf where
  probs : List Nat
  count : Nat
  deriving DecidableEq, Repr

/-- CDF adaptation, AV1 spec 8.2.6 (last part): entries before the decoded symbol move towards 0, the
others (except the last one) towards 32768. -/
def SpecCdf.adapt (c : SpecCdf) (symbol : Nat) : SpecCdf :=
  let N := c.probs.length
  let rate := 3 + (if c.count > 15 then 1 else 0) + (if c.count > 31 then 1 else 0) + min (Nat.log2 N) 2
  { probs := c.probs.mapIdx fun i f =>
      if i < N - 1 then
        let tmp := if symbol ≤ i then 32768 else 0
        if tmp < f then f - ((f - tmp) >>> rate) else f + ((tmp - f) >>> rate)
      else f
    count := if c.count < 32 then c.count + 1 else c.count }

/-- read_bool(), AV1 spec 8.2.5: the constant half/half CDF. -/
def halfCdf : List Nat := [16384, 32768]

/-! ## Encoder interval

The arithmetic encoder narrows an interval `[low, low + range)` of bit-string values. The encoder may
emit any bit string whose value lies in the final interval. -/

/-- Exact (unbounded precision) encoder state after some symbols: bit strings of length `15 + shift` with
value in `[low, low + range)`. -/
structure EncIv where
  low : Nat
  range : Nat
  shift : Nat
  deriving DecidableEq, Repr

namespace EncIv

/-- Before the first symbol: every 15-bit string. -/
def init : EncIv := { low := 0, range := 2 ^ 15, shift := 0 }

/-- The two boundaries of `symbol` under `cdf`, counted from the top of the interval. -/
def bounds (range : Nat) (cdf : List Nat) (symbol : Nat) : Nat × Nat :=
  let b := fun i => SymDec.boundary range (cdf.getD i 0) (cdf.length - 1 - i)
  (if symbol = 0 then range else b (symbol - 1), b symbol)

/-- Encode `symbol`: keep the part of the interval between its boundaries and rescale so that the
range has 16 bits again. -/
def encode (e : EncIv) (cdf : List Nat) (symbol : Nat) : EncIv :=
  let uv := bounds e.range cdf symbol
  let low := e.low + (e.range - uv.1)
  let range := uv.1 - uv.2
  let d := 15 - Nat.log2 range
  { low := low * 2 ^ d, range := range * 2 ^ d, shift := e.shift + d }

end EncIv

/-- Run a symbol program with the specification's decoder. `adapt` is `disable_cdf_update == 0`. A
boolean with probability `f` of being one is a symbol with the CDF `[32768 - f, 32768]`. -/
def SProg.run {α : Type} (adapt : Bool) : SProg α → (Nat → SpecCdf) → SymDec → α × (Nat → SpecCdf) × SymDec
  | .ret a, st, s => (a, st, s)
  | .sym id k, st, s =>
    let r := s.decode (st id).probs
    (k r.1).run adapt (if adapt then storeSet st id ((st id).adapt r.1) else st) r.2
  | .boolAdapt id k, st, s =>
    let r := s.decode (st id).probs
    (k r.1).run adapt (if adapt then storeSet st id ((st id).adapt r.1) else st) r.2
  | .bool f k, st, s => let r := s.decode [32768 - f, 32768]; (k r.1).run adapt st r.2
  | .equi k, st, s => let r := s.decode halfCdf; (k r.1).run adapt st r.2

/-- Encode with a symbol program: take the symbols of the list one after the other (all must be used and each
must exist in its CDF) and return the program's result, the adapted CDFs and the final interval. -/
def SProg.encode {α : Type} (adapt : Bool) :
    SProg α → List Nat → (Nat → SpecCdf) → EncIv → Option (α × (Nat → SpecCdf) × EncIv)
  | .ret a, [], st, e => some (a, st, e)
  | .ret _, _ :: _, _, _ => none
  | .sym id k, x :: xs, st, e =>
    if x < (st id).probs.length then
      (k x).encode adapt xs (if adapt then storeSet st id ((st id).adapt x) else st) (e.encode (st id).probs x)
    else none
  | .boolAdapt id k, x :: xs, st, e =>
    if x < 2 then
      (k x).encode adapt xs (if adapt then storeSet st id ((st id).adapt x) else st) (e.encode (st id).probs x)
    else none
  | .bool f k, x :: xs, st, e =>
    if x < 2 then (k x).encode adapt xs st (e.encode [32768 - f, 32768] x) else none
  | .equi k, x :: xs, st, e => if x < 2 then (k x).encode adapt xs st (e.encode halfCdf x) else none
  | .sym _ _, [], _, _ => none
  | .boolAdapt _ _, [], _, _ => none
  | .bool _ _, [], _, _ => none
  | .equi _, [], _, _ => none

/-- Value of the first `k` bits of a byte string, zero padded. -/
def firstBits (data : List UInt8) (k : Nat) : Nat :=
  bitsVal ((bytesBits data ++ List.replicate k false).take k)

/-- The bytes `data` are a valid output of the encoder for interval `e`: their first `15 + shift` bits lie in
the interval. -/
def EncIv.Contains (e : EncIv) (data : List UInt8) : Prop :=
  e.low ≤ firstBits data (15 + e.shift) ∧ firstBits data (15 + e.shift) < e.low + e.range

/-- A valid cumulative distribution: 2..16 symbols, non-decreasing positive entries, the last one 32768. -/
def SpecCdf.Valid (c : SpecCdf) : Prop :=
  2 ≤ c.probs.length ∧ c.probs.length ≤ 16 ∧ c.probs.Pairwise (· ≤ ·) ∧ (∀ f ∈ c.probs, 0 < f) ∧
  c.probs.getLast? = some 32768 ∧ c.count ≤ 32

end Dav1d
