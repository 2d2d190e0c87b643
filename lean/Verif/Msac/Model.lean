import Verif.Msac.Prog
/-!
# Model of src/msac.c and src/msac.h

Parametric in the window size `W` in bits (`EC_WIN_SIZE`, src/msac.c:39; 64 on 64-bit targets and 32 on
32-bit targets, src/msac.h).
-/
namespace Dav1d

/-- `MsacContext`, src/msac.h:38-49. `buf`/`pos` stand for the tile data and the offset of `buf_pos`
in it, `dif` is the `W`-bit window as a natural number. -/
structure Msac where
  buf : List UInt8
  pos : Nat
  dif : Nat
  rng : Nat
  cnt : Int
  allowUpdate : Bool
  deriving DecidableEq, Repr

namespace Msac

/-- Loop of `ctx_refill`, src/msac.c:46-54, on `(dif, buf_pos, c)`. The byte read is in bounds because of
the comparison in line 47. `~(~(ec_win)0xff << c)` is `2^(c+8) - 1`. -/
def refillLoop (buf : List UInt8) (dif pos : Nat) (c : Int) : Nat × Nat × Int :=
  if h : pos < buf.length then
    let dif := dif ||| ((buf[pos].toNat ^^^ 0xff) <<< c.toNat)
    if c - 8 ≥ 0 then refillLoop buf dif (pos + 1) (c - 8) else (dif, pos + 1, c - 8)
  else (dif ||| (2 ^ (c + 8).toNat - 1), pos, c)
termination_by buf.length - pos

/-- `ctx_refill`, src/msac.c:41-58. -/
def refill (W : Nat) (s : Msac) : Msac :=
  let r := refillLoop s.buf s.dif s.pos (W - s.cnt - 24)
  { s with dif := r.1, pos := r.2.1, cnt := W - r.2.2 - 24 }

/-- `ctx_norm`, src/msac.c:85-97. `15 ^ (31 ^ clz(rng))` is `15 - log2 rng` for `0 < rng < 65536`. The
unsigned comparison of line 95 is false for negative `cnt`. -/
def norm (W : Nat) (s : Msac) (dif rng : Nat) : Msac :=
  let d := 15 - Nat.log2 rng
  let s' := { s with dif := (dif <<< d) % 2 ^ W, rng := rng <<< d, cnt := s.cnt - d }
  if 0 ≤ s.cnt ∧ s.cnt < d then refill W s' else s'

/-- `dav1d_msac_init`, src/msac.c:204-220 (without the function pointer set-up). -/
def init (W : Nat) (data : List UInt8) (disableUpdate : Bool) : Msac :=
  refill W { buf := data, pos := 0, dif := 0, rng := 0x8000, cnt := -15, allowUpdate := !disableUpdate }

/-- `dav1d_msac_decode_bool_c`, src/msac.c:117-128. -/
def decodeBool (W : Nat) (s : Msac) (f : Nat) : Nat × Msac :=
  let r := s.rng
  let v := (((r >>> 8) * (f >>> 6)) >>> 1) + 4
  let vw := v <<< (W - 16)
  if s.dif ≥ vw then (0, norm W s (s.dif - vw) (r - v)) else (1, norm W s s.dif v)

/-- `dav1d_msac_decode_bool_equi_c`, src/msac.c:99-112. -/
def decodeBoolEqui (W : Nat) (s : Msac) : Nat × Msac :=
  let r := s.rng
  let v := ((r >>> 8) <<< 7) + 4
  let vw := v <<< (W - 16)
  if s.dif ≥ vw then (0, norm W s (s.dif - vw) (r - v)) else (1, norm W s s.dif v)

/-- Loop of `dav1d_msac_decode_symbol_adapt_c`, src/msac.c:142-148, returning `val`, `u`, `v`. `none` is
an access outside the CDF array (also when more than `fuel` entries are visited). -/
def symLoop (cdf : List Nat) (n r c : Nat) : (fuel val u : Nat) → Option (Nat × Nat × Nat)
  | 0, _, _ => none
  | fuel + 1, val, u =>
    match cdf[val]? with
    | none => none
    | some p =>
      let v := ((r * (p >>> 6)) >>> 1) + 4 * (n - val)
      if c < v then symLoop cdf n r c fuel (val + 1) v else some (val, u, v)

/-- CDF update of `dav1d_msac_decode_symbol_adapt_c`, src/msac.c:155-162. The array has the `n` inverse
cumulative probabilities followed by the counter. -/
def adaptCdf (cdf : List Nat) (n val : Nat) : List Nat :=
  let count := cdf.getD n 0
  let rate := 4 + (count >>> 4) + (if n > 2 then 1 else 0)
  cdf.mapIdx fun i p =>
    if i < val then p + ((32768 - p) >>> rate)
    else if i < n then p - (p >>> rate)
    else count + (if count < 32 then 1 else 0)

/-- `dav1d_msac_decode_symbol_adapt_c`, src/msac.c:132-166, with `n_symbols = cdf.length - 1`. -/
def decodeSymbol (W : Nat) (s : Msac) (cdf : List Nat) : Option (Nat × List Nat × Msac) :=
  let n := cdf.length - 1
  let c := s.dif >>> (W - 16)
  match symLoop cdf n (s.rng >>> 8) c (n + 1) 0 s.rng with
  | none => none
  | some (val, u, v) =>
    let s' := norm W s (s.dif - v <<< (W - 16)) (u - v)
    some (val, if s.allowUpdate then adaptCdf cdf n val else cdf, s')

/-- `dav1d_msac_decode_bool_adapt_c`, src/msac.c:168-185 (the array is `[p, count]`). -/
def decodeBoolAdapt (W : Nat) (s : Msac) (cdf : List Nat) : Nat × List Nat × Msac :=
  let p := cdf.getD 0 0
  let count := cdf.getD 1 0
  let r := decodeBool W s p
  let rate := 4 + (count >>> 4)
  (r.1,
    if s.allowUpdate then
      [if r.1 = 1 then p + ((32768 - p) >>> rate) else p - (p >>> rate), count + (if count < 32 then 1 else 0)]
    else cdf,
    r.2)

end Msac

namespace SProg

variable {α : Type}

/-- Run on the C symbol decoder; `none` is an out-of-bounds access. -/
def runC (W : Nat) : SProg α → (Nat → List Nat) → Msac → Option (α × (Nat → List Nat) × Msac)
  | ret a, st, s => some (a, st, s)
  | sym id k, st, s =>
    match s.decodeSymbol W (st id) with
    | none => none
    | some (v, cdf, s) => runC W (k v) (storeSet st id cdf) s
  | boolAdapt id k, st, s =>
    let r := s.decodeBoolAdapt W (st id)
    runC W (k r.1) (storeSet st id r.2.1) r.2.2
  | bool f k, st, s => let r := s.decodeBool W f; runC W (k r.1) st r.2
  | equi k, st, s => let r := s.decodeBoolEqui W; runC W (k r.1) st r.2

end SProg
end Dav1d
