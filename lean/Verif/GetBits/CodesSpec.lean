import Verif.GetBits.Spec
/-!
# Encoders of the AV1 specification's variable-length descriptors (section 4.10)

These are the writers matching the parsing processes of the specification; they do not mention the
decoder model.
-/
namespace Dav1d

/-- leb128 (AV1 spec 4.10.5) of `v` in exactly `k` bytes: little-endian groups of 7 bits, the top bit
of every byte but the last is set. Padded encodings are allowed. -/
def lebBytes : Nat → Nat → List UInt8
  | 0, _ => []
  | 1, v => [UInt8.ofNat (v % 128)]
  | k + 2, v => UInt8.ofNat (128 + v % 128) :: lebBytes (k + 1) (v / 128)

/-- ns(n), AV1 spec 4.10.7. -/
def nsBits (n v : Nat) : List Bool :=
  let w := Nat.log2 n + 1
  let m := 2 ^ w - n
  if v < m then natBits (w - 1) v
  else natBits (w - 1) ((v + m) / 2) ++ [(v + m) % 2 == 1]

/-- uvlc(), AV1 spec 4.10.3, for `v < 2^32 - 1`. -/
def uvlcBits (v : Nat) : List Bool :=
  let lz := Nat.log2 (v + 1)
  List.replicate lz false ++ [true] ++ natBits lz (v + 1 - 2 ^ lz)

/-- Writer for decode_subexp, AV1 spec 5.9.27: `mk` is the value reached so far and `i` the number of
"more bits" flags written. `fuel` bounds the recursion; it is sufficient whenever `fuel ≥ numSyms`. -/
def subexpBits (numSyms v : Nat) : (fuel mk i : Nat) → List Bool
  | 0, _, _ => []
  | fuel + 1, mk, i =>
    let b2 := if i = 0 then 3 else 3 + i - 1
    let a := 2 ^ b2
    if numSyms ≤ mk + 3 * a then nsBits (numSyms - mk) (v - mk)
    else if v < mk + a then false :: natBits b2 (v - mk)
    else true :: subexpBits numSyms v fuel (mk + a) (i + 1)

/-- Inverse of inverse_recenter, AV1 spec 5.9.29. -/
def recenter (r x : Nat) : Nat :=
  if x > 2 * r then x else if r ≤ x then 2 * (x - r) else 2 * (r - x) - 1

/-- Writer for decode_unsigned_subexp_with_ref, AV1 spec 5.9.26. -/
def subexpRefBits (mx r x : Nat) : List Bool :=
  let v := if 2 * r ≤ mx then recenter r x else recenter (mx - 1 - r) (mx - 1 - x)
  subexpBits mx v (mx + 1) 0 0

/-- Writer for decode_signed_subexp_with_ref, AV1 spec 5.9.25. -/
def signedSubexpBits (low high r x : Int) : List Bool :=
  subexpRefBits (high - low).toNat (r - low).toNat (x - low).toNat

end Dav1d
