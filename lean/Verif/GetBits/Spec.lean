/-!
# Abstract bit reader

Independent specification: a byte string is a list of bits, most significant bit of each byte first
(AV1 specification section 4.10.2), reads past the end yield zero bits.
-/
namespace Dav1d

/-- Value of a bit string, most significant bit first. -/
def bitsVal (l : List Bool) : Nat := l.foldl (fun a b => 2 * a + b.toNat) 0

/-- The `k` low bits of `n`, most significant first (the AV1 descriptor `f(k)` written by an encoder). -/
def natBits : Nat → Nat → List Bool
  | 0, _ => []
  | k + 1, n => natBits k (n / 2) ++ [n % 2 == 1]

/-- The bits of a byte string. -/
def bytesBits (l : List UInt8) : List Bool := l.flatMap (fun b => natBits 8 b.toNat)

/-- Abstract reader state: `total` bits in the buffer, the unread bits `rem`, the number of bits read
past the end `over`, and the sticky error flag. -/
structure BitSt where
  total : Nat
  rem : List Bool
  over : Nat
  err : Bool
  deriving DecidableEq, Repr

namespace BitSt

/-- Reader at the start of a byte string. -/
def init (data : List UInt8) : BitSt :=
  { total := 8 * data.length, rem := bytesBits data, over := 0, err := false }

/-- The next `n` bits, zero padded past the end. -/
def peek (s : BitSt) (n : Nat) : List Bool := (s.rem ++ List.replicate n false).take n

/-- State after reading `n` bits: it is an error to read more bits than there are. -/
def advance (s : BitSt) (n : Nat) : BitSt :=
  { s with rem := s.rem.drop n, over := s.over + (n - s.rem.length),
           err := s.err || decide (s.rem.length < n) }

/-- Skip to the next byte boundary (the buffer is a whole number of bytes, so the number of bits
left over modulo 8 is what has to be skipped). -/
def align (s : BitSt) : BitSt := { s with rem := s.rem.drop (s.rem.length % 8), over := 0 }

/-- The bytes a bit string consists of (a trailing incomplete byte is dropped). -/
def packBytes : List Bool → List UInt8
  | b7 :: b6 :: b5 :: b4 :: b3 :: b2 :: b1 :: b0 :: l =>
    UInt8.ofNat (bitsVal [b7, b6, b5, b4, b3, b2, b1, b0]) :: packBytes l
  | _ => []

/-- The whole bytes not yet touched. -/
def restBytes (s : BitSt) : List UInt8 := packBytes (s.rem.drop (s.rem.length % 8))

/-- Number of bits consumed so far (including the ones past the end). -/
def pos (s : BitSt) : Nat := s.total - s.rem.length + s.over

end BitSt

/-- Two's complement value of an `n`-bit string. -/
def bitsSVal (l : List Bool) : Int :=
  if l.head? = some true then (bitsVal l : Int) - 2 ^ l.length else bitsVal l

end Dav1d
