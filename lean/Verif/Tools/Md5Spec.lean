import Verif.Tools.Md5
import Mathlib.Analysis.SpecialFunctions.Trigonometric.Basic

/-
The MD5 message digest algorithm as RFC 1321 describes it, and the message the md5 muxer is to
digest: the visible samples of the pictures.
-/

namespace Dav1d.Md5.Spec

open Dav1d.Md5 (Abcd Layout Pic)

/-- Element `i + 1` of the table `T`: the integer part of `4294967296` times `abs(sin(i + 1))`
(section 3.4). -/
noncomputable def T (i : Nat) : UInt32 := UInt32.ofNat ⌊4294967296 * |Real.sin (i + 1)|⌋₊

/-- `X <<< s`: the word rotated left by `s` bits. -/
def rotl (x : UInt32) (s : Nat) : UInt32 := ⟨x.toBitVec.rotateLeft s⟩

/-- The auxiliary functions `F`, `G`, `H` and `I` of the four rounds. -/
def aux (round : Nat) (x y z : UInt32) : UInt32 :=
  match round with
  | 0 => (x &&& y) ||| (~~~x &&& z)
  | 1 => (x &&& z) ||| (y &&& ~~~z)
  | 2 => x ^^^ y ^^^ z
  | _ => y ^^^ (x ||| ~~~z)

/-- The index of the message word of operation `i`: starts and steps of the four rounds are
`0 1`, `1 5`, `5 3` and `0 7`. -/
def index (i : Nat) : Nat :=
  match i / 16 with
  | 0 => i % 16
  | 1 => (1 + 5 * i) % 16
  | 2 => (5 + 3 * i) % 16
  | _ => (7 * i) % 16

/-- The shift amount of operation `i`. -/
def shift (i : Nat) : Nat :=
  match i / 16, i % 4 with
  | 0, 0 => 7 | 0, 1 => 12 | 0, 2 => 17 | 0, _ => 22
  | 1, 0 => 5 | 1, 1 => 9 | 1, 2 => 14 | 1, _ => 20
  | 2, 0 => 4 | 2, 1 => 11 | 2, 2 => 16 | 2, _ => 23
  | _, 0 => 6 | _, 1 => 10 | _, 2 => 15 | _, _ => 21

/-- Operation `i`, `a = b + ((a + F(b,c,d) + X[k] + T[i]) <<< s)`, and the change of the roles of
the four words: `[ABCD] [DABC] [CDAB] [BCDA]`. -/
noncomputable def op (x : Nat → UInt32) (s : Abcd) (i : Nat) : Abcd :=
  ⟨s.d, s.b + rotl (s.a + aux (i / 16) s.b s.c s.d + x (index i) + T i) (shift i), s.b, s.c⟩

/-- Processing of one block of 16 words: 64 operations, then the four words are added to those
before. -/
noncomputable def compress (s : Abcd) (x : Nat → UInt32) : Abcd :=
  let t := (List.range 64).foldl (op x) s
  ⟨s.a + t.a, s.b + t.b, s.c + t.c, s.d + t.d⟩

/-- The bytes of a number, low-order byte first. -/
def lowFirst : (n : Nat) → Nat → List UInt8
  | 0, _ => []
  | n + 1, v => UInt8.ofNat v :: lowFirst n (v / 256)

/-- Word `i` of a block: four bytes, low-order byte first. -/
def blockWord (block : List UInt8) (i : Nat) : UInt32 :=
  let byte (j : Nat) : Nat := (block.getD (4 * i + j) 0).toNat
  UInt32.ofNat (byte 0 + 256 * byte 1 + 65536 * byte 2 + 16777216 * byte 3)

/-- Processing of all blocks of 64 bytes. -/
noncomputable def process (s : Abcd) (msg : List UInt8) : Abcd :=
  if 64 ≤ msg.length then process (compress s (blockWord (msg.take 64))) (msg.drop 64) else s
termination_by msg.length
decreasing_by simp only [List.length_drop]; omega

/-- Padding: a one bit and zero bits up to 56 bytes modulo 64, then the length in bits, 64 bits. -/
def pad (msg : List UInt8) : List UInt8 :=
  msg ++ [0x80] ++ List.replicate ((119 - msg.length % 64) % 64) 0 ++ lowFirst 8 (8 * msg.length)

/-- The initial value: `01 23 45 67`, `89 ab cd ef`, `fe dc ba 98`, `76 54 32 10`, low-order bytes
first. -/
def start : Abcd := ⟨0x67452301, 0xefcdab89, 0x98badcfe, 0x10325476⟩

/-- The digest: the bytes of the four words, low-order bytes first. -/
noncomputable def md5 (msg : List UInt8) : List UInt8 :=
  let s := process start (pad msg)
  lowFirst 4 s.a.toNat ++ lowFirst 4 s.b.toNat ++ lowFirst 4 s.c.toNat ++ lowFirst 4 s.d.toNat

/-! ### The message -/

/-- The sample at column `x` and row `y` of a plane, which takes one byte at 8 bits and two bytes,
low byte first, otherwise. -/
def sample (p : Pic) (pl x y : Nat) : Nat :=
  let stride := if pl = 0 then p.stride0 else p.stride1
  if p.bpc = 8 then (p.mem pl (y * stride + x)).toNat
  else (p.mem pl (y * stride + 2 * x)).toNat + 256 * (p.mem pl (y * stride + 2 * x + 1)).toNat

/-- The planes of a layout with their subsampling. -/
def planes : Layout → List (Nat × Nat × Nat)
  | .i400 => [(0, 0, 0)]
  | .i420 => [(0, 0, 0), (1, 1, 1), (2, 1, 1)]
  | .i422 => [(0, 0, 0), (1, 1, 0), (2, 1, 0)]
  | .i444 => [(0, 0, 0), (1, 0, 0), (2, 0, 0)]

/-- Half of a size, rounded up, in a subsampled direction. -/
def sub (n ss : Nat) : Nat := if ss = 1 then n / 2 + n % 2 else n

/-- The visible samples of a picture, plane after plane, row after row. -/
def samples (p : Pic) : List Nat :=
  (planes p.layout).flatMap fun (pl, sh, sv) =>
    (List.range (sub p.h sv)).flatMap fun y =>
      (List.range (sub p.w sh)).map fun x => sample p pl x y

/-- The message of a picture. -/
def message (p : Pic) : List UInt8 :=
  (samples p).flatMap (lowFirst (if p.bpc = 8 then 1 else 2))

/-- The value of the two hexadecimal digits of `b`, lower case. -/
def hex (b : UInt8) : List Char :=
  [Nat.digitChar (b.toNat / 16), Nat.digitChar (b.toNat % 16)]

end Dav1d.Md5.Spec
