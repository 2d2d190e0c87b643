import Verif.Tools.Input

/-
The md5 muxer of the command line tool: tools/output/md5.c, for a little endian machine (the code
under `ENDIANNESS_BIG` swaps bytes so that the same words and bytes result).

Not modelled: opening and closing the output file.
-/

namespace Dav1d.Md5

open Dav1d.Input (le)

/-- The four words of the state (`abcd`, md5.c:77). -/
structure Abcd where
  a : UInt32
  b : UInt32
  c : UInt32
  d : UInt32
  deriving DecidableEq

/-- `MD5Context` (md5.c:76-88). -/
structure Ctx where
  abcd : Abcd
  data : List UInt8
  len : Nat

/-- The table `k` (md5.c:39-56). -/
def kTab : List UInt32 :=
  [0xd76aa478, 0xe8c7b756, 0x242070db, 0xc1bdceee, 0xf57c0faf, 0x4787c62a, 0xa8304613, 0xfd469501,
   0x698098d8, 0x8b44f7af, 0xffff5bb1, 0x895cd7be, 0x6b901122, 0xfd987193, 0xa679438e, 0x49b40821,
   0xf61e2562, 0xc040b340, 0x265e5a51, 0xe9b6c7aa, 0xd62f105d, 0x02441453, 0xd8a1e681, 0xe7d3fbc8,
   0x21e1cde6, 0xc33707d6, 0xf4d50d87, 0x455a14ed, 0xa9e3e905, 0xfcefa3f8, 0x676f02d9, 0x8d2a4c8a,
   0xfffa3942, 0x8771f681, 0x6d9d6122, 0xfde5380c, 0xa4beea44, 0x4bdecfa9, 0xf6bb4b60, 0xbebfbc70,
   0x289b7ec6, 0xeaa127fa, 0xd4ef3085, 0x04881d05, 0xd9d4d039, 0xe6db99e5, 0x1fa27cf8, 0xc4ac5665,
   0xf4292244, 0x432aff97, 0xab9423a7, 0xfc93a039, 0x655b59c3, 0x8f0ccc92, 0xffeff47d, 0x85845dd1,
   0x6fa87e4f, 0xfe2ce6e0, 0xa3014314, 0x4e0811a1, 0xf7537e82, 0xbd3af235, 0x2ad7d2bb, 0xeb86d391]

def k (i : Nat) : UInt32 := kTab.getD i 0

/-- `md5_open` (md5.c:90-114). -/
def init : Ctx :=
  ⟨⟨0x67452301, 0xefcdab89, 0x98badcfe, 0x10325476⟩, List.replicate 64 0, 0⟩

/-- `leftrotate` (md5.c:116-118). -/
def leftrotate (x : UInt32) (c : UInt32) : UInt32 := (x <<< c) ||| (x >>> (32 - c))

/-- A word of a block (`data32`, md5.c:80). -/
def word (data : List UInt8) (i : Nat) : UInt32 := UInt32.ofNat (le ((data.drop (4 * i)).take 4))

/-- The macro `F` (md5.c:120-125). -/
def stepF (x : Nat → UInt32) (i : Nat) (s : Abcd) : Abcd :=
  let ⟨a, b, c, d⟩ := s
  let a := b + leftrotate (a + ((b &&& c) ||| (~~~b &&& d)) + k (i + 0) + x (i + 0)) 7
  let d := a + leftrotate (d + ((a &&& b) ||| (~~~a &&& c)) + k (i + 1) + x (i + 1)) 12
  let c := d + leftrotate (c + ((d &&& a) ||| (~~~d &&& b)) + k (i + 2) + x (i + 2)) 17
  let b := c + leftrotate (b + ((c &&& d) ||| (~~~c &&& a)) + k (i + 3) + x (i + 3)) 22
  ⟨a, b, c, d⟩

/-- The macro `G` (md5.c:127-132). -/
def stepG (x : Nat → UInt32) (i : Nat) (s : Abcd) : Abcd :=
  let ⟨a, b, c, d⟩ := s
  let a := b + leftrotate (a + ((d &&& b) ||| (~~~d &&& c)) + k (i + 0) + x ((i + 1) % 16)) 5
  let d := a + leftrotate (d + ((c &&& a) ||| (~~~c &&& b)) + k (i + 1) + x ((i + 6) % 16)) 9
  let c := d + leftrotate (c + ((b &&& d) ||| (~~~b &&& a)) + k (i + 2) + x ((i + 11) % 16)) 14
  let b := c + leftrotate (b + ((a &&& c) ||| (~~~a &&& d)) + k (i + 3) + x ((i + 0) % 16)) 20
  ⟨a, b, c, d⟩

/-- `(n - i) & 15` for `int`s. -/
def minus (n i : Nat) : Nat := (((n : Int) - i) % 16).toNat

/-- The macro `H` (md5.c:134-139). -/
def stepH (x : Nat → UInt32) (i : Nat) (s : Abcd) : Abcd :=
  let ⟨a, b, c, d⟩ := s
  let a := b + leftrotate (a + (b ^^^ c ^^^ d) + k (i + 0) + x (minus 5 i)) 4
  let d := a + leftrotate (d + (a ^^^ b ^^^ c) + k (i + 1) + x (minus 8 i)) 11
  let c := d + leftrotate (c + (d ^^^ a ^^^ b) + k (i + 2) + x (minus 11 i)) 16
  let b := c + leftrotate (b + (c ^^^ d ^^^ a) + k (i + 3) + x (minus 14 i)) 23
  ⟨a, b, c, d⟩

/-- The macro `I` (md5.c:141-146). -/
def stepI (x : Nat → UInt32) (i : Nat) (s : Abcd) : Abcd :=
  let ⟨a, b, c, d⟩ := s
  let a := b + leftrotate (a + (c ^^^ (b ||| ~~~d)) + k (i + 0) + x (minus 0 i)) 6
  let d := a + leftrotate (d + (b ^^^ (a ||| ~~~c)) + k (i + 1) + x (minus 7 i)) 10
  let c := d + leftrotate (c + (a ^^^ (d ||| ~~~b)) + k (i + 2) + x (minus 14 i)) 15
  let b := c + leftrotate (b + (d ^^^ (c ||| ~~~a)) + k (i + 3) + x (minus 5 i)) 21
  ⟨a, b, c, d⟩

/-- `md5_body` (md5.c:148-163). -/
def body (s : Abcd) (x : Nat → UInt32) : Abcd :=
  let t := stepF x 12 (stepF x 8 (stepF x 4 (stepF x 0 s)))
  let t := stepG x 28 (stepG x 24 (stepG x 20 (stepG x 16 t)))
  let t := stepH x 44 (stepH x 40 (stepH x 36 (stepH x 32 t)))
  let t := stepI x 60 (stepI x 56 (stepI x 52 (stepI x 48 t)))
  ⟨s.a + t.a, s.b + t.b, s.c + t.c, s.d + t.d⟩

/-- `md5_body(md5, md5->data32)`. -/
def Ctx.run (m : Ctx) : Ctx := { m with abcd := body m.abcd (word m.data) }

/-- `memcpy(&buf[off], src, len)`. -/
def splice (buf : List UInt8) (off : Nat) (src : List UInt8) : List UInt8 :=
  buf.take off ++ src ++ buf.drop (off + src.length)

/-- The loop md5.c:179-185 and what follows it (md5.c:187-190). -/
def blocks (m : Ctx) (data : List UInt8) : Ctx :=
  if 64 ≤ data.length then
    blocks { Ctx.run { m with data := splice m.data 0 (data.take 64) } with
      len := (m.len + 64) % 2 ^ 64 } (data.drop 64)
  else if data.length ≠ 0 then
    { m with data := splice m.data 0 data, len := (m.len + data.length) % 2 ^ 64 }
  else m
termination_by data.length
decreasing_by simp only [List.length_drop]; omega

/-- `md5_update` (md5.c:165-191). -/
def update (m : Ctx) (data : List UInt8) : Ctx :=
  if data.length = 0 then m
  else if m.len % 64 ≠ 0 then
    let tmp := min data.length (64 - m.len % 64)
    let m := { m with data := splice m.data (m.len % 64) (data.take tmp),
                      len := (m.len + tmp) % 2 ^ 64 }
    let m := if m.len % 64 = 0 then m.run else m
    blocks m (data.drop tmp)
  else blocks m data

/-- The loop md5.c:256-257; `fuel` bounds the number of turns by 64. -/
def padLoop : (fuel : Nat) → Ctx → Ctx
  | 0, m => m
  | fuel + 1, m => if m.len % 64 ≠ 56 then padLoop fuel (update m [0x00]) else m

/-- The bytes of a `uint64_t` in memory. -/
def bytes64 (v : Nat) : List UInt8 :=
  (List.range 8).map fun i => UInt8.ofNat (v / 256 ^ i)

/-- `md5_finish` (md5.c:251-259). -/
def finish (m : Ctx) : Ctx :=
  let len := m.len * 8 % 2 ^ 64
  update (padLoop 64 (update m [0x80])) (bytes64 len)

/-- A byte as `%2.2x` prints it. -/
def hexByte (b : UInt32) : List Char :=
  let dig (n : Nat) : Char := "0123456789abcdef".toList.getD n '?'
  [dig (b.toNat / 16 % 16), dig (b.toNat % 16)]

/-- The four bytes of a word as printed by `md5_close` (md5.c:263-268). -/
def hexWord (w : UInt32) : List Char :=
  hexByte (w &&& 0xff) ++ hexByte ((w >>> 8) &&& 0xff) ++ hexByte ((w >>> 16) &&& 0xff) ++
    hexByte (w >>> 24)

/-- `md5_close` (md5.c:261-278): what is printed. -/
def close (m : Ctx) : List Char :=
  let s := (finish m).abcd
  hexWord s.a ++ hexWord s.b ++ hexWord s.c ++ hexWord s.d ++ ['\n']

/-! ### Pictures -/

/-- The pixel layouts (include/dav1d/headers.h). -/
inductive Layout where
  | i400 | i420 | i422 | i444
  deriving DecidableEq

/-- A picture: its size, bit depth and layout, the bytes of the three planes at distances from
`data[pl]`, and the strides. -/
structure Pic where
  w : Nat
  h : Nat
  bpc : Nat
  layout : Layout
  mem : Nat → Int → UInt8
  stride0 : Int
  stride1 : Int

/-- The bytes read from `ptr` on. -/
def load (mem : Int → UInt8) (ptr : Int) (n : Nat) : List UInt8 :=
  (List.range n).map fun (i : Nat) => mem (ptr + i)

/-- The loops over the rows of a plane (md5.c:211-224, :234-245). -/
def rows (mem : Int → UInt8) (stride : Int) (n : Nat) : (h : Nat) → (ptr : Int) → Ctx → Ctx
  | 0, _, m => m
  | h + 1, ptr, m => rows mem stride n h (ptr + stride) (update m (load mem ptr n))

/-- `md5_write` (md5.c:193-249). -/
def write (m : Ctx) (p : Pic) : Ctx :=
  let hbd := if p.bpc > 8 then 1 else 0
  let m := rows (p.mem 0) p.stride0 (p.w <<< hbd) p.h 0 m
  if p.layout ≠ .i400 then
    let ssVer := if p.layout = .i420 then 1 else 0
    let ssHor := if p.layout ≠ .i444 then 1 else 0
    let cw := (p.w + ssHor) >>> ssHor
    let ch := (p.h + ssVer) >>> ssVer
    let m := rows (p.mem 1) p.stride1 (cw <<< hbd) ch 0 m
    rows (p.mem 2) p.stride1 (cw <<< hbd) ch 0 m
  else m

/-! ### Verification -/

/-- The value of a hexadecimal digit. -/
def digit (c : Char) : Option Nat :=
  if '0' ≤ c ∧ c ≤ '9' then some (c.toNat - '0'.toNat)
  else if 'a' ≤ c ∧ c ≤ 'f' then some (c.toNat - 'a'.toNat + 10)
  else if 'A' ≤ c ∧ c ≤ 'F' then some (c.toNat - 'A'.toNat + 10)
  else none

/-- `(uint32_t) strtoul(t, &ignore, 16)` for two characters: leading white space and a sign are
accepted, and the number ends at the first character that is not a digit. -/
def strtoul (c1 c2 : Char) : UInt32 :=
  match digit c1, digit c2 with
  | some x, some y => UInt32.ofNat (16 * x + y)
  | some x, none => UInt32.ofNat x
  | none, some y =>
    if c1 = ' ' ∨ ('\t' ≤ c1 ∧ c1 ≤ '\r') ∨ c1 = '+' then UInt32.ofNat y
    else if c1 = '-' then 0 - UInt32.ofNat y
    else 0
  | none, none => 0

/-- The inner loop md5.c:289-294 for one word. -/
def parseWord (s : List Char) : UInt32 :=
  let at' (j : Nat) : UInt32 := strtoul (s.getD (2 * j) '\x00') (s.getD (2 * j + 1) '\x00')
  at' 0 ||| (at' 1 <<< 8) ||| (at' 2 <<< 16) ||| (at' 3 <<< 24)

/-- `md5_verify` (md5.c:280-303): whether the result is 0. -/
def verify (m : Ctx) (s : List Char) : Bool :=
  let st := (finish m).abcd
  if s.length < 32 then false
  else decide (Abcd.mk (parseWord s) (parseWord (s.drop 8)) (parseWord (s.drop 16))
    (parseWord (s.drop 24)) = st)

end Dav1d.Md5
