import Verif.GetBits.Spec
/-!
# Model of src/getbits.c and src/getbits.h
-/
namespace Dav1d

/-- `GetBits`, src/getbits.h:34-38. `data` is the buffer `ptr_start..ptr_end`, `ptr` is the offset
`c->ptr - c->ptr_start`, `state` the 64-bit window, `bits_left` a C `int` (modelled unbounded, it only
decreases by the widths read). -/
structure GetBits where
  data : List UInt8
  ptr : Nat
  state : BitVec 64
  bitsLeft : Int
  error : Bool
  deriving DecidableEq, Repr

namespace GetBits

/-- `dav1d_init_get_bits`, src/getbits.c:36-45. -/
def init (data : List UInt8) : GetBits :=
  { data, ptr := 0, state := 0, bitsLeft := 0, error := false }

/-- `dav1d_get_bit`, src/getbits.c:47-63. `none` stands for reading outside the buffer. -/
def getBit (c : GetBits) : Option (Nat × GetBits) :=
  if c.bitsLeft = 0 ∧ ¬ c.data.length ≤ c.ptr then
    match c.data[c.ptr]? with
    | none => none
    | some b =>
      some (b.toNat >>> 7,
        { c with ptr := c.ptr + 1, bitsLeft := 7, state := (b.toBitVec.zeroExtend 64) <<< 57 })
  else
    let c := if c.bitsLeft = 0 then { c with error := true } else c
    some ((c.state >>> 63).toNat, { c with bitsLeft := c.bitsLeft - 1, state := c.state <<< 1 })

/-- Last statement of `refill`, src/getbits.c:77. A shift count outside 0..63 is undefined (`none`). -/
def refillFinish (c : GetBits) (st : BitVec 32) : Option GetBits :=
  if 0 ≤ 64 - c.bitsLeft ∧ 64 - c.bitsLeft < 64 then
    some { c with state := c.state ||| (st.zeroExtend 64) <<< (64 - c.bitsLeft).toNat }
  else none

/-- The do-while loop of `refill`, src/getbits.c:68-76 (followed by line 77). -/
def refillLoop (n : Int) (c : GetBits) (st : BitVec 32) : Option GetBits :=
  if _h : c.data.length ≤ c.ptr then
    let c := { c with error := true }
    if st ≠ 0 then refillFinish c st else some c
  else
    match c.data[c.ptr]? with
    | none => none
    | some b =>
      let st := (st <<< 8) ||| b.toBitVec.zeroExtend 32
      let c' := { c with ptr := c.ptr + 1, bitsLeft := c.bitsLeft + 8 }
      if n > c'.bitsLeft then refillLoop n c' st else refillFinish c' st
termination_by c.data.length - c.ptr

/-- `refill`, src/getbits.c:65-78. The assertion of line 66 failing is `none`. -/
def refill (c : GetBits) (n : Int) : Option GetBits :=
  if 0 ≤ c.bitsLeft ∧ c.bitsLeft < 32 then refillLoop n c 0 else none

/-- The condition `(unsigned) n > (unsigned) c->bits_left`, src/getbits.c:84, for `0 < n ≤ 32`:
a negative `bits_left` is a huge unsigned value. -/
def needRefill (c : GetBits) (n : Nat) : Bool := decide (0 ≤ c.bitsLeft ∧ c.bitsLeft < n)

/-- Common part of `GET_BITS`, src/getbits.c:80-90, returning the window before the shift. The
assertion of line 82 failing is `none`. -/
def getBitsRaw (c : GetBits) (n : Nat) : Option (BitVec 64 × GetBits) :=
  if 0 < n ∧ n ≤ 32 then
    match (if c.needRefill n then c.refill n else some c) with
    | none => none
    | some c => some (c.state, { c with bitsLeft := c.bitsLeft - n, state := c.state <<< n })
  else none

/-- `dav1d_get_bits`, src/getbits.c:80-92. -/
def getBits (c : GetBits) (n : Nat) : Option (Nat × GetBits) :=
  match c.getBitsRaw n with
  | none => none
  | some (st, c) => some ((st >>> (64 - n)).toNat, c)

/-- `dav1d_get_sbits`, src/getbits.c:80-93 (arithmetic right shift of the signed window). -/
def getSBits (c : GetBits) (n : Nat) : Option (Int × GetBits) :=
  match c.getBitsRaw n with
  | none => none
  | some (st, c) => some ((st.sshiftRight (64 - n)).toInt, c)

/-- `dav1d_bytealign_get_bits`, src/getbits.h:52-64. The assertion of line 60 failing is `none`. -/
def byteAlign (c : GetBits) : Option GetBits :=
  if c.bitsLeft ≤ 7 then some { c with bitsLeft := 0, state := 0 } else none

/-- `dav1d_get_bits_pos`, src/getbits.h:67-69 (without the 32-bit truncation). -/
def pos (c : GetBits) : Int := (c.ptr : Int) * 8 - c.bitsLeft

/-- The loop `while (size > 0 && gb->ptr[size - 1] == 0) size--`, src/obu.c:63-64. `none` stands for
reading outside the buffer. -/
def trimZeros (data : List UInt8) (ptr : Nat) : Nat → Option Nat
  | 0 => some 0
  | n + 1 =>
    match data[ptr + n]? with
    | none => none
    | some b => if b = 0 then trimZeros data ptr n else some (n + 1)

/-- The test that nothing but zero bits is left, second half of `check_trailing_bits`,
src/obu.c:59-67: the window `gb->state` and all bytes up to `ptr_end` are zero. -/
def restZero (c : GetBits) : Option Bool :=
  if c.state ≠ 0 then some false
  else match trimZeros c.data c.ptr (c.data.length - c.ptr) with
    | none => none
    | some n => some (n == 0)

end GetBits

/-- A program over the bit reader: the header parsers of src/obu.c call the reader adaptively, i.e.
which field is read next depends on the values read before. -/
inductive Prog (α : Type) : Type where
  | ret (a : α)
  /-- `dav1d_get_bit` -/
  | bit (k : Nat → Prog α)
  /-- `dav1d_get_bits(n)` -/
  | bits (n : Nat) (k : Nat → Prog α)
  /-- `dav1d_get_sbits(n)` -/
  | sbits (n : Nat) (k : Int → Prog α)
  /-- `dav1d_bytealign_get_bits` -/
  | align (k : Prog α)
  /-- reading `gb->error` -/
  | err (k : Bool → Prog α)
  /-- `gb->error = 1` -/
  | setErr (k : Prog α)
  /-- only zero bits are left, src/obu.c:59-67 -/
  | restZero (k : Bool → Prog α)
  /-- access to the bytes `gb->ptr .. gb->ptr_end` -/
  | rest (k : List UInt8 → Prog α)

namespace Prog

/-- Sequencing. -/
def bind {α β : Type} : Prog α → (α → Prog β) → Prog β
  | ret a, f => f a
  | bit k, f => bit (fun v => bind (k v) f)
  | bits n k, f => bits n (fun v => bind (k v) f)
  | sbits n k, f => sbits n (fun v => bind (k v) f)
  | align k, f => align (bind k f)
  | err k, f => err (fun v => bind (k v) f)
  | setErr k, f => setErr (bind k f)
  | restZero k, f => restZero (fun v => bind (k v) f)
  | rest k, f => rest (fun v => bind (k v) f)

instance : Monad Prog where
  pure := ret
  bind := bind

/-- Run a program on the C reader. -/
def runC {α : Type} : Prog α → GetBits → Option (α × GetBits)
  | ret a, c => some (a, c)
  | bit k, c => match c.getBit with | none => none | some (v, c) => runC (k v) c
  | bits n k, c => match c.getBits n with | none => none | some (v, c) => runC (k v) c
  | sbits n k, c => match c.getSBits n with | none => none | some (v, c) => runC (k v) c
  | align k, c => match c.byteAlign with | none => none | some c => runC k c
  | err k, c => runC (k c.error) c
  | setErr k, c => runC k { c with error := true }
  | restZero k, c => match c.restZero with | none => none | some v => runC (k v) c
  | rest k, c => runC (k (c.data.drop c.ptr)) c

/-- Run a program on the abstract bit list. -/
def run {α : Type} : Prog α → BitSt → α × BitSt
  | ret a, s => (a, s)
  | bit k, s => run (k (bitsVal (s.peek 1))) (s.advance 1)
  | bits n k, s => run (k (bitsVal (s.peek n))) (s.advance n)
  | sbits n k, s => run (k (bitsSVal (s.peek n))) (s.advance n)
  | align k, s => run k s.align
  | err k, s => run (k s.err) s
  | setErr k, s => run k { s with err := true }
  | restZero k, s => run (k (s.rem.all (fun b => !b))) s
  | rest k, s => run (k s.restBytes) s

/-- All field widths are in 1..32 (the assertion of src/getbits.c:82), whatever values are read. -/
def WF {α : Type} : Prog α → Prop
  | ret _ => True
  | bit k => ∀ v, v < 2 → WF (k v)
  | bits n k => 0 < n ∧ n ≤ 32 ∧ ∀ v, v < 2 ^ n → WF (k v)
  | sbits n k => 0 < n ∧ n ≤ 32 ∧ ∀ v : Int, -(2 ^ (n - 1)) ≤ v → v < 2 ^ (n - 1) → WF (k v)
  | align k => WF k
  | err k => ∀ v, WF (k v)
  | setErr k => WF k
  | restZero k => ∀ v, WF (k v)
  | rest k => ∀ v, WF (k v)

/-- `dav1d_get_bit` as a program. -/
def getBit : Prog Nat := bit ret
/-- `dav1d_get_bits` as a program. -/
def getBits (n : Nat) : Prog Nat := bits n ret
/-- `dav1d_get_sbits` as a program. -/
def getSBits (n : Nat) : Prog Int := sbits n ret
/-- A one-bit flag. -/
def getFlag : Prog Bool := bit (fun v => ret (v != 0))
/-- `dav1d_bytealign_get_bits` as a program. -/
def byteAlign : Prog Unit := align (ret ())
/-- `gb->error` as a program. -/
def getErr : Prog Bool := err ret
/-- `gb->error = 1` as a program. -/
def raise : Prog Unit := setErr (ret ())
/-- The zero test as a program. -/
def isRestZero : Prog Bool := restZero ret
/-- The bytes `gb->ptr .. gb->ptr_end` as a program. -/
def getRest : Prog (List UInt8) := rest ret

/-- Loop of `dav1d_get_uleb128`, src/getbits.c:99-104; `i` is the C variable; at most 8 iterations
because of `i < 56`. -/
def uleb128Loop (val i : Nat) : Prog (Nat × Bool) := do
  let v ← getBits 8
  let more := v &&& 0x80
  let val := val ||| ((v &&& 0x7F) <<< i)
  let i' := i + 7
  if more ≠ 0 ∧ i' < 56 then uleb128Loop val i' else ret (val, more != 0)
termination_by 56 - i

/-- `dav1d_get_uleb128`, src/getbits.c:95-112. -/
def getUleb128 : Prog Nat := do
  let (val, more) ← uleb128Loop 0 0
  if val > 0xFFFFFFFF ∨ more then do
    raise
    ret 0
  else ret val

/-- `dav1d_get_uniform`, src/getbits.c:114-123. -/
def getUniform (max : Nat) : Prog Nat := do
  let l := Nat.log2 max + 1
  let m := 2 ^ l - max
  let v ← getBits (l - 1)
  if v < m then ret v else do
    let b ← getBit
    ret (v * 2 - m + b)

/-- Loop of `dav1d_get_vlc`, src/getbits.c:129-135. -/
def vlcLoop (nBits : Nat) : Prog Nat :=
  if nBits + 1 = 32 ∨ 32 ≤ nBits then ret 0xFFFFFFFF
  else do
    let b ← getBit
    if b = 0 then vlcLoop (nBits + 1)
    else do
      let v ← getBits (nBits + 1)
      ret (2 ^ (nBits + 1) - 1 + v)
termination_by 32 - nBits

/-- `dav1d_get_vlc`, src/getbits.c:125-136. -/
def getVlc : Prog Nat := do
  let b ← getBit
  if b ≠ 0 then ret 0 else vlcLoop 0

/-- `inv_recenter`, include/common/intops.h:81-88. -/
def invRecenter (r v : Nat) : Nat :=
  if v > r * 2 then v else if v % 2 = 0 then v / 2 + r else r - (v + 1) / 2

/-- `b` in `get_bits_subexp_u`, src/getbits.c:144. -/
def subexpB (i : Nat) : Nat := if i = 0 then 3 else 3 + i - 1

/-- Loop of `get_bits_subexp_u`, src/getbits.c:143-157. -/
def subexpLoop (n v i : Nat) : Prog Nat :=
  if _h : n < v + 3 * 2 ^ subexpB i then do
    let u ← getUniform (n - v + 1)
    ret (v + u)
  else do
    let more ← getBit
    if more = 0 then do
      let u ← getBits (subexpB i)
      ret (v + u)
    else subexpLoop n (v + 2 ^ subexpB i) (i + 1)
termination_by n - v
decreasing_by
  have : 0 < 2 ^ subexpB i := Nat.two_pow_pos _
  omega

/-- `get_bits_subexp_u`, src/getbits.c:138-160. -/
def getSubexpU (ref n : Nat) : Prog Nat := do
  let v ← subexpLoop n 0 0
  ret (if ref * 2 ≤ n then invRecenter ref v else n - invRecenter (n - ref) v)

/-- `dav1d_get_bits_subexp`, src/getbits.c:162-164. -/
def getSubexp (ref : Int) (n : Nat) : Prog Int := do
  let v ← getSubexpU (ref + 2 ^ n).toNat (2 * 2 ^ n)
  ret ((v : Int) - 2 ^ n)

end Prog
end Dav1d
