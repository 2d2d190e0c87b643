/-
The three demuxers of the command line tool: tools/input/ivf.c, tools/input/annexb.c,
tools/input/section5.c and the helpers of tools/input/parse.h.

A file is a list of bytes.  An open `FILE *` is the list together with a position, which may lie
beyond the end after a seek.  `fread(ptr, n, 1, f)` delivers `n` bytes or fails; a request for zero
bytes counts as a failure (it returns 0, which is not 1) and leaves the position alone; a short read
leaves the position at the end of the file.

Not modelled: failing `fopen`, `malloc` (hence `dav1d_data_create`) or `fseeko` calls, read errors
other than the end of the file, messages on stderr, and the frame rate reported to the caller.
`size_t` and `off_t` have 64 bits.
-/

namespace Dav1d.Input

/-- An open file and its position (`FILE *`). -/
structure Stream where
  /-- the whole contents of the file -/
  data : List UInt8
  /-- the position, as `ftello` reports it -/
  pos : Nat

/-- `fread(ptr, n, 1, f)`: the bytes delivered (`none` when the call returns 0) and the stream
afterwards. -/
def fread (n : Nat) (s : Stream) : Option (List UInt8) × Stream :=
  if n = 0 then (none, s)
  else if s.pos + n ≤ s.data.length then
    (some ((s.data.drop s.pos).take n), { s with pos := s.pos + n })
  else (none, { s with pos := max s.pos s.data.length })

/-- `fseeko(f, n, SEEK_CUR)` with a non-negative distance. -/
def skip (n : Nat) (s : Stream) : Stream := { s with pos := s.pos + n }

/-- `fseeko(f, -n, SEEK_CUR)`. -/
def back (n : Nat) (s : Stream) : Stream := { s with pos := s.pos - n }

/-- `fseeko(f, n, SEEK_SET)`. -/
def seekTo (n : Nat) (s : Stream) : Stream := { s with pos := n }

/-- A little endian number (`rl32` of 4 bytes, `rl64` of 8 bytes; ivf.c:58-64). -/
def le : List UInt8 → Nat
  | [] => 0
  | b :: l => b.toNat + 256 * le l

/-! ### parse.h -/

/-- The loop of `leb128` (parse.h:36-51) after `i` bytes, with the value `val` so far; `fuel` is the
number of bytes that may still be read, `8 - i`. -/
def leb128Loop : (fuel : Nat) → (i val : Nat) → Stream → Option (Nat × Nat) × Stream
  | 0, _, _, s => (none, s)
  | fuel + 1, i, val, s =>
    match fread 1 s with
    | (some [v], s) =>
      let val := val ||| ((v.toNat &&& 0x7F) <<< (i * 7))
      if v.toNat &&& 0x80 = 0 then
        if val > 0xFFFFFFFF then (none, s) else (some (i + 1, val), s)
      else leb128Loop fuel (i + 1) val s
    | (_, s) => (none, s)

/-- `leb128` (parse.h:36-51): the number of bytes and the value, `none` for the result -1. -/
def leb128 (s : Stream) : Option (Nat × Nat) × Stream := leb128Loop 8 0 0 s

/-! ### ivf.c -/

/-- `IvfInputContext` (ivf.c:40-46), without the time base, which only serves to convert the target
of a seek. -/
structure Ivf where
  s : Stream
  broken : Bool
  lastTs : Nat
  step : Nat

/-- What the loop ivf.c:96-105 has found so far. -/
structure IvfCount where
  n : Nat
  broken : Bool
  lastTs : Nat

/-- The counting loop of `ivf_open` (ivf.c:96-105).  Every turn advances by at least 12 bytes, so
`fuel` (the length of the file) is never exhausted, see `ivfCount_fuel`. -/
def ivfCount : (fuel : Nat) → IvfCount → Stream → IvfCount
  | 0, c, _ => c
  | fuel + 1, c, s =>
    match fread 4 s with
    | (none, _) => c
    | (some sz, s) =>
      match fread 8 s with
      | (none, _) => c
      | (some t, s) =>
        let ts := le t
        ivfCount fuel
          { n := (c.n + 1) % 2 ^ 32,
            broken := c.broken || (c.n != 0 && ts <= c.lastTs),
            lastTs := ts } (skip (le sz) s)

/-- The outcomes of `ivf_open`. -/
inductive Opened (α : Type) where
  /-- the file is opened; the number of frames reported is given as well -/
  | ok (c : α) (numFrames : Nat)
  /-- the file is refused (result -1) -/
  | refused
  /-- undefined behaviour: an integer division by zero -/
  | divByZero

/-- `ivf_open` (ivf.c:66-133) without the frame rate (ivf.c:107-126). -/
def ivfOpen (data : List UInt8) : Opened Ivf :=
  match fread 32 ⟨data, 0⟩ with
  | (none, _) => .refused
  | (some hdr, s) =>
    if hdr.take 4 ≠ [0x44, 0x4B, 0x49, 0x46] then .refused
    else if (hdr.drop 8).take 4 ≠ [0x41, 0x56, 0x30, 0x31] then .refused
    else
      let duration := le ((hdr.drop 24).take 4)
      let c := ivfCount data.length ⟨0, false, 0⟩ s
      if c.n = 0 then .divByZero
      else .ok { s := seekTo 32 s, broken := c.broken, lastTs := 0, step := duration / c.n } c.n

/-- `ivf_read_header` (ivf.c:135-151): size, offset and time stamp. -/
def ivfReadHeader (c : Ivf) : Option (Nat × Nat × Nat) × Ivf :=
  let off := c.s.pos
  match fread 4 c.s with
  | (none, s) => (none, { c with s := s })
  | (some sz, s) =>
    if c.broken then
      (some (le sz, off, if off > 32 then (c.lastTs + c.step) % 2 ^ 64 else 0),
        { c with s := skip 8 s })
    else
      match fread 8 s with
      | (none, s) => (none, { c with s := s })
      | (some t, s) => (some (le sz, off, le t), { c with s := s })

/-- A packet as handed to the decoder (`Dav1dData`): the bytes, `m.offset` and `m.timestamp` (the
latter as an unsigned number; the cast to `int64_t` is left out). -/
structure Packet where
  bytes : List UInt8
  offset : Nat
  ts : Nat
  deriving DecidableEq

/-- `ivf_read` (ivf.c:153-169). -/
def ivfRead (c : Ivf) : Option Packet × Ivf :=
  match ivfReadHeader c with
  | (none, c) => (none, c)
  | (some (sz, off, ts), c) =>
    match fread sz c.s with
    | (none, s) => (none, { c with s := s })
    | (some p, s) => (some ⟨p, off, ts⟩, { c with s := s, lastTs := ts })

/-- The loop of `ivf_seek` (ivf.c:176-182).  Every turn advances by at least 4 bytes, so `fuel` (the
length of the file plus one) is never exhausted for a stream within the file. -/
def ivfSeekLoop : (fuel : Nat) → (ts : Nat) → Ivf → Bool × Ivf
  | 0, _, c => (false, c)
  | fuel + 1, ts, c =>
    match ivfReadHeader c with
    | (none, c) => (false, c)
    | (some (sz, _, cur), c) =>
      if cur ≥ ts then (true, { c with s := back 12 c.s })
      else ivfSeekLoop fuel ts { c with s := skip sz c.s, lastTs := cur }

/-- `ivf_seek` (ivf.c:171-188), from the point where the target has been converted to units of the
time base (ivf.c:173, done in floating point and not modelled). -/
def ivfSeek (ts : Nat) (c : Ivf) : Bool × Ivf :=
  let c := if ts ≤ c.lastTs then { c with s := seekTo 32 c.s } else c
  ivfSeekLoop (c.s.data.length + 1) ts c

/-! ### section5.c -/

/-- The type of an OBU (section5.c:108 and :138). -/
def obuType (b : UInt8) : Nat := (b.toNat >>> 3) &&& 0xF

/-- `DAV1D_OBU_TD` (include/dav1d/headers.h). -/
def obuTd : Nat := 2

/-- The common part of the loops section5.c:111-120 and :149-158 behind the first byte `b` of an OBU:
the extension byte and the size.  The number of bytes of the whole OBU and of its payload. -/
def s5Header (b : UInt8) (s : Stream) : Option (Nat × Nat) × Stream :=
  if b.toNat &&& 2 = 0 then (none, s)
  else
    let sized (ext : Nat) (s : Stream) : Option (Nat × Nat) × Stream :=
      match leb128 s with
      | (none, s) => (none, s)
      | (some (res, len), s) => (some (1 + ext + res + len, len), s)
    if b.toNat &&& 4 ≠ 0 then
      match fread 1 s with
      | (none, s) => (none, s)
      | (some _, s) => sized 1 s
    else sized 0 s

/-- The loop of `section5_open` (section5.c:103-122): the number of temporal delimiters, `none` for
the result -1.  `fuel` as for `ivfCount`. -/
def s5Count : (fuel : Nat) → (n : Nat) → Stream → Option Nat
  | 0, n, _ => some n
  | fuel + 1, n, s =>
    match fread 1 s with
    | (some [b], s) =>
      let n := if obuType b = obuTd then (n + 1) % 2 ^ 32 else n
      match s5Header b s with
      | (none, _) => none
      | (some (_, len), s) => s5Count fuel n (skip len s)
    | (_, _) => some n

/-- `section5_open` (section5.c:89-126). -/
def s5Open (data : List UInt8) : Opened Stream :=
  match s5Count (data.length + 1) 0 ⟨data, 0⟩ with
  | none => .refused
  | some n => .ok ⟨data, 0⟩ n

/-- The loop of `section5_read` (section5.c:131-161): `total_bytes` and the stream behind the last
OBU of the packet, `none` for the result -1.  `fuel` as for `ivfCount`. -/
def s5Scan : (fuel : Nat) → (first : Bool) → (total : Nat) → Stream → Option Nat × Stream
  | 0, _, _, s => (none, s)
  | fuel + 1, first, total, s =>
    match fread 1 s with
    | (some [b], s) =>
      if first ∧ obuType b ≠ obuTd then (none, s)
      else if ¬ first ∧ obuType b = obuTd then (some total, back 1 s)
      else
        match s5Header b s with
        | (none, s) => (none, s)
        | (some (n, len), s) => s5Scan fuel false (total + n) (skip len s)
    | (_, s) => if first then (none, s) else (some total, s)

/-- `section5_read` (section5.c:128-173): the bytes of the packet. -/
def s5Read (s : Stream) : Option (List UInt8) × Stream :=
  match s5Scan (s.data.length + 2) true 0 s with
  | (none, s) => (none, s)
  | (some total, s) => fread total (back total s)

/-! ### annexb.c -/

/-- `AnnexbInputContext` (annexb.c:122-126). -/
structure Annexb where
  s : Stream
  tu : Nat
  fu : Nat

/-- The loop of `annexb_open` (annexb.c:144-149).  `fuel` as for `ivfCount`. -/
def abCount : (fuel : Nat) → (n : Nat) → Stream → Nat
  | 0, n, _ => n
  | fuel + 1, n, s =>
    match leb128 s with
    | (none, _) => n
    | (some (_, len), s) => abCount fuel ((n + 1) % 2 ^ 32) (skip len s)

/-- `annexb_open` (annexb.c:128-153); the context comes from `calloc` (input.c:113). -/
def abOpen (data : List UInt8) : Opened Annexb :=
  .ok ⟨⟨data, 0⟩, 0, 0⟩ (abCount (data.length + 1) 0 ⟨data, 0⟩)

/-- annexb.c:159-162: the size of a temporal unit, read when the previous one is used up. -/
def abTu (c : Annexb) : Bool × Annexb :=
  if c.tu = 0 then
    match leb128 c.s with
    | (none, s) => (false, { c with s := s })
    | (some (_, v), s) => (true, { c with s := s, tu := v })
  else (true, c)

/-- annexb.c:163-167: the size of a frame unit, read when the previous one is used up. -/
def abFu (c : Annexb) : Bool × Annexb :=
  if c.fu = 0 then
    match leb128 c.s with
    | (none, s) => (false, { c with s := s })
    | (some (res, v), s) =>
      if v + res > c.tu then (false, { c with s := s, fu := v })
      else (true, { s := s, fu := v, tu := c.tu - res })
  else (true, c)

/-- `annexb_read` (annexb.c:155-181): the bytes of the packet. -/
def abRead (c : Annexb) : Option (List UInt8) × Annexb :=
  match abTu c with
  | (false, c) => (none, c)
  | (true, c) =>
    match abFu c with
    | (false, c) => (none, c)
    | (true, c) =>
      match leb128 c.s with
      | (none, s) => (none, { c with s := s })
      | (some (res, len), s) =>
        if len + res > c.fu then (none, { c with s := s })
        else
          match fread len s with
          | (none, s) => (none, { s := s, tu := c.tu - (len + res), fu := c.fu - (len + res) })
          | (some p, s) => (some p, { s := s, tu := c.tu - (len + res), fu := c.fu - (len + res) })

end Dav1d.Input
