import Verif.Obu.SeqModel
/-!
# Model of dav1d_parse_sequence_header, src/obu.c:302-339
-/
namespace Dav1d
open HProg

/-- Error codes used by the functions modelled here, include/dav1d/common.h:60-70. -/
inductive Err where
  | EINVAL | ENOENT | EAGAIN | ENOMEM | ENOPROTOOPT | ERANGE | EIO
  deriving DecidableEq, Repr

/-- The OBU header, src/obu.c:314-318: type, `has_extension`, `has_length_field`. -/
def obuHeader : Prog (Nat × Bool) := do
  let _ ← Prog.getBit
  let type ← Prog.getBits 4
  let ext ← Prog.getFlag
  let hasLen ← Prog.getFlag
  let _ ← Prog.getBits (1 + 8 * ext.toNat)
  pure (type, hasLen)

/-- The length field, src/obu.c:320-325. `none`: reader failure (undefined behaviour). The result is
`obu_end` (as an offset), or an error, and the reader. -/
def obuEnd (hasLen : Bool) (c : GetBits) : Option (Except Err Nat × GetBits) :=
  if hasLen then
    match Prog.getUleb128.runC c with
    | none => none
    | some (len, c) =>
      if len > c.data.length - c.ptr then some (.error .EINVAL, c) else some (.ok (c.ptr + len), c)
  else some (.ok c.data.length, c)

/-- The sequence header case, src/obu.c:327-331; `res` is the result so far. -/
def seqHdrCase (type : Nat) (obuEnd : Nat) (res : Except Err SeqHdr) (c : GetBits) :
    Option (Except Err (Except Err SeqHdr) × GetBits) :=
  if type = 1 then
    match (OptionT.run (parseSeqHdr false)).runC c with
    | none => none
    | some (none, c) => some (.error .EINVAL, c)
    | some (some h, c) =>
      if c.ptr > obuEnd then some (.error .EINVAL, c)
      else match c.byteAlign with
        | none => none
        | some c => some (.ok (.ok h), c)
  else some (.ok res, c)

/-- The do-while loop, src/obu.c:313-336. Result `none` stands for undefined behaviour, a failed
assertion (line 334) or an iteration that makes no progress (i.e. an endless loop); `res` starts as
ENOENT and is overwritten by each sequence header. -/
def parseSeqLoop (c : GetBits) (res : Except Err SeqHdr) : Option (Except Err SeqHdr) :=
  match obuHeader.runC c with
  | none => none
  | some ((type, hasLen), c1) =>
    match obuEnd hasLen c1 with
    | none => none
    | some (.error e, _) => some (.error e)
    | some (.ok oe, c2) =>
      match seqHdrCase type oe res c2 with
      | none => none
      | some (.error e, _) => some (.error e)
      | some (.ok res, c3) =>
        if c3.error then some (.error .EINVAL)
        else if c3.state = 0 ∧ c3.bitsLeft = 0 then
          if _h : oe < c.data.length then
            if _h2 : c.ptr < oe then
              parseSeqLoop { c3 with data := c.data, ptr := oe } res
            else none
          else some res
        else none
termination_by c.data.length - c.ptr
decreasing_by omega

/-- `dav1d_parse_sequence_header`, src/obu.c:302-339, for a buffer of `sz ≤ SIZE_MAX / 2` bytes. -/
def parseSequenceHeader (data : List UInt8) : Option (Except Err SeqHdr) :=
  if data.length = 0 then some (.error .EINVAL) else parseSeqLoop (GetBits.init data) (.error .ENOENT)

end Dav1d
