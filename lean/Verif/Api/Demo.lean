import Verif.Obu.FrameProps
import Verif.Api.Model
/-!
# Concrete byte streams for the examples and counterexamples
-/
namespace Dav1d

/-- Bits as bytes, padded with zero bits. -/
def toBytes (l : List Bool) : List UInt8 := BitSt.packBytes (l ++ List.replicate (7 - (l.length + 7) % 8) false)

/-- An OBU with a size field (payloads below 128 bytes). -/
def obu (type : Nat) (payload : List UInt8) : List UInt8 :=
  UInt8.ofNat (type * 8 + 2) :: UInt8.ofNat payload.length :: payload

/-- An OBU with an extension byte. -/
def obuX (type temporal spatial : Nat) (payload : List UInt8) : List UInt8 :=
  UInt8.ofNat (type * 8 + 6) :: UInt8.ofNat (temporal * 32 + spatial * 8) :: UInt8.ofNat payload.length :: payload

/-- Temporal delimiter and sequence header. -/
def tdObu : List UInt8 := obu 2 []
def seqObu : List UInt8 := obu 1 (toBytes (demoSeqBits ++ [true]))

/-- A frame header OBU with trailing bits. -/
def hdrObu (bits : List Bool) : List UInt8 := obu 3 (toBytes ([false] ++ bits ++ [true]))
/-- show_existing_frame of slot `i`. -/
def showObu (i : Nat) : List UInt8 := obu 3 (toBytes ([true] ++ natBits 3 i ++ [true]))
/-- A tile group OBU with tiles `a` to `b`, given with `n` bits each, and some bytes. -/
def groupObu (n a b : Nat) (d : List UInt8) : List UInt8 := obu 4 (toBytes ([true] ++ natBits n a ++ natBits n b) ++ d)
/-- A frame OBU with all tiles in one group. -/
def frameObu (bits : List Bool) (d : List UInt8) : List UInt8 :=
  obu 6 (toBytes ([false] ++ bits) ++ [0] ++ d)

/-- Quantizer to CDEF and restoration with at most `n` + 1 tile columns. -/
def tailBits (cols : List Bool) : List Bool :=
  [false, true] ++ cols ++ [false] ++ natBits cols.length 0 ++ natBits 2 1 ++
  natBits 8 100 ++ [false, false, false, false] ++ [false] ++ [false] ++
  natBits 6 5 ++ natBits 6 6 ++ natBits 6 7 ++ natBits 6 8 ++ natBits 3 1 ++ [false] ++
  natBits 2 1 ++ natBits 2 0 ++ natBits 6 9 ++ natBits 6 10 ++ natBits 6 0 ++ [true]

/-- A shown key frame with 6 tile columns in a 3-bit index space. -/
def keyBits6 : List Bool :=
  natBits 2 0 ++ [true, false, false, false] ++ natBits 4 0 ++ [false, false] ++ tailBits [true, true, true] ++
  [false] ++ [false]

/-- An inter frame at order hint `off` that uses slot 0 only and refreshes the slots `r`; `shown` or only showable. -/
def interBits (off r : Nat) (shown : Bool) : List Bool :=
  natBits 2 1 ++ (if shown then [true] else [false, true]) ++ [false, false, false, false] ++ natBits 4 off ++ natBits 3 0 ++
  natBits 8 r ++ [false] ++ (List.replicate 7 (natBits 3 0)).flatten ++ [false, false] ++ [true] ++ [true] ++ [false] ++
  [false] ++ demoTail ++ [false] ++ [false, false] ++ List.replicate 7 false ++ [false]

/-- The "decoder" of the examples: the content of a frame is its first byte; 0xFF is an error. -/
def demoDec (f : FrameIn UInt8) : Except Err UInt8 :=
  match f.tiles with
  | ⟨_, _, 0xFF :: _, _⟩ :: _ => .error .EINVAL
  | ⟨_, _, b :: _, _⟩ :: _ => .ok b
  | _ => .ok 0

/-- The environment of the examples: nothing fails; film grain adds 100. -/
def demoEnv : Env UInt8 := ⟨demoDec, fun _ => .no, fun _ k => .ok (k + 100)⟩

/-- What the examples look at in a reply. -/
inductive Seen where
  | sent (e : Option Err) (left : Bool)
  | pic (k : UInt8)
  | err (e : Err)
  | flushed
  | events (e : Bool × Bool)
  | props (p : Option Props)
  deriving DecidableEq

/-- A reply without the picture around the content. -/
def seen : Reply UInt8 → Seen
  | .sent e l => .sent e l.isSome
  | .got (.ok p) => match p.content with | .ok k => .pic k | .error e => .err e
  | .got (.error e) => .err e
  | .flushed => .flushed
  | .events e => .events e
  | .errorProps p => .props p

/-- The replies of a session in the example environment. -/
def run (s : Settings) (l : List Call) : Option (List Seen) :=
  (session s demoEnv Dec.init l).map (fun x => x.2.map seen)

/-- A packet, numbered `i`. -/
def send (i : Nat) (d : List UInt8) : Call := .send (some ⟨d, i⟩)

end Dav1d
