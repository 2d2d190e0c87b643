import Verif.Tools.Input

/-
What the three container formats store, independently of the code that reads them.
-/

namespace Dav1d.Input.Spec

/-- `n` bytes, little endian. -/
def leBytes : Nat → Nat → List UInt8
  | 0, _ => []
  | n + 1, v => UInt8.ofNat v :: leBytes n (v / 256)

/-! ### ivf -/

/-- A frame of an ivf file. -/
structure Frame where
  payload : List UInt8
  ts : Nat

/-- A frame is stored as its size (4 bytes), its time stamp (8 bytes) and its payload. -/
def Frame.bytes (f : Frame) : List UInt8 := leBytes 4 f.payload.length ++ leBytes 8 f.ts ++ f.payload

/-- The payload is not empty and the fields hold their values. -/
def Frame.Valid (f : Frame) : Prop := f.payload ≠ [] ∧ f.payload.length < 2 ^ 32 ∧ f.ts < 2 ^ 64

/-- The time stamp of frame number `k`: the one stored, or, if `synth` gives a step, a multiple of
that step. -/
def stamp (synth : Option Nat) (k : Nat) (f : Frame) : Nat :=
  match synth with
  | none => f.ts
  | some step => k * step % 2 ^ 64

/-- The packets for consecutive frames, the first of which is frame number `k`, at `off`. -/
def packetsFrom (synth : Option Nat) : (off k : Nat) → List Frame → List Packet
  | _, _, [] => []
  | off, k, f :: l =>
    { bytes := f.payload, offset := off, ts := stamp synth k f } ::
      packetsFrom synth (off + 12 + f.payload.length) (k + 1) l

/-- The packets of an ivf file with the given frames; the frames start behind a header of 32 bytes. -/
def packets (synth : Option Nat) (frames : List Frame) : List Packet := packetsFrom synth 32 0 frames

/-! ### leb128 -/

/-- The bytes of a leb128 number: the top bit is set in all of them but the last. -/
def Terminated : List UInt8 → Prop
  | [] => False
  | [b] => b.toNat < 128
  | b :: l => 128 ≤ b.toNat ∧ Terminated l

/-- The value of a leb128 number: seven bits per byte, the lowest ones first. -/
def lebValue : List UInt8 → Nat
  | [] => 0
  | b :: l => b.toNat % 128 + 128 * lebValue l

/-- `l` is a leb128 coding of `v`: at most 8 bytes, and a value of 32 bits. -/
def IsLeb (l : List UInt8) (v : Nat) : Prop :=
  Terminated l ∧ l.length ≤ 8 ∧ lebValue l = v ∧ v < 2 ^ 32

/-! ### Section 5 (the low overhead bitstream format) -/

/-- An OBU that carries its size. -/
structure Obu where
  head : UInt8
  ext : List UInt8
  size : List UInt8
  payload : List UInt8

/-- The OBU as stored. -/
def Obu.bytes (o : Obu) : List UInt8 := o.head :: (o.ext ++ o.size ++ o.payload)

/-- The type in bits 3 to 6 of the first byte. -/
def Obu.type (o : Obu) : Nat := o.head.toNat / 8 % 16

/-- Bit 1 of the first byte (a size follows) is set, bit 2 tells whether there is an extension byte,
and the size is that of the payload. -/
def Obu.Valid (o : Obu) : Prop :=
  o.head.toNat / 2 % 2 = 1 ∧ o.ext.length = o.head.toNat / 4 % 2 ∧ IsLeb o.size o.payload.length

/-- A temporal unit: a temporal delimiter (type 2) and any number of other OBUs. -/
def IsTu : List Obu → Prop
  | [] => False
  | td :: l => td.Valid ∧ td.type = 2 ∧ ∀ o ∈ l, o.Valid ∧ o.type ≠ 2

/-- A temporal unit as stored. -/
def tuBytes (tu : List Obu) : List UInt8 := tu.flatMap Obu.bytes

/-- A temporal unit can end here: at the end of the file, or in front of a temporal delimiter. -/
def AtBoundary : List UInt8 → Prop
  | [] => True
  | b :: _ => b.toNat / 8 % 16 = 2

/-! ### Annex B (the length delimited bitstream format) -/

/-- An OBU with its length in front. -/
structure AObu where
  size : List UInt8
  payload : List UInt8

def AObu.bytes (o : AObu) : List UInt8 := o.size ++ o.payload

def AObu.Valid (o : AObu) : Prop := o.payload ≠ [] ∧ IsLeb o.size o.payload.length

/-- The OBUs of a frame with their length in front. -/
structure AFrame where
  size : List UInt8
  obus : List AObu

def AFrame.body (f : AFrame) : List UInt8 := f.obus.flatMap AObu.bytes
def AFrame.bytes (f : AFrame) : List UInt8 := f.size ++ f.body

def AFrame.Valid (f : AFrame) : Prop :=
  f.obus ≠ [] ∧ (∀ o ∈ f.obus, o.Valid) ∧ IsLeb f.size f.body.length

/-- The frames of a temporal unit with their length in front. -/
structure ATu where
  size : List UInt8
  frames : List AFrame

def ATu.body (t : ATu) : List UInt8 := t.frames.flatMap AFrame.bytes
def ATu.bytes (t : ATu) : List UInt8 := t.size ++ t.body

def ATu.Valid (t : ATu) : Prop :=
  t.frames ≠ [] ∧ (∀ f ∈ t.frames, f.Valid) ∧ IsLeb t.size t.body.length

/-- The payloads of all OBUs of a temporal unit. -/
def ATu.payloads (t : ATu) : List (List UInt8) := t.frames.flatMap fun f => f.obus.map AObu.payload

/-- `Stored b tu fu ps`: the bytes `b` are the beginning of a file in which the OBUs `ps` are stored;
`tu` and `fu` bytes are still missing from the temporal unit and the frame unit that are open. -/
inductive Stored : List UInt8 → Nat → Nat → List (List UInt8) → Prop
  /-- an empty file -/
  | start : Stored [] 0 0 []
  /-- a temporal unit begins -/
  | tu {b ps l v} : Stored b 0 0 ps → IsLeb l v → 0 < v → Stored (b ++ l) v 0 ps
  /-- a frame unit begins, and fits into the temporal unit -/
  | fu {b ps l v t} : Stored b t 0 ps → IsLeb l v → 0 < v → l.length + v ≤ t →
      Stored (b ++ l) (t - l.length) v ps
  /-- an OBU, which fits into the frame unit -/
  | obu {b ps l p t f} : Stored b t f ps → IsLeb l p.length → p ≠ [] → l.length + p.length ≤ f →
      Stored (b ++ (l ++ p)) (t - (l.length + p.length)) (f - (l.length + p.length)) (ps ++ [p])

/-! ### Reading -/

/-- `Run read c ps c'`: reading packets one after the other from the state `c` gives the packets
`ps`, and then an error or the end of the file; `c'` is the state after that. -/
inductive Run {σ α : Type} (read : σ → Option α × σ) : σ → List α → σ → Prop
  | stop {c} : (read c).1 = none → Run read c [] (read c).2
  | more {c p c1 ps c2} : read c = (some p, c1) → Run read c1 ps c2 → Run read c (p :: ps) c2

end Dav1d.Input.Spec
