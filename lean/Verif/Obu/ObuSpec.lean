import Verif.Obu.ObuModel
import Verif.Obu.SeqParseSpec
import Verif.Obu.FrameSpec
/-!
# OBUs at byte level, and what may be submitted for decoding
-/
namespace Dav1d
variable {κ : Type}

/-- `temporal_id` and `spatial_id` of the extension byte. -/
def extTemporal (x : UInt8) : Nat := x.toNat / 32
def extSpatial (x : UInt8) : Nat := x.toNat / 8 % 4

/-- The header of the OBU at the front of a byte string (for a string `splitObu` accepts). -/
def obuHdrOf : List UInt8 → ObuHdr
  | h :: x :: _ =>
    if obuExt h then ⟨obuType h, true, obuHasSize h, extTemporal x, extSpatial x⟩
    else ⟨obuType h, false, obuHasSize h, 0, 0⟩
  | [h] => ⟨obuType h, false, obuHasSize h, 0, 0⟩
  | [] => ⟨0, false, false, 0, 0⟩

/-- The forbidden bit of the first header byte. -/
def obuForbidden : List UInt8 → Bool
  | h :: _ => decide (128 ≤ h.toNat)
  | [] => false

/-- One OBU at byte level: what dav1d_parse_obus does to the context. The payload is interpreted by `obuCase`
on its own bits. -/
def stepObu (s : Settings) (env : Env κ) (c : Dec κ) (pkt : Packet) : Option (Dec κ × Except Err Nat) :=
  match splitObu pkt.data with
  | none => some (caseError c pkt.props .EINVAL)
  | some (o, rest) =>
    if s.strict && obuForbidden pkt.data then some (caseError c pkt.props .EINVAL)
    else if dropObu c.opIdc (obuHdrOf pkt.data) then some (c, .ok (pkt.data.length - rest.length))
    else
      match ((obuCase s c o.type (obuHdrOf pkt.data).temporalId (obuHdrOf pkt.data).spatialId pkt.props).run
          (BitSt.init o.payload)).1 with
      | none => none
      | some (c, some e) => some (caseError c pkt.props e)
      | some (c, none) =>
        match finishObu s env c pkt.props with
        | none => none
        | some (c, some e) => some (c, .error e)
        | some (c, none) => some (c, .ok (pkt.data.length - rest.length))

/-- The tile groups cover the tiles `a .. b - 1`, each exactly once and in order. -/
def Covers : List TileGroup → Nat → Nat → Prop
  | [], a, b => a = b
  | g :: l, a, b => g.first = a ∧ g.first ≤ g.last ∧ Covers l (g.last + 1) b

/-- A reference picture fits the frame: AV1 specification 7.20 (scaling at most 2:1 down and 1:16 up), same
subsampling and bit depth. -/
def RefFits (q : SeqHdr) (h : FrameHdr) (p : Pic κ) : Prop :=
  p.hdr.refs.size.width1 ≤ 2 * h.refs.size.width0 ∧ p.hdr.refs.size.height ≤ 2 * h.refs.size.height ∧
  h.refs.size.width0 ≤ 16 * p.hdr.refs.size.width1 ∧ h.refs.size.height ≤ 16 * p.hdr.refs.size.height ∧
  p.seq.color.layout = q.color.layout ∧ p.seq.color.hbd = q.color.hbd

/-- The frame types selected by `decode_frame_type` (include/dav1d/dav1d.h:71-76): all; only frames other
frames may refer to and key frames; only intra and key frames; only key frames. -/
def Selected (decodeFrameType : Nat) (h : FrameHdr) : Prop :=
  h.base.frameType = 0 ∨ decodeFrameType = 0 ∨
  (decodeFrameType = 1 ∧ h.refs.refreshFrameFlags ≠ 0) ∨ (decodeFrameType = 2 ∧ h.base.frameType = 2)

/-- The header was accepted by the parser in a reachable state whose sequence header differs from `q` at most
in its operating parameters. -/
def HdrFor (q : SeqHdr) (h : FrameHdr) : Prop :=
  ∃ c b b', ReachableCtx c ∧ c.seq.core = q.core ∧ (parseNewFrameHdr c).exec b = (some h, b')

/-- What is guaranteed of every frame given to the decoding stage. -/
structure Submittable (s : Settings) (f : FrameIn κ) : Prop where
  /-- both headers were accepted, the frame header for this sequence -/
  seq : SeqAccepted f.seq
  hdr : HdrFor f.seq f.hdr
  /-- the tile groups cover all tiles once, in order -/
  tiles : Covers f.tiles 0 (f.hdr.tiling.cols * f.hdr.tiling.rows)
  /-- `frame_size_limit` is respected -/
  limit : s.frameSizeLimit = 0 ∨ f.hdr.refs.size.width1 * f.hdr.refs.size.height ≤ s.frameSizeLimit
  /-- all references of an inter frame exist and fit -/
  refs : f.hdr.base.frameType % 2 = 1 → ∀ r ∈ f.hdr.refs.refidx, ∃ p, (f.refs r).p = .pic p ∧ RefFits f.seq f.hdr p
  /-- the frame type is one asked for -/
  selected : Selected s.decodeFrameType f.hdr

end Dav1d
