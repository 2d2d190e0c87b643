import Verif.Obu.ObuSpec
/-!
# A decoder without output queue

The stages of the decoder one after the other: OBUs are taken in bitstream order, each frame is decoded completely
when its last tile group has arrived, and what is to be shown is listed at once. There are no frame contexts, no calls
and no buffered packets here. Of the context only the fields describing the stream are used. The interpretation of the
OBU payloads is `obuCase`.
-/
namespace Dav1d
variable {κ : Type}

/-- Decoding a complete frame: the new state and the picture to show, if any. A failing allocation or failing
decoding shows nothing; in the latter case the reference slots are emptied. -/
def seqSubmit (s : Settings) (env : Env κ) (d : Dec κ) (q : SeqHdr) (h : FrameHdr) : Dec κ × Except Err (Option (Pic κ)) :=
  let oom := env.oom d.submitted
  let f : FrameIn κ := { seq := q, hdr := h, tiles := d.tiles, refs := d.refs }
  let d := { d with frameHdr := none, submitted := d.submitted + 1 }
  if refsUnusable q h d.refs then (d, .error .EINVAL)
  else if oom = .early then (d, .error .ENOMEM)
  else if oom = .pic then ({ d with tiles := [] }, .error .ENOMEM)
  else
    let p := newPic d q h ((d.tiles.head?.map (·.props)).getD 0) (env.dec f)
    let d := { afterAlloc s d h with tiles := [], decoded := d.decoded ++ [f] }
    if oom ≠ .no then (d, .error .ENOMEM)
    else match p.content with
      | .error e => ({ d with refs := dropRefs h d.refs }, .error e)
      | .ok _ =>
        ({ d with refs := refreshRefs h p d.refs, nTiles := 0 }, .ok (if h.base.showFrame || s.outputInvisible then some p else none))

/-- Showing the picture of slot `i` again. -/
def seqShow (s : Settings) (d : Dec κ) (i : Nat) (props : Props) : Dec κ × Except Err (Option (Pic κ)) :=
  match (d.refs i).p with
  | .empty => (d, .error .EINVAL)
  | .hdrOnly h => if skipShown s h.base.frameType then ({ d with frameHdr := none, nTiles := 0 }, .ok none) else (d, .error .EINVAL)
  | .pic p =>
    if skipShown s p.hdr.base.frameType then ({ d with frameHdr := none, nTiles := 0 }, .ok none)
    else if s.strict ∧ ¬ p.showable = true then (d, .error .EINVAL)
    else
      ({ d with info := { d.info with t35 := [] }, frameHdr := none,
                refs := if p.hdr.base.frameType = 0 then keyRefresh i p d.refs else d.refs },
       .ok (some { p with info := d.info, props := props }))

/-- What happens after each OBU. -/
def seqFinish (s : Settings) (env : Env κ) (d : Dec κ) (props : Props) : Dec κ × Except Err (Option (Pic κ)) :=
  match d.seq, d.frameHdr with
  | some _, some (.showExisting i _ _) => seqShow s d i props
  | some q, some (.frame h) =>
    if d.nTiles = h.tiling.cols * h.tiling.rows then
      if skipFrame s h then ({ d with refs := skipRefs h d.refs, frameHdr := none, nTiles := 0 }, .ok none)
      else if d.tiles = [] then (d, .error .EINVAL)
      else seqSubmit s env d q h
    else (d, .ok none)
  | _, _ => (d, .ok none)

/-- One OBU: the state, and the picture to show with the bytes after the OBU, or an error. -/
def seqStep (s : Settings) (env : Env κ) (d : Dec κ) (pkt : Packet) : Dec κ × Except Err (Option (Pic κ) × List UInt8) :=
  match splitObu pkt.data with
  | none => (d, .error .EINVAL)
  | some (o, rest) =>
    if s.strict && obuForbidden pkt.data then (d, .error .EINVAL)
    else if dropObu d.opIdc (obuHdrOf pkt.data) then (d, .ok (none, rest))
    else
      match ((obuCase s d o.type (obuHdrOf pkt.data).temporalId (obuHdrOf pkt.data).spatialId pkt.props).run
          (BitSt.init o.payload)).1 with
      | none => (d, .error .EINVAL)
      | some (d, some e) => (d, .error e)
      | some (d, none) =>
        match seqFinish s env d pkt.props with
        | (d, .error e) => (d, .error e)
        | (d, .ok p) => (d, .ok (p, rest))

/-- A packet: the state, and the pictures to show in order; an error ends the packet and is listed. -/
def seqPacket (s : Settings) (env : Env κ) (d : Dec κ) (pkt : Packet) : Dec κ × List (Except Err (Pic κ)) :=
  if pkt.data = [] then (d, [])
  else match seqStep s env d pkt with
    | (d, .error e) => (d, [.error e])
    | (d, .ok (p, rest)) =>
      if rest.length < pkt.data.length then
        let r := seqPacket s env d { pkt with data := rest }
        (r.1, p.toList.map .ok ++ r.2)
      else (d, p.toList.map .ok)
termination_by pkt.data.length

/-- A sequence of packets. -/
def seqStream (s : Settings) (env : Env κ) : Dec κ → List Packet → Dec κ × List (Except Err (Pic κ))
  | d, [] => (d, [])
  | d, p :: l =>
    let r := seqPacket s env d p
    let t := seqStream s env r.1 l
    (t.1, r.2 ++ t.2)

/-- What the caller gets to see of a picture (not the internal mark `visible`). -/
def Pic.given (p : Pic κ) : Pic κ := { p with visible := true }

end Dav1d
