import Verif.Obu.ObuModel
/-!
# Model of the decoding calls of src/lib.c:301-598 and 705-723

A call returning `none` stands for undefined behaviour, a failed assertion or a loop that makes no progress.
Waiting for the threads of a frame context is implicit (see `ringPop`).
-/
namespace Dav1d
variable {κ : Type}

/-- `has_grain`, src/lib.c:301-307. -/
def hasGrain (h : FrameHdr) : Bool :=
  !h.filmGrain.yPoints.isEmpty || !h.filmGrain.uvPoints0.isEmpty || !h.filmGrain.uvPoints1.isEmpty ||
    (h.filmGrain.clipToRestrictedRange && h.filmGrain.chromaScalingFromLuma)

/-- Only the highest spatial layer is to be output: `!c->all_layers && c->max_spatial_id`. -/
def layered (s : Settings) (c : Dec κ) : Bool := !s.allLayers && c.maxSpatialId != 0

/-- The picture handed to the caller, src/lib.c:315-322: with film grain applied if asked for. -/
def finishPic (s : Settings) (env : Env κ) (p : Pic κ) : Except Err (Pic κ) :=
  if !s.applyGrain || !hasGrain p.hdr then .ok p
  else match p.content with
    | .error e => .error e
    | .ok k => match env.grain p.hdr.filmGrain k with
      | .error e => .error e
      | .ok k => .ok { p with content := .ok k }

/-- `output_image`, src/lib.c:309-328. Calling it without a picture is undefined. -/
def outputImage (s : Settings) (env : Env κ) (c : Dec κ) : Option (Dec κ × Except Err (Pic κ)) :=
  if layered s c then
    match c.cache with
    | none => none
    | some p => some ({ c with cache := c.out, out := none }, finishPic s env p)
  else
    match c.out with
    | none => none
    | some p => some ({ c with out := none }, finishPic s env p)

/-- `output_picture_ready`, src/lib.c:330-349: the answer and the context (the picture may move to the
cache). -/
def outputReady (s : Settings) (c : Dec κ) (drain : Bool) : Bool × Dec κ :=
  if c.cachedError.isSome then (true, c)
  else if layered s c then
    match c.out, c.cache with
    | some o, some k =>
      if c.maxSpatialId = k.hdr.spatialId ∨ o.flags.newTu = true then (true, c)
      else (false, { c with cache := some o, out := none })
    | none, some _ => (drain, c)
    | some o, none => (false, { c with cache := some o, out := none })
    | none, none => (false, c)
  else (c.out.isSome, c)

/-- One round of the loop of `drain_picture`, src/lib.c:354-401: stop without result, go on, or return. -/
inductive DrainStep (κ : Type) where
  | stop (c : Dec κ)
  | next (c : Dec κ) (drained : Bool)
  | done (c : Dec κ) (r : Except Err (Pic κ))
  | undef

/-- Loop body, src/lib.c:355-401. -/
def drainStep (s : Settings) (env : Env κ) (c : Dec κ) (drained : Bool) : DrainStep κ :=
  let i := c.next
  let sl := c.ring i
  let busy := sl.pic.isSome || sl.error
  if !busy && drained then .stop c
  else
    let drained := drained || busy
    let c := { c with next := ringNext s.nFc i }
    match sl.retval with
    | some e =>
      .done (setSlot { c with errProps := sl.pic.map (·.props) } i { sl with retval := none, pic := none }) (.error e)
    | none =>
      match sl.pic with
      | none => .next c drained
      | some p =>
        match showDelayed s (setSlot c i { sl with pic := none }) p with
        | none => .undef
        | some c =>
          match outputReady s c false with
          | (true, c) => match outputImage s env c with
            | none => .undef
            | some (c, r) => .done c r
          | (false, c) => .next c drained

/-- The loop of `drain_picture` with `n` rounds to go, src/lib.c:354-402. -/
def drainLoop (s : Settings) (env : Env κ) : Nat → Dec κ → Bool → DrainStep κ
  | 0, c, _ => .stop c
  | n + 1, c, drained =>
    match drainStep s env c drained with
    | .next c drained => drainLoop s env n c drained
    | r => r

/-- `drain_picture`, src/lib.c:351-408. -/
def drainPicture (s : Settings) (env : Env κ) (c : Dec κ) : Option (Dec κ × Except Err (Pic κ)) :=
  match drainLoop s env s.nFc c false with
  | .undef => none
  | .done c r => some (c, r)
  | .next _ _ => none
  | .stop c =>
    match outputReady s c true with
    | (true, c) => outputImage s env c
    | (false, c) => some (c, .error .EAGAIN)

/-- The rest of the packet after `n` bytes, src/lib.c:422-425. -/
def Packet.advance (p : Packet) (n : Nat) : Option Packet :=
  if p.data.drop n = [] then none else some { p with data := p.data.drop n }

/-- The loop of `gen_picture`, src/lib.c:417-433. A round that consumes nothing or more than there is yields
`none`. -/
def genLoop (s : Settings) (env : Env κ) (c : Dec κ) (pkt : Packet) : Option (Dec κ × Option Err) :=
  match parseObus s env c pkt with
  | none => none
  | some (c, .error e) =>
    match outputReady s { c with input := none } false with
    | (true, c) => some (c, none)
    | (false, c) => some (c, some e)
  | some (c, .ok n) =>
    if _h : 0 < n ∧ n ≤ pkt.data.length then
      match outputReady s { c with input := pkt.advance n } false with
      | (true, c) => some (c, none)
      | (false, c) =>
        if pkt.data.length ≤ n then some (c, none)
        else genLoop s env c { pkt with data := pkt.data.drop n }
    else none
termination_by pkt.data.length
decreasing_by simp only [List.length_drop]; omega

/-- `gen_picture`, src/lib.c:410-434. -/
def genPicture (s : Settings) (env : Env κ) (c : Dec κ) : Option (Dec κ × Option Err) :=
  match outputReady s c false with
  | (true, c) => some (c, none)
  | (false, c) =>
    match c.input with
    | none => some (c, none)
    | some p => genLoop s env c p

/-- Result of dav1d_send_data: the new context, the return value, and what the caller's `Dav1dData` holds
afterwards. -/
structure SendResult (κ : Type) where
  ctx : Dec κ
  res : Option Err
  left : Option Packet

/-- `dav1d_send_data`, src/lib.c:436-454. `none` as a packet is a `Dav1dData` without data; with data the
size has to be positive and at most `SIZE_MAX / 2`. -/
def sendData (s : Settings) (env : Env κ) (c : Dec κ) (pkt : Option Packet) : Option (SendResult κ) :=
  if pkt.any (fun p => p.data.isEmpty || decide (2 ^ 63 ≤ p.data.length)) then some ⟨c, some .EINVAL, pkt⟩
  else
    let c := if pkt.isSome then { c with drain := false } else c
    if c.input.isSome then some ⟨c, some .EAGAIN, pkt⟩
    else
      match genPicture s env { c with input := pkt } with
      | none => none
      | some (c, none) => some ⟨c, none, none⟩
      | some (c, some e) => some ⟨c, some e, pkt⟩

/-- `dav1d_get_picture`, src/lib.c:456-481. -/
def getPicture (s : Settings) (env : Env κ) (c : Dec κ) : Option (Dec κ × Except Err (Pic κ)) :=
  let drain := c.drain
  match genPicture s env { c with drain := true } with
  | none => none
  | some (c, some e) => some (c, .error e)
  | some (c, none) =>
    match c.cachedError with
    | some e => some ({ c with cachedError := none }, .error e)
    | none =>
      match outputReady s c (s.nFc == 1) with
      | (true, c) => outputImage s env c
      | (false, c) =>
        if s.nFc > 1 ∧ drain = true then drainPicture s env c
        else some (c, .error .EAGAIN)

/-- `dav1d_flush`, src/lib.c:524-598: what is reset. -/
def flush (s : Settings) (c : Dec κ) : Dec κ :=
  { c with
    input := none, out := none, cache := none, drain := false, cachedError := none
    refs := fun i => if i < 8 then {} else c.refs i
    frameHdr := none, seq := none, info := {}, errProps := none
    ring := if s.nFc > 1 then fun i => if i < s.nFc then {} else c.ring i else c.ring
    next := if s.nFc > 1 then 0 else c.next }

/-- `dav1d_get_event_flags`, src/lib.c:705-712. -/
def getEventFlags (c : Dec κ) : Dec κ × (Bool × Bool) := ({ c with eventFlags := (false, false) }, c.eventFlags)

/-- `dav1d_get_decode_error_data_props`, src/lib.c:714-723; `none` are the default properties. -/
def getErrorProps (c : Dec κ) : Dec κ × Option Props := ({ c with errProps := none }, c.errProps)

/-- One call of the API with its arguments. -/
inductive Call where
  | send (p : Option Packet)
  | get
  | flush
  | events
  | errorProps

/-- What a call returns. -/
inductive Reply (κ : Type) where
  | sent (res : Option Err) (left : Option Packet)
  | got (r : Except Err (Pic κ))
  | flushed
  | events (e : Bool × Bool)
  | errorProps (p : Option Props)

/-- Perform a call. -/
def call (s : Settings) (env : Env κ) (c : Dec κ) : Call → Option (Dec κ × Reply κ)
  | .send p => (sendData s env c p).map (fun r => (r.ctx, .sent r.res r.left))
  | .get => (getPicture s env c).map (fun r => (r.1, .got r.2))
  | .flush => some (flush s c, .flushed)
  | .events => some ((getEventFlags c).1, .events (getEventFlags c).2)
  | .errorProps => some ((getErrorProps c).1, .errorProps (getErrorProps c).2)

/-- Perform a sequence of calls on a context. -/
def session (s : Settings) (env : Env κ) : Dec κ → List Call → Option (Dec κ × List (Reply κ))
  | c, [] => some (c, [])
  | c, a :: l =>
    match call s env c a with
    | none => none
    | some (c, r) => (session s env c l).map (fun x => (x.1, r :: x.2))

/-- The context after dav1d_open, src/lib.c:137-299 (all zero). -/
def Dec.init : Dec κ := {}

/-- A context reachable by API calls after dav1d_open. -/
def Reachable (s : Settings) (env : Env κ) (c : Dec κ) : Prop :=
  ∃ l r, session s env Dec.init l = some (c, r)

end Dav1d
