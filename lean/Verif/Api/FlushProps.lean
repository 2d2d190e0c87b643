import Verif.Api.FlushLemmas
import Verif.Api.OrderProps
/-!
# C25: dav1d_flush starts over
-/
namespace Dav1d
variable {κ : Type}

/-! ## Specification

`NewStream s b data` (Verif/Api/FlushLemmas.lean) says that the packet begins with a temporal delimiter and a sequence
header that is accepted; if `b` is not set the temporal delimiter may be missing. `FirstData s b l` says so of the first
packet with a valid size that is sent. A reply is compared up to what only concerns event flags (`Reply.er`): the
`newSeq` and `newOp` marks of a picture, and the answer of dav1d_get_event_flags. `env.from k` is the environment with
the allocation failures of the frames from the `k`-th one on (a flushed decoder goes on counting its allocations, a new
one starts at 0). `FlagBlind env` says that decoding a frame does not look at those marks of its references. -/

theorem flush_idle {s : Settings} {env : Env κ} {c : Dec κ} (hf : 0 < s.nFc) (hr : Reachable s env c) :
    Idle (flush s c) ∧ (flush s c).next = 0 := by
  have ht := hr.tidy hf
  refine ⟨⟨rfl, rfl, fun i => ?_, rfl, rfl, rfl, rfl, fun i => ?_⟩, ?_⟩
  · simp only [flush]; split
    · rfl
    · exact ht.refs i (by omega)
  · simp only [flush]
    split
    · dsimp only; split
      · rfl
      · exact ht.ring i (Or.inl (by omega))
    · exact ht.ring i (Or.inr (by omega))
  · simp only [flush]
    split
    · rfl
    · have := ht.next; omega

/-- C25. Whatever was done before `dav1d_flush`, and whatever calls follow it: if the first packet sent begins with a
temporal delimiter and a sequence header, all later replies are those of a newly opened decoder, except for event flags.
(What is missing: event flags. See `C25_events_kept`.) -/
theorem C25_flush_partial {s : Settings} {env : Env κ} {c : Dec κ} (hb : FlagBlind env) (hf : 0 < s.nFc) (hr : Reachable s env c)
    (l : List Call) (hl : FirstData s c.frameFlags.newTu l) :
    ∃ d' d rs' rs, session s env (flush s c) l = some (d', rs') ∧ session s (env.from c.submitted) Dec.init l = some (d, rs) ∧
      rs'.map Reply.er = rs.map Reply.er := by
  obtain ⟨hi, hn⟩ := flush_idle hf hr
  refine Wait.session hb l (b := c.frameFlags.newTu) ⟨hi, ?_, rfl, hn, rfl, rfl, ?_⟩ rfl ?_ (Inv.init _ _) hl
  · exact ⟨rfl, rfl, fun _ => rfl, rfl, rfl, rfl, rfl, fun _ => rfl⟩
  · show c.submitted = 0 + c.submitted
    omega
  · intro hx; exact hx

/-- C25. The same for the pictures and errors that dav1d_get_picture and dav1d_send_data return: the calls return the
same codes, and pictures with the same content, frame header, sequence header, metadata and user data. -/
theorem C25_pictures {s : Settings} {env : Env κ} {c : Dec κ} (hb : FlagBlind env) (hf : 0 < s.nFc) (hr : Reachable s env c)
    (l : List Call) (hl : FirstData s c.frameFlags.newTu l) :
    ∃ d' d rs' rs, session s env (flush s c) l = some (d', rs') ∧ session s (env.from c.submitted) Dec.init l = some (d, rs) ∧
      rs'.length = rs.length ∧ ∀ (i : Nat) a b, rs'[i]? = some a → rs[i]? = some b →
        match a, b with
        | .sent e x, .sent e' x' => e = e' ∧ x = x'
        | .got (.ok p), .got (.ok p') => p.content = p'.content ∧ p.seq = p'.seq ∧ p.hdr = p'.hdr ∧ p.info = p'.info ∧ p.props = p'.props
        | .got (.error e), .got (.error e') => e = e'
        | .flushed, .flushed => True
        | .events _, .events _ => True
        | .errorProps x, .errorProps x' => x = x'
        | _, _ => False := by
  obtain ⟨d', d, rs', rs, h1, h2, h3⟩ := C25_flush_partial hb hf hr l hl
  refine ⟨d', d, rs', rs, h1, h2, ?_, ?_⟩
  · have := congrArg List.length h3; simpa using this
  · intro i a b ha hb'
    have : a.er = b.er := by
      have h4 := congrArg (fun x => x[i]?) h3
      simp only [List.getElem?_map, ha, hb', Option.map_some, Option.some.injEq] at h4
      exact h4
    cases a with
    | sent e x => cases b <;> simp_all [Reply.er]
    | got r =>
      cases b with
      | got r' =>
        simp only [Reply.er, Reply.got.injEq] at this
        cases r <;> cases r' <;> simp_all [erE, Except.map, Pic.er]
      | _ => simp [Reply.er] at this
    | flushed => cases b <;> simp_all [Reply.er]
    | events e => cases b <;> simp_all [Reply.er]
    | errorProps x => cases b <;> simp_all [Reply.er]

/-- C25. Until new data is sent there is no picture and no error: dav1d_get_picture says that data is needed (any number
of times), and the user data of the last error is gone. -/
theorem C25_nothing_buffered {s : Settings} {env : Env κ} {c : Dec κ} (hf : 0 < s.nFc) (hr : Reachable s env c) (n : Nat) :
    ∃ d, session s env (flush s c) (List.replicate n .get ++ [.errorProps]) =
      some (d, List.replicate n (.got (.error .EAGAIN)) ++ [.errorProps none]) := by
  have key : ∀ (n : Nat) (c : Dec κ), Idle c → c.input = none → c.errProps = none →
      ∃ d, session s env c (List.replicate n .get ++ [.errorProps]) =
        some (d, List.replicate n (.got (.error .EAGAIN)) ++ [.errorProps none]) := by
    intro n
    induction n with
    | zero => intro c h _ he; exact ⟨_, by simp only [List.replicate_zero, List.nil_append, session, call, getErrorProps, he, Option.map_some]; rfl⟩
    | succ n ih =>
      intro c h hi he
      obtain ⟨d, hd⟩ := ih ({ c with drain := true, next := if s.nFc > 1 ∧ c.drain = true then (ringNext s.nFc)^[s.nFc] c.next else c.next })
        ⟨h.seq, h.hdr, h.refs, h.info, h.cachedError, h.out, h.cache, h.ring⟩ hi he
      refine ⟨d, ?_⟩
      simp only [List.replicate_succ, List.cons_append, session, call, h.get hi, Option.map_some, hd]
  exact key n _ (flush_idle hf hr).1 rfl rfl

/-! ## The hypotheses can be met, and what does not hold -/

theorem demoEnv_flagBlind : FlagBlind demoEnv := fun _ => rfl

/-- Decode some of a stream with the example environment, flush, go on. -/
def afterFlush (s : Settings) (l m : List Call) : Option (List Seen) :=
  (session s demoEnv Dec.init (l ++ [.flush] ++ m)).map (fun x => x.2.drop (l.length + 1) |>.map seen)

-- a packet that begins as required, and one that is accepted only if no temporal delimiter was seen
example : FirstData {} true [.get, send 0 (streamKey 1), .get] := by
  refine Or.inr ⟨⟨2, []⟩, seqObu ++ frameObu demoKeyBits [1, 8], by decide +kernel, rfl, by decide +kernel, ?_⟩
  exact ⟨⟨1, toBytes (demoSeqBits ++ [true])⟩, frameObu demoKeyBits [1, 8], (((parseSeqHdr false)).run.run (BitSt.init (toBytes (demoSeqBits ++ [true])))).1.get (by decide +kernel),
    by decide +kernel, rfl, by decide +kernel, by simp⟩
-- with pictures, references, an error and input left in the decoder
example : afterFlush { nFc := 3 } [send 0 (streamKey 1), send 1 (streamInter 1 0xFF), send 2 (streamInter 2 3), send 3 (streamKey 4)]
      [.errorProps, .get, send 0 (streamKey 7), .get, .get, .get] =
    some [.props none, .err .EAGAIN, .sent none false, .err .EAGAIN, .pic 7, .err .EAGAIN] ∧
    run { nFc := 3 } [.errorProps, .get, send 0 (streamKey 7), .get, .get, .get] =
    some [.props none, .err .EAGAIN, .sent none false, .err .EAGAIN, .pic 7, .err .EAGAIN] := by
  constructor <;> decide +kernel
-- the references are gone
example : afterFlush {} [send 0 (streamKey 1), .get] [send 1 (streamInter 1 3), .get] =
    some [.sent (some .EINVAL) true, .err .EAGAIN] := by decide +kernel

/-- Event flags that were not asked for before the flush are reported after it. -/
theorem C25_events_kept : afterFlush {} [send 0 (streamKey 1), .get] [.events] = some [.events (true, false)] ∧
    run {} [.events] = some [.events (false, false)] := by
  constructor <;> decide +kernel

end Dav1d
