import Verif.Api.RecoverMain
import Verif.Api.FlushProps
/-!
# C28: decoding after a rejected packet
-/
namespace Dav1d.Recover
open Dav1d HProg
variable {κ : Type}

theorem reachable_snoc {s : Settings} {env : Env κ} {c d : Dec κ} {a : Call} {r : Reply κ} (h : Reachable s env c) (e : call s env c a = some (d, r)) : Reachable s env d := by
  obtain ⟨l, rs, h⟩ := h
  exact ⟨l ++ [a], rs ++ [r], by rw [session_append, h, Option.bind_some, session, e]; rfl⟩

/-! ## Specification

As for C25, replies are compared with those of a newly opened decoder up to event flags (`Reply.er`), and `env.from k`
continues the allocations after the first `k` frames. Of the packet that follows the error, `Begins s p.data q rest`
says that it starts with a temporal delimiter and the sequence header `q` (which the parser accepts), followed by
`rest`; `HasKeyFrame κ s q rest props` says that a new decoder that has read `q` accepts a frame OBU at the start of
`rest`, which holds all tiles of a shown key frame. `KeyBlind env` says that decoding a key frame does not look at the
reference slots. `Ready c q` lists what a decoder must not hold: an undelivered picture or packet, unfetched error
properties, metadata for the next picture, and a show_existing_frame header that was refused. -/

/-- C28 (without frame threading). If nothing undelivered is left (`Ready`), a packet that starts with a temporal
delimiter, a sequence header and a key frame, and everything after it, is treated as by a newly opened decoder, whatever
was sent before, including frames that were only received in part. Instead of the key frame, a sequence header that
differs from the last one suffices.
(What is missing: the claim is false for decoders that are not `Ready`, see `C28_stuck`, `C28_metadata_kept` and
`C28_hdr10_kept`; with frame threading, errors of later frames may still be due, see C26.) -/
theorem C28_recovers_partial {s : Settings} {env : Env κ} (h1 : s.nFc = 1) (hb : FlagBlind env) {c : Dec κ} (hc : Reachable s env c)
    {q : SeqHdr} (hr : Ready c q) {p : Packet} {rest : List UInt8} (hp : Begins s p.data q rest) (hlen : p.data.length < 2 ^ 63)
    (hrest : (∀ q', c.seq = some q' → q.core ≠ q'.core) ∨ HasKeyFrame κ s q rest p.props ∧ KeyBlind env ∧ env.oom c.submitted = .no)
    (l : List Call) :
    ∃ d' d rs' rs, session s env c (.send (some p) :: l) = some (d', rs') ∧
      session s (env.from c.submitted) Dec.init (.send (some p) :: l) = some (d, rs) ∧ rs'.map Reply.er = rs.map Reply.er :=
  recovered h1 hb hc.inv (hc.tidy (by omega)) (half_of_reachable h1 hc) hr hp hrest hlen l

/-- C28. After dav1d_send_data reports an error for a packet with a valid size, no picture and no packet is held (if all
spatial layers are output). -/
theorem C28_error_leaves_nothing {s : Settings} {env : Env κ} (h1 : s.nFc = 1) (ha : s.allLayers = true) {c d : Dec κ} (hc : Reachable s env c)
    {p : Packet} (hp : p.data ≠ [] ∧ p.data.length < 2 ^ 63) {e : Err} {left : Option Packet}
    (hs : call s env c (.send (some p)) = some (d, .sent (some e) left)) (he : e ≠ .EAGAIN) :
    d.out = none ∧ d.cache = none ∧ d.input = none ∧ left = some p := by
  have hh := half_of_reachable h1 hc
  unfold call at hs
  dsimp only at hs
  cases hx : sendData s env c (some p) with
  | none => rw [hx] at hs; cases hs
  | some y =>
    rw [hx] at hs
    simp only [Option.map_some, Option.some.injEq, Prod.mk.injEq, Reply.sent.injEq] at hs
    obtain ⟨rfl, h2, h3⟩ := hs
    obtain ⟨a1, a2⟩ := send_half h1 hh hc.inv hx
    have := a2 (by rw [h2]; simp) (by rw [h2]; simpa using he) (fun p' hp' => by cases hp'; exact hp)
    refine ⟨this.1, a1.cache ha, this.2, ?_⟩
    rw [← h3]
    unfold sendData at hx
    split at hx
    · cases hx; rfl
    · simp only [Option.isSome_some, if_true] at hx
      split at hx
      · cases hx; rfl
      · split at hx
        · cases hx
        · cases hx; cases h2
        · cases hx; rfl

/-- C28. An error, its properties are fetched, and then a temporal unit with a key frame: it is decoded as by a new
decoder. (What is missing: as in `C28_recovers_partial`; the hypotheses on the header and the metadata held after the
error can not be dropped.) -/
theorem C28_after_error_partial {s : Settings} {env : Env κ} (h1 : s.nFc = 1) (ha : s.allLayers = true) (hb : FlagBlind env) {c d : Dec κ} (hc : Reachable s env c)
    {p₀ : Packet} (hp₀ : p₀.data ≠ [] ∧ p₀.data.length < 2 ^ 63) {e : Err} {left : Option Packet}
    (hs : call s env c (.send (some p₀)) = some (d, .sent (some e) left)) (he : e ≠ .EAGAIN)
    (hstuck : ∀ i x n, d.frameHdr ≠ some (.showExisting i x n)) (hinfo : d.info = {})
    {q : SeqHdr} {p : Packet} {rest : List UInt8} (hp : Begins s p.data q rest) (hlen : p.data.length < 2 ^ 63)
    (hrest : HasKeyFrame κ s q rest p.props) (hkb : KeyBlind env) (hoom : env.oom d.submitted = .no) (l : List Call) :
    ∃ d' d'' x rs' rs, session s env d (.errorProps :: .send (some p) :: l) = some (d', .errorProps x :: rs') ∧
      session s (env.from d.submitted) Dec.init (.send (some p) :: l) = some (d'', rs) ∧ rs'.map Reply.er = rs.map Reply.er := by
  have hd : Reachable s env d := reachable_snoc hc hs
  have hd2 : Reachable s env (getErrorProps d).1 := reachable_snoc (a := .errorProps) hd rfl
  obtain ⟨a1, a2, a3, _⟩ := C28_error_leaves_nothing h1 ha hc hp₀ hs he
  have hr : Ready (getErrorProps d).1 q := ⟨⟨a3, a1, a2, rfl⟩, hstuck, by rw [show (getErrorProps d).1.info = {} from hinfo], Or.inl (by rw [show (getErrorProps d).1.info = {} from hinfo]; exact ⟨rfl, rfl⟩)⟩
  obtain ⟨d', d'', rs', rs, g1, g2, g3⟩ := C28_recovers_partial h1 hb hd2 hr hp hlen (Or.inr ⟨hrest, hkb, hoom⟩) l
  refine ⟨d', d'', d.errProps, rs', rs, ?_, g2, g3⟩
  rw [session]
  have : call s env d .errorProps = some ((getErrorProps d).1, .errorProps d.errProps) := rfl
  rw [this]
  dsimp only
  rw [g1]
  rfl

/-! ## Where it is false -/

/-- The data begins with a temporal delimiter. -/
def StartsTd (data : List UInt8) : Prop := ∃ o rest, splitObu data = some (o, rest) ∧ o.type = 2

/-- What a decoder that refused to show a frame answers. -/
def refused : Call → Reply κ
  | .send p => .sent (some .EINVAL) p
  | _ => .got (.error .EAGAIN)

/-- C28 is false of the code: a decoder that holds the header of a frame to be shown that can not be (no such frame, or
one that is not showable) refuses all packets that start with a temporal delimiter, whatever follows in them, and does
not give a picture any more. -/
theorem C28_stuck {s : Settings} {env : Env κ} (h1 : s.nFc = 1) {c : Dec κ} (hc : Reachable s env c)
    (hh : ∃ i x n, c.frameHdr = some (.showExisting i x n)) (hn : c.input = none ∧ c.out = none ∧ c.cache = none)
    (l : List Call) (hl : ∀ a ∈ l, (∃ p, a = .send (some p) ∧ StartsTd p.data ∧ p.data.length < 2 ^ 63) ∨ a = .get) :
    ∃ d, session s env c l = some (d, l.map refused) := by
  have key : ∀ (l : List Call) (c : Dec κ), Stuck s env c → (∀ a ∈ l, (∃ p, a = .send (some p) ∧ StartsTd p.data ∧ p.data.length < 2 ^ 63) ∨ a = .get) →
      ∃ d, session s env c l = some (d, l.map refused) := by
    intro l
    induction l with
    | nil => intro c _ _; exact ⟨c, rfl⟩
    | cons a l ih =>
      intro c h hl
      rcases hl a (by simp) with ⟨p, rfl, ⟨o, rest, x1, x2⟩, x3⟩ | rfl
      · obtain ⟨d, e, hd⟩ := h.send x1 x2 x3
        obtain ⟨f, e2⟩ := ih d hd (fun a ha => hl a (by simp [ha]))
        exact ⟨f, by simp only [session, e, e2, Option.map_some]; rfl⟩
      · obtain ⟨d, e, hd⟩ := h.get h1
        obtain ⟨f, e2⟩ := ih d hd (fun a ha => hl a (by simp [ha]))
        exact ⟨f, by simp only [session, e, e2, Option.map_some]; rfl⟩
  exact key l c ⟨hc.inv, half_of_reachable h1 hc, hh, hn.1, hn.2.1, hn.2.2⟩ hl

/-- The stream for it: show_existing_frame of an empty slot, then correct temporal units with key frames. -/
example : run {} [send 0 (tdObu ++ seqObu ++ showObu 3), .errorProps, .get, send 1 (streamKey 1), .get, send 2 (streamKey 2), .get] =
    some [.sent (some .EINVAL) true, .props (some 0), .err .EAGAIN, .sent (some .EINVAL) true, .err .EAGAIN, .sent (some .EINVAL) true, .err .EAGAIN] ∧
    run {} [send 1 (streamKey 1), .get, send 2 (streamKey 2), .get] = some [.sent none false, .pic 1, .sent none false, .pic 2] := by
  constructor <;> decide +kernel
-- its hypotheses
example : ∃ c, Reachable {} demoEnv c ∧ (∃ i x n, c.frameHdr = some (.showExisting i x n)) ∧ c.input = none ∧ c.out = none ∧ c.cache = none := by
  have h : (match session {} demoEnv Dec.init [send 0 (tdObu ++ seqObu ++ showObu 3)] with
    | some (c, _) => (match c.frameHdr with | some (.showExisting _ _ _) => true | _ => false) && c.input.isNone && c.out.isNone && c.cache.isNone
    | none => false) = true := by decide +kernel
  generalize hx : session {} demoEnv Dec.init [send 0 (tdObu ++ seqObu ++ showObu 3)] = x at h
  cases x with
  | none => cases h
  | some x =>
    obtain ⟨c, r⟩ := x
    simp only [Bool.and_eq_true, Option.isNone_iff_eq_none] at h
    refine ⟨c, ⟨_, _, hx⟩, ?_, h.1.1.2, h.1.2, h.2⟩
    have := h.1.1.1
    split at this
    · rename_i i x n e; exact ⟨i, x, n, e⟩
    · cases this

/-- ITU-T T.35 metadata with country code 0xB5 and the payload 1 2 3. -/
def t35Obu : List UInt8 := obu 5 [4, 0xB5, 1, 2, 3, 0x80]
/-- Content light level metadata. -/
def cllObu : List UInt8 := obu 5 [1, 0, 10, 0, 5, 0x80]
/-- The metadata of the pictures of a session. -/
def infos (l : List Call) : Option (List (Bool × Bool)) :=
  (session {} demoEnv Dec.init l).map (fun x => x.2.filterMap (fun | .got (.ok p) => some (p.info.t35 ≠ [], p.info.cll.isSome) | _ => none))

/-- C28 is false of the code: the T.35 metadata of a rejected packet goes with the next picture. -/
theorem C28_metadata_kept :
    run {} [send 0 (tdObu ++ seqObu ++ t35Obu ++ frameObu (interBits 1 1 true) [5]), .errorProps, send 1 (streamKey 1), .get] =
      some [.sent (some .EINVAL) true, .props (some 0), .sent none false, .pic 1] ∧
    infos [send 0 (tdObu ++ seqObu ++ t35Obu ++ frameObu (interBits 1 1 true) [5]), .errorProps, send 1 (streamKey 1), .get] = some [(true, false)] ∧
    infos [send 1 (streamKey 1), .get] = some [(false, false)] := by
  refine ⟨?_, ?_, ?_⟩ <;> decide +kernel

/-- C28 is false of the code: content light levels of a rejected packet stay as long as the sequence header is the
same. -/
theorem C28_hdr10_kept :
    run {} [send 0 (tdObu ++ seqObu ++ cllObu ++ frameObu (interBits 1 1 true) [5]), .errorProps, send 1 (streamKey 1), .get] =
      some [.sent (some .EINVAL) true, .props (some 0), .sent none false, .pic 1] ∧
    infos [send 0 (tdObu ++ seqObu ++ cllObu ++ frameObu (interBits 1 1 true) [5]), .errorProps, send 1 (streamKey 1), .get] = some [(false, true)] ∧
    infos [send 1 (streamKey 1), .get] = some [(false, false)] := by
  refine ⟨?_, ?_, ?_⟩ <;> decide +kernel

/-! ## The hypotheses can be met -/

example : KeyBlind demoEnv := fun _ _ _ => rfl

/-- The packet. -/
example : ∃ q, Begins {} (streamKey 1) q (frameObu demoKeyBits [1, 8]) ∧ HasKeyFrame UInt8 {} q (frameObu demoKeyBits [1, 8]) 7 := by
  refine ⟨((parseSeqHdr false).run.run (BitSt.init (toBytes (demoSeqBits ++ [true])))).1.get (by decide +kernel), ?_, ?_⟩
  · exact ⟨⟨2, []⟩, seqObu ++ frameObu demoKeyBits [1, 8], ⟨1, toBytes (demoSeqBits ++ [true])⟩, by decide +kernel, rfl, by decide +kernel,
      by decide +kernel, rfl, by decide +kernel, by simp⟩
  · generalize hq : ((parseSeqHdr false).run.run (BitSt.init (toBytes (demoSeqBits ++ [true])))).1.get (by decide +kernel) = q
    have h : (match ((parseSeqHdr false).run.run (BitSt.init (toBytes (demoSeqBits ++ [true])))).1 with
      | some q => (match ((obuCase {} (activateSeq {} (Dec.init : Dec UInt8) q) 6 0 0 7).run (BitSt.init (toBytes ([false] ++ demoKeyBits) ++ [0] ++ [1, 8]))).1 with
        | some (d, none) => (match d.frameHdr with
          | some (.frame h) => decide (h.base.frameType = 0 ∧ h.base.showFrame = true ∧ d.nTiles = h.tiling.cols * h.tiling.rows ∧
              dropObu (chosenIdc {} q) (obuHdrOf (frameObu demoKeyBits [1, 8])) = false)
          | _ => false)
        | _ => false)
      | none => false) = true := by decide +kernel
    have hq2 : ((parseSeqHdr false).run.run (BitSt.init (toBytes (demoSeqBits ++ [true])))).1 = some q := by rw [← hq]; simp
    rw [hq2] at h
    dsimp only at h
    generalize hx : ((obuCase {} (activateSeq {} (Dec.init : Dec UInt8) q) 6 0 0 7).run (BitSt.init (toBytes ([false] ++ demoKeyBits) ++ [0] ++ [1, 8]))).1 = x at h
    split at h
    · split at h
      · rename_i d _ h' he
        simp only [decide_eq_true_eq] at h
        have e1 : (obuHdrOf (frameObu demoKeyBits [1, 8])).temporalId = 0 ∧ (obuHdrOf (frameObu demoKeyBits [1, 8])).spatialId = 0 := by decide +kernel
        refine ⟨⟨6, toBytes ([false] ++ demoKeyBits) ++ [0] ++ [1, 8]⟩, [], h', d, by decide +kernel, rfl, by decide +kernel, h.2.2.2, ?_, he, h.1, h.2.1, h.2.2.1⟩
        rw [e1.1, e1.2]
        exact hx
      · cases h
    · cases h

/-- Half a frame, an error, and the next temporal unit: the answers of a new decoder. -/
example : run {} [send 0 (tdObu ++ seqObu ++ hdrObu keyBits6 ++ groupObu 3 0 2 [1, 9, 1, 9, 9]), send 1 (streamInter 1 3), .errorProps, send 2 (streamKey 5), .get, send 3 (streamInter 1 6), .get] =
    some [.sent none false, .sent (some .EINVAL) true, .props (some 1), .sent none false, .pic 5, .sent none false, .pic 6] ∧
    run {} [send 2 (streamKey 5), .get, send 3 (streamInter 1 6), .get] = some [.sent none false, .pic 5, .sent none false, .pic 6] := by
  constructor <;> decide +kernel

end Dav1d.Recover
