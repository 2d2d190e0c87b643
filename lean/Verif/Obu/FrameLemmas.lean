import Verif.Obu.FrameSpec
import Verif.Obu.TileLemmas
import Verif.Obu.RefLemmas
import Verif.Obu.SeqParseLemmas
/-!
# Every accepted header is in range and every read is legal
-/
namespace Dav1d
open HProg

/-! ## Sequence header facts -/

/-- Facts about the sequence header used by the frame header parser. -/
structure SeqOk (q : SeqHdr) : Prop where
  wb : 1 ≤ q.widthNBits ∧ q.widthNBits ≤ 16
  hb : 1 ≤ q.heightNBits ∧ q.heightNBits ≤ 16
  w : 1 ≤ q.maxWidth ∧ q.maxWidth ≤ 65536
  h : 1 ≤ q.maxHeight ∧ q.maxHeight ≤ 65536
  ids : q.frameIdNumbersPresent = true → 1 ≤ q.deltaFrameIdNBits ∧ q.deltaFrameIdNBits < q.frameIdNBits ∧
    q.frameIdNBits ≤ 25
  oh : q.tools.orderHint = true → 1 ≤ q.tools.orderHintNBits ∧ q.tools.orderHintNBits ≤ 8
  dm : q.timing.decoderModelInfoPresent = true → 1 ≤ q.timing.bufferRemovalDelayLength ∧
    q.timing.bufferRemovalDelayLength ≤ 32 ∧ 1 ≤ q.timing.framePresentationDelayLength ∧
    q.timing.framePresentationDelayLength ≤ 32

/-- Timing facts needed later. -/
def TimingOk (t : SeqTiming) : Prop :=
  t.decoderModelInfoPresent = true → 1 ≤ t.bufferRemovalDelayLength ∧
    t.bufferRemovalDelayLength ≤ 32 ∧ 1 ≤ t.framePresentationDelayLength ∧ t.framePresentationDelayLength ≤ 32

theorem post_and {α : Type} {p : HProg α} {P Q : α → Prop} (h1 : Post p P) (h2 : Post p Q) :
    Post p (fun a => P a ∧ Q a) := by
  unfold HProg.Post at *
  have key : ∀ (r : Prog (Option α)), Prog.WFP r (fun o => ∀ a, o = some a → P a) →
      Prog.WFP r (fun o => ∀ a, o = some a → Q a) → Prog.WFP r (fun o => ∀ a, o = some a → P a ∧ Q a) := by
    intro r
    induction r with
    | ret a => exact fun h1 h2 b hb => ⟨h1 b hb, h2 b hb⟩
    | bit k ih => exact fun h1 h2 v hv => ih v (h1 v hv) (h2 v hv)
    | bits n k ih => exact fun h1 h2 => ⟨h1.1, h1.2.1, fun v hv => ih v (h1.2.2 v hv) (h2.2.2 v hv)⟩
    | sbits n k ih => exact fun h1 h2 => ⟨h1.1, h1.2.1, fun v a b => ih v (h1.2.2 v a b) (h2.2.2 v a b)⟩
    | align k ih => exact fun h1 h2 => ih h1 h2
    | err k ih => exact fun h1 h2 v => ih v (h1 v) (h2 v)
    | setErr k ih => exact fun h1 h2 => ih h1 h2
    | restZero k ih => exact fun h1 h2 v => ih v (h1 v) (h2 v)
    | rest k ih => exact fun h1 h2 v => ih v (h1 v) (h2 v)
  exact key _ h1 h2

theorem post_decModel2 (strict : Bool) (t : SeqTiming) (ht : t.decoderModelInfoPresent = false) :
    Post (parseDecModel strict t) TimingOk := by
  unfold parseDecModel
  refine Post.bind post_flag (fun p _ => Post.ite (fun _ => ?_) (fun _ => Post.pure (fun h => by simp [ht] at h)))
  refine Post.bind (Legal.f (by omega) (by omega)) (fun n _ => ?_)
  refine Post.bind (Legal.f (by omega) (by omega)) (fun u _ => ?_)
  refine Post.bind Legal.reject (fun _ _ => ?_)
  refine Post.bind (post_f (by omega) (by omega)) (fun b hb => ?_)
  refine Post.bind (post_f (by omega) (by omega)) (fun p hp => ?_)
  exact Post.pure (fun _ => by simp only; omega)

theorem post_timing2 (strict : Bool) : Post (parseTiming strict) TimingOk := by
  unfold parseTiming
  refine Post.bind post_flag (fun p _ => Post.ite (fun _ => ?_) (fun _ => Post.pure (fun h => by simp at h)))
  refine Post.bind (Legal.f (by omega) (by omega)) (fun u _ => ?_)
  refine Post.bind (Legal.f (by omega) (by omega)) (fun ts _ => ?_)
  refine Post.bind Legal.reject (fun _ _ => ?_)
  refine Post.bind post_flag (fun e _ => Post.ite (fun _ => ?_) (fun _ => post_decModel2 _ _ rfl))
  refine Post.bind (Post.rd Prog.wf_getVlc.wfp) (fun n _ => ?_)
  refine Post.bind Legal.reject (fun _ _ => ?_)
  exact post_decModel2 _ _ rfl

theorem post_seqOps2 (strict r : Bool) : Post (parseSeqOps strict r) (fun x => TimingOk x.1) := by
  unfold parseSeqOps
  refine Post.ite (fun _ => ?_) (fun _ => ?_)
  · refine Post.bind (Legal.f (by omega) (by omega)) (fun _ _ => ?_)
    refine Post.bind (Legal.f (by omega) (by omega)) (fun _ _ => Post.pure (fun h => by simp at h))
  refine Post.bind (post_and (legal_timing strict) (post_timing2 strict)) (fun t ht => ?_)
  refine Post.bind post_flag (fun d _ => ?_)
  refine Post.bind (Legal.f (by omega) (by omega)) (fun n _ => ?_)
  exact Post.bind (legal_ops t d ht.1 _) (fun _ _ => Post.pure ht.2)

theorem post_frameIds2 (r : Bool) : Post (parseFrameIds r) (fun x => x.1 = true → 1 ≤ x.2.1 ∧ x.2.1 < x.2.2 ∧ x.2.2 ≤ 25) := by
  unfold parseFrameIds
  refine Post.ite (fun _ => Post.pure (by simp)) (fun _ => ?_)
  refine Post.bind post_flag (fun p _ => Post.ite (fun _ => ?_) (fun _ => Post.pure (by simp)))
  refine Post.bind (post_f (by omega) (by omega)) (fun d hd => ?_)
  refine Post.bind (post_f (by omega) (by omega)) (fun n hn => Post.pure (fun _ => by simp only; omega))

theorem post_finishTools (t : SeqTools) (Q : SeqTools → Prop) (h : ∀ a b c, Q { t with superRes := a, cdef := b, restoration := c }) :
    Post (finishTools t) Q := by
  unfold finishTools
  exact Post.bind post_flag (fun _ _ => Post.bind post_flag (fun _ _ => Post.bind post_flag (fun _ _ => Post.pure (h _ _ _))))

theorem post_tools2 (r : Bool) : Post (parseTools r) (fun t => t.orderHint = true → 1 ≤ t.orderHintNBits ∧ t.orderHintNBits ≤ 8) := by
  unfold parseTools
  refine Post.bind post_flag (fun _ _ => Post.bind post_flag (fun _ _ => Post.bind post_flag (fun _ _ => ?_)))
  refine Post.ite (fun _ => post_finishTools _ _ (fun _ _ _ h => by simp at h)) (fun _ => ?_)
  refine Post.bind post_flag (fun _ _ => Post.bind post_flag (fun _ _ => Post.bind post_flag (fun _ _ => ?_)))
  refine Post.bind post_flag (fun _ _ => Post.bind post_flag (fun oh _ => ?_))
  refine Post.bind (Legal.opt post_flag) (fun _ _ => Post.bind (Legal.opt post_flag) (fun _ _ => ?_))
  refine Post.bind post_flag (fun _ _ => Post.bind (Legal.opt Legal.bit) (fun sct _ => ?_))
  refine Post.bind (Legal.opt (Legal.bind post_flag (fun _ => Legal.opt Legal.bit))) (fun _ _ => ?_)
  refine Post.bind (P := fun nb => oh = true → 1 ≤ nb ∧ nb ≤ 8) (Post.opt (fun _ => ?_) (fun h h' => absurd h' h)) (fun nb hnb => ?_)
  · exact Post.bind (post_f (by omega) (by omega)) (fun n hn => Post.pure (fun _ => by omega))
  · exact post_finishTools _ _ (fun _ _ _ h => hnb h)

theorem post_seqBody2 (strict : Bool) : Post (parseSeqBody strict) SeqOk := by
  unfold parseSeqBody
  refine Post.bind (Legal.f (by omega) (by omega)) (fun p _ => ?_)
  refine Post.bind Legal.reject (fun _ _ => ?_)
  refine Post.bind post_flag (fun _ _ => ?_)
  refine Post.bind post_flag (fun r _ => ?_)
  refine Post.bind Legal.reject (fun _ _ => ?_)
  refine Post.bind (post_seqOps2 strict r) (fun ops hops => ?_)
  obtain ⟨t, d, ops⟩ := ops
  dsimp only at hops ⊢
  refine Post.bind (post_f (by omega) (by omega)) (fun wb hwb => ?_)
  refine Post.bind (post_f (by omega) (by omega)) (fun hb hhb => ?_)
  refine Post.bind (post_f (by omega) (by omega)) (fun w hw => ?_)
  refine Post.bind (post_f (by omega) (by omega)) (fun h hh => ?_)
  refine Post.bind (post_frameIds2 r) (fun ids hids => ?_)
  obtain ⟨a, b, c⟩ := ids
  dsimp only at hids ⊢
  refine Post.bind (post_tools2 r) (fun tools ht => ?_)
  refine Post.bind (legal_color strict p) (fun col _ => ?_)
  refine Post.bind post_flag (fun fg _ => ?_)
  have e1 : 2 ^ (wb + 1) ≤ 2 ^ 16 := Nat.pow_le_pow_right (by omega) (by omega)
  have e2 : 2 ^ (hb + 1) ≤ 2 ^ 16 := Nat.pow_le_pow_right (by omega) (by omega)
  exact Post.pure ⟨by simp only; omega, by simp only; omega, by simp only; omega, by simp only; omega, hids, ht, hops⟩

theorem SeqAccepted.ok {q : SeqHdr} (h : SeqAccepted q) : SeqOk q := by
  obtain ⟨strict, s, s', h⟩ := h
  have hp : Post (parseSeqHdr strict) SeqOk := by
    unfold parseSeqHdr
    refine Post.bind (post_seqBody2 strict) (fun q hq => ?_)
    refine Post.bind (P := fun _ => True) ?_ (fun _ _ => Post.pure hq)
    unfold checkTrailingBits
    refine Post.bind post_flag (fun _ _ => ?_)
    refine Post.bind (Post.rd (Q := fun _ => True) (fun _ => trivial)) (fun _ _ => ?_)
    refine Post.bind Legal.reject (fun _ _ => Post.ite (fun _ => ?_) (fun _ => Post.pure trivial))
    exact Post.bind (Post.rd (Q := fun _ => True) (fun _ => trivial)) (fun _ _ => Legal.reject)
  exact hp.exec h

/-! ## Frame size -/

theorem post_superRes {seq : SeqHdr} {w : Nat} (hw : 1 ≤ w) : Post (readSuperRes seq w) (fun r =>
    (8 ≤ r.2.1 ∧ r.2.1 ≤ 16) ∧ min 16 w ≤ r.2.2 ∧ r.2.2 ≤ w) := by
  unfold readSuperRes
  refine Post.bind (Legal.opt post_flag) (fun e _ => Post.ite (fun _ => ?_) (fun _ => Post.pure ⟨by simp only; omega, by simp only; omega, le_refl _⟩))
  refine Post.bind (post_f (by omega) (by omega)) (fun d hd => Post.pure ⟨by simp only; omega, by simp only; omega, ?_⟩)
  have : (w * 8 + (9 + d) / 2) / (9 + d) ≤ w := by
    rw [← Nat.lt_succ_iff, Nat.div_lt_iff_lt_mul (by omega)]
    have : w * (9 + d) ≥ w * 8 := Nat.mul_le_mul_left _ (by omega)
    rw [Nat.succ_mul]; omega
  simp only; omega

theorem post_sizeRefs {c : FhCtx} (hr : ∀ i h, c.refs i = some h → SizeOk h.refs.size) : ∀ l,
    Post (readFrameSizeRefs c l) (fun o => ∀ z, o = some z → SizeOk z)
  | [] => Post.pure (fun z h => by cases h)
  | r :: l => by
    unfold readFrameSizeRefs
    refine Post.bind post_flag (fun f _ => Post.ite (fun _ => ?_) (fun _ => post_sizeRefs hr l))
    split
    · exact Post.fail
    · rename_i h he
      have hz := hr r h he
      refine Post.bind (post_superRes hz.width.1) (fun x hx => ?_)
      obtain ⟨a, b, w0⟩ := x
      refine Post.pure (fun z hz' => ?_)
      cases hz'
      exact ⟨hz.width, hz.height, hx.2, hz.render, hx.1⟩

theorem post_sizeExplicit {c : FhCtx} (hq : SeqOk c.seq) (o : Bool) : Post (readFrameSizeExplicit c o) SizeOk := by
  unfold readFrameSizeExplicit
  have e1 : 2 ^ c.seq.widthNBits ≤ 2 ^ 16 := Nat.pow_le_pow_right (by omega) hq.wb.2
  have e2 : 2 ^ c.seq.heightNBits ≤ 2 ^ 16 := Nat.pow_le_pow_right (by omega) hq.hb.2
  refine Post.bind (P := fun w => 1 ≤ w ∧ w ≤ 65536) (Post.opt (fun _ => ?_) (fun _ => hq.w)) (fun w hw => ?_)
  · exact Post.bind (post_f (by have := hq.wb; omega) (by have := hq.wb; omega)) (fun w hw => Post.pure (by omega))
  refine Post.bind (P := fun w => 1 ≤ w ∧ w ≤ 65536) (Post.opt (fun _ => ?_) (fun _ => hq.h)) (fun h hh => ?_)
  · exact Post.bind (post_f (by have := hq.hb; omega) (by have := hq.hb; omega)) (fun w hw => Post.pure (by omega))
  refine Post.bind (post_superRes hw.1) (fun x hx => ?_)
  obtain ⟨a, b, w0⟩ := x
  refine Post.bind post_flag (fun have_ _ => ?_)
  refine Post.bind (P := fun w => 1 ≤ w ∧ w ≤ 65536) (Post.opt (fun _ => ?_) (fun _ => hw)) (fun rw hrw => ?_)
  · exact Post.bind (post_f (by omega) (by omega)) (fun w hw => Post.pure (by omega))
  refine Post.bind (P := fun w => 1 ≤ w ∧ w ≤ 65536) (Post.opt (fun _ => ?_) (fun _ => hh)) (fun rh hrh => ?_)
  · exact Post.bind (post_f (by omega) (by omega)) (fun w hw => Post.pure (by omega))
  exact Post.pure ⟨hw, hh, hx.2, ⟨hrw.1, hrw.2, hrh.1, hrh.2⟩, hx.1⟩

theorem post_frameSize {c : FhCtx} (hq : SeqOk c.seq) (hr : ∀ i h, c.refs i = some h → SizeOk h.refs.size)
    (o u : Bool) (l : List Nat) : Post (readFrameSize c o u l) SizeOk := by
  unfold readFrameSize
  refine Post.bind (Post.opt (fun _ => post_sizeRefs hr l) (fun _ z h => by cases h)) (fun x hx => ?_)
  cases x with
  | none => exact post_sizeExplicit hq o
  | some z => exact Post.pure (hx z rfl)

end Dav1d
