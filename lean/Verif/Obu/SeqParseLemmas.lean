import Verif.Obu.SeqParseSpec
import Verif.Obu.SeqLemmas
/-!
# The sequence header walk agrees with its byte-level description
-/
namespace Dav1d
open HProg

/-! ## The bit programs are legal and local -/

theorem Prog.local_vlcLoop (n : Nat) : ∀ nb, 32 - nb = n → (Prog.vlcLoop nb).Local := by
  induction n using Nat.strong_induction_on with
  | _ n ih =>
    intro nb hn
    unfold Prog.vlcLoop
    split
    · trivial
    · rename_i h
      intro v
      show Prog.Local (if _ then _ else _)
      split
      · exact ih (32 - (nb + 1)) (by omega) (nb + 1) rfl
      · exact fun _ => trivial

theorem Prog.local_getVlc : Prog.getVlc.Local := by
  unfold Prog.getVlc
  refine Prog.Local.bind (fun _ => trivial) (fun b => ?_)
  split
  · trivial
  · exact Prog.local_vlcLoop _ 0 rfl

theorem loc_decModel (strict : Bool) (t : SeqTiming) : Loc (parseDecModel strict t) := by
  unfold parseDecModel; hloc

theorem loc_timing (strict : Bool) : Loc (parseTiming strict) := by
  have h := loc_decModel strict
  have hv := Loc.rd Prog.local_getVlc
  unfold parseTiming
  hloc
  all_goals exact h _

theorem loc_op (t : SeqTiming) (d : Bool) : Loc (parseOp t d) := by
  unfold parseOp parseOpInfo; hloc

theorem loc_ops (t : SeqTiming) (d : Bool) : ∀ n, Loc (parseOps t d n)
  | 0 => Loc.pure
  | n + 1 => by
    have h1 := loc_op t d
    have h2 := loc_ops t d n
    unfold parseOps; hloc

theorem loc_finishTools (t : SeqTools) : Loc (finishTools t) := by unfold finishTools; hloc

theorem loc_tools (r : Bool) : Loc (parseTools r) := by
  have h := loc_finishTools
  unfold parseTools
  hloc
  all_goals exact h _

theorem loc_color (strict : Bool) (p : Nat) : Loc (parseColor strict p) := by
  unfold parseColor parseSubsampling; hloc

theorem loc_seqOps (strict r : Bool) : Loc (parseSeqOps strict r) := by
  have h1 := loc_timing strict
  have h2 := loc_ops
  unfold parseSeqOps
  hloc
  all_goals exact h2 _ _ _

theorem loc_body (strict : Bool) : Loc (parseSeqBody strict) := by
  have h1 := loc_seqOps strict
  have h2 := loc_tools
  have h3 := loc_color strict
  unfold parseSeqBody parseFrameIds
  hloc
  all_goals first | exact h1 _ | exact h2 _ | exact h3 _

theorem loc_seqHdr : Loc (parseSeqHdr false) := by
  have h1 := loc_body false
  unfold parseSeqHdr checkTrailingBits
  simp only [Bool.false_eq_true, if_false]
  have h2 : Loc (rd Prog.getErr) := Loc.rd (fun _ => trivial)
  hloc

theorem legal_decModel (strict : Bool) (t : SeqTiming) (ht : t.encoderDecoderBufferDelayLength ≤ 32) (h2 : t.decoderModelInfoPresent = false) :
    Post (parseDecModel strict t) (fun t => t.encoderDecoderBufferDelayLength ≤ 32 ∧
      (t.decoderModelInfoPresent = true → 0 < t.encoderDecoderBufferDelayLength)) := by
  unfold parseDecModel
  refine Post.bind post_flag (fun p _ => Post.ite (fun _ => ?_) (fun _ => Post.pure ⟨ht, by simp [h2]⟩))
  refine Post.bind (post_f (by omega) (by omega)) (fun n hn => ?_)
  refine Post.bind (Legal.f (by omega) (by omega)) (fun u _ => ?_)
  refine Post.bind Legal.reject (fun _ _ => ?_)
  refine Post.bind (Legal.f (by omega) (by omega)) (fun b _ => ?_)
  refine Post.bind (Legal.f (by omega) (by omega)) (fun p _ => ?_)
  exact Post.pure ⟨by show n + 1 ≤ 32; omega, fun _ => Nat.succ_pos _⟩

theorem legal_timing (strict : Bool) :
    Post (parseTiming strict) (fun t => t.encoderDecoderBufferDelayLength ≤ 32 ∧
      (t.decoderModelInfoPresent = true → 0 < t.encoderDecoderBufferDelayLength)) := by
  unfold parseTiming
  refine Post.bind post_flag (fun p _ => Post.ite (fun _ => ?_) (fun _ => Post.pure ⟨by simp, by simp⟩))
  refine Post.bind (Legal.f (by omega) (by omega)) (fun u _ => ?_)
  refine Post.bind (Legal.f (by omega) (by omega)) (fun ts _ => ?_)
  refine Post.bind Legal.reject (fun _ _ => ?_)
  refine Post.bind post_flag (fun e _ => Post.ite (fun _ => ?_) (fun _ => legal_decModel _ _ (by simp) rfl))
  refine Post.bind (Post.rd Prog.wf_getVlc.wfp) (fun n _ => ?_)
  refine Post.bind Legal.reject (fun _ _ => ?_)
  exact legal_decModel _ _ (by simp) rfl

theorem legal_op (t : SeqTiming) (d : Bool) (h : t.encoderDecoderBufferDelayLength ≤ 32 ∧
    (t.decoderModelInfoPresent = true → 0 < t.encoderDecoderBufferDelayLength)) : Legal (parseOp t d) := by
  have h1 : Legal (parseOpInfo t) := by
    unfold parseOpInfo
    refine Post.ite (fun hp => ?_) (fun _ => Legal.pure)
    have := h.2 hp
    have := h.1
    hlegal
  unfold parseOp
  hlegal

theorem legal_ops (t : SeqTiming) (d : Bool) (h : t.encoderDecoderBufferDelayLength ≤ 32 ∧
    (t.decoderModelInfoPresent = true → 0 < t.encoderDecoderBufferDelayLength)) :
    ∀ n, Post (parseOps t d n) (fun l => l.length = n)
  | 0 => Post.pure rfl
  | n + 1 => by
    unfold parseOps
    refine Post.bind (legal_op t d h) (fun o _ => Post.bind (legal_ops t d h n) (fun os hos => Post.pure ?_))
    simp [hos]

theorem legal_tools (r : Bool) : Legal (parseTools r) := by
  unfold parseTools finishTools; hlegal

theorem legal_color (strict : Bool) (p : Nat) : Legal (parseColor strict p) := by
  unfold parseColor parseSubsampling; hlegal

theorem legal_seqOps (strict r : Bool) : Legal (parseSeqOps strict r) := by
  unfold parseSeqOps
  refine Post.ite (fun _ => by hlegal) (fun _ => ?_)
  refine Post.bind (legal_timing strict) (fun t ht => ?_)
  refine Post.bind post_flag (fun d _ => ?_)
  refine Post.bind (Legal.f (by omega) (by omega)) (fun n _ => ?_)
  exact Post.bind (legal_ops t d ht _) (fun _ _ => Legal.pure)

theorem legal_frameIds (r : Bool) : Legal (parseFrameIds r) := by unfold parseFrameIds; hlegal

theorem legal_body (strict : Bool) : Legal (parseSeqBody strict) := by
  unfold parseSeqBody
  refine Post.bind (Legal.f (by omega) (by omega)) (fun p _ => ?_)
  refine Post.bind Legal.reject (fun _ _ => ?_)
  refine Post.bind post_flag (fun _ _ => ?_)
  refine Post.bind post_flag (fun _ _ => ?_)
  refine Post.bind Legal.reject (fun _ _ => ?_)
  refine Post.bind (legal_seqOps _ _) (fun _ _ => ?_)
  refine Post.bind (post_f (by omega) (by omega)) (fun wb hwb => ?_)
  refine Post.bind (post_f (by omega) (by omega)) (fun hb hhb => ?_)
  refine Post.bind (Legal.f (by omega) (by omega)) (fun w _ => ?_)
  refine Post.bind (Legal.f (by omega) (by omega)) (fun h _ => ?_)
  refine Post.bind (legal_frameIds _) (fun _ _ => ?_)
  refine Post.bind (legal_tools _) (fun _ _ => ?_)
  refine Post.bind (legal_color _ _) (fun _ _ => ?_)
  exact Post.bind post_flag (fun _ _ => Legal.pure)

theorem legal_seqHdr (strict : Bool) : Legal (parseSeqHdr strict) := by
  unfold parseSeqHdr
  refine Post.bind (legal_body strict) (fun h _ => Legal.bind ?_ (fun _ => Legal.pure))
  unfold checkTrailingBits
  refine Post.bind post_flag (fun one _ => Post.bind (Post.rd (Q := fun _ => True) (fun _ => trivial)) (fun e _ =>
    Post.bind Legal.reject (fun _ _ => Post.ite (fun _ => ?_) (fun _ => Legal.pure))))
  exact Post.bind (Post.rd (Q := fun _ => True) (fun _ => trivial)) (fun e _ => Legal.reject)

/-! ## leb128 -/

theorem lebSplit_spec {n : Nat} : ∀ {d : List UInt8} {v r}, lebSplit n d = some (v, r) →
    ∃ k, 1 ≤ k ∧ k ≤ n ∧ v < 2 ^ (7 * k) ∧ d = lebBytes k v ++ r := by
  induction n with
  | zero => intro d v r h; simp [lebSplit] at h
  | succ n ih =>
    intro d v r h
    cases d with
    | nil => simp [lebSplit] at h
    | cons b d =>
      unfold lebSplit at h
      split at h
      · simp only [Option.some.injEq, Prod.mk.injEq] at h
        obtain ⟨rfl, rfl⟩ := h
        refine ⟨1, by omega, by omega, by simpa using by assumption, ?_⟩
        simp only [lebBytes, List.cons_append, List.nil_append, List.cons.injEq, and_true]
        rw [Nat.mod_eq_of_lt (by assumption)]
        simp
      · rename_i hb
        rw [Option.map_eq_some_iff] at h
        obtain ⟨⟨v', r'⟩, h1, h2⟩ := h
        simp only [Prod.mk.injEq] at h2
        obtain ⟨h2, rfl⟩ := h2
        obtain ⟨k, hk1, hkn, hv, rfl⟩ := ih h1
        have hb2 := b.toNat_lt
        refine ⟨k + 1, by omega, by omega, ?_, ?_⟩
        · rw [show 7 * (k + 1) = 7 + 7 * k by ring, Nat.pow_add]; omega
        · obtain ⟨j, rfl⟩ : ∃ j, k = j + 1 := ⟨k - 1, by omega⟩
          have e1 : v / 128 = v' := by omega
          have e2 : 128 + v % 128 = b.toNat := by omega
          conv_rhs => rw [lebBytes]
          simp only [e1, List.cons_append, List.cons.injEq, and_true]
          rw [e2]
          simp

theorem lebSplit_complete {n : Nat} : ∀ {k v : Nat} {r : List UInt8}, 1 ≤ k → k ≤ n → v < 2 ^ (7 * k) →
    lebSplit n (lebBytes k v ++ r) = some (v, r) := by
  induction n with
  | zero => intro k v r h1 h2; omega
  | succ n ih =>
    intro k v r h1 h2 hv
    obtain ⟨j, rfl⟩ : ∃ j, k = j + 1 := ⟨k - 1, by omega⟩
    cases j with
    | zero =>
      simp only [lebBytes, List.cons_append, List.nil_append, lebSplit]
      have : v < 128 := by simpa using hv
      rw [if_pos (by simp; omega)]
      simp; omega
    | succ j =>
      rw [lebBytes]
      simp only [List.cons_append, lebSplit]
      have e : (UInt8.ofNat (128 + v % 128)).toNat = 128 + v % 128 := by simp; omega
      rw [e, if_neg (by omega), ih (by omega) (by omega) ?_]
      · simp; omega
      · rw [show 7 * (j + 1 + 1) = 7 + 7 * (j + 1) by ring, Nat.pow_add] at hv
        omega

/-- Running the leb128 reader at a byte boundary. -/
theorem uleb_run (s : BitSt) (d : List UInt8) (hs : s.rem = bytesBits d) :
    (∃ len r, lebSplit 8 d = some (len, r) ∧ len < 2 ^ 32 ∧ Prog.getUleb128.run s = (len, { s with rem := bytesBits r })) ∨
    ((Prog.getUleb128.run s).2.err = true ∧ (∀ len r, lebSplit 8 d = some (len, r) → 2 ^ 32 ≤ len)) ∨ s.err = true := by
  by_cases he : s.err = true
  · exact Or.inr (Or.inr he)
  rcases h : (lebSplit 8 d).filter (fun p => p.1 < 2 ^ 32) with _ | ⟨len, r⟩
  · right; left
    have hno : ∀ len r, lebSplit 8 d = some (len, r) → 2 ^ 32 ≤ len := by
      intro len r hl
      rw [hl] at h
      simp at h
      exact h
    refine ⟨?_, hno⟩
    by_contra hc
    obtain ⟨k, v, hk1, hk8, hv32, hv, hpre, _⟩ := Prog.getUleb128_sound s d hs (by simpa using hc)
    obtain ⟨r, rfl⟩ := hpre
    have := hno v r (lebSplit_complete hk1 hk8 hv)
    omega
  · left
    rw [Option.filter_eq_some_iff] at h
    obtain ⟨h1, h2⟩ := h
    obtain ⟨k, hk1, hk8, hv, hd⟩ := lebSplit_spec h1
    have h2 : len < 2 ^ 32 := by simpa using h2
    refine ⟨len, r, h1, h2, ?_⟩
    exact Prog.reads_getUleb128 hk1 hk8 hv h2 s (bytesBits r) (by rw [hs, hd, bytesBits_append])

end Dav1d
