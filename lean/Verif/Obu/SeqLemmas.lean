import Verif.Obu.SeqSpec
/-! # Sequence header: the parser inverts the writer -/
namespace Dav1d
open HProg

theorem HProg.Reads.cast {α : Type} {p : HProg α} {a a' : α} {w w'} (h : Reads p a w) (ea : a = a') (e : w = w') :
    Reads p a' w' := by subst e; subst ea; exact h

theorem HProg.Reads.ite {α : Type} {c : Prop} [Decidable c] {p q : HProg α} {a : α} {w}
    (h1 : c → Reads p a w) (h2 : ¬ c → Reads q a w) : Reads (if c then p else q) a w := by
  split
  · exact h1 (by assumption)
  · exact h2 (by assumption)

theorem natBits5_split (v : Nat) : natBits 5 v = natBits 3 (v / 4) ++ natBits 2 (v % 4) := by
  have : ∀ v : Nat, natBits 5 v = natBits 3 (v / 2 / 2) ++ natBits 2 v := by intro v; simp [natBits]
  rw [this, Nat.div_div_eq_div_mul]
  congr 1
  simp only [natBits]
  have h1 : v % 4 % 2 = v % 2 := by omega
  have h2 : v % 4 / 2 % 2 = v / 2 % 2 := by omega
  rw [h1, h2]

theorem reads_decModel (strict : Bool) (t : SeqTiming) (d : Option DecModelSyntax)
    (h : ∀ x, d = some x → x.bufferDelayLengthMinus1 < 32 ∧ x.numUnitsInDecodingTick < 2 ^ 32 ∧
      x.bufferRemovalTimeLengthMinus1 < 32 ∧ x.framePresentationTimeLengthMinus1 < 32)
    (hs : strict = true → ∀ x, d = some x → x.numUnitsInDecodingTick ≠ 0)
    (hd : t.decoderModelInfoPresent = false ∧ t.encoderDecoderBufferDelayLength = 0 ∧
      t.numUnitsInDecodingTick = 0 ∧ t.bufferRemovalDelayLength = 0 ∧ t.framePresentationDelayLength = 0) :
    Reads (parseDecModel strict t)
      { t with decoderModelInfoPresent := d.isSome
               encoderDecoderBufferDelayLength := (d.map (·.bufferDelayLengthMinus1 + 1)).getD 0
               numUnitsInDecodingTick := (d.map (·.numUnitsInDecodingTick)).getD 0
               bufferRemovalDelayLength := (d.map (·.bufferRemovalTimeLengthMinus1 + 1)).getD 0
               framePresentationDelayLength := (d.map (·.framePresentationTimeLengthMinus1 + 1)).getD 0 }
      (optBits DecModelSyntax.bits d) := by
  obtain ⟨a, b, c, d1, e, f1, g, h1, i, j⟩ := t
  simp only at hd
  obtain ⟨rfl, rfl, rfl, rfl, rfl⟩ := hd
  unfold parseDecModel
  cases d with
  | none => exact Reads.cast (Reads.bind (reads_flag false) (Reads.pure _)) rfl rfl
  | some d =>
    obtain ⟨h1, h2, h3, h4⟩ := h d rfl
    refine Reads.cast (Reads.bind (reads_flag true) (Reads.bind (reads_f h1) (Reads.bind (reads_f h2)
      (Reads.bind (Reads.reject ?_) (Reads.bind (reads_f h3) (Reads.bind (reads_f h4) (Reads.pure _))))))) rfl ?_
    · rintro ⟨hs1, h0⟩; exact hs hs1 d rfl h0
    · simp [DecModelSyntax.bits, optBits]

theorem reads_timing (strict : Bool) (s : SeqSyntax) (hr : s.reducedStillPictureHeader = false)
    (hv : s.Valid) (hs : strict = true → s.StrictlyValid) :
    Reads (parseTiming strict) s.timingInfo (optBits TimingSyntax.bits s.timing) := by
  unfold parseTiming SeqSyntax.timingInfo
  rw [if_neg (by simp [hr])]
  cases ht : s.timing with
  | none => exact Reads.cast (Reads.bind (reads_flag false) (Reads.pure _)) rfl rfl
  | some t =>
    obtain ⟨h1, h2, h3, h4⟩ := hv.timing t ht
    have hd := fun h => (hs h).ticks t ht
    obtain ⟨u, ts, tk, dm⟩ := t
    simp only at h1 h2 h3 h4 hd
    cases tk with
    | none =>
      refine Reads.cast (Reads.bind (reads_flag true) (Reads.bind (reads_f h1) (Reads.bind (reads_f h2)
        (Reads.bind (Reads.reject ?_) (Reads.bind (reads_flag false)
          (reads_decModel strict _ dm h4 (fun h => (hd h).2.2) ⟨rfl, rfl, rfl, rfl, rfl⟩)))))) rfl ?_
      · rintro ⟨a, b⟩
        have := hd a
        rcases b with b | b
        · exact this.1 b
        · exact this.2.1 b
      · simp [TimingSyntax.bits, optBits]
    | some n =>
      have hn := h3 n rfl
      refine Reads.cast (Reads.bind (reads_flag true) (Reads.bind (reads_f h1) (Reads.bind (reads_f h2)
        (Reads.bind (Reads.reject ?_) (Reads.bind (reads_flag true)
          (Reads.bind (Reads.rd (Prog.reads_getVlc hn)) (Reads.bind (Reads.reject ?_)
          (reads_decModel strict _ dm h4 (fun h => (hd h).2.2) ⟨rfl, rfl, rfl, rfl, rfl⟩)))))))) rfl ?_
      · rintro ⟨a, b⟩
        have := hd a
        rcases b with b | b
        · exact this.1 b
        · exact this.2.1 b
      · omega
      · simp [TimingSyntax.bits, optBits]

theorem idc_check {v : Nat} (h : v < 2 ^ 12) :
    (v ≠ 0 ∧ (v &&& 0xff = 0 ∨ v &&& 0xf00 = 0)) ↔ ¬ (v = 0 ∨ (v % 256 ≠ 0 ∧ v / 256 ≠ 0)) := by
  have e1 : v &&& 0xff = v % 256 := Nat.and_two_pow_sub_one_eq_mod v 8
  have e2 : (v &&& 0xf00) / 2 ^ 8 = v / 2 ^ 8 &&& 0xf00 / 2 ^ 8 := Nat.and_div_two_pow
  have e3 : (v &&& 0xf00) % 2 ^ 8 = v % 2 ^ 8 &&& 0xf00 % 2 ^ 8 := Nat.and_mod_two_pow
  have e4 : v / 2 ^ 8 &&& 0xf00 / 2 ^ 8 = v / 2 ^ 8 % 16 := Nat.and_two_pow_sub_one_eq_mod _ 4
  have e5 : v % 2 ^ 8 &&& 0xf00 % 2 ^ 8 = 0 := by
    rw [show (0xf00 % 2 ^ 8 : Nat) = 0 by norm_num, Nat.and_zero]
  rw [e4] at e2
  rw [e5] at e3
  rw [e1]
  generalize v &&& 0xf00 = y at *
  omega

theorem reads_opInfo (s : SeqSyntax) (hr : s.reducedStillPictureHeader = false) (o : OpSyntax)
    (h : ∀ d x y l, s.timing.bind (·.decoderModel) = some d → o.params = some (x, y, l) →
      x < 2 ^ (d.bufferDelayLengthMinus1 + 1) ∧ y < 2 ^ (d.bufferDelayLengthMinus1 + 1)) :
    Reads (parseOpInfo s.timingInfo)
      ((s.timing.bind (·.decoderModel)).isSome && o.params.isSome, o.info (s.timing.bind (·.decoderModel)))
      (o.paramBits (s.timing.bind (·.decoderModel))) := by
  have hti : s.timingInfo = SeqSyntax.timingInfo { s with reducedStillPictureHeader := false } := by
    rw [← hr]
  unfold parseOpInfo OpSyntax.info OpSyntax.paramBits
  unfold SeqSyntax.timingInfo
  simp only [hr, Bool.false_eq_true, if_false]
  cases ht : s.timing with
  | none => exact Reads.pure _
  | some t =>
    rw [ht] at h
    simp only [Option.bind_some] at h ⊢
    obtain ⟨u, ts, tk, dm⟩ := t
    cases dm with
    | none => exact Reads.pure _
    | some d =>
      simp only [Option.isSome_some, if_true] at h ⊢
      rcases hp : o.params with _ | ⟨x, y, l⟩
      · exact Reads.cast (Reads.bind (reads_flag false) (Reads.pure _)) rfl rfl
      · obtain ⟨h1, h2⟩ := h d x y l rfl hp
        refine Reads.cast (Reads.bind (reads_flag true) (Reads.bind (reads_f h1) (Reads.bind (reads_f h2)
          (Reads.bind (reads_flag l) (Reads.pure _))))) rfl ?_
        simp [optBits]

theorem reads_op (s : SeqSyntax) (hr : s.reducedStillPictureHeader = false) (hv : s.Valid) (o : OpSyntax)
    (ho : o ∈ s.ops) :
    Reads (parseOp s.timingInfo s.initialDisplayDelayPresent)
      (o.op (s.timing.bind (·.decoderModel)) s.initialDisplayDelayPresent, o.info (s.timing.bind (·.decoderModel)))
      (o.bits (s.timing.bind (·.decoderModel)) s.initialDisplayDelayPresent) := by
  obtain ⟨h1, h2, h3, h4, h5⟩ := hv.ops o ho
  have hi := reads_opInfo s hr o h4
  unfold parseOp OpSyntax.bits
  rw [natBits5_split]
  -- tier
  have ht : Reads (opt (2 + o.seqLevelIdx / 4 > 3) flag false)
      (decide (o.seqLevelIdx > 7) && o.seqTier) (if o.seqLevelIdx > 7 then [o.seqTier] else []) := by
    by_cases hc : o.seqLevelIdx > 7
    · rw [if_pos hc]; simp only [hc, decide_true, Bool.true_and]
      exact Reads.opt_pos (by omega) (reads_flag _)
    · rw [if_neg hc]; simp only [hc, decide_false, Bool.false_and]
      exact Reads.opt_neg (by omega)
  refine Reads.cast (Reads.bind (reads_f h1) (Reads.bind (Reads.reject ?_) (Reads.bind (reads_f (v := o.seqLevelIdx / 4) (by omega))
    (Reads.bind (reads_f (v := o.seqLevelIdx % 4) (by omega)) (Reads.bind ht (Reads.bind hi
      (b := (o.op (s.timing.bind (·.decoderModel)) s.initialDisplayDelayPresent, o.info (s.timing.bind (·.decoderModel))))
      (w' := (if s.initialDisplayDelayPresent then optBits (natBits 4) o.displayDelayMinus1 else [])) ?_)))))) rfl ?_
  · rw [idc_check h1]; exact not_not.2 h3
  · unfold OpSyntax.op
    cases hd : s.initialDisplayDelayPresent
    · exact Reads.cast (Reads.bind (Reads.opt_neg (by simp)) (Reads.bind (Reads.opt_neg (by simp)) (Reads.pure _))) rfl rfl
    · rcases hp : o.displayDelayMinus1 with _ | n
      · exact Reads.cast (Reads.bind (Reads.opt_pos rfl (reads_flag false)) (Reads.bind (Reads.opt_neg (by simp)) (Reads.pure _))) rfl rfl
      · have := h5 n hp
        exact Reads.cast (Reads.bind (Reads.opt_pos rfl (reads_flag true)) (Reads.bind (Reads.opt_pos rfl (Reads.bind (reads_f this) (Reads.pure _)))
          (Reads.pure _))) rfl (by simp [optBits])
  · simp

theorem reads_ops (s : SeqSyntax) (hr : s.reducedStillPictureHeader = false) (hv : s.Valid) :
    ∀ os : List OpSyntax, (∀ o ∈ os, o ∈ s.ops) →
    Reads (parseOps s.timingInfo s.initialDisplayDelayPresent os.length)
      (os.map (fun o => (o.op (s.timing.bind (·.decoderModel)) s.initialDisplayDelayPresent,
        o.info (s.timing.bind (·.decoderModel)))))
      (os.flatMap (OpSyntax.bits (s.timing.bind (·.decoderModel)) s.initialDisplayDelayPresent)) := by
  intro os
  induction os with
  | nil => intro _; exact Reads.pure _
  | cons o os ih =>
    intro h
    refine Reads.cast (Reads.bind (reads_op s hr hv o (h o (by simp))) (Reads.bind (ih (fun x hx => h x (by simp [hx])))
      (Reads.pure _))) rfl ?_
    simp [List.flatMap_cons]

theorem reads_choose (o : Option Bool) :
    Reads (do let c ← flag; opt (¬ c = true) bit 2 : HProg Nat) (selectVal o) (chooseBits o) := by
  rcases o with _ | b
  · exact Reads.cast (Reads.bind (reads_flag true) (Reads.opt_neg (by simp))) rfl rfl
  · exact Reads.cast (Reads.bind (reads_flag false) (Reads.opt_pos (by simp) (reads_bit b))) rfl rfl

theorem reads_finishTools (t : SeqTools) (a b c : Bool) :
    Reads (finishTools t) { t with superRes := a, cdef := b, restoration := c } [a, b, c] :=
  Reads.cast (Reads.bind (reads_flag a) (Reads.bind (reads_flag b) (Reads.bind (reads_flag c) (Reads.pure _)))) rfl rfl

theorem reads_tools (s : SeqSyntax) (hv : s.Valid) :
    Reads (parseTools s.reducedStillPictureHeader) s.toolInfo s.toolBits := by
  unfold parseTools SeqSyntax.toolInfo SeqSyntax.toolBits
  have hoh : ∀ n, s.orderHint = some n → n.2.2 < 2 ^ 3 := fun ⟨j, m, n⟩ h => hv.orderHint j m n h
  generalize s.orderHint = oh at hoh
  generalize s.forceScreenContent = sc
  cases hr : s.reducedStillPictureHeader
  · simp only [Bool.false_eq_true, if_false]
    have himv : Reads (opt (selectVal sc ≠ 0) (do let c ← flag; opt (¬ c = true) bit 2 : HProg Nat) 2)
        (if selectVal sc > 0 then selectVal s.forceIntegerMv else 2)
        (if selectVal sc > 0 then chooseBits s.forceIntegerMv else []) := by
      by_cases hc : selectVal sc = 0
      · rw [if_neg (by omega), if_neg (by omega)]; exact Reads.opt_neg (by omega)
      · rw [if_pos (by omega), if_pos (by omega)]; exact Reads.opt_pos hc (reads_choose _)
    have hnb : Reads (opt (oh.isSome = true) (do let n ← f 3; pure (n + 1)) 0) ((oh.map (·.2.2 + 1)).getD 0)
        ((oh.map (fun (_, _, n) => natBits 3 n)).getD []) := by
      cases oh with
      | none => exact Reads.opt_neg (by simp)
      | some n => exact Reads.opt_pos rfl (Reads.cast (Reads.bind (reads_f (hoh n rfl)) (Reads.pure _)) rfl (by simp))
    have tail : ∀ choose, ∀ hs : Reads (opt (¬ choose = true) bit 2) (selectVal sc) (chooseBits sc).tail,
        chooseBits sc = choose :: (chooseBits sc).tail → ∀ a b c d e f1 g h1 i,
        Reads (do
          let choose ← flag
          let sct ← opt (¬ choose = true) bit 2
          let imv ← opt (sct ≠ 0) (do let c ← flag; opt (¬ c = true) bit 2) 2
          let nb ← opt (oh.isSome = true) (do let n ← f 3; pure (n + 1)) 0
          finishTools (⟨a, b, c, d, e, f1, g, oh.isSome, h1, i, sct, imv, nb, false, false, false⟩ : SeqTools))
          (⟨a, b, c, d, e, f1, g, oh.isSome, h1, i, selectVal sc,
            if selectVal sc > 0 then selectVal s.forceIntegerMv else 2,
            (oh.map (·.2.2 + 1)).getD 0, s.superres, s.cdef, s.restoration⟩ : SeqTools)
          (chooseBits sc ++ ((if selectVal sc > 0 then chooseBits s.forceIntegerMv else []) ++
            ((oh.map (fun (_, _, n) => natBits 3 n)).getD [] ++ [s.superres, s.cdef, s.restoration]))) := by
      intro choose hs hch a b c d e f1 g h1 i
      refine Reads.cast (Reads.bind (reads_flag choose) (Reads.bind hs (Reads.bind himv (Reads.bind hnb
        (reads_finishTools _ s.superres s.cdef s.restoration))))) rfl ?_
      rw [hch]; simp
    obtain ⟨choose, hs, hch⟩ : ∃ choose : Bool, Reads (opt (¬ choose = true) bit 2) (selectVal sc) (chooseBits sc).tail ∧
        chooseBits sc = choose :: (chooseBits sc).tail := by
      rcases sc with _ | b
      · exact ⟨true, Reads.opt_neg (by simp), rfl⟩
      · exact ⟨false, Reads.opt_pos (by simp) (reads_bit b), rfl⟩
    have tail' := tail choose hs hch
    cases oh with
    | none =>
      refine Reads.cast (Reads.bind (reads_flag _) (Reads.bind (reads_flag _) (Reads.bind (reads_flag _)
          (Reads.bind (reads_flag _) (Reads.bind (reads_flag _) (Reads.bind (reads_flag _) (Reads.bind (reads_flag _)
          (Reads.bind (reads_flag false) (Reads.bind (Reads.opt_neg (by simp)) (Reads.bind (Reads.opt_neg (by simp))
          (tail' _ _ _ _ _ _ _ _ _))))))))))) rfl ?_
      simp [optBits]
    | some o =>
      obtain ⟨j, m, n⟩ := o
      refine Reads.cast (Reads.bind (reads_flag _) (Reads.bind (reads_flag _) (Reads.bind (reads_flag _)
          (Reads.bind (reads_flag _) (Reads.bind (reads_flag _) (Reads.bind (reads_flag _) (Reads.bind (reads_flag _)
          (Reads.bind (reads_flag true) (Reads.bind (Reads.opt_pos rfl (reads_flag j)) (Reads.bind (Reads.opt_pos rfl (reads_flag m))
          (tail' _ _ _ _ _ _ _ _ _))))))))))) rfl ?_
      simp [optBits]
  · exact Reads.cast (Reads.bind (reads_flag _) (Reads.bind (reads_flag _) (Reads.bind (reads_flag _)
      (reads_finishTools _ s.superres s.cdef s.restoration)))) rfl rfl

theorem reads_frameIds (s : SeqSyntax) (hv : s.Valid) :
    Reads (parseFrameIds s.reducedStillPictureHeader)
      (!s.reducedStillPictureHeader && s.frameIds.isSome,
        (if s.reducedStillPictureHeader then 0 else (s.frameIds.map (·.1 + 2)).getD 0),
        (if s.reducedStillPictureHeader then 0 else (s.frameIds.map (fun p => p.1 + p.2 + 3)).getD 0))
      (if s.reducedStillPictureHeader then []
       else optBits (fun (d, n) => natBits 4 d ++ natBits 3 n) s.frameIds) := by
  unfold parseFrameIds
  cases s.reducedStillPictureHeader
  · simp only [Bool.false_eq_true, if_false, Bool.not_false, Bool.true_and]
    rcases hf : s.frameIds with _ | ⟨d, n⟩
    · exact Reads.cast (Reads.bind (reads_flag false) (Reads.pure _)) rfl rfl
    · obtain ⟨h1, h2⟩ := hv.frameIds d n hf
      refine Reads.cast (Reads.bind (reads_flag true) (Reads.bind (reads_f h1) (Reads.bind (reads_f h2) (Reads.pure _)))) ?_ ?_
      · simp; omega
      · simp [optBits]
  · exact Reads.pure _

theorem reads_seqOps (strict : Bool) (s : SeqSyntax) (hv : s.Valid) (hs : strict = true → s.StrictlyValid) :
    Reads (parseSeqOps strict s.reducedStillPictureHeader)
      (s.timingInfo, !s.reducedStillPictureHeader && s.initialDisplayDelayPresent,
        if s.reducedStillPictureHeader then
          [((⟨0, s.reducedLevelIdx / 4, s.reducedLevelIdx % 4, false, false, false, 10⟩ : SeqOp), (⟨0, 0, false⟩ : SeqOpInfo))]
        else s.ops.map (fun o => (o.op (s.timing.bind (·.decoderModel)) s.initialDisplayDelayPresent,
        o.info (s.timing.bind (·.decoderModel)))))
      (if s.reducedStillPictureHeader then natBits 5 s.reducedLevelIdx
       else optBits TimingSyntax.bits s.timing ++
        [s.initialDisplayDelayPresent] ++ natBits 5 (s.ops.length - 1) ++
        s.ops.flatMap (OpSyntax.bits (s.timing.bind (·.decoderModel)) s.initialDisplayDelayPresent)) := by
  unfold parseSeqOps
  have hl := hv.level
  cases hr : s.reducedStillPictureHeader
  · simp only [Bool.false_eq_true, if_false, Bool.not_false, Bool.true_and]
    have ho := hv.opCount
    have hops := reads_ops s hr hv s.ops (fun o h => h)
    rw [show s.ops.length = (s.ops.length - 1) + 1 by omega] at hops
    refine Reads.cast (Reads.bind (reads_timing strict s hr hv hs) (Reads.bind (reads_flag _)
      (Reads.bind (reads_f (v := s.ops.length - 1) (by omega)) (Reads.bind hops (Reads.pure _))))) rfl ?_
    simp
  · simp only [if_true, Bool.not_true, Bool.false_and]
    have : s.timingInfo = {} := by unfold SeqSyntax.timingInfo; rw [if_pos hr]
    rw [natBits5_split, this]
    exact Reads.cast (Reads.bind (reads_f (v := s.reducedLevelIdx / 4) (by omega))
      (Reads.bind (reads_f (v := s.reducedLevelIdx % 4) (by omega)) (Reads.pure _))) rfl (by simp)

theorem bitDepth_hbd (profile : Nat) (c : ColorSyntax) :
    (c.bitDepth profile - 8) / 2 = c.highBitdepth.toNat +
      (if profile = 2 ∧ c.highBitdepth = true then c.twelveBit.toNat else 0) := by
  unfold ColorSyntax.bitDepth
  cases c.highBitdepth <;> cases c.twelveBit <;> by_cases h : profile = 2 <;> simp [h]

theorem bitDepth_12 (profile : Nat) (c : ColorSyntax) :
    c.bitDepth profile = 12 ↔ (c.bitDepth profile - 8) / 2 = 2 := by
  unfold ColorSyntax.bitDepth
  cases c.highBitdepth <;> cases c.twelveBit <;> by_cases h : profile = 2 <;> simp [h]

theorem reads_subsampling (profile : Nat) (hp : profile ≤ 2) (c : ColorSyntax) (hm : c.mono profile = false)
    (hr : c.isRgb = false) :
    Reads (parseSubsampling profile ((c.bitDepth profile - 8) / 2)) (c.subsampling profile)
      (if profile = 2 ∧ c.bitDepth profile = 12 then
        [c.subsamplingX] ++ (if c.subsamplingX then [c.subsamplingY] else []) else []) := by
  unfold parseSubsampling ColorSyntax.subsampling
  rw [hm, hr]
  simp only [Bool.false_eq_true, if_false, bitDepth_12 profile c]
  by_cases h0 : profile = 0
  · simp only [h0, if_true]; simp; exact Reads.pure _
  by_cases h1 : profile = 1
  · simp [h1]; exact Reads.pure _
  have h2 : profile = 2 := by omega
  subst h2
  simp only [show ¬ (2 = 0) by omega, show ¬ (2 = 1) by omega, if_false, true_and]
  by_cases hb : (c.bitDepth 2 - 8) / 2 = 2
  · simp only [hb, if_true]
    cases hx : c.subsamplingX
    · exact Reads.cast (Reads.bind (reads_flag false) (Reads.bind (Reads.opt_neg (by simp)) (Reads.pure _))) rfl rfl
    · exact Reads.cast (Reads.bind (reads_flag true) (Reads.bind (Reads.opt_pos rfl (reads_flag c.subsamplingY)) (Reads.pure _))) rfl rfl
  · simp only [hb, if_false]; exact Reads.pure _

theorem reads_color (strict : Bool) (s : SeqSyntax) (hv : s.Valid) (hs : strict = true → s.StrictlyValid) :
    Reads (parseColor strict s.seqProfile) (s.color.info s.seqProfile) (s.color.bits s.seqProfile) := by
  have hid := fun h => (hs h).identity
  have hrgb := hv.rgb
  have hdesc := hv.desc
  have hch := hv.chroma
  have hp := hv.profile
  generalize s.color = c at *
  generalize s.seqProfile = p at *
  unfold parseColor ColorSyntax.bits
  -- 12 bit
  have htw : Reads (opt (p = 2 ∧ c.highBitdepth.toNat ≠ 0) bit 0)
      (if p = 2 ∧ c.highBitdepth = true then c.twelveBit.toNat else 0)
      (if p = 2 ∧ c.highBitdepth = true then [c.twelveBit] else []) := by
    by_cases h : p = 2 ∧ c.highBitdepth = true
    · rw [if_pos h, if_pos h]; exact Reads.opt_pos (by simp [h.1, h.2]) (reads_bit _)
    · rw [if_neg h, if_neg h]
      refine Reads.opt_neg ?_
      rintro ⟨a, b⟩
      apply h
      refine ⟨a, ?_⟩
      cases hh : c.highBitdepth
      · simp [hh] at b
      · rfl
  have hmono : Reads (opt (p ≠ 1) flag false) (c.mono p) (if p ≠ 1 then [c.monoChrome] else []) := by
    unfold ColorSyntax.mono
    by_cases h : p = 1
    · simp only [h, ne_eq, not_true_eq_false, if_false, decide_false, Bool.false_and]
      exact Reads.opt_neg (by simp)
    · simp only [ne_eq, h, not_false_eq_true, if_true, decide_true, Bool.true_and]
      exact Reads.opt_pos trivial (reads_flag _)
  -- everything after the description
  have tail : Reads (if c.mono p = true then do
        let range ← flag
        rejectIf (strict = true ∧ c.desc.2.2 = 0)
        pure (⟨(c.bitDepth p - 8) / 2, c.mono p, c.description.isSome, c.desc.1, c.desc.2.1, c.desc.2.2, range, .I400, true, true, 0, false⟩ : SeqColor)
      else if c.desc.1 = 1 ∧ c.desc.2.1 = 13 ∧ c.desc.2.2 = 0 then do
        rejectIf (p ≠ 1 ∧ ¬ (p = 2 ∧ (c.bitDepth p - 8) / 2 = 2))
        let sep ← flag
        pure (⟨(c.bitDepth p - 8) / 2, c.mono p, c.description.isSome, c.desc.1, c.desc.2.1, c.desc.2.2, true, .I444, false, false, 0, sep⟩ : SeqColor)
      else do
        let range ← flag
        let (h, v) ← parseSubsampling p ((c.bitDepth p - 8) / 2)
        let chr ← opt (h = true ∧ v = true) (f 2) 0
        rejectIf (strict = true ∧ c.desc.2.2 = 0 ∧ layoutOf h v ≠ .I444)
        let sep ← flag
        pure (⟨(c.bitDepth p - 8) / 2, c.mono p, c.description.isSome, c.desc.1, c.desc.2.1, c.desc.2.2, range, layoutOf h v, h, v, chr, sep⟩ : SeqColor))
      (c.info p)
      (if c.mono p then [c.colorRange]
       else if c.isRgb then [c.separateUvDeltaQ]
       else [c.colorRange] ++
        (if p = 2 ∧ c.bitDepth p = 12 then
          [c.subsamplingX] ++ (if c.subsamplingX then [c.subsamplingY] else []) else []) ++
        (if c.subsampling p = (true, true) then natBits 2 c.chromaSamplePosition else []) ++
        [c.separateUvDeltaQ]) := by
    cases hm : c.mono p
    · simp only [Bool.false_eq_true, if_false]
      have hrg : (c.desc.1 = 1 ∧ c.desc.2.1 = 13 ∧ c.desc.2.2 = 0) ↔ c.isRgb = true := by
        unfold ColorSyntax.isRgb
        rw [beq_iff_eq]
        obtain ⟨a, b, d⟩ := c.desc
        simp
      simp only [hrg]
      cases hr : c.isRgb
      · simp only [Bool.false_eq_true, if_false]
        have hsub := reads_subsampling p hp c hm hr
        have hlay : (c.info p).layout = layoutOf (c.subsampling p).1 (c.subsampling p).2 := by
          unfold ColorSyntax.info layoutOf
          rw [hm]
          rcases c.subsampling p with ⟨_ | _, _ | _⟩ <;> rfl
        have hinfo : c.info p = (⟨(c.bitDepth p - 8) / 2, false, c.description.isSome, c.desc.1, c.desc.2.1,
            c.desc.2.2, c.colorRange, layoutOf (c.subsampling p).1 (c.subsampling p).2, (c.subsampling p).1,
            (c.subsampling p).2, if c.subsampling p = (true, true) then c.chromaSamplePosition else 0, c.separateUvDeltaQ⟩ : SeqColor) := by
          rw [← hlay]
          unfold ColorSyntax.info
          rw [hm, hr]
          simp
        rw [hlay] at hid
        rw [hinfo]
        generalize c.subsampling p = hv' at *
        obtain ⟨h, v⟩ := hv'
        simp only at hid ⊢
        have hchr : Reads (opt (h = true ∧ v = true) (f 2) 0) (if (h, v) = (true, true) then c.chromaSamplePosition else 0)
            (if (h, v) = (true, true) then natBits 2 c.chromaSamplePosition else []) := by
          by_cases hc : h = true ∧ v = true
          · rw [if_pos (by simp [hc]), if_pos (by simp [hc])]
            exact Reads.opt_pos hc (reads_f hch)
          · rw [if_neg (by simpa using hc), if_neg (by simpa using hc)]
            exact Reads.opt_neg hc
        refine Reads.cast (Reads.bind (reads_flag _) (Reads.bind hsub (Reads.bind hchr (Reads.bind (Reads.reject ?_)
          (Reads.bind (reads_flag _) (Reads.pure _)))))) rfl ?_
        · rintro ⟨a, b, d⟩
          exact d (hid a b)
        · simp
      · simp only [if_true]
        have hinfo : c.info p = (⟨(c.bitDepth p - 8) / 2, false, c.description.isSome, c.desc.1, c.desc.2.1,
            c.desc.2.2, true, .I444, false, false, 0, c.separateUvDeltaQ⟩ : SeqColor) := by
          unfold ColorSyntax.info ColorSyntax.subsampling
          rw [hm, hr]
          simp
        rw [hinfo]
        refine Reads.cast (Reads.bind (Reads.reject ?_) (Reads.bind (reads_flag _) (Reads.pure _))) rfl rfl
        have := hrgb hr hm
        rw [bitDepth_12] at this
        omega
    · simp only [if_true]
      have hinfo : c.info p = (⟨(c.bitDepth p - 8) / 2, true, c.description.isSome, c.desc.1, c.desc.2.1,
          c.desc.2.2, c.colorRange, .I400, true, true, 0, false⟩ : SeqColor) := by
        unfold ColorSyntax.info ColorSyntax.subsampling
        rw [hm]
        simp
      rw [hinfo] at hid ⊢
      refine Reads.cast (Reads.bind (reads_flag _) (Reads.bind (Reads.reject ?_) (Reads.pure _))) rfl rfl
      rintro ⟨a, b⟩
      exact absurd (hid a b) (by simp)
  rw [bitDepth_hbd] at tail
  unfold ColorSyntax.desc at tail
  rcases hd : c.description with _ | ⟨x, y, z⟩
  · rw [hd] at tail
    refine Reads.cast (Reads.bind (reads_bit _) (Reads.bind htw (Reads.bind hmono (Reads.bind (reads_flag false)
      (Reads.bind (Reads.opt_neg (by simp)) (Reads.bind (Reads.opt_neg (by simp)) (Reads.bind (Reads.opt_neg (by simp))
      tail))))))) rfl ?_
    simp [optBits]
  · rw [hd] at tail
    obtain ⟨h1, h2, h3⟩ := hdesc x y z hd
    refine Reads.cast (Reads.bind (reads_bit _) (Reads.bind htw (Reads.bind hmono (Reads.bind (reads_flag true)
      (Reads.bind (Reads.opt_pos rfl (reads_f h1)) (Reads.bind (Reads.opt_pos rfl (reads_f h2)) (Reads.bind (Reads.opt_pos rfl (reads_f h3))
      tail))))))) rfl ?_
    simp [optBits]

theorem reads_body (strict : Bool) (s : SeqSyntax) (hv : s.Valid) (hs : strict = true → s.StrictlyValid) :
    Reads (parseSeqBody strict) (s.hdrWith (s.reducedLevelIdx / 4)) s.bits := by
  unfold parseSeqBody SeqSyntax.bits
  have hp := hv.profile
  have h1 := reads_seqOps strict s hv hs
  have h2 := reads_frameIds s hv
  refine Reads.cast (Reads.bind (reads_f (v := s.seqProfile) (by omega)) (Reads.bind (Reads.reject (by omega))
    (Reads.bind (reads_flag s.stillPicture) (Reads.bind (reads_flag s.reducedStillPictureHeader)
    (Reads.bind (Reads.reject ?_) (Reads.bind h1 (Reads.bind (reads_f hv.width.1) (Reads.bind (reads_f hv.height.1)
    (Reads.bind (reads_f hv.width.2) (Reads.bind (reads_f hv.height.2) (Reads.bind h2
    (Reads.bind (reads_tools s hv) (Reads.bind (reads_color strict s hv hs)
    (Reads.bind (reads_flag s.filmGrainParamsPresent) (Reads.pure _))))))))))))))) ?_ ?_
  · rintro ⟨a, b⟩; exact b (hv.still a)
  · unfold SeqSyntax.hdrWith
    cases s.reducedStillPictureHeader <;> simp
  · simp only [List.append_assoc, List.nil_append, List.append_nil]
    rfl

end Dav1d
