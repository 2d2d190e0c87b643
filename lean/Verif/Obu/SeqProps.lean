import Verif.Obu.SeqParseLoop
/-!
# C04, C05: sequence headers
-/
namespace Dav1d
open HProg

/-! ## C05 -/

/-- C05: on any non-empty buffer the function terminates without reading outside the buffer (no
undefined behaviour, no failed assertion), and its result is the one of the byte-level description. -/
theorem C05_result (data : List UInt8) (hd : data ≠ []) :
    parseSequenceHeader data = some (seqResult data (.error .ENOENT)) := by
  unfold parseSequenceHeader
  rw [if_neg (by simpa using hd)]
  exact loop_spec _ _ (BitSt.init data) data _ rfl hd (rel_init data) rfl rfl rfl

/-- C05: total on every buffer. -/
theorem C05_total (data : List UInt8) : ∃ r, parseSequenceHeader data = some r := by
  by_cases hd : data = []
  · exact ⟨.error .EINVAL, by simp [parseSequenceHeader, hd]⟩
  · exact ⟨_, C05_result data hd⟩

/-- C05: ENOENT exactly when the buffer splits into well formed OBUs none of which is a sequence header. -/
theorem C05_enoent (data : List UInt8) (hd : data ≠ []) :
    parseSequenceHeader data = some (.error .ENOENT) ↔
      ∃ os, splitObus data = some os ∧ ∀ o ∈ os, o.type ≠ 1 := by
  rw [C05_result data hd]
  unfold seqResult
  cases h : splitObus data with
  | none => simp
  | some os =>
    have hf : seqHdrObus os = [] ↔ ∀ o ∈ os, o.type ≠ 1 := by simp [seqHdrObus]
    simp only [Option.some.injEq, exists_eq_left', ← hf]
    cases hq : seqHdrObus os with
    | nil => simp
    | cons o l =>
      simp only [List.map_cons, reduceCtorEq, iff_false]
      split
      · simp
      · split <;> simp

/-- C05: success exactly when the buffer splits into well formed OBUs, all sequence headers among them
parse, and then the output is the parse of the last one; all other OBUs are ignored. -/
theorem C05_ok (data : List UInt8) (hd : data ≠ []) (h : SeqHdr) :
    parseSequenceHeader data = some (.ok h) ↔
      ∃ os, splitObus data = some os ∧ (∀ o ∈ os, o.type = 1 → (seqHdrOf o.payload).isSome) ∧
        ∃ o, (os.filter (fun o => o.type = 1)).getLast? = some o ∧ seqHdrOf o.payload = some h := by
  rw [C05_result data hd]
  unfold seqResult
  cases hs : splitObus data with
  | none => simp
  | some os =>
    simp only [Option.some.injEq, exists_eq_left']
    have hall : (∀ o ∈ os, o.type = 1 → (seqHdrOf o.payload).isSome) ↔
        none ∉ (seqHdrObus os).map (fun o => seqHdrOf o.payload) := by
      simp only [seqHdrObus, List.mem_map, List.mem_filter, decide_eq_true_eq, not_exists, not_and, and_imp]
      refine forall_congr' (fun o => forall_congr' (fun _ => forall_congr' (fun _ => ?_)))
      cases seqHdrOf o.payload <;> simp
    rw [hall]
    have hlast : ((seqHdrObus os).map (fun o => seqHdrOf o.payload)).getLast? =
        ((seqHdrObus os).getLast?).map (fun o => seqHdrOf o.payload) := List.getLast?_map
    change _ ↔ _ ∧ ∃ o, (seqHdrObus os).getLast? = some o ∧ _
    generalize hq : (seqHdrObus os).map (fun o => seqHdrOf o.payload) = l at hlast ⊢
    cases l with
    | nil =>
      have : seqHdrObus os = [] := by simpa using hq
      simp [this]
    | cons a l =>
      simp only
      by_cases hn : none ∈ a :: l
      · rw [if_pos hn]; simp [hn]
      · rw [if_neg hn, hlast]
        cases hg : (seqHdrObus os).getLast? with
        | none => simp
        | some o =>
          simp only [Option.map_some, Option.some.injEq, exists_eq_left', hn, not_false_eq_true, true_and]
          cases seqHdrOf o.payload <;> simp

/-- C05: everything else is EINVAL. -/
theorem C05_otherwise (data : List UInt8) (e : Err) (h : parseSequenceHeader data = some (.error e)) :
    e = .ENOENT ∨ e = .EINVAL := by
  by_cases hd : data = []
  · simp [parseSequenceHeader, hd] at h; exact Or.inr h.symm
  rw [C05_result data hd] at h
  unfold seqResult at h
  split at h
  · simp at h; exact Or.inr h.symm
  · split at h
    · simp at h; exact Or.inl h.symm
    · split at h
      · simp at h; exact Or.inr h.symm
      · split at h
        · simp at h
        · simp at h; exact Or.inr h.symm

-- all three outcomes occur: a temporal delimiter only; a temporal delimiter and a sequence header; an
-- OBU reaching past the end
example : parseSequenceHeader [0x12, 0x00] = some (.error .ENOENT) := by decide +kernel
example : parseSequenceHeader [0x0A, 0x05, 0x00] = some (.error .EINVAL) := by decide +kernel

/-! ## C04 -/

/-- An OBU of type OBU_SEQUENCE_HEADER with a size field of `k` bytes. -/
def seqHdrObuBytes (k : Nat) (payload : List UInt8) : List UInt8 := 0x0A :: lebBytes k payload.length ++ payload

theorem seqHdrOf_bits (s : SeqSyntax) (hv : s.Valid) (payload : List UInt8) (rest : List Bool) (b : Bool)
    (hp : bytesBits payload = s.bits ++ b :: rest) :
    seqHdrOf payload = some (s.hdrWith (s.reducedLevelIdx / 4)) := by
  unfold seqHdrOf
  have h1 := reads_body false s hv (by simp)
  have h2 : Reads (parseSeqHdr false) (s.hdrWith (s.reducedLevelIdx / 4)) (s.bits ++ [b]) → 
      (parseSeqHdr false).exec (BitSt.init payload) = (some (s.hdrWith (s.reducedLevelIdx / 4)),
        { BitSt.init payload with rem := rest }) := fun h => h (BitSt.init payload) rest (by simp [BitSt.init, hp])
  have h3 : (parseSeqHdr false).exec (BitSt.init payload) = (some (s.hdrWith (s.reducedLevelIdx / 4)),
        { BitSt.init payload with rem := rest }) := by
    unfold parseSeqHdr
    rw [exec_bind]
    have : (parseSeqBody false).exec (BitSt.init payload) = (some (s.hdrWith (s.reducedLevelIdx / 4)),
        { BitSt.init payload with rem := b :: rest }) := h1 (BitSt.init payload) (b :: rest) hp
    rw [this]
    simp only
    rw [exec_bind]
    unfold checkTrailingBits
    simp only [exec_bind, flag, exec_rd, Bool.false_eq_true, if_false]
    have hf := Prog.reads_getFlag b { BitSt.init payload with rem := b :: rest } rest rfl
    rw [hf]
    simp [Prog.getErr, Prog.run, BitSt.init, rejectIf]
  rw [h3]
  simp [BitSt.init]

/-- C04 (round trip through the public function): for every sequence header that the syntax can
express, in an OBU with any legal encoding of its size, the function returns 0 and the fields that were
written, with the inferred values for the absent ones.

Partial: the reported major level of a reduced still picture header is `seq_level_idx >> 2`, not
`2 + (seq_level_idx >> 2)` (src/obu.c:100 lacks the `2 +` of src/obu.c:141), see `C04_reduced_level`.
In all other cases the result is exactly `s.hdr`, see `C04_roundtrip_full_header`. -/
theorem C04_roundtrip_partial (s : SeqSyntax) (hv : s.Valid) (payload : List UInt8) (rest : List Bool) (b : Bool)
    (hp : bytesBits payload = s.bits ++ b :: rest)
    (k : Nat) (hk : 1 ≤ k) (hk8 : k ≤ 8) (hfit : payload.length < 2 ^ (7 * k)) (h32 : payload.length < 2 ^ 32) :
    parseSequenceHeader (seqHdrObuBytes k payload) = some (.ok (s.hdrWith (s.reducedLevelIdx / 4))) := by
  have hsplit : splitObu (seqHdrObuBytes k payload) = some (⟨1, payload⟩, []) := by
    unfold seqHdrObuBytes splitObu sizedSplit
    simp only [List.cons_append, show obuExt 0x0A = false by decide, show obuHasSize 0x0A = true by decide,
      show obuType 0x0A = 1 by decide, Bool.false_and, Bool.false_eq_true, if_false, if_true]
    rw [lebSplit_complete hk hk8 hfit]
    simp only [h32, Nat.le_refl, and_self, if_true, Option.map_some, List.take_length, List.drop_length]
  have hne : seqHdrObuBytes k payload ≠ [] := by simp [seqHdrObuBytes]
  rw [C05_result _ hne, seqResult_seq hsplit rfl (seqHdrOf_bits s hv payload rest b hp), seqResult_nil]

/-- C04: exact round trip for every sequence header that is not a reduced still picture header. -/
theorem C04_roundtrip_full_header (s : SeqSyntax) (hv : s.Valid) (hr : s.reducedStillPictureHeader = false)
    (payload : List UInt8) (rest : List Bool) (b : Bool) (hp : bytesBits payload = s.bits ++ b :: rest)
    (k : Nat) (hk : 1 ≤ k) (hk8 : k ≤ 8) (hfit : payload.length < 2 ^ (7 * k)) (h32 : payload.length < 2 ^ 32) :
    parseSequenceHeader (seqHdrObuBytes k payload) = some (.ok s.hdr) := by
  rw [C04_roundtrip_partial s hv payload rest b hp k hk hk8 hfit h32]
  simp [SeqSyntax.hdr, SeqSyntax.hdrWith, hr]

/-- C04 is false of the code for reduced still picture headers: the level reported is always wrong. -/
theorem C04_reduced_level (s : SeqSyntax) (hv : s.Valid) (hr : s.reducedStillPictureHeader = true)
    (payload : List UInt8) (rest : List Bool) (b : Bool) (hp : bytesBits payload = s.bits ++ b :: rest)
    (k : Nat) (hk : 1 ≤ k) (hk8 : k ≤ 8) (hfit : payload.length < 2 ^ (7 * k)) (h32 : payload.length < 2 ^ 32) :
    ∃ h, parseSequenceHeader (seqHdrObuBytes k payload) = some (.ok h) ∧ h.ops ≠ s.hdr.ops ∧
      { h with ops := s.hdr.ops } = s.hdr := by
  refine ⟨_, C04_roundtrip_partial s hv payload rest b hp k hk hk8 hfit h32, ?_, ?_⟩
  · simp [SeqSyntax.hdr, SeqSyntax.hdrWith, hr]
  · simp [SeqSyntax.hdr, SeqSyntax.hdrWith]

/-- C04 inside the decoder (`strict_std_compliance` on or off): the header parser accepts the header on
its own payload, which ends with the trailing one bit and zero bits. -/
theorem C04_parse_seq_hdr_partial (strict : Bool) (s : SeqSyntax) (hv : s.Valid) (hs : strict = true → s.StrictlyValid)
    (payload : List UInt8) (n : Nat) (hp : bytesBits payload = s.bits ++ true :: List.replicate n false) :
    ∃ g, (OptionT.run (parseSeqHdr strict)).runC (GetBits.init payload) =
      some (some (s.hdrWith (s.reducedLevelIdx / 4)), g) ∧ g.error = false := by
  obtain ⟨g, h1, h2⟩ := Prog.runC_spec _ (legal_seqHdr strict).wf (rel_init payload)
  have h3 : (parseSeqHdr strict).exec (BitSt.init payload) = (some (s.hdrWith (s.reducedLevelIdx / 4)),
        { BitSt.init payload with rem := List.replicate n false }) := by
    unfold parseSeqHdr
    rw [exec_bind]
    have : (parseSeqBody strict).exec (BitSt.init payload) = (some (s.hdrWith (s.reducedLevelIdx / 4)),
        { BitSt.init payload with rem := true :: List.replicate n false }) :=
      reads_body strict s hv hs (BitSt.init payload) _ hp
    rw [this]
    simp only
    rw [exec_bind]
    unfold checkTrailingBits
    have hf := Prog.reads_getFlag true { BitSt.init payload with rem := true :: List.replicate n false } _ rfl
    cases strict
    · simp only [exec_bind, flag, exec_rd, Bool.false_eq_true, if_false]
      rw [hf]
      simp [Prog.getErr, Prog.run, BitSt.init, rejectIf]
    · simp only [exec_bind, flag, exec_rd, if_true]
      rw [hf]
      simp [Prog.getErr, Prog.isRestZero, Prog.run, BitSt.init, rejectIf]
  have h4 : (OptionT.run (parseSeqHdr strict)).run (BitSt.init payload) = _ := h3
  rw [h4] at h1 h2
  exact ⟨g, h1, by rw [← h2.err]; rfl⟩

/-! ### The hypotheses can be met -/

/-- A sequence header using most of the optional parts. -/
def exFull : SeqSyntax where
  seqProfile := 0
  stillPicture := false
  reducedStillPictureHeader := false
  reducedLevelIdx := 9
  timing := some ⟨1, 25, some 0, some ⟨9, 90000, 9, 9⟩⟩
  initialDisplayDelayPresent := true
  ops := [⟨0x301, 8, true, some (1000, 20, true), some 3⟩, ⟨0x101, 1, false, none, none⟩]
  frameWidthBitsMinus1 := 10
  frameHeightBitsMinus1 := 10
  maxFrameWidthMinus1 := 1919
  maxFrameHeightMinus1 := 1079
  frameIds := some (3, 2)
  use128 := true
  filterIntra := true
  intraEdge := false
  interIntra := true
  masked := true
  warped := true
  dualFilter := false
  orderHint := some (true, true, 6)
  forceScreenContent := none
  forceIntegerMv := some true
  superres := true
  cdef := true
  restoration := true
  color := ⟨true, false, false, some (9, 16, 9), true, true, true, 2, true⟩
  filmGrainParamsPresent := true

/-- A reduced still picture header. -/
def exReduced : SeqSyntax := { exFull with stillPicture := true, reducedStillPictureHeader := true }

theorem exFull_valid : exFull.Valid where
  profile := by decide
  still := by decide
  level := by decide
  timing := by
    intro t ht
    simp only [exFull, Option.some.injEq] at ht
    subst ht
    refine ⟨by decide, by decide, ?_, ?_⟩
    · intro n hn; simp at hn; subst hn; decide
    · intro d hd; simp only [Option.some.injEq] at hd; subst hd; decide
  opCount := by decide
  ops := by
    intro o ho
    simp only [exFull, List.mem_cons, List.not_mem_nil, or_false] at ho
    rcases ho with rfl | rfl
    · refine ⟨by decide, by decide, by decide, ?_, ?_⟩
      · intro d x y l hd hp
        simp [exFull] at hd hp
        obtain ⟨rfl, rfl, rfl⟩ := hp
        subst hd
        decide
      · intro n hn; simp at hn; subst hn; decide
    · exact ⟨by decide, by decide, by decide, by intro d x y l _ h; simp at h, by intro n h; simp at h⟩
  width := by decide
  height := by decide
  frameIds := by intro d n h; simp [exFull] at h; omega
  orderHint := by intro j m n h; simp [exFull] at h; omega
  desc := by intro p t m h; simp [exFull] at h; omega
  chroma := by decide
  rgb := by intro h; simp [exFull, ColorSyntax.isRgb, ColorSyntax.desc] at h

theorem exFull_strict : exFull.StrictlyValid where
  ticks := by
    intro t ht
    simp only [exFull, Option.some.injEq] at ht
    subst ht
    refine ⟨by decide, by decide, ?_⟩
    intro d hd; simp only [Option.some.injEq] at hd; subst hd; decide
  identity := by intro h; simp [exFull, ColorSyntax.desc] at h

theorem exReduced_valid : exReduced.Valid where
  profile := by decide
  still := by decide
  level := by decide
  timing := exFull_valid.timing
  opCount := by decide
  ops := exFull_valid.ops
  width := by decide
  height := by decide
  frameIds := exFull_valid.frameIds
  orderHint := exFull_valid.orderHint
  desc := exFull_valid.desc
  chroma := by decide
  rgb := exFull_valid.rgb

/-- The bytes an encoder writes for `exFull`. -/
def exFullBytes : List UInt8 :=
  [4, 0, 0, 0, 4, 0, 0, 0, 103, 164, 0, 5, 126, 65, 41, 132, 192, 81, 253, 0, 166, 98, 2, 18, 171, 191, 195, 121, 173,
  222, 239, 66, 68, 2, 119]

/-- The bytes an encoder writes for `exReduced`. -/
def exReducedBytes : List UInt8 := [26, 106, 187, 252, 55, 222, 132, 136, 4, 238]

theorem exFull_bits : bytesBits exFullBytes = exFull.bits ++ true :: List.replicate 0 false := by decide +kernel
theorem exReduced_bits : bytesBits exReducedBytes = exReduced.bits ++ true :: List.replicate 1 false := by decide +kernel

example : parseSequenceHeader (seqHdrObuBytes 1 exFullBytes) = some (.ok exFull.hdr) :=
  C04_roundtrip_full_header exFull exFull_valid rfl _ _ _ exFull_bits 1 (by decide) (by decide) (by decide) (by decide)

example : exFull.hdr.ops.map (fun o => (o.majorLevel, o.minorLevel, o.tier, o.initialDisplayDelay)) =
    [(4, 0, true, 4), (2, 1, false, 10)] ∧ exFull.hdr.maxWidth = 1920 ∧ exFull.hdr.frameIdNBits = 8 := by decide +kernel

-- two OBUs, the last sequence header wins; the level 4.1 of the reduced header is reported as 2.1
example : (parseSequenceHeader (seqHdrObuBytes 1 exFullBytes ++ [0x12, 0x00] ++ seqHdrObuBytes 2 exReducedBytes)).map
    (fun r => r.map (fun h => (h.ops.map (fun o => (o.majorLevel, o.minorLevel))))) = some (.ok [(2, 1)]) := by
  decide +kernel

example : ∃ h, parseSequenceHeader (seqHdrObuBytes 1 exReducedBytes) = some (.ok h) ∧ h.ops ≠ exReduced.hdr.ops := by
  obtain ⟨h, h1, h2, _⟩ := C04_reduced_level exReduced exReduced_valid rfl _ _ _ exReduced_bits 1 (by decide) (by decide)
    (by decide) (by decide)
  exact ⟨h, h1, h2⟩

example : ∃ g, (OptionT.run (parseSeqHdr true)).runC (GetBits.init exFullBytes) =
    some (some (exFull.hdrWith (exFull.reducedLevelIdx / 4)), g) ∧ g.error = false :=
  C04_parse_seq_hdr_partial true exFull exFull_valid (fun _ => exFull_strict) _ _ exFull_bits

end Dav1d
