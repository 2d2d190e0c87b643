import Verif.Obu.SeqParseLemmas
/-!
# The loop of dav1d_parse_sequence_header refines the byte-level description
-/
namespace Dav1d
open HProg

/-- No operation clears the error flag. -/
theorem Prog.err_sticky {α : Type} (p : Prog α) : ∀ s, s.err = true → (p.run s).2.err = true := by
  induction p with
  | ret a => exact fun s h => h
  | bit k ih => exact fun s h => ih _ _ (Prog.advance_err 1 h)
  | bits n k ih => exact fun s h => ih _ _ (Prog.advance_err n h)
  | sbits n k ih => exact fun s h => ih _ _ (Prog.advance_err n h)
  | align k ih => exact fun s h => ih _ h
  | err k ih => exact fun s h => ih _ _ h
  | setErr k ih => exact fun s h => ih _ rfl
  | restZero k ih => exact fun s h => ih _ _ h
  | rest k ih => exact fun s h => ih _ _ h

theorem wf_obuHeader : obuHeader.WF := by
  unfold obuHeader
  refine Prog.wf_bind Prog.wf_getBit (fun _ => Prog.wf_bind (Prog.wf_getBits (by omega) (by omega)) (fun _ =>
    Prog.wf_bind Prog.wf_getFlag (fun e => Prog.wf_bind Prog.wf_getFlag (fun _ =>
      Prog.wf_bind (Prog.wf_getBits (by omega) ?_) (fun _ => Prog.wf_ret _)))))
  cases e <;> simp

theorem header_split : ∀ h : Fin 256, natBits 8 h.val =
    [decide (h.val / 128 = 1)] ++ (natBits 4 (h.val / 8 % 16) ++ ([decide (h.val / 4 % 2 = 1)] ++
      ([decide (h.val / 2 % 2 = 1)] ++ [decide (h.val % 2 = 1)]))) := by decide +kernel

/-- Running the OBU header reader at a byte boundary. -/
theorem obuHeader_run (s : BitSt) (h : UInt8) (d : List UInt8) (hs : s.rem = bytesBits (h :: d)) :
    (¬ (obuExt h = true ∧ d = []) ∧ obuHeader.run s = ((obuType h, obuHasSize h),
        { s with rem := bytesBits (if obuExt h then d.tail else d) })) ∨
    ((obuExt h = true ∧ d = []) ∧ (obuHeader.run s).2.err = true) := by
  have hh := header_split ⟨h.toNat, h.toNat_lt⟩
  simp only at hh
  rw [bytesBits_cons, hh] at hs
  have r1 := Prog.reads_getBit (decide (h.toNat / 128 = 1))
  have r2 := Prog.reads_getBits (n := 4) (v := h.toNat / 8 % 16) (by omega)
  have r3 := Prog.reads_getFlag (decide (h.toNat / 4 % 2 = 1))
  have r4 := Prog.reads_getFlag (decide (h.toNat / 2 % 2 = 1))
  have e1 := r1 s _ (by rw [hs]; simp only [List.append_assoc]; rfl)
  have e2 := r2 _ _ (rfl : ({ s with rem := natBits 4 (h.toNat / 8 % 16) ++ ([decide (h.toNat / 4 % 2 = 1)] ++
      ([decide (h.toNat / 2 % 2 = 1)] ++ ([decide (h.toNat % 2 = 1)] ++ bytesBits d))) } : BitSt).rem = _)
  have e3 := r3 _ _ (rfl : ({ s with rem := [decide (h.toNat / 4 % 2 = 1)] ++
      ([decide (h.toNat / 2 % 2 = 1)] ++ ([decide (h.toNat % 2 = 1)] ++ bytesBits d)) } : BitSt).rem = _)
  have e4 := r4 _ _ (rfl : ({ s with rem := 
      [decide (h.toNat / 2 % 2 = 1)] ++ ([decide (h.toNat % 2 = 1)] ++ bytesBits d) } : BitSt).rem = _)
  unfold obuHeader
  simp only [Prog.run_bind, e1, e2, e3, e4, Prog.run_pure]
  unfold obuType obuExt obuHasSize
  generalize hext : decide (h.toNat / 4 % 2 = 1) = ext
  cases ext with
  | false =>
    left
    refine ⟨by simp, ?_⟩
    have r5 := Prog.reads_getBits_list [decide (h.toNat % 2 = 1)]
    have e5 := r5 { s with rem := [decide (h.toNat % 2 = 1)] ++ bytesBits d } (bytesBits d) rfl
    simp only [Bool.toNat_false, Nat.mul_zero, Nat.add_zero]
    simp only [List.length_singleton] at e5
    rw [e5]; simp
  | true =>
    simp only [Bool.toNat_true]
    cases d with
    | nil =>
      right
      refine ⟨by simp, ?_⟩
      simp [Prog.getBits, Prog.run, BitSt.advance]
    | cons x d =>
      left
      refine ⟨by simp, ?_⟩
      have r5 := Prog.reads_getBits_list ([decide (h.toNat % 2 = 1)] ++ natBits 8 x.toNat)
      have e5 := r5 { s with rem := [decide (h.toNat % 2 = 1)] ++ bytesBits (x :: d) } (bytesBits d) (by simp [bytesBits_cons])
      simp only [List.length_append, List.length_singleton, natBits_length] at e5
      rw [show 1 + 8 * 1 = 1 + 8 by rfl, e5]; simp

/-- At a byte boundary the reader's window is empty. -/
theorem rel_aligned {c : GetBits} {s : BitSt} (h : Rel c s) {d : List UInt8} (hr : s.rem = bytesBits d)
    (he : s.err = false) : c.bitsLeft = 0 ∧ c.state = 0 ∧ c.ptr + d.length = c.data.length := by
  rcases h.win with ⟨l, hb, h7, hw, hrem, hov⟩ | ⟨hb, hov, hst, hrem, hp, herr⟩
  · have hl : s.rem.length = 8 * d.length := by rw [hr]; simp
    have hp := h.ptr
    rw [hrem] at hl
    simp only [List.length_append, bytesBits_length, List.length_drop] at hl
    have : l.length = 0 := by omega
    have hl0 : l = [] := List.length_eq_zero_iff.1 this
    subst hl0
    refine ⟨by simpa using hb, ?_, by omega⟩
    apply BitVec.eq_of_toNat_eq
    rw [hw]; simp [win_eq]
  · rw [← h.err, he] at herr; simp at herr

/-- Once the error flag is set the result of the rest of the iteration is EINVAL. -/
theorem loop_err2 {c : GetBits} (type : Nat) (res : Except Err SeqHdr) (c2 : GetBits) (s2 : BitSt) (oe : Nat)
    (hr2 : Rel c2 s2) (he2 : s2.err = true) :
      (match seqHdrCase type oe res c2 with
      | none => none
      | some (.error e, _) => some (.error e)
      | some (.ok res, c3) =>
        if c3.error then some (.error .EINVAL)
        else if c3.state = 0 ∧ c3.bitsLeft = 0 then
          if _h : oe < c.data.length then
            if _h2 : c.ptr < oe then
              parseSeqLoop { c3 with data := c.data, ptr := oe } res
            else none
          else some res
        else none) = some (.error Err.EINVAL) := by
  unfold seqHdrCase
  by_cases ht : type = 1
  · rw [if_pos ht]
    obtain ⟨c3, h1, h2⟩ := Prog.runC_spec _ (legal_seqHdr false).wf hr2
    have h3 := Prog.err_sticky (OptionT.run (parseSeqHdr false)) s2 he2
    rw [h1]
    generalize (OptionT.run (parseSeqHdr false)).run s2 = r at h1 h2 h3 ⊢
    obtain ⟨o, s3⟩ := r
    cases o with
    | none => rfl
    | some hd =>
      simp only at h2 h3 ⊢
      by_cases hp : c3.ptr > oe
      · rw [if_pos hp]
      · rw [if_neg hp]
        obtain ⟨c4, h4, h5⟩ := align_spec h2
        rw [h4]
        simp only
        have : c4.error = true := by rw [← h5.err]; exact h3
        rw [this]; simp
  · rw [if_neg ht]
    simp only
    have : c2.error = true := by rw [← hr2.err]; exact he2
    rw [this]; simp

/-- Once the error flag is set the result is EINVAL whatever follows. -/
theorem loop_err {c c1 : GetBits} {s1 : BitSt} (hr : Rel c1 s1) (type : Nat) (hasLen : Bool)
    (he : s1.err = true ∨ (hasLen = true ∧ (Prog.getUleb128.run s1).2.err = true))
    (res : Except Err SeqHdr) :
    (match obuEnd hasLen c1 with
    | none => none
    | some (.error e, _) => some (.error e)
    | some (.ok oe, c2) =>
      match seqHdrCase type oe res c2 with
      | none => none
      | some (.error e, _) => some (.error e)
      | some (.ok res, c3) =>
        if c3.error then some (.error .EINVAL)
        else if c3.state = 0 ∧ c3.bitsLeft = 0 then
          if _h : oe < c.data.length then
            if _h2 : c.ptr < oe then
              parseSeqLoop { c3 with data := c.data, ptr := oe } res
            else none
          else some res
        else none) = some (.error Err.EINVAL) := by
  unfold obuEnd
  cases hasLen with
  | false => exact loop_err2 type res c1 s1 c1.data.length hr (by simpa using he)
  | true =>
    simp only [if_true]
    obtain ⟨c2, h1, h2⟩ := Prog.runC_spec _ Prog.wf_getUleb128 hr
    have h3 : (Prog.getUleb128.run s1).2.err = true :=
      he.elim (Prog.err_sticky Prog.getUleb128 s1) (·.2)
    rw [h1]
    simp only
    by_cases hl : (Prog.getUleb128.run s1).1 > c2.data.length - c2.ptr
    · rw [if_pos hl]
    · rw [if_neg hl]
      exact loop_err2 type res c2 _ _ h2 h3

/-- The sequence header case on an OBU whose payload is followed by `rest`. -/
theorem seqHdrCase_spec {c : GetBits} {s : BitSt} (hr : Rel c s) (he : s.err = false)
    (payload rest : List UInt8) (hs : s.rem = bytesBits (payload ++ rest)) (type : Nat) (res : Except Err SeqHdr) (oe : Nat)
    (hoe : oe + rest.length = c.data.length) :
    (type ≠ 1 ∧ seqHdrCase type oe res c = some (.ok res, c) ∧ c.error = false ∧ c.state = 0 ∧ c.bitsLeft = 0) ∨
    (type = 1 ∧ ∃ h c3, seqHdrOf payload = some h ∧ seqHdrCase type oe res c = some (.ok (.ok h), c3) ∧
      c3.error = false ∧ c3.state = 0 ∧ c3.bitsLeft = 0) ∨
    (type = 1 ∧ seqHdrOf payload = none ∧ ((∃ c3, seqHdrCase type oe res c = some (.error .EINVAL, c3)) ∨
      ∃ r c3, seqHdrCase type oe res c = some (.ok r, c3) ∧ c3.error = true)) := by
  unfold seqHdrCase
  by_cases ht : type = 1
  swap
  · left
    rw [if_neg ht]
    obtain ⟨h1, h2, _⟩ := rel_aligned hr hs he
    exact ⟨ht, rfl, by rw [← hr.err]; exact he, h2, h1⟩
  right
  rw [if_pos ht]
  obtain ⟨c3, h1, h2⟩ := Prog.runC_spec _ (legal_seqHdr false).wf hr
  have hl := Prog.Local.extend loc_seqHdr (bytesBits rest) (BitSt.init payload) s rfl he
    (by rw [hs, bytesBits_append]; rfl)
  rw [h1]
  have hsz : c3.data.length = c.data.length := by
    have t1 : (Prog.run (OptionT.run (parseSeqHdr false)) s).2.total = s.total := by
      have : ∀ {α} (p : Prog α) (s : BitSt), (p.run s).2.total = s.total := by
        intro α p
        induction p with
        | ret a => exact fun s => rfl
        | bit k ih => exact fun s => ih _ _
        | bits n k ih => exact fun s => ih _ _
        | sbits n k ih => exact fun s => ih _ _
        | align k ih => exact fun s => ih _
        | err k ih => exact fun s => ih _ _
        | setErr k ih => exact fun s => ih _
        | restZero k ih => exact fun s => ih _ _
        | rest k ih => exact fun s => ih _ _
      exact this _ _
    have := h2.total
    have := hr.total
    omega
  have hsp : seqHdrOf payload = match (OptionT.run (parseSeqHdr false)).run (BitSt.init payload) with
      | (some h, s) => if s.err then none else some h
      | (none, _) => none := rfl
  rw [hsp]
  generalize hrun : (OptionT.run (parseSeqHdr false)).run s = r at h1 h2 hl ⊢
  generalize (OptionT.run (parseSeqHdr false)).run (BitSt.init payload) = r0 at hl ⊢
  obtain ⟨o, s3⟩ := r
  obtain ⟨o0, s0⟩ := r0
  simp only at h2 hl ⊢
  have hptr := h2.ptr
  rcases hl with ⟨l1, l2, l3, l4, _⟩ | ⟨l1, l2⟩
  · subst l2
    cases o with
    | none => exact Or.inr ⟨ht, rfl, Or.inl ⟨c3, rfl⟩⟩
    | some hd =>
      left
      refine ⟨ht, ?_⟩
      have hle : ¬ c3.ptr > oe := by
        rcases h2.win with ⟨l, hb, h7, hw, hrem, hov⟩ | ⟨hb, hov, hst, hrem, hp, herr⟩
        · have : s3.rem.length = s0.rem.length + 8 * rest.length := by rw [l4]; simp
          rw [hrem] at this
          simp only [List.length_append, bytesBits_length, List.length_drop] at this
          omega
        · rw [← h2.err, l3] at herr; simp at herr
      simp only [l1, Bool.false_eq_true, if_false, hle]
      obtain ⟨c4, h4, h5⟩ := align_spec h2
      rw [h4]
      refine ⟨hd, c4, rfl, rfl, by rw [← h5.err]; exact l3, ?_, ?_⟩
      · unfold GetBits.byteAlign at h4
        split at h4
        · simp only [Option.some.injEq] at h4; rw [← h4]
        · simp at h4
      · unfold GetBits.byteAlign at h4
        split at h4
        · simp only [Option.some.injEq] at h4; rw [← h4]
        · simp at h4
  · right
    have hnone : (match (o0, s0) with
        | (some h, s) => if s.err then none else some h
        | (none, _) => none : Option SeqHdr) = none := by
      cases o0 with
      | none => rfl
      | some h => simp [l1]
    refine ⟨ht, hnone, ?_⟩
    cases o with
    | none => exact Or.inl ⟨c3, rfl⟩
    | some hd =>
      simp only
      by_cases hp : c3.ptr > oe
      · rw [if_pos hp]; exact Or.inl ⟨c3, rfl⟩
      · rw [if_neg hp]
        obtain ⟨c4, h4, h5⟩ := align_spec h2
        rw [h4]
        right
        refine ⟨_, c4, rfl, ?_⟩
        rcases l2 with l2 | l2
        · rw [← h5.err]; exact l2
        · exfalso
          rcases h2.win with ⟨l, hb, h7, hw, hrem, hov⟩ | ⟨hb, hov, hst, hrem, hpe, herr⟩
          · rw [hrem] at l2
            simp only [List.length_append, bytesBits_length, List.length_drop] at l2
            omega
          · rw [hrem] at l2
            simp at l2
            omega

/-- Result of the walk according to the byte-level description, `res` being the result for a buffer
without sequence header. -/
def seqResult (data : List UInt8) (res : Except Err SeqHdr) : Except Err SeqHdr :=
  match splitObus data with
  | none => .error .EINVAL
  | some os =>
    match (seqHdrObus os).map (fun o => seqHdrOf o.payload) with
    | [] => res
    | l => if none ∈ l then .error .EINVAL else
        match l.getLast? with
        | some (some h) => .ok h
        | _ => .error .EINVAL

theorem splitObus_cons {data o rest} (h : splitObu data = some (o, rest)) :
    splitObus data = (splitObus rest).map (o :: ·) := by
  rw [splitObus]
  have : data ≠ [] := by rintro rfl; simp [splitObu] at h
  rw [if_neg this]
  split
  · rename_i h'; rw [h] at h'; cases h'
  · rename_i h'; rw [h] at h'; cases h'; rfl

theorem splitObus_none {data} (hd : data ≠ []) (h : splitObu data = none) : splitObus data = none := by
  rw [splitObus, if_neg hd]
  split
  · rfl
  · rename_i h'; rw [h] at h'; cases h'

theorem seqResult_bad {data res} (hd : data ≠ []) (h : splitObu data = none) :
    seqResult data res = .error .EINVAL := by
  unfold seqResult; rw [splitObus_none hd h]

theorem seqResult_nil (res) : seqResult [] res = res := by
  unfold seqResult; rw [splitObus, if_pos rfl]; rfl

theorem seqResult_other {data o rest res} (h : splitObu data = some (o, rest)) (ht : o.type ≠ 1) :
    seqResult data res = seqResult rest res := by
  unfold seqResult
  rw [splitObus_cons h]
  cases splitObus rest with
  | none => rfl
  | some os => simp [seqHdrObus, ht]

theorem seqResult_seq_bad {data o rest res} (h : splitObu data = some (o, rest)) (ht : o.type = 1)
    (hp : seqHdrOf o.payload = none) : seqResult data res = .error .EINVAL := by
  unfold seqResult
  rw [splitObus_cons h]
  cases splitObus rest with
  | none => rfl
  | some os => simp [seqHdrObus, ht, hp]

theorem seqResult_seq {data o rest res hd} (h : splitObu data = some (o, rest)) (ht : o.type = 1)
    (hp : seqHdrOf o.payload = some hd) : seqResult data res = seqResult rest (.ok hd) := by
  unfold seqResult
  rw [splitObus_cons h]
  cases splitObus rest with
  | none => rfl
  | some os =>
    have : seqHdrObus (o :: os) = o :: seqHdrObus os := by simp [seqHdrObus, ht]
    simp only [Option.map_some, this, List.map_cons, hp]
    generalize (seqHdrObus os).map (fun o => seqHdrOf o.payload) = l
    cases l with
    | nil => simp
    | cons a l =>
      have hg : (some hd :: a :: l).getLast? = (a :: l).getLast? := by
        rw [List.getLast?_cons_cons]
      rw [hg]
      simp

/-- The loop computes the byte-level result. -/
theorem loop_spec (n : Nat) : ∀ (c : GetBits) (s : BitSt) (d : List UInt8) (res : Except Err SeqHdr),
    d.length = n → d ≠ [] → Rel c s → s.err = false → s.rem = bytesBits d → c.data.drop c.ptr = d →
    parseSeqLoop c res = some (seqResult d res) := by
  induction n using Nat.strong_induction_on with
  | _ n ih =>
    intro c s d res hn hd hr he hs hdrop
    obtain ⟨h, d, rfl⟩ := List.exists_cons_of_ne_nil hd
    obtain ⟨hb0, hst0, hptr⟩ := rel_aligned hr hs he
    simp only [List.length_cons] at hptr hn
    rw [parseSeqLoop]
    obtain ⟨c1, h1, h2⟩ := Prog.runC_spec _ wf_obuHeader hr
    rw [h1]
    have htot : ∀ {c' : GetBits} {s' : BitSt}, Rel c' s' → s'.total = s.total → c'.data.length = c.data.length := by
      intro c' s' h h'
      have := h.total
      have := hr.total
      omega
    rcases obuHeader_run s h d hs with ⟨hne, hrun⟩ | ⟨hbad, herr⟩
    swap
    · have := loop_err (c := c) h2 (obuHeader.run s).1.1 (obuHeader.run s).1.2 (Or.inl herr) res
      rw [seqResult_bad (by simp) (by simp [splitObu, hbad])]
      exact this
    rw [hrun] at h2 ⊢
    simp only at h2 ⊢
    -- the rest of the argument, once the payload has been delimited
    have fin : ∀ (c2 : GetBits) (s2 : BitSt) (payload rest : List UInt8) (oe : Nat), Rel c2 s2 → s2.err = false →
        s2.rem = bytesBits (payload ++ rest) → s2.total = s.total → splitObu (h :: d) = some (⟨obuType h, payload⟩, rest) →
        oe + rest.length = c.data.length → c.data.drop oe = rest → c.ptr < oe →
        (match seqHdrCase (obuType h) oe res c2 with
        | none => none
        | some (.error e, _) => some (.error e)
        | some (.ok res, c3) =>
          if c3.error then some (.error .EINVAL)
          else if c3.state = 0 ∧ c3.bitsLeft = 0 then
            if _h : oe < c.data.length then
              if _h2 : c.ptr < oe then
                parseSeqLoop { c3 with data := c.data, ptr := oe } res
              else none
            else some res
          else none) = some (seqResult (h :: d) res) := by
      intro c2 s2 payload rest oe hr2 he2 hs2 ht2 hsplit hoe hdr hlt
      have hlen := splitObu_length hsplit
      simp only [List.length_cons] at hlen
      have step : ∀ (c3 : GetBits) (res' : Except Err SeqHdr), c3.error = false → c3.state = 0 → c3.bitsLeft = 0 →
          seqResult (h :: d) res = seqResult rest res' →
          (if c3.error then some (.error .EINVAL)
          else if c3.state = 0 ∧ c3.bitsLeft = 0 then
            if _h : oe < c.data.length then
              if _h2 : c.ptr < oe then
                parseSeqLoop { c3 with data := c.data, ptr := oe } res'
              else none
            else some res'
          else none) = some (seqResult (h :: d) res) := by
        intro c3 res' e1 e2 e3 hres
        rw [hres]
        simp only [e1, e2, e3, Bool.false_eq_true, if_false, and_self, if_true]
        by_cases hl : oe < c.data.length
        · rw [dif_pos hl, dif_pos hlt]
          refine ih rest.length (by omega) _ { total := s.total, rem := bytesBits rest, over := 0, err := false } rest _ rfl ?_ ?_ rfl rfl hdr
          · intro h0; rw [h0] at hoe; simp at hoe; omega
          · refine ⟨hr.total, ?_, ?_, ?_, Or.inl ⟨[], ?_, by simp, ?_, ?_, rfl⟩⟩
            · rfl
            · show oe ≤ c.data.length; omega
            · simp only [bytesBits_length]; have := hr.total; omega
            · simp
            · simp [win_eq]
            · simp [hdr]
        · rw [dif_neg hl]
          have : rest = [] := List.length_eq_zero_iff.1 (by omega)
          rw [this, seqResult_nil]
      rcases seqHdrCase_spec hr2 he2 payload rest hs2 (obuType h) res oe (by rw [htot hr2 ht2]; exact hoe) with
        ⟨ht, e1, e2, e3, e4⟩ | ⟨ht, hd', c3, e1, e2, e3, e4, e5⟩ | ⟨ht, e1, e2⟩
      · rw [e1]
        exact step c2 res e2 e3 e4 (seqResult_other hsplit ht)
      · rw [e2]
        exact step c3 (.ok hd') e3 e4 e5 (seqResult_seq hsplit ht e1)
      · rw [seqResult_seq_bad hsplit ht e1]
        rcases e2 with ⟨c3, e2⟩ | ⟨r, c3, e2, e3⟩
        · rw [e2]
        · rw [e2]; simp [e3]
    have hd1 : (if obuExt h = true then d.tail else d).length ≤ d.length := by split <;> simp
    have hlc1 := htot h2 rfl
    generalize hd2 : (if obuExt h = true then d.tail else d) = d1 at *
    have hsuf : ∃ pre, h :: d = pre ++ d1 ∧ 0 < pre.length := by
      rw [← hd2]
      by_cases hx : obuExt h = true
      · rw [if_pos hx]
        cases d with
        | nil => simp [hx] at hne
        | cons y d => exact ⟨[h, y], by simp, by simp⟩
      · rw [if_neg hx]; exact ⟨[h], by simp, by simp⟩
    obtain ⟨pre, hpre, hpl⟩ := hsuf
    have hcond : (obuExt h && d.isEmpty) = false := by
      cases hx : obuExt h
      · simp
      · cases d with
        | nil => simp [hx] at hne
        | cons y d => simp
    obtain ⟨hb1, hst1, hptr1⟩ := rel_aligned h2 (d := d1) rfl he
    have hdrop2 : ∀ k, c.ptr + k ≤ c.data.length → c.data.drop (c.ptr + k) = (h :: d).drop k := by
      intro k _; rw [← hdrop, List.drop_drop]
    have hplen : pre.length + d1.length = d.length + 1 := by
      have := congrArg List.length hpre; simp at this; omega
    unfold obuEnd
    cases hsz : obuHasSize h with
    | false =>
      simp only [Bool.false_eq_true, if_false]
      rw [hlc1]
      refine fin c1 _ d1 [] _ h2 he (by simp) rfl ?_ (by simp) (by simp) (by omega)
      simp [splitObu, hcond, hsz, hd2]
    | true =>
      simp only [if_true]
      obtain ⟨c2, h3, h4⟩ := Prog.runC_spec _ Prog.wf_getUleb128 h2
      rw [h3]
      simp only
      rcases uleb_run { s with rem := bytesBits d1 } d1 rfl with ⟨len, r, u1, u2, u3⟩ | ⟨u1, u2⟩ | u
      · rw [u3] at h4 ⊢
        simp only at h4 ⊢
        obtain ⟨hb2, hst2, hptr2⟩ := rel_aligned h4 (d := r) rfl he
        have hlc2 := htot h4 rfl
        have hr1 := lebSplit_length u1
        by_cases hlen : len > c2.data.length - c2.ptr
        · rw [if_pos hlen]
          simp only
          rw [seqResult_bad (by simp) ?_]
          simp only [splitObu, hcond, hsz, hd2, sizedSplit, u1, Bool.false_eq_true, if_false, if_true]
          rw [if_neg (by omega)]; rfl
        · rw [if_neg hlen]
          obtain ⟨k, _, _, _, hsp⟩ := lebSplit_spec u1
          have hk : (lebBytes k len).length + r.length = d1.length := by
            have := congrArg List.length hsp; simp at this; omega
          refine fin c2 _ (r.take len) (r.drop len) _ h4 he (by simp) rfl ?_ ?_ ?_ (by omega)
          · simp only [splitObu, hcond, hsz, hd2, sizedSplit, u1, Bool.false_eq_true, if_false, if_true]
            rw [if_pos ⟨u2, by omega⟩]; rfl
          · simp only [List.length_drop]; omega
          · have e : c2.ptr + len = c.ptr + (pre.length + (lebBytes k len).length + len) := by omega
            rw [e, hdrop2 _ (by omega), hpre, hsp, ← List.append_assoc]
            rw [List.drop_append]
            simp
      · rw [seqResult_bad (by simp) ?_]
        swap
        · simp only [splitObu, hcond, hsz, hd2, sizedSplit, Bool.false_eq_true, if_false, if_true]
          cases hls : lebSplit 8 d1 with
          | none => rfl
          | some p =>
            obtain ⟨len, r⟩ := p
            have := u2 len r hls
            simp only
            rw [if_neg (by omega)]; rfl
        · have := loop_err (c := c) h2 (obuType h) true (Or.inr ⟨rfl, u1⟩) res
          unfold obuEnd at this
          simp only [if_true] at this
          rw [h3] at this
          exact this
      · simp [he] at u

end Dav1d
