import Verif.Obu.ObuLemmas
/-!
# What the switch of dav1d_parse_obus can do to the context
-/
namespace Dav1d
open HProg
variable {κ : Type}

/-- Outcomes of the tile group part. -/
inductive TileStep (c : Dec κ) (h : FrameHdr) (props : Props) : Dec κ × Option Err → Prop
  | bad : TileStep c h props (c, some .EINVAL)
  | clear : TileStep c h props ({ c with tiles := [], nTiles := 0 }, some .EINVAL)
  | add (last : Nat) (data : List UInt8) : c.nTiles ≤ last → last < max 1 (2 ^ (h.tiling.log2Cols + h.tiling.log2Rows)) →
      TileStep c h props ({ c with tiles := c.tiles ++ [⟨c.nTiles, last, data, props⟩],
                                   nTiles := last + 1 }, none)

/-- A result of the frame header parser in context `c`. -/
def HdrFrom (s : Settings) (c : Dec κ) (q : SeqHdr) (r : FrameHdrResult) : Prop :=
  ∃ t sp b b', (parseFrameHdr (fhCtx s c q t sp)).exec b = (some r, b')

/-- Outcomes of the switch. -/
inductive CaseStep (s : Settings) (c : Dec κ) (props : Props) : Dec κ × Option Err → Prop
  | same (e) : e ≠ some .ERANGE → e ≠ some .EAGAIN → CaseStep s c props (c, e)
  | seq (q) : SeqAccepted q → CaseStep s c props (activateSeq s c q, none)
  | noHdr : CaseStep s c props ({ c with frameHdr := none }, some .EINVAL)
  | dropHdr (e) : e ≠ .EAGAIN → CaseStep s c props ({ c with frameHdr := none, tiles := [], nTiles := 0 }, some e)
  | hdr (q r) : c.seq = some q → HdrFrom s c q r → (s.frameSizeLimit = 0 ∨ hdrPixels r ≤ s.frameSizeLimit) →
      CaseStep s c props ({ c with frameHdr := some r, tiles := [], nTiles := 0 }, none)
  | frame (q h x) : c.seq = some q → HdrFrom s c q (.frame h) → (s.frameSizeLimit = 0 ∨ hdrPixels (.frame h) ≤ s.frameSizeLimit) →
      TileStep { c with frameHdr := some (.frame h), tiles := [], nTiles := 0 } h props x → CaseStep s c props x
  | group (h x) : c.frameHdr = some (.frame h) → TileStep c h props x → CaseStep s c props x
  | noGroup : CaseStep s c props ({ c with tiles := [], nTiles := 0 }, some .EINVAL)
  | info (i) : CaseStep s c props ({ c with info := i }, none)
  | td : CaseStep s c props ({ c with frameFlags := { c.frameFlags with newTu := true } }, none)

theorem parseTileHdr_lt {t : Tiling} (ht : t.cols ≤ 2 ^ t.log2Cols ∧ t.rows ≤ 2 ^ t.log2Rows) (b : BitSt) :
    ((parseTileHdr t).run b).1.2 < max 1 (2 ^ (t.log2Cols + t.log2Rows)) := by
  have hn : t.cols * t.rows ≤ 2 ^ (t.log2Cols + t.log2Rows) := by
    rw [Nat.pow_add]; exact Nat.mul_le_mul ht.1 ht.2
  have hp : 0 < 2 ^ (t.log2Cols + t.log2Rows) := Nat.pow_pos (by omega)
  unfold parseTileHdr
  dsimp only
  have hlt : ∀ b : BitSt, ((Prog.getBits (t.log2Cols + t.log2Rows)).run b).1 < 2 ^ (t.log2Cols + t.log2Rows) :=
    fun b => by have := bitsVal_lt (b.peek (t.log2Cols + t.log2Rows)); rw [peek_length] at this; exact this
  by_cases h1 : t.cols * t.rows > 1
  · rw [if_pos h1, Prog.run_bind]
    split
    · simp only [Prog.run_bind, Prog.run_pure]
      have := hlt ((Prog.getBits (t.log2Cols + t.log2Rows)).run (Prog.run Prog.getFlag b).2).2
      omega
    · simp only [Prog.run_pure]; omega
  · rw [if_neg h1]
    simp only [Prog.run_bind, Prog.run_pure, Bool.false_eq_true, if_false]
    omega

theorem tileGroup_step (c : Dec κ) {h : FrameHdr} (ht : h.tiling.cols ≤ 2 ^ h.tiling.log2Cols ∧ h.tiling.rows ≤ 2 ^ h.tiling.log2Rows)
    (props : Props) (b : BitSt) : ∃ x, ((tileGroup c h props).run b).1 = some x ∧ TileStep c h props x := by
  unfold tileGroup
  rw [Prog.run_bind]
  have hlt := parseTileHdr_lt ht b
  generalize (parseTileHdr h.tiling).run b = r at hlt ⊢
  obtain ⟨⟨first, last⟩, b⟩ := r
  simp only [Prog.run_bind] at hlt ⊢
  split
  · exact ⟨_, rfl, .bad⟩
  · simp only [Prog.run_bind]
    split
    · exact ⟨_, rfl, .clear⟩
    · rename_i hh
      obtain ⟨hh1, hh2⟩ : first ≤ last ∧ first = c.nTiles := by
        refine ⟨by omega, ?_⟩
        by_contra h; exact hh (Or.inr h)
      subst hh2
      refine ⟨_, rfl, ?_⟩
      have : c.nTiles + (1 + last - c.nTiles) = last + 1 := by omega
      rw [this]
      exact .add _ _ hh1 hlt

theorem frameHdrCase_step {s : Settings} {c : Dec κ} (hc : DecOk c) (type t sp : Nat) (props : Props) (b : BitSt) :
    ∃ x, ((frameHdrCase s c type t sp props).run b).1 = some x ∧ CaseStep s c props x := by
  unfold frameHdrCase
  cases hq : c.seq with
  | none => exact ⟨_, rfl, .same _ (by simp) (by simp)⟩
  | some q =>
    simp only
    unfold frameHdrBody
    rw [Prog.run_bind]
    have hpost := post_parseFrameHdr (hc.ctx hq s t sp)
    have hex : ∀ r, ((OptionT.run (parseFrameHdr (fhCtx s c q t sp))).run b).1 = some r → HdrFrom s c q r ∧ ∀ h, r = .frame h →
        HdrOk (fhCtx s c q t sp) h := by
      intro r hr
      have : (parseFrameHdr (fhCtx s c q t sp)).exec b = (some r, ((parseFrameHdr (fhCtx s c q t sp)).exec b).2) :=
        Prod.ext hr rfl
      exact ⟨⟨t, sp, b, _, this⟩, hpost.exec this⟩
    generalize (OptionT.run (parseFrameHdr (fhCtx s c q t sp))).run b = res at hex ⊢
    obtain ⟨r, b⟩ := res
    cases r with
    | none => exact ⟨_, rfl, .noHdr⟩
    | some r =>
      obtain ⟨h1, h2⟩ := hex r rfl
      simp only [Prog.run_bind]
      generalize (OptionT.run (opt (type ≠ 6) (checkTrailingBits s.strict) ())).run b = res
      obtain ⟨o, b⟩ := res
      cases o with
      | none => exact ⟨_, rfl, .dropHdr _ (by simp)⟩
      | some u =>
        simp only
        by_cases hl : s.frameSizeLimit ≠ 0 ∧ hdrPixels r > s.frameSizeLimit
        · rw [if_pos hl]; exact ⟨_, rfl, .dropHdr _ (by simp)⟩
        rw [if_neg hl]
        have hl' : s.frameSizeLimit = 0 ∨ hdrPixels r ≤ s.frameSizeLimit := by omega
        split
        · exact ⟨_, rfl, .hdr q r hq h1 hl'⟩
        · split
          · exact ⟨_, rfl, .dropHdr _ (by simp)⟩
          · rename_i h
            rw [Prog.run_bind]
            have := (h2 h rfl).tiling.log2
            obtain ⟨x, e, hx⟩ := tileGroup_step { c with frameHdr := some (.frame h), tiles := [], nTiles := 0 } ⟨this.1, this.2.2.1⟩ props
              (Prog.run Prog.byteAlign b).2
            exact ⟨x, e, .frame q h x hq h1 hl' hx⟩

/-! ### T.35 -/

theorem t35Trim_le (d : List UInt8) : t35Trim d ≤ d.length := by
  unfold t35Trim
  have := (List.dropWhile_suffix (· == 0) (l := d.reverse)).length_le
  simpa using this

theorem restBytes_bytes {b : BitSt} {d : List UInt8} (h : b.rem = bytesBits d) : b.restBytes = d := by
  unfold BitSt.restBytes
  rw [h]; simp [packBytes_bytesBits]

/-- Reading a byte at a byte boundary. -/
theorem getByte_run {b : BitSt} {x : UInt8} {d : List UInt8} (h : b.rem = bytesBits (x :: d)) :
    (Prog.getBits 8).run b = (x.toNat, { b with rem := bytesBits d }) := by
  refine Prog.reads_getBits (n := 8) (v := x.toNat) (by have := x.toNat_lt; omega) b _ ?_
  rw [h, bytesBits_cons]

/-- What the T.35 case does to a message. -/
def t35Of (d : List UInt8) : Option T35 :=
  match d with
  | [] => none
  | cc :: d1 =>
    if cc = 255 then
      match d1 with
      | [] => none
      | x :: d2 =>
        if (t35Trim d : Int) - 3 ≤ 0 then none
        else if d2[t35Trim d - 3]? = some 0x80 then some ⟨255, x.toNat, d2.take (t35Trim d - 3)⟩ else none
    else if (t35Trim d : Int) - 2 ≤ 0 then none
    else if d1[t35Trim d - 2]? = some 0x80 then some ⟨cc.toNat, 0, d1.take (t35Trim d - 2)⟩ else none

/-- The context with a T.35 message added. -/
def addT35 (c : Dec κ) : Option T35 → Dec κ
  | none => c
  | some t => { c with info := { c.info with t35 := c.info.t35 ++ [t] } }

theorem t35Case_run (c : Dec κ) {b : BitSt} {d : List UInt8} (h : b.rem = bytesBits d) :
    ((t35Case c).run b).1 = some (addT35 c (t35Of d), none) := by
  unfold t35Case
  simp only [Prog.run_bind]
  have hr : Prog.getRest.run b = (d, b) := by
    show (b.restBytes, b) = _; rw [restBytes_bytes h]
  rw [hr]
  simp only
  have htl := t35Trim_le d
  cases d with
  | nil =>
    have : t35Trim ([] : List UInt8) = 0 := rfl
    simp only [this]
    rw [if_pos (by split <;> simp)]
    rfl
  | cons cc d1 =>
    rw [getByte_run h]
    simp only
    unfold t35Ext
    have hcc : (cc.toNat = 0xFF) ↔ cc = 255 := by
      constructor
      · intro hx; exact UInt8.toNat_inj.1 hx
      · intro hx; rw [hx]; rfl
    by_cases h255 : cc = 255
    · simp only [hcc.2 h255, if_true]
      cases d1 with
      | nil =>
        simp only [List.length_cons, List.length_nil] at htl
        rw [if_pos (by omega)]
        unfold t35Of
        simp [h255, addT35, Prog.run_pure]
      | cons x d2 =>
        rw [getByte_run (b := { b with rem := bytesBits (x :: d2) }) rfl]
        have hr2 : Prog.getRest.run { b with rem := bytesBits d2 } = (d2, { b with rem := bytesBits d2 }) := by
          show (BitSt.restBytes _, _) = _; rw [restBytes_bytes rfl]
        simp only [hr2]
        have hof : t35Of (cc :: x :: d2) = if (t35Trim (cc :: x :: d2) : Int) - 3 ≤ 0 then none
          else if d2[t35Trim (cc :: x :: d2) - 3]? = some 0x80 then some ⟨255, x.toNat, d2.take (t35Trim (cc :: x :: d2) - 3)⟩ else none := by
          unfold t35Of; simp [h255]
        rw [hof]
        generalize t35Trim (cc :: x :: d2) = n at htl ⊢
        simp only [List.length_cons] at htl
        have e1 : (n : Int) - 1 - 1 - 1 = (n : Int) - 3 := by omega
        rw [e1]
        by_cases hle : (n : Int) - 3 ≤ 0
        · rw [if_pos hle, if_pos hle]; rfl
        · rw [if_neg hle, if_neg hle]
          have e2 : ((n : Int) - 3).toNat = n - 3 := by omega
          rw [e2]
          have hlt : n - 3 < d2.length := by omega
          rw [List.getElem?_eq_getElem hlt]
          simp only
          by_cases hb : d2[n - 3] = 0x80
          · rw [if_neg (by simp [hb]), if_pos (by rw [hb])]; rfl
          · rw [if_pos hb, if_neg (by simpa using hb)]; rfl
    · have hcc' : ¬ cc.toNat = 0xFF := fun hx => h255 (hcc.1 hx)
      simp only [hcc', if_false, Prog.run_pure]
      have hr2 : Prog.getRest.run { b with rem := bytesBits d1 } = (d1, { b with rem := bytesBits d1 }) := by
        show (BitSt.restBytes _, _) = _; rw [restBytes_bytes rfl]
      simp only [hr2]
      have hof : t35Of (cc :: d1) = if (t35Trim (cc :: d1) : Int) - 2 ≤ 0 then none
        else if d1[t35Trim (cc :: d1) - 2]? = some 0x80 then some ⟨cc.toNat, 0, d1.take (t35Trim (cc :: d1) - 2)⟩ else none := by
        unfold t35Of; simp [h255]
      rw [hof]
      generalize t35Trim (cc :: d1) = n at htl ⊢
      simp only [List.length_cons] at htl
      have e1 : (n : Int) - 1 - 1 = (n : Int) - 2 := by omega
      rw [e1]
      by_cases hle : (n : Int) - 2 ≤ 0
      · rw [if_pos hle, if_pos hle]; rfl
      · rw [if_neg hle, if_neg hle]
        have e2 : ((n : Int) - 2).toNat = n - 2 := by omega
        rw [e2]
        have hlt : n - 2 < d1.length := by omega
        rw [List.getElem?_eq_getElem hlt]
        simp only
        by_cases hb : d1[n - 2] = 0x80
        · rw [if_neg (by simp [hb]), if_pos (by rw [hb])]; rfl
        · rw [if_pos hb, if_neg (by simpa using hb)]; rfl

theorem metaCase_step (s : Settings) (c : Dec κ) (props : Props) (payload : List UInt8) :
    ∃ x, ((metaCase s c).run (BitSt.init payload)).1 = some x ∧ CaseStep s c props x := by
  unfold metaCase
  simp only [Prog.run_bind]
  have herr : ∀ b : BitSt, Prog.getErr.run b = (b.err, b) := fun b => rfl
  rcases uleb_run (BitSt.init payload) payload rfl with ⟨len, r, u1, u2, u3⟩ | ⟨u1, u2⟩ | u
  · rw [u3]
    simp only [herr]
    have : (BitSt.init payload).err = false := rfl
    simp only [this, Bool.false_eq_true, if_false]
    split
    · unfold cllCase
      simp only [Prog.run_bind]
      split
      · exact ⟨_, rfl, .same _ (by simp) (by simp)⟩
      · exact ⟨_, rfl, .info _⟩
    split
    · unfold mdcvCase
      simp only [Prog.run_bind]
      split
      · exact ⟨_, rfl, .same _ (by simp) (by simp)⟩
      · exact ⟨_, rfl, .info _⟩
    split
    · rw [t35Case_run c rfl]
      refine ⟨_, rfl, ?_⟩
      unfold addT35
      split
      · exact .same _ (by simp) (by simp)
      · exact .info _
    · exact ⟨_, rfl, .same _ (by simp) (by simp)⟩
  · simp only [herr, u1, if_true]
    exact ⟨_, rfl, .same _ (by simp) (by simp)⟩
  · simp [BitSt.init] at u

theorem obuCase_step {s : Settings} {c : Dec κ} (hc : DecOk c) (type t sp : Nat) (props : Props) (payload : List UInt8) :
    ∃ x, ((obuCase s c type t sp props).run (BitSt.init payload)).1 = some x ∧ CaseStep s c props x := by
  unfold obuCase
  split
  · unfold seqCase
    simp only [Prog.run_bind]
    generalize hr : (OptionT.run (parseSeqHdr s.strict)).run (BitSt.init payload) = r
    obtain ⟨o, b⟩ := r
    cases o with
    | none => exact ⟨_, rfl, .same _ (by simp) (by simp)⟩
    | some q => exact ⟨_, rfl, .seq q ⟨_, _, _, hr⟩⟩
  split
  · exact ⟨_, rfl, .same _ (by simp) (by simp)⟩
  split
  · exact frameHdrCase_step hc type t sp props _
  split
  · unfold tileGroupCase
    split
    · exact ⟨_, rfl, .same _ (by simp) (by simp)⟩
    · rename_i h hh
      have := (hc.hdr h hh).log2
      obtain ⟨x, e, hx⟩ := tileGroup_step c ⟨this.1, this.2.2.1⟩ props (BitSt.init payload)
      exact ⟨x, e, .group h x hh hx⟩
    · exact ⟨_, rfl, .noGroup⟩
  split
  · exact metaCase_step s c props payload
  split
  · exact ⟨_, rfl, .td⟩
  · exact ⟨_, rfl, .same _ (by simp) (by simp)⟩

end Dav1d
