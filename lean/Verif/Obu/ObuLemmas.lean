import Verif.Obu.ObuSpec
import Verif.Obu.SeqParseLoop
import Verif.Obu.FrameRange
/-!
# dav1d_parse_obus refines its byte-level description
-/
namespace Dav1d
open HProg
variable {κ : Type}

/-- The value a program returns does not depend on where the buffer starts. -/
theorem Prog.run_total {α : Type} (p : Prog α) : ∀ (s : BitSt) (t o : Nat),
    (p.run { s with total := t, over := o }).1 = (p.run s).1 := by
  induction p with
  | ret a => exact fun s t o => rfl
  | bit k ih => exact fun s t o => ih _ (s.advance 1) t _
  | bits n k ih => exact fun s t o => ih _ (s.advance n) t _
  | sbits n k ih => exact fun s t o => ih _ (s.advance n) t _
  | align k ih => exact fun s t o => ih s.align t _
  | err k ih => exact fun s t o => ih _ s t o
  | setErr k ih => exact fun s t o => ih { s with err := true } t o
  | restZero k ih => exact fun s t o => ih _ s t o
  | rest k ih => exact fun s t o => ih _ s t o

/-- Confining the reader to an initial part of the buffer at a byte boundary. -/
theorem rel_take {g : GetBits} {oe : Nat} (hb : g.bitsLeft = 0) (hst : g.state = 0) (hp : g.ptr ≤ oe) (ho : oe ≤ g.data.length)
    (he : g.error = false) {payload : List UInt8} (hd : (g.data.take oe).drop g.ptr = payload) :
    Rel { g with data := g.data.take oe } { total := 8 * oe, rem := bytesBits payload, over := 0, err := false } := by
  subst hd
  refine ⟨by simp [ho], he.symm, by simp; omega, ?_, Or.inl ⟨[], by simp [hb], by simp, by simp [hst, win_eq], by simp, rfl⟩⟩
  simp only [bytesBits_length, List.length_drop, List.length_take]; omega

/-! ## The reader never changes the buffer -/

theorem refillFinish_data {c c' : GetBits} {st} (h : c.refillFinish st = some c') : c'.data = c.data := by
  unfold GetBits.refillFinish at h
  split at h
  · cases h; rfl
  · cases h

theorem refillLoop_data (k : Nat) : ∀ {n : Int} {c c' : GetBits} {st}, c.data.length - c.ptr = k →
    GetBits.refillLoop n c st = some c' → c'.data = c.data := by
  induction k using Nat.strong_induction_on with
  | _ k ih =>
    intro n c c' st hk h
    unfold GetBits.refillLoop at h
    split at h
    · split at h
      · have := refillFinish_data h; exact this
      · cases h; rfl
    · rename_i hlt
      split at h
      · cases h
      · simp only at h
        split at h
        · have := ih _ (by rw [← hk]; show c.data.length - (c.ptr + 1) < _; omega) rfl h; exact this
        · have := refillFinish_data h; exact this

theorem getBitsRaw_data {c c' : GetBits} {n v} (h : c.getBitsRaw n = some (v, c')) : c'.data = c.data := by
  unfold GetBits.getBitsRaw at h
  split at h
  · split at h
    · cases h
    · rename_i c1 hc
      cases h
      split at hc
      · unfold GetBits.refill at hc
        split at hc
        · have := refillLoop_data _ rfl hc; exact this
        · cases hc
      · cases hc; rfl
  · cases h

theorem getBit_data {c c' : GetBits} {v} (h : c.getBit = some (v, c')) : c'.data = c.data := by
  unfold GetBits.getBit at h
  split at h
  · split at h
    · cases h
    · cases h; rfl
  · simp only [Option.some.injEq, Prod.mk.injEq] at h
    obtain ⟨_, h⟩ := h
    rw [← h]
    split <;> rfl

theorem Prog.runC_data {α : Type} (p : Prog α) : ∀ {c c' : GetBits} {a : α}, p.runC c = some (a, c') → c'.data = c.data := by
  induction p with
  | ret a => intro c c' a h; cases h; rfl
  | bit k ih =>
    intro c c' a h
    unfold runC at h
    split at h
    · cases h
    · rename_i hv; rw [ih _ h, getBit_data hv]
  | bits n k ih =>
    intro c c' a h
    unfold runC at h
    split at h
    · cases h
    · rename_i hv
      rw [ih _ h]
      unfold GetBits.getBits at hv
      split at hv
      · cases hv
      · rename_i h'; cases hv; exact getBitsRaw_data h'
  | sbits n k ih =>
    intro c c' a h
    unfold runC at h
    split at h
    · cases h
    · rename_i hv
      rw [ih _ h]
      unfold GetBits.getSBits at hv
      split at hv
      · cases hv
      · rename_i h'; cases hv; exact getBitsRaw_data h'
  | align k ih =>
    intro c c' a h
    unfold runC at h
    split at h
    · cases h
    · rename_i hv
      rw [ih h]
      unfold GetBits.byteAlign at hv
      split at hv
      · cases hv; rfl
      · cases hv
  | err k ih => intro c c' a h; exact ih _ h
  | setErr k ih => intro c c' a h; rw [ih h]
  | restZero k ih =>
    intro c c' a h
    unfold runC at h
    split at h
    · cases h
    · exact ih _ h
  | rest k ih => intro c c' a h; exact ih _ h

/-! ## The OBU header -/

theorem wf_readObuHdr (strict : Bool) : (readObuHdr strict).WF := by
  unfold readObuHdr
  refine Prog.wf_bind Prog.wf_getBit (fun b => ?_)
  split
  · trivial
  · refine Prog.wf_bind (Prog.wf_getBits (by omega) (by omega)) (fun _ => Prog.wf_bind Prog.wf_getFlag (fun _ =>
      Prog.wf_bind Prog.wf_getFlag (fun _ => Prog.wf_bind Prog.wf_getBit (fun _ => ?_))))
    split
    · exact Prog.wf_bind (Prog.wf_getBits (by omega) (by omega)) (fun _ => Prog.wf_bind (Prog.wf_getBits (by omega) (by omega))
        (fun _ => Prog.wf_bind (Prog.wf_getBits (by omega) (by omega)) (fun _ => trivial)))
    · trivial

theorem ext_split : ∀ x : Fin 256, natBits 8 x.val =
    natBits 3 (x.val / 32) ++ (natBits 2 (x.val / 8 % 4) ++ natBits 3 (x.val % 8)) := by decide +kernel

/-- Running the OBU header reader at a byte boundary. -/
theorem readObuHdr_run (strict : Bool) (s : BitSt) (h : UInt8) (d : List UInt8) (hs : s.rem = bytesBits (h :: d)) :
    ((strict && obuForbidden (h :: d)) = true ∧ ((readObuHdr strict).run s).1 = none) ∨
    ((strict && obuForbidden (h :: d)) = false ∧ ¬ (obuExt h = true ∧ d = []) ∧
      (readObuHdr strict).run s = (some (obuHdrOf (h :: d)), { s with rem := bytesBits (if obuExt h then d.tail else d) })) ∨
    ((strict && obuForbidden (h :: d)) = false ∧ (obuExt h = true ∧ d = []) ∧
      (∃ o, ((readObuHdr strict).run s).1 = some o) ∧ ((readObuHdr strict).run s).2.err = true) := by
  have hh := header_split ⟨h.toNat, h.toNat_lt⟩
  simp only at hh
  rw [bytesBits_cons, hh] at hs
  have r1 := Prog.reads_getBit (decide (h.toNat / 128 = 1))
  have r2 := Prog.reads_getBits (n := 4) (v := h.toNat / 8 % 16) (by omega)
  have r3 := Prog.reads_getFlag (decide (h.toNat / 4 % 2 = 1))
  have r4 := Prog.reads_getFlag (decide (h.toNat / 2 % 2 = 1))
  have r5 := Prog.reads_getBit (decide (h.toNat % 2 = 1))
  have e1 := r1 s _ (by rw [hs]; simp only [List.append_assoc]; rfl)
  have e2 := r2 _ _ (rfl : ({ s with rem := natBits 4 (h.toNat / 8 % 16) ++ ([decide (h.toNat / 4 % 2 = 1)] ++
      ([decide (h.toNat / 2 % 2 = 1)] ++ ([decide (h.toNat % 2 = 1)] ++ bytesBits d))) } : BitSt).rem = _)
  have e3 := r3 _ _ (rfl : ({ s with rem := [decide (h.toNat / 4 % 2 = 1)] ++
      ([decide (h.toNat / 2 % 2 = 1)] ++ ([decide (h.toNat % 2 = 1)] ++ bytesBits d)) } : BitSt).rem = _)
  have e4 := r4 _ _ (rfl : ({ s with rem := 
      [decide (h.toNat / 2 % 2 = 1)] ++ ([decide (h.toNat % 2 = 1)] ++ bytesBits d) } : BitSt).rem = _)
  have e5 := r5 _ _ (rfl : ({ s with rem := [decide (h.toNat % 2 = 1)] ++ bytesBits d } : BitSt).rem = _)
  have hf : ((decide (h.toNat / 128 = 1)).toNat ≠ 0) ↔ obuForbidden (h :: d) = true := by
    have := h.toNat_lt
    unfold obuForbidden
    by_cases h1 : h.toNat / 128 = 1
    · simp [h1]; omega
    · simp [h1]; omega
  unfold readObuHdr
  simp only [Prog.run_bind, e1, e2, e3, e4, e5]
  by_cases hsf : strict = true ∧ (decide (h.toNat / 128 = 1)).toNat ≠ 0
  · left
    rw [if_pos hsf]
    exact ⟨by rw [hsf.1, hf.1 hsf.2]; rfl, rfl⟩
  right
  have hsf' : (strict && obuForbidden (h :: d)) = false := by
    rw [Bool.eq_false_iff]; intro hc; rw [Bool.and_eq_true] at hc; exact hsf ⟨hc.1, hf.2 hc.2⟩
  rw [if_neg hsf]
  simp only [Prog.run_bind, e2, e3, e4, e5]
  by_cases hext : h.toNat / 4 % 2 = 1
  · have hx : obuExt h = true := by simp [obuExt, hext]
    simp only [hext, decide_true, if_true]
    cases d with
    | nil =>
      right
      refine ⟨hsf', ⟨hx, rfl⟩, ?_⟩
      simp only [Prog.run_bind, Prog.run_pure]
      refine ⟨⟨_, rfl⟩, ?_⟩
      simp [Prog.getBits, Prog.run, BitSt.advance]
    | cons x d =>
      left
      refine ⟨hsf', by simp, ?_⟩
      have hx8 := ext_split ⟨x.toNat, x.toNat_lt⟩
      simp only at hx8
      have q1 := Prog.reads_getBits (n := 3) (v := x.toNat / 32) (by have := x.toNat_lt; omega)
      have q2 := Prog.reads_getBits (n := 2) (v := x.toNat / 8 % 4) (by omega)
      have q3 := Prog.reads_getBits (n := 3) (v := x.toNat % 8) (by omega)
      have f1 := q1 { s with rem := bytesBits (x :: d) } _ (by
        simp only [bytesBits_cons, hx8, List.append_assoc]; rfl)
      have f2 := q2 _ _ (rfl : ({ s with rem := natBits 2 (x.toNat / 8 % 4) ++ (natBits 3 (x.toNat % 8) ++ bytesBits d) } : BitSt).rem = _)
      have f3 := q3 _ _ (rfl : ({ s with rem := natBits 3 (x.toNat % 8) ++ bytesBits d } : BitSt).rem = _)
      simp only [Prog.run_bind, f1, f2, f3, Prog.run_pure]
      simp [obuHdrOf, hx, obuType, obuHasSize, extTemporal, extSpatial]
  · have hx : obuExt h = false := by simp [obuExt, hext]
    simp only [hext, decide_false, Bool.false_eq_true, if_false, Prog.run_pure]
    left
    refine ⟨hsf', by simp [hx], ?_⟩
    rw [hx]
    cases d <;> simp [obuHdrOf, hx, obuType, obuHasSize]

/-! ## The switch asks for legal field widths only -/

/-- What holds of every header the context keeps. -/
structure DecOk (c : Dec κ) : Prop where
  seq : ∀ q, c.seq = some q → SeqAccepted q
  refs : ∀ i h, (c.refs i).p.hdr = some h → Accepted h
  hdr : ∀ h, c.frameHdr = some (.frame h) → Accepted h

theorem DecOk.ctx {c : Dec κ} (h : DecOk c) {q} (hq : c.seq = some q) (s : Settings) (t sp : Nat) :
    ReachableCtx (fhCtx s c q t sp) := .mk (h.seq q hq) (fun i x hx => h.refs i x hx)

theorem post_parseFrameHdr {c : FhCtx} (hc : ReachableCtx c) :
    Post (parseFrameHdr c) (fun r => ∀ h, r = .frame h → HdrOk c h) := by
  have hq := hc.ok.1
  unfold parseFrameHdr
  refine Post.bind (Legal.opt post_flag) (fun _ _ => ?_)
  refine Post.ite (fun _ => ?_) (fun _ => Post.bind hc.hdr (fun x hx => Post.pure (fun h hh => by cases hh; exact hx)))
  unfold parseShowExisting
  refine Post.bind (Legal.f (by omega) (by omega)) (fun idx _ => Post.bind (legal_presentationDelay hq) (fun _ _ => ?_))
  refine Post.ite (fun h => ?_) (fun _ => Post.pure (fun h hh => by cases hh))
  have := hq.ids h
  refine Post.bind (Legal.f (by omega) (by omega)) (fun _ _ => ?_)
  split
  · exact Post.fail
  · exact Post.bind Legal.reject (fun _ _ => Post.pure (fun h hh => by cases hh))

theorem Accepted.log2 {h : FrameHdr} (ha : Accepted h) : h.tiling.cols ≤ 2 ^ h.tiling.log2Cols ∧ h.tiling.log2Cols ≤ 6 ∧
    h.tiling.rows ≤ 2 ^ h.tiling.log2Rows ∧ h.tiling.log2Rows ≤ 6 := by
  cases ha with | mk hc he => exact (hc.hdr.exec he).tiling.log2

theorem wf_parseTileHdr {t : Tiling} (ht : t.cols ≤ 2 ^ t.log2Cols ∧ t.log2Cols ≤ 6 ∧ t.rows ≤ 2 ^ t.log2Rows ∧ t.log2Rows ≤ 6) :
    (parseTileHdr t).WF := by
  obtain ⟨h1, h2, h3, h4⟩ := ht
  unfold parseTileHdr
  dsimp only
  by_cases hn : t.cols * t.rows > 1
  · rw [if_pos hn]
    have hpos : 0 < t.log2Cols + t.log2Rows := by
      rcases Nat.eq_zero_or_pos (t.log2Cols + t.log2Rows) with h0 | h0
      · have a : t.log2Cols = 0 := by omega
        have b : t.log2Rows = 0 := by omega
        rw [a] at h1; rw [b] at h3
        have := Nat.mul_le_mul h1 h3
        simp at this; omega
      · exact h0
    refine Prog.wf_bind Prog.wf_getFlag (fun b => ?_)
    split
    · exact Prog.wf_bind (Prog.wf_getBits hpos (by omega)) (fun _ => Prog.wf_bind (Prog.wf_getBits hpos (by omega)) (fun _ => trivial))
    · trivial
  · rw [if_neg hn]; trivial

theorem wf_tileGroup (c : Dec κ) {h : FrameHdr} (props : Props) (ht : h.tiling.cols ≤ 2 ^ h.tiling.log2Cols ∧
    h.tiling.log2Cols ≤ 6 ∧ h.tiling.rows ≤ 2 ^ h.tiling.log2Rows ∧ h.tiling.log2Rows ≤ 6) : (tileGroup c h props).WF := by
  unfold tileGroup
  refine Prog.wf_bind (wf_parseTileHdr ht) (fun r => ?_)
  obtain ⟨a, b⟩ := r
  dsimp only
  refine Prog.wf_bind (show (Prog.byteAlign).WF from trivial) (fun _ => Prog.wf_bind (show (Prog.getErr).WF from fun _ => trivial) (fun e => ?_))
  split
  · trivial
  · refine Prog.wf_bind (show (Prog.getRest).WF from fun _ => trivial) (fun d => ?_)
    split <;> trivial

theorem legal_trailing (strict : Bool) : Legal (checkTrailingBits strict) := by
  unfold checkTrailingBits
  refine Post.bind post_flag (fun one _ => Post.bind (Post.rd (Q := fun _ => True) (fun _ => trivial)) (fun e _ =>
    Post.bind Legal.reject (fun _ _ => Post.ite (fun _ => ?_) (fun _ => Legal.pure))))
  exact Post.bind (Post.rd (Q := fun _ => True) (fun _ => trivial)) (fun e _ => Legal.reject)

theorem wf_checkTrailing (strict : Bool) : (OptionT.run (checkTrailingBits strict)).WF :=
  Post.wf (legal_trailing strict)

theorem wf_frameHdrCase {s : Settings} {c : Dec κ} (hc : DecOk c) (type t sp : Nat) (props : Props) :
    (frameHdrCase s c type t sp props).WF := by
  unfold frameHdrCase
  split
  · trivial
  · rename_i q hq
    unfold frameHdrBody
    refine Prog.WFP.wf (Q := fun _ => True) (Prog.WFP.bind (post_parseFrameHdr (hc.ctx hq s t sp)) (fun r hr => ?_))
    refine Prog.WF.wfp ?_
    split
    · trivial
    · rename_i h
      refine Prog.wf_bind ?_ (fun tt => ?_)
      · exact Post.wf (Legal.opt (legal_trailing _))
      · split
        · trivial
        · split
          · trivial
          · split
            · trivial
            · split
              · trivial
              · rename_i hh _
                exact Prog.wf_bind (show (Prog.byteAlign).WF from trivial) (fun _ => wf_tileGroup _ _ (hr _ rfl hh rfl).tiling.log2)

theorem wf_metaCase (s : Settings) (c : Dec κ) : (metaCase s c).WF := by
  unfold metaCase
  refine Prog.wf_bind Prog.wf_getUleb128 (fun _ => Prog.wf_bind (show (Prog.getErr).WF from fun _ => trivial) (fun e => ?_))
  split
  · trivial
  split
  · unfold cllCase
    refine Prog.wf_bind (Prog.wf_getBits (by omega) (by omega)) (fun _ => Prog.wf_bind (Prog.wf_getBits (by omega) (by omega)) (fun _ =>
      Prog.wf_bind (wf_checkTrailing _) (fun t => ?_)))
    split <;> trivial
  split
  · unfold mdcvCase
    repeat refine Prog.wf_bind (Prog.wf_getBits (by omega) (by omega)) (fun _ => ?_)
    refine Prog.wf_bind (wf_checkTrailing _) (fun t => ?_)
    split <;> trivial
  split
  · unfold t35Case
    refine Prog.wf_bind (show (Prog.getRest).WF from fun _ => trivial) (fun d => ?_)
    refine Prog.wf_bind (Prog.wf_getBits (by omega) (by omega)) (fun _ => ?_)
    refine Prog.wf_bind ?_ (fun _ => Prog.wf_bind (show (Prog.getRest).WF from fun _ => trivial) (fun d => ?_))
    · unfold t35Ext
      split
      · exact Prog.wf_getBits (by omega) (by omega)
      · trivial
    · dsimp only
      repeat' (first | trivial | split)
  · trivial

theorem wf_obuCase {s : Settings} {c : Dec κ} (hc : DecOk c) (type t sp : Nat) (props : Props) :
    (obuCase s c type t sp props).WF := by
  unfold obuCase
  split
  · unfold seqCase
    refine Prog.wf_bind (legal_seqHdr _).wf (fun r => ?_)
    split <;> trivial
  split
  · trivial
  split
  · exact wf_frameHdrCase hc type t sp props
  split
  · unfold tileGroupCase
    split
    · trivial
    · rename_i h hh
      exact wf_tileGroup _ _ (hc.hdr h hh).log2
    · trivial
  split
  · exact wf_metaCase s c
  split <;> trivial

/-! ## The whole function -/

/-- The part of dav1d_parse_obus after the OBU has been delimited. -/
def afterEnd (s : Settings) (env : Env κ) (c : Dec κ) (h : ObuHdr) (props : Props) (r : Option (Except Err Nat × GetBits)) :
    Option (Dec κ × Except Err Nat) :=
  match r with
  | none => none
  | some (.error _, _) => some (caseError c props .EINVAL)
  | some (.ok oe, g) =>
    if g.error then some (caseError c props .EINVAL)
    else if g.bitsLeft ≠ 0 then none
    else if dropObu c.opIdc h then some (c, .ok (g.data.take oe).length)
    else obuBody s env c h { g with data := g.data.take oe } props

theorem afterEnd_err {s : Settings} {env : Env κ} {c : Dec κ} {h : ObuHdr} {props : Props} {hasLen : Bool} {g : GetBits}
    {b : BitSt} (hr : Rel g b) (he : b.err = true) :
    afterEnd s env c h props (obuEnd hasLen g) = some (caseError c props .EINVAL) := by
  unfold obuEnd
  cases hasLen with
  | false =>
    have : g.error = true := by rw [← hr.err]; exact he
    simp [afterEnd, this]
  | true =>
    simp only [if_true]
    obtain ⟨g2, h1, h2⟩ := Prog.runC_spec _ Prog.wf_getUleb128 hr
    rw [h1]
    have : g2.error = true := by rw [← h2.err]; exact Prog.err_sticky _ _ he
    simp only
    split <;> simp [afterEnd, this]

theorem parseObus_eq (s : Settings) (env : Env κ) {c : Dec κ} (hc : DecOk c) (pkt : Packet) (hp : pkt.data ≠ []) :
    parseObus s env c pkt = stepObu s env c pkt := by
  obtain ⟨data, props⟩ := pkt
  obtain ⟨h, d, rfl⟩ := List.exists_cons_of_ne_nil hp
  have hrel := rel_init (h :: d)
  obtain ⟨g1, h1, h2⟩ := Prog.runC_spec _ (wf_readObuHdr s.strict) hrel
  have hd1 := Prog.runC_data _ h1
  have hun : parseObus s env c ⟨h :: d, props⟩ =
      match ((readObuHdr s.strict).run (BitSt.init (h :: d))).1 with
      | none => some (caseError c props .EINVAL)
      | some o => afterEnd s env c o props (obuEnd o.hasLen g1) := by
    unfold parseObus
    rw [h1]
    simp only
    generalize ((readObuHdr s.strict).run (BitSt.init (h :: d))).1 = o
    cases o with
    | none => rfl
    | some o =>
      simp only [afterEnd]
      generalize obuEnd o.hasLen g1 = r
      cases r with
      | none => rfl
      | some r =>
        obtain ⟨r, g⟩ := r
        cases r <;> rfl
  rw [hun]
  rcases readObuHdr_run s.strict (BitSt.init (h :: d)) h d rfl with ⟨hf, hr⟩ | ⟨hf, hne, hr⟩ | ⟨hf, hb, ⟨o, hr⟩, he⟩
  · rw [hr]
    unfold stepObu
    simp only
    split
    · rfl
    · rw [if_pos hf]
  swap
  · rw [hr]
    simp only
    rw [afterEnd_err h2 he]
    unfold stepObu
    simp [splitObu, hb.1, hb.2]
  rw [hr] at h2 ⊢
  simp only at h2 ⊢
  have hhl : (obuHdrOf (h :: d)).hasLen = obuHasSize h ∧ (obuHdrOf (h :: d)).type = obuType h := by
    cases d <;> (unfold obuHdrOf; simp only)
    · exact ⟨trivial, trivial⟩
    · split <;> exact ⟨rfl, rfl⟩
  rw [hhl.1]
  have hcond : (obuExt h && d.isEmpty) = false := by
    cases hx : obuExt h
    · simp
    · cases d with
      | nil => simp [hx] at hne
      | cons y d => simp
  generalize hd2 : (if obuExt h = true then d.tail else d) = d1 at *
  have hsuf : ∃ pre, h :: d = pre ++ d1 := by
    rw [← hd2]
    by_cases hx : obuExt h = true
    · rw [if_pos hx]
      cases d with
      | nil => simp [hx] at hne
      | cons y d => exact ⟨[h, y], by simp⟩
    · rw [if_neg hx]; exact ⟨[h], by simp⟩
  obtain ⟨pre, hpre⟩ := hsuf
  have hdat : (GetBits.init (h :: d)).data = h :: d := rfl
  rw [hdat] at hd1
  -- once the payload is delimited
  have fin : ∀ (g : GetBits) (b : BitSt) (front payload rest : List UInt8) (oe : Nat), Rel g b → b.err = false →
      b.rem = bytesBits (payload ++ rest) → g.data = h :: d → h :: d = front ++ (payload ++ rest) →
      oe = front.length + payload.length → splitObu (h :: d) = some (⟨obuType h, payload⟩, rest) →
      afterEnd s env c (obuHdrOf (h :: d)) props (some (.ok oe, g)) = stepObu s env c ⟨h :: d, props⟩ := by
    intro g b front payload rest oe hg he hrem hgd hsp hoe hsplit
    obtain ⟨k1, k2, k3⟩ := rel_aligned hg hrem he
    have kerr : g.error = false := by rw [← hg.err]; exact he
    have klen : (h :: d).length = front.length + (payload.length + rest.length) := by
      rw [hsp]; simp
    have kptr : g.ptr = front.length := by
      rw [hgd, klen] at k3; simp at k3; omega
    have ktake : (h :: d).take oe = front ++ payload := by
      rw [hsp, ← List.append_assoc, hoe, ← List.length_append, List.take_left']
      rfl
    have ktl : ((h :: d).take oe).length = (h :: d).length - rest.length := by
      rw [ktake, klen]; simp; omega
    unfold afterEnd stepObu
    simp only [hsplit, kerr, k1, hf, Bool.false_eq_true, if_false, ne_eq, not_true_eq_false]
    rw [hgd]
    by_cases hdrop : dropObu c.opIdc (obuHdrOf (h :: d)) = true
    · rw [if_pos hdrop, if_pos hdrop, ktl]
    · rw [if_neg hdrop, if_neg hdrop]
      unfold obuBody
      rw [hhl.2]
      have hrt : Rel { g with data := g.data.take oe } { total := 8 * oe, rem := bytesBits payload, over := 0, err := false } := by
        refine rel_take k1 k2 (by rw [kptr, hoe]; omega) (by rw [hgd, klen, hoe]; omega) kerr ?_
        rw [hgd, ktake, kptr]; simp
      rw [hgd, k1, kerr] at hrt
      obtain ⟨g3, q1, q2⟩ := Prog.runC_spec _ (wf_obuCase (s := s) hc (obuType h) (obuHdrOf (h :: d)).temporalId (obuHdrOf (h :: d)).spatialId props) hrt
      rw [q1]
      have hrt2 := Prog.run_total (obuCase s c (obuType h) (obuHdrOf (h :: d)).temporalId (obuHdrOf (h :: d)).spatialId props)
        (BitSt.init payload) (8 * oe) 0
      have hinit : ({ BitSt.init payload with total := 8 * oe, over := 0 } : BitSt) =
          { total := 8 * oe, rem := bytesBits payload, over := 0, err := false } := rfl
      rw [hinit] at hrt2
      rw [hrt2]
      generalize (Prog.run (obuCase s c (obuType h) (obuHdrOf (h :: d)).temporalId (obuHdrOf (h :: d)).spatialId props) (BitSt.init payload)).1 = r
      rcases r with _ | ⟨c', _ | e⟩
      · rfl
      · simp only [ktl]
        rcases finishObu s env c' props with _ | ⟨_, _ | _⟩ <;> rfl
      · rfl
  unfold obuEnd
  cases hsz : obuHasSize h with
  | false =>
    simp only [Bool.false_eq_true, if_false]
    refine fin g1 _ pre d1 [] _ h2 rfl (by simp) hd1 (by simpa using hpre) ?_ ?_
    · rw [hd1, hpre]; simp
    · simp [splitObu, hcond, hsz, hd2]
  | true =>
    simp only [if_true]
    obtain ⟨g2, h3, h4⟩ := Prog.runC_spec _ Prog.wf_getUleb128 h2
    have hd3 := Prog.runC_data _ h3
    rw [h3]
    simp only
    rcases uleb_run { BitSt.init (h :: d) with rem := bytesBits d1 } d1 rfl with ⟨len, r, u1, u2, u3⟩ | ⟨u1, u2⟩ | u
    · rw [u3] at h4 ⊢
      simp only at h4 ⊢
      obtain ⟨hb2, hst2, hptr2⟩ := rel_aligned h4 (d := r) rfl rfl
      obtain ⟨k, _, _, _, hsp⟩ := lebSplit_spec u1
      by_cases hlen : len > g2.data.length - g2.ptr
      · rw [if_pos hlen]
        have : splitObu (h :: d) = none := by
          simp only [splitObu, hcond, hsz, hd2, sizedSplit, u1, Bool.false_eq_true, if_false, if_true]
          rw [if_neg (by omega)]; rfl
        unfold afterEnd stepObu
        simp only [this]
      · rw [if_neg hlen]
        refine fin g2 _ (pre ++ lebBytes k len) (r.take len) (r.drop len) _ h4 rfl (by simp) (by rw [hd3, hd1]) ?_ ?_ ?_
        · rw [hpre, hsp]; simp
        · have : (h :: d).length = pre.length + ((lebBytes k len).length + r.length) := by rw [hpre, hsp]; simp
          rw [hd3, hd1, this] at hptr2 hlen
          simp only [List.length_append, List.length_take]
          omega
        · simp only [splitObu, hcond, hsz, hd2, sizedSplit, u1, Bool.false_eq_true, if_false, if_true]
          rw [if_pos ⟨u2, by omega⟩]; rfl
    · have hn : splitObu (h :: d) = none := by
        simp only [splitObu, hcond, hsz, hd2, sizedSplit, Bool.false_eq_true, if_false, if_true]
        cases hls : lebSplit 8 d1 with
        | none => rfl
        | some p =>
          obtain ⟨len, r⟩ := p
          have := u2 len r hls
          simp only
          rw [if_neg (by omega)]; rfl
      have he2 : g2.error = true := by rw [← h4.err]; exact u1
      unfold stepObu
      simp only [hn]
      split <;> simp [afterEnd, he2]
    · simp [BitSt.init] at u

end Dav1d
