import Verif.Api.Model
import Verif.Obu.ObuStep
/-!
# The invariant of the decoder context
-/
namespace Dav1d
open HProg
variable {κ : Type}

/-- The picture was decoded from one of the frames in `l`. -/
def From (env : Env κ) (l : List (FrameIn κ)) (p : Pic κ) : Prop :=
  ∃ f ∈ l, p.seq = f.seq ∧ p.hdr = f.hdr ∧ p.content = env.dec f

theorem From.mono {env : Env κ} {l l' : List (FrameIn κ)} {p : Pic κ} (h : From env l p) : From env (l ++ l') p := by
  obtain ⟨f, hf, h⟩ := h
  exact ⟨f, List.mem_append_left _ hf, h⟩

/-- A picture to be handed out. -/
def OutOk (env : Env κ) (l : List (FrameIn κ)) (p : Pic κ) : Prop := p.content.isOk = true ∧ From env l p

/-- The properties of the packet with the first tile group of the frame. -/
def frameProps (f : FrameIn κ) : Props := (f.tiles.head?.map (·.props)).getD 0

/-- A decoding error recorded in a frame context belongs to the picture there, which has the properties of the packet. -/
structure SlotOk (env : Env κ) (l : List (FrameIn κ)) (sl : Slot κ) : Prop where
  err : ∀ e, sl.retval = some e → ∃ p, sl.pic = some p ∧ p.content = .error e
  pic : ∀ p, sl.pic = some p → From env l p
  props : ∀ e, sl.retval = some e → ∃ f ∈ l, env.dec f = .error e ∧ sl.pic.map (·.props) = some (frameProps f)

/-- The scalability information of the operating point asked for, or of the first one if there are not that
many. -/
def chosenIdc (s : Settings) (q : SeqHdr) : Nat :=
  ((if s.operatingPoint < q.ops.length then q.ops[s.operatingPoint]? else q.ops[0]?).map (·.idc)).getD 0

/-- What holds between any two API calls and between any two OBUs. -/
structure Inv (s : Settings) (env : Env κ) (c : Dec κ) : Prop where
  seq : ∀ q, c.seq = some q → SeqAccepted q
  op : ∀ q, c.seq = some q → c.opIdc = chosenIdc s q ∧ c.maxSpatialId = maxSpatialOf c.opIdc
  refs : ∀ i h, (c.refs i).p.hdr = some h → Accepted h
  hdr : ∀ h, c.frameHdr = some (.frame h) → Accepted h
  limit : ∀ r, c.frameHdr = some r → s.frameSizeLimit = 0 ∨ hdrPixels r ≤ s.frameSizeLimit
  hdrFor : ∀ q h, c.seq = some q → c.frameHdr = some (.frame h) → HdrFor q h
  cover : ∀ h, c.frameHdr = some (.frame h) → Covers c.tiles 0 c.nTiles ∧ c.nTiles ≤ 2 ^ (h.tiling.log2Cols + h.tiling.log2Rows)
  decoded : ∀ f ∈ c.decoded, Submittable s f
  out : ∀ p, c.out = some p → OutOk env c.decoded p
  cache : ∀ p, c.cache = some p → OutOk env c.decoded p
  sync : s.nFc = 1 → ∀ i p, (c.refs i).p = .pic p → p.content.isOk = true
  pics : ∀ i p, (c.refs i).p = .pic p → From env c.decoded p
  skipped : ∀ i h, (c.refs i).p = .hdrOnly h → skipShown s h.base.frameType = true
  slots : ∀ i, SlotOk env c.decoded (c.ring i)
  input : ∀ p, c.input = some p → p.data ≠ []

theorem Inv.ok {s : Settings} {env : Env κ} {c : Dec κ} (h : Inv s env c) : DecOk c := ⟨h.seq, h.refs, h.hdr⟩

theorem Inv.init (s : Settings) (env : Env κ) : Inv s env (Dec.init : Dec κ) where
  seq := fun _ h => by cases h
  op := fun _ h => by cases h
  refs := fun _ _ h => by cases h
  hdr := fun _ h => by cases h
  limit := fun _ h => by cases h
  hdrFor := fun _ _ h => by cases h
  cover := fun _ h => by cases h
  decoded := fun _ h => by cases h
  out := fun _ h => by cases h
  cache := fun _ h => by cases h
  sync := fun _ _ _ h => by cases h
  pics := fun _ _ h => by cases h
  skipped := fun _ _ h => by cases h
  slots := fun _ => ⟨fun _ h => (by cases h), fun _ h => (by cases h), fun _ h => (by cases h)⟩
  input := fun _ h => by cases h

/-! ## Headers -/

theorem parseFrameHdr_frame {c : FhCtx} {b b' : BitSt} {h : FrameHdr} (he : (parseFrameHdr c).exec b = (some (.frame h), b')) :
    ∃ b1, (parseNewFrameHdr c).exec b1 = (some h, b') := by
  unfold parseFrameHdr at he
  rw [exec_bind] at he
  generalize (opt (¬c.seq.reducedStillPictureHeader = true) flag false).exec b = r at he
  obtain ⟨o, b1⟩ := r
  cases o with
  | none => simp at he
  | some e =>
    simp only at he
    cases e with
    | true =>
      simp only [if_true] at he
      exfalso
      unfold parseShowExisting at he
      rw [exec_bind] at he
      split at he
      · simp at he
      · rw [exec_bind] at he
        split at he
        · simp at he
        · split at he
          · rw [exec_bind] at he
            split at he
            · simp at he
            · split at he
              · simp at he
              · rw [exec_bind] at he
                split at he
                · simp at he
                · simp at he
          · simp at he
    | false =>
      simp only [Bool.false_eq_true, if_false] at he
      rw [exec_bind] at he
      refine ⟨b1, ?_⟩
      generalize (parseNewFrameHdr c).exec b1 = r at he ⊢
      obtain ⟨o, b2⟩ := r
      cases o with
      | none => simp at he
      | some x => simp [exec_pure] at he; simp [he]

theorem HdrFrom.hdrFor {s : Settings} {c : Dec κ} {q h} (hc : DecOk c) (hq : c.seq = some q) (hf : HdrFrom s c q (.frame h)) :
    HdrFor q h ∧ Accepted h := by
  obtain ⟨t, sp, b, b', he⟩ := hf
  obtain ⟨b1, he⟩ := parseFrameHdr_frame he
  exact ⟨⟨_, _, _, hc.ctx hq s t sp, rfl, he⟩, .mk (hc.ctx hq s t sp) he⟩

theorem Covers.append {l : List TileGroup} {b last : Nat} {d : List UInt8} {p : Props} : ∀ {a : Nat}, Covers l a b → b ≤ last →
    Covers (l ++ [⟨b, last, d, p⟩]) a (last + 1) := by
  induction l with
  | nil => intro a h hl; exact ⟨h.symm, hl, rfl⟩
  | cons g l ih => intro a h hl; exact ⟨h.1, h.2.1, ih h.2.2 hl⟩

/-! ## The switch -/

theorem Inv.tileStep {s : Settings} {env : Env κ} {c : Dec κ} (h : Inv s env c) {hd props x} (hh : c.frameHdr = some (.frame hd))
    (hx : TileStep c hd props x) : Inv s env x.1 ∧ x.1.out = c.out ∧ x.1.cachedError = c.cachedError ∧ x.1.next = c.next := by
  cases hx with
  | bad => exact ⟨h, rfl, rfl, rfl⟩
  | clear =>
    exact ⟨⟨h.seq, h.op, h.refs, h.hdr, h.limit, h.hdrFor, fun _ _ => ⟨rfl, Nat.zero_le _⟩, h.decoded, h.out, h.cache, h.sync, h.pics, h.skipped, h.slots, h.input⟩, rfl, rfl, rfl⟩
  | add last data h1 h2 =>
    refine ⟨⟨h.seq, h.op, h.refs, h.hdr, h.limit, h.hdrFor, fun x hx => ⟨(h.cover x hx).1.append h1, ?_⟩, h.decoded, h.out, h.cache, h.sync, h.pics, h.skipped, h.slots, h.input⟩, rfl, rfl, rfl⟩
    rw [hh] at hx
    cases hx
    have := Nat.two_pow_pos (hd.tiling.log2Cols + hd.tiling.log2Rows)
    simp only
    omega

theorem Inv.newHdr {s : Settings} {env : Env κ} {c : Dec κ} (h : Inv s env c) {q r} (hq : c.seq = some q) (hf : HdrFrom s c q r)
    (hl : s.frameSizeLimit = 0 ∨ hdrPixels r ≤ s.frameSizeLimit) :
    Inv s env { c with frameHdr := some r, tiles := [], nTiles := 0 } := by
  refine ⟨h.seq, h.op, h.refs, ?_, ?_, ?_, fun _ _ => ⟨rfl, Nat.zero_le _⟩, h.decoded, h.out, h.cache, h.sync, h.pics, h.skipped, h.slots, h.input⟩
  · intro hd he
    simp only [Option.some.injEq] at he; subst he
    exact (hf.hdrFor h.ok hq).2
  · intro r' he
    simp only [Option.some.injEq] at he; subst he
    exact hl
  · intro q' hd hq' he
    simp only [Option.some.injEq] at he; subst he
    rw [hq] at hq'; cases hq'
    exact (hf.hdrFor h.ok hq).1

theorem Inv.noHdr {s : Settings} {env : Env κ} {c : Dec κ} (h : Inv s env c) : Inv s env { c with frameHdr := none } :=
  ⟨h.seq, h.op, h.refs, fun _ he => (by cases he), fun _ he => (by cases he), fun _ _ _ he => (by cases he), fun _ he => (by cases he),
    h.decoded, h.out, h.cache, h.sync, h.pics, h.skipped, h.slots, h.input⟩

theorem Inv.activate {s : Settings} {env : Env κ} {c : Dec κ} (h : Inv s env c) {q} (hq : SeqAccepted q) : Inv s env (activateSeq s c q) := by
  unfold activateSeq
  have hop : ∀ q', some q = some q' → (q.ops[if s.operatingPoint < q.ops.length then s.operatingPoint else 0]?.map (·.idc)).getD 0 =
      chosenIdc s q' ∧ maxSpatialOf ((q.ops[if s.operatingPoint < q.ops.length then s.operatingPoint else 0]?.map (·.idc)).getD 0) =
      maxSpatialOf ((q.ops[if s.operatingPoint < q.ops.length then s.operatingPoint else 0]?.map (·.idc)).getD 0) := by
    intro q' he; cases he
    refine ⟨?_, rfl⟩
    unfold chosenIdc
    split <;> rfl
  have hseq : ∀ q', some q = some q' → SeqAccepted q' := fun q' he => by cases he; exact hq
  dsimp only
  split
  · exact ⟨hseq, hop, h.refs, fun _ he => (by cases he), fun _ he => (by cases he), fun _ _ _ he => (by cases he), fun _ he => (by cases he),
      h.decoded, h.out, h.cache, h.sync, h.pics, h.skipped, h.slots, h.input⟩
  · rename_i q' hq'
    split
    · refine ⟨hseq, hop, ?_, fun _ he => (by cases he), fun _ he => (by cases he), fun _ _ _ he => (by cases he), fun _ he => (by cases he),
        h.decoded, h.out, h.cache, ?_, ?_, ?_, h.slots, h.input⟩
      · intro i hd
        simp only
        split
        · intro he; cases he
        · exact h.refs i hd
      · intro h1 i p
        simp only
        split
        · intro he; cases he
        · exact h.sync h1 i p
      · intro i p
        simp only
        split
        · intro he; cases he
        · exact h.pics i p
      · intro i p
        simp only
        split
        · intro he; cases he
        · exact h.skipped i p
    · rename_i hcore
      rw [not_not] at hcore
      have hfor : ∀ q1 hd, some q = some q1 → c.frameHdr = some (.frame hd) → HdrFor q1 hd := by
        intro q1 hd he hh
        cases he
        obtain ⟨c0, b, b', k1, k2, k3⟩ := h.hdrFor q' hd hq' hh
        exact ⟨c0, b, b', k1, k2.trans hcore.symm, k3⟩
      split
      · exact ⟨hseq, hop, h.refs, h.hdr, h.limit, hfor, h.cover, h.decoded, h.out, h.cache, h.sync, h.pics, h.skipped, h.slots, h.input⟩
      · exact ⟨hseq, hop, h.refs, h.hdr, h.limit, hfor, h.cover, h.decoded, h.out, h.cache, h.sync, h.pics, h.skipped, h.slots, h.input⟩

theorem activate_out (s : Settings) (c : Dec κ) (q : SeqHdr) : (activateSeq s c q).out = c.out ∧
    (activateSeq s c q).cachedError = c.cachedError ∧ (activateSeq s c q).next = c.next := by
  unfold activateSeq
  dsimp only
  split
  · exact ⟨rfl, rfl, rfl⟩
  · split
    · exact ⟨rfl, rfl, rfl⟩
    · split <;> exact ⟨rfl, rfl, rfl⟩

theorem Inv.caseStep {s : Settings} {env : Env κ} {c : Dec κ} (h : Inv s env c) {props x} (hx : CaseStep s c props x) :
    Inv s env x.1 ∧ x.1.out = c.out ∧ x.1.cachedError = c.cachedError ∧ x.1.next = c.next := by
  cases hx with
  | same e _ => exact ⟨h, rfl, rfl, rfl⟩
  | seq q hq => exact ⟨h.activate hq, activate_out s c q⟩
  | noHdr => exact ⟨h.noHdr, rfl, rfl, rfl⟩
  | dropHdr e =>
    exact ⟨⟨h.seq, h.op, h.refs, fun _ he => (by cases he), fun _ he => (by cases he), fun _ _ _ he => (by cases he), fun _ he => (by cases he),
      h.decoded, h.out, h.cache, h.sync, h.pics, h.skipped, h.slots, h.input⟩, rfl, rfl, rfl⟩
  | hdr q r hq hf hl => exact ⟨h.newHdr hq hf hl, rfl, rfl, rfl⟩
  | frame q hd x hq hf hl hx =>
    have := (h.newHdr hq hf hl).tileStep rfl hx
    exact this
  | group hd x hh hx => exact h.tileStep hh hx
  | noGroup =>
    exact ⟨⟨h.seq, h.op, h.refs, h.hdr, h.limit, h.hdrFor, fun _ _ => ⟨rfl, Nat.zero_le _⟩, h.decoded, h.out, h.cache, h.sync, h.pics, h.skipped, h.slots, h.input⟩, rfl, rfl, rfl⟩
  | info i => exact ⟨⟨h.seq, h.op, h.refs, h.hdr, h.limit, h.hdrFor, h.cover, h.decoded, h.out, h.cache, h.sync, h.pics, h.skipped, h.slots, h.input⟩, rfl, rfl, rfl⟩
  | td => exact ⟨⟨h.seq, h.op, h.refs, h.hdr, h.limit, h.hdrFor, h.cover, h.decoded, h.out, h.cache, h.sync, h.pics, h.skipped, h.slots, h.input⟩, rfl, rfl, rfl⟩

/-! ## Emptying a frame context -/

theorem slotOk_none (env : Env κ) (l : List (FrameIn κ)) {sl : Slot κ} (h : sl.retval = none) (hp : sl.pic = none) : SlotOk env l sl :=
  ⟨fun e he => (by rw [h] at he; cases he), fun p he => (by rw [hp] at he; cases he), fun e he => (by rw [h] at he; cases he)⟩

theorem ringPop_cases (s : Settings) {c : Dec κ} (hout : c.out = none) : ∃ ce ep ev o rg,
    ringPop s c = some { c with next := ringNext s.nFc c.next, cachedError := ce, errProps := ep, eventFlags := ev, out := o, ring := rg } ∧
    (∀ p, o = some p → p.content.isOk = true ∧ (c.ring c.next).pic = some p) ∧
    (∀ env l, (∀ i, SlotOk env l (c.ring i)) → ∀ i, SlotOk env l (rg i)) ∧
    (rg c.next).pic = none ∧ (rg c.next).retval = none := by
  unfold ringPop
  dsimp only
  have hslot : ∀ (sl : Slot κ), sl.retval = none → sl.pic = none → ∀ env l, (∀ i, SlotOk env l (c.ring i)) →
      ∀ i, SlotOk env l (if i = c.next then sl else c.ring i) := by
    intro sl h1 h1' env l h2 i; split
    · exact slotOk_none env l h1 h1'
    · exact h2 i
  split
  · rename_i e he
    refine ⟨_, _, _, _, _, rfl, ?_, hslot _ rfl rfl, by simp, by simp⟩
    intro p hp; rw [hout] at hp; cases hp
  · rename_i hr
    split
    · rename_i hp
      refine ⟨_, _, _, _, _, rfl, ?_, fun _ _ h => h, hp, hr⟩
      intro p hp; rw [hout] at hp; cases hp
    · rename_i p hp
      unfold showDelayed
      split
      · rename_i hsh
        refine ⟨c.cachedError, c.errProps, addFlags c.eventFlags p.flags, some p, fun i => if i = c.next then { c.ring c.next with pic := none } else c.ring i, ?_, ?_, hslot { c.ring c.next with pic := none } hr rfl, by simp, by simpa using hr⟩
        · unfold setOut setSlot; dsimp only; rw [hout]
        · intro p' hp'; cases hp'
          unfold Pic.shown at hsh; simp at hsh; exact ⟨hsh.2, hp⟩
      · refine ⟨_, _, _, _, _, rfl, ?_, hslot { c.ring c.next with pic := none } hr rfl, by simp, by simpa using hr⟩
        intro p hp; rw [hout] at hp; cases hp

theorem Inv.ringPop {s : Settings} {env : Env κ} {c : Dec κ} (h : Inv s env c) (hout : c.out = none) : ∃ c', ringPop s c = some c' ∧ Inv s env c' ∧
    c'.frameHdr = c.frameHdr ∧ c'.seq = c.seq ∧ c'.refs = c.refs ∧ c'.tiles = c.tiles ∧ c'.nTiles = c.nTiles ∧
    c'.info = c.info ∧ c'.frameFlags = c.frameFlags ∧ c'.decoded = c.decoded ∧ (c'.ring c.next).retval = none := by
  obtain ⟨ce, ep, ev, o, rg, h1, h2, h3, _, h5⟩ := ringPop_cases s hout
  exact ⟨_, h1, ⟨h.seq, h.op, h.refs, h.hdr, h.limit, h.hdrFor, h.cover, h.decoded, fun p hp => ⟨(h2 p hp).1, (h.slots _).pic p (h2 p hp).2⟩,
    h.cache, h.sync, h.pics, h.skipped, h3 env _ h.slots, h.input⟩, rfl, rfl, rfl, rfl, rfl, rfl, rfl, rfl, h5⟩

/-! ## dav1d_submit_frame -/

theorem Inv.submitError {s : Settings} {env : Env κ} {c : Dec κ} (h : Inv s env c) (i : Nat) (hi : (c.ring i).retval = none) (props : Props) (e : Err) :
    Inv s env (submitError s c i props e).1 := by
  unfold Dav1d.submitError
  dsimp only
  split
  · exact ⟨h.seq, h.op, h.refs, h.hdr, h.limit, h.hdrFor, h.cover, h.decoded, fun _ he => (by cases he), h.cache, h.sync, h.pics, h.skipped, h.slots, h.input⟩
  · refine ⟨h.seq, h.op, h.refs, h.hdr, h.limit, h.hdrFor, h.cover, h.decoded, h.out, h.cache, h.sync, h.pics, h.skipped, ?_, h.input⟩
    intro j
    simp only [setSlot]
    split
    · exact slotOk_none _ _ hi rfl
    · exact h.slots j

theorem refFits_of_usable {q : SeqHdr} {h : FrameHdr} {r : RefPic κ} (hu : refUnusable q h r = false) :
    ∃ p, r = .pic p ∧ RefFits q h p := by
  unfold refUnusable at hu
  cases r with
  | empty => simp at hu
  | hdrOnly _ => simp at hu
  | pic p =>
    simp only [Bool.or_eq_false_iff, decide_eq_false_iff_not, bne_eq_false_iff_eq] at hu
    obtain ⟨⟨⟨⟨⟨h1, h2⟩, h3⟩, h4⟩, h5⟩, h6⟩ := hu
    exact ⟨p, rfl, by omega, by omega, by omega, by omega, h5.symm, h6.symm⟩

theorem selected_of_not_skip {s : Settings} {h : FrameHdr} (h3 : h.base.frameType ≤ 3) (hs : skipFrame s h = false) :
    Selected s.decodeFrameType h := by
  unfold skipFrame at hs
  unfold Selected
  split at hs
  · simp at hs
    by_cases h0 : s.decodeFrameType = 0
    · exact Or.inr (Or.inl h0)
    · exact Or.inr (Or.inr (Or.inl ⟨by omega, hs.2 (by omega)⟩))
  · split at hs
    · rename_i h2
      simp at hs
      by_cases h0 : s.decodeFrameType = 0
      · exact Or.inr (Or.inl h0)
      · by_cases h1 : s.decodeFrameType = 1
        · exact Or.inr (Or.inr (Or.inl ⟨h1, hs.2 h1⟩))
        · exact Or.inr (Or.inr (Or.inr ⟨by omega, h2⟩))
    · left; omega

theorem Inv.submitFrame {s : Settings} {env : Env κ} {c : Dec κ} (h : Inv s env c) (hout : c.out = none) {q hd} (hq : c.seq = some q)
    (hh : c.frameHdr = some (.frame hd)) (hn : c.nTiles = hd.tiling.cols * hd.tiling.rows) (hs : skipFrame s hd = false) (props : Props) :
    ∃ x, submitFrame s env c q hd props = some x ∧ Inv s env x.1 ∧ (x.2 = none → x.1.tiles = []) := by
  unfold Dav1d.submitFrame
  dsimp only
  have hpop : ∃ c', (if s.nFc = 1 then some c else Dav1d.ringPop s c) = some c' ∧ Inv s env c' ∧ c'.frameHdr = c.frameHdr ∧ c'.seq = c.seq ∧
      c'.refs = c.refs ∧ c'.tiles = c.tiles ∧ c'.nTiles = c.nTiles ∧ (s.nFc ≠ 1 → (c'.ring c.next).retval = none) ∧ (s.nFc = 1 → c'.out = none) := by
    split
    · exact ⟨c, rfl, h, rfl, rfl, rfl, rfl, rfl, fun h => absurd (by assumption) h, fun _ => hout⟩
    · obtain ⟨c', h1, h2, h3, h4, h5, h6, h7, _, _, _, h8⟩ := h.ringPop hout
      exact ⟨c', h1, h2, h3, h4, h5, h6, h7, fun _ => h8, fun h => absurd h (by assumption)⟩
  obtain ⟨c1, e1, i1, f1, f2, f3, f4, f5, f6, f7⟩ := hpop
  rw [e1]
  simp only
  have hcov := (h.cover hd hh).1
  rw [hn] at hcov
  have hacc := h.hdr hd hh
  have hfor := h.hdrFor q hd hq hh
  have hlim := h.limit _ hh
  have hseqa := h.seq q hq
  clear e1 h
  generalize c.next = i at f6 ⊢
  have subErr : ∀ (c' : Dec κ) (e : Err), Inv s env c' → c'.ring = c1.ring → ∃ x, some (Dav1d.submitError s c' i props e) = some x ∧ Inv s env x.1 ∧ (x.2 = none → x.1.tiles = []) := by
    intro c' e hi hr
    refine ⟨_, rfl, ?_, ?_⟩
    · by_cases h1 : s.nFc = 1
      · unfold Dav1d.submitError
        dsimp only
        rw [if_pos h1]
        exact ⟨hi.seq, hi.op, hi.refs, hi.hdr, hi.limit, hi.hdrFor, hi.cover, hi.decoded, fun _ he => (by cases he), hi.cache, hi.sync, hi.pics, hi.skipped, hi.slots, hi.input⟩
      · exact hi.submitError i (by rw [hr]; exact f6 h1) props e
    · unfold Dav1d.submitError
      dsimp only
      split <;> (intro h; cases h)
  have inv2 : Inv s env { c1 with frameHdr := none, submitted := c1.submitted + 1 } :=
    ⟨i1.seq, i1.op, i1.refs, fun _ he => (by cases he), fun _ he => (by cases he), fun _ _ _ he => (by cases he), fun _ he => (by cases he),
      i1.decoded, i1.out, i1.cache, i1.sync, i1.pics, i1.skipped, i1.slots, i1.input⟩
  split
  · exact subErr _ _ inv2 rfl
  rename_i hus
  split
  · exact subErr _ _ inv2 rfl
  have inv3 : Inv s env { c1 with frameHdr := none, submitted := c1.submitted + 1, tiles := [] } :=
    ⟨i1.seq, i1.op, i1.refs, fun _ he => (by cases he), fun _ he => (by cases he), fun _ _ _ he => (by cases he), fun _ he => (by cases he),
      i1.decoded, i1.out, i1.cache, i1.sync, i1.pics, i1.skipped, i1.slots, i1.input⟩
  split
  · exact subErr _ _ inv3 rfl
  have hsub : Submittable s { seq := q, hdr := hd, tiles := c1.tiles, refs := c1.refs } := by
    refine ⟨hseqa, hfor, by rw [f4]; exact hcov, hlim, ?_, selected_of_not_skip hacc.ok.frameType hs⟩
    intro hty r hr
    refine refFits_of_usable ?_
    have hus' : refsUnusable q hd c1.refs = false := by simpa using hus
    unfold refsUnusable isInterOrSwitch at hus'
    rw [decide_eq_true hty, Bool.true_and, List.any_eq_false] at hus'
    have := hus' r hr
    simpa using this
  have inv4 : ∀ ff info, Inv s env { c1 with frameHdr := none, submitted := c1.submitted + 1, tiles := [], frameFlags := ff, info := info, decoded := c1.decoded ++ [{ seq := q, hdr := hd, tiles := c1.tiles, refs := c1.refs }] } := by
    intro ff info
    refine ⟨i1.seq, i1.op, i1.refs, fun _ he => (by cases he), fun _ he => (by cases he), fun _ _ _ he => (by cases he), fun _ he => (by cases he),
      ?_, fun p hp => ⟨(i1.out p hp).1, (i1.out p hp).2.mono⟩, fun p hp => ⟨(i1.cache p hp).1, (i1.cache p hp).2.mono⟩, i1.sync,
      fun i p hp => (i1.pics i p hp).mono, i1.skipped, fun i => ⟨(i1.slots i).err, fun p hp => ((i1.slots i).pic p hp).mono,
        fun e he => let ⟨f, h1, h2⟩ := (i1.slots i).props e he; ⟨f, List.mem_append_left _ h1, h2⟩⟩, i1.input⟩
    intro f hf
    rw [List.mem_append, List.mem_singleton] at hf
    rcases hf with hf | hf
    · exact i1.decoded f hf
    · rw [hf]; exact hsub
  generalize hp : newPic _ q hd _ (env.dec _) = p
  have hphdr : p.hdr = hd := by rw [← hp]; rfl
  have hfrom : From env (c1.decoded ++ [{ seq := q, hdr := hd, tiles := c1.tiles, refs := c1.refs }]) p := by
    refine ⟨_, List.mem_append_right _ (List.mem_singleton_self _), ?_, ?_, ?_⟩ <;> rw [← hp] <;> rfl
  unfold afterAlloc
  dsimp only
  split
  · exact subErr _ _ (inv4 _ _) rfl
  have href : ∀ j h, (refreshRefs hd p c1.refs j).p.hdr = some h → Accepted h := by
    intro j h
    unfold refreshRefs
    split
    · intro he; simp only [RefPic.hdr, Option.some.injEq] at he; rw [← he, hphdr]; exact hacc
    · exact i1.refs j h
  have hdrop : ∀ j h, (dropRefs hd c1.refs j).p.hdr = some h → Accepted h := by
    intro j h
    unfold dropRefs
    split
    · intro he; cases he
    · exact i1.refs j h
  have hdrop2 : s.nFc = 1 → ∀ j p', (dropRefs hd c1.refs j).p = .pic p' → p'.content.isOk = true := by
    intro h1 j p'
    unfold dropRefs
    split
    · intro he; cases he
    · exact i1.sync h1 j p'
  have hdrop3 : ∀ j p', (dropRefs hd c1.refs j).p = .pic p' → From env (c1.decoded ++ [{ seq := q, hdr := hd, tiles := c1.tiles, refs := c1.refs }]) p' := by
    intro j p'
    unfold dropRefs
    split
    · intro he; cases he
    · exact fun he => (i1.pics j p' he).mono
  have hdrop4 : ∀ j h, (dropRefs hd c1.refs j).p = .hdrOnly h → skipShown s h.base.frameType = true := by
    intro j p'
    unfold dropRefs
    split
    · intro he; cases he
    · exact i1.skipped j p'
  have href3 : ∀ j p', (refreshRefs hd p c1.refs j).p = .pic p' → From env (c1.decoded ++ [{ seq := q, hdr := hd, tiles := c1.tiles, refs := c1.refs }]) p' := by
    intro j p'
    unfold refreshRefs
    split
    · intro he; cases he; exact hfrom
    · exact fun he => (i1.pics j p' he).mono
  have href4 : ∀ j h, (refreshRefs hd p c1.refs j).p = .hdrOnly h → skipShown s h.base.frameType = true := by
    intro j p'
    unfold refreshRefs
    split
    · intro he; cases he
    · exact i1.skipped j p'
  generalize keptFlags s _ hd = ff
  generalize (if hd.base.showFrame = true then _ else c1.info : PicInfo) = info
  have inv4 := inv4 ff info
  split
  · rename_i h1
    unfold submitSync
    have hset : ∃ ev o, (if (hd.base.showFrame || s.outputInvisible) = true then
        setOut { c1 with frameHdr := none, submitted := c1.submitted + 1, tiles := [], frameFlags := ff, info := info, decoded := c1.decoded ++ [{ seq := q, hdr := hd, tiles := c1.tiles, refs := c1.refs }], eventFlags := addFlags c1.eventFlags p.flags } p
        else some { c1 with frameHdr := none, submitted := c1.submitted + 1, tiles := [], frameFlags := ff, info := info, decoded := c1.decoded ++ [{ seq := q, hdr := hd, tiles := c1.tiles, refs := c1.refs }] }) =
        some { c1 with frameHdr := none, submitted := c1.submitted + 1, tiles := [], frameFlags := ff, info := info, decoded := c1.decoded ++ [{ seq := q, hdr := hd, tiles := c1.tiles, refs := c1.refs }], eventFlags := ev, out := o } ∧
        (∀ p', o = some p' → p' = p) := by
      split
      · refine ⟨addFlags c1.eventFlags p.flags, some p, ?_, fun p' hp => by cases hp; rfl⟩
        unfold setOut
        dsimp only
        rw [f7 h1]
      · refine ⟨c1.eventFlags, none, ?_, fun p' hp => by cases hp⟩
        have := f7 h1
        rw [← this]
    obtain ⟨ev, o, e2, ho⟩ := hset
    rw [e2]
    simp only
    split
    · refine ⟨_, rfl, ?_, fun h => ?_⟩
      · unfold Dav1d.submitError
        dsimp only
        rw [if_pos h1]
        exact ⟨inv4.seq, inv4.op, inv4.refs, inv4.hdr, inv4.limit, inv4.hdrFor, inv4.cover, inv4.decoded, fun _ he => (by cases he), inv4.cache, inv4.sync, inv4.pics, inv4.skipped, inv4.slots, inv4.input⟩
      · unfold Dav1d.submitError at h; dsimp only at h; rw [if_pos h1] at h; cases h
    · split
      · refine ⟨_, rfl, ?_, fun h => ?_⟩
        · unfold Dav1d.submitError
          dsimp only
          rw [if_pos h1]
          exact ⟨inv4.seq, inv4.op, hdrop, inv4.hdr, inv4.limit, inv4.hdrFor, inv4.cover, inv4.decoded, fun _ he => (by cases he), inv4.cache, hdrop2, hdrop3, hdrop4, inv4.slots, inv4.input⟩
        · unfold Dav1d.submitError at h; dsimp only at h; rw [if_pos h1] at h; cases h
      · rename_i k hk
        refine ⟨_, rfl, ⟨inv4.seq, inv4.op, href, inv4.hdr, inv4.limit, inv4.hdrFor, inv4.cover, inv4.decoded, ?_, inv4.cache, ?_, href3, href4, inv4.slots, inv4.input⟩, fun _ => rfl⟩
        · intro p' hp'; rw [ho p' hp']; exact ⟨by rw [hk]; rfl, hfrom⟩
        · intro _ j p'
          simp only
          unfold refreshRefs
          split
          · intro he; cases he; rw [hk]; rfl
          · exact i1.sync h1 j p'
  · rename_i h1
    unfold submitAsync
    split
    · exact subErr _ _ inv4 rfl
    · refine ⟨_, rfl, ⟨inv4.seq, inv4.op, href, inv4.hdr, inv4.limit, inv4.hdrFor, inv4.cover, inv4.decoded, inv4.out, inv4.cache, fun h => absurd h h1, href3, href4, ?_, inv4.input⟩, fun _ => rfl⟩
      intro j
      simp only [setSlot]
      split
      · have herr : ∀ e, (match p.content with | .error e => some e | .ok _ => none) = some e → p.content = .error e := by
          intro e he
          cases hpc : p.content with
          | error e' => rw [hpc] at he; simp at he; rw [he]
          | ok k => rw [hpc] at he; simp at he
        refine ⟨fun e he => ⟨p, rfl, herr e he⟩, fun p' hp' => by cases hp'; exact hfrom, fun e he => ?_⟩
        refine ⟨_, List.mem_append_right _ (List.mem_singleton_self _), ?_, ?_⟩
        · have := herr e he
          rw [← hp] at this
          exact this
        · rw [← hp]; rfl
      · exact inv4.slots j

/-! ## After the switch -/

theorem Inv.showPic {s : Settings} {env : Env κ} {c : Dec κ} (h : Inv s env c) (hout : c.out = none) {i : Nat} {p : Pic κ} (hp : (c.refs i).p = .pic p)
    (props : Props) : ∃ c', showPic s c p props = some c' ∧ Inv s env c' ∧ c'.refs = c.refs ∧ c'.decoded = c.decoded := by
  unfold Dav1d.showPic
  dsimp only
  split
  · rename_i h1
    refine ⟨{ c with info := { c.info with t35 := [] }, eventFlags := addFlags c.eventFlags p.flags, out := some { p with info := c.info, props := props } }, ?_, ?_, rfl, rfl⟩
    · unfold setOut; dsimp only; rw [hout]
    · refine ⟨h.seq, h.op, h.refs, h.hdr, h.limit, h.hdrFor, h.cover, h.decoded, ?_, h.cache, h.sync, h.pics, h.skipped, h.slots, h.input⟩
      intro p' hp'; cases hp'
      exact ⟨h.sync h1 i p hp, h.pics i p hp⟩
  · have h' : Inv s env { c with info := { c.info with t35 := [] } } :=
      ⟨h.seq, h.op, h.refs, h.hdr, h.limit, h.hdrFor, h.cover, h.decoded, h.out, h.cache, h.sync, h.pics, h.skipped, h.slots, h.input⟩
    obtain ⟨d, e, hd, _, _, hr, _, _, _, _, hdc, hret⟩ := h'.ringPop hout
    rw [e]
    refine ⟨_, rfl, ⟨hd.seq, hd.op, hd.refs, hd.hdr, hd.limit, hd.hdrFor, hd.cover, hd.decoded, hd.out, hd.cache, hd.sync, hd.pics, hd.skipped, ?_, hd.input⟩, hr, hdc⟩
    intro j
    simp only [setSlot]
    split
    · refine ⟨fun e he => (by simp only at he; rw [hret] at he; cases he), fun p' hp' => ?_, fun e he => (by simp only at he; rw [hret] at he; cases he)⟩
      cases hp'
      have := h.pics i p hp
      rw [hdc]; exact this
    · exact hd.slots j

theorem Inv.props {s : Settings} {env : Env κ} {c : Dec κ} (h : Inv s env c) (p : Option Props) : Inv s env { c with errProps := p } :=
  ⟨h.seq, h.op, h.refs, h.hdr, h.limit, h.hdrFor, h.cover, h.decoded, h.out, h.cache, h.sync, h.pics, h.skipped, h.slots, h.input⟩

theorem Inv.done {s : Settings} {env : Env κ} {c : Dec κ} (h : Inv s env c) : Inv s env { c with frameHdr := none, nTiles := 0 } :=
  ⟨h.seq, h.op, h.refs, fun _ he => (by cases he), fun _ he => (by cases he), fun _ _ _ he => (by cases he), fun _ he => (by cases he),
    h.decoded, h.out, h.cache, h.sync, h.pics, h.skipped, h.slots, h.input⟩

theorem Inv.showExisting {s : Settings} {env : Env κ} {c : Dec κ} (h : Inv s env c) (hout : c.out = none) (idx : Nat) (props : Props) :
    ∃ x, showExisting s c idx props = some x ∧ Inv s env x.1 := by
  unfold Dav1d.showExisting
  split
  · exact ⟨_, rfl, h.props _⟩
  split
  · exact ⟨_, rfl, h.done⟩
  split
  · rename_i p hp
    split
    · exact ⟨_, rfl, h.props _⟩
    · obtain ⟨c', e, hc', hr, hdc⟩ := h.showPic hout hp props
      rw [e]
      simp only
      split
      · refine ⟨_, rfl, ⟨hc'.seq, hc'.op, ?_, fun _ he => (by cases he), fun _ he => (by cases he), fun _ _ _ he => (by cases he), fun _ he => (by cases he),
          hc'.decoded, hc'.out, hc'.cache, ?_, ?_, ?_, hc'.slots, hc'.input⟩⟩
        · intro j hd
          have hacc : Accepted p.hdr := h.refs idx p.hdr (by rw [hp]; rfl)
          simp only [keyRefresh]
          split
          · intro he; simp only [RefPic.hdr, Option.some.injEq] at he; rw [← he]; exact hacc
          · split
            · intro he; simp only [RefPic.hdr, Option.some.injEq] at he; rw [← he]; exact hacc
            · exact hc'.refs j hd
        · intro h1 j p'
          have hok := h.sync h1 idx p hp
          simp only [keyRefresh]
          split
          · intro he; cases he; exact hok
          · split
            · intro he; cases he; exact hok
            · exact hc'.sync h1 j p'
        · intro j p'
          have hfr := h.pics idx p hp
          rw [← hdc] at hfr
          simp only [keyRefresh]
          split
          · intro he; cases he; exact hfr
          · split
            · intro he; cases he; exact hfr
            · exact hc'.pics j p'
        · intro j p'
          simp only [keyRefresh]
          split
          · intro he; cases he
          · split
            · intro he; cases he
            · exact hc'.skipped j p'
      · exact ⟨_, rfl, hc'.noHdr⟩
  · exact ⟨_, rfl, h.props _⟩

theorem Covers.ne_nil {l : List TileGroup} {a b : Nat} (h : Covers l a b) (hab : a < b) : l ≠ [] := by
  rintro rfl; unfold Covers at h; omega

theorem skipShown_of_skipFrame {s : Settings} {h : FrameHdr} {i : Nat} (hs : skipFrame s h = true)
    (hr : refreshed h.refs.refreshFrameFlags i = true) : skipShown s h.base.frameType = true := by
  have h0 : h.refs.refreshFrameFlags ≠ 0 := by
    intro h0; rw [h0] at hr; simp [refreshed] at hr
  unfold skipFrame at hs
  unfold skipShown
  split at hs
  · rename_i h1
    rw [if_pos h1]
    simpa [h0] using hs
  · rename_i h1
    rw [if_neg h1]
    split at hs
    · rename_i h2
      rw [if_pos h2]
      simpa [h0] using hs
    · cases hs

theorem Inv.frameComplete {s : Settings} {env : Env κ} {c : Dec κ} (h : Inv s env c) (hout : c.out = none) {q hd} (hq : c.seq = some q)
    (hh : c.frameHdr = some (.frame hd)) (hn : c.nTiles = hd.tiling.cols * hd.tiling.rows) (props : Props) :
    ∃ x, frameComplete s env c q hd props = some x ∧ Inv s env x.1 := by
  unfold Dav1d.frameComplete
  split
  · rename_i hskip
    refine ⟨_, rfl, ⟨h.seq, h.op, ?_, fun _ he => (by cases he), fun _ he => (by cases he), fun _ _ _ he => (by cases he), fun _ he => (by cases he),
      h.decoded, h.out, h.cache, ?_, ?_, ?_, h.slots, h.input⟩⟩
    · intro j x
      simp only [skipRefs]
      split
      · intro he; simp only [RefPic.hdr, Option.some.injEq] at he; rw [← he]; exact h.hdr hd hh
      · exact h.refs j x
    · intro h1 j p
      simp only [skipRefs]
      split
      · intro he; cases he
      · exact h.sync h1 j p
    · intro j p
      simp only [skipRefs]
      split
      · intro he; cases he
      · exact h.pics j p
    · intro j p
      simp only [skipRefs]
      split
      · rename_i hr
        intro he; cases he
        exact skipShown_of_skipFrame hskip hr
      · exact h.skipped j p
  · rename_i hs
    split
    · exact ⟨_, rfl, h.props _⟩
    · obtain ⟨x, e, hx, ht⟩ := h.submitFrame hout hq hh hn (by simpa using hs) props
      rw [e]
      obtain ⟨c', o⟩ := x
      cases o with
      | some e => exact ⟨_, rfl, hx⟩
      | none =>
        simp only
        rw [if_pos (ht rfl)]
        exact ⟨_, rfl, Inv.done hx⟩

theorem Inv.finishObu {s : Settings} {env : Env κ} {c : Dec κ} (h : Inv s env c) (hout : c.out = none) (props : Props) :
    ∃ x, finishObu s env c props = some x ∧ Inv s env x.1 := by
  unfold Dav1d.finishObu
  split
  · exact h.showExisting hout _ props
  · rename_i q hd hq hh
    split
    · rename_i hn; exact h.frameComplete hout hq hh hn props
    · exact ⟨_, rfl, h⟩
  · exact ⟨_, rfl, h⟩

/-! ## One OBU -/

theorem Inv.caseError {s : Settings} {env : Env κ} {c : Dec κ} (h : Inv s env c) (props : Props) (e : Err) : Inv s env (caseError c props e).1 := by
  unfold Dav1d.caseError
  split
  · exact h
  · exact h.props _

theorem Inv.stepObu {s : Settings} {env : Env κ} {c : Dec κ} (h : Inv s env c) (hout : c.out = none) (pkt : Packet) :
    ∃ x, stepObu s env c pkt = some x ∧ Inv s env x.1 ∧ ∀ n, x.2 = .ok n → 0 < n ∧ n ≤ pkt.data.length := by
  unfold Dav1d.stepObu
  split
  · refine ⟨_, rfl, h.caseError _ _, fun n hn => ?_⟩
    unfold Dav1d.caseError at hn; cases hn
  · rename_i o rest hsp
    have hlen := splitObu_length hsp
    split
    · refine ⟨_, rfl, h.caseError _ _, fun n hn => ?_⟩
      unfold Dav1d.caseError at hn; cases hn
    split
    · refine ⟨_, rfl, h, fun n hn => ?_⟩
      cases hn; omega
    · obtain ⟨x, e, hx⟩ := obuCase_step (s := s) h.ok o.type (obuHdrOf pkt.data).temporalId (obuHdrOf pkt.data).spatialId pkt.props o.payload
      rw [e]
      obtain ⟨hi, ho, _⟩ := h.caseStep hx
      obtain ⟨c', er⟩ := x
      cases er with
      | some er =>
        refine ⟨_, rfl, Inv.caseError hi _ _, fun n hn => ?_⟩
        unfold Dav1d.caseError at hn; cases hn
      | none =>
        simp only
        obtain ⟨x2, e2, h2⟩ := Inv.finishObu hi (ho.trans hout) pkt.props
        rw [e2]
        obtain ⟨c2, er⟩ := x2
        cases er with
        | some er => exact ⟨_, rfl, h2, fun n hn => (by cases hn)⟩
        | none => exact ⟨_, rfl, h2, fun n hn => by cases hn; omega⟩

theorem Inv.parseObus {s : Settings} {env : Env κ} {c : Dec κ} (h : Inv s env c) (hout : c.out = none) {pkt : Packet} (hp : pkt.data ≠ []) :
    ∃ x, parseObus s env c pkt = some x ∧ Inv s env x.1 ∧ ∀ n, x.2 = .ok n → 0 < n ∧ n ≤ pkt.data.length := by
  rw [parseObus_eq s env h.ok pkt hp]
  exact h.stepObu hout pkt

/-! ## The API -/

theorem Inv.setInput {s : Settings} {env : Env κ} {c : Dec κ} (h : Inv s env c) (p : Option Packet) (hp : ∀ x, p = some x → x.data ≠ []) :
    Inv s env { c with input := p } :=
  ⟨h.seq, h.op, h.refs, h.hdr, h.limit, h.hdrFor, h.cover, h.decoded, h.out, h.cache, h.sync, h.pics, h.skipped, h.slots, hp⟩

/-- The answer of output_picture_ready. -/
theorem Inv.outputReady {s : Settings} {env : Env κ} {c : Dec κ} (h : Inv s env c) (d : Bool) :
    ((outputReady s c d).1 = false ∧ Inv s env (outputReady s c d).2 ∧ (outputReady s c d).2.out = none ∧ (outputReady s c d).2.cachedError = none) ∨
    (outputReady s c d = (true, c) ∧ (c.cachedError = none → if layered s c = true then c.cache.isSome = true else c.out.isSome = true)) := by
  unfold Dav1d.outputReady
  by_cases hce : c.cachedError.isSome = true
  · rw [if_pos hce]
    exact Or.inr ⟨rfl, fun hn => by rw [hn] at hce; cases hce⟩
  rw [if_neg hce]
  have hcn : c.cachedError = none := by simpa using hce
  by_cases hl : layered s c = true
  · rw [if_pos hl]
    have hmv : ∀ o, c.out = some o → Inv s env { c with cache := some o, out := none } := fun o ho =>
      ⟨h.seq, h.op, h.refs, h.hdr, h.limit, h.hdrFor, h.cover, h.decoded, fun _ he => (by cases he), fun p hp => by cases hp; exact h.out _ ho, h.sync, h.pics, h.skipped, h.slots, h.input⟩
    split
    · rename_i o k ho hk
      split
      · refine Or.inr ⟨rfl, fun _ => ?_⟩
        rw [hk]; rfl
      · exact Or.inl ⟨rfl, hmv o ho, rfl, hcn⟩
    · rename_i k ho hk
      cases d with
      | true =>
        refine Or.inr ⟨rfl, fun _ => ?_⟩
        rw [if_pos hl, hk]; rfl
      | false => exact Or.inl ⟨rfl, h, ho, hcn⟩
    · rename_i o ho hk
      exact Or.inl ⟨rfl, hmv o ho, rfl, hcn⟩
    · rename_i ho hk
      exact Or.inl ⟨rfl, h, ho, hcn⟩
  · rw [if_neg hl, if_neg hl]
    by_cases ho : c.out.isSome = true
    · rw [ho]; exact Or.inr ⟨rfl, fun _ => rfl⟩
    · have ho' : c.out = none := by simpa using ho
      have ho2 : c.out.isSome = false := by rw [ho']; rfl
      rw [ho2]
      exact Or.inl ⟨rfl, h, ho', hcn⟩

/-- A picture handed to the caller was decoded without error from a submitted frame, and had film grain
applied if asked for. -/
def ReplyOk (s : Settings) (env : Env κ) (c : Dec κ) (r : Except Err (Pic κ)) : Prop :=
  ∀ p', r = .ok p' → ∃ p, OutOk env c.decoded p ∧ finishPic s env p = .ok p'

theorem Inv.outputImage {s : Settings} {env : Env κ} {c : Dec κ} (h : Inv s env c)
    (hr : if layered s c = true then c.cache.isSome = true else c.out.isSome = true) :
    ∃ x, outputImage s env c = some x ∧ Inv s env x.1 ∧ ReplyOk s env x.1 x.2 := by
  unfold Dav1d.outputImage
  split
  · rename_i hl
    rw [if_pos hl] at hr
    split
    · rename_i hn; rw [hn] at hr; cases hr
    · rename_i p hp
      exact ⟨_, rfl, ⟨h.seq, h.op, h.refs, h.hdr, h.limit, h.hdrFor, h.cover, h.decoded, fun _ he => (by cases he), h.out, h.sync, h.pics, h.skipped, h.slots, h.input⟩,
        fun p' hp' => ⟨p, h.cache p hp, hp'⟩⟩
  · rename_i hl
    rw [if_neg hl] at hr
    split
    · rename_i hn; rw [hn] at hr; cases hr
    · rename_i p hp
      exact ⟨_, rfl, ⟨h.seq, h.op, h.refs, h.hdr, h.limit, h.hdrFor, h.cover, h.decoded, fun _ he => (by cases he), h.cache, h.sync, h.pics, h.skipped, h.slots, h.input⟩,
        fun p' hp' => ⟨p, h.out p hp, hp'⟩⟩

theorem advance_ne {p : Packet} {n : Nat} : ∀ x, p.advance n = some x → x.data ≠ [] := by
  intro x hx
  unfold Packet.advance at hx
  split at hx
  · cases hx
  · cases hx; assumption

theorem Inv.genLoop {s : Settings} {env : Env κ} (k : Nat) : ∀ {c : Dec κ}, Inv s env c → c.out = none → ∀ {pkt : Packet}, pkt.data.length = k →
    pkt.data ≠ [] → ∃ x, genLoop s env c pkt = some x ∧ Inv s env x.1 := by
  induction k using Nat.strong_induction_on with
  | _ k ih =>
    intro c h hout pkt hk hp
    obtain ⟨⟨c', r⟩, e, hi, hn⟩ := h.parseObus hout hp
    rw [Dav1d.genLoop, e]
    cases r with
    | error er =>
      simp only
      have h2 : Inv s env { c' with input := none } := Inv.setInput hi none (fun _ hx => by cases hx)
      rcases h2.outputReady false with ⟨a1, a2, _⟩ | ⟨a1, _⟩
      · generalize Dav1d.outputReady s _ false = r at a1 a2
        obtain ⟨b, d⟩ := r
        simp only at a1 a2; subst a1
        exact ⟨_, rfl, a2⟩
      · rw [a1]; exact ⟨_, rfl, h2⟩
    | ok n =>
      simp only
      have hn := hn n rfl
      rw [dif_pos hn]
      have h2 : Inv s env { c' with input := pkt.advance n } := Inv.setInput hi _ advance_ne
      rcases h2.outputReady false with ⟨a1, a2, a3, _⟩ | ⟨a1, _⟩
      · generalize Dav1d.outputReady s _ false = r at a1 a2 a3
        obtain ⟨b, d⟩ := r
        simp only at a1 a2 a3; subst a1
        simp only
        split
        · exact ⟨_, rfl, a2⟩
        · rename_i hlt
          refine ih (pkt.data.drop n).length (by simp; omega) a2 a3 rfl ?_
          intro h0
          have := congrArg List.length h0
          simp at this; omega
      · rw [a1]; exact ⟨_, rfl, h2⟩

theorem Inv.genPicture {s : Settings} {env : Env κ} {c : Dec κ} (h : Inv s env c) : ∃ x, genPicture s env c = some x ∧ Inv s env x.1 := by
  unfold Dav1d.genPicture
  rcases h.outputReady false with ⟨a1, a2, a3, _⟩ | ⟨a1, _⟩
  · generalize Dav1d.outputReady s _ false = r at a1 a2 a3
    obtain ⟨b, d⟩ := r
    simp only at a1 a2 a3; subst a1
    simp only
    split
    · exact ⟨_, rfl, a2⟩
    · rename_i p hp
      exact Inv.genLoop _ a2 a3 rfl (a2.input p hp)
  · rw [a1]; exact ⟨_, rfl, h⟩

theorem Inv.sendData {s : Settings} {env : Env κ} {c : Dec κ} (h : Inv s env c) (pkt : Option Packet) :
    ∃ x, sendData s env c pkt = some x ∧ Inv s env x.ctx := by
  unfold Dav1d.sendData
  split
  · exact ⟨_, rfl, h⟩
  rename_i hv
  have h' : Inv s env (if pkt.isSome = true then { c with drain := false } else c) := by
    split
    · exact ⟨h.seq, h.op, h.refs, h.hdr, h.limit, h.hdrFor, h.cover, h.decoded, h.out, h.cache, h.sync, h.pics, h.skipped, h.slots, h.input⟩
    · exact h
  generalize (if pkt.isSome = true then { c with drain := false } else c : Dec κ) = c' at h'
  dsimp only
  split
  · exact ⟨_, rfl, h'⟩
  · have h2 : Inv s env { c' with input := pkt } := h'.setInput pkt (fun x hx h0 => hv (by rw [hx]; simp [h0]))
    obtain ⟨⟨c2, o⟩, e, hi⟩ := h2.genPicture
    rw [e]
    cases o with
    | none => exact ⟨_, rfl, hi⟩
    | some e => exact ⟨_, rfl, hi⟩

/-- Moving a delayed picture out. -/
theorem showDelayed_cases (s : Settings) {c : Dec κ} (hout : c.out = none) (p : Pic κ) : ∃ ev o,
    showDelayed s c p = some { c with eventFlags := ev, out := o } ∧ (∀ p', o = some p' → p'.content.isOk = true ∧ p' = p) := by
  unfold showDelayed
  split
  · rename_i hsh
    refine ⟨addFlags c.eventFlags p.flags, some p, ?_, ?_⟩
    · unfold setOut; dsimp only; rw [hout]
    · intro p' hp'; cases hp'
      unfold Pic.shown at hsh; simp at hsh; exact ⟨hsh.2, rfl⟩
  · refine ⟨c.eventFlags, none, ?_, fun _ hx => by cases hx⟩
    rw [← hout]

/-- What a round of drain_picture keeps. -/
def DrainOk (s : Settings) (env : Env κ) : DrainStep κ → Prop
  | .undef => False
  | .stop c' => Inv s env c' ∧ c'.out = none ∧ c'.cachedError = none
  | .next c' _ => Inv s env c' ∧ c'.out = none ∧ c'.cachedError = none
  | .done c' r => Inv s env c' ∧ ReplyOk s env c' r

theorem Inv.drainStep {s : Settings} {env : Env κ} {c : Dec κ} (h : Inv s env c) (hout : c.out = none) (hce : c.cachedError = none) (d : Bool) :
    DrainOk s env (drainStep s env c d) := by
  unfold Dav1d.drainStep
  dsimp only
  have hslot : ∀ (sl : Slot κ), sl.retval = none → sl.pic = none → ∀ i, SlotOk env c.decoded (if i = c.next then sl else c.ring i) := by
    intro sl h1 h2 i; split
    · exact slotOk_none _ _ h1 h2
    · exact h.slots i
  split
  · exact ⟨h, hout, hce⟩
  generalize (d || ((c.ring c.next).pic.isSome || (c.ring c.next).error)) = d'
  split
  · exact ⟨⟨h.seq, h.op, h.refs, h.hdr, h.limit, h.hdrFor, h.cover, h.decoded, h.out, h.cache, h.sync, h.pics, h.skipped, hslot _ rfl rfl, h.input⟩,
      fun _ he => (by cases he)⟩
  · rename_i hr
    split
    · exact ⟨⟨h.seq, h.op, h.refs, h.hdr, h.limit, h.hdrFor, h.cover, h.decoded, h.out, h.cache, h.sync, h.pics, h.skipped, h.slots, h.input⟩, hout, hce⟩
    · rename_i p hp
      have hi0 : Inv s env (setSlot { c with next := ringNext s.nFc c.next } c.next { c.ring c.next with pic := none }) :=
        ⟨h.seq, h.op, h.refs, h.hdr, h.limit, h.hdrFor, h.cover, h.decoded, h.out, h.cache, h.sync, h.pics, h.skipped, hslot _ hr rfl, h.input⟩
      have hfr : From env (setSlot { c with next := ringNext s.nFc c.next } c.next { c.ring c.next with pic := none }).decoded p := (h.slots _).pic p hp
      have ho0 : (setSlot { c with next := ringNext s.nFc c.next } c.next { c.ring c.next with pic := none }).out = none := hout
      have hc0 : (setSlot { c with next := ringNext s.nFc c.next } c.next { c.ring c.next with pic := none }).cachedError = none := hce
      generalize setSlot { c with next := ringNext s.nFc c.next } c.next { c.ring c.next with pic := none } = c1 at hi0 ho0 hc0 hfr ⊢
      obtain ⟨ev, o, e1, e2⟩ := showDelayed_cases s ho0 p
      rw [e1]
      simp only
      have hi : Inv s env { c1 with eventFlags := ev, out := o } :=
        ⟨hi0.seq, hi0.op, hi0.refs, hi0.hdr, hi0.limit, hi0.hdrFor, hi0.cover, hi0.decoded, fun p' hp' => ⟨(e2 p' hp').1, by rw [(e2 p' hp').2]; exact hfr⟩, hi0.cache, hi0.sync, hi0.pics, hi0.skipped, hi0.slots, hi0.input⟩
      rcases hi.outputReady false with ⟨a1, a2, a3, a4⟩ | ⟨a1, a2⟩
      · generalize Dav1d.outputReady s _ false = r at a1 a2 a3 a4
        obtain ⟨b, d⟩ := r
        simp only at a1 a2 a3 a4; subst a1
        exact ⟨a2, a3, a4⟩
      · rw [a1]
        obtain ⟨⟨x, y⟩, b1, b2⟩ := hi.outputImage (a2 hc0)
        simp only
        rw [b1]
        exact b2

theorem Inv.drainLoop {s : Settings} {env : Env κ} (n : Nat) : ∀ {c : Dec κ}, Inv s env c → c.out = none → c.cachedError = none → ∀ d : Bool,
    DrainOk s env (drainLoop s env n c d) ∧ ∀ c' d', drainLoop s env n c d ≠ .next c' d' := by
  induction n with
  | zero => intro c h ho hc d; exact ⟨⟨h, ho, hc⟩, fun _ _ he => by cases he⟩
  | succ n ih =>
    intro c h ho hc d
    have := h.drainStep ho hc d
    unfold Dav1d.drainLoop
    generalize Dav1d.drainStep s env c d = r at this
    cases r with
    | undef => exact this.elim
    | stop c' => exact ⟨this, fun _ _ he => by cases he⟩
    | done c' x => exact ⟨this, fun _ _ he => by cases he⟩
    | next c' d' => exact ih this.1 this.2.1 this.2.2 d'

theorem Inv.drainPicture {s : Settings} {env : Env κ} {c : Dec κ} (h : Inv s env c) (hout : c.out = none) (hce : c.cachedError = none) :
    ∃ x, drainPicture s env c = some x ∧ Inv s env x.1 ∧ ReplyOk s env x.1 x.2 := by
  obtain ⟨this, hne⟩ := Inv.drainLoop s.nFc h hout hce false
  unfold Dav1d.drainPicture
  generalize Dav1d.drainLoop s env s.nFc c false = r at this hne
  cases r with
  | undef => exact this.elim
  | next c' d' => exact (hne c' d' rfl).elim
  | done c' x => exact ⟨_, rfl, this⟩
  | stop c' =>
    obtain ⟨h1, h2, h3⟩ := this
    simp only
    rcases h1.outputReady true with ⟨a1, a2, a3, a4⟩ | ⟨a1, a2⟩
    · generalize Dav1d.outputReady s _ true = r at a1 a2 a3 a4
      obtain ⟨b, d⟩ := r
      simp only at a1 a2 a3 a4; subst a1
      exact ⟨_, rfl, a2, fun _ he => (by cases he)⟩
    · rw [a1]
      exact h1.outputImage (a2 h3)

theorem Inv.getPicture {s : Settings} {env : Env κ} {c : Dec κ} (h : Inv s env c) : ∃ x, getPicture s env c = some x ∧ Inv s env x.1 ∧ ReplyOk s env x.1 x.2 := by
  unfold Dav1d.getPicture
  dsimp only
  have h' : Inv s env { c with drain := true } :=
    ⟨h.seq, h.op, h.refs, h.hdr, h.limit, h.hdrFor, h.cover, h.decoded, h.out, h.cache, h.sync, h.pics, h.skipped, h.slots, h.input⟩
  obtain ⟨⟨c2, o⟩, e, hi⟩ := h'.genPicture
  rw [e]
  cases o with
  | some e => exact ⟨_, rfl, hi, fun _ he => (by cases he)⟩
  | none =>
    simp only
    split
    · simp only at hi
      exact ⟨_, rfl, ⟨hi.seq, hi.op, hi.refs, hi.hdr, hi.limit, hi.hdrFor, hi.cover, hi.decoded, hi.out, hi.cache, hi.sync, hi.pics, hi.skipped, hi.slots, hi.input⟩, fun _ he => (by cases he)⟩
    · rename_i hce
      rcases Inv.outputReady hi (s.nFc == 1) with ⟨a1, a2, a3, a4⟩ | ⟨a1, a2⟩
      · generalize Dav1d.outputReady s _ (s.nFc == 1) = r at a1 a2 a3 a4
        obtain ⟨b, d⟩ := r
        simp only at a1 a2 a3 a4; subst a1
        simp only
        split
        · exact a2.drainPicture a3 a4
        · exact ⟨_, rfl, a2, fun _ he => (by cases he)⟩
      · simp only at a1
        rw [a1]
        exact Inv.outputImage hi (a2 hce)

theorem Inv.flush {s : Settings} {env : Env κ} {c : Dec κ} (h : Inv s env c) : Inv s env (flush s c) := by
  refine ⟨fun _ he => (by cases he), fun _ he => (by cases he), ?_, fun _ he => (by cases he), fun _ he => (by cases he), fun _ _ he => (by cases he), fun _ he => (by cases he), h.decoded,
    fun _ he => (by cases he), fun _ he => (by cases he), ?_, ?_, ?_, ?_, fun _ he => (by cases he)⟩
  · intro i x
    simp only [Dav1d.flush]
    split
    · intro he; cases he
    · exact h.refs i x
  · intro h1 i x
    simp only [Dav1d.flush]
    split
    · intro he; cases he
    · exact h.sync h1 i x
  · intro i x
    simp only [Dav1d.flush]
    split
    · intro he; cases he
    · exact h.pics i x
  · intro i x
    simp only [Dav1d.flush]
    split
    · intro he; cases he
    · exact h.skipped i x
  · intro i
    simp only [Dav1d.flush]
    split
    · dsimp only
      split
      · exact slotOk_none _ _ rfl rfl
      · exact h.slots i
    · exact h.slots i

/-- Every call of the API returns, and keeps the invariant. -/
theorem Inv.call {s : Settings} {env : Env κ} {c : Dec κ} (h : Inv s env c) (a : Call) : ∃ x, call s env c a = some x ∧ Inv s env x.1 := by
  cases a with
  | send p =>
    obtain ⟨x, e, hi⟩ := h.sendData p
    exact ⟨(x.ctx, .sent x.res x.left), by simp [Dav1d.call, e], hi⟩
  | get =>
    obtain ⟨x, e, hi, _⟩ := h.getPicture
    exact ⟨(x.1, .got x.2), by simp [Dav1d.call, e], hi⟩
  | flush => exact ⟨_, rfl, h.flush⟩
  | events => exact ⟨_, rfl, ⟨h.seq, h.op, h.refs, h.hdr, h.limit, h.hdrFor, h.cover, h.decoded, h.out, h.cache, h.sync, h.pics, h.skipped, h.slots, h.input⟩⟩
  | errorProps => exact ⟨_, rfl, h.props _⟩

theorem Inv.session {s : Settings} {env : Env κ} (l : List Call) : ∀ {c : Dec κ}, Inv s env c → ∃ x, session s env c l = some x ∧ Inv s env x.1 := by
  induction l with
  | nil => intro c h; exact ⟨_, rfl, h⟩
  | cons a l ih =>
    intro c h
    obtain ⟨x, e, hi⟩ := h.call a
    obtain ⟨y, e2, hy⟩ := ih hi
    exact ⟨(y.1, x.2 :: y.2), by simp [Dav1d.session, e, e2], hy⟩

theorem Reachable.inv {s : Settings} {env : Env κ} {c : Dec κ} (h : Reachable s env c) : Inv s env c := by
  obtain ⟨l, r, e⟩ := h
  obtain ⟨x, e2, hi⟩ := Inv.session l (Inv.init (κ := κ) s env)
  rw [e] at e2; cases e2; exact hi

end Dav1d
