import Verif.Api.FlagLemmas
import Verif.Api.ObuProps
/-!
# C66: the reference slots hold what the stream put there

The reference frame update process of the AV1 specification (7.20) on the eight slots, as seen between two calls of
dav1d_parse_obus. `Dec.decoded` is the list of the frames given to the decoding stage, with all that decoding them
depends on.
-/
namespace Dav1d
open HProg
variable {κ : Type}

/-- Slot `i` is to be refreshed by a frame with header `h`. -/
def Flagged (h : FrameHdr) (i : Nat) : Prop := h.refs.refreshFrameFlags.testBit i = true

/-- The exactly flagged slots satisfy `P`, the others are what they were. -/
def Updated (h : FrameHdr) (old new : Nat → RefSlot κ) (P : RefSlot κ → RefSlot κ → Prop) : Prop :=
  ∀ i, i < 8 → (Flagged h i → P (old i) (new i)) ∧ (¬ Flagged h i → new i = old i)

/-- A slot holds the frame `f`, whose picture is `p`: the picture, and its tables and motion vectors. -/
structure Holds (p : Pic κ) (sl : RefSlot κ) : Prop where
  pic : sl.p = .pic p
  aux : sl.aux = some p.content
  mvs : sl.mvs = if p.hdr.refs.allowIntrabc then none else some p.content

/-- What an OBU with outcome `r` can do to the slots of the decoder `c`, leading to `c'`. -/
inductive SlotStep (s : Settings) (env : Env κ) (c c' : Dec κ) (r : Except Err Nat) : Prop
  /-- nothing was decoded, or memory ran out: all slots keep what they hold -/
  | same : c'.decoded = c.decoded ∨ r = .error .ENOMEM → (∀ i, i < 8 → c'.refs i = c.refs i) → SlotStep s env c c' r
  /-- a new sequence begins: all slots are empty -/
  | newSequence (q q' : SeqHdr) : c.seq = some q → c'.seq = some q' → q.core ≠ q'.core → c'.decoded = c.decoded →
      (∀ i, i < 8 → c'.refs i = {}) → SlotStep s env c c' r
  /-- a frame was given to the decoding stage, with the slots as they were: exactly the flagged slots hold it now -/
  | frame (f : FrameIn κ) (p : Pic κ) (n : Nat) : r = .ok n → c'.seq = some f.seq → c'.decoded = c.decoded ++ [f] → f.refs = c.refs →
      p.hdr = f.hdr → p.seq = f.seq → p.content = env.dec f → p.showable = f.hdr.base.showableFrame →
      Updated f.hdr c.refs c'.refs (fun _ new => Holds p new) → SlotStep s env c c' r
  /-- decoding the frame failed: the flagged slots are empty -/
  | failed (f : FrameIn κ) (e : Err) : s.nFc = 1 → r = .error e → env.dec f = .error e → c'.decoded = c.decoded ++ [f] → f.refs = c.refs →
      Updated f.hdr c.refs c'.refs (fun _ new => new = {}) → SlotStep s env c c' r
  /-- the frame was skipped because of its type: the flagged slots have its header only -/
  | skipped (h : FrameHdr) (n : Nat) : r = .ok n → ¬ Selected s.decodeFrameType h → c'.decoded = c.decoded →
      Updated h c.refs c'.refs (fun _ new => new.p = .hdrOnly h) → SlotStep s env c c' r
  /-- the key frame `p` of slot `j` was shown: all slots hold it, and it cannot be shown again -/
  | shownKey (j : Nat) (p : Pic κ) (n : Nat) : r = .ok n → c'.decoded = c.decoded → (c.refs j).p = .pic p → p.hdr.base.frameType = 0 →
      (∀ i, i < 8 → (c'.refs i).p = .pic { p with showable := false } ∧ (c'.refs i).aux = (c.refs j).aux) → SlotStep s env c c' r

theorem ringPop_refs {s : Settings} {c d : Dec κ} (h : ringPop s c = some d) : d.refs = c.refs ∧ d.decoded = c.decoded ∧ d.seq = c.seq ∧ d.tiles = c.tiles := by
  unfold ringPop at h
  dsimp only at h
  split at h
  · cases h; exact ⟨rfl, rfl, rfl, rfl⟩
  · split at h
    · cases h; exact ⟨rfl, rfl, rfl, rfl⟩
    · unfold showDelayed setOut at h
      split at h
      · split at h
        · cases h
        · cases h; exact ⟨rfl, rfl, rfl, rfl⟩
      · cases h; exact ⟨rfl, rfl, rfl, rfl⟩

theorem showPic_refs {s : Settings} {c d : Dec κ} {p : Pic κ} {props} (h : showPic s c p props = some d) : d.refs = c.refs ∧ d.decoded = c.decoded ∧ d.seq = c.seq := by
  unfold showPic at h
  dsimp only at h
  split at h
  · unfold setOut at h
    split at h
    · cases h
    · cases h; exact ⟨rfl, rfl, rfl⟩
  · split at h
    · cases h
    · rename_i d' hd
      cases h
      have := ringPop_refs hd
      exact ⟨this.1, this.2.1, this.2.2.1⟩

theorem submitError_refs (s : Settings) (c : Dec κ) (i : Nat) (props : Props) (e : Err) :
    (submitError s c i props e).1.refs = c.refs ∧ (submitError s c i props e).1.decoded = c.decoded ∧
    (submitError s c i props e).1.seq = c.seq ∧ (submitError s c i props e).2 = some e := by
  unfold submitError
  dsimp only
  split <;> exact ⟨rfl, rfl, rfl, rfl⟩

theorem refreshed_iff {h : FrameHdr} {i : Nat} (hi : i < 8) : refreshed h.refs.refreshFrameFlags i = true ↔ Flagged h i := by
  simp [refreshed, Flagged, hi]

theorem refreshRefs_updated (h : FrameHdr) (p : Pic κ) (hp : p.hdr = h) (refs : Nat → RefSlot κ) :
    Updated h refs (refreshRefs h p refs) (fun _ new => Holds p new) := by
  intro i hi
  unfold refreshRefs
  constructor
  · intro hf
    rw [if_pos ((refreshed_iff hi).2 hf)]
    exact ⟨rfl, rfl, by rw [hp]⟩
  · intro hf
    rw [if_neg (fun hx => hf ((refreshed_iff hi).1 hx))]

theorem dropRefs_updated (h : FrameHdr) (refs : Nat → RefSlot κ) : Updated h refs (dropRefs h refs) (fun _ new => new = {}) := by
  intro i hi
  unfold dropRefs
  constructor
  · intro hf
    rw [if_pos ((refreshed_iff hi).2 hf)]
  · intro hf
    rw [if_neg (fun hx => hf ((refreshed_iff hi).1 hx))]

theorem skipRefs_updated (h : FrameHdr) (refs : Nat → RefSlot κ) : Updated h refs (skipRefs h refs) (fun _ new => new.p = .hdrOnly h) := by
  intro i hi
  unfold skipRefs
  constructor
  · intro hf
    rw [if_pos ((refreshed_iff hi).2 hf)]
  · intro hf
    rw [if_neg (fun hx => hf ((refreshed_iff hi).1 hx))]

/-- The outcomes of a submitted frame. -/
inductive SubmitSlots (s : Settings) (env : Env κ) (c : Dec κ) (q : SeqHdr) (h : FrameHdr) (c' : Dec κ) : Option Err → Prop
  | same (e) : c'.decoded = c.decoded ∨ e = .ENOMEM → c'.refs = c.refs → SubmitSlots s env c q h c' (some e)
  | frame (f : FrameIn κ) (p : Pic κ) : f.seq = q → f.hdr = h → c'.decoded = c.decoded ++ [f] → f.refs = c.refs →
      p.hdr = h → p.seq = q → p.content = env.dec f → p.showable = h.base.showableFrame → c'.refs = refreshRefs h p c.refs →
      SubmitSlots s env c q h c' none
  | failed (f : FrameIn κ) (e : Err) : s.nFc = 1 → f.hdr = h → env.dec f = .error e → c'.decoded = c.decoded ++ [f] →
      f.refs = c.refs → c'.refs = dropRefs h c.refs → SubmitSlots s env c q h c' (some e)

theorem submitFrame_slots {s : Settings} {env : Env κ} {c : Dec κ} {q : SeqHdr} {h : FrameHdr} {props : Props} {c' e}
    (hx : submitFrame s env c q h props = some (c', e)) : SubmitSlots s env c q h c' e ∧ c'.seq = c.seq := by
  unfold submitFrame at hx
  dsimp only at hx
  generalize hpop : (if s.nFc = 1 then some c else ringPop s c) = o at hx
  cases o with
  | none => cases hx
  | some c1 =>
    obtain ⟨e1, e2, e3, e4⟩ : c1.refs = c.refs ∧ c1.decoded = c.decoded ∧ c1.seq = c.seq ∧ c1.tiles = c.tiles := by
      split at hpop
      · cases hpop; exact ⟨rfl, rfl, rfl, rfl⟩
      · exact ringPop_refs hpop
    have herr : ∀ {d : Dec κ} {i er}, some (submitError s d i props er) = some (c', e) → d.refs = c.refs → d.seq = c.seq →
        (d.decoded = c.decoded ∨ er = .ENOMEM) → SubmitSlots s env c q h c' e ∧ c'.seq = c.seq := by
      intro d i er h4 h1 h2 h3
      obtain ⟨g1, g2, g3, g4⟩ := submitError_refs s d i props er
      rw [Option.some.injEq] at h4
      rw [h4] at g1 g2 g3 g4
      dsimp only at g1 g2 g3 g4
      subst g4
      exact ⟨.same _ (h3.imp (fun h => g2.trans h) id) (g1.trans h1), g3.trans h2⟩
    simp only at hx
    split at hx
    · exact herr hx e1 e3 (.inl e2)
    split at hx
    · exact herr hx e1 e3 (.inl e2)
    split at hx
    · exact herr hx e1 e3 (.inl e2)
    split at hx
    · exact herr hx e1 e3 (.inr rfl)
    generalize hf : ({ seq := q, hdr := h, tiles := c1.tiles, refs := c1.refs } : FrameIn κ) = f at hx
    have f1 : f.seq = q := by rw [← hf]
    have f2 : f.hdr = h := by rw [← hf]
    have f3 : f.refs = c.refs := by rw [← hf]; exact e1
    generalize hp : newPic _ q h _ (env.dec f) = p at hx
    have p1 : p.hdr = h := by rw [← hp]; rfl
    have p2 : p.seq = q := by rw [← hp]; rfl
    have p3 : p.content = env.dec f := by rw [← hp]; rfl
    have p4 : p.showable = h.base.showableFrame := by rw [← hp]; rfl
    split at hx
    · rename_i h1
      unfold submitSync at hx
      split at hx
      · cases hx
      · rename_i c3 h3
        obtain ⟨g1, g2, g3⟩ : c3.refs = c.refs ∧ c3.decoded = c.decoded ++ [f] ∧ c3.seq = c.seq := by
          split at h3
          · unfold setOut at h3
            split at h3
            · cases h3
            · cases h3
              exact ⟨e1, by rw [← e2], e3⟩
          · cases h3
            exact ⟨e1, by rw [← e2], e3⟩
        split at hx
        · exact herr hx g1 g3 (.inr rfl)
        · split at hx
          · rename_i er her
            obtain ⟨k1, k2, k3, k4⟩ := submitError_refs s { c3 with refs := dropRefs h c3.refs } 0 props er
            rw [Option.some.injEq] at hx
            rw [hx] at k1 k2 k3 k4
            dsimp only at k1 k2 k3 k4
            subst k4
            exact ⟨.failed f er h1 f2 (p3 ▸ her) (k2.trans g2) f3 (by rw [k1, g1]), k3.trans g3⟩
          · cases hx
            exact ⟨.frame f p f1 f2 g2 f3 p1 p2 p3 p4 (by rw [g1]), g3⟩
    · unfold submitAsync at hx
      split at hx
      · exact herr hx e1 e3 (.inr rfl)
      · cases hx
        refine ⟨.frame f p f1 f2 ?_ f3 p1 p2 p3 p4 ?_, e3⟩
        · rw [← e2]; rfl
        · rw [← e1]; rfl

/-- The value returned for an error or for `n` bytes. -/
def outcome (e : Option Err) (n : Nat) : Except Err Nat := e.elim (.ok n) .error

/-- What follows the switch. -/
theorem finishObu_slots {s : Settings} {env : Env κ} {c : Dec κ} (hs3 : s.decodeFrameType ≤ 3)
    (h3 : ∀ h, c.frameHdr = some (.frame h) → h.base.frameType ≤ 3) {props : Props} {c' e} (hx : finishObu s env c props = some (c', e)) (n : Nat) :
    SlotStep s env c c' (outcome e n) ∧ c'.seq = c.seq := by
  unfold finishObu at hx
  split at hx
  · rename_i idx _ _ _ _
    unfold showExisting at hx
    split at hx
    · cases hx; exact ⟨.same (.inl rfl) (fun _ _ => rfl), rfl⟩
    split at hx
    · cases hx; exact ⟨.same (.inl rfl) (fun _ _ => rfl), rfl⟩
    split at hx
    · rename_i p hp
      split at hx
      · cases hx; exact ⟨.same (.inl rfl) (fun _ _ => rfl), rfl⟩
      split at hx
      · cases hx
      · rename_i d hd
        obtain ⟨d1, d2, d3⟩ := showPic_refs hd
        split at hx
        · rename_i hk
          cases hx
          refine ⟨.shownKey idx p n rfl d2 hp hk fun i hi => ?_, d3⟩
          show (keyRefresh idx p d.refs i).p = _ ∧ (keyRefresh idx p d.refs i).aux = _
          unfold keyRefresh
          rw [d1]
          by_cases hij : i = idx
          · rw [if_pos hij]; subst hij; exact ⟨rfl, rfl⟩
          · rw [if_neg hij, if_pos hi]; exact ⟨rfl, rfl⟩
        · cases hx
          exact ⟨.same (.inl d2) (fun i _ => by rw [← d1]), d3⟩
    · cases hx; exact ⟨.same (.inl rfl) (fun _ _ => rfl), rfl⟩
  · rename_i q h hq hh
    split at hx
    · unfold frameComplete at hx
      split at hx
      · rename_i hs
        cases hx
        refine ⟨.skipped h n rfl (fun hsel => ?_) rfl (skipRefs_updated h _), rfl⟩
        rw [(skip_iff hs3 (h3 h hh)).2 hsel] at hs
        cases hs
      split at hx
      · cases hx; exact ⟨.same (.inl rfl) (fun _ _ => rfl), rfl⟩
      split at hx
      · cases hx
      · rename_i d er hd
        cases hx
        obtain ⟨h1, h2⟩ := submitFrame_slots hd
        cases h1 with
        | same _ a b => exact ⟨.same (a.imp id (fun h => by rw [h]; rfl)) (fun i _ => by rw [b]), h2⟩
        | failed f _ a1 a2 a3 a4 a5 a6 =>
          refine ⟨.failed f er a1 rfl a3 a4 a5 ?_, h2⟩
          rw [a6, a2]; exact dropRefs_updated h _
      · rename_i d hd
        obtain ⟨h1, h2⟩ := submitFrame_slots hd
        split at hx
        · cases hx
          cases h1 with
          | frame f p a1 a2 a3 a4 a5 a6 a7 a8 a9 =>
            refine ⟨.frame f p n rfl ?_ a3 a4 (by rw [a5, a2]) (by rw [a6, a1]) a7 (by rw [a8, a2]) ?_, h2⟩
            · show d.seq = _
              rw [h2, hq, a1]
            · show Updated f.hdr c.refs d.refs _
              rw [a9, a2]; exact refreshRefs_updated h p a5 _
        · cases hx
    · cases hx; exact ⟨.same (.inl rfl) (fun _ _ => rfl), rfl⟩
  · cases hx; exact ⟨.same (.inl rfl) (fun _ _ => rfl), rfl⟩

theorem SlotStep.congr {s : Settings} {env : Env κ} {c0 c c' : Dec κ} {r} (h : SlotStep s env c c' r) (h1 : c.refs = c0.refs)
    (h2 : c.decoded = c0.decoded) (h3 : c'.seq = c.seq) : SlotStep s env c0 c' r := by
  cases h with
  | same a b => exact .same (h2 ▸ a) (h1 ▸ b)
  | newSequence q q' a b c _ _ =>
    rw [h3, a] at b
    cases b
    exact absurd rfl c
  | frame f p n a1 a2 a3 a4 a5 a6 a7 a8 a9 => exact .frame f p n a1 a2 (h2 ▸ a3) (h1 ▸ a4) a5 a6 a7 a8 (h1 ▸ a9)
  | failed f e a1 a2 a3 a4 a5 a6 => exact .failed f e a1 a2 a3 (h2 ▸ a4) (h1 ▸ a5) (h1 ▸ a6)
  | skipped h n a1 a2 a3 a4 => exact .skipped h n a1 a2 (h2 ▸ a3) (h1 ▸ a4)
  | shownKey j p n a1 a2 a3 a4 a5 => exact .shownKey j p n a1 (h2 ▸ a2) (h1 ▸ a3) a4 (h1 ▸ a5)

theorem tileStep_refs {c : Dec κ} {h props x} (hx : TileStep c h props x) : x.1.refs = c.refs ∧ x.1.decoded = c.decoded ∧ x.1.seq = c.seq := by
  cases hx <;> exact ⟨rfl, rfl, rfl⟩

/-- The switch itself changes the slots only when a new sequence begins. -/
theorem caseStep_refs {s : Settings} {c : Dec κ} {props x} (hx : CaseStep s c props x) : x.1.decoded = c.decoded ∧
    ((x.1.refs = c.refs ∧ (∀ q, c.seq = some q → ∃ q', x.1.seq = some q' ∧ q'.core = q.core)) ∨
     (∃ q q', c.seq = some q ∧ x.1.seq = some q' ∧ q.core ≠ q'.core ∧ x.1.frameHdr = none ∧ x.2 = none ∧ ∀ i, i < 8 → x.1.refs i = {})) := by
  have hsame : ∀ {d : Dec κ}, d.seq = c.seq → ∀ q, c.seq = some q → ∃ q', d.seq = some q' ∧ q'.core = q.core :=
    fun h q hq => ⟨q, h.trans hq, rfl⟩
  cases hx with
  | seq q hq =>
    unfold activateSeq
    dsimp only
    split
    · rename_i h0
      exact ⟨rfl, .inl ⟨rfl, fun q hq => by rw [h0] at hq; cases hq⟩⟩
    · rename_i q0 h0
      split
      · rename_i hne
        refine ⟨rfl, .inr ⟨q0, q, h0, rfl, fun h => hne h.symm, rfl, rfl, fun i hi => ?_⟩⟩
        exact if_pos hi
      · rename_i he
        have he : q.core = q0.core := by simpa using he
        split
        · exact ⟨rfl, .inl ⟨rfl, fun q1 h1 => ⟨q, rfl, by rw [h0] at h1; cases h1; exact he⟩⟩⟩
        · exact ⟨rfl, .inl ⟨rfl, fun q1 h1 => ⟨q, rfl, by rw [h0] at h1; cases h1; exact he⟩⟩⟩
  | frame q hd x hq hf hl hx =>
    obtain ⟨h1, h2, h3⟩ := tileStep_refs hx
    exact ⟨h2, .inl ⟨h1, hsame h3⟩⟩
  | group hd x hh hx =>
    obtain ⟨h1, h2, h3⟩ := tileStep_refs hx
    exact ⟨h2, .inl ⟨h1, hsame h3⟩⟩
  | same e _ => exact ⟨rfl, .inl ⟨rfl, hsame rfl⟩⟩
  | noHdr => exact ⟨rfl, .inl ⟨rfl, hsame rfl⟩⟩
  | dropHdr e => exact ⟨rfl, .inl ⟨rfl, hsame rfl⟩⟩
  | hdr q r hq hf hl => exact ⟨rfl, .inl ⟨rfl, hsame rfl⟩⟩
  | noGroup => exact ⟨rfl, .inl ⟨rfl, hsame rfl⟩⟩
  | info i => exact ⟨rfl, .inl ⟨rfl, hsame rfl⟩⟩
  | td => exact ⟨rfl, .inl ⟨rfl, hsame rfl⟩⟩

theorem stepObu_slots {s : Settings} {env : Env κ} {c : Dec κ} (hs : s.decodeFrameType ≤ 3) (hi : Inv s env c) (pkt : Packet)
    {c' r} (h : stepObu s env c pkt = some (c', r)) : SlotStep s env c c' r ∧
      ∀ q q', c.seq = some q → c'.seq = some q' → q.core ≠ q'.core → ∀ i, i < 8 → c'.refs i = {} := by
  have hquiet : ∀ {d : Dec κ} {e}, caseError c pkt.props e = (d, r) → SlotStep s env c d r ∧
      ∀ q q', c.seq = some q → d.seq = some q' → q.core ≠ q'.core → ∀ i, i < 8 → d.refs i = {} := by
    intro d e he
    unfold caseError at he
    cases he
    refine ⟨.same (.inl ?_) (fun i _ => ?_), fun q q' h1 h2 h3 => ?_⟩
    · split <;> rfl
    · split <;> rfl
    · exfalso
      split at h2 <;> (replace h2 : c.seq = some q' := h2; rw [h1] at h2; cases h2; exact h3 rfl)
  unfold stepObu at h
  split at h
  · exact hquiet (Option.some.inj h)
  · rename_i o rest hsp
    split at h
    · exact hquiet (Option.some.inj h)
    split at h
    · cases h
      exact ⟨.same (.inl rfl) (fun _ _ => rfl), fun q q' h1 h2 h3 => by rw [h1] at h2; cases h2; exact absurd rfl h3⟩
    · obtain ⟨x, e, hx⟩ := obuCase_step (s := s) hi.ok o.type (obuHdrOf pkt.data).temporalId (obuHdrOf pkt.data).spatialId pkt.props o.payload
      rw [e] at h
      obtain ⟨hd, hc⟩ := caseStep_refs hx
      obtain ⟨hi1, _⟩ := hi.caseStep hx
      obtain ⟨c1, er⟩ := x
      dsimp only at hd hc hi1
      cases er with
      | some er =>
        rcases hc with ⟨hr, hq⟩ | ⟨_, _, _, _, _, _, hc, _⟩
        · dsimp only at h
          have h := Option.some.inj h
          unfold caseError at h
          cases h
          refine ⟨.same (.inl ?_) (fun i _ => ?_), fun q q' h1 h2 h3 => ?_⟩
          · split <;> exact hd
          · split <;> exact congrFun hr i
          · exfalso
            obtain ⟨q1, k1, k2⟩ := hq q h1
            split at h2 <;> (replace h2 : c1.seq = some q' := h2; rw [k1] at h2; cases h2; exact h3 k2.symm)
        · cases hc
      | none =>
        dsimp only at h
        cases hfin : finishObu s env c1 pkt.props with
        | none => rw [hfin] at h; cases h
        | some y =>
          obtain ⟨c2, e2⟩ := y
          have h' : some (c2, outcome e2 (pkt.data.length - rest.length)) = some (c', r) := by
            rw [hfin] at h; cases e2 <;> exact h
          cases h'
          obtain ⟨f1, f2⟩ := finishObu_slots hs (fun hd hh => (hi1.hdr hd hh).ok.frameType) hfin (pkt.data.length - rest.length)
          rcases hc with ⟨hr, hq⟩ | ⟨q, q', k1, k2, k3, k4, k5, k6⟩
          · refine ⟨f1.congr hr hd f2, fun q q' h1 h2 h3 => ?_⟩
            exfalso
            obtain ⟨q1, k1, k2⟩ := hq q h1
            rw [f2, k1] at h2
            cases h2
            exact h3 k2.symm
          · have : finishObu s env c1 pkt.props = some (c1, none) := by
              unfold finishObu; rw [k4, k2]
            rw [this] at hfin
            cases hfin
            exact ⟨.newSequence q q' k1 k2 k3 hd k6, fun _ _ _ _ _ => k6⟩

/-- Every OBU changes the reference slots only as the reference frame update process says: a decoded frame goes to
exactly the slots it flags, together with its tables and motion vectors, and was decoded from the slots as they were
before. -/
theorem C66_slots {s : Settings} {env : Env κ} {c : Dec κ} (hs : s.decodeFrameType ≤ 3) (hr : Reachable s env c) (pkt : Packet)
    (hp : pkt.data ≠ []) {c' r} (h : parseObus s env c pkt = some (c', r)) : SlotStep s env c c' r := by
  rw [parseObus_eq s env hr.inv.ok pkt hp] at h
  exact (stepObu_slots hs hr.inv pkt h).1

/-- A new sequence starts with empty slots. -/
theorem C66_new_sequence {s : Settings} {env : Env κ} {c : Dec κ} (hs : s.decodeFrameType ≤ 3) (hr : Reachable s env c) (pkt : Packet)
    (hp : pkt.data ≠ []) {c' r} (h : parseObus s env c pkt = some (c', r)) {q q'} (hq : c.seq = some q) (hq' : c'.seq = some q')
    (hne : q.core ≠ q'.core) : ∀ i, i < 8 → c'.refs i = {} := by
  rw [parseObus_eq s env hr.inv.ok pkt hp] at h
  exact (stepObu_slots hs hr.inv pkt h).2 q q' hq hq' hne

/-- When a key frame is shown again, all eight slots hold it afterwards, with its tables; it cannot be shown once
more. Slot `j` keeps its motion vectors, the others have none (a key frame has none to offer). -/
theorem C66_shown_key {s : Settings} {env : Env κ} {c : Dec κ} {q j a b} (hq : c.seq = some q) (hh : c.frameHdr = some (.showExisting j a b))
    {p : Pic κ} (hp : (c.refs j).p = .pic p) (hk : p.hdr.base.frameType = 0) {props c'} (h : finishObu s env c props = some (c', none)) :
    ∀ i, i < 8 → (c'.refs i).p = .pic { p with showable := false } ∧ (c'.refs i).aux = (c.refs j).aux ∧
      (c'.refs i).mvs = if i = j then (c.refs j).mvs else none := by
  unfold finishObu at h
  rw [hq, hh] at h
  dsimp only at h
  unfold showExisting at h
  rw [hp] at h
  simp only [RefPic.hdr] at h
  rw [if_neg (by simp [skipShown, hk])] at h
  split at h
  · cases h
  split at h
  · cases h
  · rename_i d hd
    cases h
    obtain ⟨d1, _⟩ := showPic_refs hd
    intro i hi
    show (keyRefresh j p d.refs i).p = _ ∧ (keyRefresh j p d.refs i).aux = _ ∧ (keyRefresh j p d.refs i).mvs = _
    unfold keyRefresh
    rw [d1]
    by_cases hij : i = j
    · rw [if_pos hij, if_pos hij]; subst hij; exact ⟨rfl, rfl, rfl⟩
    · rw [if_neg hij, if_neg hij, if_pos hi]; exact ⟨rfl, rfl, rfl⟩

/-- Showing a frame of another type changes no slot. -/
theorem C66_shown_other {s : Settings} {env : Env κ} {c : Dec κ} {q j a b} (hq : c.seq = some q) (hh : c.frameHdr = some (.showExisting j a b))
    {p : Pic κ} (hp : (c.refs j).p = .pic p) (hk : p.hdr.base.frameType ≠ 0) {props c' e} (h : finishObu s env c props = some (c', e)) :
    c'.refs = c.refs := by
  unfold finishObu at h
  rw [hq, hh] at h
  dsimp only at h
  unfold showExisting at h
  rw [hp] at h
  simp only [RefPic.hdr] at h
  split at h
  · cases h; rfl
  split at h
  · cases h; rfl
  split at h
  · cases h
  · rename_i d hd
    cases h
    exact (showPic_refs hd).1

/-! ## Examples: a key frame (content 7), an inter frame (9) for slot 2, and the key frame shown again -/

/-- The contents of the slots; `none` for an empty slot, one with a header only, or a failed frame. -/
def slotsSeen (c : Dec UInt8) : List (Option UInt8) := (List.range 8).map fun i =>
  match (c.refs i).p with
  | .pic p => p.content.toOption
  | _ => none

example : (after {} [send 1 keyPkt, .get]).map slotsSeen = some (List.replicate 8 (some 7)) := by decide +kernel
example : (after {} [send 1 keyPkt, .get, send 2 (tdObu ++ frameObu (interBits 1 4 false) [9]), .get]).map slotsSeen =
    some [some 7, some 7, some 9, some 7, some 7, some 7, some 7, some 7] := by decide +kernel
example : (after {} [send 1 keyPkt, .get, send 2 (tdObu ++ frameObu (interBits 1 4 false) [0xFF]), .get]).map slotsSeen =
    some [some 7, some 7, none, some 7, some 7, some 7, some 7, some 7] := by decide +kernel
example : (after {} [send 1 keyPkt, .get, send 2 (tdObu ++ frameObu (interBits 1 4 false) [9]), .get, send 3 (tdObu ++ showObu 2), .get]).map slotsSeen =
    some [some 7, some 7, some 9, some 7, some 7, some 7, some 7, some 7] := by decide +kernel
example : (after {} [send 1 keyPkt, .get, send 2 (tdObu ++ frameObu (interBits 1 4 false) [9]), .get, send 3 (tdObu ++ showObu 1), .get]).map slotsSeen =
    some (List.replicate 8 (some 7)) := by decide +kernel
-- C66_slots: the hypotheses hold for the context after the key frame was taken
example : Reachable {} demoEnv ((after {} [send 1 keyPkt, .get]).get demo_taken) ∧ interPkt ≠ [] ∧
    (parseObus {} demoEnv ((after {} [send 1 keyPkt, .get]).get demo_taken) ⟨interPkt, 2⟩).isSome = true :=
  ⟨after_reachable (Option.some_get _).symm, by decide +kernel, by decide +kernel⟩

end Dav1d
