import Verif.Api.EventLemmas
import Verif.Api.FlushLemmas
/-!
# The flags of the pictures of a stream
-/
namespace Dav1d
open HProg
variable {κ : Type}

theorem flOf_newTu (b : Bool) (f : PicFlags) (x : Bool) : flOf b { f with newTu := x } ↔ flOf b f := by
  cases b <;> rfl

theorem flOf_newSeq (b : Bool) {f : PicFlags} (h : flOf b f) : flOf b { f with newSeq := true } := by
  cases b
  · exact h
  · rfl

theorem flOf_newOp (b : Bool) {f : PicFlags} (h : flOf b f) : flOf b { f with newOp := true } := by
  cases b
  · rfl
  · exact h

/-- An OBU that is no sequence header neither touches the reference slots nor the flags. -/
structure CaseSame (c x : Dec κ) : Prop where
  refs : x.refs = c.refs
  seq : x.seq = c.seq
  flags : ∀ b, flOf b x.frameFlags ↔ flOf b c.frameFlags

theorem CaseSame.mk' {c x : Dec κ} (h1 : x.refs = c.refs) (h2 : x.seq = c.seq) (h3 : x.frameFlags = c.frameFlags) : CaseSame c x :=
  ⟨h1, h2, fun b => by rw [h3]⟩

theorem tileGroup_same {c0 : Dec κ} {c : Dec κ} (hc : CaseSame c0 c) {h props b x} (e : ((tileGroup c h props).run b).1 = some x) : CaseSame c0 x.1 := by
  unfold tileGroup at e
  simp only [Prog.run_bind] at e
  split at e
  · cases e; exact hc
  · simp only [Prog.run_bind] at e
    split at e <;> (cases e; exact ⟨hc.refs, hc.seq, hc.flags⟩)

theorem frameHdrCase_same {s : Settings} {c : Dec κ} {type t sp props b x} (e : ((frameHdrCase s c type t sp props).run b).1 = some x) : CaseSame c x.1 := by
  unfold frameHdrCase at e
  split at e
  · cases e; exact CaseSame.mk' rfl rfl rfl
  unfold frameHdrBody at e
  rw [Prog.run_bind] at e
  split at e
  · cases e; exact CaseSame.mk' rfl rfl rfl
  · simp only [Prog.run_bind] at e
    split at e
    · cases e; exact CaseSame.mk' rfl rfl rfl
    · split at e
      · cases e; exact CaseSame.mk' rfl rfl rfl
      · split at e
        · cases e; exact CaseSame.mk' rfl rfl rfl
        · split at e
          · cases e; exact CaseSame.mk' rfl rfl rfl
          · rw [Prog.run_bind] at e
            exact tileGroup_same (by exact CaseSame.mk' rfl rfl rfl) e

theorem metaCase_same {s : Settings} {c : Dec κ} {b x} (e : ((metaCase s c).run b).1 = some x) : CaseSame c x.1 := by
  unfold metaCase at e
  simp only [Prog.run_bind] at e
  split at e
  · cases e; exact CaseSame.mk' rfl rfl rfl
  split at e
  · unfold cllCase at e
    simp only [Prog.run_bind] at e
    split at e <;> (cases e; exact CaseSame.mk' rfl rfl rfl)
  split at e
  · unfold mdcvCase at e
    simp only [Prog.run_bind] at e
    split at e <;> (cases e; exact CaseSame.mk' rfl rfl rfl)
  split at e
  · unfold t35Case at e
    simp only [Prog.run_bind] at e
    repeat' split at e
    all_goals first | exact CaseSame.mk' (by cases e; rfl) (by cases e; rfl) (by cases e; rfl) | cases e
  · cases e; exact CaseSame.mk' rfl rfl rfl

theorem obuCase_same {s : Settings} {c : Dec κ} {type t sp props b x} (h1 : type ≠ 1) (e : ((obuCase s c type t sp props).run b).1 = some x) : CaseSame c x.1 := by
  unfold obuCase at e
  rw [if_neg h1] at e
  split at e
  · cases e; exact CaseSame.mk' rfl rfl rfl
  split at e
  · exact frameHdrCase_same e
  split at e
  · unfold tileGroupCase at e
    split at e
    · cases e; exact CaseSame.mk' rfl rfl rfl
    · exact tileGroup_same (CaseSame.mk' rfl rfl rfl) e
    · cases e; exact CaseSame.mk' rfl rfl rfl
  split at e
  · exact metaCase_same e
  split at e
  · cases e; exact ⟨rfl, rfl, fun b => flOf_newTu b _ _⟩
  · cases e; exact CaseSame.mk' rfl rfl rfl

/-- A sequence header is rejected or becomes the active one. -/
theorem obuCase_seq {s : Settings} {c : Dec κ} {t sp props b x} (e : ((obuCase s c 1 t sp props).run b).1 = some x) :
    x = (c, some .EINVAL) ∨ ∃ q, ((parseSeqHdr s.strict).exec b).1 = some q ∧ x = (activateSeq s c q, none) := by
  unfold obuCase at e
  rw [if_pos rfl] at e
  unfold seqCase at e
  simp only [Prog.run_bind] at e
  cases hq : ((parseSeqHdr s.strict).exec b).1 with
  | none =>
    left
    change ((OptionT.run (parseSeqHdr s.strict)).run b).1 = none at hq
    rw [hq] at e
    cases e; rfl
  | some q =>
    right
    refine ⟨q, rfl, ?_⟩
    change ((OptionT.run (parseSeqHdr s.strict)).run b).1 = some q at hq
    rw [hq] at e
    cases e; rfl

/-! ## Which slots are in use -/

/-- Only the eight slots are used, and none before the first sequence header. -/
structure SlotsOk (d : Dec κ) : Prop where
  high : ∀ i, 8 ≤ i → (d.refs i).p = .empty
  noSeq : d.seq = none → ∀ i, (d.refs i).p = .empty

theorem SlotsOk.congr {c d : Dec κ} (h : SlotsOk c) (h1 : d.refs = c.refs) (h2 : d.seq = c.seq) : SlotsOk d :=
  ⟨by rw [h1]; exact h.high, by rw [h1, h2]; exact h.noSeq⟩

theorem SlotsOk.init : SlotsOk (Dec.init : Dec κ) := ⟨fun _ _ => rfl, fun _ _ => rfl⟩

theorem activateSeq_slots {s : Settings} {c : Dec κ} (h : SlotsOk c) (q : SeqHdr) : SlotsOk (activateSeq s c q) := by
  unfold activateSeq
  dsimp only
  refine ⟨?_, fun h => by cases h⟩
  split
  · exact h.high
  · split
    · intro i hi
      dsimp only
      rw [if_neg (by omega)]
      exact h.high i hi
    · split <;> exact h.high

theorem obuCase_slots {s : Settings} {c : Dec κ} (h : SlotsOk c) {type t sp props b x} (e : ((obuCase s c type t sp props).run b).1 = some x) : SlotsOk x.1 := by
  by_cases h1 : type = 1
  · subst h1
    rcases obuCase_seq e with rfl | ⟨q, _, rfl⟩
    · exact h
    · exact activateSeq_slots h q
  · have := obuCase_same h1 e
    exact h.congr this.refs this.seq

theorem SlotsOk.setRefs {c d : Dec κ} (h : SlotsOk c) {q : SeqHdr} (hq : c.seq = some q) (h2 : d.seq = c.seq) (hr : ∀ i, 8 ≤ i → (d.refs i).p = (c.refs i).p) : SlotsOk d :=
  ⟨fun i hi => by rw [hr i hi]; exact h.high i hi, fun h0 => by rw [h2, hq] at h0; cases h0⟩

theorem seqSubmit_slots {s : Settings} {env : Env κ} {d : Dec κ} (h : SlotsOk d) {q : SeqHdr} {hd : FrameHdr} (hq : d.seq = some q) : SlotsOk (seqSubmit s env d q hd).1 := by
  unfold seqSubmit
  dsimp only
  split
  · exact h.congr rfl rfl
  split
  · exact h.congr rfl rfl
  split
  · exact h.congr rfl rfl
  split
  · exact h.congr rfl rfl
  split
  · refine h.setRefs hq rfl fun i hi => ?_
    simp only [dropRefs]
    rw [if_neg (fun hx => by have := refreshed_lt hx; omega)]
    rfl
  · refine h.setRefs hq rfl fun i hi => ?_
    simp only [refreshRefs]
    rw [if_neg (fun hx => by have := refreshed_lt hx; omega)]
    rfl

theorem seqShow_slots {s : Settings} {d : Dec κ} (h : SlotsOk d) {q : SeqHdr} (hq : d.seq = some q) (i : Nat) (props : Props) : SlotsOk (seqShow s d i props).1 := by
  unfold seqShow
  split
  · exact h
  · split
    · exact h.congr rfl rfl
    · exact h
  · rename_i p hp
    have hi : i < 8 := by
      by_contra hn
      rw [h.high i (by omega)] at hp; cases hp
    split
    · exact h.congr rfl rfl
    split
    · exact h
    · refine h.setRefs hq rfl fun j hj => ?_
      dsimp only
      split
      · simp only [keyRefresh]
        rw [if_neg (by omega), if_neg (by omega)]
      · rfl

theorem seqFinish_slots {s : Settings} {env : Env κ} {d : Dec κ} (h : SlotsOk d) (props : Props) : SlotsOk (seqFinish s env d props).1 := by
  unfold seqFinish
  split
  · rename_i hq _; exact seqShow_slots h hq _ _
  · rename_i hq _
    split
    · split
      · refine h.setRefs hq rfl fun i hi => ?_
        simp only [skipRefs]
        rw [if_neg (fun hx => by have := refreshed_lt hx; omega)]
      split
      · exact h
      · exact seqSubmit_slots h hq
    · exact h
  · exact h

theorem seqStep_slots {s : Settings} {env : Env κ} {d : Dec κ} (h : SlotsOk d) (pkt : Packet) : SlotsOk (seqStep s env d pkt).1 := by
  unfold seqStep
  split
  · exact h
  split
  · exact h
  split
  · exact h
  split
  · exact h
  · rename_i hx; exact obuCase_slots h hx
  · rename_i hx
    have h1 := seqFinish_slots (env := env) (s := s) (obuCase_slots h hx) pkt.props
    split <;> (rename_i hf; rw [hf] at h1; exact h1)

theorem seqPacket_slots {s : Settings} {env : Env κ} (n : Nat) : ∀ {d : Dec κ} {pkt : Packet}, pkt.data.length = n → SlotsOk d → SlotsOk (seqPacket s env d pkt).1 := by
  induction n using Nat.strong_induction_on with
  | _ n ih =>
    intro d pkt hn h
    by_cases hp : pkt.data = []
    · rw [seqPacket_nil s env d pkt hp]; exact h
    rw [seqPacket_eq s env d pkt hp]
    have h1 := seqStep_slots (s := s) (env := env) h pkt
    split
    · rename_i hx; rw [hx] at h1; exact h1
    · rename_i hx; rw [hx] at h1
      split
      · rename_i hlt; exact ih _ (by rw [← hn]; exact hlt) rfl h1
      · exact h1

theorem seqStream_slots {s : Settings} {env : Env κ} (l : List Packet) : ∀ {d : Dec κ}, SlotsOk d → SlotsOk (seqStream s env d l).1 := by
  induction l with
  | nil => intro d h; exact h
  | cons p l ih => intro d h; exact ih (seqPacket_slots _ rfl h)

/-! ## Announcing a change -/

/-- The flag is set for the next frame, and on every stored picture that is not `old`. -/
structure Pend (b : Bool) (old : Pic κ → Prop) (d : Dec κ) : Prop where
  flags : flOf b d.frameFlags
  refs : ∀ i p, (d.refs i).p = .pic p → flOf b p.flags ∨ old p

/-- Being a certain picture does not depend on how it is put out. -/
def Stable (old : Pic κ → Prop) : Prop := ∀ p q, old p → q.seq = p.seq → q.hdr = p.hdr → q.content = p.content → q.flags = p.flags → old q

/-- What a result tells about the flag. -/
def Tells (b : Bool) (old : Pic κ → Prop) (p : Pic κ) : Prop := flOf b p.flags ∨ old p

theorem Pend.congr {b : Bool} {old : Pic κ → Prop} {c d : Dec κ} (h : Pend b old c) (h1 : d.refs = c.refs) (h2 : flOf b d.frameFlags ↔ flOf b c.frameFlags) : Pend b old d :=
  ⟨h2.2 h.flags, by rw [h1]; exact h.refs⟩

theorem obuCase_pend {s : Settings} {b : Bool} {old : Pic κ → Prop} {c : Dec κ} (h : Pend b old c) {type t sp props bs x} (e : ((obuCase s c type t sp props).run bs).1 = some x) :
    Pend b old x.1 := by
  by_cases h1 : type = 1
  · subst h1
    rcases obuCase_seq e with rfl | ⟨q, _, rfl⟩
    · exact h
    · unfold activateSeq
      dsimp only
      split
      · exact ⟨flOf_newSeq b h.flags, h.refs⟩
      · split
        · refine ⟨flOf_newSeq b h.flags, fun i p hp => ?_⟩
          dsimp only at hp
          split at hp
          · cases hp
          · exact h.refs i p hp
        · split
          · exact ⟨flOf_newOp b h.flags, h.refs⟩
          · exact ⟨h.flags, h.refs⟩
  · have := obuCase_same h1 e
    exact h.congr this.refs (this.flags b)

/-- The state and the result of a step from a pending announcement. -/
def PendRes (b : Bool) (old : Pic κ → Prop) (x : Dec κ × Except Err (Option (Pic κ))) : Prop :=
  (x.2 = .ok none → Pend b old x.1) ∧ ∀ p, x.2 = .ok (some p) → Tells b old p

theorem seqSubmit_pend {s : Settings} {env : Env κ} {b : Bool} {old : Pic κ → Prop} {d : Dec κ} (h : Pend b old d) (q : SeqHdr) (hd : FrameHdr) :
    PendRes b old (seqSubmit s env d q hd) := by
  unfold seqSubmit
  dsimp only
  split
  · exact ⟨fun h => (by cases h), fun _ h => (by cases h)⟩
  split
  · exact ⟨fun h => (by cases h), fun _ h => (by cases h)⟩
  split
  · exact ⟨fun h => (by cases h), fun _ h => (by cases h)⟩
  split
  · exact ⟨fun h => (by cases h), fun _ h => (by cases h)⟩
  split
  · exact ⟨fun h => (by cases h), fun _ h => (by cases h)⟩
  · refine ⟨fun hn => ?_, fun p hp => ?_⟩
    · dsimp only at hn
      split at hn
      · cases hn
      · rename_i hs
        refine ⟨?_, fun i p hp => ?_⟩
        · simp only [afterAlloc, keptFlags]
          rw [if_neg (by intro h; simp only [Bool.and_eq_true] at h; exact hs h.1)]
          exact (flOf_newTu b _ _).2 h.flags
        · simp only [refreshRefs] at hp
          split at hp
          · cases hp; exact Or.inl h.flags
          · exact h.refs i p hp
    · dsimp only at hp
      split at hp
      · cases hp; exact Or.inl h.flags
      · cases hp

theorem seqShow_pend {s : Settings} {b : Bool} {old : Pic κ → Prop} (hst : Stable old) {d : Dec κ} (h : Pend b old d) (i : Nat) (props : Props) :
    PendRes b old (seqShow s d i props) := by
  unfold seqShow
  split
  · exact ⟨fun h => (by cases h), fun _ h => (by cases h)⟩
  · split
    · exact ⟨fun _ => ⟨h.flags, h.refs⟩, fun _ h => by cases h⟩
    · exact ⟨fun h => (by cases h), fun _ h => (by cases h)⟩
  · rename_i p hp
    split
    · exact ⟨fun _ => ⟨h.flags, h.refs⟩, fun _ h => by cases h⟩
    split
    · exact ⟨fun h => (by cases h), fun _ h => (by cases h)⟩
    · refine ⟨fun h => (by cases h), fun p' hp' => ?_⟩
      cases hp'
      exact (h.refs i p hp).imp id (fun ho => hst p _ ho rfl rfl rfl rfl)

theorem seqFinish_pend {s : Settings} {env : Env κ} {b : Bool} {old : Pic κ → Prop} (hst : Stable old) {d : Dec κ} (h : Pend b old d) (props : Props) :
    PendRes b old (seqFinish s env d props) := by
  have same : PendRes b old (d, .ok none) := ⟨fun _ => h, fun _ h => by cases h⟩
  unfold seqFinish
  split
  · exact seqShow_pend hst h _ _
  · split
    · split
      · refine ⟨fun _ => ⟨h.flags, fun i p hp => ?_⟩, fun _ h => by cases h⟩
        simp only [skipRefs] at hp
        split at hp
        · cases hp
        · exact h.refs i p hp
      split
      · exact ⟨fun h => (by cases h), fun _ h => (by cases h)⟩
      · exact seqSubmit_pend h _ _
    · exact same
  · exact same

theorem seqStep_pend {s : Settings} {env : Env κ} {b : Bool} {old : Pic κ → Prop} (hst : Stable old) {d : Dec κ} (h : Pend b old d) (pkt : Packet) :
    (∀ rest, (seqStep s env d pkt).2 = .ok (none, rest) → Pend b old (seqStep s env d pkt).1) ∧
    ∀ p rest, (seqStep s env d pkt).2 = .ok (some p, rest) → Tells b old p := by
  unfold seqStep
  split
  · exact ⟨fun _ h => (by cases h), fun _ _ h => (by cases h)⟩
  split
  · exact ⟨fun _ h => (by cases h), fun _ _ h => (by cases h)⟩
  split
  · exact ⟨fun _ _ => h, fun _ _ h => by cases h⟩
  split
  · exact ⟨fun _ h => (by cases h), fun _ _ h => (by cases h)⟩
  · exact ⟨fun _ h => (by cases h), fun _ _ h => (by cases h)⟩
  · rename_i hx
    have h1 := seqFinish_pend (env := env) (s := s) hst (obuCase_pend h hx) pkt.props
    split
    · exact ⟨fun _ h => (by cases h), fun _ _ h => (by cases h)⟩
    · rename_i hf
      rw [hf] at h1
      refine ⟨fun rest hr => ?_, fun p rest hr => ?_⟩
      · cases hr; exact h1.1 rfl
      · cases hr; exact h1.2 p rfl

/-- A list of results from a pending announcement: if empty it is still pending, otherwise the first result, if it is
a picture, tells it. -/
def FirstTells (b : Bool) (old : Pic κ → Prop) (x : Dec κ × List (Except Err (Pic κ))) : Prop :=
  (x.2 = [] → Pend b old x.1) ∧ ∀ p t, x.2 = .ok p :: t → Tells b old p

theorem seqPacket_pend {s : Settings} {env : Env κ} {b : Bool} {old : Pic κ → Prop} (hst : Stable old) (n : Nat) : ∀ {d : Dec κ} {pkt : Packet}, pkt.data.length = n →
    Pend b old d → FirstTells b old (seqPacket s env d pkt) := by
  induction n using Nat.strong_induction_on with
  | _ n ih =>
    intro d pkt hn h
    by_cases hp : pkt.data = []
    · rw [seqPacket_nil s env d pkt hp]; exact ⟨fun _ => h, fun _ _ h => by cases h⟩
    rw [seqPacket_eq s env d pkt hp]
    have h1 := seqStep_pend (s := s) (env := env) hst h pkt
    split
    · exact ⟨fun h => (by cases h), fun _ _ h => (by cases h)⟩
    · rename_i d' p rest hx; rw [hx] at h1
      cases p with
      | none =>
        have h2 := h1.1 rest rfl
        split
        · have h3 := ih rest.length (by omega) (pkt := { pkt with data := rest }) rfl h2
          exact ⟨fun h => h3.1 (by simpa using h), fun p t h => h3.2 p t (by simpa using h)⟩
        · exact ⟨fun _ => h2, fun _ _ h => by cases h⟩
      | some p =>
        have h2 := h1.2 p rest rfl
        split
        · refine ⟨fun h => (by simp at h), fun q t h => ?_⟩
          simp at h; rw [← h.1]; exact h2
        · refine ⟨fun h => (by simp at h), fun q t h => ?_⟩
          simp at h; rw [← h.1]; exact h2

theorem seqStream_pend {s : Settings} {env : Env κ} {b : Bool} {old : Pic κ → Prop} (hst : Stable old) (l : List Packet) : ∀ {d : Dec κ},
    Pend b old d → FirstTells b old (seqStream s env d l) := by
  induction l with
  | nil => intro d h; exact ⟨fun _ => h, fun _ _ h => by cases h⟩
  | cons p l ih =>
    intro d h
    have h1 := seqPacket_pend (s := s) (env := env) hst _ (pkt := p) rfl h
    simp only [seqStream, FirstTells]
    cases hr : (seqPacket s env d p).2 with
    | nil => rw [List.nil_append]; exact ih (h1.1 hr)
    | cons x t =>
      refine ⟨fun h => (by cases h), fun q u hq => ?_⟩
      simp only [List.cons_append, List.cons.injEq] at hq
      exact h1.2 q t (by rw [hr, hq.1])

end Dav1d
