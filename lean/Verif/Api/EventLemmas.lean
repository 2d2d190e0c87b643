import Verif.Api.OrderProps
import Mathlib.Tactic.Tauto
/-!
# Event flags follow the pictures
-/
namespace Dav1d
variable {κ : Type}

/-- One of the two event flags: new sequence (`b`) or new operating parameters. -/
def evOf (b : Bool) (e : Bool × Bool) : Prop := cond b e.1 e.2 = true

/-- The same flag of a picture. -/
def flOf (b : Bool) (f : PicFlags) : Prop := cond b f.newSeq f.newOp = true

theorem evOf_add (b : Bool) (e : Bool × Bool) (f : PicFlags) : evOf b (addFlags e f) ↔ evOf b e ∨ flOf b f := by
  cases b <;> simp [evOf, flOf, addFlags]

/-- A picture, if any, has the flag. -/
def oFl (b : Bool) (o : Option (Pic κ)) : Prop := ∃ p, o = some p ∧ flOf b p.flags

theorem oFl_none (b : Bool) : ¬ oFl b (none : Option (Pic κ)) := by rintro ⟨_, h, _⟩; cases h

theorem oFl_some (b : Bool) (p : Pic κ) : oFl b (some p) ↔ flOf b p.flags :=
  ⟨fun ⟨_, h, hf⟩ => by cases h; exact hf, fun h => ⟨p, rfl, h⟩⟩

/-- From a context without picture in `out`: the flag is raised exactly with the picture put there. -/
structure Enters (b : Bool) (c c' : Dec κ) : Prop where
  ev : evOf b c'.eventFlags ↔ evOf b c.eventFlags ∨ oFl b c'.out
  cache : c'.cache = c.cache

/-- The same, or a picture was put there and dropped again. -/
structure Drops (b : Bool) (c c' : Dec κ) : Prop where
  out : c'.out = none
  ev : evOf b c.eventFlags → evOf b c'.eventFlags
  cache : c'.cache = c.cache

theorem Enters.refl (b : Bool) {c : Dec κ} (h : c.out = none) : Enters b c c :=
  ⟨by rw [h]; have := oFl_none (κ := κ) b; tauto, rfl⟩

theorem Enters.congr {b : Bool} {c c' d : Dec κ} (h : Enters b c c') (h1 : d.out = c'.out) (h2 : d.eventFlags = c'.eventFlags) (h3 : d.cache = c'.cache) :
    Enters b c d := ⟨by rw [h1, h2]; exact h.ev, by rw [h3]; exact h.cache⟩

theorem Enters.from {b : Bool} {c c' d : Dec κ} (h : Enters b c c') (h2 : d.eventFlags = c.eventFlags) (h3 : d.cache = c.cache) :
    Enters b d c' := ⟨by rw [h2]; exact h.ev, by rw [h3]; exact h.cache⟩

theorem Enters.drops {b : Bool} {c c' d : Dec κ} (h : Enters b c c') (h1 : d.out = none) (h2 : d.eventFlags = c'.eventFlags) (h3 : d.cache = c'.cache) :
    Drops b c d := ⟨h1, by rw [h2, h.ev]; tauto, by rw [h3]; exact h.cache⟩

theorem Drops.congr {b : Bool} {c c' d : Dec κ} (h : Drops b c c') (h1 : d.out = c'.out) (h2 : d.eventFlags = c'.eventFlags) (h3 : d.cache = c'.cache) :
    Drops b c d := ⟨by rw [h1]; exact h.out, by rw [h2]; exact h.ev, by rw [h3]; exact h.cache⟩

theorem Drops.from {b : Bool} {c c' d : Dec κ} (h : Drops b c c') (h2 : d.eventFlags = c.eventFlags) (h3 : d.cache = c.cache) :
    Drops b d c' := ⟨h.out, by rw [h2]; exact h.ev, by rw [h3]; exact h.cache⟩

theorem setOut_enters (b : Bool) {c d0 d : Dec κ} {p : Pic κ} (e : setOut d0 p = some d) (he : d0.eventFlags = addFlags c.eventFlags p.flags)
    (hc : d0.cache = c.cache) : Enters b c d := by
  unfold setOut at e
  split at e
  · cases e
  · cases e
    refine ⟨?_, hc⟩
    dsimp only
    rw [he, evOf_add, oFl_some]

theorem showDelayed_enters (b : Bool) {s : Settings} {c d : Dec κ} {p : Pic κ} (ho : c.out = none) (e : showDelayed s c p = some d) : Enters b c d := by
  unfold showDelayed at e
  split at e
  · exact setOut_enters b e rfl rfl
  · cases e; exact Enters.refl b ho

theorem ringPop_enters (b : Bool) {s : Settings} {c d : Dec κ} (ho : c.out = none) (e : ringPop s c = some d) : Enters b c d := by
  unfold ringPop at e
  dsimp only at e
  split at e
  · cases e
    exact (Enters.refl b ho).congr rfl rfl rfl
  · split at e
    · cases e; exact (Enters.refl b ho).congr rfl rfl rfl
    · exact (showDelayed_enters b (by exact ho) e).from rfl rfl

/-- What a step does that may end with an error. -/
def EntersE (s : Settings) (b : Bool) (c c' : Dec κ) (er : Option Err) : Prop := Enters b c c' ∨ (Drops b c c' ∧ er ≠ none ∧ s.nFc = 1)

theorem submitError_enters (b : Bool) {s : Settings} {c0 c : Dec κ} (h : Enters b c0 c) (i : Nat) (props : Props) (e : Err) :
    EntersE s b c0 (submitError s c i props e).1 (submitError s c i props e).2 := by
  unfold submitError
  dsimp only
  split
  · rename_i hn; exact Or.inr ⟨h.drops rfl rfl rfl, by simp, hn⟩
  · exact Or.inl (h.congr rfl rfl rfl)

theorem submitFrame_enters (b : Bool) {s : Settings} {env : Env κ} {c : Dec κ} (ho : c.out = none) {q hd props x} (e : submitFrame s env c q hd props = some x) :
    EntersE s b c x.1 x.2 := by
  unfold submitFrame at e
  dsimp only at e
  split at e
  · cases e
  rename_i d hpop
  have hd0 : Enters b c d := by
    split at hpop
    · cases hpop; exact Enters.refl b ho
    · exact ringPop_enters b ho hpop
  split at e
  · cases e; exact submitError_enters b (by exact hd0.congr rfl rfl rfl) ..
  split at e
  · cases e; exact submitError_enters b (by exact hd0.congr rfl rfl rfl) ..
  split at e
  · cases e; exact submitError_enters b (by exact hd0.congr rfl rfl rfl) ..
  split at e
  · cases e; exact submitError_enters b (by exact hd0.congr rfl rfl rfl) ..
  split at e
  · rename_i hn
    rw [if_pos hn] at hpop
    cases hpop
    unfold submitSync at e
    split at e
    · cases e
    rename_i f hf
    have hf0 : Enters b c f := by
      split at hf
      · exact setOut_enters b hf rfl rfl
      · cases hf; exact hd0.congr rfl rfl rfl
    split at e
    · cases e; exact submitError_enters b hf0 ..
    split at e
    · cases e
      exact submitError_enters b (c := { f with refs := dropRefs hd f.refs }) (hf0.congr rfl rfl rfl) ..
    · cases e; exact Or.inl (hf0.congr rfl rfl rfl)
  · unfold submitAsync at e
    split at e
    · cases e; exact submitError_enters b (by exact hd0.congr rfl rfl rfl) ..
    · cases e
      exact Or.inl (hd0.congr rfl rfl rfl)

theorem EntersE.congr {s : Settings} {b : Bool} {c c' d : Dec κ} {er} (h : EntersE s b c c' er) (h1 : d.out = c'.out) (h2 : d.eventFlags = c'.eventFlags) (h3 : d.cache = c'.cache) :
    EntersE s b c d er := h.imp (·.congr h1 h2 h3) (fun h => ⟨h.1.congr h1 h2 h3, h.2⟩)

theorem showPic_enters (b : Bool) {s : Settings} {c d : Dec κ} {p : Pic κ} {props : Props} (ho : c.out = none) (e : showPic s c p props = some d) : Enters b c d := by
  unfold showPic at e
  dsimp only at e
  split at e
  · exact setOut_enters b e rfl rfl
  · split at e
    · cases e
    · rename_i f hf
      cases e
      have h1 := ringPop_enters b (by exact ho) hf
      have h2 : Enters b c f := h1.from rfl rfl
      exact h2.congr rfl rfl rfl

theorem finishObu_enters (b : Bool) {s : Settings} {env : Env κ} {c : Dec κ} (ho : c.out = none) {props x} (e : finishObu s env c props = some x) :
    EntersE s b c x.1 x.2 := by
  have h := Enters.refl b ho
  unfold finishObu at e
  split at e
  · unfold showExisting at e
    split at e
    · cases e; exact Or.inl (h.congr rfl rfl rfl)
    split at e
    · cases e; exact Or.inl (h.congr rfl rfl rfl)
    split at e
    · split at e
      · cases e; exact Or.inl (h.congr rfl rfl rfl)
      · split at e
        · cases e
        · rename_i d hd
          have hd := showPic_enters b ho hd
          split at e <;> (cases e; exact Or.inl (hd.congr rfl rfl rfl))
    · cases e; exact Or.inl (h.congr rfl rfl rfl)
  · split at e
    · unfold frameComplete at e
      split at e
      · cases e; exact Or.inl (h.congr rfl rfl rfl)
      split at e
      · cases e; exact Or.inl (h.congr rfl rfl rfl)
      split at e
      · cases e
      · rename_i hs
        cases e; exact submitFrame_enters b ho hs
      · rename_i hs
        split at e
        · cases e; exact (submitFrame_enters b ho hs).congr rfl rfl rfl
        · cases e
    · cases e; exact Or.inl h
  · cases e; exact Or.inl h

theorem caseStep_held {s : Settings} {c : Dec κ} {props x} (hx : CaseStep s c props x) :
    x.1.out = c.out ∧ x.1.eventFlags = c.eventFlags ∧ x.1.cache = c.cache := by
  have htile : ∀ {c : Dec κ} {hd x}, TileStep c hd props x → x.1.out = c.out ∧ x.1.eventFlags = c.eventFlags ∧ x.1.cache = c.cache := by
    intro c hd x hx
    cases hx <;> exact ⟨rfl, rfl, rfl⟩
  cases hx with
  | seq q =>
    unfold activateSeq
    dsimp only
    split
    · exact ⟨rfl, rfl, rfl⟩
    · split
      · exact ⟨rfl, rfl, rfl⟩
      · split <;> exact ⟨rfl, rfl, rfl⟩
  | frame q hd x a b cc hx => have := htile hx; exact this
  | group hd x a hx => exact htile hx
  | _ => exact ⟨rfl, rfl, rfl⟩

theorem parseObus_enters (b : Bool) {s : Settings} {env : Env κ} {c : Dec κ} (ho : c.out = none) (hi : Inv s env c) {pkt : Packet} (hp : pkt.data ≠ []) {x}
    (e : parseObus s env c pkt = some x) : EntersE s b c x.1 (errOf x.2) := by
  rw [parseObus_eq s env hi.ok pkt hp] at e
  have h := Enters.refl b ho
  have hce : ∀ {d : Dec κ} er, Enters b c d → EntersE s b c (caseError d pkt.props er).1 (errOf (caseError d pkt.props er).2) := by
    intro d er h
    unfold caseError
    dsimp only
    split
    · exact Or.inl h
    · exact Or.inl (h.congr rfl rfl rfl)
  unfold stepObu at e
  split at e
  · cases e; exact hce _ h
  rename_i o rest _
  split at e
  · cases e; exact hce _ h
  split at e
  · cases e; exact Or.inl h
  obtain ⟨y, e1, hy⟩ := obuCase_step (s := s) hi.ok o.type (obuHdrOf pkt.data).temporalId (obuHdrOf pkt.data).spatialId pkt.props o.payload
  rw [e1] at e
  obtain ⟨k1, k2, k3⟩ := caseStep_held hy
  obtain ⟨d, er⟩ := y
  dsimp only at k1 k2 k3
  cases er with
  | some er => cases e; exact hce _ (h.congr k1 k2 k3)
  | none =>
    dsimp only at e
    have hfin : ∀ {y}, finishObu s env d pkt.props = some y → EntersE s b c y.1 y.2 := fun hf =>
      (finishObu_enters b (k1.trans ho) hf).imp (·.from k2.symm k3.symm) (fun h => ⟨h.1.from k2.symm k3.symm, h.2⟩)
    split at e
    · cases e
    · rename_i hf; cases e; exact hfin hf
    · rename_i hf; cases e; exact hfin hf

/-! ## Calls -/

/-- A picture held for the caller has the flag. -/
def heldFl (b : Bool) (c : Dec κ) : Prop := oFl b c.out ∨ oFl b c.cache

/-- A returned picture has the flag. -/
def retFl (b : Bool) (r : List (Except Err (Pic κ))) : Prop := ∃ p, .ok p ∈ r ∧ flOf b p.flags

/-- From `c` to `c'` the flags `n` were raised, for pictures that are now held or were returned; if `ok` no picture
disappeared. Without layers the cache is not used. -/
def Moves (s : Settings) (b : Bool) (ok : Prop) (c c' : Dec κ) (r : List (Except Err (Pic κ))) : Prop :=
  ∃ n : Prop, (evOf b c'.eventFlags ↔ evOf b c.eventFlags ∨ n) ∧ (retFl b r ∨ heldFl b c' → heldFl b c ∨ n) ∧
    (ok → heldFl b c ∨ n → retFl b r ∨ heldFl b c') ∧ (s.allLayers = true → c'.cache = c.cache)

theorem retFl_nil (b : Bool) : ¬ retFl b ([] : List (Except Err (Pic κ))) := by rintro ⟨_, h, _⟩; cases h

theorem retFl_append (b : Bool) (l m : List (Except Err (Pic κ))) : retFl b (l ++ m) ↔ retFl b l ∨ retFl b m := by
  simp only [retFl, List.mem_append, or_and_right, exists_or]

theorem Moves.refl (s : Settings) (b : Bool) (ok : Prop) {c c' : Dec κ} (h1 : c'.out = c.out) (h2 : c'.eventFlags = c.eventFlags) (h3 : c'.cache = c.cache) : Moves s b ok c c' [] := by
  refine ⟨False, by rw [h2]; tauto, ?_, ?_, fun _ => h3⟩ <;>
  · have := retFl_nil (κ := κ) b
    unfold heldFl
    rw [h1, h3]; tauto

theorem Moves.trans {s : Settings} {b : Bool} {ok ok' : Prop} {c d e : Dec κ} {l m : List (Except Err (Pic κ))} (h1 : Moves s b ok c d l) (h2 : Moves s b ok' d e m) :
    Moves s b (ok ∧ ok') c e (l ++ m) := by
  obtain ⟨n, a1, a2, a3, a4⟩ := h1
  obtain ⟨n', b1, b2, b3, b4⟩ := h2
  refine ⟨n ∨ n', by rw [b1, a1, or_assoc], ?_, ?_, fun h => (b4 h).trans (a4 h)⟩
  · rw [retFl_append]
    intro h
    have : (retFl b l ∨ heldFl b d) ∨ n' → heldFl b c ∨ n ∨ n' := fun h => by
      rcases h with h | h
      · exact (a2 h).imp_right Or.inl
      · exact Or.inr (Or.inr h)
    rcases h with (h | h) | h
    · exact this (Or.inl (Or.inl h))
    · exact this ((b2 (Or.inl h)).imp_left Or.inr)
    · exact this ((b2 (Or.inr h)).imp_left Or.inr)
  · rw [retFl_append]
    rintro ⟨k1, k2⟩ h
    have h2 : heldFl b d ∨ n' → (retFl b l ∨ retFl b m) ∨ heldFl b e := fun h => (b3 k2 h).imp_left Or.inr
    rcases h with h | h | h
    · rcases a3 k1 (Or.inl h) with h | h
      · exact Or.inl (Or.inl h)
      · exact h2 (Or.inl h)
    · rcases a3 k1 (Or.inr h) with h | h
      · exact Or.inl (Or.inl h)
      · exact h2 (Or.inl h)
    · exact h2 (Or.inr h)

theorem Moves.imp {s : Settings} {b : Bool} {ok ok' : Prop} {c d : Dec κ} {l : List (Except Err (Pic κ))} (h : Moves s b ok c d l) (hi : ok' → ok) : Moves s b ok' c d l := by
  obtain ⟨n, a1, a2, a3, a4⟩ := h
  exact ⟨n, a1, a2, fun h => a3 (hi h), a4⟩

theorem EntersE.moves {s : Settings} {b : Bool} {c c' : Dec κ} {er} (ho : c.out = none) (h : EntersE s b c c' er) : Moves s b (er = none) c c' [] := by
  have h0 := oFl_none (κ := κ) b
  have h1 := retFl_nil (κ := κ) b
  rcases h with h | ⟨h, he⟩
  · refine ⟨oFl b c'.out, h.ev, ?_, ?_, fun _ => h.cache⟩ <;>
    · unfold heldFl; rw [ho, h.cache]; tauto
  · by_cases hev : evOf b c'.eventFlags
    · refine ⟨True, by tauto, by tauto, by tauto, fun _ => h.cache⟩
    · refine ⟨False, ?_, ?_, by tauto, fun _ => h.cache⟩
      · have := h.ev; tauto
      · unfold heldFl; rw [h.out, h.cache]; tauto

theorem outputReady_moves (b : Bool) {s : Settings} (c : Dec κ) (d : Bool) : Moves s b (s.allLayers = true) c (outputReady s c d).2 [] := by
  have h0 := oFl_none (κ := κ) b
  have h1 := retFl_nil (κ := κ) b
  unfold outputReady
  split
  · exact Moves.refl s b _ rfl rfl rfl
  split
  · rename_i hl
    have hl : ¬ s.allLayers = true := fun h => by simp [layered, h] at hl
    split
    · split
      · exact Moves.refl s b _ rfl rfl rfl
      · rename_i o k ho hk _
        refine ⟨False, by tauto, ?_, by tauto, by tauto⟩
        unfold heldFl; rw [ho]; tauto
    · exact Moves.refl s b _ rfl rfl rfl
    · rename_i o ho hk
      refine ⟨False, by tauto, ?_, by tauto, by tauto⟩
      unfold heldFl; rw [ho]; tauto
    · exact Moves.refl s b _ rfl rfl rfl
  · exact Moves.refl s b _ rfl rfl rfl

theorem finishPic_flags {s : Settings} {env : Env κ} {p q : Pic κ} (h : finishPic s env p = .ok q) : q.flags = p.flags := by
  unfold finishPic at h
  split at h
  · cases h; rfl
  · split at h
    · cases h
    · split at h
      · cases h
      · cases h; rfl

theorem finishPic_retFl (b : Bool) (s : Settings) (env : Env κ) (p : Pic κ) :
    (retFl b [finishPic s env p] → flOf b p.flags) ∧ (errOf (finishPic s env p) = none → flOf b p.flags → retFl b [finishPic s env p]) := by
  constructor
  · rintro ⟨q, hq, hf⟩
    simp only [List.mem_singleton] at hq
    rw [finishPic_flags hq.symm] at hf; exact hf
  · intro he hf
    cases hx : finishPic s env p with
    | error e => rw [hx] at he; cases he
    | ok q => exact ⟨q, by simp, by rw [finishPic_flags hx]; exact hf⟩

/-- A result is no error but EAGAIN. -/
def Fine (e : Option Err) : Prop := e = none ∨ e = some .EAGAIN

theorem outputImage_moves (b : Bool) {s : Settings} {env : Env κ} (hna : NoAgain env) {c : Dec κ} (hok : ∀ p, c.out = some p → p.content.isOk = true) {x}
    (e : outputImage s env c = some x) : Moves s b (s.allLayers = true ∧ Fine (errOf x.2)) c x.1 [x.2] := by
  have h0 := oFl_none (κ := κ) b
  unfold outputImage at e
  split at e
  · rename_i hl
    have hl : ¬ s.allLayers = true := fun h => by simp [layered, h] at hl
    split at e
    · cases e
    · rename_i p hp
      cases e
      have hf := finishPic_retFl b s env p
      refine ⟨False, by tauto, ?_, by tauto, by tauto⟩
      · unfold heldFl; dsimp only; rw [hp, oFl_some]; tauto
  · split at e
    · cases e
    · rename_i p hp
      cases e
      have hf := finishPic_retFl b s env p
      have hg : errOf (finishPic s env p) ≠ some .EAGAIN := by
        have := finishPic_again (s := s) hna (hok p hp)
        intro h
        cases hx : finishPic s env p with
        | ok _ => rw [hx] at h; cases h
        | error er => rw [hx] at h; cases h; exact this hx
      refine ⟨False, by tauto, ?_, ?_, fun _ => rfl⟩
      · unfold heldFl; dsimp only; rw [hp, oFl_some]; tauto
      · unfold heldFl Fine; dsimp only; rw [hp, oFl_some]; tauto

theorem Inv.setDrain {s : Settings} {env : Env κ} {c : Dec κ} (h : Inv s env c) (x : Bool) : Inv s env { c with drain := x } :=
  ⟨h.seq, h.op, h.refs, h.hdr, h.limit, h.hdrFor, h.cover, h.decoded, h.out, h.cache, h.sync, h.pics, h.skipped, h.slots, h.input⟩

theorem genLoop_moves (b : Bool) {s : Settings} {env : Env κ} (n : Nat) : ∀ {c : Dec κ}, Inv s env c → Pos s env c → c.out = none → ∀ {pkt : Packet}, pkt.data.length = n → pkt.data ≠ [] →
    ∀ {x}, genLoop s env c pkt = some x → Moves s b (s.allLayers = true ∧ x.2 = none) c x.1 [] := by
  induction n using Nat.strong_induction_on with
  | _ n ih =>
    intro c hi hpos hout pkt hk hp x e
    obtain ⟨⟨d, r⟩, e1, hi2, hn⟩ := hi.parseObus hout hp
    have ht := parseObus_enters b hout hi hp e1
    have hpos2 := parseObus_next hi hp e1 hpos
    dsimp only at ht hi2
    rw [genLoop, e1] at e
    cases r with
    | error er =>
      dsimp only at e
      have hrdy := outputReady_moves (s := s) b { d with input := none } false
      have hi4 := (Inv.setInput hi2 none (fun _ h => by cases h)).outputReady false
      generalize outputReady s { d with input := none } false = y at e hrdy hi4
      obtain ⟨bb, f⟩ := y
      cases bb with
      | true =>
        cases e
        rcases hi4 with ⟨h, _⟩ | ⟨h, h'⟩
        · cases h
        · cases h
          rcases ht with ht | ⟨ht, _, h1⟩
          · exact (EntersE.moves (s := s) hout (er := none) (Or.inl ht)).imp (fun h => rfl)
          · have := h' (hpos2.one h1)
            refine ((EntersE.moves (s := s) (er := some er) hout (Or.inr ⟨ht, by simp, h1⟩)).trans hrdy).imp (fun h => ?_)
            simp only [layered, h.1, ht.out] at this
            cases this
      | false => cases e; exact ((EntersE.moves hout ht).trans hrdy).imp (by rintro ⟨_, h⟩; cases h)
    | ok m =>
      dsimp only at e
      have hm := hn m rfl
      rw [dif_pos hm] at e
      have hrdy := outputReady_moves (s := s) b { d with input := pkt.advance m } false
      have hps := outputReady_pos false (show Pos s env { d with input := pkt.advance m } from hpos2.congr rfl rfl)
      have hi3 : Inv s env { d with input := pkt.advance m } := Inv.setInput hi2 _ advance_ne
      have hi4 := hi3.outputReady false
      generalize outputReady s { d with input := pkt.advance m } false = y at e hrdy hi4 hps
      obtain ⟨bb, f⟩ := y
      have h5 := ((EntersE.moves hout ht).trans hrdy)
      cases bb with
      | true => cases e; exact h5.imp (fun h => ⟨rfl, h.1⟩)
      | false =>
        rcases hi4 with ⟨_, a2, a3, _⟩ | ⟨a1, _⟩
        · dsimp only at e a2 a3
          split at e
          · cases e; exact h5.imp (fun h => ⟨rfl, h.1⟩)
          · rename_i hlt
            exact (h5.trans (ih (pkt.data.drop m).length (by simp; omega) a2 hps a3 rfl (fun h0 => by
              have := congrArg List.length h0
              simp at this; omega) e)).imp (fun h => ⟨⟨rfl, h.1⟩, h⟩)
        · cases a1

theorem genPicture_moves (b : Bool) {s : Settings} {env : Env κ} {c : Dec κ} (hi : InvN s env c) {x} (e : genPicture s env c = some x) :
    Moves s b (s.allLayers = true ∧ x.2 = none) c x.1 [] := by
  unfold genPicture at e
  have h4 := outputReady_moves (s := s) b c false
  have hi4 := hi.inv.outputReady false
  have hps := outputReady_pos false hi.pos
  generalize outputReady s c false = y at e h4 hi4 hps
  obtain ⟨bb, f⟩ := y
  cases bb with
  | true => cases e; exact h4.imp (fun h => h.1)
  | false =>
    rcases hi4 with ⟨_, a2, a3, _⟩ | ⟨a1, _⟩
    · dsimp only at e a2 a3
      split at e
      · cases e; exact h4.imp (fun h => h.1)
      · rename_i p hp
        exact (h4.trans (genLoop_moves b _ a2 hps a3 rfl (a2.input p hp) e)).imp (fun h => ⟨h.1, h⟩)
    · cases a1

def DrainMoves (s : Settings) (b : Bool) (c : Dec κ) : DrainStep κ → Prop
  | .stop d => Moves s b (s.allLayers = true) c d [] ∧ d.out = none
  | .next d _ => Moves s b (s.allLayers = true) c d [] ∧ d.out = none
  | .done d r => Moves s b (s.allLayers = true ∧ Fine (errOf r)) c d [r]
  | .undef => True

theorem outputReady_false {s : Settings} {c d : Dec κ} {bb : Bool} (h : outputReady s c bb = (false, d)) : d.out = none := by
  unfold outputReady at h
  split at h
  · cases h
  split at h
  · split at h
    · split at h
      · cases h
      · cases h; rfl
    · rename_i h1 _; cases h; exact h1
    · cases h; rfl
    · rename_i h1 _; cases h; exact h1
  · simp only [Prod.mk.injEq] at h
    rw [← h.2]; simpa using h.1

theorem retFl_error (b : Bool) (e : Err) : ¬ retFl b [(.error e : Except Err (Pic κ))] := by
  rintro ⟨p, h, _⟩; simp at h

theorem Moves.error {s : Settings} {b : Bool} {ok : Prop} {c d : Dec κ} (h : Moves s b ok c d []) (e : Err) : Moves s b ok c d [.error e] := by
  obtain ⟨n, a1, a2, a3, a4⟩ := h
  have := retFl_error (κ := κ) b e
  have := retFl_nil (κ := κ) b
  exact ⟨n, a1, by tauto, by tauto, a4⟩

theorem drainStep_moves (b : Bool) {s : Settings} {env : Env κ} (hna : NoAgain env) {c : Dec κ} (ho : c.out = none) (dr : Bool) : DrainMoves s b c (drainStep s env c dr) := by
  unfold drainStep
  dsimp only
  split
  · exact ⟨Moves.refl s b _ rfl rfl rfl, ho⟩
  split
  · exact (Moves.refl s b _ rfl rfl rfl).error _
  split
  · exact ⟨Moves.refl s b _ rfl rfl rfl, ho⟩
  split
  · exact trivial
  · rename_i p _ _ f hf
    have h1 := showDelayed_enters b (by exact ho) hf
    have h1 : Enters b c f := h1.from rfl rfl
    have hok : ∀ p, f.out = some p → p.content.isOk = true := by
      obtain ⟨ev, o, e1, e2⟩ := showDelayed_cases s (c := setSlot { c with next := ringNext s.nFc c.next } c.next { c.ring c.next with pic := none }) (by exact ho) p
      rw [e1] at hf
      cases hf
      exact fun p' hp' => (e2 p' hp').1
    have h1 := EntersE.moves (s := s) ho (er := none) (Or.inl h1)
    have h2 := outputReady_moves (s := s) b f false
    have h3 : ∀ d, outputReady s f false = (false, d) → d.out = none := fun d => outputReady_false
    have h5 : ∀ d, outputReady s f false = (true, d) → d = f := fun d => outputReady_same
    generalize outputReady s f false = y at h2 h3 h5 ⊢
    obtain ⟨bb, g⟩ := y
    have h4 := (h1.trans h2).imp (ok' := s.allLayers = true) (fun h => ⟨rfl, h⟩)
    cases bb with
    | false => exact ⟨h4, h3 g rfl⟩
    | true =>
      dsimp only
      split
      · exact trivial
      · rename_i hg
        have := h5 g rfl
        subst this
        exact (h4.trans (outputImage_moves b hna hok hg)).imp (fun h => ⟨h.1, h⟩)

theorem drainLoop_moves (b : Bool) {s : Settings} {env : Env κ} (hna : NoAgain env) (n : Nat) : ∀ {c : Dec κ}, c.out = none → ∀ dr : Bool, DrainMoves s b c (drainLoop s env n c dr) := by
  induction n with
  | zero => intro c ho dr; exact ⟨Moves.refl s b _ rfl rfl rfl, ho⟩
  | succ n ih =>
    intro c ho dr
    have h := drainStep_moves b hna ho (s := s) dr
    unfold drainLoop
    generalize drainStep s env c dr = y at h ⊢
    cases y with
    | stop d => exact h
    | done d r => exact h
    | undef => exact h
    | next d dr' =>
      have h2 := ih h.2 dr'
      dsimp only
      generalize drainLoop s env n d dr' = z at h2 ⊢
      cases z with
      | stop e => exact ⟨(h.1.trans h2.1).imp (fun h => ⟨h, h⟩), h2.2⟩
      | next e _ => exact ⟨(h.1.trans h2.1).imp (fun h => ⟨h, h⟩), h2.2⟩
      | done e r => exact (h.1.trans h2).imp (fun h => ⟨h.1, h⟩)
      | undef => exact trivial

theorem drainPicture_moves (b : Bool) {s : Settings} {env : Env κ} (hna : NoAgain env) {c : Dec κ} (hi : Inv s env c) (ho : c.out = none) (hce : c.cachedError = none) {x}
    (e : drainPicture s env c = some x) : Moves s b (s.allLayers = true ∧ Fine (errOf x.2)) c x.1 [x.2] := by
  unfold drainPicture at e
  have h := drainLoop_moves b hna (s := s) s.nFc ho false
  have hok := (Inv.drainLoop s.nFc hi ho hce false).1
  generalize drainLoop s env s.nFc c false = y at e h hok
  cases y with
  | undef => cases e
  | next _ _ => cases e
  | done d r => cases e; exact h
  | stop d =>
    dsimp only at e
    have h2 := outputReady_moves (s := s) b d true
    have h5 : ∀ f, outputReady s d true = (true, f) → f = d := fun d => outputReady_same
    generalize outputReady s d true = z at e h2 h5
    obtain ⟨bb, f⟩ := z
    have h4 := (h.1.trans h2)
    cases bb with
    | true =>
      have := h5 f rfl
      subst this
      exact (h4.trans (outputImage_moves b hna (fun p hp => (hok.1.out p hp).1) e)).imp (fun h => ⟨⟨h.1, h.1⟩, h⟩)
    | false => cases e; exact (h4.imp (fun h => ⟨h.1, h.1⟩)).error _

theorem getPicture_moves (b : Bool) {s : Settings} {env : Env κ} (hna : NoAgain env) {c : Dec κ} (hi : InvN s env c) {x} (e : getPicture s env c = some x) :
    Moves s b (s.allLayers = true ∧ Fine (errOf x.2)) c x.1 [x.2] := by
  unfold getPicture at e
  dsimp only at e
  have hi0 : InvN s env { c with drain := true } := ⟨hi.inv.setDrain true, hi.pos.congr rfl rfl⟩
  obtain ⟨⟨c1, o⟩, g1, hi1⟩ := hi0.inv.genPicture
  have hm := genPicture_moves b hi0 g1
  have hm : Moves s b (s.allLayers = true ∧ o = none) c c1 [] := hm
  rw [g1] at e
  cases o with
  | some er =>
    cases e
    have : er ≠ .EAGAIN := genPicture_again hna hi0.inv g1
    refine (hm.error er).imp (fun h => ?_)
    rcases h.2 with h | h
    · cases h
    · cases h; exact absurd rfl this
  | none =>
    dsimp only at e
    have hm : Moves s b (s.allLayers = true) c c1 [] := hm.imp (fun h => ⟨h, rfl⟩)
    split at e
    · cases e
      exact (hm.error _).imp (fun h => h.1)
    · rename_i hce
      have h2 := outputReady_moves (s := s) b c1 (s.nFc == 1)
      have hi4 := Inv.outputReady hi1 (s.nFc == 1)
      generalize outputReady s c1 (s.nFc == 1) = z at e h2 hi4
      obtain ⟨bb, f⟩ := z
      have h4 := (hm.trans h2).imp (ok' := s.allLayers = true) (fun h => ⟨h, h⟩)
      cases bb with
      | true =>
        rcases hi4 with ⟨a1, _⟩ | ⟨a1, _⟩
        · cases a1
        · cases a1
          exact (h4.trans (outputImage_moves b hna (fun p hp => (hi1.out p hp).1) e)).imp (fun h => ⟨h.1, h⟩)
      | false =>
        rcases hi4 with ⟨_, a2, a3, a4⟩ | ⟨a1, _⟩
        · dsimp only at e
          split at e
          · exact (h4.trans (drainPicture_moves b hna a2 a3 a4 e)).imp (fun h => ⟨h.1, h⟩)
          · cases e; exact (h4.error _).imp (fun h => h.1)
        · cases a1

theorem sendData_moves (b : Bool) {s : Settings} {env : Env κ} (hna : NoAgain env) {c : Dec κ} (hi : InvN s env c) {p x} (e : sendData s env c p = some x) :
    Moves s b (s.allLayers = true ∧ Fine x.res) c x.ctx [] := by
  unfold sendData at e
  split at e
  · cases e; exact Moves.refl s b _ rfl rfl rfl
  rename_i hv
  dsimp only at e
  have hi1 : InvN s env (if p.isSome = true then { c with drain := false } else c) := by
    split
    · exact ⟨hi.inv.setDrain false, hi.pos.congr rfl rfl⟩
    · exact hi
  have h1 : Moves s b (s.allLayers = true) c (if p.isSome = true then { c with drain := false } else c) [] := by
    split <;> exact Moves.refl s b _ rfl rfl rfl
  generalize (if p.isSome = true then { c with drain := false } else c) = c1 at e hi1 h1
  split at e
  · cases e; exact h1.imp (fun h => h.1)
  have hi2 : InvN s env { c1 with input := p } := ⟨hi1.inv.setInput p (fun x hx h0 => hv (by rw [hx]; simp [h0])), hi1.pos.congr rfl rfl⟩
  split at e
  · cases e
  · rename_i d hd
    cases e
    have h2 : Moves s b (s.allLayers = true ∧ (none : Option Err) = none) c1 d [] := genPicture_moves b hi2 hd
    exact (h1.trans h2).imp (fun h => ⟨h.1, h.1, rfl⟩)
  · rename_i d er hd
    cases e
    have : er ≠ .EAGAIN := genPicture_again hna hi2.inv hd
    have h2 : Moves s b (s.allLayers = true ∧ some er = none) c1 d [] := genPicture_moves b hi2 hd
    refine (h1.trans h2).imp (fun h => ?_)
    rcases h.2 with h | h
    · cases h
    · cases h; exact absurd rfl this

/-! ## When nothing is held -/

theorem drainStep_out {s : Settings} {env : Env κ} (hl : s.allLayers = true) {c : Dec κ} (ho : c.out = none) (dr : Bool) {d r} (h : drainStep s env c dr = .done d r) : d.out = none := by
  unfold drainStep at h
  dsimp only at h
  split at h
  · cases h
  split at h
  · cases h; exact ho
  split at h
  · cases h
  split at h
  · cases h
  rename_i f hf
  split at h
  · split at h
    · cases h
    · rename_i x _ hx
      cases h
      unfold outputImage at hx
      rw [if_neg (by simp [layered, hl])] at hx
      split at hx
      · cases hx
      · cases hx; rfl
  · cases h

theorem drainLoop_out {s : Settings} {env : Env κ} (hl : s.allLayers = true) (n : Nat) : ∀ {c : Dec κ}, c.out = none → ∀ (dr : Bool) {d r}, drainLoop s env n c dr = .done d r → d.out = none := by
  induction n with
  | zero => intro c _ dr d r h; cases h
  | succ n ih =>
    intro c ho dr d r h
    unfold drainLoop at h
    have h1 := @drainStep_out _ s env hl c ho dr
    have h2 : ∀ f g, drainStep s env c dr = .next f g → f.out = none := by
      intro f g hx
      unfold drainStep at hx
      dsimp only at hx
      split at hx
      · cases hx
      split at hx
      · cases hx
      split at hx
      · cases hx; exact ho
      split at hx
      · cases hx
      split at hx
      · split at hx <;> cases hx
      · rename_i hr; cases hx; exact outputReady_false hr
    generalize drainStep s env c dr = y at h h1 h2
    cases y with
    | next f g => exact ih (h2 f g rfl) g h
    | done f g => cases h; exact h1 rfl
    | stop f => cases h
    | undef => cases h

/-- If dav1d_get_picture answers EAGAIN, no picture is held for output. -/
theorem get_again_out {s : Settings} {env : Env κ} (hna : NoAgain env) (hl : s.allLayers = true) {c : Dec κ} (hi : InvN s env c) {c'}
    (e : getPicture s env c = some (c', .error .EAGAIN)) : c'.out = none := by
  unfold getPicture at e
  dsimp only at e
  have hi0 : InvN s env { c with drain := true } := ⟨hi.inv.setDrain true, hi.pos.congr rfl rfl⟩
  obtain ⟨⟨c1, o⟩, g1, hi1⟩ := hi0.inv.genPicture
  have hi2 : InvN s env c1 := genPicture_pos hi0 g1
  rw [g1] at e
  cases o with
  | some er => cases e; exact absurd rfl (genPicture_again hna hi0.inv g1)
  | none =>
    dsimp only at e
    cases hce : c1.cachedError with
    | some er =>
      rw [hce] at e
      cases e
      obtain ⟨f, hf⟩ := hi2.pos.cached _ hce
      exact absurd hf (hna.1 f)
    | none =>
      rw [hce] at e
      dsimp only at e
      rw [outputReady_all hl hce] at e
      have himg : ∀ {d d' : Dec κ} {r}, outputImage s env d = some (d', r) → d'.out = none := by
        intro d d' r hx
        unfold outputImage at hx
        rw [if_neg (by simp [layered, hl])] at hx
        split at hx
        · cases hx
        · cases hx; rfl
      cases ho : c1.out with
      | some p => rw [ho] at e; exact himg e
      | none =>
        rw [ho] at e
        dsimp only [Option.isSome_none] at e
        split at e
        · unfold drainPicture at e
          have h1 := @drainLoop_out _ s env hl s.nFc c1 ho false
          have h2 := (Inv.drainLoop s.nFc hi1 ho hce false).1
          generalize drainLoop s env s.nFc c1 false = y at e h1 h2
          cases y with
          | undef => cases e
          | next _ _ => cases e
          | done d r => cases e; exact h1 rfl
          | stop d =>
            dsimp only at e
            rw [outputReady_all hl h2.2.2, h2.2.1] at e
            cases e; exact h2.2.1
        · cases e; exact ho

end Dav1d
