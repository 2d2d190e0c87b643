import Verif.Api.ErrorLemmas
import Verif.Api.OrderProps
/-!
# C26: errors detected late
-/
namespace Dav1d
variable {κ : Type}

/-! ## Errors of frames decoded asynchronously

`failures env c` (Verif/Api/ErrorLemmas.lean) lists the errors of all frames given to the decoding stage so far, in
order; `owed s c` those that the decoder still has to report. -/

/-- The error codes returned by dav1d_get_picture. -/
def Reply.getError : Reply κ → Option Err
  | .got (.error e) => some e
  | _ => none

/-- C26. One call of dav1d_get_picture with several frame contexts: `new` are the errors of the frames that were
submitted meanwhile. Either it returns the first error that is owed, which is then not owed any more, or it leaves
everything owed. -/
theorem C26_get {s : Settings} {env : Env κ} (hl : LateAllocOk env) (h1 : 1 < s.nFc) {c : Dec κ} (hr : Reachable s env c) {c' r}
    (hs : getPicture s env c = some (c', r)) :
    ∃ new, failures env c' = failures env c ++ new ∧
      (owed s c' = owed s c ++ new ∨ ∃ e, r = .error e ∧ owed s c ++ new = e :: owed s c') := by
  obtain ⟨new, h2, h3⟩ := getPicture_pays hl (by omega) (hr.invN (by omega)) hs
  exact ⟨new, h2, h3.imp Eq.symm id⟩

/-- C26. dav1d_send_data leaves everything owed. -/
theorem C26_send {s : Settings} {env : Env κ} (hl : LateAllocOk env) (h1 : 1 < s.nFc) {c : Dec κ} (hr : Reachable s env c) {p x}
    (hs : sendData s env c p = some x) :
    ∃ new, failures env x.ctx = failures env c ++ new ∧ owed s x.ctx = owed s c ++ new :=
  sendData_owes hl (by omega) (hr.invN (by omega)) hs

theorem session_paid {s : Settings} {env : Env κ} (hl : LateAllocOk env) (h1 : 1 < s.nFc) (l : List Call) : ∀ {c : Dec κ}, InvN s env c → (∀ a ∈ l, a ≠ .flush) → ∀ {c' rs},
    session s env c l = some (c', rs) → ∃ new paid, failures env c' = failures env c ++ new ∧ owed s c ++ new = paid ++ owed s c' ∧ paid.Sublist (rs.filterMap Reply.getError) := by
  induction l with
  | nil => intro c hi _ c' rs hs; cases hs; exact ⟨[], [], by simp, by simp, by simp⟩
  | cons a l ih =>
    intro c hi hf c' rs hs
    unfold session at hs
    cases hc : call s env c a with
    | none => rw [hc] at hs; cases hs
    | some x =>
      obtain ⟨c1, r⟩ := x
      have hi1 := call_pos hi hc
      rw [hc] at hs
      dsimp only at hs
      obtain ⟨⟨c2, rs2⟩, h2, h3⟩ := Option.map_eq_some_iff.1 hs
      cases h3
      obtain ⟨new, paid, g1, g2, g3⟩ := ih hi1 (fun a ha => hf a (by simp [ha])) h2
      have hstep : ∃ n p, failures env c1 = failures env c ++ n ∧ owed s c ++ n = p ++ owed s c1 ∧ p.Sublist r.getError.toList := by
        have hsame : c1.cachedError = c.cachedError → c1.ring = c.ring → c1.next = c.next → c1.decoded = c.decoded →
            ∃ n p, failures env c1 = failures env c ++ n ∧ owed s c ++ n = p ++ owed s c1 ∧ p.Sublist r.getError.toList := by
          intro k1 k2 k3 k4
          obtain ⟨n, k5, k6⟩ := Owes.same (s := s) (env := env) k1 k2 k3 k4
          exact ⟨n, [], k5, by rw [k6]; rfl, by simp⟩
        cases a with
        | send p =>
          simp only [call] at hc
          obtain ⟨x, k1, k2⟩ := Option.map_eq_some_iff.1 hc
          cases k2
          obtain ⟨n, k3, k4⟩ := sendData_owes hl (by omega) hi k1
          exact ⟨n, [], k3, by rw [k4]; rfl, by simp⟩
        | get =>
          simp only [call] at hc
          obtain ⟨x, k1, k2⟩ := Option.map_eq_some_iff.1 hc
          cases k2
          obtain ⟨n, k3, k4 | ⟨e, k4, k5⟩⟩ := getPicture_pays hl (by omega) hi k1
          · exact ⟨n, [], k3, by rw [k4]; rfl, by simp⟩
          · refine ⟨n, [e], k3, by rw [k5]; rfl, ?_⟩
            rw [k4]
            exact List.Sublist.refl _
        | flush => exact absurd rfl (hf .flush (by simp))
        | events => simp only [call] at hc; cases hc; exact hsame rfl rfl rfl rfl
        | errorProps => simp only [call] at hc; cases hc; exact hsame rfl rfl rfl rfl
      obtain ⟨n, p, k1, k2, k3⟩ := hstep
      refine ⟨n ++ new, p ++ paid, ?_, ?_, ?_⟩
      · rw [g1, k1, List.append_assoc]
      · rw [← List.append_assoc, k2, List.append_assoc, g2, List.append_assoc]
      · have : (r :: rs2).filterMap Reply.getError = r.getError.toList ++ rs2.filterMap Reply.getError := by
          cases h : r.getError <;> simp [h]
        rw [this]
        exact List.Sublist.append k3 g3

/-- C26. In every session without flush, with several frame contexts: the errors of the frames decoded are, in order,
those already returned by dav1d_get_picture (each by a call of its own) and those still owed. -/
theorem C26_reported {s : Settings} {env : Env κ} (hl : LateAllocOk env) (h1 : 1 < s.nFc) {l : List Call} (hf : ∀ a ∈ l, a ≠ .flush) {c rs}
    (hs : session s env Dec.init l = some (c, rs)) :
    ∃ paid, failures env c = paid ++ owed s c ∧ paid.Sublist (rs.filterMap Reply.getError) := by
  obtain ⟨new, paid, g1, g2, g3⟩ := session_paid hl h1 l (Reachable.invN (c := Dec.init) ⟨[], [], rfl⟩ (by omega)) hf hs
  have k1 : failures env (Dec.init : Dec κ) = [] := rfl
  have k2 : owed s (Dec.init : Dec κ) = [] := by
    unfold owed slots
    simp [Dec.init]
  rw [k1] at g1; rw [k2] at g2
  simp only [List.nil_append] at g1 g2
  exact ⟨paid, by rw [g1, g2], g3⟩

/-- C26. And after finitely many further calls of dav1d_get_picture nothing is owed: every frame that failed has been
reported. -/
theorem C26_none_lost {s : Settings} {env : Env κ} (hl : LateAllocOk env) (h1 : 1 < s.nFc) {l : List Call} (hf : ∀ a ∈ l, a ≠ .flush) {c rs}
    (hs : session s env Dec.init l = some (c, rs)) :
    ∃ n c' qs, session s env c (gets n) = some (c', qs) ∧ owed s c' = [] ∧
      (failures env c').Sublist ((rs ++ qs).filterMap Reply.getError) := by
  have hi : InvN s env c := Reachable.invN ⟨l, rs, hs⟩ (by omega)
  obtain ⟨n, c', qs, h2, h3⟩ := gets_settle (heldLen c) s.nFc (weight c) hi (Nat.le_refl _) (emptyFrom_nFc s c) (Nat.le_refl _)
  have hall : session s env Dec.init (l ++ gets n) = some (c', rs ++ qs) := by
    rw [session_append, hs, Option.bind_some, h2]; rfl
  have ho : owed s c' = [] := by
    unfold owed
    rw [h3.cachedError]
    simp only [Option.toList_none, List.nil_append, List.filterMap_eq_nil_iff]
    intro sl hsl
    have := h3.ring (by omega) sl (by simpa using hsl)
    unfold Slot.busy at this
    cases hr : sl.retval with
    | none => rfl
    | some e => rw [hr] at this; simp at this
  obtain ⟨paid, g1, g2⟩ := C26_reported hl h1 (l := l ++ gets n) (fun a ha => by
    rcases List.mem_append.1 ha with h | h
    · exact hf a h
    · rw [List.eq_of_mem_replicate h]; intro h; cases h) hall
  refine ⟨n, c', qs, h2, ho, ?_⟩
  rw [g1, ho, List.append_nil]
  exact g2

/-! ## The properties of the packet that caused an error -/

theorem submitError_props (s : Settings) (c : Dec κ) (i : Nat) (props : Props) (e : Err) : (submitError s c i props e).1.errProps = some props := by
  unfold submitError; dsimp only; split <;> rfl

theorem submitFrame_props {s : Settings} {env : Env κ} {c c' : Dec κ} {q h props e} (hs : submitFrame s env c q h props = some (c', some e)) : c'.errProps = some props := by
  have herr : ∀ (y : Dec κ) i er, some (submitError s y i props er) = some (c', some e) → c'.errProps = some props := by
    intro y i er e3
    have h4 := submitError_props s y i props er
    rw [Option.some.inj e3] at h4
    exact h4
  unfold submitFrame at hs
  dsimp only at hs
  generalize (if s.nFc = 1 then some c else ringPop s c) = z at hs
  cases z with
  | none => cases hs
  | some x =>
    dsimp only at hs
    split at hs
    · exact herr _ _ _ hs
    · split at hs
      · exact herr _ _ _ hs
      · split at hs
        · exact herr _ _ _ hs
        · split at hs
          · exact herr _ _ _ hs
          · split at hs
            · unfold submitSync at hs
              split at hs
              · cases hs
              · split at hs
                · exact herr _ _ _ hs
                · split at hs
                  · exact herr _ _ _ hs
                  · cases hs
            · unfold submitAsync at hs
              split at hs
              · exact herr _ _ _ hs
              · cases hs

theorem finishObu_props {s : Settings} {env : Env κ} {c c' : Dec κ} {props e} (hs : finishObu s env c props = some (c', some e)) : c'.errProps = some props := by
  unfold finishObu at hs
  split at hs
  · unfold showExisting at hs
    split at hs
    · cases hs; rfl
    · split at hs
      · cases hs
      · split at hs
        · split at hs
          · cases hs; rfl
          · split at hs
            · cases hs
            · split at hs <;> cases hs
        · cases hs; rfl
  · split at hs
    · unfold frameComplete at hs
      split at hs
      · cases hs
      · split at hs
        · cases hs; rfl
        · split at hs
          · cases hs
          · rename_i h2; cases hs; exact submitFrame_props h2
          · split at hs <;> cases hs
    · cases hs
  · cases hs

theorem parseObus_props {s : Settings} {env : Env κ} {c : Dec κ} (hi : Inv s env c) {pkt : Packet} (hp : pkt.data ≠ []) {c' e}
    (hs : parseObus s env c pkt = some (c', .error e)) : e = .ERANGE ∨ c'.errProps = some pkt.props := by
  rw [parseObus_eq s env hi.ok pkt hp] at hs
  have hcase : ∀ (d : Dec κ) (x : Err), some (caseError d pkt.props x) = some (c', .error e) → e = .ERANGE ∨ c'.errProps = some pkt.props := by
    intro d x h
    unfold caseError at h
    simp only [Option.some.injEq, Prod.mk.injEq, Except.error.injEq] at h
    obtain ⟨h1, rfl⟩ := h
    by_cases hx : x = .ERANGE
    · exact Or.inl hx
    · rw [if_neg hx] at h1; rw [← h1]; exact Or.inr rfl
  unfold stepObu at hs
  split at hs
  · exact hcase _ _ hs
  · split at hs
    · exact hcase _ _ hs
    · split at hs
      · cases hs
      · split at hs
        · cases hs
        · exact hcase _ _ hs
        · split at hs
          · cases hs
          · rename_i h; cases hs; exact Or.inr (finishObu_props h)
          · cases hs

theorem outputReady_props (s : Settings) (c : Dec κ) (b : Bool) : (outputReady s c b).2.errProps = c.errProps := by
  unfold outputReady
  repeat' split
  all_goals rfl

theorem genLoop_props {s : Settings} {env : Env κ} (n : Nat) : ∀ {c : Dec κ} {pkt : Packet}, pkt.data.length = n → Inv s env c → c.out = none → pkt.data ≠ [] →
    ∀ {c' e}, genLoop s env c pkt = some (c', some e) → e = .ERANGE ∨ c'.errProps = some pkt.props := by
  induction n using Nat.strong_induction_on with
  | _ n ih =>
  intro c pkt hn hi ho hp c' e hs
  rw [genLoop] at hs
  obtain ⟨⟨c1, r⟩, e1, hi1, hr⟩ := hi.parseObus ho hp
  rw [e1] at hs
  cases r with
  | error x =>
    have h1 := parseObus_props hi hp e1
    dsimp only at hs
    have h2 := outputReady_props s { c1 with input := none } false
    split at hs
    · cases hs
    · rename_i d hd; rw [hd] at h2; cases hs
      exact h1.imp id (fun h => h2.trans h)
  | ok n' =>
    dsimp only at hs
    have h0 := hr n' rfl
    rw [dif_pos h0] at hs
    have h6 : Inv s env { c1 with input := pkt.advance n' } := Inv.setInput hi1 _ advance_ne
    rcases h6.outputReady false with ⟨a1, a2, a3, a4⟩ | ⟨a1, _⟩
    · generalize Dav1d.outputReady s _ false = r at a1 a2 a3 a4 hs
      obtain ⟨b, d⟩ := r
      simp only at a1 a2 a3 a4; subst a1
      simp only at hs
      split at hs
      · cases hs
      · exact ih (pkt.data.drop n').length (by rw [List.length_drop]; omega) (pkt := { pkt with data := pkt.data.drop n' }) rfl a2 a3
          (by show pkt.data.drop n' ≠ []; rw [Ne, List.drop_eq_nil_iff]; assumption) hs
    · rw [a1] at hs; cases hs

theorem genPicture_props {s : Settings} {env : Env κ} {c : Dec κ} (hi : Inv s env c) {c' e} (hs : genPicture s env c = some (c', some e)) :
    e = .ERANGE ∨ ∃ p, c.input = some p ∧ c'.errProps = some p.props := by
  unfold genPicture at hs
  have h4 := (outputReady_fields s c false).2.2.1
  rcases hi.outputReady false with ⟨a1, a2, a3, a4⟩ | ⟨a1, _⟩
  · generalize Dav1d.outputReady s _ false = r at a1 a2 a3 a4 hs h4
    obtain ⟨b, d⟩ := r
    simp only at a1 a2 a3 a4 h4; subst a1
    simp only at hs
    split at hs
    · cases hs
    · rename_i p hp
      exact (genLoop_props _ rfl a2 a3 (a2.input _ hp) hs).imp id (fun h => ⟨p, by rw [← h4]; exact hp, h⟩)
  · rw [a1] at hs; cases hs

/-- C26. If dav1d_send_data rejects a packet (other than because data of an earlier one is left, EAGAIN, or because of
the limit on the frame size, ERANGE), dav1d_get_decode_error_data_props gives the properties of that packet. -/
theorem C26_send_props {s : Settings} {env : Env κ} {c : Dec κ} (hr : Reachable s env c) {p : Packet} (hp : p.Valid) {x e}
    (hs : sendData s env c (some p) = some x) (he : x.res = some e) :
    e = .EAGAIN ∨ e = .ERANGE ∨ (getErrorProps x.ctx).2 = some p.props := by
  unfold sendData at hs
  rw [hp.any] at hs
  simp only [Bool.false_eq_true, if_false, Option.isSome_some, if_true] at hs
  split at hs
  · cases hs; cases he; exact Or.inl rfl
  · have h4 : Inv s env ({ c with drain := false, input := some p } : Dec κ) := by
      have h := hr.inv
      exact ⟨h.seq, h.op, h.refs, h.hdr, h.limit, h.hdrFor, h.cover, h.decoded, h.out, h.cache, h.sync, h.pics, h.skipped, h.slots, fun y hy => by cases hy; exact hp.1⟩
    split at hs
    · cases hs
    · cases hs; cases he
    · rename_i c2 e2 hg
      cases hs; cases he
      rcases genPicture_props h4 hg with h | ⟨p', h1, h2⟩
      · exact Or.inr (Or.inl h)
      · cases h1; exact Or.inr (Or.inr h2)

/-- An error of film grain synthesis. -/
def GrainError (env : Env κ) (e : Err) : Prop := ∃ g k, env.grain g k = .error e

theorem finishPic_error {s : Settings} {env : Env κ} {p : Pic κ} {e} (hp : p.content.isOk = true) (h : finishPic s env p = .error e) : GrainError env e := by
  unfold finishPic at h
  split at h
  · cases h
  · split at h
    · rename_i e' he; rw [he] at hp; cases hp
    · split at h
      · rename_i he; cases h; exact ⟨_, _, he⟩
      · cases h

/-- The pictures to be handed out were decoded. -/
def HandOk (c : Dec κ) : Prop := (∀ p, c.out = some p → p.content.isOk = true) ∧ ∀ p, c.cache = some p → p.content.isOk = true

theorem Inv.handOk {s : Settings} {env : Env κ} {c : Dec κ} (h : Inv s env c) : HandOk c := ⟨fun p hp => (h.out p hp).1, fun p hp => (h.cache p hp).1⟩

theorem outputReady_handOk (s : Settings) {c : Dec κ} (h : HandOk c) (b : Bool) : HandOk (outputReady s c b).2 := by
  unfold outputReady
  repeat' split
  all_goals first | exact h | skip
  · rename_i ho _ _; exact ⟨fun _ he => (by cases he), fun p hp => by cases hp; exact h.1 _ ho⟩
  · rename_i ho _; exact ⟨fun _ he => (by cases he), fun p hp => by cases hp; exact h.1 _ ho⟩

theorem showDelayed_handOk {s : Settings} {c c' : Dec κ} (h : HandOk c) {p : Pic κ} (hs : showDelayed s c p = some c') : HandOk c' := by
  unfold showDelayed at hs
  split at hs
  · rename_i hp
    unfold setOut at hs
    split at hs
    · cases hs
    · cases hs
      refine ⟨fun q hq => ?_, h.2⟩
      cases hq
      unfold Pic.shown at hp
      simp at hp
      exact hp.2
  · cases hs; exact h

theorem outputImage_error {s : Settings} {env : Env κ} {c : Dec κ} (hi : HandOk c) {c' e} (h : outputImage s env c = some (c', .error e)) : GrainError env e := by
  unfold outputImage at h
  split at h
  · split at h
    · cases h
    · rename_i p hp
      simp only [Option.some.injEq, Prod.mk.injEq] at h
      exact finishPic_error (hi.2 p hp) h.2
  · split at h
    · cases h
    · rename_i p hp
      simp only [Option.some.injEq, Prod.mk.injEq] at h
      exact finishPic_error (hi.1 p hp) h.2

/-- C26, one frame context. If dav1d_get_picture returns an error (other than EAGAIN, ERANGE or one of film grain
synthesis), it was found in the packet that was being decoded, and its properties are given. -/
theorem C26_get_props_one {s : Settings} {env : Env κ} (h1 : s.nFc = 1) {c : Dec κ} (hr : Reachable s env c) {c' e}
    (hs : getPicture s env c = some (c', .error e)) :
    e = .EAGAIN ∨ e = .ERANGE ∨ GrainError env e ∨ ∃ p, c.input = some p ∧ (getErrorProps c').2 = some p.props := by
  unfold getPicture at hs
  dsimp only at hs
  have h := hr.inv
  have hi0 : Inv s env { c with drain := true } :=
    ⟨h.seq, h.op, h.refs, h.hdr, h.limit, h.hdrFor, h.cover, h.decoded, h.out, h.cache, h.sync, h.pics, h.skipped, h.slots, h.input⟩
  have hp0 : Pos s env { c with drain := true } := (hr.invN (by omega)).pos.congr rfl rfl
  obtain ⟨⟨c1, r⟩, e1, hi1⟩ := hi0.genPicture
  rw [e1] at hs
  cases r with
  | some x =>
    cases hs
    rcases genPicture_props hi0 e1 with h | ⟨p, h2, h3⟩
    · exact Or.inr (Or.inl h)
    · exact Or.inr (Or.inr (Or.inr ⟨p, h2, h3⟩))
  | none =>
    dsimp only at hs
    have hce : c1.cachedError = none := (genPicture_pos ⟨hi0, hp0⟩ e1).pos.one h1
    rw [hce] at hs
    dsimp only at hs
    rcases Inv.outputReady hi1 (s.nFc == 1) with ⟨a1, a2, a3, a4⟩ | ⟨a1, a2⟩
    · generalize Dav1d.outputReady s _ (s.nFc == 1) = r at a1 a2 a3 a4 hs
      obtain ⟨b, d⟩ := r
      simp only at a1; subst a1
      simp only at hs
      rw [if_neg (by omega)] at hs
      cases hs; exact Or.inl rfl
    · simp only at a1
      rw [a1] at hs
      exact Or.inr (Or.inr (Or.inl (outputImage_error hi1.handOk hs)))

/-- The frame decoded with error `e` and its packet, as told by dav1d_get_decode_error_data_props. -/
def TellsFrame (env : Env κ) (c : Dec κ) (e : Err) : Prop := ∃ f ∈ c.decoded, env.dec f = .error e ∧ (getErrorProps c).2 = some (frameProps f)

/-- What a round of draining says about an error it returns. -/
def DrainTells (env : Env κ) : DrainStep κ → Prop
  | .done c' (.error e) => GrainError env e ∨ TellsFrame env c' e
  | _ => True

theorem drainStep_tells {s : Settings} {env : Env κ} {c : Dec κ} (h : Inv s env c) (b : Bool) : DrainTells env (drainStep s env c b) := by
  unfold drainStep
  dsimp only
  split
  · trivial
  · cases hr : (c.ring c.next).retval with
    | some e =>
      obtain ⟨f, h1, h2, h3⟩ := (h.slots c.next).props e hr
      exact Or.inr ⟨f, h1, h2, h3⟩
    | none =>
      cases hp : (c.ring c.next).pic with
      | none => trivial
      | some p =>
        dsimp only
        have h0 : HandOk (setSlot { c with next := ringNext s.nFc c.next } c.next { pic := none, retval := none, error := (c.ring c.next).error }) := h.handOk
        cases hs : showDelayed s (setSlot { c with next := ringNext s.nFc c.next } c.next { pic := none, retval := none, error := (c.ring c.next).error }) p with
        | none => trivial
        | some c1 =>
          dsimp only
          have h1 := outputReady_handOk s (showDelayed_handOk h0 hs) false
          cases hq : outputReady s c1 false with
          | mk r c2 =>
            rw [hq] at h1
            cases r with
            | false => trivial
            | true =>
              dsimp only
              cases hm : outputImage s env c2 with
              | none => trivial
              | some y =>
                obtain ⟨c3, z⟩ := y
                cases z with
                | ok _ => trivial
                | error e => exact Or.inl (outputImage_error h1 hm)

theorem drainLoop_tells {s : Settings} {env : Env κ} (n : Nat) : ∀ {c : Dec κ}, Inv s env c → c.out = none → c.cachedError = none → ∀ b, DrainTells env (drainLoop s env n c b) := by
  induction n with
  | zero => intro c _ _ _ b; trivial
  | succ n ih =>
    intro c h ho hc b
    have h1 := drainStep_tells h b
    have h2 := h.drainStep ho hc b
    unfold drainLoop
    generalize drainStep s env c b = r at h1 h2
    cases r with
    | next c' b' => exact ih h2.1 h2.2.1 h2.2.2 b'
    | stop c' => exact h1
    | done c' r => exact h1
    | undef => exact h1

theorem drainPicture_tells {s : Settings} {env : Env κ} {c : Dec κ} (h : Inv s env c) (ho : c.out = none) (hc : c.cachedError = none) {c' e}
    (hs : drainPicture s env c = some (c', .error e)) : e = .EAGAIN ∨ GrainError env e ∨ TellsFrame env c' e := by
  have h1 := drainLoop_tells s.nFc h ho hc false
  have h2 := (h.drainLoop s.nFc ho hc false).1
  unfold drainPicture at hs
  generalize drainLoop s env s.nFc c false = r at h1 h2 hs
  cases r with
  | undef => cases hs
  | next _ _ => cases hs
  | done c2 r =>
    cases hs
    exact Or.inr h1
  | stop c2 =>
    dsimp only at hs
    have h3 := outputReady_handOk s h2.1.handOk true
    split at hs
    · rename_i c3 hq
      rw [hq] at h3
      exact Or.inr (Or.inl (outputImage_error h3 hs))
    · cases hs; exact Or.inl rfl

/-- C26, several frame contexts. If dav1d_get_picture returns an error (other than EAGAIN, ERANGE or one of film grain
synthesis), then either it was found in the packet that was being read, whose properties are given; or it is that of a
frame decoded earlier and the properties given are those of the packet that brought the (first) data of this frame; or
it is the error that was put aside when a frame context was reused. In the last case the properties may be those of
another packet, see `C26_wrong_props`. -/
theorem C26_get_props_partial {s : Settings} {env : Env κ} (h1 : 1 < s.nFc) {c : Dec κ} (hr : Reachable s env c) {c' e}
    (hs : getPicture s env c = some (c', .error e)) :
    e = .EAGAIN ∨ e = .ERANGE ∨ GrainError env e ∨ (∃ p, c.input = some p ∧ (getErrorProps c').2 = some p.props) ∨
      (∃ f ∈ c'.decoded, env.dec f = .error e ∧ (getErrorProps c').2 = some (frameProps f)) ∨
      ∃ c1, genPicture s env { c with drain := true } = some (c1, none) ∧ c1.cachedError = some e := by
  unfold getPicture at hs
  dsimp only at hs
  have h := hr.inv
  have hi0 : Inv s env { c with drain := true } :=
    ⟨h.seq, h.op, h.refs, h.hdr, h.limit, h.hdrFor, h.cover, h.decoded, h.out, h.cache, h.sync, h.pics, h.skipped, h.slots, h.input⟩
  obtain ⟨⟨c1, r⟩, e1, hi1⟩ := hi0.genPicture
  rw [e1] at hs
  cases r with
  | some x =>
    cases hs
    rcases genPicture_props hi0 e1 with h | ⟨p, h2, h3⟩
    · exact Or.inr (Or.inl h)
    · exact Or.inr (Or.inr (Or.inr (Or.inl ⟨p, h2, h3⟩)))
  | none =>
    dsimp only at hs
    cases hce : c1.cachedError with
    | some e2 =>
      rw [hce] at hs
      cases hs
      exact Or.inr (Or.inr (Or.inr (Or.inr (Or.inr ⟨c1, e1, hce⟩))))
    | none =>
      rw [hce] at hs
      dsimp only at hs
      have hcr := outputReady_cached s c1 (s.nFc == 1)
      rcases Inv.outputReady hi1 (s.nFc == 1) with ⟨a1, a2, a3, a4⟩ | ⟨a1, a2⟩
      · generalize Dav1d.outputReady s _ (s.nFc == 1) = r at a1 a2 a3 a4 hs hcr
        obtain ⟨b, d⟩ := r
        simp only at a1 a2 a3 a4 hcr; subst a1
        simp only at hs
        split at hs
        · rcases drainPicture_tells a2 a3 (hcr.trans hce) hs with h | h | h
          · exact Or.inl h
          · exact Or.inr (Or.inr (Or.inl h))
          · exact Or.inr (Or.inr (Or.inr (Or.inr (Or.inl h))))
        · cases hs; exact Or.inl rfl
      · simp only at a1
        rw [a1] at hs
        exact Or.inr (Or.inr (Or.inl (outputImage_error hi1.handOk hs)))

/-! ## Concrete sessions -/

-- C26: an undecodable frame among three frame contexts is reported once, later, with the properties of its packet
example : run { nFc := 3 } [send 1 (streamKey 1), send 2 (streamInter 1 0xFF), send 3 (streamKey 4), .get, .get, .get, .errorProps, .get, .get] =
    some [.sent none false, .sent none false, .sent none false, .err .EAGAIN, .pic 1, .err .EINVAL, .props (some 2), .pic 4, .err .EAGAIN] := by
  decide +kernel
-- C26: and when its frame context is needed again it is put aside and returned by the next call
example : run { nFc := 2 } [send 1 (streamKey 0xFF), send 2 (streamKey 2), send 3 (streamKey 3), .errorProps, .get, .get, .get, .get] =
    some [.sent none false, .sent none false, .sent none false, .props (some 1), .err .EINVAL, .pic 2, .pic 3, .err .EAGAIN] := by
  decide +kernel
example : (after { nFc := 2 } [send 1 (streamKey 0xFF), send 2 (streamKey 2)]).map (fun c => (failures demoEnv c, owed { nFc := 2 } c)) = some ([.EINVAL], [.EINVAL]) ∧
    (after { nFc := 2 } [send 1 (streamKey 0xFF), send 2 (streamKey 2), send 3 (streamKey 3), .get]).map (fun c => (failures demoEnv c, owed { nFc := 2 } c)) = some ([.EINVAL], []) := by
  constructor <;> decide +kernel
example : LateAllocOk demoEnv := fun _ => ⟨fun h => (by cases h), fun h => (by cases h)⟩
-- C26: a packet refused at once
example : run {} [send 1 (streamKey 1), .get, send 2 (streamInter 1 0xFF), .errorProps, .errorProps] =
    some [.sent none false, .pic 1, .sent (some .EINVAL) true, .props (some 2), .props none] := by
  decide +kernel

/-- The environment of the examples, but the third frame runs out of memory. -/
def demoEnv3 : Env UInt8 := { demoEnv with oom := fun n => if n = 2 then .early else .no }

/-- The session run with `demoEnv3`. -/
def run3 (s : Settings) (l : List Call) : Option (List Seen) := (session s demoEnv3 Dec.init l).map (fun x => x.2.map seen)

/-- The error of the third packet (out of memory) is never returned, because the error of the first frame is found in
the same call: packet 3 is lost although dav1d_send_data accepted it. And the error that is returned, that of packet 1,
comes with the properties of packet 3. -/
theorem C26_wrong_props : run3 { nFc := 2 } [send 1 (streamKey 0xFF), send 2 (streamKey 2), send 3 (streamKey 3), .get, .errorProps, .get, .get, .get, .get] =
    some [.sent none false, .sent none false, .sent none false, .err .EINVAL, .props (some 3), .pic 2, .err .EAGAIN, .err .EAGAIN, .err .EAGAIN] := by
  decide +kernel

/-- The error of a packet beyond the frame size limit comes with the properties of an older error. -/
theorem C26_limit_props : run { frameSizeLimit := 1 } [send 1 [0xFF], send 2 (streamKey 1), .errorProps] =
    some [.sent (some .EINVAL) true, .sent (some .ERANGE) true, .props (some 1)] := by
  decide +kernel

end Dav1d
