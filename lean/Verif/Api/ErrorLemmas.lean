import Verif.Api.Drain
/-!
# The errors of frames decoded asynchronously

A ledger: what the decoder owes the caller is the cached error and the errors held by the frame contexts. Every call
either leaves the ledger as it is, apart from the errors of newly submitted frames, or returns its first entry.
-/
namespace Dav1d
variable {κ : Type}

/-- The error of decoding a frame. -/
def errorOf (env : Env κ) (f : FrameIn κ) : Option Err :=
  match env.dec f with
  | .error e => some e
  | .ok _ => none

/-- The errors of all frames given to the decoding stage, in order. -/
def failures (env : Env κ) (c : Dec κ) : List Err := c.decoded.filterMap (errorOf env)

/-- The errors not yet reported: the cached one, then those in the frame contexts. -/
def owed (s : Settings) (c : Dec κ) : List Err := c.cachedError.toList ++ (slots s c).filterMap (·.retval)

/-- No allocation fails after the picture of a frame was allocated. -/
def LateAllocOk (env : Env κ) : Prop := ∀ n, env.oom n ≠ .copy ∧ env.oom n ≠ .late

/-- From `c` to `c'` the ledger only grows, by the errors of the frames submitted. -/
def Owes (s : Settings) (env : Env κ) (c c' : Dec κ) : Prop :=
  ∃ new, failures env c' = failures env c ++ new ∧ owed s c' = owed s c ++ new

theorem Owes.refl {s : Settings} {env : Env κ} (c : Dec κ) : Owes s env c c := ⟨[], by simp, by simp⟩

theorem Owes.trans {s : Settings} {env : Env κ} {a b c : Dec κ} (h1 : Owes s env a b) (h2 : Owes s env b c) : Owes s env a c := by
  obtain ⟨m, h3, h4⟩ := h1
  obtain ⟨n, h5, h6⟩ := h2
  exact ⟨m ++ n, by rw [h5, h3, List.append_assoc], by rw [h6, h4, List.append_assoc]⟩

theorem owed_congr {s : Settings} {c c' : Dec κ} (h1 : c'.cachedError = c.cachedError) (h2 : c'.ring = c.ring) (h3 : c'.next = c.next) : owed s c' = owed s c := by
  unfold owed slots
  rw [h1, h2, h3]

theorem Owes.same {s : Settings} {env : Env κ} {c c' : Dec κ} (h1 : c'.cachedError = c.cachedError) (h2 : c'.ring = c.ring) (h3 : c'.next = c.next) (h4 : c'.decoded = c.decoded) : Owes s env c c' :=
  ⟨[], by unfold failures; rw [h4]; simp, by rw [owed_congr h1 h2 h3]; simp⟩

/-- The errors in the frame contexts after the first. -/
def restErrs (s : Settings) (c : Dec κ) : List Err :=
  ((List.range (s.nFc - 1)).map (fun k => c.ring ((c.next + 1 + k) % s.nFc))).filterMap (·.retval)

theorem owed_front {s : Settings} {c : Dec κ} (h : c.next < s.nFc) (hc : c.cachedError = none) : owed s c = (c.ring c.next).retval.toList ++ restErrs s c := by
  unfold owed restErrs
  rw [slots_cons h, hc]
  cases hr : (c.ring c.next).retval with
  | none => rw [List.filterMap_cons_none hr]
  | some e => rw [List.filterMap_cons_some hr]; rfl

theorem owed_back {s : Settings} {c c' : Dec κ} (h : c.next < s.nFc) (hn : c'.next = ringNext s.nFc c.next) (hr : ∀ j, j ≠ c.next → c'.ring j = c.ring j) :
    owed s c' = c'.cachedError.toList ++ restErrs s c ++ (c'.ring c.next).retval.toList := by
  unfold owed restErrs
  rw [slots_snoc h hn hr, List.filterMap_append, List.append_assoc]
  congr 1

/-- What emptying a frame context does to the ledger. -/
structure Popped (s : Settings) (c c' : Dec κ) : Prop where
  next : c'.next = ringNext s.nFc c.next
  ring : ∀ j, j ≠ c.next → c'.ring j = c.ring j
  last : (c'.ring c.next).retval = none
  cached : c'.cachedError = (c.ring c.next).retval
  decoded : c'.decoded = c.decoded

theorem showDelayed_decoded {s : Settings} {c c' : Dec κ} {p : Pic κ} (h : showDelayed s c p = some c') : c'.decoded = c.decoded := by
  unfold showDelayed setOut at h
  repeat' split at h
  all_goals cases h
  all_goals rfl

theorem ringPop_popped {s : Settings} {c c' : Dec κ} (hc : c.cachedError = none) (h : ringPop s c = some c') : Popped s c c' := by
  unfold ringPop at h
  dsimp only at h
  split at h
  · rename_i e he
    cases h
    refine ⟨rfl, fun j hj => ?_, ?_, ?_, rfl⟩
    · simp only [setSlot]; rw [if_neg hj]
    · simp only [setSlot, if_true]
    · show some e = _
      rw [he]
  · rename_i he
    split at h
    · cases h
      exact ⟨rfl, fun j hj => rfl, he, by rw [he]; exact hc, rfl⟩
    · obtain ⟨a1, a2, _, a4⟩ := showDelayed_next h
      refine ⟨a1, fun j hj => ?_, ?_, ?_, ?_⟩
      · rw [a2]; simp only [setSlot]; rw [if_neg hj]
      · rw [a2]; simp only [setSlot, if_true]; exact he
      · rw [a4, he]; exact hc
      · rw [showDelayed_decoded h]; rfl

/-- After a frame context was emptied and the frame `f` (if any) was put into it. -/
theorem Popped.owes {s : Settings} {env : Env κ} {c c1 c' : Dec κ} (hp : Popped s c c1) (h : c.next < s.nFc) (hc : c.cachedError = none)
    (h1 : c'.cachedError = c1.cachedError) (h2 : c'.next = c1.next) (h3 : ∀ j, j ≠ c.next → c'.ring j = c1.ring j) (f : List (FrameIn κ))
    (h4 : c'.decoded = c1.decoded ++ f) (h5 : (c'.ring c.next).retval.toList = f.filterMap (errorOf env)) : Owes s env c c' := by
  refine ⟨f.filterMap (errorOf env), ?_, ?_⟩
  · unfold failures
    rw [h4, hp.decoded, List.filterMap_append]
  · rw [owed_back h (h2.trans hp.next) (fun j hj => (h3 j hj).trans (hp.ring j hj)), owed_front h hc, h1, hp.cached, h5]

theorem submitError_owes {s : Settings} (h1 : s.nFc ≠ 1) (c : Dec κ) (i : Nat) (props : Props) (e : Err) :
    (submitError s c i props e).1.cachedError = c.cachedError ∧ (submitError s c i props e).1.next = c.next ∧ (submitError s c i props e).1.decoded = c.decoded ∧
    (∀ j, j ≠ i → (submitError s c i props e).1.ring j = c.ring j) ∧ ((submitError s c i props e).1.ring i).retval = (c.ring i).retval := by
  unfold submitError
  dsimp only
  rw [if_neg h1]
  refine ⟨rfl, rfl, rfl, fun j hj => ?_, ?_⟩
  · simp only [setSlot]; rw [if_neg hj]
  · simp only [setSlot, if_true]

theorem submitFrame_owes {s : Settings} {env : Env κ} (hl : LateAllocOk env) (h1 : s.nFc ≠ 1) {c c' : Dec κ} (hn : c.next < s.nFc) (hc : c.cachedError = none) {q h props e}
    (hs : submitFrame s env c q h props = some (c', e)) : Owes s env c c' := by
  unfold submitFrame at hs
  dsimp only at hs
  rw [if_neg h1] at hs
  cases hr : ringPop s c with
  | none => rw [hr] at hs; cases hs
  | some c1 =>
    rw [hr] at hs
    have hp := ringPop_popped hc hr
    dsimp only at hs
    have herr : ∀ (y : Dec κ) er, some (submitError s y c.next props er) = some (c', e) → y.next = c1.next → y.ring = c1.ring → y.cachedError = c1.cachedError → y.decoded = c1.decoded →
        Owes s env c c' := by
      intro y er e3 e1 e2 e4 e5
      obtain ⟨a1, a2, a3, a4, a5⟩ := submitError_owes h1 y c.next props er
      rw [Option.some.inj e3] at a1 a2 a3 a4 a5
      dsimp only at a1 a2 a3 a4 a5
      refine hp.owes hn hc (a1.trans e4) (a2.trans e1) (fun j hj => by rw [a4 j hj, e2]) [] (by rw [a3, e5]; simp) ?_
      rw [a5, e2, hp.last]; rfl
    split at hs
    · exact herr _ _ hs rfl rfl rfl rfl
    · split at hs
      · exact herr _ _ hs rfl rfl rfl rfl
      · split at hs
        · exact herr _ _ hs rfl rfl rfl rfl
        · split at hs
          · rename_i hx; exact absurd hx (hl _).1
          · unfold submitAsync at hs
            rw [if_neg (hl _).2] at hs
            cases hs
            refine hp.owes hn hc rfl rfl (fun j hj => ?_) [{ seq := q, hdr := h, tiles := c1.tiles, refs := c1.refs }] rfl ?_
            · simp only [setSlot]; rw [if_neg hj]; rfl
            · simp only [setSlot, if_true, newPic, List.filterMap_cons, List.filterMap_nil, errorOf]
              cases env.dec { seq := q, hdr := h, tiles := c1.tiles, refs := c1.refs } <;> rfl

theorem showPic_owes {s : Settings} {env : Env κ} (h1 : s.nFc ≠ 1) {c c' : Dec κ} (hn : c.next < s.nFc) (hc : c.cachedError = none) {p : Pic κ} {props}
    (hs : showPic s c p props = some c') : Owes s env c c' := by
  unfold showPic at hs
  dsimp only at hs
  rw [if_neg h1] at hs
  split at hs
  · cases hs
  · rename_i d hd
    have hp := ringPop_popped (c := { c with info := { c.info with t35 := [] } }) hc hd
    cases hs
    have : Owes s env ({ c with info := { c.info with t35 := [] } } : Dec κ) (setSlot d c.next { d.ring c.next with pic := some { p with info := c.info, props := props, visible := true } }) := by
      refine hp.owes hn hc rfl rfl (fun j hj => ?_) [] (by simp [setSlot]) ?_
      · simp only [setSlot]; rw [if_neg hj]
      · simp only [setSlot, if_true]
        rw [hp.last]; rfl
    exact (Owes.same (c := c) (c' := { c with info := { c.info with t35 := [] } }) rfl rfl rfl rfl).trans this

theorem finishObu_owes {s : Settings} {env : Env κ} (hl : LateAllocOk env) (h1 : s.nFc ≠ 1) {c c' : Dec κ} (hn : c.next < s.nFc) (hc : c.cachedError = none) {props e}
    (hs : finishObu s env c props = some (c', e)) : Owes s env c c' := by
  unfold finishObu at hs
  split at hs
  · unfold showExisting at hs
    split at hs
    · cases hs; exact .same rfl rfl rfl rfl
    · split at hs
      · cases hs; exact .same rfl rfl rfl rfl
      · split at hs
        · split at hs
          · cases hs; exact .same rfl rfl rfl rfl
          · split at hs
            · cases hs
            · rename_i c2 h2
              have h3 := showPic_owes (env := env) h1 hn hc h2
              split at hs <;> cases hs <;> exact h3.trans (.same rfl rfl rfl rfl)
        · cases hs; exact .same rfl rfl rfl rfl
  · split at hs
    · unfold frameComplete at hs
      split at hs
      · cases hs; exact .same rfl rfl rfl rfl
      · split at hs
        · cases hs; exact .same rfl rfl rfl rfl
        · split at hs
          · cases hs
          · rename_i h2; cases hs; exact submitFrame_owes hl h1 hn hc h2
          · rename_i h2
            have := submitFrame_owes hl h1 hn hc h2
            split at hs <;> cases hs; exact this.trans (.same rfl rfl rfl rfl)
    · cases hs; exact .refl _
  · cases hs; exact .refl _

theorem caseStep_decoded {s : Settings} {c : Dec κ} {props x} (hs : CaseStep s c props x) : x.1.decoded = c.decoded := by
  have ht : ∀ {c : Dec κ} {h props x}, TileStep c h props x → x.1.decoded = c.decoded := by
    intro c h props x hs
    cases hs <;> rfl
  cases hs with
  | seq q hq =>
    unfold activateSeq
    dsimp only
    split
    · rfl
    · repeat' split
      all_goals rfl
  | frame q h x h1 h2 h3 h4 => exact (ht h4).trans rfl
  | group h x h1 h2 => exact ht h2
  | _ => rfl

theorem parseObus_owes {s : Settings} {env : Env κ} (hl : LateAllocOk env) (h1 : s.nFc ≠ 1) {c : Dec κ} (hi : Inv s env c) (hn : c.next < s.nFc) (hc : c.cachedError = none) {pkt : Packet}
    (hp : pkt.data ≠ []) {c' r} (hs : parseObus s env c pkt = some (c', r)) : Owes s env c c' := by
  rw [parseObus_eq s env hi.ok pkt hp] at hs
  unfold stepObu at hs
  have hcase : ∀ (d : Dec κ) (x : Err), Owes s env c d → some (caseError d pkt.props x) = some (c', r) → Owes s env c c' := by
    intro d x ho h
    have h1 : (caseError d pkt.props x).1 = c' := by rw [Option.some.inj h]
    rw [← h1]
    unfold caseError
    dsimp only
    split
    · exact ho
    · exact ho.trans (.same rfl rfl rfl rfl)
  cases hsp : splitObu pkt.data with
  | none => rw [hsp] at hs; exact hcase _ _ (.refl _) hs
  | some x =>
    obtain ⟨o, rest⟩ := x
    rw [hsp] at hs
    dsimp only at hs
    split at hs
    · exact hcase _ _ (.refl _) hs
    · split at hs
      · cases hs; exact .refl _
      · obtain ⟨x, ex, hx⟩ := obuCase_step (s := s) hi.ok o.type (obuHdrOf pkt.data).temporalId (obuHdrOf pkt.data).spatialId pkt.props o.payload
        rw [ex] at hs
        have hput := obuCase_put s c (core c) o.type (obuHdrOf pkt.data).temporalId (obuHdrOf pkt.data).spatialId pkt.props (BitSt.init o.payload)
        rw [put_core, ex] at hput
        obtain ⟨d, er⟩ := x
        have h2 := caseStep_decoded hx
        have h3 : d.cachedError = c.cachedError ∧ d.ring = c.ring ∧ d.next = c.next := by
          generalize ((obuCase s (core c) o.type (obuHdrOf pkt.data).temporalId (obuHdrOf pkt.data).spatialId pkt.props).run (BitSt.init o.payload)).1 = y at hput
          cases y with
          | none => cases hput
          | some y =>
            simp only [mapCase, Option.map_some, Option.some.injEq, Prod.mk.injEq] at hput
            rw [hput.1]
            exact ⟨rfl, rfl, rfl⟩
        have ho : Owes s env c d := .same h3.1 h3.2.1 h3.2.2 h2
        cases er with
        | some er => exact hcase _ _ ho hs
        | none =>
          simp only at hs
          split at hs
          · cases hs
          · rename_i h; cases hs
            exact ho.trans (finishObu_owes hl h1 (by rw [h3.2.2]; exact hn) (by rw [h3.1]; exact hc) h)
          · rename_i h; cases hs
            exact ho.trans (finishObu_owes hl h1 (by rw [h3.2.2]; exact hn) (by rw [h3.1]; exact hc) h)

theorem outputReady_owes {s : Settings} {env : Env κ} (c : Dec κ) (b : Bool) : Owes s env c (outputReady s c b).2 := by
  obtain ⟨h1, h2, _⟩ := outputReady_fields s c b
  refine .same (outputReady_cached s c b) h2 h1 ?_
  unfold outputReady
  repeat' split
  all_goals rfl

theorem outputImage_owes {s : Settings} {env : Env κ} {c : Dec κ} {x} (h : outputImage s env c = some x) : Owes s env c x.1 := by
  unfold outputImage at h
  repeat' split at h
  all_goals cases h
  all_goals exact .same rfl rfl rfl rfl

theorem genLoop_owes {s : Settings} {env : Env κ} (hl : LateAllocOk env) (h1 : s.nFc ≠ 1) (n : Nat) : ∀ {c : Dec κ} {pkt : Packet}, pkt.data.length = n → Inv s env c → c.out = none →
    c.cachedError = none → pkt.data ≠ [] → Pos s env c → ∀ {c' e}, genLoop s env c pkt = some (c', e) → Owes s env c c' := by
  induction n using Nat.strong_induction_on with
  | _ n ih =>
  intro c pkt hn hi ho hc hp hps c' e hs
  rw [genLoop] at hs
  obtain ⟨⟨c1, r⟩, e1, hi1, hr⟩ := hi.parseObus ho hp
  have h2 := parseObus_next hi hp e1 hps
  have h3 := parseObus_owes hl h1 hi hps.next hc hp e1
  rw [e1] at hs
  cases r with
  | error x =>
    dsimp only at hs
    have h4 := outputReady_owes (s := s) (env := env) { c1 with input := none } false
    have h5 : Owes s env c ({ c1 with input := none } : Dec κ) := h3.trans (.same rfl rfl rfl rfl)
    split at hs
    · rename_i d hd; rw [hd] at h4; cases hs; exact h5.trans h4
    · rename_i d hd; rw [hd] at h4; cases hs; exact h5.trans h4
  | ok n' =>
    dsimp only at hs
    have h0 := hr n' rfl
    rw [dif_pos h0] at hs
    have h5 : Owes s env c ({ c1 with input := pkt.advance n' } : Dec κ) := h3.trans (.same rfl rfl rfl rfl)
    have h4 := outputReady_owes (s := s) (env := env) { c1 with input := pkt.advance n' } false
    have h6 : Inv s env { c1 with input := pkt.advance n' } := Inv.setInput hi1 _ advance_ne
    have hps' := outputReady_pos false (show Pos s env { c1 with input := pkt.advance n' } from h2.congr rfl rfl)
    rcases h6.outputReady false with ⟨a1, a2, a3, a4⟩ | ⟨a1, _⟩
    · generalize Dav1d.outputReady s _ false = r at a1 a2 a3 a4 hs h4 hps'
      obtain ⟨b, d⟩ := r
      simp only at a1 a2 a3 a4 h4; subst a1
      simp only at hs
      split at hs
      · cases hs; exact h5.trans h4
      · exact (h5.trans h4).trans (ih (pkt.data.drop n').length (by rw [List.length_drop]; omega) (pkt := { pkt with data := pkt.data.drop n' }) rfl a2 a3 a4
          (by show pkt.data.drop n' ≠ []; rw [Ne, List.drop_eq_nil_iff]; assumption) hps' hs)
    · rw [a1] at hs; cases hs; exact h5

theorem genPicture_owes {s : Settings} {env : Env κ} (hl : LateAllocOk env) (h1 : s.nFc ≠ 1) {c : Dec κ} (hi : InvN s env c) {c' e} (hs : genPicture s env c = some (c', e)) : Owes s env c c' := by
  unfold genPicture at hs
  have h4 := outputReady_owes (s := s) (env := env) c false
  have hps' := outputReady_pos false hi.pos
  rcases hi.inv.outputReady false with ⟨a1, a2, a3, a4⟩ | ⟨a1, _⟩
  · generalize Dav1d.outputReady s _ false = r at a1 a2 a3 a4 hs h4 hps'
    obtain ⟨b, d⟩ := r
    simp only at a1 a2 a3 a4 h4; subst a1
    simp only at hs
    split at hs
    · cases hs; exact h4
    · rename_i p hp
      exact h4.trans (genLoop_owes hl h1 _ rfl a2 a3 a4 (a2.input _ hp) hps' hs)
  · rw [a1] at hs; cases hs; exact .refl _

/-- The effect of a call that returns the result `r` of dav1d_get_picture. -/
def Pays (s : Settings) (env : Env κ) (c c' : Dec κ) (r : Except Err (Pic κ)) : Prop :=
  ∃ new, failures env c' = failures env c ++ new ∧
    (owed s c ++ new = owed s c' ∨ ∃ e, r = .error e ∧ owed s c ++ new = e :: owed s c')

theorem Owes.pays {s : Settings} {env : Env κ} {c c' : Dec κ} (h : Owes s env c c') (r : Except Err (Pic κ)) : Pays s env c c' r := by
  obtain ⟨new, h1, h2⟩ := h
  exact ⟨new, h1, Or.inl h2.symm⟩

theorem Owes.trans_pays {s : Settings} {env : Env κ} {a b c : Dec κ} {r} (h1 : Owes s env a b) (h2 : Pays s env b c r) : Pays s env a c r := by
  obtain ⟨m, h3, h4⟩ := h1
  obtain ⟨n, h5, h6⟩ := h2
  refine ⟨m ++ n, by rw [h5, h3, List.append_assoc], ?_⟩
  rw [← List.append_assoc, ← h4]
  exact h6

def DrainPays (s : Settings) (env : Env κ) (c : Dec κ) : DrainStep κ → Prop
  | .stop c' => Owes s env c c' ∧ c'.next < s.nFc ∧ c'.cachedError = none
  | .next c' _ => Owes s env c c' ∧ c'.next < s.nFc ∧ c'.cachedError = none
  | .done c' r => Pays s env c c' r
  | .undef => True

theorem drainStep_pays {s : Settings} {env : Env κ} (h1 : s.nFc ≠ 1) {c : Dec κ} (hn : c.next < s.nFc) (hc : c.cachedError = none) (b : Bool) :
    DrainPays s env c (drainStep s env c b) := by
  unfold drainStep
  dsimp only
  split
  · exact ⟨.refl _, hn, hc⟩
  · cases hr : (c.ring c.next).retval with
    | some e =>
      dsimp only
      refine ⟨[], by simp [failures, setSlot], Or.inr ⟨e, rfl, ?_⟩⟩
      rw [owed_front hn hc, hr, owed_back (c' := setSlot { c with next := ringNext s.nFc c.next, errProps := (c.ring c.next).pic.map (·.props) } c.next { c.ring c.next with retval := none, pic := none }) hn rfl
        (fun j hj => by simp only [setSlot]; rw [if_neg hj])]
      simp only [setSlot, hc, if_true]
      simp
    | none =>
      dsimp only
      have key : ∀ c' : Dec κ, c'.next = ringNext s.nFc c.next → (∀ j, j ≠ c.next → c'.ring j = c.ring j) → (c'.ring c.next).retval = none → c'.cachedError = none →
          c'.decoded = c.decoded → Owes s env c c' ∧ c'.next < s.nFc ∧ c'.cachedError = none := by
        intro c' k1 k2 k3 k4 k5
        refine ⟨⟨[], by unfold failures; rw [k5]; simp, ?_⟩, by rw [k1]; exact ringNext_lt hn, k4⟩
        rw [owed_front hn hc, owed_back hn k1 k2, k3, k4, hr]
        simp
      cases hpic : (c.ring c.next).pic with
      | none => exact key _ rfl (fun j hj => rfl) hr hc rfl
      | some p =>
        dsimp only
        split
        · trivial
        · rename_i c2 h2
          obtain ⟨a1, a2, _, a4⟩ := showDelayed_next h2
          obtain ⟨k1, k2, k3⟩ := key c2 a1 (fun j hj => by rw [a2]; simp only [setSlot]; rw [if_neg hj]) (by rw [a2]; simp only [setSlot, if_true]) (a4.trans hc) (by rw [showDelayed_decoded h2]; rfl)
          have h5 := outputReady_owes (s := s) (env := env) c2 false
          have h6 := outputReady_fields s c2 false
          have h7 := outputReady_cached s c2 false
          split
          · rename_i b' c3 h3
            rw [h3] at h5
            split
            · trivial
            · rename_i c4 r h4
              exact ((k1.trans h5).trans (outputImage_owes h4)).pays _
          · rename_i b' c3 h3
            rw [h3] at h5 h6 h7
            exact ⟨k1.trans h5, by rw [h6.1]; exact k2, h7.trans k3⟩

theorem drainLoop_pays {s : Settings} {env : Env κ} (h1 : s.nFc ≠ 1) (n : Nat) : ∀ {c : Dec κ}, c.next < s.nFc → c.cachedError = none → ∀ b,
    match drainLoop s env n c b with
    | .stop c' => Owes s env c c'
    | .next _ _ => True
    | .done c' r => Pays s env c c' r
    | .undef => True := by
  induction n with
  | zero => intro c hn hc b; exact .refl _
  | succ n ih =>
    intro c hn hc b
    unfold drainLoop
    have := drainStep_pays (env := env) h1 hn hc b
    cases hd : drainStep s env c b with
    | stop c' => rw [hd] at this; exact this.1
    | undef => trivial
    | done c' r => rw [hd] at this; exact this
    | next c' b' =>
      rw [hd] at this
      dsimp only
      have h2 := ih this.2.1 this.2.2 b'
      cases hd2 : drainLoop s env n c' b' with
      | stop c2 => rw [hd2] at h2; exact this.1.trans h2
      | undef => trivial
      | done c2 r => rw [hd2] at h2; exact this.1.trans_pays h2
      | next _ _ => trivial

theorem drainPicture_pays {s : Settings} {env : Env κ} (h1 : s.nFc ≠ 1) {c : Dec κ} (hn : c.next < s.nFc) (hc : c.cachedError = none) {c' r}
    (hs : drainPicture s env c = some (c', r)) : Pays s env c c' r := by
  unfold drainPicture at hs
  have := drainLoop_pays (env := env) h1 s.nFc hn hc false
  cases hd : drainLoop s env s.nFc c false with
  | stop c2 =>
    rw [hd] at hs this
    dsimp only at hs this
    have h5 := outputReady_owes (s := s) (env := env) c2 true
    split at hs
    · rename_i c3 h3
      rw [h3] at h5
      exact ((this.trans h5).trans (outputImage_owes hs)).pays _
    · rename_i c3 h3
      rw [h3] at h5
      cases hs
      exact (this.trans h5).pays _
  | undef => rw [hd] at hs; cases hs
  | done c2 r2 => rw [hd] at hs this; cases hs; exact this
  | next _ _ => rw [hd] at hs; cases hs

theorem getPicture_pays {s : Settings} {env : Env κ} (hl : LateAllocOk env) (h1 : s.nFc ≠ 1) {c : Dec κ} (hi : InvN s env c) {c' r} (hs : getPicture s env c = some (c', r)) : Pays s env c c' r := by
  unfold getPicture at hs
  dsimp only at hs
  have hi0 : InvN s env { c with drain := true } := ⟨⟨hi.inv.seq, hi.inv.op, hi.inv.refs, hi.inv.hdr, hi.inv.limit, hi.inv.hdrFor, hi.inv.cover, hi.inv.decoded, hi.inv.out, hi.inv.cache,
    hi.inv.sync, hi.inv.pics, hi.inv.skipped, hi.inv.slots, hi.inv.input⟩, hi.pos.congr rfl rfl⟩
  have h0 : Owes s env c ({ c with drain := true } : Dec κ) := .same rfl rfl rfl rfl
  cases hg : genPicture s env { c with drain := true } with
  | none => rw [hg] at hs; cases hs
  | some x =>
    obtain ⟨c1, e⟩ := x
    have h2 := h0.trans (genPicture_owes hl h1 hi0 hg)
    have h3 := genPicture_pos hi0 hg
    rw [hg] at hs
    cases e with
    | some e => cases hs; exact h2.pays _
    | none =>
      dsimp only at hs
      cases hce : c1.cachedError with
      | some e =>
        rw [hce] at hs
        cases hs
        refine h2.trans_pays ⟨[], by simp [failures], Or.inr ⟨e, rfl, ?_⟩⟩
        simp only [owed, slots, hce, List.append_nil]
        rfl
      | none =>
        rw [hce] at hs
        dsimp only at hs
        have h5 := outputReady_owes (s := s) (env := env) c1 (s.nFc == 1)
        have h6 := outputReady_fields s c1 (s.nFc == 1)
        have h7 := outputReady_cached s c1 (s.nFc == 1)
        split at hs
        · rename_i c3 h4
          rw [h4] at h5
          exact ((h2.trans h5).trans (outputImage_owes hs)).pays _
        · rename_i c3 h4
          rw [h4] at h5 h6 h7
          split at hs
          · exact (h2.trans h5).trans_pays (drainPicture_pays h1 (by rw [h6.1]; exact h3.pos.next) (h7.trans hce) hs)
          · cases hs; exact (h2.trans h5).pays _

theorem sendData_owes {s : Settings} {env : Env κ} (hl : LateAllocOk env) (h1 : s.nFc ≠ 1) {c : Dec κ} (hi : InvN s env c) {p x} (hs : sendData s env c p = some x) : Owes s env c x.ctx := by
  unfold sendData at hs
  split at hs
  · cases hs; exact .refl _
  · rename_i hv
    dsimp only at hs
    have h0 : ∀ d : Dec κ, d = (if p.isSome = true then { c with drain := false } else c) → Owes s env c d ∧ InvN s env d := by
      intro d hd
      split at hd
      · subst hd
        exact ⟨.same rfl rfl rfl rfl, ⟨⟨hi.inv.seq, hi.inv.op, hi.inv.refs, hi.inv.hdr, hi.inv.limit, hi.inv.hdrFor, hi.inv.cover, hi.inv.decoded, hi.inv.out, hi.inv.cache,
          hi.inv.sync, hi.inv.pics, hi.inv.skipped, hi.inv.slots, hi.inv.input⟩, hi.pos.congr rfl rfl⟩⟩
      · subst hd; exact ⟨.refl _, hi⟩
    obtain ⟨h2, h3⟩ := h0 _ rfl
    generalize (if p.isSome = true then { c with drain := false } else c) = d at hs h2 h3
    split at hs
    · cases hs; exact h2
    · have h4 : InvN s env { d with input := p } := ⟨Inv.setInput h3.inv _ (fun y hy => by
        subst hy
        intro h0
        apply hv
        simp [h0]), h3.pos.congr rfl rfl⟩
      have h5 : Owes s env c ({ d with input := p } : Dec κ) := h2.trans (.same rfl rfl rfl rfl)
      split at hs
      · cases hs
      · rename_i c2 hg; cases hs; exact h5.trans (genPicture_owes hl h1 h4 hg)
      · rename_i c2 e hg; cases hs; exact h5.trans (genPicture_owes hl h1 h4 hg)

end Dav1d
