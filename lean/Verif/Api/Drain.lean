import Verif.Api.SeqRun
/-!
# Repeated dav1d_get_picture calls come to rest
-/
namespace Dav1d
variable {κ : Type}

/-! ## The position in the ring -/

theorem setSlot_next (c : Dec κ) (i : Nat) (sl : Slot κ) : (setSlot c i sl).next = c.next := rfl

theorem showDelayed_next {s : Settings} {c c' : Dec κ} {p : Pic κ} (h : showDelayed s c p = some c') : c'.next = c.next ∧ c'.ring = c.ring ∧ c'.input = c.input ∧ c'.cachedError = c.cachedError := by
  unfold showDelayed at h
  split at h
  · unfold setOut at h
    split at h
    · cases h
    · cases h; exact ⟨rfl, rfl, rfl, rfl⟩
  · cases h; exact ⟨rfl, rfl, rfl, rfl⟩

/-- The position in the ring is in range, a cached error is one of the decoder, and with one frame context there is
none. -/
structure Pos (s : Settings) (env : Env κ) (c : Dec κ) : Prop where
  next : c.next < s.nFc
  cached : ∀ e, c.cachedError = some e → ∃ f, env.dec f = .error e
  one : s.nFc = 1 → c.cachedError = none

theorem Pos.congr {s : Settings} {env : Env κ} {c c' : Dec κ} (h : Pos s env c) (h1 : c'.next = c.next) (h2 : c'.cachedError = c.cachedError) : Pos s env c' :=
  ⟨by rw [h1]; exact h.next, by rw [h2]; exact h.cached, by rw [h2]; exact h.one⟩

theorem ringPop_pos {s : Settings} {env : Env κ} (hf : s.nFc ≠ 1) {c c' : Dec κ} {l} (hsl : ∀ i, SlotOk env l (c.ring i)) (hn : Pos s env c) (h : ringPop s c = some c') :
    Pos s env c' ∧ c'.input = c.input := by
  unfold ringPop at h
  dsimp only at h
  split at h
  · rename_i e he
    cases h
    refine ⟨⟨ringNext_lt hn.next, fun e' h' => ?_, fun h => absurd h hf⟩, rfl⟩
    cases h'
    obtain ⟨p, h1, h2⟩ := (hsl c.next).err e he
    obtain ⟨f, _, _, _, h3⟩ := (hsl c.next).pic p h1
    exact ⟨f, by rw [← h3]; exact h2⟩
  · split at h
    · cases h; exact ⟨⟨ringNext_lt hn.next, hn.cached, hn.one⟩, rfl⟩
    · have := showDelayed_next h
      exact ⟨⟨by rw [this.1]; exact ringNext_lt hn.next, by rw [this.2.2.2]; exact hn.cached, by rw [this.2.2.2]; exact hn.one⟩, this.2.2.1⟩

theorem submitError_next (s : Settings) (c : Dec κ) (i : Nat) (props : Props) (e : Err) : (submitError s c i props e).1.next = c.next ∧
    (submitError s c i props e).1.input = c.input ∧ (submitError s c i props e).1.cachedError = c.cachedError := by
  unfold submitError; dsimp only; split <;> exact ⟨rfl, rfl, rfl⟩

theorem submitFrame_next {s : Settings} {env : Env κ} {c c' : Dec κ} {l} (hsl : ∀ i, SlotOk env l (c.ring i)) {q h props e} (hs : submitFrame s env c q h props = some (c', e)) (hn : Pos s env c) :
    Pos s env c' ∧ c'.input = c.input := by
  unfold submitFrame at hs
  dsimp only at hs
  have hp : ∀ x, (if s.nFc = 1 then some c else ringPop s c) = some x → Pos s env x ∧ x.input = c.input := by
    intro x hx
    split at hx
    · cases hx; exact ⟨hn.congr rfl rfl, rfl⟩
    · rename_i hf; exact ringPop_pos hf hsl hn hx
  generalize (if s.nFc = 1 then some c else ringPop s c) = z at hs hp
  cases z with
  | none => cases hs
  | some x =>
    obtain ⟨h1, h2⟩ := hp x rfl
    have herr : ∀ (y : Dec κ) i er, some (submitError s y i props er) = some (c', e) → y.next = x.next → y.input = x.input → y.cachedError = x.cachedError → Pos s env c' ∧ c'.input = c.input := by
      intro y i er e3 e1 e2 e4
      have h4 := submitError_next s y i props er
      rw [Option.some.inj e3] at h4
      exact ⟨h1.congr (h4.1.trans e1) (h4.2.2.trans e4), (h4.2.1.trans e2).trans h2⟩
    dsimp only at hs
    split at hs
    · exact herr _ _ _ hs rfl rfl rfl
    · split at hs
      · exact herr _ _ _ hs rfl rfl rfl
      · split at hs
        · exact herr _ _ _ hs rfl rfl rfl
        · split at hs
          · exact herr _ _ _ hs rfl rfl rfl
          · split at hs
            · unfold submitSync at hs
              split at hs
              · cases hs
              · rename_i c2 hc2
                have h5 : c2.next = x.next ∧ c2.input = x.input ∧ c2.cachedError = x.cachedError := by
                  split at hc2
                  · unfold setOut at hc2; split at hc2 <;> cases hc2; exact ⟨rfl, rfl, rfl⟩
                  · cases hc2; exact ⟨rfl, rfl, rfl⟩
                split at hs
                · exact herr _ _ _ hs h5.1 h5.2.1 h5.2.2
                · split at hs
                  · exact herr _ _ _ hs h5.1 h5.2.1 h5.2.2
                  · cases hs; exact ⟨h1.congr h5.1 h5.2.2, h5.2.1.trans h2⟩
            · unfold submitAsync at hs
              split at hs
              · exact herr _ _ _ hs rfl rfl rfl
              · cases hs; exact ⟨h1.congr rfl rfl, h2⟩

theorem finishObu_next {s : Settings} {env : Env κ} {c c' : Dec κ} {l} (hsl : ∀ i, SlotOk env l (c.ring i)) {props e} (hs : finishObu s env c props = some (c', e)) (hn : Pos s env c) :
    Pos s env c' ∧ c'.input = c.input := by
  unfold finishObu at hs
  split at hs
  · unfold showExisting at hs
    split at hs
    · cases hs; exact ⟨hn.congr rfl rfl, rfl⟩
    · split at hs
      · cases hs; exact ⟨hn.congr rfl rfl, rfl⟩
      · split at hs
        · split at hs
          · cases hs; exact ⟨hn.congr rfl rfl, rfl⟩
          · split at hs
            · cases hs
            · rename_i c2 h2
              have h3 : Pos s env c2 ∧ c2.input = c.input := by
                unfold showPic at h2
                dsimp only at h2
                split at h2
                · unfold setOut at h2; split at h2 <;> cases h2; exact ⟨hn.congr rfl rfl, rfl⟩
                · split at h2
                  · cases h2
                  · rename_i hf _ d hd
                    have hn' : Pos s env { c with info := { c.info with t35 := [] } } := hn.congr rfl rfl
                    obtain ⟨a1, a2⟩ := ringPop_pos (env := env) hf (l := l) (by exact hsl) hn' hd
                    cases h2
                    exact ⟨a1.congr rfl rfl, a2⟩
              split at hs <;> cases hs <;> exact ⟨h3.1.congr rfl rfl, h3.2⟩
        · cases hs; exact ⟨hn.congr rfl rfl, rfl⟩
  · split at hs
    · unfold frameComplete at hs
      split at hs
      · cases hs; exact ⟨hn.congr rfl rfl, rfl⟩
      · split at hs
        · cases hs; exact ⟨hn.congr rfl rfl, rfl⟩
        · split at hs
          · cases hs
          · rename_i h2; cases hs; exact submitFrame_next hsl h2 hn
          · rename_i h2
            have := submitFrame_next hsl h2 hn
            split at hs <;> cases hs; exact ⟨this.1.congr rfl rfl, this.2⟩
    · cases hs; exact ⟨hn.congr rfl rfl, rfl⟩
  · cases hs; exact ⟨hn.congr rfl rfl, rfl⟩

theorem parseObus_next {s : Settings} {env : Env κ} {c : Dec κ} (hi : Inv s env c) {pkt : Packet} (hp : pkt.data ≠ []) {c' r}
    (hs : parseObus s env c pkt = some (c', r)) (hn : Pos s env c) : Pos s env c' := by
  rw [parseObus_eq s env hi.ok pkt hp] at hs
  unfold stepObu at hs
  have hcase : ∀ (c : Dec κ) (x : Err), Pos s env c → some (caseError c pkt.props x) = some (c', r) → Pos s env c' := by
    intro c x hn h
    have h1 : (caseError c pkt.props x).1 = c' := by rw [Option.some.inj h]
    rw [← h1]
    unfold caseError
    dsimp only
    split
    · exact hn
    · exact hn.congr rfl rfl
  cases hsp : splitObu pkt.data with
  | none => rw [hsp] at hs; exact hcase _ _ hn hs
  | some x =>
    obtain ⟨o, rest⟩ := x
    rw [hsp] at hs
    dsimp only at hs
    split at hs
    · exact hcase _ _ hn hs
    · split at hs
      · cases hs; exact hn
      · have hput := obuCase_put s c (core c) o.type (obuHdrOf pkt.data).temporalId (obuHdrOf pkt.data).spatialId pkt.props (BitSt.init o.payload)
        rw [put_core] at hput
        rw [hput] at hs
        generalize ((obuCase s (core c) o.type (obuHdrOf pkt.data).temporalId (obuHdrOf pkt.data).spatialId pkt.props).run (BitSt.init o.payload)).1 = y at hs
        cases y with
        | none => cases hs
        | some y =>
          obtain ⟨d1, e2⟩ := y
          have hn2 : Pos s env (put c d1) := hn.congr rfl rfl
          cases e2 with
          | some e => exact hcase _ _ hn2 hs
          | none =>
            simp only [mapCase, Option.map_some] at hs
            split at hs
            · cases hs
            · rename_i h; cases hs; exact (finishObu_next (l := c.decoded) (by exact hi.slots) h hn2).1
            · rename_i h; cases hs; exact (finishObu_next (l := c.decoded) (by exact hi.slots) h hn2).1

theorem outputReady_fields (s : Settings) (c : Dec κ) (b : Bool) : (outputReady s c b).2.next = c.next ∧ (outputReady s c b).2.ring = c.ring ∧
    (outputReady s c b).2.input = c.input ∧ (outputReady s c b).2.drain = c.drain ∧ (outputReady s c b).2.maxSpatialId = c.maxSpatialId := by
  unfold outputReady
  repeat' split
  all_goals exact ⟨rfl, rfl, rfl, rfl, rfl⟩

theorem outputReady_cached (s : Settings) (c : Dec κ) (b : Bool) : (outputReady s c b).2.cachedError = c.cachedError := by
  unfold outputReady
  repeat' split
  all_goals rfl

theorem outputReady_pos {s : Settings} {env : Env κ} {c : Dec κ} (b : Bool) (h : Pos s env c) : Pos s env (outputReady s c b).2 :=
  h.congr (outputReady_fields s c b).1 (outputReady_cached s c b)

theorem genLoop_next {s : Settings} {env : Env κ} (n : Nat) : ∀ {c : Dec κ} {pkt : Packet}, pkt.data.length = n → Inv s env c → c.out = none → pkt.data ≠ [] → Pos s env c →
    ∀ {c' e}, genLoop s env c pkt = some (c', e) → Pos s env c' ∧ (∀ p, c'.input = some p → p.data.length < n) ∧
      (e = none → (outputReady s c' false).1 = true ∨ c'.input = none) := by
  induction n using Nat.strong_induction_on with
  | _ n ih =>
  intro c pkt hn hi ho hp hnx c' e hs
  rw [genLoop] at hs
  obtain ⟨⟨c1, r⟩, e1, hi1, hr⟩ := hi.parseObus ho hp
  have h1 := parseObus_next hi hp e1 hnx
  rw [e1] at hs
  cases r with
  | error x =>
    dsimp only at hs
    have hf := outputReady_fields s { c1 with input := none } false
    have hps := outputReady_pos false (show Pos s env { c1 with input := none } from h1.congr rfl rfl)
    have h2 : Inv s env { c1 with input := none } := Inv.setInput hi1 _ (fun _ h => by cases h)
    rcases h2.outputReady false with ⟨a1, a2, a3, _⟩ | ⟨a1, _⟩
    · generalize outputReady s { c1 with input := none } false = z at hs hf a1 hps
      obtain ⟨b, d⟩ := z
      dsimp only at a1 hf; subst a1
      cases hs
      exact ⟨hps, fun p h => (by rw [hf.2.2.1] at h; cases h), fun h => (by cases h)⟩
    · rw [a1] at hs; cases hs
      exact ⟨h1.congr rfl rfl, fun p h => (by cases h), fun h => Or.inr rfl⟩
  | ok n' =>
    dsimp only at hs
    have h0 := hr n' rfl
    rw [dif_pos h0] at hs
    have hlen : ∀ p, pkt.advance n' = some p → p.data.length < n := by
      intro p h
      unfold Packet.advance at h
      split at h
      · cases h
      · cases h; show (pkt.data.drop n').length < n; rw [List.length_drop]; omega
    have h2 : Inv s env { c1 with input := pkt.advance n' } := Inv.setInput hi1 _ advance_ne
    have hf := outputReady_fields s { c1 with input := pkt.advance n' } false
    have hps := outputReady_pos false (show Pos s env { c1 with input := pkt.advance n' } from h1.congr rfl rfl)
    rcases h2.outputReady false with ⟨a1, a2, a3, _⟩ | ⟨a1, _⟩
    · generalize Dav1d.outputReady s _ false = r at a1 a2 a3 hs hf hps
      obtain ⟨b, d⟩ := r
      simp only at a1 a2 a3 hf; subst a1
      simp only at hs
      split at hs
      · rename_i hle
        cases hs
        have : c'.input = none := by
          rw [hf.2.2.1]; unfold Packet.advance; rw [if_pos (List.drop_eq_nil_iff.2 hle)]
        exact ⟨hps, fun p h => (by rw [this] at h; cases h), fun _ => Or.inr this⟩
      · rename_i hlt
        have := ih (pkt.data.drop n').length (by rw [List.length_drop]; omega) (pkt := { pkt with data := pkt.data.drop n' }) rfl a2 a3
          (by show pkt.data.drop n' ≠ []; rw [Ne, List.drop_eq_nil_iff]; assumption) hps hs
        refine ⟨this.1, fun p h => ?_, this.2.2⟩
        have := this.2.1 p h
        rw [List.length_drop] at this; omega
    · have hr : (outputReady s { c1 with input := pkt.advance n' } false).1 = true := by rw [a1]
      rw [a1] at hs; cases hs
      exact ⟨h1.congr rfl rfl, hlen, fun _ => Or.inl hr⟩

/-! ## What is left in the ring -/

/-- The frame context holds a picture or an error. -/
def Slot.busy (sl : Slot κ) : Bool := sl.pic.isSome || sl.retval.isSome

/-- The frame contexts after the first `k` (in turn) are empty. -/
def EmptyFrom (s : Settings) (k : Nat) (c : Dec κ) : Prop := ∀ sl ∈ (slots s c).drop k, sl.busy = false

theorem emptyFrom_nFc (s : Settings) (c : Dec κ) : EmptyFrom s s.nFc c := by
  intro sl h
  rw [List.drop_eq_nil_of_le (by simp [slots])] at h
  cases h

theorem emptyFrom_push {s : Settings} {c c' : Dec κ} {k : Nat} (h : c.next < s.nFc) (hn : c'.next = ringNext s.nFc c.next)
    (hr : ∀ j, j ≠ c.next → c'.ring j = c.ring j) (hb : (c'.ring c.next).busy = false) (hk : EmptyFrom s k c) : EmptyFrom s (k - 1) c' := by
  unfold EmptyFrom at hk ⊢
  rw [slots_snoc h hn hr]
  rw [slots_cons h] at hk
  generalize (List.range (s.nFc - 1)).map (fun k => c.ring ((c.next + 1 + k) % s.nFc)) = l at hk ⊢
  intro sl hsl
  rw [List.drop_append] at hsl
  rcases List.mem_append.1 hsl with h1 | h1
  · cases k with
    | zero => exact hk sl (List.mem_cons_of_mem _ (by simpa using h1))
    | succ k => exact hk sl (by simpa using h1)
  · have := List.mem_of_mem_drop h1
    rw [List.mem_singleton] at this
    rw [this]; exact hb

theorem emptyFrom_congr {s : Settings} {c c' : Dec κ} {k : Nat} (hn : c'.next = c.next) (hr : c'.ring = c.ring) (h : EmptyFrom s k c) : EmptyFrom s k c' := by
  unfold EmptyFrom slots at h ⊢; rw [hn, hr]; exact h

/-- What a round of draining leaves. -/
structure Drained (s : Settings) (k : Nat) (c c' : Dec κ) : Prop where
  next : c'.next < s.nFc
  input : c'.input = c.input
  drain : c'.drain = c.drain
  spatial : c'.maxSpatialId = c.maxSpatialId
  cached : c'.cachedError = c.cachedError
  empty : EmptyFrom s k c'

theorem outputImage_fields {s : Settings} {env : Env κ} {c : Dec κ} {x} (h : outputImage s env c = some x) : x.1.next = c.next ∧ x.1.ring = c.ring ∧
    x.1.input = c.input ∧ x.1.drain = c.drain ∧ x.1.maxSpatialId = c.maxSpatialId ∧ x.1.cachedError = c.cachedError := by
  unfold outputImage at h
  repeat' split at h
  all_goals cases h
  all_goals exact ⟨rfl, rfl, rfl, rfl, rfl, rfl⟩

theorem showDelayed_fields {s : Settings} {c c' : Dec κ} {p : Pic κ} (h : showDelayed s c p = some c') : c'.drain = c.drain ∧ c'.maxSpatialId = c.maxSpatialId := by
  unfold showDelayed at h
  split at h
  · unfold setOut at h
    split at h
    · cases h
    · cases h; exact ⟨rfl, rfl⟩
  · cases h; exact ⟨rfl, rfl⟩

theorem drainStep_empty {s : Settings} {env : Env κ} {c : Dec κ} (hn : c.next < s.nFc) (b : Bool) {k : Nat} (hk : EmptyFrom s k c) :
    match drainStep s env c b with
    | .stop c' => c' = c ∧ b = true
    | .next c' _ => Drained s (k - 1) c c' ∧ (k = 0 → c'.out = c.out ∧ c'.cache = c.cache ∧ c'.cachedError = c.cachedError)
    | .done c' _ => Drained s (k - 1) c c' ∧ k ≠ 0
    | .undef => True := by
  have hk0 : k = 0 → (c.ring c.next).pic = none ∧ (c.ring c.next).retval = none := by
    intro h0
    subst h0
    have := hk (c.ring c.next) (by rw [List.drop_zero, slots_cons hn]; exact List.mem_cons_self)
    unfold Slot.busy at this
    simp only [Bool.or_eq_false_iff] at this
    simpa using this
  unfold drainStep
  dsimp only
  by_cases h : (!((c.ring c.next).pic.isSome || (c.ring c.next).error) && b) = true
  · rw [if_pos h]
    simp only [Bool.and_eq_true] at h
    exact ⟨rfl, h.2⟩
  rw [if_neg h]
  cases hr : (c.ring c.next).retval with
  | some e =>
    refine ⟨⟨ringNext_lt hn, rfl, rfl, rfl, rfl, emptyFrom_push hn rfl (fun j hj => if_neg hj) ?_ hk⟩, fun h => ?_⟩
    · simp only [setSlot, if_true]; rfl
    · rw [(hk0 h).2] at hr; cases hr
  | none =>
    dsimp only
    cases hp : (c.ring c.next).pic with
    | none =>
      refine ⟨⟨ringNext_lt hn, rfl, rfl, rfl, rfl, emptyFrom_push hn rfl (fun j hj => rfl) ?_ hk⟩, fun h => ⟨rfl, rfl, rfl⟩⟩
      unfold Slot.busy
      show ((c.ring c.next).pic.isSome || (c.ring c.next).retval.isSome) = false
      rw [hr, hp]; rfl
    | some p =>
      have hkne : k ≠ 0 := fun h => by rw [(hk0 h).1] at hp; cases hp
      have h0 : Drained s (k - 1) c (setSlot { c with next := ringNext s.nFc c.next } c.next { error := (c.ring c.next).error }) := by
        refine ⟨ringNext_lt hn, rfl, rfl, rfl, rfl, emptyFrom_push hn rfl (fun j hj => if_neg hj) ?_ hk⟩
        simp only [setSlot, if_true]
        rfl
      dsimp only
      generalize hsd : showDelayed s _ p = z
      cases z with
      | none => trivial
      | some c2 =>
        dsimp only
        obtain ⟨h1, h2, h3, h7⟩ := showDelayed_next hsd
        obtain ⟨h4, h5⟩ := showDelayed_fields hsd
        obtain ⟨g1, g2, g3, g4, g5⟩ := outputReady_fields s c2 false
        have g6 := outputReady_cached s c2 false
        generalize outputReady s c2 false = w at g1 g2 g3 g4 g5 g6
        obtain ⟨b', c3⟩ := w
        dsimp only at g1 g2 g3 g4 g5 g6
        have h6 : Drained s (k - 1) c c3 := by
          refine ⟨?_, ?_, ?_, ?_, ?_, ?_⟩
          · rw [g1, h1]; exact h0.next
          · rw [g3, h3]; exact h0.input
          · rw [g4, h4]; exact h0.drain
          · rw [g5, h5]; exact h0.spatial
          · rw [g6, h7]; exact h0.cached
          · exact emptyFrom_congr (g1.trans h1) (g2.trans h2) h0.empty
        cases b' with
        | true =>
          dsimp only
          generalize ho : outputImage s env c3 = v
          cases v with
          | none => trivial
          | some v =>
            obtain ⟨c4, r⟩ := v
            obtain ⟨f1, f2, f3, f4, f5, f6⟩ := outputImage_fields ho
            dsimp only at f1 f2 f3 f4 f5 f6 ⊢
            refine ⟨⟨?_, ?_, ?_, ?_, ?_, ?_⟩, hkne⟩
            · rw [f1]; exact h6.next
            · rw [f3]; exact h6.input
            · rw [f4]; exact h6.drain
            · rw [f5]; exact h6.spatial
            · rw [f6]; exact h6.cached
            · exact emptyFrom_congr f1 f2 h6.empty
        | false => exact ⟨h6, fun h => absurd h hkne⟩

theorem Drained.mono {s : Settings} {k m : Nat} {c c' : Dec κ} (h : Drained s k c c') (hm : k ≤ m) : Drained s m c c' := by
  refine ⟨h.next, h.input, h.drain, h.spatial, h.cached, fun sl hsl => h.empty sl ?_⟩
  rw [show m = k + (m - k) by omega, ← List.drop_drop] at hsl
  exact List.mem_of_mem_drop hsl

theorem Drained.trans {s : Settings} {k m : Nat} {a b c : Dec κ} (h1 : Drained s k a b) (h2 : Drained s m b c) : Drained s m a c :=
  ⟨h2.next, h2.input.trans h1.input, h2.drain.trans h1.drain, h2.spatial.trans h1.spatial, h2.cached.trans h1.cached, h2.empty⟩

theorem drainLoop_empty {s : Settings} {env : Env κ} (n : Nat) : ∀ {c : Dec κ}, c.next < s.nFc → ∀ (b : Bool) {k : Nat}, EmptyFrom s k c →
    match drainLoop s env n c b with
    | .stop c' => Drained s k c c' ∧ (b = false → 0 < n → Drained s (k - 1) c c') ∧ (k = 0 → c'.out = c.out ∧ c'.cache = c.cache ∧ c'.cachedError = c.cachedError)
    | .next _ _ => True
    | .done c' _ => Drained s (k - 1) c c' ∧ k ≠ 0
    | .undef => True := by
  induction n with
  | zero => intro c hn b k hk; exact ⟨⟨hn, rfl, rfl, rfl, rfl, hk⟩, fun _ h => absurd h (by omega), fun _ => ⟨rfl, rfl, rfl⟩⟩
  | succ n ih =>
    intro c hn b k hk
    have h1 := drainStep_empty (env := env) hn b hk
    unfold drainLoop
    generalize drainStep s env c b = r at h1
    cases r with
    | undef => trivial
    | stop c' =>
      obtain ⟨e1, e2⟩ := h1
      subst e1
      exact ⟨⟨hn, rfl, rfl, rfl, rfl, hk⟩, fun h => (by rw [h] at e2; cases e2), fun _ => ⟨rfl, rfl, rfl⟩⟩
    | done c' x => exact h1
    | next c' b' =>
      obtain ⟨h2, h3⟩ := h1
      have h4 := ih h2.next b' h2.empty
      dsimp only
      generalize drainLoop s env n c' b' = r at h4
      cases r with
      | undef => trivial
      | next _ _ => trivial
      | done c2 x => exact ⟨(h2.trans h4.1).mono (by omega), by have := h4.2; omega⟩
      | stop c2 =>
        obtain ⟨a1, a2, a3⟩ := h4
        refine ⟨(h2.trans a1).mono (by omega), fun _ _ => h2.trans a1, fun h0 => ?_⟩
        have b1 := h3 h0
        have b2 := a3 (by omega)
        exact ⟨b2.1.trans b1.1, b2.2.1.trans b1.2.1, b2.2.2.trans b1.2.2⟩

/-! ## Repeated calls -/

/-- Length of the data held. -/
def heldLen (c : Dec κ) : Nat := (c.input.map (·.data.length)).getD 0

/-- Weight of what is held on the output side besides the ring. -/
def weight (c : Dec κ) : Nat :=
  2 * c.out.toList.length + c.cache.toList.length + c.cachedError.toList.length + if c.drain then 0 else 1

/-- Nothing is held that could come out. -/
structure Silent (s : Settings) (c : Dec κ) : Prop where
  input : c.input = none
  out : c.out = none
  cachedError : c.cachedError = none
  cache : layered s c = true → c.cache = none
  ring : s.nFc ≠ 1 → EmptyFrom s 0 c

/-- The invariant together with the position in the ring. -/
structure InvN (s : Settings) (env : Env κ) (c : Dec κ) : Prop where
  inv : Inv s env c
  pos : Pos s env c

theorem outputReady_weight (s : Settings) (c : Dec κ) (b : Bool) : weight (outputReady s c b).2 ≤ weight c := by
  unfold outputReady
  repeat' split
  all_goals first | exact Nat.le_refl _ | skip
  · rename_i o k ho hk _
    unfold weight; rw [ho, hk]; simp
  · rename_i o ho hk
    unfold weight; rw [ho, hk]; simp

theorem outputReady_idem {s : Settings} {c c' : Dec κ} (h : outputReady s c false = (false, c')) (b : Bool) :
    (outputReady s c' b).1 = (b && layered s c' && c'.cache.isSome) ∧ ((outputReady s c' b).2 = c') := by
  unfold outputReady at h
  split at h
  · cases h
  rename_i hce
  split at h
  · rename_i hl
    have key : ∀ c' : Dec κ, c'.out = none → c'.cachedError = c.cachedError → layered s c' = true → (outputReady s c' b).1 = (b && layered s c' && c'.cache.isSome) ∧ ((outputReady s c' b).2 = c') := by
      intro c' h1 h2 h3
      unfold outputReady
      rw [if_neg (by rw [h2]; exact hce), if_pos h3, h1, h3]
      cases c'.cache with
      | none => simp
      | some k => simp
    split at h
    · split at h
      · cases h
      · cases h; exact key _ rfl rfl hl
    · rename_i ho hk; cases h; exact key _ ho rfl hl
    · cases h; exact key _ rfl rfl hl
    · rename_i ho hk; cases h; exact key _ ho rfl hl
  · rename_i hl
    have h1 : c.out.isSome = false := congrArg Prod.fst h
    have h2 : c = c' := congrArg Prod.snd h
    subst h2
    unfold outputReady
    rw [if_neg hce, if_neg hl]
    simp [h1, hl]

theorem outputImage_weight {s : Settings} {env : Env κ} {c : Dec κ} {x} (h : outputImage s env c = some x) : weight x.1 < weight c := by
  unfold outputImage at h
  split at h
  · split at h
    · cases h
    · rename_i p hp
      cases h
      unfold weight
      simp only [hp]
      cases c.out <;> simp <;> omega
  · split at h
    · cases h
    · rename_i p hp
      cases h
      unfold weight
      simp only [hp]
      simp

theorem outputReady_true {s : Settings} {c : Dec κ} (h : outputReady s c false = (true, c)) (b : Bool) : outputReady s c b = (true, c) := by
  unfold outputReady at h ⊢
  repeat' split at h
  all_goals first | cases h | skip
  · rename_i h1; rw [if_pos h1]
  · rename_i h1 h2 _ _ o k ho hk h3
    rw [if_neg h1, if_pos h2, if_pos h3]
  · rename_i h1 h2
    rw [if_neg h1, if_neg h2]
    exact h

theorem drainPicture_measure {s : Settings} {env : Env κ} {c : Dec κ} (hn : c.next < s.nFc) (h1 : s.nFc ≠ 1) (ho : c.out = none) (hce : c.cachedError = none) {w : Nat} (hw : EmptyFrom s w c) {c' r}
    (hs : drainPicture s env c = some (c', r)) : c'.next < s.nFc ∧ c'.input = c.input ∧ c'.cachedError = none ∧
      ((EmptyFrom s w c' ∧ weight c' < weight c) ∨ (EmptyFrom s (w - 1) c' ∧ w ≠ 0) ∨ (r = .error .EAGAIN ∧ EmptyFrom s 0 c' ∧ c'.out = none ∧ c'.cachedError = none ∧ (layered s c' = true → c'.cache = none))) := by
  unfold drainPicture at hs
  have hl := drainLoop_empty (env := env) s.nFc hn false hw
  generalize drainLoop s env s.nFc c false = z at hl hs
  cases z with
  | undef => cases hs
  | next _ _ => cases hs
  | done c1 x =>
    cases hs
    obtain ⟨d, hne⟩ := hl
    exact ⟨d.next, d.input, d.cached.trans hce, Or.inr (Or.inl ⟨d.empty, hne⟩)⟩
  | stop c1 =>
    obtain ⟨_, a2, a3⟩ := hl
    have d := a2 rfl (by omega)
    dsimp only at hs
    obtain ⟨g1, g2, g3, g4, g5⟩ := outputReady_fields s c1 true
    have gw := outputReady_weight s c1 true
    have g6 := outputReady_cached s c1 true
    generalize hor : outputReady s c1 true = v at hs g1 g2 g3 g4 g5 g6 gw
    obtain ⟨b, c2⟩ := v
    dsimp only at g1 g2 g3 g4 g5 g6 gw
    have hE : EmptyFrom s (w - 1) c2 := emptyFrom_congr g1 g2 d.empty
    by_cases hw0 : w = 0
    · subst hw0
      obtain ⟨b1, b2, b3⟩ := a3 rfl
      have hwc : weight c1 = weight c := by unfold weight; rw [b1, b2, b3, d.drain]
      cases b with
      | true =>
        obtain ⟨f1, f2, f3, f4, f5, f6⟩ := outputImage_fields hs
        have fw := outputImage_weight hs
        dsimp only at f1 f2 f3 f4 f5 f6 fw
        exact ⟨by rw [f1, g1]; exact d.next, by rw [f3, g3]; exact d.input, by rw [f6, g6, d.cached]; exact hce, Or.inl ⟨emptyFrom_congr f1 f2 hE, by omega⟩⟩
      | false =>
        cases hs
        have hc1o : c1.out = none := b1.trans ho
        have hc1e : c1.cachedError = none := b3.trans hce
        have key : c' = c1 ∧ (layered s c1 = true → c1.cache = none) := by
          unfold outputReady at hor
          rw [hc1e, hc1o] at hor
          simp only [Option.isSome_none, Bool.false_eq_true, if_false] at hor
          split at hor
          · split at hor
            · rename_i h _; cases h
            · cases hor
            · rename_i h _; cases h
            · rename_i hk; cases hor; exact ⟨rfl, fun _ => hk⟩
          · rename_i h; cases hor; exact ⟨rfl, fun h' => absurd h' h⟩
        obtain ⟨rfl, hk⟩ := key
        exact ⟨d.next, d.input, hc1e, Or.inr (Or.inr ⟨rfl, hE, hc1o, hc1e, hk⟩)⟩
    · cases b with
      | true =>
        obtain ⟨f1, f2, f3, f4, f5, f6⟩ := outputImage_fields hs
        dsimp only at f1 f2 f3 f4 f5 f6
        exact ⟨by rw [f1, g1]; exact d.next, by rw [f3, g3]; exact d.input, by rw [f6, g6, d.cached]; exact hce, Or.inr (Or.inl ⟨emptyFrom_congr f1 f2 hE, hw0⟩)⟩
      | false =>
        cases hs
        exact ⟨by rw [g1]; exact d.next, by rw [g3]; exact d.input, by rw [g6, d.cached]; exact hce, Or.inr (Or.inl ⟨hE, hw0⟩)⟩

/-- One call of dav1d_get_picture consumes data, or takes out a picture or an error, or goes on in the ring, or nothing is held. -/
theorem getPicture_measure {s : Settings} {env : Env κ} {c : Dec κ} (hi : InvN s env c) {w : Nat} (hw : EmptyFrom s w c) {c' r} (hs : getPicture s env c = some (c', r)) :
    InvN s env c' ∧ (heldLen c' < heldLen c ∨
      (heldLen c' = heldLen c ∧ EmptyFrom s w c' ∧ weight c' < weight c) ∨
      (heldLen c' = heldLen c ∧ EmptyFrom s (w - 1) c' ∧ w ≠ 0) ∨
      (Silent s c' ∧ r = .error .EAGAIN)) := by
  obtain ⟨x, hx, hix, _⟩ := hi.inv.getPicture
  rw [hs] at hx
  cases hx
  dsimp only at hix
  unfold getPicture at hs
  dsimp only at hs
  have hi0 : Inv s env { c with drain := true } :=
    ⟨hi.inv.seq, hi.inv.op, hi.inv.refs, hi.inv.hdr, hi.inv.limit, hi.inv.hdrFor, hi.inv.cover, hi.inv.decoded, hi.inv.out, hi.inv.cache, hi.inv.sync, hi.inv.pics, hi.inv.skipped, hi.inv.slots, hi.inv.input⟩
  have hw0 : weight { c with drain := true } ≤ weight c := by
    unfold weight; dsimp only; cases c.drain <;> simp
  have hn0 : Pos s env { c with drain := true } := hi.pos.congr rfl rfl
  have hh0 : heldLen { c with drain := true } = heldLen c := rfl
  have hdr : c.drain = false → weight { c with drain := true } < weight c := by
    intro h; unfold weight; dsimp only; rw [h]; simp
  have hW : EmptyFrom s w { c with drain := true } := hw
  generalize { c with drain := true } = c0 at hi0 hw0 hn0 hh0 hdr hW hs
  -- the rest of the call, once gen_picture left c1 without output ready
  have rest : ∀ c1 : Dec κ, Inv s env c1 → Pos s env c1 → (match c1.cachedError with
      | some e => some ({ c1 with cachedError := none }, .error e)
      | none =>
        match outputReady s c1 (s.nFc == 1) with
        | (true, c) => outputImage s env c
        | (false, c') =>
          if s.nFc > 1 ∧ c.drain = true then drainPicture s env c'
          else some (c', .error .EAGAIN)) = some (c', r) → Pos s env c' ∧ c'.input = c1.input := by
    intro c1 hi1 hn1 hs
    cases hce : c1.cachedError with
    | some e => rw [hce] at hs; cases hs; exact ⟨⟨hn1.next, fun _ h => (by cases h), fun _ => rfl⟩, rfl⟩
    | none =>
      rw [hce] at hs
      dsimp only at hs
      obtain ⟨g1, g2, g3, g4, g5⟩ := outputReady_fields s c1 (s.nFc == 1)
      rcases hi1.outputReady (s.nFc == 1) with ⟨a1, a2, a3, a4⟩ | ⟨a1, a2⟩
      · generalize outputReady s c1 (s.nFc == 1) = v at hs g1 g2 g3 g4 g5 a1 a2 a3 a4
        obtain ⟨b, c2⟩ := v
        dsimp only at g1 g2 g3 g4 g5 a1 a2 a3 a4
        subst a1
        dsimp only at hs
        split at hs
        · rename_i h
          have := drainPicture_measure (s := s) (c := c2) (by rw [g1]; exact hn1.next) (by omega) a3 a4 (emptyFrom_nFc s c2) hs
          exact ⟨⟨this.1, (by rw [this.2.2.1]; intro _ h; cases h), fun _ => this.2.2.1⟩, by rw [this.2.1, g3]⟩
        · cases hs; exact ⟨⟨by rw [g1]; exact hn1.next, (by rw [a4]; intro _ h; cases h), fun _ => a4⟩, g3⟩
      · rw [a1] at hs
        obtain ⟨f1, f2, f3, f4, f5, f6⟩ := outputImage_fields hs
        dsimp only at f1 f3 f6
        exact ⟨hn1.congr f1 f6, f3⟩
  rcases hi0.outputReady false with ⟨a1, a2, a3, a4⟩ | ⟨a1, a2⟩
  · obtain ⟨g1, g2, g3, g4, g5⟩ := outputReady_fields s c0 false
    have gw := outputReady_weight s c0 false
    generalize hor : outputReady s c0 false = v at g1 g2 g3 g4 g5 gw a1 a2 a3 a4
    obtain ⟨b, c1⟩ := v
    dsimp only at g1 g2 g3 g4 g5 gw a1 a2 a3 a4
    subst a1
    have hn1 : Pos s env c1 := hn0.congr g1 (by rw [a4]; have := outputReady_cached s c0 false; rw [hor] at this; exact a4.symm.trans this)
    have hE1 : EmptyFrom s w c1 := emptyFrom_congr g1 g2 hW
    cases hin : c1.input with
    | some p =>
      have hgen : genPicture s env c0 = genLoop s env c1 p := by
        unfold genPicture; rw [hor]; dsimp only; rw [hin]
      rw [hgen] at hs
      obtain ⟨⟨c2, e⟩, e1, hi2⟩ := Inv.genLoop _ a2 a3 rfl (a2.input p hin)
      obtain ⟨b1, b2, b3⟩ := genLoop_next _ rfl a2 a3 (a2.input p hin) hn1 e1
      have hheld : heldLen c = p.data.length := by
        rw [← hh0]; unfold heldLen; rw [← g3, hin]; rfl
      have hless : ∀ x : Dec κ, x.input = c2.input → heldLen x < heldLen c := by
        intro x hx
        rw [hheld]; unfold heldLen; rw [hx]
        cases h : c2.input with
        | none => exact List.length_pos_iff.2 (a2.input p hin)
        | some y => exact b2 y h
      rw [e1] at hs
      cases e with
      | some e => cases hs; exact ⟨⟨hix, b1⟩, Or.inl (hless _ rfl)⟩
      | none =>
        have := rest c2 hi2 b1 hs
        exact ⟨⟨hix, this.1⟩, Or.inl (hless _ this.2)⟩
    | none =>
      have hgen : genPicture s env c0 = some (c1, none) := by
        unfold genPicture; rw [hor]; dsimp only; rw [hin]
      rw [hgen] at hs
      dsimp only at hs
      have hb := rest c1 a2 hn1 hs
      have hheld : heldLen c' = heldLen c := by
        rw [← hh0]; unfold heldLen; rw [hb.2, g3]
      refine ⟨⟨hix, hb.1⟩, ?_⟩
      rw [a4] at hs
      dsimp only at hs
      obtain ⟨i1, i2⟩ := outputReady_idem hor (s.nFc == 1)
      generalize outputReady s c1 (s.nFc == 1) = v at hs i1 i2
      obtain ⟨b, c2⟩ := v
      dsimp only at i1 i2
      subst i2
      cases b with
      | true =>
        obtain ⟨f1, f2, f3, f4, f5, f6⟩ := outputImage_fields hs
        have fw := outputImage_weight hs
        dsimp only at f1 f2 f3 f4 f5 fw
        exact Or.inr (Or.inl ⟨hheld, emptyFrom_congr f1 f2 hE1, by omega⟩)
      | false =>
        dsimp only at hs
        split at hs
        · rename_i hc
          rcases (drainPicture_measure hn1.next (by omega) a3 a4 hE1 hs).2.2.2 with ⟨m1, m2⟩ | ⟨m1, m2⟩ | ⟨m1, m2, m3, m4, m5⟩
          · exact Or.inr (Or.inl ⟨hheld, m1, by omega⟩)
          · exact Or.inr (Or.inr (Or.inl ⟨hheld, m1, m2⟩))
          · exact Or.inr (Or.inr (Or.inr ⟨⟨by rw [hb.2]; exact hin, m3, m4, m5, fun _ => m2⟩, m1⟩))
        · rename_i hc
          cases hs
          by_cases h1 : s.nFc = 1
          · refine Or.inr (Or.inr (Or.inr ⟨⟨hin, a3, a4, fun hl => ?_, fun h => absurd h1 h⟩, rfl⟩))
            rw [h1, hl] at i1
            simpa using i1
          · have hd : c.drain = false := by
              cases h : c.drain with
              | false => rfl
              | true => exact absurd ⟨by have := hn1.next; omega, h⟩ hc
            exact Or.inr (Or.inl ⟨hheld, hE1, by have := hdr hd; omega⟩)
  · have hgen : genPicture s env c0 = some (c0, none) := by
      unfold genPicture; rw [a1]
    rw [hgen] at hs
    dsimp only at hs
    have hb := rest c0 hi0 hn0 hs
    have hheld : heldLen c' = heldLen c := by
      rw [← hh0]; unfold heldLen; rw [hb.2]
    refine ⟨⟨hix, hb.1⟩, Or.inr (Or.inl ⟨hheld, ?_⟩)⟩
    cases hce : c0.cachedError with
    | some e =>
      rw [hce] at hs
      cases hs
      refine ⟨hW, Nat.lt_of_lt_of_le ?_ hw0⟩
      unfold weight; dsimp only; rw [hce]; simp
    | none =>
      rw [hce] at hs
      dsimp only at hs
      rw [outputReady_true a1] at hs
      obtain ⟨f1, f2, f3, f4, f5, f6⟩ := outputImage_fields hs
      have fw := outputImage_weight hs
      dsimp only at f1 f2 f3 f4 f5 fw
      exact ⟨emptyFrom_congr f1 f2 hW, by omega⟩

theorem genPicture_pos {s : Settings} {env : Env κ} {c : Dec κ} (hi : InvN s env c) {c' e} (hs : genPicture s env c = some (c', e)) : InvN s env c' := by
  obtain ⟨x, hx, hix⟩ := hi.inv.genPicture
  rw [hs] at hx
  cases hx
  refine ⟨hix, ?_⟩
  unfold genPicture at hs
  have hps := outputReady_pos false hi.pos
  rcases hi.inv.outputReady false with ⟨a1, a2, a3, _⟩ | ⟨a1, _⟩
  · generalize Dav1d.outputReady s _ false = r at a1 a2 a3 hs hps
    obtain ⟨b, d⟩ := r
    simp only at a1 a2 a3; subst a1
    simp only at hs
    split at hs
    · cases hs; exact hps
    · rename_i p hp
      exact (genLoop_next _ rfl a2 a3 (a2.input p hp) hps hs).1
  · rw [a1] at hs; cases hs; exact hi.pos

theorem call_pos {s : Settings} {env : Env κ} {c : Dec κ} (hi : InvN s env c) {a : Call} {c' r} (hs : call s env c a = some (c', r)) : InvN s env c' := by
  cases a with
  | events =>
    cases hs
    exact ⟨⟨hi.inv.seq, hi.inv.op, hi.inv.refs, hi.inv.hdr, hi.inv.limit, hi.inv.hdrFor, hi.inv.cover, hi.inv.decoded, hi.inv.out, hi.inv.cache, hi.inv.sync, hi.inv.pics, hi.inv.skipped, hi.inv.slots, hi.inv.input⟩, hi.pos.congr rfl rfl⟩
  | errorProps =>
    cases hs
    exact ⟨⟨hi.inv.seq, hi.inv.op, hi.inv.refs, hi.inv.hdr, hi.inv.limit, hi.inv.hdrFor, hi.inv.cover, hi.inv.decoded, hi.inv.out, hi.inv.cache, hi.inv.sync, hi.inv.pics, hi.inv.skipped, hi.inv.slots, hi.inv.input⟩, hi.pos.congr rfl rfl⟩
  | flush =>
    cases hs
    refine ⟨hi.inv.flush, ⟨?_, fun _ h => (by cases h), fun _ => rfl⟩⟩
    have := hi.pos.next
    show (if s.nFc > 1 then 0 else c.next) < _
    split <;> omega
  | get =>
    simp only [call, Option.map_eq_some_iff] at hs
    obtain ⟨⟨c1, r1⟩, h1, h2⟩ := hs
    cases h2
    exact (getPicture_measure hi (emptyFrom_nFc s c) h1).1
  | send p =>
    simp only [call, Option.map_eq_some_iff] at hs
    obtain ⟨x, h1, h2⟩ := hs
    obtain ⟨y, hy, hiy⟩ := hi.inv.sendData p
    rw [h1] at hy
    cases hy
    cases h2
    refine ⟨hiy, ?_⟩
    unfold sendData at h1
    split at h1
    · cases h1; exact hi.pos
    · rename_i hv
      have hi2 : InvN s env (if p.isSome = true then { c with drain := false } else c) := by
        split
        · exact ⟨⟨hi.inv.seq, hi.inv.op, hi.inv.refs, hi.inv.hdr, hi.inv.limit, hi.inv.hdrFor, hi.inv.cover, hi.inv.decoded, hi.inv.out, hi.inv.cache, hi.inv.sync, hi.inv.pics, hi.inv.skipped, hi.inv.slots, hi.inv.input⟩, hi.pos.congr rfl rfl⟩
        · exact hi
      generalize (if p.isSome = true then { c with drain := false } else c : Dec κ) = c1 at hi2 h1
      dsimp only at h1
      split at h1
      · cases h1; exact hi2.pos
      · have hi3 : InvN s env { c1 with input := p } := ⟨hi2.inv.setInput p (fun x hx h0 => hv (by rw [hx]; simp [h0])), hi2.pos.congr rfl rfl⟩
        split at h1
        · cases h1
        · rename_i h; cases h1; exact (genPicture_pos hi3 h).pos
        · rename_i h; cases h1; exact (genPicture_pos hi3 h).pos

theorem session_pos {s : Settings} {env : Env κ} (l : List Call) : ∀ {c : Dec κ}, InvN s env c → ∀ {c' rs}, session s env c l = some (c', rs) → InvN s env c' := by
  induction l with
  | nil => intro c hi c' rs hs; cases hs; exact hi
  | cons a l ih =>
    intro c hi c' rs hs
    unfold session at hs
    split at hs
    · cases hs
    · rename_i c1 r h1
      rw [Option.map_eq_some_iff] at hs
      obtain ⟨x, h2, h3⟩ := hs
      cases h3
      exact ih (call_pos hi h1) h2

theorem Reachable.invN {s : Settings} {env : Env κ} {c : Dec κ} (h : Reachable s env c) (hf : 0 < s.nFc) : InvN s env c := by
  obtain ⟨l, r, h⟩ := h
  exact session_pos l ⟨Inv.init s env, ⟨hf, fun _ h => (by cases h), fun _ => rfl⟩⟩ h

/-- A number of dav1d_get_picture calls. -/
def gets (n : Nat) : List Call := List.replicate n .get

theorem gets_settle {s : Settings} {env : Env κ} (n : Nat) : ∀ (w m : Nat) {c : Dec κ}, InvN s env c → heldLen c ≤ n → EmptyFrom s w c → weight c ≤ m →
    ∃ k c' rs, session s env c (gets k) = some (c', rs) ∧ Silent s c' := by
  induction n using Nat.strong_induction_on with
  | _ n ihn =>
  intro w
  induction w using Nat.strong_induction_on with
  | _ w ihw =>
  intro m
  induction m using Nat.strong_induction_on with
  | _ m ihm =>
  intro c hi hn hw hm
  obtain ⟨⟨c1, r⟩, h1, _⟩ := hi.inv.getPicture
  have cons : (∃ k c' rs, session s env c1 (gets k) = some (c', rs) ∧ Silent s c') → ∃ k c' rs, session s env c (gets k) = some (c', rs) ∧ Silent s c' := by
    rintro ⟨k, c', rs, h2, h3⟩
    refine ⟨k + 1, c', .got r :: rs, ?_, h3⟩
    show session s env c (.get :: gets k) = _
    simp only [session, call, h1, Option.map_some, h2]
  obtain ⟨hi1, h⟩ := getPicture_measure hi hw h1
  rcases h with h | ⟨h, h2, h3⟩ | ⟨h, h2, h3⟩ | ⟨h, _⟩
  · exact cons (ihn (heldLen c1) (by omega) s.nFc (weight c1) hi1 (Nat.le_refl _) (emptyFrom_nFc s c1) (Nat.le_refl _))
  · exact cons (ihm (weight c1) (by omega) hi1 (by omega) h2 (Nat.le_refl _))
  · exact cons (ihw (w - 1) (by omega) (weight c1) hi1 (by omega) h2 (Nat.le_refl _))
  · exact cons ⟨0, c1, [], rfl, h⟩

theorem silent_get {s : Settings} {env : Env κ} {c : Dec κ} (hi : InvN s env c) (hq : Silent s c) :
    ∃ c', getPicture s env c = some (c', .error .EAGAIN) ∧ Silent s c' := by
  obtain ⟨⟨c', r⟩, h1, _⟩ := hi.inv.getPicture
  refine ⟨c', ?_⟩
  have hq0 : Silent s { c with drain := true } := ⟨hq.input, hq.out, hq.cachedError, hq.cache, hq.ring⟩
  have hp0 : ({ c with drain := true } : Dec κ).next < s.nFc := hi.pos.next
  unfold getPicture at h1 ⊢
  dsimp only at h1 ⊢
  generalize ({ c with drain := true } : Dec κ) = c0 at hq0 hp0 h1 ⊢
  have hor : ∀ b, outputReady s c0 b = (false, c0) := by
    intro b
    unfold outputReady
    rw [hq0.cachedError, hq0.out]
    simp only [Option.isSome_none, Bool.false_eq_true, if_false]
    split
    · rename_i hl
      rw [hq0.cache hl]
    · rfl
  have hgen : genPicture s env c0 = some (c0, none) := by
    unfold genPicture
    rw [hor]
    dsimp only
    rw [hq0.input]
  rw [hgen] at h1 ⊢
  dsimp only at h1 ⊢
  rw [hq0.cachedError] at h1 ⊢
  dsimp only at h1 ⊢
  rw [hor] at h1 ⊢
  dsimp only at h1 ⊢
  split
  · rename_i hc
    rw [if_pos hc] at h1
    obtain ⟨m1, m2, m3, m4⟩ := drainPicture_measure hp0 (by omega) hq0.out hq0.cachedError (hq0.ring (by omega)) h1
    unfold drainPicture at h1 ⊢
    have hl := drainLoop_empty (env := env) s.nFc hp0 false (hq0.ring (by omega))
    generalize drainLoop s env s.nFc c0 false = z at hl h1
    cases z with
    | undef => cases h1
    | next _ _ => cases h1
    | done c1 x => exact absurd rfl hl.2
    | stop c1 =>
      obtain ⟨d, _, a3⟩ := hl
      obtain ⟨b1, b2, b3⟩ := a3 rfl
      have hly : layered s c1 = true → layered s c0 = true := by
        intro hl; unfold layered at hl ⊢; rw [← d.spatial]; exact hl
      have h5 : outputReady s c1 true = (false, c1) := by
        unfold outputReady
        rw [b3, b1, hq0.cachedError, hq0.out]
        simp only [Option.isSome_none, Bool.false_eq_true, if_false]
        split
        · rename_i hl
          rw [show c1.cache = none from b2.trans (hq0.cache (hly hl))]
        · rfl
      dsimp only at h1 ⊢
      rw [h5] at h1 ⊢
      cases h1
      exact ⟨rfl, ⟨m2.trans hq0.input, b1.trans hq0.out, b3.trans hq0.cachedError, fun hl => b2.trans (hq0.cache (hly hl)), fun _ => d.empty⟩⟩
  · rename_i hc
    rw [if_neg hc] at h1
    cases h1
    exact ⟨rfl, hq0⟩

theorem silent_gets {s : Settings} {env : Env κ} (m : Nat) : ∀ {c : Dec κ}, InvN s env c → Silent s c →
    ∃ c', session s env c (gets m) = some (c', List.replicate m (.got (.error .EAGAIN))) ∧ Silent s c' := by
  induction m with
  | zero => intro c _ h; exact ⟨c, rfl, h⟩
  | succ m ih =>
    intro c hi hq
    obtain ⟨c1, h1, h2⟩ := silent_get hi hq
    have hi1 := (getPicture_measure hi (emptyFrom_nFc s c) h1).1
    obtain ⟨c2, h3, h4⟩ := ih hi1 h2
    refine ⟨c2, ?_, h4⟩
    show session s env c (.get :: gets m) = _
    simp only [session, call, h1, Option.map_some, h3, List.replicate_succ]

/-- If dav1d_get_picture answers EAGAIN, no data is held any more. -/
theorem get_again_input {s : Settings} {env : Env κ} (hna : NoAgain env) {c : Dec κ} (hi : InvN s env c) {c'} (hs : getPicture s env c = some (c', .error .EAGAIN)) : c'.input = none := by
  unfold getPicture at hs
  dsimp only at hs
  have hi0 : InvN s env { c with drain := true } :=
    ⟨⟨hi.inv.seq, hi.inv.op, hi.inv.refs, hi.inv.hdr, hi.inv.limit, hi.inv.hdrFor, hi.inv.cover, hi.inv.decoded, hi.inv.out, hi.inv.cache, hi.inv.sync, hi.inv.pics, hi.inv.skipped, hi.inv.slots, hi.inv.input⟩, hi.pos.congr rfl rfl⟩
  generalize ({ c with drain := true } : Dec κ) = c0 at hi0 hs
  obtain ⟨⟨c1, e⟩, hg, _⟩ := hi0.inv.genPicture
  have hi1 : InvN s env c1 := genPicture_pos hi0 hg
  have hr : e = none → (outputReady s c1 false).1 = true ∨ c1.input = none := by
    have hg := hg
    unfold genPicture at hg
    rcases hi0.inv.outputReady false with ⟨a1, a2, a3, _⟩ | ⟨a1, _⟩
    · have hps := outputReady_pos (env := env) false hi0.pos
      generalize Dav1d.outputReady s c0 false = r at a1 a2 a3 hg hps
      obtain ⟨b, d⟩ := r
      simp only at a1 a2 a3; subst a1
      simp only at hg
      split at hg
      · rename_i hn; cases hg; exact fun _ => Or.inr hn
      · rename_i p hp
        exact (genLoop_next _ rfl a2 a3 (a2.input p hp) hps hg).2.2
    · rw [a1] at hg; cases hg; intro _; rw [a1]; exact Or.inl rfl
  rw [hg] at hs
  cases e with
  | some e => cases hs; exact absurd rfl (genPicture_again hna hi0.inv hg)
  | none =>
    dsimp only at hs
    cases hce : c1.cachedError with
    | some e =>
      rw [hce] at hs
      cases hs
      obtain ⟨f, hf⟩ := hi1.pos.cached _ hce
      exact absurd hf (hna.1 f)
    | none =>
      rw [hce] at hs
      dsimp only at hs
      rcases hi1.inv.outputReady false with ⟨a1, a2, a3, _⟩ | ⟨a1, _⟩
      · have hin : c1.input = none := by
          rcases hr rfl with h | h
          · rw [a1] at h; cases h
          · exact h
        obtain ⟨g1, g2, g3, g4, g5⟩ := outputReady_fields s c1 (s.nFc == 1)
        rcases hi1.inv.outputReady (s.nFc == 1) with ⟨k1, k2, k3, k4⟩ | ⟨k1, k2⟩
        · generalize outputReady s c1 (s.nFc == 1) = v at hs g1 g2 g3 g4 g5 k1 k2 k3 k4
          obtain ⟨b, c2⟩ := v
          dsimp only at g1 g2 g3 g4 g5 k1 k2 k3 k4
          subst k1
          dsimp only at hs
          split at hs
          · have := drainPicture_measure (s := s) (c := c2) (by rw [g1]; exact hi1.pos.next) (by omega) k3 k4 (emptyFrom_nFc s c2) hs
            rw [this.2.1, g3]; exact hin
          · cases hs; rw [g3]; exact hin
        · rw [k1] at hs
          obtain ⟨f1, f2, f3, f4, f5, f6⟩ := outputImage_fields hs
          exact f3.trans hin
      · rw [outputReady_true a1] at hs
        exfalso
        dsimp only at hs
        unfold outputImage at hs
        repeat' split at hs
        all_goals first | cases hs; done | skip
        · rename_i _ p hp
          have hf := finishPic_again (s := s) hna (hi1.inv.cache p hp).1
          have := congrArg Prod.snd (Option.some.inj hs)
          exact hf this
        · rename_i _ p hp
          have hf := finishPic_again (s := s) hna (hi1.inv.out p hp).1
          have := congrArg Prod.snd (Option.some.inj hs)
          exact hf this

/-- While draining, an EAGAIN goes on in the ring. -/
theorem get_again_empty {s : Settings} {env : Env κ} (hna : NoAgain env) (hl : s.allLayers = true) (h1 : s.nFc ≠ 1) {c : Dec κ} (hst : InStep s env c) (hin : c.input = none)
    (hout : c.out = none) (hd : c.drain = true) {k : Nat} (hk : EmptyFrom s k c) {c'} (hs : getPicture s env c = some (c', .error .EAGAIN)) :
    c'.drain = true ∧ EmptyFrom s (k - 1) c' := by
  unfold getPicture at hs
  dsimp only at hs
  rw [show ({ c with drain := true } : Dec κ) = c by rw [← hd], hd] at hs
  have hgen : genPicture s env c = some (c, none) := by
    unfold genPicture
    rw [outputReady_all hl hst.clean.cachedError, hout]
    dsimp only [Option.isSome_none]
    rw [hin]
  have hpos : s.nFc > 1 := by have := hst.clean.next h1; omega
  rw [hgen] at hs
  dsimp only at hs
  rw [hst.clean.cachedError] at hs
  dsimp only at hs
  rw [outputReady_all hl hst.clean.cachedError, hout] at hs
  dsimp only [Option.isSome_none] at hs
  rw [if_pos ⟨hpos, rfl⟩] at hs
  unfold drainPicture at hs
  have hle := drainLoop_empty (env := env) s.nFc (hst.clean.next h1) false hk
  rcases drainLoop_seq (env := env) hl h1 s.nFc hst.clean hout false with ⟨c1, e, q, h⟩ | ⟨c1, p, e, q, h, hp⟩
  · rw [e] at hs hle
    dsimp only at hs hle
    rw [outputReady_all hl q.clean.cachedError, h] at hs
    cases hs
    have := hle.2.1 rfl (by omega)
    exact ⟨this.drain.trans hd, this.empty⟩
  · rw [e] at hs
    have := congrArg Prod.snd (Option.some.inj hs)
    exact absurd this (finishPic_again hna hp)

/-- All frame contexts are empty. -/
theorem pend_empty {s : Settings} {c : Dec κ} (hout : c.out = none) (h : s.nFc ≠ 1 → EmptyFrom s 0 c) : pend s c = [] := by
  unfold pend
  rw [hout]
  split
  · rfl
  · rename_i h1
    have h := h h1
    rw [List.filterMap_eq_nil_iff.2]
    · rfl
    · intro sl hsl
      have := h sl hsl
      unfold Slot.busy at this
      simp only [Bool.or_eq_false_iff, Option.isSome_eq_false_iff, Option.isNone_iff_eq_none] at this
      unfold Slot.toShow
      rw [this.1]
      rfl

theorem getPicture_drain {s : Settings} {env : Env κ} (hna : NoAgain env) (hl : s.allLayers = true) {c : Dec κ} (hst : InStep s env c) (good : Good s (todo s env c).2) {c'}
    (hs : getPicture s env c = some (c', .error .EAGAIN)) : c'.out = none ∧ c'.input = none ∧ InStep s env c' ∧ Good s (todo s env c').2 := by
  obtain ⟨c1, r, e, hi, hc, h⟩ := getPicture_seq hna hl hst good
  rw [hs] at e
  cases e
  rcases h with ⟨_, h2, h3, h4⟩ | ⟨p, h2, h3, _⟩ | ⟨e, _, h2, h3, _⟩
  · exact ⟨h2, h3, hi, good_congr h4 good⟩
  · exact absurd h2.symm (finishPic_again hna h3)
  · cases h2; exact absurd rfl h3

theorem get_idle_drain {s : Settings} {env : Env κ} (hl : s.allLayers = true) {c : Dec κ} (hst : InStep s env c) (hin : c.input = none)
    (hout : c.out = none) {c' r} (hs : getPicture s env c = some (c', r)) : c'.drain = true := by
  have hn : s.nFc ≠ 1 → c.next < s.nFc := hst.clean.next
  unfold getPicture at hs
  dsimp only at hs
  have h0 : ({ c with drain := true } : Dec κ).cachedError = none ∧ ({ c with drain := true } : Dec κ).out = none ∧ ({ c with drain := true } : Dec κ).input = none ∧
      (s.nFc ≠ 1 → ({ c with drain := true } : Dec κ).next < s.nFc) ∧ ({ c with drain := true } : Dec κ).drain = true := ⟨hst.clean.cachedError, hout, hin, hn, rfl⟩
  generalize ({ c with drain := true } : Dec κ) = c0 at h0 hs
  obtain ⟨a1, a2, a3, a4, a5⟩ := h0
  have hgen : genPicture s env c0 = some (c0, none) := by
    unfold genPicture
    rw [outputReady_all hl a1, a2]
    dsimp only [Option.isSome_none]
    rw [a3]
  rw [hgen] at hs
  dsimp only at hs
  rw [a1] at hs
  dsimp only at hs
  rw [outputReady_all hl a1, a2] at hs
  dsimp only [Option.isSome_none] at hs
  split at hs
  · rename_i hc
    unfold drainPicture at hs
    have hle := drainLoop_empty (env := env) s.nFc (a4 (by omega)) false (emptyFrom_nFc s c0)
    generalize drainLoop s env s.nFc c0 false = z at hs hle
    cases z with
    | undef => cases hs
    | next _ _ => cases hs
    | done c1 x => cases hs; exact hle.1.drain.trans a5
    | stop c1 =>
      dsimp only at hs
      have hf := outputReady_fields s c1 true
      generalize outputReady s c1 true = v at hs hf
      obtain ⟨b, c2⟩ := v
      cases b with
      | true => exact (outputImage_fields hs).2.2.2.1.trans (hf.2.2.2.1.trans (hle.1.drain.trans a5))
      | false => cases hs; exact hf.2.2.2.1.trans (hle.1.drain.trans a5)
  · cases hs; exact a5

theorem gets_again_ring {s : Settings} {env : Env κ} (hna : NoAgain env) (hl : s.allLayers = true) (h1 : s.nFc ≠ 1) (k : Nat) : ∀ {c : Dec κ}, InStep s env c → Good s (todo s env c).2 →
    c.input = none → c.out = none → c.drain = true → EmptyFrom s k c → ∀ {c'}, session s env c (gets k) = some (c', List.replicate k (.got (.error .EAGAIN))) → EmptyFrom s 0 c' := by
  induction k with
  | zero => intro c _ _ _ _ _ h c' hs; cases hs; exact h
  | succ k ih =>
    intro c hst good hin hout hd hk c' hs
    change session s env c (.get :: gets k) = _ at hs
    unfold session at hs
    split at hs
    · cases hs
    · rename_i c1 r hc
      rw [Option.map_eq_some_iff] at hs
      obtain ⟨⟨c2, rs⟩, h2, h3⟩ := hs
      simp only [List.replicate_succ, Prod.mk.injEq, List.cons.injEq] at h3
      obtain ⟨rfl, rfl, rfl⟩ := h3
      simp only [call, Option.map_eq_some_iff] at hc
      obtain ⟨⟨c3, r3⟩, h4, h5⟩ := hc
      cases h5
      obtain ⟨k1, k2, k3, k4⟩ := getPicture_drain hna hl hst good h4
      obtain ⟨k5, k6⟩ := get_again_empty hna hl h1 hst hin hout hd hk h4
      exact ih k3 k4 k2 k1 k5 k6 h2

/-- After `n_fc + 2` answers EAGAIN in a row nothing is pending. -/
theorem gets_again_todo {s : Settings} {env : Env κ} (hna : NoAgain env) (hl : s.allLayers = true) {c : Dec κ} (hst : InStep s env c) (good : Good s (todo s env c).2) {c'}
    (hs : session s env c (gets (s.nFc + 2)) = some (c', List.replicate (s.nFc + 2) (.got (.error .EAGAIN)))) : (todo s env c').2 = [] := by
  have cons : ∀ (k : Nat) {c : Dec κ}, InStep s env c → Good s (todo s env c).2 → session s env c (gets (k + 1)) = some (c', List.replicate (k + 1) (.got (.error .EAGAIN))) →
      ∃ c1, getPicture s env c = some (c1, .error .EAGAIN) ∧ c1.out = none ∧ c1.input = none ∧ InStep s env c1 ∧ Good s (todo s env c1).2 ∧
        session s env c1 (gets k) = some (c', List.replicate k (.got (.error .EAGAIN))) := by
    intro k c hst good hs
    change session s env c (.get :: gets k) = _ at hs
    unfold session at hs
    split at hs
    · cases hs
    · rename_i c1 r hc
      rw [Option.map_eq_some_iff] at hs
      obtain ⟨⟨c2, rs⟩, h2, h3⟩ := hs
      simp only [List.replicate_succ, Prod.mk.injEq, List.cons.injEq] at h3
      obtain ⟨rfl, rfl, rfl⟩ := h3
      simp only [call, Option.map_eq_some_iff] at hc
      obtain ⟨⟨c3, r3⟩, h4, h5⟩ := hc
      cases h5
      obtain ⟨k1, k2, k3, k4⟩ := getPicture_drain hna hl hst good h4
      exact ⟨_, h4, k1, k2, k3, k4, h2⟩
  have fin : ∀ (k : Nat) {c : Dec κ}, InStep s env c → Good s (todo s env c).2 → c.out = none → c.input = none →
      session s env c (gets k) = some (c', List.replicate k (.got (.error .EAGAIN))) → c'.out = none ∧ c'.input = none := by
    intro k
    induction k with
    | zero => intro c _ _ h1 h2 hs; cases hs; exact ⟨h1, h2⟩
    | succ k ih =>
      intro c hst good h1 h2 hs
      obtain ⟨c1, _, a2, a3, a4, a5, a6⟩ := cons k hst good hs
      exact ih a4 a5 a2 a3 a6
  obtain ⟨c1, _, a2, a3, a4, a5, a6⟩ := cons _ hst good hs
  obtain ⟨f1, f2⟩ := fin _ a4 a5 a2 a3 a6
  obtain ⟨c2, b1, b2, b3, b4, b5, b6⟩ := cons _ a4 a5 a6
  have hd := get_idle_drain hl a4 a3 a2 b1
  have : pend s c' = [] := pend_empty f1 (fun h1 => gets_again_ring hna hl h1 s.nFc b4 b5 b3 b2 hd (emptyFrom_nFc s c2) b6)
  unfold todo
  rw [f2, this]
  rfl

/-- Without held data the frame contexts are what is left. -/
theorem todo_length {s : Settings} {env : Env κ} {c : Dec κ} (hin : c.input = none) (hout : c.out = none) : (todo s env c).2.length ≤ s.nFc := by
  unfold todo
  rw [hin]
  dsimp only
  rw [List.length_map]
  unfold pend
  rw [hout]
  split
  · simp
  · simp only [Option.toList_none, List.nil_append]
    exact Nat.le_trans (List.length_filterMap_le _ _) (by simp [slots])

end Dav1d
