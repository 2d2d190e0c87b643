import Verif.Api.SeqSim
import Verif.Api.ObuProps
/-!
# Whole packets and calls against the decoder without output queue
-/
namespace Dav1d
variable {κ : Type}

/-! ## What one OBU of the sequential decoder keeps -/

/-- The fields of the API part are those of a fresh context. -/
structure IsCore (d : Dec κ) : Prop where
  eq : put Dec.init d = d

theorem IsCore.core (c : Dec κ) : IsCore (core c) := ⟨rfl⟩
theorem IsCore.core_eq {d : Dec κ} (h : IsCore d) : Dav1d.core d = d := h.eq

theorem isCore_mapCase {s : Settings} {d : Dec κ} (h : IsCore d) (type t sp : Nat) (props : Props) (b : BitSt) {x}
    (hx : ((obuCase s d type t sp props).run b).1 = some x) : IsCore x.1 := by
  rw [← h.eq, obuCase_put] at hx
  unfold mapCase at hx
  generalize ((obuCase s d type t sp props).run b).1 = r at hx
  cases r with
  | none => cases hx
  | some y => cases hx; exact ⟨rfl⟩

theorem isCore_finish {s : Settings} {env : Env κ} {d : Dec κ} (h : IsCore d) (props : Props) {d' r}
    (hs : seqFinish s env d props = (d', r)) : IsCore d' := by
  rw [← h.eq] at hs
  unfold seqFinish seqShow seqSubmit at hs
  dsimp only at hs
  repeat' split at hs
  all_goals first
    | (cases hs; exact ⟨rfl⟩)

theorem picsOk_tile {c : Dec κ} {h props x} (hd : PicsOk c) (hs : TileStep c h props x) : PicsOk x.1 := by
  cases hs <;> exact hd

theorem picsOk_case {s : Settings} {c : Dec κ} {props x} (hd : PicsOk c) (hs : CaseStep s c props x) : PicsOk x.1 := by
  cases hs with
  | seq q hq =>
    unfold activateSeq
    dsimp only
    intro i p
    split
    · exact hd i p
    · split
      · show ((if i < 8 then {} else c.refs i : RefSlot κ)).p = _ → _
        split
        · intro h; cases h
        · exact hd i p
      · split <;> exact hd i p
  | frame q h x h1 h2 h3 h4 => exact picsOk_tile (c := { c with frameHdr := some (.frame h), tiles := [], nTiles := 0 }) hd h4
  | group h x h1 h2 => exact picsOk_tile hd h2
  | _ => exact hd

theorem picsOk_finish {s : Settings} {env : Env κ} {d : Dec κ} (hd : PicsOk d) (props : Props) {d' r}
    (hs : seqFinish s env d props = (d', r)) : PicsOk d' := by
  have hdrop : ∀ h : FrameHdr, ∀ i p, (dropRefs h d.refs i).p = .pic p → p.content.isOk = true := by
    intro h i p; unfold dropRefs; split
    · intro h; cases h
    · exact hd i p
  have hskip : ∀ h : FrameHdr, ∀ i p, (skipRefs h d.refs i).p = .pic p → p.content.isOk = true := by
    intro h i p; unfold skipRefs; split
    · intro h; cases h
    · exact hd i p
  have hkey : ∀ (j : Nat) (q : Pic κ), (d.refs j).p = .pic q → ∀ i p, (keyRefresh j q d.refs i).p = .pic p → p.content.isOk = true := by
    intro j q hq i p; unfold keyRefresh; split
    · intro h; cases h; exact hd j q hq
    · split
      · intro h; cases h; exact hd j q hq
      · exact hd i p
  have href : ∀ (h : FrameHdr) (q : Pic κ), q.content.isOk = true → ∀ i p, (refreshRefs h q d.refs i).p = .pic p → p.content.isOk = true := by
    intro h q hq i p; unfold refreshRefs; split
    · intro h; cases h; exact hq
    · exact hd i p
  unfold seqFinish seqShow seqSubmit at hs
  dsimp only at hs
  split at hs
  · split at hs
    · cases hs; exact hd
    · split at hs <;> cases hs <;> exact hd
    · rename_i q i x y hq hh p hp
      split at hs
      · cases hs; exact hd
      · split at hs
        · cases hs; exact hd
        · cases hs
          show ∀ i p, _ → _
          dsimp only
          split
          · exact hkey _ _ hp
          · exact hd
  · split at hs
    · split at hs
      · cases hs; exact hskip _
      · split at hs
        · cases hs; exact hd
        · split at hs
          · cases hs; exact hd
          · split at hs
            · cases hs; exact hd
            · split at hs
              · cases hs; exact hd
              · split at hs
                · cases hs; exact hd
                · split at hs
                  · cases hs; exact hdrop _
                  · rename_i hk
                    cases hs
                    exact href _ _ (by rw [hk]; rfl)
    · cases hs; exact hd
  · cases hs; exact hd

/-! ## One OBU -/

/-- The external stages never answer EAGAIN. -/
def NoAgain (env : Env κ) : Prop := (∀ f, env.dec f ≠ .error .EAGAIN) ∧ ∀ g k, env.grain g k ≠ .error .EAGAIN

theorem caseStep_again {s : Settings} {c : Dec κ} {props x} (hs : CaseStep s c props x) : x.2 ≠ some .EAGAIN := by
  cases hs with
  | same e h1 h2 => exact h2
  | dropHdr e h => simpa using h
  | frame q h x h1 h2 h3 h4 => cases h4 <;> simp
  | group h x h1 h4 => cases h4 <;> simp
  | _ => simp

/-- dav1d_submit_frame and what follows it never answer EAGAIN. -/
theorem finishObu_again {s : Settings} {env : Env κ} (hn : NoAgain env) {c : Dec κ} (props : Props) {c' e}
    (hs : finishObu s env c props = some (c', some e)) : e ≠ .EAGAIN := by
  have hsub : ∀ (c : Dec κ) q h c' e, submitFrame s env c q h props = some (c', some e) → e ≠ .EAGAIN := by
    intro c q h c' e hs
    unfold submitFrame at hs
    dsimp only at hs
    split at hs
    · cases hs
    · split at hs
      · unfold submitError at hs; split at hs <;> cases hs <;> simp
      · split at hs
        · unfold submitError at hs; split at hs <;> cases hs <;> simp
        · split at hs
          · unfold submitError at hs; dsimp only at hs; split at hs <;> cases hs <;> simp
          · split at hs
            · unfold submitError at hs; dsimp only at hs; split at hs <;> cases hs <;> simp
            · split at hs
              · unfold submitSync at hs
                split at hs
                · cases hs
                · split at hs
                  · unfold submitError at hs; dsimp only at hs; split at hs <;> cases hs <;> simp
                  · split at hs
                    · rename_i e' hk
                      unfold submitError at hs; dsimp only at hs
                      have hk' : env.dec _ = .error e' := hk
                      split at hs <;> cases hs <;> (intro h; rw [h] at hk'; exact hn.1 _ hk')
                    · cases hs
              · unfold submitAsync at hs
                split at hs
                · unfold submitError at hs; dsimp only at hs; split at hs <;> cases hs <;> simp
                · split at hs <;> cases hs
  unfold finishObu at hs
  split at hs
  · unfold showExisting at hs
    repeat' split at hs
    all_goals first | cases hs | skip
    all_goals simp
  · split at hs
    · unfold frameComplete at hs
      split at hs
      · cases hs
      · split at hs
        · cases hs; simp
        · split at hs
          · cases hs
          · rename_i h
            cases hs; exact hsub _ _ _ _ _ h
          · split at hs <;> cases hs <;> simp
    · cases hs
  · cases hs

theorem parseObus_again {s : Settings} {env : Env κ} (hn : NoAgain env) {c : Dec κ} (hi : Inv s env c) {pkt : Packet} (hp : pkt.data ≠ []) {c' e}
    (hs : parseObus s env c pkt = some (c', .error e)) : e ≠ .EAGAIN := by
  rw [parseObus_eq s env hi.ok pkt hp] at hs
  unfold stepObu at hs
  have hce : ∀ (c : Dec κ) x, e = x → x ≠ .EAGAIN → some (caseError c pkt.props x) = some (c', .error e) → e ≠ .EAGAIN := by
    intro c x h1 h2 _; rw [h1]; exact h2
  have hcase : ∀ (c : Dec κ) (x : Err), some (caseError c pkt.props x) = some (c', Except.error e) → e = x := by
    intro c x h
    have := congrArg (fun y => y.map (·.2)) h
    simp only [caseError, Option.map_some, Option.some.injEq, Except.error.injEq] at this
    exact this.symm
  cases hsp : splitObu pkt.data with
  | none => rw [hsp] at hs; rw [hcase _ _ hs]; simp
  | some x =>
    obtain ⟨o, rest⟩ := x
    rw [hsp] at hs
    dsimp only at hs
    split at hs
    · rw [hcase _ _ hs]; simp
    · split at hs
      · cases hs
      · obtain ⟨⟨c1, e1⟩, hx, hstep⟩ := obuCase_step (s := s) hi.ok o.type (obuHdrOf pkt.data).temporalId (obuHdrOf pkt.data).spatialId pkt.props o.payload
        have hag := caseStep_again hstep
        rw [hx] at hs
        cases e1 with
        | some e1 => 
          dsimp only at hs
          rw [hcase _ _ hs]
          intro h; exact hag (by rw [h])
        | none =>
          dsimp only at hs
          split at hs
          · cases hs
          · rename_i hf
            cases hs
            exact finishObu_again hn _ hf
          · cases hs

theorem genLoop_again {s : Settings} {env : Env κ} (hna : NoAgain env) (n : Nat) : ∀ {c : Dec κ} {pkt : Packet}, pkt.data.length = n → Inv s env c → c.out = none → pkt.data ≠ [] →
    ∀ {c' e}, genLoop s env c pkt = some (c', some e) → e ≠ .EAGAIN := by
  induction n using Nat.strong_induction_on with
  | _ n ih =>
  intro c pkt hn hi ho hp c' e hs
  rw [genLoop] at hs
  obtain ⟨⟨c1, r⟩, e1, hi1, hr⟩ := hi.parseObus ho hp
  rw [e1] at hs
  cases r with
  | error x =>
    dsimp only at hs
    have := parseObus_again hna hi hp e1
    split at hs <;> cases hs
    exact this
  | ok n =>
    dsimp only at hs
    have h0 := hr n rfl
    rw [dif_pos h0] at hs
    have h2 : Inv s env { c1 with input := pkt.advance n } := Inv.setInput hi1 _ advance_ne
    rcases h2.outputReady false with ⟨a1, a2, a3, _⟩ | ⟨a1, _⟩
    · generalize Dav1d.outputReady s _ false = r at a1 a2 a3 hs
      obtain ⟨b, d⟩ := r
      simp only at a1 a2 a3; subst a1
      simp only at hs
      split at hs
      · cases hs
      · refine ih (pkt.data.drop n).length (by rw [List.length_drop]; omega) (pkt := { pkt with data := pkt.data.drop n }) rfl a2 a3 ?_ hs
        show pkt.data.drop n ≠ []
        rw [Ne, List.drop_eq_nil_iff]; assumption
    · rw [a1] at hs; cases hs

theorem genPicture_again {s : Settings} {env : Env κ} (hna : NoAgain env) {c : Dec κ} (hi : Inv s env c) {c' e} (hs : genPicture s env c = some (c', some e)) : e ≠ .EAGAIN := by
  unfold genPicture at hs
  rcases hi.outputReady false with ⟨a1, a2, a3, _⟩ | ⟨a1, _⟩
  · generalize Dav1d.outputReady s _ false = r at a1 a2 a3 hs
    obtain ⟨b, d⟩ := r
    simp only at a1 a2 a3; subst a1
    simp only at hs
    split at hs
    · cases hs
    · rename_i p hp
      exact genLoop_again hna _ rfl a2 a3 (a2.input p hp) hs
  · rw [a1] at hs; cases hs

/-- A packet dav1d_send_data looks at. -/
def Packet.Valid (p : Packet) : Prop := p.data ≠ [] ∧ p.data.length < 2 ^ 63

theorem Packet.Valid.any {p : Packet} (hp : p.Valid) : (some p : Option Packet).any (fun p => p.data.isEmpty || decide (2 ^ 63 ≤ p.data.length)) = false := by
  have := hp.2
  simp [Option.any, hp.1]
  omega

theorem sendData_again {s : Settings} {env : Env κ} (hna : NoAgain env) {c : Dec κ} (hi : Inv s env c) {p : Packet} (hp : p.Valid) {x}
    (hs : sendData s env c (some p) = some x) : x.res = some .EAGAIN ↔ c.input.isSome = true := by
  unfold sendData at hs
  rw [hp.any] at hs
  simp only [Bool.false_eq_true, if_false, Option.isSome_some, if_true] at hs
  cases hin : c.input with
  | some q => rw [hin] at hs; cases hs; exact ⟨fun _ => rfl, fun _ => rfl⟩
  | none =>
    rw [hin] at hs
    simp only [Option.isSome_none, Bool.false_eq_true, if_false] at hs
    have hi2 : Inv s env { c with drain := false, input := some p } :=
      ⟨hi.seq, hi.op, hi.refs, hi.hdr, hi.limit, hi.hdrFor, hi.cover, hi.decoded, hi.out, hi.cache, hi.sync, hi.pics, hi.skipped, hi.slots, fun x hx => by cases hx; exact hp.1⟩
    obtain ⟨⟨c2, e⟩, e1, _⟩ := hi2.genPicture
    rw [e1] at hs
    cases e with
    | none => cases hs; simp
    | some e =>
      have := genPicture_again hna hi2 e1
      cases hs
      simp [this]

theorem finish_again {s : Settings} {env : Env κ} (hn : NoAgain env) {d : Dec κ} (props : Props) {d' r}
    (hs : seqFinish s env d props = (d', r)) : r ≠ .error .EAGAIN := by
  unfold seqFinish seqShow seqSubmit at hs
  dsimp only at hs
  split at hs
  · repeat' split at hs
    all_goals (cases hs; simp)
  · split at hs
    · split at hs
      · cases hs; simp
      · split at hs
        · cases hs; simp
        · split at hs
          · cases hs; simp
          · split at hs
            · cases hs; simp
            · split at hs
              · cases hs; simp
              · split at hs
                · cases hs; simp
                · split at hs
                  · rename_i e hk
                    cases hs
                    intro he
                    cases he
                    exact hn.1 _ hk
                  · cases hs; simp
    · cases hs; simp
  · cases hs; simp


/-- The picture of an OBU. -/
def picOf {α β : Type} : Except Err (Option α × β) → Option α
  | .ok (o, _) => o
  | .error _ => none

/-- The return value of dav1d_parse_obus. -/
def lenOf {α : Type} (n : Nat) : Except Err (α × List UInt8) → Except Err Nat
  | .ok (_, rest) => .ok (n - rest.length)
  | .error e => .error e

theorem caseError_put (a d : Dec κ) (props : Props) (e : Err) :
    ∃ a', caseError (put a d) props e = (put a' d, .error e) ∧ a'.out = a.out ∧ a'.ring = a.ring ∧ a'.next = a.next ∧ Keep a a' := by
  unfold caseError
  split
  · exact ⟨a, rfl, rfl, rfl, rfl, rfl, rfl, rfl⟩
  · exact ⟨{ a with errProps := some props }, rfl, rfl, rfl, rfl, rfl, rfl, rfl⟩

theorem pend_one {s : Settings} {a : Dec κ} (h1 : s.nFc = 1) : pend s a = a.out.toList := by
  unfold pend; rw [if_pos h1, List.append_nil]

theorem clean_one {s : Settings} {a : Dec κ} (h1 : s.nFc = 1) (h : a.cachedError = none) : Clean s a :=
  ⟨h, fun x => absurd h1 x, fun x => absurd h1 x⟩

/-- After an OBU: what the context is. -/
structure Stepped (s : Settings) (c a' d' : Dec κ) (o : Option (Pic κ)) : Prop where
  clean : Clean s a'
  keep : Keep c a'
  pend : (pend s a').map Pic.given = (Dav1d.pend s c ++ o.toList).map Pic.given
  core : IsCore d'
  pics : PicsOk d'

theorem obu_seq {s : Settings} {env : Env κ} (hna : NoAgain env) {c : Dec κ} (hi : Inv s env c) (hc : Clean s c) (hout : c.out = none) (hd : PicsOk c) {pkt : Packet}
    (hp : pkt.data ≠ []) {d' r} (hs : seqStep s env (core c) pkt = (d', r)) (good : s.nFc = 1 ∨ r.isOk = true) :
    ∃ a', parseObus s env c pkt = some (put a' d', lenOf pkt.data.length r) ∧ Stepped s c a' d' (picOf r) ∧
      (r.isOk = false → a'.out = none ∧ r ≠ .error .EAGAIN) ∧ (∀ o rest, r = .ok (o, rest) → rest.length < pkt.data.length ∧ rest = pkt.data.drop (pkt.data.length - rest.length)) := by
  rw [parseObus_eq s env hi.ok pkt hp]
  unfold seqStep at hs
  unfold stepObu
  have hcore := IsCore.core c
  have hclean : ∀ a' : Dec κ, a'.ring = c.ring → a'.next = c.next → Keep c a' → Clean s a' := by
    intro a' h1 h2 h3
    exact ⟨h3.cachedError.trans hc.cachedError, fun h => by rw [h2]; exact hc.next h, fun h i => by rw [h1]; exact hc.slot h i⟩
  have hpend : ∀ a' : Dec κ, a'.ring = c.ring → a'.next = c.next → a'.out = c.out → pend s a' = pend s c := by
    intro a' h1 h2 h3; unfold pend slots; rw [h1, h2, h3]
  cases hsp : splitObu pkt.data with
  | none =>
    rw [hsp] at hs
    cases hs
    obtain ⟨a', e, h1, h2, h3, h4⟩ := caseError_put c (core c) pkt.props .EINVAL
    exact ⟨a', congrArg some e, ⟨hclean a' h2 h3 h4, h4, by rw [hpend a' h2 h3 h1]; simp [picOf], hcore, hd⟩, fun _ => ⟨h1.trans hout, by simp⟩, fun _ _ h => by cases h⟩
  | some x =>
    obtain ⟨o, rest⟩ := x
    have hlen := splitObu_length hsp
    have hsuf : rest = pkt.data.drop (pkt.data.length - rest.length) := by
      obtain ⟨pre, hpre⟩ : ∃ pre, pre ++ rest = pkt.data := splitObu_suffix hsp
      rw [← hpre, List.length_append, Nat.add_sub_cancel, List.drop_left]
    rw [hsp] at hs
    dsimp only at hs ⊢
    split at hs
    · rename_i hf
      cases hs
      rw [if_pos hf]
      obtain ⟨a', e, h1, h2, h3, h4⟩ := caseError_put c (core c) pkt.props .EINVAL
      exact ⟨a', congrArg some e, ⟨hclean a' h2 h3 h4, h4, by rw [hpend a' h2 h3 h1]; simp [picOf], hcore, hd⟩, fun _ => ⟨h1.trans hout, by simp⟩, fun _ _ h => by cases h⟩
    rename_i hf
    rw [if_neg hf]
    rw [show (core c).opIdc = c.opIdc from rfl] at hs
    split at hs
    · rename_i hdr
      cases hs
      rw [if_pos hdr]
      exact ⟨c, rfl, ⟨hc, ⟨rfl, rfl, rfl⟩, by simp [picOf], hcore, hd⟩, fun h => (by cases h), fun _ _ h => (by cases h; exact ⟨hlen, hsuf⟩)⟩
    rename_i hdr
    rw [if_neg hdr]
    obtain ⟨⟨c1, e1⟩, hx, hstep⟩ := obuCase_step (s := s) hi.ok o.type (obuHdrOf pkt.data).temporalId (obuHdrOf pkt.data).spatialId pkt.props o.payload
    have hput := obuCase_put s c (core c) o.type (obuHdrOf pkt.data).temporalId (obuHdrOf pkt.data).spatialId pkt.props (BitSt.init o.payload)
    rw [put_core] at hput
    rw [hx]
    rw [hx] at hput
    have hcm := fun x => isCore_mapCase (x := x) (s := s) hcore o.type (obuHdrOf pkt.data).temporalId (obuHdrOf pkt.data).spatialId pkt.props (BitSt.init o.payload)
    generalize ((obuCase s (core c) o.type (obuHdrOf pkt.data).temporalId (obuHdrOf pkt.data).spatialId pkt.props).run (BitSt.init o.payload)).1 = y at hput hs hcm
    cases y with
    | none => cases hput
    | some y =>
      obtain ⟨d1, e2⟩ := y
      cases hput
      have hcd := hcm _ rfl
      have hpd : PicsOk d1 := picsOk_case hd hstep
      have hag := caseStep_again hstep
      cases e2 with
      | some e =>
        cases hs
        obtain ⟨a', e, h1, h2, h3, h4⟩ := caseError_put c d' pkt.props e
        exact ⟨a', congrArg some e, ⟨hclean a' h2 h3 h4, h4, by rw [hpend a' h2 h3 h1]; simp [picOf], hcd, hpd⟩, fun _ => ⟨h1.trans hout, fun h => hag (by cases h; rfl)⟩, fun _ _ h => by cases h⟩
      | none =>
        dsimp only at hs ⊢
        generalize hfin : seqFinish s env d1 pkt.props = z at hs
        obtain ⟨d2, r2⟩ := z
        have hcd2 := isCore_finish hcd _ hfin
        have hpd2 := picsOk_finish hpd _ hfin
        have hag2 := finish_again hna _ hfin
        cases r2 with
        | error e =>
          cases hs
          rcases good with h1 | h1
          · obtain ⟨a', e, ho, hk⟩ := finish_sync h1 hout _ hfin
            rw [e]
            exact ⟨a', rfl, ⟨clean_one h1 (hk.cachedError.trans hc.cachedError), hk, by rw [pend_one h1, pend_one h1, ho, hout]; rfl, hcd2, hpd2⟩,
              fun _ => ⟨ho, fun h => hag2 (by cases h; rfl)⟩, fun _ _ h => by cases h⟩
          · cases h1
        | ok o =>
          cases hs
          by_cases h1 : s.nFc = 1
          · obtain ⟨a', e, ho, hk⟩ := finish_sync h1 hout _ hfin
            rw [e]
            exact ⟨a', rfl, ⟨clean_one h1 (hk.cachedError.trans hc.cachedError), hk, by rw [pend_one h1, pend_one h1, ho, hout]; rfl, hcd2, hpd2⟩,
              fun h => (by cases h), fun _ _ h => (by cases h; exact ⟨hlen, hsuf⟩)⟩
          · obtain ⟨a', e, hk1, hk2, hk3⟩ := finish_async hc h1 hout hpd _ hfin
            rw [e]
            exact ⟨a', rfl, ⟨hk1, hk2, hk3, hcd2, hpd2⟩, fun h => (by cases h), fun _ _ h => (by cases h; exact ⟨hlen, hsuf⟩)⟩

/-! ## Packets -/

/-- What the sequential decoder would still list: the pictures waiting, then the rest of the packet held; and the state it
reaches. -/
def todo (s : Settings) (env : Env κ) (c : Dec κ) : Dec κ × List (Except Err (Pic κ)) :=
  match c.input with
  | none => (core c, (pend s c).map .ok)
  | some p => ((seqPacket s env (core c) p).1, (pend s c).map .ok ++ (seqPacket s env (core c) p).2)

/-- `Pic.given` on a result. -/
def gvn (r : Except Err (Pic κ)) : Except Err (Pic κ) := r.map Pic.given

/-- One error. -/
def evErr (e : Option Err) : List (Except Err (Pic κ)) := e.toList.map .error

/-- Error-free from the point of view of the sequential decoder (or one frame context). -/
def Good (s : Settings) (l : List (Except Err (Pic κ))) : Prop := s.nFc = 1 ∨ ∀ x ∈ l, x.isOk = true

/-- The context is in step with the sequential decoder. -/
structure InStep (s : Settings) (env : Env κ) (c : Dec κ) : Prop where
  inv : Inv s env c
  clean : Clean s c
  pics : PicsOk c

theorem outputReady_all {s : Settings} (hl : s.allLayers = true) {c : Dec κ} (hce : c.cachedError = none) (b : Bool) :
    outputReady s c b = (c.out.isSome, c) := by
  unfold outputReady layered
  simp [hce, hl]

theorem seqPacket_eq (s : Settings) (env : Env κ) (d : Dec κ) (pkt : Packet) (hp : pkt.data ≠ []) : seqPacket s env d pkt =
    match seqStep s env d pkt with
    | (d, .error e) => (d, [.error e])
    | (d, .ok (p, rest)) =>
      if rest.length < pkt.data.length then
        ((seqPacket s env d { pkt with data := rest }).1, p.toList.map .ok ++ (seqPacket s env d { pkt with data := rest }).2)
      else (d, p.toList.map .ok) := by
  rw [seqPacket, if_neg hp]
  rfl

theorem seqPacket_nil (s : Settings) (env : Env κ) (d : Dec κ) (pkt : Packet) (hp : pkt.data = []) : seqPacket s env d pkt = (d, []) := by
  rw [seqPacket, if_pos hp]

theorem todo_advance {s : Settings} {env : Env κ} {c : Dec κ} {pkt : Packet} {n : Nat} (h : c.input = pkt.advance n) :
    todo s env c = ((seqPacket s env (core c) { pkt with data := pkt.data.drop n }).1,
      (pend s c).map .ok ++ (seqPacket s env (core c) { pkt with data := pkt.data.drop n }).2) := by
  unfold todo
  unfold Packet.advance at h
  split at h
  · rename_i hn
    rw [h]
    rw [seqPacket_nil _ _ _ _ hn, List.append_nil]
  · rw [h]

/-- What `gen_picture` does, against the sequential decoder. -/
structure GenOk (s : Settings) (env : Env κ) (d : Dec κ) (l : List (Except Err (Pic κ))) (c' : Dec κ) (e : Option Err) : Prop where
  step : InStep s env c'
  core : (todo s env c').1 = d
  list : l.map gvn = evErr e ++ (todo s env c').2.map gvn
  one : e.isSome → s.nFc = 1
  idle : c'.out = none → c'.input = none
  again : e ≠ some .EAGAIN

theorem pend_setInput (s : Settings) (c : Dec κ) (i : Option Packet) : pend s { c with input := i } = pend s c := rfl

theorem gvn_ok (l : List (Pic κ)) : (l.map Except.ok).map gvn = (l.map Pic.given).map Except.ok := by
  rw [List.map_map, List.map_map]; rfl

theorem gvn_pend {l m : List (Pic κ)} (h : l.map Pic.given = m.map Pic.given) : (l.map Except.ok).map gvn = (m.map Except.ok).map gvn := by
  rw [gvn_ok, gvn_ok, h]

theorem genLoop_seq {s : Settings} {env : Env κ} (hna : NoAgain env) (hl : s.allLayers = true) (n : Nat) : ∀ {c : Dec κ} {pkt : Packet}, pkt.data.length = n → InStep s env c →
    c.out = none → pkt.data ≠ [] → Good s (seqPacket s env (core c) pkt).2 →
    ∃ c' e, genLoop s env c pkt = some (c', e) ∧ GenOk s env (seqPacket s env (core c) pkt).1 ((pend s c).map .ok ++ (seqPacket s env (core c) pkt).2) c' e := by
  induction n using Nat.strong_induction_on with
  | _ n ih =>
  intro c pkt hn hst hout hp good
  have hinv := hst.inv.parseObus hout hp
  obtain ⟨x, hx, hix, hnx⟩ := hinv
  rw [genLoop]
  rw [seqPacket_eq _ _ _ _ hp] at good ⊢
  generalize hso : seqStep s env (core c) pkt = z at good ⊢
  obtain ⟨d', r⟩ := z
  cases r with
  | error e =>
    dsimp only at good ⊢
    have g1 : s.nFc = 1 := by
      rcases good with g | g
      · exact g
      · have := g _ List.mem_cons_self; cases this
    obtain ⟨a', e1, hs, h2, h3⟩ := obu_seq hna hst.inv hst.clean hout hst.pics hp hso (Or.inl g1)
    rw [e1]
    rw [e1] at hx
    cases hx
    have ho : a'.out = none := (h2 rfl).1
    have hce : ({ put a' d' with input := none } : Dec κ).cachedError = none := hs.clean.cachedError
    simp only [lenOf]
    rw [outputReady_all hl hce]
    rw [show ({ put a' d' with input := none } : Dec κ).out = none from ho]
    simp only [Option.isSome_none]
    refine ⟨_, _, rfl, ⟨⟨?_, ?_, ?_⟩, ?_, ?_, fun _ => g1, fun _ => rfl, fun h => (h2 rfl).2 (by cases h; rfl)⟩⟩
    · exact Inv.setInput hix none (fun _ h => by cases h)
    · exact ⟨hs.clean.cachedError, hs.clean.next, hs.clean.slot⟩
    · exact hs.pics
    · show core (put a' d') = d'
      rw [core_put, hs.core.core_eq]
    · show List.map gvn (List.map .ok (pend s c) ++ [.error e]) = [.error e] ++ List.map gvn (List.map .ok (pend s (put a' d')))
      rw [pend_one g1, pend_one g1, hout, show (put a' d').out = none from ho]
      rfl
  | ok y =>
    obtain ⟨o, rest⟩ := y
    obtain ⟨a', e1, hs, h2, h3⟩ := obu_seq hna hst.inv hst.clean hout hst.pics hp hso (Or.inr rfl)
    obtain ⟨h4, h5⟩ := h3 o rest rfl
    dsimp only at good ⊢
    rw [if_pos h4] at good ⊢
    rw [e1]
    rw [e1] at hx
    cases hx
    obtain ⟨h6, h7⟩ := hnx _ rfl
    simp only [lenOf]
    rw [dif_pos ⟨h6, h7⟩]
    have hce : ({ put a' d' with input := pkt.advance (pkt.data.length - rest.length) } : Dec κ).cachedError = none := hs.clean.cachedError
    rw [outputReady_all hl hce]
    have hst' : InStep s env { put a' d' with input := pkt.advance (pkt.data.length - rest.length) } := by
      refine ⟨Inv.setInput hix _ advance_ne, ?_, hs.pics⟩
      exact ⟨hs.clean.cachedError, hs.clean.next, hs.clean.slot⟩
    have htodo := todo_advance (s := s) (env := env) (c := { put a' d' with input := pkt.advance (pkt.data.length - rest.length) }) rfl
    rw [show core { put a' d' with input := pkt.advance (pkt.data.length - rest.length) } = d' from hs.core.core_eq, ← h5] at htodo
    have hpend := gvn_pend (show (pend s ({ put a' d' with input := pkt.advance (pkt.data.length - rest.length) } : Dec κ)).map Pic.given = (pend s c ++ o.toList).map Pic.given from hs.pend)
    have hlist : ∀ t : List (Except Err (Pic κ)), ((pend s c).map Except.ok ++ (o.toList.map Except.ok ++ t)).map gvn =
        ((pend s ({ put a' d' with input := pkt.advance (pkt.data.length - rest.length) } : Dec κ)).map Except.ok ++ t).map gvn := by
      intro t
      rw [List.map_append (l₂ := t), hpend, ← List.append_assoc, ← List.map_append, List.map_append (l₂ := t)]
    cases ho : a'.out with
    | some p =>
      rw [show ({ put a' d' with input := pkt.advance (pkt.data.length - rest.length) } : Dec κ).out = some p from ho]
      simp only [Option.isSome_some]
      refine ⟨_, _, rfl, hst', ?_, ?_, fun h => (by cases h), fun h => ?_, by simp⟩
      · rw [htodo]
      · rw [htodo]
        exact hlist _
      · rw [show ({ put a' d' with input := pkt.advance (pkt.data.length - rest.length) } : Dec κ).out = some p from ho] at h; cases h
    | none =>
      rw [show ({ put a' d' with input := pkt.advance (pkt.data.length - rest.length) } : Dec κ).out = none from ho]
      simp only [Option.isSome_none]
      split
      · refine ⟨_, _, rfl, hst', ?_, ?_, fun h => (by cases h), fun h => ?_, by simp⟩
        · rw [htodo]
        · rw [htodo]
          exact hlist _
        · show pkt.advance _ = none
          unfold Packet.advance
          rw [if_pos]
          rw [List.drop_eq_nil_iff]; assumption
      · rename_i hlt
        have hne : pkt.data.drop (pkt.data.length - rest.length) ≠ [] := by
          rw [Ne, List.drop_eq_nil_iff]; exact hlt
        have hgood : Good s (seqPacket s env (core { put a' d' with input := pkt.advance (pkt.data.length - rest.length) }) { pkt with data := pkt.data.drop (pkt.data.length - rest.length) }).2 := by
          rw [show core { put a' d' with input := pkt.advance (pkt.data.length - rest.length) } = d' from hs.core.core_eq, ← h5]
          rcases good with g | g
          · exact Or.inl g
          · exact Or.inr (fun x hx => g x (List.mem_append_right _ hx))
        obtain ⟨c', e, b1, b2⟩ := ih (pkt.data.drop (pkt.data.length - rest.length)).length (by rw [List.length_drop]; omega) rfl hst' ho hne hgood
        rw [show core { put a' d' with input := pkt.advance (pkt.data.length - rest.length) } = d' from hs.core.core_eq, ← h5] at b2
        exact ⟨c', e, b1, b2.step, b2.core, (hlist _).trans b2.list, b2.one, b2.idle, b2.again⟩

theorem genPicture_seq {s : Settings} {env : Env κ} (hna : NoAgain env) (hl : s.allLayers = true) {c : Dec κ} (hst : InStep s env c) (good : Good s (todo s env c).2) :
    ∃ c' e, genPicture s env c = some (c', e) ∧ GenOk s env (todo s env c).1 (todo s env c).2 c' e := by
  unfold genPicture
  rw [outputReady_all hl hst.clean.cachedError]
  cases ho : c.out with
  | some p => exact ⟨c, none, rfl, hst, rfl, rfl, fun h => (by cases h), fun h => (by rw [ho] at h; cases h), by simp⟩
  | none =>
    simp only [Option.isSome_none]
    unfold todo at good ⊢
    cases hi : c.input with
    | none => exact ⟨c, none, rfl, hst, by unfold todo; rw [hi], by unfold todo; rw [hi]; rfl, fun h => (by cases h), fun _ => hi, by simp⟩
    | some p =>
      rw [hi] at good
      refine genLoop_seq hna hl _ rfl hst ho (hst.inv.input p hi) ?_
      rcases good with g | g
      · exact Or.inl g
      · exact Or.inr (fun x hx => g x (List.mem_append_right _ hx))

/-! ## Calls -/

/-- Nothing but the output side changed, and nothing was lost. -/
structure Quiet (s : Settings) (c c' : Dec κ) (l : List (Pic κ)) : Prop where
  clean : Clean s c'
  core : core c' = core c
  input : c'.input = c.input
  pend : pend s c = l ++ Dav1d.pend s c'

theorem Quiet.trans {s : Settings} {a b c : Dec κ} {l m : List (Pic κ)} (h1 : Quiet s a b l) (h2 : Quiet s b c m) : Quiet s a c (l ++ m) :=
  ⟨h2.clean, h2.core.trans h1.core, h2.input.trans h1.input, by rw [h1.pend, h2.pend, List.append_assoc]⟩

theorem Quiet.todo {s : Settings} {env : Env κ} {c c' : Dec κ} {l : List (Pic κ)} (h : Quiet s c c' l) :
    (todo s env c).1 = (todo s env c').1 ∧ (Dav1d.todo s env c).2 = l.map .ok ++ (Dav1d.todo s env c').2 := by
  unfold Dav1d.todo
  rw [h.input]
  cases c.input with
  | none => exact ⟨h.core.symm, by simp only [h.pend, List.map_append]⟩
  | some p => exact ⟨by simp only [h.core], by simp only [h.core, h.pend, List.map_append, List.append_assoc]⟩

theorem Quiet.refs {s : Settings} {c c' : Dec κ} {l : List (Pic κ)} (h : Quiet s c c' l) : c'.refs = c.refs := by
  have := congrArg Dec.refs h.core; exact this

theorem drainStep_seq {s : Settings} {env : Env κ} (hl : s.allLayers = true) {c : Dec κ} (hc : Clean s c) (h1 : s.nFc ≠ 1) (hout : c.out = none) (b : Bool) :
    (∃ c', drainStep s env c b = .stop c' ∧ Quiet s c c' [] ∧ c'.out = none) ∨
    (∃ c' b', drainStep s env c b = .next c' b' ∧ Quiet s c c' [] ∧ c'.out = none) ∨
    (∃ c' p, drainStep s env c b = .done c' (finishPic s env p) ∧ Quiet s c c' [p] ∧ c'.out = none ∧ p.content.isOk = true) := by
  unfold drainStep
  dsimp only
  split
  · exact Or.inl ⟨c, rfl, ⟨hc, rfl, rfl, rfl⟩, hout⟩
  obtain ⟨hr, hp⟩ := hc.slot h1 c.next
  rw [hr]
  dsimp only
  generalize (b || ((c.ring c.next).pic.isSome || (c.ring c.next).error)) = b'
  have hpush : ∀ (b : Dec κ), b.out = none → b.next = ringNext s.nFc c.next → (∀ j, j ≠ c.next → b.ring j = c.ring j) → (b.ring c.next).toShow s = none →
      pend s c = ((c.ring c.next).toShow s).toList ++ pend s b := by
    intro b ho hn hr hsh
    unfold pend
    rw [if_neg h1, if_neg h1, slots_cons (hc.next h1), slots_snoc (a' := b) (hc.next h1) hn hr, hout, ho, List.filterMap_append]
    cases h : (c.ring c.next).toShow s <;> simp [h, hsh]
  cases hpic : (c.ring c.next).pic with
  | none =>
    refine Or.inr (Or.inl ⟨_, _, rfl, ⟨?_, rfl, rfl, ?_⟩, hout⟩)
    · exact clean_push hc rfl rfl (fun _ _ => rfl) hr (fun p h => by rw [show (c.ring c.next).pic = some p from h] at hpic; cases hpic)
    · rw [hpush { c with next := ringNext s.nFc c.next } hout rfl (fun _ _ => rfl) (by unfold Slot.toShow; rw [show (({ c with next := ringNext s.nFc c.next } : Dec κ).ring c.next).pic = none from hpic]; rfl)]
      unfold Slot.toShow; rw [hpic]; rfl
  | some p =>
    dsimp only
    unfold showDelayed
    by_cases hsh : p.shown s = true
    · rw [if_pos hsh]
      unfold setOut setSlot
      dsimp only
      rw [hout]
      dsimp only
      rw [outputReady_all hl]
      swap
      · exact hc.cachedError
      simp only [Option.isSome_some]
      unfold outputImage layered
      simp only [hl, Bool.not_true, Bool.false_and, Bool.false_eq_true, if_false]
      refine Or.inr (Or.inr ⟨_, p, rfl, ⟨?_, rfl, rfl, ?_⟩, rfl, hp p hpic⟩)
      · refine clean_push hc rfl rfl (fun j hj => if_neg hj) ?_ ?_
        · simp only [if_true]
        · simp only [if_true]; intro _ h; cases h
      · have hts : (c.ring c.next).toShow s = some p := by unfold Slot.toShow; rw [hpic, Option.filter, if_pos hsh]
        rw [hts] at hpush
        exact hpush _ rfl rfl (fun j hj => if_neg hj) (by simp only [if_true]; rfl)
    · rw [if_neg hsh]
      dsimp only
      unfold setSlot
      rw [outputReady_all hl]
      swap
      · exact hc.cachedError
      dsimp only
      rw [hout]
      refine Or.inr (Or.inl ⟨_, _, rfl, ⟨?_, rfl, rfl, ?_⟩, rfl⟩)
      · refine clean_push hc rfl rfl (fun j hj => if_neg hj) ?_ ?_
        · simp only [if_true]
        · simp only [if_true]; intro _ h; cases h
      · have hts : (c.ring c.next).toShow s = none := by unfold Slot.toShow; rw [hpic, Option.filter, if_neg hsh]
        rw [hts] at hpush
        exact hpush _ rfl rfl (fun j hj => if_neg hj) (by simp only [if_true]; rfl)

theorem drainLoop_seq {s : Settings} {env : Env κ} (hl : s.allLayers = true) (h1 : s.nFc ≠ 1) (n : Nat) : ∀ {c : Dec κ}, Clean s c → c.out = none → ∀ b : Bool,
    (∃ c', drainLoop s env n c b = .stop c' ∧ Quiet s c c' [] ∧ c'.out = none) ∨
    (∃ c' p, drainLoop s env n c b = .done c' (finishPic s env p) ∧ Quiet s c c' [p] ∧ c'.out = none ∧ p.content.isOk = true) := by
  induction n with
  | zero => intro c hc ho b; exact Or.inl ⟨c, rfl, ⟨hc, rfl, rfl, rfl⟩, ho⟩
  | succ n ih =>
    intro c hc ho b
    unfold drainLoop
    rcases drainStep_seq (env := env) hl hc h1 ho b with ⟨c', e, q, h⟩ | ⟨c', b', e, q, h⟩ | ⟨c', p, e, q, h⟩
    · rw [e]; exact Or.inl ⟨c', rfl, q, h⟩
    · rw [e]
      rcases ih q.clean h b' with ⟨c2, e2, q2, h2⟩ | ⟨c2, p2, e2, q2, h2⟩
      · exact Or.inl ⟨c2, e2, q.trans q2, h2⟩
      · exact Or.inr ⟨c2, p2, e2, q.trans q2, h2⟩
    · rw [e]; exact Or.inr ⟨c', p, rfl, q, h⟩

theorem drainPicture_seq {s : Settings} {env : Env κ} (hl : s.allLayers = true) (h1 : s.nFc ≠ 1) {c : Dec κ} (hc : Clean s c) (hout : c.out = none) :
    (∃ c', drainPicture s env c = some (c', .error .EAGAIN) ∧ Quiet s c c' [] ∧ c'.out = none) ∨
    (∃ c' p, drainPicture s env c = some (c', finishPic s env p) ∧ Quiet s c c' [p] ∧ c'.out = none ∧ p.content.isOk = true) := by
  unfold drainPicture
  rcases drainLoop_seq (env := env) hl h1 s.nFc hc hout false with ⟨c', e, q, h⟩ | ⟨c', p, e, q, h⟩
  · rw [e]
    dsimp only
    rw [outputReady_all hl q.clean.cachedError, h]
    exact Or.inl ⟨c', rfl, q, h⟩
  · rw [e]; exact Or.inr ⟨c', p, rfl, q, h⟩

/-- What a call of dav1d_get_picture does, against the sequential decoder. -/
theorem getPicture_seq {s : Settings} {env : Env κ} (hna : NoAgain env) (hl : s.allLayers = true) {c : Dec κ} (hst : InStep s env c) (good : Good s (todo s env c).2) :
    ∃ c' r, getPicture s env c = some (c', r) ∧ InStep s env c' ∧ (todo s env c').1 = (todo s env c).1 ∧
      ((r = .error .EAGAIN ∧ c'.out = none ∧ c'.input = none ∧ (todo s env c).2.map gvn = (todo s env c').2.map gvn) ∨
       (∃ p, r = finishPic s env p ∧ p.content.isOk = true ∧ (todo s env c).2.map gvn = gvn (.ok p) :: (todo s env c').2.map gvn) ∨
       (∃ e, s.nFc = 1 ∧ r = .error e ∧ e ≠ .EAGAIN ∧ (todo s env c).2.map gvn = .error e :: (todo s env c').2.map gvn)) := by
  obtain ⟨⟨c', r⟩, hx, hix, _⟩ := hst.inv.getPicture
  refine ⟨c', r, hx, ?_⟩
  unfold getPicture at hx
  dsimp only at hx
  have hst2 : InStep s env { c with drain := true } :=
    ⟨⟨hst.inv.seq, hst.inv.op, hst.inv.refs, hst.inv.hdr, hst.inv.limit, hst.inv.hdrFor, hst.inv.cover, hst.inv.decoded, hst.inv.out, hst.inv.cache, hst.inv.sync, hst.inv.pics, hst.inv.skipped, hst.inv.slots, hst.inv.input⟩,
     ⟨hst.clean.cachedError, hst.clean.next, hst.clean.slot⟩, hst.pics⟩
  have htd : todo s env { c with drain := true } = todo s env c := rfl
  obtain ⟨c1, e, h1, h2⟩ := genPicture_seq hna hl hst2 (by rw [htd]; exact good)
  rw [htd] at h2
  rw [h1] at hx
  obtain ⟨hs1, hcore, hlist, hone, hidle, hagain⟩ := h2
  cases e with
  | some e =>
    cases hx
    exact ⟨hs1, hcore, Or.inr (Or.inr ⟨e, hone rfl, rfl, fun h => hagain (by rw [h]), hlist⟩)⟩
  | none =>
    dsimp only at hx
    rw [hs1.clean.cachedError] at hx
    dsimp only at hx
    rw [outputReady_all hl hs1.clean.cachedError] at hx
    cases ho : c1.out with
    | some p =>
      rw [ho] at hx
      simp only [Option.isSome_some] at hx
      unfold outputImage layered at hx
      simp only [hl, Bool.not_true, Bool.false_and, Bool.false_eq_true, if_false, ho] at hx
      cases hx
      have q : Quiet s c1 { c1 with out := none } [p] := by
        refine ⟨⟨hs1.clean.cachedError, hs1.clean.next, hs1.clean.slot⟩, rfl, rfl, ?_⟩
        unfold pend; rw [ho]; rfl
      obtain ⟨t1, t2⟩ := q.todo (env := env)
      refine ⟨⟨hix, q.clean, hs1.pics⟩, t1 ▸ hcore, Or.inr (Or.inl ⟨p, rfl, (hs1.inv.out p ho).1, ?_⟩)⟩
      rw [hlist, t2]; rfl
    | none =>
      rw [ho] at hx
      simp only [Option.isSome_none] at hx
      split at hx
      · rename_i hn
        rcases drainPicture_seq (env := env) hl (by omega) hs1.clean ho with ⟨c2, e2, q, h⟩ | ⟨c2, p, e2, q, h⟩
        · rw [e2] at hx
          cases hx
          obtain ⟨t1, t2⟩ := q.todo (env := env)
          refine ⟨⟨hix, q.clean, ?_⟩, t1 ▸ hcore, Or.inl ⟨rfl, h, q.input.trans (hidle ho), ?_⟩⟩
          · intro i p hp; exact hs1.pics i p (by rw [q.refs] at hp; exact hp)
          · rw [hlist, t2]; rfl
        · rw [e2] at hx
          cases hx
          obtain ⟨t1, t2⟩ := q.todo (env := env)
          refine ⟨⟨hix, q.clean, ?_⟩, t1 ▸ hcore, Or.inr (Or.inl ⟨p, rfl, h.2, ?_⟩)⟩
          · intro i p hp; exact hs1.pics i p (by rw [q.refs] at hp; exact hp)
          · rw [hlist, t2]; rfl
      · cases hx
        exact ⟨hs1, hcore, Or.inl ⟨rfl, ho, hidle ho, hlist⟩⟩

/-- What a call of dav1d_send_data does, against the sequential decoder. -/
theorem sendData_seq {s : Settings} {env : Env κ} (hna : NoAgain env) (hl : s.allLayers = true) {c : Dec κ} (hst : InStep s env c) {p : Packet} (hp : p.Valid) :
    (c.input.isSome = true ∧ sendData s env c (some p) = some ⟨{ c with drain := false }, some .EAGAIN, some p⟩) ∨
    (c.input = none ∧ (Good s ((todo s env c).2 ++ (seqPacket s env (todo s env c).1 p).2) →
      ∃ c' e, sendData s env c (some p) = some ⟨c', e, if e.isSome then some p else none⟩ ∧ InStep s env c' ∧ e ≠ some .EAGAIN ∧
        (todo s env c').1 = (seqPacket s env (todo s env c).1 p).1 ∧
        ((todo s env c).2 ++ (seqPacket s env (todo s env c).1 p).2).map gvn = evErr e ++ (todo s env c').2.map gvn)) := by
  have hst2 : ∀ i, (∀ x, i = some x → x.data ≠ []) → InStep s env { c with drain := false, input := i } := fun i hi =>
    ⟨⟨hst.inv.seq, hst.inv.op, hst.inv.refs, hst.inv.hdr, hst.inv.limit, hst.inv.hdrFor, hst.inv.cover, hst.inv.decoded, hst.inv.out, hst.inv.cache, hst.inv.sync, hst.inv.pics, hst.inv.skipped, hst.inv.slots, hi⟩,
     ⟨hst.clean.cachedError, hst.clean.next, hst.clean.slot⟩, hst.pics⟩
  have hv : (some p : Option Packet).any (fun p => p.data.isEmpty || decide (2 ^ 63 ≤ p.data.length)) = false := by
    have := hp.2
    simp [Option.any, hp.1]
    omega
  unfold sendData
  rw [hv]
  simp only [Bool.false_eq_true, if_false, Option.isSome_some, if_true]
  cases hi : c.input with
  | some q =>
    left
    exact ⟨rfl, rfl⟩
  | none =>
    right
    refine ⟨rfl, fun good => ?_⟩
    have htd : todo s env { c with drain := false, input := some p } = ((seqPacket s env (todo s env c).1 p).1, (todo s env c).2 ++ (seqPacket s env (todo s env c).1 p).2) := by
      unfold todo; rw [hi]; rfl
    obtain ⟨c', e, h1, h2⟩ := genPicture_seq hna hl (hst2 (some p) (fun x hx => by cases hx; exact hp.1)) (by rw [htd]; exact good)
    rw [htd] at h2
    simp only [Option.isSome_none, Bool.false_eq_true, if_false]
    rw [h1]
    cases e with
    | none => exact ⟨c', none, rfl, h2.step, h2.again, h2.core, h2.list⟩
    | some e => exact ⟨c', some e, rfl, h2.step, h2.again, h2.core, h2.list⟩

/-! ## Sessions -/

/-- What the caller gets for an event of the sequential decoder: film grain applied, internal mark removed. -/
def handed (s : Settings) (env : Env κ) (r : Except Err (Pic κ)) : Except Err (Pic κ) := (r.bind (finishPic s env)).map Pic.given

/-- The pictures and errors (other than EAGAIN) in a reply. -/
def Reply.result : Reply κ → List (Except Err (Pic κ))
  | .sent (some e) _ => if e = .EAGAIN then [] else [.error e]
  | .got (.ok p) => [.ok p.given]
  | .got (.error e) => if e = .EAGAIN then [] else [.error e]
  | _ => []

/-- The packets that were not refused with EAGAIN. -/
def taken : List Call → List (Reply κ) → List Packet
  | .send (some p) :: l, .sent r _ :: rs => if r = some .EAGAIN then taken l rs else p :: taken l rs
  | _ :: l, _ :: rs => taken l rs
  | _, _ => []

/-- Calls of a session: packets with data, no flush. -/
def Call.Plain : Call → Prop
  | .send (some p) => p.Valid
  | .flush => False
  | _ => True

theorem handed_gvn (s : Settings) (env : Env κ) (r : Except Err (Pic κ)) : handed s env (gvn r) = handed s env r := by
  cases r with
  | error e => rfl
  | ok p =>
    show (finishPic s env p.given).map Pic.given = (finishPic s env p).map Pic.given
    unfold finishPic
    show (if (!s.applyGrain || !hasGrain p.hdr) = true then _ else _ : Except Err (Pic κ)).map Pic.given = _
    split
    · rfl
    · show (match p.content with
        | .error e => .error e
        | .ok k => match env.grain p.hdr.filmGrain k with
          | .error e => .error e
          | .ok k => .ok { p.given with content := .ok k } : Except Err (Pic κ)).map Pic.given = _
      cases p.content with
      | error e => rfl
      | ok k => 
        dsimp only
        cases env.grain p.hdr.filmGrain k <;> rfl

theorem handed_congr {s : Settings} {env : Env κ} {l m : List (Except Err (Pic κ))} (h : l.map gvn = m.map gvn) :
    l.map (handed s env) = m.map (handed s env) := by
  have : ∀ l : List (Except Err (Pic κ)), l.map (handed s env) = (l.map gvn).map (handed s env) := by
    intro l; rw [List.map_map]; exact List.map_congr_left (fun x _ => (handed_gvn s env x).symm)
  rw [this l, this m, h]

theorem good_congr {s : Settings} {l m : List (Except Err (Pic κ))} (h : l.map gvn = m.map gvn) (hg : Good s l) : Good s m := by
  rcases hg with g | g
  · exact Or.inl g
  · right
    intro x hx
    have h1 : gvn x ∈ l.map gvn := h ▸ List.mem_map_of_mem hx
    obtain ⟨y, hy, he⟩ := List.mem_map.1 h1
    have := g y hy
    cases x with
    | ok _ => rfl
    | error e => cases y with
      | ok _ => cases he
      | error e => cases this

theorem Good.right {s : Settings} {l m : List (Except Err (Pic κ))} (h : Good s (l ++ m)) : Good s m := by
  rcases h with g | g
  · exact Or.inl g
  · exact Or.inr (fun x hx => g x (List.mem_append_right _ hx))

theorem Good.left {s : Settings} {l m : List (Except Err (Pic κ))} (h : Good s (l ++ m)) : Good s l := by
  rcases h with g | g
  · exact Or.inl g
  · exact Or.inr (fun x hx => g x (List.mem_append_left _ hx))

theorem finishPic_again {s : Settings} {env : Env κ} (hn : NoAgain env) {p : Pic κ} (hp : p.content.isOk = true) :
    finishPic s env p ≠ .error .EAGAIN := by
  unfold finishPic
  split
  · simp
  · split
    · rename_i e he; rw [he] at hp; cases hp
    · split
      · rename_i k hk e he
        intro h; cases h; exact hn.2 _ _ he
      · simp

theorem result_got {s : Settings} {env : Env κ} (hn : NoAgain env) {p : Pic κ} (hp : p.content.isOk = true) :
    (Reply.got (finishPic s env p)).result = [handed s env (.ok p)] := by
  have h := finishPic_again (s := s) hn hp
  show _ = [(finishPic s env p).map Pic.given]
  generalize finishPic s env p = r at h
  cases r with
  | ok p => rfl
  | error e =>
    show (if e = .EAGAIN then [] else [Except.error e]) = _
    rw [if_neg (fun he => h (by rw [he]))]
    rfl

theorem seqStream_append (s : Settings) (env : Env κ) (l m : List Packet) : ∀ d : Dec κ, seqStream s env d (l ++ m) =
    ((seqStream s env (seqStream s env d l).1 m).1, (seqStream s env d l).2 ++ (seqStream s env (seqStream s env d l).1 m).2) := by
  induction l with
  | nil => intro d; rfl
  | cons p l ih => intro d; simp only [List.cons_append, seqStream, ih, List.append_assoc]

/-- One call: the packets it takes. -/
def takes : Call → Reply κ → List Packet
  | .send (some p), .sent r _ => if r = some .EAGAIN then [] else [p]
  | _, _ => []

theorem taken_cons (a : Call) (r : Reply κ) (l : List Call) (rs : List (Reply κ)) : taken (a :: l) (r :: rs) = takes a r ++ taken l rs := by
  cases a with
  | send p => cases p with
    | none => cases r <;> rfl
    | some p => cases r with
      | sent e x => simp only [taken, takes]; split <;> rfl
      | _ => rfl
  | _ => cases r <;> rfl

theorem InStep.agree {s : Settings} {env : Env κ} {c c' : Dec κ} (h : InStep s env c) (hi : Inv s env c') (h1 : c'.cachedError = c.cachedError) (h2 : c'.next = c.next)
    (h3 : c'.ring = c.ring) (h4 : c'.refs = c.refs) : InStep s env c' :=
  ⟨hi, ⟨h1.trans h.clean.cachedError, fun x => by rw [h2]; exact h.clean.next x, fun x i => by rw [h3]; exact h.clean.slot x i⟩, fun i p hp => h.pics i p (by rw [← h4]; exact hp)⟩

theorem call_seq {s : Settings} {env : Env κ} (hna : NoAgain env) (hl : s.allLayers = true) {c : Dec κ} (hst : InStep s env c) {a : Call} (ha : a.Plain) {c' r}
    (hx : call s env c a = some (c', r)) (good : Good s ((todo s env c).2 ++ (seqStream s env (todo s env c).1 (takes a r)).2)) :
    InStep s env c' ∧ (todo s env c').1 = (seqStream s env (todo s env c).1 (takes a r)).1 ∧
    ∃ pre : List (Except Err (Pic κ)), ((todo s env c).2 ++ (seqStream s env (todo s env c).1 (takes a r)).2).map gvn = pre.map gvn ++ (todo s env c').2.map gvn ∧
      r.result = pre.map (handed s env) := by
  have hnil : ∀ {c' : Dec κ}, Inv s env c' → c'.cachedError = c.cachedError → c'.next = c.next → c'.ring = c.ring → c'.refs = c.refs → todo s env c' = todo s env c → ∀ r : Reply κ, r.result = [] →
      InStep s env c' ∧ (todo s env c').1 = (seqStream s env (todo s env c).1 []).1 ∧
    ∃ pre : List (Except Err (Pic κ)), ((todo s env c).2 ++ (seqStream s env (todo s env c).1 []).2).map gvn = pre.map gvn ++ (todo s env c').2.map gvn ∧
      r.result = pre.map (handed s env) := by
    intro c' hi h1 h2 h3 h4 ht r hr
    refine ⟨hst.agree hi h1 h2 h3 h4, by rw [ht]; rfl, [], ?_, hr⟩
    rw [ht]; simp [seqStream]
  cases a with
  | flush => exact ha.elim
  | events =>
    cases hx
    exact hnil (c' := (getEventFlags c).1) ⟨hst.inv.seq, hst.inv.op, hst.inv.refs, hst.inv.hdr, hst.inv.limit, hst.inv.hdrFor, hst.inv.cover, hst.inv.decoded, hst.inv.out, hst.inv.cache, hst.inv.sync, hst.inv.pics, hst.inv.skipped, hst.inv.slots, hst.inv.input⟩ rfl rfl rfl rfl rfl (Reply.events _) rfl
  | errorProps =>
    cases hx
    exact hnil (c' := (getErrorProps c).1) ⟨hst.inv.seq, hst.inv.op, hst.inv.refs, hst.inv.hdr, hst.inv.limit, hst.inv.hdrFor, hst.inv.cover, hst.inv.decoded, hst.inv.out, hst.inv.cache, hst.inv.sync, hst.inv.pics, hst.inv.skipped, hst.inv.slots, hst.inv.input⟩ rfl rfl rfl rfl rfl (Reply.errorProps _) rfl
  | get =>
    have htk : takes Call.get r = [] := by cases r <;> rfl
    rw [htk] at good ⊢
    simp only [seqStream, List.append_nil] at good ⊢
    obtain ⟨c2, r2, e, h1, h2, h3⟩ := getPicture_seq hna hl hst good
    simp only [call, e, Option.map_some] at hx
    cases hx
    refine ⟨h1, h2, ?_⟩
    rcases h3 with ⟨hr, _, _, h⟩ | ⟨p, hr, hp, h⟩ | ⟨e, _, hr, he, h⟩
    · exact ⟨[], h, by rw [hr]; rfl⟩
    · exact ⟨[.ok p], h, by rw [hr, result_got hna hp]; rfl⟩
    · exact ⟨[.error e], h, by rw [hr]; simp only [Reply.result, if_neg he]; rfl⟩
  | send p =>
    cases p with
    | none =>
      have htk : takes (Call.send none) r = [] := by cases r <;> rfl
      rw [htk] at good ⊢
      simp only [call] at hx
      unfold sendData at hx
      simp only [Option.any_none, Bool.false_eq_true, if_false, Option.isSome_none] at hx
      cases hi : c.input with
      | some q =>
        rw [hi] at hx
        cases hx
        exact hnil hst.inv rfl rfl rfl rfl rfl _ rfl
      | none =>
        rw [hi] at hx
        simp only [Option.isSome_none, Bool.false_eq_true, if_false] at hx
        have : ({ c with input := none } : Dec κ) = c := by rw [← hi]
        rw [this] at hx
        simp only [seqStream, List.append_nil] at good ⊢
        obtain ⟨c2, e, h1, h2⟩ := genPicture_seq hna hl hst good
        rw [h1] at hx
        cases e with
        | none => cases hx; exact ⟨h2.step, h2.core, [], h2.list, rfl⟩
        | some e => 
          cases hx
          exact ⟨h2.step, h2.core, [.error e], h2.list, by simp only [Reply.result]; rw [if_neg (fun h => h2.again (by rw [h]))]; rfl⟩
    | some p =>
      rcases sendData_seq (env := env) hna hl hst (show p.Valid from ha) with ⟨h1, h2⟩ | ⟨h1, h2⟩
      · simp only [call, h2, Option.map_some] at hx
        cases hx
        exact hnil (c' := { c with drain := false }) ⟨hst.inv.seq, hst.inv.op, hst.inv.refs, hst.inv.hdr, hst.inv.limit, hst.inv.hdrFor, hst.inv.cover, hst.inv.decoded, hst.inv.out, hst.inv.cache, hst.inv.sync, hst.inv.pics, hst.inv.skipped, hst.inv.slots, hst.inv.input⟩ rfl rfl rfl rfl rfl (Reply.sent (some .EAGAIN) (some p)) rfl
      · have hx0 := hx
        have htk : takes (Call.send (some p)) r = [p] := by
          obtain ⟨x, hx1, _⟩ := hst.inv.sendData (some p)
          simp only [call, hx1, Option.map_some] at hx
          cases hx
          simp only [takes]
          rw [if_neg (fun h => ?_)]
          have h3 := (sendData_again hna hst.inv (show p.Valid from ha) hx1).1 h
          rw [h1] at h3; cases h3
        rw [htk] at good ⊢
        simp only [seqStream, List.append_nil] at good ⊢
        obtain ⟨c2, e, e1, e2, e3, e4, e5⟩ := h2 good
        simp only [call, e1, Option.map_some] at hx
        cases hx
        refine ⟨e2, e4, ?_⟩
        cases e with
        | none => exact ⟨[], e5, rfl⟩
        | some e => exact ⟨[.error e], e5, by simp only [Reply.result]; rw [if_neg (fun h => e3 (by rw [h]))]; rfl⟩

theorem session_seq {s : Settings} {env : Env κ} (hna : NoAgain env) (hl : s.allLayers = true) (l : List Call) : ∀ {c : Dec κ}, InStep s env c → (∀ a ∈ l, a.Plain) → ∀ {c' rs},
    session s env c l = some (c', rs) → Good s ((todo s env c).2 ++ (seqStream s env (todo s env c).1 (taken l rs)).2) →
    InStep s env c' ∧ (todo s env c').1 = (seqStream s env (todo s env c).1 (taken l rs)).1 ∧
    Good s (todo s env c').2 ∧
    rs.flatMap Reply.result ++ (todo s env c').2.map (handed s env) = ((todo s env c).2 ++ (seqStream s env (todo s env c).1 (taken l rs)).2).map (handed s env) := by
  induction l with
  | nil =>
    intro c hst _ c' rs hs good
    cases hs
    refine ⟨hst, rfl, good.left, ?_⟩
    simp [taken, seqStream]
  | cons a l ih =>
    intro c hst hp c' rs hs good
    unfold session at hs
    cases hc : call s env c a with
    | none => rw [hc] at hs; cases hs
    | some x =>
      obtain ⟨c1, r⟩ := x
      rw [hc] at hs
      dsimp only at hs
      cases hc2 : session s env c1 l with
      | none => rw [hc2] at hs; cases hs
      | some y =>
        obtain ⟨c2, rs2⟩ := y
        rw [hc2] at hs
        cases hs
        rw [taken_cons, seqStream_append] at good ⊢
        dsimp only at good ⊢
        rw [← List.append_assoc] at good ⊢
        obtain ⟨h1, h2, pre, h3, h4⟩ := call_seq hna hl hst (hp a List.mem_cons_self) hc good.left
        have h3' : ((todo s env c).2 ++ (seqStream s env (todo s env c).1 (takes a r)).2).map gvn = (pre ++ (todo s env c1).2).map gvn := by rw [h3, List.map_append]
        rw [← h2] at good ⊢
        have hcong : ∀ m : List (Except Err (Pic κ)), ((todo s env c).2 ++ (seqStream s env (todo s env c).1 (takes a r)).2 ++ m).map gvn = (pre ++ ((todo s env c1).2 ++ m)).map gvn := by
          intro m; rw [List.map_append, h3', ← List.map_append, List.append_assoc]
        obtain ⟨b1, b2, b3, b4⟩ := ih h1 (fun x hx => hp x (List.mem_cons_of_mem _ hx)) hc2 (good_congr (hcong _) good).right
        refine ⟨b1, b2, b3, ?_⟩
        rw [handed_congr (hcong _), List.map_append, ← b4, List.flatMap_cons, h4, List.append_assoc]

theorem InStep.init {s : Settings} {env : Env κ} (h : 0 < s.nFc) : InStep s env (Dec.init : Dec κ) :=
  ⟨Inv.init s env, ⟨rfl, fun _ => h, fun _ _ => ⟨rfl, fun _ he => by cases he⟩⟩, fun _ _ he => by cases he⟩

theorem todo_init (s : Settings) (env : Env κ) : todo s env (Dec.init : Dec κ) = (Dec.init, []) := by
  have : pend s (Dec.init : Dec κ) = [] := by
    unfold pend
    split
    · rfl
    · rw [List.filterMap_eq_nil_iff.2]
      · rfl
      · intro a ha
        unfold slots at ha
        obtain ⟨k, _, rfl⟩ := List.mem_map.1 ha
        rfl
  unfold todo
  show (core Dec.init, (pend s Dec.init).map Except.ok) = _
  rw [this]; rfl

end Dav1d
