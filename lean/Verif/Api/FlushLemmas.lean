import Verif.Api.Erase
import Verif.Api.ObuProps
/-!
# What flush leaves behind
-/
namespace Dav1d
open HProg
variable {κ : Type}

/-- Only the existing slots are ever used. -/
structure Tidy (s : Settings) (c : Dec κ) : Prop where
  refs : ∀ i, 8 ≤ i → c.refs i = {}
  ring : ∀ i, s.nFc ≤ i ∨ s.nFc = 1 → c.ring i = {}
  next : c.next < s.nFc

theorem Tidy.congr {s : Settings} {c d : Dec κ} (h : Tidy s c) (h1 : d.refs = c.refs) (h2 : d.ring = c.ring) (h3 : d.next = c.next) : Tidy s d :=
  ⟨by rw [h1]; exact h.refs, by rw [h2]; exact h.ring, by rw [h3]; exact h.next⟩

theorem Tidy.setSlot {s : Settings} {c : Dec κ} (h : Tidy s c) (hn : s.nFc ≠ 1) {i : Nat} (hi : i < s.nFc) (sl : Slot κ) : Tidy s (setSlot c i sl) := by
  refine ⟨h.refs, fun j hj => ?_, h.next⟩
  simp only [Dav1d.setSlot]
  rw [if_neg (by omega)]
  exact h.ring j hj

theorem Tidy.advance {s : Settings} {c : Dec κ} (h : Tidy s c) : Tidy s { c with next := ringNext s.nFc c.next } :=
  ⟨h.refs, h.ring, ringNext_lt h.next⟩

theorem setOut_tidy {s : Settings} {c d : Dec κ} {p : Pic κ} (h : Tidy s c) (e : setOut c p = some d) : Tidy s d := by
  unfold setOut at e
  split at e
  · cases e
  · cases e; exact h.congr rfl rfl rfl

theorem showDelayed_tidy {s : Settings} {c d : Dec κ} {p : Pic κ} (h : Tidy s c) (e : showDelayed s c p = some d) : Tidy s d := by
  unfold showDelayed at e
  split at e
  · exact setOut_tidy (by exact h.congr rfl rfl rfl) e
  · cases e; exact h

theorem ringPop_tidy {s : Settings} {c d : Dec κ} (hn : s.nFc ≠ 1) (h : Tidy s c) (e : ringPop s c = some d) : Tidy s d := by
  unfold ringPop at e
  dsimp only at e
  split at e
  · cases e
    exact Tidy.setSlot (by exact h.advance.congr rfl rfl rfl) hn h.next _
  · split at e
    · cases e; exact h.advance
    · exact showDelayed_tidy (Tidy.setSlot h.advance hn h.next _) e

theorem submitError_tidy {s : Settings} {c : Dec κ} (h : Tidy s c) {i : Nat} (hi : i < s.nFc) (props : Props) (e : Err) : Tidy s (submitError s c i props e).1 := by
  unfold submitError
  dsimp only
  split
  · exact h.congr rfl rfl rfl
  · rename_i hn
    exact Tidy.setSlot (by exact h.congr rfl rfl rfl) hn hi _

theorem refreshed_lt {f i : Nat} (h : refreshed f i = true) : i < 8 := by
  unfold refreshed at h; simp at h; exact h.1

theorem Tidy.setRefs {s : Settings} {c : Dec κ} (h : Tidy s c) {r : Nat → RefSlot κ} (hr : ∀ i, 8 ≤ i → r i = c.refs i) : Tidy s { c with refs := r } :=
  ⟨fun i hi => by simp only [hr i hi, h.refs i hi], h.ring, h.next⟩

theorem Tidy.refresh {s : Settings} {c : Dec κ} (h : Tidy s c) (hd : FrameHdr) (p : Pic κ) : Tidy s { c with refs := refreshRefs hd p c.refs } := by
  refine h.setRefs fun i hi => ?_
  unfold refreshRefs
  rw [if_neg (fun hx => by have := refreshed_lt hx; omega)]

theorem submitFrame_tidy {s : Settings} {env : Env κ} {c : Dec κ} (h : Tidy s c) {q hd props x} (e : submitFrame s env c q hd props = some x) : Tidy s x.1 := by
  unfold submitFrame at e
  dsimp only at e
  split at e
  · cases e
  rename_i d hpop
  have hd0 : Tidy s d := by
    split at hpop
    · cases hpop; exact h
    · rename_i hn; exact ringPop_tidy hn h hpop
  split at e
  · cases e; exact submitError_tidy (by exact hd0.congr rfl rfl rfl) h.next ..
  split at e
  · cases e; exact submitError_tidy (by exact hd0.congr rfl rfl rfl) h.next ..
  split at e
  · cases e; exact submitError_tidy (by exact hd0.congr rfl rfl rfl) h.next ..
  split at e
  · cases e; exact submitError_tidy (by exact hd0.congr rfl rfl rfl) h.next ..
  have hpos : 0 < s.nFc := by have := h.next; omega
  split at e
  · unfold submitSync at e
    split at e
    · cases e
    rename_i f hf
    have hf0 : Tidy s f := by
      split at hf
      · exact setOut_tidy (by exact hd0.congr rfl rfl rfl) hf
      · cases hf; exact hd0.congr rfl rfl rfl
    split at e
    · cases e; exact submitError_tidy hf0 hpos ..
    split at e
    · cases e
      refine submitError_tidy (hf0.setRefs fun i hi => ?_) hpos ..
      unfold dropRefs
      rw [if_neg (fun hx => by have := refreshed_lt hx; omega)]
    · cases e; exact hf0.refresh ..
  · rename_i hn
    unfold submitAsync at e
    split at e
    · cases e; exact submitError_tidy (by exact hd0.congr rfl rfl rfl) h.next ..
    · cases e
      exact Tidy.setSlot (Tidy.refresh (by exact hd0.congr rfl rfl rfl) ..) hn h.next _

theorem showPic_tidy {s : Settings} {c d : Dec κ} {p : Pic κ} {props : Props} (h : Tidy s c) (e : showPic s c p props = some d) : Tidy s d := by
  unfold showPic at e
  dsimp only at e
  split at e
  · exact setOut_tidy (by exact h.congr rfl rfl rfl) e
  · rename_i hn
    split at e
    · cases e
    · rename_i f hf
      cases e
      exact (ringPop_tidy (c := { c with info := _ }) hn (by exact h.congr rfl rfl rfl) hf).setSlot hn h.next _

theorem finishObu_tidy {s : Settings} {env : Env κ} {c : Dec κ} (h : Tidy s c) {props x} (e : finishObu s env c props = some x) : Tidy s x.1 := by
  unfold finishObu at e
  split at e
  · unfold showExisting at e
    split at e
    · cases e; exact h.congr rfl rfl rfl
    split at e
    · cases e; exact h.congr rfl rfl rfl
    split at e
    · split at e
      · cases e; exact h.congr rfl rfl rfl
      · split at e
        · cases e
        · rename_i d hd
          have hd := showPic_tidy h hd
          split at e
          · cases e
            refine Tidy.congr (hd.setRefs (r := keyRefresh _ _ d.refs) fun i hi => ?_) rfl rfl rfl
            unfold keyRefresh
            split
            · rename_i hx; subst hx
              exfalso
              rename_i hp
              rw [h.refs _ hi] at hp; cases hp
            · rw [if_neg (by omega)]
          · cases e; exact hd.congr rfl rfl rfl
    · cases e; exact h.congr rfl rfl rfl
  · split at e
    · unfold frameComplete at e
      split at e
      · cases e
        refine Tidy.congr (h.setRefs (r := skipRefs _ c.refs) fun i hi => ?_) rfl rfl rfl
        unfold skipRefs
        rw [if_neg (fun hx => by have := refreshed_lt hx; omega)]
      split at e
      · cases e; exact h.congr rfl rfl rfl
      split at e
      · cases e
      · rename_i hs
        cases e; exact submitFrame_tidy h hs
      · rename_i hs
        split at e
        · cases e; exact (submitFrame_tidy h hs).congr rfl rfl rfl
        · cases e
    · cases e; exact h
  · cases e; exact h

theorem caseStep_tidy {s : Settings} {c : Dec κ} (h : Tidy s c) {props x} (hx : CaseStep s c props x) : Tidy s x.1 := by
  have htile : ∀ {c : Dec κ} {hd x}, Tidy s c → TileStep c hd props x → Tidy s x.1 := by
    intro c hd x h hx
    cases hx <;> exact h.congr rfl rfl rfl
  cases hx with
  | seq q =>
    unfold activateSeq
    dsimp only
    split
    · exact h.congr rfl rfl rfl
    · split
      · refine ⟨fun i hi => ?_, h.ring, h.next⟩
        dsimp only
        rw [if_neg (by omega)]
        exact h.refs i hi
      · split <;> exact h.congr rfl rfl rfl
  | frame q hd x a b cc hx => exact htile (by exact h.congr rfl rfl rfl) hx
  | group hd x a hx => exact htile h hx
  | _ => exact h.congr rfl rfl rfl

theorem parseObus_tidy {s : Settings} {env : Env κ} {c : Dec κ} (h : Tidy s c) (hi : Inv s env c) {pkt : Packet} (hp : pkt.data ≠ []) {x}
    (e : parseObus s env c pkt = some x) : Tidy s x.1 := by
  rw [parseObus_eq s env hi.ok pkt hp] at e
  have hce : ∀ {c : Dec κ} er, Tidy s c → Tidy s (caseError c pkt.props er).1 := by
    intro c er h
    unfold caseError
    dsimp only
    split
    · exact h
    · exact h.congr rfl rfl rfl
  unfold stepObu at e
  split at e
  · cases e; exact hce _ h
  rename_i o rest _
  split at e
  · cases e; exact hce _ h
  split at e
  · cases e; exact h
  obtain ⟨y, e1, hy⟩ := obuCase_step (s := s) hi.ok o.type (obuHdrOf pkt.data).temporalId (obuHdrOf pkt.data).spatialId pkt.props o.payload
  rw [e1] at e
  have hy := caseStep_tidy h hy
  obtain ⟨d, er⟩ := y
  cases er with
  | some er => cases e; exact hce _ hy
  | none =>
    dsimp only at e hy
    split at e
    · cases e
    · rename_i hf; cases e; exact finishObu_tidy hy hf
    · rename_i hf; cases e; exact finishObu_tidy hy hf

theorem outputReady_tidy {s : Settings} {c : Dec κ} (h : Tidy s c) (d : Bool) : Tidy s (outputReady s c d).2 := by
  unfold outputReady
  split
  · exact h
  split
  · split
    · split
      · exact h
      · exact h.congr rfl rfl rfl
    · exact h
    · exact h.congr rfl rfl rfl
    · exact h
  · exact h

theorem outputImage_tidy {s : Settings} {env : Env κ} {c : Dec κ} (h : Tidy s c) {x} (e : outputImage s env c = some x) : Tidy s x.1 := by
  unfold outputImage at e
  split at e
  · split at e
    · cases e
    · cases e; exact h.congr rfl rfl rfl
  · split at e
    · cases e
    · cases e; exact h.congr rfl rfl rfl

theorem genLoop_tidy {s : Settings} {env : Env κ} (n : Nat) : ∀ {c : Dec κ}, Tidy s c → Inv s env c → c.out = none → ∀ {pkt : Packet}, pkt.data.length = n → pkt.data ≠ [] →
    ∀ {x}, genLoop s env c pkt = some x → Tidy s x.1 := by
  induction n using Nat.strong_induction_on with
  | _ n ih =>
    intro c h hi hout pkt hk hp x e
    obtain ⟨⟨d, r⟩, e1, hi2, hn⟩ := hi.parseObus hout hp
    have ht := parseObus_tidy h hi hp e1
    dsimp only at ht hi2
    rw [genLoop, e1] at e
    cases r with
    | error er =>
      dsimp only at e
      have h4 := outputReady_tidy (c := { d with input := none }) (by exact ht.congr rfl rfl rfl) false
      generalize outputReady s { d with input := none } false = y at e h4
      obtain ⟨b, f⟩ := y
      cases b <;> (cases e; exact h4)
    | ok m =>
      dsimp only at e
      have hm := hn m rfl
      rw [dif_pos hm] at e
      have h4 := outputReady_tidy (c := { d with input := pkt.advance m }) (by exact ht.congr rfl rfl rfl) false
      have hi3 : Inv s env { d with input := pkt.advance m } := Inv.setInput hi2 _ advance_ne
      have hi4 := hi3.outputReady false
      generalize outputReady s { d with input := pkt.advance m } false = y at e h4 hi4
      obtain ⟨b, f⟩ := y
      cases b with
      | true => cases e; exact h4
      | false =>
        rcases hi4 with ⟨_, a2, a3, _⟩ | ⟨a1, _⟩
        · dsimp only at e a2 a3
          split at e
          · cases e; exact h4
          · rename_i hlt
            refine ih (pkt.data.drop m).length (by simp; omega) h4 a2 a3 rfl ?_ e
            intro h0
            have := congrArg List.length h0
            simp at this; omega
        · cases a1

theorem genPicture_tidy {s : Settings} {env : Env κ} {c : Dec κ} (h : Tidy s c) (hi : Inv s env c) {x} (e : genPicture s env c = some x) : Tidy s x.1 := by
  unfold genPicture at e
  have h4 := outputReady_tidy h false
  have hi4 := hi.outputReady false
  generalize outputReady s c false = y at e h4 hi4
  obtain ⟨b, f⟩ := y
  cases b with
  | true => cases e; exact h4
  | false =>
    rcases hi4 with ⟨_, a2, a3, _⟩ | ⟨a1, _⟩
    · dsimp only at e a2 a3
      split at e
      · cases e; exact h4
      · rename_i p hp
        exact genLoop_tidy _ h4 a2 a3 rfl (a2.input p hp) e
    · cases a1

def StepTidy (s : Settings) : DrainStep κ → Prop
  | .stop c => Tidy s c
  | .next c _ => Tidy s c
  | .done c _ => Tidy s c
  | .undef => True

theorem drainStep_tidy {s : Settings} {env : Env κ} {c : Dec κ} (hn : s.nFc ≠ 1) (h : Tidy s c) (d : Bool) : StepTidy s (drainStep s env c d) := by
  unfold drainStep
  dsimp only
  split
  · exact h
  split
  · exact Tidy.setSlot (by exact h.advance.congr rfl rfl rfl) hn h.next _
  split
  · exact h.advance
  split
  · exact trivial
  · rename_i p _ _ f hf
    have h1 := showDelayed_tidy (Tidy.setSlot h.advance hn h.next _) hf
    have h2 := outputReady_tidy h1 false
    generalize outputReady s f false = y at h2 ⊢
    obtain ⟨b, g⟩ := y
    cases b with
    | false => exact h2
    | true =>
      dsimp only
      split
      · exact trivial
      · rename_i hg
        exact outputImage_tidy h2 hg

theorem drainLoop_tidy {s : Settings} {env : Env κ} (hn : s.nFc ≠ 1) (n : Nat) : ∀ {c : Dec κ}, Tidy s c → ∀ d : Bool, StepTidy s (drainLoop s env n c d) := by
  induction n with
  | zero => intro c h d; exact h
  | succ n ih =>
    intro c h d
    have h1 := drainStep_tidy (env := env) hn h d
    unfold drainLoop
    generalize drainStep s env c d = x at h1 ⊢
    cases x with
    | next c d => exact ih h1 d
    | stop c => exact h1
    | done c r => exact h1
    | undef => exact h1

theorem drainPicture_tidy {s : Settings} {env : Env κ} {c : Dec κ} (hn : s.nFc ≠ 1) (h : Tidy s c) {x} (e : drainPicture s env c = some x) : Tidy s x.1 := by
  unfold drainPicture at e
  have h1 := drainLoop_tidy (env := env) hn s.nFc h false
  generalize drainLoop s env s.nFc c false = y at h1 e
  cases y with
  | undef => cases e
  | next c d => cases e
  | done c r => cases e; exact h1
  | stop c =>
    dsimp only at e
    have h2 := outputReady_tidy (show Tidy s c from h1) true
    generalize outputReady s c true = z at e h2
    obtain ⟨b, g⟩ := z
    cases b with
    | true => exact outputImage_tidy h2 e
    | false => cases e; exact h2

theorem flush_tidy {s : Settings} {c : Dec κ} (h : Tidy s c) : Tidy s (flush s c) := by
  have h0 := h.next
  refine ⟨fun i hi => ?_, fun i hi => ?_, ?_⟩
  · simp only [flush]; rw [if_neg (by omega)]; exact h.refs i hi
  · simp only [flush]
    split
    · dsimp only
      split
      · rfl
      · exact h.ring i hi
    · exact h.ring i hi
  · simp only [flush]; split <;> omega

theorem call_tidy {s : Settings} {env : Env κ} {c : Dec κ} (h : Tidy s c) (hi : Inv s env c) {a : Call} {x} (e : call s env c a = some x) : Tidy s x.1 := by
  cases a with
  | flush => cases e; exact flush_tidy h
  | events => cases e; exact h.congr rfl rfl rfl
  | errorProps => cases e; exact h.congr rfl rfl rfl
  | send pkt =>
    simp only [call] at e
    rw [Option.map_eq_some_iff] at e
    obtain ⟨y, e, rfl⟩ := e
    dsimp only
    unfold sendData at e
    split at e
    · cases e; exact h
    rename_i hv
    have hi' : Inv s env (if pkt.isSome = true then { c with drain := false } else c) := by
      split
      · exact ⟨hi.seq, hi.op, hi.refs, hi.hdr, hi.limit, hi.hdrFor, hi.cover, hi.decoded, hi.out, hi.cache, hi.sync, hi.pics, hi.skipped, hi.slots, hi.input⟩
      · exact hi
    have h' : Tidy s (if pkt.isSome = true then { c with drain := false } else c) := by
      split
      · exact h.congr rfl rfl rfl
      · exact h
    generalize (if pkt.isSome = true then { c with drain := false } else c : Dec κ) = d at hi' h' e
    dsimp only at e
    split at e
    · cases e; exact h'
    · have hi3 : Inv s env { d with input := pkt } := hi'.setInput pkt (fun x hx h0 => hv (by rw [hx]; simp [h0]))
      split at e
      · cases e
      · rename_i hg; cases e; exact genPicture_tidy (c := { d with input := pkt }) (by exact h'.congr rfl rfl rfl) hi3 hg
      · rename_i hg; cases e; exact genPicture_tidy (c := { d with input := pkt }) (by exact h'.congr rfl rfl rfl) hi3 hg
  | get =>
    simp only [call] at e
    rw [Option.map_eq_some_iff] at e
    obtain ⟨y, e, rfl⟩ := e
    dsimp only
    unfold getPicture at e
    dsimp only at e
    have hi2 : Inv s env { c with drain := true } :=
      ⟨hi.seq, hi.op, hi.refs, hi.hdr, hi.limit, hi.hdrFor, hi.cover, hi.decoded, hi.out, hi.cache, hi.sync, hi.pics, hi.skipped, hi.slots, hi.input⟩
    split at e
    · cases e
    · rename_i hg; cases e; exact genPicture_tidy (c := { c with drain := true }) (by exact h.congr rfl rfl rfl) hi2 hg
    · rename_i d hg
      have h1 := genPicture_tidy (c := { c with drain := true }) (by exact h.congr rfl rfl rfl) hi2 hg
      dsimp only at h1
      split at e
      · cases e; exact h1.congr rfl rfl rfl
      · have h2 := outputReady_tidy h1 (s.nFc == 1)
        generalize outputReady s d (s.nFc == 1) = z at e h2
        obtain ⟨b, g⟩ := z
        cases b with
        | true => exact outputImage_tidy h2 e
        | false =>
          dsimp only at e
          split at e
          · rename_i hd
            exact drainPicture_tidy (by omega) h2 e
          · cases e; exact h2

theorem session_tidy {s : Settings} {env : Env κ} (l : List Call) : ∀ {c : Dec κ}, Tidy s c → Inv s env c → ∀ {x}, session s env c l = some x → Tidy s x.1 := by
  induction l with
  | nil => intro c h hi x e; cases e; exact h
  | cons a l ih =>
    intro c h hi x e
    obtain ⟨y, e1, hi2⟩ := hi.call a
    have h2 := call_tidy h hi e1
    obtain ⟨d, r⟩ := y
    simp only [session, e1] at e
    rw [Option.map_eq_some_iff] at e
    obtain ⟨z, e, rfl⟩ := e
    exact ih (x := z) h2 hi2 e

theorem Reachable.tidy {s : Settings} {env : Env κ} {c : Dec κ} (h : Reachable s env c) (hf : 0 < s.nFc) : Tidy s c := by
  obtain ⟨l, r, e⟩ := h
  exact session_tidy l (c := Dec.init) ⟨fun _ _ => rfl, fun _ _ => rfl, hf⟩ (Inv.init s env) e

/-! ## A decoder that waits for a sequence header -/

/-- The data starts with a sequence header OBU that is accepted. -/
def NewSeqHdr (s : Settings) (data : List UInt8) : Prop :=
  ∃ o rest q, splitObu data = some (o, rest) ∧ o.type = 1 ∧ (s.strict && obuForbidden data) = false ∧
    ((OptionT.run (parseSeqHdr s.strict)).run (BitSt.init o.payload)).1 = some q

/-- The data begins with a temporal delimiter and an accepted sequence header, or, if `b` is not set, just
with an accepted sequence header. -/
def NewStream (s : Settings) (b : Bool) (data : List UInt8) : Prop :=
  (b = false ∧ NewSeqHdr s data) ∨
  ∃ o rest, splitObu data = some (o, rest) ∧ o.type = 2 ∧ (s.strict && obuForbidden data) = false ∧ NewSeqHdr s rest

/-- The first packet sent begins that way. -/
def FirstData (s : Settings) (b : Bool) : List Call → Prop
  | [] => True
  | .send (some p) :: l => if p.data = [] ∨ 2 ^ 63 ≤ p.data.length then FirstData s b l else NewStream s b p.data
  | _ :: l => FirstData s b l

/-- Nothing is held. -/
structure Idle (c : Dec κ) : Prop where
  seq : c.seq = none
  hdr : c.frameHdr = none
  refs : ∀ i, c.refs i = {}
  info : c.info = {}
  cachedError : c.cachedError = none
  out : c.out = none
  cache : c.cache = none
  ring : ∀ i, c.ring i = {}

/-- Two such contexts that differ in the operating point, in flags, and in the numbers of the frames. -/
structure Wait (k : Nat) (c' c : Dec κ) : Prop where
  left : Idle c'
  right : Idle c
  errProps : c'.errProps = c.errProps
  next : c'.next = c.next
  input : c'.input = c.input
  drain : c'.drain = c.drain
  submitted : c'.submitted = c.submitted + k

theorem Idle.ready {s : Settings} {c : Dec κ} (h : Idle c) (d : Bool) : outputReady s c d = (false, c) := by
  unfold outputReady
  rw [h.cachedError, h.out, h.cache]
  simp

theorem Idle.drainLoop {s : Settings} {env : Env κ} (n : Nat) : ∀ {c : Dec κ}, Idle c →
    drainLoop s env n c false = .stop { c with next := (ringNext s.nFc)^[n] c.next } := by
  induction n with
  | zero => intro c h; rfl
  | succ n ih =>
    intro c h
    have h1 : drainStep s env c false = .next { c with next := ringNext s.nFc c.next } false := by
      unfold drainStep
      dsimp only
      rw [h.ring]
      rfl
    unfold Dav1d.drainLoop
    rw [h1]
    dsimp only
    exact ih (c := { c with next := ringNext s.nFc c.next }) ⟨h.seq, h.hdr, h.refs, h.info, h.cachedError, h.out, h.cache, h.ring⟩

theorem Idle.get {s : Settings} {env : Env κ} {c : Dec κ} (h : Idle c) (hin : c.input = none) :
    getPicture s env c = some ({ c with drain := true, next := if s.nFc > 1 ∧ c.drain = true then (ringNext s.nFc)^[s.nFc] c.next else c.next }, .error .EAGAIN) := by
  have h1 : Idle ({ c with drain := true } : Dec κ) := ⟨h.seq, h.hdr, h.refs, h.info, h.cachedError, h.out, h.cache, h.ring⟩
  have h2 : genPicture s env { c with drain := true } = some ({ c with drain := true }, none) := by
    unfold genPicture
    rw [h1.ready]
    simp only [hin]
  have h5 : ∀ d : Dec κ, d = { c with drain := true } → d.cachedError = none → drainPicture s env d =
      some ({ c with drain := true, next := (ringNext s.nFc)^[s.nFc] c.next }, .error .EAGAIN) := by
    intro d hd _
    subst hd
    unfold drainPicture
    rw [h1.drainLoop]
    dsimp only
    have h3 : Idle ({ c with drain := true, next := (ringNext s.nFc)^[s.nFc] c.next } : Dec κ) := ⟨h.seq, h.hdr, h.refs, h.info, h.cachedError, h.out, h.cache, h.ring⟩
    have h4 := h3.ready (s := s) true
    rw [h4]
  unfold getPicture
  dsimp only
  rw [h2]
  dsimp only
  have h6 := h1.ready (s := s) (s.nFc == 1)
  have h7 : ({ c with drain := true } : Dec κ).cachedError = none := h.cachedError
  have h8 := h5 _ rfl h7
  by_cases hx : s.nFc > 1 ∧ c.drain = true
  · simp only [if_pos hx]
    generalize ({ c with drain := true } : Dec κ) = d at h6 h7 h8 ⊢
    split
    · rename_i e; rw [h.cachedError] at e; cases e
    · rw [h6]; exact h8
  · simp only [if_neg hx]
    generalize ({ c with drain := true } : Dec κ) = d at h6 h7 h8 ⊢
    split
    · rename_i e; rw [h.cachedError] at e; cases e
    · rw [h6]

theorem Idle.sendNone {s : Settings} {env : Env κ} {c : Dec κ} (h : Idle c) (hin : c.input = none) :
    sendData s env c none = some ⟨c, none, none⟩ := by
  have h1 : Idle ({ c with input := none } : Dec κ) := ⟨h.seq, h.hdr, h.refs, h.info, h.cachedError, h.out, h.cache, h.ring⟩
  have h2 : ({ c with input := none } : Dec κ) = c := by rw [← hin]
  unfold sendData
  simp only [Option.any_none, Bool.false_eq_true, if_false, Option.isSome_none, hin]
  rw [h2]
  unfold genPicture
  rw [h.ready]
  simp only [hin]

theorem sendData_bad {s : Settings} {env : Env κ} {c : Dec κ} {p : Packet} (h : p.data = [] ∨ 2 ^ 63 ≤ p.data.length) :
    sendData s env c (some p) = some ⟨c, some .EINVAL, some p⟩ := by
  unfold sendData
  rw [if_pos]
  simp only [Option.any_some, Bool.or_eq_true, List.isEmpty_iff, decide_eq_true_eq]
  exact h

theorem Idle.flush {s : Settings} {c : Dec κ} (h : Idle c) : Idle (flush s c) := by
  refine ⟨rfl, rfl, fun i => ?_, rfl, rfl, rfl, rfl, fun i => ?_⟩
  · simp only [Dav1d.flush]; split
    · rfl
    · exact h.refs i
  · simp only [Dav1d.flush]
    split
    · dsimp only; split
      · rfl
      · exact h.ring i
    · exact h.ring i

theorem hdrOf_type {data : List UInt8} {o rest} (h : splitObu data = some (o, rest)) : (obuHdrOf data).type = o.type := by
  unfold splitObu at h
  split at h
  · cases h
  · rename_i b d
    split at h
    · cases h
    · have : o.type = obuType b := by
        dsimp only at h
        split at h
        · rw [Option.map_eq_some_iff] at h
          obtain ⟨x, _, h⟩ := h
          cases h; rfl
        · cases h; rfl
      rw [this]
      cases d with
      | nil => rfl
      | cons x d => simp only [obuHdrOf]; split <;> rfl

/-- The first OBU is a temporal delimiter. -/
theorem parse_td {s : Settings} {env : Env κ} {c : Dec κ} (hc : DecOk c) (hf : c.frameHdr = none) {pkt : Packet} {o rest} (h : splitObu pkt.data = some (o, rest)) (ht : o.type = 2)
    (hb : (s.strict && obuForbidden pkt.data) = false) :
    parseObus s env c pkt = some ({ c with frameFlags := { c.frameFlags with newTu := true } }, .ok (pkt.data.length - rest.length)) := by
  have hp : pkt.data ≠ [] := by intro h0; rw [h0] at h; cases h
  rw [parseObus_eq s env hc pkt hp]
  have hd : dropObu c.opIdc (obuHdrOf pkt.data) = false := by
    unfold dropObu
    rw [hdrOf_type h, ht]; simp
  unfold stepObu
  rw [h]
  dsimp only
  rw [hb, hd, ht]
  have : obuCase s c 2 (obuHdrOf pkt.data).temporalId (obuHdrOf pkt.data).spatialId pkt.props =
      pure (some ({ c with frameFlags := { c.frameFlags with newTu := true } }, none)) := by
    unfold obuCase; simp
  rw [this]
  simp only [Bool.false_eq_true, if_false, Prog.run_pure]
  unfold finishObu
  dsimp only
  rw [hf]
  cases c.seq <;> rfl

/-- The first OBU is a sequence header. -/
theorem parse_seq {s : Settings} {env : Env κ} {c : Dec κ} (hc : DecOk c) (hs : c.seq = none) {pkt : Packet} {o rest q} (h : splitObu pkt.data = some (o, rest)) (ht : o.type = 1)
    (hb : (s.strict && obuForbidden pkt.data) = false) (hq : ((OptionT.run (parseSeqHdr s.strict)).run (BitSt.init o.payload)).1 = some q) :
    parseObus s env c pkt = some (activateSeq s c q, .ok (pkt.data.length - rest.length)) := by
  have hp : pkt.data ≠ [] := by intro h0; rw [h0] at h; cases h
  rw [parseObus_eq s env hc pkt hp]
  have hd : dropObu c.opIdc (obuHdrOf pkt.data) = false := by
    unfold dropObu
    rw [hdrOf_type h, ht]; simp
  unfold stepObu
  rw [h]
  dsimp only
  rw [hb, hd, ht]
  have : ((obuCase s c 1 (obuHdrOf pkt.data).temporalId (obuHdrOf pkt.data).spatialId pkt.props).run (BitSt.init o.payload)).1 =
      some (activateSeq s c q, none) := by
    unfold obuCase
    rw [if_pos rfl]
    unfold seqCase
    rw [Prog.run_bind, hq]
    rfl
  rw [this]
  have hf : (activateSeq s c q).frameHdr = none := by unfold activateSeq; dsimp only; rw [hs]
  have hfin : ∀ d : Dec κ, d.frameHdr = none → finishObu s env d pkt.props = some (d, none) := by
    intro d hd
    unfold finishObu
    rw [hd]
    cases d.seq <;> rfl
  simp only [Bool.false_eq_true, if_false]
  rw [hfin _ hf]

theorem Idle.decOk {c : Dec κ} (h : Idle c) : DecOk c :=
  ⟨fun q hq => (by rw [h.seq] at hq; cases hq), fun i x hx => (by rw [h.refs] at hx; cases hx), fun x hx => (by rw [h.hdr] at hx; cases hx)⟩

theorem Wait.activate {s : Settings} {k : Nat} {c' c : Dec κ} (h : Wait k c' c) (hf : c'.frameFlags.newTu = c.frameFlags.newTu) (q : SeqHdr) :
    Sim k (activateSeq s c' q) (activateSeq s c q) := by
  unfold Sim activateSeq
  dsimp only
  rw [h.left.seq, h.right.seq]
  simp only [Dec.er, heldOr, PicFlags.er, hf, h.errProps, h.next, h.input, h.drain, h.submitted, h.left.info, h.right.info, h.left.cachedError,
    h.right.cachedError, h.left.out, h.right.out, h.left.cache, h.right.cache, h.left.refs, h.right.refs, h.left.ring, h.right.ring, Nat.add_zero]

theorem Wait.genSeq {s : Settings} {env : Env κ} (hb : FlagBlind env) {k : Nat} {c' c : Dec κ} (h : Wait k c' c) (hi : Inv s (env.from k) c)
    (hf : c'.frameFlags.newTu = c.frameFlags.newTu) {pkt : Packet} (hs : NewSeqHdr s pkt.data) :
    erR 0 (genLoop s env c' pkt) = erR k (genLoop s (env.from k) c pkt) := by
  obtain ⟨o, rest, q, h1, h2, h3, h4⟩ := hs
  have hp : pkt.data ≠ [] := by intro h0; rw [h0] at h1; cases h1
  refine genLoop_of hp hi h.right.out ?_ ?_
  · rw [parse_seq h.left.decOk h.left.seq h1 h2 h3 h4, parse_seq h.right.decOk h.right.seq h1 h2 h3 h4]
    have := h.activate (s := s) hf q
    have : _ = _ := this
    simp only [erR, Option.map_some, this]
  · intro m hm h0 d' d h4 a2 a3
    refine Sim.genLoop hb _ h4 a2 a3 rfl ?_
    intro h0
    have := congrArg List.length h0
    simp at this; omega

theorem Idle.genTd {s : Settings} {env : Env κ} {c : Dec κ} (h : Idle c) {pkt : Packet} {o rest} (h1 : splitObu pkt.data = some (o, rest)) (ht : o.type = 2)
    (hb : (s.strict && obuForbidden pkt.data) = false) (hr : rest ≠ []) :
    genLoop s env c pkt = genLoop s env { c with frameFlags := { c.frameFlags with newTu := true }, input := some { pkt with data := rest } } { pkt with data := rest } := by
  have hlen := splitObu_length h1
  obtain ⟨pre, hpre⟩ := splitObu_suffix h1
  have hdrop : pkt.data.drop (pkt.data.length - rest.length) = rest := by
    have : pkt.data.length - rest.length = pre.length := by rw [← hpre]; simp
    rw [this, ← hpre]; simp
  have hadv : pkt.advance (pkt.data.length - rest.length) = some { pkt with data := rest } := by
    unfold Packet.advance
    rw [hdrop, if_neg hr]
  rw [genLoop, parse_td h.decOk h.hdr h1 ht hb]
  dsimp only
  have h0 : 0 < rest.length := List.length_pos_iff.2 hr
  rw [dif_pos ⟨by omega, by omega⟩]
  have h2 : Idle ({ c with frameFlags := { c.frameFlags with newTu := true }, input := pkt.advance (pkt.data.length - rest.length) } : Dec κ) :=
    ⟨h.seq, h.hdr, h.refs, h.info, h.cachedError, h.out, h.cache, h.ring⟩
  have h3 := h2.ready (s := s) false
  dsimp only at h3
  rw [h3]
  dsimp only
  rw [if_neg (by omega), hdrop, hadv]

theorem Wait.sendFirst {s : Settings} {env : Env κ} (hb : FlagBlind env) {k : Nat} {c' c : Dec κ} (h : Wait k c' c) (hi : Inv s (env.from k) c) (hin : c.input = none)
    {b : Bool} (hf : b = false → c'.frameFlags.newTu = c.frameFlags.newTu) {p : Packet} (hp : ¬ (p.data = [] ∨ 2 ^ 63 ≤ p.data.length)) (hs : NewStream s b p.data) :
    (sendData s env c' (some p)).map (fun r => (r.ctx.er 0, r.res, r.left)) = (sendData s (env.from k) c (some p)).map (fun r => (r.ctx.er k, r.res, r.left)) := by
  have key : erR 0 (genPicture s env { c' with drain := false, input := some p }) = erR k (genPicture s (env.from k) { c with drain := false, input := some p }) := by
    have i1 : Idle ({ c' with drain := false, input := some p } : Dec κ) := ⟨h.left.seq, h.left.hdr, h.left.refs, h.left.info, h.left.cachedError, h.left.out, h.left.cache, h.left.ring⟩
    have i2 : Idle ({ c with drain := false, input := some p } : Dec κ) := ⟨h.right.seq, h.right.hdr, h.right.refs, h.right.info, h.right.cachedError, h.right.out, h.right.cache, h.right.ring⟩
    unfold genPicture
    rw [i1.ready, i2.ready]
    dsimp only
    have hi2 : ∀ (f : PicFlags) (x : Option Packet), (∀ y, x = some y → y.data ≠ []) → Inv s (env.from k) ({ c with drain := false, input := x, frameFlags := f } : Dec κ) := fun f x hx =>
      ⟨hi.seq, hi.op, hi.refs, hi.hdr, hi.limit, hi.hdrFor, hi.cover, hi.decoded, hi.out, hi.cache, hi.sync, hi.pics, hi.skipped, hi.slots, hx⟩
    rcases hs with ⟨rfl, hs⟩ | ⟨o, rest, h1, ht, hb2, hs⟩
    · refine Wait.genSeq hb ⟨i1, i2, h.errProps, h.next, rfl, rfl, h.submitted⟩ (hi2 c.frameFlags _ ?_) (hf rfl) hs
      intro y hy; cases hy; intro h0; exact hp (Or.inl h0)
    · have hr : rest ≠ [] := by
        obtain ⟨o, r, q, h1, _⟩ := hs
        intro h0; rw [h0] at h1; cases h1
      rw [i1.genTd h1 ht hb2 hr, i2.genTd h1 ht hb2 hr]
      refine Wait.genSeq (pkt := { p with data := rest })
        (c' := { c' with drain := false, frameFlags := { c'.frameFlags with newTu := true }, input := some { p with data := rest } })
        (c := { c with drain := false, frameFlags := { c.frameFlags with newTu := true }, input := some { p with data := rest } })
        hb ⟨?_, ?_, h.errProps, h.next, rfl, rfl, h.submitted⟩ (hi2 _ _ ?_) rfl hs
      · exact ⟨h.left.seq, h.left.hdr, h.left.refs, h.left.info, h.left.cachedError, h.left.out, h.left.cache, h.left.ring⟩
      · exact ⟨h.right.seq, h.right.hdr, h.right.refs, h.right.info, h.right.cachedError, h.right.out, h.right.cache, h.right.ring⟩
      · intro y hy; cases hy; exact hr
  have hv : ¬ (Option.any (fun p : Packet => p.data.isEmpty || decide (2 ^ 63 ≤ p.data.length)) (some p) = true) := by
    simp only [Option.any_some, Bool.or_eq_true, List.isEmpty_iff, decide_eq_true_eq]
    exact hp
  have hin' : c'.input = none := h.input.trans hin
  unfold sendData
  rw [if_neg hv, if_neg hv]
  simp only [Option.isSome_some, if_true, hin, hin', Option.isSome_none, Bool.false_eq_true, if_false]
  generalize genPicture s env { c' with drain := false, input := some p } = y' at key ⊢
  generalize genPicture s (env.from k) { c with drain := false, input := some p } = y at key ⊢
  cases y' with
  | none => cases y with
    | none => rfl
    | some y => cases key
  | some y' => cases y with
    | none => cases key
    | some y =>
      obtain ⟨f', e'⟩ := y'
      obtain ⟨f, e⟩ := y
      simp only [erR, Option.map_some, Option.some.injEq, Prod.mk.injEq] at key
      obtain ⟨h7, rfl⟩ := key
      cases e' <;> simp only [Option.map_some, h7]

/-- Contexts waiting for a sequence header give the same replies once it comes. -/
theorem Wait.session {s : Settings} {env : Env κ} (hb : FlagBlind env) {k : Nat} {b : Bool} (l : List Call) : ∀ {c' c : Dec κ}, Wait k c' c → c.input = none →
    (b = false → c'.frameFlags.newTu = c.frameFlags.newTu) → Inv s (env.from k) c → FirstData s b l →
    ∃ d' d rs' rs, Dav1d.session s env c' l = some (d', rs') ∧ Dav1d.session s (env.from k) c l = some (d, rs) ∧ rs'.map Reply.er = rs.map Reply.er := by
  induction l with
  | nil => intro c' c h _ _ _ _; exact ⟨c', c, [], [], rfl, rfl, rfl⟩
  | cons a l ih =>
    intro c' c h hin hf hi hl
    have hin' : c'.input = none := h.input.trans hin
    have cont : ∀ {d' d : Dec κ} {r' r : Reply κ}, Dav1d.call s env c' a = some (d', r') → Dav1d.call s (env.from k) c a = some (d, r) → r'.er = r.er →
        Wait k d' d → d.input = none → (b = false → d'.frameFlags.newTu = d.frameFlags.newTu) → FirstData s b l →
        ∃ d' d rs' rs, Dav1d.session s env c' (a :: l) = some (d', rs') ∧ Dav1d.session s (env.from k) c (a :: l) = some (d, rs) ∧ rs'.map Reply.er = rs.map Reply.er := by
      intro d' d r' r e' e hr hw hd hff hfd
      obtain ⟨y, e1, hi2⟩ := hi.call a
      rw [e] at e1; cases e1
      obtain ⟨f', f, rs', rs, g1, g2, g3⟩ := ih hw hd hff hi2 hfd
      refine ⟨f', f, r' :: rs', r :: rs, ?_, ?_, ?_⟩
      · simp only [Dav1d.session, e', g1, Option.map_some]
      · simp only [Dav1d.session, e, g2, Option.map_some]
      · simp only [List.map_cons, hr, g3]
    cases a with
    | send p =>
      cases p with
      | none =>
        refine cont (d' := c') (d := c) (r' := .sent none none) (r := .sent none none) ?_ ?_ rfl h hin hf hl
        · simp only [Dav1d.call, h.left.sendNone hin', Option.map_some]
        · simp only [Dav1d.call, h.right.sendNone hin, Option.map_some]
      | some p =>
        unfold FirstData at hl
        by_cases hp : p.data = [] ∨ 2 ^ 63 ≤ p.data.length
        · rw [if_pos hp] at hl
          refine cont (d' := c') (d := c) (r' := .sent (some .EINVAL) (some p)) (r := .sent (some .EINVAL) (some p)) ?_ ?_ rfl h hin hf hl
          · simp only [Dav1d.call, sendData_bad hp, Option.map_some]
          · simp only [Dav1d.call, sendData_bad hp, Option.map_some]
        · rw [if_neg hp] at hl
          have key := h.sendFirst hb hi hin hf hp hl
          obtain ⟨y, e1, hi2⟩ := hi.call (.send (some p))
          obtain ⟨x, e2, _⟩ := hi.sendData (some p)
          simp only [Dav1d.call, e2, Option.map_some] at e1
          cases e1
          rw [e2] at key
          cases e3 : Dav1d.sendData s env c' (some p) with
          | none => rw [e3] at key; cases key
          | some x' =>
            rw [e3] at key
            simp only [Option.map_some, Option.some.injEq, Prod.mk.injEq] at key
            obtain ⟨f', f, rs', rs, g1, g2, _, g4⟩ := Sim.session hb l (show Sim k x'.ctx x.ctx from key.1) hi2
            refine ⟨f', f, .sent x'.res x'.left :: rs', .sent x.res x.left :: rs, ?_, ?_, ?_⟩
            · simp only [Dav1d.session, Dav1d.call, e3, g1, Option.map_some]
            · simp only [Dav1d.session, Dav1d.call, e2, g2, Option.map_some]
            · simp only [List.map_cons, key.2.1, key.2.2, g4]
    | get =>
      refine cont (d' := { c' with drain := true, next := if s.nFc > 1 ∧ c'.drain = true then (ringNext s.nFc)^[s.nFc] c'.next else c'.next })
        (d := { c with drain := true, next := if s.nFc > 1 ∧ c.drain = true then (ringNext s.nFc)^[s.nFc] c.next else c.next })
        (r' := .got (.error .EAGAIN)) (r := .got (.error .EAGAIN)) (by simp only [Dav1d.call, h.left.get hin', Option.map_some])
        (by simp only [Dav1d.call, h.right.get hin, Option.map_some]) rfl ?_ hin hf hl
      refine ⟨⟨h.left.seq, h.left.hdr, h.left.refs, h.left.info, h.left.cachedError, h.left.out, h.left.cache, h.left.ring⟩,
        ⟨h.right.seq, h.right.hdr, h.right.refs, h.right.info, h.right.cachedError, h.right.out, h.right.cache, h.right.ring⟩, h.errProps, ?_, h.input, rfl, h.submitted⟩
      dsimp only
      rw [h.drain, h.next]
    | flush =>
      refine cont (d' := Dav1d.flush s c') (d := Dav1d.flush s c) (r' := .flushed) (r := .flushed) rfl rfl rfl ?_ rfl hf hl
      refine ⟨h.left.flush, h.right.flush, rfl, ?_, rfl, rfl, h.submitted⟩
      simp only [Dav1d.flush, h.next]
    | events =>
      refine cont (d' := (getEventFlags c').1) (d := (getEventFlags c).1) rfl rfl rfl ?_ hin hf hl
      exact ⟨⟨h.left.seq, h.left.hdr, h.left.refs, h.left.info, h.left.cachedError, h.left.out, h.left.cache, h.left.ring⟩,
        ⟨h.right.seq, h.right.hdr, h.right.refs, h.right.info, h.right.cachedError, h.right.out, h.right.cache, h.right.ring⟩, h.errProps, h.next, h.input, h.drain, h.submitted⟩
    | errorProps =>
      refine cont (d' := (getErrorProps c').1) (d := (getErrorProps c).1) rfl rfl (by simp only [getErrorProps, h.errProps]) ?_ hin hf hl
      exact ⟨⟨h.left.seq, h.left.hdr, h.left.refs, h.left.info, h.left.cachedError, h.left.out, h.left.cache, h.left.ring⟩,
        ⟨h.right.seq, h.right.hdr, h.right.refs, h.right.info, h.right.cachedError, h.right.out, h.right.cache, h.right.ring⟩, rfl, h.next, h.input, h.drain, h.submitted⟩

end Dav1d
