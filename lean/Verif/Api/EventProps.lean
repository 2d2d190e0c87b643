import Verif.Api.FlagLemmas
/-!
# C27: event flags
-/
namespace Dav1d
open HProg
variable {κ : Type}

/-! ## Specification -/

/-- The event flags of the pictures among some replies: new sequence, new operating parameters. -/
def flagsOf (rs : List (Reply κ)) : Bool × Bool :=
  (rs.any fun r => match r with | .got (.ok p) => p.flags.newSeq | _ => false,
   rs.any fun r => match r with | .got (.ok p) => p.flags.newOp | _ => false)

/-- Calls other than dav1d_flush and dav1d_get_event_flags. -/
def Call.NoQuery : Call → Prop
  | .flush => False
  | .events => False
  | _ => True

/-- The reply reports no error (EAGAIN is none). -/
def Reply.Fine : Reply κ → Prop
  | .sent (some e) _ => e = .EAGAIN
  | .got (.error e) => e = .EAGAIN
  | _ => True

/-- A position in a packet: from state `d` with the bytes `l` to go, after some OBUs, with the pictures `ps` shown by
them, the state is `d'` and the bytes `r` are left. -/
inductive Reaches (s : Settings) (env : Env κ) (props : Props) : Dec κ → List UInt8 → List (Pic κ) → Dec κ → List UInt8 → Prop
  | here (d l) : Reaches s env props d l [] d l
  | next {d l d1 p rest ps d2 r} : l ≠ [] → seqStep s env d ⟨l, props⟩ = (d1, .ok (p, rest)) → rest.length < l.length →
      Reaches s env props d1 rest ps d2 r → Reaches s env props d l (p.toList ++ ps) d2 r

/-- The bytes start with a sequence header OBU containing `q`. -/
def StartsSeq (s : Settings) (r : List UInt8) (q : SeqHdr) : Prop :=
  ∃ o rest, splitObu r = some (o, rest) ∧ o.type = 1 ∧ (s.strict && obuForbidden r) = false ∧
    ((parseSeqHdr s.strict).exec (BitSt.init o.payload)).1 = some q

/-! ## The union of the flags -/

/-- What dav1d_get_picture returned. -/
def Reply.gots : Reply κ → List (Except Err (Pic κ))
  | .got x => [x]
  | _ => []

theorem retFl_result (b : Bool) (rs : List (Reply κ)) : retFl b (rs.flatMap Reply.gots) ↔ evOf b (flagsOf rs) := by
  unfold retFl flagsOf evOf flOf
  constructor
  · rintro ⟨p, hp, hf⟩
    obtain ⟨r, hr, hx⟩ := List.mem_flatMap.1 hp
    cases r with
    | got x =>
      have hx : Except.ok p = x := by simpa [Reply.gots] using hx
      subst hx
      cases b <;>
      · refine List.any_eq_true.2 ⟨_, hr, hf⟩
    | _ => cases hx
  · intro h
    have : ∃ r ∈ rs, (match r with | .got (.ok p) => cond b p.flags.newSeq p.flags.newOp | _ => false) = true := by
      cases b <;> exact List.any_eq_true.1 h
    obtain ⟨r, hr, hx⟩ := this
    split at hx
    · rename_i p
      exact ⟨p, List.mem_flatMap.2 ⟨_, hr, by simp [Reply.gots]⟩, hx⟩
    · cases hx

theorem call_moves (b : Bool) {s : Settings} {env : Env κ} (hna : NoAgain env) {c : Dec κ} (hi : InvN s env c) {a : Call} (ha : a.NoQuery) {c' r}
    (e : call s env c a = some (c', r)) : Moves s b (s.allLayers = true ∧ r.Fine) c c' r.gots := by
  cases a with
  | flush => cases ha
  | events => cases ha
  | errorProps => cases e; exact Moves.refl s b _ rfl rfl rfl
  | send p =>
    obtain ⟨x, h1, h2⟩ := Option.map_eq_some_iff.1 e
    cases h2
    refine (sendData_moves b hna hi h1).imp (fun h => ⟨h.1, ?_⟩)
    have := h.2
    cases hx : x.res with
    | none => exact Or.inl rfl
    | some er => rw [hx] at this; exact Or.inr (by rw [show er = .EAGAIN from this])
  | get =>
    obtain ⟨x, h1, h2⟩ := Option.map_eq_some_iff.1 e
    cases h2
    refine (getPicture_moves b hna hi h1).imp (fun h => ⟨h.1, ?_⟩)
    have := h.2
    cases hx : x.2 with
    | ok _ => exact Or.inl rfl
    | error er => rw [hx] at this; exact Or.inr (by rw [show er = .EAGAIN from this]; rfl)

theorem session_moves (b : Bool) {s : Settings} {env : Env κ} (hna : NoAgain env) (l : List Call) : ∀ {c : Dec κ}, InvN s env c → (∀ a ∈ l, a.NoQuery) → ∀ {c' rs},
    session s env c l = some (c', rs) →
    Moves s b (s.allLayers = true ∧ ∀ r ∈ rs, r.Fine) c c' (rs.flatMap Reply.gots) := by
  induction l with
  | nil => intro c _ _ c' rs e; cases e; exact Moves.refl s b _ rfl rfl rfl
  | cons a l ih =>
    intro c hi hp c' rs e
    simp only [session] at e
    split at e
    · cases e
    rename_i c1 r1 h1
    obtain ⟨⟨c2, rs2⟩, h2, h3⟩ := Option.map_eq_some_iff.1 e
    cases h3
    have m1 := call_moves b hna hi (hp a (by simp)) h1
    have m2 := ih (call_pos hi h1) (fun x hx => hp x (by simp [hx])) h2
    rw [List.flatMap_cons]
    exact (m1.trans m2).imp (fun h => ⟨⟨h.1, h.2 r1 (by simp)⟩, h.1, fun r hr => h.2 r (by simp [hr])⟩)

/-- The cache is not used if all layers are returned. -/
theorem call_cache {s : Settings} {env : Env κ} (hna : NoAgain env) (hl : s.allLayers = true) {c : Dec κ} (hi : InvN s env c) (hc : c.cache = none) {a : Call} {c' r}
    (e : call s env c a = some (c', r)) : c'.cache = none := by
  by_cases ha : a.NoQuery
  · obtain ⟨_, _, _, _, h⟩ := call_moves true hna hi ha e
    rw [h hl]; exact hc
  · cases a with
    | flush => cases e; rfl
    | events => cases e; exact hc
    | _ => exact absurd trivial ha

theorem session_cache {s : Settings} {env : Env κ} (hna : NoAgain env) (hl : s.allLayers = true) (l : List Call) : ∀ {c : Dec κ}, InvN s env c → c.cache = none → ∀ {c' rs},
    session s env c l = some (c', rs) → c'.cache = none := by
  induction l with
  | nil => intro c _ hc c' rs e; cases e; exact hc
  | cons a l ih =>
    intro c hi hc c' rs e
    simp only [session] at e
    split at e
    · cases e
    rename_i c1 r1 h1
    obtain ⟨⟨c2, rs2⟩, h2, h3⟩ := Option.map_eq_some_iff.1 e
    cases h3
    exact ih (call_pos hi h1) (call_cache hna hl hi hc h1) h2

theorem evOf_ext {e f : Bool × Bool} (h : ∀ b, evOf b e ↔ evOf b f) : e = f := by
  obtain ⟨a, b⟩ := e
  obtain ⟨c, d⟩ := f
  have h1 := h true
  have h2 := h false
  simp only [evOf, cond] at h1 h2
  rw [Bool.eq_iff_iff.2 h1, Bool.eq_iff_iff.2 h2]

/-- dav1d_get_event_flags returns the union of the flags of the pictures returned since it was called last, if both
times dav1d_get_picture had just answered EAGAIN and no call in between reported an error. -/
theorem C27_union_partial {s : Settings} {env : Env κ} (hna : NoAgain env) (hl : s.allLayers = true) (hf : 0 < s.nFc) {l l' : List Call} (hl' : ∀ a ∈ l', a.NoQuery)
    {c c' : Dec κ} {rs rs' e e'} (h1 : session s env Dec.init (l ++ [.get, .events]) = some (c, rs ++ [.got (.error .EAGAIN), .events e]))
    (h2 : session s env c (l' ++ [.get, .events]) = some (c', rs' ++ [.got (.error .EAGAIN), .events e'])) (hfine : ∀ r ∈ rs', r.Fine) :
    e' = flagsOf rs' := by
  have key : ∀ {c c' : Dec κ} {l rs e}, InvN s env c → session s env c (l ++ [.get, .events]) = some (c', rs ++ [.got (.error .EAGAIN), .events e]) →
      ∃ c1, session s env c (l ++ [.get]) = some (c1, rs ++ [.got (.error .EAGAIN)]) ∧ c1.out = none ∧ c' = { c1 with eventFlags := (false, false) } ∧ e = c1.eventFlags := by
    intro c c' l rs e hi h
    rw [session_append] at h
    obtain ⟨⟨c2, rs2⟩, g1, g2⟩ := Option.bind_eq_some_iff.1 h
    obtain ⟨⟨c3, rs3⟩, g3, g4⟩ := Option.map_eq_some_iff.1 g2
    have hlen := session_length _ g3
    simp only [Prod.mk.injEq] at g4
    obtain ⟨rfl, g5⟩ := g4
    obtain ⟨rfl, rfl⟩ := List.append_inj' g5 (by rw [hlen]; rfl)
    have hi2 := session_pos _ hi g1
    simp only [session, call] at g3
    cases hg : getPicture s env c2 with
    | none => rw [hg] at g3; cases g3
    | some x =>
      obtain ⟨c1, r⟩ := x
      rw [hg] at g3
      simp only [Option.map_some, Option.some.injEq, Prod.mk.injEq, List.cons.injEq, Reply.got.injEq, Reply.events.injEq, and_true] at g3
      obtain ⟨g6, rfl, g7⟩ := g3
      refine ⟨c1, ?_, get_again_out hna hl hi2 hg, g6.symm, g7.symm⟩
      rw [session_append, g1, Option.bind_some]
      simp only [session, call, hg, Option.map_some]
  have hi0 : InvN s env (Dec.init : Dec κ) := Reachable.invN ⟨[], [], rfl⟩ hf
  obtain ⟨c1, k1, k2, rfl, rfl⟩ := key hi0 h1
  have hi1 : InvN s env { c1 with eventFlags := (false, false) } := session_pos _ hi0 h1
  obtain ⟨c3, m1, m2, rfl, rfl⟩ := key hi1 h2
  have hc1 : c1.cache = none := session_cache hna hl _ hi0 rfl k1
  have hc3 : c3.cache = none := session_cache hna hl _ hi1 hc1 m1
  refine evOf_ext fun b => ?_
  obtain ⟨n, a1, a2, a3, _⟩ := session_moves b hna _ hi1 (fun a ha => by
    rcases List.mem_append.1 ha with h | h
    · exact hl' a h
    · simp only [List.mem_singleton] at h; subst h; exact trivial) m1
  have a3 := a3 ⟨hl, fun r hr => by
    rcases List.mem_append.1 hr with h | h
    · exact hfine r h
    · simp only [List.mem_singleton] at h; subst h; exact rfl⟩
  rw [retFl_result] at a2 a3
  have hfl : flagsOf (rs' ++ [Reply.got (κ := κ) (.error .EAGAIN)]) = flagsOf rs' := by
    simp [flagsOf]
  rw [hfl] at a2 a3
  have h0 := oFl_none (κ := κ) b
  simp only [heldFl, k2, m2, hc1, hc3] at a2 a3
  have h00 : ¬ evOf b (false, false) := by cases b <;> simp [evOf]
  tauto

/-- Whatever layers are asked for and whatever errors occur: the first query reports the flags of all pictures
returned before. -/
theorem C27_never_missed {s : Settings} {env : Env κ} (hna : NoAgain env) (hf : 0 < s.nFc) {l : List Call} (hl : ∀ a ∈ l, a.NoQuery)
    {c' : Dec κ} {rs e} (h : session s env Dec.init (l ++ [.events]) = some (c', rs ++ [.events e])) :
    ((flagsOf rs).1 = true → e.1 = true) ∧ ((flagsOf rs).2 = true → e.2 = true) := by
  have hi0 : InvN s env (Dec.init : Dec κ) := Reachable.invN ⟨[], [], rfl⟩ hf
  rw [session_append] at h
  obtain ⟨⟨c2, rs2⟩, g1, g2⟩ := Option.bind_eq_some_iff.1 h
  obtain ⟨⟨c3, rs3⟩, g3, g4⟩ := Option.map_eq_some_iff.1 g2
  have hlen := session_length _ g3
  simp only [Prod.mk.injEq] at g4
  obtain ⟨rfl, g5⟩ := g4
  obtain ⟨rfl, rfl⟩ := List.append_inj' g5 (by rw [hlen]; rfl)
  simp only [session, call, Option.map_some, Option.some.injEq, Prod.mk.injEq, List.cons.injEq, Reply.events.injEq, and_true] at g3
  obtain ⟨_, rfl⟩ := g3
  have key : ∀ b, evOf b (flagsOf rs2) → evOf b c2.eventFlags := by
    intro b hb
    obtain ⟨n, a1, a2, _⟩ := session_moves b hna _ hi0 hl g1
    rw [retFl_result] at a2
    have h0 := oFl_none (κ := κ) b
    have : ¬ heldFl b (Dec.init : Dec κ) := by rintro (h | h) <;> exact h0 h
    tauto
  exact ⟨key true, key false⟩

/-- dav1d_get_event_flags clears the flags. -/
theorem C27_cleared (s : Settings) (env : Env κ) (c : Dec κ) : ∃ e c', session s env c [.events, .events] = some (c', [.events e, .events (false, false)]) :=
  ⟨_, _, rfl⟩

/-! ## The first picture after a change -/

theorem seqPacket_reaches {s : Settings} {env : Env κ} {props : Props} {d l ps d' r} (h : Reaches s env props d l ps d' r) :
    (seqPacket s env d ⟨l, props⟩).1 = (seqPacket s env d' ⟨r, props⟩).1 ∧
    (seqPacket s env d ⟨l, props⟩).2 = ps.map .ok ++ (seqPacket s env d' ⟨r, props⟩).2 := by
  induction h with
  | here => exact ⟨rfl, rfl⟩
  | next h1 h2 h3 _ ih =>
    rw [seqPacket_eq s env _ _ (by exact h1), h2]
    dsimp only
    rw [if_pos h3]
    refine ⟨ih.1, ?_⟩
    dsimp only
    rw [ih.2, List.map_append, List.append_assoc]

theorem reaches_slots {s : Settings} {env : Env κ} {props : Props} {d l ps d' r} (h : Reaches s env props d l ps d' r) (hs : SlotsOk d) : SlotsOk d' := by
  induction h with
  | here => exact hs
  | @next d l d1 p rest ps d2 r _ h2 _ _ ih =>
    have := seqStep_slots (s := s) (env := env) hs ⟨l, props⟩
    rw [h2] at this
    exact ih this

/-- The results from a position on. -/
theorem seqStream_reaches {s : Settings} {env : Env κ} {pkt : Packet} {l1 l2 : List Packet} {d0 : Dec κ} {ps d r}
    (h : Reaches s env pkt.props (seqStream s env d0 l1).1 pkt.data ps d r) :
    (seqStream s env d0 (l1 ++ pkt :: l2)).2 = (seqStream s env d0 l1).2 ++ ps.map .ok ++ (seqStream s env d (⟨r, pkt.props⟩ :: l2)).2 := by
  obtain ⟨h1, h2⟩ := seqPacket_reaches h
  rw [seqStream_append]
  simp only [seqStream]
  rw [h1, h2]
  simp only [List.append_assoc]

/-- A sequence header OBU is the first one of the packet. -/
theorem seqStep_seq {s : Settings} {env : Env κ} {d : Dec κ} {r : List UInt8} {q : SeqHdr} (h : StartsSeq s r q) (props : Props) :
    ∃ rest, seqStep s env d ⟨r, props⟩ = match seqFinish s env (activateSeq s d q) props with
        | (d, .error e) => (d, .error e)
        | (d, .ok p) => (d, .ok (p, rest)) := by
  obtain ⟨o, rest, h1, h2, h3, h4⟩ := h
  refine ⟨rest, ?_⟩
  unfold seqStep
  rw [h1]
  dsimp only
  rw [h3, if_neg (by simp), if_neg (by simp [dropObu, hdrOf_type h1, h2])]
  have : ((obuCase s d o.type (obuHdrOf r).temporalId (obuHdrOf r).spatialId props).run (BitSt.init o.payload)).1 = some (activateSeq s d q, none) := by
    unfold obuCase
    rw [if_pos h2]
    unfold seqCase
    rw [Prog.run_bind]
    change ((OptionT.run (parseSeqHdr s.strict)).run (BitSt.init o.payload)).1 = some q at h4
    generalize (OptionT.run (parseSeqHdr s.strict)).run (BitSt.init o.payload) = y at h4
    obtain ⟨y1, y2⟩ := y
    dsimp only at h4
    subst h4
    rfl
  rw [this]
  rfl

theorem startsSeq_ne {s : Settings} {r : List UInt8} {q : SeqHdr} (h : StartsSeq s r q) : r ≠ [] := by
  rintro rfl
  obtain ⟨o, rest, h1, _⟩ := h
  simp [splitObu] at h1

theorem seqStream_first {s : Settings} {env : Env κ} {b : Bool} {old : Pic κ → Prop} (hst : Stable old) {d : Dec κ} {r : List UInt8} {q : SeqHdr} (h : StartsSeq s r q)
    (hp : Pend b old (activateSeq s d q)) (props : Props) (l : List Packet) {p t} (e : (seqStream s env d (⟨r, props⟩ :: l)).2 = .ok p :: t) : Tells b old p := by
  obtain ⟨rest, hs⟩ := seqStep_seq (env := env) (d := d) h props
  have hf := seqFinish_pend (s := s) (env := env) hst hp props
  have key : FirstTells b old (seqPacket s env d ⟨r, props⟩) := by
    rw [seqPacket_eq s env d _ (by exact startsSeq_ne h), hs]
    generalize seqFinish s env (activateSeq s d q) props = y at hf
    obtain ⟨d1, x⟩ := y
    cases x with
    | error er => exact ⟨fun h => (by cases h), fun _ _ h => (by cases h)⟩
    | ok o =>
      dsimp only
      cases o with
      | none =>
        have h2 := hf.1 rfl
        split
        · have h3 := seqPacket_pend (s := s) (env := env) hst _ (pkt := ⟨rest, props⟩) rfl h2
          exact ⟨fun h => h3.1 (by simpa using h), fun p t h => h3.2 p t (by simpa using h)⟩
        · exact ⟨fun _ => h2, fun _ _ h => (by cases h)⟩
      | some p =>
        have h2 := hf.2 p rfl
        split
        · refine ⟨fun h => (by simp at h), fun q t h => ?_⟩
          simp at h; rw [← h.1]; exact h2
        · refine ⟨fun h => (by simp at h), fun q t h => ?_⟩
          simp at h; rw [← h.1]; exact h2
  simp only [seqStream] at e
  cases hr : (seqPacket s env d ⟨r, props⟩).2 with
  | nil =>
    rw [hr, List.nil_append] at e
    exact (seqStream_pend (s := s) (env := env) hst l (key.1 hr)).2 p t e
  | cons x u =>
    rw [hr] at e
    simp only [List.cons_append, List.cons.injEq] at e
    exact key.2 p u (by rw [hr, e.1])

theorem pend_newSeq {s : Settings} {d : Dec κ} (hd : SlotsOk d) {q : SeqHdr} (hq : d.seq.map SeqHdr.core ≠ some q.core) : Pend true (fun _ => False) (activateSeq s d q) := by
  unfold activateSeq
  dsimp only
  split
  · rename_i h0
    refine ⟨rfl, fun i p hp => ?_⟩
    have := hd.noSeq h0 i
    dsimp only at hp
    rw [this] at hp; cases hp
  · rename_i q' h0
    have hne : q.core ≠ q'.core := fun h => hq (by rw [h0]; exact congrArg some h.symm)
    rw [if_pos hne]
    refine ⟨rfl, fun i p hp => ?_⟩
    dsimp only at hp
    split at hp
    · cases hp
    · rw [hd.high i (by omega)] at hp; cases hp

theorem pend_newOp {s : Settings} {d : Dec κ} {q q' : SeqHdr} (h0 : d.seq = some q') (h1 : q.core = q'.core) (h2 : q.opInfo ≠ q'.opInfo) {old : Pic κ → Prop}
    (ho : ∀ i p, (d.refs i).p = .pic p → old p) : Pend false old (activateSeq s d q) := by
  unfold activateSeq
  dsimp only
  rw [h0]
  dsimp only
  rw [if_neg (by simpa using h1), if_pos h2]
  exact ⟨rfl, fun i p hp => Or.inr (ho i p hp)⟩

theorem handed_ok {s : Settings} {env : Env κ} {r : Except Err (Pic κ)} {p : Pic κ} (h : handed s env r = .ok p) : ∃ p0, r = .ok p0 ∧ p.flags = p0.flags ∧ p.hdr = p0.hdr ∧ p.seq = p0.seq := by
  cases r with
  | error e => cases h
  | ok p0 =>
    refine ⟨p0, rfl, ?_⟩
    change ((finishPic s env p0).map Pic.given) = .ok p at h
    cases hx : finishPic s env p0 with
    | error e => rw [hx] at h; cases h
    | ok p1 =>
      rw [hx] at h
      cases h
      unfold finishPic at hx
      split at hx
      · cases hx; exact ⟨rfl, rfl, rfl⟩
      · split at hx
        · cases hx
        · split at hx
          · cases hx
          · cases hx; exact ⟨rfl, rfl, rfl⟩

theorem nth_first {s : Settings} {env : Env κ} (hna : NoAgain env) (hl : s.allLayers = true) (hf : 0 < s.nFc) {l : List Call} (hp : ∀ a ∈ l, a.Plain) {c' rs}
    (hs : session s env Dec.init l = some (c', rs)) (ho : Orderly s (seqStream s env Dec.init (taken l rs)).2)
    {l1 l2 : List Packet} {pkt : Packet} (ht : taken l rs = l1 ++ pkt :: l2) {ps d r}
    (hr : Reaches s env pkt.props (seqStream s env Dec.init l1).1 pkt.data ps d r)
    {p} (hg : (rs.flatMap Reply.result)[(seqStream s env Dec.init l1).2.length + ps.length]? = some (.ok p)) :
    ∃ p0 t, (seqStream s env d (⟨r, pkt.props⟩ :: l2)).2 = .ok p0 :: t ∧ p.flags = p0.flags ∧ p.hdr = p0.hdr ∧ p.seq = p0.seq := by
  have h1 := C21_order_partial hna hl hf hp hs ho
  rw [ht, seqStream_reaches hr] at h1
  obtain ⟨v, h2⟩ := h1
  have hlt := (List.getElem?_eq_some_iff.1 hg).1
  rw [← List.getElem?_append_left (l₂ := v) hlt, h2, List.map_append,
    List.getElem?_append_right (by simp), List.length_map, List.length_append, List.length_map, Nat.sub_self, List.getElem?_map] at hg
  cases hx : (seqStream s env d (⟨r, pkt.props⟩ :: l2)).2 with
  | nil => rw [hx] at hg; cases hg
  | cons x t =>
    rw [hx] at hg
    simp only [List.getElem?_cons_zero, Option.map_some, Option.some.injEq] at hg
    obtain ⟨p0, rfl, k1, k2, k3⟩ := handed_ok hg
    exact ⟨p0, t, rfl, k1, k2, k3⟩

/-- The first picture returned after a sequence header that differs from the one before (apart from the operating
parameters), or that is the first one, carries the flag for a new sequence. `ps` are the pictures shown by the OBUs of the
packet before the header. -/
theorem C27_new_sequence_partial {s : Settings} {env : Env κ} (hna : NoAgain env) (hl : s.allLayers = true) (hf : 0 < s.nFc) {l : List Call} (hp : ∀ a ∈ l, a.Plain) {c' rs}
    (hs : session s env Dec.init l = some (c', rs)) (ho : Orderly s (seqStream s env Dec.init (taken l rs)).2)
    {l1 l2 : List Packet} {pkt : Packet} (ht : taken l rs = l1 ++ pkt :: l2) {ps d r}
    (hr : Reaches s env pkt.props (seqStream s env Dec.init l1).1 pkt.data ps d r) {q : SeqHdr} (hq : StartsSeq s r q) (hch : d.seq.map SeqHdr.core ≠ some q.core)
    {p} (hg : (rs.flatMap Reply.result)[(seqStream s env Dec.init l1).2.length + ps.length]? = some (.ok p)) : p.flags.newSeq = true := by
  obtain ⟨p0, t, h1, h2, _⟩ := nth_first hna hl hf hp hs ho ht hr hg
  have hsl : SlotsOk d := reaches_slots hr (seqStream_slots l1 SlotsOk.init)
  have := seqStream_first (b := true) (old := fun _ => False) (fun _ _ h => h.elim) hq (pend_newSeq hsl hch) pkt.props l2 h1
  rw [h2]
  rcases this with h | h
  · exact h
  · exact h.elim

/-- The first picture returned after a sequence header that differs in the operating parameters only carries the flag for
them, unless it was decoded before and is shown again. -/
theorem C27_new_op_partial {s : Settings} {env : Env κ} (hna : NoAgain env) (hl : s.allLayers = true) (hf : 0 < s.nFc) {l : List Call} (hp : ∀ a ∈ l, a.Plain) {c' rs}
    (hs : session s env Dec.init l = some (c', rs)) (ho : Orderly s (seqStream s env Dec.init (taken l rs)).2)
    {l1 l2 : List Packet} {pkt : Packet} (ht : taken l rs = l1 ++ pkt :: l2) {ps d r}
    (hr : Reaches s env pkt.props (seqStream s env Dec.init l1).1 pkt.data ps d r) {q q' : SeqHdr} (hq : StartsSeq s r q) (hd : d.seq = some q')
    (hc : q.core = q'.core) (hop : q.opInfo ≠ q'.opInfo)
    {p} (hg : (rs.flatMap Reply.result)[(seqStream s env Dec.init l1).2.length + ps.length]? = some (.ok p)) :
    p.flags.newOp = true ∨ ∃ i p0, (d.refs i).p = .pic p0 ∧ p.hdr = p0.hdr ∧ p.seq = p0.seq ∧ p.flags = p0.flags := by
  obtain ⟨p1, t, h1, h2, h3, h4⟩ := nth_first hna hl hf hp hs ho ht hr hg
  have := seqStream_first (b := false) (old := fun p => ∃ i p0, (d.refs i).p = .pic p0 ∧ p.hdr = p0.hdr ∧ p.seq = p0.seq ∧ p.flags = p0.flags)
    (fun a b h e1 e2 _ e3 => by
      obtain ⟨i, p0, k1, k2, k3, k4⟩ := h
      exact ⟨i, p0, k1, e2.trans k2, e1.trans k3, e3.trans k4⟩) hq (pend_newOp hd hc hop (fun i p hp => ⟨i, p, hp, rfl, rfl, rfl⟩)) pkt.props l2 h1
  rw [h2, h3, h4]
  exact this

/-! ## Examples -/

/-- The demo sequence header with a decoder model, and `d` as the decoder buffer delay of the operating point. -/
def seqObuT (d : Nat) : List UInt8 :=
  obu 1 (toBytes (natBits 3 0 ++ [false, false] ++ ([true] ++ natBits 32 1 ++ natBits 32 25 ++ [true, true] ++ [true] ++ natBits 5 3 ++ natBits 32 1 ++
    natBits 5 3 ++ natBits 5 3) ++ [false] ++ natBits 5 0 ++ natBits 12 0 ++ natBits 5 4 ++ ([true] ++ natBits 4 d ++ natBits 4 1 ++ [false]) ++
  natBits 4 8 ++ natBits 4 8 ++ natBits 9 351 ++ natBits 9 287 ++ [false] ++
  [false, true, true, true, true, true, true, true, true, true, true, true] ++ natBits 3 3 ++
  [true, true, true] ++ [false, false, false, false] ++ natBits 2 0 ++ [false] ++ [true] ++ [true] ++ [true]))
/-- Key frames for it, shown or not. -/
def keyObuT (k : UInt8) : List UInt8 :=
  frameObu (natBits 2 0 ++ [true, false, false, false] ++ natBits 4 0 ++ [false] ++ [false, false] ++ demoTail ++ [false] ++ [false]) [k, 8]
def hiddenKeyObuT (k : UInt8) : List UInt8 :=
  frameObu (natBits 2 0 ++ [false, true, false, false, false, false] ++ natBits 4 0 ++ [false] ++ natBits 8 4 ++
    [false, false] ++ demoTail ++ [false] ++ [false]) [k, 8]

/-- Content and flags of the pictures among some replies. -/
def flagged (s : Settings) (l : List Call) : Option (List (Except Err UInt8 × Bool × Bool)) :=
  (session s demoEnv Dec.init l).map fun x => x.2.filterMap fun r => match r with
    | .got (.ok p) => some (p.content, p.flags.newSeq, p.flags.newOp)
    | _ => none

-- the flags of the pictures returned between two queries
example : run {} ([.get, .events] ++ [send 1 (tdObu ++ seqObuT 1 ++ keyObuT 5), .get, send 2 (tdObu ++ seqObuT 2 ++ keyObuT 6), .get] ++ [.get, .events] ++
      [send 3 (tdObu ++ keyObuT 7), .get] ++ [.get, .events]) =
    some ([.err .EAGAIN, .events (false, false)] ++ [.sent none false, .pic 5, .sent none false, .pic 6] ++ [.err .EAGAIN, .events (true, true)] ++
      [.sent none false, .pic 7] ++ [.err .EAGAIN, .events (false, false)]) := by decide +kernel

-- the position of a sequence header that changes the operating parameters
section
def opBefore : Dec UInt8 := (seqStream {} demoEnv Dec.init [⟨tdObu ++ seqObuT 1 ++ keyObuT 5, 0⟩]).1
def opPacket : List UInt8 := tdObu ++ seqObuT 2 ++ keyObuT 6
example : ∃ d q q', Reaches {} demoEnv 0 opBefore opPacket [] d (opPacket.drop 2) ∧ StartsSeq {} (opPacket.drop 2) q ∧ d.seq = some q' ∧
    q.core = q'.core ∧ q.opInfo ≠ q'.opInfo := by
  have h1 : (match (seqStep {} demoEnv opBefore ⟨opPacket, 0⟩).2 with | .ok (none, r) => r == opPacket.drop 2 | _ => false) = true := by decide +kernel
  have h2 : (match (seqStep {} demoEnv opBefore ⟨opPacket, 0⟩).1.seq, splitObu (opPacket.drop 2) with
      | some q', some (o, _) => o.type == 1 && (match ((parseSeqHdr false).exec (BitSt.init o.payload)).1 with
        | some q => decide (q.core = q'.core) && decide (q.opInfo ≠ q'.opInfo)
        | none => false)
      | _, _ => false) = true := by decide +kernel
  generalize hx : seqStep {} demoEnv opBefore ⟨opPacket, 0⟩ = x at h1 h2
  obtain ⟨d, y⟩ := x
  dsimp only at h1 h2
  split at h1
  · rename_i r
    have hr : r = opPacket.drop 2 := by simpa using h1
    subst hr
    split at h2
    · rename_i q' o rest hq hs
      rw [Bool.and_eq_true] at h2
      obtain ⟨h2, h3⟩ := h2
      split at h3
      · rename_i q hp
        rw [Bool.and_eq_true] at h3
        refine ⟨d, q, q', .next (p := none) (by decide +kernel) hx (by decide +kernel) (.here _ _), ⟨o, rest, hs, by simpa using h2, rfl, hp⟩, hq,
          by simpa using h3.1, by simpa using h3.2⟩
      · cases h3
    · cases h2
  · cases h1
end
-- the first picture after a change
example : flagged {} [send 1 (tdObu ++ seqObuT 1 ++ keyObuT 5), .get, send 2 (tdObu ++ seqObuT 2 ++ keyObuT 6), .get,
      send 3 (tdObu ++ keyObuT 7), .get, send 4 (streamKey 8), .get] =
    some [(.ok 5, true, false), (.ok 6, false, true), (.ok 7, false, false), (.ok 8, true, false)] := by decide +kernel

/-- The flags can be seen before the picture is returned, and are gone when it is. -/
theorem C27_early : run {} [send 1 (streamKey 6), .events, .get, .events] =
    some [.sent none false, .events (true, false), .pic 6, .events (false, false)] := by decide +kernel

/-- If the first key frame of a sequence can not be decoded, its flag is reported without a picture, and no picture that
is returned carries it. -/
theorem C27_lost : run {} [send 1 (streamKey 0xFF), .get, .events, send 2 (streamKey 6), .get, .events] =
      some [.sent (some .EINVAL) true, .err .EAGAIN, .events (true, false), .sent none false, .pic 6, .events (false, false)] ∧
    flagged {} [send 1 (streamKey 0xFF), .get, .events, send 2 (streamKey 6), .get, .events] = some [(.ok 6, false, false)] := by
  constructor <;> decide +kernel

/-- A frame decoded before the operating parameters changed and shown as the first one after it does not carry the flag
for the change. -/
theorem C27_shown_again : flagged {} [send 1 (tdObu ++ seqObuT 1 ++ keyObuT 5), .get, send 2 (tdObu ++ hiddenKeyObuT 6),
      send 3 (tdObu ++ seqObuT 2 ++ showObu 2), .get, send 4 (tdObu ++ keyObuT 7), .get] =
    some [(.ok 5, true, false), (.ok 6, false, false), (.ok 7, false, true)] := by decide +kernel

/-- A hidden key frame that is shown twice carries the flag for a new sequence both times. -/
theorem C27_repeated : flagged {} [send 1 (tdObu ++ seqObuT 1 ++ hiddenKeyObuT 5), send 2 (tdObu ++ showObu 2), .get, send 3 (tdObu ++ showObu 2), .get] =
    some [(.ok 5, true, false), (.ok 5, true, false)] := by decide +kernel

end Dav1d
