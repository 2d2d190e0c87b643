import Verif.Api.Drain
import Verif.Api.ObuProps
/-!
# C18, C21, C22, C23: sending data and getting pictures

`session s env Dec.init l` are the calls `l` on a newly opened decoder with the settings `s`; the result is the context
and one reply per call. `env` stands for the pixel decoder, allocation failures and film grain synthesis; `NoAgain env`
says that these do not themselves fail with EAGAIN. `seqStream` (SeqSpec.lean) is the decoder without output queue.
-/
namespace Dav1d
variable {κ : Type}

theorem session_append {s : Settings} {env : Env κ} (l m : List Call) : ∀ (c : Dec κ), session s env c (l ++ m) =
    (session s env c l).bind (fun x => (session s env x.1 m).map (fun y => (y.1, x.2 ++ y.2))) := by
  induction l with
  | nil => intro c; simp only [List.nil_append, session, Option.bind_some]; cases session s env c m <;> rfl
  | cons a l ih =>
    intro c
    simp only [List.cons_append, session]
    cases call s env c a with
    | none => rfl
    | some x =>
      simp only [ih]
      cases session s env x.1 l with
      | none => rfl
      | some y =>
        simp only [Option.bind_some, Option.map_some]
        cases session s env y.1 m <;> rfl

theorem session_length {s : Settings} {env : Env κ} (l : List Call) : ∀ {c c' : Dec κ} {rs}, session s env c l = some (c', rs) → rs.length = l.length := by
  induction l with
  | nil => intro c c' rs h; cases h; rfl
  | cons a l ih =>
    intro c c' rs h
    unfold session at h
    split at h
    · cases h
    · rw [Option.map_eq_some_iff] at h
      obtain ⟨x, h2, h3⟩ := h
      cases h3
      rw [List.length_cons, List.length_cons, ih h2]

theorem taken_gets {l : List Call} : ∀ {rs : List (Reply κ)}, rs.length = l.length → ∀ (n : Nat) (qs : List (Reply κ)), taken (l ++ gets n) (rs ++ qs) = taken l rs := by
  have hg : ∀ (n : Nat) (qs : List (Reply κ)), taken (gets n) qs = [] := by
    intro n
    induction n with
    | zero => intro qs; cases qs <;> rfl
    | succ n ih => intro qs; cases qs with
      | nil => rfl
      | cons q qs => exact ih qs
  induction l with
  | nil =>
    intro rs h n qs
    cases rs with
    | nil => exact (hg n qs).trans rfl
    | cons => cases h
  | cons a l ih =>
    intro rs h n qs
    cases rs with
    | nil => cases h
    | cons r rs =>
      rw [List.cons_append, List.cons_append, taken_cons, taken_cons, ih (by simpa using h)]

/-! ## C18 -/

theorem ready_input (s : Settings) (c : Dec κ) (b : Bool) : (outputReady s c b).2.input = c.input := (outputReady_fields s c b).2.2.1

theorem outputReady_same {s : Settings} {c d : Dec κ} {b : Bool} (h : outputReady s c b = (true, d)) : d = c := by
  unfold outputReady at h
  repeat' split at h
  all_goals first | (cases h; done) | (have := congrArg Prod.snd h; exact this.symm)

theorem genLoop_left {s : Settings} {env : Env κ} (n : Nat) : ∀ {c : Dec κ} {pkt : Packet}, pkt.data.length = n → ∀ {c' e}, genLoop s env c pkt = some (c', e) →
    (e.isSome = true → c'.input = none) ∧ ∀ q, c'.input = some q → q.props = pkt.props ∧ q.data <:+ pkt.data ∧ q.data ≠ [] ∧ q.data ≠ pkt.data ∧ (outputReady s c' false).1 = true := by
  induction n using Nat.strong_induction_on with
  | _ n ih =>
  intro c pkt hn c' e hs
  rw [genLoop] at hs
  split at hs
  · cases hs
  · rename_i c1 e1 h1
    have h2 := ready_input s { c1 with input := none } false
    split at hs
    · rename_i b d h3
      rw [h3] at h2
      cases hs
      exact ⟨fun h => (by cases h), fun q hq => by rw [h2] at hq; cases hq⟩
    · rename_i b d h3
      rw [h3] at h2
      cases hs
      exact ⟨fun _ => h2, fun q hq => by rw [h2] at hq; cases hq⟩
  · rename_i c1 k h1
    split at hs
    · rename_i hk
      have h2 := ready_input s { c1 with input := pkt.advance k } false
      split at hs
      · rename_i d h3
        rw [h3] at h2
        obtain ⟨rfl, rfl⟩ := Prod.mk.inj (Option.some.inj hs)
        refine ⟨fun h => (by cases h), fun q hq => ?_⟩
        rw [h2] at hq
        change pkt.advance k = some q at hq
        have hd : d = { c1 with input := pkt.advance k } := outputReady_same h3
        unfold Packet.advance at hq
        split at hq
        · cases hq
        · rename_i hne
          cases hq
          refine ⟨rfl, List.drop_suffix _ _, hne, fun he => ?_, ?_⟩
          · have := congrArg List.length he
            simp only [List.length_drop] at this
            omega
          · rw [← hd] at h3; rw [h3]
      · rename_i b d h3
        split at hs
        · rename_i hlen
          rw [h3] at h2
          cases hs
          have : pkt.advance k = none := by
            unfold Packet.advance
            rw [if_pos (List.drop_eq_nil_of_le hlen)]
          refine ⟨fun h => (by cases h), fun q hq => ?_⟩
          rw [h2] at hq
          change pkt.advance k = some q at hq
          rw [this] at hq; cases hq
        · obtain ⟨i1, i2⟩ := ih _ (by simp only [List.length_drop]; omega) rfl hs
          refine ⟨i1, fun q hq => ?_⟩
          obtain ⟨j1, j2, j3, j4, j5⟩ := i2 q hq
          refine ⟨j1, j2.trans (List.drop_suffix _ _), j3, fun he => ?_, j5⟩
          have := j2.length_le
          rw [he] at this
          simp only [List.length_drop] at this
          omega
    · cases hs

/-- dav1d_send_data returning 0 leaves nothing with the caller; the library then has decoded the whole packet, or it
holds the undecoded rest of it while a picture or an error is ready to be taken. -/
theorem C18_accepted {s : Settings} {env : Env κ} {c : Dec κ} {p : Packet} (hp : p.Valid) {x} (hs : sendData s env c (some p) = some x)
    (hr : x.res = none) : x.left = none ∧ (x.ctx.input = none ∨
      ∃ q, x.ctx.input = some q ∧ q.props = p.props ∧ q.data <:+ p.data ∧ q.data ≠ [] ∧ (outputReady s x.ctx false).1 = true) := by
  unfold sendData at hs
  rw [hp.any] at hs
  simp only [Bool.false_eq_true, if_false, Option.isSome_some, if_true] at hs
  split at hs
  · cases hs; cases hr
  · generalize hc : ({ c with drain := false, input := some p } : Dec κ) = c1 at hs
    have hin : c1.input = some p := by rw [← hc]
    split at hs
    · cases hs
    · rename_i c2 hg
      cases hs
      refine ⟨rfl, ?_⟩
      show c2.input = none ∨ _
      unfold genPicture at hg
      have h1 := ready_input s c1 false
      split at hg
      · rename_i d hd
        cases hg
        have := outputReady_same hd
        subst this
        exact Or.inr ⟨p, hin, rfl, List.suffix_refl _, hp.1, by show (outputReady s c2 false).1 = true; rw [hd]⟩
      · rename_i d hd
        rw [hd, hin] at h1
        change d.input = some p at h1
        rw [h1] at hg
        dsimp only at hg
        cases hq : c2.input with
        | none => exact Or.inl rfl
        | some q =>
          obtain ⟨a1, a2, a3, _, a5⟩ := (genLoop_left _ rfl hg).2 q hq
          exact Or.inr ⟨q, rfl, a1, a2, a3, a5⟩
    · cases hs; cases hr

/-- A packet is refused with EAGAIN exactly if the library still holds undecoded data. Then the caller keeps the
packet and nothing changes, except that the library stops draining. -/
theorem C18_refused {s : Settings} {env : Env κ} (hna : NoAgain env) {c : Dec κ} (hr : Reachable s env c) {p : Packet} (hp : p.Valid) {x}
    (hs : sendData s env c (some p) = some x) :
    (x.res = some .EAGAIN ↔ c.input.isSome = true) ∧ (x.res = some .EAGAIN → x.left = some p ∧ x.ctx = { c with drain := false }) := by
  have h := sendData_again hna hr.inv hp hs
  refine ⟨h, fun he => ?_⟩
  have hi := h.1 he
  unfold sendData at hs
  rw [hp.any] at hs
  simp only [Bool.false_eq_true, if_false, Option.isSome_some, if_true] at hs
  rw [if_pos hi] at hs
  cases hs
  exact ⟨rfl, rfl⟩

/-- On any other error the caller keeps its reference, and the library holds no undecoded data of the packet. -/
theorem C18_rejected_partial {s : Settings} {env : Env κ} {c : Dec κ} {p : Packet} (hp : p.Valid) {x} (hs : sendData s env c (some p) = some x)
    {e : Err} (hr : x.res = some e) (he : e ≠ .EAGAIN) : x.left = some p ∧ x.ctx.input = none := by
  unfold sendData at hs
  rw [hp.any] at hs
  simp only [Bool.false_eq_true, if_false, Option.isSome_some, if_true] at hs
  split at hs
  · cases hs; cases hr; exact absurd rfl he
  · generalize hc : ({ c with drain := false, input := some p } : Dec κ) = c1 at hs
    have hin : c1.input = some p := by rw [← hc]
    split at hs
    · cases hs
    · cases hs; cases hr
    · rename_i c2 e2 hg
      cases hs
      refine ⟨rfl, ?_⟩
      show c2.input = none
      unfold genPicture at hg
      have h1 := ready_input s c1 false
      split at hg
      · cases hg
      · rename_i d hd
        rw [hd, hin] at h1
        change d.input = some p at h1
        rw [h1] at hg
        dsimp only at hg
        exact (genLoop_left _ rfl hg).1 rfl

/-- A packet without data, or of more than half the address space, is refused without any effect. -/
theorem C18_invalid (s : Settings) (env : Env κ) (c : Dec κ) (p : Packet) (hp : p.data = [] ∨ 2 ^ 63 ≤ p.data.length) :
    sendData s env c (some p) = some ⟨c, some .EINVAL, some p⟩ := by
  unfold sendData
  have : (some p).any (fun p => p.data.isEmpty || decide (2 ^ 63 ≤ p.data.length)) = true := by
    rcases hp with h | h
    · simp [h]
    · simp only [Option.any_some, Bool.or_eq_true, decide_eq_true_eq]; exact Or.inr h
  rw [if_pos this]

/-! ## C21 -/

/-- The events of a stream can be listed by the calls: with one frame context errors are returned in place; with
several the stream has none. -/
def Orderly (s : Settings) (l : List (Except Err (Pic κ))) : Prop := s.nFc = 1 ∨ ∀ x ∈ l, x.isOk = true

theorem session_stream {s : Settings} {env : Env κ} (hna : NoAgain env) (hl : s.allLayers = true) (hf : 0 < s.nFc) {l : List Call} (hp : ∀ a ∈ l, a.Plain) {c' rs}
    (hs : session s env Dec.init l = some (c', rs)) (ho : Orderly s (seqStream s env Dec.init (taken l rs)).2) :
    InStep s env c' ∧ Good s (todo s env c').2 ∧
    rs.flatMap Reply.result ++ (todo s env c').2.map (handed s env) = (seqStream s env Dec.init (taken l rs)).2.map (handed s env) := by
  have := session_seq hna hl l (InStep.init (env := env) hf) hp hs (by rw [todo_init]; exact ho)
  rw [todo_init] at this
  exact ⟨this.1, this.2.2.1, this.2.2.2⟩

/-- However calls are interleaved, the pictures (and errors) returned so far are the first ones of the sequence the
decoder without queue produces from the accepted packets. -/
theorem C21_order_partial {s : Settings} {env : Env κ} (hna : NoAgain env) (hl : s.allLayers = true) (hf : 0 < s.nFc) {l : List Call} (hp : ∀ a ∈ l, a.Plain) {c' rs}
    (hs : session s env Dec.init l = some (c', rs)) (ho : Orderly s (seqStream s env Dec.init (taken l rs)).2) :
    rs.flatMap Reply.result <+: (seqStream s env Dec.init (taken l rs)).2.map (handed s env) :=
  ⟨_, (session_stream hna hl hf hp hs ho).2.2⟩

/-- Once dav1d_get_picture has answered EAGAIN `n_fc + 2` times in a row, all of them have been returned. -/
theorem C21_complete_partial {s : Settings} {env : Env κ} (hna : NoAgain env) (hl : s.allLayers = true) (hf : 0 < s.nFc) {l : List Call} (hp : ∀ a ∈ l, a.Plain) {c' rs}
    (hs : session s env Dec.init (l ++ gets (s.nFc + 2)) = some (c', rs ++ List.replicate (s.nFc + 2) (.got (.error .EAGAIN))))
    (ho : Orderly s (seqStream s env Dec.init (taken l rs)).2) :
    rs.flatMap Reply.result = (seqStream s env Dec.init (taken l rs)).2.map (handed s env) := by
  rw [session_append] at hs
  obtain ⟨⟨c1, rs1⟩, h1, h2⟩ := Option.bind_eq_some_iff.1 hs
  obtain ⟨⟨c2, rs2⟩, h3, h4⟩ := Option.map_eq_some_iff.1 h2
  have l3 := session_length _ h3
  simp only [Prod.mk.injEq] at h4
  obtain ⟨rfl, h5⟩ := h4
  have hlen : rs1.length = rs.length := by
    have := congrArg List.length h5
    simp only [List.length_append, List.length_replicate, gets] at this l3
    omega
  obtain ⟨rfl, rfl⟩ := List.append_inj h5 hlen
  obtain ⟨g1, g2, g3⟩ := session_stream hna hl hf hp h1 ho
  have h6 := gets_again_todo hna hl g1 g2 h3
  have hpl : ∀ a ∈ l ++ gets (s.nFc + 2), a.Plain := by
    intro a ha
    rcases List.mem_append.1 ha with h | h
    · exact hp a h
    · rw [List.eq_of_mem_replicate h]; exact trivial
  have hlr := session_length _ h1
  obtain ⟨_, _, k3⟩ := session_stream hna hl hf hpl (by rw [session_append, h1, Option.bind_some, h3]; rfl) (by rw [taken_gets hlr]; exact ho)
  rw [taken_gets hlr, h6] at k3
  simp only [List.flatMap_append, List.map_nil, List.append_nil] at k3
  rw [show (List.replicate (s.nFc + 2) (Reply.got (κ := κ) (.error .EAGAIN))).flatMap Reply.result = [] by
    rw [List.flatMap_eq_nil_iff]; intro x hx; rw [List.eq_of_mem_replicate hx]; rfl, List.append_nil] at k3
  exact k3

/-- All pictures can be got: after any calls, finitely many calls of dav1d_get_picture return the rest. -/
theorem C21_drain_partial {s : Settings} {env : Env κ} (hna : NoAgain env) (hl : s.allLayers = true) (hf : 0 < s.nFc) {l : List Call} (hp : ∀ a ∈ l, a.Plain) {c rs}
    (hs : session s env Dec.init l = some (c, rs)) (ho : Orderly s (seqStream s env Dec.init (taken l rs)).2) :
    ∃ n c' qs, session s env c (gets n) = some (c', qs) ∧
      (rs ++ qs).flatMap Reply.result = (seqStream s env Dec.init (taken l rs)).2.map (handed s env) := by
  have hi : InvN s env c := Reachable.invN ⟨l, rs, hs⟩ hf
  obtain ⟨n, c', qs, h1, h2⟩ := gets_settle (heldLen c) s.nFc (weight c) hi (Nat.le_refl _) (emptyFrom_nFc s c) (Nat.le_refl _)
  refine ⟨n, c', qs, h1, ?_⟩
  have hpl : ∀ a ∈ l ++ gets n, a.Plain := by
    intro a ha
    rcases List.mem_append.1 ha with h | h
    · exact hp a h
    · rw [List.eq_of_mem_replicate h]; exact trivial
  have hlr := session_length _ hs
  obtain ⟨_, _, k3⟩ := session_stream hna hl hf hpl (by rw [session_append, hs, Option.bind_some, h1]; rfl) (by rw [taken_gets hlr]; exact ho)
  rw [taken_gets hlr] at k3
  have : (todo s env c').2 = [] := by
    unfold todo
    rw [h2.input, pend_empty h2.out h2.ring]
    rfl
  rw [this] at k3
  simpa using k3

/-- Every picture returned is complete: it is the finished result of decoding one of the frames submitted, and no
failed one, whatever the stream, the settings and the calls. -/
theorem C21_finished {s : Settings} {env : Env κ} {c : Dec κ} (hr : Reachable s env c) {c' p'} (hs : getPicture s env c = some (c', .ok p')) :
    ∃ p k, finishPic s env p = .ok p' ∧ p.content = .ok k ∧ ∃ f ∈ c'.decoded, p.seq = f.seq ∧ p.hdr = f.hdr ∧ env.dec f = .ok k := by
  obtain ⟨x, hx, _, h⟩ := hr.inv.getPicture
  rw [hs] at hx
  cases hx
  obtain ⟨p, ⟨h1, f, h2, h3, h4, h5⟩, h6⟩ := h p' rfl
  cases hk : p.content with
  | error e => rw [hk] at h1; cases h1
  | ok k => exact ⟨p, k, h6, hk, f, h2, h3, h4, by rw [← h5, hk]⟩

/-! ## C22 -/

/-- Whenever dav1d_send_data refuses a packet with EAGAIN, there is undecoded data, and after finitely many calls of
dav1d_get_picture any packet is accepted (or rejected for its contents). -/
theorem C22_send {s : Settings} {env : Env κ} (hna : NoAgain env) (hf : 0 < s.nFc) {c : Dec κ} (hr : Reachable s env c) {p : Packet} (hp : p.Valid) {x}
    (hs : sendData s env c (some p) = some x) (hx : x.res = some .EAGAIN) :
    c.input.isSome = true ∧ ∃ n c' rs, session s env x.ctx (gets n) = some (c', rs) ∧
      ∀ q : Packet, q.Valid → ∃ y, sendData s env c' (some q) = some y ∧ y.res ≠ some .EAGAIN := by
  refine ⟨(sendData_again hna hr.inv hp hs).1 hx, ?_⟩
  have hi : InvN s env x.ctx := call_pos (a := .send (some p)) (r := .sent x.res x.left) (hr.invN hf) (by simp only [call, hs, Option.map_some])
  obtain ⟨n, c', qs, h1, h2⟩ := gets_settle (heldLen x.ctx) s.nFc (weight x.ctx) hi (Nat.le_refl _) (emptyFrom_nFc s _) (Nat.le_refl _)
  refine ⟨n, c', qs, h1, fun q hq => ?_⟩
  have hi' := session_pos _ hi h1
  obtain ⟨y, hy, _⟩ := hi'.inv.sendData (some q)
  refine ⟨y, hy, fun he => ?_⟩
  have := (sendData_again hna hi'.inv hq hy).1 he
  rw [h2.input] at this
  cases this

/-- When dav1d_get_picture answers EAGAIN, dav1d_send_data does not: the next packet is taken. -/
theorem C22_get {s : Settings} {env : Env κ} (hna : NoAgain env) (hf : 0 < s.nFc) {c : Dec κ} (hr : Reachable s env c) {c'}
    (hs : getPicture s env c = some (c', .error .EAGAIN)) (p : Packet) (hp : p.Valid) :
    ∃ x, sendData s env c' (some p) = some x ∧ x.res ≠ some .EAGAIN := by
  have hi' := (getPicture_measure (hr.invN hf) (emptyFrom_nFc s c) hs).1
  obtain ⟨y, hy, _⟩ := hi'.inv.sendData (some p)
  refine ⟨y, hy, fun he => ?_⟩
  have := (sendData_again hna hi'.inv hp hy).1 he
  rw [get_again_input hna (hr.invN hf) hs] at this
  cases this

/-- Draining ends: from some point on dav1d_get_picture answers EAGAIN only. -/
theorem C22_drain {s : Settings} {env : Env κ} (hf : 0 < s.nFc) {c : Dec κ} (hr : Reachable s env c) :
    ∃ n, ∀ m, ∃ c' rs, session s env c (gets (n + m)) = some (c', rs ++ List.replicate m (.got (.error .EAGAIN))) ∧ rs.length = n := by
  have hi := hr.invN hf
  obtain ⟨n, c', qs, h1, h2⟩ := gets_settle (heldLen c) s.nFc (weight c) hi (Nat.le_refl _) (emptyFrom_nFc s c) (Nat.le_refl _)
  refine ⟨n, fun m => ?_⟩
  obtain ⟨c2, h3, _⟩ := silent_gets m (session_pos _ hi h1) h2
  refine ⟨c2, qs, ?_, by rw [session_length _ h1, gets, List.length_replicate]⟩
  rw [show gets (n + m) = gets n ++ gets m from (List.replicate_append_replicate).symm, session_append, h1, Option.bind_some, h3]
  rfl

/-- With nothing buffered (no data, no picture, no error, no frame being decoded) the answer is EAGAIN. -/
theorem C22_idle {s : Settings} {env : Env κ} (hf : 0 < s.nFc) {c : Dec κ} (hr : Reachable s env c) (h1 : c.input = none) (h2 : c.out = none) (h3 : c.cache = none)
    (h4 : c.cachedError = none) (h5 : ∀ i, (c.ring i).pic = none ∧ (c.ring i).retval = none) :
    ∃ c', getPicture s env c = some (c', .error .EAGAIN) := by
  obtain ⟨c', h, _⟩ := silent_get (hr.invN hf) ⟨h1, h2, h4, fun _ => h3, fun _ sl hsl => by
    simp only [slots, List.drop_zero, List.mem_map] at hsl
    obtain ⟨k, _, rfl⟩ := hsl
    unfold Slot.busy
    rw [(h5 _).1, (h5 _).2]
    rfl⟩
  exact ⟨c', h⟩

/-! ## C23 -/

theorem seqPacket_nFc (s : Settings) (env : Env κ) (n : Nat) (k : Nat) : ∀ (d : Dec κ) (pkt : Packet), pkt.data.length = k →
    seqPacket { s with nFc := n } env d pkt = seqPacket s env d pkt := by
  induction k using Nat.strong_induction_on with
  | _ k ih =>
  intro d pkt hk
  by_cases hp : pkt.data = []
  · rw [seqPacket_nil _ _ _ _ hp, seqPacket_nil _ _ _ _ hp]
  · rw [seqPacket_eq _ _ _ _ hp, seqPacket_eq _ _ _ _ hp]
    rw [show seqStep { s with nFc := n } env d pkt = seqStep s env d pkt from rfl]
    split
    · rfl
    · split
      · rename_i _ _ rest _ hlt
        rw [ih rest.length (by omega) _ { pkt with data := rest } rfl]
      · rfl

theorem seqStream_nFc (s : Settings) (env : Env κ) (n : Nat) (l : List Packet) : ∀ d : Dec κ, seqStream { s with nFc := n } env d l = seqStream s env d l := by
  induction l with
  | nil => intro d; rfl
  | cons p l ih => intro d; simp only [seqStream, ih, seqPacket_nFc s env n _ d p rfl]

/-- Two decoders with different numbers of frame contexts given the same packets return the same pictures: what the
one has returned so far and what the other has returned are both first parts of the same sequence. -/
theorem C23_same_order_partial {s : Settings} {env : Env κ} (hna : NoAgain env) (hl : s.allLayers = true) {m n : Nat} (hm : 0 < m) (hn : 0 < n) {l k : List Call}
    (hp : ∀ a ∈ l, a.Plain) (hq : ∀ a ∈ k, a.Plain) {c rs d qs} (hs : session { s with nFc := m } env Dec.init l = some (c, rs))
    (ht : session { s with nFc := n } env Dec.init k = some (d, qs)) (hsame : taken l rs = taken k qs)
    (hok : ∀ x ∈ (seqStream s env Dec.init (taken l rs)).2, x.isOk = true) :
    rs.flatMap Reply.result <+: qs.flatMap Reply.result ∨ qs.flatMap Reply.result <+: rs.flatMap Reply.result := by
  have h1 := C21_order_partial (s := { s with nFc := m }) hna hl hm hp hs (Or.inr (by rw [seqStream_nFc]; exact hok))
  have h2 := C21_order_partial (s := { s with nFc := n }) hna hl hn hq ht (Or.inr (by rw [seqStream_nFc, ← hsame]; exact hok))
  rw [seqStream_nFc] at h1 h2
  rw [← hsame] at h2
  exact List.prefix_or_prefix_of_prefix h1 h2

/-- And once both are drained they have returned the same pictures. -/
theorem C23_same_pictures_partial {s : Settings} {env : Env κ} (hna : NoAgain env) (hl : s.allLayers = true) {m n : Nat} (hm : 0 < m) (hn : 0 < n) {l k : List Call}
    (hp : ∀ a ∈ l, a.Plain) (hq : ∀ a ∈ k, a.Plain) {c rs d qs}
    (hs : session { s with nFc := m } env Dec.init (l ++ gets (m + 2)) = some (c, rs ++ List.replicate (m + 2) (.got (.error .EAGAIN))))
    (ht : session { s with nFc := n } env Dec.init (k ++ gets (n + 2)) = some (d, qs ++ List.replicate (n + 2) (.got (.error .EAGAIN))))
    (hsame : taken l rs = taken k qs) (hok : ∀ x ∈ (seqStream s env Dec.init (taken l rs)).2, x.isOk = true) :
    rs.flatMap Reply.result = qs.flatMap Reply.result := by
  have h1 := C21_complete_partial (s := { s with nFc := m }) hna hl hm hp hs (Or.inr (by rw [seqStream_nFc]; exact hok))
  have h2 := C21_complete_partial (s := { s with nFc := n }) hna hl hn hq ht (Or.inr (by rw [seqStream_nFc, ← hsame]; exact hok))
  rw [seqStream_nFc] at h1 h2
  rw [h1, h2, hsame]
  rfl

/-- Whenever dav1d_get_picture answers EAGAIN, at most `n_fc` pictures of the packets taken so far are still to
come. -/
theorem C23_delay_partial {s : Settings} {env : Env κ} (hna : NoAgain env) (hl : s.allLayers = true) (hf : 0 < s.nFc) {l : List Call} (hp : ∀ a ∈ l, a.Plain) {c' rs}
    (hs : session s env Dec.init (l ++ [.get]) = some (c', rs ++ [.got (.error .EAGAIN)])) (ho : Orderly s (seqStream s env Dec.init (taken l rs)).2) :
    (seqStream s env Dec.init (taken l rs)).2.length ≤ (rs.flatMap Reply.result).length + s.nFc := by
  rw [session_append] at hs
  obtain ⟨⟨c1, rs1⟩, h1, h2⟩ := Option.bind_eq_some_iff.1 hs
  obtain ⟨⟨c2, rs2⟩, h3, h4⟩ := Option.map_eq_some_iff.1 h2
  have l3 := session_length _ h3
  simp only [Prod.mk.injEq] at h4
  obtain ⟨rfl, h5⟩ := h4
  have hlen : rs1.length = rs.length := by
    have := congrArg List.length h5
    simp only [List.length_append, List.length_cons, List.length_nil] at this l3
    omega
  obtain ⟨rfl, rfl⟩ := List.append_inj h5 hlen
  have hg : getPicture s env c1 = some (c2, .error .EAGAIN) := by
    simp only [session, call] at h3
    cases hgp : getPicture s env c1 with
    | none => rw [hgp] at h3; cases h3
    | some y => rw [hgp] at h3; obtain ⟨y1, y2⟩ := y; cases h3; rfl
  obtain ⟨g1, g2, g3⟩ := session_stream hna hl hf hp h1 ho
  obtain ⟨k1, k2, _, _⟩ := getPicture_drain hna hl g1 g2 hg
  obtain ⟨c3, r3, e3, _, _, h⟩ := getPicture_seq hna hl g1 g2
  rw [hg] at e3
  cases e3
  have hl2 : (todo s env c1).2.length = (todo s env c2).2.length := by
    rcases h with ⟨_, _, _, h4⟩ | ⟨p, h2, h3, _⟩ | ⟨e, _, h2, h3, _⟩
    · have := congrArg List.length h4; simpa using this
    · exact absurd h2.symm (finishPic_again hna h3)
    · cases h2; exact absurd rfl h3
  have := congrArg List.length g3
  simp only [List.length_append, List.length_map] at this
  have := todo_length (s := s) (env := env) k2 k1
  omega

/-! ## The hypotheses can be met, and what does not hold -/

theorem demoEnv_noAgain : NoAgain demoEnv := by
  constructor
  · intro f h
    simp only [demoEnv, demoDec] at h
    split at h <;> cases h
  · intro g k h
    cases h

/-- A key frame with content `k`; shown inter frames; a hidden one; the hidden one shown. -/
def streamKey (k : UInt8) : List UInt8 := tdObu ++ seqObu ++ frameObu demoKeyBits [k, 8]
def streamInter (off : Nat) (k : UInt8) : List UInt8 := tdObu ++ frameObu (interBits off 1 true) [k]
def streamHidden (off : Nat) (k : UInt8) : List UInt8 := tdObu ++ frameObu (interBits off 4 false) [k]
def streamShow : List UInt8 := tdObu ++ showObu 2

/-- What a decoder without queue shows. -/
def shownBy (s : Settings) (l : List (List UInt8)) : List (Option UInt8) :=
  (seqStream s demoEnv Dec.init (l.map (⟨·, 0⟩))).2.map (fun x => match x with
    | .ok p => p.content.toOption
    | .error _ => none)

-- one packet with several frames, hidden and shown again
example : shownBy {} [streamKey 1 ++ streamHidden 3 2 ++ streamInter 1 3, streamInter 2 4 ++ streamShow] = [some 1, some 3, some 4, some 2] := by
  decide +kernel
-- the same from the calls with one and with three frame contexts
example : run {} [send 0 (streamKey 1 ++ streamHidden 3 2 ++ streamInter 1 3), send 0 (streamInter 2 4 ++ streamShow), .get, .get,
      send 0 (streamInter 2 4 ++ streamShow), .get, .get, .get] =
    some [.sent none false, .sent (some .EAGAIN) true, .pic 1, .pic 3, .sent none false, .pic 4, .pic 2, .err .EAGAIN] := by
  decide +kernel
example : run { nFc := 3 } [send 0 (streamKey 1 ++ streamHidden 3 2 ++ streamInter 1 3), .get, send 0 (streamInter 2 4 ++ streamShow), .get, .get, .get,
      .get, .get, .get, .get, .get, .get] =
    some [.sent none false, .err .EAGAIN, .sent none false, .pic 1, .pic 3, .pic 4, .pic 2, .err .EAGAIN, .err .EAGAIN, .err .EAGAIN, .err .EAGAIN, .err .EAGAIN] := by
  decide +kernel
-- C21, C23: the hypotheses on the stream
example : ∀ x ∈ (seqStream {} demoEnv Dec.init [⟨streamKey 1 ++ streamHidden 3 2 ++ streamInter 1 3, 0⟩, ⟨streamInter 2 4 ++ streamShow, 0⟩]).2, x.isOk = true := by
  decide +kernel
example : (⟨streamInter 2 4 ++ streamShow, 0⟩ : Packet).Valid := ⟨by decide +kernel, by decide +kernel⟩
-- with one frame context errors are in place: the stream with an undecodable frame
example : shownBy {} [streamKey 1, streamInter 1 0xFF, streamInter 2 3, streamKey 4] = [some 1, none, none, some 4] ∧
    run {} [send 0 (streamKey 1), .get, send 0 (streamInter 1 0xFF), .get, send 0 (streamInter 2 3), send 0 (streamKey 4), .get] =
    some [.sent none false, .pic 1, .sent (some .EINVAL) true, .err .EAGAIN, .sent (some .EINVAL) true, .sent none false, .pic 4] := by
  constructor <;> decide +kernel

/-- EAGAIN while draining does not mean that nothing is left if data was sent after draining had begun: with three frame
contexts the last picture comes only after a second EAGAIN. -/
theorem C21_first_again : run { nFc := 3 } [send 0 (streamKey 1), send 0 (streamInter 1 2), send 0 (streamHidden 3 3), .get, .get,
      send 0 (streamInter 2 4), .get, .get, .get] =
    some [.sent none false, .sent none false, .sent none false, .err .EAGAIN, .pic 1, .sent none false, .pic 2, .err .EAGAIN, .pic 4] := by
  decide +kernel

/-- The tile groups taken from a packet before an error was found in it stay in the decoder (they hold a reference to
the packet). -/
theorem C18_tiles_kept : ((session {} demoEnv Dec.init [send 5 (tdObu ++ seqObu ++ hdrObu demoKeyBits ++ groupObu 1 0 0 [9] ++ [0xFF])]).map (fun x =>
      (x.2.map seen, x.1.tiles.map (·.props)))) = some ([.sent (some .EINVAL) true], [5]) := by
  decide +kernel

-- C18: the rest of a packet is held, a second one refused, one with an error rejected
example : (after {} [send 1 (streamKey 1 ++ streamInter 1 3)]).map (fun c => (c.input.map (·.data), c.out.isSome)) = some (some (streamInter 1 3), true) ∧
    run {} [send 1 (streamKey 1 ++ streamInter 1 3), send 2 (streamInter 1 3)] = some [.sent none false, .sent (some .EAGAIN) true] := by
  constructor <;> decide +kernel
-- C22: a refused packet is taken after the first picture was got
example : run {} [send 1 (streamKey 1 ++ streamInter 1 3), send 2 (streamInter 2 4), .get, send 2 (streamInter 2 4), .get, .get, .get] =
    some [.sent none false, .sent (some .EAGAIN) true, .pic 1, .sent (some .EAGAIN) true, .pic 3, .err .EAGAIN, .err .EAGAIN] := by decide +kernel

end Dav1d
