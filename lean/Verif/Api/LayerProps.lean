import Verif.Api.OrderProps
/-!
# C24: spatial layers
-/
namespace Dav1d
variable {κ : Type}

/-- After each OBU of the packet: the highest spatial layer of the operating point, and the picture to show. -/
def layerSteps (s : Settings) (env : Env κ) (d : Dec κ) (pkt : Packet) : List (Nat × Except Err (Option (Pic κ))) :=
  if pkt.data = [] then []
  else match seqStep s env d pkt with
    | (d, .error e) => [(d.maxSpatialId, .error e)]
    | (d, .ok (p, rest)) =>
      (d.maxSpatialId, .ok p) :: (if rest.length < pkt.data.length then layerSteps s env d { pkt with data := rest } else [])
termination_by pkt.data.length

/-- The picture of such a step. -/
def stepPic : Nat × Except Err (Option (Pic κ)) → Option (Pic κ)
  | (_, .ok p) => p
  | (_, .error _) => none

/-- The packet is a temporal unit of the stream without errors: `l` are the pictures to show, `m` is the highest spatial
layer of the operating point when they are shown. The first picture may be marked as the first of the temporal unit, and
each one is of a higher layer than the one before. -/
structure TemporalUnit (s : Settings) (env : Env κ) (m : Nat) (d : Dec κ) (p : Packet) (l : List (Pic κ)) : Prop where
  valid : p.Valid
  ok : ∀ x ∈ layerSteps s env d p, x.2.isOk = true
  pics : (layerSteps s env d p).filterMap stepPic = l
  top : ∀ x ∈ (layerSteps s env d p).dropWhile (fun x => (stepPic x).isNone), x.1 = m
  rising : l.Pairwise (fun x y => x.hdr.spatialId < y.hdr.spatialId)
  inside : ∀ x ∈ l, x.hdr.spatialId ≤ m
  marked : ∀ x ∈ l.tail, x.flags.newTu = false

theorem layerSteps_eq (s : Settings) (env : Env κ) (d : Dec κ) (pkt : Packet) (hp : pkt.data ≠ []) : layerSteps s env d pkt =
    match seqStep s env d pkt with
    | (d, .error e) => [(d.maxSpatialId, .error e)]
    | (d, .ok (p, rest)) =>
      (d.maxSpatialId, .ok p) :: (if rest.length < pkt.data.length then layerSteps s env d { pkt with data := rest } else []) := by
  rw [layerSteps, if_neg hp]

/-- The rest of a temporal unit fits to the picture held: which may be replaced by any that follows. -/
def Replaceable (m : Nat) (x y : Pic κ) : Prop := x.hdr.spatialId ≠ m ∧ y.flags.newTu = false

theorem Pic.given_hdr {x y : Pic κ} (h : x.given = y.given) : x.hdr = y.hdr ∧ x.flags = y.flags := by
  have h1 := congrArg Pic.hdr h
  have h2 := congrArg Pic.flags h
  exact ⟨h1, h2⟩

theorem outputReady_empty {s : Settings} {c : Dec κ} (hce : c.cachedError = none) (ho : c.out = none) : outputReady s c false = (false, c) := by
  unfold outputReady
  rw [hce, ho]
  simp only [Option.isSome_none, Bool.false_eq_true, if_false]
  split
  · split <;> first | rfl | (rename_i h _; cases h) | (rename_i h; cases h)
  · rfl

theorem outputReady_layer {s : Settings} (hl : s.allLayers = false) {c : Dec κ} (hm : c.maxSpatialId ≠ 0) (hce : c.cachedError = none) {p : Pic κ} (ho : c.out = some p)
    (hr : ∀ k, c.cache = some k → Replaceable c.maxSpatialId k p) : outputReady s c false = (false, { c with cache := some p, out := none }) := by
  unfold outputReady layered
  rw [hce, ho, hl]
  simp only [Option.isSome_none, Bool.false_eq_true, if_false, Bool.not_false, Bool.true_and, bne_iff_ne, ne_eq, hm, not_false_eq_true, if_true]
  cases hk : c.cache with
  | none => rfl
  | some k =>
    dsimp only
    obtain ⟨h1, h2⟩ := hr k hk
    rw [if_neg]
    rintro (h | h)
    · exact h1 h.symm
    · rw [h2] at h; cases h

/-- The pictures of a list with that held before. -/
def chained (m : Nat) (k : Option (Pic κ)) (l : List (Pic κ)) : Prop := List.IsChain (Replaceable m) (k.toList ++ l)

theorem genLoop_layers {s : Settings} {env : Env κ} (hna : NoAgain env) (h1 : s.nFc = 1) (hl : s.allLayers = false) {m : Nat} (hm : m ≠ 0) (n : Nat) : ∀ {c : Dec κ} {pkt : Packet},
    pkt.data.length = n → InStep s env c → c.out = none → pkt.data ≠ [] → (∀ x ∈ layerSteps s env (core c) pkt, x.2.isOk = true) →
    (∀ x ∈ if c.cache.isSome then layerSteps s env (core c) pkt else (layerSteps s env (core c) pkt).dropWhile (fun x => (stepPic x).isNone), x.1 = m) →
    chained m c.cache ((layerSteps s env (core c) pkt).filterMap stepPic) → (c.cache.isSome → c.maxSpatialId = m) →
    ∃ c', genLoop s env c pkt = some (c', none) ∧ InStep s env c' ∧ c'.input = none ∧ c'.out = none ∧ core c' = (seqPacket s env (core c) pkt).1 ∧
      c'.cache.map Pic.given = (c.cache.toList ++ (layerSteps s env (core c) pkt).filterMap stepPic).getLast?.map Pic.given ∧
      (c'.cache.isSome → c'.maxSpatialId = m) := by
  induction n using Nat.strong_induction_on with
  | _ n ih =>
  intro c pkt hn hst hout hp hok htop hch hmax
  obtain ⟨x, hx, hix, hnx⟩ := hst.inv.parseObus hout hp
  rw [genLoop, seqPacket_eq _ _ _ _ hp]
  rw [layerSteps_eq _ _ _ _ hp] at hok htop hch ⊢
  generalize hso : seqStep s env (core c) pkt = z at hok htop hch ⊢
  obtain ⟨d', r⟩ := z
  cases r with
  | error e => exact absurd (hok _ List.mem_cons_self) (by simp [Except.isOk, Except.toBool])
  | ok y =>
    obtain ⟨o, rest⟩ := y
    obtain ⟨a', e1, hs, h2, h3⟩ := obu_seq hna hst.inv hst.clean hout hst.pics hp hso (Or.inr rfl)
    obtain ⟨h4, h5⟩ := h3 o rest rfl
    dsimp only at hok htop hch ⊢
    rw [if_pos h4] at hok htop hch ⊢
    rw [if_pos h4]
    rw [e1]
    rw [e1] at hx
    cases hx
    obtain ⟨h6, h7⟩ := hnx _ rfl
    simp only [lenOf]
    rw [dif_pos ⟨h6, h7⟩]
    set c1 : Dec κ := { put a' d' with input := pkt.advance (pkt.data.length - rest.length) } with hc1
    have hst1 : InStep s env c1 := by
      refine ⟨Inv.setInput hix _ advance_ne, ?_, hs.pics⟩
      exact ⟨hs.clean.cachedError, hs.clean.next, hs.clean.slot⟩
    have hce : c1.cachedError = none := hs.clean.cachedError
    have hcore1 : core c1 = d' := hs.core.core_eq
    have hcache1 : c1.cache = c.cache := hs.keep.cache
    have hpend := hs.pend
    rw [pend_one h1, pend_one h1, hout] at hpend
    simp only [Option.toList_none, List.nil_append, picOf] at hpend
    set t := layerSteps s env d' { pkt with data := rest } with ht
    -- the context after the test for output
    have key : ∃ c2, outputReady s c1 false = (false, c2) ∧ InStep s env c2 ∧ c2.out = none ∧ core c2 = d' ∧ c2.input = c1.input ∧
        c2.cache.map Pic.given = (c.cache.toList ++ o.toList).getLast?.map Pic.given ∧ (c2.cache.isSome → c2.maxSpatialId = m) ∧
        (∀ x ∈ if c2.cache.isSome then t else t.dropWhile (fun x => (stepPic x).isNone), x.1 = m) ∧
        chained m c2.cache (t.filterMap stepPic) := by
      cases ho : a'.out with
      | none =>
        rw [ho] at hpend
        have hon : o = none := by
          cases o with
          | none => rfl
          | some p => simp at hpend
        subst hon
        refine ⟨c1, outputReady_empty hce ho, hst1, ho, hcore1, rfl, ?_, ?_, ?_, ?_⟩
        · rw [hcache1]
          cases c.cache <;> rfl
        · rw [hcache1]
          intro hk
          rw [if_pos hk] at htop
          exact htop _ List.mem_cons_self
        · rw [hcache1]
          cases hk : c.cache.isSome with
          | true =>
            rw [hk, if_pos rfl] at htop
            rw [if_pos rfl]
            intro x hx
            exact htop x (List.mem_cons_of_mem _ hx)
          | false =>
            rw [hk, if_neg (by decide)] at htop
            rw [if_neg (by decide)]
            rw [List.dropWhile_cons_of_pos (by rfl)] at htop
            exact htop
        · rw [hcache1]
          exact hch
      | some p' =>
        rw [ho] at hpend
        obtain ⟨p, rfl⟩ : ∃ p, o = some p := by
          cases o with
          | none => simp at hpend
          | some p => exact ⟨p, rfl⟩
        simp only [Option.toList_some, List.map_cons, List.map_nil, List.cons.injEq, and_true] at hpend
        obtain ⟨g1, g2⟩ := Pic.given_hdr hpend
        have hall : d'.maxSpatialId = m ∧ ∀ x ∈ t, x.1 = m := by
          have hsub : ∀ x ∈ (d'.maxSpatialId, (Except.ok (some p) : Except Err (Option (Pic κ)))) :: t, x.1 = m := by
            split at htop
            · exact htop
            · rw [List.dropWhile_cons_of_neg (by simp [stepPic])] at htop
              exact htop
          exact ⟨hsub _ List.mem_cons_self, fun x hx => hsub x (List.mem_cons_of_mem _ hx)⟩
        have hmx : c1.maxSpatialId = m := hall.1
        have hf : List.filterMap stepPic ((d'.maxSpatialId, (Except.ok (some p) : Except Err (Option (Pic κ)))) :: t) = p :: t.filterMap stepPic := rfl
        rw [hf] at hch
        refine ⟨_, outputReady_layer hl (by rw [hmx]; exact hm) hce ho ?_, ?_, rfl, hcore1, rfl, ?_, ?_, ?_, ?_⟩
        · intro k hk
          rw [hcache1] at hk
          unfold chained at hch
          rw [hk] at hch
          have := (List.isChain_cons_cons.1 hch).1
          rw [hmx]
          exact ⟨this.1, by rw [g2]; exact this.2⟩
        · have hi := hst1.inv
          exact ⟨⟨hi.seq, hi.op, hi.refs, hi.hdr, hi.limit, hi.hdrFor, hi.cover, hi.decoded, fun _ h => (by cases h), fun q hq => by cases hq; exact hi.out _ ho, hi.sync, hi.pics, hi.skipped, hi.slots, hi.input⟩,
            ⟨hst1.clean.cachedError, hst1.clean.next, hst1.clean.slot⟩, hst1.pics⟩
        · simp [hpend]
        · intro _; exact hmx
        · simp only [Option.isSome_some, if_true]; exact hall.2
        · unfold chained at hch ⊢
          have h8 : List.IsChain (Replaceable m) (p :: t.filterMap stepPic) := by
            cases hk : c.cache with
            | none => rw [hk] at hch; exact hch
            | some k => rw [hk] at hch; exact (List.isChain_cons_cons.1 hch).2
          show List.IsChain (Replaceable m) (p' :: t.filterMap stepPic)
          revert h8
          cases t.filterMap stepPic with
          | nil => intro _; exact .singleton _
          | cons y ys =>
            intro h8
            rw [List.isChain_cons_cons] at h8 ⊢
            exact ⟨⟨by rw [g1]; exact h8.1.1, h8.1.2⟩, h8.2⟩
    obtain ⟨c2, k1, k2, k3, k4, k5, k6, k7, k8, k9⟩ := key
    rw [k1]
    dsimp only
    have hstep : (layerSteps s env d' { pkt with data := rest }).filterMap stepPic = t.filterMap stepPic := rfl
    have hlast : ∀ (u : List (Pic κ)), (c2.cache.toList ++ u).getLast?.map Pic.given = (c.cache.toList ++ (o.toList ++ u)).getLast?.map Pic.given := by
      intro u
      rw [← List.append_assoc, List.getLast?_append, List.getLast?_append (l := c.cache.toList ++ o.toList)]
      cases u.getLast? with
      | some y => rfl
      | none =>
        simp only [Option.none_or]
        rw [← k6]
        cases c2.cache <;> rfl
    have hfm : List.filterMap stepPic ((d'.maxSpatialId, (Except.ok o : Except Err (Option (Pic κ)))) :: t) = o.toList ++ t.filterMap stepPic := by
      cases o <;> rfl
    rw [hfm]
    split
    · rename_i hlt
      have hr0 : rest = [] := by
        rw [h5, List.drop_eq_nil_iff]; exact hlt
      have ht0 : t = [] := by rw [ht, layerSteps, if_pos hr0]
      refine ⟨c2, rfl, k2, ?_, k3, ?_, ?_, k7⟩
      · rw [k5]
        show pkt.advance _ = none
        unfold Packet.advance
        rw [if_pos (by rw [List.drop_eq_nil_iff]; exact hlt)]
      · rw [k4, seqPacket_nil _ _ _ _ hr0]
      · rw [← hlast]
        rw [ht0]
        simp only [List.filterMap_nil, List.append_nil]
        cases c2.cache <;> rfl
    · rename_i hlt
      have hne : pkt.data.drop (pkt.data.length - rest.length) ≠ [] := by
        rw [Ne, List.drop_eq_nil_iff]; exact hlt
      obtain ⟨c', b1, b2, b3, b4, b5, b6, b7⟩ := ih (pkt.data.drop (pkt.data.length - rest.length)).length (by rw [List.length_drop]; omega) (c := c2)
        (pkt := { pkt with data := pkt.data.drop (pkt.data.length - rest.length) }) rfl k2 k3 hne
        (by rw [k4, ← h5]; exact fun x hx => hok x (List.mem_cons_of_mem _ hx)) (by rw [k4, ← h5]; exact k8) (by rw [k4, ← h5]; exact k9) k7
      rw [k4, ← h5] at b5 b6
      exact ⟨c', b1, b2, b3, b4, b5, b6.trans (hlast _), b7⟩

/-- Between two temporal units: nothing is held. -/
structure AtRest (s : Settings) (env : Env κ) (c : Dec κ) : Prop where
  step : InStep s env c
  input : c.input = none
  out : c.out = none
  cache : c.cache = none

theorem TemporalUnit.chained {s : Settings} {env : Env κ} {m : Nat} {d : Dec κ} {p : Packet} {l : List (Pic κ)} (h : TemporalUnit s env m d p l) : chained m none l := by
  have h1 := h.rising
  have h2 := h.inside
  have h3 := h.marked
  clear h
  unfold Dav1d.chained
  show List.IsChain (Replaceable m) l
  induction l with
  | nil => exact .nil
  | cons x l ih =>
    cases l with
    | nil => exact .singleton _
    | cons y l =>
      rw [List.pairwise_cons] at h1
      rw [List.isChain_cons_cons]
      have hxy := h1.1 y List.mem_cons_self
      have hy := h2 y (List.mem_cons_of_mem _ List.mem_cons_self)
      exact ⟨⟨by omega, h3 y List.mem_cons_self⟩, ih h1.2 (fun z hz => h2 z (List.mem_cons_of_mem _ hz)) (fun z hz => h3 z (List.mem_cons_of_mem _ hz))⟩

theorem InStep.setDrain {s : Settings} {env : Env κ} {c : Dec κ} (h : InStep s env c) (b : Bool) : InStep s env { c with drain := b } :=
  have hi := h.inv
  ⟨⟨hi.seq, hi.op, hi.refs, hi.hdr, hi.limit, hi.hdrFor, hi.cover, hi.decoded, hi.out, hi.cache, hi.sync, hi.pics, hi.skipped, hi.slots, hi.input⟩,
    ⟨h.clean.cachedError, h.clean.next, h.clean.slot⟩, h.pics⟩

theorem genPicture_rest {s : Settings} {env : Env κ} {c : Dec κ} (hce : c.cachedError = none) (ho : c.out = none) (hi : c.input = none) : genPicture s env c = some (c, none) := by
  unfold genPicture
  rw [outputReady_empty hce ho]
  dsimp only
  rw [hi]

theorem getPicture_of {s : Settings} {env : Env κ} {c d : Dec κ} (h1 : genPicture s env { c with drain := true } = some (d, none)) (h2 : d.cachedError = none) :
    getPicture s env c = match outputReady s d (s.nFc == 1) with
      | (true, c) => outputImage s env c
      | (false, d) => if s.nFc > 1 ∧ c.drain = true then drainPicture s env d else some (d, .error .EAGAIN) := by
  unfold getPicture
  dsimp only
  rw [h1]
  dsimp only
  rw [h2]
  rfl

/-- One temporal unit with one frame context: dav1d_send_data accepts it, and dav1d_get_picture returns the last picture
and then EAGAIN. -/
theorem unit_session {s : Settings} {env : Env κ} (hna : NoAgain env) (h1 : s.nFc = 1) (hl : s.allLayers = false) {m : Nat} (hm : m ≠ 0) {c : Dec κ} (hc : AtRest s env c) {p : Packet} {l : List (Pic κ)}
    (hu : TemporalUnit s env m (core c) p l) :
    ∃ c' rs, session s env c [.send (some p), .get, .get] = some (c', rs) ∧ AtRest s env c' ∧ core c' = (seqPacket s env (core c) p).1 ∧
      rs.flatMap Reply.result = l.getLast?.toList.map (fun x => handed s env (.ok x)) := by
  have hst0 : InStep s env { c with drain := false, input := some p } := by
    have hi := hc.step.inv
    exact ⟨⟨hi.seq, hi.op, hi.refs, hi.hdr, hi.limit, hi.hdrFor, hi.cover, hi.decoded, hi.out, hi.cache, hi.sync, hi.pics, hi.skipped, hi.slots, fun x hx => by cases hx; exact hu.valid.1⟩,
      ⟨hc.step.clean.cachedError, hc.step.clean.next, hc.step.clean.slot⟩, hc.step.pics⟩
  obtain ⟨c1, g1, g2, g3, g4, g5, g6, g7⟩ := genLoop_layers hna h1 hl hm _ (c := { c with drain := false, input := some p }) (pkt := p) rfl hst0 hc.out hu.valid.1 hu.ok
    (by
      simp only [hc.cache, Option.isSome_none, Bool.false_eq_true, if_false]
      exact hu.top)
    (by
      show Dav1d.chained m c.cache _
      rw [hc.cache]
      have := hu.chained
      rw [← hu.pics] at this
      exact this)
    (by
      show c.cache.isSome = true → _
      rw [hc.cache]; intro h; cases h)
  change _ = (seqPacket s env (core c) p).1 at g5
  have hsend : sendData s env c (some p) = some ⟨c1, none, none⟩ := by
    unfold sendData
    rw [hu.valid.any]
    simp only [Bool.false_eq_true, if_false, Option.isSome_some, if_true, hc.input, Option.isSome_none]
    unfold genPicture
    rw [outputReady_empty (by exact hc.step.clean.cachedError) (by exact hc.out)]
    dsimp only
    rw [g1]
  have hlast : c1.cache.map Pic.given = l.getLast?.map Pic.given := by
    rw [g6]
    show (c.cache.toList ++ List.filterMap stepPic (layerSteps s env (core c) p)).getLast?.map _ = _
    rw [hc.cache, hu.pics]
    rfl
  -- a get with nothing held
  have again : ∀ {d : Dec κ}, AtRest s env d → getPicture s env d = some ({ d with drain := true }, .error .EAGAIN) := by
    intro d hd
    rw [getPicture_of (genPicture_rest (by exact hd.step.clean.cachedError) (by exact hd.out) (by exact hd.input)) hd.step.clean.cachedError]
    have : outputReady s { d with drain := true } (s.nFc == 1) = (false, { d with drain := true }) := by
      unfold outputReady
      simp only [hd.step.clean.cachedError, hd.out, hd.cache, Option.isSome_none, Bool.false_eq_true, if_false]
      split <;> rfl
    rw [this]
    dsimp only
    rw [if_neg (by omega)]
  have rest_again : ∀ {d : Dec κ}, AtRest s env d → AtRest s env { d with drain := true } := fun hd => ⟨hd.step.setDrain true, hd.input, hd.out, hd.cache⟩
  unfold session
  simp only [call, hsend, Option.map_some]
  cases hk : c1.cache with
  | none =>
    have hr1 : AtRest s env c1 := ⟨g2, g3, g4, hk⟩
    have hl0 : l = [] := by
      rw [hk] at hlast
      cases l with
      | nil => rfl
      | cons x l =>
        simp at hlast
    simp only [session, call, again hr1, again (rest_again hr1), Option.map_some]
    refine ⟨_, _, rfl, (by exact rest_again hr1), g5, ?_⟩
    rw [hl0]
    rfl
  | some k =>
    have hmx : c1.maxSpatialId = m := g7 (by rw [hk]; rfl)
    have hr1 : AtRest s env { c1 with drain := true, cache := none } := by
      have hi := g2.inv
      exact ⟨⟨⟨hi.seq, hi.op, hi.refs, hi.hdr, hi.limit, hi.hdrFor, hi.cover, hi.decoded, hi.out, fun _ h => (by cases h), hi.sync, hi.pics, hi.skipped, hi.slots, hi.input⟩,
        ⟨g2.clean.cachedError, g2.clean.next, g2.clean.slot⟩, g2.pics⟩, g3, g4, rfl⟩
    have hget : getPicture s env c1 = some ({ c1 with drain := true, cache := none }, finishPic s env k) := by
      rw [getPicture_of (genPicture_rest (by exact g2.clean.cachedError) (by exact g4) (by exact g3)) g2.clean.cachedError]
      have hlay : layered s { c1 with drain := true } = true := by
        unfold layered
        simp [hl, hmx, hm]
      have : outputReady s { c1 with drain := true } (s.nFc == 1) = (true, { c1 with drain := true }) := by
        unfold outputReady
        rw [hlay]
        simp only [g2.clean.cachedError, g4, hk, Option.isSome_none, Bool.false_eq_true, if_false, if_true, h1]
        rfl
      rw [this]
      dsimp only
      unfold outputImage
      rw [hlay]
      simp only [if_true, hk, g4]
    have hg := again hr1
    simp only [session, call, hget, hg, Option.map_some]
    refine ⟨_, _, rfl, rest_again hr1, g5, ?_⟩
    obtain ⟨x, hx⟩ : ∃ x, l.getLast? = some x := by
      cases h : l.getLast? with
      | some x => exact ⟨x, rfl⟩
      | none => rw [hk, h] at hlast; cases hlast
    rw [hx]
    rw [hk, hx] at hlast
    simp only [Option.map_some, Option.some.injEq] at hlast
    have hkok := (g2.inv.cache k hk).1
    have h9 := result_got (s := s) hna hkok
    simp only [List.flatMap_cons, List.flatMap_nil, Option.toList_some, List.map_cons, List.map_nil, List.append_nil]
    have hh : handed s env (.ok k) = handed s env (.ok x) := by
      rw [← handed_gvn s env (.ok k), ← handed_gvn s env (.ok x)]
      show handed s env (.ok k.given) = handed s env (.ok x.given)
      rw [hlast]
    rw [h9, hh]
    rfl

/-- A stream of temporal units with the pictures to show in each. -/
inductive UnitStream (s : Settings) (env : Env κ) (m : Nat) : Dec κ → List (Packet × List (Pic κ)) → Prop
  | nil (d) : UnitStream s env m d []
  | cons {d p l us} : TemporalUnit s env m d p l → UnitStream s env m (seqPacket s env d p).1 us → UnitStream s env m d ((p, l) :: us)

/-- The calls for it: send a temporal unit, then get pictures until there is none. -/
def unitCalls (us : List (Packet × List (Pic κ))) : List Call := us.flatMap (fun u => [.send (some u.1), .get, .get])

/-- C24, one frame context, not all layers, several spatial layers in the operating point, each packet a temporal unit
and pictures fetched after each packet: exactly one picture is returned for each temporal unit that shows any, the one of
the highest layer. -/
theorem C24_one_per_unit_partial {s : Settings} {env : Env κ} (hna : NoAgain env) (h1 : s.nFc = 1) (hl : s.allLayers = false) {m : Nat} (hm : m ≠ 0) {us : List (Packet × List (Pic κ))}
    (hu : UnitStream s env m Dec.init us) :
    ∃ c rs, session s env Dec.init (unitCalls us) = some (c, rs) ∧
      rs.flatMap Reply.result = (us.filterMap (fun u => u.2.getLast?)).map (fun x => handed s env (.ok x)) := by
  suffices h : ∀ c : Dec κ, AtRest s env c → ∀ us, UnitStream s env m (core c) us → ∃ c' rs, session s env c (unitCalls us) = some (c', rs) ∧
      rs.flatMap Reply.result = (us.filterMap (fun u => u.2.getLast?)).map (fun x => handed s env (.ok x)) from
    h Dec.init ⟨InStep.init (by omega), rfl, rfl, rfl⟩ us hu
  intro c hc us
  induction us generalizing c with
  | nil => intro _; exact ⟨c, [], rfl, rfl⟩
  | cons u us ih =>
    intro hu
    cases hu with
    | cons h2 h3 =>
      rename_i p l
      obtain ⟨c1, rs1, g1, g2, g3, g4⟩ := unit_session hna h1 hl hm hc h2
      rw [← g3] at h3
      obtain ⟨c2, rs2, k1, k2⟩ := ih c1 g2 h3
      refine ⟨c2, rs1 ++ rs2, ?_, ?_⟩
      · show session s env c ([.send (some p), .get, .get] ++ unitCalls us) = _
        rw [session_append, g1, Option.bind_some, k1]
        rfl
      · rw [List.flatMap_append, g4, k2]
        rw [List.filterMap_cons]
        cases h : l.getLast? <;> simp [h]

/-- C24: it is the highest of the layers present. -/
theorem C24_highest {s : Settings} {env : Env κ} {m : Nat} {d : Dec κ} {p : Packet} {l : List (Pic κ)} (hu : TemporalUnit s env m d p l) {x : Pic κ} (hx : l.getLast? = some x) :
    x ∈ l ∧ x.hdr.spatialId ≤ m ∧ ∀ y ∈ l, y.hdr.spatialId ≤ x.hdr.spatialId := by
  have hmem := List.mem_of_getLast? hx
  refine ⟨hmem, hu.inside x hmem, fun y hy => ?_⟩
  obtain ⟨ys, rfl⟩ := List.getLast?_eq_some_iff.1 hx
  rcases List.mem_append.1 hy with h | h
  · exact Nat.le_of_lt ((List.pairwise_append.1 hu.rising).2.2 y h x (by simp))
  · rw [List.mem_singleton.1 h]

/-- C24, all layers: every picture to show is returned, in order (C21). -/
theorem C24_all_layers {s : Settings} {env : Env κ} (hna : NoAgain env) (hl : s.allLayers = true) (hf : 0 < s.nFc) {l : List Call} (hp : ∀ a ∈ l, a.Plain) {c' rs}
    (hs : session s env Dec.init (l ++ gets (s.nFc + 2)) = some (c', rs ++ List.replicate (s.nFc + 2) (.got (.error .EAGAIN))))
    (ho : Orderly s (seqStream s env Dec.init (taken l rs)).2) :
    rs.flatMap Reply.result = (seqStream s env Dec.init (taken l rs)).2.map (handed s env) :=
  C21_complete_partial hna hl hf hp hs ho

/-! ## Streams with two spatial layers -/

/-- The sequence header of the examples with the scalability information `idc`. -/
def seqObuL (idc : Nat) : List UInt8 :=
  obu 1 (toBytes (natBits 3 0 ++ [false, false, false, false] ++ natBits 5 0 ++ natBits 12 idc ++ natBits 5 4 ++
    natBits 4 8 ++ natBits 4 8 ++ natBits 9 351 ++ natBits 9 287 ++ [false] ++
    [false, true, true, true, true, true, true, true, true, true, true, true] ++ natBits 3 3 ++
    [true, true, true] ++ [false, false, false, false] ++ natBits 2 0 ++ [false] ++ [true] ++ [true] ++ [true]))
/-- A frame of layer `sp`. -/
def frameObuL (sp : Nat) (bits : List Bool) (d : List UInt8) : List UInt8 := obuX 6 0 sp (toBytes ([false] ++ bits) ++ [0] ++ d)
/-- A frame shown again as layer `sp`. -/
def showObuL (sp i : Nat) : List UInt8 := obuX 3 0 sp (toBytes ([true] ++ natBits 3 i ++ [true]))
/-- A temporal unit with a key frame and an inter frame of the second layer, and one with two inter frames. -/
def unitKey (k l : UInt8) : List UInt8 := tdObu ++ seqObuL 0x301 ++ frameObuL 0 demoKeyBits [k, 8] ++ frameObuL 1 (interBits 1 1 true) [l]
def unitInter (off : Nat) (k l : UInt8) : List UInt8 := tdObu ++ frameObuL 0 (interBits off 1 true) [k] ++ frameObuL 1 (interBits off 1 true) [l]
/-- Settings of the examples. -/
def topLayer : Settings := { allLayers := false }

-- C24: one picture per temporal unit, and all of them
example : run topLayer [send 1 (unitKey 1 2), .get, .get, send 2 (unitInter 2 3 4), .get, .get] =
    some [.sent none false, .pic 2, .err .EAGAIN, .sent none false, .pic 4, .err .EAGAIN] := by decide +kernel
example : run {} [send 1 (unitKey 1 2), .get, .get, .get, send 2 (unitInter 2 3 4), .get, .get, .get] =
    some [.sent none false, .pic 1, .pic 2, .err .EAGAIN, .sent none false, .pic 3, .pic 4, .err .EAGAIN] := by decide +kernel
-- the hypotheses on the stream
example : UnitStream topLayer demoEnv 1 Dec.init
    [(⟨unitKey 1 2, 1⟩, (layerSteps topLayer demoEnv Dec.init ⟨unitKey 1 2, 1⟩).filterMap stepPic)] := by
  refine .cons ⟨⟨by decide +kernel, by decide +kernel⟩, by decide +kernel, rfl, by decide +kernel, by decide +kernel, by decide +kernel, by decide +kernel⟩ (.nil _)
example : ((layerSteps topLayer demoEnv Dec.init ⟨unitKey 1 2, 1⟩).filterMap stepPic).map (fun p => (p.hdr.spatialId, p.flags.newTu)) = [(0, true), (1, false)] := by
  decide +kernel

/-- A temporal unit in two packets with a call of dav1d_get_picture between them: both layers are returned. -/
theorem C24_split : run topLayer [send 1 (tdObu ++ seqObuL 0x301 ++ frameObuL 0 demoKeyBits [1, 8]), .get, send 1 (frameObuL 1 (interBits 1 1 true) [2]), .get, .get] =
    some [.sent none false, .pic 1, .sent none false, .pic 2, .err .EAGAIN] := by decide +kernel

/-- A frame shown again in the second layer, whose own frame was the first one of its temporal unit, counts as the
beginning of a temporal unit: both layers are returned. -/
theorem C24_shown_again : run topLayer [send 1 (unitKey 1 2), .get, .get,
      send 2 (tdObu ++ frameObuL 0 (interBits 3 4 false) [9] ++ frameObuL 0 (interBits 2 1 true) [7] ++ showObuL 1 2), .get, .get, .get] =
    some [.sent none false, .pic 2, .err .EAGAIN, .sent none false, .pic 7, .pic 9, .err .EAGAIN] := by decide +kernel

/-- When a sequence without spatial layers follows before the last picture was fetched, this picture is never
returned. -/
theorem C24_lost : run topLayer [send 1 (unitKey 1 2), send 2 (tdObu ++ seqObuL 0 ++ frameObu demoKeyBits [5, 8]), .get, .get, .get] =
    some [.sent none false, .sent none false, .pic 5, .err .EAGAIN, .err .EAGAIN] := by decide +kernel

/-- With several frame contexts both pictures of a temporal unit are returned when such a sequence follows. -/
theorem C24_twice : run { topLayer with nFc := 2 } [send 1 (unitKey 1 2), send 2 (tdObu ++ seqObuL 0 ++ frameObu demoKeyBits [5, 8]), .get, .get, .get, .get] =
    some [.sent none false, .sent none false, .pic 1, .pic 2, .pic 5, .err .EAGAIN] := by decide +kernel

end Dav1d
