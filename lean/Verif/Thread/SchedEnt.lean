import Verif.Thread.SchedBits
/-!
# Invariants of the entropy progress tasks
-/
namespace Dav1d.Sched
variable {k : Cfg}

/-- How far the task of a row is. -/
def epos : EntSt → Nat
  | .absent => 0 | .queued => 0 | .load => 1 | .pub _ => 2 | .ent _ => 3 | .done => 4 | .sub => 5 | .subbed _ => 6 | .gone => 7

structure EFront (k : Cfg) (ent : Nat → EntSt) (ntr : Nat) (f : Nat) : Prop where
  le : f ≤ k.sbh
  below : ∀ y < f, 1 ≤ epos (ent y)
  here : f < k.sbh → ent f = .queued ∧ ntr < k.rows ∧ k.start ntr ≤ f ∧ f < k.start (ntr + 1)
  above : ∀ y, f ≤ y → y = f ∧ f < k.sbh ∨ ent y = .absent

/-- `entropy_progress` counts the rows done, and only the next row is worked on. -/
structure EProg (k : Cfg) (ent : Nat → EntSt) (entp : Nat) (error : Bool) : Prop where
  val : entp = TILE_ERROR ∧ error = true ∧ (∀ y < k.sbh, ent y ≠ .pub false ∧ ent y ≠ .ent false) ∨
    (entp ≤ k.sbh ∧ (∀ y < k.sbh, 4 ≤ epos (ent y) ↔ y < entp) ∧ ∀ y < k.sbh, 1 ≤ epos (ent y) → y ≤ entp)
  err : ∀ y, ent y = .pub true ∨ ent y = .ent true → error = true

/-- The meaning of `progress[0]`. -/
def Pub0Ok (k : Cfg) (ent : Nat → EntSt) (error : Bool) (pub : Nat) : Prop :=
  (pub = FRAME_ERROR ∧ error = true) ∨ (pub = UINT_MAX ∧ ∀ z < k.sbh, 1 ≤ epos (ent z)) ∨
    ∃ n, n < k.sbh ∧ pub = n * k.sbsz ∧ ∀ z < n, 1 ≤ epos (ent z)

structure EntInv (k : Cfg) (s : St) : Prop where
  absent : s.phase = 0 ∨ k.twoPass = false → (∀ y, s.ent y = .absent) ∧ s.entp = 0 ∧ s.pub0 = 0
  front : s.phase ≠ 0 → k.twoPass = true → ∃ f, EFront k s.ent (s.ntr true) f
  prog : EProg k s.ent s.entp s.error
  read : ∀ y < k.sbh, 1 ≤ epos (s.ent y) → s.error = false → ∀ i < k.tiles, k.first i ≤ y → y < k.last i → y < s.tprog true i
  pub : Pub0Ok k s.ent s.error s.pub0
  done : 5 ≤ epos (s.ent (k.sbh - 1)) → s.done1 = true

theorem EFront.lt {ent : Nat → EntSt} {ntr f y : Nat} (h : EFront k ent ntr f) (hy : 1 ≤ epos (ent y)) : y < f := by
  rcases Nat.lt_or_ge y f with h1 | h1
  · exact h1
  · rcases h.above y h1 with ⟨rfl, h2⟩ | h2
    · rw [(h.here h2).1] at hy; simp [epos] at hy
    · rw [h2] at hy; simp [epos] at hy

theorem EFront.upd {ent : Nat → EntSt} {ntr f y : Nat} {v : EntSt} (h : EFront k ent ntr f) (hy : 1 ≤ epos (ent y)) (hv : 1 ≤ epos v) :
    EFront k (upd ent y v) ntr f := by
  have hlt := h.lt hy
  refine ⟨h.le, fun z hz => ?_, fun hf => ?_, fun z hz => ?_⟩
  · unfold Sched.upd
    split
    · exact hv
    · exact h.below z hz
  · rw [upd_ne _ _ (by omega)]; exact h.here hf
  · rw [upd_ne _ _ (by omega)]; exact h.above z hz

theorem EProg.mono {ent : Nat → EntSt} {p : Nat} {e e' : Bool} (h : EProg k ent p e) (he : e = true → e' = true) : EProg k ent p e' :=
  ⟨h.val.imp (fun h => ⟨h.1, he h.2.1, h.2.2⟩) id, fun y hy => he (h.err y hy)⟩

theorem EProg.upd {ent : Nat → EntSt} {p : Nat} {e e' : Bool} {y : Nat} {v : EntSt} (h : EProg k ent p e) (he : e = true → e' = true)
    (h4 : 4 ≤ epos v ↔ 4 ≤ epos (ent y)) (h1 : 1 ≤ epos v → 1 ≤ epos (ent y) ∨ y ≤ p)
    (hv : v = .pub false ∨ v = .ent false → p ≠ TILE_ERROR) (hv' : v = .pub true ∨ v = .ent true → e' = true) : EProg k (upd ent y v) p e' := by
  constructor
  · rcases h.val with ⟨g1, g2, g3⟩ | ⟨g1, g2, g3⟩
    · left
      refine ⟨g1, he g2, fun z hz => ?_⟩
      unfold Sched.upd
      split
      · exact ⟨fun hc => hv (Or.inl hc) g1, fun hc => hv (Or.inr hc) g1⟩
      · exact g3 z hz
    · right
      refine ⟨g1, fun z hz => ?_, fun z hz => ?_⟩ <;> unfold Sched.upd <;> split
      · rename_i hy
        subst hy
        rw [h4]; exact g2 z hz
      · exact g2 z hz
      · rename_i hy
        subst hy
        intro h5
        rcases h1 h5 with h6 | h6
        · exact g3 z hz h6
        · exact h6
      · exact g3 z hz
  · intro z
    unfold Sched.upd
    split
    · exact hv'
    · exact fun hc => he (h.err z hc)

theorem Pub0Ok.mono {ent ent' : Nat → EntSt} {e e' : Bool} {v : Nat} (h : Pub0Ok k ent e v) (hb : ∀ z, 1 ≤ epos (ent z) → 1 ≤ epos (ent' z))
    (he : e = true → e' = true) : Pub0Ok k ent' e' v := by
  rcases h with h | h | ⟨n, h1, h2, h3⟩
  · exact Or.inl ⟨h.1, he h.2⟩
  · exact Or.inr (Or.inl ⟨h.1, fun z hz => hb z (h.2 z hz)⟩)
  · exact Or.inr (Or.inr ⟨n, h1, h2, fun z hz => hb z (h3 z hz)⟩)

theorem EntInv.same {s s' : St} (h : EntInv k s) (hph : s'.phase = s.phase) (hf : s'.ent = s.ent) (hn : s'.ntr true = s.ntr true) (he : s.error = true → s'.error = true)
    (hp : s'.entp = s.entp) (h0 : s'.pub0 = s.pub0) (ht : ∀ i, s.tprog true i ≤ s'.tprog true i) (hd : s'.done1 = s.done1) : EntInv k s' := by
  have hee : s'.error = false → s.error = false := by
    intro h
    cases h' : s.error
    · rfl
    · rw [he h'] at h; cases h
  constructor
  · rw [hph, hf, hp, h0]; exact h.absent
  · rw [hph, hf, hn]; exact h.front
  · rw [hf, hp]; exact h.prog.mono he
  · rw [hf]; exact fun y hy h1 h2 i hi a b => Nat.lt_of_lt_of_le (h.read y hy h1 (hee h2) i hi a b) (ht i)
  · rw [hf, h0]; exact h.pub.mono (fun _ h => h) he
  · rw [hf, hd]; exact h.done

section ok
variable (hk : k.Ok)
include hk

omit hk in
theorem entStep_two {s s' : St} {y} (hi : EntInv k s) (h : EntStep k s y s') : s.phase ≠ 0 ∧ k.twoPass = true := by
  by_cases hp : s.phase = 0 ∨ k.twoPass = false
  · have := (hi.absent hp).1 y
    cases h <;> simp_all
  · simpa [not_or] using hp

theorem entStep_ent {s s' : St} {y} (hl : y < k.sbh) (hi : EntInv k s) (h : EntStep k s y s') : EntInv k s' := by
  have hs := sbh_lt hk
  obtain ⟨hph, htp⟩ := entStep_two hi h
  obtain ⟨f, hf⟩ := hi.front hph htp
  have hna : ¬ (s.phase = 0 ∨ k.twoPass = false) := by rw [htp]; simp [hph]
  -- a step of a task that is under way
  have move : ∀ {v : EntSt} {s' : St}, s'.phase = s.phase → s'.tprog = s.tprog → s'.ent = upd s.ent y v → s'.ntr = s.ntr → (s'.error = s.error) → 1 ≤ epos (s.ent y) → 1 ≤ epos v →
      EProg k s'.ent s'.entp s'.error → Pub0Ok k s'.ent s'.error s'.pub0 → (y = k.sbh - 1 → 5 ≤ epos v → s'.done1 = true) → (s.done1 = true → s'.done1 = true) →
      EntInv k s' := by
    intro v s' a b c d e g1 g2 g3 g4 g5 g6
    constructor
    · rw [a]; exact fun h => absurd h hna
    · rw [a, c, d]; exact fun _ _ => ⟨f, hf.upd g1 g2⟩
    · exact g3
    · intro z hz h1 h2
      rw [b]
      rw [e] at h2
      refine hi.read z hz ?_ h2
      rw [c] at h1
      by_cases hzy : z = y
      · rw [hzy]; exact g1
      · rwa [upd_ne _ _ hzy] at h1
    · exact g4
    · intro h5
      rw [c] at h5
      by_cases hzy : k.sbh - 1 = y
      · rw [hzy, upd_same] at h5; exact g5 hzy.symm h5
      · rw [upd_ne _ _ hzy] at h5; exact g6 (hi.done h5)
  have pubk : ∀ {v : EntSt}, 1 ≤ epos v → Pub0Ok k (upd s.ent y v) s.error s.pub0 := by
    intro v hv
    refine hi.pub.mono (fun z hz => ?_) id
    unfold upd
    split
    · exact hv
    · exact hz
  cases h with
  | find hq hle ht =>
    have hy : y = f := by
      have : ¬ y < f := fun h => by have := hf.below y h; rw [hq] at this; simp [epos] at this
      rcases hf.above y (by omega) with h1 | h1
      · exact h1.1
      · rw [hq] at h1; cases h1
    subst hy
    obtain ⟨_, h3, h4, h5⟩ := hf.here hl
    have habs : ∀ z, y < z → s.ent z = .absent := fun z hz => by
      rcases hf.above z (by omega) with h | h
      · omega
      · exact h
    have he : s.error = true → (tilesError k s true || decide (s.entp = TILE_ERROR)) = true := fun h => by simp [tilesError, h]
    constructor
    · exact fun h => absurd h hna
    · intro _ _
      refine ⟨y + 1, by omega, fun z hz => ?_, fun hlt => ?_, fun z hz => ?_⟩
      · by_cases hzy : z = y
        · subst hzy
          simp [epos]
        · dsimp only
          rw [upd_ne _ _ hzy]
          split
          · rw [upd_ne _ _ (by omega)]; exact hf.below z (by omega)
          · exact hf.below z (by omega)
      · dsimp only
        rw [upd_ne _ _ (by omega), if_pos hlt, upd_same, if_pos hlt]
        refine ⟨rfl, ?_⟩
        simp only [nextRow, true_and]
        split
        · rename_i he
          have : s.ntr true + 1 < k.rows := by
            rcases Nat.lt_or_ge (s.ntr true + 1) k.rows with h5 | h5
            · exact h5
            · rw [show s.ntr true + 1 = k.rows by omega, hk.end_] at he; omega
          have h6 := hk.mono _ this
          exact ⟨this, by omega, by omega⟩
        · rename_i he
          exact ⟨h3, by omega, by omega⟩
      · dsimp only
        rw [upd_ne _ _ (by omega)]
        split
        · rename_i h4
          by_cases h5 : z = y + 1
          · left; exact ⟨h5, h4⟩
          · right; rw [upd_ne _ _ h5]; exact habs z (by omega)
        · exact Or.inr (habs z (by omega))
    · dsimp only
      refine EProg.upd ?_ he ?_ (fun _ => Or.inr hle) (fun h => by simp at h) (fun h => by simp at h)
      · split
        · refine hi.prog.upd id ?_ (by simp [epos]) (fun h => by simp at h) (fun h => by simp at h)
          rw [habs _ (by omega)]; simp [epos]
        · exact hi.prog
      · split
        · rw [upd_ne _ _ (by omega), hq]; simp [epos]
        · rw [hq]; simp [epos]
    · intro z hz h1 hne i hi' h6 h7
      dsimp only at h1 hne ⊢
      by_cases hzy : z = y
      · subst hzy
        have hrow := row_unique hk (tile_row hk hi') h3 h6 h7 h4 h5
        have := ht (i % k.cols) (Nat.mod_lt _ hk.cols)
        rw [← hrow, Nat.div_add_mod] at this
        omega
      · rw [upd_ne _ _ hzy] at h1
        have h1' : 1 ≤ epos (s.ent z) := by
          split at h1
          · by_cases hz1 : z = y + 1
            · subst hz1
              rw [upd_same] at h1
              simp [epos] at h1
            · rwa [upd_ne _ _ hz1] at h1
          · exact h1
        have hne' : s.error = false := by
          simp only [tilesError, Bool.or_eq_false_iff] at hne
          exact hne.1.1
        exact hi.read z hz h1' hne' i hi' h6 h7
    · refine hi.pub.mono (fun z hz => ?_) he
      dsimp only
      by_cases hzy : z = y
      · rw [hzy, upd_same]; simp [epos]
      · rw [upd_ne _ _ hzy]
        have hzf := hf.lt hz
        split
        · rw [upd_ne _ _ (by omega)]; exact hz
        · exact hz
    · intro h5
      exfalso
      dsimp only at h5
      by_cases hzy : k.sbh - 1 = y
      · rw [hzy, upd_same] at h5; simp [epos] at h5
      · rw [upd_ne _ _ hzy] at h5
        split at h5
        · by_cases h6 : k.sbh - 1 = y + 1
          · rw [h6, upd_same] at h5; simp [epos] at h5
          · rw [upd_ne _ _ h6, habs _ (by omega)] at h5; simp [epos] at h5
        · omega
  | load hq =>
    refine move rfl rfl rfl rfl rfl (by rw [hq]; simp [epos]) (by simp [epos]) ?_ (pubk (by simp [epos])) (fun _ h => by simp [epos] at h) id
    refine hi.prog.upd id (by rw [hq]; simp [epos]) (fun _ => Or.inl (by rw [hq]; simp [epos])) ?_ ?_
    · intro h1 h2
      have h3 : s.error = false := by simpa using h1
      rcases hi.prog.val with h4 | h4
      · rw [h3] at h4; cases h4.2.1
      · have h2 : s.entp = TILE_ERROR := h2
        omega
    · intro h1
      simpa using h1
  | @pub e hq =>
    refine move rfl rfl rfl rfl rfl (by rw [hq]; simp [epos]) (by simp [epos]) ?_ ?_ (fun _ h => by simp [epos] at h) id
    · refine hi.prog.upd id (by rw [hq]; simp [epos]) (fun _ => Or.inl (by rw [hq]; simp [epos])) ?_ ?_
      · intro h1 h2
        have h3 : e = false := by simpa using h1
        subst h3
        rcases hi.prog.val with h4 | h4
        · exact (h4.2.2 y hl).1 hq
        · have h2 : s.entp = TILE_ERROR := h2
          omega
      · intro h1
        have h3 : e = true := by simpa using h1
        subst h3
        exact hi.prog.err y (Or.inl hq)
    · dsimp only
      have hbelow : ∀ z ≤ y, 1 ≤ epos (upd s.ent y (.ent e) z) := by
        intro z hz
        unfold upd
        split
        · simp [epos]
        · have hyf := hf.lt (y := y) (by rw [hq]; simp [epos])
          exact hf.below z (by omega)
      unfold published
      cases e with
      | true => exact Or.inl ⟨rfl, hi.prog.err y (Or.inl hq)⟩
      | false =>
        simp only [Bool.false_eq_true, if_false]
        split
        · exact Or.inr (Or.inl ⟨rfl, fun z hz => hbelow z (by omega)⟩)
        · exact Or.inr (Or.inr ⟨y + 1, by omega, rfl, fun z hz => hbelow z (by omega)⟩)
  | @ent e hq =>
    refine move rfl rfl rfl rfl rfl (by rw [hq]; simp [epos]) (by simp [epos]) ?_ (pubk (by simp [epos])) (fun _ h => by simp [epos] at h) id
    have h1 : 1 ≤ epos (s.ent y) := by rw [hq]; simp [epos]
    have h4 : ¬ 4 ≤ epos (s.ent y) := by rw [hq]; simp [epos]
    constructor
    · cases e with
      | true =>
        left
        refine ⟨rfl, hi.prog.err y (Or.inr hq), fun z hz => ?_⟩
        dsimp only
        unfold upd
        split
        · exact ⟨(by intro h; cases h), (by intro h; cases h)⟩
        · rename_i hzy
          rcases hi.prog.val with h3 | ⟨g1, g2, g3⟩
          · exact h3.2.2 z hz
          · have key : ¬ (1 ≤ epos (s.ent z) ∧ ¬ 4 ≤ epos (s.ent z)) := by
              rintro ⟨a, b⟩
              have e1 := g3 z hz a
              have e2 := g3 y hl h1
              rw [g2 z hz] at b
              rw [g2 y hl] at h4
              omega
            exact ⟨fun hc => key (by rw [hc]; simp [epos]), fun hc => key (by rw [hc]; simp [epos])⟩
      | false =>
        right
        rcases hi.prog.val with h3 | ⟨g1, g2, g3⟩
        · exact absurd hq (h3.2.2 y hl).2
        · have e2 := g3 y hl h1
          rw [g2 y hl] at h4
          refine ⟨by simp [progress]; omega, fun z hz => ?_, fun z hz => ?_⟩
          · dsimp only
            simp only [progress]
            unfold upd
            split
            · rename_i h; subst h; simp [epos]
            · rw [g2 z hz]; simp; omega
          · dsimp only
            simp only [progress]
            unfold upd
            split
            · rename_i h; subst h; simp
            · intro h; have := g3 z hz h; simp; omega
    · intro z hz
      dsimp only at hz ⊢
      unfold upd at hz
      split at hz
      · simp at hz
      · exact hi.prog.err z hz
  | done hq =>
    refine move rfl rfl rfl rfl rfl (by rw [hq]; simp [epos]) (by simp [epos]) ?_ (pubk (by simp [epos])) (fun h _ => ?_) (fun h => by simp [h])
    · exact hi.prog.upd id (by rw [hq]; simp [epos]) (fun _ => Or.inl (by rw [hq]; simp [epos])) (fun h => by simp at h) (fun h => by simp at h)
    · have : y + 1 = k.sbh := by omega
      simp [this]
  | sub hq =>
    refine move rfl rfl rfl rfl rfl (by rw [hq]; simp [epos]) (by simp [epos]) ?_ (pubk (by simp [epos])) (fun h _ => ?_) id
    · exact hi.prog.upd id (by rw [hq]; simp [epos]) (fun _ => Or.inl (by rw [hq]; simp [epos])) (fun h => by simp at h) (fun h => by simp at h)
    · exact hi.done (by rw [← h, hq]; simp [epos])
  | exit hq =>
    refine move rfl rfl rfl rfl rfl (by rw [hq]; simp [epos]) (by simp [epos]) ?_ (pubk (by simp [epos])) (fun h _ => ?_) id
    · exact hi.prog.upd id (by rw [hq]; simp [epos]) (fun _ => Or.inl (by rw [hq]; simp [epos])) (fun h => by simp at h) (fun h => by simp at h)
    · exact hi.done (by rw [← h, hq]; simp [epos])

theorem EntInv.init : EntInv k (.init k) := by
  have h0 := sbh_pos hk
  constructor
  · intro _; exact ⟨fun _ => rfl, rfl, rfl⟩
  · intro h; exact absurd rfl h
  · exact ⟨Or.inr ⟨Nat.zero_le _, fun y _ => by simp [St.init, epos], fun y _ h => by simp [St.init, epos] at h⟩, fun y h => by simp [St.init] at h⟩
  · intro y _ h; simp [St.init, epos] at h
  · exact Or.inr (Or.inr ⟨0, h0, by simp [St.init], fun z hz => by omega⟩)
  · intro h; simp [St.init, epos] at h

omit hk in
theorem filtStep_ntr {s s' : St} {y} (h : FiltStep k s y s') : s'.ntr true = s.ntr true := by
  cases h with
  | find =>
    dsimp only
    split
    · simp [nextRow]
    · rfl
  | run _ h2 => rw [(filtRun_same h2).2.2.2.2.2.2.1]
  | _ => rfl

theorem step_ent {s s' : St} {rd bad} (ht : TInv k s) (hi : EntInv k s) (h : Step k rd bad s s') : EntInv k s' := by
  have h0 := sbh_pos hk
  cases h with
  | create0 h2 hp =>
    have ha := hi.absent (Or.inr h2)
    constructor
    · intro _; exact ha
    · intro _ h; rw [h2] at h; cases h
    · exact hi.prog
    · exact hi.read
    · exact hi.pub
    · exact hi.done
  | create1 h2 hp =>
    have ha := hi.absent (Or.inl hp)
    have hab : s.ent = fun _ => .absent := funext ha.1
    have hz : ∀ z, epos (upd s.ent 0 .queued z) = 0 := by
      intro z; unfold upd; split
      · rfl
      · rw [ha.1 z]; rfl
    constructor
    · intro h
      rcases h with h | h
      · cases h
      · rw [h2] at h; cases h
    · intro _ _
      refine ⟨0, by omega, fun y h => by omega, fun _ => ⟨by simp [create1], hk.rows, ?_, ?_⟩, fun z _ => ?_⟩
      · simp [create1, hk.zero]
      · have := hk.mono 0 hk.rows
        simp only [create1, if_true]
        omega
      · simp only [create1]
        by_cases h : z = 0
        · left; exact ⟨h, h0⟩
        · right; rw [upd_ne _ _ h]; exact ha.1 z
    · refine ⟨Or.inr ⟨Nat.zero_le _, fun y hy => ?_, fun y _ h => ?_⟩, fun y h => ?_⟩
      · simp only [create1, hz]; omega
      · simp only [create1, hz] at h; omega
      · simp only [create1] at h
        unfold upd at h
        split at h
        · simp at h
        · rw [ha.1 y] at h; simp at h
    · intro y _ h; simp only [create1, hz] at h; omega
    · refine Or.inr (Or.inr ⟨0, h0, ?_, fun z hz => by omega⟩)
      rw [Nat.zero_mul]; exact ha.2.2
    · intro h; simp only [create1, hz] at h; omega
  | create2 h2 hp =>
    constructor
    · intro h
      rcases h with h | h
      · cases h
      · rw [h2] at h; cases h
    · intro _ h
      exact hi.front (by omega) h
    · exact hi.prog
    · exact hi.read
    · exact hi.pub
    · exact hi.done
  | refError => exact hi.same rfl rfl rfl (fun _ => rfl) rfl rfl (fun _ => Nat.le_refl _) rfl
  | tile hl h =>
    obtain ⟨a, _, b, c, d, _, _, _, e, _, _, _, g, p⟩ := tileStep_same h
    exact hi.same a c (by rw [b]) p d e (tileStep_mono hk ht hl h true) g
  | filt hl h =>
    obtain ⟨a, _, b, c, d, e, g, p⟩ := filtStep_same h
    exact hi.same a d (filtStep_ntr h) c e g (fun _ => by rw [b]; exact Nat.le_refl _) p
  | ent hl h => exact entStep_ent hk hl hi h

end ok
end Dav1d.Sched
