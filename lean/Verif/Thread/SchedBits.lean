import Verif.Thread.SchedDeps
/-!
# The progress of a frame and when its filters are done
-/
namespace Dav1d.Sched
variable {k : Cfg}

/-- The first `n` rows are complete. -/
def Good (k : Cfg) (bits : Nat → Bool) (n : Nat) : Prop := n ≤ k.sbh ∧ ∀ z < n, bits z = true

/-- What the task in the critical section knows. -/
def csOk (k : Cfg) (bits : Nat → Bool) (error : Bool) : FiltSt → Prop
  | .at (.scan i) => i < k.progSz ∧ ∀ z < 32 * i, bits z = true
  | .at (.load n) => Good k bits n ∨ error = true
  | .at (.store n e) => (e = true → error = true) ∧ (Good k bits n ∨ e = true)
  | .at (.unlock n) => Good k bits n ∨ error = true
  | .at (.done n) => Good k bits n ∨ error = true
  | _ => True

/-- The task will find that all rows are complete, if they are. -/
def wit (k : Cfg) : FiltSt → Prop
  | .at .lock => True
  | .at (.scan _) => True
  | .at (.load n) => n = k.sbh
  | .at (.store n _) => n = k.sbh
  | .at (.unlock n) => n = k.sbh
  | .at (.done n) => n = k.sbh
  | _ => False

/-- The meaning of `progress[1]`. -/
def PubOk (k : Cfg) (bits : Nat → Bool) (error : Bool) (pub : Nat) : Prop :=
  (pub = FRAME_ERROR ∧ error = true) ∨ (pub = UINT_MAX ∧ ∀ z < k.sbh, bits z = true) ∨ ∃ n, n < k.sbh ∧ pub = n * k.sbsz ∧ ∀ z < n, bits z = true

/-- The task holds `f->task_thread.lock`. -/
def inCs (v : FiltSt) : Prop := 16 ≤ pos v ∧ pos v ≤ 19

structure BitInv (k : Cfg) (s : St) : Prop where
  bits : ∀ y, s.bits y = true ↔ 15 ≤ pos (s.filt y)
  cs : ∀ y, csOk k s.bits s.error (s.filt y)
  pub : PubOk k s.bits s.error s.pub1
  wit : (∀ z < k.sbh, s.bits z = true) → s.done0 = true ∨ ∃ y < k.sbh, wit k (s.filt y)
  done : s.done0 = true → (∀ z < k.sbh, s.bits z = true) ∨ s.error = true
  lock : s.flock = true → ∃ y < k.sbh, inCs (s.filt y)

theorem csOk.mono {b b' : Nat → Bool} {e e' : Bool} {v : FiltSt} (h : csOk k b e v) (hb : ∀ z, b z = true → b' z = true) (he : e = true → e' = true) : csOk k b' e' v := by
  have hg : ∀ n, Good k b n → Good k b' n := fun n h => ⟨h.1, fun z hz => hb z (h.2 z hz)⟩
  cases v with
  | «at» pc =>
    cases pc with
    | scan i => exact ⟨h.1, fun z hz => hb z (h.2 z hz)⟩
    | load n => exact Or.imp (hg n) he h
    | store n e => exact ⟨fun h' => he (h.1 h'), h.2.imp (hg n) id⟩
    | unlock n => exact Or.imp (hg n) he h
    | done n => exact Or.imp (hg n) he h
    | _ => trivial
  | _ => trivial

theorem PubOk.mono {b b' : Nat → Bool} {e e' : Bool} {v : Nat} (h : PubOk k b e v) (hb : ∀ z, b z = true → b' z = true) (he : e = true → e' = true) : PubOk k b' e' v := by
  rcases h with h | h | ⟨n, h1, h2, h3⟩
  · exact Or.inl ⟨h.1, he h.2⟩
  · exact Or.inr (Or.inl ⟨h.1, fun z hz => hb z (h.2 z hz)⟩)
  · exact Or.inr (Or.inr ⟨n, h1, h2, fun z hz => hb z (h3 z hz)⟩)

theorem BitInv.upd {s s' : St} {y : Nat} {v : FiltSt} (h : BitInv k s) (hy : y < k.sbh) (hf : s'.filt = upd s.filt y v) (hb : s'.bits = s.bits)
    (he : s.error = true → s'.error = true) (h15 : 15 ≤ pos v ↔ 15 ≤ pos (s.filt y)) (hcs : csOk k s.bits s'.error v)
    (hw : (∀ z < k.sbh, s.bits z = true) → Sched.wit k (s.filt y) → Sched.wit k v ∨ s'.done0 = true) (hd : s.done0 = true → s'.done0 = true)
    (hd' : s'.done0 = true → s.done0 = true ∨ (∀ z < k.sbh, s.bits z = true) ∨ s'.error = true) (hp : PubOk k s.bits s'.error s'.pub1)
    (hfl : s'.flock = true → inCs v ∨ (s.flock = true ∧ ¬ inCs (s.filt y))) : BitInv k s' := by
  constructor
  · intro z
    rw [hb, hf]
    unfold Sched.upd
    split
    · rename_i hz; subst hz; rw [h15]; exact h.bits z
    · exact h.bits z
  · intro z
    rw [hb, hf]
    unfold Sched.upd
    split
    · exact hcs
    · exact (h.cs z).mono (fun _ h => h) he
  · rw [hb]; exact hp
  · rw [hb]
    intro ha
    rcases h.wit ha with h1 | ⟨z, hz, h1⟩
    · exact Or.inl (hd h1)
    · by_cases hzy : z = y
      · subst hzy
        rcases hw ha h1 with h2 | h2
        · exact Or.inr ⟨z, hy, by rw [hf, upd_same]; exact h2⟩
        · exact Or.inl h2
      · exact Or.inr ⟨z, hz, by rw [hf, upd_ne _ _ hzy]; exact h1⟩
  · intro hdn
    rw [hb]
    rcases hd' hdn with h1 | h1
    · exact (h.done h1).imp id he
    · exact h1
  · intro hl
    rcases hfl hl with h1 | ⟨h1, h2⟩
    · exact ⟨y, hy, by rw [hf, upd_same]; exact h1⟩
    · obtain ⟨z, hz, h3⟩ := h.lock h1
      have hzy : z ≠ y := fun e => h2 (by rw [← e]; exact h3)
      exact ⟨z, hz, by rw [hf, upd_ne _ _ hzy]; exact h3⟩

theorem BitInv.same {s s' : St} (h : BitInv k s) (hf : s'.filt = s.filt) (hb : s'.bits = s.bits) (he : s.error = true → s'.error = true) (hp : s'.pub1 = s.pub1)
    (hd : s'.done0 = s.done0) (hl : s'.flock = s.flock) : BitInv k s' := by
  constructor
  · rw [hf, hb]; exact h.bits
  · rw [hf, hb]; exact fun y => (h.cs y).mono (fun _ h => h) he
  · rw [hb, hp]; exact h.pub.mono (fun _ h => h) he
  · rw [hb, hd, hf]; exact h.wit
  · rw [hb, hd]; exact fun h' => (h.done h').imp id he
  · rw [hl, hf]; exact h.lock

/-- A step before the end of the filters. -/
theorem BitInv.early {s s' : St} {y : Nat} {v : FiltSt} (h : BitInv k s) (hy : y < k.sbh) (hf : s'.filt = Sched.upd s.filt y v) (hb : s'.bits = s.bits)
    (he : s.error = true → s'.error = true) (hp : s'.pub1 = s.pub1) (hd : s'.done0 = s.done0) (hl : s'.flock = s.flock)
    (h1 : pos (s.filt y) ≤ 14) (h2 : pos v ≤ 14) : BitInv k s' := by
  have hw : ¬ Sched.wit k (s.filt y) := by
    intro hw
    cases hv : s.filt y with
    | «at» pc => rw [hv] at hw h1; cases pc <;> simp [Sched.wit, pos, Pc.pos] at hw h1
    | _ => rw [hv] at hw; exact hw
  refine h.upd hy hf hb he (by omega) ?_ (fun _ h' => absurd h' hw) (by rw [hd]; exact id) (by rw [hd]; exact Or.inl)
    (by rw [hp]; exact h.pub.mono (fun _ h => h) he) (fun h' => Or.inr ⟨by rw [← hl]; exact h', fun hc => by unfold inCs at hc; omega⟩)
  cases v with
  | «at» pc => cases pc <;> simp [csOk, pos, Pc.pos] at h2 ⊢
  | _ => trivial

theorem firstZero_some {s : St} {i j : Nat} (h : firstZero s i = some j) : j < 32 ∧ s.bits (32 * i + j) = false ∧ ∀ l < j, s.bits (32 * i + l) = true := by
  unfold firstZero at h
  rw [List.find?_range_eq_some] at h
  obtain ⟨h1, h2, h3⟩ := h
  refine ⟨by simpa using h2, by simpa using h1, fun l hl => by simpa using h3 l hl⟩

theorem firstZero_none {s : St} {i : Nat} (h : firstZero s i = none) : ∀ l < 32, s.bits (32 * i + l) = true := by
  unfold firstZero at h
  rw [List.find?_eq_none] at h
  intro l hl
  simpa using h l (by simpa using hl)

section ok
variable (hk : k.Ok)
include hk

theorem entry_pos_le (ty : Ty) : pos (.at (entry ty)) ≤ 14 := by
  cases ty with
  | progress => simp [entry, pos, Pc.pos]
  | stage g => cases g <;> simp [entry, pos, Pc.pos]

omit hk in
theorem filt_ge {s : St} (hf : FrontInv k s) {z : Nat} (hz : k.sbh ≤ z) : s.filt z = .absent := by
  by_cases hp : s.phase = 2
  · obtain ⟨f, h⟩ := hf.2 hp
    rcases h.above z (Nat.le_trans h.le hz) with h1 | h1
    · omega
    · exact h1
  · exact hf.1 hp z

theorem filtStep_bit {s s' : St} {y} (hl : y < k.sbh) (hfr : FrontInv k s) (hi : BitInv k s) (h : FiltStep k s y s') : BitInv k s' := by
  have hsz := hk.size
  have hlim := hk.limit
  cases h with
  | @find ty recon db hq hr ht =>
    have hph : s.phase = 2 := by
      by_cases hp : s.phase = 2
      · exact hp
      · rw [hfr.1 hp y] at hq; cases hq
    obtain ⟨f, hf⟩ := hfr.2 hph
    obtain ⟨rfl, h2, rfl, rfl, rfl⟩ := filt_pos_of_queued hf hq hr
    have he : s.error = true → tilesError k s false = true := fun h => by simp [tilesError, h]
    by_cases h1 : y + 1 < k.sbh
    · have habs : s.filt (y + 1) = .absent := by
        rcases hf.above (y + 1) (by omega) with h | h
        · omega
        · exact h
      have h3 : BitInv k { s with filt := upd s.filt (y + 1) (.queued (firstTy k) (y + 2) 0) } :=
        hi.early h1 rfl rfl id rfl rfl rfl (by rw [habs]; simp [pos]) (by simp [pos])
      refine h3.early (y := y) (v := .at (entry (firstTy k))) hl (by simp [h1]) rfl he rfl rfl rfl ?_ (entry_pos_le hk _)
      dsimp only
      rw [upd_ne _ _ (by omega), hq]; simp [pos]
    · exact hi.early (y := y) (v := .at (entry (firstTy k))) hl (by simp [h1]) rfl he rfl rfl rfl (by rw [hq]; simp [pos]) (entry_pos_le hk _)
  | findCdef hq => exact hi.early hl rfl rfl id rfl rfl rfl (by rw [hq]; simp [pos]) (entry_pos_le hk _)
  | findRows hq hne => exact hi.early hl rfl rfl (fun h => by simp [h]) rfl rfl rfl (by rw [hq]; simp [pos, hne]) (entry_pos_le hk _)
  | @run pc s' hq h2 =>
    have hpos : pos (s.filt y) = pc.pos := by rw [hq]; rfl
    have hcs := hi.cs y
    have hby := hi.bits y
    have hge : ∀ z, s.bits z = true → z < k.sbh := by
      intro z hz
      rcases Nat.lt_or_ge z k.sbh with h | h
      · exact h
      · have := (hi.bits z).1 hz
        rw [filt_ge hfr h] at this
        simp [pos] at this
    rw [hq] at hcs
    cases pc with
    | st g =>
      simp only [filtRun] at h2
      split at h2 <;> cases h2
      · refine hi.early hl rfl rfl id rfl rfl rfl ?_ ?_
        · rw [hpos]; cases g <;> simp [Pc.pos]
        · cases g <;> simp [pos, Pc.pos]
      · refine hi.early hl rfl rfl id rfl rfl rfl ?_ ?_
        · rw [hpos]; cases g <;> simp [Pc.pos]
        · cases g <;> simp [pos, after, Pc.pos]
          cases k.deblock <;> cases k.cdef <;> cases k.lr <;> simp [Pc.pos]
    | run g =>
      cases h2
      refine hi.early hl rfl rfl id rfl rfl rfl ?_ ?_
      · rw [hpos]; cases g <;> simp [Pc.pos]
      · cases g <;> simp [pos, after, Pc.pos]
        cases k.deblock <;> cases k.cdef <;> cases k.lr <;> simp [Pc.pos]
    | bit =>
      cases h2
      have hmono : ∀ z, s.bits z = true → upd s.bits y true z = true := by
        intro z hz
        unfold upd
        split
        · rfl
        · exact hz
      constructor
      · intro z
        dsimp only
        unfold upd
        split
        · simp [pos, Pc.pos]
        · exact hi.bits z
      · intro z
        dsimp only
        by_cases hzy : z = y
        · subst hzy; rw [upd_same]; trivial
        · rw [upd_ne _ _ hzy]; exact (hi.cs z).mono hmono id
      · exact hi.pub.mono hmono id
      · intro _
        exact Or.inr ⟨y, hl, by simp [Sched.wit]⟩
      · intro hd
        exact (hi.done hd).imp (fun h z hz => hmono z (h z hz)) id
      · intro hfl
        obtain ⟨z, hz, hc⟩ := hi.lock hfl
        refine ⟨z, hz, ?_⟩
        dsimp only
        rw [upd_ne _ _ (fun h => ?_)]
        · exact hc
        · subst h; unfold inCs at hc; rw [hpos] at hc; simp [Pc.pos] at hc
    | lock =>
      simp only [filtRun] at h2
      split at h2 <;> cases h2
      by_cases hp : FRAME_ERROR ≤ (if k.twoPass then s.pub1 else 0)
      · rw [if_pos hp]
        refine hi.upd hl rfl rfl id (by rw [hpos]; simp [pos, Pc.pos]) ?_ (fun _ _ => Or.inl rfl) id Or.inl hi.pub (fun _ => Or.inl (by simp [inCs, pos, Pc.pos]))
        have hp1 : FRAME_ERROR ≤ s.pub1 := by
          split at hp
          · exact hp
          · exact absurd hp (by decide)
        rcases hi.pub with ⟨_, h⟩ | ⟨_, h⟩ | ⟨n, h3, h4, _⟩
        · exact Or.inr h
        · exact Or.inl ⟨Nat.le_refl _, h⟩
        · exfalso
          have : n * k.sbsz ≤ k.sbh * k.sbsz := Nat.mul_le_mul_right _ (by omega)
          unfold FRAME_ERROR at hp1
          unfold TILE_ERROR at hlim
          omega
      · rw [if_neg hp]
        refine hi.upd hl rfl rfl id (by rw [hpos]; simp [pos, Pc.pos]) ?_ (fun _ _ => Or.inl trivial) id Or.inl hi.pub (fun _ => Or.inl (by simp [inCs, pos, Pc.pos]))
        have hpz : 0 < k.progSz := by have := sbh_pos hk; unfold Cfg.progSz; omega
        simp only [csOk]
        split
        · rename_i htp
          rw [if_pos htp] at hp
          rcases hi.pub with ⟨h, _⟩ | ⟨h, _⟩ | ⟨n, h3, h4, h5⟩
          · rw [h] at hp; exact absurd (Nat.le_refl _) hp
          · rw [h] at hp; exact absurd (by decide) hp
          · have hdiv : s.pub1 / (32 * k.sbsz) = n / 32 := by rw [h4, Nat.mul_div_mul_right _ _ hsz]
            rw [hdiv]
            refine ⟨by unfold Cfg.progSz; omega, fun z hz => h5 z (by omega)⟩
        · rw [Nat.zero_div]
          exact ⟨hpz, fun z hz => by omega⟩
    | scan i =>
      simp only [csOk] at hcs
      simp only [filtRun] at h2
      have hfull : ∀ n, (∀ z < n, s.bits z = true) → n ≤ k.sbh := by
        intro n hn
        rcases Nat.eq_zero_or_pos n with h | h
        · omega
        · have := hge (n - 1) (hn _ (by omega)); omega
      split at h2
      · rename_i j hj
        cases h2
        obtain ⟨hj1, hj2, hj3⟩ := firstZero_some hj
        have hall : ∀ z < 32 * i + j, s.bits z = true := by
          intro z hz
          rcases Nat.lt_or_ge z (32 * i) with h | h
          · exact hcs.2 z h
          · have := hj3 (z - 32 * i) (by omega)
            rwa [show 32 * i + (z - 32 * i) = z by omega] at this
        refine hi.upd hl rfl rfl id (by rw [hpos]; simp [pos, Pc.pos]) (Or.inl ⟨hfull _ hall, hall⟩) (fun ha _ => Or.inl ?_) id Or.inl hi.pub
          (fun _ => Or.inl (by simp [inCs, pos, Pc.pos]))
        have h1 := hfull _ hall
        show 32 * i + j = k.sbh
        rcases Nat.lt_or_ge (32 * i + j) k.sbh with h | h
        · rw [ha _ h] at hj2; cases hj2
        · omega
      · rename_i hn
        have hall : ∀ z < 32 * (i + 1), s.bits z = true := by
          intro z hz
          rcases Nat.lt_or_ge z (32 * i) with h | h
          · exact hcs.2 z h
          · have := firstZero_none hn (z - 32 * i) (by omega)
            rwa [show 32 * i + (z - 32 * i) = z by omega] at this
        split at h2
        · rename_i hlt
          cases h2
          exact hi.upd hl rfl rfl id (by rw [hpos]; simp [pos, Pc.pos]) ⟨hlt, hall⟩ (fun _ _ => Or.inl trivial) id Or.inl hi.pub
            (fun _ => Or.inl (by simp [inCs, pos, Pc.pos]))
        · rename_i hlt
          cases h2
          refine hi.upd hl rfl rfl id (by rw [hpos]; simp [pos, Pc.pos]) (Or.inl ⟨hfull _ hall, hall⟩) (fun _ _ => Or.inl ?_) id Or.inl hi.pub
            (fun _ => Or.inl (by simp [inCs, pos, Pc.pos]))
          have h1 := hfull _ hall
          show 32 * (i + 1) = k.sbh
          unfold Cfg.progSz at hlt
          omega
    | load n =>
      cases h2
      refine hi.upd hl rfl rfl id (by rw [hpos]; simp [pos, Pc.pos]) ⟨id, hcs⟩ (fun _ h => Or.inl ?_) id Or.inl hi.pub
        (fun _ => Or.inl (by simp [inCs, pos, Pc.pos]))
      rw [hq] at h; exact h
    | store n e =>
      cases h2
      refine hi.upd hl rfl rfl id (by rw [hpos]; simp [pos, Pc.pos]) (hcs.2.imp id hcs.1) (fun _ h => Or.inl ?_) id Or.inl ?_
        (fun _ => Or.inl (by simp [inCs, pos, Pc.pos]))
      · rw [hq] at h; exact h
      · dsimp only
        split
        · unfold published
          cases e with
          | true => exact Or.inl ⟨rfl, hcs.1 rfl⟩
          | false =>
            rcases hcs.2 with h | h
            · simp only [Bool.false_eq_true, if_false]
              split
              · rename_i hn; rw [hn] at h; exact Or.inr (Or.inl ⟨rfl, h.2⟩)
              · exact Or.inr (Or.inr ⟨n, by have := h.1; omega, rfl, h.2⟩)
            · cases h
        · exact hi.pub
    | unlock n =>
      cases h2
      refine hi.upd hl rfl rfl id (by rw [hpos]; simp [pos, Pc.pos]) hcs (fun _ h => Or.inl ?_) id Or.inl hi.pub (fun h => by cases h)
      rw [hq] at h; exact h
    | done n =>
      cases h2
      refine hi.upd hl rfl rfl id (by rw [hpos]; simp [pos, Pc.pos]) trivial (fun _ h => Or.inr ?_) (fun h => by simp [h]) ?_ hi.pub
        (fun h => Or.inr ⟨h, by unfold inCs; rw [hpos]; simp [Pc.pos]⟩)
      · rw [hq] at h
        simp only [Sched.wit] at h
        simp [h]
      · intro h
        simp only [Bool.or_eq_true, decide_eq_true_eq] at h
        rcases h with h | h
        · exact Or.inl h
        · right
          rw [h] at hcs
          exact hcs.imp (fun h => h.2) id
    | sub =>
      cases h2
      refine hi.upd hl rfl rfl id (by rw [hpos]; simp [pos, Pc.pos]) trivial (fun _ h => ?_) id Or.inl hi.pub
        (fun h => Or.inr ⟨h, by unfold inCs; rw [hpos]; simp [Pc.pos]⟩)
      rw [hq] at h; exact h.elim
    | colsChk =>
      simp only [filtRun] at h2
      split at h2 <;> cases h2 <;> exact hi.early hl rfl rfl id rfl rfl rfl (by rw [hpos]; simp [Pc.pos]) (by simp [pos, Pc.pos])
    | rowsChk =>
      simp only [filtRun] at h2
      split at h2 <;> cases h2 <;> exact hi.early hl rfl rfl id rfl rfl rfl (by rw [hpos]; simp [Pc.pos]) (by simp [pos, Pc.pos])
    | _ => cases h2; exact hi.early hl rfl rfl id rfl rfl rfl (by rw [hpos]; simp [Pc.pos]) (by simp [pos, Pc.pos])
  | @exit n hq =>
    refine hi.upd hl rfl rfl id (by rw [hq]; simp [pos]) trivial (fun _ h => ?_) id Or.inl hi.pub (fun h => Or.inr ⟨h, by unfold inCs; rw [hq]; simp [pos]⟩)
    rw [hq] at h; exact h.elim

/-- Before the filter tasks exist, nothing is published by them. -/
structure NoFilt (s : St) : Prop where
  pub : s.pub1 = 0
  lock : s.flock = false

omit hk in
theorem filtStep_phase {s s' : St} {y} (hf : FrontInv k s) (h : FiltStep k s y s') : s.phase = 2 := by
  by_cases hp : s.phase = 2
  · exact hp
  · have := hf.1 hp y
    cases h <;> simp_all

omit hk in
theorem step_nofilt {s s' : St} {rd bad} (hf : FrontInv k s) (hn : s.phase ≠ 2 → NoFilt s) (h : Step k rd bad s s') : s'.phase ≠ 2 → NoFilt s' := by
  cases h with
  | create0 => exact fun h => absurd rfl h
  | create1 h2 hp => exact fun _ => ⟨(hn (by omega)).1, (hn (by omega)).2⟩
  | create2 => exact fun h => absurd rfl h
  | refError => exact fun h => ⟨(hn h).1, (hn h).2⟩
  | tile hl h =>
    obtain ⟨a, _, _, _, _, _, _, _, _, b, c, _⟩ := tileStep_same h
    rw [a]; exact fun h => ⟨by rw [b]; exact (hn h).1, by rw [c]; exact (hn h).2⟩
  | filt hl h => rw [(filtStep_same h).1]; exact fun h' => absurd (filtStep_phase hf h) h'
  | ent hl h =>
    obtain ⟨a, _, _, _, _, _, _, _, b, c, _⟩ := entStep_same h
    rw [a]; exact fun h => ⟨by rw [b]; exact (hn h).1, by rw [c]; exact (hn h).2⟩

theorem step_bit {s s' : St} {rd bad} (hf : FrontInv k s) (hn : s.phase ≠ 2 → NoFilt s) (hi : BitInv k s) (h : Step k rd bad s s') : BitInv k s' := by
  have hcr : s.phase ≠ 2 → BitInv k (create2 k s) := by
    intro hp
    have h0 := sbh_pos hk
    constructor
    · intro z
      simp only [create2, hf.absent hp]
      unfold upd; split <;> simp [pos]
    · intro z
      simp only [create2, hf.absent hp]
      unfold upd; split <;> trivial
    · refine Or.inr (Or.inr ⟨0, h0, ?_, fun z hz => by omega⟩)
      rw [Nat.zero_mul]; exact (hn hp).1
    · intro ha
      have := ha 0 h0
      cases this
    · intro h; cases h
    · intro h
      have := (hn hp).2
      rw [show (create2 k s).flock = s.flock from rfl, this] at h
      cases h
  cases h with
  | create0 h2 hp => exact hcr (by omega)
  | create1 h2 hp => exact hi.same rfl rfl id rfl rfl rfl
  | create2 h2 hp => exact hcr (by omega)
  | refError => exact hi.same rfl rfl (fun _ => rfl) rfl rfl rfl
  | tile hl h =>
    obtain ⟨_, a, _, _, _, _, _, b, _, c, d, e, _, g⟩ := tileStep_same h
    exact hi.same a b g c e d
  | filt hl h => exact filtStep_bit hk hl hf hi h
  | ent _ h =>
    obtain ⟨_, _, _, d, e, _, _, g, p, q, r⟩ := entStep_same h
    exact hi.same e g d p r q

theorem BitInv.init : BitInv k (.init k) := by
  have h0 := sbh_pos hk
  constructor
  · intro z; simp [St.init, pos]
  · intro z; trivial
  · exact Or.inr (Or.inr ⟨0, h0, by simp [St.init], fun z hz => by omega⟩)
  · intro ha
    have := ha 0 h0
    cases this
  · intro h; cases h
  · intro h; cases h

end ok
end Dav1d.Sched
