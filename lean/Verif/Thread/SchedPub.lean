import Verif.Thread.SchedEnd
/-!
# What a frame publishes to the frames that refer to it

`sr_cur.progress[0]` and `progress[1]` count lines for which entropy decoding and all filters are complete.
-/
namespace Dav1d.Sched
variable {k : Cfg}

/-- Superblock row `y` is reconstructed and filtered. -/
def RowDone (k : Cfg) (log : List Ev) (y : Nat) : Prop :=
  (∀ i, k.Has (.tile false i y) → .fin (.tile false i y) ∈ log) ∧ ∀ g, k.Has (.filt g y) → .fin (.filt g y) ∈ log

/-- The symbols of superblock row `y` are decoded. -/
def EntDone (k : Cfg) (log : List Ev) (y : Nat) : Prop := ∀ i, k.Has (.tile true i y) → .fin (.tile true i y) ∈ log

theorem RowDone.mono {l l' : List Ev} {y : Nat} (h : RowDone k l y) (hl : ∀ e ∈ l, e ∈ l') : RowDone k l' y :=
  ⟨fun i hi => hl _ (h.1 i hi), fun g hg => hl _ (h.2 g hg)⟩

theorem EntDone.mono {l l' : List Ev} {y : Nat} (h : EntDone k l y) (hl : ∀ e ∈ l, e ∈ l') : EntDone k l' y :=
  fun i hi => hl _ (h i hi)

theorem Kind.log_mono {s s' : St} (h : Kind k s s') : ∀ e ∈ s.log, e ∈ s'.log := by
  intro e he
  cases h with
  | work _ _ _ _ _ _ log => obtain ⟨pre, h1, _⟩ := log; rw [h1]; exact List.mem_append_right _ he
  | sub _ _ _ _ _ _ log => rw [log]; exact he
  | exit _ _ _ _ _ _ _ log =>
    rw [log]
    unfold announce
    split
    · exact List.mem_cons_of_mem _ he
    · exact he

/-- The state in the critical section, for the task of row `y`. -/
def csPub (k : Cfg) (pub : Nat) : FiltSt → Prop
  | .at (.scan _) => pub < FRAME_ERROR
  | .at (.load n) => FRAME_ERROR ≤ pub → n = k.sbh
  | .at (.store n _) => FRAME_ERROR ≤ pub → n = k.sbh
  | .at (.unlock n) => n = k.sbh → FRAME_ERROR ≤ pub
  | .at (.done n) => n = k.sbh → FRAME_ERROR ≤ pub
  | _ => True

structure PubInv (k : Cfg) (s : St) : Prop where
  /-- mutual exclusion -/
  mutex : ∀ y, inCs (s.filt y) → s.flock = true ∧ ∀ z, inCs (s.filt z) → z = y
  cs : k.twoPass = true → ∀ y, csPub k s.pub1 (s.filt y)
  done : k.twoPass = true → s.done0 = true → FRAME_ERROR ≤ s.pub1
  store : ∀ y n, s.filt y = .at (.store n false) → ∀ z < n, z < k.sbh → RowDone k s.log z
  rows : s.pub1 ≠ FRAME_ERROR → ∀ z < k.sbh, z * k.sbsz < s.pub1 → RowDone k s.log z
  pub : ∀ y < k.sbh, s.ent y = .pub false → ∀ z ≤ y, EntDone k s.log z
  ents : s.pub0 ≠ FRAME_ERROR → ∀ z < k.sbh, z * k.sbsz < s.pub0 → EntDone k s.log z
  last : 3 ≤ epos (s.ent (k.sbh - 1)) → FRAME_ERROR ≤ s.pub0

theorem PubInv.init : PubInv k (.init k) where
  mutex := fun y h => by simp [St.init, inCs, pos] at h
  cs := fun _ _ => trivial
  done := fun _ h => by cases h
  store := fun y n h => by cases h
  rows := fun _ z _ h => by simp [St.init] at h
  pub := fun y _ h => by cases h
  ents := fun _ z _ h => by simp [St.init] at h
  last := fun h => by simp [St.init, epos] at h

/-- Steps that do not touch the filter tasks and `progress[1]`. -/
structure SameFilt (s s' : St) : Prop where
  filt : s'.filt = s.filt
  pub : s'.pub1 = s.pub1
  lock : s'.flock = s.flock
  done : s'.done0 = s.done0

section ok
variable (hk : k.Ok)
include hk

theorem rowDone_of {s : St} (hi : SInv k s) (he : s.error = false) {z : Nat} (hz : z < k.sbh) (hp : 15 ≤ pos (s.filt z)) : RowDone k s.log z := by
  constructor
  · intro i hh
    rcases over_of_tprog hk hi.tile hh.1 he (hi.read z hz (by omega) he i hh.1 hh.2.1 hh.2.2.1) with h | h
    · exact fin_of_over hi.log he hh h
    · have := hh.2.1; omega
  · intro g hh
    exact fin_of_over hi.log he hh (fstg_late (by omega))

theorem entDone_of {s : St} (hi : SInv k s) (he : s.error = false) {z : Nat} (hz : z < k.sbh) (hp : 1 ≤ epos (s.ent z)) : EntDone k s.log z := by
  intro i hh
  rcases over_of_tprog hk hi.tile hh.1 he (hi.ent.read z hz hp he i hh.1 hh.2.1 hh.2.2.1) with h | h
  · exact fin_of_over hi.log he hh h
  · have := hh.2.1; omega

omit hk in
/-- A filter task in row `y` moves without touching `progress[1]`, outside the critical section. -/
theorem PubInv.move {s s' : St} {y : Nat} {v : FiltSt} (h : PubInv k s) (hm : ∀ e ∈ s.log, e ∈ s'.log) (hf : s'.filt = upd s.filt y v)
    (hl : s'.flock = s.flock) (hp : s'.pub1 = s.pub1) (hd : s'.done0 = s.done0) (he : s'.ent = s.ent) (h0 : s'.pub0 = s.pub0)
    (hin : inCs v → inCs (s.filt y)) (hcs : k.twoPass = true → csPub k s.pub1 v)
    (hst : ∀ n, v = .at (.store n false) → ∀ z < n, z < k.sbh → RowDone k s.log z) : PubInv k s' where
  mutex := by
    intro z hz
    rw [hl]
    have key : ∀ z, inCs (s'.filt z) → inCs (s.filt z) := by
      intro z hz
      rw [hf] at hz
      by_cases h1 : z = y
      · subst h1; rw [upd_same] at hz; exact hin hz
      · rw [upd_ne _ _ h1] at hz; exact hz
    exact ⟨(h.mutex z (key z hz)).1, fun w hw => (h.mutex z (key z hz)).2 w (key w hw)⟩
  cs := by
    intro h2 z
    rw [hp, hf]
    by_cases h1 : z = y
    · subst h1; rw [upd_same]; exact hcs h2
    · rw [upd_ne _ _ h1]; exact h.cs h2 z
  done := by rw [hd, hp]; exact h.done
  store := by
    intro z n hz w hw hws
    rw [hf] at hz
    by_cases h1 : z = y
    · subst h1; rw [upd_same] at hz; exact (hst n hz w hw hws).mono hm
    · rw [upd_ne _ _ h1] at hz; exact (h.store z n hz w hw hws).mono hm
  rows := by rw [hp]; exact fun a z b c => (h.rows a z b c).mono hm
  pub := by rw [he]; exact fun y a b z c => (h.pub y a b z c).mono hm
  ents := by rw [h0]; exact fun a z b c => (h.ents a z b c).mono hm
  last := by rw [he, h0]; exact h.last

omit hk in
/-- A step that changes the entropy progress tasks and `progress[0]` only. -/
theorem PubInv.ent' {s s' : St} (h : PubInv k s) (hm : ∀ e ∈ s.log, e ∈ s'.log) (hs : SameFilt s s')
    (hp : ∀ y < k.sbh, s'.ent y = .pub false → ∀ z ≤ y, EntDone k s'.log z) (h0 : s'.pub0 ≠ FRAME_ERROR → ∀ z < k.sbh, z * k.sbsz < s'.pub0 → EntDone k s'.log z)
    (hl : 3 ≤ epos (s'.ent (k.sbh - 1)) → FRAME_ERROR ≤ s'.pub0) : PubInv k s' where
  mutex := by rw [hs.filt, hs.lock]; exact h.mutex
  cs := by rw [hs.filt, hs.pub]; exact h.cs
  done := by rw [hs.done, hs.pub]; exact h.done
  store := by rw [hs.filt]; exact fun y n a z b c => (h.store y n a z b c).mono hm
  rows := by rw [hs.pub]; exact fun a z b c => (h.rows a z b c).mono hm
  pub := hp
  ents := h0
  last := hl

theorem filtStep_pub {s s' : St} {y} (hl : y < k.sbh) (hi : SInv k s) (hp : PubInv k s) (hm : ∀ e ∈ s.log, e ∈ s'.log) (h : FiltStep k s y s') : PubInv k s' := by
  have hph := filtStep_phase hi.front h
  obtain ⟨f, hf⟩ := hi.front.2 hph
  have h0 := sbh_pos hk
  cases h with
  | @find ty recon db hq hr ht =>
    obtain ⟨rfl, h2, rfl, rfl, rfl⟩ := filt_pos_of_queued hf hq hr
    have hent : ∀ {v}, pos v < 15 → ¬ inCs v := fun h1 h2 => by have := h2.1; omega
    have hpe : pos (.at (entry (firstTy k))) < 15 := by
      unfold firstTy
      cases h1 : k.deblock <;> cases h2 : k.cdef <;> cases h3 : k.lr <;> cases h4 : k.resize <;> simp [entry, pos, Pc.pos]
    have hce : csPub k s.pub1 (.at (entry (firstTy k))) := by
      unfold firstTy
      cases h1 : k.deblock <;> cases h2 : k.cdef <;> cases h3 : k.lr <;> cases h4 : k.resize <;> exact trivial
    have hse : ∀ n, FiltSt.at (entry (firstTy k)) ≠ .at (.store n false) := by
      intro n
      unfold firstTy
      cases h1 : k.deblock <;> cases h2 : k.cdef <;> cases h3 : k.lr <;> cases h4 : k.resize <;> simp [entry]
    by_cases h1 : y + 1 < k.sbh
    · have m1 : PubInv k { s with filt := upd s.filt (y + 1) (.queued (firstTy k) (y + 2) 0) } := by
        refine hp.move (v := .queued (firstTy k) (y + 2) 0) (fun e h => h) rfl rfl rfl rfl rfl rfl (fun h => ?_) (fun _ => trivial) (fun n h => by cases h)
        exact absurd h (hent (by simp [pos]))
      refine m1.move (y := y) (v := .at (entry (firstTy k))) hm (by simp [h1]) rfl rfl rfl rfl rfl (fun h => absurd h (hent hpe)) (fun _ => hce) (fun n h => absurd h (hse n))
    · exact hp.move (y := y) (v := .at (entry (firstTy k))) hm (by simp [h1]) rfl rfl rfl rfl rfl (fun h => absurd h (hent hpe)) (fun _ => hce) (fun n h => absurd h (hse n))
  | findCdef hq => exact hp.move hm rfl rfl rfl rfl rfl rfl (fun h => by simp [inCs, entry, pos, Pc.pos] at h) (fun _ => trivial) (fun n h => by simp [entry] at h)
  | @findRows ty db hq hne hdb =>
    have h1 := hi.st y
    rw [hq] at h1
    rcases h1 with h1 | ⟨rfl, _, h1⟩ | ⟨rfl, _⟩
    · cases h1 rfl
    · exact hp.move hm rfl rfl rfl rfl rfl rfl (fun h => by simp [inCs, entry, pos, Pc.pos] at h) (fun _ => trivial) (fun n h => by simp [entry] at h)
    · cases hne rfl
  | @exit n hq => exact hp.move hm rfl rfl rfl rfl rfl rfl (fun h => by simp [inCs, pos] at h) (fun _ => trivial) (fun n h => by cases h)
  | @run pc s' hq h2 =>
    have hcs : k.twoPass = true → csPub k s.pub1 (.at pc) := fun h => hq ▸ hp.cs h y
    have hbc := hi.bit.cs y
    rw [hq] at hbc
    have haft : ∀ g, ¬ inCs (.at (after k g)) ∧ csPub k s.pub1 (.at (after k g)) ∧ ∀ n, FiltSt.at (after k g) ≠ .at (.store n false) := by
      intro g
      cases g <;> cases h1 : k.deblock <;> cases h2 : k.cdef <;> cases h3 : k.lr <;> simp [after, h1, h2, h3, inCs, pos, Pc.pos, csPub]
    cases pc with
    | st g =>
      simp only [filtRun] at h2
      split at h2 <;> cases h2
      · exact hp.move hm rfl rfl rfl rfl rfl rfl (fun h => by cases g <;> simp [inCs, pos, Pc.pos] at h) (fun _ => trivial) (fun n h => by cases h)
      · exact hp.move hm rfl rfl rfl rfl rfl rfl (fun h => absurd h (haft g).1) (fun _ => (haft g).2.1) (fun n h => absurd h ((haft g).2.2 n))
    | run g =>
      cases h2
      exact hp.move hm rfl rfl rfl rfl rfl rfl (fun h => absurd h (haft g).1) (fun _ => (haft g).2.1) (fun n h => absurd h ((haft g).2.2 n))
    | colsChk =>
      simp only [filtRun] at h2
      split at h2 <;> cases h2 <;> exact hp.move hm rfl rfl rfl rfl rfl rfl (fun h => by simp [inCs, pos, Pc.pos] at h) (fun _ => trivial) (fun n h => by cases h)
    | rowsChk =>
      simp only [filtRun] at h2
      split at h2 <;> cases h2 <;> exact hp.move hm rfl rfl rfl rfl rfl rfl (fun h => by simp [inCs, pos, Pc.pos] at h) (fun _ => trivial) (fun n h => by cases h)
    | rowsLoad => cases h2; exact hp.move hm rfl rfl rfl rfl rfl rfl (fun h => by simp [inCs, pos, Pc.pos] at h) (fun _ => trivial) (fun n h => by cases h)
    | rowsStore e => cases h2; exact hp.move hm rfl rfl rfl rfl rfl rfl (fun h => by simp [inCs, pos, Pc.pos] at h) (fun _ => trivial) (fun n h => by cases h)
    | rowsOr => cases h2; exact hp.move hm rfl rfl rfl rfl rfl rfl (fun h => by simp [inCs, pos, Pc.pos] at h) (fun _ => trivial) (fun n h => by cases h)
    | bit => cases h2; exact hp.move hm rfl rfl rfl rfl rfl rfl (fun h => by simp [inCs, pos, Pc.pos] at h) (fun _ => trivial) (fun n h => by cases h)
    | sub => cases h2; exact hp.move hm rfl rfl rfl rfl rfl rfl (fun h => by simp [inCs, pos] at h) (fun _ => trivial) (fun n h => by cases h)
    | scan i =>
      have hlt := fun h => show s.pub1 < FRAME_ERROR from hcs h
      have hin : inCs (s.filt y) := by rw [hq]; simp [inCs, pos, Pc.pos]
      simp only [filtRun] at h2
      split at h2
      · cases h2; exact hp.move hm rfl rfl rfl rfl rfl rfl (fun _ => hin) (fun h h' => by have := hlt h; omega) (fun n h => by cases h)
      · split at h2
        · cases h2; exact hp.move hm rfl rfl rfl rfl rfl rfl (fun _ => hin) (fun h => hlt h) (fun n h => by cases h)
        · cases h2; exact hp.move hm rfl rfl rfl rfl rfl rfl (fun _ => hin) (fun h h' => by have := hlt h; omega) (fun n h => by cases h)
    | load n =>
      have hin : inCs (s.filt y) := by rw [hq]; simp [inCs, pos, Pc.pos]
      cases h2
      refine hp.move hm rfl rfl rfl rfl rfl rfl (fun _ => hin) (fun h => hcs h) (fun m h z hz hzs => ?_)
      simp only [FiltSt.at.injEq, Pc.store.injEq] at h
      obtain ⟨rfl, he⟩ := h
      rcases hbc with hb | hb
      · exact rowDone_of hk hi he hzs ((hi.bit.bits z).1 (hb.2 z hz))
      · rw [he] at hb; cases hb
    | lock =>
      simp only [filtRun] at h2
      split at h2
      · cases h2
      · rename_i hfl
        cases h2
        have hfl : s.flock = false := by simpa using hfl
        have hno : ∀ z, ¬ inCs (s.filt z) := fun z hz => by have := (hp.mutex z hz).1; rw [hfl] at this; cases this
        have hv : ∀ n, (FiltSt.at (if FRAME_ERROR ≤ (if k.twoPass then s.pub1 else 0) then .load k.sbh else .scan ((if k.twoPass then s.pub1 else 0) / (32 * k.sbsz)))) ≠ .at (.store n false) := by
          intro n
          by_cases hx : FRAME_ERROR ≤ (if k.twoPass then s.pub1 else 0)
          · rw [if_pos hx]; simp
          · rw [if_neg hx]; simp
        constructor
        · intro z hz
          refine ⟨rfl, fun w hw => ?_⟩
          dsimp only at hz hw
          have hy : ∀ z, inCs (upd s.filt y (.at (if FRAME_ERROR ≤ (if k.twoPass then s.pub1 else 0) then .load k.sbh else .scan ((if k.twoPass then s.pub1 else 0) / (32 * k.sbsz)))) z) → z = y := by
            intro z hz
            by_cases h1 : z = y
            · exact h1
            · rw [upd_ne _ _ h1] at hz; exact absurd hz (hno z)
          rw [hy z hz, hy w hw]
        · intro h2 z
          dsimp only
          by_cases h1 : z = y
          · subst h1
            rw [upd_same, h2]
            simp only [if_true]
            by_cases hx : FRAME_ERROR ≤ s.pub1
            · rw [if_pos hx]; exact fun _ => rfl
            · rw [if_neg hx]; exact Nat.lt_of_not_le hx
          · rw [upd_ne _ _ h1]; exact hp.cs h2 z
        · exact hp.done
        · intro z n hz
          dsimp only at hz
          by_cases h1 : z = y
          · subst h1; rw [upd_same] at hz; exact absurd hz (hv n)
          · rw [upd_ne _ _ h1] at hz; exact hp.store z n hz
        · exact hp.rows
        · exact hp.pub
        · exact hp.ents
        · exact hp.last
    | store n e =>
      cases h2
      have hin : inCs (s.filt y) := by rw [hq]; simp [inCs, pos, Pc.pos]
      have hun : ∀ z, z ≠ y → ¬ inCs (s.filt z) := fun z hz h => hz ((hp.mutex y hin).2 z h)
      have hfe : FRAME_ERROR ≤ UINT_MAX := by decide
      have hnz : n ≤ k.sbh ∨ e = true := by
        rcases hbc.2 with h | h
        · exact Or.inl h.1
        · exact Or.inr h
      have hbig : k.twoPass = true → FRAME_ERROR ≤ s.pub1 → FRAME_ERROR ≤ published k n e := by
        intro h2 h
        have := hcs h2 h
        unfold published
        rw [this]
        simp only [if_true]
        split
        · exact Nat.le_refl _
        · exact hfe
      constructor
      · intro z hz
        dsimp only at hz ⊢
        have key : ∀ z, inCs (upd s.filt y (.at (.unlock n)) z) → z = y := by
          intro z hz
          by_cases h1 : z = y
          · exact h1
          · rw [upd_ne _ _ h1] at hz; exact absurd hz (hun z h1)
        exact ⟨(hp.mutex y hin).1, fun w hw => by rw [key z hz, key w hw]⟩
      · intro h2 z
        dsimp only
        rw [if_pos h2]
        by_cases h1 : z = y
        · subst h1
          rw [upd_same]
          intro hn
          unfold published
          rw [hn]
          simp only [if_true]
          split
          · exact Nat.le_refl _
          · exact hfe
        · rw [upd_ne _ _ h1]
          have hc := hp.cs h2 z
          have hno := hun z h1
          cases hz : s.filt z with
          | «at» pc =>
            rw [hz] at hc hno
            cases pc with
            | scan i => exact absurd (by simp [inCs, pos, Pc.pos]) hno
            | load m => exact absurd (by simp [inCs, pos, Pc.pos]) hno
            | store m e' => exact absurd (by simp [inCs, pos, Pc.pos]) hno
            | unlock m => exact absurd (by simp [inCs, pos, Pc.pos]) hno
            | done m => exact fun hm' => hbig h2 (hc hm')
            | _ => exact trivial
          | _ => exact trivial
      · intro h2 hd
        dsimp only
        rw [if_pos h2]
        exact hbig h2 (hp.done h2 hd)
      · intro z m hz
        dsimp only at hz
        by_cases h1 : z = y
        · subst h1; rw [upd_same] at hz; cases hz
        · rw [upd_ne _ _ h1] at hz; exact hp.store z m hz
      · dsimp only
        split
        · intro hne z hz hlt
          unfold published at hne hlt
          cases e with
          | true => simp at hne
          | false =>
            simp only [Bool.false_eq_true, if_false] at hne hlt
            refine hp.store y n hq z ?_ hz
            split at hlt
            · omega
            · exact Nat.lt_of_mul_lt_mul_right hlt
        · exact hp.rows
      · exact hp.pub
      · exact hp.ents
      · exact hp.last
    | unlock n =>
      cases h2
      have hin : inCs (s.filt y) := by rw [hq]; simp [inCs, pos, Pc.pos]
      have hun : ∀ z, z ≠ y → ¬ inCs (s.filt z) := fun z hz h => hz ((hp.mutex y hin).2 z h)
      constructor
      · intro z hz
        dsimp only at hz
        exfalso
        by_cases h1 : z = y
        · subst h1; rw [upd_same] at hz; simp [inCs, pos, Pc.pos] at hz
        · rw [upd_ne _ _ h1] at hz; exact hun z h1 hz
      · intro h2 z
        dsimp only
        by_cases h1 : z = y
        · subst h1; rw [upd_same]; exact hcs h2
        · rw [upd_ne _ _ h1]; exact hp.cs h2 z
      · exact hp.done
      · intro z m hz
        dsimp only at hz
        by_cases h1 : z = y
        · subst h1; rw [upd_same] at hz; cases hz
        · rw [upd_ne _ _ h1] at hz; exact hp.store z m hz
      · exact hp.rows
      · exact hp.pub
      · exact hp.ents
      · exact hp.last
    | done n =>
      cases h2
      have m1 : PubInv k { s with filt := upd s.filt y (.at .sub) } :=
        hp.move (fun e h => h) rfl rfl rfl rfl rfl rfl (fun h => by simp [inCs, pos, Pc.pos] at h) (fun _ => trivial) (fun n h => by cases h)
      refine ⟨m1.mutex, m1.cs, fun h2 hd => ?_, m1.store, m1.rows, m1.pub, m1.ents, m1.last⟩
      dsimp only at hd
      rw [Bool.or_eq_true] at hd
      rcases hd with hd | hd
      · exact hp.done h2 hd
      · exact hcs h2 (by simpa using hd)

theorem entStep_pub {s s' : St} {y} (hl : y < k.sbh) (hi : SInv k s) (hp : PubInv k s) (hm : ∀ e ∈ s.log, e ∈ s'.log) (h : EntStep k s y s') : PubInv k s' := by
  obtain ⟨hph, htp⟩ := entStep_two hi.ent h
  obtain ⟨f, hf⟩ := hi.ent.front hph htp
  have h0 := sbh_pos hk
  have hs : SameFilt s s' := by
    have := entStep_same h
    exact ⟨this.2.2.2.2.1, this.2.2.2.2.2.2.2.2.1, this.2.2.2.2.2.2.2.2.2.1, this.2.2.2.2.2.2.2.2.2.2⟩
  -- rows other than `y` keep their state, apart from the next one becoming queued
  have keep : ∀ {v : EntSt}, s'.ent = upd s.ent y v → v ≠ .pub false → s'.pub0 = s.pub0 → (3 ≤ epos v → 3 ≤ epos (s.ent y)) → PubInv k s' := by
    intro v a b c d
    refine hp.ent' hm hs ?_ ?_ ?_
    · intro z hz hq
      rw [a] at hq
      by_cases h1 : z = y
      · subst h1; rw [upd_same] at hq; exact absurd hq b
      · rw [upd_ne _ _ h1] at hq; exact fun w hw => (hp.pub z hz hq w hw).mono hm
    · rw [c]; exact fun a z b c => (hp.ents a z b c).mono hm
    · rw [a, c]
      intro h3
      by_cases h1 : k.sbh - 1 = y
      · rw [h1, upd_same] at h3; exact hp.last (by rw [h1]; exact d h3)
      · rw [upd_ne _ _ h1] at h3; exact hp.last h3
  cases h with
  | find hq hle ht =>
    by_cases h1 : y + 1 < k.sbh
    · refine hp.ent' hm hs ?_ ?_ ?_
      · intro z hz hq'
        dsimp only at hq'
        rw [if_pos h1] at hq'
        by_cases h2 : z = y
        · subst h2; rw [upd_same] at hq'; cases hq'
        · rw [upd_ne _ _ h2] at hq'
          by_cases h3 : z = y + 1
          · subst h3; rw [upd_same] at hq'; cases hq'
          · rw [upd_ne _ _ h3] at hq'; exact fun w hw => (hp.pub z hz hq' w hw).mono hm
      · exact fun a z b c => (hp.ents a z b c).mono hm
      · intro h3
        dsimp only at h3
        rw [if_pos h1, upd_ne _ _ (by omega)] at h3
        by_cases h2 : k.sbh - 1 = y + 1
        · rw [h2, upd_same] at h3; simp [epos] at h3
        · rw [upd_ne _ _ h2] at h3; exact hp.last h3
    · exact keep (v := .load) (by simp [h1]) (by simp) rfl (by simp [epos])
  | load hq =>
    refine hp.ent' hm hs ?_ ?_ ?_
    · intro z hz hq'
      dsimp only at hq'
      by_cases h1 : z = y
      · subst h1
        rw [upd_same] at hq'
        simp only [EntSt.pub.injEq] at hq'
        intro w hw
        have hzf : z < f := hf.lt (by rw [hq]; simp [epos])
        exact entDone_of hk hi hq' (by omega) (hf.below w (by omega))
      · rw [upd_ne _ _ h1] at hq'; exact fun w hw => (hp.pub z hz hq' w hw).mono hm
    · exact fun a z b c => (hp.ents a z b c).mono hm
    · intro h3
      dsimp only at h3
      by_cases h1 : k.sbh - 1 = y
      · rw [h1, upd_same] at h3; simp [epos] at h3
      · rw [upd_ne _ _ h1] at h3; exact hp.last h3
  | @pub e hq =>
    have hfe : FRAME_ERROR ≤ UINT_MAX := by decide
    refine hp.ent' hm hs ?_ ?_ ?_
    · intro z hz hq'
      dsimp only at hq'
      by_cases h1 : z = y
      · subst h1; rw [upd_same] at hq'; cases hq'
      · rw [upd_ne _ _ h1] at hq'; exact fun w hw => (hp.pub z hz hq' w hw).mono hm
    · dsimp only
      intro hne z hz hlt
      unfold published at hne hlt
      cases e with
      | true => simp at hne
      | false =>
        simp only [Bool.false_eq_true, if_false] at hne hlt
        refine hp.pub y hl hq z ?_
        split at hlt
        · omega
        · have := Nat.lt_of_mul_lt_mul_right hlt; omega
    · dsimp only
      intro h3
      unfold published
      by_cases h1 : k.sbh - 1 = y
      · rw [if_pos (show y + 1 = k.sbh by omega)]
        split
        · exact Nat.le_refl _
        · exact hfe
      · rw [upd_ne _ _ h1] at h3
        -- the last row is under way, so this row has an error
        rcases hi.ent.prog.val with ⟨_, _, h5⟩ | ⟨h7, h8, h9⟩
        · cases e with
          | true => simp
          | false => exact absurd hq (h5 y hl).1
        · exfalso
          have h10 := h9 (k.sbh - 1) (by omega) (by omega)
          have h12 := (h8 y hl).2 (by omega)
          rw [hq] at h12
          simp [epos] at h12
  | ent hq => exact keep rfl (by simp) rfl (by rw [hq]; simp [epos])
  | done hq => exact keep rfl (by simp) rfl (by rw [hq]; simp [epos])
  | sub hq => exact keep rfl (by simp) rfl (by rw [hq]; simp [epos])
  | exit hq => exact keep rfl (by simp) rfl (by rw [hq]; simp [epos])

theorem step_pub {s s' : St} {rd bad} (hi : SInv k s) (hp : PubInv k s) (h : Step k rd bad s s') : PubInv k s' := by
  have hm := (step_kind hk hi.tile hi.front hi.ent h).log_mono
  have hcr : s.phase ≠ 2 → PubInv k (create2 k s) := by
    intro h1
    have m1 : PubInv k { s with filt := upd s.filt 0 (.queued (firstTy k) 1 0) } :=
      hp.move (v := .queued (firstTy k) 1 0) (fun e h => h) rfl rfl rfl rfl rfl rfl (fun h => by simp [inCs, pos] at h) (fun _ => trivial) (fun n h => by cases h)
    exact ⟨m1.mutex, m1.cs, (fun _ h => by cases h), m1.store, m1.rows, m1.pub, m1.ents, m1.last⟩
  cases h with
  | create0 h2 h1 => exact hcr (by omega)
  | create1 h2 h1 =>
    have ha := hi.ent.absent (Or.inl h1)
    refine hp.ent' hm ⟨rfl, rfl, rfl, rfl⟩ ?_ ?_ ?_
    · intro z hz hq
      simp only [create1] at hq
      by_cases h3 : z = 0
      · subst h3; rw [upd_same] at hq; cases hq
      · rw [upd_ne _ _ h3, ha.1 z] at hq; cases hq
    · exact fun a z b c => (hp.ents a z b c).mono hm
    · intro h3
      simp only [create1] at h3
      by_cases h4 : k.sbh - 1 = 0
      · rw [h4, upd_same] at h3; simp [epos] at h3
      · rw [upd_ne _ _ h4, ha.1] at h3; simp [epos] at h3
  | create2 h2 h1 => exact hcr (by omega)
  | refError => exact ⟨hp.mutex, hp.cs, hp.done, hp.store, hp.rows, hp.pub, hp.ents, hp.last⟩
  | tile _ h =>
    have := tileStep_same h
    refine hp.ent' hm ⟨this.2.1, this.2.2.2.2.2.2.2.2.2.1, this.2.2.2.2.2.2.2.2.2.2.1, this.2.2.2.2.2.2.2.2.2.2.2.1⟩ ?_ ?_ ?_
    · rw [this.2.2.2.1]; exact fun y a b z c => (hp.pub y a b z c).mono hm
    · rw [this.2.2.2.2.2.2.2.2.1]; exact fun a z b c => (hp.ents a z b c).mono hm
    · rw [this.2.2.2.1, this.2.2.2.2.2.2.2.2.1]; exact hp.last
  | filt hl h => exact filtStep_pub hk hl hi hp hm h
  | ent hl h => exact entStep_pub hk hl hi hp hm h

theorem reach_pub {s : St} (h : Reach k s) : PubInv k s := by
  induction h with
  | init => exact PubInv.init
  | step hr h ih => exact step_pub hk (reach_inv hk hr) ih h

end ok
end Dav1d.Sched
