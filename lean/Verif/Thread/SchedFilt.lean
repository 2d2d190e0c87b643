import Verif.Thread.SchedTile
/-!
# Invariants of the filter tasks
-/
namespace Dav1d.Sched
variable {k : Cfg}

/-- How far a task is. -/
def Pc.pos : Pc → Nat
  | .st .cols => 1 | .run .cols => 2 | .colsChk => 3
  | .st .rows => 4 | .run .rows => 5 | .rowsLoad => 6 | .rowsOr => 6 | .rowsStore _ => 7 | .rowsChk => 7
  | .st .cdef => 8 | .run .cdef => 9 | .st .resize => 10 | .run .resize => 11 | .st .lr => 12 | .run .lr => 13
  | .bit => 14 | .lock => 15 | .scan _ => 16 | .load _ => 17 | .store _ _ => 18 | .unlock _ => 19 | .done _ => 20 | .sub => 21

/-- How far the filter task of a row is: 0 before its tiles are decoded. -/
def pos : FiltSt → Nat
  | .absent => 0
  | .queued ty recon _ => if recon ≠ 0 then 0 else if ty = .stage .cdef then 7 else 3
  | .at pc => pc.pos
  | .subbed _ => 22
  | .gone => 23

theorem Pc.pos_pos (pc : Pc) : 1 ≤ pc.pos := by
  cases pc <;> simp only [Pc.pos] <;> try omega
  all_goals rename_i g; cases g <;> simp only [Pc.pos] <;> omega

/-- A row below which all tasks are under way: its task waits for the tiles, the following ones do not exist. -/
structure Front (k : Cfg) (filt : Nat → FiltSt) (ntr : Nat) (f : Nat) : Prop where
  le : f ≤ k.sbh
  below : ∀ y < f, 1 ≤ pos (filt y)
  here : f < k.sbh → filt f = .queued (firstTy k) (f + 1) 0 ∧ ntr < k.rows ∧ k.start ntr ≤ f ∧ f < k.start (ntr + 1)
  above : ∀ y, f ≤ y → y = f ∧ f < k.sbh ∨ filt y = .absent

/-- The invariant of the list of tasks. -/
def FrontInv (k : Cfg) (s : St) : Prop :=
  (s.phase ≠ 2 → ∀ y, s.filt y = .absent) ∧ (s.phase = 2 → ∃ f, Front k s.filt (s.ntr false) f)

/-- The states that occur with the filters in use. -/
def stOk (k : Cfg) (y : Nat) : FiltSt → Prop
  | .queued ty recon db => recon ≠ 0 ∨ (ty = .stage .rows ∧ db = y ∧ k.deblock = true) ∨
      (ty = .stage .cdef ∧ k.deblock = false ∧ y ≠ 0 ∧ (k.cdef = true ∨ k.lr = true))
  | .at (.st .cols) => k.deblock = true
  | .at (.run .cols) => k.deblock = true
  | .at .colsChk => k.deblock = true
  | .at (.st .rows) => k.deblock = true ∨ k.cdef = true ∨ k.lr = true
  | .at (.run .rows) => k.deblock = true ∨ k.cdef = true ∨ k.lr = true
  | .at .rowsLoad => k.deblock = true
  | .at (.rowsStore _) => k.deblock = true
  | .at .rowsOr => k.deblock = false ∧ (k.cdef = true ∨ k.lr = true)
  | .at .rowsChk => k.deblock = false ∧ (k.cdef = true ∨ k.lr = true)
  | .at (.run .cdef) => k.cdef = true
  | .at (.run .resize) => k.resize = true
  | .at (.run .lr) => k.lr = true
  | _ => True

/-- With CDEF a task passes the saving of the lines before. -/
def StInv (k : Cfg) (s : St) : Prop := ∀ y, stOk k y (s.filt y)

theorem after_pos (g : Stage) : (Pc.run g).pos < (after k g).pos ∧ (Pc.st g).pos < (Pc.run g).pos := by
  cases g <;> cases h1 : k.deblock <;> cases h2 : k.cdef <;> cases h3 : k.lr <;> simp [after, h1, h2, h3, Pc.pos]

theorem after_ok (g : Stage) (y : Nat) : (stOk k y (.at (.st g)) → stOk k y (.at (after k g))) ∧ (stOk k y (.at (.run g)) → stOk k y (.at (after k g))) := by
  cases g <;> cases h1 : k.deblock <;> cases h2 : k.cdef <;> cases h3 : k.lr <;> simp [after, stOk, h1, h2, h3]

/-- The new state of the task after one of its steps. -/
theorem filtRun_filt {s s' : St} {y pc} (h : filtRun k s y pc = some s') :
    ∃ v, s'.filt = upd s.filt y v ∧ pc.pos ≤ pos v ∧ (stOk k y (.at pc) → stOk k y v) := by
  cases pc with
  | st g =>
    simp only [filtRun] at h
    split at h
    · rename_i hg
      cases h
      refine ⟨_, rfl, ?_, ?_⟩
      · cases g <;> simp [pos, Pc.pos]
      · cases g <;> simp_all [stOk, enabled]
    · rename_i hg
      cases h
      have := after_pos (k := k) g
      exact ⟨_, rfl, by simp only [pos]; omega, (after_ok g y).1⟩
  | run g =>
    cases h
    have := after_pos (k := k) g
    exact ⟨_, rfl, by simp only [pos]; omega, (after_ok g y).2⟩
  | colsChk =>
    simp only [filtRun] at h
    split at h <;> cases h
    · exact ⟨_, rfl, by simp [pos, Pc.pos], fun h => by simpa [stOk] using h⟩
    · exact ⟨_, rfl, by simp [pos, Pc.pos], fun h => Or.inl h⟩
  | rowsChk =>
    simp only [filtRun] at h
    split at h <;> cases h
    · rename_i hy
      exact ⟨_, rfl, by simp [pos, Pc.pos], fun h => Or.inr (Or.inr ⟨rfl, h.1, hy.1, h.2⟩)⟩
    · exact ⟨_, rfl, by simp [pos, Pc.pos], fun _ => trivial⟩
  | lock =>
    simp only [filtRun] at h
    split at h <;> cases h
    refine ⟨_, rfl, ?_⟩
    by_cases hp : FRAME_ERROR ≤ (if k.twoPass then s.pub1 else 0)
    · rw [if_pos hp]; exact ⟨by simp [pos, Pc.pos], fun _ => trivial⟩
    · rw [if_neg hp]; exact ⟨by simp [pos, Pc.pos], fun _ => trivial⟩
  | scan i =>
    simp only [filtRun] at h
    (repeat' split at h) <;> cases h <;> exact ⟨_, rfl, by simp [pos, Pc.pos], fun _ => trivial⟩
  | _ => cases h; exact ⟨_, rfl, by simp [pos, Pc.pos], fun h => by simpa [stOk] using h⟩

theorem Front.upd {filt : Nat → FiltSt} {ntr f y : Nat} {v : FiltSt} (h : Front k filt ntr f) (hy : 1 ≤ pos (filt y)) (hv : 1 ≤ pos v) :
    Front k (upd filt y v) ntr f := by
  have hlt : y < f := by
    rcases Nat.lt_or_ge y f with h1 | h1
    · exact h1
    · rcases h.above y h1 with ⟨rfl, h2⟩ | h2
      · rw [(h.here h2).1] at hy; simp [pos] at hy
      · rw [h2] at hy; simp [pos] at hy
  refine ⟨h.le, fun z hz => ?_, fun hf => ?_, fun z hz => ?_⟩
  · unfold Sched.upd
    split
    · exact hv
    · exact h.below z hz
  · rw [upd_ne _ _ (by omega)]; exact h.here hf
  · rw [upd_ne _ _ (by omega)]; exact h.above z hz

section ok
variable (hk : k.Ok)
include hk

/-- A row below the last is in some row of tiles, and only one. -/
theorem row_unique {r r' y : Nat} (h : r < k.rows) (h' : r' < k.rows) (h1 : k.start r ≤ y) (h2 : y < k.start (r + 1)) (h3 : k.start r' ≤ y)
    (h4 : y < k.start (r' + 1)) : r = r' := by
  rcases Nat.lt_trichotomy r r' with h5 | h5 | h5
  · rcases Nat.lt_or_ge (r + 1) r' with h6 | h6
    · have := start_mono hk h6 (by omega); omega
    · rw [show r' = r + 1 by omega] at h3; omega
  · exact h5
  · rcases Nat.lt_or_ge (r' + 1) r with h6 | h6
    · have := start_mono hk h6 (by omega); omega
    · rw [show r = r' + 1 by omega] at h1; omega

omit hk in
theorem filt_pos_of_queued {s : St} {f y : Nat} (h : Front k s.filt (s.ntr false) f) {ty recon db} (hq : s.filt y = .queued ty recon db) (hr : recon ≠ 0) :
    y = f ∧ f < k.sbh ∧ ty = firstTy k ∧ recon = y + 1 ∧ db = 0 := by
  have hp : pos (s.filt y) = 0 := by rw [hq]; simp [pos, hr]
  have : ¬ y < f := fun h' => by have := h.below y h'; omega
  rcases h.above y (by omega) with ⟨rfl, h2⟩ | h2
  · have := (h.here h2).1
    rw [hq] at this
    cases this
    exact ⟨rfl, h2, rfl, rfl, rfl⟩
  · rw [hq] at h2; cases h2

theorem filtStep_front {s s' : St} {y} (hi : FrontInv k s) (hl : y < k.sbh) (h : FiltStep k s y s') : FrontInv k s' := by
  have hsame := (filtStep_same h).1
  have hph : s.phase = 2 := by
    by_cases hp : s.phase = 2
    · exact hp
    · have := hi.1 hp y
      cases h <;> simp_all
  obtain ⟨f, hf⟩ := hi.2 hph
  refine ⟨fun hn => absurd hph (by rw [← hsame]; exact hn), fun _ => ?_⟩
  cases h with
  | @find ty recon db hq hr ht =>
    obtain ⟨rfl, h2, rfl, rfl, rfl⟩ := filt_pos_of_queued hf hq hr
    have h1 := (hf.here h2).2
    refine ⟨y + 1, by omega, fun z hz => ?_, fun hlt => ?_, fun z hz => ?_⟩
    · by_cases hzy : z = y
      · subst hzy
        simp only [upd_same]
        exact Pc.pos_pos _
      · dsimp only
        rw [upd_ne _ _ hzy]
        split
        · rw [upd_ne _ _ (by omega)]; exact hf.below z (by omega)
        · exact hf.below z (by omega)
    · dsimp only
      rw [upd_ne _ _ (by omega), if_pos hlt, upd_same, if_pos hlt]
      refine ⟨rfl, ?_⟩
      simp only [nextRow, true_and]
      split
      · rename_i he
        have : s.ntr false + 1 < k.rows := by
          rcases Nat.lt_or_ge (s.ntr false + 1) k.rows with h5 | h5
          · exact h5
          · rw [show s.ntr false + 1 = k.rows by omega, hk.end_] at he; omega
        have h6 := hk.mono _ this
        exact ⟨this, by omega, by omega⟩
      · rename_i he
        exact ⟨h1.1, by omega, by omega⟩
    · dsimp only
      rcases hf.above z (by omega) with h3 | h3
      · omega
      · rw [upd_ne _ _ (by omega)]
        split
        · rename_i h4
          by_cases h5 : z = y + 1
          · left; exact ⟨h5, h4⟩
          · right; rw [upd_ne _ _ h5]; exact h3
        · exact Or.inr h3
  | findCdef hq => exact ⟨f, hf.upd (by rw [hq]; simp [pos]) (by simp [pos, Pc.pos_pos])⟩
  | findRows hq hne => exact ⟨f, hf.upd (by rw [hq]; simp [pos, hne]) (by simp [pos, Pc.pos_pos])⟩
  | run hq h2 =>
    obtain ⟨v, h3, h4, _⟩ := filtRun_filt h2
    rw [h3, (filtRun_same h2).2.2.2.2.2.2.1]
    exact ⟨f, hf.upd (by rw [hq]; exact Pc.pos_pos _) (Nat.le_trans (Pc.pos_pos _) h4)⟩
  | exit hq => exact ⟨f, hf.upd (by rw [hq]; simp [pos]) (by simp [pos])⟩

omit hk in
theorem tileStep_same {s s' : St} {rd p i} (h : TileStep k rd s p i s') :
    s'.phase = s.phase ∧ s'.filt = s.filt ∧ s'.ntr = s.ntr ∧ s'.ent = s.ent ∧ s'.entp = s.entp ∧ s'.dbp = s.dbp ∧ s'.lpf = s.lpf ∧ s'.bits = s.bits ∧
    s'.pub0 = s.pub0 ∧ s'.pub1 = s.pub1 ∧ s'.flock = s.flock ∧ s'.done0 = s.done0 ∧ s'.done1 = s.done1 ∧ (s.error = true → s'.error = true) := by
  cases h with
  | find _ hc => exact ⟨rfl, rfl, rfl, rfl, rfl, rfl, rfl, rfl, rfl, rfl, rfl, rfl, rfl, fun h => by obtain ⟨_, _, _, rfl⟩ := hc; simp [h]⟩
  | again _ hc => exact ⟨rfl, rfl, rfl, rfl, rfl, rfl, rfl, rfl, rfl, rfl, rfl, rfl, rfl, fun h => by obtain ⟨_, _, _, rfl⟩ := hc; simp [h]⟩
  | or => exact ⟨rfl, rfl, rfl, rfl, rfl, rfl, rfl, rfl, rfl, rfl, rfl, rfl, rfl, fun h => by simp [h]⟩
  | _ => exact ⟨rfl, rfl, rfl, rfl, rfl, rfl, rfl, rfl, rfl, rfl, rfl, rfl, rfl, id⟩

theorem Front.create : Front k (Sched.upd (fun _ => .absent) 0 (.queued (firstTy k) 1 0)) 0 0 := by
  have := sbh_pos hk
  have h1 := start_mono hk hk.rows (Nat.le_refl _)
  refine ⟨by omega, fun _ h => by omega, fun _ => ⟨rfl, hk.rows, by rw [hk.zero]; omega, ?_⟩, fun z _ => ?_⟩
  · have := hk.mono 0 hk.rows; omega
  · by_cases hz : z = 0
    · left; exact ⟨hz, this⟩
    · right; exact upd_ne _ _ hz

omit hk in
theorem FrontInv.absent {s : St} (hi : FrontInv k s) (h : s.phase ≠ 2) : s.filt = fun _ => .absent := funext (hi.1 h)

omit hk in
theorem entStep_ntr {s s' : St} {y} (h : EntStep k s y s') : s'.ntr false = s.ntr false := by
  cases h with
  | find =>
    dsimp only
    split
    · simp [nextRow]
    · rfl
  | _ => rfl

theorem step_front {s s' : St} {rd bad} (hi : FrontInv k s) (h : Step k rd bad s s') : FrontInv k s' := by
  have hcr : ∀ {s : St}, FrontInv k s → s.phase ≠ 2 → FrontInv k (create2 k s) := by
    intro s hi hp
    refine ⟨fun h => absurd rfl h, fun _ => ⟨0, ?_⟩⟩
    simp only [create2, hi.absent hp]
    exact Front.create hk
  cases h with
  | create0 h2 hp => exact hcr hi (by omega)
  | create1 h2 hp => exact ⟨fun _ => hi.1 (by omega), fun h => by cases h⟩
  | create2 h2 hp => exact hcr hi (by omega)
  | refError => exact hi
  | tile hl h =>
    obtain ⟨a, b, c, _⟩ := tileStep_same h
    unfold FrontInv; rw [a, b, c]; exact hi
  | filt hl h => exact filtStep_front hk hi hl h
  | ent _ h =>
    obtain ⟨a, _, _, _, b, _⟩ := entStep_same h
    unfold FrontInv; rw [a, b, entStep_ntr h]; exact hi

omit hk in
theorem entry_ok {y : Nat} : stOk k y (.at (entry (firstTy k))) := by
  unfold firstTy
  cases h1 : k.deblock <;> cases h2 : k.cdef <;> cases h3 : k.lr <;> cases h4 : k.resize <;> simp [entry, stOk, h1, h2, h3]

omit hk in
theorem StInv.upd {filt : Nat → FiltSt} {y : Nat} {v : FiltSt} (hi : ∀ z, stOk k z (filt z)) (hv : stOk k y v) : ∀ z, stOk k z (upd filt y v z) := by
  intro z
  unfold Sched.upd
  split
  · rename_i h; rw [h]; exact hv
  · exact hi z

omit hk in
theorem filtStep_st {s s' : St} {y} (hf : FrontInv k s) (hi : StInv k s) (h : FiltStep k s y s') : StInv k s' := by
  cases h with
  | @find ty recon db hq hr ht =>
    have hph : s.phase = 2 := by
      by_cases hp : s.phase = 2
      · exact hp
      · rw [hf.1 hp y] at hq; cases hq
    obtain ⟨f, hf⟩ := hf.2 hph
    obtain ⟨rfl, h2, rfl, rfl, rfl⟩ := filt_pos_of_queued hf hq hr
    refine StInv.upd ?_ entry_ok
    split
    · exact StInv.upd hi (Or.inl (by omega))
    · exact hi
  | findCdef hq => exact StInv.upd hi trivial
  | @findRows ty db hq hne hd =>
    refine StInv.upd hi ?_
    have := hi y
    rw [hq] at this
    rcases this with h | ⟨rfl, _, h⟩ | ⟨rfl, _⟩
    · cases h rfl
    · exact Or.inl h
    · cases hne rfl
  | run hq h2 =>
    obtain ⟨v, h3, _, h4⟩ := filtRun_filt h2
    intro z
    rw [h3]
    exact StInv.upd hi (h4 (by have := hi y; rwa [hq] at this)) z
  | exit hq => exact StInv.upd hi trivial

omit hk in
theorem step_st {s s' : St} {rd bad} (hf : FrontInv k s) (hi : StInv k s) (h : Step k rd bad s s') : StInv k s' := by
  cases h with
  | create0 => exact StInv.upd hi (Or.inl (by simp))
  | create1 => exact hi
  | create2 => exact StInv.upd hi (Or.inl (by simp))
  | refError => exact hi
  | tile hl h => unfold StInv; rw [(tileStep_same h).2.1]; exact hi
  | filt hl h => exact filtStep_st hf hi h
  | ent _ h => unfold StInv; rw [(entStep_same h).2.2.2.2.1]; exact hi

end ok
end Dav1d.Sched
