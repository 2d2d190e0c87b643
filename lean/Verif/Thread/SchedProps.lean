import Verif.Thread.SchedEnd
/-!
# C49: every superblock row of every stage once, in order, and the frame announced once, at the end

The theorems are about all interleavings of the workers: `Reach` allows any task to make the next step.
-/
namespace Dav1d.Sched
variable {k : Cfg}

/-- Everything is begun and ended at most once; only what belongs to the frame is done at all. -/
theorem C49_once (hk : k.Ok) {s : St} (h : Reach k s) (w : Work) :
    s.times (.fin w) ≤ s.times (.start w) ∧ s.times (.start w) ≤ 1 ∧ (¬ k.Has w → s.times (.start w) = 0) := by
  obtain ⟨h1, h2, h3, h4⟩ := (reach_inv hk h).log w
  have hg : stg s w ≤ 2 := by
    cases w with
    | tile p i y =>
      simp only [stg]
      cases s.tile p i <;> simp only [tstg] <;> (repeat' split) <;> omega
    | filt g y => simp only [stg, fstg]; (repeat' split) <;> omega
  unfold St.times
  refine ⟨?_, ?_, fun h => (h1 h).1⟩ <;> rcases Nat.lt_or_ge (stg s w) 1 with hh | hh
  · have := h2 (by omega); omega
  · rcases Nat.lt_or_ge (stg s w) 2 with hh' | hh'
    · have := h3 (by omega); omega
    · have := h4 (by omega); omega
  · have := h2 (by omega); omega
  · rcases Nat.lt_or_ge (stg s w) 2 with hh' | hh'
    · have := h3 (by omega); omega
    · have := h4 (by omega); omega

/-- Nothing begins before what it depends on has ended (`later` and `earlier` are the events after and before). -/
theorem C49_order (hk : k.Ok) {s : St} (h : Reach k s) {later earlier : List Ev} {w d : Work}
    (hl : s.log = later ++ .start w :: earlier) (hn : Needs k w d) (hd : k.Has d) : .fin d ∈ earlier :=
  (reach_inv hk h).ord.split hl hn hd

theorem exit_state (hk : k.Ok) {s : St} (h : Reach k s) (ha : s.Announced) :
    s.counter = 0 ∧ ∃ l, s.log = .exit s.error :: l ∧ ∀ b, Ev.exit b ∉ l := by
  obtain ⟨e, he⟩ := ha
  have hi := (reach_inv hk h).exit
  by_cases hc : s.counter = 0
  · rcases hi.zero hc with h1 | h1
    · exact absurd he (h1.2 e)
    · exact ⟨hc, h1.2⟩
  · exact absurd he ((hi.pos hc).2 e)

theorem over_of_zero (hk : k.Ok) {s : St} (hi : SInv k s) (hc : s.counter = 0) (w : Work) : k.Has w → stg s w = 2 := by
  intro hw
  have hl := live_of_total (k := k) (s := s) (by have := hi.count; unfold CountInv at this; omega)
  cases w with
  | tile p i y =>
    have := hl (.tile p i) ⟨hw.1, hw.2.2.2⟩
    simp only [lv] at this
    simp only [stg]
    cases h : s.tile p i <;> rw [h] at this <;> simp [lt] at this <;> rfl
  | filt g y =>
    have := hl (.filt y) hw.1
    simp only [lv] at this
    simp only [stg]
    refine fstg_late ?_
    cases h : s.filt y <;> rw [h] at this <;> simp [lf, pos] at this ⊢

/-- The frame is announced at most once, and at the end: nothing happens afterwards, and what was begun has ended. If it is
announced without error, all of its work was done. -/
theorem C49_exit (hk : k.Ok) {s : St} (h : Reach k s) {later earlier : List Ev} {e : Bool} (hl : s.log = later ++ .exit e :: earlier) :
    later = [] ∧ (∀ e', .exit e' ∉ earlier) ∧ (∀ w, .start w ∈ earlier → .fin w ∈ earlier) ∧
      (e = false → ∀ w, k.Has w → .fin w ∈ earlier) := by
  have hi := reach_inv hk h
  obtain ⟨hc, l, h1, h2⟩ := exit_state hk h ⟨e, by rw [hl]; simp⟩
  have hnil : later = [] ∧ l = earlier ∧ s.error = e := by
    rw [hl] at h1
    cases later with
    | nil => simp at h1; exact ⟨rfl, h1.2.symm, h1.1.symm⟩
    | cons a t =>
      exfalso
      simp at h1
      exact h2 e (by rw [← h1.2]; simp)
  obtain ⟨rfl, rfl, rfl⟩ := hnil
  refine ⟨rfl, h2, fun w hw => ?_, fun he w hw => ?_⟩
  · have h3 : k.Has w := by
      by_cases hh : k.Has w
      · exact hh
      · have := ((hi.log w).1 hh).1
        rw [h1, List.count_cons] at this
        have h5 := List.count_pos_iff.2 hw
        omega
    have h4 := ((hi.log w).2.2.2 (over_of_zero hk hi hc w h3)).1
    rw [h1] at h4
    simp only [List.count_cons] at h4
    have h5 := List.count_pos_iff.2 hw
    refine List.count_pos_iff.1 ?_
    simp at h4
    omega
  · have := fin_of_over hi.log he hw (over_of_zero hk hi hc w hw)
    rw [h1] at this
    simpa using this

/-- The frame is announced: when nothing can happen any more although the reference frames are complete (or have an error),
it has been. -/
theorem C49_announced (hk : k.Ok) {s : St} {rd bad : Bool → Nat → Nat → Prop} (hr : ∀ p i y, rd p i y ∨ bad p i y)
    (h : Reach k s) (hs : Stuck k rd bad s) : s.Announced := by
  have hi := reach_inv hk h
  have hg := stuck_gone hk hr hi hs
  have hz : s.counter = 0 := by
    have := hi.count
    unfold CountInv at this
    rw [this, total_of_live fun w hw => (hg w hw).1]
    rfl
  rcases hi.exit.zero hz with ⟨⟨w, hw, h1⟩, _⟩ | ⟨_, l, h1, _⟩
  · have := (h1 w hw).2 rfl
    rw [(hg w hw).2] at this
    cases this
  · exact ⟨s.error, by rw [h1]; simp⟩

theorem Run.inv (hk : k.Ok) {n : Nat} {s s' : St} (h : Run k n s s') (hi : SInv k s) : SInv k s' ∧ n + measure k s' ≤ measure k s := by
  induction h with
  | here => exact ⟨hi, by omega⟩
  | step _ hs ih =>
    obtain ⟨h1, h2⟩ := ih hi
    have := step_measure hk h1 hs
    exact ⟨step_inv hk h1 hs, by omega⟩

/-- Every execution ends: there is a bound on the number of steps. -/
theorem C49_ends (hk : k.Ok) : ∃ bound, ∀ {n s}, Run k n (.init k) s → n ≤ bound := by
  refine ⟨measure k (.init k), fun {n s} h => ?_⟩
  have := (h.inv hk (SInv.init hk)).2
  omega

theorem Run.reach {n : Nat} {s s' : St} (h : Run k n s s') (hs : Reach k s) : Reach k s' := by
  induction h with
  | here => exact hs
  | step _ h ih => exact .step (ih hs) h

theorem Run.cons {n : Nat} {s s1 s2 : St} {rd bad} (h : Step k rd bad s s1) (h' : Run k n s1 s2) : Run k (n + 1) s s2 := by
  induction h' with
  | here => exact .step (.here s) h
  | step _ h2 ih => exact .step (ih h) h2

/-- Every state can be continued until nothing can happen any more. -/
theorem run_stuck (hk : k.Ok) (rd bad : Bool → Nat → Nat → Prop) {s : St} (h : Reach k s) : ∃ n s', Run k n s s' ∧ Stuck k rd bad s' := by
  suffices ∀ m s, Reach k s → measure k s ≤ m → ∃ n s', Run k n s s' ∧ Stuck k rd bad s' from this _ s h (Nat.le_refl _)
  intro m
  induction m with
  | zero =>
    intro s hr hm
    refine ⟨0, s, .here s, fun s' hs => ?_⟩
    have := step_measure hk (reach_inv hk hr) hs
    omega
  | succ m ih =>
    intro s hr hm
    by_cases hs : Stuck k rd bad s
    · exact ⟨0, s, .here s, hs⟩
    · unfold Stuck at hs
      simp only [Classical.not_forall, Classical.not_not] at hs
      obtain ⟨s1, h1⟩ := hs
      have := step_measure hk (reach_inv hk hr) h1
      obtain ⟨n, s', h2, h3⟩ := ih s1 (.step hr h1) (by omega)
      exact ⟨n + 1, s', .cons h1 h2, h3⟩

/-- From every state that can occur, the frame can get announced. -/
theorem C49_reachable (hk : k.Ok) {s : St} (h : Reach k s) : ∃ n s', Run k n s s' ∧ s'.Announced := by
  obtain ⟨n, s', h1, h2⟩ := run_stuck hk (fun _ _ _ => True) (fun _ _ _ => False) h
  exact ⟨n, s', h1, C49_announced hk (fun _ _ _ => Or.inl trivial) (h1.reach h) h2⟩

/-! ## An execution

A frame of three superblock rows in two by two tiles, with deblocking and CDEF, decoded in two passes. `sweep` lets every
task make a step, if it can. -/

/-- The result of a step of a tile task, if it can make one. -/
def tileMove (k : Cfg) (s : St) (p : Bool) (i : Nat) : St :=
  match s.tile p i with
  | .queued y =>
    let e1 := s.error || decide (s.tprog p i = TILE_ERROR)
    let e2 := e1 || (k.twoPass && !p && decide (s.tprog true i = TILE_ERROR))
    if y ≤ s.tprog p i ∧ (e1 = false ∧ k.twoPass = true ∧ p = false → y < s.tprog true i) then
      { s with tile := upd2 s.tile p i (.taken y), error := e2 } else s
  | .taken y =>
    if s.error = true then { s with tile := upd2 s.tile p i (.ran y true) }
    else { s with tile := upd2 s.tile p i (.run y), log := .start (.tile p i y) :: s.log }
  | .run y => { s with tile := upd2 s.tile p i (.ran y false), log := .fin (.tile p i y) :: s.log }
  | .ran y e => { s with tile := upd2 s.tile p i (if y + 1 < k.last i then .more y e else .last e), error := s.error || e }
  | .more y e => { s with tile := upd2 s.tile p i (.next y e false) }
  | .next y e now => { s with tile := upd2 s.tile p i (if now then .taken (y + 1) else .queued (y + 1)), tprog := upd2 s.tprog p i (progress y e) }
  | .last e => { s with tile := upd2 s.tile p i .stored, tprog := upd2 s.tprog p i (progress (k.last i - 1) e) }
  | .stored => { s with tile := upd2 s.tile p i (.subbed (s.counter - 1)), counter := s.counter - 1 }
  | .subbed n => { s with tile := upd2 s.tile p i .gone, log := announce k s n }
  | _ => s

/-- A property that all steps keep, when the reference frames are complete. -/
def Kept (k : Cfg) (P : St → Prop) : Prop := ∀ s s', P s → Step k (fun _ _ _ => True) (fun _ _ _ => False) s s' → P s'

theorem tileMove_kept {P : St → Prop} (hP : Kept k P) {s : St} {p : Bool} {i : Nat} (hl : i < k.tiles) (h : P s) : P (tileMove k s p i) := by
  have go : ∀ {s'}, TileStep k (fun _ _ _ => True) s p i s' → P s' := fun h' => hP _ _ h (.tile hl h')
  unfold tileMove
  split
  · rename_i hq
    dsimp only
    split
    · rename_i hc
      exact go (.find hq ⟨hc.1, hc.2, fun _ => trivial, rfl⟩)
    · exact h
  · rename_i hq
    split
    · rename_i he; exact go (.skip hq he)
    · rename_i he; exact go (.start hq (by simpa using he))
  · rename_i hq; exact go (.fin false hq)
  · rename_i hq; exact go (.or hq)
  · rename_i hq; exact go (.wait hq)
  · rename_i hq; exact go (.next hq)
  · rename_i hq; exact go (.last hq)
  · rename_i hq; exact go (.sub hq)
  · rename_i hq; exact go (.exit hq)
  · exact h

instance (s : St) (p : Bool) (n : Nat) : Decidable (tilesDone k s p n) :=
  inferInstanceAs (Decidable (∀ c < k.cols, n ≤ s.tprog p (k.cols * s.ntr p + c)))

def filtMove (k : Cfg) (s : St) (y : Nat) : St :=
  match s.filt y with
  | .queued ty recon db =>
    if recon ≠ 0 then
      if tilesDone k s false recon then
        { s with filt := upd (if y + 1 < k.sbh then upd s.filt (y + 1) (.queued ty (y + 2) db) else s.filt) y (.at (entry ty)),
                 ntr := if y + 1 < k.sbh then nextRow k s false (y + 1) else s.ntr, error := tilesError k s false }
      else s
    else if ty ≠ .stage .cdef ∧ db ≤ s.dbp then
      { s with filt := upd s.filt y (.at (entry ty)), error := s.error || decide (s.dbp = TILE_ERROR) }
    else s
  | .at pc => (filtRun k s y pc).getD s
  | .subbed n => { s with filt := upd s.filt y .gone, log := announce k s n }
  | _ => s

theorem filtMove_kept {P : St → Prop} (hP : Kept k P) {s : St} {y : Nat} (hl : y < k.sbh) (h : P s) : P (filtMove k s y) := by
  have go : ∀ {s'}, FiltStep k s y s' → P s' := fun h' => hP _ _ h (.filt hl h')
  unfold filtMove
  split
  · rename_i hq
    split
    · rename_i hr
      split
      · rename_i ht; exact go (.find hq hr ht)
      · exact h
    · rename_i hr
      have hr := Classical.not_not.1 hr
      subst hr
      split
      · rename_i hd; exact go (.findRows hq hd.1 hd.2)
      · exact h
  · rename_i pc hq
    cases hr : filtRun k s y pc with
    | none => exact h
    | some s' => exact go (.run hq hr)
  · rename_i hq; exact go (.exit hq)
  · exact h

def entMove (k : Cfg) (s : St) (y : Nat) : St :=
  match s.ent y with
  | .queued =>
    if y ≤ s.entp ∧ tilesDone k s true (y + 1) then
      { s with ent := upd (if y + 1 < k.sbh then upd s.ent (y + 1) .queued else s.ent) y .load,
               ntr := if y + 1 < k.sbh then nextRow k s true (y + 1) else s.ntr,
               error := tilesError k s true || decide (s.entp = TILE_ERROR) }
    else s
  | .load => { s with ent := upd s.ent y (.pub s.error) }
  | .pub e => { s with ent := upd s.ent y (.ent e), pub0 := published k (y + 1) e }
  | .ent e => { s with ent := upd s.ent y .done, entp := progress y e }
  | .done => { s with ent := upd s.ent y .sub, done1 := s.done1 || decide (y + 1 = k.sbh) }
  | .sub => { s with ent := upd s.ent y (.subbed (s.counter - 1)), counter := s.counter - 1 }
  | .subbed n => { s with ent := upd s.ent y .gone, log := announce k s n }
  | _ => s

theorem entMove_kept {P : St → Prop} (hP : Kept k P) {s : St} {y : Nat} (hl : y < k.sbh) (h : P s) : P (entMove k s y) := by
  have go : ∀ {s'}, EntStep k s y s' → P s' := fun h' => hP _ _ h (.ent hl h')
  unfold entMove
  split
  · rename_i hq
    split
    · rename_i ht; exact go (.find hq ht.1 ht.2)
    · exact h
  · rename_i hq; exact go (.load hq)
  · rename_i hq; exact go (.pub hq)
  · rename_i hq; exact go (.ent hq)
  · rename_i hq; exact go (.done hq)
  · rename_i hq; exact go (.sub hq)
  · rename_i hq; exact go (.exit hq)
  · exact h

def moves (f : St → Nat → St) : Nat → St → St
  | 0, s => s
  | n + 1, s => f (moves f n s) n

theorem moves_kept {P : St → Prop} {f : St → Nat → St} {n : Nat} {s : St} (hf : ∀ s i, i < n → P s → P (f s i)) (h : P s) : P (moves f n s) := by
  induction n with
  | zero => exact h
  | succ n ih => exact hf _ n (by omega) (ih fun s i hi => hf s i (by omega))

def sweep (k : Cfg) (s : St) : St :=
  moves (entMove k) k.sbh (moves (filtMove k) k.sbh (moves (fun s => tileMove k s false) k.tiles (moves (fun s => tileMove k s true) k.tiles s)))

def sweeps (k : Cfg) : Nat → St
  | 0 => create2 k (create1 k (.init k))
  | n + 1 => sweep k (sweeps k n)

theorem sweeps_kept {P : St → Prop} (hP : Kept k P) (h0 : P (.init k)) (h2 : k.twoPass = true) (n : Nat) : P (sweeps k n) := by
  induction n with
  | zero => exact hP _ _ (hP _ _ h0 (.create1 h2 rfl)) (.create2 h2 rfl)
  | succ n ih =>
    exact moves_kept (fun s i hi h => entMove_kept hP hi h) (moves_kept (fun s i hi h => filtMove_kept hP hi h)
      (moves_kept (fun s i hi h => tileMove_kept hP hi h) (moves_kept (fun s i hi h => tileMove_kept hP hi h) ih)))

theorem sweeps_reach (h2 : k.twoPass = true) (n : Nat) : Reach k (sweeps k n) :=
  sweeps_kept (fun _ _ h h' => .step h h') .init h2 n

def demoCfg : Cfg where
  cols := 2
  rows := 2
  start := fun r => if r = 0 then 0 else if r = 1 then 2 else 3
  sbh := 3
  sbsz := 64
  twoPass := true
  deblock := true
  cdef := true
  resize := false
  lr := false

theorem demoOk : demoCfg.Ok where
  cols := by decide
  rows := by decide
  zero := rfl
  mono := by decide
  end_ := rfl
  size := by decide
  limit := by decide

/-- The frame is announced without error after everything: 12 rows of tiles and 9 filtered rows, each with start and end. -/
example : Reach demoCfg (sweeps demoCfg 40) ∧ (sweeps demoCfg 40).log.head? = some (.exit false) ∧ (sweeps demoCfg 40).log.length = 43 :=
  ⟨sweeps_reach rfl 40, by decide +kernel, by decide +kernel⟩

/-- In between, CDEF of the first row began before the second row was deblocked. -/
example : ∃ later earlier, (sweeps demoCfg 40).log = later ++ .start (.filt .cdef 0) :: earlier ∧ .start (.filt .rows 1) ∈ later ∧
    Needs demoCfg (.filt .cdef 0) (.filt .rows 0) ∧ demoCfg.Has (.filt .rows 0) :=
  ⟨(sweeps demoCfg 40).log.take 10, (sweeps demoCfg 40).log.drop 11, by decide +kernel, by decide +kernel, .stage 0 (by decide), by decide, Or.inl rfl⟩

/-- There are states where nothing can happen. -/
example : ∃ s, Reach demoCfg s ∧ Stuck demoCfg (fun _ _ _ => True) (fun _ _ _ => False) s := by
  obtain ⟨n, s', h1, h2⟩ := run_stuck demoOk (fun _ _ _ => True) (fun _ _ _ => False) (.init : Reach demoCfg _)
  exact ⟨s', h1.reach .init, h2⟩

end Dav1d.Sched
