import Verif.Thread.SchedLog
/-!
# All invariants together, and the end of a frame
-/
namespace Dav1d.Sched
variable {k : Cfg}

structure SInv (k : Cfg) (s : St) : Prop where
  tile : TInv k s
  front : FrontInv k s
  st : StInv k s
  read : ReadInv k s
  db : DbInv k s
  lpf : LpfInv k s
  nofilt : s.phase ≠ 2 → NoFilt s
  bit : BitInv k s
  ent : EntInv k s
  count : CountInv k s
  exit : ExitInv k s
  log : LogInv k s
  ord : Ordered k s.log
  phase : s.phase ≤ 2 ∧ (s.phase = 1 → k.twoPass = true)

section ok
variable (hk : k.Ok)
include hk

theorem SInv.init : SInv k (.init k) where
  tile := TInv.init hk
  front := ⟨fun _ _ => rfl, fun h => by cases h⟩
  st := fun _ => trivial
  read := fun y _ h => by simp [St.init, pos] at h
  db := fun _ => ⟨Or.inr ⟨Nat.zero_le _, fun y _ => by simp [St.init, pos], fun y _ h => by simp [St.init, pos] at h⟩, fun y h => by simp [St.init] at h⟩
  lpf := fun _ _ => ⟨fun y _ => by simp [St.init, pos], fun y _ h => by simp [St.init, pos] at h⟩
  nofilt := fun _ => ⟨rfl, rfl⟩
  bit := BitInv.init hk
  ent := EntInv.init hk
  count := CountInv.init
  exit := ExitInv.init hk
  log := LogInv.init
  ord := trivial
  phase := ⟨by simp [St.init], fun h => by simp [St.init] at h⟩

theorem step_inv {s s' : St} {rd bad} (hi : SInv k s) (h : Step k rd bad s s') : SInv k s' where
  tile := step_tinv hk hi.tile h
  front := step_front hk hi.front h
  st := step_st hi.front hi.st h
  read := step_read hk hi.tile hi.front hi.read h
  db := step_db hk hi.st hi.front hi.db h
  lpf := step_lpf hi.st hi.front hi.lpf h
  nofilt := step_nofilt hi.front hi.nofilt h
  bit := step_bit hk hi.front hi.nofilt hi.bit h
  ent := step_ent hk hi.tile hi.ent h
  count := (step_kind hk hi.tile hi.front hi.ent h).count hi.count
  exit := (step_kind hk hi.tile hi.front hi.ent h).exitInv hk hi.bit hi.ent hi.count hi.exit
  log := step_log hk hi.tile hi.st hi.front hi.log h
  ord := step_ordered hk hi.tile hi.st hi.read hi.db hi.lpf hi.log hi.ord h
  phase := by
    cases h with
    | create0 => exact ⟨Nat.le_refl _, fun h => by cases h⟩
    | create1 h2 => exact ⟨by simp [create1], fun _ => h2⟩
    | create2 => exact ⟨Nat.le_refl _, fun h => by cases h⟩
    | refError => exact hi.phase
    | tile _ h => rw [(tileStep_same h).1]; exact hi.phase
    | filt _ h => rw [(filtStep_same h).1]; exact hi.phase
    | ent _ h => rw [(entStep_same h).1]; exact hi.phase

theorem reach_inv {s : St} (h : Reach k s) : SInv k s := by
  induction h with
  | init => exact SInv.init hk
  | step _ h ih => exact step_inv hk ih h

/-! ## Every execution ends -/

omit hk in
/-- What a task has left to do. -/
def mt (k : Cfg) (i : Nat) : TileSt → Nat
  | .absent => 10 * (k.last i - k.first i) + 6
  | .queued y => 10 * (k.last i - y) + 5
  | .taken y => 10 * (k.last i - y) + 4
  | .run y => 10 * (k.last i - y) + 3
  | .ran y _ => 10 * (k.last i - y) + 2
  | .more y _ => 10 * (k.last i - y) + 1
  | .next y _ _ => 10 * (k.last i - y)
  | .last _ => 3
  | .stored => 2
  | .subbed _ => 1
  | .gone => 0

def mpc (k : Cfg) : Pc → Nat
  | .colsChk => 2 * (30 - 3) + k.progSz + 2
  | .rowsChk => 2 * (30 - 7) + k.progSz + 2
  | .scan i => 28 + (k.progSz - i)
  | .load _ => 26
  | .store _ _ => 24
  | .unlock _ => 22
  | .done _ => 20
  | .sub => 18
  | pc => 2 * (30 - pc.pos) + k.progSz + 1

def mf (k : Cfg) : FiltSt → Nat
  | .absent => 63 + k.progSz
  | .queued ty recon db => 2 * (30 - pos (.queued ty recon db)) + k.progSz + 1
  | .at pc => mpc k pc
  | .subbed _ => 1
  | .gone => 0

def me : EntSt → Nat
  | .absent => 8 | .queued => 7 | .load => 6 | .pub _ => 5 | .ent _ => 4 | .done => 3 | .sub => 2 | .subbed _ => 1 | .gone => 0

def measure (k : Cfg) (s : St) : Nat :=
  agg k (mt k) (fun _ => mf k) (fun _ => me) s + (2 - s.phase) + (if s.error then 0 else 1)

omit hk in
theorem mpc_le (pc : Pc) : mpc k pc ≤ 2 * (30 - pc.pos) + k.progSz + 2 ∧ 18 ≤ mpc k pc := by
  cases pc with
  | st g => cases g <;> simp only [mpc, Pc.pos] <;> omega
  | run g => cases g <;> simp only [mpc, Pc.pos] <;> omega
  | _ => simp only [mpc, Pc.pos]; omega

omit hk in
theorem err_le {a b : Bool} (h : a = true → b = true) : (if b then 0 else 1) ≤ (if a then 0 else 1 : Nat) := by
  cases a <;> cases b <;> simp at h ⊢

theorem tileStep_measure {s s' : St} {rd p i} (hl : i < k.tiles) (hi : SInv k s) (h : TileStep k rd s p i s') : measure k s' < measure k s := by
  have hp2 : p = true → k.twoPass = true := by
    intro hp
    subst hp
    have hna : s.tile true i ≠ .absent := by cases h <;> simp_all
    cases h2 : k.twoPass
    · exact absurd ((hi.tile true i hl).abs.2 (Or.inr h2)) hna
    · rfl
  have ho := (hi.tile p i hl).rows
  have hs := tileStep_same h
  have herr := err_le hs.2.2.2.2.2.2.2.2.2.2.2.2.2
  have key : ∀ {v : TileSt}, s'.tile = upd2 s.tile p i v → mt k i v < mt k i (s.tile p i) → measure k s' < measure k s := by
    intro v a b
    have := agg_tile (wt := mt k) (wf := fun _ => mf k) (we := fun _ => me) hl hp2 a hs.2.1 hs.2.2.2.1
    unfold measure
    rw [hs.1]
    omega
  cases h with
  | find hq => rw [hq] at ho; exact key rfl (by rw [hq]; simp only [mt, rowsOk] at *; omega)
  | skip hq => rw [hq] at ho; exact key rfl (by rw [hq]; simp only [mt, rowsOk] at *; omega)
  | start hq => rw [hq] at ho; exact key rfl (by rw [hq]; simp only [mt, rowsOk] at *; omega)
  | fin e hq => rw [hq] at ho; exact key rfl (by rw [hq]; simp only [mt, rowsOk] at *; omega)
  | or hq =>
    rw [hq] at ho
    refine key rfl ?_
    rw [hq]
    split <;> simp only [mt, rowsOk] at * <;> omega
  | again hq => rw [hq] at ho; exact key rfl (by rw [hq]; simp only [mt, rowsOk] at *; omega)
  | wait hq => rw [hq] at ho; exact key rfl (by rw [hq]; simp only [mt, rowsOk] at *; omega)
  | next hq =>
    rw [hq] at ho
    refine key rfl ?_
    rw [hq]
    split <;> simp only [mt, rowsOk] at * <;> omega
  | last hq => exact key rfl (by rw [hq]; simp only [mt]; omega)
  | sub hq => exact key rfl (by rw [hq]; simp only [mt]; omega)
  | exit hq => exact key rfl (by rw [hq]; simp only [mt]; omega)

theorem filtStep_measure {s s' : St} {y} (hl : y < k.sbh) (hi : SInv k s) (h : FiltStep k s y s') : measure k s' < measure k s := by
  have hs := filtStep_same h
  have herr := err_le hs.2.2.2.1
  have hph := filtStep_phase hi.front h
  obtain ⟨f, hf⟩ := hi.front.2 hph
  have key : ∀ {v : FiltSt}, s'.filt = upd s.filt y v → mf k v < mf k (s.filt y) → measure k s' < measure k s := by
    intro v a b
    have := agg_filt (wt := mt k) (wf := fun _ => mf k) (we := fun _ => me) hl hs.2.1 a hs.2.2.2.2.1
    unfold measure
    rw [hs.1]
    omega
  cases h with
  | @find ty recon db hq hr ht =>
    obtain ⟨rfl, h2, rfl, rfl, rfl⟩ := filt_pos_of_queued hf hq hr
    have hent : mf k (.at (entry (firstTy k))) < mf k (s.filt y) := by
      rw [hq]
      have h1 := (mpc_le (k := k) (entry (firstTy k))).1
      have h3 := Pc.pos_pos (entry (firstTy k))
      simp only [mf, pos]
      simp
      omega
    by_cases h1 : y + 1 < k.sbh
    · have habs : s.filt (y + 1) = .absent := by
        rcases hf.above (y + 1) (by omega) with h | h
        · omega
        · exact h
      have e1 := agg_filt (wt := mt k) (wf := fun _ => mf k) (we := fun _ => me) (s := s)
        (s' := { s with filt := upd s.filt (y + 1) (.queued (firstTy k) (y + 2) 0) }) h1 rfl rfl rfl
      have e2 := agg_filt (wt := mt k) (wf := fun _ => mf k) (we := fun _ => me) (s := { s with filt := upd s.filt (y + 1) (.queued (firstTy k) (y + 2) 0) })
        (s' := { s with filt := upd (if y + 1 < k.sbh then upd s.filt (y + 1) (.queued (firstTy k) (y + 2) 0) else s.filt) y (.at (entry (firstTy k))), ntr := if y + 1 < k.sbh then nextRow k s false (y + 1) else s.ntr, error := tilesError k s false })
        (y := y) (v := .at (entry (firstTy k))) hl rfl (by simp [h1]) rfl
      dsimp only at e2
      rw [upd_ne _ _ (by omega)] at e2
      rw [habs] at e1
      have h5 : mf k (.queued (firstTy k) (y + 2) 0) < mf k .absent := by
        simp only [mf, pos]; simp; omega
      unfold measure
      dsimp only at herr ⊢
      omega
    · exact key (v := .at (entry (firstTy k))) (by simp [h1]) hent
  | findCdef hq => exact key rfl (by rw [hq]; simp [mf, entry, mpc, pos, Pc.pos])
  | @findRows ty db hq hne hdb =>
    have h1 := hi.st y
    rw [hq] at h1
    rcases h1 with h1 | ⟨rfl, _, h1⟩ | ⟨rfl, _⟩
    · cases h1 rfl
    · exact key rfl (by rw [hq]; simp [mf, entry, mpc, pos, Pc.pos])
    · cases hne rfl
  | @run pc s' hq h2 =>
    cases pc with
    | st g =>
      simp only [filtRun] at h2
      split at h2 <;> cases h2
      · exact key rfl (by rw [hq]; cases g <;> simp [mf, mpc, Pc.pos] <;> omega)
      · refine key rfl ?_
        rw [hq]
        cases g <;> cases h1 : k.deblock <;> cases h2 : k.cdef <;> cases h3 : k.lr <;> simp [after, h1, h2, h3, mf, mpc, Pc.pos] <;> omega
    | run g =>
      cases h2
      refine key rfl ?_
      rw [hq]
      cases g <;> cases h1 : k.deblock <;> cases h2 : k.cdef <;> cases h3 : k.lr <;> simp [after, h1, h2, h3, mf, mpc, Pc.pos] <;> omega
    | lock =>
      simp only [filtRun] at h2
      split at h2 <;> cases h2
      refine key rfl ?_
      rw [hq]
      by_cases hp : FRAME_ERROR ≤ (if k.twoPass then s.pub1 else 0)
      · rw [if_pos hp]; simp only [mf, mpc, Pc.pos]; omega
      · rw [if_neg hp]; generalize (if k.twoPass then s.pub1 else 0) / (32 * k.sbsz) = q; simp only [mf, mpc, Pc.pos]; omega
    | scan i =>
      have hc := hi.bit.cs y
      rw [hq] at hc
      have hc := hc.1
      simp only [filtRun] at h2
      split at h2
      · cases h2; exact key rfl (by rw [hq]; simp only [mf, mpc]; omega)
      · split at h2 <;> cases h2 <;> exact key rfl (by rw [hq]; simp only [mf, mpc]; omega)
    | colsChk =>
      simp only [filtRun] at h2
      split at h2 <;> cases h2 <;> exact key rfl (by rw [hq]; simp [mf, mpc, pos, Pc.pos] <;> omega)
    | rowsChk =>
      simp only [filtRun] at h2
      split at h2 <;> cases h2 <;> exact key rfl (by rw [hq]; simp [mf, mpc, pos, Pc.pos] <;> omega)
    | rowsLoad => cases h2; exact key rfl (by rw [hq]; simp only [mf, mpc, Pc.pos]; omega)
    | rowsStore => cases h2; exact key rfl (by rw [hq]; simp only [mf, mpc, Pc.pos]; omega)
    | rowsOr => cases h2; exact key rfl (by rw [hq]; simp only [mf, mpc, Pc.pos]; omega)
    | bit => cases h2; exact key rfl (by rw [hq]; simp only [mf, mpc, Pc.pos]; omega)
    | _ => cases h2; exact key rfl (by rw [hq]; simp only [mf, mpc]; omega)
  | @exit n hq => exact key rfl (by rw [hq]; simp only [mf]; omega)

theorem entStep_measure {s s' : St} {y} (hl : y < k.sbh) (hi : SInv k s) (h : EntStep k s y s') : measure k s' < measure k s := by
  have hs := entStep_same h
  have herr := err_le hs.2.2.2.1
  obtain ⟨hph, htp⟩ := entStep_two hi.ent h
  obtain ⟨f, hf⟩ := hi.ent.front hph htp
  have key : ∀ {v : EntSt}, s'.ent = upd s.ent y v → me v < me (s.ent y) → measure k s' < measure k s := by
    intro v a b
    have := agg_ent (wt := mt k) (wf := fun _ => mf k) (we := fun _ => me) hl htp hs.2.1 hs.2.2.2.2.1 a
    unfold measure
    rw [hs.1]
    omega
  cases h with
  | find hq hle ht =>
    have hy : y = f := by
      have : ¬ y < f := fun h => by have := hf.below y h; rw [hq] at this; simp [epos] at this
      rcases hf.above y (by omega) with h1 | h1
      · exact h1.1
      · rw [hq] at h1; cases h1
    subst hy
    by_cases h1 : y + 1 < k.sbh
    · have habs : s.ent (y + 1) = .absent := by
        rcases hf.above (y + 1) (by omega) with h | h
        · omega
        · exact h
      have e1 := agg_ent (wt := mt k) (wf := fun _ => mf k) (we := fun _ => me) (s := s)
        (s' := { s with ent := upd s.ent (y + 1) .queued }) h1 htp rfl rfl rfl
      have e2 := agg_ent (wt := mt k) (wf := fun _ => mf k) (we := fun _ => me) (s := { s with ent := upd s.ent (y + 1) .queued })
        (s' := { s with ent := upd (if y + 1 < k.sbh then upd s.ent (y + 1) .queued else s.ent) y .load, ntr := if y + 1 < k.sbh then nextRow k s true (y + 1) else s.ntr, error := tilesError k s true || decide (s.entp = TILE_ERROR) })
        (y := y) (v := .load) hl htp rfl rfl (by simp [h1])
      dsimp only at e2
      rw [upd_ne _ _ (by omega), hq] at e2
      rw [habs] at e1
      simp only [me] at e1 e2
      unfold measure
      dsimp only at herr ⊢
      omega
    · exact key (v := .load) (by simp [h1]) (by rw [hq]; decide)
  | load hq => exact key rfl (by rw [hq]; simp [me])
  | pub hq => exact key rfl (by rw [hq]; simp [me])
  | ent hq => exact key rfl (by rw [hq]; simp [me])
  | done hq => exact key rfl (by rw [hq]; simp [me])
  | sub hq => exact key rfl (by rw [hq]; simp [me])
  | exit hq => exact key rfl (by rw [hq]; simp [me])

theorem step_measure {s s' : St} {rd bad} (hi : SInv k s) (h : Step k rd bad s s') : measure k s' < measure k s := by
  have hcr : s.phase ≠ 2 → measure k (create2 k s) < measure k s := by
    intro hp
    have hph := hi.phase.1
    have hta : ∀ i < k.tiles, s.tile false i = .absent := fun i hi' => (hi.tile false i hi').abs.2 (by simpa [notYet] using hp)
    have a1 : sum (fun i => mt k i ((create2 k s).tile false i)) k.tiles ≤ sum (fun i => mt k i (s.tile false i)) k.tiles :=
      sum_le fun i hi' => by simp only [create2, hta i hi']; simp [hi', mt]
    have a2 : sum (fun y => mf k ((create2 k s).filt y)) k.sbh ≤ sum (fun y => mf k (s.filt y)) k.sbh := by
      refine sum_le fun y hy => ?_
      simp only [create2, hi.front.absent hp]
      unfold upd
      split
      · simp [mf, pos]; omega
      · exact Nat.le_refl _
    have a3 : (fun i => mt k i ((create2 k s).tile true i)) = fun i => mt k i (s.tile true i) := by
      funext i; simp [create2]
    have a4 : (fun y => me ((create2 k s).ent y)) = fun y => me (s.ent y) := rfl
    have a5 : (create2 k s).phase = 2 := rfl
    have a6 : (create2 k s).error = s.error := rfl
    unfold measure agg
    dsimp only
    rw [a3, a4, a5, a6]
    omega
  cases h with
  | create0 h2 hp => exact hcr (by omega)
  | create1 h2 hp =>
    have hta : ∀ i < k.tiles, s.tile true i = .absent := fun i hi' => (hi.tile true i hi').abs.2 (by simp [notYet, hp])
    have a1 : sum (fun i => mt k i ((create1 k s).tile true i)) k.tiles ≤ sum (fun i => mt k i (s.tile true i)) k.tiles :=
      sum_le fun i hi' => by simp only [create1, hta i hi']; simp [hi', mt]
    have a2 : sum (fun y => me ((create1 k s).ent y)) k.sbh ≤ sum (fun y => me (s.ent y)) k.sbh := by
      refine sum_le fun y hy => ?_
      simp only [create1]
      unfold upd
      split
      · rw [(hi.ent.absent (Or.inl hp)).1]; simp [me]
      · exact Nat.le_refl _
    have a3 : (fun i => mt k i ((create1 k s).tile false i)) = fun i => mt k i (s.tile false i) := by
      funext i; simp [create1]
    have a4 : (fun y => mf k ((create1 k s).filt y)) = fun y => mf k (s.filt y) := rfl
    have a5 : (create1 k s).phase = 1 := rfl
    have a6 : (create1 k s).error = s.error := rfl
    unfold measure agg
    dsimp only
    rw [a3, a4, a5, a6, h2]
    simp only [if_true]
    omega
  | create2 h2 hp => exact hcr (by omega)
  | refError hb h2 hl hq he =>
    unfold measure
    rw [agg_same (s' := { s with error := true }) (s := s) rfl rfl rfl]
    simp [he]
  | tile hl h => exact tileStep_measure hk hl hi h
  | filt hl h => exact filtStep_measure hk hl hi h
  | ent hl h => exact entStep_measure hk hl hi h

/-! ## An execution does not get stuck -/

/-- All tasks are over when nothing can happen. -/
theorem stuck_gone {s : St} {rd bad} (hr : ∀ p i y, rd p i y ∨ bad p i y) (hi : SInv k s) (h : Stuck k rd bad s) : ∀ w, w.ok k → lv s w = 0 ∧ sub s w = none := by
  have hph : s.phase = 2 := by
    have h1 := hi.phase
    by_cases h2 : s.phase = 2
    · exact h2
    · exfalso
      cases h3 : k.twoPass
      · have : s.phase = 0 := by
          have : s.phase ≠ 1 := fun h => by rw [h1.2 h] at h3; cases h3
          omega
        exact h _ (.create0 h3 this)
      · by_cases h4 : s.phase = 0
        · exact h _ (.create1 h3 h4)
        · exact h _ (.create2 h3 (by omega))
  -- a tile task is either gone or waits in the queue
  have tst : ∀ p i, i < k.tiles → (p = true → k.twoPass = true) → s.tile p i = .gone ∨ ∃ y, s.tile p i = .queued y := by
    intro p i hl hp
    cases hq : s.tile p i with
    | absent =>
      exfalso
      have := (hi.tile p i hl).abs.1 hq
      cases p
      · simp [notYet, hph] at this
      · simp [notYet, hph, hp rfl] at this
    | queued y => exact Or.inr ⟨y, rfl⟩
    | taken y =>
      exfalso
      cases he : s.error
      · exact h _ (.tile hl (.start hq he))
      · exact h _ (.tile hl (.skip hq he))
    | run y => exact absurd (.tile hl (.fin false hq)) (h _)
    | ran y e => exact absurd (.tile hl (.or hq)) (h _)
    | more y e => exact absurd (.tile hl (.wait hq)) (h _)
    | next y e n => exact absurd (.tile hl (.next hq)) (h _)
    | last e => exact absurd (.tile hl (.last hq)) (h _)
    | stored => exact absurd (.tile hl (.sub hq)) (h _)
    | subbed n => exact absurd (.tile hl (.exit hq)) (h _)
    | gone => exact Or.inl rfl
  have check : ∀ p i y, i < k.tiles → s.tile p i = .queued y → y ≤ s.tprog p i → (k.twoPass = true → p = false → y < s.tprog true i) → ∃ e, checkTile k rd s p i y e := by
    intro p i y hl hq h1 h2
    refine ⟨_, h1, fun h => h2 h.2.1 h.2.2, fun h4 => ?_, rfl⟩
    rcases hr p i y with h3 | h3
    · exact h3
    · exfalso
      have he : s.error = false := by
        have := h4.1
        simp only [Bool.or_eq_false_iff] at this
        exact this.1.1
      exact h _ (.refError h3 h4.2 hl (Or.inl hq) he)
  have tle : ∀ p i y, i < k.tiles → s.tile p i = .queued y → y ≤ s.tprog p i ∧ y < k.last i := by
    intro p i y hl hq
    have ho := hi.tile p i hl
    rw [hq] at ho
    have hr := ho.rows
    have := last_le hk hl
    have := sbh_lt hk
    simp only [rowsOk] at hr
    refine ⟨?_, hr.2⟩
    rcases ho.val with h1 | h1
    · simp only [tileVal] at h1; omega
    · omega
  have tend : ∀ p i, i < k.tiles → s.tile p i = .gone → k.last i ≤ s.tprog p i := by
    intro p i hl hq
    have ho := hi.tile p i hl
    rw [hq] at ho
    have := last_le hk hl
    have := sbh_lt hk
    rcases ho.val with h1 | h1
    · simp only [tileVal] at h1; omega
    · omega
  have tg : ∀ p i, i < k.tiles → (p = true → k.twoPass = true) → s.tile p i = .gone := by
    have h1 : ∀ i, i < k.tiles → k.twoPass = true → s.tile true i = .gone := by
      intro i hl h2
      rcases tst true i hl (fun _ => h2) with h3 | ⟨y, h3⟩
      · exact h3
      · exfalso
        obtain ⟨e, he⟩ := check true i y hl h3 (tle true i y hl h3).1 (fun _ h => by cases h)
        exact h _ (.tile hl (.find h3 he))
    intro p i hl hp
    cases p
    · rcases tst false i hl hp with h3 | ⟨y, h3⟩
      · exact h3
      · exfalso
        obtain ⟨e, he⟩ := check false i y hl h3 (tle false i y hl h3).1 (fun h2 _ => by
          have := tend true i hl (h1 i hl h2)
          have := (tle false i y hl h3).2
          omega)
        exact h _ (.tile hl (.find h3 he))
    · exact h1 i hl (hp rfl)
  have rowDone : ∀ p f, (p = true → k.twoPass = true) → s.ntr p < k.rows → f < k.start (s.ntr p + 1) → tilesDone k s p (f + 1) := by
    intro p f hp h1 h2 c hc
    have hlt : k.cols * s.ntr p + c < k.tiles := by
      have h3 : k.cols * (s.ntr p + 1) ≤ k.cols * k.rows := Nat.mul_le_mul_left _ h1
      rw [Nat.mul_add, Nat.mul_one] at h3
      unfold Cfg.tiles
      omega
    have := tend p _ hlt (tg p _ hlt hp)
    have hdiv : (k.cols * s.ntr p + c) / k.cols = s.ntr p := by
      rw [Nat.mul_add_div hk.cols, Nat.div_eq_of_lt hc, Nat.add_zero]
    unfold Cfg.last at this
    rw [hdiv] at this
    omega
  -- entropy progress
  have est : ∀ y < k.sbh, s.ent y = .gone ∨ s.ent y = .queued ∨ s.ent y = .absent := by
    intro y hy
    cases hq : s.ent y with
    | absent => exact Or.inr (Or.inr rfl)
    | queued => exact Or.inr (Or.inl rfl)
    | gone => exact Or.inl rfl
    | load => exact absurd (.ent hy (.load hq)) (h _)
    | pub e => exact absurd (.ent hy (.pub hq)) (h _)
    | ent e => exact absurd (.ent hy (.ent hq)) (h _)
    | done => exact absurd (.ent hy (.done hq)) (h _)
    | sub => exact absurd (.ent hy (.sub hq)) (h _)
    | subbed n => exact absurd (.ent hy (.exit hq)) (h _)
  have eg : k.twoPass = true → ∀ y < k.sbh, s.ent y = .gone := by
    intro h2
    obtain ⟨f, hf⟩ := hi.ent.front (by omega) h2
    have hb : ∀ y < f, s.ent y = .gone := by
      intro y hy
      have h1 := hf.below y hy
      rcases est y (by have := hf.le; omega) with h3 | h3 | h3
      · exact h3
      · rw [h3] at h1; simp [epos] at h1
      · rw [h3] at h1; simp [epos] at h1
    by_cases hlt : f < k.sbh
    · exfalso
      obtain ⟨h3, h4, h5, h6⟩ := hf.here hlt
      refine h _ (.ent hlt (.find h3 ?_ (rowDone true f (fun _ => h2) h4 h6)))
      rcases hi.ent.prog.val with h7 | ⟨h7, h8, h9⟩
      · have := sbh_lt hk; omega
      · rcases Nat.eq_zero_or_pos f with h10 | h10
        · omega
        · have := (h8 (f - 1) (by omega)).1 (by rw [hb _ (by omega)]; simp [epos])
          omega
    · intro y hy
      exact hb y (by omega)
  -- filters
  have nolock : s.flock = false := by
    cases hfl : s.flock
    · rfl
    · exfalso
      obtain ⟨y, hy, h1, h2⟩ := hi.bit.lock hfl
      cases hq : s.filt y with
      | absent => rw [hq] at h1; simp [pos] at h1
      | queued ty r d =>
        rw [hq] at h1
        simp only [pos] at h1
        split at h1
        · omega
        · split at h1 <;> omega
      | subbed n => rw [hq] at h2; simp [pos] at h2
      | gone => rw [hq] at h2; simp [pos] at h2
      | «at» pc =>
        rw [hq] at h1 h2
        cases pc with
        | scan i =>
          cases hz : firstZero s i with
          | some j =>
            have : filtRun k s y (.scan i) = some { s with filt := upd s.filt y (.at (.load (32 * i + j))) } := by simp only [filtRun, hz]
            exact h _ (.filt hy (.run hq this))
          | none =>
            by_cases hlt : i + 1 < k.progSz
            · have : filtRun k s y (.scan i) = some { s with filt := upd s.filt y (.at (.scan (i + 1))) } := by simp only [filtRun, hz, if_pos hlt]
              exact h _ (.filt hy (.run hq this))
            · have : filtRun k s y (.scan i) = some { s with filt := upd s.filt y (.at (.load (32 * (i + 1)))) } := by simp only [filtRun, hz, if_neg hlt]
              exact h _ (.filt hy (.run hq this))
        | load n => exact h _ (.filt hy (.run hq rfl))
        | store n e => exact h _ (.filt hy (.run hq rfl))
        | unlock n => exact h _ (.filt hy (.run hq rfl))
        | st g => cases g <;> simp [pos, Pc.pos] at h1
        | run g => cases g <;> simp [pos, Pc.pos] at h1
        | _ => simp [pos, Pc.pos] at h1 h2
  have fst : ∀ y < k.sbh, s.filt y = .gone ∨ s.filt y = .absent ∨ ∃ ty r d, s.filt y = .queued ty r d := by
    intro y hy
    have go : ∀ pc, s.filt y = .at pc → filtRun k s y pc = none := by
      intro pc hq
      cases hr : filtRun k s y pc with
      | none => rfl
      | some s' => exact absurd (.filt hy (.run hq hr)) (h _)
    cases hq : s.filt y with
    | absent => exact Or.inr (Or.inl rfl)
    | gone => exact Or.inl rfl
    | queued ty r d => exact Or.inr (Or.inr ⟨ty, r, d, rfl⟩)
    | subbed n => exact absurd (.filt hy (.exit hq)) (h _)
    | «at» pc =>
      exfalso
      have := go pc hq
      cases pc with
      | st g => simp only [filtRun] at this; split at this <;> cases this
      | colsChk => simp only [filtRun] at this; split at this <;> cases this
      | rowsChk => simp only [filtRun] at this; split at this <;> cases this
      | lock => simp only [filtRun, nolock] at this; cases this
      | scan i =>
        simp only [filtRun] at this
        split at this
        · cases this
        · split at this <;> cases this
      | _ => cases this
  have fg : ∀ y < k.sbh, s.filt y = .gone := by
    obtain ⟨f, hf⟩ := hi.front.2 hph
    by_cases hlt : f < k.sbh
    · exfalso
      obtain ⟨h3, h4, h5, h6⟩ := hf.here hlt
      exact h _ (.filt hlt (.find h3 (by omega) (rowDone false f (fun h => by cases h) h4 h6)))
    · have hfe : f = k.sbh := by have := hf.le; omega
      intro y
      induction y using Nat.strongRecOn with
      | ind y ih =>
        intro hy
        have h1 := hf.below y (by omega)
        rcases fst y hy with h3 | h3 | ⟨ty, r, d, h3⟩
        · exact h3
        · rw [h3] at h1; simp [pos] at h1
        · exfalso
          have hr : r = 0 := by
            by_cases hr : r = 0
            · exact hr
            · rw [h3] at h1; simp [pos, hr] at h1
          subst hr
          have hst := hi.st y
          rw [h3] at hst
          rcases hst with h4 | ⟨rfl, rfl, hd⟩ | ⟨rfl, hd, hy0, hc⟩
          · exact h4 rfl
          · refine h _ (.filt hy (.findRows h3 (by simp) ?_))
            rcases (hi.db hd).val with h7 | ⟨h7, h8, h9⟩
            · have := sbh_lt hk; omega
            · rcases Nat.eq_zero_or_pos d with h10 | h10
              · omega
              · have := (h8 (d - 1) (by omega)).1 (by rw [ih _ (by omega) (by omega)]; simp [pos])
                omega
          · refine h _ (.filt hy (.findCdef h3 ?_))
            refine ((hi.lpf hd hc).bits (y - 1) (by omega)).2 ?_
            rw [ih (y - 1) (by omega) (by omega)]; simp [pos]
  intro w hw
  cases w with
  | tile p i => simp only [lv, sub, tg p i hw.1 hw.2]; exact ⟨rfl, rfl⟩
  | filt y => simp only [lv, sub, fg y hw]; exact ⟨rfl, rfl⟩
  | ent y => simp only [lv, sub, eg hw.2 y hw.1]; exact ⟨rfl, rfl⟩

omit hk in
theorem sum_eq_zero {f : Nat → Nat} {n : Nat} (h : ∀ i < n, f i = 0) : sum f n = 0 := by
  induction n with
  | zero => rfl
  | succ n ih => rw [sum, ih (fun i hi => h i (by omega)), h n (by omega)]

omit hk in
theorem total_of_live {s : St} (h : ∀ w, w.ok k → lv s w = 0) : total k s = 0 := by
  unfold total agg
  dsimp only
  have h1 : sum (fun i => lt (s.tile false i)) k.tiles = 0 := sum_eq_zero fun i hi => h (.tile false i) ⟨hi, by simp⟩
  have h2 : sum (fun y => lf (s.filt y)) k.sbh = 0 := sum_eq_zero fun i hi => h (.filt i) hi
  rw [h1, h2]
  split
  · rename_i htp
    have h3 : sum (fun i => lt (s.tile true i)) k.tiles = 0 := sum_eq_zero fun i hi => h (.tile true i) ⟨hi, fun _ => htp⟩
    have h4 : sum (fun y => le (s.ent y)) k.sbh = 0 := sum_eq_zero fun i hi => h (.ent i) ⟨hi, htp⟩
    rw [h3, h4]
  · rfl

end ok
end Dav1d.Sched
