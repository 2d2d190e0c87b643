import Verif.Thread.SchedEnt
/-!
# The number of tasks left, and the announcement of the frame
-/
namespace Dav1d.Sched
variable {k : Cfg}

/-- `f 0 + … + f (n - 1)` -/
def sum (f : Nat → Nat) : Nat → Nat
  | 0 => 0
  | n + 1 => sum f n + f n

theorem sum_congr {f g : Nat → Nat} {n : Nat} (h : ∀ i < n, f i = g i) : sum f n = sum g n := by
  induction n with
  | zero => rfl
  | succ n ih => rw [sum, sum, ih (fun i hi => h i (by omega)), h n (by omega)]

theorem sum_le {f g : Nat → Nat} {n : Nat} (h : ∀ i < n, f i ≤ g i) : sum f n ≤ sum g n := by
  induction n with
  | zero => exact Nat.le_refl _
  | succ n ih => have := ih (fun i hi => h i (by omega)); have := h n (by omega); simp only [sum]; omega

theorem sum_one (n : Nat) : sum (fun _ => 1) n = n := by
  induction n with
  | zero => rfl
  | succ n ih => rw [sum, ih]

theorem sum_zero {f : Nat → Nat} {n : Nat} (h : sum f n = 0) : ∀ i < n, f i = 0 := by
  induction n with
  | zero => intro i hi; omega
  | succ n ih =>
    simp only [sum] at h
    intro i hi
    by_cases hin : i = n
    · subst hin; omega
    · exact ih (by omega) i (by omega)

theorem sum_upd {α : Type} (w : Nat → α → Nat) (g : Nat → α) {i n : Nat} (v : α) (h : i < n) :
    sum (fun j => w j (upd g i v j)) n + w i (g i) = sum (fun j => w j (g j)) n + w i v := by
  induction n with
  | zero => omega
  | succ n ih =>
    simp only [sum]
    by_cases hin : i = n
    · subst hin
      rw [upd_same, sum_congr (g := fun j => w j (g j)) (fun j hj => by rw [upd_ne _ _ (by omega)])]
      omega
    · rw [upd_ne _ _ (fun h => hin h.symm)]
      have := ih (by omega)
      omega

/-- A sum over the tasks of a frame. -/
def agg (k : Cfg) (wt : Nat → TileSt → Nat) (wf : Nat → FiltSt → Nat) (we : Nat → EntSt → Nat) (s : St) : Nat :=
  sum (fun i => wt i (s.tile false i)) k.tiles + sum (fun y => wf y (s.filt y)) k.sbh +
  if k.twoPass then sum (fun i => wt i (s.tile true i)) k.tiles + sum (fun y => we y (s.ent y)) k.sbh else 0

section agg
variable {wt : Nat → TileSt → Nat} {wf : Nat → FiltSt → Nat} {we : Nat → EntSt → Nat}

theorem agg_tile {s s' : St} {p : Bool} {i : Nat} {v : TileSt} (hl : i < k.tiles) (hp : p = true → k.twoPass = true)
    (ht : s'.tile = upd2 s.tile p i v) (hf : s'.filt = s.filt) (he : s'.ent = s.ent) :
    agg k wt wf we s' + wt i (s.tile p i) = agg k wt wf we s + wt i v := by
  unfold agg
  rw [ht, hf, he]
  have h1 : (fun j => wt j (upd2 s.tile p i v p j)) = fun j => wt j (upd (s.tile p) i v j) := by
    funext j; unfold upd upd2; simp
  have h2 : ∀ q, q ≠ p → (fun j => wt j (upd2 s.tile p i v q j)) = fun j => wt j (s.tile q j) := by
    intro q hq; funext j; rw [upd2_ne _ _ (fun h => hq h.1)]
  have h3 := sum_upd wt (s.tile p) v hl
  cases p
  · rw [h1, h2 true (by simp)]; omega
  · rw [h1, h2 false (by simp), hp rfl]; simp only [if_true]; omega

theorem agg_filt {s s' : St} {y : Nat} {v : FiltSt} (hl : y < k.sbh) (ht : s'.tile = s.tile) (hf : s'.filt = upd s.filt y v) (he : s'.ent = s.ent) :
    agg k wt wf we s' + wf y (s.filt y) = agg k wt wf we s + wf y v := by
  unfold agg
  rw [ht, hf, he]
  have h3 := sum_upd wf s.filt v hl
  omega

theorem agg_ent {s s' : St} {y : Nat} {v : EntSt} (hl : y < k.sbh) (h2 : k.twoPass = true) (ht : s'.tile = s.tile) (hf : s'.filt = s.filt)
    (he : s'.ent = upd s.ent y v) : agg k wt wf we s' + we y (s.ent y) = agg k wt wf we s + we y v := by
  unfold agg
  rw [ht, hf, he, h2]
  have h3 := sum_upd we s.ent v hl
  simp only [if_true]
  omega

theorem agg_same {s s' : St} (ht : s'.tile = s.tile) (hf : s'.filt = s.filt) (he : s'.ent = s.ent) : agg k wt wf we s' = agg k wt wf we s := by
  unfold agg; rw [ht, hf, he]

end agg

/-! ## Tasks -/

/-- A task. -/
inductive Who where
  | tile (p : Bool) (i : Nat)
  | filt (y : Nat)
  | ent (y : Nat)
  deriving DecidableEq

def Who.ok (k : Cfg) : Who → Prop
  | .tile p i => i < k.tiles ∧ (p = true → k.twoPass = true)
  | .filt y => y < k.sbh
  | .ent y => y < k.sbh ∧ k.twoPass = true

/-- 1 for a task that still counts. -/
def lt : TileSt → Nat
  | .subbed _ => 0 | .gone => 0 | _ => 1
def lf : FiltSt → Nat
  | .subbed _ => 0 | .gone => 0 | _ => 1
def le : EntSt → Nat
  | .subbed _ => 0 | .gone => 0 | _ => 1
def lv (s : St) : Who → Nat
  | .tile p i => lt (s.tile p i)
  | .filt y => lf (s.filt y)
  | .ent y => le (s.ent y)

/-- The value of the counter that a task has just got. -/
def tsub : TileSt → Option Int
  | .subbed n => some n | _ => none
def fsub : FiltSt → Option Int
  | .subbed n => some n | _ => none
def esub : EntSt → Option Int
  | .subbed n => some n | _ => none
def sub (s : St) : Who → Option Int
  | .tile p i => tsub (s.tile p i)
  | .filt y => fsub (s.filt y)
  | .ent y => esub (s.ent y)

/-- The number of tasks left. -/
def total (k : Cfg) (s : St) : Nat := agg k (fun _ => lt) (fun _ => lf) (fun _ => le) s

/-- The kinds of steps. -/
inductive Kind (k : Cfg) (s s' : St) : Prop
  /-- a task goes on -/
  | work (w : Who) (ok : w.ok k) (live : lv s w = 1) (sub : ∀ w', sub s' w' = sub s w') (tot : total k s' = total k s) (ctr : s'.counter = s.counter)
      (log : ∃ pre, s'.log = pre ++ s.log ∧ ∀ b, Ev.exit b ∉ pre)
  /-- a task decrements the counter -/
  | sub (w : Who) (ok : w.ok k) (live : lv s w = 1) (sub : ∀ w', sub s' w' = if w' = w then some (s.counter - 1) else sub s w')
      (tot : total k s' + 1 = total k s) (ctr : s'.counter = s.counter - 1) (log : s'.log = s.log)
  /-- a task ends -/
  | exit (w : Who) (n : Int) (ok : w.ok k) (old : sub s w = some n) (sub : ∀ w', sub s' w' = if w' = w then none else sub s w') (tot : total k s' = total k s)
      (ctr : s'.counter = s.counter) (log : s'.log = announce k s n) (err : s'.error = s.error)

theorem sub_tile {s s' : St} {p i v} (ht : s'.tile = upd2 s.tile p i v) (hf : s'.filt = s.filt) (he : s'.ent = s.ent) (w' : Who) :
    sub s' w' = if w' = .tile p i then tsub v else sub s w' := by
  cases w' with
  | tile q j =>
    simp only [sub, ht, Who.tile.injEq]
    unfold upd2
    split <;> rfl
  | filt y => simp [sub, hf]
  | ent y => simp [sub, he]

theorem sub_filt {s s' : St} {y v} (ht : s'.tile = s.tile) (hf : s'.filt = upd s.filt y v) (he : s'.ent = s.ent) (w' : Who) :
    sub s' w' = if w' = .filt y then fsub v else sub s w' := by
  cases w' with
  | tile q j => simp [sub, ht]
  | filt z =>
    simp only [sub, hf, Who.filt.injEq]
    unfold upd
    split <;> rfl
  | ent y => simp [sub, he]

theorem sub_ent {s s' : St} {y v} (ht : s'.tile = s.tile) (hf : s'.filt = s.filt) (he : s'.ent = upd s.ent y v) (w' : Who) :
    sub s' w' = if w' = .ent y then esub v else sub s w' := by
  cases w' with
  | tile q j => simp [sub, ht]
  | filt z => simp [sub, hf]
  | ent z =>
    simp only [sub, he, Who.ent.injEq]
    unfold upd
    split <;> rfl

theorem Kind.tileWork {s s' : St} {p i v} (hok : (Who.tile p i).ok k) (ho : lt (s.tile p i) = 1) (hv : lt v = 1) (ht : s'.tile = upd2 s.tile p i v)
    (hf : s'.filt = s.filt) (he : s'.ent = s.ent) (hc : s'.counter = s.counter) (hl : ∃ pre, s'.log = pre ++ s.log ∧ ∀ b, Ev.exit b ∉ pre) : Kind k s s' := by
  refine .work (.tile p i) hok ho (fun w' => ?_) ?_ hc hl
  · rw [sub_tile ht hf he]
    split
    · rename_i h
      subst h
      have h1 : tsub v = none := by cases v <;> simp [lt, tsub] at hv ⊢
      have h2 : tsub (s.tile p i) = none := by cases h : s.tile p i <;> rw [h] at ho <;> simp [lt, tsub] at ho ⊢
      rw [h1]; exact h2.symm
    · rfl
  · have := agg_tile (wt := fun _ => lt) (wf := fun _ => lf) (we := fun _ => le) hok.1 hok.2 ht hf he
    unfold total
    omega

theorem Kind.filtWork {s s' : St} {y v} (hok : (Who.filt y).ok k) (ho : lf (s.filt y) = 1) (hv : lf v = 1) (ht : s'.tile = s.tile)
    (hf : s'.filt = upd s.filt y v) (he : s'.ent = s.ent) (hc : s'.counter = s.counter) (hl : ∃ pre, s'.log = pre ++ s.log ∧ ∀ b, Ev.exit b ∉ pre) : Kind k s s' := by
  refine .work (.filt y) hok ho (fun w' => ?_) ?_ hc hl
  · rw [sub_filt ht hf he]
    split
    · rename_i h
      subst h
      have h1 : fsub v = none := by cases v <;> simp [lf, fsub] at hv ⊢
      have h2 : fsub (s.filt y) = none := by cases h : s.filt y <;> rw [h] at ho <;> simp [lf, fsub] at ho ⊢
      rw [h1]; exact h2.symm
    · rfl
  · have := agg_filt (wt := fun _ => lt) (wf := fun _ => lf) (we := fun _ => le) hok ht hf he
    unfold total
    omega

theorem Kind.entWork {s s' : St} {y v} (hok : (Who.ent y).ok k) (ho : le (s.ent y) = 1) (hv : le v = 1) (ht : s'.tile = s.tile) (hf : s'.filt = s.filt)
    (he : s'.ent = upd s.ent y v) (hc : s'.counter = s.counter) (hl : ∃ pre, s'.log = pre ++ s.log ∧ ∀ b, Ev.exit b ∉ pre) : Kind k s s' := by
  refine .work (.ent y) hok ho (fun w' => ?_) ?_ hc hl
  · rw [sub_ent ht hf he]
    split
    · rename_i h
      subst h
      have h1 : esub v = none := by cases v <;> simp [le, esub] at hv ⊢
      have h2 : esub (s.ent y) = none := by cases h : s.ent y <;> rw [h] at ho <;> simp [le, esub] at ho ⊢
      rw [h1]; exact h2.symm
    · rfl
  · have := agg_ent (wt := fun _ => lt) (wf := fun _ => lf) (we := fun _ => le) hok.1 hok.2 ht hf he
    unfold total
    omega

theorem noPre (s : St) : ∃ pre, s.log = pre ++ s.log ∧ ∀ b, Ev.exit b ∉ pre := ⟨[], rfl, by simp⟩
theorem startPre (l : List Ev) (w : Work) : ∃ pre, Ev.start w :: l = pre ++ l ∧ ∀ b, Ev.exit b ∉ pre := ⟨[.start w], rfl, by simp⟩
theorem finPre (l : List Ev) (w : Work) : ∃ pre, Ev.fin w :: l = pre ++ l ∧ ∀ b, Ev.exit b ∉ pre := ⟨[.fin w], rfl, by simp⟩

theorem tileStep_kind {s s' : St} {rd p i} (hl : i < k.tiles) (hi : TInv k s) (h : TileStep k rd s p i s') : Kind k s s' := by
  have hok : (Who.tile p i).ok k := by
    refine ⟨hl, fun hp => ?_⟩
    subst hp
    have hna : s.tile true i ≠ .absent := by cases h <;> simp_all
    cases h2 : k.twoPass
    · exact absurd ((hi true i hl).abs.2 (Or.inr h2)) hna
    · rfl
  cases h with
  | find hq => exact .tileWork hok (by rw [hq]; rfl) rfl rfl rfl rfl rfl (noPre s)
  | skip hq => exact .tileWork hok (by rw [hq]; rfl) rfl rfl rfl rfl rfl (noPre s)
  | start hq => exact .tileWork hok (by rw [hq]; rfl) rfl rfl rfl rfl rfl (startPre _ _)
  | fin e hq => exact .tileWork hok (by rw [hq]; rfl) rfl rfl rfl rfl rfl (finPre _ _)
  | or hq => exact .tileWork hok (by rw [hq]; rfl) (by split <;> rfl) rfl rfl rfl rfl (noPre s)
  | again hq => exact .tileWork hok (by rw [hq]; rfl) rfl rfl rfl rfl rfl (noPre s)
  | wait hq => exact .tileWork hok (by rw [hq]; rfl) rfl rfl rfl rfl rfl (noPre s)
  | next hq => exact .tileWork hok (by rw [hq]; rfl) (by split <;> rfl) rfl rfl rfl rfl (noPre s)
  | last hq => exact .tileWork hok (by rw [hq]; rfl) rfl rfl rfl rfl rfl (noPre s)
  | sub hq =>
    refine .sub (.tile p i) hok (by simp only [lv, hq]; rfl) (fun w' => by refine (sub_tile (s := s) (p := p) (i := i) (v := .subbed (s.counter - 1)) ?_ ?_ ?_ w').trans ?_ <;> rfl) ?_ rfl rfl
    have := agg_tile (wt := fun _ => lt) (wf := fun _ => lf) (we := fun _ => le) (s := s)
      (s' := { s with tile := upd2 s.tile p i (.subbed (s.counter - 1)), counter := s.counter - 1 }) hok.1 hok.2 rfl rfl rfl
    rw [hq] at this
    simp only [lt] at this
    exact this
  | @exit n hq =>
    refine .exit (.tile p i) n hok (by simp only [sub, hq]; rfl) (fun w' => by refine (sub_tile (s := s) (p := p) (i := i) (v := .gone) ?_ ?_ ?_ w').trans ?_ <;> rfl) ?_ rfl rfl rfl
    have := agg_tile (wt := fun _ => lt) (wf := fun _ => lf) (we := fun _ => le) (s := s)
      (s' := { s with tile := upd2 s.tile p i .gone, log := announce k s n }) hok.1 hok.2 rfl rfl rfl
    rw [hq] at this
    simp only [lt] at this
    exact this

theorem filtStep_kind {s s' : St} {y} (hl : y < k.sbh) (hf : FrontInv k s) (h : FiltStep k s y s') : Kind k s s' := by
  have hok : (Who.filt y).ok k := hl
  have hph := filtStep_phase hf h
  obtain ⟨f, hf⟩ := hf.2 hph
  cases h with
  | @find ty recon db hq hr ht =>
    obtain ⟨rfl, h2, rfl, rfl, rfl⟩ := filt_pos_of_queued hf hq hr
    by_cases h1 : y + 1 < k.sbh
    · have habs : s.filt (y + 1) = .absent := by
        rcases hf.above (y + 1) (by omega) with h | h
        · omega
        · exact h
      have e1 := agg_filt (wt := fun _ => lt) (wf := fun _ => lf) (we := fun _ => le) (s := s)
        (s' := { s with filt := upd s.filt (y + 1) (.queued (firstTy k) (y + 2) 0) }) h1 rfl rfl rfl
      have e2 := agg_filt (wt := fun _ => lt) (wf := fun _ => lf) (we := fun _ => le) (s := { s with filt := upd s.filt (y + 1) (.queued (firstTy k) (y + 2) 0) })
        (s' := { s with filt := upd (upd s.filt (y + 1) (.queued (firstTy k) (y + 2) 0)) y (.at (entry (firstTy k))) }) hl rfl rfl rfl
      rw [habs] at e1
      dsimp only at e2
      rw [upd_ne _ _ (by omega), hq] at e2
      simp only [lf] at e1 e2
      refine .work (.filt y) hok (by simp only [lv, hq]; rfl) (fun w' => ?_) ?_ rfl (noPre s)
      · have a1 := sub_filt (s := s) (s' := { s with filt := upd s.filt (y + 1) (.queued (firstTy k) (y + 2) 0) }) rfl rfl rfl w'
        have a2 := sub_filt (s := { s with filt := upd s.filt (y + 1) (.queued (firstTy k) (y + 2) 0) })
          (s' := { s with filt := upd (if y + 1 < k.sbh then upd s.filt (y + 1) (.queued (firstTy k) (y + 2) 0) else s.filt) y (.at (entry (firstTy k))), ntr := if y + 1 < k.sbh then nextRow k s false (y + 1) else s.ntr, error := tilesError k s false })
          (y := y) (v := .at (entry (firstTy k))) rfl (by simp [h1]) rfl w'
        rw [a2, a1]
        split
        · rename_i h; subst h; simp only [sub, hq]; rfl
        · split
          · rename_i h; subst h; simp only [sub, habs]; rfl
          · rfl
      · unfold total
        have e3 : agg k (fun _ => lt) (fun _ => lf) (fun _ => le) { s with filt := upd (if y + 1 < k.sbh then upd s.filt (y + 1) (.queued (firstTy k) (y + 2) 0) else s.filt) y (.at (entry (firstTy k))), ntr := if y + 1 < k.sbh then nextRow k s false (y + 1) else s.ntr, error := tilesError k s false }
          = agg k (fun _ => lt) (fun _ => lf) (fun _ => le) { s with filt := upd (upd s.filt (y + 1) (.queued (firstTy k) (y + 2) 0)) y (.at (entry (firstTy k))) } :=
          agg_same rfl (by simp [h1]) rfl
        rw [e3]
        omega
    · exact .filtWork (v := .at (entry (firstTy k))) hok (by rw [hq]; rfl) rfl rfl (by simp [h1]) rfl rfl (noPre s)
  | findCdef hq => exact .filtWork hok (by rw [hq]; rfl) rfl rfl rfl rfl rfl (noPre s)
  | findRows hq hne => exact .filtWork hok (by rw [hq]; rfl) rfl rfl rfl rfl rfl (noPre s)
  | @run pc s' hq h2 =>
    have ho : lf (s.filt y) = 1 := by rw [hq]; rfl
    cases pc with
    | st g =>
      simp only [filtRun] at h2
      split at h2 <;> cases h2
      · exact .filtWork hok ho rfl rfl rfl rfl rfl (startPre _ _)
      · exact .filtWork hok ho rfl rfl rfl rfl rfl (noPre s)
    | run g => cases h2; exact .filtWork hok ho rfl rfl rfl rfl rfl (finPre _ _)
    | lock =>
      simp only [filtRun] at h2
      split at h2 <;> cases h2
      exact .filtWork hok ho rfl rfl rfl rfl rfl (noPre s)
    | sub =>
      cases h2
      refine .sub (.filt y) hok ho (fun w' => by refine (sub_filt (s := s) (y := y) (v := .subbed (s.counter - 1)) ?_ ?_ ?_ w').trans ?_ <;> rfl) ?_ rfl rfl
      have := agg_filt (wt := fun _ => lt) (wf := fun _ => lf) (we := fun _ => le) (s := s)
        (s' := { s with filt := upd s.filt y (.subbed (s.counter - 1)), counter := s.counter - 1 }) hl rfl rfl rfl
      rw [ho] at this
      exact this
    | _ =>
      simp only [filtRun] at h2
      (repeat' split at h2) <;> cases h2 <;> exact .filtWork hok ho rfl rfl rfl rfl rfl (noPre s)
  | @exit n hq =>
    refine .exit (.filt y) n hok (by simp only [sub, hq]; rfl) (fun w' => by refine (sub_filt (s := s) (y := y) (v := .gone) ?_ ?_ ?_ w').trans ?_ <;> rfl) ?_ rfl rfl rfl
    have := agg_filt (wt := fun _ => lt) (wf := fun _ => lf) (we := fun _ => le) (s := s)
      (s' := { s with filt := upd s.filt y .gone, log := announce k s n }) hl rfl rfl rfl
    rw [hq] at this
    simp only [lf] at this
    exact this

theorem entStep_kind {s s' : St} {y} (hl : y < k.sbh) (hi : EntInv k s) (h : EntStep k s y s') : Kind k s s' := by
  obtain ⟨hph, htp⟩ := entStep_two hi h
  obtain ⟨f, hf⟩ := hi.front hph htp
  have hok : (Who.ent y).ok k := ⟨hl, htp⟩
  cases h with
  | find hq hle ht =>
    have hy : y = f := by
      have : ¬ y < f := fun h => by have := hf.below y h; rw [hq] at this; simp [epos] at this
      rcases hf.above y (by omega) with h1 | h1
      · exact h1.1
      · rw [hq] at h1; cases h1
    subst hy
    by_cases h1 : y + 1 < k.sbh
    · have habs : s.ent (y + 1) = .absent := by
        rcases hf.above (y + 1) (by omega) with h | h
        · omega
        · exact h
      have e1 := agg_ent (wt := fun _ => lt) (wf := fun _ => lf) (we := fun _ => le) (s := s)
        (s' := { s with ent := upd s.ent (y + 1) .queued }) h1 htp rfl rfl rfl
      have e2 := agg_ent (wt := fun _ => lt) (wf := fun _ => lf) (we := fun _ => le) (s := { s with ent := upd s.ent (y + 1) .queued })
        (s' := { s with ent := upd (if y + 1 < k.sbh then upd s.ent (y + 1) .queued else s.ent) y .load, ntr := if y + 1 < k.sbh then nextRow k s true (y + 1) else s.ntr, error := tilesError k s true || decide (s.entp = TILE_ERROR) })
        (y := y) (v := .load) hl htp rfl rfl (by simp [h1])
      rw [habs] at e1
      dsimp only at e2
      rw [upd_ne _ _ (by omega), hq] at e2
      simp only [le] at e1 e2
      refine .work (.ent y) hok (by simp only [lv, hq]; rfl) (fun w' => ?_) ?_ rfl (noPre s)
      · have a1 := sub_ent (s := s) (s' := { s with ent := upd s.ent (y + 1) .queued }) rfl rfl rfl w'
        have a2 := sub_ent (s := { s with ent := upd s.ent (y + 1) .queued })
          (s' := { s with ent := upd (if y + 1 < k.sbh then upd s.ent (y + 1) .queued else s.ent) y .load, ntr := if y + 1 < k.sbh then nextRow k s true (y + 1) else s.ntr, error := tilesError k s true || decide (s.entp = TILE_ERROR) })
          (y := y) (v := .load) rfl rfl (by simp [h1]) w'
        rw [a2, a1]
        split
        · rename_i h; subst h; simp only [sub, hq]; rfl
        · split
          · rename_i h; subst h; simp only [sub, habs]; rfl
          · rfl
      · unfold total
        omega
    · exact .entWork (v := .load) hok (by rw [hq]; rfl) rfl rfl rfl (by simp [h1]) rfl (noPre s)
  | load hq => exact .entWork hok (by rw [hq]; rfl) rfl rfl rfl rfl rfl (noPre s)
  | pub hq => exact .entWork hok (by rw [hq]; rfl) rfl rfl rfl rfl rfl (noPre s)
  | ent hq => exact .entWork hok (by rw [hq]; rfl) rfl rfl rfl rfl rfl (noPre s)
  | done hq => exact .entWork hok (by rw [hq]; rfl) rfl rfl rfl rfl rfl (noPre s)
  | sub hq =>
    refine .sub (.ent y) hok (by simp only [lv, hq]; rfl) (fun w' => by refine (sub_ent (s := s) (y := y) (v := .subbed (s.counter - 1)) ?_ ?_ ?_ w').trans ?_ <;> rfl) ?_ rfl rfl
    have := agg_ent (wt := fun _ => lt) (wf := fun _ => lf) (we := fun _ => le) (s := s)
      (s' := { s with ent := upd s.ent y (.subbed (s.counter - 1)), counter := s.counter - 1 }) hl htp rfl rfl rfl
    rw [hq] at this
    simp only [le] at this
    exact this
  | @exit n hq =>
    refine .exit (.ent y) n hok (by simp only [sub, hq]; rfl) (fun w' => by refine (sub_ent (s := s) (y := y) (v := .gone) ?_ ?_ ?_ w').trans ?_ <;> rfl) ?_ rfl rfl rfl
    have := agg_ent (wt := fun _ => lt) (wf := fun _ => lf) (we := fun _ => le) (s := s)
      (s' := { s with ent := upd s.ent y .gone, log := announce k s n }) hl htp rfl rfl rfl
    rw [hq] at this
    simp only [le] at this
    exact this

section ok
variable (hk : k.Ok)
include hk

theorem tiles_pos : 0 < k.tiles := Nat.mul_pos hk.cols hk.rows

theorem step_kind {s s' : St} {rd bad} (ht : TInv k s) (hf : FrontInv k s) (he : EntInv k s) (h : Step k rd bad s s') : Kind k s s' := by
  have h0 := sbh_pos hk
  have htl := tiles_pos hk
  have hcr : s.phase ≠ 2 → Kind k s (create2 k s) := by
    intro hp
    have hta : ∀ i < k.tiles, s.tile false i = .absent := fun i hi => (ht false i hi).abs.2 (by simpa [notYet] using hp)
    refine .work (.tile false 0) ⟨htl, by simp⟩ (by simp only [lv, hta 0 htl]; rfl) (fun w' => ?_) ?_ rfl (noPre s)
    · cases w' with
      | tile q j =>
        simp only [sub, create2]
        split
        · rename_i h; rw [h.1, hta j h.2]; rfl
        · rfl
      | filt y =>
        simp only [sub, create2, hf.absent hp]
        unfold upd; split <;> rfl
      | ent y => rfl
    · unfold total agg
      simp only [create2, hf.absent hp]
      have a1 : sum (fun i => lt (if True ∧ i < k.tiles then TileSt.queued (k.first i) else s.tile false i)) k.tiles = sum (fun i => lt (s.tile false i)) k.tiles :=
        sum_congr fun i hi => by rw [if_pos ⟨trivial, hi⟩, hta i hi]; rfl
      have a2 : sum (fun y => lf (upd (fun _ => FiltSt.absent) 0 (.queued (firstTy k) 1 0) y)) k.sbh = sum (fun y => lf FiltSt.absent) k.sbh :=
        sum_congr fun i hi => by unfold upd; split <;> rfl
      rw [a1, a2]
      simp
  cases h with
  | create0 h2 hp => exact hcr (by omega)
  | create1 h2 hp =>
    have hta : ∀ i < k.tiles, s.tile true i = .absent := fun i hi => (ht true i hi).abs.2 (by simp [notYet, hp])
    have hea := (he.absent (Or.inl hp)).1
    refine .work (.tile true 0) ⟨htl, fun _ => h2⟩ (by simp only [lv, hta 0 htl]; rfl) (fun w' => ?_) ?_ rfl (noPre s)
    · cases w' with
      | tile q j =>
        simp only [sub, create1]
        split
        · rename_i h; rw [h.1, hta j h.2]; rfl
        · rfl
      | filt y => rfl
      | ent y =>
        simp only [sub, create1]
        unfold upd; split
        · rw [hea]; rfl
        · rfl
    · unfold total agg
      simp only [create1]
      have a1 : sum (fun i => lt (if True ∧ i < k.tiles then TileSt.queued (k.first i) else s.tile true i)) k.tiles = sum (fun i => lt (s.tile true i)) k.tiles :=
        sum_congr fun i hi => by rw [if_pos ⟨trivial, hi⟩, hta i hi]; rfl
      have a2 : sum (fun y => le (upd s.ent 0 EntSt.queued y)) k.sbh = sum (fun y => le (s.ent y)) k.sbh :=
        sum_congr fun i hi => by
          unfold upd; split
          · rw [hea]; rfl
          · rfl
      rw [a1, a2]
      simp
  | create2 h2 hp => exact hcr (by omega)
  | @refError p i y hb h2 hl hq =>
    refine .work (.tile p i) ⟨hl, fun _ => h2⟩ ?_ (fun w' => rfl) rfl rfl (noPre s)
    simp only [lv]
    rcases hq with hq | ⟨z, e, _, hq⟩ <;> rw [hq] <;> rfl
  | tile hl h => exact tileStep_kind hl ht h
  | filt hl h => exact filtStep_kind hl hf h
  | ent hl h => exact entStep_kind hl he h

omit hk in
theorem live_of_total {s : St} (h : total k s = 0) : ∀ w, w.ok k → lv s w = 0 := by
  unfold total agg at h
  dsimp only at h
  intro w hw
  cases w with
  | tile p i =>
    cases p
    · exact sum_zero (f := fun i => lt (s.tile false i)) (by omega) i hw.1
    · rw [hw.2 rfl] at h
      simp only [if_true] at h
      exact sum_zero (f := fun i => lt (s.tile true i)) (by omega) i hw.1
  | filt y => exact sum_zero (f := fun y => lf (s.filt y)) (by omega) y hw
  | ent y =>
    rw [hw.2] at h
    simp only [if_true] at h
    exact sum_zero (f := fun y => le (s.ent y)) (by omega) y hw.1

/-- The counter counts the tasks that are not over. -/
def CountInv (k : Cfg) (s : St) : Prop := s.counter = (total k s : Int)

omit hk in
theorem CountInv.init : CountInv k (.init k) := by
  unfold CountInv total agg
  simp only [St.init, lt, lf, le, sum_one]
  split <;> omega

omit hk in
theorem Kind.count {s s' : St} (h : Kind k s s') (hi : CountInv k s) : CountInv k s' := by
  unfold CountInv at *
  cases h with
  | work w _ _ _ tot ctr => rw [ctr, tot, hi]
  | sub w _ _ _ tot ctr => rw [ctr, hi]; omega
  | exit w n _ _ _ tot ctr => rw [ctr, tot, hi]

/-- When the counter is zero, the frame is done. -/
theorem done_of_zero {s : St} (hb : BitInv k s) (he : EntInv k s) (hc : CountInv k s) (h : s.counter = 0) :
    s.done0 = true ∧ (k.twoPass = true → s.done1 = true) := by
  have h0 := sbh_pos hk
  have hz : total k s = 0 := by unfold CountInv at hc; omega
  have hl := live_of_total hz
  have hp : ∀ y < k.sbh, 22 ≤ pos (s.filt y) := by
    intro y hy
    have := hl (.filt y) hy
    simp only [lv] at this
    cases h : s.filt y <;> rw [h] at this <;> simp [lf, pos] at this ⊢
  constructor
  · rcases hb.wit (fun z hz => (hb.bits z).2 (by have := hp z hz; omega)) with h1 | ⟨y, hy, h1⟩
    · exact h1
    · have := hp y hy
      cases hv : s.filt y with
      | «at» pc => rw [hv] at this; cases pc with
        | st g => cases g <;> simp [pos, Pc.pos] at this
        | run g => cases g <;> simp [pos, Pc.pos] at this
        | _ => simp [pos, Pc.pos] at this
      | _ => rw [hv] at h1; exact h1.elim
  · intro htp
    apply he.done
    have := hl (.ent (k.sbh - 1)) ⟨by omega, htp⟩
    simp only [lv] at this
    cases h : s.ent (k.sbh - 1) <;> rw [h] at this <;> simp [le, epos] at this ⊢

/-- The frame is announced by the last task, once. -/
structure ExitInv (k : Cfg) (s : St) : Prop where
  pos : s.counter ≠ 0 → (∀ w, w.ok k → sub s w ≠ some 0) ∧ ∀ b, Ev.exit b ∉ s.log
  zero : s.counter = 0 → ((∃ w, w.ok k ∧ ∀ w', w'.ok k → (sub s w' = some 0 ↔ w' = w)) ∧ ∀ b, Ev.exit b ∉ s.log) ∨
    ((∀ w, w.ok k → sub s w ≠ some 0) ∧ ∃ l, s.log = .exit s.error :: l ∧ ∀ b, Ev.exit b ∉ l)

theorem Kind.exitInv {s s' : St} (hb : BitInv k s) (he : EntInv k s) (hc : CountInv k s) (hi : ExitInv k s) (h : Kind k s s') : ExitInv k s' := by
  have live : ∀ w, w.ok k → lv s w = 1 → s.counter ≠ 0 := by
    intro w hw hl h
    have := live_of_total (k := k) (s := s) (by unfold CountInv at hc; omega) w hw
    omega
  cases h with
  | work w ok lv sub tot ctr log =>
    have hne := live w ok lv
    obtain ⟨pre, h1, h2⟩ := log
    refine ⟨fun _ => ⟨fun w hw => by rw [sub]; exact (hi.pos hne).1 w hw, fun b hm => ?_⟩, fun h => absurd h (by rw [ctr]; exact hne)⟩
    rw [h1, List.mem_append] at hm
    rcases hm with hm | hm
    · exact h2 b hm
    · exact (hi.pos hne).2 b hm
  | sub w ok lv sub tot ctr log =>
    have hne := live w ok lv
    have hp := hi.pos hne
    constructor
    · intro hn
      refine ⟨fun w' hw' => ?_, by rw [log]; exact hp.2⟩
      rw [sub]
      split
      · intro h
        rw [ctr] at hn
        exact hn (by simpa using h)
      · exact hp.1 w' hw'
    · intro hz
      left
      refine ⟨⟨w, ok, fun w' hw' => ?_⟩, by rw [log]; exact hp.2⟩
      rw [sub]
      rw [ctr] at hz
      constructor
      · intro h
        split at h
        · assumption
        · exact absurd h (hp.1 w' hw')
      · intro h
        rw [if_pos h, hz]
  | exit w n ok old sub tot ctr log err =>
    by_cases hn : n = 0
    · subst hn
      have hz : s.counter = 0 := by
        by_cases hz : s.counter = 0
        · exact hz
        · exact absurd old ((hi.pos hz).1 w ok)
      refine ⟨fun h => absurd hz (by rw [← ctr]; exact h), fun _ => Or.inr ?_⟩
      rcases hi.zero hz with ⟨⟨v, hv, hu⟩, hl⟩ | ⟨h1, _⟩
      · have hwv := (hu w ok).1 old
        subst hwv
        refine ⟨fun w' hw' => ?_, s.log, ?_, hl⟩
        · rw [sub]
          split
          · intro h; cases h
          · rename_i hne
            exact fun h => hne ((hu w' hw').1 h)
        · rw [log, err]
          unfold announce
          rw [if_pos ⟨rfl, done_of_zero hk hb he hc hz⟩]
      · exact absurd old (h1 w ok)
    · have hlog : s'.log = s.log := by
        rw [log]; unfold announce
        rw [if_neg (fun h => hn h.1)]
      have hsub : ∀ w', Sched.sub s' w' = some 0 ↔ Sched.sub s w' = some 0 := by
        intro w'
        rw [sub]
        split
        · rename_i h
          subst h
          rw [old]
          simp [hn]
        · rfl
      refine ⟨fun h => ?_, fun h => ?_⟩
      · rw [ctr] at h
        exact ⟨fun w' hw' h' => (hi.pos h).1 w' hw' ((hsub w').1 h'), by rw [hlog]; exact (hi.pos h).2⟩
      · rw [ctr] at h
        rcases hi.zero h with ⟨⟨v, hv, hu⟩, hl⟩ | ⟨h1, l, h2, h3⟩
        · exact Or.inl ⟨⟨v, hv, fun w' hw' => by rw [hsub]; exact hu w' hw'⟩, by rw [hlog]; exact hl⟩
        · exact Or.inr ⟨fun w' hw' h' => h1 w' hw' ((hsub w').1 h'), l, by rw [hlog, err]; exact h2, h3⟩

theorem ExitInv.init : ExitInv k (.init k) := by
  have h0 := tiles_pos hk
  refine ⟨fun _ => ⟨fun w _ => by cases w <;> simp [sub, St.init, tsub, fsub, esub], fun b h => by simp [St.init] at h⟩, fun h => ?_⟩
  exfalso
  simp only [St.init] at h
  split at h <;> omega

end ok
end Dav1d.Sched
