import Verif.Thread.SchedSpec
/-!
# Invariant of the tile tasks
-/
namespace Dav1d.Sched
variable {k : Cfg}

@[simp] theorem upd_same {α : Type} (f : Nat → α) (i : Nat) (v : α) : upd f i v i = v := by simp [upd]
theorem upd_ne {α : Type} (f : Nat → α) {i j : Nat} (v : α) (h : j ≠ i) : upd f i v j = f j := by simp [upd, h]
@[simp] theorem upd2_same {α : Type} (f : Bool → Nat → α) (p : Bool) (i : Nat) (v : α) : upd2 f p i v p i = v := by simp [upd2]
theorem upd2_ne {α : Type} (f : Bool → Nat → α) {p q : Bool} {i j : Nat} (v : α) (h : ¬ (q = p ∧ j = i)) : upd2 f p i v q j = f q j := by
  simp only [upd2, if_neg h]

/-- The tile is not yet part of the task list. -/
def notYet (k : Cfg) (p : Bool) (phase : Nat) : Prop := if p then phase = 0 ∨ k.twoPass = false else phase ≠ 2

/-- The number of the row that the progress of the tile shows. -/
def tileVal (a b : Nat) : TileSt → Nat
  | .absent => a
  | .queued y => y
  | .taken y => y
  | .run y => y
  | .ran y _ => y
  | .more y _ => y
  | .next y _ _ => y
  | .last _ => b - 1
  | _ => b

/-- States after an error in the tile was noticed. -/
def errSt : TileSt → Prop
  | .run _ => False
  | .ran _ e => e = true
  | .more _ e => e = true
  | .next _ e _ => e = true
  | .last e => e = true
  | _ => True

/-- The rows are in range. -/
def rowsOk (a b : Nat) : TileSt → Prop
  | .queued y => a ≤ y ∧ y < b
  | .taken y => a ≤ y ∧ y < b
  | .run y => a ≤ y ∧ y < b
  | .ran y _ => a ≤ y ∧ y < b
  | .more y _ => a ≤ y ∧ y + 1 < b
  | .next y _ _ => a ≤ y ∧ y + 1 < b
  | _ => True

/-- The error was passed on. -/
def errKept (error : Bool) : TileSt → Prop
  | .more _ e => e = true → error = true
  | .next _ e now => (e = true → error = true) ∧ (now = true → error = true)
  | .last e => e = true → error = true
  | _ => True

/-- Invariant of tile `i` in pass `p`: state, progress, progress of the entropy decoding of the tile, error flag. -/
structure TileOk (k : Cfg) (p : Bool) (i : Nat) (phase : Nat) (st : TileSt) (tp te : Nat) (error : Bool) : Prop where
  val : tp = tileVal (k.first i) (k.last i) st ∨ (tp = TILE_ERROR ∧ error = true ∧ errSt st)
  rows : rowsOk (k.first i) (k.last i) st
  err : errKept error st
  abs : st = .absent ↔ notYet k p phase
  ent : ∀ y, st = .taken y → k.twoPass = true → p = false → error = false → y < te

/-- All tiles. -/
def TInv (k : Cfg) (s : St) : Prop :=
  ∀ p i, i < k.tiles → TileOk k p i s.phase (s.tile p i) (s.tprog p i) (s.tprog true i) s.error

theorem TileOk.mono {p i ph st tp te e te' e'} (h : TileOk k p i ph st tp te e) (he : e = true → e' = true) (ht : te ≤ te') : TileOk k p i ph st tp te' e' := by
  obtain ⟨h1, h2, h3, h4, h5⟩ := h
  refine ⟨?_, h2, ?_, h4, ?_⟩
  · rcases h1 with h | ⟨a, b, c⟩
    · exact Or.inl h
    · exact Or.inr ⟨a, he b, c⟩
  · cases st <;> simp only [errKept] at h3 ⊢
    · exact fun h => he (h3 h)
    · exact ⟨fun h => he (h3.1 h), fun h => he (h3.2 h)⟩
    · exact fun h => he (h3 h)
  · intro y a b c d
    have : e = false := by cases e <;> simp_all
    exact Nat.lt_of_lt_of_le (h5 y a b c this) ht

section ok
variable (hk : k.Ok)
include hk

theorem start_mono {r r' : Nat} (h : r < r') (h' : r' ≤ k.rows) : k.start r < k.start r' := by
  induction r' with
  | zero => omega
  | succ n ih =>
    have := hk.mono n (by omega)
    by_cases hn : r = n
    · subst hn; exact this
    · have := ih (by omega) (by omega); omega

theorem tile_row {i : Nat} (h : i < k.tiles) : i / k.cols < k.rows := by
  have : i < k.rows * k.cols := by rw [Nat.mul_comm]; exact h
  exact Nat.div_lt_of_lt_mul (by rw [Nat.mul_comm]; exact this)

theorem first_lt_last {i : Nat} (h : i < k.tiles) : k.first i < k.last i := hk.mono _ (tile_row hk h)

theorem last_le {i : Nat} (h : i < k.tiles) : k.last i ≤ k.sbh := by
  have h1 := tile_row hk h
  unfold Cfg.last
  rw [← hk.end_]
  rcases Nat.lt_or_ge (i / k.cols + 1) k.rows with h2 | h2
  · exact Nat.le_of_lt (start_mono hk h2 (Nat.le_refl _))
  · rw [show i / k.cols + 1 = k.rows by omega]; exact Nat.le_refl _

theorem sbh_lt : k.sbh < TILE_ERROR := by
  have h1 := hk.limit
  have h2 := hk.size
  have : k.sbh * 1 ≤ k.sbh * k.sbsz := Nat.mul_le_mul_left _ h2
  omega

theorem sbh_pos : 0 < k.sbh := by
  have := start_mono hk hk.rows (Nat.le_refl _)
  rw [hk.end_] at this; omega

theorem TInv.init : TInv k (.init k) := by
  intro p i hi
  refine ⟨Or.inl rfl, trivial, trivial, ?_, fun _ h => by cases h⟩
  simp only [St.init, true_iff]
  cases p <;> simp [notYet]

theorem progress_le {y b : Nat} (h : y + 1 ≤ b) (hb : b ≤ k.sbh) (e : Bool) : y + 1 ≤ progress y e := by
  unfold progress
  have := sbh_lt hk
  cases e <;> simp <;> omega

/-- The check can only succeed before the progress is stored if there was an error. -/
theorem checkTile_error {s : St} {rd p i y e} (h : checkTile k rd s p i y e) (hi : TInv k s) (hl : i < k.tiles) : e = s.error := by
  obtain ⟨_, _, _, rfl⟩ := h
  have h1 := (hi p i hl).val
  have h2 := (hi true i hl).val
  have h3 : ∀ q, s.tprog q i = TILE_ERROR → s.error = true := by
    intro q hq
    rcases (hi q i hl).val with h | ⟨_, h, _⟩
    · exfalso
      have hs := sbh_lt hk
      have hb := last_le hk hl
      have hf := first_lt_last hk hl
      have hr := (hi q i hl).rows
      rw [hq] at h
      cases hst : s.tile q i <;> rw [hst] at h hr <;> simp only [tileVal, rowsOk] at h hr <;> omega
    · exact h
  have h4 := h3 p
  have h5 := h3 true
  cases he : s.error
  · simp only [he, Bool.false_or, Bool.or_eq_false_iff, decide_eq_false_iff_not, Bool.and_eq_false_iff]
    rw [he] at h4 h5
    exact ⟨fun h => by simpa using h4 h, Or.inr fun h => by simpa using h5 h⟩
  · simp [he]

theorem TileOk.lt {p i ph st tp te e} (h : TileOk k p i ph st tp te e) (hi : i < k.tiles) : tp ≤ TILE_ERROR ∧ (e = false → tp ≤ k.last i) := by
  have hs := sbh_lt hk
  have hb := last_le hk hi
  have hf := first_lt_last hk hi
  have hr := h.rows
  have : tileVal (k.first i) (k.last i) st ≤ k.last i := by
    cases st <;> simp only [tileVal, rowsOk] at hr ⊢ <;> omega
  rcases h.val with h1 | ⟨h1, h2, _⟩
  · exact ⟨by omega, fun _ => by omega⟩
  · exact ⟨by omega, fun h => by rw [h] at h2; cases h2⟩

omit hk in
theorem TInv.upd {s s' : St} (hi : TInv k s) {p : Bool} {i tp'} {st'} (hl : i < k.tiles) (hph : s'.phase = s.phase)
    (ht : s'.tile = upd2 s.tile p i st') (hp : s'.tprog = upd2 s.tprog p i tp') (he : s.error = true → s'.error = true)
    (hle : s.tprog p i ≤ tp') (hok : TileOk k p i s.phase st' tp' (if p then tp' else s.tprog true i) s'.error) : TInv k s' := by
  intro q j hj
  rw [hph, ht, hp]
  by_cases h : q = p ∧ j = i
  · obtain ⟨rfl, rfl⟩ := h
    rw [upd2_same, upd2_same]
    cases q
    · rw [upd2_ne _ _ (by simp)]
      simpa using hok
    · rw [upd2_same]
      simpa using hok
  · rw [upd2_ne _ _ h, upd2_ne _ _ h]
    refine (hi q j hj).mono he ?_
    by_cases h' : true = p ∧ j = i
    · obtain ⟨rfl, rfl⟩ := h'
      rw [upd2_same]; exact hle
    · rw [upd2_ne _ _ h']; exact Nat.le_refl _

omit hk in
theorem upd2_self {α : Type} (f : Bool → Nat → α) (p : Bool) (i : Nat) : upd2 f p i (f p i) = f := by
  funext q j
  unfold upd2
  split
  · rename_i h; rw [h.1, h.2]
  · rfl

omit hk in
/-- The progress is not changed. -/
theorem TInv.upd' {s s' : St} (hi : TInv k s) {p : Bool} {i} {st'} (hl : i < k.tiles) (hph : s'.phase = s.phase)
    (ht : s'.tile = upd2 s.tile p i st') (hp : s'.tprog = s.tprog) (he : s.error = true → s'.error = true)
    (hok : TileOk k p i s.phase st' (s.tprog p i) (s.tprog true i) s'.error) : TInv k s' :=
  hi.upd hl hph ht (by rw [hp, upd2_self]) he (Nat.le_refl _) (by cases p <;> exact hok)

theorem tileStep_tinv {s s' : St} {rd p i} (hi : TInv k s) (hl : i < k.tiles) (h : TileStep k rd s p i s') : TInv k s' := by
  have ho := hi p i hl
  have hs := sbh_lt hk
  have hb := last_le hk hl
  have hf := first_lt_last hk hl
  cases h with
  | @find y e hq hc =>
    have he := checkTile_error hk hc hi hl
    subst he
    refine hi.upd' hl rfl rfl rfl id ?_
    rw [hq] at ho
    obtain ⟨h1, h2, h3, h4, h5⟩ := ho
    refine ⟨h1, h2, trivial, ?_, ?_⟩
    · simpa using h4
    · intro y' a b c d
      cases a
      refine hc.2.1 ⟨?_, b, c⟩
      have d : s.error = false := d
      rw [d, Bool.false_or, decide_eq_false_iff_not]
      intro h6
      have := (TileOk.lt hk ⟨h1, h2, h3, h4, h5⟩ hl).2 d
      omega
  | @skip y hq he =>
    refine hi.upd' hl rfl rfl rfl id ?_
    rw [hq] at ho
    obtain ⟨h1, h2, h3, h4, h5⟩ := ho
    exact ⟨h1.imp id fun h => ⟨h.1, h.2.1, rfl⟩, h2, trivial, by simpa using h4, fun _ h => by cases h⟩
  | @start y hq he =>
    refine hi.upd' hl rfl rfl rfl id ?_
    rw [hq] at ho
    obtain ⟨h1, h2, h3, h4, h5⟩ := ho
    exact ⟨h1.imp id fun h => (by rw [he] at h; cases h.2.1), h2, trivial, by simpa using h4, fun _ h => by cases h⟩
  | @fin y e hq =>
    refine hi.upd' hl rfl rfl rfl id ?_
    rw [hq] at ho
    obtain ⟨h1, h2, h3, h4, h5⟩ := ho
    exact ⟨h1.imp id fun h => h.2.2.elim, h2, trivial, by simpa using h4, fun _ h => by cases h⟩
  | @or y e hq =>
    refine hi.upd' hl rfl rfl rfl (by simp +contextual) ?_
    rw [hq] at ho
    obtain ⟨h1, h2, h3, h4, h5⟩ := ho
    simp only [tileVal, rowsOk, errSt] at h1 h2
    dsimp only
    split
    · refine ⟨h1.imp id fun h => ⟨h.1, by simp [h.2.1], h.2.2⟩, ⟨h2.1, by assumption⟩, ?_, by simpa using h4, fun _ h => by cases h⟩
      simp only [errKept]; simp +contextual
    · refine ⟨h1.imp (fun h => ?_) fun h => ⟨h.1, by simp [h.2.1], h.2.2⟩, trivial, ?_, by simpa using h4, fun _ h => by cases h⟩
      · simp only [tileVal]; omega
      · simp only [errKept]; simp +contextual
  | @again y e e' hq hc =>
    have he := checkTile_error hk hc hi hl
    subst he
    refine hi.upd' hl rfl rfl rfl id ?_
    rw [hq] at ho
    obtain ⟨h1, h2, h3, h4, h5⟩ := ho
    refine ⟨h1, h2, ⟨h3, fun _ => ?_⟩, by simpa using h4, fun _ h => by cases h⟩
    have := hc.1
    rcases h1 with h | h
    · simp only [tileVal] at h; omega
    · exact h.2.1
  | @wait y e hq =>
    refine hi.upd' hl rfl rfl rfl id ?_
    rw [hq] at ho
    obtain ⟨h1, h2, h3, h4, h5⟩ := ho
    exact ⟨h1, h2, ⟨h3, fun h => by cases h⟩, by simpa using h4, fun _ h => by cases h⟩
  | @next y e now hq =>
    rw [hq] at ho
    obtain ⟨h1, h2, h3, h4, h5⟩ := ho
    simp only [tileVal, rowsOk, errSt, errKept] at h1 h2 h3
    refine hi.upd hl rfl rfl rfl id ?_ ?_
    · rcases h1 with h | ⟨h, h', h''⟩
      · have := progress_le hk (y := y) (b := k.last i) (by omega) hb e
        omega
      · rw [h'']; simp [progress, h]
    · have hv : progress y e = y + 1 ∨ progress y e = TILE_ERROR ∧ s.error = true := by
        cases e
        · exact Or.inl rfl
        · exact Or.inr ⟨rfl, h3.1 rfl⟩
      cases now
      · exact ⟨hv.imp id fun h => ⟨h.1, h.2, trivial⟩, ⟨by omega, by omega⟩, trivial, by simpa using h4, fun _ h => by cases h⟩
      · refine ⟨hv.imp id fun h => ⟨h.1, h.2, trivial⟩, ⟨by omega, by omega⟩, trivial, by simpa using h4, fun _ _ _ _ hne => ?_⟩
        have := h3.2 rfl
        rw [show s.error = false from hne] at this; cases this
  | @last e hq =>
    rw [hq] at ho
    obtain ⟨h1, h2, h3, h4, h5⟩ := ho
    simp only [tileVal, errSt, errKept] at h1 h3
    refine hi.upd hl rfl rfl rfl id ?_ ?_
    · rcases h1 with h | ⟨h, h', h''⟩
      · have := progress_le hk (y := k.last i - 1) (b := k.last i) (by omega) hb e
        omega
      · rw [h'']; simp [progress, h]
    · have hv : progress (k.last i - 1) e = k.last i ∨ progress (k.last i - 1) e = TILE_ERROR ∧ s.error = true := by
        cases e
        · left; simp only [progress]; simp; omega
        · exact Or.inr ⟨rfl, h3 rfl⟩
      exact ⟨hv.imp id fun h => ⟨h.1, h.2, trivial⟩, trivial, trivial, by simpa using h4, fun _ h => by cases h⟩
  | sub hq =>
    refine hi.upd' hl rfl rfl rfl id ?_
    rw [hq] at ho
    obtain ⟨h1, h2, h3, h4, h5⟩ := ho
    exact ⟨h1, trivial, trivial, by simpa using h4, fun _ h => by cases h⟩
  | exit hq =>
    refine hi.upd' hl rfl rfl rfl id ?_
    rw [hq] at ho
    obtain ⟨h1, h2, h3, h4, h5⟩ := ho
    exact ⟨h1, trivial, trivial, by simpa using h4, fun _ h => by cases h⟩

omit hk in
theorem TInv.error {s s' : St} (hi : TInv k s) (hph : s'.phase = s.phase) (ht : s'.tile = s.tile) (hp : s'.tprog = s.tprog)
    (he : s.error = true → s'.error = true) : TInv k s' := by
  intro p i hl
  rw [hph, ht, hp]
  exact (hi p i hl).mono he (Nat.le_refl _)

omit hk in
theorem filtRun_same {s s' : St} {y pc} (h : filtRun k s y pc = some s') :
    s'.phase = s.phase ∧ s'.tile = s.tile ∧ s'.tprog = s.tprog ∧ s'.error = s.error ∧ s'.ent = s.ent ∧ s'.entp = s.entp ∧ s'.ntr = s.ntr ∧
    s'.pub0 = s.pub0 ∧ s'.done1 = s.done1 := by
  cases pc <;> simp only [filtRun] at h
  all_goals (repeat' split at h) <;> first | cases h; exact ⟨rfl, rfl, rfl, rfl, rfl, rfl, rfl, rfl, rfl⟩ | cases h

omit hk in
/-- Filter tasks do not touch the tiles. -/
theorem filtStep_same {s s' : St} {y} (h : FiltStep k s y s') :
    s'.phase = s.phase ∧ s'.tile = s.tile ∧ s'.tprog = s.tprog ∧ (s.error = true → s'.error = true) ∧ s'.ent = s.ent ∧ s'.entp = s.entp ∧
    s'.pub0 = s.pub0 ∧ s'.done1 = s.done1 := by
  cases h with
  | find => exact ⟨rfl, rfl, rfl, fun h => by simp [tilesError, h], rfl, rfl, rfl, rfl⟩
  | findCdef => exact ⟨rfl, rfl, rfl, id, rfl, rfl, rfl, rfl⟩
  | findRows => exact ⟨rfl, rfl, rfl, fun h => by simp [h], rfl, rfl, rfl, rfl⟩
  | run _ h2 =>
    obtain ⟨a, b, c, d, e, f, g, h, i⟩ := filtRun_same h2
    exact ⟨a, b, c, fun h => by rw [d, h], e, f, h, i⟩
  | exit => exact ⟨rfl, rfl, rfl, id, rfl, rfl, rfl, rfl⟩

omit hk in
theorem entStep_same {s s' : St} {y} (h : EntStep k s y s') :
    s'.phase = s.phase ∧ s'.tile = s.tile ∧ s'.tprog = s.tprog ∧ (s.error = true → s'.error = true) ∧ s'.filt = s.filt ∧ s'.dbp = s.dbp ∧
    s'.lpf = s.lpf ∧ s'.bits = s.bits ∧ s'.pub1 = s.pub1 ∧ s'.flock = s.flock ∧ s'.done0 = s.done0 := by
  cases h with
  | find => exact ⟨rfl, rfl, rfl, fun h => by simp [tilesError, h], rfl, rfl, rfl, rfl, rfl, rfl, rfl⟩
  | _ => exact ⟨rfl, rfl, rfl, id, rfl, rfl, rfl, rfl, rfl, rfl, rfl⟩

theorem step_tinv {s s' : St} {rd bad} (hi : TInv k s) (h : Step k rd bad s s') : TInv k s' := by
  cases h with
  | create0 h2 hp =>
    intro p i hl
    have ho := hi p i hl
    have hf := first_lt_last hk hl
    cases p
    · refine ⟨?_, ?_, ?_, ?_, ?_⟩ <;> simp only [create2, hl, and_self, if_true]
      · have := ho.abs.2 (by simp [notYet, hp])
        have h1 := ho.val
        rw [this] at h1
        exact h1
      · exact ⟨Nat.le_refl _, hf⟩
      · trivial
      · simp [notYet]
      · intro _ h; cases h
    · simp only [create2]
      rw [if_neg (by simp)]
      refine ⟨ho.1, ho.2, ho.3, ?_, ho.5⟩
      rw [ho.abs]; simp [notYet, h2]
  | create1 h2 hp =>
    intro p i hl
    have ho := hi p i hl
    have hf := first_lt_last hk hl
    cases p
    · simp only [create1]
      rw [if_neg (by simp)]
      refine ⟨ho.1, ho.2, ho.3, ?_, ho.5⟩
      rw [ho.abs]; simp [notYet, hp]
    · refine ⟨?_, ?_, ?_, ?_, ?_⟩ <;> simp only [create1, hl, and_self, if_true]
      · have := ho.abs.2 (by simp [notYet, hp])
        have h1 := ho.val
        rw [this] at h1
        exact h1
      · exact ⟨Nat.le_refl _, hf⟩
      · trivial
      · simp [notYet, h2]
      · intro _ h; cases h
  | create2 h2 hp =>
    intro p i hl
    have ho := hi p i hl
    have hf := first_lt_last hk hl
    cases p
    · refine ⟨?_, ?_, ?_, ?_, ?_⟩ <;> simp only [create2, hl, and_self, if_true]
      · have := ho.abs.2 (by simp [notYet, hp])
        have h1 := ho.val
        rw [this] at h1
        exact h1
      · exact ⟨Nat.le_refl _, hf⟩
      · trivial
      · simp [notYet]
      · intro _ h; cases h
    · simp only [create2]
      rw [if_neg (by simp)]
      refine ⟨ho.1, ho.2, ho.3, ?_, ho.5⟩
      rw [ho.abs]; simp [notYet, hp]
  | refError => exact hi.error rfl rfl rfl (fun _ => rfl)
  | tile hl h => exact tileStep_tinv hk hi hl h
  | filt _ h =>
    obtain ⟨a, b, c, d, _⟩ := filtStep_same h
    exact hi.error a b c d
  | ent _ h =>
    obtain ⟨a, b, c, d, _⟩ := entStep_same h
    exact hi.error a b c d

end ok

end Dav1d.Sched
