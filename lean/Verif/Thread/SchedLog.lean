import Verif.Thread.SchedCount
/-!
# What has happened, and in which order
-/
namespace Dav1d.Sched
variable {k : Cfg}

/-- 0: not begun, 1: under way, 2: over. -/
def tstg (y : Nat) : TileSt → Nat
  | .absent => 0
  | .queued z => if y < z then 2 else 0
  | .taken z => if y < z then 2 else 0
  | .run z => if y < z then 2 else if y = z then 1 else 0
  | .ran z _ => if y < z + 1 then 2 else 0
  | .more z _ => if y < z + 1 then 2 else 0
  | .next z _ _ => if y < z + 1 then 2 else 0
  | _ => 2

def Stage.at : Stage → Nat
  | .cols => 2 | .rows => 5 | .cdef => 9 | .resize => 11 | .lr => 13

def fstg (g : Stage) (n : Nat) : Nat := if n < g.at then 0 else if n = g.at then 1 else 2

def stg (s : St) : Work → Nat
  | .tile p i y => tstg y (s.tile p i)
  | .filt g y => fstg g (pos (s.filt y))

/-- Number of starts and ends of a piece of work. -/
def Tally (has : Prop) (error : Bool) (g a b : Nat) : Prop :=
  (¬ has → a = 0 ∧ b = 0) ∧ (g = 0 → a = 0 ∧ b = 0) ∧ (g = 1 → a = 1 ∧ b = 0) ∧ (g = 2 → a = b ∧ a ≤ 1 ∧ (error = false → has → a = 1))

def LogInv (k : Cfg) (s : St) : Prop := ∀ w, Tally (k.Has w) s.error (stg s w) (s.log.count (.start w)) (s.log.count (.fin w))

/-- What a step does to a piece of work. -/
inductive Adv (k : Cfg) (s s' : St) (w : Work) : Prop
  | same (g : stg s' w = stg s w) (a : s'.log.count (.start w) = s.log.count (.start w)) (b : s'.log.count (.fin w) = s.log.count (.fin w))
  | start (has : k.Has w) (g : stg s w = 0) (g' : stg s' w = 1) (a : s'.log.count (.start w) = s.log.count (.start w) + 1) (b : s'.log.count (.fin w) = s.log.count (.fin w))
  | fin (has : k.Has w) (g : stg s w = 1) (g' : stg s' w = 2) (a : s'.log.count (.start w) = s.log.count (.start w)) (b : s'.log.count (.fin w) = s.log.count (.fin w) + 1)
  | skip (g : stg s w = 0) (g' : stg s' w = 2) (why : s'.error = true ∨ ¬ k.Has w) (a : s'.log.count (.start w) = s.log.count (.start w)) (b : s'.log.count (.fin w) = s.log.count (.fin w))

theorem Adv.tally {s s' : St} {w : Work} (h : Adv k s s' w) (he : s.error = true → s'.error = true)
    (hi : Tally (k.Has w) s.error (stg s w) (s.log.count (.start w)) (s.log.count (.fin w))) :
    Tally (k.Has w) s'.error (stg s' w) (s'.log.count (.start w)) (s'.log.count (.fin w)) := by
  have hee : s'.error = false → s.error = false := by
    intro h
    cases h' : s.error
    · rfl
    · rw [he h'] at h; cases h
  obtain ⟨h1, h2, h3, h4⟩ := hi
  cases h with
  | same g a b =>
    rw [g, a, b]
    exact ⟨h1, h2, h3, fun hg => ⟨(h4 hg).1, (h4 hg).2.1, fun he' => (h4 hg).2.2 (hee he')⟩⟩
  | start has g g' a b =>
    rw [g', a, b]
    obtain ⟨e1, e2⟩ := h2 g
    rw [e1, e2]
    exact ⟨fun h => absurd has h, fun h => by omega, fun _ => ⟨rfl, rfl⟩, fun h => by omega⟩
  | fin has g g' a b =>
    rw [g', a, b]
    obtain ⟨e1, e2⟩ := h3 g
    rw [e1, e2]
    exact ⟨fun h => absurd has h, fun h => by omega, fun h => by omega, fun _ => ⟨rfl, Nat.le_refl _, fun _ _ => rfl⟩⟩
  | skip g g' why a b =>
    rw [g', a, b]
    obtain ⟨e1, e2⟩ := h2 g
    rw [e1, e2]
    refine ⟨fun _ => ⟨rfl, rfl⟩, fun h => by omega, fun h => by omega, fun _ => ⟨rfl, Nat.zero_le _, fun h5 h6 => ?_⟩⟩
    rcases why with h | h
    · rw [h] at h5; cases h5
    · exact absurd h6 h

theorem announce_count {s : St} {n : Int} (w : Work) : (announce k s n).count (.start w) = s.log.count (.start w) ∧ (announce k s n).count (.fin w) = s.log.count (.fin w) := by
  unfold announce
  split <;> simp [List.count_cons]

theorem tileStep_adv {s s' : St} {rd p i} (hl : i < k.tiles) (hi : TInv k s) (h : TileStep k rd s p i s') (w : Work) : Adv k s s' w := by
  have ho := hi p i hl
  have hp2 : p = true → k.twoPass = true := by
    intro hp
    subst hp
    have hna : s.tile true i ≠ .absent := by cases h <;> simp_all
    cases h2 : k.twoPass
    · exact absurd ((hi true i hl).abs.2 (Or.inr h2)) hna
    · rfl
  -- the stages of other work stay
  have other : ∀ {v : TileSt} {s' : St}, s'.tile = upd2 s.tile p i v → s'.filt = s.filt → (∀ y, w ≠ .tile p i y) → stg s' w = stg s w := by
    intro v s' a b c
    cases w with
    | tile q j y =>
      simp only [stg, a]
      rw [upd2_ne _ _ (fun h => c y (by rw [h.1, h.2]))]
    | filt g y => simp only [stg, b]
  have key : ∀ {v : TileSt} {s' : St}, s'.tile = upd2 s.tile p i v → s'.filt = s.filt → s'.log = s.log → (∀ y, tstg y v = tstg y (s.tile p i) ∨
      (tstg y (s.tile p i) = 0 ∧ tstg y v = 2 ∧ (s'.error = true ∨ ¬ k.Has (.tile p i y)))) → Adv k s s' w := by
    intro v s' a b c d
    by_cases hw : ∃ y, w = .tile p i y
    · obtain ⟨y, rfl⟩ := hw
      rcases d y with d | ⟨d1, d2, d3⟩
      · exact .same (by simp only [stg, a, upd2_same]; exact d) (by rw [c]) (by rw [c])
      · exact .skip d1 (by simp only [stg, a, upd2_same]; exact d2) d3 (by rw [c]) (by rw [c])
    · exact .same (other a b fun y h => hw ⟨y, h⟩) (by rw [c]) (by rw [c])
  cases h with
  | find hq => exact key rfl rfl rfl fun y => Or.inl (by rw [hq]; rfl)
  | @skip z hq he =>
    refine key rfl rfl rfl fun y => ?_
    rw [hq]
    by_cases h : y = z
    · subst h; right; exact ⟨by simp [tstg], by simp [tstg], Or.inl he⟩
    · left
      simp only [tstg]
      by_cases h' : y < z
      · rw [if_pos h', if_pos (by omega)]
      · rw [if_neg h', if_neg (by omega)]
  | @start z hq he =>
    by_cases hw : w = .tile p i z
    · subst hw
      rw [hq] at ho
      refine .start ⟨hl, ho.rows.1, ho.rows.2, hp2⟩ ?_ ?_ ?_ ?_
      · simp [stg, hq, tstg]
      · simp [stg, tstg]
      · simp [List.count_cons]
      · simp [List.count_cons]
    · refine .same ?_ ?_ ?_
      · by_cases hw' : ∃ y, w = .tile p i y
        · obtain ⟨y, rfl⟩ := hw'
          have hyz : y ≠ z := fun h => hw (by rw [h])
          simp [stg, hq, tstg, hyz]
        · exact other rfl rfl fun y h => hw' ⟨y, h⟩
      · simp [List.count_cons, Ne.symm hw]
      · simp [List.count_cons]
  | @fin z e hq =>
    by_cases hw : w = .tile p i z
    · subst hw
      rw [hq] at ho
      refine .fin ⟨hl, ho.rows.1, ho.rows.2, hp2⟩ ?_ ?_ ?_ ?_
      · simp [stg, hq, tstg]
      · simp [stg, tstg]
      · simp [List.count_cons]
      · simp [List.count_cons]
    · refine .same ?_ ?_ ?_
      · by_cases hw' : ∃ y, w = .tile p i y
        · obtain ⟨y, rfl⟩ := hw'
          have hyz : y ≠ z := fun h => hw (by rw [h])
          simp only [stg, hq, tstg, upd2_same, if_neg hyz]
          by_cases h' : y < z
          · rw [if_pos h', if_pos (by omega)]
          · rw [if_neg h', if_neg (by omega)]
        · exact other rfl rfl fun y h => hw' ⟨y, h⟩
      · simp [List.count_cons]
      · simp [List.count_cons, Ne.symm hw]
  | @or z e hq =>
    refine key rfl rfl rfl fun y => ?_
    rw [hq]
    split
    · left; rfl
    · rename_i hz
      by_cases h : y < z + 1
      · left; simp [tstg, h]
      · right
        refine ⟨by simp [tstg, h], rfl, Or.inr fun hh => ?_⟩
        have := hh.2.2.1
        omega
  | again hq => exact key rfl rfl rfl fun y => Or.inl (by rw [hq]; rfl)
  | wait hq => exact key rfl rfl rfl fun y => Or.inl (by rw [hq]; rfl)
  | next hq => exact key rfl rfl rfl fun y => Or.inl (by rw [hq]; split <;> rfl)
  | last hq => exact key rfl rfl rfl fun y => Or.inl (by rw [hq]; rfl)
  | sub hq => exact key rfl rfl rfl fun y => Or.inl (by rw [hq]; rfl)
  | @exit n hq =>
    refine .same ?_ (announce_count w).1 (announce_count w).2
    by_cases hw' : ∃ y, w = .tile p i y
    · obtain ⟨y, rfl⟩ := hw'
      simp [stg, hq, tstg]
    · exact other rfl rfl fun y h => hw' ⟨y, h⟩

theorem fstg_entry (g : Stage) : fstg g (pos (.at (entry (firstTy k)))) = 0 ∨ (fstg g (pos (.at (entry (firstTy k)))) = 2 ∧ ¬ k.uses g) := by
  unfold firstTy
  cases h1 : k.deblock <;> cases h2 : k.cdef <;> cases h3 : k.lr <;> cases h4 : k.resize <;> cases g <;>
    simp [entry, pos, Pc.pos, fstg, Stage.at, Cfg.uses, h1, h2, h3, h4]

theorem fstg_zero (g : Stage) : fstg g 0 = 0 := by cases g <;> simp [fstg, Stage.at]

theorem fstg_late {g : Stage} {n : Nat} (h : 14 ≤ n) : fstg g n = 2 := by
  have : g.at ≤ 13 := by cases g <;> simp [Stage.at]
  unfold fstg
  rw [if_neg (by omega), if_neg (by omega)]

theorem fstg_rows {n : Nat} (h : 6 ≤ n) : fstg .rows n = 2 := by
  have : Stage.rows.at = 5 := rfl
  unfold fstg
  rw [if_neg (by omega), if_neg (by omega)]

theorem filtStep_adv {s s' : St} {y} (hl : y < k.sbh) (hst : StInv k s) (hf : FrontInv k s) (h : FiltStep k s y s') (w : Work) : Adv k s s' w := by
  have hph := filtStep_phase hf h
  obtain ⟨f, hf⟩ := hf.2 hph
  have other : ∀ {v : FiltSt} {s' : St}, s'.tile = s.tile → s'.filt = upd s.filt y v → (∀ g, w ≠ .filt g y) → stg s' w = stg s w := by
    intro v s' a b c
    cases w with
    | tile q j z => simp only [stg, a]
    | filt g z =>
      simp only [stg, b]
      rw [upd_ne _ _ (fun h => c g (by rw [h]))]
  have key : ∀ {v : FiltSt} {s' : St}, s'.tile = s.tile → s'.filt = upd s.filt y v → s'.log = s.log → (∀ g, fstg g (pos v) = fstg g (pos (s.filt y)) ∨
      (fstg g (pos (s.filt y)) = 0 ∧ fstg g (pos v) = 2 ∧ (s'.error = true ∨ ¬ k.Has (.filt g y)))) → Adv k s s' w := by
    intro v s' a b c d
    by_cases hw : ∃ g, w = .filt g y
    · obtain ⟨g, rfl⟩ := hw
      rcases d g with d | ⟨d1, d2, d3⟩
      · exact .same (by simp only [stg, b, upd_same]; exact d) (by rw [c]) (by rw [c])
      · exact .skip d1 (by simp only [stg, b, upd_same]; exact d2) d3 (by rw [c]) (by rw [c])
    · exact .same (other a b fun g h => hw ⟨g, h⟩) (by rw [c]) (by rw [c])
  cases h with
  | @find ty recon db hq hr ht =>
    obtain ⟨rfl, h2, rfl, rfl, rfl⟩ := filt_pos_of_queued hf hq hr
    have hent : ∀ g, fstg g (pos (.at (entry (firstTy k)))) = fstg g (pos (s.filt y)) ∨
      (fstg g (pos (s.filt y)) = 0 ∧ fstg g (pos (.at (entry (firstTy k)))) = 2 ∧ ((tilesError k s false) = true ∨ ¬ k.Has (.filt g y))) := by
      intro g
      have h0 : fstg g (pos (s.filt y)) = 0 := by rw [hq]; simp [pos, fstg_zero]
      rw [h0]
      rcases fstg_entry (k := k) g with h | ⟨h, h'⟩
      · exact Or.inl h
      · exact Or.inr ⟨rfl, h, Or.inr fun hh => h' hh.2⟩
    by_cases h1 : y + 1 < k.sbh
    · have habs : s.filt (y + 1) = .absent := by
        rcases hf.above (y + 1) (by omega) with h | h
        · omega
        · exact h
      by_cases hw : ∃ g, w = .filt g (y + 1)
      · obtain ⟨g, rfl⟩ := hw
        refine .same ?_ rfl rfl
        simp only [stg, habs, if_pos h1]
        rw [upd_ne _ _ (by omega), upd_same]
        simp [pos]
      · by_cases hw' : ∃ g, w = .filt g y
        · obtain ⟨g, rfl⟩ := hw'
          rcases hent g with d | ⟨d1, d2, d3⟩
          · exact .same (by simp only [stg, upd_same]; exact d) rfl rfl
          · exact .skip d1 (by simp only [stg, upd_same]; exact d2) d3 rfl rfl
        · refine .same ?_ rfl rfl
          cases w with
          | tile q j z => rfl
          | filt g z =>
            simp only [stg]
            rw [upd_ne _ _ (fun h => hw' ⟨g, by rw [h]⟩), if_pos h1, upd_ne _ _ (fun h => hw ⟨g, by rw [h]⟩)]
    · exact key (v := .at (entry (firstTy k))) rfl (by simp [h1]) rfl hent
  | findCdef hq => exact key rfl rfl rfl fun g => Or.inl (by rw [hq]; cases g <;> simp [fstg, Stage.at, pos, entry, Pc.pos])
  | @findRows ty db hq hne hdb =>
    have h1 := hst y
    rw [hq] at h1
    rcases h1 with h1 | ⟨rfl, _, h1⟩ | ⟨rfl, _⟩
    · cases h1 rfl
    · exact key rfl rfl rfl fun g => Or.inl (by rw [hq]; cases g <;> simp [fstg, Stage.at, pos, entry, Pc.pos])
    · cases hne rfl
  | @run pc s' hq h2 =>
    have hok := hst y
    rw [hq] at hok
    have hpos : pos (s.filt y) = pc.pos := by rw [hq]; rfl
    have late : ∀ {v : FiltSt} {s1 : St}, s1.tile = s.tile → s1.filt = upd s.filt y v → s1.log = s.log → 14 ≤ pc.pos → 14 ≤ pos v → Adv k s s1 w := by
      intro v s1 a b c d e
      refine key a b c fun g => Or.inl ?_
      rw [hpos, fstg_late d, fstg_late e]
    cases pc with
    | st g =>
      simp only [filtRun] at h2
      split at h2
      · rename_i he
        cases h2
        by_cases hw : w = .filt g y
        · subst hw
          refine .start ⟨hl, ?_⟩ ?_ ?_ ?_ ?_
          · cases g <;> simp_all [stOk, enabled, Cfg.uses]
          · simp only [stg, hpos]; cases g <;> simp [fstg, Stage.at, Pc.pos]
          · simp only [stg, upd_same]; cases g <;> simp [fstg, Stage.at, pos, Pc.pos]
          · simp [List.count_cons]
          · simp [List.count_cons]
        · refine .same ?_ ?_ ?_
          · by_cases hw' : ∃ g, w = .filt g y
            · obtain ⟨g', rfl⟩ := hw'
              have hgg : g' ≠ g := fun h => hw (by rw [h])
              simp only [stg, upd_same, hpos]
              cases g <;> cases g' <;> simp [fstg, Stage.at, pos, Pc.pos] at hgg ⊢
            · exact other rfl rfl fun y h => hw' ⟨y, h⟩
          · simp [List.count_cons, Ne.symm hw]
          · simp [List.count_cons]
      · rename_i he
        cases h2
        refine key rfl rfl rfl fun g' => ?_
        rw [hpos]
        by_cases hg : g' = g
        · subst hg
          right
          refine ⟨by cases g' <;> simp [fstg, Stage.at, Pc.pos], ?_, ?_⟩
          · cases g' <;> cases h1 : k.deblock <;> cases h2 : k.cdef <;> cases h3 : k.lr <;> simp [after, h1, h2, h3, Pc.pos, fstg, Stage.at, pos]
          · by_cases hen : enabled k g' = true
            · left
              dsimp only
              cases hx : s.error
              · exact absurd ⟨hen, hx⟩ he
              · rfl
            · right
              intro hh
              cases g' <;> simp [enabled] at hen <;> simp [Cfg.Has, Cfg.uses, hen] at hh
        · left
          cases g <;> cases g' <;> cases h1 : k.deblock <;> cases h2 : k.cdef <;> cases h3 : k.lr <;> simp [after, h1, h2, h3, Pc.pos, fstg, Stage.at, pos] at hg ⊢
    | run g =>
      cases h2
      by_cases hw : w = .filt g y
      · subst hw
        refine .fin ⟨hl, ?_⟩ ?_ ?_ ?_ ?_
        · cases g <;> simp_all [stOk, Cfg.uses]
        · simp only [stg, hpos]; cases g <;> simp [fstg, Stage.at, Pc.pos]
        · simp only [stg, upd_same]
          cases g <;> cases h1 : k.deblock <;> cases h2 : k.cdef <;> cases h3 : k.lr <;> simp [after, h1, h2, h3, Pc.pos, fstg, Stage.at, pos]
        · simp [List.count_cons]
        · simp [List.count_cons]
      · refine .same ?_ ?_ ?_
        · by_cases hw' : ∃ g, w = .filt g y
          · obtain ⟨g', rfl⟩ := hw'
            have hgg : g' ≠ g := fun h => hw (by rw [h])
            simp only [stg, upd_same, hpos]
            cases g <;> cases g' <;> cases h1 : k.deblock <;> cases h2 : k.cdef <;> cases h3 : k.lr <;> simp [after, h1, h2, h3, Pc.pos, fstg, Stage.at, pos] at hgg ⊢
          · exact other rfl rfl fun y h => hw' ⟨y, h⟩
        · simp [List.count_cons]
        · simp [List.count_cons, Ne.symm hw]
    | colsChk =>
      simp only [filtRun] at h2
      split at h2 <;> cases h2 <;> exact key rfl rfl rfl fun g => Or.inl (by rw [hpos]; cases g <;> simp [fstg, Stage.at, pos, Pc.pos])
    | rowsChk =>
      simp only [filtRun] at h2
      split at h2 <;> cases h2 <;> exact key rfl rfl rfl fun g => Or.inl (by rw [hpos]; cases g <;> simp [fstg, Stage.at, pos, Pc.pos])
    | rowsLoad => cases h2; exact key rfl rfl rfl fun g => Or.inl (by rw [hpos]; cases g <;> simp [fstg, Stage.at, pos, Pc.pos])
    | rowsStore e => cases h2; exact key rfl rfl rfl fun g => Or.inl (by rw [hpos]; cases g <;> simp [fstg, Stage.at, pos, Pc.pos])
    | rowsOr => cases h2; exact key rfl rfl rfl fun g => Or.inl (by rw [hpos]; cases g <;> simp [fstg, Stage.at, pos, Pc.pos])
    | lock =>
      simp only [filtRun] at h2
      split at h2 <;> cases h2
      refine late rfl rfl rfl (by simp [Pc.pos]) ?_
      by_cases hp : FRAME_ERROR ≤ (if k.twoPass then s.pub1 else 0)
      · rw [if_pos hp]; simp [pos, Pc.pos]
      · rw [if_neg hp]; simp [pos, Pc.pos]
    | scan i =>
      simp only [filtRun] at h2
      (repeat' split at h2) <;> cases h2 <;> exact late rfl rfl rfl (by simp [Pc.pos]) (by simp [pos, Pc.pos])
    | _ => cases h2; exact late rfl rfl rfl (by simp [Pc.pos]) (by simp [pos, Pc.pos])
  | @exit n hq =>
    refine .same ?_ (announce_count w).1 (announce_count w).2
    by_cases hw' : ∃ g, w = .filt g y
    · obtain ⟨g, rfl⟩ := hw'
      simp only [stg, hq, upd_same]
      cases g <;> simp [fstg, Stage.at, pos]
    · exact other rfl rfl fun y h => hw' ⟨y, h⟩

theorem entStep_adv {s s' : St} {y} (h : EntStep k s y s') (w : Work) : Adv k s s' w := by
  have hs := entStep_same h
  have hst : stg s' w = stg s w := by
    cases w with
    | tile q j z => simp only [stg, hs.2.1]
    | filt g z => simp only [stg, hs.2.2.2.2.1]
  cases h with
  | exit hq => exact .same hst (announce_count w).1 (announce_count w).2
  | _ => exact .same hst rfl rfl

section ok
variable (hk : k.Ok)
include hk

theorem step_error {s s' : St} {rd bad} (h : Step k rd bad s s') : s.error = true → s'.error = true := by
  cases h with
  | refError => exact fun _ => rfl
  | tile _ h => exact (tileStep_same h).2.2.2.2.2.2.2.2.2.2.2.2.2
  | filt _ h => exact (filtStep_same h).2.2.2.1
  | ent _ h => exact (entStep_same h).2.2.2.1
  | _ => exact id

theorem step_adv {s s' : St} {rd bad} (ht : TInv k s) (hst : StInv k s) (hf : FrontInv k s) (h : Step k rd bad s s') (w : Work) : Adv k s s' w := by
  have create : ∀ {s' : St} (p : Bool), (∀ q i, s'.tile q i = if q = p ∧ i < k.tiles then .queued (k.first i) else s.tile q i) → (∀ i < k.tiles, s.tile p i = .absent) →
      (∀ y, pos (s'.filt y) = pos (s.filt y)) → s'.log = s.log → Adv k s s' w := by
    intro s' p a b c d
    cases w with
    | tile q i y =>
      have ha := a q i
      split at ha
      · rename_i h
        obtain ⟨rfl, h2⟩ := h
        by_cases hy : y < k.first i
        · refine .skip ?_ ?_ (Or.inr fun hh => ?_) (by rw [d]) (by rw [d])
          · simp [stg, b i h2, tstg]
          · simp [stg, ha, tstg, hy]
          · have := hh.2.1; omega
        · refine .same ?_ (by rw [d]) (by rw [d])
          simp [stg, ha, b i h2, tstg, hy]
      · exact .same (by simp only [stg, ha]) (by rw [d]) (by rw [d])
    | filt g y => exact .same (by simp only [stg, c]) (by rw [d]) (by rw [d])
  have hcr : s.phase ≠ 2 → Adv k s (create2 k s) w := by
    intro hp
    refine create false (fun q i => rfl) (fun i hi => (ht false i hi).abs.2 (by simpa [notYet] using hp)) (fun y => ?_) rfl
    simp only [create2, hf.absent hp]
    unfold upd; split <;> simp [pos]
  cases h with
  | create0 h2 hp => exact hcr (by omega)
  | create1 h2 hp => exact create true (fun q i => rfl) (fun i hi => (ht true i hi).abs.2 (by simp [notYet, hp])) (fun y => rfl) rfl
  | create2 h2 hp => exact hcr (by omega)
  | refError => exact .same (by cases w <;> rfl) rfl rfl
  | tile hl h => exact tileStep_adv hl ht h w
  | filt hl h => exact filtStep_adv hl hst hf h w
  | ent hl h => exact entStep_adv h w

theorem step_log {s s' : St} {rd bad} (ht : TInv k s) (hst : StInv k s) (hf : FrontInv k s) (hi : LogInv k s) (h : Step k rd bad s s') : LogInv k s' :=
  fun w => (step_adv hk ht hst hf h w).tally (step_error hk h) (hi w)

omit hk in
theorem LogInv.init : LogInv k (.init k) := by
  intro w
  have h0 : stg (.init k) w = 0 := by
    cases w with
    | tile p i y => rfl
    | filt g y => simp [stg, St.init, pos, fstg_zero]
  rw [h0]
  simp [Tally, St.init]

/-! ## Order -/

/-- Every piece of work began after what it needs. -/
def Ordered (k : Cfg) : List Ev → Prop
  | [] => True
  | .start w :: l => (∀ d, Needs k w d → k.Has d → .fin d ∈ l) ∧ Ordered k l
  | _ :: l => Ordered k l

theorem over_of_tprog {s : St} {p : Bool} {i y : Nat} (ht : TInv k s) (hl : i < k.tiles) (he : s.error = false) (hy : y < s.tprog p i) : stg s (.tile p i y) = 2 ∨ y < k.first i := by
  have ho := ht p i hl
  have hf := first_lt_last hk hl
  rcases ho.val with h | ⟨_, h, _⟩
  · simp only [stg]
    rw [h] at hy
    cases hs : s.tile p i <;> rw [hs] at hy <;> simp only [tileVal, tstg] at hy ⊢ <;> simp_all
    all_goals omega
  · rw [he] at h; cases h

omit hk in
theorem fin_of_over {s : St} {w : Work} (hi : LogInv k s) (he : s.error = false) (hh : k.Has w) (hg : stg s w = 2) : .fin w ∈ s.log := by
  obtain ⟨_, _, _, h4⟩ := hi w
  obtain ⟨h5, _, h6⟩ := h4 hg
  have := h6 he hh
  exact List.count_pos_iff.1 (by omega)

theorem ordered_tile {s : St} {p i y} (ht : TInv k s) (hl : i < k.tiles) (hi : LogInv k s) (hq : s.tile p i = .taken y) (he : s.error = false)
    (d : Work) (hn : Needs k (.tile p i y) d) (hh : k.Has d) : .fin d ∈ s.log := by
  refine fin_of_over hi he hh ?_
  cases hn with
  | above _ _ z => simp [stg, hq, tstg]
  | entropy =>
    have hy := (ht false i hl).ent y hq (hh.2.2.2 rfl) rfl he
    rcases over_of_tprog hk ht hl he hy with h | h
    · exact h
    · have := hh.2.1; omega

theorem ordered_filt {s : St} {g y} (hl : y < k.sbh) (ht : TInv k s) (hst : StInv k s) (hr : ReadInv k s) (hd : DbInv k s) (hp : LpfInv k s) (hi : LogInv k s)
    (hq : s.filt y = .at (.st g)) (hen : enabled k g = true) (he : s.error = false) (d : Work) (hn : Needs k (.filt g y) d) (hh : k.Has d) : .fin d ∈ s.log := by
  refine fin_of_over hi he hh ?_
  have hpos : 1 ≤ pos (s.filt y) := by rw [hq]; exact Pc.pos_pos _
  have hok := hst y
  rw [hq] at hok
  -- the row above has been saved
  have above : ∀ z, z + 1 = y → 8 ≤ pos (s.filt y) → k.deblock = true ∨ k.cdef = true ∨ k.lr = true → 7 ≤ pos (s.filt z) := by
    intro z hz h8 hu
    cases hdb : k.deblock with
    | true =>
      rcases (hd hdb).val with h | ⟨_, h2, h3⟩
      · rw [he] at h; cases h.2.1
      · have h4 := h3 y hl (by omega)
        have := (h2 z (by omega)).2 (by omega)
        omega
    | false =>
      have hu' : k.cdef = true ∨ k.lr = true := by simpa [hdb] using hu
      have := (hp hdb hu').above y hl h8 (by omega)
      rwa [show y - 1 = z by omega] at this
  cases hn with
  | recon _ i _ =>
    rcases over_of_tprog hk ht hh.1 he (hr y hl hpos he i hh.1 hh.2.1 hh.2.2.1) with h | h
    · exact h
    · have := hh.2.1; omega
  | @stage _ g' _ hg =>
    simp only [stg, hq]
    cases g <;> cases g' <;> simp [Stage.no] at hg <;> simp [fstg, pos, Pc.pos, Stage.at]
  | deblock z hdb =>
    rcases (hd hdb).val with h | ⟨_, h2, h3⟩
    · rw [he] at h; cases h.2.1
    · have h4 := h3 (z + 1) hl (by rw [hq]; simp [pos, Pc.pos])
      have := (h2 z (by omega)).2 (by omega)
      exact fstg_rows (by omega)
  | cdef z =>
    have := above z rfl (by rw [hq]; simp [pos, Pc.pos]) (Or.inr (Or.inl hen))
    exact fstg_rows (by omega)
  | lr z =>
    have := above z rfl (by rw [hq]; simp [pos, Pc.pos]) (Or.inr (Or.inr hen))
    exact fstg_rows (by omega)

omit hk in
theorem ordered_announce {s : St} {n : Int} (h : Ordered k s.log) : Ordered k (announce k s n) := by
  unfold announce
  split <;> exact h

theorem step_ordered {s s' : St} {rd bad} (ht : TInv k s) (hst : StInv k s) (hr : ReadInv k s) (hd : DbInv k s) (hp : LpfInv k s) (hi : LogInv k s)
    (ho : Ordered k s.log) (h : Step k rd bad s s') : Ordered k s'.log := by
  cases h with
  | tile hl h =>
    cases h with
    | start hq he => exact ⟨ordered_tile hk ht hl hi hq he, ho⟩
    | fin e hq => exact ho
    | exit => exact ordered_announce ho
    | _ => exact ho
  | filt hl h =>
    cases h with
    | run hq h2 =>
      rename_i pc
      cases pc with
      | st g =>
        simp only [filtRun] at h2
        split at h2 <;> cases h2
        · rename_i hg
          exact ⟨ordered_filt hk hl ht hst hr hd hp hi hq hg.1 hg.2, ho⟩
        · exact ho
      | run g => cases h2; exact ho
      | _ =>
        simp only [filtRun] at h2
        (repeat' split at h2) <;> cases h2 <;> exact ho
    | exit => exact ordered_announce ho
    | _ => exact ho
  | ent hl h =>
    cases h with
    | exit => exact ordered_announce ho
    | _ => exact ho
  | _ => exact ho

omit hk in
theorem Ordered.split {l pre post : List Ev} {w d : Work} (h : Ordered k l) (hl : l = pre ++ .start w :: post) (hn : Needs k w d) (hh : k.Has d) : .fin d ∈ post := by
  subst hl
  induction pre with
  | nil => exact h.1 d hn hh
  | cons e pre ih =>
    cases e with
    | start v => exact ih h.2
    | fin v => exact ih h
    | exit b => exact ih h

end ok
end Dav1d.Sched
