import Verif.Thread.SchedFilt
/-!
# What is complete when a filter begins
-/
namespace Dav1d.Sched
variable {k : Cfg}

/-- When a filter task is under way, its tiles are decoded, unless there was an error. -/
def ReadInv (k : Cfg) (s : St) : Prop :=
  ∀ y < k.sbh, 1 ≤ pos (s.filt y) → s.error = false → ∀ i < k.tiles, k.first i ≤ y → y < k.last i → y < s.tprog false i

/-- Deblocking goes from top to bottom: `deblock_progress` counts the rows done, and only the next row is worked on. -/
structure DbOk (k : Cfg) (filt : Nat → FiltSt) (dbp : Nat) (error : Bool) : Prop where
  val : dbp = TILE_ERROR ∧ error = true ∧ (∀ y < k.sbh, filt y ≠ .at (.rowsStore false)) ∨
    (dbp ≤ k.sbh ∧ (∀ y < k.sbh, 8 ≤ pos (filt y) ↔ y < dbp) ∧ ∀ y < k.sbh, 4 ≤ pos (filt y) → y ≤ dbp)
  err : ∀ y, filt y = .at (.rowsStore true) → error = true

def DbInv (k : Cfg) (s : St) : Prop := k.deblock = true → DbOk k s.filt s.dbp s.error

/-- Without deblocking, the bits of `copy_lpf_progress` tell the rows saved. -/
structure LpfOk (k : Cfg) (filt : Nat → FiltSt) (lpf : Nat → Bool) : Prop where
  bits : ∀ y < k.sbh, lpf y = true ↔ 7 ≤ pos (filt y)
  above : ∀ y < k.sbh, 8 ≤ pos (filt y) → y ≠ 0 → 7 ≤ pos (filt (y - 1))

def LpfInv (k : Cfg) (s : St) : Prop := k.deblock = false → k.cdef = true ∨ k.lr = true → LpfOk k s.filt s.lpf

theorem DbOk.upd {filt : Nat → FiltSt} {dbp : Nat} {e e' : Bool} {y : Nat} {v : FiltSt} (h : DbOk k filt dbp e) (he : e = true → e' = true)
    (h8 : 8 ≤ pos v ↔ 8 ≤ pos (filt y)) (h4 : 4 ≤ pos v → 4 ≤ pos (filt y) ∨ y ≤ dbp) (hv : ∀ b, v = .at (.rowsStore b) → (b = false → dbp ≠ TILE_ERROR) ∧ (b = true → e' = true)) :
    DbOk k (upd filt y v) dbp e' := by
  constructor
  · rcases h.val with ⟨h1, h2, h3⟩ | ⟨h1, h2, h3⟩
    · left
      refine ⟨h1, he h2, fun z hz => ?_⟩
      unfold Sched.upd
      split
      · intro hc
        exact (hv false hc).1 rfl h1
      · exact h3 z hz
    · right
      refine ⟨h1, fun z hz => ?_, fun z hz => ?_⟩ <;> unfold Sched.upd <;> split
      · rename_i hy
        subst hy
        rw [h8]; exact h2 z hz
      · exact h2 z hz
      · rename_i hy
        subst hy
        intro h5
        rcases h4 h5 with h6 | h6
        · exact h3 z hz h6
        · exact h6
      · exact h3 z hz
  · intro z
    unfold Sched.upd
    split
    · intro hc
      exact (hv true hc).2 rfl
    · exact fun hc => he (h.err z hc)

theorem LpfOk.upd {filt : Nat → FiltSt} {lpf : Nat → Bool} {y : Nat} {v : FiltSt} (h : LpfOk k filt lpf) (h7 : 7 ≤ pos v ↔ 7 ≤ pos (filt y))
    (h8 : 8 ≤ pos v → 8 ≤ pos (filt y) ∨ (y ≠ 0 → lpf (y - 1) = true)) (hy : y < k.sbh) : LpfOk k (upd filt y v) lpf := by
  constructor
  · intro z hz
    unfold Sched.upd
    split
    · rename_i hy
      subst hy
      rw [h7]; exact h.bits z hz
    · exact h.bits z hz
  · intro z hz
    have key : 7 ≤ pos (filt (z - 1)) → 7 ≤ pos (Sched.upd filt y v (z - 1)) := by
      unfold Sched.upd
      split
      · rename_i hy
        subst hy
        exact h7.2
      · exact id
    intro h9 h0
    apply key
    unfold Sched.upd at h9
    split at h9
    · rename_i hy
      subst hy
      rcases h8 h9 with h10 | h10
      · exact h.above z hz h10 h0
      · exact (h.bits (z - 1) (by omega)).1 (h10 h0)
    · exact h.above z hz h9 h0

section ok
variable (hk : k.Ok)
include hk

theorem tileStep_mono {s s' : St} {rd p i} (hi : TInv k s) (hl : i < k.tiles) (h : TileStep k rd s p i s') (q : Bool) (j : Nat) : s.tprog q j ≤ s'.tprog q j := by
  have ho := hi p i hl
  have hb := last_le hk hl
  have hf := first_lt_last hk hl
  have key : ∀ {v}, s.tprog p i ≤ v → s.tprog q j ≤ upd2 s.tprog p i v q j := by
    intro v hv
    unfold upd2
    split
    · rename_i h; rw [h.1, h.2]; exact hv
    · exact Nat.le_refl _
  cases h with
  | @next y e now hq =>
    apply key
    rw [hq] at ho
    have h1 := ho.val
    have h2 := ho.rows
    simp only [tileVal, errSt, rowsOk] at h1 h2
    rcases h1 with h | ⟨h, h', h''⟩
    · have := progress_le hk (y := y) (b := k.last i) (by omega) hb e
      omega
    · rw [h'']; simp [progress, h]
  | @last e hq =>
    apply key
    rw [hq] at ho
    have h1 := ho.val
    simp only [tileVal, errSt] at h1
    rcases h1 with h | ⟨h, h', h''⟩
    · have := progress_le hk (y := k.last i - 1) (b := k.last i) (by omega) hb e
      omega
    · rw [h'']; simp [progress, h]
  | _ => exact Nat.le_refl _

omit hk in
theorem ReadInv.filt {s s' : St} {y : Nat} {v : FiltSt} (hi : ReadInv k s) (hf : s'.filt = upd s.filt y v) (hy : 1 ≤ pos (s.filt y)) (ht : s'.tprog = s.tprog)
    (he : s.error = true → s'.error = true) : ReadInv k s' := by
  intro z hz hp hne
  have : s.error = false := by
    cases h : s.error
    · rfl
    · rw [he h] at hne; cases hne
  rw [ht]
  refine hi z hz ?_ this
  rw [hf] at hp
  by_cases h : z = y
  · subst h; exact hy
  · rwa [upd_ne _ _ h] at hp

theorem filtStep_read {s s' : St} {y} (hfr : FrontInv k s) (hi : ReadInv k s) (h : FiltStep k s y s') : ReadInv k s' := by
  cases h with
  | @find ty recon db hq hr ht =>
    have hph : s.phase = 2 := by
      by_cases hp : s.phase = 2
      · exact hp
      · rw [hfr.1 hp y] at hq; cases hq
    obtain ⟨f, hf⟩ := hfr.2 hph
    obtain ⟨rfl, h2, rfl, rfl, rfl⟩ := filt_pos_of_queued hf hq hr
    obtain ⟨_, h3, h4, h5⟩ := hf.here h2
    intro z hz hp hne i hi' h6 h7
    dsimp only at hp hne ⊢
    by_cases hzy : z = y
    · subst hzy
      have hrow := row_unique hk (tile_row hk hi') h3 h6 h7 h4 h5
      have := ht (i % k.cols) (Nat.mod_lt _ hk.cols)
      rw [← hrow, Nat.div_add_mod] at this
      omega
    · rw [upd_ne _ _ hzy] at hp
      have hp' : 1 ≤ pos (s.filt z) := by
        split at hp
        · by_cases hz1 : z = y + 1
          · subst hz1
            rw [upd_same] at hp
            simp [pos] at hp
          · rwa [upd_ne _ _ hz1] at hp
        · exact hp
      have hne' : s.error = false := by
        simp only [tilesError, Bool.or_eq_false_iff] at hne
        exact hne.1
      exact hi z hz hp' hne' i hi' h6 h7
  | findCdef hq => exact ReadInv.filt hi (y := y) rfl (by rw [hq]; simp [pos]) rfl id
  | findRows hq hne => exact ReadInv.filt hi (y := y) rfl (by rw [hq]; simp [pos, hne]) rfl (fun h => by simp [h])
  | run hq h2 =>
    obtain ⟨v, h3, _, _⟩ := filtRun_filt h2
    obtain ⟨_, _, h4, h5, _⟩ := filtRun_same h2
    exact ReadInv.filt hi h3 (by rw [hq]; exact Pc.pos_pos _) h4 (fun h => by rw [h5]; exact h)
  | exit hq => exact ReadInv.filt hi (y := y) rfl (by rw [hq]; simp [pos]) rfl id

theorem step_read {s s' : St} {rd bad} (ht : TInv k s) (hf : FrontInv k s) (hi : ReadInv k s) (h : Step k rd bad s s') : ReadInv k s' := by
  have hcr : s.phase ≠ 2 → ReadInv k (create2 k s) := by
    intro hp z hz hp1
    exfalso
    simp only [create2, hf.absent hp] at hp1
    unfold upd at hp1
    split at hp1 <;> simp [pos] at hp1
  cases h with
  | create0 h2 hp => exact hcr (by omega)
  | create1 h2 hp =>
    intro z hz hp1
    have : s.filt z = .absent := hf.1 (by omega) z
    simp only [create1, this] at hp1
    simp [pos] at hp1
  | create2 h2 hp => exact hcr (by omega)
  | refError => intro z hz hp1 hne; cases hne
  | tile hl h =>
    intro z hz hp1 hne i hi' h1 h2
    obtain ⟨_, a, _, _, _, _, _, _, _, _, _, _, _, b⟩ := tileStep_same h
    rw [a] at hp1
    have : s.error = false := by
      cases h : s.error
      · rfl
      · rw [b h] at hne; cases hne
    exact Nat.lt_of_lt_of_le (hi z hz hp1 this i hi' h1 h2) (tileStep_mono hk ht hl h false i)
  | filt hl h => exact filtStep_read hk hf hi h
  | ent _ h =>
    obtain ⟨_, _, c, d, e, _⟩ := entStep_same h
    intro z hz hp1 hne
    have : s.error = false := by
      cases h : s.error
      · rfl
      · rw [d h] at hne; cases hne
    rw [e] at hp1
    rw [c]
    exact hi z hz hp1 this

theorem filtStep_db {s s' : St} {y} (hl : y < k.sbh) (hst : StInv k s) (hfr : FrontInv k s) (hi : DbInv k s) (h : FiltStep k s y s') : DbInv k s' := by
  intro hd
  have hi := hi hd
  have hs := sbh_lt hk
  cases h with
  | @find ty recon db hq hr ht =>
    have hph : s.phase = 2 := by
      by_cases hp : s.phase = 2
      · exact hp
      · rw [hfr.1 hp y] at hq; cases hq
    obtain ⟨f, hf⟩ := hfr.2 hph
    obtain ⟨rfl, h2, rfl, rfl, rfl⟩ := filt_pos_of_queued hf hq hr
    have he : s.error = true → tilesError k s false = true := fun h => by simp [tilesError, h]
    have hty : firstTy k = .stage .cols := by simp [firstTy, hd]
    have habs : y + 1 < k.sbh → s.filt (y + 1) = .absent := fun h1 => by
      rcases hf.above (y + 1) (by omega) with h | h
      · omega
      · exact h
    dsimp only
    refine DbOk.upd ?_ he ?_ ?_ ?_
    · split
      · rename_i h1
        refine DbOk.upd hi id ?_ ?_ ?_
        · rw [habs h1]; simp [pos]
        · simp [pos]
        · intro b hb; cases hb
      · exact hi
    · rw [hty]
      split
      · rw [upd_ne _ _ (by omega), hq]; simp [pos, entry, Pc.pos]
      · rw [hq]; simp [pos, entry, Pc.pos]
    · rw [hty]; simp [pos, entry, Pc.pos]
    · rw [hty]; intro b hb; cases hb
  | @findCdef db hq =>
    have := hst y
    rw [hq] at this
    simp [stOk, hd] at this
  | @findRows ty db hq hne hdb =>
    have h1 := hst y
    rw [hq] at h1
    have hq' := hq
    rcases h1 with h1 | ⟨rfl, rfl, _⟩ | ⟨rfl, _⟩
    · cases h1 rfl
    · refine DbOk.upd hi (fun h => by simp [h]) ?_ (fun _ => Or.inr hdb) (fun b hb => by cases hb)
      rw [hq]; simp [pos, entry, Pc.pos]
    · cases hne rfl
  | @run pc s' hq h2 =>
    have hok := hst y
    rw [hq] at hok
    have hpos : pos (s.filt y) = pc.pos := by rw [hq]; rfl
    -- steps that do not change the progress
    have plain : ∀ {v : FiltSt} {s1 : St}, s1.filt = upd s.filt y v → s1.dbp = s.dbp → s1.error = s.error → (8 ≤ pos v ↔ 8 ≤ pc.pos) →
        (4 ≤ pos v → 4 ≤ pc.pos ∨ y ≤ s.dbp) → (∀ b, v ≠ .at (.rowsStore b)) → DbOk k s1.filt s1.dbp s1.error := by
      intro v s1 a b c d e g
      rw [a, b, c]
      exact DbOk.upd hi id (by rw [hpos]; exact d) (by rw [hpos]; exact e) (fun b hb => absurd hb (g b))
    cases pc with
    | st g =>
      simp only [filtRun] at h2
      split at h2 <;> cases h2
      · refine plain rfl rfl rfl ?_ ?_ (fun b hb => by cases hb) <;> cases g <;> simp [pos, Pc.pos]
      · refine plain rfl rfl rfl ?_ ?_ (fun b hb => ?_) <;> cases g <;> simp_all [pos, Pc.pos, after]
    | run g =>
      cases h2
      refine plain rfl rfl rfl ?_ ?_ (fun b hb => ?_) <;> cases g <;> simp_all [pos, Pc.pos, after]
    | colsChk =>
      simp only [filtRun] at h2
      split at h2 <;> cases h2
      · exact plain rfl rfl rfl (by simp [pos, Pc.pos]) (by simp [pos]) (fun b hb => by cases hb)
      · exact plain rfl rfl rfl (by simp [pos, Pc.pos]) (fun _ => Or.inr (by omega)) (fun b hb => by cases hb)
    | rowsLoad =>
      cases h2
      refine DbOk.upd hi id (by rw [hpos]; simp [pos, Pc.pos]) (fun _ => Or.inl (by rw [hpos]; simp [Pc.pos])) (fun b hb => ?_)
      cases hb
      refine ⟨fun h1 h2 => ?_, id⟩
      have h2 : s.dbp = TILE_ERROR := h2
      rcases hi.val with h3 | h3
      · rw [h1] at h3; cases h3.2.1
      · omega
    | rowsStore e =>
      cases h2
      have h4 : 4 ≤ pos (s.filt y) := by rw [hpos]; simp [Pc.pos]
      have h8 : ¬ 8 ≤ pos (s.filt y) := by rw [hpos]; simp [Pc.pos]
      constructor
      · cases e with
        | true =>
          left
          refine ⟨rfl, hi.err y hq, fun z hz => ?_⟩
          dsimp only
          unfold upd
          split
          · intro h; cases h
          rename_i hzy
          rcases hi.val with h3 | ⟨h1, h2, h3⟩
          · exact h3.2.2 z hz
          · intro hc
            have hz4 : 4 ≤ pos (s.filt z) := by rw [hc]; simp [pos, Pc.pos]
            have hz8 : ¬ 8 ≤ pos (s.filt z) := by rw [hc]; simp [pos, Pc.pos]
            have e1 := h3 z hz hz4
            have e2 := h3 y hl h4
            rw [h2 z hz] at hz8
            rw [h2 y hl] at h8
            omega
        | false =>
          right
          rcases hi.val with h3 | ⟨h1, h2, h3⟩
          · exact absurd hq (h3.2.2 y hl)
          · have e2 := h3 y hl h4
            rw [h2 y hl] at h8
            have hy : y = s.dbp := by omega
            refine ⟨by simp [progress]; omega, fun z hz => ?_, fun z hz => ?_⟩
            · dsimp only
              simp only [progress]
              unfold upd
              split
              · rename_i h; subst h; simp [pos, Pc.pos]
              · rw [h2 z hz]; simp; omega
            · dsimp only
              simp only [progress]
              unfold upd
              split
              · rename_i h; subst h; simp
              · intro h; have := h3 z hz h; simp; omega
      · intro z hz
        dsimp only at hz ⊢
        unfold upd at hz
        split at hz
        · cases hz
        · exact hi.err z hz
    | rowsOr => simp [stOk, hd] at hok
    | rowsChk => simp [stOk, hd] at hok
    | lock =>
      simp only [filtRun] at h2
      split at h2 <;> cases h2
      refine plain rfl rfl rfl ?_ ?_ (fun b hb => ?_)
      · by_cases hp : FRAME_ERROR ≤ (if k.twoPass then s.pub1 else 0)
        · rw [if_pos hp]; simp [pos, Pc.pos]
        · rw [if_neg hp]; simp [pos, Pc.pos]
      · simp [Pc.pos]
      · by_cases hp : FRAME_ERROR ≤ (if k.twoPass then s.pub1 else 0)
        · rw [if_pos hp] at hb; cases hb
        · rw [if_neg hp] at hb; cases hb
    | scan i =>
      simp only [filtRun] at h2
      (repeat' split at h2) <;> cases h2 <;> exact plain rfl rfl rfl (by simp [pos, Pc.pos]) (by simp [Pc.pos]) (fun b hb => by cases hb)
    | _ => cases h2; exact plain rfl rfl rfl (by simp [pos, Pc.pos]) (by simp [Pc.pos]) (fun b hb => by cases hb)
  | @exit n hq =>
    exact DbOk.upd hi id (by rw [hq]; simp [pos]) (fun _ => Or.inl (by rw [hq]; simp [pos])) (fun b hb => by cases hb)

theorem step_db {s s' : St} {rd bad} (hst : StInv k s) (hf : FrontInv k s) (hi : DbInv k s) (h : Step k rd bad s s') : DbInv k s' := by
  have hcr : s.phase ≠ 2 → DbInv k (create2 k s) := by
    intro hp hd
    simp only [create2, hf.absent hp]
    refine ⟨Or.inr ⟨by omega, fun z hz => ?_, fun z hz => ?_⟩, fun z hz => ?_⟩
    · unfold upd; split <;> simp [pos]
    · unfold upd; split <;> simp [pos]
    · unfold upd at hz; split at hz <;> cases hz
  have herr : ∀ {s' : St}, s'.filt = s.filt → s'.dbp = s.dbp → (s.error = true → s'.error = true) → DbInv k s' := by
    intro s' a b c hd
    have hi := hi hd
    rw [a, b]
    exact ⟨hi.val.imp (fun h => ⟨h.1, c h.2.1, h.2.2⟩) id, fun y hy => c (hi.err y hy)⟩
  cases h with
  | create0 h2 hp => exact hcr (by omega)
  | create1 h2 hp => exact herr rfl rfl id
  | create2 h2 hp => exact hcr (by omega)
  | refError => exact herr rfl rfl (fun _ => rfl)
  | tile hl h =>
    obtain ⟨_, a, _, _, _, b, _, _, _, _, _, _, _, c⟩ := tileStep_same h
    exact herr a b c
  | filt hl h => exact filtStep_db hk hl hst hf hi h
  | ent _ h =>
    obtain ⟨_, _, _, d, e, g, _⟩ := entStep_same h
    exact herr e g d

omit hk in
theorem filtStep_lpf {s s' : St} {y} (hl : y < k.sbh) (hst : StInv k s) (hfr : FrontInv k s) (hi : LpfInv k s) (h : FiltStep k s y s') : LpfInv k s' := by
  intro hd hc
  have hi := hi hd hc
  have hor : (k.cdef || k.lr) = true := by rcases hc with h | h <;> simp [h]
  cases h with
  | @find ty recon db hq hr ht =>
    have hph : s.phase = 2 := by
      by_cases hp : s.phase = 2
      · exact hp
      · rw [hfr.1 hp y] at hq; cases hq
    obtain ⟨f, hf⟩ := hfr.2 hph
    obtain ⟨rfl, h2, rfl, rfl, rfl⟩ := filt_pos_of_queued hf hq hr
    have hty : firstTy k = .stage .rows := by simp [firstTy, hd, hor]
    have habs : y + 1 < k.sbh → s.filt (y + 1) = .absent := fun h1 => by
      rcases hf.above (y + 1) (by omega) with h | h
      · omega
      · exact h
    dsimp only
    refine LpfOk.upd ?_ ?_ ?_ hl
    · split
      · rename_i h1
        refine LpfOk.upd hi ?_ ?_ h1
        · rw [habs h1]; simp [pos]
        · simp [pos]
      · exact hi
    · rw [hty]
      split
      · rw [upd_ne _ _ (by omega), hq]; simp [pos, entry, Pc.pos]
      · rw [hq]; simp [pos, entry, Pc.pos]
    · rw [hty]; simp [pos, entry, Pc.pos]
  | @findCdef db hq hb =>
    exact LpfOk.upd hi (by rw [hq]; simp [pos, entry, Pc.pos]) (fun _ => Or.inr fun _ => hb) hl
  | @findRows ty db hq hne hdb =>
    have h1 := hst y
    rw [hq] at h1
    rcases h1 with h1 | ⟨_, _, h1⟩ | ⟨rfl, _⟩
    · cases h1 rfl
    · rw [hd] at h1; cases h1
    · cases hne rfl
  | @run pc s' hq h2 =>
    have hok := hst y
    rw [hq] at hok
    have hpos : pos (s.filt y) = pc.pos := by rw [hq]; rfl
    have plain : ∀ {v : FiltSt} {s1 : St}, s1.filt = upd s.filt y v → s1.lpf = s.lpf → (7 ≤ pos v ↔ 7 ≤ pc.pos) →
        (8 ≤ pos v → 8 ≤ pc.pos ∨ (y ≠ 0 → s.lpf (y - 1) = true)) → LpfOk k s1.filt s1.lpf := by
      intro v s1 a b c d
      rw [a, b]
      exact LpfOk.upd hi (by rw [hpos]; exact c) (by rw [hpos]; exact d) hl
    cases pc with
    | st g =>
      simp only [filtRun] at h2
      split at h2 <;> cases h2
      · refine plain rfl rfl ?_ ?_ <;> cases g <;> simp [pos, Pc.pos]
      · refine plain rfl rfl ?_ ?_ <;> cases g <;> simp_all [pos, Pc.pos, after]
    | run g =>
      cases h2
      refine plain rfl rfl ?_ ?_ <;> cases g <;> simp_all [pos, Pc.pos, after]
    | colsChk => simp [stOk, hd] at hok
    | rowsLoad => simp [stOk, hd] at hok
    | rowsStore e => simp [stOk, hd] at hok
    | rowsOr =>
      cases h2
      constructor
      · intro z hz
        dsimp only
        unfold upd
        split
        · simp [pos, Pc.pos]
        · exact hi.bits z hz
      · intro z hz h8 h0
        dsimp only at h8 ⊢
        have h8' : 8 ≤ pos (s.filt z) := by
          unfold upd at h8
          split at h8
          · simp [pos, Pc.pos] at h8
          · exact h8
        have := hi.above z hz h8' h0
        unfold upd
        split
        · simp [pos, Pc.pos]
        · exact this
    | rowsChk =>
      simp only [filtRun] at h2
      split at h2 <;> cases h2
      · exact plain rfl rfl (by simp [pos, Pc.pos]) (by simp [pos])
      · rename_i hn
        refine plain rfl rfl (by simp [pos, Pc.pos]) (fun _ => Or.inr fun h0 => ?_)
        cases hx : s.lpf (y - 1)
        · exact absurd ⟨h0, hx⟩ hn
        · rfl
    | lock =>
      simp only [filtRun] at h2
      split at h2 <;> cases h2
      refine plain rfl rfl ?_ (by simp [Pc.pos])
      by_cases hp : FRAME_ERROR ≤ (if k.twoPass then s.pub1 else 0)
      · rw [if_pos hp]; simp [pos, Pc.pos]
      · rw [if_neg hp]; simp [pos, Pc.pos]
    | scan i =>
      simp only [filtRun] at h2
      (repeat' split at h2) <;> cases h2 <;> exact plain rfl rfl (by simp [pos, Pc.pos]) (by simp [Pc.pos])
    | _ => cases h2; exact plain rfl rfl (by simp [pos, Pc.pos]) (by simp [Pc.pos])
  | @exit n hq =>
    exact LpfOk.upd hi (by rw [hq]; simp [pos]) (fun _ => Or.inl (by rw [hq]; simp [pos])) hl

omit hk in
theorem step_lpf {s s' : St} {rd bad} (hst : StInv k s) (hf : FrontInv k s) (hi : LpfInv k s) (h : Step k rd bad s s') : LpfInv k s' := by
  have hcr : s.phase ≠ 2 → LpfInv k (create2 k s) := by
    intro hp hd hc
    simp only [create2, hf.absent hp]
    refine ⟨fun z hz => ?_, fun z hz => ?_⟩
    · unfold upd; split <;> simp [pos]
    · unfold upd; split <;> simp [pos]
  cases h with
  | create0 h2 hp => exact hcr (by omega)
  | create1 h2 hp => exact hi
  | create2 h2 hp => exact hcr (by omega)
  | refError => exact hi
  | tile hl h =>
    obtain ⟨_, a, _, _, _, _, b, _⟩ := tileStep_same h
    unfold LpfInv; rw [a, b]; exact hi
  | filt hl h => exact filtStep_lpf hl hst hf hi h
  | ent _ h =>
    obtain ⟨_, _, _, _, e, _, g, _⟩ := entStep_same h
    unfold LpfInv; rw [e, g]; exact hi

end ok
end Dav1d.Sched
