import Verif.Api.Open
/-!
# C31: settings

`getFrameDelay s cores` is dav1d_get_frame_delay and `openDec` is dav1d_open on a machine with `cores` logical
processors; `none` would be an access outside the table of src/lib.c.
-/
namespace Dav1d

/-- The documented ranges, include/dav1d/dav1d.h:46-47 and 71-92: both callbacks are given, and they are both the
default ones (without a cookie) or both the user's. -/
structure ValidSettings (s : OpenSettings) : Prop where
  threads : 0 ≤ s.nThreads ∧ s.nThreads ≤ 256
  delay : 0 ≤ s.maxFrameDelay ∧ s.maxFrameDelay ≤ 256
  op : 0 ≤ s.operatingPoint ∧ s.operatingPoint ≤ 31
  frameType : 0 ≤ s.decodeFrameType ∧ s.decodeFrameType ≤ 3
  alloc : (s.alloc = .default ∧ s.release = .default ∧ s.cookie = false) ∨ (s.alloc = .user ∧ s.release = .user)

/-- The threads used. -/
def threadsUsed (s : OpenSettings) (cores : Int) : Nat :=
  if s.nThreads = 0 then (max 1 (min cores 256)).toNat else s.nThreads.toNat

/-- The least number whose square is at least `n`, but at most 8. -/
def IsRoot8 (n k : Nat) : Prop := (k ≤ 8 ∧ 1 ≤ k) ∧ (n ≤ k * k ∨ k = 8) ∧ ∀ j, n ≤ j * j → k ≤ j

theorem fcLut_root : ∀ n, 1 ≤ n → n < 50 → ∃ k, fcLut[n - 1]? = some k ∧ (1 ≤ k ∧ k ≤ 7) ∧ n ≤ k * k ∧ (k - 1) * (k - 1) < n := by
  have h : ∀ i : Fin 49, ∃ k, fcLut[i.1]? = some k ∧ (1 ≤ k ∧ k ≤ 7) ∧ i.1 + 1 ≤ k * k ∧ (k - 1) * (k - 1) < i.1 + 1 := by
    intro i
    have : ∀ i : Fin 49, ((fcLut[i.1]?).any (fun k => decide (1 ≤ k ∧ k ≤ 7 ∧ i.1 + 1 ≤ k * k ∧ (k - 1) * (k - 1) < i.1 + 1))) = true := by decide
    have := this i
    cases hk : fcLut[i.1]? with
    | none => rw [hk] at this; cases this
    | some k =>
      rw [hk, Option.any_some, decide_eq_true_eq] at this
      exact ⟨k, rfl, ⟨this.1, this.2.1⟩, this.2.2⟩
  intro n h1 h2
  obtain ⟨k, a, b, c, d⟩ := h ⟨n - 1, by omega⟩
  exact ⟨k, a, b, by simp only at c; omega, by simp only at d; omega⟩

theorem root_exists : ∀ n, 1 ≤ n → ∃ k, (if n < 50 then fcLut[n - 1]? else some 8) = some k ∧ IsRoot8 n k := by
  intro n h1
  split
  · rename_i h2
    obtain ⟨k, a, b, c, d⟩ := fcLut_root n h1 h2
    refine ⟨k, a, ⟨by omega, b.1⟩, Or.inl c, fun j hj => ?_⟩
    by_contra hlt
    have : j * j ≤ (k - 1) * (k - 1) := Nat.mul_le_mul (by omega) (by omega)
    omega
  · rename_i h2
    refine ⟨8, rfl, ⟨by omega, by omega⟩, Or.inr rfl, fun j hj => ?_⟩
    by_contra hlt
    have : j * j ≤ 7 * 7 := Nat.mul_le_mul (by omega) (by omega)
    omega

theorem threads_eq {s : OpenSettings} (h : threadSettingsOk s = true) (cores : Int) :
    (if s.nThreads ≠ 0 then s.nThreads else iclipInt cores 1 256).toNat = threadsUsed s cores ∧ 1 ≤ threadsUsed s cores ∧ threadsUsed s cores ≤ 256 := by
  simp only [threadSettingsOk, Bool.and_eq_true, decide_eq_true_eq] at h
  unfold threadsUsed iclipInt
  by_cases h0 : s.nThreads = 0
  · rw [if_neg (by omega), if_pos h0]
    split
    · omega
    · split <;> omega
  · rw [if_pos h0, if_neg h0]
    omega

/-- Whatever the settings and the number of cores, dav1d_get_frame_delay does not fail for thread settings in range, and
returns a number between 1 and 256, at most max_frame_delay if that is given and at most the number of threads; without
max_frame_delay it is the square root of the number of threads rounded up, but at most 8. -/
theorem C31_delay {s : OpenSettings} (cores : Int) (h : 0 ≤ s.nThreads ∧ s.nThreads ≤ 256) (hd : 0 ≤ s.maxFrameDelay ∧ s.maxFrameDelay ≤ 256) :
    ∃ d, getFrameDelay s cores = some (.ok d) ∧ 1 ≤ d ∧ d ≤ 256 ∧ (s.maxFrameDelay ≠ 0 → (d : Int) ≤ s.maxFrameDelay) ∧ d ≤ threadsUsed s cores ∧
      (if s.maxFrameDelay = 0 then IsRoot8 (threadsUsed s cores) d else d = min s.maxFrameDelay.toNat (threadsUsed s cores)) := by
  have hok : threadSettingsOk s = true := by
    simp only [threadSettingsOk, Bool.and_eq_true, decide_eq_true_eq]; omega
  obtain ⟨e, t1, t2⟩ := threads_eq hok cores
  unfold getFrameDelay getNumThreads
  rw [if_pos hok]
  dsimp only
  rw [e]
  by_cases h0 : s.maxFrameDelay = 0
  · obtain ⟨k, a, b⟩ := root_exists (threadsUsed s cores) t1
    have hk : k ≤ threadsUsed s cores := b.2.2 _ (Nat.le_mul_of_pos_left _ t1)
    rw [if_neg (by omega)]
    simp only [if_pos h0]
    split at a
    · rename_i hlt
      rw [if_pos hlt, a]
      exact ⟨k, rfl, b.1.2, by omega, fun h => absurd h0 h, hk, b⟩
    · rename_i hlt
      rw [if_neg hlt]
      cases a
      exact ⟨8, rfl, by omega, by omega, fun h => absurd h0 h, hk, b⟩
  · rw [if_pos h0]
    simp only [if_neg h0]
    exact ⟨_, rfl, by omega, by omega, fun _ => by omega, by omega, rfl⟩

/-- Other thread settings are refused. -/
theorem C31_delay_invalid {s : OpenSettings} (cores : Int) (h : ¬((0 ≤ s.nThreads ∧ s.nThreads ≤ 256) ∧ 0 ≤ s.maxFrameDelay ∧ s.maxFrameDelay ≤ 256)) :
    getFrameDelay s cores = some (.error .EINVAL) := by
  unfold getFrameDelay
  rw [if_neg]
  simp only [threadSettingsOk, Bool.and_eq_true, decide_eq_true_eq]
  omega

/-- More threads never mean a smaller frame delay. -/
theorem C31_monotone {s : OpenSettings} (cores : Int) {m n : Int} (hm : 1 ≤ m) (hmn : m ≤ n) (hn : n ≤ 256) (hd : 0 ≤ s.maxFrameDelay ∧ s.maxFrameDelay ≤ 256)
    {d e : Nat} (h1 : getFrameDelay { s with nThreads := m } cores = some (.ok d)) (h2 : getFrameDelay { s with nThreads := n } cores = some (.ok e)) : d ≤ e := by
  obtain ⟨d', a1, a2, a3, a4, a5, a6⟩ := C31_delay (s := { s with nThreads := m }) cores ⟨by show (0:Int) ≤ m; omega, by show m ≤ 256; omega⟩ hd
  obtain ⟨e', b1, b2, b3, b4, b5, b6⟩ := C31_delay (s := { s with nThreads := n }) cores ⟨by show (0:Int) ≤ n; omega, hn⟩ hd
  rw [h1] at a1; cases a1
  rw [h2] at b1; cases b1
  have t1 : threadsUsed { s with nThreads := m } cores = m.toNat := by
    unfold threadsUsed; rw [if_neg (by show m ≠ 0; omega)]
  have t2 : threadsUsed { s with nThreads := n } cores = n.toNat := by
    unfold threadsUsed; rw [if_neg (by show n ≠ 0; omega)]
  rw [t1] at a6
  rw [t2] at b6
  by_cases h0 : s.maxFrameDelay = 0
  · rw [if_pos h0] at a6 b6
    rcases b6.2.1 with h | h
    · exact a6.2.2 e (by omega)
    · rw [h]; exact a6.1.1
  · rw [if_neg h0] at a6 b6
    dsimp only at a6 b6
    omega

/-- dav1d_open succeeds exactly for settings in the documented ranges, provided that nothing it allocates fails. -/
theorem C31_open (s : OpenSettings) (cores : Int) (wide allocs : Bool) :
    (∃ o, openDec s cores wide allocs = some (.ok o)) ↔ ValidSettings s ∧ allocs = true := by
  have hn : threadSettingsOk s = true → ∃ x, getNumThreads s cores = some x := by
    intro hok
    have hok' := hok
    simp only [threadSettingsOk, Bool.and_eq_true, decide_eq_true_eq] at hok
    obtain ⟨d, h, _⟩ := C31_delay (s := s) cores (by omega) (by omega)
    unfold getFrameDelay at h
    rw [if_pos hok', Option.map_eq_some_iff] at h
    obtain ⟨x, h, _⟩ := h
    exact ⟨x, h⟩
  constructor
  · rintro ⟨o, h⟩
    unfold openDec at h
    by_cases c1 : (!threadSettingsOk s) = true
    · rw [if_pos c1] at h; cases h
    rw [if_neg c1] at h
    by_cases c2 : s.alloc = .null
    · rw [if_pos c2] at h; cases h
    rw [if_neg c2] at h
    by_cases c3 : s.release = .null
    · rw [if_pos c3] at h; cases h
    rw [if_neg c3] at h
    by_cases c4 : (!(decide (0 ≤ s.operatingPoint) && decide (s.operatingPoint ≤ 31))) = true
    · rw [if_pos c4] at h; cases h
    rw [if_neg c4] at h
    by_cases c5 : (!(decide (0 ≤ s.decodeFrameType) && decide (s.decodeFrameType ≤ 3))) = true
    · rw [if_pos c5] at h; cases h
    rw [if_neg c5] at h
    by_cases c6 : (!allocs) = true
    · rw [if_pos c6] at h; cases h
    rw [if_neg c6] at h
    by_cases c7 : s.alloc = .default ∧ s.release = .default ∧ s.cookie = true
    · rw [if_pos c7] at h; cases h
    rw [if_neg c7] at h
    by_cases c8 : ¬(s.alloc = .default ∧ s.release = .default) ∧ (s.alloc = .default ∨ s.release = .default)
    · rw [if_pos c8] at h; cases h
    simp only [threadSettingsOk, Bool.not_eq_true', Bool.and_eq_false_iff, decide_eq_false_iff_not, not_or, Classical.not_not, Bool.not_eq_false] at c1 c4 c5 c6
    refine ⟨⟨⟨c1.1.1.1, c1.1.1.2⟩, ⟨c1.1.2, c1.2⟩, c4, c5, ?_⟩, c6⟩
    cases ha : s.alloc <;> cases hb : s.release <;> cases hc : s.cookie <;> simp_all
  · rintro ⟨⟨v1, v2, v3, v4, v5⟩, ha⟩
    have hok : threadSettingsOk s = true := by
      simp only [threadSettingsOk, Bool.and_eq_true, decide_eq_true_eq]; omega
    obtain ⟨x, hx⟩ := hn hok
    unfold openDec
    rw [hok, hx, ha]
    rw [if_neg (by simp), if_neg (by rcases v5 with h | h <;> simp [h.1]), if_neg (by rcases v5 with h | h <;> simp [h.2]), if_neg (by simp [v3]), if_neg (by simp [v4]),
      if_neg (by simp), if_neg (by rcases v5 with h | h <;> simp [h]), if_neg (by rcases v5 with h | h <;> simp [h])]
    exact ⟨_, rfl⟩

/-- The decoder opened has as many frame contexts as dav1d_get_frame_delay says (this is `nFc` of the API model, the
number of frames it buffers); the other settings are taken over; the frame size limit is lowered only where pointers
have 32 bits. -/
theorem C31_opened {s : OpenSettings} {cores : Int} {wide allocs : Bool} {o : Opened} (h : openDec s cores wide allocs = some (.ok o)) :
    getFrameDelay s cores = some (.ok o.settings.nFc) ∧ o.nTc = threadsUsed s cores ∧
    (o.settings.operatingPoint : Int) = s.operatingPoint ∧ (o.settings.decodeFrameType : Int) = s.decodeFrameType ∧
    (o.settings.allLayers = true ↔ s.allLayers ≠ 0) ∧ (o.settings.strict = true ↔ s.strict ≠ 0) ∧
    (o.settings.outputInvisible = true ↔ s.outputInvisible ≠ 0) ∧ (o.settings.applyGrain = true ↔ s.applyGrain ≠ 0) ∧
    (wide = true → o.settings.frameSizeLimit = s.frameSizeLimit) ∧
    (wide = false → s.frameSizeLimit < 2 ^ 32 → 0 < o.settings.frameSizeLimit ∧ o.settings.frameSizeLimit ≤ 8192 * 8192 ∧
      (s.frameSizeLimit ≠ 0 → o.settings.frameSizeLimit = min s.frameSizeLimit (8192 * 8192))) := by
  obtain ⟨⟨v1, v2, v3, v4, v5⟩, rfl⟩ := (C31_open s cores wide allocs).1 ⟨o, h⟩
  have hok : threadSettingsOk s = true := by
    simp only [threadSettingsOk, Bool.and_eq_true, decide_eq_true_eq]; omega
  unfold openDec at h
  rw [hok] at h
  rw [if_neg (by simp), if_neg (by rcases v5 with h | h <;> simp [h.1]), if_neg (by rcases v5 with h | h <;> simp [h.2]), if_neg (by simp [v3]), if_neg (by simp [v4]),
      if_neg (by simp), if_neg (by rcases v5 with h | h <;> simp [h]), if_neg (by rcases v5 with h | h <;> simp [h])] at h
  dsimp only at h
  rw [Option.map_eq_some_iff] at h
  obtain ⟨x, hx, ho⟩ := h
  have ho := Except.ok.inj ho
  subst ho
  dsimp only
  refine ⟨by unfold getFrameDelay; rw [if_pos hok, hx]; rfl, ?_, by omega, by omega,
    by simp, by simp, by simp, by simp, ?_, ?_⟩
  · obtain ⟨e, _⟩ := threads_eq hok cores
    unfold getNumThreads at hx
    dsimp only at hx
    rw [e] at hx
    repeat' split at hx
    · cases hx; rfl
    · rw [Option.map_eq_some_iff] at hx
      obtain ⟨k, _, rfl⟩ := hx
      rfl
    · cases hx; rfl
  · rintro rfl
    rw [if_neg]
    rw [Bool.not_true, Bool.false_and]
    exact Bool.false_ne_true
  · rintro rfl hlt
    have hif : ∀ b : Bool, (if (!false && b) = true then 8192 * 8192 else s.frameSizeLimit) = if b = true then 8192 * 8192 else s.frameSizeLimit := fun b => by cases b <;> rfl
    rw [hif]
    by_cases hc : 8192 * 8192 ≤ (s.frameSizeLimit + 2 ^ 32 - 1) % 2 ^ 32
    · rw [if_pos (decide_eq_true hc)]
      omega
    · rw [if_neg (by rw [decide_eq_false hc]; exact Bool.false_ne_true)]
      omega

-- 16 cores without settings: 4 frames; 3 threads and a delay of 8: 3 frames
example : getFrameDelay {} 16 = some (.ok 4) ∧ getFrameDelay { nThreads := 3, maxFrameDelay := 8 } 16 = some (.ok 3) ∧
    getFrameDelay { nThreads := 100 } 1 = some (.ok 8) ∧ getFrameDelay { nThreads := 257 } 1 = some (.error .EINVAL) := by decide
example : ValidSettings { nThreads := 3, maxFrameDelay := 8, operatingPoint := 31, alloc := .user, release := .user, cookie := true } :=
  ⟨by decide, by decide, by decide, by decide, Or.inr ⟨rfl, rfl⟩⟩
example : (openDec { alloc := .user } 4 true true).map Except.isOk = some false := by decide

end Dav1d
