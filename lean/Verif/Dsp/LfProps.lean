import Verif.Dsp.Lf
import Verif.Dsp.McLemmas
import Mathlib.Tactic.IntervalCases
/-!
# The deblocking filter computes what the specification says (C40, C57)

The specification of one line across an edge is transcribed from section 7.14.6 of the AV1 specification, with its names.
-/
namespace Dav1d.Lf

/-! ## Specification -/

def Round2 (x : Int) (n : Nat) : Int := (x + 2 ^ (n - 1)) / 2 ^ n

def Clip3 (lo hi x : Int) : Int := if x < lo then lo else if x > hi then hi else x

/-- The sizes the filter size process 7.14.3 returns: the smaller of the transform sizes at both sides, at most 16, for chroma
at most 8. -/
inductive FilterSize where
  | tx4x4 | tx8x8 | tx16x16
  deriving DecidableEq

/-- What the filter is applied to: a plane, 0 being luma, with a size possible there. -/
structure Job where
  luma : Bool
  size : FilterSize
  ok : size = .tx16x16 → luma = true

/-- filterLen, 7.14.6.2 -/
def Job.filterLen (j : Job) : Nat := match j.size, j.luma with
  | .tx4x4, _ => 4
  | _, false => 6
  | .tx8x8, true => 8
  | .tx16x16, true => 16

variable (d : Depth) (limit blimit thresh : Nat) (s : Int → Int)

/-- Sample `p i` of the specification is at position `-1 - i`, `q i` at position `i`. -/
def P (i : Nat) : Int := s (-1 - i)
def Q (i : Nat) : Int := s i

def shifted (v : Nat) : Nat := v * 2 ^ (d.bpc - 8)

def hevMask : Prop := (P s 1 - P s 0).natAbs > shifted d thresh ∨ (Q s 1 - Q s 0).natAbs > shifted d thresh

def filterMask (len : Nat) : Prop :=
  ¬ ((P s 1 - P s 0).natAbs > shifted d limit) ∧ ¬ ((Q s 1 - Q s 0).natAbs > shifted d limit) ∧
  ¬ ((P s 0 - Q s 0).natAbs * 2 + (P s 1 - Q s 1).natAbs / 2 > shifted d blimit) ∧
  (len ≥ 6 → ¬ ((P s 2 - P s 1).natAbs > shifted d limit) ∧ ¬ ((Q s 2 - Q s 1).natAbs > shifted d limit)) ∧
  (len ≥ 8 → ¬ ((P s 3 - P s 2).natAbs > shifted d limit) ∧ ¬ ((Q s 3 - Q s 2).natAbs > shifted d limit))

def flatMask (len : Nat) : Prop :=
  ∀ i ∈ (if len ≥ 8 then [1, 2, 3] else [1, 2]),
    ¬ ((P s i - P s 0).natAbs > shifted d 1) ∧ ¬ ((Q s i - Q s 0).natAbs > shifted d 1)

def flatMask2 : Prop :=
  ∀ i ∈ [4, 5, 6], ¬ ((P s i - P s 0).natAbs > shifted d 1) ∧ ¬ ((Q s i - Q s 0).natAbs > shifted d 1)

instance : Decidable (hevMask d thresh s) := by unfold hevMask; infer_instance
instance (len : Nat) : Decidable (filterMask d limit blimit s len) := by unfold filterMask; infer_instance
instance (len : Nat) : Decidable (flatMask d s len) := by unfold flatMask; infer_instance
instance : Decidable (flatMask2 d s) := by unfold flatMask2; infer_instance

/-- filter4_clamp, 7.14.6.3 -/
def filter4_clamp (x : Int) : Int := Clip3 (-2 ^ (d.bpc - 1)) (2 ^ (d.bpc - 1) - 1) x

/-- The narrow filter, 7.14.6.3: the value of the sample at `k`. -/
def narrowFilter (k : Int) : Int :=
  let off : Int := 128 * 2 ^ (d.bpc - 8)
  let ps1 := P s 1 - off; let ps0 := P s 0 - off; let qs0 := Q s 0 - off; let qs1 := Q s 1 - off
  let hev := hevMask d thresh s
  let filter := if hev then filter4_clamp d (ps1 - qs1) else 0
  let filter := filter4_clamp d (filter + 3 * (qs0 - ps0))
  let filter1 := filter4_clamp d (filter + 4) / 8
  let filter2 := filter4_clamp d (filter + 3) / 8
  if k = 0 then filter4_clamp d (qs0 - filter1) + off
  else if k = -1 then filter4_clamp d (ps0 + filter2) + off
  else if hev then s k
  else if k = 1 then filter4_clamp d (qs1 - Round2 filter1 1) + off
  else if k = -2 then filter4_clamp d (ps1 + Round2 filter1 1) + off
  else s k

/-- The wide filter, 7.14.6.4: the value of the sample at `k`. -/
def wideFilter (luma : Bool) (log2Size : Nat) (k : Int) : Int :=
  let n : Nat := if log2Size = 4 then 6 else if luma then 3 else 2
  let n2 : Nat := if log2Size = 3 ∧ luma = true then 0 else 1
  if -n ≤ k ∧ k < n then
    Round2 (((List.range (2 * n + 1)).map fun (m : Nat) =>
      let j : Int := (m : Int) - n
      s (Clip3 (-((n : Int) + 1)) n (k + j)) * (if j.natAbs ≤ n2 then 2 else 1)).sum) log2Size
  else s k

/-- The sample filtering process 7.14.6.1, the value of the sample at `k`. -/
def specLine (j : Job) (k : Int) : Int :=
  if ¬ filterMask d limit blimit s j.filterLen then s k
  else if j.size = .tx4x4 ∨ ¬ flatMask d s j.filterLen then narrowFilter d thresh s k
  else if j.size = .tx8x8 ∨ ¬ flatMask2 d s then wideFilter s j.luma 3 k
  else wideFilter s j.luma 4 k

/-! ## Proof -/

theorem toPixel_id {d : Depth} {v : Int} (h : 0 ≤ v ∧ v ≤ d.max) : toPixel d v = v := by
  cases d <;> norm_num [Depth.max, Depth.bpc] at h <;> simp only [toPixel] <;> omega

theorem pow_cast (d : Depth) (v : Nat) : (v : Int) * 2 ^ (d.bpc - 8) = (shifted d v : Nat) := by
  simp [shifted]

theorem P0 : P s 0 = s (-1) := rfl
theorem P1 : P s 1 = s (-2) := rfl
theorem P2 : P s 2 = s (-3) := rfl
theorem P3 : P s 3 = s (-4) := rfl
theorem P4 : P s 4 = s (-5) := rfl
theorem P5 : P s 5 = s (-6) := rfl
theorem P6 : P s 6 = s (-7) := rfl
theorem Q0 : Q s 0 = s 0 := rfl
theorem Q1 : Q s 1 = s 1 := rfl
theorem Q2 : Q s 2 = s 2 := rfl
theorem Q3 : Q s 3 = s 3 := rfl
theorem Q4 : Q s 4 = s 4 := rfl
theorem Q5 : Q s 5 = s 5 := rfl
theorem Q6 : Q s 6 = s 6 := rfl

theorem half_le (a b E : Nat) : (a : Int) * 2 + asr b 1 ≤ E ↔ ¬ (a * 2 + b / 2 > E) := by
  unfold asr; omega

theorem cast_le (a E : Nat) : (a : Int) ≤ E ↔ ¬ (a > E) := by omega

theorem mask_iff (j : Job) : mask ((blimit : Int) * 2 ^ (d.bpc - 8)) ((limit : Int) * 2 ^ (d.bpc - 8)) j.filterLen s = true ↔ filterMask d limit blimit s j.filterLen := by
  rw [pow_cast, pow_cast]
  obtain ⟨l, z, h⟩ := j
  cases l <;> cases z <;> (try (exact absurd (h rfl) (by decide))) <;>
    simp only [mask, filterMask, Job.filterLen, absDiff, P0, P1, P2, P3, Q0, Q1, Q2, Q3, half_le, cast_le] <;> simp <;> tauto

theorem flatIn_iff (j : Job) (h4 : j.size ≠ .tx4x4) : flat8in (2 ^ (d.bpc - 8)) j.filterLen s = true ↔ flatMask d s j.filterLen := by
  have e : (2 : Int) ^ (d.bpc - 8) = (shifted d 1 : Nat) := by simp [shifted]
  rw [e]
  obtain ⟨l, z, h⟩ := j
  cases l <;> cases z <;> (try (exact absurd (h rfl) (by decide))) <;> (try (exact absurd rfl h4)) <;>
    simp only [flat8in, flatMask, Job.filterLen, absDiff, cast_le] <;> simp [P0, P1, P2, P3, Q0, Q1, Q2, Q3] <;> tauto

theorem flatOut_iff : flat8out (2 ^ (d.bpc - 8)) s = true ↔ flatMask2 d s := by
  have e : (2 : Int) ^ (d.bpc - 8) = (shifted d 1 : Nat) := by simp [shifted]
  rw [e]
  simp only [flat8out, flatMask2, absDiff, cast_le]
  simp [P0, P4, P5, P6, Q0, Q4, Q5, Q6]
  tauto

/-- Every sample is a pixel of this bit depth. -/
def Pixels : Prop := ∀ k, 0 ≤ s k ∧ s k ≤ d.max

theorem clamp_add {d : Depth} {p : Int} (f : Int) : filter4_clamp d (p - 128 * 2 ^ (d.bpc - 8) + f) + 128 * 2 ^ (d.bpc - 8) = d.clip (p + f) := by
  cases d <;> norm_num [filter4_clamp, Clip3, Depth.clip, iclip, Depth.max, Depth.bpc] <;> split_ifs <;> omega

theorem clamp_sub {d : Depth} {p : Int} (f : Int) : filter4_clamp d (p - 128 * 2 ^ (d.bpc - 8) - f) + 128 * 2 ^ (d.bpc - 8) = d.clip (p - f) := by
  have := clamp_add (d := d) (p := p) (-f)
  rw [Int.add_neg_eq_sub] at this
  rwa [← Int.sub_eq_add_neg] at this

theorem iclipDiff_eq (d : Depth) (v : Int) : iclipDiff d v = filter4_clamp d v := by
  cases d <;> norm_num [iclipDiff, filter4_clamp, Clip3, iclip, Depth.bpc]

theorem min_clamp (d : Depth) (v : Int) (n : Int) (hn : 0 ≤ n) :
    min (filter4_clamp d v + n) (128 * 2 ^ (d.bpc - 8) - 1) = filter4_clamp d (filter4_clamp d v + n) := by
  cases d <;> norm_num [filter4_clamp, Clip3, Depth.bpc] <;> split_ifs <;> omega

theorem clip_px {d : Depth} (v : Int) : toPixel d (d.clip v) = d.clip v := toPixel_id (clip_range d v)

theorem look2 (d : Depth) (s : Int → Int) (a b k : Int) :
    (match List.lookup k [((-1 : Int), a), (0, b)] with | none => s k | some v => toPixel d v)
      = if k = 0 then toPixel d b else if k = -1 then toPixel d a else s k := by
  simp only [List.lookup]
  by_cases h0 : k = 0
  · subst h0; rfl
  · by_cases h1 : k = -1
    · subst h1; rfl
    · simp [h0, h1, beq_false_of_ne]

theorem look4 (d : Depth) (s : Int → Int) (a b e f k : Int) :
    (match List.lookup k [((-1 : Int), a), (0, b), (-2, e), (1, f)] with | none => s k | some v => toPixel d v)
      = if k = 0 then toPixel d b else if k = -1 then toPixel d a else if k = 1 then toPixel d f else if k = -2 then toPixel d e else s k := by
  simp only [List.lookup]
  by_cases h0 : k = 0
  · subst h0; rfl
  · by_cases h1 : k = -1
    · subst h1; rfl
    · by_cases h2 : k = 1
      · subst h2; rfl
      · by_cases h3 : k = -2
        · subst h3; rfl
        · simp [h0, h1, h2, h3, beq_false_of_ne]

theorem narrow_eq (k : Int) :
    (match (narrow d ((thresh : Int) * 2 ^ (d.bpc - 8)) s).lookup k with | none => s k | some v => toPixel d v) = narrowFilter d thresh s k := by
  rw [pow_cast]
  have hh : (absDiff (s (-2)) (s (-1)) > (shifted d thresh : Nat) ∨ absDiff (s 1) (s 0) > (shifted d thresh : Nat)) ↔ hevMask d thresh s := by
    simp only [hevMask, absDiff, P0, P1, Q0, Q1]; omega
  have e1 : ∀ o : Int, s 0 - o - (s (-1) - o) = s 0 - s (-1) := fun o => by omega
  have e2 : ∀ o : Int, s (-2) - o - (s 1 - o) = s (-2) - s 1 := fun o => by omega
  have e3 : (2 : Int) ^ 3 = 8 := rfl
  have e4 : ∀ v : Int, Round2 v 1 = (v + 1) / 2 ^ 1 := fun v => rfl
  by_cases hm : hevMask d thresh s
  · simp only [narrow, if_pos (hh.mpr hm), narrowFilter, if_pos hm, iclipDiff_eq, min_clamp _ _ 4 (by decide), min_clamp _ _ 3 (by decide),
      P0, P1, Q0, Q1, clamp_add, clamp_sub, asr, look2, clip_px, e1, e2, e3,
      Int.add_comm (filter4_clamp d (s (-2) - s 1)) (3 * (s 0 - s (-1)))]
  · simp only [narrow, if_neg (fun h => hm (hh.mp h)), narrowFilter, if_neg hm, iclipDiff_eq, min_clamp _ _ 4 (by decide), min_clamp _ _ 3 (by decide),
      P0, P1, Q0, Q1, clamp_add, clamp_sub, asr, look4, clip_px, e1, e3, e4, Int.zero_add]

theorem asr_mean (n : Nat) (v hi : Int) (h0 : 0 ≤ v) (h1 : v ≤ 2 ^ n * hi + (2 ^ n - 1)) : 0 ≤ asr v n ∧ asr v n ≤ hi := by
  have hp : (0 : Int) < 2 ^ n := by positivity
  refine ⟨Int.ediv_nonneg h0 (le_of_lt hp), ?_⟩
  have : asr v n < hi + 1 := Int.ediv_lt_of_lt_mul hp (by rw [Int.add_mul, Int.mul_comm hi]; omega)
  omega

theorem wide6_eq (hs : Pixels d s) (k : Int) :
    (match (wide6 s).lookup k with | none => s k | some v => toPixel d v) = wideFilter s false 3 k := by
  by_cases hk : -2 ≤ k ∧ k < 2
  · obtain ⟨h1, h2⟩ := hk
    have a0 := hs (-3); have a1 := hs (-2); have a2 := hs (-1); have a3 := hs (0); have a4 := hs (1); have a5 := hs (2)
    interval_cases k
    all_goals
      simp [wide6, wideFilter, List.lookup, List.range, List.range.loop, Clip3, Round2]
      rw [toPixel_id (asr_mean 3 _ _ (by omega) (by norm_num; omega))]
      unfold asr
      norm_num
      congr 1
      omega
  · simp only [wide6, wideFilter, List.lookup]
    have b0 : k ≠ -2 := by omega
    have b1 : k ≠ -1 := by omega
    have b2 : k ≠ 0 := by omega
    have b3 : k ≠ 1 := by omega
    simp [b0, b1, b2, b3, hk, beq_false_of_ne]

theorem wide8_eq (hs : Pixels d s) (k : Int) :
    (match (wide8 s).lookup k with | none => s k | some v => toPixel d v) = wideFilter s true 3 k := by
  by_cases hk : -3 ≤ k ∧ k < 3
  · obtain ⟨h1, h2⟩ := hk
    have a0 := hs (-4); have a1 := hs (-3); have a2 := hs (-2); have a3 := hs (-1); have a4 := hs (0); have a5 := hs (1); have a6 := hs (2); have a7 := hs (3)
    interval_cases k
    all_goals
      simp [wide8, wideFilter, List.lookup, List.range, List.range.loop, Clip3, Round2]
      rw [toPixel_id (asr_mean 3 _ _ (by omega) (by norm_num; omega))]
      unfold asr
      norm_num
      congr 1
      omega
  · simp only [wide8, wideFilter, List.lookup]
    have b0 : k ≠ -3 := by omega
    have b1 : k ≠ -2 := by omega
    have b2 : k ≠ -1 := by omega
    have b3 : k ≠ 0 := by omega
    have b4 : k ≠ 1 := by omega
    have b5 : k ≠ 2 := by omega
    simp [b0, b1, b2, b3, b4, b5, hk, beq_false_of_ne]

theorem wide16_eq (hs : Pixels d s) (k : Int) :
    (match (wide16 s).lookup k with | none => s k | some v => toPixel d v) = wideFilter s true 4 k := by
  by_cases hk : -6 ≤ k ∧ k < 6
  · obtain ⟨h1, h2⟩ := hk
    have a0 := hs (-7); have a1 := hs (-6); have a2 := hs (-5); have a3 := hs (-4); have a4 := hs (-3); have a5 := hs (-2); have a6 := hs (-1); have a7 := hs (0); have a8 := hs (1); have a9 := hs (2); have a10 := hs (3); have a11 := hs (4); have a12 := hs (5); have a13 := hs (6)
    interval_cases k
    all_goals
      simp [wide16, wideFilter, List.lookup, List.range, List.range.loop, Clip3, Round2]
      rw [toPixel_id (asr_mean 4 _ _ (by omega) (by norm_num; omega))]
      unfold asr
      norm_num
      congr 1
      omega
  · simp only [wide16, wideFilter, List.lookup]
    have b0 : k ≠ -6 := by omega
    have b1 : k ≠ -5 := by omega
    have b2 : k ≠ -4 := by omega
    have b3 : k ≠ -3 := by omega
    have b4 : k ≠ -2 := by omega
    have b5 : k ≠ -1 := by omega
    have b6 : k ≠ 0 := by omega
    have b7 : k ≠ 1 := by omega
    have b8 : k ≠ 2 := by omega
    have b9 : k ≠ 3 := by omega
    have b10 : k ≠ 4 := by omega
    have b11 : k ≠ 5 := by omega
    simp [b0, b1, b2, b3, b4, b5, b6, b7, b8, b9, b10, b11, hk, beq_false_of_ne]

/-- C57: for every line of pixels across an edge, whatever the limits, the filter gives the samples of the specification. -/
theorem C57_line (j : Job) (hs : Pixels d s) : line d blimit limit thresh j.filterLen s = specLine d limit blimit thresh s j := by
  funext k
  have hm := mask_iff d limit blimit s j
  unfold line writes specLine
  by_cases h1 : filterMask d limit blimit s j.filterLen
  · rw [if_neg (not_not.mpr h1)]
    simp only [hm.mpr h1, Bool.true_eq_false, if_false]
    by_cases h4 : j.size = .tx4x4
    · simp only [if_pos (show j.size = .tx4x4 ∨ ¬ flatMask d s j.filterLen from Or.inl h4)]
      have : j.filterLen = 4 := by unfold Job.filterLen; rw [h4]
      simp only [this]
      norm_num
      exact narrow_eq d thresh s k
    · have hf := flatIn_iff d s j h4
      by_cases h5 : flatMask d s j.filterLen
      · have hn : ¬ (j.size = .tx4x4 ∨ ¬ flatMask d s j.filterLen) := by simp [h4, h5]
        simp only [if_neg hn]
        clear hn hm h1
        obtain ⟨l, z, ok⟩ := j
        have ho := flatOut_iff d s
        cases l <;> cases z <;> (try (exact absurd (ok rfl) (by decide))) <;> (try (exact absurd rfl h4))
        · simp only [Job.filterLen] at hf h5 ⊢
          simp only [hf.mpr h5]
          norm_num
          exact wide6_eq d s hs k
        · simp only [Job.filterLen] at hf h5 ⊢
          simp only [hf.mpr h5]
          norm_num
          exact wide8_eq d s hs k
        · simp only [Job.filterLen] at hf h5 ⊢
          simp only [hf.mpr h5]
          by_cases h6 : flatMask2 d s
          · simp only [ho.mpr h6]
            norm_num [h6]
            exact wide16_eq d s hs k
          · simp only [Bool.not_eq_true _ ▸ mt ho.mp h6]
            norm_num [h6]
            exact wide8_eq d s hs k
      · simp only [if_pos (show j.size = .tx4x4 ∨ ¬ flatMask d s j.filterLen from Or.inr h5)]
        have hf' : flat8in (2 ^ (d.bpc - 8)) j.filterLen s = false := by
          rw [← Bool.not_eq_true]; exact fun h => h5 (hf.mp h)
        simp only [hf']
        norm_num
        exact narrow_eq d thresh s k
  · rw [if_pos h1]
    have : mask ((blimit : Int) * 2 ^ (d.bpc - 8)) ((limit : Int) * 2 ^ (d.bpc - 8)) j.filterLen s = false := by
      rw [← Bool.not_eq_true]; exact fun h => h1 (hm.mp h)
    simp [this, List.lookup]

end Dav1d.Lf
