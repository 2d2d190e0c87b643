import Verif.Dsp.FgGrain
import Mathlib.Tactic.Linarith

/-!
# Film grain: the scaling tables are as specified
-/
namespace Dav1d.Fg
open Dav1d

theorem byte_id (v : Int) (h : 0 ≤ v ∧ v ≤ 255) : byte v = v := by
  unfold byte
  omega

/-! ## Interpolation between two points -/

theorem slope : ∀ dx ∈ List.range 256, (dx - 1) * ((65536 + dx / 2) / dx) ≤ 65536 := by decide +kernel

/-- The value at distance `k` from `p`. -/
def segVal (p q : Nat × Nat) (k : Nat) : Int :=
  p.2 + ((k : Int) * (((q.2 : Int) - p.2) * ((65536 + (q.1 - p.1) / 2) / (q.1 - p.1) : Nat)) + 32768) / 65536

theorem segVal_range (p q : Nat × Nat) (k : Nat) (hk : k < q.1 - p.1) (hq : q.1 ≤ 255) (h2 : q.2 ≤ 255) (h1 : p.2 ≤ 255) :
    0 ≤ segVal p q k ∧ segVal p q k ≤ 255 := by
  unfold segVal
  have hs := slope (q.1 - p.1) (List.mem_range.mpr (by omega))
  generalize (65536 + (q.1 - p.1) / 2) / (q.1 - p.1) = r at *
  have ht : k * r ≤ 65536 := le_trans (Nat.mul_le_mul_right r (by omega)) hs
  obtain ⟨t, et⟩ : ∃ t, k * r = t := ⟨_, rfl⟩
  rw [et] at ht
  have e : (k : Int) * (((q.2 : Int) - p.2) * (r : Nat)) = t * ((q.2 : Int) - p.2) := by
    rw [← et]
    push_cast
    ring
  rw [e]
  obtain ⟨u, eu⟩ : ∃ u : Int, (t : Int) * ((q.2 : Int) - p.2) = u := ⟨_, rfl⟩
  rw [eu]
  rcases Int.le_total 0 ((q.2 : Int) - p.2) with hd | hd
  · have h3 : 0 ≤ u := by rw [← eu]; exact mul_nonneg (by omega) hd
    have h4 : u ≤ 65536 * ((q.2 : Int) - p.2) := by rw [← eu]; exact mul_le_mul_of_nonneg_right (by omega) hd
    omega
  · have h3 : u ≤ 0 := by rw [← eu]; exact mul_nonpos_of_nonneg_of_nonpos (by omega) hd
    have h4 : 65536 * ((q.2 : Int) - p.2) ≤ u := by rw [← eu]; exact mul_le_mul_of_nonpos_right (by omega) hd
    omega

theorem interpSeg_eq (S : Nat) (p q : Nat × Nat) (s : Int → Int) :
    (∀ k, k < q.1 - p.1 → interpSeg S p q s (((p.1 + k) * 2 ^ S : Nat) : Int) = byte (segVal p q k)) ∧
    ∀ j : Int, (∀ k, k < q.1 - p.1 → j ≠ (((p.1 + k) * 2 ^ S : Nat) : Int)) → interpSeg S p q s j = s j := by
  unfold interpSeg
  have key := loop_inv (q.1 - p.1) (fun x (s : (Int → Int) × Int) =>
    ((fun j => if j = ((p.1 + x) <<< S : Nat) then byte (p.2 + asr s.2 16) else s.1 j),
      s.2 + ((q.2 : Int) - p.2) * ((0x10000 + ((q.1 - p.1) >>> 1)) / (q.1 - p.1) : Nat))) (s, 0x8000)
    (fun i t => t.2 = 0x8000 + i * (((q.2 : Int) - p.2) * ((65536 + (q.1 - p.1) / 2) / (q.1 - p.1) : Nat)) ∧
      (∀ k, k < i → t.1 (((p.1 + k) * 2 ^ S : Nat) : Int) = byte (segVal p q k)) ∧
      ∀ j : Int, (∀ k, k < i → j ≠ (((p.1 + k) * 2 ^ S : Nat) : Int)) → t.1 j = s j)
    ⟨by simp, fun k hk => by omega, fun j _ => rfl⟩ ?_
  · exact ⟨key.2.1, key.2.2⟩
  intro i hi t ht
  obtain ⟨h1, h2, h3⟩ := ht
  dsimp only
  refine ⟨?_, ?_, ?_⟩
  · rw [h1, Nat.shiftRight_eq_div_pow]
    push_cast
    ring
  · intro k hk
    rw [Nat.shiftLeft_eq]
    by_cases e : k = i
    · subst e
      rw [if_pos rfl, h1]
      unfold segVal asr
      congr 2
      rw [add_comm]
      rfl
    · have : ¬(((p.1 + k) * 2 ^ S : Nat) : Int) = (((p.1 + i) * 2 ^ S : Nat) : Int) := by
        intro hc
        have hc := Nat.eq_of_mul_eq_mul_right (by positivity) (Int.ofNat.inj hc)
        omega
      rw [if_neg this]
      exact h2 k (by omega)
  · intro j hj
    rw [Nat.shiftLeft_eq, if_neg (hj i (by omega))]
    exact h3 j (fun k hk => hj k (by omega))

/-! ## All segments -/

/-- The points as the header has them. -/
def Pts (l : List (Nat × Nat)) : Prop := (∀ p ∈ l, p.1 ≤ 255 ∧ p.2 ≤ 255) ∧ l.Pairwise (fun p q => p.1 < q.1)

theorem Pts.tail {p : Nat × Nat} {l : List (Nat × Nat)} (h : Pts (p :: l)) : Pts l :=
  ⟨fun q hq => h.1 q (List.mem_cons_of_mem _ hq), (List.pairwise_cons.mp h.2).2⟩

/-- The last point. -/
def lastOf (p : Nat × Nat) (r : List (Nat × Nat)) : Nat × Nat := (p :: r).getLast (by simp)

theorem lastOf_cons (p q : Nat × Nat) (r : List (Nat × Nat)) : lastOf p (q :: r) = lastOf q r := by
  unfold lastOf
  simp

theorem lastOf_ge (p : Nat × Nat) (r : List (Nat × Nat)) (h : Pts (p :: r)) : p.1 ≤ (lastOf p r).1 := by
  induction r generalizing p with
  | nil => exact le_rfl
  | cons q r ih =>
    rw [lastOf_cons]
    have := (List.pairwise_cons.mp h.2).1 q (by simp)
    exact le_trans (le_of_lt this) (ih q h.tail)

theorem lastOf_mem (p : Nat × Nat) (r : List (Nat × Nat)) : lastOf p r ∈ p :: r := List.getLast_mem _

theorem segments_last (p : Nat × Nat) (r : List (Nat × Nat)) (h : Pts (p :: r)) (x : Nat) (hx : (lastOf p r).1 ≤ x) :
    Spec.segments (p :: r) x = (lastOf p r).2 := by
  induction r generalizing p with
  | nil => rfl
  | cons q r ih =>
    rw [lastOf_cons] at hx ⊢
    have := lastOf_ge q r h.tail
    unfold Spec.segments
    rw [if_neg (by omega)]
    exact ih q h.tail hx

theorem segments_range (p : Nat × Nat) (r : List (Nat × Nat)) (h : Pts (p :: r)) (x : Nat) (hx : p.1 ≤ x) :
    0 ≤ Spec.segments (p :: r) x ∧ Spec.segments (p :: r) x ≤ 255 := by
  induction r generalizing p with
  | nil =>
    have := h.1 p (by simp)
    unfold Spec.segments
    omega
  | cons q r ih =>
    have hp := h.1 p (by simp)
    have hq := h.1 q (by simp)
    unfold Spec.segments
    split_ifs with hc
    · exact segVal_range p q (x - p.1) (by omega) hq.1 hq.2 hp.2
    · exact ih q h.tail (by omega)

theorem segments_first (p : Nat × Nat) (r : List (Nat × Nat)) (h : Pts (p :: r)) : Spec.segments (p :: r) p.1 = p.2 := by
  cases r with
  | nil => rfl
  | cons q r =>
    have := (List.pairwise_cons.mp h.2).1 q (by simp)
    unfold Spec.segments
    rw [if_pos this]
    simp

theorem interpAll_eq (S : Nat) (p : Nat × Nat) (r : List (Nat × Nat)) (h : Pts (p :: r)) (s : Int → Int) :
    (∀ x, p.1 ≤ x → x < (lastOf p r).1 → interpAll S (p :: r) s ((x * 2 ^ S : Nat) : Int) = Spec.segments (p :: r) x) ∧
    ∀ j : Int, (∀ x, p.1 ≤ x → x < (lastOf p r).1 → j ≠ ((x * 2 ^ S : Nat) : Int)) → interpAll S (p :: r) s j = s j := by
  induction r generalizing p s with
  | nil =>
    refine ⟨fun x h1 h2 => ?_, fun j _ => rfl⟩
    change x < p.1 at h2
    omega
  | cons q r ih =>
    have hpq := (List.pairwise_cons.mp h.2).1 q (by simp)
    have hp := h.1 p (by simp)
    have hq := h.1 q (by simp)
    have hl := lastOf_ge q r h.tail
    rw [lastOf_cons]
    obtain ⟨i1, i2⟩ := ih q h.tail (interpSeg S p q s)
    obtain ⟨s1, s2⟩ := interpSeg_eq S p q s
    have inj : ∀ x y : Nat, ((x * 2 ^ S : Nat) : Int) = ((y * 2 ^ S : Nat) : Int) → x = y := fun x y hc =>
      Nat.eq_of_mul_eq_mul_right (by positivity) (Int.ofNat.inj hc)
    refine ⟨fun x h1 h2 => ?_, fun j hj => ?_⟩
    · show interpAll S (q :: r) (interpSeg S p q s) _ = _
      unfold Spec.segments
      by_cases hx : x < q.1
      · rw [if_pos hx, i2 _ (fun y hy _ hc => by have := inj _ _ hc; omega)]
        have := s1 (x - p.1) (by omega)
        rw [show p.1 + (x - p.1) = x by omega] at this
        rw [this, byte_id _ (segVal_range p q (x - p.1) (by omega) hq.1 hq.2 hp.2)]
        rfl
      · rw [if_neg hx]
        exact i1 x (by omega) h2
    · show interpAll S (q :: r) (interpSeg S p q s) j = s j
      rw [i2 j (fun x h1 h2 => hj x (by omega) h2)]
      exact s2 j (fun k hk => hj (p.1 + k) (by omega) (by omega))

/-! ## Values between, for more than 8 bits -/

/-- Linear interpolation between multiples of 2^S. -/
def lin (S : Nat) (s : Int → Int) (j : Nat) : Int :=
  let a := s ((j / 2 ^ S * 2 ^ S : Nat) : Int)
  let b := s (((j / 2 ^ S + 1) * 2 ^ S : Nat) : Int)
  if j % 2 ^ S = 0 then a else byte (a + ((2 ^ S / 2 : Nat) + (j % 2 ^ S : Nat) * (b - a)) / 2 ^ S)

theorem lin_congr (S : Nat) (s t : Int → Int) (h : ∀ x : Nat, s ((x * 2 ^ S : Nat) : Int) = t ((x * 2 ^ S : Nat) : Int)) (j : Nat) :
    lin S s j = lin S t j := by
  unfold lin
  rw [h, h]

theorem padInner_eq (S : Nat) (s : Int → Int) (c : Nat) (range : Int) (n : Nat) :
    (∀ j : Nat, (loop n (fun k (t : (Int → Int) × Int) =>
      ((fun j => if j = ((c + (k + 1) : Nat) : Int) then byte (t.1 (c : Int) + asr (t.2 + range) S) else t.1 j), t.2 + range))
      (s, ((1 <<< S) >>> 1 : Nat))).1 (j : Int) =
      if c < j ∧ j ≤ c + n then byte (s c + ((2 ^ S / 2 : Nat) + ((j - c : Nat) : Int) * range) / 2 ^ S) else s j) := by
  have key := loop_inv n (fun k (t : (Int → Int) × Int) =>
      ((fun j => if j = ((c + (k + 1) : Nat) : Int) then byte (t.1 (c : Int) + asr (t.2 + range) S) else t.1 j), t.2 + range))
      (s, (((1 <<< S) >>> 1 : Nat) : Int))
    (fun k t => t.2 = (2 ^ S / 2 : Nat) + (k : Int) * range ∧ ∀ j : Nat, t.1 (j : Int) =
      if c < j ∧ j ≤ c + k then byte (s c + ((2 ^ S / 2 : Nat) + ((j - c : Nat) : Int) * range) / 2 ^ S) else s j)
    ⟨by rw [Nat.one_shiftLeft, Nat.shiftRight_eq_div_pow]; simp, fun j => by rw [if_neg (by omega)]⟩ ?_
  · exact key.2
  intro k hk t ht
  obtain ⟨h1, h2⟩ := ht
  dsimp only
  refine ⟨by rw [h1]; push_cast; ring, fun j => ?_⟩
  by_cases hc : j = c + (k + 1)
  · subst hc
    rw [if_pos rfl, if_pos (by omega), h1, h2 c, if_neg (by omega)]
    unfold asr
    rw [show c + (k + 1) - c = k + 1 by omega]
    congr 3
    push_cast
    ring
  · rw [if_neg (by omega), h2 j]
    by_cases hd : c < j ∧ j ≤ c + k
    · rw [if_pos hd, if_pos (by omega)]
    · rw [if_neg hd, if_neg (by omega)]

theorem padSeg_eq (S : Nat) (p q : Nat × Nat) (s : Int → Int) (hpq : p.1 ≤ q.1) (j : Nat) :
    padSeg S p q s (j : Int) = if p.1 * 2 ^ S ≤ j ∧ j < q.1 * 2 ^ S then lin S s j else s j := by
  have hP : 0 < 2 ^ S := by positivity
  have hn : (q.1 <<< S - p.1 <<< S + 1 <<< S - 1) / 1 <<< S = q.1 - p.1 := by
    rw [Nat.shiftLeft_eq, Nat.shiftLeft_eq, Nat.one_shiftLeft, ← Nat.sub_mul]
    rw [show (q.1 - p.1) * 2 ^ S + 2 ^ S - 1 = (2 ^ S - 1) + 2 ^ S * (q.1 - p.1) by rw [Nat.mul_comm]; omega]
    rw [Nat.add_mul_div_left _ _ hP, Nat.div_eq_of_lt (by omega), Nat.zero_add]
  have key := loop_inv (q.1 - p.1) (fun i s =>
    (loop (1 <<< S - 1) (fun k (t : (Int → Int) × Int) =>
      ((fun j => if j = ((p.1 <<< S + i * 1 <<< S + (k + 1) : Nat) : Int) then
          byte (t.1 ((p.1 <<< S + i * 1 <<< S : Nat) : Int) + asr (t.2 +
            (s ((p.1 <<< S + i * 1 <<< S + 1 <<< S : Nat) : Int) - s ((p.1 <<< S + i * 1 <<< S : Nat) : Int))) S) else t.1 j),
        t.2 + (s ((p.1 <<< S + i * 1 <<< S + 1 <<< S : Nat) : Int) - s ((p.1 <<< S + i * 1 <<< S : Nat) : Int))))
      (s, ((1 <<< S) >>> 1 : Nat))).1) s
    (fun i t => ∀ j : Nat, t (j : Int) = if p.1 * 2 ^ S ≤ j ∧ j < (p.1 + i) * 2 ^ S then lin S s j else s j)
    (fun j => by rw [Nat.add_zero, if_neg (by omega)]) ?_
  · unfold padSeg
    dsimp only
    rw [hn]
    have := key j
    rw [show p.1 + (q.1 - p.1) = q.1 by omega] at this
    exact this
  intro i hi t ht j
  rw [padInner_eq S t (p.1 <<< S + i * 1 <<< S) _ (1 <<< S - 1) j]
  have e1 : p.1 <<< S + i * 1 <<< S = (p.1 + i) * 2 ^ S := by
    rw [Nat.shiftLeft_eq, Nat.one_shiftLeft, Nat.add_mul]
  have e2 : p.1 <<< S + i * 1 <<< S + 1 <<< S = (p.1 + i + 1) * 2 ^ S := by
    rw [e1, Nat.one_shiftLeft, Nat.add_mul (p.1 + i)]
    omega
  rw [e2, e1, Nat.one_shiftLeft]
  have m : ∀ x : Nat, t ((x * 2 ^ S : Nat) : Int) = s ((x * 2 ^ S : Nat) : Int) := by
    intro x
    rw [ht]
    split_ifs
    · unfold lin
      rw [Nat.mul_mod_left, if_pos rfl, Nat.mul_div_cancel _ hP]
    · rfl
  have em : (p.1 + i + 1) * 2 ^ S = (p.1 + i) * 2 ^ S + 2 ^ S := by rw [Nat.succ_mul]
  have el : p.1 * 2 ^ S ≤ (p.1 + i) * 2 ^ S := Nat.mul_le_mul_right _ (by omega)
  by_cases hc : (p.1 + i) * 2 ^ S < j ∧ j ≤ (p.1 + i) * 2 ^ S + (2 ^ S - 1)
  · rw [if_pos hc, if_pos (by rw [← Nat.add_assoc, em]; omega)]
    have hdiv : j / 2 ^ S = p.1 + i := by
      rw [Nat.div_eq_iff hP]
      omega
    have hmod : j % 2 ^ S = j - (p.1 + i) * 2 ^ S := by
      have := Nat.div_add_mod j (2 ^ S)
      rw [hdiv, Nat.mul_comm] at this
      omega
    unfold lin
    dsimp only
    rw [hdiv, hmod, if_neg (by omega), m, m]
  · rw [if_neg hc, ht j]
    by_cases hd : p.1 * 2 ^ S ≤ j ∧ j < (p.1 + i) * 2 ^ S
    · rw [if_pos hd, if_pos (by rw [← Nat.add_assoc, em]; omega)]
    · rw [if_neg hd]
      by_cases he : j = (p.1 + i) * 2 ^ S
      · rw [if_pos (by rw [← Nat.add_assoc, em]; omega), he]
        unfold lin
        rw [Nat.mul_mod_left, if_pos rfl, Nat.mul_div_cancel _ hP]
      · rw [if_neg (by rw [← Nat.add_assoc, em]; omega)]

theorem padAll_eq (S : Nat) (p : Nat × Nat) (r : List (Nat × Nat)) (h : Pts (p :: r)) (s : Int → Int) (j : Nat) :
    padAll S (p :: r) s (j : Int) = if p.1 * 2 ^ S ≤ j ∧ j < (lastOf p r).1 * 2 ^ S then lin S s j else s j := by
  have hP : 0 < 2 ^ S := by positivity
  induction r generalizing p s with
  | nil =>
    show s j = if p.1 * 2 ^ S ≤ j ∧ j < p.1 * 2 ^ S then lin S s j else s j
    rw [if_neg (by omega)]
  | cons q r ih =>
    have hpq := (List.pairwise_cons.mp h.2).1 q (by simp)
    have hl := lastOf_ge q r h.tail
    have m1 : p.1 * 2 ^ S ≤ q.1 * 2 ^ S := Nat.mul_le_mul_right _ (by omega)
    have m2 : q.1 * 2 ^ S ≤ (lastOf q r).1 * 2 ^ S := Nat.mul_le_mul_right _ (by omega)
    rw [lastOf_cons]
    show padAll S (q :: r) (padSeg S p q s) j = _
    rw [ih q h.tail]
    have m : ∀ x : Nat, padSeg S p q s ((x * 2 ^ S : Nat) : Int) = s ((x * 2 ^ S : Nat) : Int) := by
      intro x
      rw [padSeg_eq S p q s (by omega)]
      split_ifs
      · unfold lin
        rw [Nat.mul_mod_left, if_pos rfl, Nat.mul_div_cancel _ hP]
      · rfl
    rw [lin_congr S _ s m, padSeg_eq S p q s (by omega)]
    by_cases h1 : q.1 * 2 ^ S ≤ j ∧ j < (lastOf q r).1 * 2 ^ S
    · rw [if_pos h1, if_pos (by omega)]
    · rw [if_neg h1]
      by_cases h2 : p.1 * 2 ^ S ≤ j ∧ j < q.1 * 2 ^ S
      · rw [if_pos h2, if_pos (by omega)]
      · rw [if_neg h2, if_neg (by omega)]

/-! ## The table -/

theorem scalingLut_range (l : List (Nat × Nat)) (h : Pts l) (x : Nat) : 0 ≤ Spec.scalingLut l x ∧ Spec.scalingLut l x ≤ 255 := by
  cases l with
  | nil =>
    show (0 : Int) ≤ 0 ∧ (0 : Int) ≤ 255
    decide
  | cons p r =>
    unfold Spec.scalingLut
    dsimp only
    split_ifs with hc
    · have := h.1 p (by simp)
      omega
    · exact segments_range p r h x (by omega)

/-- The table before the values between are filled in. -/
def coarse (d : Depth) (p : Nat × Nat) (r : List (Nat × Nat)) (junk : Int → Int) : Int → Int :=
  fill (interpAll (min8 d) (p :: r) (fill junk 0 (p.1 <<< min8 d) p.2)) ((lastOf p r).1 <<< min8 d)
    (1 <<< d.bpc - (lastOf p r).1 <<< min8 d) (lastOf p r).2

theorem bpc_pow (d : Depth) : 2 ^ d.bpc = 256 * 2 ^ min8 d := by cases d <;> rfl

theorem coarse_low (d : Depth) (p : Nat × Nat) (r : List (Nat × Nat)) (h : Pts (p :: r)) (junk : Int → Int) (j : Nat)
    (hj : j < p.1 * 2 ^ min8 d) : coarse d p r junk j = p.2 := by
  have hl := lastOf_ge p r h
  have hp := h.1 p (by simp)
  have m : p.1 * 2 ^ min8 d ≤ (lastOf p r).1 * 2 ^ min8 d := Nat.mul_le_mul_right _ hl
  unfold coarse
  have e : fill (interpAll (min8 d) (p :: r) (fill junk 0 (p.1 <<< min8 d) p.2)) ((lastOf p r).1 <<< min8 d)
    (1 <<< d.bpc - (lastOf p r).1 <<< min8 d) (lastOf p r).2 (j : Int) =
      interpAll (min8 d) (p :: r) (fill junk 0 (p.1 <<< min8 d) p.2) j := by
    unfold fill
    rw [if_neg]
    rw [Nat.shiftLeft_eq]
    omega
  rw [e, (interpAll_eq (min8 d) p r h _).2]
  · unfold fill
    rw [if_pos (by rw [Nat.shiftLeft_eq]; omega), byte_id _ (by omega)]
  · intro x h1 _ hc
    have : p.1 * 2 ^ min8 d ≤ x * 2 ^ min8 d := Nat.mul_le_mul_right _ h1
    omega

theorem coarse_high (d : Depth) (p : Nat × Nat) (r : List (Nat × Nat)) (h : Pts (p :: r)) (junk : Int → Int) (j : Nat)
    (hj : (lastOf p r).1 * 2 ^ min8 d ≤ j) (hd : j < 2 ^ d.bpc) : coarse d p r junk j = (lastOf p r).2 := by
  have hq := h.1 _ (lastOf_mem p r)
  unfold coarse
  unfold fill
  rw [if_pos (by rw [Nat.shiftLeft_eq, Nat.one_shiftLeft]; omega), byte_id _ (by omega)]

theorem coarse_mul (d : Depth) (p : Nat × Nat) (r : List (Nat × Nat)) (h : Pts (p :: r)) (junk : Int → Int) (x : Nat)
    (hx : x < 256) : coarse d p r junk ((x * 2 ^ min8 d : Nat) : Int) = Spec.scalingLut (p :: r) x := by
  have hP : 0 < 2 ^ min8 d := by positivity
  have hl := lastOf_ge p r h
  unfold Spec.scalingLut
  dsimp only
  split_ifs with h1
  · exact coarse_low d p r h junk _ (Nat.mul_lt_mul_of_pos_right h1 hP)
  · by_cases h2 : (lastOf p r).1 ≤ x
    · rw [segments_last p r h x h2]
      refine coarse_high d p r h junk _ (Nat.mul_le_mul_right _ h2) ?_
      rw [bpc_pow]
      exact Nat.mul_lt_mul_of_pos_right hx hP
    · rw [← (interpAll_eq (min8 d) p r h (fill junk 0 (p.1 <<< min8 d) p.2)).1 x (by omega) (by omega)]
      have m : x * 2 ^ min8 d < (lastOf p r).1 * 2 ^ min8 d := Nat.mul_lt_mul_of_pos_right (by omega) hP
      unfold coarse
      generalize interpAll _ _ _ = f
      unfold fill
      rw [if_neg]
      rw [Nat.shiftLeft_eq]
      omega

/-- Values between two bytes. -/
theorem between (S : Nat) (hS : S = 2 ∨ S = 4) (a b : Int) (ha : 0 ≤ a ∧ a ≤ 255) (hb : 0 ≤ b ∧ b ≤ 255) (k : Nat) (hk : k < 2 ^ S) :
    0 ≤ a + ((2 ^ S / 2 : Nat) + (k : Int) * (b - a)) / 2 ^ S ∧ a + ((2 ^ S / 2 : Nat) + (k : Int) * (b - a)) / 2 ^ S ≤ 255 := by
  rcases hS with rfl | rfl <;> norm_num at * <;> interval_cases k <;> norm_num <;> omega

theorem round2_pos (v : Int) (S : Nat) (hS : S = 2 ∨ S = 4) : Spec.round2 v S = ((2 ^ S / 2 : Nat) + v) / 2 ^ S := by
  unfold Spec.round2
  rcases hS with rfl | rfl <;> norm_num <;> congr 1 <;> ring

theorem round2_zero (S : Nat) : Spec.round2 0 S = 0 := by
  unfold Spec.round2
  split_ifs with h
  · rfl
  · obtain ⟨m, rfl⟩ : ∃ m, S = m + 1 := ⟨S - 1, by omega⟩
    rw [zero_add]
    have : (0 : Int) < 2 ^ m := by positivity
    refine Int.ediv_eq_zero_of_lt (by positivity) ?_
    rw [pow_succ, Nat.add_sub_cancel]
    omega

/-- generate_scaling gives the scaling function, whatever the memory held before. -/
theorem generateScaling_eq (d : Depth) (l : List (Nat × Nat)) (h : Pts l) (junk : Int → Int) (j : Nat) (hj : j < 2 ^ d.bpc) :
    generateScaling d l junk j = Spec.scaleLut d.bpc l j := by
  have hP : 0 < 2 ^ min8 d := by positivity
  cases l with
  | nil =>
    have e : Spec.scaleLut d.bpc [] j = 0 := by
      unfold Spec.scaleLut Spec.scalingLut
      dsimp only
      split_ifs
      · rfl
      · rw [sub_self, zero_mul, round2_zero]; rfl
    rw [e]
    unfold generateScaling fill
    dsimp only
    rw [if_pos (by rw [Nat.one_shiftLeft]; omega)]
    rfl
  | cons p r =>
    have hp := h.1 p (by simp)
    have hl := lastOf_ge p r h
    have hq := h.1 _ (lastOf_mem p r)
    have e : generateScaling d (p :: r) junk = if d = .b8 then coarse d p r junk else padAll (min8 d) (p :: r) (coarse d p r junk) := rfl
    rw [e]
    have hb := bpc_pow d
    have hx : j / 2 ^ min8 d < 256 := by
      rw [Nat.div_lt_iff_lt_mul hP, ← hb]
      exact hj
    have dm := Nat.div_add_mod j (2 ^ min8 d)
    have ml := Nat.mod_lt j hP
    by_cases h8 : d = .b8
    · rw [if_pos h8]
      subst h8
      have := coarse_mul .b8 p r h junk j (by simpa [Depth.bpc] using hj)
      rw [show ((j * 2 ^ min8 .b8 : Nat) : Int) = (j : Int) by simp [min8, Depth.bpc]] at this
      rw [this]
      unfold Spec.scaleLut
      simp [Depth.bpc]
    · rw [if_neg h8, padAll_eq (min8 d) p r h]
      have hS : min8 d = 2 ∨ min8 d = 4 := by
        cases d
        · exact absurd rfl h8
        · exact Or.inl rfl
        · exact Or.inr rfl
      have hd : d.bpc - 8 = min8 d := rfl
      have hn8 : ¬d.bpc = 8 := by
        cases d
        · exact absurd rfl h8
        · decide
        · decide
      unfold Spec.scaleLut
      dsimp only
      rw [hd]
      have hr : j - j / 2 ^ min8 d * 2 ^ min8 d = j % 2 ^ min8 d := by
        rw [Nat.mul_comm]
        omega
      rw [hr]
      generalize hX : j / 2 ^ min8 d = x at *
      by_cases hin : p.1 * 2 ^ min8 d ≤ j ∧ j < (lastOf p r).1 * 2 ^ min8 d
      · rw [if_pos hin]
        have hx1 : x < (lastOf p r).1 := by rw [← hX, Nat.div_lt_iff_lt_mul hP]; exact hin.2
        rw [if_neg (by omega)]
        unfold lin
        rw [hX, coarse_mul d p r h junk x (by omega), coarse_mul d p r h junk (x + 1) (by omega)]
        have r1 := scalingLut_range (p :: r) h x
        have r2 := scalingLut_range (p :: r) h (x + 1)
        generalize Spec.scalingLut (p :: r) x = A at *
        generalize Spec.scalingLut (p :: r) (x + 1) = B at *
        dsimp only
        split_ifs with hm
        · rw [hm]
          simp [round2_zero]
        · rw [round2_pos _ _ hS, byte_id _ (between _ hS A B r1 r2 _ ml), mul_comm]
      · rw [if_neg hin]
        by_cases hlow : j < p.1 * 2 ^ min8 d
        · rw [coarse_low d p r h junk j hlow]
          have hxp : x < p.1 := by rw [← hX, Nat.div_lt_iff_lt_mul hP]; exact hlow
          have e1 : Spec.scalingLut (p :: r) x = p.2 := by
            unfold Spec.scalingLut
            dsimp only
            rw [if_pos hxp]
          have e2 : Spec.scalingLut (p :: r) (x + 1) = p.2 := by
            unfold Spec.scalingLut
            dsimp only
            split_ifs with hc
            · rfl
            · rw [show x + 1 = p.1 by omega]
              exact segments_first p r h
          rw [e1, e2, sub_self, zero_mul, round2_zero, if_neg (by omega), add_zero]
        · have hhi : (lastOf p r).1 * 2 ^ min8 d ≤ j := by omega
          rw [coarse_high d p r h junk j hhi hj]
          have hxl : (lastOf p r).1 ≤ x := by rw [← hX, Nat.le_div_iff_mul_le hP]; exact hhi
          have e1 : ∀ y, x ≤ y → Spec.scalingLut (p :: r) y = (lastOf p r).2 := by
            intro y hy
            unfold Spec.scalingLut
            dsimp only
            rw [if_neg (by omega)]
            exact segments_last p r h y (by omega)
          rw [e1 x le_rfl, e1 (x + 1) (by omega), sub_self, zero_mul, round2_zero, add_zero, ite_self]

theorem scaleLut_range (d : Depth) (l : List (Nat × Nat)) (h : Pts l) (j : Nat) (hj : j < 2 ^ d.bpc) :
    0 ≤ Spec.scaleLut d.bpc l j ∧ Spec.scaleLut d.bpc l j ≤ 255 := by
  have hP : 0 < 2 ^ min8 d := by positivity
  have hd : d.bpc - 8 = min8 d := rfl
  have ml := Nat.mod_lt j hP
  have dm := Nat.div_add_mod j (2 ^ min8 d)
  unfold Spec.scaleLut
  dsimp only
  rw [hd]
  have hr : j - j / 2 ^ min8 d * 2 ^ min8 d = j % 2 ^ min8 d := by
    rw [Nat.mul_comm]
    omega
  rw [hr]
  split_ifs with hc
  · exact scalingLut_range l h _
  · have hS : min8 d = 2 ∨ min8 d = 4 := by
      cases d
      · exact absurd (Or.inl rfl) hc
      · exact Or.inl rfl
      · exact Or.inr rfl
    rw [round2_pos _ _ hS, mul_comm]
    exact between _ hS _ _ (scalingLut_range l h _) (scalingLut_range l h _) _ ml

end Dav1d.Fg
