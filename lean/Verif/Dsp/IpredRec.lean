import Verif.Dsp.IpredPx
/-!
# C59: recursive filter intra prediction and chroma from luma are as specified
-/
namespace Dav1d.Ipred

open Lf

variable {d : Depth} {f : Int → Int → Int} {p : Prep}

/-! ### Recursive filter -/

section
variable (d : Depth) (t : List (List Int)) (tl : Edge)

theorem filterRow_out {y n : Nat} (dst : Dst) {r c : Int} (h : r < y ∨ y + 2 ≤ r) : filterRow d t tl y n dst r c = dst r c := by
  induction n with
  | zero => rfl
  | succ n ih => simp only [filterRow, filterBlock]; rw [if_neg (by omega), ih]

theorem filterRow_keep {y n m : Nat} (dst : Dst) {r c : Int} (h : c < 4 * n) : filterRow d t tl y (n + m) dst r c = filterRow d t tl y n dst r c := by
  induction m with
  | zero => rfl
  | succ m ih => rw [← Nat.add_assoc]; simp only [filterRow, filterBlock]; rw [if_neg (by push_cast; omega), ih]

theorem filterRows_keep {w4 n m : Nat} (dst : Dst) {r c : Int} (h : r < 2 * n) : filterRows d t tl w4 (n + m) dst r c = filterRows d t tl w4 n dst r c := by
  induction m with
  | zero => rfl
  | succ m ih => rw [← Nat.add_assoc]; simp only [filterRows]; rw [filterRow_out _ _ _ _ (by push_cast; omega), ih]

/-- A predicted pixel in terms of the finished block. -/
theorem filter_step {w4 h2 : Nat} (dst : Dst) {i j a b : Nat} (hi : i < h2) (hj : j < w4) (ha : a < 2) (hb : b < 4) :
    filterRows d t tl w4 h2 dst (2 * i + a) (4 * j + b) =
      (filterIn tl (filterRows d t tl w4 h2 dst) (4 * j) (2 * i)).bind fun p => (t[a * 4 + b]?).map fun t => d.clip (asr (filterAcc t p + 8) 4) := by
  obtain ⟨m, rfl⟩ := Nat.exists_eq_add_of_lt hi
  obtain ⟨n, rfl⟩ := Nat.exists_eq_add_of_lt hj
  have e : ∀ c : Int, ∀ r : Int, r < 2 * i → filterRows d t tl (j + n + 1) (i + m + 1) dst r c = filterRow d t tl (2 * i) j (filterRows d t tl (j + n + 1) i dst) r c := by
    intro c r hr
    rw [show i + m + 1 = i + (m + 1) by omega, filterRows_keep _ _ _ _ hr, filterRow_out _ _ _ _ (by push_cast; omega)]
  have e2 : ∀ c : Int, ∀ r : Int, r < 2 * i + 2 → c < 4 * j → 2 * i ≤ r → filterRows d t tl (j + n + 1) (i + m + 1) dst r c =
      filterRow d t tl (2 * i) j (filterRows d t tl (j + n + 1) i dst) r c := by
    intro c r hr hc hr0
    rw [show i + m + 1 = (i + 1) + m by omega, filterRows_keep _ _ _ _ (by push_cast; omega), filterRows, show j + n + 1 = j + (n + 1) by omega, filterRow_keep _ _ _ _ hc]
  have hin : filterIn tl (filterRows d t tl (j + n + 1) (i + m + 1) dst) (4 * j) (2 * i) =
      filterIn tl (filterRow d t tl (2 * i) j (filterRows d t tl (j + n + 1) i dst)) (4 * j) (2 * i) := by
    unfold filterIn
    have et : ∀ k : Int, (if 2 * i = 0 then tl (1 + ((4 * j : Nat) : Int) + k) else filterRows d t tl (j + n + 1) (i + m + 1) dst (((2 * i : Nat) : Int) - 1) (((4 * j : Nat) : Int) + k))
        = if 2 * i = 0 then tl (1 + ((4 * j : Nat) : Int) + k) else filterRow d t tl (2 * i) j (filterRows d t tl (j + n + 1) i dst) (((2 * i : Nat) : Int) - 1) (((4 * j : Nat) : Int) + k) := by
      intro k; rw [e _ _ (by push_cast; omega)]
    have el : ∀ r : Int, 0 ≤ r → r < 2 → (if 4 * j = 0 then tl (-((2 * i : Nat) : Int) - 1 - r) else filterRows d t tl (j + n + 1) (i + m + 1) dst (((2 * i : Nat) : Int) + r) (((4 * j : Nat) : Int) - 1))
        = if 4 * j = 0 then tl (-((2 * i : Nat) : Int) - 1 - r) else filterRow d t tl (2 * i) j (filterRows d t tl (j + n + 1) i dst) (((2 * i : Nat) : Int) + r) (((4 * j : Nat) : Int) - 1) := by
      intro r h0 h1
      split
      · rfl
      · rw [e2 _ _ (by push_cast; omega) (by push_cast; omega) (by push_cast; omega)]
    simp only [et, el 0 (by omega) (by omega), el 1 (by omega) (by omega)]
  rw [hin]
  rw [show i + m + 1 = (i + 1) + m by omega, filterRows_keep _ _ _ _ (by push_cast; omega), filterRows, show j + n + 1 = (j + 1) + n by omega, filterRow_keep _ _ _ _ (by push_cast; omega)]
  simp only [filterRow, filterBlock]
  rw [if_pos (by push_cast; omega)]
  congr 1
  funext p
  congr 2
  push_cast
  omega
end

theorem round_clip (d : Depth) (acc : Int) : d.clip (asr (acc + 8) 4) = d.clip (Spec.Round2Signed acc 4) := by
  have hm := max_le d
  unfold Spec.Round2Signed Spec.Round2 asr Depth.clip iclip
  norm_num
  split_ifs <;> omega

/-- The taps of a filter: of pixel number `pos` of a 4x2 block for neighbour `k`. -/
def taps (mode pos k : Nat) : Int := (((filterIntraTaps[mode]?).getD [])[pos]?.getD [])[k]?.getD 0

theorem taps_get : ∀ m ∈ List.range 5, ∃ t, filterIntraTaps[m]? = some t ∧ ∀ pos ∈ List.range 8,
    t[pos]? = some [taps m pos 0, taps m pos 1, taps m pos 2, taps m pos 3, taps m pos 4, taps m pos 5, taps m pos 6] := by
  intro m hm
  have : m = 0 ∨ m = 1 ∨ m = 2 ∨ m = 3 ∨ m = 4 := by have := List.mem_range.mp hm; omega
  rcases this with rfl | rfl | rfl | rfl | rfl <;> exact ⟨_, rfl, by decide +kernel⟩

/-- The taps of each pixel add up to 16, so that a flat neighbourhood predicts itself. -/
theorem taps_sum : ∀ m ∈ List.range 5, ∀ pos ∈ List.range 8, ∑ k ∈ Finset.range 7, taps m pos k = 16 := by decide +kernel

section
variable {A L : Int → Int} {P : Int → Int → Int} {i j k : Int}
theorem rin_A (hi : i = 0) (hk : k < 5) : Spec.recursiveIn A L P i j k = A (4 * j + k - 1) := by unfold Spec.recursiveIn; rw [if_pos hk, if_pos hi]
theorem rin_L0 (hi : i ≠ 0) (hj : j = 0) : Spec.recursiveIn A L P i j 0 = L (2 * i - 1) := by unfold Spec.recursiveIn; rw [if_pos (by omega), if_neg hi, if_pos ⟨hj, rfl⟩]
theorem rin_P (hi : i ≠ 0) (hk : k < 5) (h : ¬ (j = 0 ∧ k = 0)) : Spec.recursiveIn A L P i j k = P (2 * i - 1) (4 * j + k - 1) := by
  unfold Spec.recursiveIn; rw [if_pos hk, if_neg hi, if_neg h]
theorem rin_L (hj : j = 0) (hk : ¬ k < 5) : Spec.recursiveIn A L P i j k = L (2 * i + k - 5) := by unfold Spec.recursiveIn; rw [if_neg hk, if_pos hj]
theorem rin_Pl (hj : j ≠ 0) (hk : ¬ k < 5) : Spec.recursiveIn A L P i j k = P (2 * i + k - 5) (4 * j - 1) := by unfold Spec.recursiveIn; rw [if_neg hk, if_neg hj]
end

theorem filterIn_eq {A L : Int → Int} {P : Int → Int → Int} {tl : Edge} {dst : Dst} {i j w h : Nat} (hi : 2 * i + 1 < h) (hj : 4 * j + 3 < w)
    (h0 : tl 0 = some (A (-1))) (hA : ∀ k : Int, 1 ≤ k → k ≤ w → tl k = some (A (k - 1))) (hL : ∀ k : Int, 0 ≤ k → k < h → tl (-(1 + k)) = some (L k))
    (hd : ∀ r c : Nat, r < h → c < w → (r < 2 * i ∨ (r < 2 * i + 2 ∧ c < 4 * j)) → dst r c = some (P r c)) :
    filterIn tl dst (4 * j) (2 * i) = some [Spec.recursiveIn A L P i j 0, Spec.recursiveIn A L P i j 1, Spec.recursiveIn A L P i j 2, Spec.recursiveIn A L P i j 3,
      Spec.recursiveIn A L P i j 4, Spec.recursiveIn A L P i j 5, Spec.recursiveIn A L P i j 6] := by
  have top : ∀ k : Int, -1 ≤ k → k ≤ 3 → 0 ≤ 4 * (j : Int) + k →
      (if 2 * i = 0 then tl (1 + ((4 * j : Nat) : Int) + k) else dst (((2 * i : Nat) : Int) - 1) (((4 * j : Nat) : Int) + k)) = some (Spec.recursiveIn A L P i j (k + 1)) := by
    intro k k0 k1 kj
    by_cases hz : i = 0
    · rw [if_pos (by omega), rin_A (by omega) (by omega), hA _ (by push_cast; omega) (by push_cast; omega)]
      congr 2; push_cast; omega
    · rw [if_neg (by omega), rin_P (by omega) (by omega) (by omega)]
      have := hd (2 * i - 1) (4 * (j : Int) + k).toNat (by omega) (by omega) (by omega)
      rw [show ((2 * i - 1 : Nat) : Int) = 2 * (i : Int) - 1 by omega, show (((4 * (j : Int) + k).toNat : Nat) : Int) = 4 * (j : Int) + k by omega] at this
      push_cast
      rw [this]
      congr 2; omega
  have left : ∀ r : Int, 0 ≤ r → r < 2 →
      (if 4 * j = 0 then tl (-((2 * i : Nat) : Int) - 1 - r) else dst (((2 * i : Nat) : Int) + r) (((4 * j : Nat) : Int) - 1)) = some (Spec.recursiveIn A L P i j (r + 5)) := by
    intro r r0 r1
    by_cases hz : j = 0
    · rw [if_pos (by omega), rin_L (by omega) (by omega), show -((2 * i : Nat) : Int) - 1 - r = -(1 + (2 * (i : Int) + r)) by push_cast; omega, hL _ (by omega) (by omega)]
      congr 2; omega
    · rw [if_neg (by omega), rin_Pl (by omega) (by omega)]
      have := hd (2 * (i : Int) + r).toNat (4 * j - 1) (by omega) (by omega) (by omega)
      rw [show ((4 * j - 1 : Nat) : Int) = 4 * (j : Int) - 1 by omega, show (((2 * (i : Int) + r).toNat : Nat) : Int) = 2 * (i : Int) + r by omega] at this
      push_cast
      rw [this]
      congr 2; omega
  have tll : (if 4 * j = 0 then tl (-((2 * i : Nat) : Int)) else (if 2 * i = 0 then tl (1 + ((4 * j : Nat) : Int) + -1) else dst (((2 * i : Nat) : Int) - 1) (((4 * j : Nat) : Int) + -1)))
      = some (Spec.recursiveIn A L P i j 0) := by
    by_cases hz : j = 0
    · rw [if_pos (by omega)]
      by_cases hi0 : i = 0
      · rw [rin_A (by omega) (by omega), show -((2 * i : Nat) : Int) = 0 by omega, h0]
        congr 2; omega
      · rw [rin_L0 (by omega) (by omega), show -((2 * i : Nat) : Int) = -(1 + (2 * (i : Int) - 1)) by push_cast; omega, hL _ (by omega) (by omega)]
    · rw [if_neg (by omega), top (-1) (by omega) (by omega) (by omega)]
      rfl
  unfold filterIn
  dsimp only
  rw [tll, top 0 (by omega) (by omega) (by omega), top 1 (by omega) (by omega) (by omega), top 2 (by omega) (by omega) (by omega), top 3 (by omega) (by omega) (by omega),
    left 0 (by omega) (by omega), left 1 (by omega) (by omega)]
  rfl

theorem acc_eq (c q : Nat → Int) : filterAcc [c 0, c 1, c 2, c 3, c 4, c 5, c 6] [q 0, q 1, q 2, q 3, q 4, q 5, q 6] = ∑ k ∈ Finset.range 7, c k * q k := by
  simp only [filterAcc, List.zipWith_cons_cons, List.zipWith_nil_right, List.sum_cons, List.sum_nil, Finset.sum_range_succ, Finset.sum_range_zero]
  ring

/-- C59_filter with the taps of the code. -/
theorem filter_pred (T : p.Tx) (R : p.Reads f) {mode : Nat} (hm : mode < 5) (filter sm : Bool) (maxW maxH : Int) :
    ∃ P : Int → Int → Int, (∀ x y : Nat, x < 4 * p.tw → y < 4 * p.th → p.predict d .filter mode (dirFlags filter sm) maxW maxH x y = some (P y x)) ∧
      Spec.Recursive d (Spec.aboveRow d f p.block) (Spec.leftCol d f p.block) (taps mode) (4 * p.tw) (4 * p.th) P := by
  have S := T.sized
  obtain ⟨Sx, Sy, w1, w16, h1, h16⟩ := id S
  obtain ⟨t, ht, htp⟩ := taps_get mode (List.mem_range.mpr hm)
  obtain ⟨fa, -, -⟩ := flags_angle (show mode < 512 by omega) filter sm
  have fa' : (mode + dirFlags filter sm) % 512 = mode := fa
  let final := filterRows d t (p.edge d .filter) p.tw (2 * p.th) (fun _ _ => none)
  let P : Int → Int → Int := fun r c => (final r c).getD 0
  have hpred : ∀ x y : Nat, p.predict d .filter mode (dirFlags filter sm) maxW maxH x y = final y x := by
    intro x y
    unfold Prep.predict
    rw [if_pos ⟨Sx, Sy⟩]
    simp only [predOf, absAngle, Int.toNat_natCast, predFilter, fa', if_pos hm, ht, Option.bind_some]
    rw [show (4 * p.tw + 3) / 4 = p.tw by omega, show (4 * p.th + 1) / 2 = 2 * p.th by omega]
  have e0 := edge_corner (d := d) S R (q := .filter) rfl (by decide)
  have eA : ∀ k : Int, 1 ≤ k → k ≤ ((4 * p.tw : Nat) : Int) → p.edge d .filter k = some (Spec.aboveRow d f p.block (k - 1)) := fun k h0 h1 =>
    edge_above S R rfl h0 (Or.inl (by push_cast at h1; omega))
  have eL : ∀ k : Int, 0 ≤ k → k < ((4 * p.th : Nat) : Int) → p.edge d .filter (-(1 + k)) = some (Spec.leftCol d f p.block k) := fun k h0 h1 =>
    edge_left S R rfl h0 (Or.inl (by push_cast at h1; omega))
  -- a block of 4x2 pixels, if everything before it is known
  have step : ∀ i j : Nat, i < 2 * p.th → j < p.tw → (∀ r c : Nat, r < 4 * p.th → c < 4 * p.tw → (r < 2 * i ∨ (r < 2 * i + 2 ∧ c < 4 * j)) → final r c = some (P r c)) →
      ∀ a b : Nat, a < 2 → b < 4 → final (2 * i + a) (4 * j + b) =
        some (d.clip (Spec.Round2Signed (∑ k ∈ Finset.range 7, taps mode (a * 4 + b) k * Spec.recursiveIn (Spec.aboveRow d f p.block) (Spec.leftCol d f p.block) P i j k) 4)) := by
    intro i j hi hj hd a b ha hb
    have e := filter_step d t (p.edge d .filter) (fun _ _ => none) hi hj ha hb
    rw [filterIn_eq (w := 4 * p.tw) (h := 4 * p.th) (by omega) (by omega) e0 eA eL hd, htp _ (List.mem_range.mpr (by omega)), Option.bind_some, Option.map_some, round_clip] at e
    rw [← acc_eq (taps mode (a * 4 + b)) (fun k => Spec.recursiveIn (Spec.aboveRow d f p.block) (Spec.leftCol d f p.block) P i j k)]
    exact e
  have all : ∀ i : Nat, i ≤ 2 * p.th → ∀ r c : Nat, r < 2 * i → c < 4 * p.tw → final r c = some (P r c) := by
    intro i
    induction i with
    | zero => intro _ r c h; omega
    | succ i ih =>
      intro hi
      have row : ∀ j : Nat, j ≤ p.tw → ∀ r c : Nat, r < 2 * i + 2 → c < 4 * j → final r c = some (P r c) := by
        intro j
        induction j with
        | zero => intro _ r c _ h; omega
        | succ j ihj =>
          intro hj r c hr hc
          by_cases h1 : r < 2 * i
          · exact ih (by omega) r c h1 (by omega)
          · by_cases h2 : c < 4 * j
            · exact ihj (by omega) r c hr h2
            · have := step i j (by omega) (by omega) (fun r c _ h1 h => by
                rcases h with h | ⟨h, h'⟩
                · exact ih (by omega) r c h h1
                · exact ihj (by omega) r c h h') (r - 2 * i) (c - 4 * j) (by omega) (by omega)
              rw [show 2 * (i : Int) + (r - 2 * i : Nat) = r by omega, show 4 * (j : Int) + (c - 4 * j : Nat) = c by omega] at this
              simp only [P, this, Option.getD_some]
      intro r c hr hc
      exact row p.tw (le_refl _) r c (by omega) hc
  refine ⟨P, fun x y hx hy => by rw [hpred]; exact all (2 * p.th) (le_refl _) y x (by omega) hx, ?_⟩
  intro i j hi hj
  have := step (i / 2) (j / 4) (by omega) (by omega) (fun r c h1 h2 _ => all (2 * p.th) (le_refl _) r c (by omega) h2) (i % 2) (j % 4) (by omega) (by omega)
  rw [show 2 * ((i / 2 : Nat) : Int) + (i % 2 : Nat) = i by omega, show 4 * ((j / 4 : Nat) : Int) + (j % 4 : Nat) = j by omega] at this
  simp only [P, this, Option.getD_some]
  rfl

theorem taps_spec : ∀ m ∈ List.range 5, ∀ pos ∈ List.range 8, ∀ k ∈ List.range 7, taps m pos k = Spec.filterTap m pos k := by decide +kernel

/-- **C59**: recursive filter intra prediction, mode `mode`: what is predicted satisfies the equations of the specification, which
determine every pixel from the neighbours and from pixels before it. -/
theorem C59_filter (T : p.Tx) (R : p.Reads f) {mode : Nat} (hm : mode < 5) (filter sm : Bool) (maxW maxH : Int) :
    ∃ P : Int → Int → Int, (∀ x y : Nat, x < 4 * p.tw → y < 4 * p.th → p.predict d .filter mode (dirFlags filter sm) maxW maxH x y = some (P y x)) ∧
      Spec.Recursive d (Spec.aboveRow d f p.block) (Spec.leftCol d f p.block) (Spec.filterTap mode) (4 * p.tw) (4 * p.th) P := by
  obtain ⟨P, h, r⟩ := filter_pred (d := d) T R hm filter sm maxW maxH
  refine ⟨P, h, fun i j hi hj => (r i j hi hj).trans ?_⟩
  refine congrArg (fun v => d.clip (Spec.Round2Signed v 4)) (Finset.sum_congr rfl fun k hk => ?_)
  rw [taps_spec mode (List.mem_range.mpr hm) _ (List.mem_range.mpr (by omega)) k (List.mem_range.mpr (Finset.mem_range.mp hk))]

/-! ### Chroma from luma -/

theorem addInt_eq {pp : Nat → Option Int} {v : Nat → Int} {n : Nat} (h : ∀ k < n, pp k = some (v k)) (a : Int) : addInt pp n a = some (a + ∑ k ∈ Finset.range n, v k) := by
  induction n with
  | zero => simp [addInt]
  | succ n ih =>
    simp only [addInt]
    rw [ih (fun k hk => h k (by omega)), h n (by omega), Option.bind_some, Option.map_some, Finset.sum_range_succ]
    congr 1; omega

theorem addRows_eq {pp : Nat → Nat → Option Int} {v : Nat → Nat → Int} {w n : Nat} (h : ∀ y < n, ∀ x < w, pp x y = some (v y x)) (a : Int) :
    addRows pp w n a = some (a + ∑ y ∈ Finset.range n, ∑ x ∈ Finset.range w, v y x) := by
  induction n with
  | zero => simp [addRows]
  | succ n ih =>
    simp only [addRows]
    rw [ih (fun y hy => h y (by omega)), Option.bind_some, addInt_eq (fun k hk => h n (by omega) k hk), Finset.sum_range_succ]
    congr 1; omega

/-- The luma sum with the position after clamping. -/
theorem luma_at (luma : Int → Int → Int) (sx sy : Bool) (aw ah i j : Nat) : Spec.cflLuma luma sx sy aw ah i j =
    (∑ dy ∈ Finset.range ((if sy then 1 else 0) + 1), ∑ dx ∈ Finset.range ((if sx then 1 else 0) + 1),
      luma (min i (ah - 1) * 2 ^ (if sy then 1 else 0) + dy : Nat) (min j (aw - 1) * 2 ^ (if sx then 1 else 0) + dx : Nat)) * 2 ^ (3 - (if sx then 1 else 0) - (if sy then 1 else 0)) := by
  unfold Spec.cflLuma
  dsimp only
  have e1 : ∀ a b n : Nat, min (a * 2 ^ n) (b * 2 ^ n) = min a b * 2 ^ n := fun a b n => (Nat.mul_min_mul_right a b (2 ^ n))
  rw [e1, e1]

theorem luma_range {luma : Int → Int → Int} (hl : Pixels d luma) (sx sy : Bool) (aw ah i j : Nat) :
    0 ≤ Spec.cflLuma luma sx sy aw ah i j ∧ Spec.cflLuma luma sx sy aw ah i j ≤ 8 * d.max := by
  rw [luma_at]
  generalize min i (ah - 1) = y
  generalize min j (aw - 1) = x
  cases sx <;> cases sy <;>
    simp only [if_true, Bool.false_eq_true, if_false, Finset.sum_range_succ, Finset.sum_range_zero, Nat.pow_zero, Nat.mul_one, Nat.pow_one, Nat.add_zero, Int.zero_add, Nat.zero_add] <;> norm_num
  · have := hl y x; omega
  · have := hl (y * 2) x; have := hl (y * 2 + 1) x; omega
  · have := hl y (x * 2); have := hl y (x * 2 + 1); omega
  · have := hl (y * 2) (x * 2); have := hl (y * 2) (x * 2 + 1); have := hl (y * 2 + 1) (x * 2); have := hl (y * 2 + 1) (x * 2 + 1); omega

/-- The decoder may read the luma of the part of the block inside the picture: `aw` times `ah` chroma pixels. -/
def LumaReads (ypx : Dst) (luma : Int → Int → Int) (sx sy : Bool) (aw ah : Nat) : Prop :=
  ∀ r c : Nat, r < ah * (if sy then 2 else 1) → c < aw * (if sx then 2 else 1) → ypx r c = some (luma r c)

theorem acSum_eq {ypx : Dst} {luma : Int → Int → Int} {sx sy : Bool} {wPad hPad w h : Nat} (hl : Pixels d luma) (hw : wPad * 4 < w) (hh : hPad * 4 < h)
    (hy : LumaReads ypx luma sx sy (w - 4 * wPad) (h - 4 * hPad)) (x y : Nat) :
    cflAcSum ypx sx sy wPad hPad w h x y = some (Spec.cflLuma luma sx sy (w - 4 * wPad) (h - 4 * hPad) y x) := by
  have hr := luma_range hl sx sy (w - 4 * wPad) (h - 4 * hPad) y x
  have hm := (max_le d).1
  rw [luma_at] at hr ⊢
  unfold cflAcSum cflLuma
  have hX : min x (w - 4 * wPad - 1) < w - 4 * wPad := by omega
  have hY : min y (h - 4 * hPad - 1) < h - 4 * hPad := by omega
  generalize min x (w - 4 * wPad - 1) = X at *
  generalize min y (h - 4 * hPad - 1) = Y at *
  unfold LumaReads at hy
  cases sx <;> cases sy <;>
    simp only [if_true, Bool.false_eq_true, if_false, Finset.sum_range_succ, Finset.sum_range_zero, Nat.pow_zero, Nat.mul_one, Nat.pow_one, Nat.add_zero, Int.zero_add, Nat.zero_add,
      Bool.and_false, Bool.and_true, Bool.false_and] at hr hy ⊢
  · rw [hy Y X (by omega) (by omega)]
    simp only [Option.bind_some]
    unfold int16
    norm_num at hr ⊢
    omega
  · have e1 := hy (Y * 2) X (by omega) (by omega)
    have e2 := hy (Y * 2 + 1) X (by omega) (by omega)
    rw [show 2 * (Y : Int) = ((Y * 2 : Nat) : Int) by push_cast; ring, e1, show ((Y * 2 : Nat) : Int) + 1 = ((Y * 2 + 1 : Nat) : Int) by push_cast; ring, e2]
    simp only [Option.bind_some]
    generalize luma ((Y * 2 : Nat) : Int) X = v1 at *
    generalize luma ((Y * 2 + 1 : Nat) : Int) X = v2 at *
    unfold int16
    norm_num at hr ⊢
    omega
  · have e1 := hy Y (X * 2) (by omega) (by omega)
    have e2 := hy Y (X * 2 + 1) (by omega) (by omega)
    rw [show 2 * (X : Int) = ((X * 2 : Nat) : Int) by push_cast; ring, e1, show ((X * 2 : Nat) : Int) + 1 = ((X * 2 + 1 : Nat) : Int) by push_cast; ring, e2]
    simp only [Option.bind_some]
    generalize luma Y ((X * 2 : Nat) : Int) = v1 at *
    generalize luma Y ((X * 2 + 1 : Nat) : Int) = v2 at *
    unfold int16
    norm_num at hr ⊢
    omega
  · have e1 := hy (Y * 2) (X * 2) (by omega) (by omega)
    have e2 := hy (Y * 2) (X * 2 + 1) (by omega) (by omega)
    have e3 := hy (Y * 2 + 1) (X * 2) (by omega) (by omega)
    have e4 := hy (Y * 2 + 1) (X * 2 + 1) (by omega) (by omega)
    rw [show 2 * (X : Int) = ((X * 2 : Nat) : Int) by push_cast; ring, show 2 * (Y : Int) = ((Y * 2 : Nat) : Int) by push_cast; ring, e1,
      show ((X * 2 : Nat) : Int) + 1 = ((X * 2 + 1 : Nat) : Int) by push_cast; ring, e2, show ((Y * 2 : Nat) : Int) + 1 = ((Y * 2 + 1 : Nat) : Int) by push_cast; ring, e3, e4]
    simp only [Option.bind_some]
    generalize luma ((Y * 2 : Nat) : Int) ((X * 2 : Nat) : Int) = v1 at *
    generalize luma ((Y * 2 : Nat) : Int) ((X * 2 + 1 : Nat) : Int) = v2 at *
    generalize luma ((Y * 2 + 1 : Nat) : Int) ((X * 2 : Nat) : Int) = v3 at *
    generalize luma ((Y * 2 + 1 : Nat) : Int) ((X * 2 + 1 : Nat) : Int) = v4 at *
    unfold int16
    norm_num at hr ⊢
    omega

theorem ctz_two_pow : ∀ n ∈ List.range 7, ctz (2 ^ n) = n := by decide

/-- **C59**: cfl_ac: what is stored for each pixel is its luma minus the mean of the block, and fits the 16 bits it is stored in. -/
theorem C59_cfl_ac {ypx : Dst} {luma : Int → Int → Int} {sx sy : Bool} {wPad hPad lw lh : Nat} (hl : Pixels d luma) (hlw : lw ≤ 5) (hlh : lh ≤ 5)
    (hw : wPad * 4 < 2 ^ lw) (hh : hPad * 4 < 2 ^ lh) (hy : LumaReads ypx luma sx sy (2 ^ lw - 4 * wPad) (2 ^ lh - 4 * hPad)) {x y : Nat} :
    cflAc ypx sx sy wPad hPad (2 ^ lw) (2 ^ lh) x y = some (Spec.cflLuma luma sx sy (2 ^ lw - 4 * wPad) (2 ^ lh - 4 * hPad) y x -
      Spec.cflAvg luma sx sy (2 ^ lw - 4 * wPad) (2 ^ lh - 4 * hPad) lw lh) := by
  unfold cflAc
  rw [if_pos ⟨hw, hh⟩, ctz_two_pow lw (List.mem_range.mpr (by omega)), ctz_two_pow lh (List.mem_range.mpr (by omega))]
  dsimp only
  rw [addRows_eq (v := fun i j => Spec.cflLuma luma sx sy (2 ^ lw - 4 * wPad) (2 ^ lh - 4 * hPad) i j) (fun i _ j _ => acSum_eq hl hw hh hy j i), Option.bind_some,
    acSum_eq hl hw hh hy, Option.bind_some]
  have e : asr (asr (2 ^ (lw + lh)) 1 + ∑ i ∈ Finset.range (2 ^ lh), ∑ j ∈ Finset.range (2 ^ lw), Spec.cflLuma luma sx sy (2 ^ lw - 4 * wPad) (2 ^ lh - 4 * hPad) i j) (lw + lh)
      = Spec.cflAvg luma sx sy (2 ^ lw - 4 * wPad) (2 ^ lh - 4 * hPad) lw lh := by
    unfold Spec.cflAvg Spec.Round2 asr
    rw [add_comm]
    norm_num
  rw [e]
  have hm := (max_le d).1
  have hr := luma_range hl sx sy (2 ^ lw - 4 * wPad) (2 ^ lh - 4 * hPad) y x
  have ha : 0 ≤ Spec.cflAvg luma sx sy (2 ^ lw - 4 * wPad) (2 ^ lh - 4 * hPad) lw lh ∧ Spec.cflAvg luma sx sy (2 ^ lw - 4 * wPad) (2 ^ lh - 4 * hPad) lw lh ≤ 8 * d.max := by
    unfold Spec.cflAvg Spec.Round2
    have b := addPixels_bounds (2 ^ lh) (v := fun i => ∑ j ∈ Finset.range (2 ^ lw), Spec.cflLuma luma sx sy (2 ^ lw - 4 * wPad) (2 ^ lh - 4 * hPad) i j)
      (lo := 2 ^ lw * 0) (hi := 2 ^ lw * (8 * d.max)) (fun i _ => by
        have := addPixels_bounds (2 ^ lw) (v := fun j => Spec.cflLuma luma sx sy (2 ^ lw - 4 * wPad) (2 ^ lh - 4 * hPad) i j) (lo := 0) (hi := 8 * d.max)
          (fun j _ => luma_range hl sx sy _ _ i j)
        push_cast at this
        exact this)
    push_cast at b
    refine mean_range (by positivity) ?_ ?_
    · rw [Int.mul_zero]; simpa using b.1
    · refine le_trans b.2 (le_of_eq ?_); rw [pow_add]; ring
  unfold int16
  rw [if_pos (by omega)]

/-- **C59**: the chroma pixel predicted from the stored luma. -/
theorem C59_cfl {ypx : Dst} {luma : Int → Int → Int} {sx sy : Bool} {wPad hPad lw lh : Nat} (hl : Pixels d luma) (hlw : lw ≤ 5) (hlh : lh ≤ 5)
    (hw : wPad * 4 < 2 ^ lw) (hh : hPad * 4 < 2 ^ lh) (hy : LumaReads ypx luma sx sy (2 ^ lw - 4 * wPad) (2 ^ lh - 4 * hPad)) {x y : Nat} (alpha dc : Int) :
    (cflAc ypx sx sy wPad hPad (2 ^ lw) (2 ^ lh) x y).map (fun ac => cflPx d dc ac alpha) =
      some (Spec.cfl d luma sx sy (2 ^ lw - 4 * wPad) (2 ^ lh - 4 * hPad) lw lh alpha dc y x) := by
  rw [C59_cfl_ac hl hlw hlh hw hh hy, Option.map_some]
  unfold cflPx Spec.cfl Spec.Round2Signed Spec.Round2 asr
  dsimp only
  generalize alpha * _ = v
  rw [show (2 : Int) ^ 6 = 64 from rfl]
  by_cases hv : v < 0
  · rw [if_pos hv, if_neg (by omega), Int.ofNat_natAbs_of_nonpos (by omega)]; norm_num
  · rw [if_neg hv, if_pos (by omega), Int.natAbs_of_nonneg (by omega)]; norm_num

/-- Without luma detail (or with `alpha` 0) the prediction is the DC prediction. -/
theorem C59_cfl_flat {dc : Int} (hd : 0 ≤ dc ∧ dc ≤ d.max) (ac alpha : Int) (h : alpha = 0 ∨ ac = 0) : cflPx d dc ac alpha = dc := by
  have e : alpha * ac = 0 := by rcases h with rfl | rfl <;> simp
  unfold cflPx
  rw [e]
  unfold asr
  norm_num
  exact clip_id hd

/-! ### Examples -/

/-- An 8x16 block at row 8 and column 16 of a picture of 22 columns, with a neighbour on the left, one above and pixels below left. -/
def demoPlane : Int → Int → Int := fun r c => (37 * r + 11 * c * c) % 256
def demo : Prep where
  x := 4
  haveLeft := true
  y := 2
  haveTop := true
  w := 6
  h := 9
  hasRight := false
  hasBottom := true
  dst := fun r c => some (demoPlane (8 + r) (16 + c))
  sbEdge := none
  tw := 2
  th := 4
  filterEdge := true

theorem demo_tx : demo.Tx := ⟨by decide, by decide, by decide⟩
theorem demo_reads : demo.Reads demoPlane := by
  constructor <;> intros <;> simp [demo, Prep.top]
theorem demo_px : Pixels .b8 demoPlane := by
  intro r c; unfold demoPlane; simp only [Depth.max, Depth.bpc]; norm_num; omega
theorem demo_within : demo.Within demoPlane 0 255 := by
  refine ⟨Or.inl rfl, fun _ c _ _ _ => ?_, fun _ r _ _ _ => ?_⟩ <;> (unfold demoPlane; omega)

/-- C58_directional at work: D67 with delta -2, D135, D203 with delta 1; and without any neighbour. -/
example : demo.predict .b8 (.dir 7) (-2) (dirFlags true false) 24 28 3 5 = some (Spec.directional .b8 (Spec.aboveRow .b8 demoPlane demo.block)
    (Spec.leftCol .b8 demoPlane demo.block) (demo.specDir false) 61 5 3) :=
  C58_directional demo_tx.sized demo_reads demo_px 7 (by decide) false (by decide) (by decide) (by decide) (by decide)
example : demo.predict .b8 (.dir 3) 0 (dirFlags true true) 24 28 3 5 = some (Spec.directional .b8 (Spec.aboveRow .b8 demoPlane demo.block)
    (Spec.leftCol .b8 demoPlane demo.block) (demo.specDir true) 135 5 3) :=
  C58_directional demo_tx.sized demo_reads demo_px 3 (by decide) true (by decide) (by decide) (by decide) (by decide)
example : (List.range 8).map (fun x => demo.predict .b8 (.dir 6) 1 (dirFlags true false) 24 28 x 5) =
    [some 157, some 176, some 193, some 212, some 197, some 175, some 149, some 119] := by decide +kernel
example : ({ demo with haveLeft := false, haveTop := false }).predict .b8 (.dir 3) 1 (dirFlags true false) 24 28 2 3 = some 129 := by decide +kernel
example : ∃ v, demo.predict .b8 .smooth 0 0 24 28 3 5 = some v ∧ 0 ≤ v ∧ v ≤ 255 :=
  C42_smooth demo_tx demo_reads demo_px 0 0 24 28 (by decide) (by decide) demo_within
example : demo.predict .b8 .dc 0 0 24 28 3 5 = some 151 := by decide +kernel
example : ∃ P : Int → Int → Int, (∀ x y : Nat, x < 8 → y < 16 → demo.predict .b8 .filter (3 : Nat) (dirFlags true false) 24 28 x y = some (P y x)) ∧
    Spec.Recursive .b8 (Spec.aboveRow .b8 demoPlane demo.block) (Spec.leftCol .b8 demoPlane demo.block) (Spec.filterTap 3) 8 16 P :=
  C59_filter demo_tx demo_reads (by decide) true false 24 28
/-- C59_cfl: a 4:2:0 block of 8x4 chroma pixels of which 4x4 have luma. -/
example : (cflAc (fun r c => some (demoPlane r c)) true true 1 0 8 4 5 2).map (fun ac => cflPx .b8 100 ac (-9)) =
    some (Spec.cfl .b8 demoPlane true true 4 4 3 2 (-9) 100 2 5) :=
  C59_cfl (lw := 3) (lh := 2) demo_px (by decide) (by decide) (by decide) (by decide) (fun _ _ _ _ => rfl) (-9) 100

end Dav1d.Ipred
