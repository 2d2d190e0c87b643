import Verif.Syn.LrsModel
import Verif.Syn.LruGeo
/-!
# The saved lines at the ends of stripes
-/
set_option linter.unusedVariables false
set_option linter.unusedSimpArgs false
namespace Dav1d.Lrs
open Dav1d.Syn.Lru (Cfg RUnit Ptr CfgOk)

/-- The height of a stripe, how much stripes are shifted, stripes in a superblock. -/
def S (f : Cfg) (p : Nat) : Nat := 64 / 2 ^ f.ssV p
def O (f : Cfg) (p : Nat) : Nat := 8 / 2 ^ f.ssV p
def N (f : Cfg) : Nat := if f.sb128 then 2 else 1

theorem ss_cases (f : Cfg) (p : Nat) : f.ssV p = 0 ∨ f.ssV p = 1 := by
  unfold Cfg.ssV
  split <;> simp

theorem num (f : Cfg) (p : Nat) : (S f p = 64 ∧ O f p = 8 ∨ S f p = 32 ∧ O f p = 4) ∧ (N f = 1 ∨ N f = 2) ∧ 2 ^ lg f p = S f p * N f := by
  unfold S O N lg
  rcases ss_cases f p with h | h <;> rw [h] <;> split <;> simp

theorem yStripe_eq (f : Cfg) (p sby : Nat) : yStripe f p sby = sby * (S f p * N f) - if sby = 0 then 0 else O f p := by
  unfold yStripe
  rw [(num f p).2.2]
  by_cases h : sby = 0
  · rw [if_pos h, if_neg (not_not.2 h)]; simp
  · rw [if_neg h, if_pos h]; rfl

/-- The end of the stripe `k`, if there is no end of the frame before. -/
def stop (f : Cfg) (p k : Nat) : Nat := (k + 1) * S f p - O f p

theorem first_end (f : Cfg) (p sby : Nat) : yStripe f p sby + (64 - 8 * if yStripe f p sby = 0 then 1 else 0) / 2 ^ f.ssV p = stop f p (sby * N f) ∧
    2 ≤ (64 - 8 * if yStripe f p sby = 0 then 1 else 0) / 2 ^ f.ssV p := by
  rw [yStripe_eq]
  unfold stop S O N
  rcases ss_cases f p with h | h <;> rw [h] <;> (by_cases hs : sby = 0) <;> (by_cases hb : f.sb128 = true) <;> simp only [hs, hb, if_true, if_false, reduceIte, Nat.zero_mul, Nat.reducePow,
    Nat.reduceDiv, Nat.reduceMul, Nat.reduceSub, Nat.zero_add, Nat.sub_zero, Bool.false_eq_true, Nat.one_mul, Nat.reduceAdd, Nat.reduceLeDiff, and_self, and_true, true_and] <;> (try (rw [if_neg (by omega)])) <;> omega

theorem setLine_same (b : Plane) (j : Int) (l : Int → Int) : setLine b j l j = l := if_pos rfl
theorem setLine_ne {b : Plane} {j k : Int} {l : Int → Int} (h : k ≠ j) : setLine b j l k = b k := if_neg h

variable {D : Plane}

theorem saveFour_other {h row sh : Nat} {dst : Int} {b : Plane} {j : Int} (hj : j < dst ∨ dst + 4 ≤ j) : saveFour D h row sh dst b j = b j := by
  unfold saveFour
  simp only
  rw [setLine_ne (by omega), setLine_ne (by omega), setLine_ne (by omega), setLine_ne (by omega)]

theorem saveFour_at {h row sh : Nat} {dst : Int} {b : Plane} (he : row + sh + 1 ≤ h) (r : Nat) (hr : r < 4) :
    saveFour D h row sh dst b (dst + r) = D (min ((row + sh : Nat) - 2 + r) ((h : Int) - 1)) := by
  have ne : ∀ {i k : Nat}, i ≠ k → dst + (i : Int) ≠ dst + (k : Int) := fun h => by omega
  unfold saveFour
  simp only
  rcases (show r = 0 ∨ r = 1 ∨ r = 2 ∨ r = 3 by omega) with rfl | rfl | rfl | rfl
  · rw [setLine_ne (ne (by decide)), setLine_ne (ne (by decide)), setLine_ne (ne (by decide)), setLine_same, if_neg (by split <;> decide)]
    congr 1; omega
  · rw [setLine_ne (ne (by decide)), setLine_ne (ne (by decide)), setLine_same, if_neg (by split <;> decide)]
    congr 1; omega
  · rw [setLine_ne (ne (by decide)), setLine_same, if_neg (by split <;> decide)]
    congr 1; omega
  · rw [setLine_same]
    by_cases hh : row + sh + 1 = h
    · rw [if_pos hh, if_pos rfl, show dst + ((3 : Nat) : Int) - 1 = dst + ((2 : Nat) : Int) by omega, setLine_same, if_neg (by decide)]
      congr 1; omega
    · rw [if_neg hh, if_neg (by decide)]
      congr 1; omega

theorem saveLoop_other {h ss rowH : Nat} (K : Nat) : ∀ (n row sh : Nat) (dst : Int) (b : Plane) (m : Nat), rowH < row + sh + m * (64 / 2 ^ ss) →
    ∀ j : Int, j < dst ∨ dst + 4 * m ≤ j → saveLoop D h ss rowH n row sh dst b j = b j
  | 0, _, _, _, _, _, _, _, _ => rfl
  | n + 1, row, sh, dst, b, m, hm, j, hj => by
    unfold saveLoop
    split
    · rename_i h1
      obtain ⟨m, rfl⟩ : ∃ k, m = k + 1 := ⟨m - 1, by rcases m with _ | m <;> omega⟩
      rw [saveLoop_other K n (row + sh) (64 / 2 ^ ss) (dst + 4) _ m (by rw [Nat.add_mul] at hm; omega) j (by omega), saveFour_other (by omega)]
    · rfl

theorem saveLoop_at {h ss rowH : Nat} (hH : rowH + 1 ≤ h) (hS : 0 < 64 / 2 ^ ss) : ∀ (n row sh : Nat) (dst : Int) (b : Plane), rowH < row + sh + n → ∀ k r : Nat, r < 4 → row + sh + k * (64 / 2 ^ ss) ≤ rowH →
    saveLoop D h ss rowH n row sh dst b (dst + 4 * k + r) = D (min ((row + sh + k * (64 / 2 ^ ss) : Nat) - 2 + r) ((h : Int) - 1))
  | 0, row, sh, _, _, hn, k, r, _, hk => absurd hk (by have := Nat.zero_le (k * (64 / 2 ^ ss)); omega)
  | n + 1, row, sh, dst, b, hn, k, r, hr, hk => by
    unfold saveLoop
    rw [if_pos (by have := Nat.zero_le (k * (64 / 2 ^ ss)); omega)]
    rcases k with _ | k
    · rw [saveLoop_other 0 n (row + sh) (64 / 2 ^ ss) (dst + 4) _ (rowH + 1) (by have := Nat.le_mul_of_pos_right (rowH + 1) hS; omega) _ (by omega)]
      rw [show dst + 4 * ((0 : Nat) : Int) + (r : Int) = dst + (r : Int) by omega, saveFour_at (by omega) r hr]
      congr 2; omega
    · rw [Nat.add_mul, Nat.one_mul] at hk
      have := saveLoop_at hH hS n (row + sh) (64 / 2 ^ ss) (dst + 4) (saveFour D h row sh dst b) (by omega) k r hr (by omega)
      rw [show dst + 4 * ((k + 1 : Nat) : Int) + (r : Int) = dst + 4 + 4 * (k : Int) + (r : Int) by omega, this, Nat.add_mul, Nat.one_mul]
      congr 2; omega

/-- The first line used for a row of superblocks. -/
def line0 (f : Cfg) (tt : Bool) (sby : Nat) : Int := if tt then 4 * (sby * N f : Nat) - 4 else 0

/-- The lines that are needed for a row of superblocks hold the rows around the ends of its stripes, and of the one before. -/
def Good (f : Cfg) (p : Nat) (tt : Bool) (D : Plane) (sby : Nat) (b : Plane) : Prop :=
  ∀ m r : Nat, m ≤ N f → r < 4 → 1 ≤ sby * N f + m → stop f p (sby * N f + m - 1) + 1 ≤ planeH f p →
    b (line0 f tt sby + 4 * m + r) = D (min ((stop f p (sby * N f + m - 1) : Int) - 2 + r) ((planeH f p : Int) - 1))

theorem stop_arith (f : Cfg) (p sby m : Nat) (hm : m < N f) : stop f p (sby * N f) + m * (64 / 2 ^ f.ssV p) = stop f p (sby * N f + m) ∧ stop f p (sby * N f + m) ≤ (sby + 1) * 2 ^ lg f p := by
  obtain ⟨h1, h2, h3⟩ := num f p
  rw [h3, show 64 / 2 ^ f.ssV p = S f p from rfl]
  unfold stop
  rcases h1 with ⟨h1, h4⟩ | ⟨h1, h4⟩ <;> rw [h1, h4] <;> rcases h2 with h2 | h2 <;> rw [h2] at hm ⊢ <;> omega

theorem stop_next (f : Cfg) (p sby : Nat) : (sby + 1) * 2 ^ lg f p < stop f p (sby * N f) + N f * (64 / 2 ^ f.ssV p) := by
  obtain ⟨h1, h2, h3⟩ := num f p
  rw [h3, show 64 / 2 ^ f.ssV p = S f p from rfl]
  unfold stop
  rcases h1 with ⟨h1, h4⟩ | ⟨h1, h4⟩ <;> rw [h1, h4] <;> rcases h2 with h2 | h2 <;> rw [h2] <;> omega

theorem S_pos (f : Cfg) (p : Nat) : 0 < 64 / 2 ^ f.ssV p := by
  rcases ss_cases f p with h | h <;> rw [h] <;> decide

/-- The buffer the loop begins with. -/
def start0 (f : Cfg) (p : Nat) (tt : Bool) (sby : Nat) (b : Plane) : Plane :=
  if tt ∨ yStripe f p sby = 0 then b else fun j => if 0 ≤ j ∧ j < 4 then b (4 * N f + j) else b j

theorem copyLpf_eq (f : Cfg) (p : Nat) (tt : Bool) (sby : Nat) (b : Plane) : copyLpf f p tt D sby b =
    saveLoop D (planeH f p) (f.ssV p) (min ((sby + 1) * 2 ^ lg f p) (planeH f p - 1)) (planeH f p + 1) (yStripe f p sby) ((64 - 8 * if yStripe f p sby = 0 then 1 else 0) / 2 ^ f.ssV p)
      (line0 f tt sby + 4) (start0 f p tt sby b) := by
  have hN : (if f.sb128 = true then 2 else 1) = N f := rfl
  unfold copyLpf start0 line0
  simp only [hN]
  cases tt with
  | true =>
    simp only [if_true, true_or]
    congr 1
    rw [← Nat.mul_assoc, Nat.mul_comm sby 4, Nat.mul_assoc]
    omega
  | false =>
    simp only [Bool.false_eq_true, if_false, false_or]
    rw [show (0 : Int) + 4 = 4 from rfl]
    congr 1
    by_cases hy : yStripe f p sby = 0
    · rw [if_pos hy, if_neg (not_not.2 hy)]
    · rw [if_neg hy, if_pos hy]
      funext j
      have hn : 1 ≤ N f := by rcases (num f p).2.1 with h | h <;> omega
      unfold setLine
      by_cases h0 : j = 0
      · subst h0; simp
      by_cases h1 : j = 1
      · subst h1
        simp
        intro h; omega
      by_cases h2 : j = 2
      · subst h2
        simp
        rw [if_neg (by omega), if_neg (by omega)]
      by_cases h3 : j = 3
      · subst h3
        simp
        rw [if_neg (by omega), if_neg (by omega), if_neg (by omega)]
      rw [if_neg (by omega : ¬(0 ≤ j ∧ j < 4))]
      simp only [Nat.cast_ofNat, Nat.cast_zero, Nat.cast_one, h0, h1, h2, h3, if_false]

/-- What a copy saves. -/
theorem copyLpf_saved {f : Cfg} {p : Nat} {tt : Bool} {sby : Nat} {b : Plane} {m r : Nat} (hm : m < N f) (hr : r < 4) (hh : stop f p (sby * N f + m) + 1 ≤ planeH f p) :
    copyLpf f p tt D sby b (line0 f tt sby + 4 * (m + 1 : Nat) + r) = D (min ((stop f p (sby * N f + m) : Int) - 2 + r) ((planeH f p : Int) - 1)) := by
  rw [copyLpf_eq]
  obtain ⟨a1, a2⟩ := stop_arith f p sby m hm
  obtain ⟨e1, e2⟩ := first_end f p sby
  have := saveLoop_at (D := D) (h := planeH f p) (ss := f.ssV p) (rowH := min ((sby + 1) * 2 ^ lg f p) (planeH f p - 1)) (by omega) (S_pos f p) (planeH f p + 1) (yStripe f p sby) _
    (line0 f tt sby + 4) (start0 f p tt sby b) (by omega) m r hr (by rw [e1, a1]; omega)
  rw [e1, a1] at this
  rw [← this]
  congr 1; omega

/-- What a copy leaves. -/
theorem copyLpf_other {f : Cfg} {p : Nat} {tt : Bool} {sby : Nat} {b : Plane} {j : Int} (hj : j < line0 f tt sby + 4 ∨ line0 f tt sby + 4 + 4 * N f ≤ j) :
    copyLpf f p tt D sby b j = start0 f p tt sby b j := by
  rw [copyLpf_eq]
  obtain ⟨e1, e2⟩ := first_end f p sby
  have := stop_next f p sby
  exact saveLoop_other 0 _ _ _ _ _ (N f) (by rw [e1]; omega) j hj

/-- One thread: the rows of superblocks one after the other. -/
theorem good_one {f : Cfg} {p sby : Nat} {b : Plane} (h : ∀ k, sby = k + 1 → Good f p false D k b) : Good f p false D sby (copyLpf f p false D sby b) := by
  intro m r hm hr h1 hh
  rcases m with _ | m
  · obtain ⟨k, rfl⟩ : ∃ k, sby = k + 1 := ⟨sby - 1, by rcases sby with _ | s <;> omega⟩
    have hn : 1 ≤ N f := by rcases (num f p).2.1 with h | h <;> omega
    have e0 : ∀ s, line0 f false s = 0 := fun s => rfl
    have hy : yStripe f p (k + 1) ≠ 0 := by
      rw [yStripe_eq]
      obtain ⟨g1, g2, _⟩ := num f p
      rcases g1 with ⟨g1, g4⟩ | ⟨g1, g4⟩ <;> rw [g1, g4] <;> rcases g2 with g2 | g2 <;> rw [g2] <;> simp <;> omega
    rw [copyLpf_other (by rw [e0]; omega), e0]
    unfold start0
    rw [if_neg (by simp [hy]), if_pos (by omega)]
    have := h k rfl (N f) r (Nat.le_refl _) hr (by omega) (by rw [show (k + 1) * N f + 0 = k * N f + N f by rw [Nat.add_mul]; omega] at hh; exact hh)
    rw [e0] at this
    rw [show (k + 1) * N f + 0 = k * N f + N f by rw [Nat.add_mul]; omega, ← this]
    congr 1; omega
  · rw [show sby * N f + (m + 1) - 1 = sby * N f + m by omega] at hh ⊢
    exact copyLpf_saved hm hr hh

/-- The rows of superblocks are saved in the given order. -/
def copies (f : Cfg) (p : Nat) (tt : Bool) (D : Plane) (l : List Nat) (b : Plane) : Plane := l.foldl (fun b sby => copyLpf f p tt D sby b) b

theorem good_range (f : Cfg) (p : Nat) (b : Plane) : ∀ sby, Good f p false D sby (copies f p false D (List.range (sby + 1)) b)
  | 0 => good_one fun k h => absurd h (by omega)
  | s + 1 => by
    unfold copies
    rw [List.range_succ, List.foldl_append]
    exact good_one fun k h => by
      obtain rfl : s = k := by omega
      exact good_range f p b s

/-- More than one thread: in whatever order, once the row and the one before it are saved. -/
theorem saved_tt {f : Cfg} {p : Nat} {m r sby : Nat} (hm : m < N f) (hr : r < 4) (hh : stop f p (sby * N f + m) + 1 ≤ planeH f p) (l : List Nat) (b : Plane) (hl : sby ∈ l) :
    copies f p true D l b (line0 f true sby + 4 * (m + 1 : Nat) + r) = D (min ((stop f p (sby * N f + m) : Int) - 2 + r) ((planeH f p : Int) - 1)) := by
  induction l using List.reverseRecOn with
  | nil => simp at hl
  | append_singleton l s ih =>
    unfold copies
    rw [List.foldl_append]
    show copyLpf f p true D s (copies f p true D l b) _ = _
    by_cases hs : s = sby
    · subst hs
      exact copyLpf_saved hm hr hh
    · have hl' : sby ∈ l := by
        rcases List.mem_append.1 hl with h | h
        · exact h
        · exact absurd (List.mem_singleton.1 h).symm hs
      rw [copyLpf_other]
      · exact ih hl'
      · have e0 : ∀ s, line0 f true s = 4 * (s * N f : Nat) - 4 := fun s => rfl
        rw [e0, e0]
        rcases (num f p).2.1 with h | h <;> rw [h] at hm ⊢ <;> omega

theorem good_tt {f : Cfg} {p sby : Nat} {l : List Nat} (b : Plane) (h1 : sby ∈ l) (h2 : ∀ k, sby = k + 1 → k ∈ l) : Good f p true D sby (copies f p true D l b) := by
  intro m r hm hr hk hh
  rcases m with _ | m
  · obtain ⟨k, rfl⟩ : ∃ k, sby = k + 1 := ⟨sby - 1, by rcases sby with _ | s <;> omega⟩
    have hn : 1 ≤ N f := by rcases (num f p).2.1 with h | h <;> omega
    have e : (k + 1) * N f + 0 - 1 = k * N f + (N f - 1) := by rw [Nat.add_mul]; omega
    rw [e] at hh ⊢
    rw [← saved_tt (D := D) (by omega) hr hh l b (h2 k rfl)]
    congr 1
    have e0 : ∀ s, line0 f true s = 4 * (s * N f : Nat) - 4 := fun s => rfl
    rw [e0, e0, Nat.add_mul]
    omega
  · rw [show sby * N f + (m + 1) - 1 = sby * N f + m by omega] at hh ⊢
    exact saved_tt hm hr hh l b h1

end Dav1d.Lrs
