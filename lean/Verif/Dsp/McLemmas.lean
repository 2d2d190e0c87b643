import Verif.Dsp.Mc
import Mathlib.Tactic.Linarith
import Mathlib.Tactic.NormNum
/-! Lemmas about the filters of the motion compensation. -/
namespace Dav1d

/-- What the negative taps of a filter add up to. -/
def negs (F : List Int) : Int := (F.map (fun f => max 0 (-f))).sum

/-- A filter of 8 taps with sum `S` whose negative taps add up to at most `N`. -/
structure Kernel (S N : Int) (F : List Int) : Prop where
  len : F.length = 8
  sum : F.sum = S
  neg : negs F ≤ N

theorem zip_bounds {a b : Int} (hab : a ≤ b) (s : Int → Int) : ∀ (F ks : List Int), F.length = ks.length → (∀ k ∈ ks, a ≤ s k ∧ s k ≤ b) →
    a * F.sum - negs F * (b - a) ≤ (List.zipWith (fun f k => f * s k) F ks).sum ∧
    (List.zipWith (fun f k => f * s k) F ks).sum ≤ a * F.sum + (F.sum + negs F) * (b - a)
  | [], [], _, _ => by simp [negs]
  | f :: F, k :: ks, hl, h => by
    have ih := zip_bounds hab s F ks (by simpa using hl) (fun k hk => h k (List.mem_cons_of_mem _ hk))
    have hk := h k List.mem_cons_self
    have hn : negs (f :: F) = max 0 (-f) + negs F := by simp [negs]
    simp only [List.zipWith_cons_cons, List.sum_cons, hn]
    generalize negs F = n at *
    generalize F.sum = S at *
    generalize (List.zipWith (fun f k => f * s k) F ks).sum = z at *
    generalize s k = v at *
    obtain ⟨ih1, ih2⟩ := ih
    obtain ⟨h1, h2⟩ := hk
    rcases le_total 0 f with hf | hf
    · rw [max_eq_left (by omega)]
      constructor <;> nlinarith [mul_nonneg hf (sub_nonneg.2 h1), mul_nonneg hf (sub_nonneg.2 h2)]
    · rw [max_eq_right (by omega)]
      have hf' : 0 ≤ -f := by omega
      constructor <;> nlinarith [mul_nonneg hf' (sub_nonneg.2 h1), mul_nonneg hf' (sub_nonneg.2 h2)]
  | [], _ :: _, hl, _ => by simp at hl
  | _ :: _, [], hl, _ => by simp at hl

/-- The sum of a filter applied to values in `[a, b]`. -/
theorem Kernel.bounds {S N a b : Int} {F : List Int} (hF : Kernel S N F) {s : Int → Int} (hab : a ≤ b) (h : ∀ k ∈ taps, a ≤ s k ∧ s k ≤ b) :
    a * S - N * (b - a) ≤ fir F s ∧ fir F s ≤ a * S + (S + N) * (b - a) := by
  have := zip_bounds hab s F taps (by rw [hF.len]; rfl) h
  rw [hF.sum] at this
  have hn := hF.neg
  have hd : 0 ≤ b - a := by omega
  unfold fir
  constructor <;> nlinarith [mul_le_mul_of_nonneg_right hn hd]

/-- A filter applied to a constant. -/
theorem Kernel.flat {S N c : Int} {F : List Int} (hF : Kernel S N F) {s : Int → Int} (h : ∀ k ∈ taps, s k = c) : fir F s = c * S := by
  have := hF.bounds (s := s) (le_refl c) (fun k hk => ⟨(h k hk).ge, (h k hk).le⟩)
  simp only [sub_self, mul_zero, sub_zero, add_zero] at this
  omega

theorem subpel_kernel : ∀ t ∈ subpelFilters, t.length = 15 ∧ ∀ F ∈ t, F.length = 8 ∧ F.sum = 64 ∧ negs F ≤ 28 := by decide +kernel
theorem warp_kernel : warpFilters.length = 193 ∧ ∀ F ∈ warpFilters, F.length = 8 ∧ F.sum = 128 ∧ negs F ≤ 47 := by decide +kernel
theorem resize_kernel : resizeFilters.length = 64 ∧ ∀ F ∈ resizeFilters, F.length = 8 ∧ F.sum = -128 ∧ negs F ≤ 172 := by decide +kernel

theorem getFilter_zero (big : Bool) (ty : Nat) : getFilter big ty 0 = some none := rfl

theorem getFilter_pos (big : Bool) {ty m : Nat} (ht : ty < 3) (hm : m < 16) (h0 : m ≠ 0) : ∃ F, getFilter big ty m = some (some F) ∧ Kernel 64 28 F := by
  have hi : (if big then ty else 3 + ty % 2) < subpelFilters.length := by
    have : subpelFilters.length = 6 := by decide +kernel
    split <;> omega
  obtain ⟨hl, hk⟩ := subpel_kernel _ (List.getElem_mem hi)
  have hm' : m - 1 < (subpelFilters[if big then ty else 3 + ty % 2]).length := by omega
  obtain ⟨k1, k2, k3⟩ := hk _ (List.getElem_mem hm')
  refine ⟨_, ?_, k1, k2, k3⟩
  unfold getFilter
  rw [if_neg h0, List.getElem?_eq_getElem hi]
  simp only [Option.bind_some]
  rw [List.getElem?_eq_getElem hm']
  rfl

theorem warpFilter_get {t : Int} (h1 : -65536 - 512 ≤ t) (h2 : t < 132096 - 512) : ∃ F, warpFilter t = some F ∧ Kernel 128 47 F := by
  have hi : 0 ≤ 64 + asr (t + 512) 10 ∧ 64 + asr (t + 512) 10 < 193 := by unfold asr; omega
  obtain ⟨hl, hk⟩ := warp_kernel
  have hn : (64 + asr (t + 512) 10).toNat < warpFilters.length := by omega
  obtain ⟨k1, k2, k3⟩ := hk _ (List.getElem_mem hn)
  refine ⟨_, ?_, k1, k2, k3⟩
  unfold warpFilter
  simp only [if_pos hi.1]
  exact List.getElem?_eq_getElem hn

theorem resizeFilter_get {m : Nat} (h : m < 16384) : ∃ F, resizeFilters[m / 256]? = some F ∧ Kernel (-128) 172 F := by
  obtain ⟨hl, hk⟩ := resize_kernel
  have hn : m / 256 < resizeFilters.length := by omega
  obtain ⟨k1, k2, k3⟩ := hk _ (List.getElem_mem hn)
  exact ⟨_, List.getElem?_eq_getElem hn, k1, k2, k3⟩

theorem clip_range (d : Depth) (v : Int) : 0 ≤ d.clip v ∧ d.clip v ≤ d.max := by
  have : 0 ≤ d.max := by cases d <;> decide
  unfold Depth.clip iclip
  split
  · omega
  · split <;> omega

theorem clip_id {d : Depth} {v : Int} (h : 0 ≤ v ∧ v ≤ d.max) : d.clip v = v := by
  unfold Depth.clip iclip
  rw [if_neg (by omega), if_neg (by omega)]

theorem mid16_some {l : List Int} {s : Int → Int} (h : ∀ k ∈ l, -32768 ≤ s k ∧ s k ≤ 32767) : mid16 l s = some s := if_pos h
theorem int16_some {v : Int} (h : -32768 ≤ v ∧ v ≤ 32767) : int16 v = some v := if_pos h

/-- The closed form of the scaled position: `m + n * step` in units of 1/1024. -/
theorem scaledPos_eq {m : Nat} (hm : m < 1024) (step n : Nat) : scaledPos m step n = ((m + n * step) % 1024, (m + n * step) / 1024) := by
  induction n with
  | zero => simp only [scaledPos]; rw [Nat.zero_mul, Nat.add_zero, Nat.mod_eq_of_lt hm, Nat.div_eq_of_lt hm]
  | succ n ih =>
    simp only [scaledPos, ih, Nat.succ_mul]
    generalize n * step = p
    rw [Prod.mk.injEq]
    omega

theorem resizePos_eq {m : Nat} (hm : m < 16384) (dx n : Nat) : resizePos m dx n = ((m + n * dx) % 16384, (((m + n * dx) / 16384 : Nat) : Int) - 1) := by
  induction n with
  | zero => simp only [resizePos]; rw [Nat.zero_mul, Nat.add_zero, Nat.mod_eq_of_lt hm, Nat.div_eq_of_lt hm]; rfl
  | succ n ih =>
    simp only [resizePos, ih, Nat.succ_mul]
    generalize n * dx = p
    rw [Prod.mk.injEq]
    omega

end Dav1d
