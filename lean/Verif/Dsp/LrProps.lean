import Verif.Dsp.LrSgrSpec
import Verif.Dsp.LrWiener
import Mathlib.Tactic.Linarith

/-!
# Loop restoration: properties

C41: the output is in the range of pixels, flat areas. C60: both filters compute what is specified.
-/

namespace Dav1d.Lr

/-- A position of the block. -/
def Inside (a : Args) (y x : Int) : Prop := 0 ≤ y ∧ y < a.h ∧ 0 ≤ x ∧ x < a.w

/-- The samples a block is filtered from all are `v`. -/
def Flat (a : Args) (v : Int) : Prop :=
  ∀ y x : Int, -3 ≤ y → y ≤ a.h + 2 → -3 ≤ x → x ≤ a.w + 2 → Spec.source a y x = v

/-- The weights a bitstream can have, src/decode.c:2558-2561: `sgr_weights[0]` is from -96 and `sgr_weights[1]` from -32,
both out of 128 values. -/
def WeightsOk (w0 w1 : Int) : Prop := -96 ≤ w0 ∧ w0 ≤ 31 ∧ -32 ≤ w1 ∧ w1 ≤ 95

/-! ## C60 -/

/-- C60: the Wiener filter computes the specified pixels, whatever the uninitialised rows hold, and nothing else. -/
theorem C60_wiener (d : Depth) (fh fv : Nat → Int) (a : Args) (junk : Buf) (hw : 0 < a.w) (hh : 0 < a.h) (y x : Int) :
    (Inside a y x → wiener d (taps d fh fv) a junk y x = Spec.wiener d.bpc fh fv (Spec.source a) y x) ∧
    (¬Inside a y x → wiener d (taps d fh fv) a junk y x = a.dst y x) := by
  have h := wiener_spec d fh fv a junk hw hh y x
  constructor <;> intro hi <;> unfold Inside at hi
  · rw [h, if_pos hi]
  · rw [h, if_neg hi]

/-- C60: the self-guided filter computes the specified pixels for each of the 16 sets of parameters and all weights,
whatever the uninitialised rows hold, and nothing else. -/
theorem C60_sgr (d : Depth) (a : Args) (set : Nat) (w0 w1 : Int) (junk : Junk) (hset : set < 16) (hw : 0 < a.w) (hh : 0 < a.h)
    (hb : a.e.bottom = true → a.h % 2 = 0 ∧ 6 ≤ a.h) (hs : SrcOk d a) (y x : Int) :
    (Inside a y x → sgrFilter ⟨d, a, sgrOf set w0 w1⟩ junk y x = Spec.selfGuided d.bpc set w0 w1 (Spec.source a) y x) ∧
    (¬Inside a y x → sgrFilter ⟨d, a, sgrOf set w0 w1⟩ junk y x = a.dst y x) := by
  have h := sgr_spec d a set w0 w1 junk hset hw hh hb hs y x
  constructor <;> intro hi <;> unfold Inside at hi
  · rw [h, if_pos hi]
  · rw [h, if_neg hi]

/-- A block for the examples: 5 columns and 6 rows, with all neighbours. -/
def demo (v : Int → Int → Int) : Args where
  dst := v
  left := fun r k => v r ((k : Int) - 4)
  lpf := fun r x => v (if r < 6 then r - 2 else r) x
  w := 5
  h := 6
  e := { left := true, right := true, top := true, bottom := true }

/-- A pattern of pixels, 8 bits. -/
def pattern (y x : Int) : Int := 100 + (y * y * 31 + x * x * 17 + x * y * 3) % 16

theorem demo_ok : SrcOk .b8 (demo pattern) := by
  intro y x _ _ _ _
  have h : ∀ y x, 0 ≤ pattern y x ∧ pattern y x ≤ 255 := by
    intro y x
    unfold pattern
    omega
  show 0 ≤ Spec.source (demo pattern) y x ∧ Spec.source (demo pattern) y x ≤ 255
  unfold Spec.source
  dsimp only
  split_ifs <;> exact h _ _

example : SrcOk .b8 (demo pattern) ∧ ((demo pattern).e.bottom = true → (demo pattern).h % 2 = 0 ∧ 6 ≤ (demo pattern).h) ∧
    Inside (demo pattern) 2 3 :=
  ⟨demo_ok, fun _ => ⟨rfl, le_rfl⟩, by unfold Inside; decide⟩

/-- The self-guided filter is not the identity on the example. -/
example : Spec.selfGuided 8 3 31 95 (Spec.source (demo pattern)) 3 2 ≠ pattern 3 2 := by decide +kernel

/-! ## C41: the range -/

theorem clip1_range (n : Nat) (v : Int) : 0 ≤ Spec.clip1 n v ∧ Spec.clip1 n v ≤ 2 ^ n - 1 := by
  have : (0 : Int) < 2 ^ n := by positivity
  unfold Spec.clip1 Spec.clip3
  split_ifs <;> constructor <;> omega

/-- C41: every pixel the Wiener filter writes is in the range, for all coefficients and contents. -/
theorem C41_wiener_range (d : Depth) (fh fv : Nat → Int) (a : Args) (junk : Buf) (hw : 0 < a.w) (hh : 0 < a.h) (y x : Int)
    (hi : Inside a y x) :
    0 ≤ wiener d (taps d fh fv) a junk y x ∧ wiener d (taps d fh fv) a junk y x ≤ 2 ^ d.bpc - 1 := by
  rw [(C60_wiener d fh fv a junk hw hh y x).1 hi]
  exact clip1_range _ _

/-- C41: every pixel the self-guided filters write is in the range, for all parameters, weights and contents. -/
theorem C41_sgr_range (d : Depth) (a : Args) (g : Sgr) (junk : Junk) (hw : 0 < a.w) (hh : 0 < a.h)
    (hb : a.e.bottom = true → a.h % 2 = 0 ∧ 6 ≤ a.h) (y x : Int) (hi : Inside a y x) :
    0 ≤ sgrFilter ⟨d, a, g⟩ junk y x ∧ sgrFilter ⟨d, a, g⟩ junk y x ≤ 2 ^ d.bpc - 1 := by
  unfold Inside at hi
  have m := runM ⟨d, a, g⟩ junk hw hh hb y x
  have f := run5 ⟨d, a, g⟩ junk hw hh hb y x
  have t := run3 ⟨d, a, g⟩ junk hw hh (fun h => by have := hb h; show 3 ≤ a.h; omega) y x
  rw [if_pos hi] at m f t
  unfold sgrFilter
  generalize (if (⟨d, a, g⟩ : Ctx).g.s0 ≠ 0 then 1 else 0) + (if (⟨d, a, g⟩ : Ctx).g.s1 ≠ 0 then 1 else 0) * 2 - 1 = i
  match i with
  | 0 => show 0 ≤ sgr5x5 _ _ _ _ ∧ sgr5x5 _ _ _ _ ≤ _; rw [f]; unfold out5; rw [clip_eq]; exact clip1_range _ _
  | 1 => show 0 ≤ sgr3x3 _ _ _ _ ∧ sgr3x3 _ _ _ _ ≤ _; rw [t]; unfold out3; rw [clip_eq]; exact clip1_range _ _
  | _ + 2 => show 0 ≤ sgrMix _ _ _ _ ∧ sgrMix _ _ _ _ ≤ _; rw [m]; unfold outM; rw [clip_eq]; exact clip1_range _ _

/-! ## C41: flat areas -/

theorem filter_one (c : Nat → Int) (v : Int) : ∑ t ∈ Finset.range 7, Spec.getFilter c t * v = 128 * v := by
  rw [sum_filter c (fun _ => v)]
  ring

/-- C41: the Wiener filter keeps flat areas, for all coefficients. -/
theorem C41_wiener_flat (d : Depth) (fh fv : Nat → Int) (a : Args) (junk : Buf) (hw : 0 < a.w) (hh : 0 < a.h) (v : Int)
    (hv : 0 ≤ v ∧ v ≤ 2 ^ d.bpc - 1) (hf : Flat a v) (y x : Int) (hi : Inside a y x) :
    wiener d (taps d fh fv) a junk y x = v := by
  rw [(C60_wiener d fh fv a junk hw hh y x).1 hi]
  unfold Inside at hi
  unfold Spec.wiener
  dsimp only
  have h1 : ∀ k ∈ Finset.range 7, ∑ t ∈ Finset.range 7, Spec.getFilter fh t * Spec.source a (y + k - 3) (x + t - 3) = 128 * v := by
    intro k hk
    rw [Finset.mem_range] at hk
    rw [← filter_one fh v]
    apply Finset.sum_congr rfl
    intro t ht
    rw [Finset.mem_range] at ht
    rw [hf _ _ (by omega) (by omega) (by omega) (by omega)]
  have h2 : ∀ k ∈ Finset.range 7, Spec.getFilter fv k * Spec.clip3 (-2 ^ (d.bpc + 7 - (Spec.interRound d.bpc).1 - 1))
      (2 ^ (d.bpc + 1 + 7 - (Spec.interRound d.bpc).1) - 1 - 2 ^ (d.bpc + 7 - (Spec.interRound d.bpc).1 - 1))
      (Spec.round2 (∑ t ∈ Finset.range 7, Spec.getFilter fh t * Spec.source a (y + k - 3) (x + t - 3)) (Spec.interRound d.bpc).1) =
      Spec.getFilter fv k * Spec.clip3 (-2 ^ (d.bpc + 7 - (Spec.interRound d.bpc).1 - 1))
      (2 ^ (d.bpc + 1 + 7 - (Spec.interRound d.bpc).1) - 1 - 2 ^ (d.bpc + 7 - (Spec.interRound d.bpc).1 - 1))
      (Spec.round2 (128 * v) (Spec.interRound d.bpc).1) := by
    intro k hk
    rw [h1 k hk]
  rw [Finset.sum_congr rfl h2, filter_one]
  cases d <;> simp only [Depth.bpc, Spec.interRound, Spec.clip1, Spec.clip3, Spec.round2] at * <;> norm_num at * <;>
    split_ifs <;> omega

theorem list_const (l : List Int) (v : Int) (n : Nat) (hl : ∀ c ∈ l, c = v) (hn : l.length = n) :
    (l.map (fun c => c * c)).sum = n * (v * v) ∧ (l.map (fun c => c)).sum = n * v := by
  have : l = List.replicate n v := List.eq_replicate_iff.mpr ⟨hn, hl⟩
  rw [this, List.map_replicate, List.map_replicate, List.sum_replicate, List.sum_replicate]
  exact ⟨by simp, by simp⟩

/-- The arrays A and B for a flat area. -/
def flatAB (n : Nat) (r s v : Int) : Int × Int := Spec.boxAB n r s (fun _ _ => v) 0 0

theorem flat3 (d : Depth) (a : Args) (s v : Int) (hf : Flat a v) (y x : Int) (hy : -1 ≤ y ∧ y ≤ a.h) (hx : -1 ≤ x ∧ x ≤ a.w) :
    Spec.boxAB d.bpc 1 s (Spec.source a) y x = flatAB d.bpc 1 s v := by
  have hl : ∀ c ∈ list3 (Spec.source a) y x, c = v := by
    intro c hc
    unfold list3 at hc
    simp only [List.mem_cons, List.not_mem_nil, or_false] at hc
    rcases hc with rfl | rfl | rfl | rfl | rfl | rfl | rfl | rfl | rfl <;>
      exact hf _ _ (by omega) (by omega) (by omega) (by omega)
  have hk : ∀ c ∈ list3 (fun _ _ => v) 0 0, c = v := by simp [list3]
  obtain ⟨e2, e1⟩ := list_const _ v 9 hl rfl
  obtain ⟨f2, f1⟩ := list_const _ v 9 hk rfl
  unfold flatAB Spec.boxAB
  simp only [boxSum1, e2, e1, f2, f1]

theorem flat5 (d : Depth) (a : Args) (s v : Int) (hf : Flat a v) (y x : Int) (hy : -1 ≤ y ∧ y ≤ a.h) (hx : -1 ≤ x ∧ x ≤ a.w) :
    Spec.boxAB d.bpc 2 s (Spec.source a) y x = flatAB d.bpc 2 s v := by
  have hl : ∀ c ∈ list5 (Spec.source a) y x, c = v := by
    intro c hc
    unfold list5 at hc
    simp only [List.mem_cons, List.not_mem_nil, or_false] at hc
    rcases hc with rfl | rfl | rfl | rfl | rfl | rfl | rfl | rfl | rfl | rfl | rfl | rfl | rfl | rfl | rfl | rfl | rfl | rfl |
      rfl | rfl | rfl | rfl | rfl | rfl | rfl <;>
      exact hf _ _ (by omega) (by omega) (by omega) (by omega)
  have hk : ∀ c ∈ list5 (fun _ _ => v) 0 0, c = v := by simp [list5]
  obtain ⟨e2, e1⟩ := list_const _ v 25 hl rfl
  obtain ⟨f2, f1⟩ := list_const _ v 25 hk rfl
  unfold flatAB Spec.boxAB
  simp only [boxSum2, e2, e1, f2, f1]

theorem round2_nonneg (v : Int) (n : Nat) (h : 0 ≤ v) : 0 ≤ Spec.round2 v n := by
  unfold Spec.round2
  split_ifs
  · exact h
  · have : (0 : Int) < 2 ^ n := by positivity
    have : (0 : Int) < 2 ^ (n - 1) := by positivity
    exact Int.ediv_nonneg (by omega) (by omega)

theorem flatA (n : Nat) (r s v : Int) (hs : 0 ≤ s) : 1 ≤ (flatAB n r s v).1 ∧ (flatAB n r s v).1 ≤ 256 := by
  unfold flatAB Spec.boxAB
  exact a2_range _ (round2_nonneg _ _ (mul_nonneg (le_max_left _ _) hs))

theorem flatB3 (n : Nat) (s v : Int) :
    (flatAB n 1 s v).2 = ((256 - (flatAB n 1 s v).1) * v * 4095 + 2048) / 4096 := by
  have hk : ∀ c ∈ list3 (fun _ _ => v) 0 0, c = v := by simp [list3]
  obtain ⟨f2, f1⟩ := list_const _ v 9 hk rfl
  unfold flatAB Spec.boxAB
  simp only [boxSum1, f2, f1]
  generalize Spec.a2 _ = A
  show ((256 - A) * (9 * v) * 455 + 2048) / 4096 = _
  congr 1
  ring

theorem flatB5 (n : Nat) (s v : Int) :
    (flatAB n 2 s v).2 = ((256 - (flatAB n 2 s v).1) * v * 4100 + 2048) / 4096 := by
  have hk : ∀ c ∈ list5 (fun _ _ => v) 0 0, c = v := by simp [list5]
  obtain ⟨f2, f1⟩ := list_const _ v 25 hk rfl
  unfold flatAB Spec.boxAB
  simp only [boxSum2, f2, f1]
  generalize Spec.a2 _ = A
  show ((256 - A) * (25 * v) * 164 + 2048) / 4096 = _
  congr 1
  ring

/-- How much the box filters are off for a flat area, in sixteenths. -/
def off : Depth → Int
  | .b8 => 1
  | .b10 => 4
  | .b12 => 16

theorem prod_range (A v m : Int) (hA : 1 ≤ A ∧ A ≤ 256) (hv : 0 ≤ v ∧ v ≤ m) :
    0 ≤ (256 - A) * v ∧ (256 - A) * v ≤ 255 * m :=
  ⟨mul_nonneg (by omega) hv.1, mul_le_mul (by omega) hv.2 hv.1 (by omega)⟩

theorem flatF3 (d : Depth) (a : Args) (s v : Int) (hs : 0 ≤ s) (hv : 0 ≤ v ∧ v ≤ 2 ^ d.bpc - 1) (hf : Flat a v) (y x : Int)
    (hi : Inside a y x) : -off d ≤ Spec.boxFilter d.bpc 1 1 s (Spec.source a) y x - 16 * v ∧
      Spec.boxFilter d.bpc 1 1 s (Spec.source a) y x - 16 * v ≤ 0 := by
  unfold Inside at hi
  unfold Spec.boxFilter
  dsimp only
  rw [weight_pass1 y (fun dy dx => (Spec.boxAB d.bpc 1 s (Spec.source a) (y + dy) (x + dx)).1),
    weight_pass1 y (fun dy dx => (Spec.boxAB d.bpc 1 s (Spec.source a) (y + dy) (x + dx)).2)]
  repeat rw [flat3 d a s v hf _ _ (by omega) (by omega)]
  rw [hf y x (by omega) (by omega) (by omega) (by omega), flatB3, if_neg (by simp)]
  have hA := flatA d.bpc 1 s v hs
  have hp := prod_range _ v _ hA hv
  generalize (flatAB d.bpc 1 s v).1 = A at *
  obtain ⟨k, hk⟩ : ∃ k, (256 - A) * v = k := ⟨_, rfl⟩
  have hk2 : A * v = 256 * v - k := by rw [← hk]; ring
  have hk3 : ((A + A + A + A + A) * 4 + (A + A + A + A) * 3) * v = 32 * (256 * v - k) := by rw [← hk2]; ring
  rw [hk] at hp ⊢
  rw [hk3]
  unfold Spec.round2
  cases d <;> simp only [off, Depth.bpc] at * <;> norm_num at * <;> omega

theorem flatF5 (d : Depth) (a : Args) (s v : Int) (hs : 0 ≤ s) (hv : 0 ≤ v ∧ v ≤ 2 ^ d.bpc - 1) (hf : Flat a v) (y x : Int)
    (hi : Inside a y x) : 0 ≤ Spec.boxFilter d.bpc 0 2 s (Spec.source a) y x - 16 * v ∧
      Spec.boxFilter d.bpc 0 2 s (Spec.source a) y x - 16 * v ≤ 4 * off d := by
  unfold Inside at hi
  have hA := flatA d.bpc 2 s v hs
  have hp := prod_range _ v _ hA hv
  unfold Spec.boxFilter
  dsimp only
  rcases Int.emod_two_eq_zero_or_one y with e | e
  · rw [weight_even y e (fun dy dx => (Spec.boxAB d.bpc 2 s (Spec.source a) (y + dy) (x + dx)).1),
      weight_even y e (fun dy dx => (Spec.boxAB d.bpc 2 s (Spec.source a) (y + dy) (x + dx)).2)]
    repeat rw [flat5 d a s v hf _ _ (by omega) (by omega)]
    rw [hf y x (by omega) (by omega) (by omega) (by omega), flatB5, if_neg (by omega)]
    generalize (flatAB d.bpc 2 s v).1 = A at *
    obtain ⟨k, hk⟩ : ∃ k, (256 - A) * v = k := ⟨_, rfl⟩
    have hk2 : A * v = 256 * v - k := by rw [← hk]; ring
    have hk3 : ((A + A) * 6 + (A + A + A + A) * 5) * v = 32 * (256 * v - k) := by rw [← hk2]; ring
    rw [hk] at hp ⊢
    rw [hk3]
    unfold Spec.round2
    cases d <;> simp only [off, Depth.bpc] at * <;> norm_num at * <;> omega
  · rw [weight_odd y e (fun dy dx => (Spec.boxAB d.bpc 2 s (Spec.source a) (y + dy) (x + dx)).1),
      weight_odd y e (fun dy dx => (Spec.boxAB d.bpc 2 s (Spec.source a) (y + dy) (x + dx)).2)]
    repeat rw [flat5 d a s v hf _ _ (by omega) (by omega)]
    rw [hf y x (by omega) (by omega) (by omega) (by omega), flatB5, if_pos ⟨rfl, e⟩]
    generalize (flatAB d.bpc 2 s v).1 = A at *
    obtain ⟨k, hk⟩ : ∃ k, (256 - A) * v = k := ⟨_, rfl⟩
    have hk2 : A * v = 256 * v - k := by rw [← hk]; ring
    have hk3 : (A * 6 + (A + A) * 5) * v = 16 * (256 * v - k) := by rw [← hk2]; ring
    rw [hk] at hp ⊢
    rw [hk3]
    unfold Spec.round2
    cases d <;> simp only [off, Depth.bpc] at * <;> norm_num at * <;> omega

theorem Flat.srcOk {d : Depth} {a : Args} {v : Int} (hv : 0 ≤ v ∧ v ≤ 2 ^ d.bpc - 1) (hf : Flat a v) : SrcOk d a := by
  intro y x h1 h2 h3 h4
  rw [hf y x h1 h2 h3 h4]
  cases d <;> exact hv

theorem mul_range (w t a b m : Int) (hw : a ≤ w ∧ w ≤ b) (ht : 0 ≤ t ∧ t ≤ m) (ha : a ≤ 0) (hb : 0 ≤ b) :
    a * m ≤ w * t ∧ w * t ≤ b * m := by
  constructor
  · nlinarith [mul_nonneg (sub_nonneg.mpr hw.1) ht.1, mul_nonneg (neg_nonneg.mpr ha) (sub_nonneg.mpr ht.2)]
  · nlinarith [mul_nonneg (sub_nonneg.mpr hw.2) ht.1, mul_nonneg hb (sub_nonneg.mpr ht.2)]

theorem flat_range (d : Depth) (a : Args) (set : Nat) (w0 w1 : Int) (junk : Junk) (hset : set < 16) (hw : 0 < a.w)
    (hh : 0 < a.h) (hb : a.e.bottom = true → a.h % 2 = 0 ∧ 6 ≤ a.h) (hwt : WeightsOk w0 w1) (v : Int)
    (hv : 0 ≤ v ∧ v ≤ 2 ^ d.bpc - 1) (hf : Flat a v) (y x : Int) (hi : Inside a y x) :
    ∃ t, -640 * off d ≤ t ∧ t ≤ 124 * off d ∧
      sgrFilter ⟨d, a, sgrOf set w0 w1⟩ junk y x = Spec.clip1 d.bpc ((2048 * v + t + 1024) / 2048) := by
  rw [(C60_sgr d a set w0 w1 junk hset hw hh hb (hf.srcOk hv) y x).1 hi]
  have hi' := hi
  unfold Inside at hi'
  unfold WeightsOk at hwt
  have pr := params_eq set (List.mem_range.mpr hset)
  obtain ⟨p0, -, q0, -, p1, q1, -⟩ := pr
  unfold Spec.selfGuided
  dsimp only
  rw [hf y x (by omega) (by omega) (by omega) (by omega)]
  have h0 : ∃ t, 0 ≤ t ∧ t ≤ 4 * off d ∧ (if (Spec.sgrParams.getD set ((0, 0), (0, 0))).1.1 = 0 then v * 16 else
      Spec.boxFilter d.bpc 0 (Spec.sgrParams.getD set ((0, 0), (0, 0))).1.1 (Spec.sgrParams.getD set ((0, 0), (0, 0))).1.2
        (Spec.source a) y x) = 16 * v + t := by
    rcases p1 with ⟨hn, e⟩ | ⟨hn, e⟩
    · rw [e, if_neg (by norm_num)]
      have := flatF5 d a _ v p0 hv hf y x hi
      exact ⟨_, this.1, this.2, by ring⟩
    · rw [if_pos e]
      exact ⟨0, le_rfl, by cases d <;> decide, by ring⟩
  have h1 : ∃ t, 0 ≤ t ∧ t ≤ off d ∧ (if (Spec.sgrParams.getD set ((0, 0), (0, 0))).2.1 = 0 then v * 16 else
      Spec.boxFilter d.bpc 1 (Spec.sgrParams.getD set ((0, 0), (0, 0))).2.1 (Spec.sgrParams.getD set ((0, 0), (0, 0))).2.2
        (Spec.source a) y x) = 16 * v - t := by
    rcases q1 with ⟨hn, e⟩ | ⟨hn, e⟩
    · rw [e, if_neg (by norm_num)]
      have := flatF3 d a _ v q0 hv hf y x hi
      refine ⟨16 * v - Spec.boxFilter d.bpc 1 1 (sgrParams.getD set (0, 0)).2 (Spec.source a) y x, by linarith [this.2], by linarith [this.1], by ring⟩
    · rw [if_pos e]
      exact ⟨0, le_rfl, by cases d <;> decide, by ring⟩
  obtain ⟨t, t0, t4, et⟩ := h0
  obtain ⟨u, u0, u1, eu⟩ := h1
  rw [et, eu]
  have m0 := mul_range w0 t (-96) 31 _ ⟨hwt.1, hwt.2.1⟩ ⟨t0, t4⟩ (by decide) (by decide)
  have m1 := mul_range (128 - w0 - w1) u 0 256 _ ⟨by omega, by omega⟩ ⟨u0, u1⟩ (by decide) (by decide)
  refine ⟨w0 * t - (128 - w0 - w1) * u, by linarith, by linarith, ?_⟩
  unfold Spec.round2
  rw [if_neg (by decide)]
  congr 2
  ring

/-- C41: the self-guided filters keep flat areas with 8 bits per pixel, for all parameters and weights that can be coded. -/
theorem C41_sgr_flat (a : Args) (set : Nat) (w0 w1 : Int) (junk : Junk) (hset : set < 16) (hw : 0 < a.w) (hh : 0 < a.h)
    (hb : a.e.bottom = true → a.h % 2 = 0 ∧ 6 ≤ a.h) (hwt : WeightsOk w0 w1) (v : Int) (hv : 0 ≤ v ∧ v ≤ 255)
    (hf : Flat a v) (y x : Int) (hi : Inside a y x) : sgrFilter ⟨.b8, a, sgrOf set w0 w1⟩ junk y x = v := by
  obtain ⟨t, h1, h2, e⟩ := flat_range .b8 a set w0 w1 junk hset hw hh hb hwt v hv hf y x hi
  rw [e]
  simp only [off, Depth.bpc, Spec.clip1, Spec.clip3] at *
  norm_num at *
  split_ifs <;> omega

/-- C41: with 10 bits, they can make flat areas darker by one. -/
theorem C41_sgr_flat10 (a : Args) (set : Nat) (w0 w1 : Int) (junk : Junk) (hset : set < 16) (hw : 0 < a.w) (hh : 0 < a.h)
    (hb : a.e.bottom = true → a.h % 2 = 0 ∧ 6 ≤ a.h) (hwt : WeightsOk w0 w1) (v : Int) (hv : 0 ≤ v ∧ v ≤ 1023)
    (hf : Flat a v) (y x : Int) (hi : Inside a y x) :
    v - 1 ≤ sgrFilter ⟨.b10, a, sgrOf set w0 w1⟩ junk y x ∧ sgrFilter ⟨.b10, a, sgrOf set w0 w1⟩ junk y x ≤ v := by
  obtain ⟨t, h1, h2, e⟩ := flat_range .b10 a set w0 w1 junk hset hw hh hb hwt v hv hf y x hi
  rw [e]
  simp only [off, Depth.bpc, Spec.clip1, Spec.clip3] at *
  norm_num at *
  split_ifs <;> omega

/-- C41: with 12 bits, they can make flat areas darker by up to five or brighter by one. -/
theorem C41_sgr_flat12 (a : Args) (set : Nat) (w0 w1 : Int) (junk : Junk) (hset : set < 16) (hw : 0 < a.w) (hh : 0 < a.h)
    (hb : a.e.bottom = true → a.h % 2 = 0 ∧ 6 ≤ a.h) (hwt : WeightsOk w0 w1) (v : Int) (hv : 0 ≤ v ∧ v ≤ 4095)
    (hf : Flat a v) (y x : Int) (hi : Inside a y x) :
    v - 5 ≤ sgrFilter ⟨.b12, a, sgrOf set w0 w1⟩ junk y x ∧ sgrFilter ⟨.b12, a, sgrOf set w0 w1⟩ junk y x ≤ v + 1 := by
  obtain ⟨t, h1, h2, e⟩ := flat_range .b12 a set w0 w1 junk hset hw hh hb hwt v hv hf y x hi
  rw [e]
  simp only [off, Depth.bpc, Spec.clip1, Spec.clip3] at *
  norm_num at *
  split_ifs <;> omega

theorem demo_flat (v : Int) : Flat (demo (fun _ _ => v)) v := by
  intro y x _ _ _ _
  unfold Spec.source
  dsimp only
  split_ifs <;> rfl

/-- C41: the claim for flat areas is false with more than 8 bits: flat areas get darker by one with 10 bits and by five
with 12 bits. -/
theorem C41_sgr_not_flat (junk : Junk) :
    sgrFilter ⟨.b10, demo (fun _ _ => 1022), sgrOf 0 (-96) 0⟩ junk 1 1 = 1021 ∧
    sgrFilter ⟨.b12, demo (fun _ _ => 4080), sgrOf 0 (-96) (-32)⟩ junk 1 1 = 4075 := by
  constructor
  · rw [(C60_sgr .b10 (demo (fun _ _ => 1022)) 0 (-96) 0 junk (by decide) (by decide) (by decide) (fun _ => by decide)
      ((demo_flat 1022).srcOk (by decide)) 1 1).1 (by unfold Inside; decide)]
    decide +kernel
  · rw [(C60_sgr .b12 (demo (fun _ _ => 4080)) 0 (-96) (-32) junk (by decide) (by decide) (by decide) (fun _ => by decide)
      ((demo_flat 4080).srcOk (by decide)) 1 1).1 (by unfold Inside; decide)]
    decide +kernel

example : WeightsOk (-96) (-32) ∧ Flat (demo (fun _ _ => 200)) 200 ∧ Inside (demo (fun _ _ => 200)) 5 4 :=
  ⟨by unfold WeightsOk; decide, demo_flat 200, by unfold Inside; decide⟩

end Dav1d.Lr
