import Verif.Dsp.Fg
import Verif.Dsp.FgSpec
import Verif.Obu.FrameSpec
import Mathlib.Tactic.IntervalCases
import Mathlib.Tactic.Ring

/-!
# Film grain: the random numbers and the templates are as specified
-/
namespace Dav1d.Fg
open Dav1d

theorem loop_inv {σ : Type} (n : Nat) (f : Nat → σ → σ) (s : σ) (P : Nat → σ → Prop) (h0 : P 0 s)
    (hs : ∀ i, i < n → ∀ t, P i t → P (i + 1) (f i t)) : P n (loop n f s) := by
  unfold loop
  induction n with
  | zero => exact h0
  | succ n ih =>
    rw [List.range_succ, List.foldl_append]
    exact hs n (by omega) _ (ih (fun i hi => hs i (by omega)))

theorem loop_zero {σ : Type} (f : Nat → σ → σ) (s : σ) : loop 0 f s = s := rfl

theorem loop_succ {σ : Type} (n : Nat) (f : Nat → σ → σ) (s : σ) : loop (n + 1) f s = f n (loop n f s) := by
  unfold loop
  rw [List.range_succ, List.foldl_append]
  rfl

/-! ## Random numbers -/

theorem nextState_eq (r : Nat) (hr : r < 65536) : nextState r = Spec.shiftReg r := by
  unfold nextState Spec.shiftReg
  have h1 : r >>> 1 < 2 ^ 15 := by rw [Nat.shiftRight_eq_div_pow]; omega
  rw [Nat.or_comm, ← Nat.shiftLeft_add_eq_or_of_lt h1, Nat.and_one_is_mod, Nat.shiftLeft_eq]
  have x2 : ∀ a b : Nat, (a ^^^ b) % 2 = (a + b) % 2 := by
    intro a b
    have h := Nat.xor_mod_two_eq_one (a := a) (b := b)
    omega
  have e : (r ^^^ r >>> 1 ^^^ r >>> 3 ^^^ r >>> 12) % 2 = (r + r / 2 + r / 8 + r / 4096) % 2 := by
    have h1 := x2 (r ^^^ r >>> 1 ^^^ r >>> 3) (r >>> 12)
    have h2 := x2 (r ^^^ r >>> 1) (r >>> 3)
    have h3 := x2 r (r >>> 1)
    simp only [Nat.shiftRight_eq_div_pow] at *
    omega
  rw [e, Nat.shiftRight_eq_div_pow]
  omega

theorem shiftReg_lt (r : Nat) (hr : r < 65536) : Spec.shiftReg r < 65536 := by
  unfold Spec.shiftReg
  omega

theorem register_lt (seed : Nat) (hs : seed < 65536) (n : Nat) : Spec.register seed n < 65536 := by
  induction n with
  | zero => exact hs
  | succ n ih => exact shiftReg_lt _ ih

theorem nextState_register (seed : Nat) (hs : seed < 65536) (n : Nat) :
    nextState (Spec.register seed n) = Spec.register seed (n + 1) := nextState_eq _ (register_lt seed hs n)

theorem number_register (bits seed n : Nat) : number bits (Spec.register seed (n + 1)) = Spec.random bits seed n := by
  unfold number Spec.random
  rw [Nat.one_shiftLeft, Nat.and_two_pow_sub_one_eq_mod, Nat.shiftRight_eq_div_pow]

/-! ## Rounding -/

theorem round2_eq (x : Int) (n : Nat) : round2 x n = Spec.round2 x n := by
  unfold round2 Spec.round2 half asr
  split_ifs with h
  · subst h; norm_num
  · obtain ⟨m, rfl⟩ : ∃ m, n = m + 1 := ⟨n - 1, by omega⟩
    rw [show ((2 : Int) ^ (m + 1)) / 2 ^ 1 = 2 ^ m by rw [pow_succ]; norm_num]
    rfl

theorem iclip_eq (v lo hi : Int) : iclip v lo hi = Spec.clip3 lo hi v := rfl

theorem clip3_range (lo hi v : Int) (h : lo ≤ hi) : lo ≤ Spec.clip3 lo hi v ∧ Spec.clip3 lo hi v ≤ hi := by
  unfold Spec.clip3
  split_ifs <;> omega

/-- Entries of the templates. -/
def InGrain (d : Depth) (v : Int) : Prop := Spec.grainMin d.bpc ≤ v ∧ v ≤ Spec.grainMax d.bpc

theorem entry_id (d : Depth) (v : Int) (h : InGrain d v) : entry d v = v := by
  unfold InGrain at h
  cases d <;> simp only [Spec.grainMin, Spec.grainMax, Depth.bpc, entry] at * <;> norm_num at h <;> omega

theorem gaussian_range (i : Nat) : -1752 ≤ gaussianSequence.getD i 0 ∧ gaussianSequence.getD i 0 ≤ 1688 := by
  rw [List.getD_eq_getElem?_getD]
  rcases h : gaussianSequence[i]? with _ | v
  · exact ⟨by decide, by decide⟩
  · exact gaussianSequence_range v (List.mem_of_getElem? h)

theorem white_range (d : Depth) (g : FilmGrainData) (hg : g.grainScaleShift ≤ 3) (seed w y x : Nat) :
    InGrain d (Spec.white d.bpc g seed w y x) := by
  unfold Spec.white InGrain Spec.grainMin Spec.grainMax
  have h := gaussian_range (Spec.random 11 seed (y * w + x))
  generalize gaussianSequence.getD _ 0 = v at h
  generalize g.grainScaleShift = k at *
  unfold Spec.round2
  cases d <;> simp only [Depth.bpc] <;> interval_cases k <;> norm_num <;> omega

/-! ## White noise -/

theorem noise_eq (d : Depth) (g : FilmGrainData) (hg : g.grainScaleShift ≤ 3) (w h seed : Nat) (hs : seed < 65536) (junk : Plane)
    (y x : Nat) (hy : y < h) (hx : x < w) : noise d g w h seed junk y x = Spec.white d.bpc g seed w y x := by
  have key := loop_inv h (fun y => loop w (fun x => noiseStep d g y x)) ⟨seed, junk⟩
    (fun i s => s.seed = Spec.register seed (i * w) ∧
      ∀ y x : Nat, y < i → x < w → s.buf y x = Spec.white d.bpc g seed w y x)
    ⟨by rw [Nat.zero_mul]; rfl, fun y x h => absurd h (by omega)⟩ ?_
  · exact key.2 y x hy hx
  intro i hi t ht
  have inner := loop_inv w (fun x => noiseStep d g i x) t
    (fun j s => s.seed = Spec.register seed (i * w + j) ∧
      ∀ y x : Nat, (y < i ∧ x < w) ∨ (y = i ∧ x < j) → s.buf y x = Spec.white d.bpc g seed w y x)
    ⟨ht.1, fun y x h => ht.2 y x (by omega) (by omega)⟩ ?_
  · refine ⟨by rw [inner.1]; congr 1; ring, fun y x hy hx => inner.2 y x (by omega)⟩
  intro j hj t ht
  unfold noiseStep
  dsimp only
  have e : nextState t.seed = Spec.register seed (i * w + j + 1) := by rw [ht.1]; exact nextState_register seed hs _
  refine ⟨e, fun y x hyx => ?_⟩
  unfold setAt
  rw [e, number_register]
  by_cases hc : y = i ∧ x = j
  · obtain ⟨rfl, rfl⟩ := hc
    rw [if_pos ⟨rfl, rfl⟩, round2_eq]
    have := entry_id d _ (white_range d g hg seed w y x)
    unfold Spec.white at this
    have es : 4 - min8 d + g.grainScaleShift = 12 - d.bpc + g.grainScaleShift := by cases d <;> rfl
    rw [es, this]
    rfl
  · rw [if_neg (by omega)]
    exact ht.2 y x (by omega)

/-! ## The filter -/

theorem row_sum (c : List Int) (f : Nat → Int) (n k : Nat) (a : Int) :
    loop n (fun i (s : Nat × Int) => (s.1 + 1, s.2 + c.getD s.1 0 * f i)) (k, a) =
      (k + n, a + ∑ i ∈ Finset.range n, c.getD (k + i) 0 * f i) := by
  induction n with
  | zero => simp [loop_zero]
  | succ n ih =>
    rw [loop_succ, ih, Finset.sum_range_succ]
    dsimp only
    rw [← add_assoc, ← add_assoc]

theorem arSum_eq (c : List Int) (buf : Plane) (lag : Nat) (y x : Int) :
    arSum c buf lag y x = (2 * lag * (lag + 1), Spec.regress c lag buf y x) := by
  unfold arSum
  have rows : ∀ n, n ≤ lag → loop n (fun i => arRow c buf lag y x ((i : Int) - lag)) (0, 0) =
      (n * (2 * lag + 1), ∑ i ∈ Finset.range n, ∑ j ∈ Finset.range (2 * lag + 1),
        c.getD (i * (2 * lag + 1) + j) 0 * buf (y + i - lag) (x + j - lag)) := by
    intro n hn
    induction n with
    | zero => simp [loop_zero]
    | succ n ih =>
      rw [loop_succ, ih (by omega), Finset.sum_range_succ]
      unfold arRow
      rw [if_neg (by omega), row_sum c (fun i => buf (y + ((n : Int) - lag)) (x + i - lag))]
      rw [show y + ((n : Int) - lag) = y + n - lag by ring, show (n + 1) * (2 * lag + 1) = n * (2 * lag + 1) + (2 * lag + 1) by ring]
  rw [loop_succ, rows lag le_rfl]
  unfold arRow Spec.regress
  rw [if_pos (by omega), row_sum c (fun i => buf (y + ((lag : Int) - lag)) (x + i - lag)), sub_self, add_zero]
  congr 1
  ring

theorem regress_congr (c : List Int) (lag : Nat) (G G' : Int → Int → Int) (y x : Int)
    (h : ∀ y' x' : Int, y - lag ≤ y' → y' ≤ y → x - lag ≤ x' → x' ≤ x + lag → (y' < y ∨ x' < x) → G y' x' = G' y' x') :
    Spec.regress c lag G y x = Spec.regress c lag G' y x := by
  unfold Spec.regress
  congr 1
  · refine Finset.sum_congr rfl fun i hi => Finset.sum_congr rfl fun j hj => ?_
    rw [Finset.mem_range] at hi hj
    rw [h _ _ (by omega) (by omega) (by omega) (by omega) (by omega)]
  · refine Finset.sum_congr rfl fun j hj => ?_
    rw [Finset.mem_range] at hj
    rw [h _ _ (by omega) (by omega) (by omega) (by omega) (by omega)]

/-- What the filter computes at a position. -/
def filtered (d : Depth) (g : FilmGrainData) (c : List Int) (N extra : Nat → Nat → Int) (G : Plane) (y x : Nat) : Int :=
  Spec.clip3 (Spec.grainMin d.bpc) (Spec.grainMax d.bpc)
    (N y x + Spec.round2 (Spec.regress c g.arCoeffLag G y x + extra y x) g.arCoeffShift)

theorem filtered_congr (d : Depth) (g : FilmGrainData) (c : List Int) (N extra : Nat → Nat → Int) (G : Plane) (y x Y X : Nat) (v : Int)
    (h : y < Y ∨ (y = Y ∧ x ≤ X)) :
    filtered d g c N extra (setAt G Y X v) y x = filtered d g c N extra G y x := by
  unfold filtered
  rw [regress_congr c g.arCoeffLag (setAt G Y X v) G y x]
  intro y' x' _ _ _ _ _
  unfold setAt
  rw [if_neg (by omega)]

theorem grain_minmax (d : Depth) : Spec.grainMin d.bpc ≤ Spec.grainMax d.bpc := by cases d <;> decide

theorem autoReg_eq (d : Depth) (g : FilmGrainData) (c : List Int) (w h : Nat) (hw : 6 ≤ w) (hh : 3 ≤ h)
    (last : Nat → Nat → Nat → Int) (buf : Plane) (N : Nat → Nat → Int)
    (hb : ∀ y x : Nat, y < h → x < w → buf y x = N y x) :
    Spec.IsGrain d.bpc g c w h N (last (2 * g.arCoeffLag * (g.arCoeffLag + 1))) (autoReg d g c w h last buf) := by
  obtain ⟨extra, he⟩ : ∃ extra, last (2 * g.arCoeffLag * (g.arCoeffLag + 1)) = extra := ⟨_, rfl⟩
  rw [he]
  unfold autoReg
  have key := loop_inv (h - 3) (fun i => loop (w - 6) (fun j buf =>
    setAt buf ((i + 3 : Nat) : Int) ((j + 3 : Nat) : Int) (entry d (iclip (buf ((i + 3 : Nat) : Int) ((j + 3 : Nat) : Int) +
      round2 ((arSum c buf g.arCoeffLag ((i + 3 : Nat) : Int) ((j + 3 : Nat) : Int)).2 +
        last (arSum c buf g.arCoeffLag ((i + 3 : Nat) : Int) ((j + 3 : Nat) : Int)).1 (i + 3) (j + 3)) g.arCoeffShift)
      (-(128 * 2 ^ min8 d)) (128 * 2 ^ min8 d - 1))))) buf
    (fun i G => ∀ y x : Nat, y < h → x < w → G y x =
      if 3 ≤ y ∧ y < i + 3 ∧ 3 ≤ x ∧ x < w - 3 then filtered d g c N extra G y x else N y x)
    (fun y x hy hx => by rw [if_neg (by omega)]; exact hb y x hy hx) ?_
  · intro y x hy hx
    refine (key y x hy hx).trans ?_
    by_cases hc : 3 ≤ y ∧ 3 ≤ x ∧ x < w - 3
    · rw [if_pos hc, if_pos (by omega)]
      rfl
    · rw [if_neg hc, if_neg (by omega)]
  intro i hi G hG
  have inner := loop_inv (w - 6) (fun j buf =>
    setAt buf ((i + 3 : Nat) : Int) ((j + 3 : Nat) : Int) (entry d (iclip (buf ((i + 3 : Nat) : Int) ((j + 3 : Nat) : Int) +
      round2 ((arSum c buf g.arCoeffLag ((i + 3 : Nat) : Int) ((j + 3 : Nat) : Int)).2 +
        last (arSum c buf g.arCoeffLag ((i + 3 : Nat) : Int) ((j + 3 : Nat) : Int)).1 (i + 3) (j + 3)) g.arCoeffShift)
      (-(128 * 2 ^ min8 d)) (128 * 2 ^ min8 d - 1)))) G
    (fun j G => ∀ y x : Nat, y < h → x < w → G y x =
      if (3 ≤ y ∧ y < i + 3 ∧ 3 ≤ x ∧ x < w - 3) ∨ (y = i + 3 ∧ 3 ≤ x ∧ x < j + 3) then filtered d g c N extra G y x else N y x)
    (fun y x hy hx => by
      rw [hG y x hy hx]
      by_cases hc : 3 ≤ y ∧ y < i + 3 ∧ 3 ≤ x ∧ x < w - 3
      · rw [if_pos hc, if_pos (Or.inl hc)]
      · rw [if_neg hc, if_neg (by omega)]) ?_
  · intro y x hy hx
    refine (inner y x hy hx).trans ?_
    by_cases hc : 3 ≤ y ∧ y < i + 1 + 3 ∧ 3 ≤ x ∧ x < w - 3
    · rw [if_pos hc, if_pos (by omega)]
    · rw [if_neg hc, if_neg (by omega)]
  intro j hj G hG y x hy hx
  rw [arSum_eq]
  dsimp only
  rw [he, hG (i + 3) (j + 3) (by omega) (by omega), if_neg (by omega), iclip_eq, round2_eq]
  have eg : Spec.clip3 (-(128 * 2 ^ min8 d)) (128 * 2 ^ min8 d - 1) (N (i + 3) (j + 3) +
      Spec.round2 (Spec.regress c g.arCoeffLag G ((i + 3 : Nat) : Int) ((j + 3 : Nat) : Int) + extra (i + 3) (j + 3)) g.arCoeffShift) =
      filtered d g c N extra G (i + 3) (j + 3) := rfl
  have ef : entry d (filtered d g c N extra G (i + 3) (j + 3)) = filtered d g c N extra G (i + 3) (j + 3) :=
    entry_id d _ (clip3_range _ _ _ (grain_minmax d))
  rw [eg, ef]
  by_cases hc : y = i + 3 ∧ x = j + 3
  · obtain ⟨rfl, rfl⟩ := hc
    rw [if_pos (by omega), filtered_congr _ _ _ _ _ _ _ _ _ _ _ (Or.inr ⟨rfl, le_rfl⟩)]
    unfold setAt
    rw [if_pos ⟨rfl, rfl⟩]
  · have e1 : setAt G ((i + 3 : Nat) : Int) ((j + 3 : Nat) : Int) (filtered d g c N extra G (i + 3) (j + 3)) y x = G y x := by
      unfold setAt
      rw [if_neg (by omega)]
    rw [e1, hG y x hy hx]
    by_cases hd : (3 ≤ y ∧ y < i + 3 ∧ 3 ≤ x ∧ x < w - 3) ∨ (y = i + 3 ∧ 3 ≤ x ∧ x < j + 3)
    · rw [if_pos hd, if_pos (by omega), filtered_congr _ _ _ _ _ _ _ _ _ _ _ (by omega)]
    · rw [if_neg hd, if_neg (by omega)]

/-- The equations have at most one solution. -/
theorem IsGrain.unique {n : Nat} {g : FilmGrainData} {c : List Int} {w h : Nat} {N N' extra extra' : Nat → Nat → Int}
    {G G' : Int → Int → Int} (hl : g.arCoeffLag ≤ 3) (hG : Spec.IsGrain n g c w h N extra G)
    (hG' : Spec.IsGrain n g c w h N' extra' G') (hN : ∀ y x, y < h → x < w → N y x = N' y x)
    (hx : ∀ y x, 3 ≤ y → y < h → 3 ≤ x → x < w - 3 → extra y x = extra' y x) :
    ∀ y x : Nat, y < h → x < w → G y x = G' y x := by
  have rows : ∀ k y x : Nat, y * w + x < k → y < h → x < w → G y x = G' y x := by
    intro k
    induction k with
    | zero => intro y x hk; omega
    | succ k ih =>
      intro y x hk hy hx'
      rw [hG y x hy hx', hG' y x hy hx']
      split_ifs with hc
      · rw [hN y x hy hx', hx y x hc.1 hy hc.2.1 hc.2.2, regress_congr c g.arCoeffLag G G' y x]
        intro y' x' h1 h2 h3 h4 h5
        obtain ⟨Y, rfl⟩ : ∃ Y : Nat, y' = Y := ⟨y'.toNat, by omega⟩
        obtain ⟨X, rfl⟩ : ∃ X : Nat, x' = X := ⟨x'.toNat, by omega⟩
        refine ih Y X ?_ (by omega) (by omega)
        rcases (show Y < y ∨ (Y = y ∧ X < x) by omega) with h | ⟨rfl, h⟩
        · have : Y * w + w ≤ y * w := by
            rw [← Nat.succ_mul]
            exact Nat.mul_le_mul_right w h
          omega
        · omega
      · rw [hN y x hy hx']
  intro y x hy hx'
  exact rows _ y x (Nat.lt_succ_self _) hy hx'

/-! ## The templates -/

theorem generateGrainY_eq (d : Depth) (g : FilmGrainData) (hg : g.grainScaleShift ≤ 3) (hs : g.seed < 65536) (junk : Plane) :
    Spec.IsGrain d.bpc g g.arCoeffsY 82 73 (fun y x => Spec.white d.bpc g g.seed 82 y x) (fun _ _ => 0)
      (generateGrainY d g junk) :=
  autoReg_eq d g g.arCoeffsY 82 73 (by omega) (by omega) (fun _ _ _ => 0) _ _ (fun y x hy hx => noise_eq d g hg 82 73 g.seed hs junk y x hy hx)

theorem loop_sum (n : Nat) (f : Nat → Int) (a : Int) : loop n (fun i s => s + f i) a = a + ∑ i ∈ Finset.range n, f i := by
  induction n with
  | zero => simp [loop_zero]
  | succ n ih => rw [loop_succ, ih, Finset.sum_range_succ, add_assoc]

theorem loop_sum2 (n m : Nat) (f : Nat → Nat → Int) (a : Int) :
    loop n (fun i => loop m (fun j s => s + f i j)) a = a + ∑ i ∈ Finset.range n, ∑ j ∈ Finset.range m, f i j := by
  rw [← loop_sum n (fun i => ∑ j ∈ Finset.range m, f i j)]
  congr 1
  funext i s
  exact loop_sum m (f i) s

theorem lumaPart_eq (g : FilmGrainData) (c : List Int) (GY : Plane) (sx sy k y x : Nat) :
    lumaPart g c GY sx sy k y x = if g.yPoints.length > 0 then c.getD k 0 * Spec.lumaGrain sx sy GY y x else 0 := by
  unfold lumaPart
  by_cases h : g.yPoints.length = 0
  · rw [if_pos h, if_neg (by omega)]
  · rw [if_neg h, if_pos (by omega)]
    dsimp only
    rw [round2_eq, mul_comm, loop_sum2, zero_add]
    unfold Spec.lumaGrain
    simp only [Nat.shiftLeft_eq]

theorem xor_lt (a b : Nat) (ha : a < 65536) (hb : b < 65536) : a ^^^ b < 65536 := Nat.xor_lt_two_pow (n := 16) ha hb

theorem chromaW_eq (sx : Nat) (h : sx ≤ 1) : chromaW sx = Spec.chromaWidth sx := by
  interval_cases sx <;> rfl

theorem chromaH_eq (sy : Nat) (h : sy ≤ 1) : chromaH sy = Spec.chromaHeight sy := by
  interval_cases sy <;> rfl

/-- The constants the seed is changed by for the two chroma planes. -/
def mask (uv : Bool) : Nat := if uv then 0x49d8 else 0xb524

theorem generateGrainUv_eq (d : Depth) (g : FilmGrainData) (hg : g.grainScaleShift ≤ 3) (hs : g.seed < 65536) (uv : Bool)
    (sx sy : Nat) (hx : sx ≤ 1) (hy : sy ≤ 1) (bufY junk : Plane) :
    Spec.IsChromaGrain d.bpc g (arCoeffsUv g uv) (mask uv) sx sy bufY (generateGrainUv d g uv sx sy bufY junk) := by
  unfold generateGrainUv Spec.IsChromaGrain
  rw [chromaW_eq sx hx, chromaH_eq sy hy]
  have hw : 6 ≤ Spec.chromaWidth sx := by interval_cases sx <;> decide
  have hh : 3 ≤ Spec.chromaHeight sy := by interval_cases sy <;> decide
  have hm : g.seed ^^^ mask uv < 65536 := xor_lt _ _ hs (by cases uv <;> decide)
  have := autoReg_eq d g (arCoeffsUv g uv) _ _ hw hh (lumaPart g (arCoeffsUv g uv) bufY sx sy) _ _
    (fun y x hy hx => noise_eq d g hg (Spec.chromaWidth sx) (Spec.chromaHeight sy) (g.seed ^^^ mask uv) hm junk y x hy hx)
  have e : lumaPart g (arCoeffsUv g uv) bufY sx sy (2 * g.arCoeffLag * (g.arCoeffLag + 1)) = fun y x =>
      if g.yPoints.length > 0 then
        (arCoeffsUv g uv).getD (2 * g.arCoeffLag * (g.arCoeffLag + 1)) 0 * Spec.lumaGrain sx sy bufY y x else 0 := by
    funext y x
    exact lumaPart_eq g _ bufY sx sy _ y x
  rw [e] at this
  exact this

/-- The luma template exists. -/
theorem lumaGrain_exists (d : Depth) (g : FilmGrainData) (hg : g.grainScaleShift ≤ 3) (hs : g.seed < 65536) :
    ∃ G, Spec.IsLumaGrain d.bpc g G := by
  by_cases h : g.yPoints.length > 0
  · refine ⟨generateGrainY d g (fun _ _ => 0), ?_⟩
    have := generateGrainY_eq d g hg hs (fun _ _ => 0)
    unfold Spec.IsLumaGrain
    simp only [if_pos h]
    exact this
  · refine ⟨fun _ _ => 0, ?_⟩
    intro y x _ _
    have z : Spec.regress g.arCoeffsY g.arCoeffLag (fun _ _ => 0) y x = 0 := by simp [Spec.regress]
    have zr : Spec.round2 0 g.arCoeffShift = 0 := by
      rw [← round2_eq]
      unfold round2 half asr
      rcases Nat.eq_zero_or_pos g.arCoeffShift with e | e
      · rw [e]; rfl
      · obtain ⟨m, hm⟩ : ∃ m, g.arCoeffShift = m + 1 := ⟨g.arCoeffShift - 1, by omega⟩
        rw [hm, show ((2 : Int) ^ (m + 1)) / 2 ^ 1 = 2 ^ m by rw [pow_succ]; norm_num, zero_add]
        apply Int.ediv_eq_zero_of_lt (by positivity)
        rw [pow_succ]
        have : (0 : Int) < 2 ^ m := by positivity
        omega
    dsimp only
    rw [if_neg h, z, zero_add, add_zero, zr]
    split_ifs
    · cases d <;> decide
    · rfl

end Dav1d.Fg
