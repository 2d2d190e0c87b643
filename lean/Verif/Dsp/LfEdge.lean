import Verif.Dsp.LfProps
import Verif.Dsp.LfLevelProps
/-!
# Deblocking: flat areas, ranges and reach (C40), and the functions for a whole edge (C57)
-/
namespace Dav1d.Lf
open LevelSpec (limit blimit)

/-! ## C40 -/

/-- How many samples at each side of the edge the filter may change. -/
def reach (j : Job) : Int := match j.size, j.luma with
  | .tx4x4, _ => 2
  | _, false => 2
  | .tx8x8, true => 3
  | .tx16x16, true => 6

theorem keys_lookup {l : List (Int × Int)} {k : Int} (h : ∀ e ∈ l, e.1 ≠ k) : l.lookup k = none := by
  induction l with
  | nil => rfl
  | cons e l ih =>
    obtain ⟨a, v⟩ := e
    have h1 : a ≠ k := h (a, v) (by simp)
    simp only [List.lookup, beq_false_of_ne (Ne.symm h1)]
    exact ih fun e he => h e (by simp [he])

theorem mem_of_lookup {l : List (Int × Int)} {k v : Int} (h : l.lookup k = some v) : (k, v) ∈ l := by
  induction l with
  | nil => simp [List.lookup] at h
  | cons e l ih =>
    obtain ⟨a, w⟩ := e
    simp only [List.lookup] at h
    by_cases e : k = a
    · subst e; simp at h; subst h; simp
    · simp only [beq_false_of_ne e] at h; exact List.mem_cons_of_mem _ (ih h)

/-- Every sample written is within the reach and is a pixel. -/
theorem writes_ok (d : Depth) (E I H : Nat) (j : Job) (s : Int → Int) (hs : Pixels d s) :
    ∀ e ∈ writes d E I H j.filterLen s, (-reach j ≤ e.1 ∧ e.1 < reach j) ∧ 0 ≤ e.2 ∧ e.2 ≤ d.max := by
  have hn : ∀ e ∈ narrow d ((H : Int) * 2 ^ (d.bpc - 8)) s, (-2 ≤ e.1 ∧ e.1 < 2) ∧ 0 ≤ e.2 ∧ e.2 ≤ d.max := by
    unfold narrow
    dsimp only
    split_ifs
    all_goals
      intro e he
      simp only [List.mem_cons, List.not_mem_nil, or_false] at he
      rcases he with rfl | rfl | rfl | rfl <;> exact ⟨by norm_num, clip_range _ _⟩
  have a0 := hs (-7); have a1 := hs (-6); have a2 := hs (-5); have a3 := hs (-4); have a4 := hs (-3); have a5 := hs (-2); have a6 := hs (-1)
  have b0 := hs 0; have b1 := hs 1; have b2 := hs 2; have b3 := hs 3; have b4 := hs 4; have b5 := hs 5; have b6 := hs 6
  have h16 : ∀ e ∈ wide16 s, (-6 ≤ e.1 ∧ e.1 < 6) ∧ 0 ≤ e.2 ∧ e.2 ≤ d.max := by
    intro e he
    simp only [wide16, List.mem_cons, List.not_mem_nil, or_false] at he
    rcases he with rfl | rfl | rfl | rfl | rfl | rfl | rfl | rfl | rfl | rfl | rfl | rfl <;>
      exact ⟨by norm_num, asr_mean 4 _ _ (by omega) (by norm_num; omega)⟩
  have h8 : ∀ e ∈ wide8 s, (-3 ≤ e.1 ∧ e.1 < 3) ∧ 0 ≤ e.2 ∧ e.2 ≤ d.max := by
    intro e he
    simp only [wide8, List.mem_cons, List.not_mem_nil, or_false] at he
    rcases he with rfl | rfl | rfl | rfl | rfl | rfl <;> exact ⟨by norm_num, asr_mean 3 _ _ (by omega) (by norm_num; omega)⟩
  have h6 : ∀ e ∈ wide6 s, (-2 ≤ e.1 ∧ e.1 < 2) ∧ 0 ≤ e.2 ∧ e.2 ≤ d.max := by
    intro e he
    simp only [wide6, List.mem_cons, List.not_mem_nil, or_false] at he
    rcases he with rfl | rfl | rfl | rfl <;> exact ⟨by norm_num, asr_mean 3 _ _ (by omega) (by norm_num; omega)⟩
  clear a0 a1 a2 a3 a4 a5 a6 b0 b1 b2 b3 b4 b5 b6
  obtain ⟨l, z, ok⟩ := j
  intro e he
  unfold writes at he
  dsimp only at he
  cases l <;> cases z <;> (try (exact absurd (ok rfl) (by decide))) <;> simp only [Job.filterLen, reach] at he ⊢ <;>
    norm_num at he <;> (try split_ifs at he) <;> replace he := he.2 <;>
    first
    | (have := hn e he; omega)
    | (have := h6 e he; omega)
    | (have := h8 e he; omega)
    | (have := h16 e he; omega)

/-- C40: the filter changes at most 6 samples at each side for luma and 2 for chroma, 3 and 2 for smaller transforms, and none unless the
filter mask holds. -/
theorem C40_deblock_reach (d : Depth) (E I H : Nat) (j : Job) (s : Int → Int) (hs : Pixels d s) (k : Int)
    (hk : line d E I H j.filterLen s k ≠ s k) : (-reach j ≤ k ∧ k < reach j) ∧ filterMask d I E s j.filterLen := by
  refine ⟨?_, ?_⟩
  · by_contra hc
    apply hk
    unfold line
    rw [keys_lookup]
    intro e he hek
    have := (writes_ok d E I H j s hs e he).1
    omega
  · by_contra hc
    apply hk
    rw [C57_line d I E H s j hs]
    unfold specLine
    rw [if_pos hc]

theorem line_pixels (d : Depth) (E I H : Nat) (j : Job) (s : Int → Int) (hs : Pixels d s) : Pixels d (line d E I H j.filterLen s) := by
  intro k
  unfold line
  cases h : (writes d E I H j.filterLen s).lookup k with
  | none => exact hs k
  | some v =>
    have := (writes_ok d E I H j s hs _ (mem_of_lookup h)).2
    simp only [toPixel_id this]; exact this

/-- C40: filtered samples are pixels. -/
theorem C40_deblock_range (d : Depth) (E I H : Nat) (j : Job) (s : Int → Int) (hs : Pixels d s) (k : Int) :
    0 ≤ line d E I H j.filterLen s k ∧ line d E I H j.filterLen s k ≤ d.max := line_pixels d E I H j s hs k

/-- C40: where the seven samples at each side are equal nothing changes. -/
theorem C40_deblock_flat (d : Depth) (E I H : Nat) (j : Job) (s : Int → Int) (hs : Pixels d s) (c : Int)
    (hc : ∀ k, -7 ≤ k → k ≤ 6 → s k = c) : line d E I H j.filterLen s = s := by
  funext k
  unfold line
  have e0 : s (-7) = c := hc _ (by decide) (by decide)
  have e1 : s (-6) = c := hc _ (by decide) (by decide)
  have e2 : s (-5) = c := hc _ (by decide) (by decide)
  have e3 : s (-4) = c := hc _ (by decide) (by decide)
  have e4 : s (-3) = c := hc _ (by decide) (by decide)
  have e5 : s (-2) = c := hc _ (by decide) (by decide)
  have e6 : s (-1) = c := hc _ (by decide) (by decide)
  have f0 : s 0 = c := hc _ (by decide) (by decide)
  have f1 : s 1 = c := hc _ (by decide) (by decide)
  have f2 : s 2 = c := hc _ (by decide) (by decide)
  have f3 : s 3 = c := hc _ (by decide) (by decide)
  have f4 : s 4 = c := hc _ (by decide) (by decide)
  have f5 : s 5 = c := hc _ (by decide) (by decide)
  have f6 : s 6 = c := hc _ (by decide) (by decide)
  have hcr : 0 ≤ c ∧ c ≤ d.max := f0 ▸ hs 0
  have all : ∀ e ∈ writes d E I H j.filterLen s, (-6 ≤ e.1 ∧ e.1 ≤ 5) ∧ e.2 = c := by
    have hn : ∀ e ∈ narrow d ((H : Int) * 2 ^ (d.bpc - 8)) s, (-6 ≤ e.1 ∧ e.1 ≤ 5) ∧ e.2 = c := by
      have hid : iclipDiff d 0 = 0 := by cases d <;> decide
      have t4 : asr (min 4 (128 * 2 ^ (d.bpc - 8) - 1)) 3 = 0 := by cases d <;> decide
      have t3 : asr (min 3 (128 * 2 ^ (d.bpc - 8) - 1)) 3 = 0 := by cases d <;> decide
      have t1 : asr (0 + 1) 1 = 0 := by decide
      unfold narrow
      simp only [e5, e6, f0, f1, sub_self, mul_zero, zero_add, hid, t4, t3]
      intro e he
      split_ifs at he <;> simp only [List.mem_cons, List.not_mem_nil, or_false] at he <;>
        rcases he with rfl | rfl | rfl | rfl <;> refine ⟨by norm_num, ?_⟩ <;> simp [clip_id hcr, asr]
    have k4 : ∀ v, v = 16 * c + 8 → asr v 4 = c := fun v h => by unfold asr; omega
    have k3 : ∀ v, v = 8 * c + 4 → asr v 3 = c := fun v h => by unfold asr; omega
    have h16 : ∀ e ∈ wide16 s, (-6 ≤ e.1 ∧ e.1 ≤ 5) ∧ e.2 = c := by
      intro e he
      simp only [wide16, e0, e1, e2, e3, e4, e5, e6, f0, f1, f2, f3, f4, f5, f6, List.mem_cons, List.not_mem_nil, or_false] at he
      rcases he with rfl | rfl | rfl | rfl | rfl | rfl | rfl | rfl | rfl | rfl | rfl | rfl <;>
        exact ⟨by norm_num, k4 _ (by omega)⟩
    have h8 : ∀ e ∈ wide8 s, (-6 ≤ e.1 ∧ e.1 ≤ 5) ∧ e.2 = c := by
      intro e he
      simp only [wide8, e0, e1, e2, e3, e4, e5, e6, f0, f1, f2, f3, f4, f5, f6, List.mem_cons, List.not_mem_nil, or_false] at he
      rcases he with rfl | rfl | rfl | rfl | rfl | rfl <;> exact ⟨by norm_num, k3 _ (by omega)⟩
    have h6 : ∀ e ∈ wide6 s, (-6 ≤ e.1 ∧ e.1 ≤ 5) ∧ e.2 = c := by
      intro e he
      simp only [wide6, e0, e1, e2, e3, e4, e5, e6, f0, f1, f2, f3, f4, f5, f6, List.mem_cons, List.not_mem_nil, or_false] at he
      rcases he with rfl | rfl | rfl | rfl <;> exact ⟨by norm_num, k3 _ (by omega)⟩
    unfold writes
    dsimp only
    intro e he
    clear e0 e1 e2 e3 e4 e5 e6 f0 f1 f2 f3 f4 f5 f6 hc
    split_ifs at he
    · simp at he
    · exact h16 e he
    · exact h8 e he
    · exact h6 e he
    · exact hn e he
  cases h : (writes d E I H j.filterLen s).lookup k with
  | none => rfl
  | some v =>
    obtain ⟨h1, h2⟩ := all _ (mem_of_lookup h)
    simp only at h1 h2
    rw [h2]
    simp only [toPixel_id hcr]
    exact (hc k (by omega) (by omega)).symm

/-! ## C57: a whole edge -/

theorem bits_spec (V : Pl → Int → Int → Int) (vm : Nat) (f : Nat → Pl → Pl) (g : Nat → (Int → Int) → Int → Int) (o : Int)
    (hf : ∀ b p a c, V (f b p) a c = if o + 4 * b ≤ a ∧ a < o + 4 * b + 4 then g b (V p a) c else V p a c) (p : Pl) (a c : Int) :
    V (bits vm f p) a c =
      if 0 ≤ a - o ∧ a - o < 128 ∧ vm.testBit ((a - o) / 4).toNat = true then g ((a - o) / 4).toNat (V p a) c else V p a c := by
  have go : ∀ n bit p, V (bits.go vm f n bit p) a c =
      if 4 * (bit : Int) ≤ a - o ∧ a - o < 4 * (bit + n : Nat) ∧ vm.testBit ((a - o) / 4).toNat = true then
        g ((a - o) / 4).toNat (V p a) c else V p a c := by
    intro n
    induction n with
    | zero => intro bit p; rw [if_neg (by omega)]; rfl
    | succ n ih =>
      intro bit p
      rw [bits.go]
      by_cases hz : vm >>> bit = 0
      · rw [if_pos hz, if_neg]
        rintro ⟨h1, _, h3⟩
        have : vm.testBit (bit + (((a - o) / 4).toNat - bit)) = false := by
          rw [← Nat.testBit_shiftRight, hz, Nat.zero_testBit]
        rw [show bit + (((a - o) / 4).toNat - bit) = ((a - o) / 4).toNat by omega, h3] at this
        cases this
      · rw [if_neg hz, ih]
        by_cases hb : 4 * (bit : Int) ≤ a - o ∧ a - o < 4 * (bit : Int) + 4
        · have e : ((a - o) / 4).toNat = bit := by omega
          rw [if_neg (by push_cast; omega)]
          cases ht : vm.testBit bit with
          | true =>
            rw [if_pos rfl, hf, if_pos (by omega), if_pos ⟨hb.1, by push_cast; omega, by rw [e, ht]⟩, e]
          | false =>
            rw [if_neg (by simp), if_neg (by rintro ⟨_, _, h3⟩; rw [e, ht] at h3; cases h3)]
        · have hV : V (if vm.testBit bit = true then f bit p else p) a = V p a := by
            funext c
            split_ifs
            · rw [hf, if_neg (by omega)]
            · rfl
          rw [hV]
          congr 1
          push_cast
          apply propext
          constructor <;> rintro ⟨h1, h2, h3⟩ <;> exact ⟨by omega, by omega, h3⟩
  have := go 32 0 p
  simpa [bits] using this

/-- The level of an edge, 7.14.2: the one of the block after the edge, or of the block before if that is 0. -/
def edgeLevel (l : Nat → Int → Nat) (b : Nat) : Nat := if l b 0 = 0 then l b (-1) else l b 0

/-- The transform sizes at 4-sample unit `b` of the edge, as coded in the masks: at most one mask has the bit in the decoder; if several
have, the larger size is meant. `none`: no transform edge. -/
def lumaJob (m : Nat → Nat) (b : Nat) : Option Job :=
  if (m 2).testBit b then some ⟨true, .tx16x16, fun _ => rfl⟩
  else if (m 1).testBit b then some ⟨true, .tx8x8, fun _ => rfl⟩
  else if (m 0).testBit b then some ⟨true, .tx4x4, fun _ => rfl⟩
  else none

def chromaJob (m : Nat → Nat) (b : Nat) : Option Job :=
  if (m 1).testBit b then some ⟨false, .tx8x8, fun h => by cases h⟩
  else if (m 0).testBit b then some ⟨false, .tx4x4, fun h => by cases h⟩
  else none

/-- The edge after filtering: position `a` along the edge, which begins at `o` and has 32 units of 4, line `s` across it, position `k` in
the line. -/
def specEdge (d : Depth) (sharp : Nat) (job : Nat → Option Job) (l : Nat → Int → Nat) (o a : Int) (s : Int → Int) (k : Int) : Int :=
  if 0 ≤ a - o ∧ a - o < 128 then
    let b := ((a - o) / 4).toNat
    let lvl := edgeLevel l b
    match job b with
    | none => s k
    | some j => if lvl = 0 then s k else specLine d (limit sharp lvl) (blimit sharp lvl) (lvl / 16) s j k
  else s k

/-- All levels are below 64, which is C48. -/
def LevelsOk (l : Nat → Int → Nat) : Prop := ∀ b k, l b k < 64

/-- Pixels of a plane. -/
def PlaneOk (d : Depth) (p : Pl) : Prop := ∀ j i, 0 ≤ p j i ∧ p j i ≤ d.max

theorem edge_eq (V : Pl → Int → Int → Int) (d : Depth) {sharp : Nat} (hsh : sharp ≤ 7) {l : Nat → Int → Nat} (hl : LevelsOk l)
    (vm : Nat) (job : Nat → Option Job) (wd : Nat → Nat) (E : Nat → Nat → Nat → Nat → Nat → Pl → Pl) (o x : Int)
    (hE : ∀ b e i h w p a c, V (E b e i h w p) a c = if o + 4 * b ≤ a ∧ a < o + 4 * b + 4 then line d e i h w (fun k => V p a (x + k)) (c - x) else V p a c)
    (hj : ∀ b, (vm.testBit b = true ↔ job b ≠ none) ∧ ∀ j, job b = some j → wd b = j.filterLen)
    (p : Pl) (hp : ∀ a, Pixels d (V p a)) (a c : Int) :
    V (bits vm (fun b => at_ (calcEih sharp) (l b 0) (l b (-1)) fun e i h => E b e i h (wd b)) p) a c =
      specEdge d sharp job l o a (fun k => V p a (x + k)) (c - x) := by
  rw [bits_spec V vm _ (fun b s c => if edgeLevel l b = 0 then s c else
    line d ((calcEih sharp).e (edgeLevel l b)) ((calcEih sharp).i (edgeLevel l b)) (edgeLevel l b >>> 4) (wd b) (fun k => s (x + k)) (c - x)) o]
  · unfold specEdge
    have e : x + (c - x) = c := by omega
    by_cases h1 : 0 ≤ a - o ∧ a - o < 128
    · rw [if_pos h1]
      dsimp only
      generalize ((a - o) / 4).toNat = b
      obtain ⟨hj1, hj2⟩ := hj b
      by_cases ht : vm.testBit b = true
      · rw [if_pos ⟨h1.1, h1.2, ht⟩]
        cases hjb : job b with
        | none => exact absurd hjb (hj1.mp ht)
        | some j =>
          dsimp only
          split_ifs with h0
          · rw [e]
          · have hlv : edgeLevel l b < 64 := by unfold edgeLevel; split_ifs <;> exact hl _ _
            obtain ⟨k1, k2⟩ := C48_limits hsh hlv
            rw [hj2 j hjb, k1, k2, C57_line _ _ _ _ _ _ (fun k => hp a (x + k)), Nat.shiftRight_eq_div_pow]
      · rw [if_neg (fun h => ht h.2.2)]
        have : job b = none := by by_contra h; exact ht (hj1.mpr h)
        rw [this]
        dsimp only
        rw [e]
    · rw [if_neg h1, if_neg (fun h => h1 ⟨h.1, h.2.1⟩)]; dsimp only; rw [e]
  · intro b p a c
    unfold at_ edgeLevel
    by_cases h0 : l b 0 = 0
    · simp only [h0, ne_eq, not_true_eq_false, if_false, if_true]
      by_cases h1 : l b (-1) = 0
      · simp only [h1, if_true]; split_ifs <;> rfl
      · simp only [h1, if_false]; rw [hE]
    · simp only [h0, ne_eq, not_false_eq_true, if_true, if_false]
      rw [hE]

theorem lumaJob_ok (m : Nat → Nat) (b : Nat) :
    ((m 0 ||| m 1 ||| m 2).testBit b = true ↔ lumaJob m b ≠ none) ∧ ∀ j, lumaJob m b = some j → 4 <<< idxY m b = j.filterLen := by
  unfold lumaJob idxY
  simp only [Nat.testBit_or, Bool.or_eq_true]
  by_cases h2 : (m 2).testBit b = true
  · simp only [if_pos h2]
    exact ⟨by simp [h2], by rintro j ⟨⟩; rfl⟩
  · by_cases h1 : (m 1).testBit b = true
    · simp only [if_neg h2, if_pos h1]
      exact ⟨by simp [h1], by rintro j ⟨⟩; rfl⟩
    · by_cases h0 : (m 0).testBit b = true
      · simp only [if_neg h2, if_neg h1, if_pos h0]
        exact ⟨by simp [h0], by rintro j ⟨⟩; rfl⟩
      · simp only [if_neg h2, if_neg h1, if_neg h0]
        exact ⟨by simp [h0, h1, h2], by rintro j ⟨⟩⟩

theorem chromaJob_ok (m : Nat → Nat) (b : Nat) :
    ((m 0 ||| m 1).testBit b = true ↔ chromaJob m b ≠ none) ∧
      ∀ j, chromaJob m b = some j → 4 + 2 * (if (m 1).testBit b then 1 else 0) = j.filterLen := by
  unfold chromaJob
  simp only [Nat.testBit_or, Bool.or_eq_true]
  by_cases h1 : (m 1).testBit b = true
  · simp only [if_pos h1]
    exact ⟨by simp [h1], by rintro j ⟨⟩; rfl⟩
  · by_cases h0 : (m 0).testBit b = true
    · simp only [if_neg h1, if_pos h0]
      exact ⟨by simp [h0], by rintro j ⟨⟩; rfl⟩
    · simp only [if_neg h1, if_neg h0]
      exact ⟨by simp [h0, h1], by rintro j ⟨⟩⟩

variable (d : Depth) {sharp : Nat} (hsh : sharp ≤ 7) {l : Nat → Int → Nat} (hl : LevelsOk l) (m : Nat → Nat) (p : Pl) (hp : PlaneOk d p)

include hsh hl hp

/-- C57: filtering a vertical luma edge left of column `x` from row `y` on gives the plane of the specification. -/
theorem C57_luma_columns (y x j i : Int) :
    hSb128y d m l (calcEih sharp) y x p j i = specEdge d sharp (lumaJob m) l y j (fun k => p j (x + k)) (i - x) :=
  edge_eq (fun p => p) d hsh hl _ (lumaJob m) _ (fun b E I H w => edgeCols d E I H w (y + 4 * b) x) y x
    (fun _ _ _ _ _ _ _ _ => rfl) (lumaJob_ok m) p (fun a k => hp a k) j i

/-- C57: a horizontal luma edge above row `y` from column `x` on. -/
theorem C57_luma_rows (y x j i : Int) :
    vSb128y d m l (calcEih sharp) y x p j i = specEdge d sharp (lumaJob m) l x i (fun k => p (y + k) i) (j - y) :=
  edge_eq (fun p a c => p c a) d hsh hl _ (lumaJob m) _ (fun b E I H w => edgeRows d E I H w y (x + 4 * b)) x y
    (fun _ _ _ _ _ _ _ _ => rfl) (lumaJob_ok m) p (fun a k => hp k a) i j

/-- C57: vertical chroma edges. -/
theorem C57_chroma_columns (y x j i : Int) :
    hSb128uv d m l (calcEih sharp) y x p j i = specEdge d sharp (chromaJob m) l y j (fun k => p j (x + k)) (i - x) :=
  edge_eq (fun p => p) d hsh hl _ (chromaJob m) _ (fun b E I H w => edgeCols d E I H w (y + 4 * b) x) y x
    (fun _ _ _ _ _ _ _ _ => rfl) (chromaJob_ok m) p (fun a k => hp a k) j i

/-- C57: horizontal chroma edges. -/
theorem C57_chroma_rows (y x j i : Int) :
    vSb128uv d m l (calcEih sharp) y x p j i = specEdge d sharp (chromaJob m) l x i (fun k => p (y + k) i) (j - y) :=
  edge_eq (fun p a c => p c a) d hsh hl _ (chromaJob m) _ (fun b E I H w => edgeRows d E I H w y (x + 4 * b)) x y
    (fun _ _ _ _ _ _ _ _ => rfl) (chromaJob_ok m) p (fun a k => hp k a) i j

omit hsh hl hp

/-- A step of 4 is smoothed over six pixels at each side at level 40 with a 16x16 transform. -/
example : (List.range 14).map (fun (n : Nat) =>
    hSb128y .b10 (fun k => if k = 2 then 1 else 0) (fun _ _ => 40) (calcEih 0) 0 8 (fun _ i => if i < 8 then 500 else 504) 2 (1 + (n : Int)))
    = [500, 500, 501, 501, 501, 501, 502, 502, 503, 503, 503, 504, 504, 504] := by decide +kernel

/-- A step larger than the limit is left alone. -/
example : (List.range 4).map (fun (n : Nat) =>
    hSb128y .b8 (fun k => if k = 0 then 1 else 0) (fun _ _ => 10) (calcEih 0) 0 8 (fun _ i => if i < 8 then 50 else 90) 2 (6 + (n : Int)))
    = [50, 50, 90, 90] := by decide +kernel

end Dav1d.Lf
