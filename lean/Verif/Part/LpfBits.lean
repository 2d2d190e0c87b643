import Verif.Part.LpfModel
/-!
# The words of Av1Filter as sets of edges
-/
set_option linter.unusedVariables false
namespace Dav1d.Part.Lpf

/-- The words have exactly the bits in `P`: direction, line, size, position. `nn` is the number of bits used in a word of a direction. -/
def Rep (nn : Nat → Nat) (m : Mask) (P : Nat → Nat → Nat → Nat → Prop) : Prop :=
  ∀ d l s h j, (m d l s h).testBit j = true ↔ h < 2 ∧ j < nn d ∧ P d l s (h * nn d + j)

theorem Rep.congr {nn : Nat → Nat} {m : Mask} {P Q : Nat → Nat → Nat → Nat → Prop} (h : Rep nn m P)
    (e : ∀ d l s k, k < 2 * nn d → (P d l s k ↔ Q d l s k)) : Rep nn m Q := by
  intro d l s hh j
  rw [h d l s hh j]
  constructor
  · rintro ⟨a, b, c⟩
    refine ⟨a, b, (e _ _ _ _ ?_).1 c⟩
    have : hh = 0 ∨ hh = 1 := by omega
    rcases this with rfl | rfl <;> omega
  · rintro ⟨a, b, c⟩
    refine ⟨a, b, (e _ _ _ _ ?_).2 c⟩
    have : hh = 0 ∨ hh = 1 := by omega
    rcases this with rfl | rfl <;> omega

theorem rep_zero (nn : Nat → Nat) : Rep nn (fun _ _ _ _ => 0) (fun _ _ _ _ => False) := by
  intro d l s h j
  simp

/-- Position from half and bit. -/
theorem pos_split {n h j : Nat} (hj : j < n) : (h * n + j) / n = h ∧ (h * n + j) % n = j := by
  have hn : 0 < n := by omega
  rw [Nat.mul_comm]
  constructor
  · rw [Nat.mul_add_div hn, Nat.div_eq_of_lt hj]; omega
  · rw [Nat.mul_add_mod, Nat.mod_eq_of_lt hj]

/-- Bits or'ed into one word. -/
theorem Rep.or {nn : Nat → Nat} {m : Mask} {P : Nat → Nat → Nat → Nat → Prop} (h : Rep nn m P) {dir line size half bits : Nat} (Q : Nat → Prop)
    (hn : ∀ d, nn d ≤ 16) (hh : half < 2) (hb : ∀ j, bits.testBit j = true ↔ j < nn dir ∧ Q (half * nn dir + j)) :
    Rep nn (m.or dir line size half bits) (fun d l s k => P d l s k ∨ (d = dir ∧ l = line ∧ s = size ∧ k / nn dir = half ∧ Q k)) := by
  intro d l s h' j
  unfold Mask.or
  by_cases hc : d = dir ∧ l = line ∧ s = size ∧ h' = half
  · obtain ⟨rfl, rfl, rfl, rfl⟩ := hc
    rw [if_pos ⟨rfl, rfl, rfl, rfl⟩, show (65536 : Nat) = 2 ^ 16 from rfl, Nat.testBit_mod_two_pow, Nat.testBit_or]
    have e1 := h d l s h' j
    have e2 := hb j
    have := hn d
    constructor
    · intro hx
      simp only [Bool.and_eq_true, decide_eq_true_eq, Bool.or_eq_true] at hx
      rcases hx.2 with hx | hx
      · obtain ⟨a, b, c⟩ := e1.1 hx
        exact ⟨a, b, .inl c⟩
      · obtain ⟨a, b⟩ := e2.1 hx
        exact ⟨hh, a, .inr ⟨rfl, rfl, rfl, (pos_split a).1, b⟩⟩
    · rintro ⟨a, b, c⟩
      simp only [Bool.and_eq_true, decide_eq_true_eq, Bool.or_eq_true]
      refine ⟨by omega, ?_⟩
      rcases c with c | ⟨-, -, -, -, c⟩
      · exact .inl (e1.2 ⟨a, b, c⟩)
      · exact .inr (e2.2 ⟨b, c⟩)
  · rw [if_neg hc, h d l s h' j]
    constructor
    · rintro ⟨a, b, c⟩; exact ⟨a, b, .inl c⟩
    · rintro ⟨a, b, c⟩
      refine ⟨a, b, ?_⟩
      rcases c with c | ⟨rfl, rfl, rfl, c, -⟩
      · exact c
      · rw [(pos_split b).1] at c
        exact absurd ⟨rfl, rfl, rfl, c⟩ hc

theorem sidx_eq : ∀ ss < 2, ∀ k < 32, k < 2 * (16 >>> ss) → sidx ss k = k / (16 >>> ss) ∧ smask ss k = 2 ^ (k % (16 >>> ss)) := by decide

theorem word_n {ss : Nat} (hs : ss < 2) : (16 >>> ss = 16 ∧ 32 >>> ss = 32) ∨ (16 >>> ss = 8 ∧ 32 >>> ss = 16) := by
  have : ss = 0 ∨ ss = 1 := by omega
  rcases this with rfl | rfl <;> decide

/-- One bit. -/
theorem Rep.one {nn : Nat → Nat} {m : Mask} {P : Nat → Nat → Nat → Nat → Prop} (h : Rep nn m P) {ss dir line size k : Nat}
    (hn : ∀ d, nn d ≤ 16) (hs : ss < 2) (hd : nn dir = 16 >>> ss) (hk : k < 2 * (16 >>> ss)) :
    Rep nn (m.or dir line size (sidx ss k) (smask ss k)) (fun d l s k' => P d l s k' ∨ (d = dir ∧ l = line ∧ s = size ∧ k' = k)) := by
  have hw := word_n hs
  obtain ⟨e1, e2⟩ := sidx_eq ss hs k (by omega) hk
  rw [e1, e2]
  have hpos : 0 < 16 >>> ss := by omega
  refine (h.or (fun k' => k' = k) hn ?_ ?_).congr ?_
  · rw [Nat.div_lt_iff_lt_mul hpos]; exact hk
  · intro j
    rw [Nat.testBit_two_pow, decide_eq_true_iff, hd]
    constructor
    · intro hj
      refine ⟨by rw [← hj]; exact Nat.mod_lt _ hpos, ?_⟩
      rw [← hj, Nat.mul_comm]; exact Nat.div_add_mod k _
    · rintro ⟨hj, hk'⟩
      rw [← hk', (pos_split hj).2]
  · intro d l s k' hk'
    constructor
    · rintro (h | ⟨a, b, c, d, e⟩)
      · exact .inl h
      · exact .inr ⟨a, b, c, e⟩
    · rintro (h | ⟨a, b, c, e⟩)
      · exact .inl h
      · exact .inr ⟨a, b, c, by rw [e, hd], e⟩

/-- The edge of a block. -/
theorem Rep.edge {nn : Nat → Nat} (hn : ∀ d, nn d ≤ 16) {ss dir line off : Nat} (hs : ss < 2) (hd : nn dir = 16 >>> ss) {sz : Nat → Nat} :
    ∀ {n : Nat} {m : Mask} {P : Nat → Nat → Nat → Nat → Prop}, Rep nn m P → off + n ≤ 2 * (16 >>> ss) →
    Rep nn (edgeLoop ss dir line off n sz m) (fun d l s k => P d l s k ∨ (d = dir ∧ l = line ∧ ∃ y, y < n ∧ k = off + y ∧ s = sz y))
  | 0, m, P, h, hk => h.congr fun d l s k _ => ⟨.inl, fun x => x.elim id fun ⟨_, _, y, hy, _⟩ => absurd hy (Nat.not_lt_zero _)⟩
  | n + 1, m, P, h, hk => by
    unfold edgeLoop
    rw [List.range_succ, List.foldl_append]
    simp only [List.foldl_cons, List.foldl_nil]
    have ih := Rep.edge hn hs hd (n := n) (sz := sz) (line := line) (off := off) h (by omega)
    refine (ih.one hn hs hd (k := off + n) (by omega)).congr ?_
    intro d l s k _
    constructor
    · rintro ((h | ⟨a, b, y, hy, c⟩) | ⟨a, b, c, e⟩)
      · exact .inl h
      · exact .inr ⟨a, b, y, by omega, c⟩
      · exact .inr ⟨a, b, n, by omega, e, c⟩
    · rintro (h | ⟨a, b, y, hy, c, e⟩)
      · exact .inl (.inl h)
      · by_cases hyn : y = n
        · subst hyn; exact .inr ⟨a, b, e, c⟩
        · exact .inl (.inr ⟨a, b, y, by omega, c, e⟩)

/-- The values of a loop with a step. -/
theorem forList_iff {s e : Nat} (hs : 0 < s) : ∀ {n v0 v : Nat}, e ≤ v0 + n → (v ∈ forList s e n v0 ↔ v0 ≤ v ∧ v < e ∧ (v - v0) % s = 0)
  | 0, v0, v, h => by
    simp only [forList, List.not_mem_nil, false_iff]
    omega
  | n + 1, v0, v, h => by
    unfold forList
    by_cases hv : v0 < e
    · rw [if_pos hv, List.mem_cons, forList_iff hs (n := n) (by omega)]
      constructor
      · rintro (rfl | ⟨h1, h2, h3⟩)
        · exact ⟨Nat.le_refl _, hv, by simp⟩
        · refine ⟨by omega, h2, ?_⟩
          rw [show v - v0 = (v - (v0 + s)) + s by omega, Nat.add_mod_right]; exact h3
      · rintro ⟨h1, h2, h3⟩
        by_cases hx : v = v0
        · exact .inl hx
        · have : s ≤ v - v0 := Nat.le_of_dvd (by omega) (Nat.dvd_of_mod_eq_zero h3)
          refine .inr ⟨by omega, h2, ?_⟩
          rw [show v - v0 = (v - (v0 + s)) + s by omega, Nat.add_mod_right] at h3; exact h3
    · rw [if_neg hv]
      simp only [List.not_mem_nil, false_iff]
      omega

theorem inner_bits {off n j : Nat} (h : off + n ≤ 32) : ((1 <<< off <<< n - 1 <<< off) % 4294967296).testBit j = true ↔ off ≤ j ∧ j < off + n := by
  have e : 1 <<< off <<< n - 1 <<< off = (2 ^ n - 1) <<< off := by
    simp only [Nat.shiftLeft_eq, Nat.one_mul]
    rw [Nat.sub_mul, Nat.one_mul, Nat.mul_comm]
  rw [e, show (4294967296 : Nat) = 2 ^ 32 from rfl, Nat.testBit_mod_two_pow, Nat.testBit_shiftLeft, Nat.testBit_two_pow_sub_one]
  simp only [Bool.and_eq_true, decide_eq_true_eq]
  omega

theorem Rep.inner_step {nn : Nat → Nat} (hn : ∀ d, nn d ≤ 16) {ss dir off n size : Nat} (hs : ss < 2) (hd : nn dir = 16 >>> ss)
    (ho : off + n ≤ 2 * (16 >>> ss)) {m : Mask} {P : Nat → Nat → Nat → Nat → Prop} (h : Rep nn m P) (line : Nat) {inner : Nat}
    (hi : inner = (1 <<< off <<< n - 1 <<< off) % 4294967296) :
    Rep nn (let m := if inner &&& (1 <<< (16 >>> ss) - 1) ≠ 0 then m.or dir line size 0 (inner &&& (1 <<< (16 >>> ss) - 1)) else m
      if inner >>> (16 >>> ss) ≠ 0 then m.or dir line size 1 (inner >>> (16 >>> ss)) else m)
      (fun d l s k => P d l s k ∨ (d = dir ∧ l = line ∧ s = size ∧ off ≤ k ∧ k < off + n)) := by
  have hw := word_n hs
  have hb : ∀ j, inner.testBit j = true ↔ off ≤ j ∧ j < off + n := fun j => by rw [hi]; exact inner_bits (by omega)
  have h1 : ∀ j, (inner &&& (1 <<< (16 >>> ss) - 1)).testBit j = true ↔ j < nn dir ∧ (off ≤ 0 * nn dir + j ∧ 0 * nn dir + j < off + n) := by
    intro j
    rw [Nat.testBit_and, Nat.shiftLeft_eq, Nat.one_mul, Nat.testBit_two_pow_sub_one, Bool.and_eq_true, hb, decide_eq_true_iff, hd]
    omega
  have h2 : ∀ j, (inner >>> (16 >>> ss)).testBit j = true ↔ j < nn dir ∧ (off ≤ 1 * nn dir + j ∧ 1 * nn dir + j < off + n) := by
    intro j
    rw [Nat.testBit_shiftRight, hb, hd]
    omega
  have A := h.or (size := size) (line := line) (fun k => off ≤ k ∧ k < off + n) hn (by decide) h1
  have A' : Rep nn (if inner &&& (1 <<< (16 >>> ss) - 1) ≠ 0 then m.or dir line size 0 (inner &&& (1 <<< (16 >>> ss) - 1)) else m)
      (fun d l s k => P d l s k ∨ (d = dir ∧ l = line ∧ s = size ∧ k / nn dir = 0 ∧ (off ≤ k ∧ k < off + n))) := by
    by_cases hz : inner &&& (1 <<< (16 >>> ss) - 1) = 0
    · rw [if_neg (by simpa using hz)]
      refine h.congr fun d l s k hk => ⟨.inl, fun x => x.elim id ?_⟩
      rintro ⟨rfl, rfl, rfl, a, b⟩
      exfalso
      have := (h1 k).2 (by rw [hd] at a hk ⊢; rcases hw with ⟨hw, _⟩ | ⟨hw, _⟩ <;> rw [hw] at a hk ⊢ <;> omega)
      rw [hz] at this; simp at this
    · rw [if_pos hz]; exact A
  have B := A'.or (size := size) (line := line) (fun k => off ≤ k ∧ k < off + n) hn (by decide) h2
  dsimp only
  by_cases hz : inner >>> (16 >>> ss) = 0
  · rw [if_neg (by simpa using hz)]
    refine A'.congr fun d l s k hk => ?_
    constructor
    · rintro (a | ⟨a, b, c, d, e⟩)
      · exact .inl a
      · exact .inr ⟨a, b, c, e⟩
    · rintro (a | ⟨rfl, rfl, rfl, e1, e2⟩)
      · exact .inl a
      · refine .inr ⟨rfl, rfl, rfl, ?_, e1, e2⟩
        by_cases hkn : k < nn d
        · exact Nat.div_eq_of_lt hkn
        · exfalso
          have := (h2 (k - nn d)).2 (by omega)
          rw [hz] at this; simp at this
  · rw [if_pos hz]
    refine B.congr fun d l s k hk => ?_
    constructor
    · rintro ((a | ⟨a, b, c, d, e⟩) | ⟨a, b, c, d, e⟩)
      · exact .inl a
      · exact .inr ⟨a, b, c, e⟩
      · exact .inr ⟨a, b, c, e⟩
    · rintro (a | ⟨rfl, rfl, rfl, e1, e2⟩)
      · exact .inl (.inl a)
      · by_cases hkn : k < nn d
        · exact .inl (.inr ⟨rfl, rfl, rfl, Nat.div_eq_of_lt hkn, e1, e2⟩)
        · refine .inr ⟨rfl, rfl, rfl, ?_, e1, e2⟩
          rw [show k = 1 * nn d + (k - nn d) by omega]
          exact (pos_split (by omega)).1

/-- Inner edges of equal transforms. -/
theorem Rep.inner {nn : Nat → Nat} (hn : ∀ d, nn d ≤ 16) {ss dir line off n step len size : Nat} (hs : ss < 2) (hd : nn dir = 16 >>> ss)
    (ho : off + n ≤ 2 * (16 >>> ss)) (hst : 0 < step) {m : Mask} {P : Nat → Nat → Nat → Nat → Prop} (h : Rep nn m P) :
    Rep nn (innerLoop ss dir line off n step len size m)
      (fun d l s k => P d l s k ∨ (d = dir ∧ s = size ∧ off ≤ k ∧ k < off + n ∧ ∃ x, 0 < x ∧ x < len ∧ x % step = 0 ∧ l = line + x)) := by
  have H : ∀ (xs : List Nat) (m : Mask) (P : Nat → Nat → Nat → Nat → Prop), Rep nn m P →
      Rep nn (xs.foldl (fun m x =>
        let m := if ((1 <<< off <<< n - 1 <<< off) % 4294967296) &&& (1 <<< (16 >>> ss) - 1) ≠ 0 then m.or dir (line + x) size 0 (((1 <<< off <<< n - 1 <<< off) % 4294967296) &&& (1 <<< (16 >>> ss) - 1)) else m
        if ((1 <<< off <<< n - 1 <<< off) % 4294967296) >>> (16 >>> ss) ≠ 0 then m.or dir (line + x) size 1 (((1 <<< off <<< n - 1 <<< off) % 4294967296) >>> (16 >>> ss)) else m) m)
        (fun d l s k => P d l s k ∨ (d = dir ∧ s = size ∧ off ≤ k ∧ k < off + n ∧ ∃ x ∈ xs, l = line + x)) := by
    intro xs
    induction xs with
    | nil => intro m P h; exact h.congr fun d l s k _ => ⟨.inl, fun x => x.elim id fun ⟨_, _, _, _, y, hy, _⟩ => absurd hy (by simp)⟩
    | cons x xs ih =>
      intro m P h
      rw [List.foldl_cons]
      refine (ih _ _ (Rep.inner_step hn hs hd ho h (line + x) rfl)).congr fun d l s k _ => ?_
      constructor
      · rintro ((a | ⟨a, b, c, e⟩) | ⟨a, b, c, e, y, hy, hl⟩)
        · exact .inl a
        · exact .inr ⟨a, c, e.1, e.2, x, by simp, b⟩
        · exact .inr ⟨a, b, c, e, y, by simp [hy], hl⟩
      · rintro (a | ⟨a, b, c, e, y, hy, hl⟩)
        · exact .inl (.inl a)
        · rcases List.mem_cons.1 hy with rfl | hy
          · exact .inl (.inr ⟨a, hl, b, c, e⟩)
          · exact .inr ⟨a, b, c, e, y, hy, hl⟩
  refine (H _ m P h).congr fun d l s k _ => ?_
  have hf : ∀ x, x ∈ forList step len len step ↔ 0 < x ∧ x < len ∧ x % step = 0 := by
    intro x
    rw [forList_iff hst (by omega)]
    constructor
    · rintro ⟨a, b, c⟩
      refine ⟨by omega, b, ?_⟩
      rw [show x = (x - step) + step by omega, Nat.add_mod_right]; exact c
    · rintro ⟨a, b, c⟩
      have : step ≤ x := Nat.le_of_dvd a (Nat.dvd_of_mod_eq_zero c)
      refine ⟨this, b, ?_⟩
      rw [show x = (x - step) + step by omega, Nat.add_mod_right] at c; exact c
  constructor
  · rintro (a | ⟨a, b, c, e, y, hy, hl⟩)
    · exact .inl a
    · obtain ⟨h1, h2, h3⟩ := (hf y).1 hy
      exact .inr ⟨a, b, c, e, y, h1, h2, h3, hl⟩
  · rintro (a | ⟨a, b, c, e, y, h1, h2, h3, hl⟩)
    · exact .inl a
    · exact .inr ⟨a, b, c, e, y, (hf y).2 ⟨h1, h2, h3⟩, hl⟩

/-- Transforms along a line of `len` units: `W` is the width of the transform at a unit, equal for all its units. -/
structure LineOk (len : Nat) (W w : Nat → Nat) : Prop where
  pos : ∀ k < len, 0 < W k
  cell : ∀ k k', k < len → k' < len → k' / W k = k / W k → W k' = W k ∧ w k' = w k

/-- The unit after a transform begins a transform. -/
theorem LineOk.next {len : Nat} {W w : Nat → Nat} (h : LineOk len W w) {x : Nat} (h0 : x % W x = 0) (hl : x + W x < len) :
    (x + W x) % W (x + W x) = 0 ∧ ∀ k, x < k → k < x + W x → k % W k ≠ 0 := by
  have hp := h.pos x (by omega)
  have hx : x = W x * (x / W x) := by have := Nat.div_add_mod x (W x); omega
  have hin : ∀ k, x ≤ k → k < x + W x → W k = W x := by
    intro k h1 h2
    refine (h.cell x k (by omega) (by omega) ?_).1
    rw [Nat.div_eq_iff hp]
    rw [Nat.mul_comm] at hx
    omega
  constructor
  · refine Classical.byContradiction fun hne => ?_
    have hp' := h.pos (x + W x) hl
    generalize hV : W (x + W x) = V at *
    have hlt : x + W x - 1 < len := by omega
    have hsame : (x + W x - 1) / V = (x + W x) / V := by
      have hd := Nat.div_add_mod (x + W x) V
      rw [Nat.div_eq_iff hp']
      generalize hq : (x + W x) / V = q at *
      have : (x + W x) % V < V := Nat.mod_lt _ hp'
      have hc : q * V = V * q := Nat.mul_comm ..
      omega
    have := (h.cell (x + W x) (x + W x - 1) hl hlt (by rw [hV]; exact hsame)).1
    rw [hV, hin _ (by omega) (by omega)] at this
    rw [← this] at hne
    exact hne (by rw [Nat.add_mod_right]; exact h0)
  · intro k h1 h2 hk
    rw [hin k (by omega) h2] at hk
    have : (k - x) % W x = 0 := by
      have : k = (k - x) + W x * (x / W x) := by omega
      rw [this, Nat.add_mul_mod_self_left] at hk
      exact hk
    rw [Nat.mod_eq_of_lt (by omega)] at this
    omega

/-- The walk over the transforms of a line sets a bit at each begin of a transform from `x` on. -/
theorem Rep.walk {nn : Nat → Nat} (hn : ∀ d, nn d ≤ 16) {ss dir line len pos : Nat} (hs : ss < 2) (hd : nn dir = 16 >>> ss)
    (hk : pos < 2 * (16 >>> ss)) {W w step : Nat → Nat} (hL : LineOk len W w) (hst : ∀ x < len, x % W x = 0 → step x = W x) :
    ∀ (n x last : Nat) (m : Mask) (P : Nat → Nat → Nat → Nat → Prop), Rep nn m P → 0 < x → (x < len → x % W x = 0 ∧ last = w (x - 1)) → len ≤ x + n →
    Rep nn (Lpf.walk dir line len (sidx ss pos) (smask ss pos) w step n x last m)
      (fun d l s k => P d l s k ∨ (d = dir ∧ k = pos ∧ ∃ x', x ≤ x' ∧ x' < len ∧ x' % W x' = 0 ∧ l = line + x' ∧ s = min (w x') (w (x' - 1))))
  | 0, x, last, m, P, h, h0, h1, h2 => h.congr fun d l s k _ => ⟨.inl, fun y => y.elim id fun ⟨_, _, x', a, b, _⟩ => by omega⟩
  | n + 1, x, last, m, P, h, h0, h1, h2 => by
    unfold Lpf.walk
    by_cases hx : x < len
    · obtain ⟨e1, e2⟩ := h1 hx
      rw [if_pos hx, hst x hx e1]
      have hp := hL.pos x hx
      have ih := Rep.walk hn (line := line) hs hd hk hL hst n (x + W x) (w x) _ _ (h.one (line := line + x) (size := min (w x) last) hn hs hd hk) (by omega) (by
        intro hlt
        refine ⟨(hL.next e1 hlt).1, ?_⟩
        refine (hL.cell x (x + W x - 1) hx (by omega) ?_).2.symm
        have hdm := Nat.div_add_mod x (W x)
        rw [Nat.div_eq_iff hp, Nat.mul_comm]
        omega) (by omega)
      refine ih.congr fun d l s k _ => ?_
      constructor
      · rintro ((a | ⟨a, b, c, e⟩) | ⟨a, b, y, hy⟩)
        · exact .inl a
        · exact .inr ⟨a, e, x, Nat.le_refl _, hx, e1, b, by rw [← e2]; exact c⟩
        · exact .inr ⟨a, b, y, by omega, hy.2⟩
      · rintro (a | ⟨a, b, y, h3, h4, h5, h6, h7⟩)
        · exact .inl (.inl a)
        · by_cases hxy : y = x
          · subst hxy
            exact .inl (.inr ⟨a, h6, by rw [e2]; exact h7, b⟩)
          · refine .inr ⟨a, b, y, ?_, h4, h5, h6, h7⟩
            refine Nat.le_of_not_lt fun hlt => ?_
            have hw : W y = W x := by
              refine (hL.cell x y hx h4 ?_).1
              have hdm := Nat.div_add_mod x (W x)
              rw [Nat.div_eq_iff hp, Nat.mul_comm]
              omega
            rw [hw] at h5
            have : (y - x) % W x = 0 := by
              have hdm := Nat.div_add_mod x (W x)
              have : y = (y - x) + W x * (x / W x) := by omega
              rw [this, Nat.add_mul_mod_self_left] at h5
              exact h5
            rw [Nat.mod_eq_of_lt (by omega)] at this
            omega
    · rw [if_neg hx]
      exact h.congr fun d l s k _ => ⟨.inl, fun y => y.elim id fun ⟨_, _, x', a, b, _⟩ => by omega⟩

/-- The correction of one bit. -/
theorem Rep.fix {nn : Nat → Nat} {m : Mask} {P : Nat → Nat → Nat → Nat → Prop} (h : Rep nn m P) {C : Comp} {ss dir line k lim : Nat}
    (hn : ∀ d, nn d ≤ 16) (hs : ss < 2) (hd : nn dir = 16 >>> ss) (hk : k < 2 * (16 >>> ss)) {i : Nat} (hi : i < C.sizes)
    (hu : ∀ s < C.sizes, P dir line s k ↔ s = i) (hl : lim < C.sizes) :
    Rep nn (m.fix C ss dir line k lim) (fun d l s k' => if d = dir ∧ l = line ∧ s < C.sizes ∧ k' = k then s = min i lim else P d l s k') := by
  have hw := word_n hs
  obtain ⟨e1, e2⟩ := sidx_eq ss hs k (by omega) hk
  have hpos : 0 < 16 >>> ss := by omega
  have hkm : k % (16 >>> ss) < 16 >>> ss := Nat.mod_lt _ hpos
  have hkd : k / (16 >>> ss) < 2 := by rw [Nat.div_lt_iff_lt_mul hpos]; exact hk
  have hkk : k / (16 >>> ss) * (16 >>> ss) + k % (16 >>> ss) = k := by rw [Nat.mul_comm]; exact Nat.div_add_mod ..
  have hbit : ∀ s, (m dir line s (sidx ss k) &&& smask ss k ≠ 0) ↔ P dir line s k := by
    intro s
    rw [e1, e2]
    have := h dir line s (k / (16 >>> ss)) (k % (16 >>> ss))
    rw [hd, hkk] at this
    constructor
    · intro hne
      obtain ⟨j, hj⟩ := Nat.exists_testBit_of_ne_zero hne
      rw [Nat.testBit_and, Nat.testBit_two_pow, Bool.and_eq_true, decide_eq_true_iff] at hj
      rw [← hj.2] at hj
      exact (this.1 hj.1).2.2
    · intro hp heq
      have h1 := this.2 ⟨hkd, hkm, hp⟩
      have h2 : (m dir line s (k / (16 >>> ss)) &&& 2 ^ (k % (16 >>> ss))).testBit (k % (16 >>> ss)) = true := by
        rw [Nat.testBit_and, h1, Nat.testBit_two_pow]; simp
      rw [heq] at h2; simp at h2
  have hidx : C.idx (fun s => m dir line s (sidx ss k)) (smask ss k) = i := by
    cases C with
    | y =>
      simp only [Comp.sizes] at hi hu
      unfold Comp.idx
      dsimp only
      have h2 := (hbit 2).trans (hu 2 (by decide))
      have h1 := (hbit 1).trans (hu 1 (by decide))
      by_cases c2 : (2 : Nat) = i
      · rw [if_pos (h2.2 c2), if_neg (fun hh => by have := h1.1 hh; omega)]; omega
      · rw [if_neg (fun hh => c2 (h2.1 hh))]
        by_cases c1 : (1 : Nat) = i
        · rw [if_pos (h1.2 c1)]; omega
        · rw [if_neg (fun hh => c1 (h1.1 hh))]; omega
    | uv p =>
      simp only [Comp.sizes] at hi hu
      unfold Comp.idx
      dsimp only
      have h1 := (hbit 1).trans (hu 1 (by decide))
      by_cases c1 : (1 : Nat) = i
      · rw [if_pos (h1.2 c1)]; omega
      · rw [if_neg (fun hh => c1 (h1.1 hh))]; omega
  have hclr : Rep nn (fun d n s h => if d = dir ∧ n = line ∧ s < C.sizes ∧ h = sidx ss k then m d n s h &&& (smask ss k ^^^ 65535) else m d n s h)
      (fun d l s k' => ¬ (d = dir ∧ l = line ∧ s < C.sizes ∧ k' = k) ∧ P d l s k') := by
    intro d l s h' j
    dsimp only
    have hP := h d l s h' j
    by_cases hc : d = dir ∧ l = line ∧ s < C.sizes ∧ h' = sidx ss k
    · rw [if_pos hc, Nat.testBit_and, Nat.testBit_xor, Bool.and_eq_true, hP, e2, Nat.testBit_two_pow, show (65535 : Nat) = 2 ^ 16 - 1 from rfl,
        Nat.testBit_two_pow_sub_one]
      obtain ⟨rfl, rfl, hsz, rfl⟩ := hc
      constructor
      · rintro ⟨⟨a, b, c⟩, e⟩
        refine ⟨a, b, fun hh => ?_, c⟩
        rw [← hh.2.2.2, hd, (pos_split (by rw [← hd]; exact b)).2] at e
        have := hn d
        rw [decide_eq_true (show j = j from rfl), decide_eq_true (show j < 16 by omega)] at e
        cases e
      · rintro ⟨a, b, c, e⟩
        refine ⟨⟨a, b, e⟩, ?_⟩
        have := hn d
        rw [decide_eq_true (show j < 16 by omega), decide_eq_false]
        · rfl
        · intro hj
          refine c ⟨rfl, rfl, hsz, ?_⟩
          rw [e1, hd, ← hj]; exact hkk
    · rw [if_neg hc, hP]
      constructor
      · rintro ⟨a, b, c⟩
        refine ⟨a, b, fun hh => hc ⟨hh.1, hh.2.1, hh.2.2.1, ?_⟩, c⟩
        obtain ⟨rfl, -, -, h4⟩ := hh
        rw [e1, ← hd, ← h4, (pos_split b).1]
      · rintro ⟨a, b, -, c⟩; exact ⟨a, b, c⟩
  unfold Mask.fix
  dsimp only
  rw [hidx]
  refine (hclr.one hn hs hd hk).congr fun d l s k' _ => ?_
  by_cases hc : d = dir ∧ l = line ∧ s < C.sizes ∧ k' = k
  · rw [if_pos hc]
    constructor
    · rintro (a | ⟨a, b, c, e⟩)
      · exact absurd hc a.1
      · exact c
    · intro hh; exact .inr ⟨hc.1, hc.2.1, hh, hc.2.2.2⟩
  · rw [if_neg hc]
    constructor
    · rintro (a | ⟨a, b, c, e⟩)
      · exact a.2
      · exact absurd ⟨a, b, by rw [c]; omega, e⟩ hc
    · intro hh; exact .inl ⟨hc, hh⟩

end Dav1d.Part.Lpf
