import Verif.Part.Node
/-!
# Nodes divided into nodes
-/
set_option linter.unusedVariables false
set_option linter.unusedSimpArgs false
namespace Dav1d.Part
variable {σ : Type}

theorem Pre.congr {f : Frame} {T : Tile} {h x y : Nat} {tr bl tr' bl' : Prop} {st : St σ} (ht : tr ↔ tr') (hb : bl ↔ bl')
    (hp : Pre f T h x y tr bl st) : Pre f T h x y tr' bl' st := by
  rw [← propext ht, ← propext hb]; exact hp

theorem Post.iff {f : Frame} {T : Tile} {h x y : Nat} {st st' : St σ} (p : Post f T h x y st st') {a b : Nat} (ht : T.has a b) :
    Decoded st'.log a b ↔ Decoded st.log a b ∨ Sq x y h a b :=
  ⟨p.within a b, fun h => h.elim p.mono (p.full a b ht)⟩

section
variable {f : Frame} {T : Tile} {c x y tn bn : Nat} {st s0 s1 s2 s3 : St σ}

theorem upper16 {i : Nat} (hc : c = 1 ∨ c = 2 ∨ c = 4 ∨ c = 8) (hy : y % (4 * c) = 0) (h : y / 2 ≤ i ∧ i < y / 2 + c) :
    ¬ ((y + 2 * c) % 32 / 2 ≤ i % 16 ∧ i % 16 < (y + 2 * c) % 32 / 2 + c) := by
  rcases hc with rfl | rfl | rfl | rfl <;> omega

theorem lower16 {i : Nat} (hc : c = 1 ∨ c = 2 ∨ c = 4 ∨ c = 8) (hy : y % (4 * c) = 0) (h : (y + 2 * c) / 2 ≤ i ∧ i < (y + 2 * c) / 2 + c) :
    ¬ (y % 32 / 2 ≤ i % 16 ∧ i % 16 < y % 32 / 2 + c) := by
  rcases hc with rfl | rfl | rfl | rfl <;> omega

theorem geo0 (hc : 1 ≤ c) (g : Geo f T (2 * c) x y) : Geo f T c x y := by
  obtain ⟨g1, g2, g3, g4, g5, g6, g7, g8, g9, g10, g11, g12⟩ := g
  refine ⟨?_, ?_, ?_, ?_, ?_, ?_, ?_, ?_, ?_, ?_, ?_, ?_⟩ <;> omega

theorem geo1 (hc : 1 ≤ c) (g : Geo f T (2 * c) x y) (hx : x + 2 * c < f.bw) : Geo f T c (x + 2 * c) y := by
  obtain ⟨g1, g2, g3, g4, g5, g6, g7, g8, g9, g10, g11, g12⟩ := g
  refine ⟨?_, ?_, ?_, ?_, ?_, ?_, ?_, ?_, ?_, ?_, ?_, ?_⟩ <;> omega

theorem geo2 (hc : 1 ≤ c) (g : Geo f T (2 * c) x y) (hy : y + 2 * c < f.bh) : Geo f T c x (y + 2 * c) := by
  obtain ⟨g1, g2, g3, g4, g5, g6, g7, g8, g9, g10, g11, g12⟩ := g
  refine ⟨?_, ?_, ?_, ?_, ?_, ?_, ?_, ?_, ?_, ?_, ?_, ?_⟩ <;> omega

theorem geo3 (hc : 1 ≤ c) (g : Geo f T (2 * c) x y) (hx : x + 2 * c < f.bw) (hy : y + 2 * c < f.bh) : Geo f T c (x + 2 * c) (y + 2 * c) := by
  obtain ⟨g1, g2, g3, g4, g5, g6, g7, g8, g9, g10, g11, g12⟩ := g
  refine ⟨?_, ?_, ?_, ?_, ?_, ?_, ?_, ?_, ?_, ?_, ?_, ?_⟩ <;> omega

theorem pre0 (hc : 1 ≤ c) (p : Pre f T (2 * c) x y (tn = 1) (bn = 1) st) : Pre f T c x y True True st := by
  refine ⟨?_, ?_, p.ok, ?_, ?_⟩
  · intro a b ht h1 h2 h3 h4
    rw [p.ring a b ht h1 (by omega) h3 (by omega)]
    simp only [Ring, or_true, or_false, and_true]; omega
  · intro a b h
    exact p.free a b (by unfold Sq at h ⊢; omega)
  · intro i h1 h2 h3
    exact p.ctxA i h1 (by omega) h3
  · intro i h1 h2 h3
    exact p.ctxL i h1 (by omega) h3

theorem pre1 (hc : 1 ≤ c) (g : Geo f T (2 * c) x y) (hx : x + 2 * c < f.bw)
    (p : Pre f T (2 * c) x y (tn = 1) (bn = 1) st) (p0 : Post f T c x y st s0) : Pre f T c (x + 2 * c) y (tn = 1) False s0 := by
  obtain ⟨g1, g2, g3, g4, g5, g6, g7, g8, g9, g10⟩ := g
  refine ⟨?_, ?_, p0.ok, ?_, ?_⟩
  · intro a b ht h1 h2 h3 h4
    rw [p0.iff ht, p.ring a b ht (by omega) (by omega) h3 (by omega)]
    simp only [Ring, Sq, or_true, or_false, and_true]; omega
  · intro a b h hd
    unfold Sq at h
    rcases p0.within a b hd with hd | hd
    · exact p.free a b (by unfold Sq; omega) hd
    · unfold Sq at hd; omega
  · intro i h1 h2 h3
    exact p0.descA (p.ctxA i (by omega) (by omega) h3) (by omega) (by unfold Sq; omega)
  · intro i h1 h2 h3
    exact p0.ctxL i h1 h2 h3 (by omega)

theorem pre2 (hc : c = 1 ∨ c = 2 ∨ c = 4 ∨ c = 8) (hy4 : y % (4 * c) = 0) (g : Geo f T (2 * c) x y) (hx : x + 2 * c < f.bw) (hy : y + 2 * c < f.bh)
    (p : Pre f T (2 * c) x y (tn = 1) (bn = 1) st) (p0 : Post f T c x y st s0) (p1 : Post f T c (x + 2 * c) y s0 s1) :
    Pre f T c x (y + 2 * c) True (bn = 1) s1 := by
  have hc1 : 1 ≤ c := by omega
  obtain ⟨g1, g2, g3, g4, g5, g6, g7, g8, g9, g10⟩ := g
  refine ⟨?_, ?_, p1.ok, ?_, ?_⟩
  · intro a b ht h1 h2 h3 h4
    rw [p1.iff ht, p0.iff ht, p.ring a b ht (by omega) (by omega) (by omega) (by omega)]
    clear hc
    simp only [Ring, Sq, or_true, or_false, and_true]; omega
  · intro a b h hd
    unfold Sq at h
    rcases p1.within a b hd with hd | hd
    · rcases p0.within a b hd with hd | hd
      · exact p.free a b (by unfold Sq; omega) hd
      · unfold Sq at hd; omega
    · unfold Sq at hd; omega
  · intro i h1 h2 h3
    exact p1.descA (p0.ctxA i (by omega) (by omega) h3 (by omega)) (by omega) (by unfold Sq; omega)
  · intro i h1 h2 h3
    exact p1.descL (p0.descL (p.ctxL i (by omega) (by omega) h3) (lower16 hc hy4 ⟨h1, h2⟩) (by unfold Sq; omega))
      (lower16 hc hy4 ⟨h1, h2⟩) (by unfold Sq; omega)

/-- The lower left node after the upper left one alone. -/
theorem pre2e (hc : c = 1 ∨ c = 2 ∨ c = 4 ∨ c = 8) (hy4 : y % (4 * c) = 0) (g : Geo f T (2 * c) x y) (hx : ¬ x + 2 * c < f.bw) (hy : y + 2 * c < f.bh)
    (p : Pre f T (2 * c) x y (tn = 1) (bn = 1) st) (p0 : Post f T c x y st s0) :
    Pre f T c x (y + 2 * c) True (bn = 1) s0 := by
  have hc1 : 1 ≤ c := by omega
  obtain ⟨g1, g2, g3, g4, g5, g6, g7, g8, g9, g10⟩ := g
  refine ⟨?_, ?_, p0.ok, ?_, ?_⟩
  · intro a b ht h1 h2 h3 h4
    rw [p0.iff ht, p.ring a b ht (by omega) (by omega) (by omega) (by omega)]
    clear hc
    unfold Tile.has at ht
    simp only [Ring, Sq, or_true, or_false, and_true]; omega
  · intro a b h hd
    unfold Sq at h
    rcases p0.within a b hd with hd | hd
    · exact p.free a b (by unfold Sq; omega) hd
    · unfold Sq at hd; omega
  · intro i h1 h2 h3
    exact p0.ctxA i (by omega) (by omega) h3 (by omega)
  · intro i h1 h2 h3
    exact p0.descL (p.ctxL i (by omega) (by omega) h3) (lower16 hc hy4 ⟨h1, h2⟩) (by unfold Sq; omega)

theorem pre3 (hc : c = 1 ∨ c = 2 ∨ c = 4 ∨ c = 8) (hy4 : y % (4 * c) = 0) (g : Geo f T (2 * c) x y) (hx : x + 2 * c < f.bw) (hy : y + 2 * c < f.bh)
    (p : Pre f T (2 * c) x y (tn = 1) (bn = 1) st) (p0 : Post f T c x y st s0) (p1 : Post f T c (x + 2 * c) y s0 s1)
    (p2 : Post f T c x (y + 2 * c) s1 s2) : Pre f T c (x + 2 * c) (y + 2 * c) False False s2 := by
  have hc1 : 1 ≤ c := by omega
  obtain ⟨g1, g2, g3, g4, g5, g6, g7, g8, g9, g10⟩ := g
  refine ⟨?_, ?_, p2.ok, ?_, ?_⟩
  · intro a b ht h1 h2 h3 h4
    rw [p2.iff ht, p1.iff ht, p0.iff ht, p.ring a b ht (by omega) (by omega) (by omega) (by omega)]
    clear hc
    simp only [Ring, Sq, or_true, or_false, and_true]; omega
  · intro a b h hd
    unfold Sq at h
    rcases p2.within a b hd with hd | hd
    · rcases p1.within a b hd with hd | hd
      · rcases p0.within a b hd with hd | hd
        · exact p.free a b (by unfold Sq; omega) hd
        · unfold Sq at hd; omega
      · unfold Sq at hd; omega
    · unfold Sq at hd; omega
  · intro i h1 h2 h3
    exact p2.descA (p1.ctxA i (by omega) (by omega) h3 (by omega)) (by omega) (by unfold Sq; omega)
  · intro i h1 h2 h3
    exact p2.ctxL i (by omega) (by omega) h3 (by omega)

theorem mod32 (hc : c = 1 ∨ c = 2 ∨ c = 4 ∨ c = 8) (hy4 : y % (4 * c) = 0) : (y + 2 * c) % 32 = y % 32 + 2 * c := by
  rcases hc with rfl | rfl | rfl | rfl <;> omega

theorem post4 (hc : c = 1 ∨ c = 2 ∨ c = 4 ∨ c = 8) (hy4 : y % (4 * c) = 0) (g : Geo f T (2 * c) x y) (hx : x + 2 * c < f.bw) (hy : y + 2 * c < f.bh)
    (p0 : Post f T c x y st s0) (p1 : Post f T c (x + 2 * c) y s0 s1)
    (p2 : Post f T c x (y + 2 * c) s1 s2) (p3 : Post f T c (x + 2 * c) (y + 2 * c) s2 s3) : Post f T (2 * c) x y st s3 := by
  have hc1 : 1 ≤ c := by omega
  have hm := mod32 hc hy4
  obtain ⟨g1, g2, g3, g4, g5, g6, g7, g8, g9, g10⟩ := g
  refine ⟨?_, ?_, ?_, p3.ok, ?_, ?_, ?_, ?_⟩
  · obtain ⟨n0, h0⟩ := p0.ext
    obtain ⟨n1, h1⟩ := p1.ext
    obtain ⟨n2, h2⟩ := p2.ext
    obtain ⟨n3, h3⟩ := p3.ext
    exact ⟨n0 ++ n1 ++ n2 ++ n3, by rw [h3, h2, h1, h0]; simp⟩
  · intro a b hd
    rcases p3.within a b hd with hd | hd
    · rcases p2.within a b hd with hd | hd
      · rcases p1.within a b hd with hd | hd
        · rcases p0.within a b hd with hd | hd
          · exact .inl hd
          · exact .inr (by unfold Sq at hd ⊢; omega)
        · exact .inr (by unfold Sq at hd ⊢; omega)
      · exact .inr (by unfold Sq at hd ⊢; omega)
    · exact .inr (by unfold Sq at hd ⊢; omega)
  · intro a b ht hs
    rw [p3.iff ht, p2.iff ht, p1.iff ht, p0.iff ht]
    clear hc
    have : Sq x y c a b ∨ Sq (x + 2 * c) y c a b ∨ Sq x (y + 2 * c) c a b ∨ Sq (x + 2 * c) (y + 2 * c) c a b := by
      unfold Sq at hs ⊢; omega
    rcases this with h | h | h | h <;> simp [h]
  · intro i hi
    rw [p3.sameA i (by omega), p2.sameA i (by omega), p1.sameA i (by omega), p0.sameA i (by omega)]
  · intro i hi
    rw [p3.sameL i (by omega), p2.sameL i (by omega), p1.sameL i (by omega), p0.sameL i (by omega)]
  · intro i h1 h2 h3 h4
    have e : y + 2 * c + 2 * c = y + 2 * (2 * c) := by omega
    by_cases hi : i < x / 2 + c
    · have := p2.ctxA i h1 hi h3 (by omega)
      rw [e] at this
      exact p3.descA this (by omega) (by unfold Sq; omega)
    · have := p3.ctxA i (by omega) (by omega) h3 (by omega)
      rw [e] at this
      exact this
  · intro i h1 h2 h3 h4
    have e : x + 2 * c + 2 * c = x + 2 * (2 * c) := by omega
    by_cases hi : i < y / 2 + c
    · have := p1.ctxL i h1 hi h3 (by omega)
      rw [e] at this
      exact p3.descL (p2.descL this (upper16 hc hy4 ⟨h1, hi⟩) (by unfold Sq; omega)) (upper16 hc hy4 ⟨h1, hi⟩) (by unfold Sq; omega)
    · have := p3.ctxL i (by omega) (by omega) h3 (by omega)
      rw [e] at this
      exact this

/-- The upper two nodes at the bottom edge of the frame. -/
theorem postT (hc : c = 1 ∨ c = 2 ∨ c = 4 ∨ c = 8) (hy4 : y % (4 * c) = 0) (g : Geo f T (2 * c) x y) (hx : x + 2 * c < f.bw) (hy : ¬ y + 2 * c < f.bh)
    (p0 : Post f T c x y st s0) (p1 : Post f T c (x + 2 * c) y s0 s1) : Post f T (2 * c) x y st s1 := by
  have hc1 : 1 ≤ c := by omega
  have hm := mod32 hc hy4
  obtain ⟨g1, g2, g3, g4, g5, g6, g7, g8, g9, g10⟩ := g
  refine ⟨?_, ?_, ?_, p1.ok, ?_, ?_, ?_, ?_⟩
  · obtain ⟨n0, h0⟩ := p0.ext
    obtain ⟨n1, h1⟩ := p1.ext
    exact ⟨n0 ++ n1, by rw [h1, h0]; simp⟩
  · intro a b hd
    rcases p1.within a b hd with hd | hd
    · rcases p0.within a b hd with hd | hd
      · exact .inl hd
      · exact .inr (by unfold Sq at hd ⊢; omega)
    · exact .inr (by unfold Sq at hd ⊢; omega)
  · intro a b ht hs
    rw [p1.iff ht, p0.iff ht]
    have : Sq x y c a b ∨ Sq (x + 2 * c) y c a b := by
      unfold Tile.has at ht
      unfold Sq at hs ⊢; omega
    rcases this with h | h <;> simp [h]
  · intro i hi
    rw [p1.sameA i (by omega), p0.sameA i (by omega)]
  · intro i hi
    rw [p1.sameL i (by omega), p0.sameL i (by omega)]
  · intro i h1 h2 h3 h4
    omega
  · intro i h1 h2 h3 h4
    have e : x + 2 * c + 2 * c = x + 2 * (2 * c) := by omega
    have := p1.ctxL i h1 (by omega) h3 (by omega)
    rw [e] at this
    exact this

/-- The left two nodes at the right edge of the frame. -/
theorem postL (hc : c = 1 ∨ c = 2 ∨ c = 4 ∨ c = 8) (hy4 : y % (4 * c) = 0) (g : Geo f T (2 * c) x y) (hx : ¬ x + 2 * c < f.bw) (hy : y + 2 * c < f.bh)
    (p0 : Post f T c x y st s0) (p2 : Post f T c x (y + 2 * c) s0 s1) : Post f T (2 * c) x y st s1 := by
  have hc1 : 1 ≤ c := by omega
  have hm := mod32 hc hy4
  obtain ⟨g1, g2, g3, g4, g5, g6, g7, g8, g9, g10⟩ := g
  refine ⟨?_, ?_, ?_, p2.ok, ?_, ?_, ?_, ?_⟩
  · obtain ⟨n0, h0⟩ := p0.ext
    obtain ⟨n1, h1⟩ := p2.ext
    exact ⟨n0 ++ n1, by rw [h1, h0]; simp⟩
  · intro a b hd
    rcases p2.within a b hd with hd | hd
    · rcases p0.within a b hd with hd | hd
      · exact .inl hd
      · exact .inr (by unfold Sq at hd ⊢; omega)
    · exact .inr (by unfold Sq at hd ⊢; omega)
  · intro a b ht hs
    rw [p2.iff ht, p0.iff ht]
    have : Sq x y c a b ∨ Sq x (y + 2 * c) c a b := by
      unfold Tile.has at ht
      unfold Sq at hs ⊢; omega
    rcases this with h | h <;> simp [h]
  · intro i hi
    rw [p2.sameA i (by omega), p0.sameA i (by omega)]
  · intro i hi
    rw [p2.sameL i (by omega), p0.sameL i (by omega)]
  · intro i h1 h2 h3 h4
    have e : y + 2 * c + 2 * c = y + 2 * (2 * c) := by omega
    have := p2.ctxA i (by omega) (by omega) h3 (by omega)
    rw [e] at this
    exact this
  · intro i h1 h2 h3 h4
    omega

/-- The upper left node at the bottom right corner of the frame. -/
theorem post1 (hc : c = 1 ∨ c = 2 ∨ c = 4 ∨ c = 8) (g : Geo f T (2 * c) x y) (hx : ¬ x + 2 * c < f.bw) (hy : ¬ y + 2 * c < f.bh)
    (p0 : Post f T c x y st s0) : Post f T (2 * c) x y st s0 := by
  have hc1 : 1 ≤ c := by omega
  obtain ⟨g1, g2, g3, g4, g5, g6, g7, g8, g9, g10⟩ := g
  refine ⟨p0.ext, ?_, ?_, p0.ok, ?_, ?_, ?_, ?_⟩
  · intro a b hd
    rcases p0.within a b hd with hd | hd
    · exact .inl hd
    · exact .inr (by unfold Sq at hd ⊢; omega)
  · intro a b ht hs
    rw [p0.iff ht]
    right
    unfold Tile.has at ht
    unfold Sq at hs ⊢; omega
  · intro i hi
    rw [p0.sameA i (by omega)]
  · intro i hi
    rw [p0.sameL i (by omega)]
  · intro i h1 h2 h3 h4
    omega
  · intro i h1 h2 h3 h4
    omega
end

/-! ## All nodes -/

/-- The outcome is no undefined behaviour, and what is to hold afterwards holds. -/
def Fine (r : Res σ) (P : St σ → Prop) : Prop := r = .err ∨ ∃ st, r = .ok st ∧ P st

theorem Fine.bind {r : Res σ} {g : St σ → Res σ} {P Q : St σ → Prop} (h : Fine r P) (hg : ∀ st, P st → Fine (g st) Q) : Fine (r.bind g) Q := by
  rcases h with h | ⟨st, h, hp⟩
  · left; rw [h]; rfl
  · rw [h]; exact hg st hp

theorem Fine.mono {r : Res σ} {P Q : St σ → Prop} (h : Fine r P) (hg : ∀ st, P st → Q st) : Fine r Q :=
  h.imp id fun ⟨st, h1, h2⟩ => ⟨st, h1, hg st h2⟩

theorem setCtx3 {f : Frame} {k hsz x y : Nat} (st : St σ) : setCtx f (4 - (k + 1)) 3 hsz x y st = .ok st := by
  unfold setCtx
  rw [if_neg]; omega

theorem readPart_ok (S : Src σ) {f : Frame} (hpass : f.pass ≠ 2) (bl x y : Nat) (st : St σ) :
    readPart S f bl x y st = none ∨ ∃ bp s, (S.part st.src bl (partCtx st bl x y)).1 = bp ∧
      ¬ (f.i422 = true ∧ (bp = 2 ∨ bp = 9 ∨ bp = 6 ∨ bp = 7)) ∧ readPart S f bl x y st = some (bp, rd st s bl (partCtx st bl x y) x y) := by
  unfold readPart
  rw [if_neg hpass]
  dsimp only
  split
  · exact .inl rfl
  · rename_i h
    exact .inr ⟨_, _, rfl, h, rfl⟩

theorem sb_ok (S : Src σ) (hS : ∀ s bl ctx, (S.part s bl ctx).1 ≤ typeCount bl) {f : Frame} {T : Tile} (hpass : f.pass ≠ 2) :
    ∀ k, k ≤ 4 → ∀ (tr bl : Bool) (x y : Nat) (st : St σ), y % (2 * 2 ^ k) = 0 → Geo f T (2 ^ k) x y →
      Pre f T (2 ^ k) x y (tr = true) (bl = true) st →
      Fine (decodeSb S f k (initNode k tr bl) x y st) (Post f T (2 ^ k) x y st)
  | 0, hk, tr, bl, x, y, st, hy2, hg, hp => by
    unfold decodeSb
    have hx : x + 2 ^ 0 < f.bw := by
      have := hg.x1; have := hg.xl; have := hg.evx; have := hg.bw; rw [Nat.pow_zero] at *; omega
    have hy : y + 2 ^ 0 < f.bh := by
      have := hg.y1; have := hg.yl; have := hg.evy; have := hg.bh; rw [Nat.pow_zero] at *; omega
    rw [if_pos ⟨hx, hy⟩]
    rcases readPart_ok S hpass 4 x y st with h | ⟨bp, s, hb1, hb2, h⟩
    · rw [h]; exact .inl rfl
    · rw [h]
      dsimp only
      have hp' := hp.rd hk hg s
      have h1 : bp ≤ typeCount (4 - 0) := by rw [← hb1]; exact hS _ _ _
      obtain ⟨cs, wa, ha, h2, h3, h4, h5⟩ := leafCalls_ok hk tr bl hg hp'.rel hx hy h1 (.inr rfl) hb2
      have h2' : leafCalls f (initNode 0 tr bl) 4 bp 1 x y = some cs := h2
      rw [h2']
      dsimp only
      have := leaf_post hk hy2 hg hp' hpass S h3 (.inr rfl) h4 h5
      exact Fine.mono this fun _ h => h.rd
  | k + 1, hk, tr, bl, x, y, st, hy2, hg, hp => by
    obtain ⟨n, h4, v4, c0, c1, c2, c3, he, q4, q5, e0, e1, e2, e3⟩ := branchBits k tr bl
    have hn := nodeBits (k + 1) tr bl
    have hc : 2 ^ k = 1 ∨ 2 ^ k = 2 ∨ 2 ^ k = 4 ∨ 2 ^ k = 8 := by
      have : k = 0 ∨ k = 1 ∨ k = 2 ∨ k = 3 := by omega
      rcases this with rfl | rfl | rfl | rfl <;> decide
    have hc1 : 1 ≤ 2 ^ k := by omega
    have h2k : 2 ^ (k + 1) = 2 * 2 ^ k := by rw [Nat.pow_succ, Nat.mul_comm]
    have hy4 : y % (4 * 2 ^ k) = 0 := by rw [h2k] at hy2; rw [← hy2]; congr 1; omega
    have hyc : y % (2 * 2 ^ k) = 0 := by rcases hc with h | h | h | h <;> rw [h] at hy4 ⊢ <;> omega
    have hyc' : (y + 2 * 2 ^ k) % (2 * 2 ^ k) = 0 := by rw [Nat.add_mod_right]; exact hyc
    have ih := sb_ok S hS (f := f) (T := T) hpass k (by omega)
    have hlf := fun (s : σ) => leafCalls_ok (f := f) (T := T) (bp := (S.part st.src (4 - (k + 1)) (partCtx st (4 - (k + 1)) x y)).1)
      hk tr bl hg (hp.rd hk hg s).rel
    rw [he] at hlf hn ⊢
    unfold decodeSb
    dsimp only
    by_cases hx : f.bw > x + 2 ^ (k + 1)
    · rw [if_pos hx]
      by_cases hy : f.bh > y + 2 ^ (k + 1)
      · rw [if_pos hy]
        rcases readPart_ok S hpass (4 - (k + 1)) x y st with h | ⟨bp, s, hb1, hb2, h⟩
        · rw [h]; exact .inl rfl
        · rw [h]
          dsimp only
          have hp' := hp.rd hk hg s
          have h1 : bp ≤ typeCount (4 - (k + 1)) := by rw [← hb1]; exact hS _ _ _
          by_cases hb3 : bp = 3
          · rw [if_pos hb3]
            refine Fine.mono ?_ fun _ h => Post.rd (s := s) (bl := 4 - (k + 1)) (ctx := partCtx st (4 - (k + 1)) x y) (x' := x) (y' := y) h
            simp only [toNat1 tr, toNat1 bl] at hp'
            rw [h2k] at hx hy hg hp' ⊢
            rw [e0, e1, e2, e3]
            refine (ih true true x y _ hyc (geo0 hc1 hg) ((pre0 hc1 hp').congr (by simp) (by simp))).bind fun s0 p0 => ?_
            refine (ih tr false _ y _ hyc (geo1 hc1 hg hx) ((pre1 hc1 hg hx hp' p0).congr (by rw [toNat1]) (by simp))).bind fun s1 p1 => ?_
            refine (ih true bl x _ _ hyc' (geo2 hc1 hg hy) ((pre2 hc hy4 hg hx hy hp' p0 p1).congr (by simp) (by rw [toNat1]))).bind fun s2 p2 => ?_
            refine (ih false false _ _ _ hyc' (geo3 hc1 hg hx hy) ((pre3 hc hy4 hg hx hy hp' p0 p1 p2).congr (by simp) (by simp))).bind fun s3 p3 => ?_
            rw [setCtx3]
            exact .inr ⟨s3, rfl, post4 hc hy4 hg hx hy p0 p1 p2 p3⟩
          · rw [if_neg hb3]
            obtain ⟨cs, wa, ha, h2, h3, h4, h5⟩ := hlf s hx hy (by rw [hb1]; exact h1) (.inl (by rw [hb1]; exact hb3)) (by rw [hb1]; exact hb2)
            rw [hb1] at h2 h4 h5
            rw [h2]
            have := leaf_post hk hy2 hg hp' hpass S h3 (.inl hb3) h4 h5
            exact Fine.mono this fun _ h => h.rd
      · rw [if_neg hy]
        unfold readTop
        rw [if_neg hpass]
        dsimp only
        have hp' := hp.rd hk hg (S.top st.src (4 - (k + 1)) (partCtx st (4 - (k + 1)) x y)).2
        by_cases hs : (S.top st.src (4 - (k + 1)) (partCtx st (4 - (k + 1)) x y)).1 = true
        · rw [if_pos hs]
          refine Fine.mono ?_ fun _ h => Post.rd (s := (S.top st.src (4 - (k + 1)) (partCtx st (4 - (k + 1)) x y)).2)
            (bl := 4 - (k + 1)) (ctx := partCtx st (4 - (k + 1)) x y) (x' := x) (y' := y) h
          simp only [toNat1 tr, toNat1 bl] at hp'
          rw [h2k] at hx hy hg hp' ⊢
          rw [e0, e1]
          refine (ih true true x y _ hyc (geo0 hc1 hg) ((pre0 hc1 hp').congr (by simp) (by simp))).bind fun s0 p0 => ?_
          refine (ih tr false _ y _ hyc (geo1 hc1 hg hx) ((pre1 hc1 hg hx hp' p0).congr (by rw [toNat1]) (by simp))).bind fun s1 p1 => ?_
          rw [setCtx3]
          exact .inr ⟨s1, rfl, postT hc hy4 hg hx hy p0 p1⟩
        · rw [if_neg hs]
          have hr := hp'.rel
          simp only [toNat1 tr, toNat1 bl] at hr hn
          have hd := dims (k + 1) hk
          have := leaf_post hk hy2 hg hp' hpass S (leaf1e (l := 4 - (k + 1)) hg hr hn (by rw [h2k]; omega) hx hy hd.2.1.1 hd.2.1.2) (.inl (by decide))
            (fun j hj => (ctxTab (k + 1) hk j hj).2.1.1) (fun j hj => (ctxTab (k + 1) hk j hj).2.1.2)
          exact Fine.mono this fun _ h => h.rd
    · rw [if_neg hx]
      by_cases hy : f.bh > y + 2 ^ (k + 1)
      · rw [if_pos hy]
        unfold readLeft
        rw [if_neg hpass]
        dsimp only
        by_cases hi : f.i422 = true ∧ (S.left st.src (4 - (k + 1)) (partCtx st (4 - (k + 1)) x y)).1 = false
        · rw [if_pos hi]; exact .inl rfl
        rw [if_neg hi]
        dsimp only
        have hp' := hp.rd hk hg (S.left st.src (4 - (k + 1)) (partCtx st (4 - (k + 1)) x y)).2
        by_cases hs : (S.left st.src (4 - (k + 1)) (partCtx st (4 - (k + 1)) x y)).1 = true
        · rw [if_pos hs]
          refine Fine.mono ?_ fun _ h => Post.rd (s := (S.left st.src (4 - (k + 1)) (partCtx st (4 - (k + 1)) x y)).2)
            (bl := 4 - (k + 1)) (ctx := partCtx st (4 - (k + 1)) x y) (x' := x) (y' := y) h
          simp only [toNat1 tr, toNat1 bl] at hp'
          rw [h2k] at hx hy hg hp' ⊢
          rw [e0, e2]
          refine (ih true true x y _ hyc (geo0 hc1 hg) ((pre0 hc1 hp').congr (by simp) (by simp))).bind fun s0 p0 => ?_
          refine (ih true bl x _ _ hyc' (geo2 hc1 hg hy) ((pre2e hc hy4 hg hx hy hp' p0).congr (by simp) (by rw [toNat1]))).bind fun s1 p1 => ?_
          rw [setCtx3]
          exact .inr ⟨s1, rfl, postL hc hy4 hg hx hy p0 p1⟩
        · rw [if_neg hs]
          have hr := hp'.rel
          simp only [toNat1 tr, toNat1 bl] at hr hn
          have hd := dims (k + 1) hk
          have hni : ¬ f.i422 = true := fun h => hi ⟨h, by simpa using hs⟩
          have := leaf_post hk hy2 hg hp' hpass S (leaf2e (l := 4 - (k + 1)) hg hr hn (by rw [h2k]; omega) hx hy hd.2.2.1 hd.2.2.2 hni) (.inl (by decide))
            (fun j hj => (ctxTab (k + 1) hk j hj).2.2.1) (fun j hj => (ctxTab (k + 1) hk j hj).2.2.2)
          exact Fine.mono this fun _ h => h.rd
      · rw [if_neg hy]
        simp only [toNat1 tr, toNat1 bl] at hp
        rw [h2k] at hx hy hg hp ⊢
        rw [e0]
        exact (ih true true x y _ hyc (geo0 hc1 hg) ((pre0 hc1 hp).congr (by simp) (by simp))).mono fun s0 p0 => post1 hc hg hx hy p0

end Dav1d.Part
