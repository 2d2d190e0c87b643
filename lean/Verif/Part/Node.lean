import Verif.Part.Leaf
/-!
# decode_sb keeps the invariants
-/
namespace Dav1d.Part
variable {σ : Type}

/-! ## The blocks of a node inside the frame -/

theorem toNat1 (b : Bool) : (b = true) = (b.toNat = 1) := by cases b <;> simp

theorem pow_cases (k : Nat) : 2 ^ k = 1 ∨ (2 ≤ 2 ^ k ∧ 2 ^ k % 2 = 0) := by
  cases k with
  | zero => exact .inl rfl
  | succ k =>
    have := Nat.pow_pos (n := k) (show 0 < 2 by decide)
    rw [Nat.pow_succ]; omega

theorem leafCalls_ok {f : Frame} {T : Tile} {k x y bp : Nat} (hk : k ≤ 4) (tr bl : Bool) {log : List Ev} (hg : Geo f T (2 ^ k) x y)
    (hr : Rel T (2 ^ k) x y log (Ring x y (2 ^ k) (tr = true) (bl = true))) (hx : x + 2 ^ k < f.bw) (hy : y + 2 ^ k < f.bh)
    (hbp : bp ≤ typeCount (4 - k)) (h3 : bp ≠ 3 ∨ k = 0) (hi : ¬ (f.i422 = true ∧ (bp = 2 ∨ bp = 9 ∨ bp = 6 ∨ bp = 7))) :
    ∃ cs wa ha, leafCalls f (initNode k tr bl) (4 - k) bp (2 ^ k) x y = some cs ∧ Leaf f T (2 ^ k) x y log cs wa ha ∧
      (∀ j, j < 5 → ((alPart 0 (4 - k) bp).testBit j = true ↔ wa < 2 ^ (j + 1))) ∧
      (∀ j, j < 5 → ((alPart 1 (4 - k) bp).testBit j = true ↔ ha < 2 ^ (j + 1))) := by
  have hn := nodeBits k tr bl
  have hT := tipBits tr bl
  have hB := fun k => branchBits k tr bl
  simp only [toNat1 tr, toNat1 bl] at hr hn hT hB
  have hd := dims k hk
  have hp := pow_cases k
  have h9 : bp ≤ 9 := by
    have : ∀ j ≤ 4, typeCount (4 - j) ≤ 9 := by decide
    exact Nat.le_trans hbp (this k hk)
  have hk0 : k = 0 → bp ≤ 3 := by intro h; subst h; exact hbp
  have hk4 : k = 4 → bp ≤ 7 := by intro h; subst h; exact hbp
  have hbps : bp = 0 ∨ bp = 1 ∨ bp = 2 ∨ bp = 3 ∨ bp = 4 ∨ bp = 5 ∨ bp = 6 ∨ bp = 7 ∨ bp = 8 ∨ bp = 9 := by omega
  have hp2 : 1 ≤ k → 2 ≤ 2 ^ k ∧ 2 ^ k % 2 = 0 := by
    intro h
    refine hp.resolve_left fun h2 => ?_
    have : k = k - 1 + 1 := by omega
    rw [this, Nat.pow_succ] at h2
    omega
  have hni : (bp = 2 ∨ bp = 9 ∨ bp = 6 ∨ bp = 7) → ¬ f.i422 = true := fun h h' => hi ⟨h', h⟩
  rcases hbps with rfl | rfl | rfl | rfl | rfl | rfl | rfl | rfl | rfl | rfl
  · exact ⟨_, _, _, by unfold leafCalls; rfl, leaf0 hg hr hn hp hd.1.1 hd.1.2,
      fun j hj => (ctxTab k hk j hj).1.1, fun j hj => (ctxTab k hk j hj).1.2⟩
  · exact ⟨_, _, _, by unfold leafCalls; rfl, leaf1 hg hr hn hp hx hy hd.2.1.1 hd.2.1.2,
      fun j hj => (ctxTab k hk j hj).2.1.1, fun j hj => (ctxTab k hk j hj).2.1.2⟩
  · exact ⟨_, _, _, by unfold leafCalls; rfl, leaf2 hg hr hn hp hx hy hd.2.2.1 hd.2.2.2 (hni (by omega)),
      fun j hj => (ctxTab k hk j hj).2.2.1, fun j hj => (ctxTab k hk j hj).2.2.2⟩
  · have hk0 : k = 0 := h3.resolve_left (fun h => h rfl)
    subst hk0
    obtain ⟨n, s0, s1, s2, he, q0, q1, q2⟩ := hT
    rw [he] at hn ⊢
    exact ⟨_, _, _, by unfold leafCalls; rfl, leaf3 hg hr hn rfl hx hy dimsS.1 dimsS.2 q0 q1 q2,
      fun j hj => (ctxTabS j hj).1, fun j hj => (ctxTabS j hj).2⟩
  · have h1 : 1 ≤ k := by omega
    have hd := dimsT k hk h1
    exact ⟨_, _, _, by unfold leafCalls; rfl, leaf4 hg hr hn (hp2 h1) hx hy hd.1.1 hd.1.2 hd.2.1.1 hd.2.1.2,
      fun j hj => (ctxTabT k hk h1 j hj).1.1, fun j hj => (ctxTabT k hk h1 j hj).1.2⟩
  · have h1 : 1 ≤ k := by omega
    have hd := (dimsT k hk h1).2.2
    exact ⟨_, _, _, by unfold leafCalls; rfl, leaf5 hg hr hn (hp2 h1) hx hy hd.1.1 hd.1.2 hd.2.1.1 hd.2.1.2,
      fun j hj => (ctxTabT k hk h1 j hj).2.1.1, fun j hj => (ctxTabT k hk h1 j hj).2.1.2⟩
  · have h1 : 1 ≤ k := by omega
    have hd := (dimsT k hk h1).2.2.2.2
    exact ⟨_, _, _, by unfold leafCalls; rfl, leaf6 hg hr hn (hp2 h1) hx hy hd.1.1 hd.1.2 hd.2.1.1 hd.2.1.2 (hni (by omega)),
      fun j hj => (ctxTabT k hk h1 j hj).2.2.1.1, fun j hj => (ctxTabT k hk h1 j hj).2.2.1.2⟩
  · have h1 : 1 ≤ k := by omega
    have hd := (dimsT k hk h1).2.2.2.2.2.2
    exact ⟨_, _, _, by unfold leafCalls; rfl, leaf7 hg hr hn (hp2 h1) hx hy hd.1.1 hd.1.2 hd.2.1 hd.2.2 (hni (by omega)),
      fun j hj => (ctxTabT k hk h1 j hj).2.2.2.1, fun j hj => (ctxTabT k hk h1 j hj).2.2.2.2⟩
  · have h1 : 1 ≤ k := by omega
    have hd := dims4 k (by omega) h1
    have hc := ctxTab4 k (by omega) h1
    obtain ⟨n, h4, v4, c0, c1, c2, c3, he, q4, q5, -⟩ := hB (k - 1)
    have hkk : k - 1 + 1 = k := by omega
    rw [hkk] at he q4
    rw [he] at hn ⊢
    have hq := hp2 h1
    have hq2 : 2 ^ k / 2 = 1 ∨ (2 ≤ 2 ^ k / 2 ∧ 2 ^ k / 2 % 2 = 0) := by
      have : ∀ j ≤ 4, 1 ≤ j → (2 ^ j / 2 = 1 ∨ (2 ≤ 2 ^ j / 2 ∧ 2 ^ j / 2 % 2 = 0)) := by
        intro j h1 h2
        have := pow_cases (j - 1)
        have hj : j = j - 1 + 1 := by omega
        rw [hj, Nat.pow_succ]; omega
      exact this k hk h1
    by_cases hb : y + 2 ^ k / 2 + 2 ^ k / 2 + 2 ^ k / 2 < f.bh
    · exact ⟨_, _, _, by unfold leafCalls; dsimp only; rw [if_pos hb]; rfl,
        leaf8 hg hr hn (by omega) hq2 hx hy hb hd.1.1 hd.1.2 q4, fun j hj => (hc j hj).1.1, fun j hj => (hc j hj).1.2⟩
    · exact ⟨_, _, _, by unfold leafCalls; dsimp only; rw [if_neg hb]; rfl,
        leaf8e hg hr hn (by omega) hq2 hx hy hb hd.1.1 hd.1.2 q4, fun j hj => (hc j hj).1.1, fun j hj => (hc j hj).1.2⟩
  · have h1 : 1 ≤ k := by omega
    have hd := dims4 k (by omega) h1
    have hc := ctxTab4 k (by omega) h1
    obtain ⟨n, h4, v4, c0, c1, c2, c3, he, q4, q5, -⟩ := hB (k - 1)
    have hkk : k - 1 + 1 = k := by omega
    rw [hkk] at he q5
    rw [he] at hn ⊢
    have hq := hp2 h1
    have hq2 : 2 ^ k / 2 = 1 ∨ (2 ≤ 2 ^ k / 2 ∧ 2 ^ k / 2 % 2 = 0) := by
      have := pow_cases (k - 1)
      have hj : k = k - 1 + 1 := by omega
      rw [hj, Nat.pow_succ]; omega
    by_cases hb : x + 2 ^ k / 2 + 2 ^ k / 2 + 2 ^ k / 2 < f.bw
    · exact ⟨_, _, _, by unfold leafCalls; dsimp only; rw [if_pos hb]; rfl,
        leaf9 hg hr hn (by omega) hq2 hx hy hb hd.2.1 hd.2.2 q5 (hni (by omega)), fun j hj => (hc j hj).2.1, fun j hj => (hc j hj).2.2⟩
    · exact ⟨_, _, _, by unfold leafCalls; dsimp only; rw [if_neg hb]; rfl,
        leaf9e hg hr hn (by omega) hq2 hx hy hb hd.2.1 hd.2.2 q5 (hni (by omega)), fun j hj => (hc j hj).2.1, fun j hj => (hc j hj).2.2⟩

/-! ## Reading a symbol -/

theorem cover_read (log : List Ev) (bl ctx x y a b : Nat) : coverOf (log ++ [.read bl ctx x y]) a b = coverOf log a b :=
  cover_stable fun h => (decoded_read _ _ _ _ _ _ _).1 h

/-- The state after a read. -/
def rd (st : St σ) (s : σ) (bl ctx x y : Nat) : St σ := { st with src := s, log := st.log ++ [.read bl ctx x y] }

theorem ctx_ok {f : Frame} {T : Tile} {k x y : Nat} (hk : k ≤ 4) {tr bl : Prop} {st : St σ} (hg : Geo f T (2 ^ k) x y)
    (hp : Pre f T (2 ^ k) x y tr bl st) : partCtx st (4 - k) x y = specCtx st.log (32 / 2 ^ (4 - k)) x y := by
  have hp1 : 0 < 2 ^ k := Nat.pow_pos (by decide)
  have ex := hg.evx
  have ey := hg.evy
  have gxl := hg.xl
  have gyl := hg.yl
  have hA := hp.ctxA (x / 2) (Nat.le_refl _) (by omega) (by omega) k (by omega)
  have hL := hp.ctxL (y / 2) (Nat.le_refl _) (by omega) (by omega) k (by omega)
  have h1 : 2 * (x / 2) = x := by omega
  have h2 : 2 * (y / 2) = y := by omega
  have h3 : y / 2 % 16 = y % 32 / 2 := by omega
  have h4 : 32 / 2 ^ (4 - k) = 2 ^ (k + 1) := by
    have : k = 0 ∨ k = 1 ∨ k = 2 ∨ k = 3 ∨ k = 4 := by omega
    rcases this with rfl | rfl | rfl | rfl | rfl <;> rfl
  have h5 : 4 - (4 - k) = k := by omega
  rw [h1] at hA
  rw [h2, h3] at hL
  have hbit : ∀ w : Nat, (w >>> k) % 2 = if w.testBit k = true then 1 else 0 := by
    intro w
    rw [Nat.testBit, Nat.and_comm, Nat.and_one_is_mod]
    split
    · rename_i h; simp only [bne_iff_ne] at h; omega
    · rename_i h; simp only [bne_iff_ne, ne_eq, Decidable.not_not] at h; exact h
  unfold partCtx specCtx
  rw [h4, h5, hbit, hbit]
  congr 1
  · by_cases hy0 : y = 0
    · rw [if_neg, if_pos hy0]
      rw [hA]; omega
    · rw [if_neg hy0]
      cases hc : coverOf st.log x (y - 1) with
      | none => rw [if_neg]; rw [hA, hc]; rintro ⟨_, c, h, _⟩; cases h
      | some c =>
        dsimp only
        by_cases hw : bsW c.bs < 2 ^ (k + 1)
        · rw [if_pos hw, if_pos]; rw [hA, hc]; exact ⟨by omega, c, rfl, hw⟩
        · rw [if_neg hw, if_neg]; rw [hA, hc]; rintro ⟨_, c, h, h'⟩; cases h; exact hw h'
  · congr 1
    by_cases hy0 : x = 0
    · rw [if_neg, if_pos hy0]
      rw [hL]; omega
    · rw [if_neg hy0]
      cases hc : coverOf st.log (x - 1) y with
      | none => rw [if_neg]; rw [hL, hc]; rintro ⟨_, c, h, _⟩; cases h
      | some c =>
        dsimp only
        by_cases hw : bsH c.bs < 2 ^ (k + 1)
        · rw [if_pos hw, if_pos]; rw [hL, hc]; exact ⟨by omega, c, rfl, hw⟩
        · rw [if_neg hw, if_neg]; rw [hL, hc]; rintro ⟨_, c, h, h'⟩; cases h; exact hw h'

theorem Pre.rd {f : Frame} {T : Tile} {k x y : Nat} (hk : k ≤ 4) {tr bl : Prop} {st : St σ} (hg : Geo f T (2 ^ k) x y)
    (hp : Pre f T (2 ^ k) x y tr bl st) (s : σ) : Pre f T (2 ^ k) x y tr bl (rd st s (4 - k) (partCtx st (4 - k) x y) x y) := by
  refine ⟨?_, ?_, hp.ok.snoc (ctx_ok hk hg hp), ?_, ?_⟩
  · intro a b h1 h2 h3 h4 h5
    exact (decoded_read _ _ _ _ _ _ _).trans (hp.ring a b h1 h2 h3 h4 h5)
  · intro a b h1 h2
    exact hp.free a b h1 ((decoded_read _ _ _ _ _ _ _).1 h2)
  · intro i h1 h2 h3 j hj
    have := hp.ctxA i h1 h2 h3 j hj
    dsimp only [Part.rd]
    rw [cover_read]
    exact this
  · intro i h1 h2 h3 j hj
    have := hp.ctxL i h1 h2 h3 j hj
    dsimp only [Part.rd]
    rw [cover_read]
    exact this

theorem Post.rd {f : Frame} {T : Tile} {h x y bl ctx x' y' : Nat} {st st' : St σ} {s : σ} (hp : Post f T h x y (rd st s bl ctx x' y') st') : Post f T h x y st st' := by
  obtain ⟨⟨new, hn⟩, h2, h3, h4, h5, h6, h7, h8⟩ := hp
  refine ⟨⟨.read bl ctx x' y' :: new, ?_⟩, ?_, h3, h4, h5, h6, h7, h8⟩
  · rw [hn]; simp [Part.rd]
  · intro a b hd
    rcases h2 a b hd with h | h
    · exact .inl ((decoded_read _ _ _ _ _ _ _).1 h)
    · exact .inr h

end Dav1d.Part
