import Verif.Dsp.FgScaling

/-!
# Film grain: a row of blocks gets the specified noise
-/
namespace Dav1d.Fg
open Dav1d

theorem rowSeed_eq (g : FilmGrainData) (n : Nat) : rowSeed g n = Spec.stripeSeed g n := by
  unfold rowSeed Spec.stripeSeed
  rw [show (0xFF : Nat) = 2 ^ 8 - 1 from rfl, Nat.and_two_pow_sub_one_eq_mod, Nat.and_two_pow_sub_one_eq_mod, Nat.shiftLeft_eq]

theorem stripeSeed_lt (g : FilmGrainData) (h : g.seed < 65536) (n : Nat) : Spec.stripeSeed g n < 65536 := by
  unfold Spec.stripeSeed
  exact xor_lt _ _ (xor_lt _ _ h (by omega)) (by omega)

theorem random_lt (bits seed n : Nat) : Spec.random bits seed n < 2 ^ bits := Nat.mod_lt _ (by positivity)

theorem sampleLut_eq (lut : Plane) (g : FilmGrainData) (sx sy : Nat) (hx : sx ≤ 1) (hy : sy ≤ 1) (n b bx by_ i j : Nat) :
    sampleLut lut (Spec.random 8 (Spec.stripeSeed g n) b) sx sy bx by_ (j : Int) (i : Int) =
      Spec.block g sx sy lut n b (i + Spec.blk sy * by_) (j + Spec.blk sx * bx) := by
  unfold sampleLut Spec.block Spec.blk
  dsimp only
  rw [show (0xF : Nat) = 2 ^ 4 - 1 from rfl, Nat.and_two_pow_sub_one_eq_mod]
  simp only [Nat.shiftRight_eq_div_pow]
  generalize Spec.random 8 (Spec.stripeSeed g n) b = v
  interval_cases sx <;> interval_cases sy <;> norm_num <;> congr 1 <;> ring

theorem mix_eq (d : Depth) (s : Nat) (hs : s ≤ 1) (j : Nat) (old new : Int) : mix d s (j : Int) old new = Spec.blend d.bpc s j old new := by
  unfold mix Spec.blend overlapW
  rw [iclip_eq, round2_eq]
  have e : old * (if s = 0 then if (j : Int) = 0 then ((27 : Int), (17 : Int)) else (17, 27) else (23, 22)).1 +
      new * (if s = 0 then if (j : Int) = 0 then ((27 : Int), (17 : Int)) else (17, 27) else (23, 22)).2 =
      if s = 1 then old * 23 + new * 22 else if j = 0 then old * 27 + new * 17 else old * 17 + new * 27 := by
    interval_cases s
    · by_cases h : j = 0
      · rw [if_pos rfl, if_pos (by omega), if_neg (by decide), if_pos h]
      · rw [if_pos rfl, if_neg (by omega), if_neg (by decide), if_neg h]
    · rfl
  rw [e]
  rfl

/-- The noise of a block, from the offsets of the code. -/
theorem grainAt_eq (d : Depth) (g : FilmGrainData) (lut : Plane) (sx sy : Nat) (hx : sx ≤ 1) (hy : sy ≤ 1) (row k i j bh bw : Nat)
    (hi : i < bh) (hj : j < bw) (hbh : bh ≤ Spec.blk sy) (hbw : bw ≤ Spec.blk sx) (o : Offs)
    (h1 : o.cur = Spec.random 8 (Spec.stripeSeed g row) k)
    (h2 : g.overlapFlag = true → k ≠ 0 → o.prev = Spec.random 8 (Spec.stripeSeed g row) (k - 1))
    (h3 : g.overlapFlag = true → row ≠ 0 → o.curUp = Spec.random 8 (Spec.stripeSeed g (row - 1)) k)
    (h4 : g.overlapFlag = true → row ≠ 0 → k ≠ 0 → o.prevUp = Spec.random 8 (Spec.stripeSeed g (row - 1)) (k - 1)) :
    grainAt d lut o sx sy (if g.overlapFlag = true ∧ k * (32 >>> sx) ≠ 0 then min (2 >>> sx) bw else 0)
      (if g.overlapFlag = true ∧ row ≠ 0 then min (2 >>> sy) bh else 0) (j : Int) (i : Int) =
    Spec.image d.bpc g sx sy lut (row * Spec.blk sy + i) (k * Spec.blk sx + j) := by
  have bx : 0 < Spec.blk sx := by interval_cases sx <;> decide
  have byy : 0 < Spec.blk sy := by interval_cases sy <;> decide
  have eb : 32 >>> sx = Spec.blk sx := by rw [Nat.shiftRight_eq_div_pow]; rfl
  have ex : 2 >>> sx = 2 / 2 ^ sx := by rw [Nat.shiftRight_eq_div_pow]
  have ey : 2 >>> sy = 2 / 2 ^ sy := by rw [Nat.shiftRight_eq_div_pow]
  have dx : (k * Spec.blk sx + j) / Spec.blk sx = k := by
    rw [Nat.mul_comm, Nat.mul_add_div bx, Nat.div_eq_of_lt (by omega), Nat.add_zero]
  have mx : (k * Spec.blk sx + j) % Spec.blk sx = j := by
    rw [Nat.mul_comm, Nat.mul_add_mod, Nat.mod_eq_of_lt (by omega)]
  have dy : (row * Spec.blk sy + i) / Spec.blk sy = row := by
    rw [Nat.mul_comm, Nat.mul_add_div byy, Nat.div_eq_of_lt (by omega), Nat.add_zero]
  have my : (row * Spec.blk sy + i) % Spec.blk sy = i := by
    rw [Nat.mul_comm, Nat.mul_add_mod, Nat.mod_eq_of_lt (by omega)]
  have hk : k * (32 >>> sx) ≠ 0 ↔ k ≠ 0 := by
    rw [eb]
    constructor
    · rintro h rfl
      exact h (Nat.zero_mul _)
    · intro h hc
      rcases Nat.mul_eq_zero.mp hc with h' | h' <;> omega
  rw [ex, ey]
  unfold Spec.image Spec.stripe
  dsimp only
  rw [dx, mx, dy, my]
  unfold grainAt
  -- the four parts
  by_cases hov : g.overlapFlag = true
  · by_cases hr : row = 0
    · have e1 : ¬(g.overlapFlag = true ∧ row ≠ 0) := fun h => h.2 hr
      rw [if_neg e1, if_pos (show ((0 : Nat) : Int) ≤ i by omega), if_neg (show ¬(g.overlapFlag = true ∧ row > 0 ∧ i < 2 / 2 ^ sy) by omega)]
      by_cases hk0 : k = 0
      · have e2 : ¬(g.overlapFlag = true ∧ k * (32 >>> sx) ≠ 0) := fun h => hk.mp h.2 hk0
        rw [if_neg e2, if_pos (show ((0 : Nat) : Int) ≤ j by omega),
          if_neg (show ¬(g.overlapFlag = true ∧ k > 0 ∧ j < 2 / 2 ^ sx) by omega), h1, sampleLut_eq lut g sx sy hx hy]
        rfl
      · have e2 : g.overlapFlag = true ∧ k * (32 >>> sx) ≠ 0 := ⟨hov, hk.mpr hk0⟩
        rw [if_pos e2]
        by_cases hs : j < 2 / 2 ^ sx
        · rw [if_neg (show ¬((min (2 / 2 ^ sx) bw : Nat) : Int) ≤ j by omega),
            if_pos (show g.overlapFlag = true ∧ k > 0 ∧ j < 2 / 2 ^ sx from ⟨hov, by omega, hs⟩), h1, h2 hov hk0, sampleLut_eq lut g sx sy hx hy,
            sampleLut_eq lut g sx sy hx hy, mix_eq d sx hx]
          simp only [Nat.mul_zero, Nat.add_zero, Nat.mul_one]
        · rw [if_pos (show ((min (2 / 2 ^ sx) bw : Nat) : Int) ≤ j by omega),
            if_neg (show ¬(g.overlapFlag = true ∧ k > 0 ∧ j < 2 / 2 ^ sx) by omega), h1, sampleLut_eq lut g sx sy hx hy]
          rfl
    · have e1 : g.overlapFlag = true ∧ row ≠ 0 := ⟨hov, hr⟩
      rw [if_pos e1]
      by_cases hi2 : i < 2 / 2 ^ sy
      · rw [if_neg (show ¬((min (2 / 2 ^ sy) bh : Nat) : Int) ≤ i by omega),
          if_pos (show g.overlapFlag = true ∧ row > 0 ∧ i < 2 / 2 ^ sy from ⟨hov, by omega, hi2⟩)]
        by_cases hk0 : k = 0
        · have e2 : ¬(g.overlapFlag = true ∧ k * (32 >>> sx) ≠ 0) := fun h => hk.mp h.2 hk0
          have e3 : ¬(g.overlapFlag = true ∧ k > 0 ∧ j < 2 / 2 ^ sx) := by omega
          rw [if_neg e2, if_pos (show ((0 : Nat) : Int) ≤ j by omega), if_neg e3, if_neg e3, h1, h3 hov hr,
            sampleLut_eq lut g sx sy hx hy, sampleLut_eq lut g sx sy hx hy, mix_eq d sy hy]
          simp only [Nat.mul_zero, Nat.add_zero, Nat.mul_one]
        · have e2 : g.overlapFlag = true ∧ k * (32 >>> sx) ≠ 0 := ⟨hov, hk.mpr hk0⟩
          rw [if_pos e2]
          by_cases hs : j < 2 / 2 ^ sx
          · have e3 : g.overlapFlag = true ∧ k > 0 ∧ j < 2 / 2 ^ sx := ⟨hov, by omega, hs⟩
            rw [if_neg (show ¬((min (2 / 2 ^ sx) bw : Nat) : Int) ≤ j by omega), if_pos e3, if_pos e3, h1, h2 hov hk0, h3 hov hr,
              h4 hov hr hk0]
            dsimp only
            rw [sampleLut_eq lut g sx sy hx hy, sampleLut_eq lut g sx sy hx hy, sampleLut_eq lut g sx sy hx hy,
              sampleLut_eq lut g sx sy hx hy, mix_eq d sx hx, mix_eq d sx hx, mix_eq d sy hy]
            simp only [Nat.mul_zero, Nat.add_zero, Nat.mul_one]
          · have e3 : ¬(g.overlapFlag = true ∧ k > 0 ∧ j < 2 / 2 ^ sx) := by omega
            rw [if_pos (show ((min (2 / 2 ^ sx) bw : Nat) : Int) ≤ j by omega), if_neg e3, if_neg e3, h1, h3 hov hr,
              sampleLut_eq lut g sx sy hx hy, sampleLut_eq lut g sx sy hx hy, mix_eq d sy hy]
            simp only [Nat.mul_zero, Nat.add_zero, Nat.mul_one]
      · rw [if_pos (show ((min (2 / 2 ^ sy) bh : Nat) : Int) ≤ i by omega),
          if_neg (show ¬(g.overlapFlag = true ∧ row > 0 ∧ i < 2 / 2 ^ sy) by omega)]
        by_cases hk0 : k = 0
        · have e2 : ¬(g.overlapFlag = true ∧ k * (32 >>> sx) ≠ 0) := fun h => hk.mp h.2 hk0
          rw [if_neg e2, if_pos (show ((0 : Nat) : Int) ≤ j by omega),
            if_neg (show ¬(g.overlapFlag = true ∧ k > 0 ∧ j < 2 / 2 ^ sx) by omega), h1, sampleLut_eq lut g sx sy hx hy]
          rfl
        · have e2 : g.overlapFlag = true ∧ k * (32 >>> sx) ≠ 0 := ⟨hov, hk.mpr hk0⟩
          rw [if_pos e2]
          by_cases hs : j < 2 / 2 ^ sx
          · rw [if_neg (show ¬((min (2 / 2 ^ sx) bw : Nat) : Int) ≤ j by omega),
              if_pos (show g.overlapFlag = true ∧ k > 0 ∧ j < 2 / 2 ^ sx from ⟨hov, by omega, hs⟩), h1, h2 hov hk0,
              sampleLut_eq lut g sx sy hx hy, sampleLut_eq lut g sx sy hx hy, mix_eq d sx hx]
            simp only [Nat.mul_zero, Nat.add_zero, Nat.mul_one]
          · rw [if_pos (show ((min (2 / 2 ^ sx) bw : Nat) : Int) ≤ j by omega),
              if_neg (show ¬(g.overlapFlag = true ∧ k > 0 ∧ j < 2 / 2 ^ sx) by omega), h1, sampleLut_eq lut g sx sy hx hy]
            rfl
  · have a1 : ∀ P : Prop, ¬(g.overlapFlag = true ∧ P) := fun P h => hov h.1
    simp only [if_neg (a1 _)]
    rw [if_pos (show ((0 : Nat) : Int) ≤ i by omega), if_pos (show ((0 : Nat) : Int) ≤ j by omega), h1, sampleLut_eq lut g sx sy hx hy]
    rfl

/-- The invariant of the loop over the blocks. -/
structure RowInv (d : Depth) (g : FilmGrainData) (lut : Plane) (sx sy pw bh row : Nat) (y0 : Int) (put : Int → Int → Int → Int)
    (dst : Plane) (k : Nat) (s : RowSt) : Prop where
  seed : s.seed = Spec.register (Spec.stripeSeed g row) k
  seedUp : g.overlapFlag = true → row ≠ 0 → s.seedUp = Spec.register (Spec.stripeSeed g (row - 1)) k
  cur : k ≠ 0 → s.offs.cur = Spec.random 8 (Spec.stripeSeed g row) (k - 1)
  curUp : g.overlapFlag = true → row ≠ 0 → k ≠ 0 → s.offs.curUp = Spec.random 8 (Spec.stripeSeed g (row - 1)) (k - 1)
  dst : ∀ Y X : Int, s.dst Y X =
    if y0 ≤ Y ∧ Y < y0 + bh ∧ 0 ≤ X ∧ X < pw ∧ X < (k * Spec.blk sx : Nat) then
      put (Spec.image d.bpc g sx sy lut (row * Spec.blk sy + (Y - y0).toNat) X.toNat) (Y - y0) X
    else dst Y X

theorem fgRow_eq (d : Depth) (g : FilmGrainData) (hseed : g.seed < 65536) (lut : Plane) (sx sy : Nat) (hx : sx ≤ 1) (hy : sy ≤ 1)
    (pw bh row : Nat) (hbh : bh ≤ Spec.blk sy) (y0 : Int) (put : Int → Int → Int → Int) (junk : Offs) (junkSeed : Nat) (dst : Plane)
    (Y X : Int) :
    fgRow d g lut sx sy pw bh row y0 put junk junkSeed dst Y X =
      if y0 ≤ Y ∧ Y < y0 + bh ∧ 0 ≤ X ∧ X < pw then
        put (Spec.image d.bpc g sx sy lut (row * Spec.blk sy + (Y - y0).toNat) X.toNat) (Y - y0) X
      else dst Y X := by
  have bx : 0 < Spec.blk sx := by interval_cases sx <;> decide
  have eb : 32 >>> sx = Spec.blk sx := by rw [Nat.shiftRight_eq_div_pow]; rfl
  have key := loop_inv ((pw + (32 >>> sx) - 1) / (32 >>> sx)) (blockStep d g lut sx sy pw bh row y0 put)
    ⟨rowSeed g row, if g.overlapFlag = true ∧ row > 0 then rowSeed g (row - 1) else junkSeed, junk, dst⟩
    (RowInv d g lut sx sy pw bh row y0 put dst)
    { seed := rowSeed_eq g row
      seedUp := fun h1 h2 => by
        rw [if_pos ⟨h1, by omega⟩]
        exact rowSeed_eq g (row - 1)
      cur := fun h => absurd rfl h
      curUp := fun _ _ h => absurd rfl h
      dst := fun Y X => by rw [Nat.zero_mul]; exact (if_neg (by omega)).symm } ?_
  · unfold fgRow
    rw [key.dst Y X]
    have hn : pw ≤ (pw + (32 >>> sx) - 1) / (32 >>> sx) * Spec.blk sx := by
      rw [eb]
      have h1 := Nat.div_add_mod (pw + Spec.blk sx - 1) (Spec.blk sx)
      have h2 := Nat.mod_lt (pw + Spec.blk sx - 1) bx
      rw [Nat.mul_comm]
      omega
    by_cases hc : y0 ≤ Y ∧ Y < y0 + bh ∧ 0 ≤ X ∧ X < pw
    · rw [if_pos hc, if_pos ⟨hc.1, hc.2.1, hc.2.2.1, hc.2.2.2, by omega⟩]
    · rw [if_neg hc, if_neg (fun h => hc ⟨h.1, h.2.1, h.2.2.1, h.2.2.2.1⟩)]
  intro k hk s hs
  have hkp : k * Spec.blk sx < pw := by
    rw [eb] at hk
    have h1 := Nat.div_add_mod (pw + Spec.blk sx - 1) (Spec.blk sx)
    have h2 : Spec.blk sx * (k + 1) ≤ Spec.blk sx * ((pw + Spec.blk sx - 1) / Spec.blk sx) := Nat.mul_le_mul_left _ hk
    rw [Nat.mul_succ, Nat.mul_comm _ k] at h2
    omega
  have e1 : nextState s.seed = Spec.register (Spec.stripeSeed g row) (k + 1) := by
    rw [hs.seed]
    exact nextState_register _ (stripeSeed_lt g hseed row) k
  have e2 : g.overlapFlag = true → row ≠ 0 → nextState s.seedUp = Spec.register (Spec.stripeSeed g (row - 1)) (k + 1) := by
    intro h1 h2
    rw [hs.seedUp h1 h2]
    exact nextState_register _ (stripeSeed_lt g hseed (row - 1)) k
  refine ⟨e1, fun h1 h2 => ?_, fun _ => ?_, fun h1 h2 _ => ?_, fun Y X => ?_⟩
  · show (if g.overlapFlag = true ∧ row > 0 then nextState s.seedUp else s.seedUp) = _
    rw [if_pos ⟨h1, by omega⟩]
    exact e2 h1 h2
  · show number 8 (nextState s.seed) = _
    rw [e1, number_register]
    rfl
  · show (if g.overlapFlag = true ∧ row > 0 then number 8 (if g.overlapFlag = true ∧ row > 0 then nextState s.seedUp else s.seedUp) else _) = _
    rw [if_pos ⟨h1, by omega⟩, if_pos ⟨h1, by omega⟩, e2 h1 h2, number_register]
    rfl
  · have esucc : (k + 1) * Spec.blk sx = k * Spec.blk sx + Spec.blk sx := Nat.succ_mul _ _
    unfold blockStep
    dsimp only
    by_cases hin : y0 ≤ Y ∧ Y < y0 + bh ∧ ((k * (32 >>> sx) : Nat) : Int) ≤ X ∧
        X < ((k * (32 >>> sx) : Nat) : Int) + ((min (32 >>> sx) (pw - k * (32 >>> sx)) : Nat) : Int)
    · rw [if_pos hin]
      rw [eb] at hin
      have hX : y0 ≤ Y ∧ Y < y0 + bh ∧ 0 ≤ X ∧ X < pw ∧ X < ((k + 1) * Spec.blk sx : Nat) := by
        rw [esucc]
        omega
      rw [if_pos hX]
      obtain ⟨i, hi⟩ : ∃ i : Nat, Y - y0 = i := ⟨(Y - y0).toNat, by omega⟩
      obtain ⟨j, hj⟩ : ∃ j : Nat, X - ((k * Spec.blk sx : Nat) : Int) = j := ⟨(X - ((k * Spec.blk sx : Nat) : Int)).toNat, by omega⟩
      have eX : X.toNat = k * Spec.blk sx + j := by omega
      rw [eX, hi, Int.toNat_natCast]
      have := grainAt_eq d g lut sx sy hx hy row k i j bh (min (32 >>> sx) (pw - k * (32 >>> sx))) (by omega)
        (by rw [eb]; omega) hbh (by rw [eb]; omega)
        { cur := number 8 (nextState s.seed)
          curUp := if g.overlapFlag = true ∧ row > 0 then number 8 (if g.overlapFlag = true ∧ row > 0 then nextState s.seedUp else s.seedUp)
            else (if g.overlapFlag = true ∧ k * (32 >>> sx) ≠ 0 then
              ({ s.offs with prev := s.offs.cur, prevUp := if g.overlapFlag = true ∧ row > 0 then s.offs.curUp else s.offs.prevUp } : Offs)
              else s.offs).curUp
          prev := (if g.overlapFlag = true ∧ k * (32 >>> sx) ≠ 0 then
              ({ s.offs with prev := s.offs.cur, prevUp := if g.overlapFlag = true ∧ row > 0 then s.offs.curUp else s.offs.prevUp } : Offs)
              else s.offs).prev
          prevUp := (if g.overlapFlag = true ∧ k * (32 >>> sx) ≠ 0 then
              ({ s.offs with prev := s.offs.cur, prevUp := if g.overlapFlag = true ∧ row > 0 then s.offs.curUp else s.offs.prevUp } : Offs)
              else s.offs).prevUp }
        (by
          show number 8 (nextState s.seed) = _
          rw [e1, number_register])
        (by
          intro h1 h2
          have : k * (32 >>> sx) ≠ 0 := by rw [eb]; exact Nat.mul_ne_zero h2 (by omega)
          dsimp only
          rw [if_pos ⟨h1, this⟩]
          exact hs.cur h2)
        (by
          intro h1 h2
          dsimp only
          rw [if_pos ⟨h1, by omega⟩, if_pos ⟨h1, by omega⟩, e2 h1 h2, number_register])
        (by
          intro h1 h2 h3
          have : k * (32 >>> sx) ≠ 0 := by rw [eb]; exact Nat.mul_ne_zero h3 (by omega)
          dsimp only
          rw [if_pos ⟨h1, this⟩]
          dsimp only
          rw [if_pos ⟨h1, by omega⟩]
          exact hs.curUp h1 h2 h3)
      rw [← this, ← hj, eb]
    · rw [if_neg hin, hs.dst Y X]
      rw [eb] at hin
      by_cases hc : y0 ≤ Y ∧ Y < y0 + bh ∧ 0 ≤ X ∧ X < pw ∧ X < (k * Spec.blk sx : Nat)
      · rw [if_pos hc, if_pos ⟨hc.1, hc.2.1, hc.2.2.1, hc.2.2.2.1, by omega⟩]
      · rw [if_neg hc, if_neg (by rw [esucc]; omega)]

/-- The noise only depends on the template. -/
theorem image_congr (bd : Nat) (g : FilmGrainData) (sx sy : Nat) (hx : sx ≤ 1) (hy : sy ≤ 1) (G G' : Int → Int → Int)
    (h : ∀ y x : Nat, y < Spec.chromaHeight sy → x < Spec.chromaWidth sx → G y x = G' y x) (y x : Nat) :
    Spec.image bd g sx sy G y x = Spec.image bd g sx sy G' y x := by
  have hb : ∀ n b i j : Nat, i < Spec.blk sy + 2 / 2 ^ sy → j < Spec.blk sx + 2 / 2 ^ sx →
      Spec.block g sx sy G n b i j = Spec.block g sx sy G' n b i j := by
    intro n b i j hi hj
    unfold Spec.block
    dsimp only
    have hr := random_lt 8 (Spec.stripeSeed g n) b
    generalize Spec.random 8 (Spec.stripeSeed g n) b = v at *
    refine h _ _ ?_ ?_
    · interval_cases sy <;> simp [Spec.blk, Spec.chromaHeight] at * <;> omega
    · interval_cases sx <;> simp [Spec.blk, Spec.chromaWidth] at * <;> omega
  have qx : 0 < 2 / 2 ^ sx := by interval_cases sx <;> decide
  have qy : 0 < 2 / 2 ^ sy := by interval_cases sy <;> decide
  have px : 0 < Spec.blk sx := by interval_cases sx <;> decide
  have py : 0 < Spec.blk sy := by interval_cases sy <;> decide
  have hs : ∀ n i, i < Spec.blk sy + 2 / 2 ^ sy → Spec.stripe bd g sx sy G n i x = Spec.stripe bd g sx sy G' n i x := by
    intro n i hi
    have hj := Nat.mod_lt x px
    unfold Spec.stripe
    dsimp only
    split_ifs with hc
    · rw [hb _ _ _ _ hi (by omega), hb _ _ _ _ hi (by omega)]
    · rw [hb _ _ _ _ hi (by omega)]
  have hi := Nat.mod_lt y py
  unfold Spec.image
  dsimp only
  split_ifs with hc
  · rw [hs _ _ (by omega), hs _ _ (by omega)]
  · rw [hs _ _ (by omega)]

end Dav1d.Fg
