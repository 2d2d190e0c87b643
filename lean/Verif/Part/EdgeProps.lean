import Verif.Part.EdgeModel
/-!
# Intra prediction reads samples that are there, and those the specification says
-/
set_option linter.unusedVariables false
namespace Dav1d.Part
variable {σ : Type}

section
variable {f : Frame} {sb128 : Bool} {T : Tile} {p : Plane} {sb128w : Nat} {F : Int → Int → Int}

theorem sb_shift (sb128 : Bool) (n : Nat) : n >>> sbShift sb128 = n / sbStep sb128 := by
  rw [Nat.shiftRight_eq_div_pow]
  cases sb128 <;> rfl

/-- What is known of the memory. -/
structure MemInv (sb128w : Nat) (sb128 : Bool) (p : Plane) (T : Tile) (F : Int → Int → Int) (done : List Tb) (y : Nat) (m : Mem) : Prop where
  px : ∀ (a b : Nat) (r c : Int), (T.inPlane p).has a b → Made done a b → y / 2 ^ p.ssV ≤ b → 4 * (a : Int) ≤ c → c < 4 * a + 4 → 4 * (b : Int) ≤ r → r < 4 * b + 4 →
    m.px r c = some (F r c)
  edge : T.y0 < y → y < T.y1 → ∀ c : Int, 4 * ((T.inPlane p).x0 : Int) ≤ c → c < 4 * ((T.inPlane p).x1 : Int) →
    m.edge (sb128w * 128 * ((y / sbStep sb128 : Nat) - 1) + c) = some (F (4 * (y / 2 ^ p.ssV : Nat) - 1) c)
  ge : T.y0 ≤ y
  al : y % sbStep sb128 = 0

theorem step_pos (sb128 : Bool) : 0 < sbStep sb128 := by cases sb128 <;> decide

theorem four_shift {ss n : Nat} (hs : ss ≤ 1) (hn : n % 2 = 0) : (4 * n) >>> ss = 4 * (n / 2 ^ ss) := by
  have : ss = 0 ∨ ss = 1 := by omega
  rcases this with rfl | rfl <;> simp only [Nat.shiftRight_eq_div_pow, Nat.pow_zero, Nat.pow_one] <;> omega

theorem tile_even (hT : TileOk f sb128 T) : T.x0 % 2 = 0 ∧ T.x1 % 2 = 0 ∧ T.y0 % 2 = 0 ∧ T.y1 % 2 = 0 := by
  have h1 := sb_even hT.x0
  have h2 := sb_even hT.y0
  refine ⟨h1, ?_, h2, ?_⟩
  · rcases hT.x1 with h | ⟨h, _⟩
    · rw [h]; exact hT.bw
    · exact sb_even h
  · rcases hT.y1 with h | ⟨h, _⟩
    · rw [h]; exact hT.bh
    · exact sb_even h

theorem reach_inv (hT : TileOk f sb128 T) (hp : p ∈ planes f) {done : List Tb} {y : Nat} {m : Mem} (h : Reach sb128w sb128 p T F done y m) :
    MemInv sb128w sb128 p T F done y m := by
  obtain ⟨hH, hV⟩ := plane_ss hp
  obtain ⟨ex0, ex1, ey0, ey1⟩ := tile_even hT
  induction h with
  | start m =>
    refine ⟨fun a b r c _ hm => ?_, fun h => absurd h (Nat.lt_irrefl _), Nat.le_refl _, hT.y0⟩
    obtain ⟨t, ht, _⟩ := hm
    cases ht
  | @recon done y m m' t h hin hout hedge ih =>
    refine ⟨fun a b r c hab hm hy h1 h2 h3 h4 => ?_, fun h1 h2 c h3 h4 => ?_, ih.ge, ih.al⟩
    · by_cases hc : MadePx [t] r c
      · exact hin r c hc
      · rw [hout r c hc]
        refine ih.px a b r c hab ?_ hy h1 h2 h3 h4
        rcases (made_append _ _ _ _).1 hm with hm | hm
        · exact hm
        · exact absurd ⟨a, b, hm, h1, h2, h3, h4⟩ hc
    · rw [hedge]; exact ih.edge h1 h2 c h3 h4
  | @row done y m h hdone ih =>
    have hsp := step_pos sb128
    have hal := ih.al
    have hdiv : (y + sbStep sb128) / sbStep sb128 = y / sbStep sb128 + 1 := Nat.add_div_right y hsp
    have hev : (y + sbStep sb128) % 2 = 0 := by
      have := sb_even hal
      have : sbStep sb128 % 2 = 0 := by cases sb128 <;> decide
      omega
    refine ⟨fun a b r c hab hm hy h1 h2 h3 h4 => ?_, fun h1 h2 c h3 h4 => ?_, by have := ih.ge; omega, by rw [Nat.add_mod, hal]; simp⟩
    · refine ih.px a b r c hab hm ?_ h1 h2 h3 h4
      exact Nat.le_trans (Nat.div_le_div_right (Nat.le_add_right _ _)) hy
    · have e0 : ((T.x0 * 4) >>> p.ssH : Nat) = 4 * (T.inPlane p).x0 := by rw [Nat.mul_comm, four_shift hH ex0]; rfl
      have e1 : ((4 * (T.x1 - T.x0)) >>> p.ssH : Nat) = 4 * ((T.inPlane p).x1 - (T.inPlane p).x0) := by
        rw [four_shift hH (by omega)]
        unfold Tile.inPlane
        dsimp only
        have : p.ssH = 0 ∨ p.ssH = 1 := by omega
        rcases this with h | h <;> rw [h] <;> simp only [Nat.pow_zero, Nat.pow_one] <;> omega
      have e2 : (((y + sbStep sb128) * 4) >>> p.ssV : Nat) = 4 * ((y + sbStep sb128) / 2 ^ p.ssV) := by rw [Nat.mul_comm, four_shift hV hev]
      unfold backupEdge
      dsimp only
      rw [sb_shift, hdiv, e0, e1, e2]
      have e3 : (sb128w : Int) * 128 * (((y / sbStep sb128 + 1 : Nat) : Int) - 1) = ((sb128w * 128 * (y / sbStep sb128) : Nat) : Int) := by
        push_cast
        rw [Int.add_sub_cancel]
      push_cast at e3 ⊢
      rw [e3]
      generalize (sb128w : Int) * 128 * ((y : Int) / (sbStep sb128 : Int)) = off
      have e4 : off + c - off = c := by omega
      rw [if_pos (by omega), e4]
      have hPy : (T.inPlane p).y0 = T.y0 / 2 ^ p.ssV ∧ (T.inPlane p).y1 = T.y1 / 2 ^ p.ssV := ⟨rfl, rfl⟩
      have hb : T.y0 / 2 ^ p.ssV ≤ y / 2 ^ p.ssV ∧ y / 2 ^ p.ssV + 1 ≤ (y + sbStep sb128) / 2 ^ p.ssV ∧ (y + sbStep sb128) / 2 ^ p.ssV ≤ T.y1 / 2 ^ p.ssV := by
        have hge := ih.ge
        have hs2 : 2 ≤ sbStep sb128 := by cases sb128 <;> decide
        have : p.ssV = 0 ∨ p.ssV = 1 := by omega
        rcases this with h | h <;> rw [h] <;> simp only [Nat.pow_zero, Nat.pow_one] <;> omega
      have hx0 : (T.inPlane p).x0 ≤ (c / 4).toNat ∧ (c / 4).toNat < (T.inPlane p).x1 := by omega
      have hhas : (T.inPlane p).has (c / 4).toNat ((y + sbStep sb128) / 2 ^ p.ssV - 1) := by
        unfold Tile.has
        rw [hPy.1, hPy.2]
        omega
      have e5 : (((y + sbStep sb128) / 2 ^ p.ssV : Nat) : Int) = ((y : Int) + (sbStep sb128 : Int)) / 2 ^ p.ssV := by push_cast; rfl
      rw [← e5]
      refine ih.px (c / 4).toNat ((y + sbStep sb128) / 2 ^ p.ssV - 1) _ c hhas (hdone _ _ hhas (by omega)) (by omega) (by omega) (by omega) (by omega) (by omega)
  | @other done y m m' h hpx hedge ih =>
    refine ⟨fun a b r c hab hm hy h1 h2 h3 h4 => ?_, fun h1 h2 c h3 h4 => ?_, ih.ge, ih.al⟩
    · rw [hpx a b r c hab hy h1 h2 h3 h4]
      exact ih.px a b r c hab hm hy h1 h2 h3 h4
    · have hpos : 0 < y / sbStep sb128 := by
        refine Nat.div_pos ?_ (step_pos _)
        exact Nat.le_of_dvd (by omega) (Nat.dvd_of_mod_eq_zero ih.al)
      have e : ((y / sbStep sb128 : Nat) : Int) - 1 = ((y / sbStep sb128 - 1 : Nat) : Int) := by omega
      have := ih.edge h1 h2 c h3 h4
      rw [e] at this ⊢
      rw [hedge _ c h3 h4 (by omega)]
      exact this

theorem reads_ok (hT : TileOk f sb128 T) (hp : p ∈ planes f) {before : List Tb} {t : Tb} (ht : TbEdges (T.inPlane p) before t)
    {y : Nat} {m : Mem} (hm : Reach sb128w sb128 p T F before y m) (hy : y ≤ t.y <<< p.ssV ∧ t.y <<< p.ssV < y + sbStep sb128)
    (hw : 1 ≤ t.w) (hh : 1 ≤ t.h) (filterEdge : Bool) :
    (prepOf sb128w sb128 p T filterEdge m t).Reads F := by
  have hi := reach_inv hT hp hm
  obtain ⟨hH, hV⟩ := plane_ss hp
  have hal := hi.al
  have hge := hi.ge
  have hs := ht.start
  have eP : (T.inPlane p).x0 = T.x0 / 2 ^ p.ssH ∧ (T.inPlane p).x1 = T.x1 >>> p.ssH ∧ (T.inPlane p).y0 = T.y0 / 2 ^ p.ssV ∧ (T.inPlane p).y1 = T.y1 >>> p.ssV :=
    ⟨rfl, (Nat.shiftRight_eq_div_pow _ _).symm, rfl, (Nat.shiftRight_eq_div_pow _ _).symm⟩
  have hty : t.y <<< p.ssV = t.y * 2 ^ p.ssV := Nat.shiftLeft_eq _ _
  -- the row of the transform block in its superblock row
  have hrow : (t.y <<< p.ssV) % sbStep sb128 = 0 ↔ t.y <<< p.ssV = y := by
    constructor
    · intro h
      have h1 := Nat.div_add_mod (t.y <<< p.ssV) (sbStep sb128)
      have h2 := Nat.div_add_mod y (sbStep sb128)
      rw [h, Nat.add_zero] at h1
      rw [hal, Nat.add_zero] at h2
      have h3 : (t.y <<< p.ssV) / sbStep sb128 = y / sbStep sb128 := by
        apply Nat.le_antisymm
        · refine Nat.le_of_lt_succ ((Nat.div_lt_iff_lt_mul (step_pos _)).2 ?_)
          rw [Nat.succ_mul, Nat.mul_comm, h2]; exact hy.2
        · exact Nat.div_le_div_right hy.1
      rw [← h1, ← h2, h3]
    · intro h; rw [h]; exact hal
  have hyd : y / 2 ^ p.ssV ≤ t.y := by
    rw [hty] at hy
    exact Nat.div_le_of_le_mul (by rw [Nat.mul_comm]; exact hy.1)
  -- a sample of the row above
  have key : (T.inPlane p).y0 < t.y → ∀ c : Int, 4 * ((T.inPlane p).x0 : Int) ≤ 4 * t.x + c → 4 * (t.x : Int) + c < 4 * ((T.inPlane p).x1 : Int) →
      Made before ((4 * (t.x : Int) + c) / 4).toNat (t.y - 1) → (prepOf sb128w sb128 p T filterEdge m t).top c = some (F (4 * t.y - 1) (4 * t.x + c)) := by
    intro h0 c h1 h2 h3
    unfold Ipred.Prep.top
    by_cases h : (t.y <<< p.ssV) % sbStep sb128 = 0
    · simp only [prepOf, if_pos h]
      have hyt := hrow.1 h
      rw [sb_shift, hyt]
      have e := hi.edge ?_ ?_ (4 * t.x + c) h1 h2
      · rw [show (t.x : Int) * 4 + c = 4 * t.x + c by omega, e]
        have : y / 2 ^ p.ssV = t.y := by rw [← hyt, hty]; exact Nat.mul_div_cancel _ (Nat.two_pow_pos _)
        rw [this]
      · rw [eP.2.2.1] at h0
        rw [hty] at hyt
        have : p.ssV = 0 ∨ p.ssV = 1 := by omega
        have := (tile_even hT).2.2.1
        rcases ‹p.ssV = 0 ∨ p.ssV = 1› with h | h <;> rw [h] at h0 hyt <;> simp only [Nat.pow_zero, Nat.pow_one] at h0 hyt <;> omega
      · have h4 := hs.2.2.2
        rw [eP.2.2.2, Nat.shiftRight_eq_div_pow] at h4
        rw [hty] at hyt
        have : p.ssV = 0 ∨ p.ssV = 1 := by omega
        have := (tile_even hT).2.2.2
        rcases ‹p.ssV = 0 ∨ p.ssV = 1› with h | h <;> rw [h] at h4 hyt <;> simp only [Nat.pow_zero, Nat.pow_one] at h4 hyt <;> omega
    · simp only [prepOf, if_neg h]
      have hlt : y / 2 ^ p.ssV < t.y := by
        refine Nat.lt_of_le_of_ne hyd fun he => h ?_
        rw [hrow, hty, ← he]
        exact Nat.div_mul_cancel (by
          have := sb_even hal
          have : p.ssV = 0 ∨ p.ssV = 1 := by omega
          rcases this with h | h <;> rw [h] <;> simp only [Nat.pow_zero, Nat.pow_one] <;> omega)
      rw [show (4 * (t.y : Int) + -1) = 4 * t.y - 1 by omega]
      refine hi.px ((4 * (t.x : Int) + c) / 4).toNat (t.y - 1) _ _ ?_ h3 (by omega) (by omega) (by omega) (by omega) (by omega)
      unfold Tile.has at hs ⊢
      omega
  unfold Tile.has at hs
  constructor
  · intro h0 c hc1 hc2 hc3
    have h1 := ht.top.1 h0
    simp only [prepOf] at hc2 hc3
    rw [← eP.2.1] at hc3
    refine key h1 c (by omega) (by omega) ?_
    by_cases hcw : c < 4 * t.w
    · have := ht.topUnits h1 (c / 4).toNat (by omega) (by unfold Tile.has; omega)
      rw [show ((4 * (t.x : Int) + c) / 4).toNat = t.x + (c / 4).toNat by omega]
      exact this
    · have hr : t.tr = true ∧ c < 8 * t.w := by
        rcases hc2 with h | h
        · exact absurd h hcw
        · exact h
      have := (ht.topRight h1 ((c - 4 * t.w) / 4).toNat (by omega) (by unfold Tile.has; omega)).1 hr.1
      rw [show ((4 * (t.x : Int) + c) / 4).toNat = t.x + t.w + ((c - 4 * t.w) / 4).toNat by omega]
      exact this
  · intro h0 r hr1 hr2 hr3
    have h1 := ht.left.1 h0
    simp only [prepOf] at hr2 hr3 ⊢
    rw [← eP.2.2.2] at hr3
    rw [show 4 * (t.x : Int) + -1 = 4 * t.x - 1 by omega]
    refine hi.px (t.x - 1) ((4 * (t.y : Int) + r) / 4).toNat _ _ (by unfold Tile.has; omega) ?_ (by omega) (by omega) (by omega) (by omega) (by omega)
    by_cases hcw : r < 4 * t.h
    · have := ht.leftUnits h1 (r / 4).toNat (by omega) (by unfold Tile.has; omega)
      rw [show ((4 * (t.y : Int) + r) / 4).toNat = t.y + (r / 4).toNat by omega]
      exact this
    · have hr : t.bl = true ∧ r < 8 * t.h := by
        rcases hr2 with h | h
        · exact absurd h hcw
        · exact h
      have := (ht.bottomLeft h1 ((r - 4 * t.h) / 4).toNat (by omega) (by unfold Tile.has; omega)).1 hr.1
      rw [show ((4 * (t.y : Int) + r) / 4).toNat = t.y + t.h + ((r - 4 * t.h) / 4).toNat by omega]
      exact this
  · intro h0 h0'
    have h1 := ht.top.1 h0
    have h2 := ht.left.1 h0'
    have := key h1 (-1) (by omega) (by omega) (by
      rw [show ((4 * (t.x : Int) + -1) / 4).toNat = t.x - 1 by omega]
      exact ht.corner h2 h1)
    rw [show 4 * (t.x : Int) + -1 = 4 * t.x - 1 by omega] at this
    exact this
end

/-! ## Size and position of a transform block -/

theorem forList_mem {s e : Nat} : ∀ {n v0 v : Nat}, v ∈ forList s e n v0 → v0 ≤ v ∧ v < e ∧ (v - v0) % s = 0
  | 0, _, _, h => by cases h
  | n + 1, v0, v, h => by
    unfold forList at h
    split at h
    · rcases List.mem_cons.1 h with rfl | h
      · exact ⟨Nat.le_refl _, by assumption, by simp⟩
      · obtain ⟨h1, h2, h3⟩ := forList_mem h
        refine ⟨by omega, h2, ?_⟩
        rw [show v - v0 = v - (v0 + s) + s by omega, Nat.add_mod_right]
        exact h3
    · cases h

/-- The transform block lies in the block, at a multiple of its size. -/
structure TbIn (f : Frame) (T : Tile) (p : Plane) (t : Tb) : Prop where
  far : (T.x1 = f.bw ∨ t.x + t.w = (T.inPlane p).x1 ∨ t.x + 2 * t.w ≤ (T.inPlane p).x1) ∧
    (T.y1 = f.bh ∨ t.y + t.h = (T.inPlane p).y1 ∨ t.y + 2 * t.h ≤ (T.inPlane p).y1)

theorem far_one {ss cx w x1 bw xx tw : Nat} (hs : ss ≤ 1) (hw : w = 1 ∨ (w % 2 = 0 ∧ cx % 2 = 0)) (hb : w > ss ∨ cx % 2 = 1)
    (hx1 : x1 % 2 = 0) (hf : x1 = bw ∨ cx + w = x1 ∨ cx + 2 * w ≤ x1) (h2 : xx % tw = 0) (h3 : ((w + ss) / 2 ^ ss) % tw = 0) (ht : 0 < tw)
    (h4 : xx < (w + ss) / 2 ^ ss) :
    x1 = bw ∨ cx / 2 ^ ss + xx + tw = x1 / 2 ^ ss ∨ cx / 2 ^ ss + xx + 2 * tw ≤ x1 / 2 ^ ss := by
  have hst := step_le ht h3 h2 h4
  have : ss = 0 ∨ ss = 1 := by omega
  rcases this with rfl | rfl
  · simp only [Nat.pow_zero, Nat.div_one, Nat.add_zero] at *; omega
  · simp only [Nat.pow_one] at *
    omega

theorem intra_in {f : Frame} {sb128 : Bool} {T : Tile} (hT : TileOk f sb128 T) {log : List Ev} {c : Call} (hc : CallOk f T log c) {p : Plane} (hp : p ∈ planes f)
    {tw th : Nat} (ht : TxFits p c tw th) {t : Tb} (h : t ∈ intraTbs f T p c tw th) :
    t.w = tw ∧ t.h = th ∧ TbIn f T p t := by
  obtain ⟨hH, hV⟩ := plane_ss hp
  obtain ⟨⟨i, hi⟩, ⟨j, hj⟩, t1, t2, t3, t4⟩ := ht
  obtain ⟨-, ex1, -, ey1⟩ := tile_even hT
  unfold intraTbs at h
  dsimp only at h
  obtain ⟨iy, hiy, h⟩ := List.mem_flatMap.1 h
  obtain ⟨ix, hix, h⟩ := List.mem_flatMap.1 h
  split at h
  · rename_i hpl
    have hb := (hasPlane_iff p c).1 hpl
    unfold chunkTbs at h
    dsimp only at h
    obtain ⟨y, hy, h⟩ := List.mem_flatMap.1 h
    obtain ⟨x, hx, h⟩ := List.mem_map.1 h
    subst h
    obtain ⟨-, -, a1⟩ := forList_mem hiy
    obtain ⟨-, -, a2⟩ := forList_mem hix
    obtain ⟨b1, b2, b3⟩ := forList_mem hy
    obtain ⟨c1, c2, c3⟩ := forList_mem hx
    rw [Nat.sub_zero] at a1 a2
    refine ⟨rfl, rfl, ?_, ?_⟩
    · have hx0 : (T.inPlane p).x1 = T.x1 / 2 ^ p.ssH := rfl
      simp only [tbAt, shift_pos hH, hx0, Nat.shiftRight_eq_div_pow]
      refine far_one hH hc.evenX hb.1 ex1 hc.farX ?_ ?_ (by rw [hi]; exact Nat.two_pow_pos _) ?_
      · refine mod_back (mod_trans (shift_chunk hH a2).2.1 ?_) c1 c3
        rw [hi, Nat.shiftRight_eq_div_pow]
        have : p.ssH = 0 ∨ p.ssH = 1 := by omega
        rcases this with h | h <;> rw [h] at t3 ⊢ <;> simp only [Nat.pow_zero, Nat.pow_one] at t3 ⊢
        · exact pow_mod (j := 4) (by omega)
        · exact pow_mod (j := 3) (by omega)
      · obtain ⟨k, hk⟩ := half_pow hH ((bs_pow c.bs).1.resolve_left (by have := hc.pos; omega))
        have hk' : p.w c = 2 ^ k := hk
        rw [hk, hi]
        exact pow_mod (by omega)
      · refine Nat.lt_of_lt_of_le c2 (Nat.le_trans (Nat.min_le_left _ _) ?_)
        rw [Nat.shiftRight_eq_div_pow]
        exact Nat.div_le_div_right (by omega)
    · have hx0 : (T.inPlane p).y1 = T.y1 / 2 ^ p.ssV := rfl
      simp only [tbAt, shift_pos hV, hx0, Nat.shiftRight_eq_div_pow]
      refine far_one hV hc.evenY hb.2 ey1 hc.farY ?_ ?_ (by rw [hj]; exact Nat.two_pow_pos _) ?_
      · refine mod_back (mod_trans (shift_chunk hV a1).2.1 ?_) b1 b3
        rw [hj, Nat.shiftRight_eq_div_pow]
        have : p.ssV = 0 ∨ p.ssV = 1 := by omega
        rcases this with h | h <;> rw [h] at t4 ⊢ <;> simp only [Nat.pow_zero, Nat.pow_one] at t4 ⊢
        · exact pow_mod (j := 4) (by omega)
        · exact pow_mod (j := 3) (by omega)
      · obtain ⟨k, hk⟩ := half_pow hV ((bs_pow c.bs).2.resolve_left (by have := hc.pos; omega))
        have hk' : p.h c = 2 ^ k := hk
        rw [hk, hj]
        exact pow_mod (by omega)
      · refine Nat.lt_of_lt_of_le b2 (Nat.le_trans (Nat.min_le_left _ _) ?_)
        rw [Nat.shiftRight_eq_div_pow]
        exact Nat.div_le_div_right (by omega)
  · cases h

theorem intraTx_lt {layout : Nat} (hl : 1 ≤ layout ∧ layout ≤ 3) (ch : Chan) (lossless : Bool) (depth : Nat) {bs : Nat} (hb : bs < 22) :
    intraTx layout ch lossless depth bs < 19 := by
  have hsub : ∀ n tx, tx < 19 → subTx n tx < 19 := by
    intro n
    induction n with
    | zero => exact fun _ h => h
    | succ n ih => exact fun tx h => ih _ (sub_le_check tx (List.mem_range.2 h)).1
  have h0 := (max_le_check bs (List.mem_range.2 hb)).1
  unfold intraTx
  split
  · decide
  · cases ch with
    | y => exact hsub _ _ (h0 0 (by decide))
    | uv => exact h0 layout (List.mem_range.2 (by omega))

theorem txSize_mem : ∀ tx ∈ List.range 19, txSize tx ∈ Ipred.txSizes := by decide +kernel

/-- Size and position of the transform blocks of a tile. -/
theorem tile_in {S : Src σ} (hS : ∀ s bl ctx, (S.part s bl ctx).1 ≤ typeCount bl) {f : Frame} {sb128 : Bool} {T : Tile}
    (hpass : f.pass ≠ 2) (hT : TileOk f sb128 T) {s : σ} {st : St σ} (h : decodeTile S f sb128 T.x0 T.x1 T.y0 T.y1 s = .ok st)
    {layout : Nat} (hl : 1 ≤ layout ∧ layout ≤ 3) (hf : f.i422 = decide (layout = 2)) (ch : Chan) (info : Info)
    {t : Tb} (ht : t ∈ planeTbs f T (ch.plane layout) (txOf layout ch info) (blocks st.log)) (hi : t.intra = true) :
    (t.w, t.h) ∈ Ipred.txSizes ∧ TbIn f T (ch.plane layout) t := by
  have hp := chan_plane hf ch
  rcases decodeTile_ok S hS hpass hT s with h1 | ⟨st', h1, h2, h3⟩
  · rw [h] at h1; cases h1
  rw [h] at h1; cases h1
  unfold planeTbs at ht
  obtain ⟨c, hc, ht⟩ := List.mem_flatMap.1 ht
  obtain ⟨e, h4, h5⟩ := List.mem_filterMap.1 hc
  cases e with
  | read => cases h5
  | call d =>
    cases h5
    obtain ⟨pre, post, h6⟩ := List.append_of_mem h4
    have h7 : CallOk f T pre c := h3 pre _ post h6
    have hbs := bs_of_pos h7.pos.1
    unfold txOf at ht
    cases hin : info c with
    | none =>
      rw [hin] at ht
      unfold blockTbs at ht
      simp only [Option.map_none] at ht
      split at ht
      · cases List.mem_singleton.1 ht; cases hi
      · cases ht
    | some i =>
      rw [hin] at ht
      simp only [Option.map_some] at ht
      have hz := C71_sizes hl ch i.1 i.2 c hbs
      have hm := txSize_mem _ (List.mem_range.2 (intraTx_lt hl ch i.1 i.2 hbs))
      generalize txSize (intraTx layout ch i.1 i.2 c.bs) = z at *
      obtain ⟨tw, th⟩ := z
      unfold blockTbs at ht
      dsimp only at ht hz
      obtain ⟨q1, q2, q3⟩ := intra_in hT h7 hp hz ht
      exact ⟨by rw [q1, q2]; exact hm, q3⟩

/-! ## The specification's block -/

theorem col_eq {X w h M1 M2 i : Int} {tr ar : Bool} (hw : 1 ≤ w) (hh : 1 ≤ h)
    (hc : (M1 = M2 ∧ (tr = ar ∨ X + w > M1)) ∨ (M1 ≤ M2 ∧ X + w = M1 + 1 ∧ ar = false) ∨ (M1 ≤ M2 ∧ X + 2 * w ≤ M1 + 1 ∧ tr = ar)) :
    min M1 (X + (if i < w then i else if tr = true then min i (w + min w h - 1) else w - 1)) =
    min M2 (X + (if i < w then i else if ar = true then min i (w + min w h - 1) else w - 1)) := by
  rcases hc with ⟨rfl, rfl | h⟩ | ⟨h1, h2, rfl⟩ | ⟨h1, h2, rfl⟩
  · rfl
  · split_ifs <;> omega
  · rw [if_neg (show ¬ (false = true) by decide)]
    split_ifs <;> omega
  · split_ifs <;> omega

theorem TbEdges.left_eq {P : Tile} {before : List Tb} {t : Tb} (h : TbEdges P before t) : t.left = decide (P.x0 < t.x) := by
  rw [Bool.eq_iff_iff, h.left, decide_eq_true_iff]

theorem TbEdges.top_eq {P : Tile} {before : List Tb} {t : Tb} (h : TbEdges P before t) : t.top = decide (P.y0 < t.y) := by
  rw [Bool.eq_iff_iff, h.top, decide_eq_true_iff]

theorem directional_congr {d : Depth} {A L : Int → Int} {D : Ipred.Spec.Dir} {x' y' : Int} (hx : min (D.w : Int) D.availX = min (D.w : Int) x')
    (hy : min (D.h : Int) D.availY = min (D.h : Int) y') (ang : Int) (i j : Nat) :
    Ipred.Spec.directional d A L D ang i j = Ipred.Spec.directional d A L { D with availX := x', availY := y' } ang i j := by
  unfold Ipred.Spec.directional Ipred.Spec.aboveEdge Ipred.Spec.leftEdge
  simp only [hx, hy]
  rfl

section
variable {S : Src σ} {f : Frame} {sb128 : Bool} {T : Tile} {layout : Nat} {ch : Chan} {sb128w : Nat} {F : Int → Int → Int} {before : List Tb} {t : Tb} {y : Nat} {m : Mem}

theorem Now.edges (N : Now S f sb128 T layout ch sb128w F before t y m) : TbEdges (T.inPlane (ch.plane layout)) before t := by
  obtain ⟨s, st, info, after, h1, h2⟩ := N.run
  exact C71_edges S N.symbols N.pass N.tile s h1 N.layouts N.i422 ch info h2 N.intra

theorem Now.place (N : Now S f sb128 T layout ch sb128w F before t y m) : (t.w, t.h) ∈ Ipred.txSizes ∧ TbIn f T (ch.plane layout) t := by
  obtain ⟨s, st, info, after, h1, h2⟩ := N.run
  exact tile_in N.symbols N.pass N.tile h1 N.layouts N.i422 ch info (by rw [h2]; exact List.mem_append_right _ (List.mem_cons_self ..)) N.intra

theorem Now.size (N : Now S f sb128 T layout ch sb128w F before t y m) : 1 ≤ t.w ∧ t.w ≤ 16 ∧ 1 ≤ t.h ∧ t.h ≤ 16 :=
  Ipred.txSizes_range _ N.place.1

/-- **C72.** Everything that dav1d_prepare_intra_edges reads for a transform block is there: the samples before the loop filters,
reconstructed in this tile, whether they are still in the picture or in the copy of the row above the superblock row. -/
theorem C72_reads (N : Now S f sb128 T layout ch sb128w F before t y m) (filterEdge : Bool) :
    (prepOf sb128w sb128 (ch.plane layout) T filterEdge m t).Reads F :=
  reads_ok N.tile (chan_plane N.i422 ch) N.edges N.reach N.row N.size.1 N.size.2.2.1 filterEdge

theorem Now.tx (N : Now S f sb128 T layout ch sb128w F before t y m) (filterEdge : Bool) :
    (prepOf sb128w sb128 (ch.plane layout) T filterEdge m t).Tx := by
  have h := N.edges.start
  have hx1 : (T.inPlane (ch.plane layout)).x1 = T.x1 >>> (ch.plane layout).ssH := (Nat.shiftRight_eq_div_pow _ _).symm
  have hy1 : (T.inPlane (ch.plane layout)).y1 = T.y1 >>> (ch.plane layout).ssV := (Nat.shiftRight_eq_div_pow _ _).symm
  unfold Tile.has at h
  refine ⟨?_, ?_, N.place.1⟩ <;> simp only [prepOf, ← hx1, ← hy1] <;> omega

theorem ends {x1 bw ss : Nat} (hs : ss ≤ 1) (hb : bw % 2 = 0) (h : x1 ≤ bw) : x1 / 2 ^ ss ≤ bw / 2 ^ ss ∧ ((4 * bw) >>> ss : Nat) = 4 * (bw / 2 ^ ss) :=
  ⟨Nat.div_le_div_right h, four_shift hs hb⟩

/-- **C72.** The neighbours that dav1d uses are those of the specification, which does not look at the end of the tile but at the
end of the frame and at what was decoded before. -/
theorem C72_rows (N : Now S f sb128 T layout ch sb128w F before t y m) (filterEdge : Bool) (d : Depth) {art bll : Bool}
    (hav : Avail (T.inPlane (ch.plane layout)) before t art bll) :
    Ipred.Spec.aboveRow d F (prepOf sb128w sb128 (ch.plane layout) T filterEdge m t).block =
      Ipred.Spec.aboveRow d F (specBlock f (ch.plane layout) (T.inPlane (ch.plane layout)) art bll t) ∧
    Ipred.Spec.leftCol d F (prepOf sb128w sb128 (ch.plane layout) T filterEdge m t).block =
      Ipred.Spec.leftCol d F (specBlock f (ch.plane layout) (T.inPlane (ch.plane layout)) art bll t) := by
  have hE := N.edges
  obtain ⟨hw1, -, hh1, -⟩ := N.size
  obtain ⟨-, ⟨fx, fy⟩⟩ := N.place
  obtain ⟨hH, hV⟩ := plane_ss (chan_plane N.i422 ch)
  have hs := hE.start
  have eL : t.left = decide ((T.inPlane (ch.plane layout)).x0 < t.x) := hE.left_eq
  have eT : t.top = decide ((T.inPlane (ch.plane layout)).y0 < t.y) := hE.top_eq
  have hx1 : (T.inPlane (ch.plane layout)).x1 = T.x1 >>> (ch.plane layout).ssH := (Nat.shiftRight_eq_div_pow _ _).symm
  have hy1 : (T.inPlane (ch.plane layout)).y1 = T.y1 >>> (ch.plane layout).ssV := (Nat.shiftRight_eq_div_pow _ _).symm
  have hx1' : (T.inPlane (ch.plane layout)).x1 = T.x1 / 2 ^ (ch.plane layout).ssH := rfl
  have hy1' : (T.inPlane (ch.plane layout)).y1 = T.y1 / 2 ^ (ch.plane layout).ssV := rfl
  obtain ⟨bx, bx'⟩ := ends (x1 := T.x1) hH N.tile.bw (by have := N.tile.x1; omega)
  obtain ⟨by1, by1'⟩ := ends (x1 := T.y1) hV N.tile.bh (by have := N.tile.y1; omega)
  have fx' : f.bw / 2 ^ (ch.plane layout).ssH = (T.inPlane (ch.plane layout)).x1 ∨ t.x + t.w = (T.inPlane (ch.plane layout)).x1 ∨ t.x + 2 * t.w ≤ (T.inPlane (ch.plane layout)).x1 := by
    rcases fx with h | h
    · left; rw [hx1', h]
    · exact .inr h
  have fy' : f.bh / 2 ^ (ch.plane layout).ssV = (T.inPlane (ch.plane layout)).y1 ∨ t.y + t.h = (T.inPlane (ch.plane layout)).y1 ∨ t.y + 2 * t.h ≤ (T.inPlane (ch.plane layout)).y1 := by
    rcases fy with h | h
    · left; rw [hy1', h]
    · exact .inr h
  rw [← hx1'] at bx
  rw [← hy1'] at by1
  have above : Ipred.Spec.aboveRow d F (prepOf sb128w sb128 (ch.plane layout) T filterEdge m t).block =
      Ipred.Spec.aboveRow d F (specBlock f (ch.plane layout) (T.inPlane (ch.plane layout)) art bll t) := by
    funext i
    unfold Ipred.Spec.aboveRow
    simp only [prepOf, specBlock, eL, eT, bx', ← hx1]
    by_cases hi : i = -1
    · rw [if_pos hi, if_pos hi]
    · rw [if_neg hi, if_neg hi]
      by_cases h0 : (T.inPlane (ch.plane layout)).y0 < t.y
      · have hdec : decide ((T.inPlane (ch.plane layout)).y0 < t.y) = true := decide_eq_true h0
        simp only [hdec, if_true]
        congr 1
        have htr : t.x + t.w < (T.inPlane (ch.plane layout)).x1 → t.tr = art := by
          intro hlt
          have hhas : (T.inPlane (ch.plane layout)).has (t.x + t.w) (t.y - 1) := by unfold Tile.has at hs ⊢; omega
          have h1 := hE.topRight h0 0 (by omega) hhas
          have h2 := hav.aboveRt
          rw [Nat.add_zero] at h1
          rw [Bool.eq_iff_iff, h1, h2]
          exact ⟨fun h => ⟨by omega, hhas, h⟩, fun h => h.2.2⟩
        have hart : t.x + t.w = (T.inPlane (ch.plane layout)).x1 → art = false := by
          intro he
          refine Bool.eq_false_iff.2 fun h => ?_
          have := (hav.aboveRt.1 h).2.1
          unfold Tile.has at this
          omega
        generalize hP1 : (T.inPlane (ch.plane layout)).x1 = P1 at *
        generalize f.bw / 2 ^ (ch.plane layout).ssH = B1 at *
        push_cast
        apply col_eq (by omega) (by omega)
        rcases fx' with h | h | h
        · by_cases hlt : t.x + t.w < P1
          · exact .inl ⟨by omega, .inl (htr hlt)⟩
          · exact .inl ⟨by omega, .inr (by omega)⟩
        · exact .inr (.inl ⟨by omega, by omega, hart h⟩)
        · exact .inr (.inr ⟨by omega, by omega, htr (by omega)⟩)
      · have hdec : decide ((T.inPlane (ch.plane layout)).y0 < t.y) = false := decide_eq_false h0
        simp only [hdec, Bool.false_eq_true, if_false]
  refine ⟨above, ?_⟩
  funext i
  unfold Ipred.Spec.leftCol
  rw [above]
  simp only [prepOf, specBlock, eL, eT, by1', ← hy1]
  by_cases hi : i = -1
  · rw [if_pos hi, if_pos hi]
  · rw [if_neg hi, if_neg hi]
    by_cases h0 : (T.inPlane (ch.plane layout)).x0 < t.x
    · have hdec : decide ((T.inPlane (ch.plane layout)).x0 < t.x) = true := decide_eq_true h0
      simp only [hdec, if_true]
      congr 1
      have htr : t.y + t.h < (T.inPlane (ch.plane layout)).y1 → t.bl = bll := by
        intro hlt
        have hhas : (T.inPlane (ch.plane layout)).has (t.x - 1) (t.y + t.h) := by unfold Tile.has at hs ⊢; omega
        have h1 := hE.bottomLeft h0 0 (by omega) hhas
        have h2 := hav.belowLft
        rw [Nat.add_zero] at h1
        rw [Bool.eq_iff_iff, h1, h2]
        exact ⟨fun h => ⟨by omega, hhas, h⟩, fun h => h.2.2⟩
      have hart : t.y + t.h = (T.inPlane (ch.plane layout)).y1 → bll = false := by
        intro he
        refine Bool.eq_false_iff.2 fun h => ?_
        have := (hav.belowLft.1 h).2.1
        unfold Tile.has at this
        omega
      generalize hP1 : (T.inPlane (ch.plane layout)).y1 = P1 at *
      generalize f.bh / 2 ^ (ch.plane layout).ssV = B1 at *
      push_cast
      rw [Int.min_comm (4 * (t.w : Int))]
      apply col_eq (by omega) (by omega)
      rcases fy' with h | h | h
      · by_cases hlt : t.y + t.h < P1
        · exact .inl ⟨by omega, .inl (htr hlt)⟩
        · exact .inl ⟨by omega, .inr (by omega)⟩
      · exact .inr (.inl ⟨by omega, by omega, hart h⟩)
      · exact .inr (.inr ⟨by omega, by omega, htr (by omega)⟩)
    · have hdec : decide ((T.inPlane (ch.plane layout)).x0 < t.x) = false := decide_eq_false h0
      simp only [hdec, Bool.false_eq_true, if_false]

/-- The last column and row that matter are the same for the specification, the end of the tile in `prepOf` and max_width. -/
theorem max_eq (N : Now S f sb128 T layout ch sb128w F before t y m) :
    min (4 * (t.w : Int)) (maxWidth f (ch.plane layout) t) = min (4 * (t.w : Int)) (4 * ((T.x1 >>> (ch.plane layout).ssH : Nat) - (t.x : Int))) ∧
    min (4 * (t.h : Int)) (maxHeight f (ch.plane layout) t) = min (4 * (t.h : Int)) (4 * ((T.y1 >>> (ch.plane layout).ssV : Nat) - (t.y : Int))) ∧
    min (4 * (t.w : Int)) ((((4 * f.bw) >>> (ch.plane layout).ssH : Nat) : Int) - 1 - 4 * t.x + 1) = min (4 * (t.w : Int)) (4 * ((T.x1 >>> (ch.plane layout).ssH : Nat) - (t.x : Int))) ∧
    min (4 * (t.h : Int)) ((((4 * f.bh) >>> (ch.plane layout).ssV : Nat) : Int) - 1 - 4 * t.y + 1) = min (4 * (t.h : Int)) (4 * ((T.y1 >>> (ch.plane layout).ssV : Nat) - (t.y : Int))) := by
  obtain ⟨-, ⟨fx, fy⟩⟩ := N.place
  obtain ⟨hH, hV⟩ := plane_ss (chan_plane N.i422 ch)
  have hx1 : (T.inPlane (ch.plane layout)).x1 = T.x1 >>> (ch.plane layout).ssH := (Nat.shiftRight_eq_div_pow _ _).symm
  have hy1 : (T.inPlane (ch.plane layout)).y1 = T.y1 >>> (ch.plane layout).ssV := (Nat.shiftRight_eq_div_pow _ _).symm
  rw [hx1] at fx
  rw [hy1] at fy
  have b1 := N.tile.bw
  have b2 := N.tile.bh
  have b3 := N.tile.x1
  have b4 := N.tile.y1
  unfold maxWidth maxHeight
  have cx : (ch.plane layout).ssH = 0 ∨ (ch.plane layout).ssH = 1 := by omega
  have cy : (ch.plane layout).ssV = 0 ∨ (ch.plane layout).ssV = 1 := by omega
  refine ⟨?_, ?_, ?_, ?_⟩
  · rcases cx with h | h <;> rw [h] at fx ⊢ <;> simp only [Nat.shiftRight_eq_div_pow, Nat.shiftLeft_eq] at fx ⊢ <;> push_cast <;> omega
  · rcases cy with h | h <;> rw [h] at fy ⊢ <;> simp only [Nat.shiftRight_eq_div_pow, Nat.shiftLeft_eq] at fy ⊢ <;> push_cast <;> omega
  · rcases cx with h | h <;> rw [h] at fx ⊢ <;> simp only [Nat.shiftRight_eq_div_pow] at fx ⊢ <;> push_cast <;> omega
  · rcases cy with h | h <;> rw [h] at fy ⊢ <;> simp only [Nat.shiftRight_eq_div_pow] at fy ⊢ <;> push_cast <;> omega

section
variable (N : Now S f sb128 T layout ch sb128w F before t y m) {d : Depth} (hF : Ipred.Pixels d F) {art bll : Bool}
  (hav : Avail (T.inPlane (ch.plane layout)) before t art bll) (filterEdge : Bool)
include N hF hav

/-- **C72.** In a directional mode dav1d predicts in each row `r` and column `c` of the transform block what the AV1 specification says. -/
theorem C72_directional (mode : Fin 8) {delta : Int} (hd : -3 ≤ delta ∧ delta ≤ 3) (sm : Bool) {r c : Nat} (hr : r < 4 * t.h) (hc : c < 4 * t.w) :
    (prepOf sb128w sb128 (ch.plane layout) T filterEdge m t).predict d (.dir mode) delta (Ipred.dirFlags filterEdge sm)
        (maxWidth f (ch.plane layout) t) (maxHeight f (ch.plane layout) t) c r =
      some (let B := specBlock f (ch.plane layout) (T.inPlane (ch.plane layout)) art bll t
        Ipred.Spec.directional d (Ipred.Spec.aboveRow d F B) (Ipred.Spec.leftCol d F B) (specDirOf B filterEdge sm)
          (Ipred.Spec.modeToAngle[mode]'mode.2 + 3 * delta) r c) := by
  obtain ⟨m1, m2, m3, m4⟩ := max_eq N
  have hp := Ipred.C58_directional (p := prepOf sb128w sb128 (ch.plane layout) T filterEdge m t) (N.tx filterEdge).sized (C72_reads N filterEdge) hF mode hd sm m1 m2 hc hr
  rw [(C72_rows N filterEdge d hav).1, (C72_rows N filterEdge d hav).2] at hp
  refine hp.trans (congrArg some ?_)
  have eL : t.left = decide ((T.inPlane (ch.plane layout)).x0 < t.x) := N.edges.left_eq
  have eT : t.top = decide ((T.inPlane (ch.plane layout)).y0 < t.y) := N.edges.top_eq
  rw [directional_congr (x' := ((specBlock f (ch.plane layout) (T.inPlane (ch.plane layout)) art bll t).maxX - (specBlock f (ch.plane layout) (T.inPlane (ch.plane layout)) art bll t).x + 1))
    (y' := ((specBlock f (ch.plane layout) (T.inPlane (ch.plane layout)) art bll t).maxY - (specBlock f (ch.plane layout) (T.inPlane (ch.plane layout)) art bll t).y + 1))
    (by simp only [prepOf, specBlock]; push_cast; exact m3.symm) (by simp only [prepOf, specBlock]; push_cast; exact m4.symm)]
  simp only [prepOf, specBlock, specDirOf, eL, eT]

/-- **C72.** The same for the prediction by the average. -/
theorem C72_dc (delta : Int) (flags : Nat) (maxW maxH : Int) (r c : Nat) :
    (prepOf sb128w sb128 (ch.plane layout) T filterEdge m t).predict d .dc delta flags maxW maxH c r =
      some (let B := specBlock f (ch.plane layout) (T.inPlane (ch.plane layout)) art bll t
        Ipred.Spec.dc d (Ipred.Spec.aboveRow d F B) (Ipred.Spec.leftCol d F B) B.haveLeft B.haveAbove B.w B.h) := by
  rw [Ipred.C58_dc (N.tx filterEdge) (C72_reads N filterEdge) hF delta flags maxW maxH c r, (C72_rows N filterEdge d hav).1, (C72_rows N filterEdge d hav).2]
  have eL : t.left = decide ((T.inPlane (ch.plane layout)).x0 < t.x) := N.edges.left_eq
  have eT : t.top = decide ((T.inPlane (ch.plane layout)).y0 < t.y) := N.edges.top_eq
  simp only [prepOf, specBlock, eL, eT]

/-- **C72.** The same for the smooth predictions. -/
theorem C72_smooth (delta : Int) (flags : Nat) (maxW maxH : Int) {r c : Nat} (hr : r < 4 * t.h) (hc : c < 4 * t.w) :
    (prepOf sb128w sb128 (ch.plane layout) T filterEdge m t).predict d .smooth delta flags maxW maxH c r =
      some (let B := specBlock f (ch.plane layout) (T.inPlane (ch.plane layout)) art bll t
        Ipred.Spec.smooth (Ipred.Spec.aboveRow d F B) (Ipred.Spec.leftCol d F B) B.w B.h r c) ∧
    (prepOf sb128w sb128 (ch.plane layout) T filterEdge m t).predict d .smoothV delta flags maxW maxH c r =
      some (let B := specBlock f (ch.plane layout) (T.inPlane (ch.plane layout)) art bll t
        Ipred.Spec.smoothV (Ipred.Spec.aboveRow d F B) (Ipred.Spec.leftCol d F B) B.h r c) ∧
    (prepOf sb128w sb128 (ch.plane layout) T filterEdge m t).predict d .smoothH delta flags maxW maxH c r =
      some (let B := specBlock f (ch.plane layout) (T.inPlane (ch.plane layout)) art bll t
        Ipred.Spec.smoothH (Ipred.Spec.aboveRow d F B) (Ipred.Spec.leftCol d F B) B.w r c) := by
  have h1 := Ipred.C58_smooth (N.tx filterEdge) (C72_reads N filterEdge) hF delta flags maxW maxH hc hr
  have h2 := Ipred.C58_smoothV (N.tx filterEdge) (C72_reads N filterEdge) hF delta flags maxW maxH hc hr
  have h3 := Ipred.C58_smoothH (N.tx filterEdge) (C72_reads N filterEdge) hF delta flags maxW maxH hc hr
  rw [(C72_rows N filterEdge d hav).1, (C72_rows N filterEdge d hav).2] at h1 h2 h3
  exact ⟨h1, h2, h3⟩

omit hF in
/-- **C72.** The same for the Paeth prediction. -/
theorem C72_paeth (delta : Int) (flags : Nat) (maxW maxH : Int) {r c : Nat} (hr : r < 4 * t.h) (hc : c < 4 * t.w) :
    (prepOf sb128w sb128 (ch.plane layout) T filterEdge m t).predict d .paeth delta flags maxW maxH c r =
      some (let B := specBlock f (ch.plane layout) (T.inPlane (ch.plane layout)) art bll t
        Ipred.Spec.paeth (Ipred.Spec.aboveRow d F B) (Ipred.Spec.leftCol d F B) r c) := by
  have h := Ipred.C58_paeth (d := d) (N.tx filterEdge) (C72_reads N filterEdge) delta flags maxW maxH hc hr
  rwa [(C72_rows N filterEdge d hav).1, (C72_rows N filterEdge d hav).2] at h

omit hF in
/-- **C72.** The same for the recursive filter prediction. -/
theorem C72_filter {mode : Nat} (hm : mode < 5) (filter sm : Bool) (maxW maxH : Int) :
    ∃ P : Int → Int → Int, (∀ r c : Nat, r < 4 * t.h → c < 4 * t.w →
        (prepOf sb128w sb128 (ch.plane layout) T filterEdge m t).predict d .filter mode (Ipred.dirFlags filter sm) maxW maxH c r = some (P r c)) ∧
      (let B := specBlock f (ch.plane layout) (T.inPlane (ch.plane layout)) art bll t;
        Ipred.Spec.Recursive d (Ipred.Spec.aboveRow d F B) (Ipred.Spec.leftCol d F B) (Ipred.Spec.filterTap mode) B.w B.h P) := by
  obtain ⟨P, h1, h2⟩ := Ipred.C59_filter (d := d) (N.tx filterEdge) (C72_reads N filterEdge) hm filter sm maxW maxH
  rw [(C72_rows N filterEdge d hav).1, (C72_rows N filterEdge d hav).2] at h2
  exact ⟨P, fun r c hr hc => h1 c r hc hr, h2⟩

end

end

/-- **C72.** Tiles do not overwrite each other's copies, nor do later superblock rows overwrite those of earlier ones: the copy of the
last row of a superblock row by a tile `U` next to `T`, or by any tile in another superblock row, leaves what `T` has in row `n` of
the buffer. f->sb128w is set in src/decode.c:3558. -/
theorem C72_other_tiles {f : Frame} {sb128 : Bool} {p : Plane} {T U : Tile} (hs : p.ssH ≤ 1) (hT : TileOk f sb128 T) (hU : TileOk f sb128 U) (hU' : U.x0 ≤ U.x1)
    {y : Nat} {m : Mem} {n : Nat} (hne : n ≠ y / sbStep sb128 ∨ U.x1 ≤ T.x0 ∨ T.x1 ≤ U.x0)
    (c : Int) (hc : 4 * ((T.inPlane p).x0 : Int) ≤ c) (hc' : c < 4 * ((T.inPlane p).x1 : Int)) :
    (backupEdge ((f.bw + 31) >>> 5) sb128 p U y m).edge (((f.bw + 31) >>> 5 : Nat) * 128 * n + c) = m.edge (((f.bw + 31) >>> 5 : Nat) * 128 * n + c) := by
  obtain ⟨ht1, ht2, -, -⟩ := tile_even hT
  obtain ⟨hu1, hu2, -, -⟩ := tile_even hU
  simp only [backupEdge]
  apply if_neg
  have hx1 := hT.x1
  have hx2 := hU.x1
  have hW1 : f.bw * 4 ≤ (f.bw + 31) >>> 5 * 128 := by rw [Nat.shiftRight_eq_div_pow]; omega
  rw [sb_shift]
  generalize y / sbStep sb128 = k at *
  generalize (f.bw + 31) >>> 5 = w at *
  generalize hW : w * 128 = W at *
  have hW' : (w : Int) * 128 = W := by omega
  rw [hW']
  have hmul : n = k ∨ (W : Int) * n + W ≤ W * k ∨ (W : Int) * k + W ≤ W * n := by
    rcases Nat.lt_trichotomy n k with h | h | h
    · right; left
      have : W * (n + 1) ≤ W * k := Nat.mul_le_mul_left _ h
      rw [Nat.mul_add, Nat.mul_one] at this
      exact_mod_cast this
    · exact .inl h
    · right; right
      have : W * (k + 1) ≤ W * n := Nat.mul_le_mul_left _ h
      rw [Nat.mul_add, Nat.mul_one] at this
      exact_mod_cast this
  have hnk : n = k → (W : Int) * n = W * k := fun h => by rw [h]
  rw [Nat.cast_mul W k]
  unfold Tile.inPlane at hc hc'
  generalize (W : Int) * n = A at *
  generalize (W : Int) * k = B at *
  have hss : p.ssH = 0 ∨ p.ssH = 1 := by omega
  rcases hss with h | h <;> rw [h] at hc hc' ⊢ <;> simp only [Nat.shiftRight_eq_div_pow] at hc hc' ⊢ <;> push_cast at hc hc' ⊢ <;> omega

/-- **C72.** The copies fit into the buffer, which has f->sbh rows of f->sb128w * 128 samples (src/decode.c:3043-3047, 3558 and 3562). -/
theorem C72_buffer {f : Frame} {sb128 : Bool} {p : Plane} {T : Tile} (hT : TileOk f sb128 T) (hT' : T.x0 ≤ T.x1) {y : Nat} (hy : y < f.bh) (m : Mem) (k : Int)
    (hk : (backupEdge ((f.bw + 31) >>> 5) sb128 p T y m).edge k ≠ m.edge k) :
    0 ≤ k ∧ k < ((f.bh + sbStep sb128 - 1) >>> sbShift sb128 : Nat) * ((f.bw + 31) >>> 5 : Nat) * 128 := by
  simp only [backupEdge] at hk
  have h := (ite_ne_right_iff.1 hk).1
  obtain ⟨h1, h2⟩ := h
  rw [sb_shift] at h1 h2 ⊢
  have hx1 := hT.x1
  have hW1 : f.bw * 4 ≤ (f.bw + 31) >>> 5 * 128 := by rw [Nat.shiftRight_eq_div_pow]; omega
  have hrow : y / sbStep sb128 + 1 ≤ (f.bh + sbStep sb128 - 1) / sbStep sb128 := by
    cases sb128 <;> simp only [sbStep, if_true, Bool.false_eq_true, if_false] <;> omega
  generalize (f.bw + 31) >>> 5 = w at *
  have hm := Nat.mul_le_mul_left (w * 128) hrow
  rw [Nat.mul_add, Nat.mul_one] at hm
  have hs : (T.x0 * 4) >>> p.ssH + (4 * (T.x1 - T.x0)) >>> p.ssH ≤ w * 128 := by
    have h3 := Nat.div_le_self (T.x0 * 4) (2 ^ p.ssH)
    have h4 := Nat.div_le_self (4 * (T.x1 - T.x0)) (2 ^ p.ssH)
    rw [Nat.shiftRight_eq_div_pow, Nat.shiftRight_eq_div_pow]
    omega
  have e : ((f.bh + sbStep sb128 - 1) / sbStep sb128 : Nat) * (w : Int) * 128 = ((w * 128 * ((f.bh + sbStep sb128 - 1) / sbStep sb128) : Nat) : Int) := by
    push_cast; ring
  rw [e]
  generalize (T.x0 * 4) >>> p.ssH = u at *
  generalize (4 * (T.x1 - T.x0)) >>> p.ssH = v at *
  omega

/-! ## An example -/

theorem madePx_dec (t : Tb) (r c : Int) : MadePx [t] r c ↔ 4 * (t.x : Int) ≤ c ∧ c < 4 * (t.x + t.w : Nat) ∧ 4 * (t.y : Int) ≤ r ∧ r < 4 * (t.y + t.h : Nat) := by
  constructor
  · rintro ⟨a, b, ⟨u, hu, h⟩, h1, h2, h3, h4⟩
    obtain rfl := List.mem_singleton.1 hu
    unfold Tb.covers at h
    omega
  · intro h
    exact ⟨(c / 4).toNat, (r / 4).toNat, ⟨t, List.mem_singleton.2 rfl, by unfold Tb.covers; omega⟩, by omega, by omega, by omega, by omega⟩

/-- Whatever is to be reconstructed, there is a memory where it is. -/
theorem reach_recons {sb128w : Nat} {sb128 : Bool} {p : Plane} {T : Tile} {F : Int → Int → Int} (ts : List Tb) :
    ∀ {done : List Tb} {y : Nat} {m : Mem}, Reach sb128w sb128 p T F done y m → ∃ m', Reach sb128w sb128 p T F (done ++ ts) y m' := by
  induction ts with
  | nil => intro done y m h; exact ⟨m, by rwa [List.append_nil]⟩
  | cons t ts ih =>
    intro done y m h
    have h' : Reach sb128w sb128 p T F (done ++ [t]) y
        ⟨fun r c => if 4 * (t.x : Int) ≤ c ∧ c < 4 * (t.x + t.w : Nat) ∧ 4 * (t.y : Int) ≤ r ∧ r < 4 * (t.y + t.h : Nat) then some (F r c) else m.px r c, m.edge⟩ :=
      .recon h (fun r c hm => if_pos ((madePx_dec t r c).1 hm)) (fun r c hm => if_neg (fun h => hm ((madePx_dec t r c).2 h))) rfl
    obtain ⟨m', hm⟩ := ih h'
    exact ⟨m', by rwa [List.append_assoc] at hm⟩

/-- A block of 32x32 samples in the second superblock row of `wideRun`, with samples all around; those above and above on the right
are in the copy of the last row of the first superblock row. -/
example (F : Int → Int → Int) : ∃ m, Now scripted wideFrame true wideTile 2 .y 2 F ((wideTbs .y).take 36) ⟨16, 32, 8, 8, true, true, true, true, true⟩ 32 m ∧
    Avail (wideTile.inPlane (Chan.y.plane 2)) ((wideTbs .y).take 36) ⟨16, 32, 8, 8, true, true, true, true, true⟩ true true := by
  have hm : ∃ m, Reach 2 true (Chan.y.plane 2) wideTile F ((wideTbs .y).take 36) 32 m := by
    obtain ⟨m1, h1⟩ := reach_recons ((wideTbs .y).take 32) (Reach.start (sb128w := 2) (sb128 := true) (p := Chan.y.plane 2) (T := wideTile) (F := F) ⟨fun _ _ => none, fun _ => none⟩)
    have h2 := Reach.row h1 (by
      have hd : ∀ a < 64, ∀ b < 32, ∃ t ∈ (wideTbs .y).take 32, t.covers a b := by decide +kernel
      intro a b hab hb
      exact hd a (by unfold Tile.has at hab; exact hab.2.1) b hb)
    obtain ⟨m2, h3⟩ := reach_recons (((wideTbs .y).take 36).drop 32) h2
    refine ⟨m2, ?_⟩
    have e : [] ++ (wideTbs .y).take 32 ++ ((wideTbs .y).take 36).drop 32 = (wideTbs .y).take 36 := by decide +kernel
    rw [e] at h3
    exact h3
  obtain ⟨m, hm⟩ := hm
  refine ⟨m, ⟨scripted_range, by decide, wideTile_ok, by decide, by decide, ?_, rfl, hm, by decide⟩, ?_, ?_⟩
  · exact ⟨[], _, fun _ => some (false, 1), (wideTbs .y).drop 37, rfl, by decide +kernel⟩
  · simp only [true_iff]
    refine ⟨by decide, by unfold Tile.has; decide, ?_⟩
    have : ∃ t ∈ (wideTbs .y).take 36, t.covers 24 31 := by decide +kernel
    exact this
  · simp only [true_iff]
    refine ⟨by decide, by unfold Tile.has; decide, ?_⟩
    have : ∃ t ∈ (wideTbs .y).take 36, t.covers 15 40 := by decide +kernel
    exact this

end Dav1d.Part
