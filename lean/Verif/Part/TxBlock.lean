import Verif.Part.TxLemmas
import Verif.Part.Tile
/-!
# The transform blocks of a tile
-/
set_option linter.unusedVariables false
namespace Dav1d.Part

theorem bs_pow (bs : Nat) : (bsW bs = 0 ∨ ∃ i, bsW bs = 2 ^ i) ∧ (bsH bs = 0 ∨ ∃ i, bsH bs = 2 ^ i) := by
  have h22 : ∀ b < 22, (∃ i < 6, bsW b = 2 ^ i) ∧ (∃ i < 6, bsH b = 2 ^ i) := by decide
  by_cases h : bs < 22
  · obtain ⟨⟨i, _, h1⟩, ⟨j, _, h2⟩⟩ := h22 bs h
    exact ⟨.inr ⟨i, h1⟩, .inr ⟨j, h2⟩⟩
  · have hl : Tables.blockDims.length = 22 := rfl
    have h0 : Tables.blockDims.getD bs [] = [] := by
      rw [List.getD_eq_getElem?_getD, List.getElem?_eq_none (by omega)]; rfl
    exact ⟨.inl (by unfold bsW; rw [h0]; rfl), .inl (by unfold bsH; rw [h0]; rfl)⟩

theorem pow_mod {i j : Nat} (h : 2 ^ i ≤ 2 ^ j) : 2 ^ j % 2 ^ i = 0 :=
  Nat.mod_eq_zero_of_dvd (Nat.pow_dvd_pow 2 ((Nat.pow_le_pow_iff_right (by decide)).1 h))

theorem half_pow {n ss : Nat} (hs : ss ≤ 1) (hn : ∃ i, n = 2 ^ i) : ∃ i, (n + ss) / 2 ^ ss = 2 ^ i := by
  obtain ⟨i, rfl⟩ := hn
  have : ss = 0 ∨ ss = 1 := by omega
  rcases this with rfl | rfl
  · exact ⟨i, by simp⟩
  · cases i with
    | zero => exact ⟨0, rfl⟩
    | succ i => exact ⟨i, by rw [Nat.pow_one, Nat.pow_succ]; omega⟩

theorem plane_ss {f : Frame} {p : Plane} (hp : p ∈ planes f) : p.ssH ≤ 1 ∧ p.ssV ≤ 1 := by
  unfold planes at hp
  simp only [List.mem_cons, List.not_mem_nil, or_false] at hp
  rcases hp with rfl | hp
  · decide
  · split at hp <;> subst hp <;> decide

theorem last_one {ss a : Nat} (hs : ss ≤ 1) : (ss = 0 ∧ (a + 1) * 2 ^ ss - 1 = a) ∨ (ss = 1 ∧ (a + 1) * 2 ^ ss - 1 = 2 * a + 1) := by
  have : ss = 0 ∨ ss = 1 := by omega
  rcases this with rfl | rfl
  · left; simp
  · right; rw [Nat.pow_one]; omega

theorem sb_even {sb128 : Bool} {n : Nat} (h : n % sbStep sb128 = 0) : n % 2 = 0 := by
  cases sb128 <;> simp only [sbStep] at h <;> simp at h <;> omega

theorem plane_has {f : Frame} {sb128 : Bool} {T : Tile} (hT : TileOk f sb128 T) {p : Plane} (hp : p ∈ planes f) (a b : Nat) :
    T.has (p.lastX a) (p.lastY b) ↔ (T.inPlane p).has a b := by
  obtain ⟨hH, hV⟩ := plane_ss hp
  have e1 := sb_even hT.x0
  have e2 := sb_even hT.y0
  have e3 : T.x1 % 2 = 0 := by rcases hT.x1 with h | h; · rw [h]; exact hT.bw
                               · exact sb_even h.1
  have e4 : T.y1 % 2 = 0 := by rcases hT.y1 with h | h; · rw [h]; exact hT.bh
                               · exact sb_even h.1
  unfold Tile.has Tile.inPlane Plane.lastX Plane.lastY
  rcases last_one (a := a) hH with ⟨h1, h2⟩ | ⟨h1, h2⟩ <;> rcases last_one (a := b) hV with ⟨h3, h4⟩ | ⟨h3, h4⟩ <;>
    rw [h2, h4, h1, h3] <;> simp only [Nat.pow_zero, Nat.pow_one, Nat.div_one] <;> omega

theorem hasPlane_iff (p : Plane) (c : Call) : hasPlane p c = true ↔ p.hasBlock c := by
  unfold hasPlane Plane.hasBlock
  rw [decide_eq_true_iff]

/-- A block covers the last luma unit of a unit of the plane exactly if it has this unit in the plane. -/
theorem covers_plane {f : Frame} {T : Tile} {log : List Ev} {c : Call} (hc : CallOk f T log c) {p : Plane} (hp : p ∈ planes f) (a b : Nat) :
    c.covers (p.lastX a) (p.lastY b) ↔ p.hasBlock c ∧ p.x c ≤ a ∧ a < p.x c + p.w c ∧ p.y c ≤ b ∧ b < p.y c + p.h c := by
  obtain ⟨hH, hV⟩ := plane_ss hp
  have e1 := hc.evenX
  have e2 := hc.evenY
  have e3 := hc.pos
  unfold Call.covers Plane.hasBlock Plane.lastX Plane.lastY Plane.x Plane.y Plane.w Plane.h
  generalize bsW c.bs = w at *
  generalize bsH c.bs = h at *
  rcases last_one (a := a) hH with ⟨h1, h2⟩ | ⟨h1, h2⟩ <;> rcases last_one (a := b) hV with ⟨h3, h4⟩ | ⟨h3, h4⟩ <;>
    rw [h2, h4, h1, h3] <;> simp only [Nat.pow_zero, Nat.pow_one, Nat.div_one] <;> omega

/-- The block in the plane. -/
def blkOf (f : Frame) (p : Plane) (c : Call) (tw th : Nat) : Blk :=
  ⟨p.x c, p.y c, p.w c, p.h c, (min (bsW c.bs) (f.bw - c.x) + p.ssH) >>> p.ssH, (min (bsH c.bs) (f.bh - c.y) + p.ssV) >>> p.ssV,
   16 >>> p.ssH, 16 >>> p.ssV, tw, th⟩

theorem clip_one {ss w cx bw x1 : Nat} (hs : ss ≤ 1) (hw : w = 1 ∨ (w % 2 = 0 ∧ cx % 2 = 0)) (h0 : 0 < w) (hb : bw % 2 = 0) (h1 : cx < x1) (h2 : x1 ≤ bw)
    (hi : x1 = bw ∨ cx + w ≤ x1) (hx : x1 % 2 = 0) (hss : w > ss ∨ cx % 2 = 1) :
    ((min w (bw - cx) + ss) >>> ss = (w + ss) / 2 ^ ss ∨
     ((min w (bw - cx) + ss) >>> ss ≤ (w + ss) / 2 ^ ss ∧ x1 / 2 ^ ss = cx / 2 ^ ss + (min w (bw - cx) + ss) >>> ss)) ∧
    cx / 2 ^ ss + (min w (bw - cx) + ss) >>> ss ≤ x1 / 2 ^ ss := by
  have : ss = 0 ∨ ss = 1 := by omega
  rcases this with rfl | rfl
  · simp only [Nat.shiftRight_zero, Nat.pow_zero, Nat.div_one, Nat.add_zero]; omega
  · simp only [Nat.shiftRight_eq_div_pow, Nat.pow_one]; omega

theorem blk_ok {f : Frame} {sb128 : Bool} {T : Tile} (hT : TileOk f sb128 T) {log : List Ev} {c : Call} (hc : CallOk f T log c) {p : Plane} (hp : p ∈ planes f)
    (hb : p.hasBlock c) {tw th : Nat} (ht : TxFits p c tw th) :
    (blkOf f p c tw th).Ok (T.inPlane p).has (fun a b => Decoded log (p.lastX a) (p.lastY b)) (c.flags.testBit p.bit = true)
      (c.flags.testBit (p.bit + 3) = true) := by
  have hI := plane_has hT hp
  have ha := hc.around p hp hb
  have hcov := covers_plane hc hp
  obtain ⟨hH, hV⟩ := plane_ss hp
  have e3 : T.x1 % 2 = 0 := by rcases hT.x1 with h | h; · rw [h]; exact hT.bw
                               · exact sb_even h.1
  have e4 : T.y1 % 2 = 0 := by rcases hT.y1 with h | h; · rw [h]; exact hT.bh
                               · exact sb_even h.1
  have hst := hc.start
  unfold Tile.has at hst
  have hb' := hb
  unfold Plane.hasBlock at hb'
  have cX := clip_one hH hc.evenX hc.pos.1 hT.bw hst.2.1 (by have := hT.x1; omega) hc.insX e3 hb'.1
  have cY := clip_one hV hc.evenY hc.pos.2 hT.bh hst.2.2.2 (by have := hT.y1; omega) hc.insY e4 hb'.2
  obtain ⟨⟨i, rfl⟩, ⟨j, rfl⟩, t1, t2, t3, t4⟩ := ht
  obtain ⟨iw, hw⟩ := half_pow hH ((bs_pow c.bs).1.resolve_left (by have := hc.pos; omega))
  obtain ⟨ih, hh⟩ := half_pow hV ((bs_pow c.bs).2.resolve_left (by have := hc.pos; omega))
  have s16 : ∀ ss ≤ 1, 16 >>> ss = 16 / 2 ^ ss ∧ 0 < 16 >>> ss ∧ ∃ q, 16 / 2 ^ ss = 2 ^ q := by
    intro ss hs
    have : ss = 0 ∨ ss = 1 := by omega
    rcases this with rfl | rfl
    · exact ⟨rfl, by decide, 4, rfl⟩
    · exact ⟨rfl, by decide, 3, rfl⟩
  obtain ⟨s1, s2, q1, s3⟩ := s16 _ hH
  obtain ⟨s4, s5, q2, s6⟩ := s16 _ hV
  have x0h : T.x0 / 2 ^ p.ssH ≤ c.x / 2 ^ p.ssH := Nat.div_le_div_right hst.1
  have y0h : T.y0 / 2 ^ p.ssV ≤ c.y / 2 ^ p.ssV := Nat.div_le_div_right hst.2.2.1
  refine ⟨?_, ?_, ?_, ?_, ?_, ?_, ?_, ?_, ?_, ?_, ?_, ?_, ?_, ?_, ?_, ?_, ?_, ?_, ?_⟩
  · intro x y h1 h2 h3 h4
    exact hc.fresh _ _ ((hcov _ _).2 ⟨hb, Nat.le_add_right _ _, Nat.add_lt_add_left h1 _, Nat.le_add_right _ _, Nat.add_lt_add_left h2 _⟩) h4
  · intro x y h1 h2
    dsimp only [blkOf] at h1 h2 ⊢
    unfold Tile.has Tile.inPlane Plane.x Plane.y
    dsimp only
    omega
  · intro x y h1 h2 h3; exact ha.tr x y h1 h2 ((hI _ _).2 h3)
  · intro x y h1 h2 h3; exact ha.bl x y h1 h2 ((hI _ _).2 h3)
  · intro x y h1 h2 h3; exact ha.top x y h1 h2 ((hI _ _).2 h3)
  · intro x y h1 h2 h3; exact ha.left x y h1 h2 ((hI _ _).2 h3)
  · intro x y h1 h2 h3; exact ha.corner x y h1 h2 ((hI _ _).2 h3)
  · intro x y h1 h2 h3; exact ha.right x y h1 h2 ((hI _ _).2 h3)
  · intro x y h1 h2 h3; exact ha.below x y h1 h2 ((hI _ _).2 h3)
  · refine cX.1.imp id fun h => ⟨h.1, fun a b hab => ?_⟩
    have := hab.2.1
    unfold Tile.inPlane at this
    dsimp only at this
    dsimp only [blkOf, Plane.x]
    omega
  · refine cY.1.imp id fun h => ⟨h.1, fun a b hab => ?_⟩
    have := hab.2.2.2
    unfold Tile.inPlane at this
    dsimp only at this
    dsimp only [blkOf, Plane.y]
    omega
  · exact Nat.pow_pos (by decide)
  · exact Nat.pow_pos (by decide)
  · exact s2
  · exact s5
  · show p.w c % 2 ^ i = 0
    unfold Plane.w at t1 ⊢
    rw [hw] at t1 ⊢
    exact pow_mod t1
  · show p.h c % 2 ^ j = 0
    unfold Plane.h at t2 ⊢
    rw [hh] at t2 ⊢
    exact pow_mod t2
  · show (16 >>> p.ssH) % 2 ^ i = 0
    rw [s1, s3]
    rw [s3] at t3
    exact pow_mod t3
  · show (16 >>> p.ssV) % 2 ^ j = 0
    rw [s4, s6]
    rw [s6] at t4
    exact pow_mod t4

end Dav1d.Part
