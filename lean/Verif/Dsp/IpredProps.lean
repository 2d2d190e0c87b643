import Verif.Dsp.IpredEdge
/-!
# C58: directional intra prediction is as specified, from the plane to the predicted pixel
-/
namespace Dav1d.Ipred

open Lf

variable {d : Depth} {f : Int → Int → Int} {p : Prep}

theorem directional_congr (A L : Int → Int) {D D' : Spec.Dir} (pAngle : Int) (i j : Nat) (hw : D.w = D'.w) (hh : D.h = D'.h)
    (hf : D.filter = D'.filter) (hs : D.sm = D'.sm) (ha : D.haveAbove = D'.haveAbove) (hl : D.haveLeft = D'.haveLeft)
    (hx : min (D.w : Int) D.availX = min (D'.w : Int) D'.availX) (hy : min (D.h : Int) D.availY = min (D'.h : Int) D'.availY) :
    Spec.directional d A L D pAngle i j = Spec.directional d A L D' pAngle i j := by
  have hc : Spec.corner A L D pAngle = Spec.corner A L D' pAngle := by unfold Spec.corner; rw [hw, hh, hf]
  have hE : Spec.aboveEdge d A L D pAngle = Spec.aboveEdge d A L D' pAngle := by
    unfold Spec.aboveEdge; rw [hc, hf, ha, hx, hw, hh, hs]
  have hF : Spec.leftEdge d A L D pAngle = Spec.leftEdge d A L D' pAngle := by
    unfold Spec.leftEdge; rw [hc, hf, hl, hy, hw, hh, hs]
  unfold Spec.directional
  rw [hE, hF, hf, hw, hh, hs]

theorem upsample_flat {A : Int → Int} (hp : Px d A) {c n : Int} (hc : ∀ k, 0 ≤ k → A k = c) (h0 : c - 1 ≤ A (-1)) (h1 : A (-1) ≤ c + 1) (hn : 1 ≤ n)
    {k : Int} (hk : 0 ≤ k) : Spec.upsample d n A k = c := by
  have hq : ∀ v, 0 ≤ v → A (iclip v (-1) (n - 1)) = c := by
    intro v hv; refine hc _ ?_; unfold iclip; split_ifs <;> omega
  have hr : c - 1 ≤ A (iclip (k / 2 - 1) (-1) (n - 1)) ∧ A (iclip (k / 2 - 1) (-1) (n - 1)) ≤ c + 1 := by
    by_cases h : 0 ≤ k / 2 - 1
    · rw [hq _ h]; omega
    · rw [show iclip (k / 2 - 1) (-1) (n - 1) = -1 by unfold iclip; split_ifs <;> omega]; exact ⟨h0, h1⟩
  rw [upsample_eq]
  split
  · exact hc _ (by omega)
  · rw [hq (k / 2) (by omega), hq (k / 2 + 1) (by omega), hq (k / 2 + 2) (by omega)]
    have hcp := hp 0
    rw [hc 0 (le_refl _)] at hcp
    generalize A (iclip (k / 2 - 1) (-1) (n - 1)) = v at hr
    rw [show asr (-v + 9 * c + 9 * c - c + 8) 4 = c by unfold asr; norm_num; omega, clip_id hcp]

/-- Without pixels above the prediction from above is the pixel that replaces them. -/
theorem z1_flat {A L : Int → Int} {D : Spec.Dir} (hp : Px d A) (hA : D.haveAbove = false) (hF : Flat A) (hw : 1 ≤ D.w) {pAngle : Int} (h36 : 0 ≤ Spec.derivative pAngle)
    (h90 : pAngle < 90) (i j : Nat) : Spec.directional d A L D pAngle i j = A 0 := by
  obtain ⟨c, hc, h0, h1⟩ := hF
  have hE : ∀ k, 0 ≤ k → Spec.aboveEdge d A L D pAngle k = c := by
    intro k hk
    unfold Spec.aboveEdge
    rw [corner_id (by omega), withCorner_self, hA]
    simp only [Bool.false_eq_true, if_false]
    split
    · split
      · exact upsample_flat hp hc h0 h1 (by first | omega | (split_ifs <;> omega)) hk
      · exact hc k hk
    · exact hc k hk
  rw [hc 0 (le_refl _)]
  unfold Spec.directional
  rw [if_pos h90]
  dsimp only
  generalize (if (D.filter && Spec.useUpsample (D.w + D.h) D.sm (pAngle - 90)) = true then 1 else 0) = sa
  split
  · rename_i hb
    have hi : 0 ≤ ((i : Int) + 1) * Spec.derivative pAngle := Int.mul_nonneg (by omega) h36
    refine interp_const (hE _ ?_) (hE _ ?_)
    · positivity
    · positivity
  · exact hE _ (by have : (0 : Int) ≤ (D.w : Int) + D.h - 1 := by omega
                   positivity)

theorem z3_flat {A L : Int → Int} {D : Spec.Dir} (hp : Px d L) (hAL : A (-1) = L (-1)) (hA : D.haveLeft = false) (hF : Flat L) (hw : 1 ≤ D.h) {pAngle : Int}
    (h36 : 0 ≤ Spec.derivative (270 - pAngle)) (h180 : 180 < pAngle) (i j : Nat) : Spec.directional d A L D pAngle i j = L 0 := by
  obtain ⟨c, hc, h0, h1⟩ := hF
  have hE : ∀ k, 0 ≤ k → Spec.leftEdge d A L D pAngle k = c := by
    intro k hk
    unfold Spec.leftEdge
    rw [corner_id (by omega), hAL, withCorner_self, hA]
    simp only [Bool.false_eq_true, if_false]
    split
    · split
      · exact upsample_flat hp hc h0 h1 (by first | omega | (split_ifs <;> omega)) hk
      · exact hc k hk
    · exact hc k hk
  rw [hc 0 (le_refl _)]
  unfold Spec.directional
  rw [if_neg (by omega : ¬ pAngle < 90), if_neg (by omega : ¬ pAngle = 90), if_neg (by omega : ¬ pAngle < 180), if_neg (by omega : ¬ pAngle = 180)]
  dsimp only
  have hi : 0 ≤ ((j : Int) + 1) * Spec.derivative (270 - pAngle) := Int.mul_nonneg (by omega) h36
  refine interp_const (hE _ ?_) (hE _ ?_)
  · positivity
  · positivity

/-- The block has the size of a transform (4 to 64 pixels a side) and starts inside the picture. -/
structure Prep.Sized (p : Prep) : Prop where
  x : p.x < p.w
  y : p.y < p.h
  tw1 : 1 ≤ p.tw
  tw16 : p.tw ≤ 16
  th1 : 1 ≤ p.th
  th16 : p.th ≤ 16

theorem edge_above (S : p.Sized) (R : p.Reads f) {q : Pred} (hq : q.needsTop = true) {k : Int} (h1 : 1 ≤ k) (h2 : k ≤ 4 * p.tw ∨ q.needsTopright = true ∧ k ≤ 4 * p.tw + 4 * min (p.tw : Int) p.th) :
    p.edge d q k = some (Spec.aboveRow d f p.block (k - 1)) := by
  unfold Prep.edge
  rw [if_neg (by omega), if_pos (by omega), if_pos ⟨hq, by split <;> simp_all <;> omega⟩]
  exact above_eq R S.x S.y S.tw1 S.th1 (by omega) (by omega)

theorem edge_left (S : p.Sized) (R : p.Reads f) {q : Pred} (hq : q.needsLeft = true) {j : Int} (h1 : 0 ≤ j) (h2 : j < 4 * p.th ∨ q.needsBottomleft = true ∧ j < 4 * p.th + 4 * min (p.tw : Int) p.th) :
    p.edge d q (-(1 + j)) = some (Spec.leftCol d f p.block j) := by
  unfold Prep.edge
  rw [if_neg (by omega), if_neg (by omega), if_pos ⟨hq, by split <;> simp_all <;> omega⟩, show -(-(1 + j)) - 1 = j by omega]
  exact left_eq R S.x S.y S.tw1 S.th1 (by omega) (by omega)

theorem edge_corner (S : p.Sized) (R : p.Reads f) {q : Pred} (hq : q.needsTopleft = true) (hz : q ≠ .z2) :
    p.edge d q 0 = some (Spec.aboveRow d f p.block (-1)) := by
  unfold Prep.edge Prep.corner
  rw [if_pos rfl, if_pos hq]
  dsimp only
  rw [if_neg (by rintro ⟨h, -⟩; exact hz h)]
  exact corner_eq R S.x S.y S.tw1 S.th1

theorem leftCol_neg (b : Spec.Block) : Spec.aboveRow d f b (-1) = Spec.leftCol d f b (-1) := by
  conv_rhs => unfold Spec.leftCol
  rw [if_pos rfl]

theorem flat_above {b : Spec.Block} (h : b.haveAbove = false) : Flat (Spec.aboveRow d f b) := by
  cases hL : b.haveLeft
  · refine ⟨2 ^ (d.bpc - 1) - 1, fun k hk => ?_, ?_⟩
    · simp [Spec.aboveRow, h, hL, show ¬ k = -1 by omega]
    · simp [Spec.aboveRow, h, hL]; omega
  · refine ⟨f b.y (b.x - 1), fun k hk => ?_, ?_⟩
    · simp [Spec.aboveRow, h, hL, show ¬ k = -1 by omega]
    · simp [Spec.aboveRow, h, hL]

theorem flat_left {b : Spec.Block} (h : b.haveLeft = false) : Flat (Spec.leftCol d f b) := by
  cases hL : b.haveAbove
  · refine ⟨2 ^ (d.bpc - 1) + 1, fun k hk => ?_, ?_⟩
    · simp [Spec.leftCol, h, hL, show ¬ k = -1 by omega]
    · simp [Spec.leftCol, Spec.aboveRow, h, hL]; omega
  · refine ⟨f (b.y - 1) b.x, fun k hk => ?_, ?_⟩
    · simp [Spec.leftCol, h, hL, show ¬ k = -1 by omega]
    · simp [Spec.leftCol, Spec.aboveRow, h, hL]

/-- With the filtered corner, too, a missing edge is flat. -/
theorem flat_above_corner {b : Spec.Block} (h : b.haveAbove = false) (hy : b.y ≤ b.maxY) (hh : 1 ≤ b.h) (D : Spec.Dir) (a : Int) :
    Flat (Spec.withCorner (Spec.corner (Spec.aboveRow d f b) (Spec.leftCol d f b) D a) (Spec.aboveRow d f b)) := by
  have e : Spec.corner (Spec.aboveRow d f b) (Spec.leftCol d f b) D a = Spec.aboveRow d f b (-1) := by
    unfold Spec.corner
    split
    · cases hL : b.haveLeft
      · simp [Spec.aboveRow, Spec.leftCol, h, hL, Spec.Round2]; omega
      · simp [Spec.aboveRow, Spec.leftCol, h, hL, Spec.Round2, show 0 < b.h by omega, Int.min_eq_right hy]; omega
    · rfl
  rw [e, withCorner_self]
  exact flat_above h

theorem flat_left_corner {b : Spec.Block} (h : b.haveLeft = false) (hy : b.x ≤ b.maxX) (hh : 1 ≤ b.w) (D : Spec.Dir) (a : Int) :
    Flat (Spec.withCorner (Spec.corner (Spec.aboveRow d f b) (Spec.leftCol d f b) D a) (Spec.leftCol d f b)) := by
  have e : Spec.corner (Spec.aboveRow d f b) (Spec.leftCol d f b) D a = Spec.leftCol d f b (-1) := by
    unfold Spec.corner
    split
    · cases hL : b.haveAbove
      · simp [Spec.aboveRow, Spec.leftCol, h, hL, Spec.Round2]; omega
      · simp [Spec.aboveRow, Spec.leftCol, h, hL, Spec.Round2, show 0 < b.w by omega, Int.min_eq_right hy]; omega
    · exact leftCol_neg b
  rw [e, withCorner_self]
  exact flat_left h

/-- What the directional prediction of the block depends on. -/
@[reducible] def Prep.specDir (p : Prep) (sm : Bool) : Spec.Dir where
  w := 4 * p.tw
  h := 4 * p.th
  filter := p.filterEdge
  sm := sm
  haveAbove := p.haveTop
  haveLeft := p.haveLeft
  availX := 4 * ((p.w : Int) - p.x)
  availY := 4 * ((p.h : Int) - p.y)

/-- ANGLE_USE_EDGE_FILTER_FLAG and ANGLE_SMOOTH_EDGE_FLAG, src/levels.h:134-135. -/
def dirFlags (filter sm : Bool) : Nat := (if filter then 1024 else 0) + (if sm then 512 else 0)

theorem flags_angle {n : Nat} (h : n < 512) (filter sm : Bool) :
    argAngle (n + dirFlags filter sm) = n ∧ argFilter (n + dirFlags filter sm) = filter ∧ argSm (n + dirFlags filter sm) = sm := by
  unfold argAngle argFilter argSm dirFlags
  cases filter <;> cases sm <;> simp <;> omega

/-- **C58**: the pixel in row `y` and column `x` that dav1d predicts for a directional mode is the specified one, for every content
`f` of the plane and every block: whatever neighbours it has, wherever the picture ends, with every angle, with and without edge
filter. `maxW` and `maxH` are given up to the end of the frame, which may be behind the end of the tile. -/
theorem C58_directional (S : p.Sized) (R : p.Reads f) (hf : Pixels d f) (m : Fin 8) {delta : Int} (hd : -3 ≤ delta ∧ delta ≤ 3) (sm : Bool)
    {maxW maxH : Int} (hW : min (4 * (p.tw : Int)) maxW = min (4 * (p.tw : Int)) (4 * ((p.w : Int) - p.x))) (hH : min (4 * (p.th : Int)) maxH = min (4 * (p.th : Int)) (4 * ((p.h : Int) - p.y)))
    {x y : Nat} (hx : x < 4 * p.tw) (hy : y < 4 * p.th) :
    p.predict d (.dir m) delta (dirFlags p.filterEdge sm) maxW maxH x y =
      some (Spec.directional d (Spec.aboveRow d f p.block) (Spec.leftCol d f p.block) (p.specDir sm) (Spec.modeToAngle[m]'m.2 + 3 * delta) y x) := by
  obtain ⟨Sx, Sy, w1, w16, h1, h16⟩ := id S
  have hA := aboveRow_px hf p.block
  have hL := leftCol_px hf p.block
  have hang : Spec.Angle (absAngle (.dir m) delta) := ⟨Spec.modeToAngle[m]'m.2, List.getElem_mem _, delta, hd.1, hd.2, rfl⟩
  rw [show Spec.modeToAngle[m]'m.2 + 3 * delta = absAngle (.dir m) delta from rfl]
  unfold Prep.predict
  rw [if_pos ⟨Sx, Sy⟩]
  obtain ⟨a36, a212⟩ := angle_le _ (angle_list hang)
  obtain ⟨n, hn⟩ : ∃ n : Nat, absAngle (.dir m) delta = n := ⟨(absAngle (.dir m) delta).toNat, by omega⟩
  have hq : predOf (.dir m) delta p.haveLeft p.haveTop = if (n : Int) ≤ 90 then (if (n : Int) < 90 && p.haveTop then .z1 else .vert)
    else if (n : Int) < 180 then .z2 else (if (n : Int) > 180 && p.haveLeft then .z3 else .hor) := by
    unfold predOf; dsimp only; rw [hn]
  rw [hq]
  rw [hn] at hang a36 a212 ⊢
  clear hq hn
  obtain ⟨fa, ff, fs⟩ := flags_angle (show n < 512 by omega) p.filterEdge sm
  have F : Fits (p.specDir sm) (4 * p.tw) (4 * p.th) (n + dirFlags p.filterEdge sm) := by
    constructor <;> first | rfl | exact ff.symm | exact fs.symm | (simp only; omega) | omega
  have hcA : (p.specDir sm).availX < ((4 * p.tw : Nat) : Int) → ConstFrom (Spec.aboveRow d f p.block) ((p.specDir sm).availX - 1) := by
    intro h
    refine aboveRow_const (by simp only; omega) (Or.inr (Or.inr ?_)) (by simp only; omega) (by simp only; omega)
    simp only; omega
  have hcL : (p.specDir sm).availY < ((4 * p.th : Nat) : Int) → ConstFrom (Spec.leftCol d f p.block) ((p.specDir sm).availY - 1) := by
    intro h
    refine leftCol_const (by simp only; omega) (Or.inr (Or.inr ?_)) (by simp only; omega) (by simp only; omega)
    simp only; omega
  rcases lt_trichotomy (n : Int) 90 with h | h | h
  · have hgood := angle_z1 (n := n) hang (by omega)
    obtain ⟨-, hlo, -⟩ := derivative_get _ hgood
    rcases (Bool.eq_false_or_eq_true p.haveTop).symm with hT | hT
    · have e := z1_flat (d := d) (L := Spec.leftCol d f p.block) (D := p.specDir sm) hA hT (flat_above hT) (by simp only; omega) (by omega) h y x
      obtain ⟨c, hc, -, -⟩ := flat_above (d := d) (f := f) (b := p.block) hT
      rw [e, if_pos (by omega), hT]
      simp only [Bool.and_false, Bool.false_eq_true, if_false, predV]
      rw [edge_above S R rfl (by omega) (by left; omega), hc _ (by omega), hc _ (by omega)]
    · rw [if_pos (by omega), hT]
      simp only [Bool.and_true, decide_eq_true_eq, h, if_true, Int.toNat_natCast]
      have := z1_spec (L := Spec.leftCol d f p.block) F hA (tl := p.edge d .z1) ?_ ?_ hcA hT (by rw [fa]; exact hang) (by omega) x y
      · rwa [fa] at this
      · intro k h0 h1
        rcases (by omega : k = 0 ∨ 1 ≤ k) with rfl | hk
        · exact edge_corner S R rfl (by decide)
        · exact edge_above S R rfl hk (Or.inr ⟨rfl, by push_cast at h1; omega⟩)
      · exact aboveRow_const (by push_cast; omega) (Or.inr (Or.inl (by simp only; push_cast; omega))) (by simp only; omega) (by simp only; omega)
  · rw [if_pos (by omega)]
    simp only [h, lt_irrefl, decide_false, Bool.false_and, Bool.false_eq_true, if_false, predV]
    rw [edge_above S R rfl (by omega) (by left; omega), show (1 + x : Int) - 1 = x by omega]
    unfold Spec.directional
    rw [if_neg (by omega : ¬ (90 : Int) < 90), if_pos rfl]
  · rw [if_neg (by omega)]
    rcases lt_trichotomy (n : Int) 180 with h' | h' | h'
    · rw [if_pos h']
      simp only [Int.toNat_natCast]
      have F' : Fits { p.specDir sm with availX := maxW, availY := maxH } (4 * p.tw) (4 * p.th) (n + dirFlags p.filterEdge sm) := by
        constructor <;> first | rfl | exact ff.symm | exact fs.symm | (simp only; omega) | omega
      have := z2_spec (tl := p.edge d .z2) F' hA hL (leftCol_neg _) ?_ ?_ ?_ ?_ ?_ ?_ ?_ (by rw [fa]; exact hang) (by omega) (by omega) hx hy
      · rw [fa] at this
        refine this.trans (congrArg some (directional_congr _ _ _ _ _ rfl rfl rfl rfl rfl rfl ?_ ?_))
        · simpa using hW
        · simpa using hH
      · rw [fa]
        unfold Prep.edge Prep.corner Spec.corner
        rw [if_pos rfl, if_pos (show Pred.needsTopleft .z2 = true from rfl)]
        dsimp only
        rw [corner_eq R Sx Sy w1 h1, left_eq R Sx Sy w1 h1 (le_refl _) (by omega), above_eq R Sx Sy w1 h1 (le_refl _) (by omega)]
        by_cases hc : p.filterEdge = true ∧ 6 ≤ p.tw + p.th
        · rw [if_pos ⟨rfl, hc.2, hc.1⟩, if_pos ⟨hc.1, h, h', by omega⟩, Option.bind_some, Option.bind_some, Option.map_some]
          have r0 := hA (-1); have r1 := hA 0; have r2 := hL 0
          unfold Spec.Round2 asr
          rw [toPixel_id (by norm_num; omega)]
          congr 2
          norm_num
          ring
        · rw [if_neg (by rintro ⟨-, h1, h2⟩; exact hc ⟨h2, h1⟩), if_neg (by rintro ⟨h1, -, -, h2⟩; exact hc ⟨h1, by omega⟩)]
      · intro k h0 h1
        exact edge_above S R rfl h0 (Or.inl (by push_cast at h1; omega))
      · intro k h0 h1
        exact edge_left S R rfl h0 (Or.inl (by push_cast at h1; omega))
      · intro hh
        simp only at hh
        rw [show maxW = 4 * ((p.w : Int) - p.x) by push_cast at hh; omega]
        exact hcA (by simp only; push_cast at hh ⊢; omega)
      · intro hh
        simp only at hh
        rw [show maxH = 4 * ((p.h : Int) - p.y) by push_cast at hh; omega]
        exact hcL (by simp only; push_cast at hh ⊢; omega)
      · intro hh
        exact flat_above_corner hh (by simp only; omega) (by simp only; omega) _ _
      · intro hh
        exact flat_left_corner hh (by simp only; omega) (by simp only; omega) _ _
    · rw [if_neg (by omega)]
      simp only [h', gt_iff_lt, lt_irrefl, decide_false, Bool.false_and, Bool.false_eq_true, if_false, predH]
      rw [edge_left S R rfl (by omega) (by left; omega)]
      unfold Spec.directional
      rw [if_neg (by omega : ¬ (180 : Int) < 90), if_neg (by omega : ¬ (180 : Int) = 90), if_neg (by omega : ¬ (180 : Int) < 180), if_pos rfl]
    · rw [if_neg (by omega)]
      obtain ⟨-, hgood, -⟩ := angle_z3 (n := n) hang (by omega)
      obtain ⟨-, hlo, -⟩ := derivative_get _ hgood
      rcases (Bool.eq_false_or_eq_true p.haveLeft).symm with hT | hT
      · have e := z3_flat (d := d) (A := Spec.aboveRow d f p.block) (D := p.specDir sm) hL (leftCol_neg _) hT (flat_left hT) (by simp only; omega) (pAngle := n)
          (by rw [show (270 : Int) - n = (270 - n : Nat) by omega]; omega) h' y x
        obtain ⟨c, hc, -, -⟩ := flat_left (d := d) (f := f) (b := p.block) hT
        rw [e, hT]
        simp only [Bool.and_false, Bool.false_eq_true, if_false, predH]
        rw [edge_left S R rfl (by omega) (by left; omega), hc _ (by omega), hc _ (by omega)]
      · rw [hT]
        simp only [Bool.and_true, decide_eq_true_eq, gt_iff_lt, h', if_true, Int.toNat_natCast]
        have := z3_spec (A := Spec.aboveRow d f p.block) F hL (leftCol_neg _) (tl := p.edge d .z3) ?_ ?_ hcL hT (by rw [fa]; exact hang) (by omega) hx hy
        · rwa [fa] at this
        · intro k h0 h1
          rcases (by omega : k = -1 ∨ 0 ≤ k) with rfl | hk
          · rw [← leftCol_neg]
            exact edge_corner S R rfl (by decide)
          · exact edge_left S R rfl hk (Or.inr ⟨rfl, by push_cast at h1; omega⟩)
        · exact leftCol_const (by push_cast; omega) (Or.inr (Or.inl (by simp only; push_cast; omega))) (by simp only; omega) (by simp only; omega)

end Dav1d.Ipred
