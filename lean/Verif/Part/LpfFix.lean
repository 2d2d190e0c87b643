import Verif.Part.LpfFrame
/-!
# The corrections at the edges of tiles
-/
set_option linter.unusedVariables false
set_option linter.unusedSimpArgs false
namespace Dav1d.Part.Lpf

variable {C : Cfg} {G : Grid} {order : List ((Nat × Nat) × Call)} {own : Nat → Nat → (Nat × Nat) × Call}

/-- The unit of the plane where a tile begins. -/
theorem start_off (h : FrameOk C G order) (ho : Owns C order own) {d X Y : Nat} (hX : X < C.cols) (hY : Y < C.rows) (hs : Start C G own d X Y) : off C own d X Y = 0 := by
  obtain ⟨e1, e2⟩ := ho X Y hX hY
  have hT := (h.cfg e1).1
  have hst := hT.laid.start _ (h.cfg e1).2
  have gpx : C.tx0 (G.tile C.f C.sb128 (own X Y).1) ≤ C.px (own X Y).2 := by
    unfold Cfg.tx0 Cfg.px Plane.x; exact Nat.div_le_div_right hst.1
  have gpy : C.ty0 (G.tile C.f C.sb128 (own X Y).1) ≤ C.py (own X Y).2 := by
    unfold Cfg.ty0 Cfg.py Plane.y; exact Nat.div_le_div_right hst.2.2.1
  unfold Start at hs
  unfold off
  split at hs
  · rw [if_pos ‹_›]; omega
  · rw [if_neg ‹_›]; omega

/-- One more edge is corrected. -/
theorem pu_add (h : FrameOk C G order) (ho : Owns C order own) (U : Nat → Nat → Nat → Prop) {d X Y : Nat} (hd : d < 2) (hX : X < C.cols) (hY : Y < C.rows)
    (hs : Start C G own d X Y) : ∃ i < C.comp.sizes, (∀ s, PU C G own U d X Y s ↔ s = i) ∧
      (∀ s, PU C G own (fun d' X' Y' => U d' X' Y' ∨ (d' = d ∧ X' = X ∧ Y' = Y)) d X Y s ↔ s = min i (cls C.comp (prevSize C own d X Y))) ∧
      ∀ d' X' Y' s, ¬ (d' = d ∧ X' = X ∧ Y' = Y) →
        (PU C G own (fun d' X' Y' => U d' X' Y' ∨ (d' = d ∧ X' = X ∧ Y' = Y)) d' X' Y' s ↔ PU C G own U d' X' Y' s) := by
  have hoff := start_off h ho hX hY hs
  have c1 := cls_lt C.comp (size C own d X Y)
  have hlast : ∀ d' X' Y' s, ¬ (d' = d ∧ X' = X ∧ Y' = Y) →
        (PU C G own (fun d' X' Y' => U d' X' Y' ∨ (d' = d ∧ X' = X ∧ Y' = Y)) d' X' Y' s ↔ PU C G own U d' X' Y' s) := by
    intro d' X' Y' s hn
    unfold PU Sz
    simp only [hn, or_false]
  have hnew : ∀ s, Sz C G own (fun d' X' Y' => U d' X' Y' ∨ (d' = d ∧ X' = X ∧ Y' = Y)) d X Y s ↔ s = min (cls C.comp (size C own d X Y)) (cls C.comp (prevSize C own d X Y)) := by
    intro s
    unfold Sz
    simp only [and_self, or_true, not_true, and_false, false_and, false_or, not_false_eq_true, true_and]
  by_cases hu : U d X Y
  · refine ⟨min (cls C.comp (size C own d X Y)) (cls C.comp (prevSize C own d X Y)), by omega, fun s => ?_, fun s => ?_, hlast⟩
    · unfold PU Sz IsEdge
      simp only [hu, not_true, and_false, false_and, false_or, not_false_eq_true, true_and]
      exact ⟨fun hh => hh.2.2.2.2, fun hh => ⟨hd, hX, hY, .inl hoff, hh⟩⟩
    · have := hnew s
      unfold PU IsEdge
      rw [this]
      rw [Nat.min_assoc, Nat.min_self]
      exact ⟨fun hh => hh.2.2.2.2, fun hh => ⟨hd, hX, hY, .inl hoff, hh⟩⟩
  · refine ⟨cls C.comp (size C own d X Y), c1, fun s => ?_, fun s => ?_, hlast⟩
    · unfold PU Sz IsEdge
      simp only [hu, hs, not_true, not_false_eq_true, and_self, true_and, false_and, or_false]
      exact ⟨fun hh => hh.2.2.2.2, fun hh => ⟨hd, hX, hY, .inl hoff, hh⟩⟩
    · have := hnew s
      unfold PU IsEdge
      rw [this]
      exact ⟨fun hh => hh.2.2.2.2, fun hh => ⟨hd, hX, hY, .inl hoff, hh⟩⟩

theorem pu_lt {U : Nat → Nat → Nat → Prop} {d X Y s : Nat} (h : PU C G own U d X Y s) : s < C.comp.sizes := by
  have c1 := cls_lt C.comp (size C own d X Y)
  rcases h.2.2.2.2 with ⟨-, -, e⟩ | ⟨-, e⟩ <;> omega

/-- What matters is the begin of a tile that is not at the border of the frame. -/
theorem pu_congr {U V : Nat → Nat → Nat → Prop} (huv : ∀ d X Y, d < 2 → X < C.cols → Y < C.rows → Start C G own d X Y → (d = 0 → X ≠ 0) → (d = 1 → Y ≠ 0) → (U d X Y ↔ V d X Y))
    (d X Y s : Nat) : PU C G own U d X Y s ↔ PU C G own V d X Y s := by
  unfold PU
  refine and_congr_right fun hd => and_congr_right fun hX => and_congr_right fun hY => and_congr_right fun he => ?_
  unfold Sz
  by_cases hs : Start C G own d X Y
  · by_cases hz : (d = 0 → X ≠ 0) ∧ (d = 1 → Y ≠ 0)
    · have := huv d X Y hd hX hY hs hz.1 hz.2
      simp only [this]
    · have e : prevSize C own d X Y = size C own d X Y := by
        unfold prevSize
        have hd2 : d = 0 ∨ d = 1 := by omega
        rcases hd2 with rfl | rfl
        · have : X = 0 := by
            rcases Nat.eq_zero_or_pos X with e | e
            · exact e
            · exact absurd ⟨fun _ => by omega, fun hh => by omega⟩ hz
          rw [if_pos rfl, this]
        · have : Y = 0 := by
            rcases Nat.eq_zero_or_pos Y with e | e
            · exact e
            · exact absurd ⟨fun _ => by omega, fun hh => by omega⟩ hz
          rw [if_neg (by decide), this]
      rw [e, Nat.min_self]
      have key : ∀ W : Prop, (Start C G own d X Y ∧ ¬ W ∧ s = cls C.comp (size C own d X Y)) ∨ (¬ (Start C G own d X Y ∧ ¬ W) ∧ s = cls C.comp (size C own d X Y)) ↔ s = cls C.comp (size C own d X Y) := by
        intro W
        by_cases hW : W <;> simp [hs, hW]
      rw [key, key]
  · simp only [hs, false_and, not_false_eq_true, true_and]

theorem setMask_fold {α : Type} (f : Mask → α → Mask) (r k : Nat) : ∀ (l : List α) (m : Nat → Nat → Mask),
    setMask m r k (fun w => l.foldl f w) = l.foldl (fun m i => setMask m r k fun w => f w i) m
  | [], m => by
    funext r' k'
    unfold setMask
    split <;> rfl
  | a :: l, m => by
    rw [List.foldl_cons, ← setMask_fold f r k l]
    funext r' k'
    unfold setMask
    by_cases hc : r' = r ∧ k' = k
    · rw [if_pos hc, if_pos hc, if_pos hc]; rfl
    · rw [if_neg hc, if_neg hc, if_neg hc]

theorem cell_ne {n k l X : Nat} (hl : l < n) (h : k * n + l = X) : k = X / n ∧ l = X % n := by
  rw [← h]
  have := pos_split (n := n) (h := k) (j := l) hl
  exact ⟨this.1.symm, this.2.symm⟩

theorem FrameOk.nh (h : FrameOk C G order) : C.NH = 2 * C.nn 0 ∧ C.NW = 2 * C.nn 1 ∧ 0 < C.NH ∧ 0 < C.NW := by
  unfold Cfg.NH Cfg.NW Cfg.nn
  obtain ⟨e1, e2⟩ := h.ss
  rw [if_pos rfl, if_neg (by decide)]
  rcases e1 with e1 | e1 <;> rcases e2 with e2 | e2 <;> rw [e1, e2] <;> decide

/-- The correction of an edge between columns. -/
theorem frep_fix0 (h : FrameOk C G order) (ho : Owns C order own) {U : Nat → Nat → Nat → Prop} {m : Nat → Nat → Mask} (hm : FRep C m (PU C G own U))
    {X Y r k line pos lim : Nat} (hX : X < C.cols) (hY : Y < C.rows) (hs : Start C G own 0 X Y)
    (hr : r = Y / C.NH) (hk : k = X / C.NW) (hline : line = X % C.NW) (hpos : pos = Y % C.NH) (hlim : lim = cls C.comp (prevSize C own 0 X Y)) :
    FRep C (setMask m r k fun w => w.fix C.comp C.comp.plane.ssV 0 line pos lim) (PU C G own fun d' X' Y' => U d' X' Y' ∨ (d' = 0 ∧ X' = X ∧ Y' = Y)) := by
  obtain ⟨n1, n2, n3, n4⟩ := h.nh
  obtain ⟨i, i1, i2, i3, i4⟩ := pu_add h ho U (by decide) hX hY hs
  have eX : k * C.NW + line = X := by rw [hk, hline, Nat.mul_comm]; exact Nat.div_add_mod _ _
  have eY : r * C.NH + pos = Y := by rw [hr, hpos, Nat.mul_comm]; exact Nat.div_add_mod _ _
  have lline : line < C.NW := by rw [hline]; exact Nat.mod_lt _ n4
  have lpos : pos < C.NH := by rw [hpos]; exact Nat.mod_lt _ n3
  intro r' k'
  unfold setMask
  by_cases hc : r' = r ∧ k' = k
  · rw [if_pos hc]
    obtain ⟨rfl, rfl⟩ := hc
    have hn0 : C.nn 0 = 16 >>> C.comp.plane.ssV := by unfold Cfg.nn; rw [if_pos rfl]
    have hfix := (hm r' k').fix (C := C.comp) (ss := C.comp.plane.ssV) (dir := 0) (line := line) (k := pos) (lim := lim) (nn_le h.ssH h.ssV) h.ssV hn0 (by omega) i1
      (fun s hs => by
        rw [eX, eY, i2 s]
        constructor
        · rintro (⟨-, -, e⟩ | ⟨e, -⟩)
          · exact e
          · cases e
        · intro e; exact .inl ⟨rfl, lline, e⟩)
      (by rw [hlim]; exact cls_lt _ _)
    refine hfix.congr fun d l s k2 hk2 => ?_
    by_cases hd : d = 0 ∧ l = line ∧ s < C.comp.sizes ∧ k2 = pos
    · obtain ⟨rfl, rfl, hd3, rfl⟩ := hd
      rw [if_pos ⟨rfl, rfl, hd3, rfl⟩, eX, eY, i3 s, hlim]
      constructor
      · intro e; exact .inl ⟨rfl, lline, e⟩
      · rintro (⟨-, -, e⟩ | ⟨e, -⟩)
        · exact e
        · cases e
    · rw [if_neg hd]
      refine or_congr ?_ ?_
      · refine and_congr_right fun hd0 => and_congr_right fun hl => ?_
        subst hd0
        by_cases hp : k' * C.NW + l = X ∧ r' * C.NH + k2 = Y
        · have q1 := cell_ne hl hp.1
          have q2 := cell_ne (n := C.NH) (by omega) hp.2
          have hns : ¬ s < C.comp.sizes := fun hs => hd ⟨rfl, by omega, hs, by omega⟩
          exact ⟨fun e => absurd (pu_lt e) hns, fun e => absurd (pu_lt e) hns⟩
        · exact (i4 _ _ _ _ (fun e => hp ⟨e.2.1, e.2.2⟩)).symm
      · refine and_congr_right fun hd0 => and_congr_right fun hl => ?_
        exact (i4 _ _ _ _ (fun e => by cases e.1)).symm
  · rw [if_neg hc]
    refine (hm r' k').congr fun d l s k2 hk2 => ?_
    refine or_congr ?_ ?_
    · refine and_congr_right fun hd0 => and_congr_right fun hl => ?_
      subst hd0
      refine (i4 _ _ _ _ fun e => hc ?_).symm
      have q1 := cell_ne hl e.2.1
      have q2 := cell_ne (n := C.NH) (by omega) e.2.2
      omega
    · refine and_congr_right fun hd0 => and_congr_right fun hl => ?_
      exact (i4 _ _ _ _ (fun e => by cases e.1)).symm

/-- The correction of an edge between rows. -/
theorem frep_fix1 (h : FrameOk C G order) (ho : Owns C order own) {U : Nat → Nat → Nat → Prop} {m : Nat → Nat → Mask} (hm : FRep C m (PU C G own U))
    {X Y r k line pos lim : Nat} (hX : X < C.cols) (hY : Y < C.rows) (hs : Start C G own 1 X Y)
    (hr : r = Y / C.NH) (hk : k = X / C.NW) (hline : line = Y % C.NH) (hpos : pos = X % C.NW) (hlim : lim = cls C.comp (prevSize C own 1 X Y)) :
    FRep C (setMask m r k fun w => w.fix C.comp C.comp.plane.ssH 1 line pos lim) (PU C G own fun d' X' Y' => U d' X' Y' ∨ (d' = 1 ∧ X' = X ∧ Y' = Y)) := by
  obtain ⟨n1, n2, n3, n4⟩ := h.nh
  obtain ⟨i, i1, i2, i3, i4⟩ := pu_add h ho U (by decide) hX hY hs
  have eX : k * C.NW + pos = X := by rw [hk, hpos, Nat.mul_comm]; exact Nat.div_add_mod _ _
  have eY : r * C.NH + line = Y := by rw [hr, hline, Nat.mul_comm]; exact Nat.div_add_mod _ _
  have lline : line < C.NH := by rw [hline]; exact Nat.mod_lt _ n3
  have lpos : pos < C.NW := by rw [hpos]; exact Nat.mod_lt _ n4
  intro r' k'
  unfold setMask
  by_cases hc : r' = r ∧ k' = k
  · rw [if_pos hc]
    obtain ⟨rfl, rfl⟩ := hc
    have hn0 : C.nn 1 = 16 >>> C.comp.plane.ssH := by unfold Cfg.nn; rw [if_neg (by decide)]
    have hfix := (hm r' k').fix (C := C.comp) (ss := C.comp.plane.ssH) (dir := 1) (line := line) (k := pos) (lim := lim) (nn_le h.ssH h.ssV) h.ssH hn0 (by omega) i1
      (fun s hs => by
        rw [eX, eY, i2 s]
        constructor
        · rintro (⟨e, -⟩ | ⟨-, -, e⟩)
          · cases e
          · exact e
        · intro e; exact .inr ⟨rfl, lline, e⟩)
      (by rw [hlim]; exact cls_lt _ _)
    refine hfix.congr fun d l s k2 hk2 => ?_
    by_cases hd : d = 1 ∧ l = line ∧ s < C.comp.sizes ∧ k2 = pos
    · obtain ⟨rfl, rfl, hd3, rfl⟩ := hd
      rw [if_pos ⟨rfl, rfl, hd3, rfl⟩, eX, eY, i3 s, hlim]
      constructor
      · intro e; exact .inr ⟨rfl, lline, e⟩
      · rintro (⟨e, -⟩ | ⟨-, -, e⟩)
        · cases e
        · exact e
    · rw [if_neg hd]
      refine or_congr ?_ ?_
      · refine and_congr_right fun hd0 => and_congr_right fun hl => ?_
        exact (i4 _ _ _ _ (fun e => by cases e.1)).symm
      · refine and_congr_right fun hd0 => and_congr_right fun hl => ?_
        subst hd0
        by_cases hp : k' * C.NW + k2 = X ∧ r' * C.NH + l = Y
        · have q1 := cell_ne hl hp.2
          have q2 := cell_ne (n := C.NW) (by omega) hp.1
          have hns : ¬ s < C.comp.sizes := fun hs => hd ⟨rfl, by omega, hs, by omega⟩
          exact ⟨fun e => absurd (pu_lt e) hns, fun e => absurd (pu_lt e) hns⟩
        · exact (i4 _ _ _ _ (fun e => hp ⟨e.2.1, e.2.2⟩)).symm
  · rw [if_neg hc]
    refine (hm r' k').congr fun d l s k2 hk2 => ?_
    refine or_congr ?_ ?_
    · refine and_congr_right fun hd0 => and_congr_right fun hl => ?_
      exact (i4 _ _ _ _ (fun e => by cases e.1)).symm
    · refine and_congr_right fun hd0 => and_congr_right fun hl => ?_
      subst hd0
      refine (i4 _ _ _ _ fun e => hc ?_).symm
      have q1 := cell_ne hl e.2.2
      have q2 := cell_ne (n := C.NW) (by omega) e.2.1
      omega

/-! ## Superblock rows -/

/-- The first row of units of a superblock row. -/
def Cfg.base (C : Cfg) (sby : Nat) : Nat := (sby * C.sbsz) >>> C.comp.plane.ssV

theorem sbsz_eq (C : Cfg) : C.sbsz = sbStep C.sb128 := by
  unfold Cfg.sbsz sbStep; cases C.sb128 <;> rfl

/-- The rows of units of a superblock row. -/
theorem FrameOk.rows_of (h : FrameOk C G order) {sby i : Nat} (hi : i < C.endy sby - C.starty sby) :
    C.base sby + i < C.rows ∧ C.v (C.base sby + i) / sbStep C.sb128 = sby ∧ (C.base sby + i) / C.NH = C.maskRow sby ∧ (C.base sby + i) % C.NH = C.starty sby + i := by
  obtain ⟨-, e2⟩ := h.ss
  unfold Cfg.endy Cfg.starty Cfg.endy4 Cfg.starty4 at *
  unfold Cfg.base Cfg.NH Cfg.maskRow Cfg.rows Av1.rows Cfg.v Plane.lastY
  rw [sbsz_eq] at *
  cases hb : C.sb128 <;> rw [hb] at hi <;> rcases e2 with e2 | e2 <;> rw [e2] at hi ⊢ <;>
    simp only [sbStep, Nat.shiftRight_eq_div_pow, Nat.shiftLeft_eq, Nat.pow_zero, Nat.pow_one, Nat.mul_one, Nat.div_one, Nat.add_zero, if_true, if_false, Bool.false_eq_true, Nat.zero_mul, Nat.zero_div, Nat.zero_add] at hi ⊢ <;>
    omega

theorem FrameOk.row_in (h : FrameOk C G order) {sby Y : Nat} (hY : Y < C.rows) (hv : C.v Y / sbStep C.sb128 = sby) :
    C.base sby ≤ Y ∧ Y - C.base sby < C.endy sby - C.starty sby := by
  obtain ⟨-, e2⟩ := h.ss
  unfold Cfg.endy Cfg.starty Cfg.endy4 Cfg.starty4
  unfold Cfg.rows Av1.rows at hY
  unfold Cfg.v Plane.lastY at hv
  unfold Cfg.base
  rw [sbsz_eq]
  cases hb : C.sb128 <;> rw [hb] at hv <;> rcases e2 with e2 | e2 <;> rw [e2] at hv hY ⊢ <;>
    simp only [sbStep, Nat.shiftRight_eq_div_pow, Nat.shiftLeft_eq, Nat.pow_zero, Nat.pow_one, Nat.mul_one, Nat.div_one, Nat.add_zero, if_true, if_false, Bool.false_eq_true, Nat.zero_mul, Nat.zero_div, Nat.zero_add] at hv hY ⊢ <;>
    omega

/-- The column of units where a tile begins. -/
def Cfg.xs (C : Cfg) (G : Grid) (tc : Nat) : Nat := G.cs tc * sbStep C.sb128 / 2 ^ C.comp.plane.ssH

theorem FrameOk.xs_of (h : FrameOk C G order) {tc : Nat} (hc : G.cs tc * sbStep C.sb128 < C.f.bw) :
    C.xs G tc < C.cols ∧ C.xs G tc / C.NW = G.cs tc >>> (if C.sb128 then 0 else 1) ∧
    C.xs G tc % C.NW = (if C.sb128 then 0 else (if G.cs tc % 2 = 1 then 16 else 0)) >>> C.comp.plane.ssH ∧
    C.u (C.xs G tc) / sbStep C.sb128 = G.cs tc ∧ (0 < G.cs tc → 0 < C.xs G tc ∧ C.u (C.xs G tc - 1) + 1 = G.cs tc * sbStep C.sb128) := by
  obtain ⟨e2, -⟩ := h.ss
  have h1 := h.w4
  have h2 := h.bw
  unfold Cfg.xs Cfg.NW Cfg.cols Av1.cols Cfg.u Plane.lastX
  cases hb : C.sb128 <;> rw [hb] at hc <;> rcases e2 with e2 | e2 <;> rw [e2] <;>
    simp only [sbStep, Nat.shiftRight_eq_div_pow, Nat.shiftLeft_eq, Nat.pow_zero, Nat.pow_one, Nat.mul_one, Nat.div_one, Nat.add_zero, if_true, if_false, Bool.false_eq_true, Nat.zero_mul, Nat.zero_div, Nat.zero_add] at hc ⊢ <;>
    (refine ⟨?_, ?_, ?_, ?_, fun hp => ?_⟩) <;> first | omega | (split <;> omega)

theorem find_range {p : Nat → Bool} {n k : Nat} (hk : k < n) (hp : p k = true) (hmin : ∀ j < k, p j = false) : (List.range n).find? p = some k := by
  rw [List.find?_range_eq_some]
  refine ⟨hp, List.mem_range.2 hk, fun j hj => ?_⟩
  rw [hmin j hj]; rfl

/-- The row of tiles of a superblock row. -/
theorem rowAt_of (hG : G.Ok C.f C.sb128) {r sby : Nat} (hr : r < G.rows) (h1 : G.rs r ≤ sby) (h2 : sby < G.rs (r + 1)) : G.rowAt sby = r := by
  unfold Grid.rowAt
  rw [find_range hr (by simpa using h2) (fun j hj => by
    have := seq_le hG.r1 (a := j + 1) (b := r) (by omega) (by omega)
    simp; omega)]
  rfl

/-- The tiles a unit and its left neighbour lie in. -/
theorem tile_of_unit (h : FrameOk C G order) (ho : Owns C order own) {X Y : Nat} (hX : X < C.cols) (hY : Y < C.rows) {r k : Nat} (hr : r < G.rows) (hk : k < G.cols)
    (x1 : G.cs k * sbStep C.sb128 ≤ C.u X) (x2 : C.u X < G.cs (k + 1) * sbStep C.sb128)
    (y1 : G.rs r * sbStep C.sb128 ≤ C.v Y) (y2 : C.v Y < G.rs (r + 1) * sbStep C.sb128) : (own X Y).1 = (r, k) := by
  obtain ⟨e1, e2⟩ := ho X Y hX hY
  have t1 := (h.cfg e1).1.inTile (h.cfg e1).2 e2
  have t2 := h.onscreen (X := X) (Y := Y)
  exact h.tile_unique (h.mem _ e1).1 (h.mem _ e1).2 hr hk t1 (tile_has.2 ⟨⟨x1, x2, t2.1 hX⟩, y1, y2, t2.2 hY⟩)

/-- The row of tiles with a row of units. -/
theorem row_of_unit (h : FrameOk C G order) {Y sby : Nat} (hY : Y < C.rows) (hv : C.v Y / sbStep C.sb128 = sby) :
    ∃ r < G.rows, G.rowAt sby = r ∧ G.rs r ≤ sby ∧ sby < G.rs (r + 1) ∧ G.rs r * sbStep C.sb128 ≤ C.v Y ∧ C.v Y < G.rs (r + 1) * sbStep C.sb128 := by
  obtain ⟨r, r1, r2, r3⟩ := part_of (step_pos C.sb128) h.grid.r0 (Nat.lt_of_lt_of_le ((h.onscreen (X := 0)).2 hY) h.grid.r3)
  have g1 : G.rs r ≤ sby := by rw [← hv]; exact (Nat.le_div_iff_mul_le (step_pos _)).2 r2
  have g2 : sby < G.rs (r + 1) := by rw [← hv]; exact (Nat.div_lt_iff_lt_mul (step_pos _)).2 r3
  exact ⟨r, r1, rowAt_of h.grid r1 g1 g2, g1, g2, r2, r3⟩

theorem v_step (h : FrameOk C G order) (Y : Nat) : (Y <<< C.comp.plane.ssV) / sbStep C.sb128 = C.v Y / sbStep C.sb128 := by
  obtain ⟨-, e2⟩ := h.ss
  unfold Cfg.v Plane.lastY
  rw [Nat.shiftLeft_eq]
  rcases step_two C.sb128 with e | e <;> rw [e] <;> rcases e2 with e2 | e2 <;> rw [e2] <;> simp only [Nat.pow_zero, Nat.pow_one, Nat.mul_one] <;> omega

/-- What the correction of an edge between columns reads. -/
theorem lim_cols (h : FrameOk C G order) (ho : Owns C order own) {tc Y sby : Nat} (h1 : 1 ≤ tc) (h2 : tc < G.cols) (hY : Y < C.rows) (hv : C.v Y / sbStep C.sb128 = sby) :
    C.rightEdge order (G.rowAt sby, tc - 1) Y = cls C.comp (prevSize C own 0 (C.xs G tc) Y) ∧ Start C G own 0 (C.xs G tc) Y := by
  obtain ⟨r, r1, r2, -, -, r5, r6⟩ := row_of_unit h hY hv
  have hc2 := h.grid.c2 tc h2
  have hlt : 0 < G.cs tc := by have := seq_lt h.grid.c1 (a := 0) (b := tc) (by omega) (by omega); omega
  obtain ⟨a1, a2, a3, a4, a5⟩ := h.xs_of hc2
  obtain ⟨a6, a7⟩ := a5 hlt
  have hown := tile_of_unit h ho (X := C.xs G tc - 1) (Y := Y) (by omega) hY r1 (k := tc - 1) (by omega)
    (by have := seq_lt h.grid.c1 (a := tc - 1) (b := tc) (by omega) (by omega)
        have := Nat.mul_lt_mul_of_pos_right this (step_pos C.sb128); omega)
    (by rw [show tc - 1 + 1 = tc by omega]; omega) r5 r6
  obtain ⟨e1, e2⟩ := ho (C.xs G tc - 1) Y (by omega) hY
  constructor
  · have hT := (h.cfg e1).1
    have hm := (h.cfg e1).2
    rw [hown] at hT hm
    have hx1 : (G.tile C.f C.sb128 (r, tc - 1)).x1 = G.cs tc * sbStep C.sb128 := by
      unfold Grid.tile; dsimp only
      rw [show tc - 1 + 1 = tc by omega]; omega
    have := right_ctx hT hm e2 (by rw [hx1]; exact a7) (by rw [hx1]; omega)
    unfold Cfg.rightEdge
    dsimp only
    rw [r2]
    simp only [v_step h]
    unfold Cfg.NH at this
    rw [this]
    unfold prevSize size
    rw [if_pos rfl, if_pos rfl]
  · have hown := tile_of_unit h ho (X := C.xs G tc) (Y := Y) a1 hY r1 h2
      (by rw [← a4]; exact Nat.div_mul_le_self _ _)
      (by have h3 := h.grid.c1 tc h2
          rw [← Nat.div_lt_iff_lt_mul (step_pos _), a4]; exact h3) r5 r6
    unfold Start
    rw [if_pos rfl, hown]
    rfl

/-- Which edges the loop over the columns of tiles corrects. -/
theorem fixCols_rep (h : FrameOk C G order) (ho : Owns C order own) (sby : Nat) : ∀ (n tc : Nat) (U : Nat → Nat → Nat → Prop) (m : Nat → Nat → Mask), 1 ≤ tc → (n = 0 ∨ tc ≤ G.cols) → G.cols ≤ tc + n →
    FRep C m (PU C G own U) →
    FRep C (C.fixCols G sby (fun tc i => C.rightEdge order (G.rowAt sby, tc) (C.base sby + i)) n tc m)
      (PU C G own fun d X Y => U d X Y ∨ (d = 0 ∧ Y < C.rows ∧ C.v Y / sbStep C.sb128 = sby ∧ ∃ k, tc ≤ k ∧ k < G.cols ∧ X = C.xs G k)) := by
  intro n
  induction n with
  | zero =>
    intro tc U m h0 h1 h2 hm
    refine hm.congr fun d X Y s _ => pu_congr (fun d X Y _ _ _ _ _ _ => ?_) _ _ _ _
    constructor
    · exact .inl
    · rintro (e | ⟨-, -, -, k, k1, k2, -⟩)
      · exact e
      · omega
  | succ n ih =>
    intro tc U m h0 h1 h2 hm
    rw [Cfg.fixCols]
    dsimp only
    have hsh : G.cs tc <<< (if C.sb128 = true then 5 else 4) = G.cs tc * sbStep C.sb128 := by
      rw [Nat.shiftLeft_eq]; cases C.sb128 <;> rfl
    rw [hsh]
    by_cases hc : G.cs tc * sbStep C.sb128 ≥ C.f.bw
    · rw [if_pos hc]
      have htc : tc = G.cols := by
        rcases Nat.lt_or_ge tc G.cols with e | e
        · have := h.grid.c2 tc e; omega
        · omega
      refine hm.congr fun d X Y s _ => pu_congr (fun d X Y _ _ _ _ _ _ => ?_) _ _ _ _
      constructor
      · exact .inl
      · rintro (e | ⟨-, -, -, k, k1, k2, -⟩)
        · exact e
        · omega
    · rw [if_neg hc]
      have htc : tc < G.cols := by
        rcases Nat.lt_or_ge tc G.cols with e | e
        · exact e
        · have : tc = G.cols := by omega
          rw [this] at hc
          exact absurd h.grid.c3 hc
      obtain ⟨a1, a2, a3, a4, a5⟩ := h.xs_of (tc := tc) (by omega)
      rw [setMask_fold (fun w i => w.fix C.comp C.comp.plane.ssV 0 _ (C.starty sby + i) (C.rightEdge order (G.rowAt sby, tc - 1) (C.base sby + i)))]
      have key : ∀ j, j ≤ C.endy sby - C.starty sby →
          FRep C ((List.range j).foldl (fun m i => setMask m (C.maskRow sby) (G.cs tc >>> (if C.sb128 then 0 else 1)) fun w =>
            w.fix C.comp C.comp.plane.ssV 0 ((if C.sb128 then 0 else (if G.cs tc % 2 = 1 then 16 else 0)) >>> C.comp.plane.ssH) (C.starty sby + i)
              (C.rightEdge order (G.rowAt sby, tc - 1) (C.base sby + i))) m)
            (PU C G own fun d X Y => U d X Y ∨ (d = 0 ∧ X = C.xs G tc ∧ C.base sby ≤ Y ∧ Y < C.base sby + j)) := by
        intro j
        induction j with
        | zero =>
          intro _
          refine hm.congr fun d X Y s _ => pu_congr (fun d X Y _ _ _ _ _ _ => ?_) _ _ _ _
          constructor
          · exact .inl
          · rintro (e | e)
            · exact e
            · omega
        | succ j ihj =>
          intro hj
          rw [List.range_succ, List.foldl_append]
          obtain ⟨b1, b2, b3, b4⟩ := h.rows_of (sby := sby) (i := j) (by omega)
          obtain ⟨l1, l2⟩ := lim_cols h ho (tc := tc) h0 htc b1 b2
          refine (frep_fix0 h ho (ihj (by omega)) a1 b1 l2 b3.symm a2.symm a3.symm b4.symm l1).congr fun d X Y s _ => pu_congr (fun d X Y _ _ _ _ _ _ => ?_) _ _ _ _
          constructor
          · rintro ((e | e) | e)
            · exact .inl e
            · exact .inr (by omega)
            · exact .inr (by omega)
          · rintro (e | e)
            · exact .inl (.inl e)
            · by_cases ey : Y = C.base sby + j
              · exact .inr (by omega)
              · exact .inl (.inr (by omega))
      refine (ih (tc + 1) _ _ (by omega) (by omega) (by omega) (key _ (Nat.le_refl _))).congr fun d X Y s _ => pu_congr (fun d X Y _ _ hY _ _ _ => ?_) _ _ _ _
      constructor
      · rintro ((e | ⟨e1, e2, e3, e4⟩) | ⟨e1, e2, e3, k, k1, k2, k3⟩)
        · exact .inl e
        · have := (h.rows_of (sby := sby) (i := Y - C.base sby) (by omega)).2.1
          rw [show C.base sby + (Y - C.base sby) = Y by omega] at this
          exact .inr ⟨e1, hY, this, tc, Nat.le_refl _, htc, e2⟩
        · exact .inr ⟨e1, e2, e3, k, by omega, k2, k3⟩
      · rintro (e | ⟨e1, e2, e3, k, k1, k2, k3⟩)
        · exact .inl (.inl e)
        · by_cases ek : k = tc
          · subst ek
            have := h.row_in hY e3
            exact .inl (.inr ⟨e1, k3, by omega, by omega⟩)
          · exact .inr ⟨e1, e2, e3, k, by omega, k2, k3⟩

/-! ## Rows of tiles -/

theorem startOf_ne {sby : Nat} (h : G.startOf sby ≠ 0) : G.startOf sby < G.rows ∧ G.rs (G.startOf sby) = sby := by
  unfold Grid.startOf at *
  cases hf : (List.range G.rows).find? fun r => G.rs r = sby with
  | none => rw [hf] at h; exact absurd rfl h
  | some r =>
    rw [hf] at h
    have h1 := List.mem_of_find?_eq_some hf
    have h2 := List.find?_some hf
    exact ⟨List.mem_range.1 h1, by simpa using h2⟩

theorem startOf_of (hG : G.Ok C.f C.sb128) {r : Nat} (hr : r < G.rows) : G.startOf (G.rs r) = r := by
  unfold Grid.startOf
  rw [find_range hr (by simp) (fun j hj => by
    have := seq_lt hG.r1 (a := j) (b := r) hj (by omega)
    simp; omega)]
  rfl

theorem FrameOk.ys_of (h : FrameOk C G order) {sby : Nat} (hc : sby * sbStep C.sb128 < C.f.bh) :
    C.base sby < C.rows ∧ C.v (C.base sby) / sbStep C.sb128 = sby ∧ (0 < sby → 0 < C.base sby ∧ C.v (C.base sby - 1) + 1 = sby * sbStep C.sb128) ∧
    sby * sbStep C.sb128 / 2 ^ C.comp.plane.ssV = C.base sby := by
  obtain ⟨-, e2⟩ := h.ss
  have h1 := h.h4
  have h2 := h.bh
  unfold Cfg.base Cfg.rows Av1.rows Cfg.v Plane.lastY
  rw [sbsz_eq]
  rcases step_two C.sb128 with e | e <;> rw [e] at hc ⊢ <;> rcases e2 with e2 | e2 <;> rw [e2] <;>
    simp only [Nat.shiftRight_eq_div_pow, Nat.pow_zero, Nat.pow_one, Nat.mul_one, Nat.div_one, Nat.add_zero] <;>
    (refine ⟨?_, ?_, fun hp => ?_, ?_⟩) <;> first | trivial | omega

theorem colAt_of (hG : G.Ok C.f C.sb128) {k x : Nat} (hk : k < G.cols) (h1 : G.cs k * sbStep C.sb128 ≤ x) (h2 : x < G.cs (k + 1) * sbStep C.sb128) : G.colAt (sbStep C.sb128) x = k := by
  unfold Grid.colAt
  rw [find_range hk (by simpa using h2) (fun j hj => by
    have := Nat.mul_le_mul_right (sbStep C.sb128) (seq_le hG.c1 (a := j + 1) (b := k) (by omega) (by omega))
    simp; omega)]
  rfl

/-- The column of tiles with a column of units. -/
theorem col_of_unit (h : FrameOk C G order) {X : Nat} (hX : X < C.cols) :
    ∃ k < G.cols, G.colAt (sbStep C.sb128) (X <<< C.comp.plane.ssH) = k ∧ G.cs k * sbStep C.sb128 ≤ C.u X ∧ C.u X < G.cs (k + 1) * sbStep C.sb128 := by
  obtain ⟨k, k1, k2, k3⟩ := part_of (step_pos C.sb128) h.grid.c0 (Nat.lt_of_lt_of_le ((h.onscreen (Y := 0)).1 hX) h.grid.c3)
  refine ⟨k, k1, colAt_of h.grid k1 ?_ ?_, k2, k3⟩
  · obtain ⟨e2, -⟩ := h.ss
    unfold Cfg.u Plane.lastX at k2
    rw [Nat.shiftLeft_eq]
    rcases step_two C.sb128 with e | e <;> rw [e] at k2 ⊢ <;> rcases e2 with e2 | e2 <;> rw [e2] at k2 ⊢ <;> simp only [Nat.pow_zero, Nat.pow_one, Nat.mul_one] at k2 ⊢ <;> omega
  · unfold Cfg.u Plane.lastX at k3
    rw [Nat.shiftLeft_eq]
    have : 0 < 2 ^ C.comp.plane.ssH := Nat.two_pow_pos _
    rw [Nat.add_mul] at k3
    omega

/-- What the correction of an edge between rows reads. -/
theorem lim_rows (h : FrameOk C G order) (ho : Owns C order own) {X r : Nat} (h1 : 1 ≤ r) (h2 : r < G.rows) (hX : X < C.cols) :
    (C.after (callsOf order (r - 1, G.colAt (sbStep C.sb128) (X <<< C.comp.plane.ssH)))).a X = cls C.comp (prevSize C own 1 X (C.base (G.rs r))) ∧
    Start C G own 1 X (C.base (G.rs r)) := by
  obtain ⟨k, k1, k2, k3, k4⟩ := col_of_unit h hX
  have hc2 := h.grid.r2 r h2
  have hlt : 0 < G.rs r := by have := seq_lt h.grid.r1 (a := 0) (b := r) (by omega) (by omega); omega
  obtain ⟨a1, a4, a5, a8⟩ := h.ys_of hc2
  obtain ⟨a6, a7⟩ := a5 hlt
  have hown := tile_of_unit h ho (X := X) (Y := C.base (G.rs r) - 1) hX (by omega) (r := r - 1) (by omega) k1 k3 k4
    (by have := seq_lt h.grid.r1 (a := r - 1) (b := r) (by omega) (by omega)
        have := Nat.mul_lt_mul_of_pos_right this (step_pos C.sb128); omega)
    (by rw [show r - 1 + 1 = r by omega]; omega)
  obtain ⟨e1, e2⟩ := ho X (C.base (G.rs r) - 1) hX (by omega)
  constructor
  · have hT := (h.cfg e1).1
    have hm := (h.cfg e1).2
    rw [hown] at hT hm
    have hx1 : (G.tile C.f C.sb128 (r - 1, k)).y1 = G.rs r * sbStep C.sb128 := by
      unfold Grid.tile; dsimp only
      rw [show r - 1 + 1 = r by omega]; omega
    have := end_ctx hT hm e2 (by rw [hx1]; exact a7) (by rw [hx1]; omega)
    rw [k2, this]
    unfold prevSize size
    rw [if_neg (by decide), if_neg (by decide)]
  · have hown := tile_of_unit h ho (X := X) (Y := C.base (G.rs r)) hX a1 h2 k1 k3 k4
      (by have := Nat.div_mul_le_self (C.v (C.base (G.rs r))) (sbStep C.sb128)
          rw [a4] at this; exact this)
      (by have h3 := h.grid.r1 r h2
          rw [← Nat.div_lt_iff_lt_mul (step_pos _), a4]; exact h3)
    unfold Start
    rw [if_neg (by decide), hown]
    unfold Cfg.ty0 Grid.tile
    exact a8.symm

/-- The units of an Av1Filter on the screen. -/
theorem FrameOk.cols_of (h : FrameOk C G order) {X : Nat} :
    (∀ x i, x < C.sb128w → i < (min 32 (C.D.w4 - (x <<< 5)) + C.comp.plane.ssH) >>> C.comp.plane.ssH →
      x * (32 >>> C.comp.plane.ssH) + i < C.cols ∧ (x * (32 >>> C.comp.plane.ssH) + i) / C.NW = x ∧ (x * (32 >>> C.comp.plane.ssH) + i) % C.NW = i) ∧
    (X < C.cols → X / C.NW < C.sb128w ∧ X % C.NW < (min 32 (C.D.w4 - ((X / C.NW) <<< 5)) + C.comp.plane.ssH) >>> C.comp.plane.ssH) := by
  obtain ⟨e2, -⟩ := h.ss
  have h1 := h.w4
  unfold Cfg.cols Av1.cols Cfg.NW Cfg.sb128w
  rcases e2 with e2 | e2 <;> rw [e2] <;>
    simp only [Nat.shiftRight_eq_div_pow, Nat.shiftLeft_eq, Nat.pow_zero, Nat.pow_one, Nat.mul_one, Nat.div_one, Nat.add_zero] <;>
    (refine ⟨fun x i hx hi => ⟨?_, ?_, ?_⟩, fun hX => ⟨?_, ?_⟩⟩) <;> omega

theorem fixRow_rep (h : FrameOk C G order) (ho : Owns C order own) {r : Nat} (h1 : 1 ≤ r) (h2 : r < G.rows) (U : Nat → Nat → Nat → Prop) (m : Nat → Nat → Mask)
    (hm : FRep C m (PU C G own U)) :
    FRep C (C.fixRow (G.rs r) (fun X => (C.after (callsOf order (r - 1, G.colAt (sbStep C.sb128) (X <<< C.comp.plane.ssH)))).a X) m)
      (PU C G own fun d X Y => U d X Y ∨ (d = 1 ∧ Y = C.base (G.rs r))) := by
  have hc2 := h.grid.r2 r h2
  obtain ⟨a1, a4, -, -⟩ := h.ys_of hc2
  have hrow := h.row_in a1 a4
  obtain ⟨-, -, b3, b4⟩ := h.rows_of (sby := G.rs r) (i := 0) (by omega)
  rw [Nat.add_zero] at b3 b4
  rw [Nat.add_zero] at b4
  have cols := @FrameOk.cols_of C G order h
  unfold Cfg.fixRow
  dsimp only
  have outer : ∀ n, n ≤ C.sb128w →
      FRep C ((List.range n).foldl (fun m x => setMask m (C.maskRow (G.rs r)) x fun q =>
        (List.range ((min 32 (C.D.w4 - (x <<< 5)) + C.comp.plane.ssH) >>> C.comp.plane.ssH)).foldl (fun q i => q.fix C.comp C.comp.plane.ssH 1 (C.starty (G.rs r)) i
          ((fun X => (C.after (callsOf order (r - 1, G.colAt (sbStep C.sb128) (X <<< C.comp.plane.ssH)))).a X) (x * (32 >>> C.comp.plane.ssH) + i))) q) m)
      (PU C G own fun d X Y => U d X Y ∨ (d = 1 ∧ Y = C.base (G.rs r) ∧ X / C.NW < n)) := by
    intro n
    induction n with
    | zero =>
      intro _
      refine hm.congr fun d X Y s _ => pu_congr (fun d X Y _ _ _ _ _ _ => ?_) _ _ _ _
      constructor
      · exact .inl
      · rintro (e | e)
        · exact e
        · exact absurd e.2.2 (Nat.not_lt_zero _)
    | succ n ih =>
      intro hn
      rw [List.range_succ, List.foldl_append]
      have hm' := ih (by omega)
      generalize (List.range n).foldl _ m = m' at hm'
      rw [List.foldl_cons, List.foldl_nil]
      rw [setMask_fold (fun q i => q.fix C.comp C.comp.plane.ssH 1 (C.starty (G.rs r)) i _)]
      have inner : ∀ j, j ≤ (min 32 (C.D.w4 - (n <<< 5)) + C.comp.plane.ssH) >>> C.comp.plane.ssH →
          FRep C ((List.range j).foldl (fun m i => setMask m (C.maskRow (G.rs r)) n fun w => w.fix C.comp C.comp.plane.ssH 1 (C.starty (G.rs r)) i
            ((fun X => (C.after (callsOf order (r - 1, G.colAt (sbStep C.sb128) (X <<< C.comp.plane.ssH)))).a X) (n * (32 >>> C.comp.plane.ssH) + i))) m')
            (PU C G own fun d X Y => (U d X Y ∨ (d = 1 ∧ Y = C.base (G.rs r) ∧ X / C.NW < n)) ∨ (d = 1 ∧ Y = C.base (G.rs r) ∧ X / C.NW = n ∧ X % C.NW < j)) := by
        intro j
        induction j with
        | zero =>
          intro _
          refine hm'.congr fun d X Y s _ => pu_congr (fun d X Y _ _ _ _ _ _ => ?_) _ _ _ _
          constructor
          · exact .inl
          · rintro (e | e)
            · exact e
            · omega
        | succ j ihj =>
          intro hj
          rw [List.range_succ, List.foldl_append]
          obtain ⟨b1, b2, b5⟩ := (cols (X := 0)).1 n j (by omega) (by omega)
          obtain ⟨l1, l2⟩ := lim_rows h ho h1 h2 b1
          refine (frep_fix1 h ho (ihj (by omega)) b1 a1 l2 b3.symm b2.symm b4.symm b5.symm l1).congr fun d X Y s _ => pu_congr (fun d X Y _ _ _ _ _ _ => ?_) _ _ _ _
          constructor
          · rintro ((e | e) | ⟨e1, e2, e3⟩)
            · exact .inl e
            · exact .inr (by omega)
            · subst e2; exact .inr ⟨e1, e3, b2, by omega⟩
          · rintro (e | ⟨e1, e2, e3, e4⟩)
            · exact .inl (.inl e)
            · by_cases ey : X % C.NW = j
              · refine .inr ⟨e1, ?_, e2⟩
                have := Nat.div_add_mod X C.NW
                rw [e3, ey, Nat.mul_comm] at this
                exact this.symm
              · exact .inl (.inr ⟨e1, e2, e3, by omega⟩)
      refine (inner _ (Nat.le_refl _)).congr fun d X Y s _ => pu_congr (fun d X Y _ hX _ _ _ _ => ?_) _ _ _ _
      constructor
      · rintro ((e | e) | e)
        · exact .inl e
        · exact .inr (by omega)
        · exact .inr (by omega)
      · rintro (e | ⟨e1, e2, e3⟩)
        · exact .inl (.inl e)
        · by_cases ex : X / C.NW = n
          · have := (cols (X := X)).2 hX
            rw [ex] at this
            exact .inr ⟨e1, e2, ex, this.2⟩
          · exact .inl (.inr ⟨e1, e2, by omega⟩)
  refine (outer _ (Nat.le_refl _)).congr fun d X Y s _ => pu_congr (fun d X Y _ hX _ _ _ _ => ?_) _ _ _ _
  have := ((cols (X := X)).2 hX).1
  constructor
  · rintro (e | e)
    · exact .inl e
    · exact .inr (by omega)
  · rintro (e | e)
    · exact .inl e
    · exact .inr (by omega)

/-- The bits after the corrections of the first superblock rows. -/
theorem maskAt_rep (h : FrameOk C G order) (ho : Owns C order own) {m : Nat → Nat → Mask} (hm : FRep C m (PU C G own fun _ _ _ => False)) :
    ∀ n, FRep C (C.maskAt G order m n) (PU C G own fun _ _ Y => C.v Y / sbStep C.sb128 < n) := by
  intro n
  induction n with
  | zero => exact hm.congr fun d X Y s _ => pu_congr (fun d X Y _ _ _ _ _ _ => ⟨False.elim, fun e => absurd e (Nat.not_lt_zero _)⟩) _ _ _ _
  | succ n ih =>
    rw [Cfg.maskAt]
    unfold Cfg.fixups
    dsimp only
    have hcols : FRep C (C.fixCols G n (fun tc i => C.rightEdge order (G.rowAt n, tc) ((n * C.sbsz) >>> C.comp.plane.ssV + i)) G.cols 1 (C.maskAt G order m n))
        (PU C G own fun d X Y => C.v Y / sbStep C.sb128 < n ∨ (d = 0 ∧ C.v Y / sbStep C.sb128 = n)) := by
      refine (fixCols_rep h ho n G.cols 1 _ _ (Nat.le_refl _) (by omega) (by omega) ih).congr fun d X Y s _ => pu_congr (fun d X Y _ hX hY hs hx _ => ?_) _ _ _ _
      constructor
      · rintro (e | ⟨e1, e2, e3, -⟩)
        · exact .inl e
        · exact .inr ⟨e1, e3⟩
      · rintro (e | ⟨e1, e3⟩)
        · exact .inl e
        · right
          subst e1
          obtain ⟨o1, o2⟩ := ho X Y hX hY
          have hg := (h.mem _ o1).2
          unfold Start at hs
          rw [if_pos rfl] at hs
          have hxs : X = C.xs G (own X Y).1.2 := hs
          refine ⟨rfl, hY, e3, _, ?_, hg, hxs⟩
          rcases Nat.eq_zero_or_pos (own X Y).1.2 with e0 | e0
          · rw [e0] at hxs
            unfold Cfg.xs at hxs
            rw [h.grid.c0, Nat.zero_mul, Nat.zero_div] at hxs
            exact absurd hxs (hx rfl)
          · exact e0
    by_cases hst : G.startOf n ≠ 0
    · rw [if_pos hst]
      obtain ⟨r1, r2⟩ := startOf_ne hst
      have hr := fixRow_rep h ho (r := G.startOf n) (by omega) r1 _ _ hcols
      rw [r2] at hr
      refine hr.congr fun d X Y s _ => pu_congr (fun d X Y hd hX hY hs hx hy => ?_) _ _ _ _
      obtain ⟨a1, a2, -, -⟩ := h.ys_of (sby := n) (by rw [← r2]; exact h.grid.r2 _ r1)
      constructor
      · rintro ((e | e) | ⟨e1, e2⟩)
        · omega
        · omega
        · rw [e2, a2]; omega
      · intro e
        by_cases e1 : C.v Y / sbStep C.sb128 < n
        · exact .inl (.inl e1)
        · by_cases e2 : d = 0
          · exact .inl (.inr ⟨e2, by omega⟩)
          · have e3 : d = 1 := by omega
            subst e3
            right
            refine ⟨rfl, ?_⟩
            obtain ⟨o1, o2⟩ := ho X Y hX hY
            have hg := (h.mem _ o1).1
            unfold Start at hs
            rw [if_neg (by decide)] at hs
            obtain ⟨b1, b2, -, b4⟩ := h.ys_of (h.grid.r2 _ hg)
            have hys : Y = C.base (G.rs (own X Y).1.1) := hs.trans b4
            rw [← hys] at b2
            rw [hys, show G.rs (own X Y).1.1 = n by omega]
    · rw [if_neg hst]
      refine hcols.congr fun d X Y s _ => pu_congr (fun d X Y hd hX hY hs hx hy => ?_) _ _ _ _
      constructor
      · intro e; omega
      · intro e
        by_cases e1 : C.v Y / sbStep C.sb128 < n
        · exact .inl e1
        · by_cases e2 : d = 0
          · exact .inr ⟨e2, by omega⟩
          · have e3 : d = 1 := by omega
            subst e3
            exfalso
            obtain ⟨o1, o2⟩ := ho X Y hX hY
            have hg := (h.mem _ o1).1
            unfold Start at hs
            rw [if_neg (by decide)] at hs
            obtain ⟨b1, b2, -, b4⟩ := h.ys_of (h.grid.r2 _ hg)
            have hys : Y = C.base (G.rs (own X Y).1.1) := hs.trans b4
            rw [← hys] at b2
            have hn : G.rs (own X Y).1.1 = n := by omega
            have hso := startOf_of h.grid hg
            rw [hn] at hso
            have h0 : (own X Y).1.1 = 0 := by omega
            rw [h0, h.grid.r0] at hys
            apply hy rfl
            rw [hys]
            unfold Cfg.base
            rw [Nat.zero_mul, Nat.zero_shiftRight]

end Dav1d.Part.Lpf
