import Verif.Part.LpfFix
/-!
# The calls of loop_filter
-/
set_option linter.unusedVariables false
set_option linter.unusedSimpArgs false
namespace Dav1d.Part.Lpf

variable {C : Cfg} {G : Grid} {order : List ((Nat × Nat) × Call)} {own : Nat → Nat → (Nat × Nat) × Call}

/-- The level of an edge. -/
def lev (cur prev : Nat) : Nat := if cur ≠ 0 then cur else prev

theorem mem_sbLoop (K : Comp) (w cur prev : Nat → Nat) (at_ : Nat → Nat × Nat) (op : Op) : ∀ n i, op ∈ sbLoop K w cur prev at_ n i ↔
    ∃ j, i ≤ j ∧ j < i + n ∧ (K.vm w).testBit j = true ∧ lev (cur j) (prev j) ≠ 0 ∧ op = ⟨(at_ j).1, (at_ j).2, lev (cur j) (prev j), K.wd w j⟩
  | 0, i => by
    rw [sbLoop]
    constructor
    · intro h; cases h
    · rintro ⟨j, h1, h2, -⟩; omega
  | n + 1, i => by
    rw [sbLoop]
    by_cases hz : K.vm w >>> i = 0
    · rw [if_pos hz]
      constructor
      · intro h; cases h
      · rintro ⟨j, h1, -, h3, -⟩
        have : (K.vm w >>> i).testBit (j - i) = true := by
          rw [Nat.testBit_shiftRight, show i + (j - i) = j by omega]; exact h3
        rw [hz, Nat.zero_testBit] at this
        cases this
    · rw [if_neg hz, List.mem_append, mem_sbLoop K w cur prev at_ op n (i + 1)]
      constructor
      · rintro (h | ⟨j, h1, h2, h3⟩)
        · by_cases hb : (K.vm w).testBit i = true
          · rw [if_pos hb] at h
            dsimp only at h
            by_cases hl : lev (cur i) (prev i) = 0
            · unfold lev at hl; rw [if_pos hl] at h; cases h
            · have hl' := hl
              unfold lev at hl'
              rw [if_neg hl', List.mem_singleton] at h
              exact ⟨i, Nat.le_refl _, by omega, hb, hl, h⟩
          · rw [if_neg hb] at h; cases h
        · exact ⟨j, by omega, by omega, h3⟩
      · rintro ⟨j, h1, h2, h3, h4, h5⟩
        by_cases hj : j = i
        · subst hj
          left
          rw [if_pos h3]
          dsimp only
          have hl' := h4
          unfold lev at hl'
          rw [if_neg hl', List.mem_singleton]
          exact h5
        · exact .inr ⟨j, by omega, by omega, h3, h4, h5⟩

theorem sbLoop_pairwise (K : Comp) (w cur prev : Nat → Nat) (at_ : Nat → Nat × Nat) (hat : ∀ i j, at_ i = at_ j → i = j) : ∀ n i,
    (sbLoop K w cur prev at_ n i).Pairwise fun a b => (a.x, a.y) ≠ (b.x, b.y)
  | 0, i => List.Pairwise.nil
  | n + 1, i => by
    rw [sbLoop]
    by_cases hz : K.vm w >>> i = 0
    · rw [if_pos hz]; exact List.Pairwise.nil
    · rw [if_neg hz, List.pairwise_append]
      refine ⟨?_, sbLoop_pairwise K w cur prev at_ hat n (i + 1), ?_⟩
      · dsimp only
        generalize (if cur i ≠ 0 then cur i else prev i) = L
        split
        · split
          · exact List.Pairwise.nil
          · exact List.pairwise_singleton _ _
        · exact List.Pairwise.nil
      · intro a ha b hb
        obtain ⟨j, j1, -, -, -, j5⟩ := (mem_sbLoop K w cur prev at_ b n (i + 1)).1 hb
        have ha' : a.x = (at_ i).1 ∧ a.y = (at_ i).2 := by
          dsimp only at ha
          generalize (if cur i ≠ 0 then cur i else prev i) = L at ha
          split at ha
          · split at ha
            · cases ha
            · rw [List.mem_singleton] at ha; rw [ha]; exact ⟨rfl, rfl⟩
          · cases ha
        rw [ha'.1, ha'.2, j5]
        intro he
        have := hat i j he
        omega

/-- `wd` for a size. -/
def Comp.wdOf (s : Nat) : Comp → Nat
  | .y => 4 <<< s
  | .uv _ => 4 + 2 * s

theorem vm_bit (K : Comp) (w : Nat → Nat) (j : Nat) : (K.vm w).testBit j = true ↔ ∃ s < K.sizes, (w s).testBit j = true := by
  cases K with
  | y =>
    unfold Comp.vm Comp.sizes
    simp only [Nat.testBit_or, Bool.or_eq_true]
    constructor
    · rintro ((h | h) | h)
      · exact ⟨0, by decide, h⟩
      · exact ⟨1, by decide, h⟩
      · exact ⟨2, by decide, h⟩
    · rintro ⟨s, h1, h2⟩
      have : s = 0 ∨ s = 1 ∨ s = 2 := by omega
      rcases this with rfl | rfl | rfl
      · exact .inl (.inl h2)
      · exact .inl (.inr h2)
      · exact .inr h2
  | uv p =>
    unfold Comp.vm Comp.sizes
    simp only [Nat.testBit_or, Bool.or_eq_true]
    constructor
    · rintro (h | h)
      · exact ⟨0, by decide, h⟩
      · exact ⟨1, by decide, h⟩
    · rintro ⟨s, h1, h2⟩
      have : s = 0 ∨ s = 1 := by omega
      rcases this with rfl | rfl
      · exact .inl h2
      · exact .inr h2

theorem wd_bit (K : Comp) (w : Nat → Nat) (j s : Nat) (hs : s < K.sizes) (h : ∀ s' < K.sizes, (w s').testBit j = true ↔ s' = s) : K.wd w j = K.wdOf s := by
  cases K with
  | y =>
    simp only [Comp.sizes] at hs h
    unfold Comp.wd Comp.wdOf
    have h1 := h 1 (by decide)
    have h2 := h 2 (by decide)
    have : s = 0 ∨ s = 1 ∨ s = 2 := by omega
    dsimp only
    rcases this with rfl | rfl | rfl
    · rw [if_neg (fun e => by have := h2.1 e; omega), if_neg (fun e => by have := h1.1 e; omega)]
    · rw [if_neg (fun e => by have := h2.1 e; omega), if_pos (h1.2 rfl)]
    · rw [if_pos (h2.2 rfl)]
  | uv p =>
    simp only [Comp.sizes] at hs h
    unfold Comp.wd Comp.wdOf
    have h1 := h 1 (by decide)
    have : s = 0 ∨ s = 1 := by omega
    dsimp only
    rcases this with rfl | rfl
    · rw [if_neg (fun e => by have := h1.1 e; omega)]
    · rw [if_pos (h1.2 rfl)]

/-- The loop for words that have one size for each edge. -/
theorem mem_sbLoop_of (K : Comp) (w cur prev : Nat → Nat) (at_ : Nat → Nat × Nat) (op : Op) (E : Nat → Prop) (S : Nat → Nat) (hS : ∀ j, E j → S j < K.sizes)
    (hE : ∀ j, E j → j < 32) (h : ∀ s < K.sizes, ∀ j, (w s).testBit j = true ↔ E j ∧ s = S j) :
    op ∈ sbLoop K w cur prev at_ 32 0 ↔ ∃ j, E j ∧ lev (cur j) (prev j) ≠ 0 ∧ op = ⟨(at_ j).1, (at_ j).2, lev (cur j) (prev j), K.wdOf (S j)⟩ := by
  rw [mem_sbLoop]
  constructor
  · rintro ⟨j, h1, h2, h3, h4, h5⟩
    obtain ⟨s, s1, s2⟩ := (vm_bit K w j).1 h3
    have hEj := ((h s s1 j).1 s2).1
    refine ⟨j, hEj, h4, ?_⟩
    rw [h5, wd_bit K w j (S j) (hS j hEj) (fun s' hs' => by rw [h s' hs' j]; exact ⟨fun e => e.2, fun e => ⟨hEj, e⟩⟩)]
  · rintro ⟨j, h1, h2, h3⟩
    refine ⟨j, by omega, by have := hE j h1; omega, ?_, h2, ?_⟩
    · exact (vm_bit K w j).2 ⟨S j, hS j h1, (h _ (hS j h1) j).2 ⟨h1, rfl⟩⟩
    · rw [h3, wd_bit K w j (S j) (hS j h1) (fun s' hs' => by rw [h s' hs' j]; exact ⟨fun e => e.2, fun e => ⟨h1, e⟩⟩)]

/-- Two words after each other. -/
theorem two_words {a b n : Nat} {P : Nat → Prop} (ha : ∀ j, a.testBit j = true ↔ j < n ∧ P j) (hb : ∀ j, b.testBit j = true ↔ j < n ∧ P (n + j)) (j : Nat) :
    (a ||| b <<< n).testBit j = true ↔ j < 2 * n ∧ P j := by
  rw [Nat.testBit_or, Bool.or_eq_true, Nat.testBit_shiftLeft, Bool.and_eq_true, decide_eq_true_iff, ha, hb]
  constructor
  · rintro (⟨h1, h2⟩ | ⟨h1, h2, h3⟩)
    · exact ⟨by omega, h2⟩
    · rw [show n + (j - n) = j by omega] at h3
      exact ⟨by omega, h3⟩
  · rintro ⟨h1, h2⟩
    by_cases h : j < n
    · exact .inl ⟨h, h2⟩
    · refine .inr ⟨by omega, by omega, ?_⟩
      rw [show n + (j - n) = j by omega]; exact h2

/-- The words of filter_plane_cols_y and filter_plane_cols_uv. -/
theorem cols_word (h : FrameOk C G order) {m : Nat → Nat → Mask} {P : Nat → Nat → Nat → Nat → Prop} (hm : FRep C m P) (hP : ∀ d X Y s, P d X Y s → Y < C.rows)
    {sby xx x s : Nat} (hx : x < C.NW) (j : Nat) :
    (if C.starty sby = 0 then m (C.maskRow sby) xx 0 x s 0 ||| (if C.endy sby > 16 >>> C.comp.plane.ssV then m (C.maskRow sby) xx 0 x s 1 <<< (16 >>> C.comp.plane.ssV) else 0)
      else m (C.maskRow sby) xx 0 x s 1).testBit j = true ↔ j < C.endy sby - C.starty sby ∧ P 0 (xx * C.NW + x) (C.base sby + j) s := by
  obtain ⟨n1, -, n3, -⟩ := h.nh
  have hn0 : C.nn 0 = 16 >>> C.comp.plane.ssV := by unfold Cfg.nn; rw [if_pos rfl]
  rw [← hn0]
  have w0 : ∀ j, (m (C.maskRow sby) xx 0 x s 0).testBit j = true ↔ j < C.nn 0 ∧ P 0 (xx * C.NW + x) (C.maskRow sby * C.NH + j) s := by
    intro j
    rw [hm (C.maskRow sby) xx 0 x s 0 j]
    simp only [hx, true_and, Nat.zero_mul, Nat.zero_add, show (0 : Nat) < 2 by decide, show ¬ (0 : Nat) = 1 by decide, false_and, or_false]
  have w1 : ∀ j, (m (C.maskRow sby) xx 0 x s 1).testBit j = true ↔ j < C.nn 0 ∧ P 0 (xx * C.NW + x) (C.maskRow sby * C.NH + (C.nn 0 + j)) s := by
    intro j
    rw [hm (C.maskRow sby) xx 0 x s 1 j]
    simp only [hx, true_and, Nat.one_mul, show (1 : Nat) < 2 by decide, show ¬ (0 : Nat) = 1 by decide, false_and, or_false]
  -- where the rows lie
  have geo : (C.starty sby = 0 ∧ C.base sby = C.maskRow sby * C.NH ∧ (C.endy sby ≤ C.nn 0 ∨ C.endy sby ≤ 2 * C.nn 0) ∧
        (∀ j, j < 2 * C.nn 0 → (C.nn 0 < C.endy sby ∨ j < C.nn 0) → C.base sby + j < C.rows → j < C.endy sby)) ∨
      (C.starty sby = C.nn 0 ∧ 0 < C.nn 0 ∧ C.base sby = C.maskRow sby * C.NH + C.nn 0 ∧ C.endy sby ≤ 2 * C.nn 0 ∧
        (∀ j, j < C.nn 0 → C.base sby + j < C.rows → j < C.endy sby - C.nn 0)) := by
    clear w0 w1 hm hP
    obtain ⟨-, e2⟩ := h.ss
    unfold Cfg.endy Cfg.starty Cfg.endy4 Cfg.starty4 Cfg.base Cfg.NH Cfg.maskRow Cfg.rows Av1.rows
    rw [sbsz_eq, hn0]
    have hodd : sby % 2 = 0 ∨ sby % 2 = 1 := by omega
    cases hb : C.sb128 <;> rcases e2 with e2 | e2 <;> rw [e2] <;>
      simp only [sbStep, Nat.shiftRight_eq_div_pow, Nat.shiftLeft_eq, Nat.pow_zero, Nat.pow_one, Nat.mul_one, Nat.div_one, Nat.add_zero, if_true, if_false, Bool.false_eq_true, Nat.zero_mul, Nat.zero_div, Nat.zero_add] <;>
      rcases hodd with ho | ho <;>
      first
        | (left; refine ⟨?_, ?_, ?_, fun j a b c => ?_⟩ <;> first | trivial | omega)
        | (right; refine ⟨?_, ?_, ?_, ?_, fun j a c => ?_⟩ <;> first | trivial | omega)
  rcases geo with ⟨g1, g2, g3, g4⟩ | ⟨g1, g2, g3, g4, g5⟩
  · rw [if_pos g1, g1, g2, Nat.sub_zero]
    rw [g2] at g4
    by_cases he : C.endy sby > C.nn 0
    · rw [if_pos he, two_words w0 w1 j]
      constructor
      · rintro ⟨a, b⟩; exact ⟨g4 j a (.inl he) (hP _ _ _ _ b), b⟩
      · rintro ⟨a, b⟩; exact ⟨by omega, b⟩
    · rw [if_neg he, Nat.or_zero, w0]
      constructor
      · rintro ⟨a, b⟩; exact ⟨g4 j (by omega) (.inr a) (hP _ _ _ _ b), b⟩
      · rintro ⟨a, b⟩; exact ⟨by omega, b⟩
  · rw [if_neg (by omega), g1, g3, w1, ← Nat.add_assoc]
    rw [g3] at g5
    constructor
    · rintro ⟨a, b⟩; exact ⟨g5 j a (hP _ _ _ _ b), b⟩
    · rintro ⟨a, b⟩; exact ⟨by omega, b⟩

/-- The words of filter_plane_rows_y and filter_plane_rows_uv. -/
theorem rows_word (h : FrameOk C G order) {m : Nat → Nat → Mask} {P : Nat → Nat → Nat → Nat → Prop} (hm : FRep C m P) {sby xx i s : Nat}
    (hi : i < C.endy sby - C.starty sby) (j : Nat) :
    (m (C.maskRow sby) xx 1 (C.starty sby + i) s 0 ||| m (C.maskRow sby) xx 1 (C.starty sby + i) s 1 <<< (16 >>> C.comp.plane.ssH)).testBit j = true ↔
      j < C.NW ∧ P 1 (xx * C.NW + j) (C.base sby + i) s := by
  obtain ⟨-, n2, n3, -⟩ := h.nh
  obtain ⟨-, -, b3, b4⟩ := h.rows_of hi
  have hn1 : C.nn 1 = 16 >>> C.comp.plane.ssH := by unfold Cfg.nn; rw [if_neg (by decide)]
  have hY : C.maskRow sby * C.NH + (C.starty sby + i) = C.base sby + i := by
    rw [← b3, ← b4, Nat.mul_comm]; exact Nat.div_add_mod _ _
  have hl : C.starty sby + i < C.NH := by rw [← b4]; exact Nat.mod_lt _ n3
  rw [← hn1]
  have w0 : ∀ j, (m (C.maskRow sby) xx 1 (C.starty sby + i) s 0).testBit j = true ↔ j < C.nn 1 ∧ P 1 (xx * C.NW + j) (C.base sby + i) s := by
    intro j
    rw [hm (C.maskRow sby) xx 1 _ s 0 j]
    dsimp only
    rw [hY]
    simp only [hl, true_and, Nat.zero_mul, Nat.zero_add, show (0 : Nat) < 2 by decide, show ¬ (1 : Nat) = 0 by decide, false_and, false_or]
  have w1 : ∀ j, (m (C.maskRow sby) xx 1 (C.starty sby + i) s 1).testBit j = true ↔ j < C.nn 1 ∧ P 1 (xx * C.NW + (C.nn 1 + j)) (C.base sby + i) s := by
    intro j
    rw [hm (C.maskRow sby) xx 1 _ s 1 j]
    dsimp only
    rw [hY]
    simp only [hl, true_and, Nat.one_mul, show (1 : Nat) < 2 by decide, show ¬ (1 : Nat) = 0 by decide, false_and, false_or]
  rw [two_words (P := fun j => P 1 (xx * C.NW + j) (C.base sby + i) s) w0 w1 j, n2]

/-- The size of an edge after all corrections. -/
def finSize (C : Cfg) (own : Nat → Nat → (Nat × Nat) × Call) (d X Y : Nat) : Nat := min (cls C.comp (size C own d X Y)) (cls C.comp (prevSize C own d X Y))

theorem finSize_lt (C : Cfg) (own : Nat → Nat → (Nat × Nat) × Call) (d X Y : Nat) : finSize C own d X Y < C.comp.sizes := by
  have := cls_lt C.comp (size C own d X Y)
  unfold finSize; omega

theorem pu_fin {d X Y s n : Nat} (hd : d < 2) (hv : C.v Y / sbStep C.sb128 = n) :
    PU C G own (fun _ _ Y => C.v Y / sbStep C.sb128 < n + 1) d X Y s ↔ X < C.cols ∧ Y < C.rows ∧ IsEdge C own d X Y ∧ s = finSize C own d X Y := by
  unfold PU Sz finSize
  have : C.v Y / sbStep C.sb128 < n + 1 := by omega
  simp only [this, hd, not_true, and_false, false_and, not_false_eq_true, true_and, false_or]

/-- The calls of loop_filter in both passes. -/
theorem ops_iff (h : FrameOk C G order) (ho : Owns C order own) (lvl : Nat → Nat → Nat → Nat) {pass k : Nat} (hp : pass < 2) (hk : C.comp.lvlOk k) (op : Op) :
    op ∈ C.frameOps G order lvl pass k ↔
      op.x < C.cols ∧ op.y < C.rows ∧ (if pass = 0 then 0 < op.x else 0 < op.y) ∧ IsEdge C own pass op.x op.y ∧
      op.lvl = lev ((C.info (own op.x op.y).2).lvl k) ((C.info (if pass = 0 then own (op.x - 1) op.y else own op.x (op.y - 1)).2).lvl k) ∧ op.lvl ≠ 0 ∧
      op.wd = C.comp.wdOf (finSize C own pass op.x op.y) := by
  have hrep := frame_rep h ho lvl
  have hmask := maskAt_rep h ho hrep
  have hlv : ∀ {X Y}, X < C.cols → Y < C.rows → (C.run lvl order).sh.lvl X Y k = (C.info (own X Y).2).lvl k := fun hX hY => frame_lvl h ho lvl hk hX hY
  obtain ⟨n1, n2, n3, n4⟩ := h.nh
  have cols := @FrameOk.cols_of C G order h
  unfold Cfg.frameOps
  dsimp only
  rw [List.mem_flatMap]
  have hp2 : pass = 0 ∨ pass = 1 := by omega
  have hsbh : ∀ {Y}, Y < C.rows → C.v Y / sbStep C.sb128 < C.sbh := by
    intro Y hY
    have hv := (h.onscreen (X := 0)).2 hY
    unfold Cfg.sbh
    rcases step_two C.sb128 with e | e <;> rw [e] <;> omega
  rcases hp2 with rfl | rfl
  · simp only [if_true]
    unfold Cfg.colsOps
    simp only [List.mem_flatMap, List.mem_range]
    constructor
    · rintro ⟨sby, hs, xx, hxx, x, hx, hop⟩
      split at hop
      · cases hop
      · rename_i hne
        obtain ⟨c1, c2, c3⟩ := (cols (X := 0)).1 xx x hxx (by rw [Nat.shiftLeft_eq]; exact hx)
        have hxl : x < C.NW := by rw [← c3]; exact Nat.mod_lt _ n4
        rw [mem_sbLoop_of C.comp _ _ _ _ op (fun j => j < C.endy sby - C.starty sby ∧ IsEdge C own 0 (xx * C.NW + x) (C.base sby + j)) (fun j => finSize C own 0 (xx * C.NW + x) (C.base sby + j))
          (fun j _ => finSize_lt C own _ _ _)
          (fun j hj => by
            have := (h.rows_of hj.1).2.2.2
            have h2 := Nat.mod_lt (C.base sby + j) n3
            have : C.NH ≤ 32 := by unfold Cfg.NH; have := word_n h.ssV; omega
            omega)
          (fun s hs j => by
            rw [cols_word h (hmask (sby + 1)) (fun d X Y s hp => hp.2.2.1) hxl j]
            constructor
            · rintro ⟨a, b⟩
              rw [pu_fin (by decide) (h.rows_of a).2.1] at b
              exact ⟨⟨a, b.2.2.1⟩, b.2.2.2⟩
            · rintro ⟨⟨a, b⟩, c⟩
              refine ⟨a, (pu_fin (by decide) (h.rows_of a).2.1).2 ⟨c1, (h.rows_of a).1, b, c⟩⟩)] at hop
        obtain ⟨j, ⟨j1, j2⟩, j3, j4⟩ := hop
        have hY := (h.rows_of j1).1
        have hX0 : 0 < xx * C.NW + x := by
          rcases Nat.eq_zero_or_pos x with e | e
          · rcases Nat.eq_zero_or_pos xx with e2 | e2
            · exact absurd ⟨e2, e⟩ hne
            · have := Nat.mul_pos e2 n4; omega
          · omega
        change lev ((C.run lvl order).sh.lvl (xx * C.NW + x) (C.base sby + j) k) ((C.run lvl order).sh.lvl (xx * C.NW + x - 1) (C.base sby + j) k) ≠ 0 at j3
        change op = ⟨xx * C.NW + x, C.base sby + j, lev ((C.run lvl order).sh.lvl (xx * C.NW + x) (C.base sby + j) k) ((C.run lvl order).sh.lvl (xx * C.NW + x - 1) (C.base sby + j) k), _⟩ at j4
        rw [hlv (X := xx * C.NW + x) c1 hY, hlv (X := xx * C.NW + x - 1) (by show _ < C.cols; have : xx * C.NW + x < C.cols := c1; omega) hY] at j3 j4
        rw [j4]
        exact ⟨c1, hY, hX0, j2, rfl, j3, rfl⟩
    · rintro ⟨o1, o2, o3, o4, o5, o6, o7⟩
      refine ⟨C.v op.y / sbStep C.sb128, hsbh o2, op.x / C.NW, ((cols (X := op.x)).2 o1).1, op.x % C.NW, by have := ((cols (X := op.x)).2 o1).2; rw [Nat.shiftLeft_eq] at this; exact this, ?_⟩
      obtain ⟨r1, r2⟩ := h.row_in o2 rfl
      generalize hsby : C.v op.y / sbStep C.sb128 = sby at *
      have eX : op.x / C.NW * C.NW + op.x % C.NW = op.x := by rw [Nat.mul_comm]; exact Nat.div_add_mod _ _
      rw [if_neg (fun hh => by rw [hh.1, hh.2] at eX; omega)]
      rw [mem_sbLoop_of C.comp _ _ _ _ op (fun j => j < C.endy sby - C.starty sby ∧ IsEdge C own 0 op.x (C.base sby + j)) (fun j => finSize C own 0 op.x (C.base sby + j))
          (fun j _ => finSize_lt C own _ _ _)
          (fun j hj => by
            have := (h.rows_of hj.1).2.2.2
            have h2 := Nat.mod_lt (C.base sby + j) n3
            have : C.NH ≤ 32 := by unfold Cfg.NH; have := word_n h.ssV; omega
            omega)
          (fun s hs j => by
            rw [cols_word h (hmask (sby + 1)) (fun d X Y s hp => hp.2.2.1) (Nat.mod_lt _ n4) j, eX]
            constructor
            · rintro ⟨a, b⟩
              rw [pu_fin (by decide) (h.rows_of a).2.1] at b
              exact ⟨⟨a, b.2.2.1⟩, b.2.2.2⟩
            · rintro ⟨⟨a, b⟩, c⟩
              refine ⟨a, (pu_fin (by decide) (h.rows_of a).2.1).2 ⟨o1, (h.rows_of a).1, b, c⟩⟩)]
      refine ⟨op.y - C.base sby, ⟨r2, ?_⟩, ?_⟩
      · rw [show C.base sby + (op.y - C.base sby) = op.y by omega]; exact o4
      · change lev ((C.run lvl order).sh.lvl (op.x / C.NW * C.NW + op.x % C.NW) (C.base sby + (op.y - C.base sby)) k) ((C.run lvl order).sh.lvl (op.x / C.NW * C.NW + op.x % C.NW - 1) (C.base sby + (op.y - C.base sby)) k) ≠ 0 ∧
          op = ⟨op.x / C.NW * C.NW + op.x % C.NW, C.base sby + (op.y - C.base sby), lev ((C.run lvl order).sh.lvl (op.x / C.NW * C.NW + op.x % C.NW) (C.base sby + (op.y - C.base sby)) k) ((C.run lvl order).sh.lvl (op.x / C.NW * C.NW + op.x % C.NW - 1) (C.base sby + (op.y - C.base sby)) k), _⟩
        rw [eX, show C.base sby + (op.y - C.base sby) = op.y by omega, hlv o1 o2, hlv (X := op.x - 1) (by show _ < C.cols; have : op.x < C.cols := o1; omega) o2, ← o5, ← o7]
        exact ⟨o6, rfl⟩
  · simp only [if_neg (show ¬ (1 : Nat) = 0 by decide)]
    unfold Cfg.rowsOps
    simp only [List.mem_flatMap, List.mem_range]
    have hnw : C.NW ≤ 32 := by unfold Cfg.NW; have := word_n h.ssH; omega
    constructor
    · rintro ⟨sby, hs, xx, hxx, i, hi, hop⟩
      split at hop
      · cases hop
      · rename_i hne
        obtain ⟨b1, b2, b3, b4⟩ := h.rows_of hi
        rw [mem_sbLoop_of C.comp _ _ _ _ op (fun j => j < C.NW ∧ xx * C.NW + j < C.cols ∧ IsEdge C own 1 (xx * C.NW + j) (C.base sby + i)) (fun j => finSize C own 1 (xx * C.NW + j) (C.base sby + i))
          (fun j _ => finSize_lt C own _ _ _) (fun j hj => by have := hj.1; omega)
          (fun s hs j => by
            rw [rows_word h (hmask (sby + 1)) hi j, pu_fin (by decide) b2]
            constructor
            · rintro ⟨a, b, -, c, d⟩; exact ⟨⟨a, b, c⟩, d⟩
            · rintro ⟨⟨a, b, c⟩, d⟩; exact ⟨a, b, b1, c, d⟩)] at hop
        obtain ⟨j, ⟨j1, j5, j2⟩, j3, j4⟩ := hop
        have hY0 : 0 < C.base sby + i := by
          rcases Nat.eq_zero_or_pos sby with e | e
          · rcases Nat.eq_zero_or_pos i with e2 | e2
            · exfalso
              apply hne
              subst e; subst e2
              refine ⟨rfl, ?_⟩
              unfold Cfg.starty Cfg.starty4
              rw [Nat.zero_mod]
              cases C.sb128 <;> simp
            · omega
          · have := (h.ys_of (sby := sby) (by
              have hv := (h.onscreen (X := 0)).2 b1
              have := Nat.div_mul_le_self (C.v (C.base sby + i)) (sbStep C.sb128)
              rw [b2] at this; omega)).2.2.1 e
            omega
        change lev ((C.run lvl order).sh.lvl (xx * C.NW + j) (C.base sby + i) k) ((C.run lvl order).sh.lvl (xx * C.NW + j) (C.base sby + i - 1) k) ≠ 0 at j3
        change op = ⟨xx * C.NW + j, C.base sby + i, lev ((C.run lvl order).sh.lvl (xx * C.NW + j) (C.base sby + i) k) ((C.run lvl order).sh.lvl (xx * C.NW + j) (C.base sby + i - 1) k), _⟩ at j4
        rw [hlv j5 b1, hlv (Y := C.base sby + i - 1) j5 (by show _ < C.rows; have : C.base sby + i < C.rows := b1; omega)] at j3 j4
        rw [j4]
        exact ⟨j5, b1, hY0, j2, rfl, j3, rfl⟩
    · rintro ⟨o1, o2, o3, o4, o5, o6, o7⟩
      obtain ⟨r1, r2⟩ := h.row_in o2 rfl
      refine ⟨C.v op.y / sbStep C.sb128, hsbh o2, op.x / C.NW, ((cols (X := op.x)).2 o1).1, op.y - C.base (C.v op.y / sbStep C.sb128), r2, ?_⟩
      generalize hsby : C.v op.y / sbStep C.sb128 = sby at *
      have eX : op.x / C.NW * C.NW + op.x % C.NW = op.x := by rw [Nat.mul_comm]; exact Nat.div_add_mod _ _
      obtain ⟨b1, b2, b3, b4⟩ := h.rows_of r2
      have eY : C.base sby + (op.y - C.base sby) = op.y := by omega
      have hb0 : C.base 0 = 0 := by unfold Cfg.base; rw [Nat.zero_mul, Nat.zero_shiftRight]
      rw [if_neg (fun hh => by
        have : op.y - C.base sby = 0 := by omega
        rw [hh.1, hb0] at this; omega)]
      rw [mem_sbLoop_of C.comp _ _ _ _ op (fun j => j < C.NW ∧ op.x / C.NW * C.NW + j < C.cols ∧ IsEdge C own 1 (op.x / C.NW * C.NW + j) op.y) (fun j => finSize C own 1 (op.x / C.NW * C.NW + j) op.y)
          (fun j _ => finSize_lt C own _ _ _) (fun j hj => by have := hj.1; omega)
          (fun s hs j => by
            rw [rows_word h (hmask (sby + 1)) r2 j, pu_fin (by decide) b2, eY]
            constructor
            · rintro ⟨a, b, -, c, d⟩; exact ⟨⟨a, b, c⟩, d⟩
            · rintro ⟨⟨a, b, c⟩, d⟩; exact ⟨a, b, o2, c, d⟩)]
      refine ⟨op.x % C.NW, ⟨Nat.mod_lt _ n4, ?_, ?_⟩, ?_⟩
      · rw [eX]; exact o1
      · rw [eX]; exact o4
      · change lev ((C.run lvl order).sh.lvl (op.x / C.NW * C.NW + op.x % C.NW) (C.base sby + (op.y - C.base sby)) k) ((C.run lvl order).sh.lvl (op.x / C.NW * C.NW + op.x % C.NW) (C.base sby + (op.y - C.base sby) - 1) k) ≠ 0 ∧
          op = ⟨op.x / C.NW * C.NW + op.x % C.NW, C.base sby + (op.y - C.base sby), lev ((C.run lvl order).sh.lvl (op.x / C.NW * C.NW + op.x % C.NW) (C.base sby + (op.y - C.base sby)) k) ((C.run lvl order).sh.lvl (op.x / C.NW * C.NW + op.x % C.NW) (C.base sby + (op.y - C.base sby) - 1) k), _⟩
        rw [eX, eY, hlv o1 o2, hlv (Y := op.y - 1) o1 (by show _ < C.rows; have : op.y < C.rows := o2; omega), ← o5, ← o7]
        exact ⟨o6, rfl⟩

/-- Where the calls of a superblock row are. -/
theorem colsOps_at (h : FrameOk C G order) {m : Nat → Nat → Mask} {P : Nat → Nat → Nat → Nat → Prop} (hm : FRep C m P) (hP : ∀ d X Y s, P d X Y s → Y < C.rows) {lv : Nat → Nat → Nat → Nat} {sby k : Nat} {op : Op}
    (hop : op ∈ C.colsOps ⟨m, lv⟩ sby k) : C.v op.y / sbStep C.sb128 = sby := by
  obtain ⟨n1, n2, n3, n4⟩ := h.nh
  unfold Cfg.colsOps at hop
  simp only [List.mem_flatMap, List.mem_range] at hop
  obtain ⟨xx, hxx, x, hx, hop⟩ := hop
  split at hop
  · cases hop
  · obtain ⟨c1, c2, c3⟩ := (@FrameOk.cols_of C G order h 0).1 xx x hxx (by rw [Nat.shiftLeft_eq]; exact hx)
    have hxl : x < C.NW := by rw [← c3]; exact Nat.mod_lt _ n4
    obtain ⟨j, -, -, j3, -, j5⟩ := (mem_sbLoop _ _ _ _ _ _ _ _).1 hop
    obtain ⟨s, s1, s2⟩ := (vm_bit _ _ _).1 j3
    have := (cols_word h hm hP (sby := sby) (xx := xx) (s := s) hxl j).1 s2
    rw [j5]
    exact (h.rows_of this.1).2.1

theorem rowsOps_at (h : FrameOk C G order) {m : Nat → Nat → Mask} {lv : Nat → Nat → Nat → Nat} {sby k : Nat} {op : Op}
    (hop : op ∈ C.rowsOps ⟨m, lv⟩ sby k) : C.v op.y / sbStep C.sb128 = sby := by
  unfold Cfg.rowsOps at hop
  simp only [List.mem_flatMap, List.mem_range] at hop
  obtain ⟨xx, hxx, i, hi, hop⟩ := hop
  split at hop
  · cases hop
  · obtain ⟨j, -, -, -, -, j5⟩ := (mem_sbLoop _ _ _ _ _ _ _ _).1 hop
    rw [j5]
    exact (h.rows_of hi).2.1

/-- No edge is filtered twice. -/
theorem ops_once (h : FrameOk C G order) (lvl : Nat → Nat → Nat → Nat) (pass k : Nat) :
    (C.frameOps G order lvl pass k).Pairwise fun a b => (a.x, a.y) ≠ (b.x, b.y) := by
  obtain ⟨own, ho⟩ := h.owns
  have hmask := maskAt_rep h ho (frame_rep h ho lvl)
  obtain ⟨n1, n2, n3, n4⟩ := h.nh
  have cols := @FrameOk.cols_of C G order h
  unfold Cfg.frameOps
  dsimp only
  rw [List.pairwise_flatMap]
  constructor
  · intro sby hs
    have hcell : ∀ {a b i j : Nat}, a < b → i < C.NW → j < C.NW → a * C.NW + i ≠ b * C.NW + j := by
      intro a b i j hab hi _
      have := Nat.mul_le_mul_right C.NW (show a + 1 ≤ b by omega)
      rw [Nat.add_mul, Nat.one_mul] at this
      omega
    by_cases hp : pass = 0
    · rw [if_pos hp]
      unfold Cfg.colsOps
      dsimp only
      have hmem : ∀ {xx x : Nat} {op : Op} {w cur prev : Nat → Nat}, op ∈ (if xx = 0 ∧ x = 0 then [] else sbLoop C.comp w cur prev (fun i => (xx * (32 >>> C.comp.plane.ssH) + x, (sby * C.sbsz) >>> C.comp.plane.ssV + i)) 32 0) → op.x = xx * C.NW + x := by
        intro xx x op w cur prev hop
        split at hop
        · cases hop
        · obtain ⟨j, -, -, -, -, j5⟩ := (mem_sbLoop _ _ _ _ _ _ _ _).1 hop
          rw [j5]; rfl
      have hxl : ∀ {xx x : Nat}, xx ∈ List.range C.sb128w → x ∈ List.range ((min 32 (C.D.w4 - xx * 32) + C.comp.plane.ssH) >>> C.comp.plane.ssH) → x < C.NW := by
        intro xx x hxx hx
        rw [List.mem_range] at hxx hx
        have := ((cols (X := 0)).1 xx x hxx (by rw [Nat.shiftLeft_eq]; exact hx)).2.2
        rw [← this]; exact Nat.mod_lt _ n4
      rw [List.pairwise_flatMap]
      constructor
      · intro xx hxx
        rw [List.pairwise_flatMap]
        constructor
        · intro x hx
          split
          · exact List.Pairwise.nil
          · refine sbLoop_pairwise _ _ _ _ _ (fun i j hij => ?_) _ _
            have := congrArg Prod.snd hij
            dsimp only at this; omega
        · refine List.pairwise_lt_range.imp_of_mem fun {a b} ha hb hab => ?_
          intro o1 h1 o2 h2 he
          have e1 := hmem h1
          have e2 := hmem h2
          have := congrArg Prod.fst he
          dsimp only at this
          omega
      · refine List.pairwise_lt_range.imp_of_mem fun {a b} ha hb hab => ?_
        intro o1 h1 o2 h2 he
        obtain ⟨x1, g1, h1⟩ := List.mem_flatMap.1 h1
        obtain ⟨x2, g2, h2⟩ := List.mem_flatMap.1 h2
        have e1 := hmem h1
        have e2 := hmem h2
        have e3 := congrArg Prod.fst he
        dsimp only at e3
        rw [e1, e2] at e3
        exact hcell hab (hxl ha g1) (hxl hb g2) e3
    · rw [if_neg hp]
      unfold Cfg.rowsOps
      dsimp only
      rw [List.pairwise_flatMap]
      constructor
      · intro xx hxx
        rw [List.pairwise_flatMap]
        constructor
        · intro i hi
          split
          · exact List.Pairwise.nil
          · refine sbLoop_pairwise _ _ _ _ _ (fun i j hij => ?_) _ _
            have := congrArg Prod.fst hij
            dsimp only at this; omega
        · refine List.pairwise_lt_range.imp_of_mem fun {a b} ha hb hab => ?_
          intro o1 h1 o2 h2 he
          split at h1
          · cases h1
          · split at h2
            · cases h2
            · obtain ⟨j1, -, -, -, -, q1⟩ := (mem_sbLoop _ _ _ _ _ _ _ _).1 h1
              obtain ⟨j2, -, -, -, -, q2⟩ := (mem_sbLoop _ _ _ _ _ _ _ _).1 h2
              have := congrArg Prod.snd he
              rw [q1, q2] at this
              dsimp only at this
              omega
      · refine List.pairwise_lt_range.imp_of_mem fun {a b} ha hb hab => ?_
        intro o1 h1 o2 h2 he
        have hx : ∀ {xx : Nat} {op : Op}, op ∈ (List.range (C.endy sby - C.starty sby)).flatMap (fun j =>
            if sby = 0 ∧ C.starty sby + j = 0 then []
            else sbLoop C.comp (fun s => C.maskAt G order (C.run lvl order).sh.m (sby + 1) (C.maskRow sby) xx 1 (C.starty sby + j) s 0 ||| C.maskAt G order (C.run lvl order).sh.m (sby + 1) (C.maskRow sby) xx 1 (C.starty sby + j) s 1 <<< (16 >>> C.comp.plane.ssH))
              (fun i => (C.run lvl order).sh.lvl (xx * (32 >>> C.comp.plane.ssH) + i) ((sby * C.sbsz) >>> C.comp.plane.ssV + j) k)
              (fun i => (C.run lvl order).sh.lvl (xx * (32 >>> C.comp.plane.ssH) + i) ((sby * C.sbsz) >>> C.comp.plane.ssV + j - 1) k)
              (fun i => (xx * (32 >>> C.comp.plane.ssH) + i, (sby * C.sbsz) >>> C.comp.plane.ssV + j)) 32 0) → ∃ j < C.NW, op.x = xx * C.NW + j := by
          intro xx op hop
          obtain ⟨i, hi, hop⟩ := List.mem_flatMap.1 hop
          split at hop
          · cases hop
          · obtain ⟨j, -, -, j3, -, j5⟩ := (mem_sbLoop _ _ _ _ _ _ _ _).1 hop
            obtain ⟨s, s1, s2⟩ := (vm_bit _ _ _).1 j3
            have := (rows_word h (hmask (sby + 1)) (xx := xx) (s := s) (List.mem_range.1 hi) j).1 s2
            exact ⟨j, this.1, by rw [j5]; rfl⟩
        obtain ⟨j1, q1, e1⟩ := hx h1
        obtain ⟨j2, q2, e2⟩ := hx h2
        have e3 := congrArg Prod.fst he
        dsimp only at e3
        rw [e1, e2] at e3
        exact hcell hab q1 q2 e3
  · refine List.pairwise_lt_range.imp fun {a b} hab => ?_
    intro o1 h1 o2 h2 he
    have e3 := congrArg Prod.snd he
    dsimp only at e3
    have key : ∀ {s : Nat} {o : Op}, o ∈ (if pass = 0 then C.colsOps ⟨C.maskAt G order (C.run lvl order).sh.m (s + 1), (C.run lvl order).sh.lvl⟩ s k else C.rowsOps ⟨C.maskAt G order (C.run lvl order).sh.m (s + 1), (C.run lvl order).sh.lvl⟩ s k) → C.v o.y / sbStep C.sb128 = s := by
      intro s o hh
      split at hh
      · exact colsOps_at h (hmask (s + 1)) (fun d X Y s hp => hp.2.2.1) hh
      · exact rowsOps_at h hh
    have k1 := key h1
    have k2 := key h2
    rw [e3] at k1
    omega

end Dav1d.Part.Lpf
