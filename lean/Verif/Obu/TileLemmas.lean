import Verif.Obu.TileSpec
/-!
# The tiling section of the frame header produces a legal layout
-/
namespace Dav1d
open HProg

theorem tileLog2Loop_spec {sz tgt : Nat} (hs : 1 ≤ sz) : ∀ n k, tgt ≤ sz * 2 ^ (n + k) →
    tgt ≤ sz * 2 ^ tileLog2Loop sz tgt n k ∧ k ≤ tileLog2Loop sz tgt n k ∧
    ∀ j, k ≤ j → tgt ≤ sz * 2 ^ j → tileLog2Loop sz tgt n k ≤ j := by
  intro n
  induction n with
  | zero => intro k h; simp only [Nat.zero_add] at h; exact ⟨h, le_refl _, fun j hj _ => hj⟩
  | succ n ih =>
    intro k h
    unfold tileLog2Loop
    split
    · rename_i hlt
      obtain ⟨a, b, c⟩ := ih (k + 1) (by rwa [show n + (k + 1) = n + 1 + k by omega])
      refine ⟨a, by omega, fun j hj hj2 => c j ?_ hj2⟩
      by_contra hne
      have : j = k := by omega
      subst this; omega
    · exact ⟨by omega, le_refl _, fun j hj _ => hj⟩

theorem tileLog2_spec {sz tgt : Nat} (hs : 1 ≤ sz) :
    tgt ≤ sz * 2 ^ tileLog2 sz tgt ∧ ∀ j, tgt ≤ sz * 2 ^ j → tileLog2 sz tgt ≤ j := by
  have h : tgt ≤ sz * 2 ^ (tgt + 0) := by
    have := Nat.lt_two_pow_self (n := tgt)
    calc tgt ≤ 1 * 2 ^ tgt := by omega
      _ ≤ sz * 2 ^ (tgt + 0) := Nat.mul_le_mul_right _ hs
  obtain ⟨a, _, c⟩ := tileLog2Loop_spec hs tgt 0 h
  exact ⟨a, fun j hj => c j (Nat.zero_le _) hj⟩

theorem ceilDiv_eq {a b : Nat} (ha : 1 ≤ a) (hb : 1 ≤ b) : ceilDiv a b = (a - 1) / b + 1 := by
  unfold ceilDiv
  rw [show a + b - 1 = (a - 1) + b by omega, Nat.add_div_right _ hb]

theorem ceilDiv_mul_ge {a b : Nat} (hb : 1 ≤ b) : a ≤ ceilDiv a b * b := by
  unfold ceilDiv
  have := Nat.div_add_mod (a + b - 1) b
  have := Nat.mod_lt (a + b - 1) hb
  rw [Nat.mul_comm]; omega

theorem ceilDiv_le {a b c : Nat} (hb : 1 ≤ b) (h : a ≤ c * b) : ceilDiv a b ≤ c := by
  unfold ceilDiv
  rw [← Nat.lt_succ_iff, Nat.div_lt_iff_lt_mul hb, Nat.succ_mul]
  omega

theorem ceilDiv_pos {a b : Nat} (ha : 1 ≤ a) (hb : 1 ≤ b) : 1 ≤ ceilDiv a b := by
  rw [ceilDiv_eq ha hb]; exact Nat.le_add_left _ _

theorem lt_of_lt_ceilDiv {a b i : Nat} (hb : 1 ≤ b) (h : i < ceilDiv a b) : i * b < a := by
  by_contra hc
  have := ceilDiv_le hb (Nat.le_of_not_lt hc)
  omega

/-- The uniform start positions are the multiples of the step. -/
theorem uniformStarts_eq {sb step : Nat} (hs : 1 ≤ step) : ∀ n x, sb - x ≤ n →
    uniformStarts sb step n x = (List.range (ceilDiv (sb - x) step)).map (fun i => x + i * step) := by
  intro n
  induction n with
  | zero =>
    intro x h
    have : sb - x = 0 := by omega
    have e : ceilDiv 0 step = 0 := by unfold ceilDiv; exact Nat.div_eq_of_lt (by omega)
    rw [this, e]; rfl
  | succ n ih =>
    intro x h
    unfold uniformStarts
    split
    · rename_i hlt
      rw [ih (x + step) (by omega)]
      have e : ceilDiv (sb - x) step = ceilDiv (sb - (x + step)) step + 1 := by
        by_cases hc : step ≤ sb - x
        · unfold ceilDiv
          rw [show sb - x + step - 1 = (sb - (x + step) + step - 1) + step by omega, Nat.add_div_right _ hs]
        · rw [show sb - (x + step) = 0 by omega, ceilDiv_eq (by omega) hs]
          unfold ceilDiv
          rw [Nat.div_eq_of_lt (by omega), Nat.div_eq_of_lt (by omega)]
      rw [e, List.range_succ_eq_map, List.map_cons, List.map_map]
      congr 1
      · simp
      · apply List.map_congr_left
        intro i _
        simp only [Function.comp_apply, Nat.succ_mul]
        omega
    · have e : ceilDiv (sb - x) step = 0 := by
        rw [show sb - x = 0 by omega]; unfold ceilDiv; exact Nat.div_eq_of_lt (by omega)
      rw [e]; rfl

/-- Facts about start lists without the final boundary. -/
structure Starts (l : List Nat) (x sb : Nat) : Prop where
  head : l.head? = some x
  lt : ∀ y ∈ l, x ≤ y ∧ y < sb
  inc : l.Pairwise (· < ·)

theorem Starts.boundaries {l sb} (h : Starts l 0 sb) (hl : l.length ≤ 64) : Boundaries (l ++ [sb]) l.length sb := by
  refine ⟨by simp, ?_, by simp, ?_, hl⟩
  · rw [List.head?_append, h.head]; rfl
  · rw [List.pairwise_append]
    exact ⟨h.inc, List.pairwise_singleton _ _, fun a ha b hb => by
      rw [List.mem_singleton] at hb; subst hb; exact (h.lt a ha).2⟩

theorem uniformStarts_ok {sb step : Nat} (hsb : 1 ≤ sb) (hs : 1 ≤ step) :
    Starts (uniformStarts sb step sb 0) 0 sb ∧ (uniformStarts sb step sb 0).length = ceilDiv sb step ∧
    ∀ i, i < ceilDiv sb step → (uniformStarts sb step sb 0)[i]? = some (i * step) := by
  rw [uniformStarts_eq hs sb 0 (by omega)]
  simp only [Nat.sub_zero, Nat.zero_add]
  refine ⟨⟨?_, ?_, ?_⟩, by simp, ?_⟩
  · rw [List.head?_map, List.head?_range, if_neg (by have := ceilDiv_pos hsb hs; omega)]; simp
  · intro y hy
    rw [List.mem_map] at hy
    obtain ⟨i, hi, rfl⟩ := hy
    exact ⟨Nat.zero_le _, lt_of_lt_ceilDiv hs (List.mem_range.1 hi)⟩
  · rw [List.pairwise_map]
    exact List.pairwise_lt_range.imp (fun h => Nat.mul_lt_mul_of_pos_right h hs)
  · intro i hi
    rw [List.getElem?_map, List.getElem?_range hi]; rfl

/-- The increment loop stays between its bounds. -/
theorem post_readIncrement : ∀ n k, Post (readIncrement n k) (fun v => k ≤ v ∧ v ≤ k + n)
  | 0, k => Post.pure ⟨le_refl _, le_refl _⟩
  | n + 1, k => by
    unfold readIncrement
    refine Post.bind post_flag (fun m _ => Post.ite (fun _ => ?_) (fun _ => Post.pure ⟨le_refl _, by omega⟩))
    exact Post.mono (post_readIncrement n (k + 1)) (fun v hv => ⟨by omega, by omega⟩)

/-- The explicit loop. -/
theorem post_explicitStarts {sb maxSz : Nat} (hsb : sb ≤ 1024) : ∀ n x wd, Post (explicitStarts sb maxSz n x wd)
    (fun r => r.1.length ≤ n ∧ wd ≤ r.2 ∧ (0 < n → x < sb → Starts r.1 x sb ∧ 1 ≤ r.2) ∧
      (¬ x < sb → r.1 = []))
  | 0, x, wd => Post.pure ⟨by simp, le_refl _, fun h => absurd h (by omega), fun _ => rfl⟩
  | n + 1, x, wd => by
    unfold explicitStarts
    refine Post.ite (fun hx => ?_) (fun hx => Post.pure ⟨by simp, le_refl _, fun _ h => absurd h hx, fun _ => rfl⟩)
    simp only
    refine Post.bind (P := fun w => 1 ≤ w) ?_ (fun w hw => ?_)
    · refine Post.opt (fun hl => ?_) (fun _ => le_refl _)
      refine Post.bind (Post.rd (Prog.wfp_getUniform hl (by omega))) (fun v _ => Post.pure (by omega))
    · refine Post.bind (post_explicitStarts hsb n (x + w) (max wd w)) (fun r hr => ?_)
      obtain ⟨l, wd'⟩ := r
      simp only at hr
      refine Post.pure ⟨by simp; omega, by simp only; omega, fun _ _ => ?_, fun h => absurd hx h⟩
      refine ⟨⟨rfl, ?_, ?_⟩, by simp only; omega⟩
      all_goals
        have hl : ∀ y ∈ l, x + w ≤ y ∧ y < sb := by
          intro y hy
          by_cases h1 : x + w < sb
          · by_cases h2 : 0 < n
            · exact (hr.2.2.1 h2 h1).1.lt y hy
            · have : l = [] := List.eq_nil_of_length_eq_zero (by omega)
              subst this; cases hy
          · rw [hr.2.2.2 h1] at hy; cases hy
      · intro y hy
        rcases List.mem_cons.1 hy with rfl | hy
        · exact ⟨le_refl _, hx⟩
        · have := hl y hy; omega
      · rw [List.pairwise_cons]
        refine ⟨fun y hy => by have := hl y hy; omega, ?_⟩
        by_cases h1 : x + w < sb
        · by_cases h2 : 0 < n
          · exact (hr.2.2.1 h2 h1).1.inc
          · have : l = [] := List.eq_nil_of_length_eq_zero (by omega)
            subst this; exact List.Pairwise.nil
        · rw [hr.2.2.2 h1]; exact List.Pairwise.nil

/-- Bound on the row logarithm forced by the area limit. -/
theorem minLog2Rows_le {A W sbw sbh k m : Nat} (hA : 1 ≤ A) (hsh : sbh * W ≤ 32 * A) (hk : k ≤ 9)
    (hm : sbw ≤ W * 2 ^ m) (h : k = 0 ∨ A * 2 ^ (k - 1) < sbw * sbh) : k ≤ m + 5 := by
  by_contra hc
  rcases h with h | h
  · omega
  · have h1 : sbw * sbh ≤ W * 2 ^ m * sbh := Nat.mul_le_mul_right _ hm
    have h2 : W * 2 ^ m * sbh = sbh * W * 2 ^ m := by ring
    have h3 : sbh * W * 2 ^ m ≤ 32 * A * 2 ^ m := Nat.mul_le_mul_right _ hsh
    have h4 : 32 * A * 2 ^ m = A * 2 ^ (m + 5) := by rw [pow_add]; ring
    have h5 : A * 2 ^ (m + 5) ≤ A * 2 ^ (k - 1) := Nat.mul_le_mul_left _ (Nat.pow_le_pow_right (by omega) (by omega))
    omega

theorem uniform_spacing {sb k : Nat} (hsb : 1 ≤ sb) :
    let l := uniformStarts sb (1 + (sb - 1) / 2 ^ k) sb 0
    Starts l 0 sb ∧ l.length ≤ 2 ^ k ∧ UniformSpacing (l ++ [sb]) l.length sb k := by
  have hk := Nat.two_pow_pos k
  have e : 1 + (sb - 1) / 2 ^ k = ceilDiv sb (2 ^ k) := by rw [ceilDiv_eq hsb hk]; omega
  rw [e]
  have hs := ceilDiv_pos hsb hk
  obtain ⟨a, b, c⟩ := uniformStarts_ok hsb hs
  refine ⟨a, ?_, ?_⟩
  · rw [b]
    exact ceilDiv_le hs (by rw [Nat.mul_comm]; exact ceilDiv_mul_ge hk)
  · refine ⟨b, fun i hi => ?_⟩
    rw [List.getElem?_append_left hi]
    exact c i (b ▸ hi)

theorem post_tileLayout {uniform : Bool} {sbw sbh maxW minC maxC maxR minT : Nat} (hw : 1 ≤ sbw) (hw' : sbw ≤ 1024)
    (hh : 1 ≤ sbh) (hh' : sbh ≤ 1024) (hminC : minC ≤ 6) (hmaxC : maxC ≤ 6) (hmaxR : maxR ≤ 6)
    (hT : minT ≤ minC + 6) :
    Post (parseTileLayout uniform sbw sbh maxW minC maxC maxR minT) (fun r =>
      r.1 ≤ 6 ∧ r.2.2.1 ≤ 6 ∧ Starts r.2.2.2.1 0 sbw ∧ Starts r.2.2.2.2 0 sbh ∧
      r.2.2.2.1.length ≤ 2 ^ r.1 ∧ r.2.2.2.2.length ≤ 2 ^ r.2.2.1 ∧
      (uniform = true → UniformSpacing (r.2.2.2.1 ++ [sbw]) r.2.2.2.1.length sbw r.1 ∧
        UniformSpacing (r.2.2.2.2 ++ [sbh]) r.2.2.2.2.length sbh r.2.2.1)) := by
  unfold parseTileLayout
  refine Post.ite (fun hu => ?_) (fun hu => ?_)
  · refine Post.bind (post_readIncrement _ _) (fun lc hlc => ?_)
    simp only
    refine Post.bind (post_readIncrement _ _) (fun lr hlr => ?_)
    obtain ⟨a, b, c⟩ := uniform_spacing (k := lc) hw
    obtain ⟨a', b', c'⟩ := uniform_spacing (k := lr) hh
    exact Post.pure ⟨by simp only; omega, by simp only; omega, a, a', b, b', fun _ => ⟨c, c'⟩⟩
  · refine Post.bind (post_explicitStarts hw' 64 0 0) (fun r hr => ?_)
    obtain ⟨cols, widest⟩ := r
    simp only at hr ⊢
    refine Post.bind (post_explicitStarts hh' 64 0 0) (fun r' hr' => ?_)
    obtain ⟨rows, w'⟩ := r'
    simp only at hr'
    have t1 := tileLog2_spec (sz := 1) (tgt := cols.length) (le_refl _)
    have t2 := tileLog2_spec (sz := 1) (tgt := rows.length) (le_refl _)
    refine Post.pure ⟨t1.2 6 (by omega), t2.2 6 (by omega), (hr.2.2.1 (by omega) (by omega)).1,
      (hr'.2.2.1 (by omega) (by omega)).1, by simpa using t1.1, by simpa using t2.1, fun h => absurd h hu⟩

theorem Starts.length_pos {l x sb} (h : Starts l x sb) : 1 ≤ l.length := by
  cases l with
  | nil => have := h.head; simp at this
  | cons a l => simp

theorem le_of_log2 {W n m : Nat} (hW : 1 ≤ W) (h : n ≤ W * 2 ^ m) : tileLog2 W n ≤ m := (tileLog2_spec hW).2 m h

/-- The tiling section yields a legal layout. -/
theorem post_tiling {sb128 : Bool} {w h : Nat} (hw : 1 ≤ w) (hw' : w ≤ 65536) (hh : 1 ≤ h) (hh' : h ≤ 65536) :
    Post (parseTiling sb128 w h) (TilingOk (if sb128 then 128 else 64) w h) := by
  have key : ∀ lg W A : Nat, lg = 6 + sb128.toNat → W = 4096 / 2 ^ lg → A = 4096 * 2304 / 2 ^ (2 * lg) →
      ∃ sbw sbh, sbw = (w + (2 ^ lg - 1)) / 2 ^ lg ∧ sbh = (h + (2 ^ lg - 1)) / 2 ^ lg ∧ 
      1 ≤ sbw ∧ sbw ≤ 1024 ∧ 1 ≤ sbh ∧ sbh ≤ 1024 ∧ tileLog2 W sbw ≤ 4 ∧
      tileLog2 A (sbw * sbh) ≤ tileLog2 W sbw + 5 ∧ sbw = ceilDiv w (if sb128 then 128 else 64) ∧
      sbh = ceilDiv h (if sb128 then 128 else 64) := by
    intro lg W A h1 h2 h3
    refine ⟨_, _, rfl, rfl, ?_⟩
    cases sb128
    · simp only [Bool.toNat_false, Nat.add_zero] at h1
      subst h1
      norm_num at h2 h3
      subst h2; subst h3
      norm_num
      have b1 : (w + 63) / 64 ≤ 1024 := by omega
      have b2 : (h + 63) / 64 ≤ 1024 := by omega
      have b3 : 1 ≤ (w + 63) / 64 := by omega
      have b4 : 1 ≤ (h + 63) / 64 := by omega
      generalize hx : (w + 63) / 64 = x at *
      generalize hy : (h + 63) / 64 = y at *
      refine ⟨by omega, b1, by omega, b2, le_of_log2 (by omega) (by omega), ?_, ?_, ?_⟩
      · have hk9 : tileLog2 2304 (x * y) ≤ 9 := le_of_log2 (by omega) (by
          have := Nat.mul_le_mul b1 b2; omega)
        apply minLog2Rows_le (A := 2304) (W := 64) (sbh := y) (by omega) (by omega) hk9 (tileLog2_spec (by omega)).1
        by_cases h0 : tileLog2 2304 (x * y) = 0
        · exact Or.inl h0
        · right
          by_contra hc
          have := (tileLog2_spec (sz := 2304) (tgt := x * y) (by omega)).2 _ (Nat.le_of_not_lt hc)
          omega
      · unfold ceilDiv; omega
      · unfold ceilDiv; omega
    · simp only [Bool.toNat_true] at h1
      subst h1
      norm_num at h2 h3
      subst h2; subst h3
      norm_num
      have b1 : (w + 127) / 128 ≤ 512 := by omega
      have b2 : (h + 127) / 128 ≤ 512 := by omega
      have b3 : 1 ≤ (w + 127) / 128 := by omega
      have b4 : 1 ≤ (h + 127) / 128 := by omega
      generalize hx : (w + 127) / 128 = x at *
      generalize hy : (h + 127) / 128 = y at *
      refine ⟨by omega, by omega, by omega, by omega, le_of_log2 (by omega) (by omega), ?_, ?_, ?_⟩
      · have hk9 : tileLog2 576 (x * y) ≤ 9 := le_of_log2 (by omega) (by
          have := Nat.mul_le_mul b1 b2; omega)
        apply minLog2Rows_le (A := 576) (W := 32) (sbh := y) (by omega) (by omega) hk9 (tileLog2_spec (by omega)).1
        by_cases h0 : tileLog2 576 (x * y) = 0
        · exact Or.inl h0
        · right
          by_contra hc
          have := (tileLog2_spec (sz := 576) (tgt := x * y) (by omega)).2 _ (Nat.le_of_not_lt hc)
          omega
      · unfold ceilDiv; omega
      · unfold ceilDiv; omega
  unfold parseTiling
  refine Post.bind post_flag (fun u _ => ?_)
  simp only
  generalize hlg : 6 + sb128.toNat = lg
  generalize hW : 4096 / 2 ^ lg = W
  generalize hA : 4096 * 2304 / 2 ^ (2 * lg) = A
  obtain ⟨sbw, sbh, e1, e2, w1, w2, h1, h2, m1, m2, c1, c2⟩ := key lg W A hlg.symm hW.symm hA.symm
  rw [← e1, ← e2]
  generalize tileLog2 W sbw = minC at *
  generalize tileLog2 A (sbw * sbh) = minA at *
  have mC : tileLog2 1 (min sbw 64) ≤ 6 := le_of_log2 (le_refl _) (by omega)
  have mR : tileLog2 1 (min sbh 64) ≤ 6 := le_of_log2 (le_refl _) (by omega)
  refine Post.bind (post_tileLayout w1 w2 h1 h2 (by omega) mC mR (by omega)) (fun r hr => ?_)
  obtain ⟨lc, mr, lr, cols, rows⟩ := r
  dsimp only at hr ⊢
  obtain ⟨r1, r2, r3, r4, r5, r6, r7⟩ := hr
  have p6 : ∀ k, k ≤ 6 → 2 ^ k ≤ 64 := fun k hk => by
    have := Nat.pow_le_pow_right (n := 2) (by omega) hk; omega
  have q1 := p6 lc r1
  have q2 := p6 lr r2
  have l1 := r3.length_pos
  have l2 := r4.length_pos
  refine Post.bind (P := fun upd => ¬ (lc ≠ 0 ∨ lr ≠ 0) → upd = 0)
    (Post.opt (fun hc => Post.mono (post_f (by omega) (by omega)) (fun _ _ h => absurd hc h)) (fun _ _ => rfl))
    (fun upd hupd => ?_)
  refine Post.bind Post.reject (fun _ hrej => ?_)
  refine Post.bind (P := fun nb => (lc ≠ 0 ∨ lr ≠ 0) → 1 ≤ nb ∧ nb ≤ 4)
    (Post.opt (fun _ => Post.bind (post_f (by omega) (by omega)) (fun n hn => Post.pure (fun _ => by omega)))
      (fun hc h => absurd h hc)) (fun nb hnb => ?_)
  refine Post.pure ⟨c1 ▸ r3.boundaries (by omega), c2 ▸ r4.boundaries (by omega), ⟨r5, r1, r6, r2⟩, ?_, ?_, ?_⟩
  · show upd < cols.length * rows.length
    by_cases hc : lc ≠ 0 ∨ lr ≠ 0
    · exact Nat.lt_of_not_le (fun h => hrej ⟨hc, h⟩)
    · rw [hupd hc]; exact Nat.mul_pos l1 l2
  · intro hgt
    dsimp only at hgt ⊢
    refine hnb ?_
    by_contra hc
    have hc' : lc = 0 ∧ lr = 0 := by omega
    rw [hc'.1] at r5
    rw [hc'.2] at r6
    have : cols.length = 1 := by omega
    have : rows.length = 1 := by omega
    simp_all
  · intro hu
    simp only at hu ⊢
    rw [← c1, ← c2]
    exact r7 hu

/-- Consecutive intervals partition the range. -/
theorem exists_unique_interval : ∀ (l : List Nat) (a t x : Nat), l.head? = some a → l.getLast? = some t →
    l.Pairwise (· < ·) → a ≤ x → x < t → ∃ i, InInterval l i x ∧ ∀ j, InInterval l j x → j = i
  | [], a, t, x, h, _, _, _, _ => by simp at h
  | [b], a, t, x, h, h', _, h1, h2 => by simp at h h'; omega
  | b :: c :: l, a, t, x, h, h', hp, h1, h2 => by
    simp only [List.head?_cons, Option.some.injEq] at h
    subst h
    have hp' := List.pairwise_cons.1 hp
    have hge : ∀ j y : Nat, (c :: l)[j]? = some y → c ≤ y := by
      intro j y hy
      have hm := List.mem_of_getElem? hy
      rcases List.mem_cons.1 hm with rfl | hm
      · exact le_refl _
      · exact Nat.le_of_lt ((List.pairwise_cons.1 hp'.2).1 y hm)
    by_cases hx : x < c
    · refine ⟨0, ⟨b, c, rfl, rfl, h1, hx⟩, ?_⟩
      rintro (_ | j) ⟨y, z, e1, e2, h3, h4⟩
      · rfl
      · rw [List.getElem?_cons_succ] at e1
        have := hge _ _ e1; omega
    · obtain ⟨i, ⟨y, z, e1, e2, h3, h4⟩, hu⟩ := exists_unique_interval (c :: l) c t x rfl
        (by rw [List.getLast?_cons_cons] at h'; exact h') hp'.2 (by omega) h2
      refine ⟨i + 1, ⟨y, z, by rw [List.getElem?_cons_succ]; exact e1, by rw [List.getElem?_cons_succ]; exact e2, h3, h4⟩, ?_⟩
      rintro (_ | j) ⟨y', z', e1', e2', h3', h4'⟩
      · simp at e2'; omega
      · rw [List.getElem?_cons_succ] at e1' e2'
        rw [hu j ⟨y', z', e1', e2', h3', h4'⟩]

theorem Boundaries.partition {l n t} (h : Boundaries l n t) {x : Nat} (hx : x < t) :
    ∃ i, i < n ∧ InInterval l i x ∧ ∀ j, InInterval l j x → j = i := by
  obtain ⟨i, hi, hu⟩ := exists_unique_interval l 0 t x h.first h.last h.increasing (Nat.zero_le _) hx
  refine ⟨i, ?_, hi, hu⟩
  obtain ⟨a, b, _, e2, _⟩ := hi
  have := (List.getElem?_eq_some_iff.1 e2).1
  have := h.length
  omega

end Dav1d
