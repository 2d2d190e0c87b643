import Verif.Dsp.Emu
import Verif.Dsp.McProps
/-!
# C37: references outside of the picture
-/
namespace Dav1d

/-- A picture of `w` times `h` pixels continued beyond its edges with the nearest pixel. -/
def extend (pic : Plane) (w h : Int) : Plane := fun r c => pic (max 0 (min r (h - 1))) (max 0 (min c (w - 1)))

theorem cint_id {v : Int} (h : -2 ^ 31 ≤ v ∧ v < 2 ^ 31) : cint v = v := by unfold cint; omega

theorem emuTop_get (bw blk : Int) : ∀ (n : Nat) (d : Int) (buf : Plane), 0 ≤ d → d + n ≤ blk → ∀ i k, 0 ≤ k → k < bw →
    emuTop bw blk n d buf i k = if d ≤ i ∧ i < d + n then buf blk k else buf i k
  | 0, d, buf, _, _, i, k, _, _ => by simp only [emuTop]; rw [if_neg (by omega)]
  | n + 1, d, buf, hd, hb, i, k, h0, h1 => by
    rw [emuTop, emuTop_get bw blk n (d + 1) _ (by omega) (by omega) i k h0 h1]
    simp only [putRow]
    by_cases h : d + 1 ≤ i ∧ i < d + 1 + n
    · rw [if_pos h, if_neg (by omega), if_pos (by omega)]
    · rw [if_neg h]
      by_cases hi : i = d
      · rw [if_pos (by omega), if_pos (by omega)]
      · rw [if_neg (by omega), if_neg (by omega)]

theorem emuBottom_get (bw : Int) : ∀ (n : Nat) (d : Int) (buf : Plane), ∀ i k, 0 ≤ k → k < bw →
    emuBottom bw n d buf i k = if d ≤ i ∧ i < d + n then buf (d - 1) k else buf i k
  | 0, d, buf, i, k, _, _ => by simp only [emuBottom]; rw [if_neg (by omega)]
  | n + 1, d, buf, i, k, h0, h1 => by
    rw [emuBottom, emuBottom_get bw n (d + 1) _ i k h0 h1]
    simp only [putRow]
    by_cases h : d + 1 ≤ i ∧ i < d + 1 + n
    · rw [if_pos h, if_pos (by omega), if_pos (by omega)]
    · rw [if_neg h]
      by_cases hi : i = d
      · rw [if_pos (by omega), if_pos (by omega)]
      · rw [if_neg (by omega), if_neg (by omega)]

/-- A row of the centre. -/
def emuRow (pic : Plane) (c l w : Int) (r k : Int) : Int := pic r (c + (max 0 (min (k - l) (w - 1))))

theorem emuCentre_get (pic : Plane) (iw ih c l rt w : Int) (hl : 0 ≤ l) (hr : 0 ≤ rt) (hw : 0 < w) (hc : 0 ≤ c ∧ c + w ≤ iw) :
    ∀ (n : Nat) (blk r : Int) (buf : Plane), 0 ≤ r → r + n ≤ ih → ∃ out, emuCentre pic iw ih c l rt w n blk r buf = some out ∧
      ∀ i k, 0 ≤ k → k < l + w + rt → out i k = if blk ≤ i ∧ i < blk + n then emuRow pic c l w (r + (i - blk)) k else buf i k
  | 0, blk, r, buf, _, _ => ⟨buf, rfl, fun i k _ _ => by rw [if_neg (by omega)]⟩
  | n + 1, blk, r, buf, h0, h1 => by
    unfold emuCentre
    have hrd : readRow pic iw ih r c w = some (fun k => pic r (c + k)) := if_pos (by omega)
    simp only [hrd, Option.bind_eq_bind, Option.bind_some]
    generalize hb : (if rt ≠ 0 then _ else _ : Plane) = buf'
    obtain ⟨out, ho, hg⟩ := emuCentre_get pic iw ih c l rt w hl hr hw hc n (blk + 1) (r + 1) buf' (by omega) (by omega)
    refine ⟨out, ho, fun i k hk0 hk1 => ?_⟩
    rw [hg i k hk0 hk1]
    by_cases h : blk + 1 ≤ i ∧ i < blk + 1 + n
    · rw [if_pos h, if_pos (by omega)]
      congr 1; omega
    · rw [if_neg h]
      by_cases hi : i = blk
      · subst hi
        rw [if_pos (by omega)]
        subst hb
        have e : r + (i - i) = r := by omega
        rw [e]
        unfold emuRow
        by_cases hl0 : l = 0
        · subst hl0
          simp only [ne_eq, not_true, if_false]
          by_cases hr0 : rt = 0
          · subst hr0
            simp only [not_true, if_false, putRow, true_and]
            rw [if_pos (by omega)]
            congr 1; omega
          · simp only [hr0, not_false_eq_true, if_true, putRow, true_and]
            by_cases hkw : k < w
            · rw [if_neg (by omega), if_pos (by omega)]
              congr 1; omega
            · rw [if_pos (by omega), if_pos (by omega)]
              congr 1; omega
        · simp only [ne_eq, hl0, not_false_eq_true, if_true]
          by_cases hr0 : rt = 0
          · subst hr0
            simp only [not_true, if_false, putRow, true_and]
            by_cases hkl : k < l
            · rw [if_pos (by omega), if_pos (by omega)]
              congr 1; omega
            · rw [if_neg (by omega), if_pos (by omega)]
              congr 1; omega
          · simp only [hr0, not_false_eq_true, if_true, putRow, true_and]
            by_cases hkw : k < l + w
            · rw [if_neg (by omega)]
              by_cases hkl : k < l
              · rw [if_pos (by omega), if_pos (by omega)]
                congr 1; omega
              · rw [if_neg (by omega), if_pos (by omega)]
                congr 1; omega
            · rw [if_pos (by omega), if_neg (by omega), if_pos (by omega)]
              congr 1; omega
      · rw [if_neg (by omega)]
        subst hb
        have hput : ∀ (b : Plane) (c n : Int) (f : Int → Int), putRow b blk c n f i k = b i k := fun b c n f => if_neg (by omega)
        by_cases hl0 : l = 0 <;> by_cases hr0 : rt = 0 <;> simp only [hl0, hr0, ne_eq, not_true, not_false_eq_true, if_false, if_true, hput]

/-- One dimension of emu_edge: `b` pixels at position `x` of a line of `i` pixels, of which `l` are before the first and `r`
behind the last one; the others begin with pixel `c`. -/
theorem emu_line {b i x c l r : Int} (hb : 1 ≤ b) (hi : 1 ≤ i) (hc : max 0 (min x (i - 1)) = c) (hl : max 0 (min (-x) (b - 1)) = l)
    (hr : max 0 (min (x + b - i) (b - 1)) = r) : 0 ≤ l ∧ 0 ≤ r ∧ l + r < b ∧ 0 ≤ c ∧ c + (b - l - r) ≤ i ∧
      ∀ k, 0 ≤ k → k < b → c + max 0 (min (k - l) (b - l - r - 1)) = max 0 (min (x + k) (i - 1)) := by
  refine ⟨by omega, by omega, by omega, by omega, by omega, fun k h0 h1 => ?_⟩
  omega

/-- C37: for a block of any size at any position, emu_edge reads only pixels of the picture, and the block it makes is
the part of the continued picture at that position. (Sizes and positions fit `int`, to which they are converted.) -/
theorem C37_extend {bw bh iw ih x y : Int} (buf pic : Plane) (hbw : 1 ≤ bw) (hbh : 1 ≤ bh) (hiw : 1 ≤ iw) (hih : 1 ≤ ih)
    (hs : bw < 2 ^ 16 ∧ bh < 2 ^ 16 ∧ iw ≤ 2 ^ 16 ∧ ih ≤ 2 ^ 16) (hx : -2 ^ 30 < x ∧ x < 2 ^ 30) (hy : -2 ^ 30 < y ∧ y < 2 ^ 30) :
    ∃ out, emuEdge bw bh iw ih x y buf pic = some out ∧
      ∀ r c, 0 ≤ r → r < bh → 0 ≤ c → c < bw → out r c = extend pic iw ih (y + r) (x + c) := by
  unfold emuEdge
  rw [cint_id (v := y) (by omega), cint_id (v := x) (by omega), cint_id (v := ih) (by omega), cint_id (v := iw) (by omega), cint_id (v := -x) (by omega),
    cint_id (v := -y) (by omega), cint_id (v := bw) (by omega), cint_id (v := bh) (by omega), cint_id (v := x + bw - iw) (by omega), cint_id (v := y + bh - ih) (by omega)]
  have clip : ∀ v hi : Int, 0 ≤ hi → iclip v 0 hi = max 0 (min v hi) := by
    intro v hi h
    unfold iclip
    by_cases h0 : v < 0
    · rw [if_pos h0]; omega
    · rw [if_neg h0]
      by_cases h1 : v > hi
      · rw [if_pos h1]; omega
      · rw [if_neg h1]; omega
  rw [clip _ _ (by omega), clip _ _ (by omega), clip _ _ (by omega), clip _ _ (by omega), clip _ _ (by omega), clip _ _ (by omega)]
  generalize hr : max 0 (min y (ih - 1)) = r0
  generalize hc : max 0 (min x (iw - 1)) = c0
  generalize hl : max 0 (min (-x) (bw - 1)) = l
  generalize hrt : max 0 (min (x + bw - iw) (bw - 1)) = rt
  generalize ht : max 0 (min (-y) (bh - 1)) = tp
  generalize hb : max 0 (min (y + bh - ih) (bh - 1)) = bt
  obtain ⟨l1, l2, l3, l4, l5, l6⟩ := emu_line hbw hiw hc hl hrt
  obtain ⟨t1, t2, t3, t4, t5, t6⟩ := emu_line hbh hih hr ht hb
  clear hr hc hl hrt ht hb clip
  simp only
  rw [if_pos ⟨l3, t3⟩, cint_id (v := bw - l - rt) (by omega), cint_id (v := bh - tp - bt) (by omega)]
  obtain ⟨out, ho, hg⟩ := emuCentre_get pic iw ih c0 l rt (bw - l - rt) l1 l2 (by omega) ⟨l4, l5⟩ (bh - tp - bt).toNat tp r0 buf t4 (by omega)
  rw [ho]
  refine ⟨_, rfl, fun r c h0 h1 h2 h3 => ?_⟩
  show emuBottom bw bt.toNat (tp + (bh - tp - bt)) (emuTop bw tp tp.toNat 0 out) r c = _
  rw [emuBottom_get bw _ _ _ _ _ h2 h3, emuTop_get bw _ _ _ _ (le_refl _) (by omega) _ _ h2 h3, emuTop_get bw _ _ _ _ (le_refl _) (by omega) _ _ h2 h3,
    hg _ _ h2 (by omega), hg _ _ h2 (by omega), hg _ _ h2 (by omega)]
  have key : ∀ i, tp ≤ i → i < tp + (bh - tp - bt) → i - tp = max 0 (min (r - tp) (bh - tp - bt - 1)) → emuRow pic c0 l (bw - l - rt) (r0 + (i - tp)) c = extend pic iw ih (y + r) (x + c) := by
    intro i hi1 hi2 he
    unfold emuRow extend
    rw [he, t6 r h0 h1, l6 c h2 h3]
  clear hx hy hs l6 t6 ho
  by_cases hbot : tp + (bh - tp - bt) ≤ r
  · rw [if_pos (by omega), if_neg (by omega), if_pos (by omega)]
    exact key _ (by omega) (by omega) (by omega)
  · rw [if_neg (by omega)]
    by_cases htop : r < tp
    · rw [if_pos (by omega), if_pos (by omega)]
      exact key _ (by omega) (by omega) (by omega)
    · rw [if_neg (by omega), if_pos (by omega)]
      exact key _ (by omega) (by omega) (by omega)

/-! ### What the prediction functions use of their source -/

/-- Two sources agree on the pixels the filters of pixel (x, y) use: 3 before to 4 behind in the directions that have a
fraction. -/
def AgreeAt (s t : Plane) (mx my : Nat) (x y : Int) : Prop :=
  ∀ j k, (j = 0 ∨ my ≠ 0 ∧ -3 ≤ j ∧ j ≤ 4) → (k = 0 ∨ mx ≠ 0 ∧ -3 ≤ k ∧ k ≤ 4) → s (y + j) (x + k) = t (y + j) (x + k)

theorem fir_congr {F : List Int} {s t : Int → Int} (h : ∀ k, -3 ≤ k ∧ k ≤ 4 → s k = t k) : fir F s = fir F t := by
  unfold fir
  have : ∀ (F ks : List Int), (∀ k ∈ ks, s k = t k) → List.zipWith (fun f k => f * s k) F ks = List.zipWith (fun f k => f * t k) F ks := by
    intro F
    induction F with
    | nil => intros; rfl
    | cons f F ih =>
      intro ks hk
      cases ks with
      | nil => rfl
      | cons k ks =>
        simp only [List.zipWith_cons_cons]
        rw [hk k List.mem_cons_self, ih ks (fun k h => hk k (List.mem_cons_of_mem _ h))]
  rw [this F taps (fun k hk => h k (by simp only [taps, List.mem_cons, List.not_mem_nil, or_false] at hk; omega))]

theorem mid16_congr {l : List Int} {s t : Int → Int} (h : ∀ k ∈ l, s k = t k) : mid16 l s = none ∧ mid16 l t = none ∨ mid16 l s = some s ∧ mid16 l t = some t := by
  unfold mid16
  by_cases hc : ∀ k ∈ l, -32768 ≤ s k ∧ s k ≤ 32767
  · refine Or.inr ⟨if_pos hc, if_pos (fun k hk => by rw [← h k hk]; exact hc k hk)⟩
  · exact Or.inl ⟨if_neg hc, if_neg (fun hc' => hc (fun k hk => by rw [h k hk]; exact hc' k hk))⟩

theorem mem_taps {k : Int} : k ∈ taps → -3 ≤ k ∧ k ≤ 4 := by
  simp only [taps, List.mem_cons, List.not_mem_nil, or_false]; omega

/-- The filters of a pixel use only these pixels. -/
theorem put8tap_local {d : Depth} {s t : Plane} {w h mx my th tv : Nat} {x y : Int} (hst : AgreeAt s t mx my x y) :
    put8tap d s w h mx my th tv x y = put8tap d t w h mx my th tv x y ∧ prep8tap d s w h mx my th tv x y = prep8tap d t w h mx my th tv x y := by
  have hx : mx = 0 → ∀ F, getFilter (w > 4) th mx ≠ some (some F) := fun h0 F => by subst h0; rw [getFilter_zero]; simp
  have hy : my = 0 → ∀ F, getFilter (h > 4) tv my ≠ some (some F) := fun h0 F => by subst h0; rw [getFilter_zero]; simp
  have h00 : s y x = t y x := by
    have := hst 0 0 (Or.inl rfl) (Or.inl rfl)
    rwa [Int.add_zero, Int.add_zero] at this
  unfold put8tap prep8tap
  cases hfh : getFilter (w > 4) th mx with
  | none => exact ⟨rfl, rfl⟩
  | some fh =>
  cases hfv : getFilter (h > 4) tv my with
  | none => exact ⟨rfl, rfl⟩
  | some fv =>
  simp only [Option.bind_eq_bind, Option.bind_some]
  cases fh with
  | none =>
    cases fv with
    | none => simp only [h00, and_self]
    | some G =>
      have hmy : my ≠ 0 := fun h0 => hy h0 G hfv
      have e : fir G (fun k => s (y + k) x) = fir G (fun k => t (y + k) x) := fir_congr (fun k hk => by
        have := hst k 0 (Or.inr ⟨hmy, hk⟩) (Or.inl rfl)
        rwa [Int.add_zero] at this)
      simp only [firRnd, e, and_self]
  | some F =>
    have hmx : mx ≠ 0 := fun h0 => hx h0 F hfh
    cases fv with
    | none =>
      have e : fir F (fun k => s y (x + k)) = fir F (fun k => t y (x + k)) := fir_congr (fun k hk => by
        have := hst 0 k (Or.inl rfl) (Or.inr ⟨hmx, hk⟩)
        rwa [Int.add_zero] at this)
      simp only [firRnd, e, and_self]
    | some G =>
      have hmy : my ≠ 0 := fun h0 => hy h0 G hfv
      have e : ∀ j ∈ taps, (fun j => firRnd F (fun k => s (y + j) (x + k)) (6 - d.bits)) j = (fun j => firRnd F (fun k => t (y + j) (x + k)) (6 - d.bits)) j := by
        intro j hj
        simp only [firRnd]
        rw [fir_congr (fun k hk => hst j k (Or.inr ⟨hmy, mem_taps hj⟩) (Or.inr ⟨hmx, hk⟩))]
      dsimp only
      rcases mid16_congr e with ⟨h1, h2⟩ | ⟨h1, h2⟩
      · rw [h1, h2]; exact ⟨rfl, rfl⟩
      · rw [h1, h2]
        simp only [Option.bind_some]
        have e2 : fir G (fun j => firRnd F (fun k => s (y + j) (x + k)) (6 - d.bits)) = fir G (fun j => firRnd F (fun k => t (y + j) (x + k)) (6 - d.bits)) :=
          fir_congr (fun k hk => e k (by simp only [taps, List.mem_cons, List.not_mem_nil, or_false]; omega))
        simp only [firRnd] at e2 ⊢
        rw [e2]
        exact ⟨rfl, rfl⟩

theorem bilinRnd_congr {s t : Int → Int} {m sh : Nat} (h0 : s 0 = t 0) (h1 : s 1 = t 1) : bilinRnd s m sh = bilinRnd t m sh := by
  unfold bilinRnd; rw [h0, h1]

theorem putBilin_local {d : Depth} {s t : Plane} {mx my : Nat} {x y : Int} (hst : AgreeAt s t mx my x y) :
    putBilin d s mx my x y = putBilin d t mx my x y ∧ prepBilin d s mx my x y = prepBilin d t mx my x y := by
  have h00 : s y x = t y x := by
    have := hst 0 0 (Or.inl rfl) (Or.inl rfl)
    rwa [Int.add_zero, Int.add_zero] at this
  unfold putBilin prepBilin
  by_cases hmx : mx = 0
  · simp only [hmx, ne_eq, not_true, if_false]
    by_cases hmy : my = 0
    · simp only [hmy, not_true, if_false, h00, and_self]
    · have h01 := hst 1 0 (Or.inr ⟨hmy, by omega⟩) (Or.inl rfl)
      rw [Int.add_zero] at h01
      simp only [hmy, not_false_eq_true, if_true, bilinRnd, Int.add_zero, h00, h01, and_self]
  · simp only [hmx, ne_eq, not_false_eq_true, if_true]
    by_cases hmy : my = 0
    · have h10 := hst 0 1 (Or.inl rfl) (Or.inr ⟨hmx, by omega⟩)
      rw [Int.add_zero] at h10
      simp only [hmy, not_true, if_false, bilinRnd, Int.add_zero, h00, h10, and_self]
    · simp only [hmy, not_false_eq_true, if_true]
      have e : ∀ j ∈ [(0 : Int), 1], (fun j => bilinRnd (fun k => s (y + j) (x + k)) mx (4 - d.bits)) j = (fun j => bilinRnd (fun k => t (y + j) (x + k)) mx (4 - d.bits)) j := by
        intro j hj
        simp only [List.mem_cons, List.not_mem_nil, or_false] at hj
        simp only [bilinRnd]
        rw [hst j 0 (Or.inr ⟨hmy, by omega⟩) (Or.inl rfl), hst j 1 (Or.inr ⟨hmy, by omega⟩) (Or.inr ⟨hmx, by omega⟩)]
      rcases mid16_congr e with ⟨h1, h2⟩ | ⟨h1, h2⟩
      · rw [h1, h2]; exact ⟨rfl, rfl⟩
      · rw [h1, h2]
        simp only [Option.bind_eq_bind, Option.bind_some]
        have e2 : ∀ sh, bilinRnd (fun j => bilinRnd (fun k => s (y + j) (x + k)) mx (4 - d.bits)) my sh =
            bilinRnd (fun j => bilinRnd (fun k => t (y + j) (x + k)) mx (4 - d.bits)) my sh := fun sh =>
          bilinRnd_congr (e 0 (by simp)) (e 1 (by simp))
        rw [e2, e2]
        exact ⟨rfl, rfl⟩

/-- C37 for whole predictions: at any position, also outside of the reference, every pixel mc() predicts from a reference of
the same size is the one the prediction function gives on the continued picture, both for the block it writes directly and for the
intermediate values of compound predictions. -/
theorem C37_block {d : Depth} {pic buf : Plane} {w h dx dy : Int} {bw bh mx my th tv : Nat} (hbw : 1 ≤ bw ∧ bw ≤ 128) (hbh : 1 ≤ bh ∧ bh ≤ 128)
    (hw : 1 ≤ w ∧ w ≤ 2 ^ 16) (hh : 1 ≤ h ∧ h ≤ 2 ^ 16) (hx : -2 ^ 29 < dx ∧ dx < 2 ^ 29) (hy : -2 ^ 29 < dy ∧ dy < 2 ^ 29) :
    ∃ src, mcSource pic w h dx dy bw bh mx my buf = some src ∧ ∀ x y : Nat, x < bw → y < bh →
      (McJob.tap bw bh mx my th tv).put d src x y = (McJob.tap bw bh mx my th tv).put d (fun r c => extend pic w h (dy + r) (dx + c)) x y ∧
      (McJob.tap bw bh mx my th tv).prep d src x y = (McJob.tap bw bh mx my th tv).prep d (fun r c => extend pic w h (dy + r) (dx + c)) x y ∧
      (McJob.bilin mx my).put d src x y = (McJob.bilin mx my).put d (fun r c => extend pic w h (dy + r) (dx + c)) x y ∧
      (McJob.bilin mx my).prep d src x y = (McJob.bilin mx my).prep d (fun r c => extend pic w h (dy + r) (dx + c)) x y := by
  suffices hsrc : ∃ src, mcSource pic w h dx dy bw bh mx my buf = some src ∧ ∀ x y : Nat, x < bw → y < bh →
      AgreeAt src (fun r c => extend pic w h (dy + r) (dx + c)) mx my x y by
    obtain ⟨src, h1, h2⟩ := hsrc
    exact ⟨src, h1, fun x y hx hy => ⟨(put8tap_local (h2 x y hx hy)).1, (put8tap_local (h2 x y hx hy)).2, (putBilin_local (h2 x y hx hy)).1, (putBilin_local (h2 x y hx hy)).2⟩⟩
  unfold mcSource
  have hex : ∃ ex : Int, (if mx ≠ 0 then (1 : Int) else 0) = ex ∧ (mx = 0 ∧ ex = 0 ∨ mx ≠ 0 ∧ ex = 1) := by
    refine ⟨_, rfl, ?_⟩; by_cases h0 : mx = 0 <;> simp [h0]
  have hey : ∃ ey : Int, (if my ≠ 0 then (1 : Int) else 0) = ey ∧ (my = 0 ∧ ey = 0 ∨ my ≠ 0 ∧ ey = 1) := by
    refine ⟨_, rfl, ?_⟩; by_cases h0 : my = 0 <;> simp [h0]
  obtain ⟨ex, he1, he2⟩ := hex
  obtain ⟨ey, he3, he4⟩ := hey
  simp only [he1, he3]
  by_cases hc : dx < ex * 3 ∨ dy < ey * 3 ∨ dx + bw + ex * 4 > w ∨ dy + bh + ey * 4 > h
  · simp only [if_pos hc]
    obtain ⟨out, ho, hg⟩ := C37_extend (bw := bw + ex * 7) (bh := bh + ey * 7) (iw := w) (ih := h) (x := dx - ex * 3) (y := dy - ey * 3) buf pic
      (by omega) (by omega) hw.1 hh.1 (by omega) (by omega) (by omega)
    rw [ho]
    refine ⟨_, rfl, fun x y hx' hy' j k hj hk => ?_⟩
    simp only
    rw [hg _ _ (by omega) (by omega) (by omega) (by omega)]
    congr 1 <;> omega
  · simp only [if_neg hc]
    refine ⟨_, rfl, fun x y hx' hy' j k hj hk => ?_⟩
    simp only [extend]
    congr 1 <;> omega

-- a block of 8x8 pixels far to the left and below a picture of 5x3 pixels
example : (emuEdge 8 8 5 3 (-20) 30 (fun _ _ => 0) (fun r c => 10 * r + c)).map (fun b => (b 0 0, b 7 7)) = some (20, 20) := by decide +kernel
example : (mcSource (fun r c => 10 * r + c) 5 3 (-2) 1 8 8 5 7 (fun _ _ => 0)).bind (fun s => (McJob.tap 8 8 5 7 0 2).put .b8 s 3 1) = some 22 := by decide +kernel

end Dav1d
