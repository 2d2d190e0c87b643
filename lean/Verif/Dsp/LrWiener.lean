import Verif.Dsp.LrSpec
import Mathlib.Tactic.IntervalCases
import Mathlib.Tactic.Linarith
import Mathlib.Tactic.Ring
/-!
# The Wiener filter computes the specified pixels
-/
namespace Dav1d.Lr

theorem iter_copy (n r0 c0 m : Nat) (s : Nat → Nat → Int) (b : Buf) (r c : Nat) :
    iter n (fun j b => b.copy (r0 + j) c0 (s j) m) b r c =
      if r0 ≤ r ∧ r < r0 + n ∧ c0 ≤ c ∧ c < c0 + m then s (r - r0) (c - c0) else b r c := by
  induction n with
  | zero => rw [if_neg (by omega)]; rfl
  | succ n ih =>
    have e : iter (n + 1) (fun j b => b.copy (r0 + j) c0 (s j) m) b r c =
        if r = r0 + n ∧ c0 ≤ c ∧ c < c0 + m then s n (c - c0)
        else iter n (fun j b => b.copy (r0 + j) c0 (s j) m) b r c := rfl
    rw [e, ih]
    by_cases h : r = r0 + n ∧ c0 ≤ c ∧ c < c0 + m
    · rw [if_pos h, if_pos (by omega)]
      congr 1
      omega
    · rw [if_neg h]
      split_ifs <;> first | rfl | omega

theorem iter_pad (n c0 m k : Nat) (hk : k < c0 ∨ c0 + m ≤ k) (b : Buf) (r c : Nat) :
    iter n (fun j b => b.copy j c0 (fun _ => b j k) m) b r c =
      if r < n ∧ c0 ≤ c ∧ c < c0 + m then b r k else b r c := by
  have key : ∀ n, ∀ r, iter n (fun j b => b.copy j c0 (fun _ => b j k) m) b r k = b r k := by
    intro n
    induction n with
    | zero => intro r; rfl
    | succ n ih =>
      intro r
      have e : iter (n + 1) (fun j b => b.copy j c0 (fun _ => b j k) m) b r k =
          if r = n ∧ c0 ≤ k ∧ k < c0 + m then iter n (fun j b => b.copy j c0 (fun _ => b j k) m) b n k
          else iter n (fun j b => b.copy j c0 (fun _ => b j k) m) b r k := rfl
      rw [e, if_neg (by omega), ih]
  induction n with
  | zero => rw [if_neg (by omega)]; rfl
  | succ n ih =>
    have e : iter (n + 1) (fun j b => b.copy j c0 (fun _ => b j k) m) b r c =
        if r = n ∧ c0 ≤ c ∧ c < c0 + m then iter n (fun j b => b.copy j c0 (fun _ => b j k) m) b n k
        else iter n (fun j b => b.copy j c0 (fun _ => b j k) m) b r c := rfl
    rw [e, ih, key]
    by_cases h : r = n ∧ c0 ≤ c ∧ c < c0 + m
    · rw [if_pos h, if_pos (by omega), h.1]
    · rw [if_neg h]
      split_ifs <;> first | rfl | omega

/-- The column of the sample in its row. -/
def colX (a : Args) (x : Int) : Int :=
  if x < 0 ∧ ¬a.e.left then 0 else if a.w ≤ x ∧ ¬a.e.right then (a.w : Int) - 1 else x

/-- The row of the sample in the block. -/
def clampY (a : Args) (y : Int) : Int := if y < 0 then 0 else if a.h ≤ y then (a.h : Int) - 1 else y

/-- Samples of rows without padding of columns. -/
def rowSel (a : Args) (y x : Int) : Int :=
  if y < 0 ∧ a.e.top then a.lpf (if y = -1 then 1 else 0) x
  else if a.h ≤ y ∧ a.e.bottom then a.lpf (if y = a.h then 6 else 7) x
  else if x < 0 then a.left (clampY a y).toNat (x + 4).toNat else a.dst (clampY a y) x

theorem source_eq (a : Args) (y x : Int) : Spec.source a y x = rowSel a y (colX a x) := rfl

theorem rowSel_top (a : Args) (y x : Int) (hy : y < 0) (ht : a.e.top = true) :
    rowSel a y x = a.lpf (if y = -1 then 1 else 0) x := by
  unfold rowSel; rw [if_pos ⟨hy, ht⟩]

theorem rowSel_bottom (a : Args) (y x : Int) (hy : a.h ≤ y) (ht : a.e.bottom = true) :
    rowSel a y x = a.lpf (if y = a.h then 6 else 7) x := by
  unfold rowSel; rw [if_neg (by omega), if_pos ⟨hy, ht⟩]

theorem rowSel_in (a : Args) (y x : Int) (h1 : y < 0 → a.e.top = false) (h2 : a.h ≤ y → a.e.bottom = false) :
    rowSel a y x = if x < 0 then a.left (clampY a y).toNat (x + 4).toNat else a.dst (clampY a y) x := by
  unfold rowSel
  rw [if_neg (by rintro ⟨h, h'⟩; simp [h1 h] at h'), if_neg (by rintro ⟨h, h'⟩; simp [h2 h] at h')]

/-- The row above number `r`. -/
def topV (a : Args) (r c : Nat) : Int :=
  if a.e.top then a.lpf (if r = 2 then 1 else 0) ((c : Int) - 3)
  else if a.e.left ∧ c < 3 then a.left 0 (c + 1) else a.dst 0 ((c : Int) - 3)

theorem padTop_eq (a : Args) (b : Buf) (r c : Nat) :
    padTop a b r c = if r < 3 ∧ a.dl ≤ c ∧ c < a.dl + a.uw then topV a r c else b r c := by
  by_cases hr : r < 3 ∧ a.dl ≤ c ∧ c < a.dl + a.uw
  · rw [if_pos hr]
    have h3 : a.dl + a.hl = 3 := by unfold Args.dl Args.hl; split_ifs <;> rfl
    have hm : (c : Int) - a.dl - a.hl = c - 3 := by omega
    unfold padTop topV
    rcases (Bool.eq_false_or_eq_true a.e.top).symm with ht | ht
    · have ht' : ¬a.e.top = true := by rw [ht]; decide
      rw [if_neg ht', if_neg ht']
      rcases (Bool.eq_false_or_eq_true a.e.left).symm with hl | hl
      · have hl' : ¬a.e.left = true := by rw [hl]; decide
        rw [if_neg hl', if_neg (fun h => hl' h.1)]
        have : r = 0 ∨ r = 1 ∨ r = 2 := by omega
        rcases this with rfl | rfl | rfl <;> simp [Buf.copy, hr.2.1, hr.2.2, Args.p, hm]
      · rw [if_pos hl]
        have h0 : a.hl = 3 := by unfold Args.hl; rw [if_pos hl]
        have h00 : a.dl = 0 := by omega
        by_cases hc : c < 3
        · rw [if_pos ⟨hl, hc⟩]
          have : r = 0 ∨ r = 1 ∨ r = 2 := by omega
          rcases this with rfl | rfl | rfl <;> simp [Buf.copy, h00, hc, Args.lft]
        · rw [if_neg (by tauto)]
          have : r = 0 ∨ r = 1 ∨ r = 2 := by omega
          have hc2 : c < a.uw := by omega
          rcases this with rfl | rfl | rfl <;> simp [Buf.copy, h00, hc, hc2, Args.p, h0]
    · rw [if_pos ht, if_pos ht]
      have : r = 0 ∨ r = 1 ∨ r = 2 := by omega
      rcases this with rfl | rfl | rfl <;> simp [Buf.copy, hr.2.1, hr.2.2, Args.lpfRow, hm]
  · rw [if_neg hr]
    have hu : a.e.left = true → a.dl + 3 ≤ a.dl + a.uw := by
      intro h; unfold Args.uw Args.hl; rw [if_pos h]; omega
    unfold padTop
    dsimp only
    split_ifs with h1 h2
    · unfold Buf.copy; rw [if_neg (by omega), if_neg (by omega), if_neg (by omega)]
    · have := hu h2
      unfold Buf.copy
      rw [if_neg (by omega), if_neg (by omega), if_neg (by omega), if_neg (by omega), if_neg (by omega), if_neg (by omega)]
    · unfold Buf.copy; rw [if_neg (by omega), if_neg (by omega), if_neg (by omega)]

/-- The row below number `r`. -/
def bottomV (a : Args) (r c : Nat) : Int :=
  if a.e.bottom then a.lpf (if r = 0 then 6 else 7) ((c : Int) - 3)
  else if a.e.left ∧ c < 3 then a.left (a.h - 1) (c + 1) else a.dst ((a.h : Int) - 1) ((c : Int) - 3)

theorem padBottom_eq (a : Args) (b : Buf) (r c : Nat) :
    padBottom a b r c =
      if (3 + a.h ≤ r ∧ r < a.h + 6) ∧ a.dl ≤ c ∧ c < a.dl + a.uw then bottomV a (r - (3 + a.h)) c else b r c := by
  by_cases hr : (3 + a.h ≤ r ∧ r < a.h + 6) ∧ a.dl ≤ c ∧ c < a.dl + a.uw
  · rw [if_pos hr]
    have h3 : a.dl + a.hl = 3 := by unfold Args.dl Args.hl; split_ifs <;> rfl
    have hm : (c : Int) - a.dl - a.hl = c - 3 := by omega
    have : r = 3 + a.h ∨ r = 3 + (a.h + 1) ∨ r = 3 + (a.h + 2) := by omega
    have hr2 := hr.2
    clear hr
    unfold padBottom bottomV
    rcases (Bool.eq_false_or_eq_true a.e.bottom).symm with ht | ht
    · have ht' : ¬a.e.bottom = true := by rw [ht]; decide
      rw [if_neg ht', if_neg ht']
      rcases (Bool.eq_false_or_eq_true a.e.left).symm with hl | hl
      · have hl' : ¬a.e.left = true := by rw [hl]; decide
        rw [if_neg hl', if_neg (fun h => hl' h.1)]
        rcases this with rfl | rfl | rfl <;> simp [Buf.copy, hr2.1, hr2.2, Args.p, hm]
      · rw [if_pos hl]
        have h0 : a.hl = 3 := by unfold Args.hl; rw [if_pos hl]
        have h00 : a.dl = 0 := by omega
        by_cases hc : c < 3
        · rw [if_pos ⟨hl, hc⟩]
          rcases this with rfl | rfl | rfl <;> simp [Buf.copy, h00, hc, Args.lft]
        · rw [if_neg (by tauto)]
          have hc2 : c < a.uw := by omega
          rcases this with rfl | rfl | rfl <;> simp [Buf.copy, h00, hc, hc2, Args.p, h0]
    · rw [if_pos ht, if_pos ht]
      rcases this with rfl | rfl | rfl <;> simp [Buf.copy, hr2.1, hr2.2, Args.lpfRow, hm, Nat.add_sub_add_left]
  · rw [if_neg hr]
    have hu : a.e.left = true → a.dl + 3 ≤ a.dl + a.uw := by
      intro h; unfold Args.uw Args.hl; rw [if_pos h]; omega
    unfold padBottom
    dsimp only
    split_ifs with h1 h2
    · unfold Buf.copy; rw [if_neg (by omega), if_neg (by omega), if_neg (by omega)]
    · have := hu h2
      unfold Buf.copy
      rw [if_neg (by omega), if_neg (by omega), if_neg (by omega), if_neg (by omega), if_neg (by omega), if_neg (by omega)]
    · unfold Buf.copy; rw [if_neg (by omega), if_neg (by omega), if_neg (by omega)]

theorem padding_eq (a : Args) (b : Buf) (hw : 0 < a.w) (hh : 0 < a.h) (j i : Nat) (hj : j < a.h + 6) (hi : i < a.w + 6) :
    padding a b j i = Spec.source a ((j : Int) - 3) ((i : Int) - 3) := by
  -- before the columns are padded
  have inner : ∀ c, a.dl ≤ c → c < a.dl + a.uw → (3 ≤ c ∨ j < 3 ∨ 3 + a.h ≤ j) →
      padInner a (padBottom a (padTop a b)) j c =
        if j < 3 then topV a j c else if 3 + a.h ≤ j then bottomV a (j - (3 + a.h)) c
        else a.dst ((j : Int) - 3) ((c : Int) - 3) := by
    intro c h1 h2 h3
    have e3 : a.dl + a.hl = 3 := by unfold Args.dl Args.hl; split_ifs <;> rfl
    have e4 : a.hl ≤ a.uw := by unfold Args.uw; omega
    unfold padInner
    rw [iter_copy 
      (s := fun j c => a.p j (c + a.hl)), padBottom_eq, padTop_eq]
    by_cases hin : 3 ≤ j ∧ j < 3 + a.h
    · rw [if_pos (by omega), if_neg (by omega), if_neg (by omega)]
      unfold Args.p
      congr 1 <;> omega
    · rw [if_neg (by omega)]
      by_cases ht : j < 3
      · rw [if_neg (by omega), if_pos ⟨ht, h1, h2⟩, if_pos ht]
      · rw [if_pos ⟨by omega, h1, h2⟩, if_neg ht, if_pos (by omega)]
  have e3 : a.dl + a.hl = 3 := by unfold Args.dl Args.hl; split_ifs <;> rfl
  have e5 : a.dl + a.uw = a.w + 3 + (if a.e.right then 3 else 0) := by unfold Args.uw; omega
  -- the right columns
  have right : ∀ c, a.dl ≤ c → c < a.w + 6 → (3 ≤ c ∨ j < 3 ∨ 3 + a.h ≤ j) →
      padRight a (padInner a (padBottom a (padTop a b))) j c =
        padInner a (padBottom a (padTop a b)) j (if a.w + 3 ≤ c ∧ ¬a.e.right then a.w + 2 else c) := by
    intro c h1 h2 h3
    unfold padRight
    by_cases hr : a.e.right = true
    · rw [if_pos hr, if_neg (fun h => h.2 hr)]
    · rw [if_neg hr] at e5 ⊢
      rw [iter_pad _ _ _ _ (by omega)]
      by_cases hc : a.w + 3 ≤ c
      · rw [if_pos (by omega), if_pos ⟨hc, hr⟩]
        congr 1
        omega
      · rw [if_neg (by omega), if_neg (by omega)]
  have val : ∀ c, a.dl ≤ c → c < a.w + 6 → (3 ≤ c ∨ j < 3 ∨ 3 + a.h ≤ j) →
      padRight a (padInner a (padBottom a (padTop a b))) j c = Spec.source a ((j : Int) - 3) ((c : Int) - 3) := by
    intro c h1 h2 h3
    rw [right c h1 h2 h3]
    have hx : colX a ((c : Int) - 3) = ((if a.w + 3 ≤ c ∧ ¬a.e.right then a.w + 2 else c : Nat) : Int) - 3 := by
      have : ¬a.e.left = true → a.dl = 3 := by
        intro h; unfold Args.dl Args.hl; rw [if_neg h]
      unfold colX
      rw [if_neg (fun h => by have := this h.2; omega)]
      by_cases hr : a.w + 3 ≤ c ∧ ¬a.e.right
      · rw [if_pos hr, if_pos ⟨by omega, hr.2⟩]; omega
      · rw [if_neg hr, if_neg (fun h => hr ⟨by omega, h.2⟩)]
    have hc1 : a.dl ≤ (if a.w + 3 ≤ c ∧ ¬a.e.right then a.w + 2 else c) := by split_ifs <;> omega
    have hc2 : (if a.w + 3 ≤ c ∧ ¬a.e.right then a.w + 2 else c) < a.dl + a.uw := by
      rw [e5]
      by_cases hr : a.e.right = true
      · rw [if_neg (fun h => h.2 hr), if_pos hr]; omega
      · rw [if_neg hr]
        by_cases h4 : a.w + 3 ≤ c
        · rw [if_pos ⟨h4, hr⟩]; omega
        · rw [if_neg (fun h => h4 h.1)]; omega
    have hc3 : 3 ≤ (if a.w + 3 ≤ c ∧ ¬a.e.right then a.w + 2 else c) ∨ j < 3 ∨ 3 + a.h ≤ j := by
      rcases h3 with h | h | h
      · left; split_ifs <;> omega
      · omega
      · omega
    rw [source_eq, hx]
    generalize (if a.w + 3 ≤ c ∧ ¬a.e.right then a.w + 2 else c) = k at *
    rw [inner k hc1 hc2 hc3]
    have hlk : k < 3 → a.e.left = true := by
      intro h
      by_contra hl
      have : a.dl = 3 := by unfold Args.dl Args.hl; rw [if_neg hl]
      omega
    by_cases t : j < 3
    · rw [if_pos t]
      unfold topV
      by_cases ht : a.e.top = true
      · rw [rowSel_top a _ _ (by omega) ht, if_pos ht]
        congr 1
        split_ifs <;> first | rfl | omega
      · rw [rowSel_in a _ _ (fun _ => by simpa using ht) (fun h => by omega), if_neg ht]
        have : clampY a ((j : Int) - 3) = 0 := by unfold clampY; rw [if_pos (by omega)]
        rw [this]
        by_cases hk : k < 3
        · rw [if_pos ⟨hlk hk, hk⟩, if_pos (by omega)]
          congr 1
          omega
        · rw [if_neg (fun h => hk h.2), if_neg (by omega)]
    · rw [if_neg t]
      by_cases bt : 3 + a.h ≤ j
      · rw [if_pos bt]
        unfold bottomV
        by_cases hb : a.e.bottom = true
        · rw [rowSel_bottom a _ _ (by omega) hb, if_pos hb]
          congr 1
          split_ifs <;> first | rfl | omega
        · rw [rowSel_in a _ _ (fun h => by omega) (fun _ => by simpa using hb), if_neg hb]
          have : clampY a ((j : Int) - 3) = (a.h : Int) - 1 := by
            unfold clampY; rw [if_neg (by omega), if_pos (by omega)]
          rw [this]
          by_cases hk : k < 3
          · rw [if_pos ⟨hlk hk, hk⟩, if_pos (by omega)]
            congr 1 <;> omega
          · rw [if_neg (fun h => hk h.2), if_neg (by omega)]
      · rw [if_neg bt, rowSel_in a _ _ (fun h => by omega) (fun h => by omega), if_neg (by omega)]
        have : clampY a ((j : Int) - 3) = (j : Int) - 3 := by
          unfold clampY; rw [if_neg (by omega), if_neg (by omega)]
        rw [this]
  unfold padding padLeft
  by_cases hl : a.e.left = true
  · have hd : a.dl = 0 := by unfold Args.dl Args.hl; rw [if_pos hl]
    rw [if_pos hl, iter_copy]
    by_cases hc : 3 ≤ j ∧ j < 3 + a.h ∧ i < 3
    · rw [if_pos (by omega), source_eq, rowSel_in a _ _ (fun h => by omega) (fun h => by omega)]
      have e1 : clampY a ((j : Int) - 3) = (j : Int) - 3 := by
        unfold clampY; rw [if_neg (by omega), if_neg (by omega)]
      have e2 : colX a ((i : Int) - 3) = (i : Int) - 3 := by
        unfold colX
        rw [if_neg (fun h => h.2 hl), if_neg (by omega)]
      rw [e1, e2, if_pos (by omega)]
      unfold Args.lft
      congr 1 <;> omega
    · rw [if_neg (by omega)]
      exact val i (by omega) hi (by omega)
  · have hd : a.dl = 3 := by unfold Args.dl Args.hl; rw [if_neg hl]
    rw [if_neg hl, iter_pad _ _ _ _ (by omega)]
    by_cases hc : i < 3
    · rw [if_pos (by omega), val _ (by omega) (by omega) (by omega), source_eq, source_eq]
      have e1 : colX a ((i : Int) - 3) = 0 := by
        unfold colX
        rw [if_pos ⟨by omega, hl⟩]
      have e2 : colX a ((a.dl : Int) - 3) = 0 := by
        unfold colX
        rw [if_neg (fun h => by omega), if_neg (fun h => by omega)]
        omega
      rw [e1, e2]
    · rw [if_neg (by omega)]
      exact val i (by omega) hi (by omega)

theorem sum7_eq (init : Int) (f px : Nat → Int) :
    sum7 init f px = init + ∑ k ∈ Finset.range 7, f k * px k := by
  simp only [sum7, iter, Finset.sum_range_succ, Finset.sum_range_zero]
  ring

theorem sum_filter (c : Nat → Int) (px : Nat → Int) :
    ∑ t ∈ Finset.range 7, Spec.getFilter c t * px t =
      c 0 * (px 0 + px 6) + c 1 * (px 1 + px 5) + c 2 * (px 2 + px 4) + (128 - 2 * (c 0 + c 1 + c 2)) * px 3 := by
  simp only [Finset.sum_range_succ, Finset.sum_range_zero, Spec.getFilter]
  norm_num
  ring

theorem hor_eq (d : Depth) (fh fv : Nat → Int) (tmp : Buf) (j i : Nat) :
    wienerHor d (taps d fh fv) tmp j i =
      Spec.clip3 (-2 ^ (d.bpc + 7 - roundH d - 1)) (2 ^ (d.bpc + 1 + 7 - roundH d) - 1 - 2 ^ (d.bpc + 7 - roundH d - 1))
        (Spec.round2 (∑ t ∈ Finset.range 7, Spec.getFilter fh t * tmp j (i + t)) (roundH d)) +
      2 ^ (d.bpc + 7 - roundH d - 1) := by
  have hsum : sum7 (2 ^ (d.bpc + 6) + if d = .b8 then tmp j (i + 3) * 128 else 0) (taps d fh fv).hor
      (fun k => tmp j (i + k)) =
      2 ^ (d.bpc + 6) + ∑ t ∈ Finset.range 7, Spec.getFilter fh t * tmp j (i + t) := by
    rw [sum_filter fh (fun t => tmp j (i + t)), sum7_eq]
    simp only [Finset.sum_range_succ, Finset.sum_range_zero, taps]
    norm_num
    by_cases hd : d = .b8
    · rw [if_pos hd, if_pos hd]; ring
    · rw [if_neg hd, if_neg hd]; ring
  unfold wienerHor
  dsimp only
  rw [hsum]
  generalize ∑ t ∈ Finset.range 7, Spec.getFilter fh t * tmp j (i + t) = S
  cases d <;> simp only [Depth.bpc, roundH, reduceCtorEq, if_true, if_false, u16, iclip, Spec.clip3, Spec.round2, asr] <;>
    norm_num <;> split_ifs <;> omega

theorem ver_eq (d : Depth) (fh fv : Nat → Int) (I : Nat → Int) :
    asr (sum7 (-2 ^ (d.bpc + (roundV d - 1))) (taps d fh fv).ver (fun k => I k + 2 ^ (d.bpc + 7 - roundH d - 1)) +
      2 ^ (roundV d - 1)) (roundV d) =
    Spec.round2 (∑ t ∈ Finset.range 7, Spec.getFilter fv t * I t) (roundV d) := by
  have hsum : sum7 (-2 ^ (d.bpc + (roundV d - 1))) (taps d fh fv).ver (fun k => I k + 2 ^ (d.bpc + 7 - roundH d - 1)) =
      ∑ t ∈ Finset.range 7, Spec.getFilter fv t * I t := by
    rw [sum_filter fv I, sum7_eq]
    simp only [Finset.sum_range_succ, Finset.sum_range_zero, taps]
    cases d <;> simp only [Depth.bpc, roundH, roundV, reduceCtorEq, if_true, if_false] <;> norm_num <;> ring
  rw [hsum]
  unfold Spec.round2 asr
  rw [if_neg (by cases d <;> decide)]

/-- The Wiener filter computes the specified pixels of the block and leaves the others alone. -/
theorem wiener_spec (d : Depth) (fh fv : Nat → Int) (a : Args) (b : Buf) (hw : 0 < a.w) (hh : 0 < a.h) (y x : Int) :
    wiener d (taps d fh fv) a b y x =
      if 0 ≤ y ∧ y < a.h ∧ 0 ≤ x ∧ x < a.w then Spec.wiener d.bpc fh fv (Spec.source a) y x else a.dst y x := by
  unfold wiener
  dsimp only
  by_cases h : 0 ≤ y ∧ y < a.h ∧ 0 ≤ x ∧ x < a.w
  · rw [if_pos h, if_pos h]
    have hr : Spec.interRound d.bpc = (roundH d, roundV d) := by cases d <;> rfl
    unfold Spec.wiener
    rw [hr]
    dsimp only
    have hin : ∀ k ∈ Finset.range 7, wienerHor d (taps d fh fv) (padding a b) (y.toNat + k) x.toNat =
        Spec.clip3 (-2 ^ (d.bpc + 7 - roundH d - 1)) (2 ^ (d.bpc + 1 + 7 - roundH d) - 1 - 2 ^ (d.bpc + 7 - roundH d - 1))
          (Spec.round2 (∑ t ∈ Finset.range 7, Spec.getFilter fh t * Spec.source a (y + k - 3) (x + t - 3)) (roundH d)) +
        2 ^ (d.bpc + 7 - roundH d - 1) := by
      intro k hk
      rw [Finset.mem_range] at hk
      rw [hor_eq]
      have : ∑ t ∈ Finset.range 7, Spec.getFilter fh t * padding a b (y.toNat + k) (x.toNat + t) =
          ∑ t ∈ Finset.range 7, Spec.getFilter fh t * Spec.source a (y + k - 3) (x + t - 3) := by
        apply Finset.sum_congr rfl
        intro t ht
        rw [Finset.mem_range] at ht
        rw [padding_eq a b hw hh _ _ (by omega) (by omega)]
        have e1 : ((y.toNat + k : Nat) : Int) - 3 = y + k - 3 := by omega
        have e2 : ((x.toNat + t : Nat) : Int) - 3 = x + t - 3 := by omega
        rw [e1, e2]
      rw [this]
    have hcong : ∀ (init : Int) (f p q : Nat → Int), (∀ k ∈ Finset.range 7, p k = q k) → sum7 init f p = sum7 init f q := by
      intro init f p q h
      rw [sum7_eq, sum7_eq]
      congr 1
      exact Finset.sum_congr rfl (fun k hk => by rw [h k hk])
    rw [hcong _ _ _ _ hin, ver_eq]
    rfl
  · rw [if_neg h, if_neg h]

end Dav1d.Lr
