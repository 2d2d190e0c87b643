import Verif.Syn.PalSpec
/-!
# Palettes: reading of the indices
-/
set_option linter.unusedVariables false
namespace Dav1d.Syn.Pal

variable {ok : Req → Nat → Prop}

/-! ## Contexts and orders -/

/-- get_palette_color_context by the neighbours. -/
def ctxOf (l tl t : Option Nat) (n : Nat) : Int × List Nat :=
  let s := List.replicate 8 0
  let s := match l with | some v => Av1.addScore s v 2 | none => s
  let s := match tl with | some v => Av1.addScore s v 1 | none => s
  let s := match t with | some v => Av1.addScore s v 2 | none => s
  let t := Av1.sortStep n 2 (Av1.sortStep n 1 (Av1.sortStep n 0 ⟨s, List.range 8⟩))
  (Av1.Palette_Color_Context (t.score.getD 0 0 * 1 + t.score.getD 1 0 * 2 + t.score.getD 2 0 * 2), t.order)

theorem ctx_eq (m : Nat → Nat → Nat) (r c n : Nat) : Av1.get_palette_color_context m r c n =
    ctxOf (if c > 0 then some (m r (c - 1)) else none) (if r > 0 ∧ c > 0 then some (m (r - 1) (c - 1)) else none) (if r > 0 then some (m (r - 1) c) else none) n := by
  unfold Av1.get_palette_color_context ctxOf
  by_cases hr : r > 0 <;> by_cases hc : c > 0 <;> simp [hr, hc]

/-- The same context and the same order. -/
def Agrees (n : Nat) (a : Int × List Nat) (b : Nat × List Nat) : Prop := a.1 = b.1 ∧ ∀ k < n, a.2.getD k 0 = b.2.getD k 0 ∧ a.2.getD k 0 < n

instance (n : Nat) (a : Int × List Nat) (b : Nat × List Nat) : Decidable (Agrees n a b) := by unfold Agrees; infer_instance

theorem order_left : ∀ n < 9, 2 ≤ n → ∀ l < n, ∀ x < 1, Agrees n (ctxOf (some l) none none n) (orderOf true false l x x) := by decide +kernel
theorem order_top : ∀ n < 9, 2 ≤ n → ∀ t < n, Agrees n (ctxOf none none (some t) n) (orderOf false true 0 t 0) := by decide +kernel
theorem order_all : ∀ n < 9, 2 ≤ n → ∀ l < n, ∀ t < n, ∀ tl < n, Agrees n (ctxOf (some l) (some tl) (some t) n) (orderOf true true l t tl) := by decide +kernel

theorem flat {stride r c r' c' : Nat} (h : c < stride) (h' : c' < stride) : r * stride + c = r' * stride + c' ↔ r = r' ∧ c = c' := by
  constructor
  · intro e
    have h1 := congrArg (· / stride) e
    have h2 := congrArg (· % stride) e
    simp only [Nat.mul_comm _ stride, Nat.mul_add_div (show stride > 0 by omega), Nat.div_eq_of_lt h, Nat.div_eq_of_lt h', Nat.mul_add_mod, Nat.mod_eq_of_lt h, Nat.mod_eq_of_lt h'] at h1 h2
    omega
  · rintro ⟨rfl, rfl⟩; rfl

/-- The samples in the set `P` were read and are the same. -/
def Equal (n stride w h : Nat) (P : Nat → Nat → Prop) (tmp : Nat → Nat) (m : Nat → Nat → Nat) : Prop :=
  ∀ r c, r < h → c < w → P r c → tmp (r * stride + c) = m r c ∧ m r c < n

theorem order_at {n stride w h i j : Nat} (hn : 2 ≤ n) (hn8 : n ≤ 8) (hw : w ≤ stride) (hi : 0 < i) (hj : j ≤ i) (hjw : j < w) (hr : i - j < h) {tmp0 : Nat → Nat} {m : Nat → Nat → Nat}
    (he : Equal n stride w h (fun r c => r + c < i) tmp0 m) : Agrees n (Av1.get_palette_color_context m (i - j) j n) (orderAt tmp0 stride i j) := by
  rw [ctx_eq]
  unfold orderAt
  dsimp only
  have hL : 0 < j → tmp0 ((i - j) * stride + j - 1) = m (i - j) (j - 1) ∧ m (i - j) (j - 1) < n := fun h0 => by
    rw [show (i - j) * stride + j - 1 = (i - j) * stride + (j - 1) by omega]
    exact he _ _ hr (by omega) (by omega)
  have hrow : 0 < i - j → (i - j) * stride = (i - j - 1) * stride + stride := fun h0 => by
    rw [← Nat.succ_mul]; congr 1; omega
  have hT : 0 < i - j → tmp0 ((i - j) * stride + j - stride) = m (i - j - 1) j ∧ m (i - j - 1) j < n := fun h0 => by
    rw [hrow h0, show (i - j - 1) * stride + stride + j - stride = (i - j - 1) * stride + j by omega]
    exact he _ _ (by omega) hjw (by omega)
  have hTL : 0 < i - j → 0 < j → tmp0 ((i - j) * stride + j - (stride + 1)) = m (i - j - 1) (j - 1) ∧ m (i - j - 1) (j - 1) < n := fun h0 h1 => by
    rw [hrow h0, show (i - j - 1) * stride + stride + j - (stride + 1) = (i - j - 1) * stride + (j - 1) by omega]
    exact he _ _ (by omega) (by omega) (by omega)
  by_cases h0 : 0 < j <;> by_cases h1 : 0 < i - j
  · rw [if_pos h0, if_pos ⟨h1, h0⟩, if_pos h1, decide_eq_true h0, decide_eq_true h1, (hL h0).1, (hT h1).1, (hTL h1 h0).1]
    exact order_all n (by omega) hn _ (hL h0).2 _ (hT h1).2 _ (hTL h1 h0).2
  · rw [if_pos h0, if_neg (fun h => h1 h.1), if_neg h1, decide_eq_true h0, decide_eq_false h1, (hL h0).1]
    exact order_left n (by omega) hn _ (hL h0).2 0 (by omega)
  · rw [if_neg h0, if_neg (fun h => h0 h.2), if_pos h1, decide_eq_true h1, decide_eq_false h0, (hT h1).1]
    exact order_top n (by omega) hn _ (hT h1).2
  · omega

theorem diag_same {n stride w h i : Nat} (pl : Nat) (hn : 2 ≤ n) (hn8 : n ≤ 8) (hw : w ≤ stride) (hi : 0 < i) {tmp0 : Nat → Nat} : ∀ (k j : Nat) (tmp : Nat → Nat) (m : Nat → Nat → Nat),
    k ≤ j + 1 → (k ≠ 0 → j ≤ i ∧ j < w) → (k ≠ 0 → i < h + (j + 1 - k)) → Equal n stride w h (fun r c => r + c < i) tmp0 m → Equal n stride w h (fun r c => r + c < i ∨ (r + c = i ∧ j < c)) tmp m →
    (k = 0 → Equal n stride w h (fun r c => r + c ≤ i) tmp m) → (k ≠ 0 → ∀ r c, r < h → c < w → r + c = i → j + 1 - k ≤ c) →
    Same ok (fun t m => Equal n stride w h (fun r c => r + c ≤ i) t m ∧ (∀ q, (∀ r c, r < h → c < w → q ≠ r * stride + c) → t q = tmp q))
      (readDiag pl n stride i tmp0 k j tmp) (Av1.diagonal pl n i k j m)
  | 0, j, tmp, m, h1, h2, h3, h4, h5, h6, h7 => ⟨h6 rfl, fun _ _ => rfl⟩
  | k + 1, j, tmp, m, h1, h2, h3, h4, h5, h6, h7 => by
    obtain ⟨hji, hjw⟩ := h2 (by omega)
    have hih := h3 (by omega)
    have hag := order_at hn hn8 hw hi hji hjw (by omega) h4
    unfold readDiag Av1.diagonal Av1.token
    rw [bind_assoc']
    refine Same.bind (mode_same (by rw [hag.1]; rfl)) fun v v' hv => ?_
    obtain ⟨rfl, hv, -⟩ := hv
    obtain ⟨g1, g2⟩ := hag.2 v (by omega)
    rw [pure_bind', ← g1]
    generalize (Av1.get_palette_color_context m (i - j) j n).2.getD v 0 = x at g2
    have e5 : Equal n stride w h (fun r c => r + c < i ∨ (r + c = i ∧ j ≤ c)) (fun q => if q = (i - j) * stride + j then x else tmp q)
        (fun r' c' => if r' = i - j ∧ c' = j then x else m r' c') := by
      intro r c hr hc hP
      have hfl := flat (r := r) (r' := i - j) (c := c) (c' := j) (stride := stride) (by omega) (by omega)
      by_cases hq : r = i - j ∧ c = j
      · simp only [if_pos (hfl.2 hq), if_pos hq]; exact ⟨trivial, g2⟩
      · simp only [if_neg (fun h => hq (hfl.1 h)), if_neg hq]
        exact h5 r c hr hc (by omega)
    have e4 : Equal n stride w h (fun r c => r + c < i) tmp0 (fun r' c' => if r' = i - j ∧ c' = j then x else m r' c') := by
      intro r c hr hc hP
      dsimp only
      rw [if_neg (by omega)]
      exact h4 r c hr hc hP
    have e5' : k ≠ 0 → Equal n stride w h (fun r c => r + c < i ∨ (r + c = i ∧ j - 1 < c)) (fun q => if q = (i - j) * stride + j then x else tmp q)
        (fun r' c' => if r' = i - j ∧ c' = j then x else m r' c') := fun hk r c hr hc hP => e5 r c hr hc (by omega)
    have e6 : k = 0 → Equal n stride w h (fun r c => r + c ≤ i) (fun q => if q = (i - j) * stride + j then x else tmp q)
        (fun r' c' => if r' = i - j ∧ c' = j then x else m r' c') := fun hk r c hr hc hP => by
      refine e5 r c hr hc ?_
      have := h7 (by omega) r c hr hc
      omega
    have hfin : ∀ t : Nat → Nat, (∀ q, (∀ r c, r < h → c < w → q ≠ r * stride + c) → t q = if q = (i - j) * stride + j then x else tmp q) →
        ∀ q, (∀ r c, r < h → c < w → q ≠ r * stride + c) → t q = tmp q := fun t ht q hq => by
      rw [ht q hq, if_neg (hq (i - j) j (by omega) hjw)]
    by_cases hk : k = 0
    · subst hk
      refine ⟨e6 rfl, fun q hq => ?_⟩
      exact hfin _ (fun _ _ => rfl) q hq
    · refine Same.mono ?_ (diag_same pl hn hn8 hw hi k (j - 1) _ _ (by omega) (fun _ => by omega) (fun _ => by omega) e4 (e5' hk) e6 (fun _ r c hr hc hP => ?_))
      · exact fun t m' h => ⟨h.1, hfin t h.2⟩
      · have := h7 (by omega) r c hr hc hP
        omega

theorem diags_same {n stride w h : Nat} (pl : Nat) (hn : 2 ≤ n) (hn8 : n ≤ 8) (hw : w ≤ stride) (hw0 : 0 < w) (hh0 : 0 < h) : ∀ (k i : Nat) (tmp : Nat → Nat) (m : Nat → Nat → Nat),
    0 < i → i + k = w + h - 1 → Equal n stride w h (fun r c => r + c < i) tmp m →
    Same ok (fun t m => Equal n stride w h (fun _ _ => True) t m ∧ (∀ q, (∀ r c, r < h → c < w → q ≠ r * stride + c) → t q = tmp q))
      (readDiags pl n stride w h k i tmp) (Av1.diagonals pl n w h k i m)
  | 0, i, tmp, m, h1, h2, h3 => ⟨fun r c hr hc _ => h3 r c hr hc (by omega), fun _ _ => rfl⟩
  | k + 1, i, tmp, m, h1, h2, h3 => by
    unfold readDiags Av1.diagonals
    dsimp only
    refine Same.bind (diag_same pl hn hn8 hw h1 (tmp0 := tmp) _ _ tmp m (by omega) (fun _ => by omega) (fun _ => by omega) h3 (fun r c hr hc hP => h3 r c hr hc (by omega)) (fun _ => by omega)
      (fun _ r c hr hc hP => by omega)) fun t m' ht => ?_
    refine Same.mono ?_ (diags_same pl hn hn8 hw hw0 hh0 k (i + 1) t m' (by omega) (by omega) (fun r c hr hc hP => ht.1 r c hr hc (by omega)))
    exact fun t' m'' hq => ⟨hq.1, fun q hq' => by rw [hq.2 q hq', ht.2 q hq']⟩

/-! ## Packing -/

theorem pack : ∀ x < 8, ∀ y < 8, (x ||| (y <<< 4)) % 256 = x + 16 * y := by decide
theorem pack2 : ∀ x < 8, x * 17 % 256 = x + 16 * x := by decide

theorem pairs_eq {d s : Nat} : ∀ (k x : Nat) (mem : Nat → Nat), (d ≤ s ∨ s + 2 * (x + k) ≤ d) → ∀ q,
    finishPairs d s k x mem q = if d + x ≤ q ∧ q < d + x + k then (mem (s + 2 * (q - d)) ||| (mem (s + 2 * (q - d) + 1) <<< 4)) % 256 else mem q
  | 0, x, mem, h, q => by rw [if_neg (by omega)]; rfl
  | k + 1, x, mem, h, q => by
    unfold finishPairs
    rw [pairs_eq k (x + 1) _ (by omega) q]
    by_cases h1 : d + (x + 1) ≤ q ∧ q < d + (x + 1) + k
    · rw [if_pos h1, if_neg (show ¬ s + 2 * (q - d) = d + x by omega), if_neg (show ¬ s + 2 * (q - d) + 1 = d + x by omega), if_pos (by omega)]
    · rw [if_neg h1]
      by_cases h2 : q = d + x
      · rw [if_pos h2, if_pos (by omega)]
        subst h2
        rw [show s + x * 2 = s + 2 * (d + x - d) by omega]
      · rw [if_neg h2, if_neg (by omega)]

/-- The pair of indices in byte `b` of a row, where `src` are the samples of the row. -/
def pairOf (w : Nat) (src : Nat → Nat) (b : Nat) : Nat := src (min (2 * b) (w - 1)) + 16 * src (min (2 * b + 1) (w - 1))

theorem row_eq {d s w bw : Nat} (hw : w % 2 = 0) (hw2 : 2 ≤ w) (hb : w ≤ bw) (hbw : bw % 2 = 0) (mem : Nat → Nat) (h : d ≤ s ∨ s + bw ≤ d) (h8 : ∀ x < w, mem (s + x) < 8) (q : Nat) :
    finishRow d s w bw mem q = if d ≤ q ∧ q < d + bw / 2 then pairOf w (fun x => mem (s + x)) (q - d) else mem q := by
  unfold finishRow
  rw [pairs_eq (w / 2) 0 mem (by omega), pairs_eq (w / 2) 0 mem (by omega)]
  by_cases h1 : d + w / 2 ≤ q ∧ q < d + bw / 2
  · rw [if_pos h1, if_neg (show ¬ (d + 0 ≤ s + w - 1 ∧ s + w - 1 < d + 0 + w / 2) by omega), if_pos (show d ≤ q ∧ q < d + bw / 2 by omega)]
    unfold pairOf
    dsimp only
    rw [show min (2 * (q - d)) (w - 1) = w - 1 by omega, show min (2 * (q - d) + 1) (w - 1) = w - 1 by omega, show s + w - 1 = s + (w - 1) by omega]
    exact pack2 _ (h8 _ (by omega))
  · rw [if_neg h1]
    by_cases h2 : d ≤ q ∧ q < d + w / 2
    · rw [if_pos (by omega), if_pos (by omega)]
      unfold pairOf
      dsimp only
      rw [show min (2 * (q - d)) (w - 1) = 2 * (q - d) by omega, show min (2 * (q - d) + 1) (w - 1) = 2 * (q - d) + 1 by omega]
      rw [show s + 2 * (q - d) + 1 = s + (2 * (q - d) + 1) by omega]
      exact pack _ (h8 _ (by omega)) _ (h8 _ (by omega))
    · rw [if_neg (by omega), if_neg (by omega)]

theorem rows_eq {w bw : Nat} (hw : w % 2 = 0) (hw2 : 2 ≤ w) (hb : w ≤ bw) (hbw : bw % 2 = 0) : ∀ (k d s : Nat) (mem : Nat → Nat), (d ≤ s ∨ s + bw * k ≤ d) →
    (∀ y < k, ∀ x < w, mem (s + y * bw + x) < 8) →
    (∀ y < k, ∀ b < bw / 2, finishRows w bw k d s mem (d + y * (bw / 2) + b) = pairOf w (fun x => mem (s + y * bw + x)) b) ∧
    (∀ q, q < d ∨ d + k * (bw / 2) ≤ q → finishRows w bw k d s mem q = mem q)
  | 0, d, s, mem, h, h8 => ⟨fun y hy => by omega, fun q hq => rfl⟩
  | k + 1, d, s, mem, h, h8 => by
    unfold finishRows
    rw [Nat.mul_succ] at h
    have hrow := row_eq hw hw2 hb hbw (d := d) (s := s) mem (by omega) (fun x hx => by have := h8 0 (by omega) x hx; simpa using this)
    have hkeep : ∀ y x, y < k → x < w → finishRow d s w bw mem (s + bw + y * bw + x) = mem (s + bw + y * bw + x) := fun y x hy hx => by
      rw [hrow, if_neg]
      rintro ⟨q1, q2⟩
      have : y * bw + bw ≤ bw * k := by
        rw [← Nat.succ_mul, Nat.mul_comm bw]; exact Nat.mul_le_mul_right _ hy
      omega
    obtain ⟨r1, r2⟩ := rows_eq hw hw2 hb hbw k (d + bw / 2) (s + bw) (finishRow d s w bw mem) (by omega) (fun y hy x hx => by
      rw [hkeep y x hy hx]
      have := h8 (y + 1) (by omega) x hx
      rw [Nat.succ_mul, ← Nat.add_assoc] at this
      rw [show s + bw + y * bw + x = s + y * bw + bw + x by omega]; exact this)
    refine ⟨fun y hy b hbb => ?_, fun q hq => ?_⟩
    · cases y with
      | zero =>
        rw [Nat.zero_mul, Nat.add_zero, r2 _ (by omega), hrow, if_pos (by omega), Nat.add_sub_cancel_left, Nat.zero_mul, Nat.add_zero]
      | succ y =>
        have e1 : d + (y + 1) * (bw / 2) + b = d + bw / 2 + y * (bw / 2) + b := by rw [Nat.succ_mul]; omega
        rw [e1, r1 y (by omega) b hbb]
        unfold pairOf
        dsimp only
        rw [hkeep y _ (by omega) (by omega), hkeep y _ (by omega) (by omega), show s + (y + 1) * bw = s + bw + y * bw by rw [Nat.succ_mul]; omega]
    · rw [Nat.succ_mul] at hq
      rw [r2 q (by omega), hrow, if_neg (by omega)]

theorem copies_eq {bw last : Nat} : ∀ (k d : Nat) (mem : Nat → Nat), last + bw / 2 ≤ d →
    (∀ y < k, ∀ b < bw / 2, finishCopies bw last k d mem (d + y * (bw / 2) + b) = mem (last + b)) ∧ (∀ q < d, finishCopies bw last k d mem q = mem q)
  | 0, d, mem, h => ⟨fun y hy => by omega, fun q hq => rfl⟩
  | k + 1, d, mem, h => by
    unfold finishCopies
    obtain ⟨r1, r2⟩ := copies_eq (bw := bw) (last := last) k (d + bw / 2) (fun q => if d ≤ q ∧ q < d + bw / 2 then mem (last + (q - d)) else mem q) (by omega)
    refine ⟨fun y hy b hb => ?_, fun q hq => ?_⟩
    · cases y with
      | zero =>
        rw [Nat.zero_mul, Nat.add_zero, r2 _ (by omega), if_pos (by omega), Nat.add_sub_cancel_left]
      | succ y =>
        rw [show d + (y + 1) * (bw / 2) + b = d + bw / 2 + y * (bw / 2) + b by rw [Nat.succ_mul]; omega, r1 y (by omega) b hb, if_neg (by omega)]
    · rw [r2 q (by omega), if_neg (by omega)]

theorem finish_eq {d s bw bh w h : Nat} (hw : w % 2 = 0) (hw2 : 2 ≤ w) (hb : w ≤ bw) (hbw : bw % 2 = 0) (hh : 0 < h) (hbh : h ≤ bh) (mem : Nat → Nat) (hd : d ≤ s ∨ s + bw * bh ≤ d)
    (h8 : ∀ y < h, ∀ x < w, mem (s + y * bw + x) < 8) {y b : Nat} (hy : y < bh) (hbb : b < bw / 2) :
    idxFinish d s bw bh w h mem (d + y * (bw / 2) + b) = pairOf w (fun x => mem (s + min y (h - 1) * bw + x)) b := by
  have hle : bw * h ≤ bw * bh := Nat.mul_le_mul_left _ hbh
  obtain ⟨r1, -⟩ := rows_eq hw hw2 hb hbw h d s mem (by omega) h8
  have hlast : h * (bw / 2) = (h - 1) * (bw / 2) + bw / 2 := by rw [← Nat.succ_mul]; congr 1; omega
  have hrow : ∀ y < h, d + y * (bw / 2) + b < d + h * (bw / 2) := fun y hy => by
    have : (y + 1) * (bw / 2) ≤ h * (bw / 2) := Nat.mul_le_mul_right _ hy
    rw [Nat.succ_mul] at this; omega
  unfold idxFinish
  by_cases h1 : h < bh
  · rw [if_pos h1]
    obtain ⟨c1, c2⟩ := copies_eq (bw := bw) (last := d + h * (bw / 2) - bw / 2) (bh - h) (d + h * (bw / 2)) (finishRows w bw h d s mem) (by omega)
    by_cases h2 : y < h
    · rw [c2 _ (hrow y h2), r1 y h2 b hbb, show min y (h - 1) = y by omega]
    · have e : d + y * (bw / 2) + b = d + h * (bw / 2) + (y - h) * (bw / 2) + b := by
        rw [show y * (bw / 2) = h * (bw / 2) + (y - h) * (bw / 2) by rw [← Nat.add_mul]; congr 1; omega]; omega
      rw [e, c1 (y - h) (by omega) b hbb, hlast, show d + ((h - 1) * (bw / 2) + bw / 2) - bw / 2 + b = d + (h - 1) * (bw / 2) + b by omega,
        r1 (h - 1) (by omega) b hbb, show min y (h - 1) = h - 1 by omega]
  · rw [if_neg h1, r1 y (by omega) b hbb, show min y (h - 1) = y by omega]

/-- The memory holds the map with two indices in each byte: the first one in the lower bits. -/
def Packed (dst bw bh : Nat) (mem : Nat → Nat) (m : Nat → Nat → Nat) : Prop :=
  ∀ y < bh, ∀ b < bw / 2, mem (dst + y * (bw / 2) + b) = m y (2 * b) + 16 * m y (2 * b + 1)

theorem indices_same {n w4 h4 bw4 bh4 dst tmp : Nat} (pl : Nat) (hn : 2 ≤ n) (hn8 : n ≤ 8) (hw0 : 0 < w4) (hw : w4 ≤ bw4) (hh0 : 0 < h4) (hh : h4 ≤ bh4) (hbw : bw4 ≤ 16) (hbh : bh4 ≤ 16)
    (hd : dst ≤ tmp ∨ tmp + 64 * 64 ≤ dst) (mem : Nat → Nat) :
    Same ok (fun r m => Packed dst (bw4 * 4) (bh4 * 4) r m ∧ ∀ r c, m r c < n) (readPalIndices pl n w4 h4 bw4 bh4 dst tmp mem) (Av1.palette_tokens pl n (w4 * 4) (h4 * 4)) := by
  unfold readPalIndices Av1.palette_tokens
  refine Same.bind (uniform_same n (by omega)) fun v v' hv => ?_
  obtain ⟨rfl, hv⟩ := hv
  rw [show h4 * 4 + w4 * 4 - 2 = 4 * (w4 + h4) - 2 by omega]
  refine Same.bind (diags_same pl hn hn8 (by omega) (by omega) (by omega) _ _ _ _ (by omega) (by omega) ?_) fun t m ht => ?_
  · intro r c hr hc hP
    have : r = 0 ∧ c = 0 := by omega
    obtain ⟨rfl, rfl⟩ := this
    exact ⟨by simp, hv⟩
  · obtain ⟨ht, -⟩ := ht
    refine ⟨?_, fun r c => (ht _ _ (by omega) (by omega) trivial).2⟩
    generalize hM : (fun q => if tmp ≤ q ∧ q < tmp + 64 * 64 then t (q - tmp) else mem q) = M
    have hmem : ∀ y x, y < h4 * 4 → x < w4 * 4 → M (tmp + y * (bw4 * 4) + x) = m y x := fun y x hy hx => by
      have : y * (bw4 * 4) ≤ 63 * (bw4 * 4) := Nat.mul_le_mul_right _ (by omega)
      rw [← hM]
      dsimp only
      rw [if_pos (by omega), show tmp + y * (bw4 * 4) + x - tmp = y * (bw4 * 4) + x by omega]
      exact (ht y x hy hx trivial).1
    intro y hy b hb
    have hsz : bw4 * 4 * (bh4 * 4) ≤ 64 * 64 := Nat.mul_le_mul (by omega) (by omega)
    rw [finish_eq (by omega) (by omega) (by omega) (by omega) (by omega) (by omega) _ (by omega) (fun y hy x hx => by
      rw [hmem y x hy hx]; have := (ht y x hy hx trivial).2; omega) hy hb]
    unfold pairOf
    dsimp only
    rw [hmem _ _ (by omega) (by omega), hmem _ _ (by omega) (by omega)]

end Dav1d.Syn.Pal
