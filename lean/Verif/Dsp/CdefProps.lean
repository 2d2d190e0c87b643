import Verif.Dsp.Cdef
import Verif.Dsp.McLemmas
import Mathlib.Tactic.SplitIfs
import Mathlib.Data.List.Perm.Basic
import Mathlib.Tactic.Ring
import Mathlib.Tactic.Linarith
/-!
# Properties of the constrained directional enhancement filter: C40 (CDEF part), C55
-/
namespace Dav1d.Cdef

/-! ## The filter as the AV1 specification defines it, section 7.15.2 -/

/-- Cdef_Directions: row and column offsets. -/
def Cdef_Directions : List (List (Int × Int)) := [
  [(-1, 1), (-2, 2)], [(0, 1), (-1, 2)], [(0, 1), (0, 2)], [(0, 1), (1, 2)],
  [(1, 1), (2, 2)], [(1, 0), (2, 1)], [(1, 0), (2, 0)], [(1, 0), (2, -1)]]

/-- The constrain function. -/
def specConstrain (diff : Int) (threshold damping : Nat) : Int :=
  if threshold = 0 then 0
  else
    let dampingAdj := damping - Nat.log2 threshold
    let mag : Int := diff.natAbs
    Int.sign diff * iclip (threshold - mag / 2 ^ dampingAdj) 0 mag

/-- The offset of a tap; the secondary directions are the primary one turned by two either way. -/
def specOffset (dir : Nat) (s : Sel) (k : Nat) : Int × Int :=
  let dir' := match s with | .pri => dir | .secP => (dir + 2) % 8 | .secM => (dir + 6) % 8
  ((Cdef_Directions.getD dir' []).getD k (0, 0))

/-- A tap at an available pixel adds to the sum and takes part in the minimum and maximum. -/
def specTap (d : Depth) (q : Params) (view : Int → Int → Option Int) (px y x : Int) (a : Acc) (t : Sel × Nat × Bool) : Acc :=
  let o := specOffset q.dir t.1 t.2.1
  let sign : Int := if t.2.2 then 1 else -1
  match view (y + sign * o.1) (x + sign * o.2) with
  | none => a
  | some v =>
    let c := match t.1 with
      | .pri => (([[4, 2], [3, 3]] : List (List Int)).getD ((q.pri / 2 ^ (d.bpc - 8)) % 2) []).getD t.2.1 0 * specConstrain (v - px) q.pri q.damping
      | _ => ([2, 1] : List Int).getD t.2.1 0 * specConstrain (v - px) q.sec q.damping
    ⟨a.sum + c, min a.min v, max a.max v⟩

/-- The order of the loops over `k`, `sign` and `dirOff`. -/
def specTaps : List (Sel × Nat × Bool) :=
  [0, 1].flatMap fun k => [false, true].flatMap fun s => [(.pri, k, s), (.secM, k, s), (.secP, k, s)]

/-- The filtered value of the pixel at row `y`, column `x`; `view` gives the unfiltered pixels that are available. -/
def specFilter (d : Depth) (q : Params) (view : Int → Int → Option Int) (px y x : Int) : Int :=
  let a := specTaps.foldl (specTap d q view px y x) ⟨0, px, px⟩
  iclip (px + (8 + a.sum - (if a.sum < 0 then 1 else 0)) / 16) a.min a.max

/-- The pixels in and around the block a call can use: which ones exist is told by the edge flags. -/
def view (e : Edges) (w h : Int) (p : Input) (y x : Int) : Option Int :=
  if (x < 0 ∧ e.left = false) ∨ (w ≤ x ∧ e.right = false) ∨ (y < 0 ∧ e.top = false) ∨ (h ≤ y ∧ e.bottom = false) then none
  else some (if y < 0 then p.top (y + 2) x else if h ≤ y then p.bottom (y - h) x else if x < 0 then p.left y (x + 2) else p.dst y x)

/-! ## Reading the buffer -/

theorem padding_at (e : Edges) {w h : Int} (hw : 0 < w ∧ w ≤ 8) (hh : 0 < h) (p : Input) {y x : Int} (hx : -2 ≤ x ∧ x < w + 2)
    (hy : -2 ≤ y ∧ y < h + 2) : padding e w h p (y * 12 + x) = some ((view e w h p y x).getD (-32768)) := by
  have hc : col (y * 12 + x) = x := by rw [col]; omega
  have hr : row (y * 12 + x) = y := by rw [row]; omega
  rcases (show y < 0 ∨ (0 ≤ y ∧ y < h) ∨ h ≤ y by omega) with h1 | h1 | h1 <;>
  rcases (show x < 0 ∨ (0 ≤ x ∧ x < w) ∨ w ≤ x by omega) with h2 | h2 | h2 <;>
  obtain ⟨_ | _, _ | _, _ | _, _ | _⟩ := e <;>
  simp only [padding, fill, view, rect, hc, hr, Bool.false_eq_true, Bool.true_eq_false, if_true, if_false, and_true, and_false, or_false, false_or] <;>
  repeat first | rw [if_neg (by omega)] | rw [if_pos (by omega)]
  all_goals first | rfl | (simp only [Option.getD_some, Option.getD_none, sub_neg_eq_add, Int.add_comm 2 x]; done)

/-! ## One tap -/

/-- The offsets of the table are those of the specification, for a stride of 12, and stay within two rows and columns. -/
theorem offset_eq {dir : Nat} (hd : dir < 8) (s : Sel) {k : Nat} (hk : k < 2) :
    offset dir s k = some ((specOffset dir s k).1 * 12 + (specOffset dir s k).2) ∧
    (specOffset dir s k).1.natAbs ≤ 2 ∧ (specOffset dir s k).2.natAbs ≤ 2 := by
  have : ∀ dir < 8, ∀ k < 2, offset dir s k = some ((specOffset dir s k).1 * 12 + (specOffset dir s k).2) ∧
    (specOffset dir s k).1.natAbs ≤ 2 ∧ (specOffset dir s k).2.natAbs ≤ 2 := by
    cases s <;> decide +kernel
  exact this dir hd k hk

theorem constrain_eq (diff : Int) {t : Nat} (ht : t ≠ 0) (damping : Nat) :
    constrain diff t (damping - Nat.log2 t) = specConstrain diff t damping := by
  rw [constrain, specConstrain, if_neg ht]
  simp only [asr]
  generalize ((diff.natAbs : Int)) / 2 ^ (damping - Nat.log2 t) = v
  rcases Int.lt_trichotomy diff 0 with h | h | h
  · rw [if_pos h, Int.sign_eq_neg_one_of_neg h, iclip]
    split_ifs <;> omega
  · subst h
    simp
  · rw [if_neg (by omega), Int.sign_eq_one_of_pos h, iclip]
    split_ifs <;> omega

/-- A pixel that does not exist, stored as INT16_MIN, has no influence. -/
theorem constrain_missing {px : Int} (hp : 0 ≤ px) {t damping : Nat} (h0 : t ≠ 0) (ht : t < 2 ^ 15) (hd : damping ≤ 14) :
    constrain (-32768 - px) t (damping - Nat.log2 t) = 0 := by
  have h1 : t < 2 ^ (Nat.log2 t + 1) := Nat.lt_log2_self
  have hl : Nat.log2 t < 15 := (Nat.log2_lt h0).2 ht
  have h2 : (t : Int) ≤ asr ((-32768 - px).natAbs) (damping - Nat.log2 t) := by
    rw [asr, Int.le_ediv_iff_mul_le (Int.pow_pos (by decide))]
    have h3 : 2 ^ (Nat.log2 t + 1) * 2 ^ (damping - Nat.log2 t) ≤ 2 ^ 15 := by
      rw [← Nat.pow_add]
      exact Nat.pow_le_pow_right (by decide) (by omega)
    have h4 : t * 2 ^ (damping - Nat.log2 t) ≤ 2 ^ 15 := Nat.le_trans (Nat.mul_le_mul_right _ (Nat.le_of_lt h1)) h3
    have h5 : ((t * 2 ^ (damping - Nat.log2 t) : Nat) : Int) ≤ ((2 ^ 15 : Nat) : Int) := Int.ofNat_le.2 h4
    rw [Int.natCast_mul, Int.natCast_pow] at h5
    refine Int.le_trans h5 ?_
    omega
  rw [constrain]
  rw [if_pos (by omega), Int.max_eq_left (by omega)]
  omega

/-- What the decoder can pass, src/cdef_apply_tmpl.c:110-254: the direction is one of 8, the damping is at least the
logarithm of the secondary strength. -/
structure Ok (q : Params) : Prop where
  dir : q.dir < 8
  pri : q.pri < 2 ^ 15
  sec : q.sec < 2 ^ 15
  damping : q.damping ≤ 14
  shift : Nat.log2 q.sec ≤ q.damping

/-- All pixels that are available are in range. -/
def ViewOk (d : Depth) (v : Int → Int → Option Int) : Prop := ∀ y x p, v y x = some p → 0 ≤ p ∧ p ≤ d.max

def AccOk (d : Depth) (a : Acc) : Prop := 0 ≤ a.min ∧ a.min ≤ d.max ∧ 0 ≤ a.max

theorem max_lt (d : Depth) : d.max ≤ 4095 := by cases d <;> decide

theorem umin_eq {a b : Int} (ha : 0 ≤ a) (hb : 0 ≤ b) (ha' : a ≤ 4095) (hb' : b ≤ 4095) : umin a b = min b a := by
  rw [umin, Int.emod_eq_of_lt ha (by omega), Int.emod_eq_of_lt hb (by omega)]
  split_ifs <;> omega

theorem umin_missing {b : Int} (hb : 0 ≤ b) (hb' : b ≤ 4095) : umin (-32768) b = b := by
  rw [umin, Int.emod_eq_of_lt hb (by omega)]
  rw [if_neg]
  rw [show (-32768 : Int) % 2 ^ 32 = 4294934528 by decide]
  omega

/-- The strength a tap uses. -/
def strength (q : Params) : Sel → Nat
  | .pri => q.pri
  | _ => q.sec

/-- The weight of a tap. -/
def weight (d : Depth) (q : Params) (t : Sel × Nat × Bool) : Int := match t.1 with
  | .pri => priTap d q t.2.1
  | _ => 2 - (t.2.1 : Int)

theorem weight_spec (d : Depth) (q : Params) {t : Sel × Nat × Bool} (hk : t.2.1 < 2) : (match t.1 with
      | .pri => (([[4, 2], [3, 3]] : List (List Int)).getD ((q.pri / 2 ^ (d.bpc - 8)) % 2) []).getD t.2.1 0
      | _ => ([2, 1] : List Int).getD t.2.1 0) = weight d q t := by
  obtain ⟨s, k, b⟩ := t
  obtain rfl | rfl : k = 0 ∨ k = 1 := by dsimp only at hk; omega
  all_goals
    cases s <;> simp only [weight, priTap, Nat.shiftRight_eq_div_pow, Nat.and_one_is_mod]
    · rcases Nat.mod_two_eq_zero_or_one (q.pri / 2 ^ (d.bpc - 8)) with h | h <;> rw [h] <;> rfl
    · rfl
    · rfl

theorem specTap_eq (d : Depth) (q : Params) (v : Int → Int → Option Int) (px y x : Int) (a : Acc) {t : Sel × Nat × Bool} (hk : t.2.1 < 2) :
    specTap d q v px y x a t =
      match v (y + (if t.2.2 then 1 else -1) * (specOffset q.dir t.1 t.2.1).1) (x + (if t.2.2 then 1 else -1) * (specOffset q.dir t.1 t.2.1).2) with
      | none => a
      | some p => ⟨a.sum + weight d q t * specConstrain (p - px) (strength q t.1) q.damping, min a.min p, max a.max p⟩ := by
  rw [← weight_spec d q hk, specTap]
  dsimp only
  split
  · rfl
  · obtain ⟨s, k, b⟩ := t
    cases s <;> rfl

theorem tap_eq {d : Depth} {q : Params} (hq : Ok q) {e : Edges} {w h : Int} (hw : 0 < w ∧ w ≤ 8) (hh : 0 < h) {p : Input}
    (hv : ViewOk d (view e w h p)) {px : Int} (hp : 0 ≤ px) {y x : Int} (hx : 0 ≤ x ∧ x < w) (hy : 0 ≤ y ∧ y < h)
    {a : Acc} (ha : AccOk d a) {t : Sel × Nat × Bool} (hk : t.2.1 < 2) (hs : strength q t.1 ≠ 0) :
    tap d q (padding e w h p) px (y * 12 + x) a t = some (specTap d q (view e w h p) px y x a t) ∧
      AccOk d (specTap d q (view e w h p) px y x a t) := by
  obtain ⟨o1, o2, o3⟩ := offset_eq hq.dir t.1 hk
  rw [specTap_eq _ _ _ _ _ _ _ hk, tap, o1, Option.bind_some]
  generalize specOffset q.dir t.1 t.2.1 = o at o1 o2 o3 ⊢
  have hpos : (if t.2.2 = true then y * 12 + x + (o.1 * 12 + o.2) else y * 12 + x - (o.1 * 12 + o.2)) =
      (y + (if t.2.2 = true then 1 else -1) * o.1) * 12 + (x + (if t.2.2 = true then 1 else -1) * o.2) := by
    split_ifs <;> ring
  rw [hpos]
  generalize hY : y + (if t.2.2 = true then 1 else -1) * o.1 = Y
  generalize hX : x + (if t.2.2 = true then 1 else -1) * o.2 = X
  have hY' : -2 ≤ Y ∧ Y < h + 2 := by split_ifs at hY <;> omega
  have hX' : -2 ≤ X ∧ X < w + 2 := by split_ifs at hX <;> omega
  rw [padding_at e hw hh p hX' hY', Option.bind_some]
  have hsh : ∀ v : Int, scaled d q px v t.2.1 t.1 =
      some (weight d q t * constrain (v - px) (strength q t.1) (q.damping - Nat.log2 (strength q t.1))) := by
    intro v
    obtain ⟨s, k, b⟩ := t
    cases s <;> simp only [scaled, weight, strength, priShift, secShift, if_pos hq.shift, Option.map_some]
  have hst : strength q t.1 < 2 ^ 15 := by
    obtain ⟨s, k, b⟩ := t
    cases s <;> first | exact hq.pri | exact hq.sec
  rw [hsh, Option.map_some]
  obtain ⟨a1, a2, a3⟩ := ha
  have hm := max_lt d
  cases hvv : view e w h p Y X with
  | none =>
    rw [Option.getD_none, constrain_missing hp hs hst hq.damping, umin_missing a1 (by omega), Int.max_eq_right (by omega), Int.mul_zero,
      Int.add_zero]
    exact ⟨rfl, a1, a2, a3⟩
  | some v =>
    obtain ⟨v1, v2⟩ := hv Y X v hvv
    rw [Option.getD_some, constrain_eq _ hs, umin_eq v1 a1 (by omega) (by omega), Int.max_comm]
    exact ⟨rfl, by dsimp only; omega, by dsimp only; omega, by dsimp only; omega⟩

theorem taps_eq {d : Depth} {q : Params} (hq : Ok q) {e : Edges} {w h : Int} (hw : 0 < w ∧ w ≤ 8) (hh : 0 < h) {p : Input}
    (hv : ViewOk d (view e w h p)) {px : Int} (hp : 0 ≤ px) {y x : Int} (hx : 0 ≤ x ∧ x < w) (hy : 0 ≤ y ∧ y < h) :
    ∀ (l : List (Sel × Nat × Bool)), (∀ t ∈ l, t.2.1 < 2 ∧ strength q t.1 ≠ 0) → ∀ {a : Acc}, AccOk d a →
    l.foldlM (tap d q (padding e w h p) px (y * 12 + x)) a = some (l.foldl (specTap d q (view e w h p) px y x) a)
  | [], _, a, _ => rfl
  | t :: l, hl, a, ha => by
    obtain ⟨h1, h2⟩ := tap_eq hq hw hh hv hp hx hy ha (hl t (List.mem_cons_self ..)).1 (hl t (List.mem_cons_self ..)).2
    rw [List.foldlM_cons, h1, List.foldl_cons]
    exact taps_eq hq hw hh hv hp hx hy l (fun t ht => hl t (List.mem_cons_of_mem _ ht)) h2

/-! ## All taps -/

theorem specTap_comm (d : Depth) (q : Params) (v : Int → Int → Option Int) (px y x : Int) (a : Acc) (s t : Sel × Nat × Bool) :
    specTap d q v px y x (specTap d q v px y x a s) t = specTap d q v px y x (specTap d q v px y x a t) s := by
  simp only [specTap]
  generalize v (y + (if s.2.2 = true then 1 else -1) * (specOffset q.dir s.1 s.2.1).1) (x + (if s.2.2 = true then 1 else -1) * (specOffset q.dir s.1 s.2.1).2) = o1
  generalize v (y + (if t.2.2 = true then 1 else -1) * (specOffset q.dir t.1 t.2.1).1) (x + (if t.2.2 = true then 1 else -1) * (specOffset q.dir t.1 t.2.1).2) = o2
  cases o1 with
  | none => rfl
  | some v1 =>
    cases o2 with
    | none => rfl
    | some v2 =>
      dsimp only
      rw [Int.add_right_comm, min_right_comm, max_right_comm]

theorem fold_perm (d : Depth) (q : Params) (v : Int → Int → Option Int) (px y x : Int) {l l' : List (Sel × Nat × Bool)} (h : l.Perm l') (a : Acc) :
    l.foldl (specTap d q v px y x) a = l'.foldl (specTap d q v px y x) a :=
  haveI : RightCommutative (specTap d q v px y x) := ⟨fun a s t => specTap_comm d q v px y x a s t⟩
  h.foldl_eq a

theorem specConstrain_zero (diff : Int) (damping : Nat) : specConstrain diff 0 damping = 0 := if_pos rfl

/-- A constrained difference lies between zero and the difference. -/
theorem specConstrain_bounds (diff : Int) (t damping : Nat) :
    min 0 diff ≤ specConstrain diff t damping ∧ specConstrain diff t damping ≤ max 0 diff := by
  rw [specConstrain]
  by_cases h : t = 0
  · rw [if_pos h]; omega
  · rw [if_neg h]
    dsimp only
    generalize ((t : Int) - (diff.natAbs : Int) / 2 ^ (damping - Nat.log2 t)) = c
    rw [iclip]
    rcases Int.lt_trichotomy diff 0 with h | h | h
    · rw [Int.sign_eq_neg_one_of_neg h]
      split_ifs <;> omega
    · subst h
      simp
    · rw [Int.sign_eq_one_of_pos h]
      split_ifs <;> omega

/-- Taps without strength change no sum. -/
theorem fold_zero (d : Depth) (q : Params) (v : Int → Int → Option Int) (px y x : Int) :
    ∀ (l : List (Sel × Nat × Bool)), (∀ t ∈ l, t.2.1 < 2 ∧ strength q t.1 = 0) → ∀ a,
      (l.foldl (specTap d q v px y x) a).sum = a.sum ∧ (l.foldl (specTap d q v px y x) a).min ≤ a.min ∧
        a.max ≤ (l.foldl (specTap d q v px y x) a).max
  | [], _, a => ⟨rfl, Int.le_refl _, Int.le_refl _⟩
  | t :: l, hl, a => by
    obtain ⟨h1, h2, h3⟩ := fold_zero d q v px y x l (fun t ht => hl t (List.mem_cons_of_mem _ ht)) (specTap d q v px y x a t)
    obtain ⟨hk, hs⟩ := hl t (List.mem_cons_self ..)
    rw [List.foldl_cons, h1]
    have : (specTap d q v px y x a t).sum = a.sum ∧ (specTap d q v px y x a t).min ≤ a.min ∧ a.max ≤ (specTap d q v px y x a t).max := by
      rw [specTap_eq _ _ _ _ _ _ _ hk, hs]
      split
      · exact ⟨rfl, Int.le_refl _, Int.le_refl _⟩
      · rw [specConstrain_zero, Int.mul_zero, Int.add_zero]
        exact ⟨rfl, by dsimp only; omega, by dsimp only; omega⟩
    exact ⟨this.1, Int.le_trans h2 this.2.1, Int.le_trans this.2.2 h3⟩

/-- The sum is bounded by the weights and the distance to the extremes. -/
theorem fold_bounds (d : Depth) (q : Params) (v : Int → Int → Option Int) (px y x : Int) :
    ∀ (l : List (Sel × Nat × Bool)), (∀ t ∈ l, t.2.1 < 2 ∧ 0 ≤ weight d q t) → ∀ (a : Acc) (W : Int), 0 ≤ W → a.min ≤ px → px ≤ a.max →
      W * (a.min - px) ≤ a.sum → a.sum ≤ W * (a.max - px) →
      let r := l.foldl (specTap d q v px y x) a
      let W' := W + (l.map (weight d q)).sum
      r.min ≤ px ∧ px ≤ r.max ∧ W' * (r.min - px) ≤ r.sum ∧ r.sum ≤ W' * (r.max - px)
  | [], _, a, W, _, h1, h2, h3, h4 => by simpa using ⟨h1, h2, h3, h4⟩
  | t :: l, hl, a, W, hW, h1, h2, h3, h4 => by
    obtain ⟨hk, hw⟩ := hl t (List.mem_cons_self ..)
    have key := fold_bounds d q v px y x l (fun t ht => hl t (List.mem_cons_of_mem _ ht)) (specTap d q v px y x a t) (W + weight d q t)
      (by omega)
    rw [List.foldl_cons, List.map_cons, List.sum_cons, ← Int.add_assoc]
    have : (specTap d q v px y x a t).min ≤ px ∧ px ≤ (specTap d q v px y x a t).max ∧
        (W + weight d q t) * ((specTap d q v px y x a t).min - px) ≤ (specTap d q v px y x a t).sum ∧
        (specTap d q v px y x a t).sum ≤ (W + weight d q t) * ((specTap d q v px y x a t).max - px) := by
      rw [specTap_eq _ _ _ _ _ _ _ hk]
      split
      · refine ⟨h1, h2, ?_, ?_⟩ <;> nlinarith
      · rename_i p _
        obtain ⟨c1, c2⟩ := specConstrain_bounds (p - px) (strength q t.1) q.damping
        dsimp only
        refine ⟨by omega, by omega, ?_, ?_⟩
        · have e1 : W * (min a.min p - px) ≤ W * (a.min - px) := Int.mul_le_mul_of_nonneg_left (by omega) hW
          have e2 : weight d q t * (min a.min p - px) ≤ weight d q t * specConstrain (p - px) (strength q t.1) q.damping :=
            Int.mul_le_mul_of_nonneg_left (by omega) hw
          rw [Int.add_mul]
          omega
        · have e1 : W * (a.max - px) ≤ W * (max a.max p - px) := Int.mul_le_mul_of_nonneg_left (by omega) hW
          have e2 : weight d q t * specConstrain (p - px) (strength q t.1) q.damping ≤ weight d q t * (max a.max p - px) :=
            Int.mul_le_mul_of_nonneg_left (by omega) hw
          rw [Int.add_mul]
          omega
    exact key this.1 this.2.1 this.2.2.1 this.2.2.2

theorem priTap_two (d : Depth) (q : Params) : (priTap d q 0 = 4 ∧ priTap d q 1 = 2) ∨ (priTap d q 0 = 3 ∧ priTap d q 1 = 3) := by
  simp only [priTap, Nat.shiftRight_eq_div_pow, Nat.and_one_is_mod]
  rcases Nat.mod_two_eq_zero_or_one (q.pri / 2 ^ (d.bpc - 8)) with h | h <;> rw [h]
  · exact Or.inl ⟨rfl, rfl⟩
  · exact Or.inr ⟨rfl, rfl⟩

theorem weights (d : Depth) (q : Params) : (priTaps.map (weight d q)).sum = 12 ∧ (secTaps.map (weight d q)).sum = 12 ∧
    (∀ t ∈ priTaps ++ secTaps, t.2.1 < 2 ∧ 0 ≤ weight d q t) := by
  have h := priTap_two d q
  refine ⟨?_, rfl, ?_⟩
  · simp only [priTaps, List.flatMap_cons, List.flatMap_nil, List.append_nil, List.cons_append, List.nil_append, List.map_cons, List.map_nil,
      List.sum_cons, List.sum_nil, weight]
    omega
  · intro t ht
    simp only [priTaps, secTaps, List.flatMap_cons, List.flatMap_nil, List.append_nil, List.cons_append, List.nil_append, List.mem_cons,
      List.not_mem_nil, or_false] at ht
    rcases ht with rfl | rfl | rfl | rfl | rfl | rfl | rfl | rfl | rfl | rfl | rfl | rfl <;> simp only [weight] <;> omega

/-- With at most 12 / 16 of the distance to the extremes, rounding does not pass them. -/
theorem rounded_bounds {px sum lo hi : Int} (h1 : lo ≤ px) (h2 : px ≤ hi) (h3 : 12 * (lo - px) ≤ sum) (h4 : sum ≤ 12 * (hi - px)) :
    lo ≤ rounded px sum ∧ rounded px sum ≤ hi := by
  rw [rounded, show ∀ v : Int, asr v 4 = v / 16 from fun v => rfl]
  split_ifs <;> omega

theorem toPixel_eq {d : Depth} {v : Int} (h : 0 ≤ v ∧ v ≤ d.max) : toPixel d v = v := by
  cases d <;> simp only [toPixel, Depth.max, Depth.bpc] at h ⊢ <;> omega

theorem iclip_id' {v lo hi : Int} (h : lo ≤ v ∧ v ≤ hi) : iclip v lo hi = v := by
  rw [iclip, if_neg (by omega), if_neg (by omega)]

/-- Everything about the fold of the specification. -/
theorem spec_acc (d : Depth) (q : Params) {v : Int → Int → Option Int} (hv : ViewOk d v) {px : Int} (hp : 0 ≤ px ∧ px ≤ d.max) (y x : Int) :
    ∀ (l : List (Sel × Nat × Bool)), (∀ t ∈ l, t.2.1 < 2) → ∀ (a : Acc), 0 ≤ a.min → a.min ≤ px → px ≤ a.max → a.max ≤ d.max →
      let r := l.foldl (specTap d q v px y x) a
      0 ≤ r.min ∧ r.min ≤ px ∧ px ≤ r.max ∧ r.max ≤ d.max
  | [], _, a, h1, h2, h3, h4 => ⟨h1, h2, h3, h4⟩
  | t :: l, hl, a, h1, h2, h3, h4 => by
    have hk := hl t (List.mem_cons_self ..)
    rw [List.foldl_cons]
    have : 0 ≤ (specTap d q v px y x a t).min ∧ (specTap d q v px y x a t).min ≤ px ∧ px ≤ (specTap d q v px y x a t).max ∧
        (specTap d q v px y x a t).max ≤ d.max := by
      rw [specTap_eq _ _ _ _ _ _ _ hk]
      split
      · exact ⟨h1, h2, h3, h4⟩
      · rename_i p hpv
        have := hv _ _ p hpv
        dsimp only
        omega
    exact spec_acc d q hv hp y x l (fun t ht => hl t (List.mem_cons_of_mem _ ht)) _ this.1 this.2.1 this.2.2.1 this.2.2.2

theorem pri_perm : specTaps.Perm (priTaps ++ secTaps) := by decide
theorem sec_perm : specTaps.Perm (secTaps ++ priTaps) := by decide
theorem both_perm : specTaps.Perm bothTaps := by decide
theorem pri_mem : ∀ t ∈ priTaps, t.2.1 < 2 ∧ t.1 = .pri := by decide
theorem sec_mem : ∀ t ∈ secTaps, t.2.1 < 2 ∧ t.1 ≠ .pri := by decide
theorem both_mem : ∀ t ∈ bothTaps, t.2.1 < 2 := by decide
theorem spec_mem : ∀ t ∈ specTaps, t.2.1 < 2 := by decide

theorem strength_sec {q : Params} {s : Sel} (h : s ≠ .pri) : strength q s = q.sec := by cases s <;> first | rfl | exact absurd rfl h

/-- With one kind of taps the clipping of the specification has no effect. -/
theorem spec_single (d : Depth) {q : Params} {v : Int → Int → Option Int} {px y x : Int}
    {l l' : List (Sel × Nat × Bool)} (hl : ∀ t ∈ l, t.2.1 < 2 ∧ strength q t.1 ≠ 0) (hl' : ∀ t ∈ l', t.2.1 < 2 ∧ strength q t.1 = 0)
    (hperm : specTaps.Perm (l ++ l')) (hw12 : (l.map (weight d q)).sum = 12) (hw0 : ∀ t ∈ l, 0 ≤ weight d q t) :
    let r := l.foldl (specTap d q v px y x) ⟨0, px, px⟩
    specFilter d q v px y x = rounded px r.sum ∧ r.min ≤ rounded px r.sum ∧ rounded px r.sum ≤ r.max := by
  rw [specFilter, fold_perm _ _ _ _ _ _ hperm, List.foldl_append]
  obtain ⟨b1, b2, b3, b4⟩ := fold_bounds d q v px y x l (fun t ht => ⟨(hl t ht).1, hw0 t ht⟩) ⟨0, px, px⟩ 0
    (Int.le_refl 0) (Int.le_refl _) (Int.le_refl _) (by simp) (by simp)
  generalize l.foldl (specTap d q v px y x) ⟨0, px, px⟩ = r at b1 b2 b3 b4 ⊢
  rw [hw12, Int.zero_add] at b3 b4
  obtain ⟨z1, z2, z3⟩ := fold_zero d q v px y x l' hl' r
  generalize l'.foldl (specTap d q v px y x) r = r' at z1 z2 z3 ⊢
  obtain ⟨r1, r2⟩ := rounded_bounds b1 b2 b3 b4
  refine ⟨?_, r1, r2⟩
  rw [z1, show (8 + r.sum - (if r.sum < 0 then 1 else 0)) = r.sum - (if r.sum < 0 then 1 else 0) + 8 by omega]
  exact iclip_id' ⟨Int.le_trans z2 r1, Int.le_trans r2 z3⟩

/-- A branch with one kind of taps: it has no clipping, and needs none. -/
theorem single {d : Depth} {q : Params} (hq : Ok q) {e : Edges} {w h : Int} (hw : 0 < w ∧ w ≤ 8) (hh : 0 < h) {p : Input}
    (hv : ViewOk d (view e w h p)) {y x : Int} (hx : 0 ≤ x ∧ x < w) (hy : 0 ≤ y ∧ y < h) (hp : 0 ≤ p.dst y x ∧ p.dst y x ≤ d.max)
    {l l' : List (Sel × Nat × Bool)} (hl : ∀ t ∈ l, t.2.1 < 2 ∧ strength q t.1 ≠ 0) (hl' : ∀ t ∈ l', t.2.1 < 2 ∧ strength q t.1 = 0)
    (hperm : specTaps.Perm (l ++ l')) (hw12 : (l.map (weight d q)).sum = 12) (hw0 : ∀ t ∈ l, 0 ≤ weight d q t) :
    (l.foldlM (tap d q (padding e w h p) (p.dst y x) (y * 12 + x)) ⟨0, p.dst y x, p.dst y x⟩).map
      (fun a => toPixel d (rounded (p.dst y x) a.sum)) = some (specFilter d q (view e w h p) (p.dst y x) y x) := by
  have h0 : AccOk d ⟨0, p.dst y x, p.dst y x⟩ := ⟨hp.1, hp.2, hp.1⟩
  obtain ⟨s1, s2, s3⟩ := spec_single d (v := view e w h p) (px := p.dst y x) (y := y) (x := x) hl hl' hperm hw12 hw0
  obtain ⟨c1, c2, c3, c4⟩ := spec_acc d q hv hp y x l (fun t ht => (hl t ht).1) ⟨0, p.dst y x, p.dst y x⟩ hp.1 (Int.le_refl _) (Int.le_refl _) hp.2
  rw [taps_eq hq hw hh hv hp.1 hx hy l hl h0, Option.map_some, s1, toPixel_eq ⟨by omega, by omega⟩]

/-- **C55**: the block filter computes, for every pixel of the block, the filter of the specification (7.15.2) applied to the
unfiltered pixels that are available. -/
theorem C55_cdef (d : Depth) (q : Params) (hq : Ok q) (hs : q.pri ≠ 0 ∨ q.sec ≠ 0) (e : Edges) (w h : Nat) (hw : w = 4 ∨ w = 8)
    (hh : h = 4 ∨ h = 8) (p : Input) (hv : ViewOk d (view e w h p)) (y x : Nat) (hy : y < h) (hx : x < w) :
    filterBlock d q e w h p y x = some (specFilter d q (view e w h p) (p.dst y x) y x) := by
  have hw' : (0 : Int) < w ∧ (w : Int) ≤ 8 := by omega
  have hh' : (0 : Int) < h := by omega
  have hx' : (0 : Int) ≤ x ∧ (x : Int) < w := by omega
  have hy' : (0 : Int) ≤ y ∧ (y : Int) < h := by omega
  have hp : 0 ≤ p.dst y x ∧ p.dst y x ≤ d.max := by
    refine hv y x _ ?_
    rw [view, if_neg (by omega), if_neg (by omega), if_neg (by omega), if_neg (by omega)]
  obtain ⟨w1, w2, w3⟩ := weights d q
  rw [filterBlock, pixel]
  by_cases h1 : q.pri ≠ 0
  · by_cases h2 : q.sec ≠ 0
    · have hst : ∀ s, strength q s ≠ 0 := fun s => by cases s <;> assumption
      simp only [if_pos h1, if_pos h2]
      rw [taps_eq hq hw' hh' hv hp.1 hx' hy' bothTaps (fun t ht => ⟨both_mem t ht, hst t.1⟩) ⟨hp.1, hp.2, hp.1⟩, Option.map_some,
        ← fold_perm _ _ _ _ _ _ both_perm, specFilter]
      obtain ⟨c1, c2, c3, c4⟩ := spec_acc d q hv hp y x specTaps spec_mem ⟨0, p.dst y x, p.dst y x⟩ hp.1 (Int.le_refl _) (Int.le_refl _) hp.2
      generalize specTaps.foldl (specTap d q (view e w h p) (p.dst y x) y x) ⟨0, p.dst y x, p.dst y x⟩ = r at c1 c2 c3 c4 ⊢
      have hr : rounded (p.dst y x) r.sum = p.dst y x + (8 + r.sum - (if r.sum < 0 then 1 else 0)) / 16 := by
        rw [rounded, show (8 + r.sum - (if r.sum < 0 then 1 else 0)) = r.sum - (if r.sum < 0 then 1 else 0) + 8 by omega]
        rfl
      rw [hr, toPixel_eq]
      rw [iclip]
      split_ifs <;> omega
    · have h2' : q.sec = 0 := by omega
      simp only [if_pos h1, if_neg h2]
      exact single hq hw' hh' hv hx' hy' hp (fun t ht => ⟨(pri_mem t ht).1, by rw [(pri_mem t ht).2]; exact h1⟩)
        (fun t ht => ⟨(sec_mem t ht).1, by rw [strength_sec (sec_mem t ht).2]; exact h2'⟩) pri_perm w1
        (fun t ht => (w3 t (List.mem_append_left _ ht)).2)
  · have h1' : q.pri = 0 := by omega
    have h2 : q.sec ≠ 0 := by omega
    simp only [if_neg h1, if_pos h2]
    exact single hq hw' hh' hv hx' hy' hp (fun t ht => ⟨(sec_mem t ht).1, by rw [strength_sec (sec_mem t ht).2]; exact h2⟩)
      (fun t ht => ⟨(pri_mem t ht).1, by rw [(pri_mem t ht).2]; exact h1'⟩) sec_perm w2
      (fun t ht => (w3 t (List.mem_append_right _ ht)).2)

/-! ## C40: range and flat areas -/

/-- The value of tap `t` of the pixel at row `y`, column `x`, if it exists. -/
def tapValue (q : Params) (v : Int → Int → Option Int) (y x : Int) (t : Sel × Nat × Bool) : Option Int :=
  let o := specOffset q.dir t.1 t.2.1
  if t.2.2 then v (y + o.1) (x + o.2) else v (y - o.1) (x - o.2)

theorem specTap_val (d : Depth) (q : Params) (v : Int → Int → Option Int) (px y x : Int) (a : Acc) {t : Sel × Nat × Bool} (hk : t.2.1 < 2) :
    specTap d q v px y x a t = match tapValue q v y x t with
      | none => a
      | some p => ⟨a.sum + weight d q t * specConstrain (p - px) (strength q t.1) q.damping, min a.min p, max a.max p⟩ := by
  rw [specTap_eq _ _ _ _ _ _ _ hk, tapValue]
  cases t.2.2
  · simp only [Bool.false_eq_true, if_false, Int.neg_mul, Int.one_mul, ← Int.sub_eq_add_neg]
  · simp only [if_true, Int.one_mul]

theorem fold_within (d : Depth) (q : Params) (v : Int → Int → Option Int) (px y x lo hi : Int) :
    ∀ (l : List (Sel × Nat × Bool)), (∀ t ∈ l, t.2.1 < 2) → (∀ t ∈ l, ∀ p, tapValue q v y x t = some p → lo ≤ p ∧ p ≤ hi) →
      ∀ (a : Acc), lo ≤ a.min → a.max ≤ hi →
      lo ≤ (l.foldl (specTap d q v px y x) a).min ∧ (l.foldl (specTap d q v px y x) a).max ≤ hi
  | [], _, _, a, h1, h2 => ⟨h1, h2⟩
  | t :: l, hk, hl, a, h1, h2 => by
    rw [List.foldl_cons]
    have : lo ≤ (specTap d q v px y x a t).min ∧ (specTap d q v px y x a t).max ≤ hi := by
      rw [specTap_val _ _ _ _ _ _ _ (hk t (List.mem_cons_self ..))]
      split
      · exact ⟨h1, h2⟩
      · rename_i p hp
        have := hl t (List.mem_cons_self ..) p hp
        dsimp only
        omega
    exact fold_within d q v px y x lo hi l (fun t ht => hk t (List.mem_cons_of_mem _ ht)) (fun t ht => hl t (List.mem_cons_of_mem _ ht)) _ this.1 this.2

/-- The result lies between any bounds of the pixel and of the taps in use. -/
theorem spec_within (d : Depth) (q : Params) (hs : q.pri ≠ 0 ∨ q.sec ≠ 0) (v : Int → Int → Option Int) {px y x lo hi : Int}
    (hp : lo ≤ px ∧ px ≤ hi)
    (ht : ∀ t ∈ specTaps, strength q t.1 ≠ 0 → ∀ p, tapValue q v y x t = some p → lo ≤ p ∧ p ≤ hi) :
    lo ≤ specFilter d q v px y x ∧ specFilter d q v px y x ≤ hi := by
  obtain ⟨w1, w2, w3⟩ := weights d q
  by_cases h1 : q.pri ≠ 0
  · by_cases h2 : q.sec ≠ 0
    · have hst : ∀ s, strength q s ≠ 0 := fun s => by cases s <;> assumption
      obtain ⟨f1, f2⟩ := fold_within d q v px y x lo hi specTaps spec_mem (fun t htt => ht t htt (hst _)) ⟨0, px, px⟩ hp.1 hp.2
      have hb := fold_bounds d q v px y x (priTaps ++ secTaps) w3 ⟨0, px, px⟩ 0
        (Int.le_refl 0) (Int.le_refl _) (Int.le_refl _) (by simp) (by simp)
      rw [← fold_perm _ _ _ _ _ _ pri_perm] at hb
      obtain ⟨b1, b2, _⟩ := hb
      rw [specFilter]
      generalize specTaps.foldl (specTap d q v px y x) ⟨0, px, px⟩ = r at f1 f2 b1 b2 ⊢
      simp only [iclip]
      split_ifs <;> omega
    · have h2' : q.sec = 0 := by omega
      obtain ⟨s1, s2, s3⟩ := spec_single d (q := q) (v := v) (px := px) (y := y) (x := x) (fun t ht => ⟨(pri_mem t ht).1, by rw [(pri_mem t ht).2]; exact h1⟩)
        (fun t ht => ⟨(sec_mem t ht).1, by rw [strength_sec (sec_mem t ht).2]; exact h2'⟩) pri_perm w1
        (fun t ht => (w3 t (List.mem_append_left _ ht)).2)
      obtain ⟨f1, f2⟩ := fold_within d q v px y x lo hi priTaps (fun t htt => (pri_mem t htt).1)
        (fun t htt => ht t (pri_perm.mem_iff.2 (List.mem_append_left _ htt)) (by rw [(pri_mem t htt).2]; exact h1)) ⟨0, px, px⟩ hp.1 hp.2
      rw [s1]
      omega
  · have h1' : q.pri = 0 := by omega
    have h2 : q.sec ≠ 0 := by omega
    obtain ⟨s1, s2, s3⟩ := spec_single d (q := q) (v := v) (px := px) (y := y) (x := x) (fun t ht => ⟨(sec_mem t ht).1, by rw [strength_sec (sec_mem t ht).2]; exact h2⟩)
      (fun t ht => ⟨(pri_mem t ht).1, by rw [(pri_mem t ht).2]; exact h1'⟩) sec_perm w2
      (fun t ht => (w3 t (List.mem_append_right _ ht)).2)
    obtain ⟨f1, f2⟩ := fold_within d q v px y x lo hi secTaps (fun t htt => (sec_mem t htt).1)
      (fun t htt => ht t (sec_perm.mem_iff.2 (List.mem_append_left _ htt)) (by rw [strength_sec (sec_mem t htt).2]; exact h2)) ⟨0, px, px⟩ hp.1 hp.2
    rw [s1]
    omega

/-- **C40**, CDEF: every filtered pixel is defined, in range, and lies between any bounds of the pixel itself and of the taps
whose strength is not zero. -/
theorem C40_cdef (d : Depth) (q : Params) (hq : Ok q) (hs : q.pri ≠ 0 ∨ q.sec ≠ 0) (e : Edges) (w h : Nat) (hw : w = 4 ∨ w = 8)
    (hh : h = 4 ∨ h = 8) (p : Input) (hv : ViewOk d (view e w h p)) (y x : Nat) (hy : y < h) (hx : x < w) :
    ∃ r, filterBlock d q e w h p y x = some r ∧ 0 ≤ r ∧ r ≤ d.max ∧
      ∀ lo hi, lo ≤ p.dst y x → p.dst y x ≤ hi →
        (∀ t ∈ specTaps, strength q t.1 ≠ 0 → ∀ v, tapValue q (view e w h p) y x t = some v → lo ≤ v ∧ v ≤ hi) → lo ≤ r ∧ r ≤ hi := by
  have hp : 0 ≤ p.dst y x ∧ p.dst y x ≤ d.max := by
    refine hv y x _ ?_
    rw [view, if_neg (by omega), if_neg (by omega), if_neg (by omega), if_neg (by omega)]
  refine ⟨_, C55_cdef d q hq hs e w h hw hh p hv y x hy hx, ?_⟩
  obtain ⟨b1, b2⟩ := spec_within d q hs (view e w h p) (px := p.dst y x) (y := y) (x := x) hp fun t _ _ v htv => by
    rw [tapValue] at htv
    split_ifs at htv <;> exact hv _ _ _ htv
  exact ⟨b1, b2, fun lo hi h1 h2 h3 => spec_within d q hs _ ⟨h1, h2⟩ h3⟩

/-- **C40**, CDEF on a flat area: if all pixels that exist have the same value, nothing changes. -/
theorem C40_cdef_flat (d : Depth) (q : Params) (hq : Ok q) (hs : q.pri ≠ 0 ∨ q.sec ≠ 0) (e : Edges) (w h : Nat) (hw : w = 4 ∨ w = 8)
    (hh : h = 4 ∨ h = 8) (p : Input) (c : Int) (hc : 0 ≤ c ∧ c ≤ d.max) (hv : ∀ y x v, view e w h p y x = some v → v = c)
    (y x : Nat) (hy : y < h) (hx : x < w) : filterBlock d q e w h p y x = some c := by
  have hp : p.dst y x = c := by
    refine hv y x _ ?_
    rw [view, if_neg (by omega), if_neg (by omega), if_neg (by omega), if_neg (by omega)]
  obtain ⟨r, h1, _, _, h2⟩ := C40_cdef d q hq hs e w h hw hh p (fun y x v hvv => by rw [hv y x v hvv]; exact hc) y x hy hx
  obtain ⟨b1, b2⟩ := h2 c c (by omega) (by omega) fun t _ _ v htv => by
    rw [tapValue] at htv
    split_ifs at htv <;> rw [hv _ _ _ htv] <;> omega
  rw [h1, show r = c by omega]

/-- The premises can be met: a block at the left edge, with both strengths, and a filtered pixel. -/
example : let q : Params := ⟨9, 2, 3, 5⟩
    let p : Input := ⟨fun y x => (100 + 3 * y + 2 * x) % 256, fun _ _ => 0, fun y x => (94 + 3 * y + 2 * x) % 256, fun y x => (124 + 3 * y + 9 * x) % 256⟩
    Ok q ∧ ViewOk .b8 (view ⟨false, true, true, true⟩ 8 8 p) ∧ filterBlock .b8 q ⟨false, true, true, true⟩ 8 8 p 7 5 = some 129 ∧ p.dst 7 5 = 131 := by
  refine ⟨⟨by decide, by decide, by decide, by decide, by decide +kernel⟩, fun y x v h => ?_, by decide +kernel, by decide⟩
  rw [view] at h
  split_ifs at h <;> (obtain rfl := Option.some.inj h; simp only [Depth.max, Depth.bpc]; omega)

end Dav1d.Cdef
