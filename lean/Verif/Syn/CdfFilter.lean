import Verif.Syn.CdfModel
import Verif.Syn.CdfSpec
/-!
# Lemmas for C85: the filter depends only on samples that are near
-/
namespace Dav1d.Cdf
open Dav1d.Cdef

/-- In range everywhere. -/
def clipIn (d : Depth) (p : Input) : Input :=
  ⟨fun y x => iclip (p.dst y x) 0 d.max, fun y x => iclip (p.left y x) 0 d.max, fun y x => iclip (p.top y x) 0 d.max, fun y x => iclip (p.bottom y x) 0 d.max⟩

theorem iclip_id {v m : Int} (h : 0 ≤ v ∧ v ≤ m) : iclip v 0 m = v := by
  unfold iclip
  split_ifs <;> omega

theorem max_pos (d : Depth) : 0 ≤ d.max := by cases d <;> decide

theorem iclip_range {v m : Int} (h : 0 ≤ m) : 0 ≤ iclip v 0 m ∧ iclip v 0 m ≤ m := by
  unfold iclip
  split_ifs <;> omega

theorem view_clip (d : Depth) (e : Edges) (w h : Int) (p : Input) (y x : Int) : view e w h (clipIn d p) y x = (view e w h p y x).map fun v => iclip v 0 d.max := by
  unfold view clipIn
  split_ifs <;> rfl

theorem viewOk_clip (d : Depth) (e : Edges) (w h : Int) (p : Input) : ViewOk d (view e w h (clipIn d p)) := by
  intro y x v hv
  rw [view_clip] at hv
  obtain ⟨u, _, rfl⟩ := Option.map_eq_some_iff.1 hv
  exact iclip_range (max_pos d)

theorem padding_congr (e : Edges) {w h : Int} (hw : 0 < w ∧ w ≤ 8) (hh : 0 < h) {p p' : Input}
    (hv : ∀ y x : Int, -2 ≤ y → y < h + 2 → -2 ≤ x → x < w + 2 → view e w h p y x = view e w h p' y x) : padding e w h p = padding e w h p' := by
  funext i
  by_cases hc : -2 ≤ row i ∧ row i < h + 2 ∧ col i < w + 2
  · have hx : -2 ≤ col i := by unfold col; omega
    have e1 : row i * 12 + col i = i := by unfold row col; omega
    rw [← e1, padding_at e hw hh p ⟨hx, hc.2.2⟩ ⟨hc.1, hc.2.1⟩, padding_at e hw hh p' ⟨hx, hc.2.2⟩ ⟨hc.1, hc.2.1⟩, hv _ _ hc.1 hc.2.1 hx hc.2.2]
  · obtain ⟨_ | _, _ | _, _ | _, _ | _⟩ := e <;>
    simp only [padding, fill, rect, Bool.false_eq_true, if_true, if_false] <;>
    repeat rw [if_neg (by omega)]

theorem offset_near {dir : Nat} (hd : dir < 8) (s : Sel) (k : Nat) : -2 ≤ (specOffset dir s k).1 ∧ (specOffset dir s k).1 ≤ 2 ∧ -2 ≤ (specOffset dir s k).2 ∧ (specOffset dir s k).2 ≤ 2 := by
  have h : ∀ d < 8, ∀ k < 2, -2 ≤ ((Cdef_Directions.getD d []).getD k (0, 0)).1 ∧ ((Cdef_Directions.getD d []).getD k (0, 0)).1 ≤ 2 ∧ -2 ≤ ((Cdef_Directions.getD d []).getD k (0, 0)).2 ∧
      ((Cdef_Directions.getD d []).getD k (0, 0)).2 ≤ 2 := by decide
  have h2 : ∀ d < 8, (Cdef_Directions.getD d []).length = 2 := by decide
  have h3 : ∀ d < 8, -2 ≤ ((Cdef_Directions.getD d []).getD k (0, 0)).1 ∧ ((Cdef_Directions.getD d []).getD k (0, 0)).1 ≤ 2 ∧ -2 ≤ ((Cdef_Directions.getD d []).getD k (0, 0)).2 ∧
      ((Cdef_Directions.getD d []).getD k (0, 0)).2 ≤ 2 := by
    intro d hd
    by_cases hk : k < 2
    · exact h d hd k hk
    · rw [List.getD_eq_getElem?_getD, List.getElem?_eq_none (by rw [h2 d hd]; omega)]
      decide
  unfold specOffset
  cases s
  · exact h3 _ hd
  · exact h3 _ (Nat.mod_lt _ (by decide))
  · exact h3 _ (Nat.mod_lt _ (by decide))

theorem specFilter_congr (d : Depth) {q : Params} (hq : q.dir < 8) {V V' : Int → Int → Option Int} {px y x y' x' : Int}
    (hv : ∀ dy dx : Int, -2 ≤ dy → dy ≤ 2 → -2 ≤ dx → dx ≤ 2 → V (y + dy) (x + dx) = V' (y' + dy) (x' + dx)) : specFilter d q V px y x = specFilter d q V' px y' x' := by
  have ht : specTap d q V px y x = specTap d q V' px y' x' := by
    funext a t
    obtain ⟨o1, o2, o3, o4⟩ := offset_near hq t.1 t.2.1
    unfold specTap
    simp only []
    cases t.2.2
    · rw [hv _ _ (by simp only [Bool.false_eq_true, if_false]; omega) (by simp only [Bool.false_eq_true, if_false]; omega) (by simp only [Bool.false_eq_true, if_false]; omega)
        (by simp only [Bool.false_eq_true, if_false]; omega)]
    · rw [hv _ _ (by simp only [if_true]; omega) (by simp only [if_true]; omega) (by simp only [if_true]; omega) (by simp only [if_true]; omega)]
  unfold specFilter
  rw [ht]

/-- Without strengths, nothing changes. -/
theorem specFilter_zero (d : Depth) {q : Params} (h1 : q.pri = 0) (h2 : q.sec = 0) (V : Int → Int → Option Int) (px y x : Int) : specFilter d q V px y x = px := by
  have hs : ∀ diff, specConstrain diff 0 q.damping = 0 := fun diff => if_pos rfl
  have key : ∀ (l : List (Sel × Nat × Bool)) (a : Acc), a.sum = 0 → a.min ≤ px → px ≤ a.max →
      (l.foldl (specTap d q V px y x) a).sum = 0 ∧ (l.foldl (specTap d q V px y x) a).min ≤ px ∧ px ≤ (l.foldl (specTap d q V px y x) a).max := by
    intro l
    induction l with
    | nil => exact fun a g1 g2 g3 => ⟨g1, g2, g3⟩
    | cons t l ih =>
      intro a g1 g2 g3
      rw [List.foldl_cons]
      have : (specTap d q V px y x a t).sum = 0 ∧ (specTap d q V px y x a t).min ≤ px ∧ px ≤ (specTap d q V px y x a t).max := by
        unfold specTap
        simp only [h1, h2, hs, Int.mul_zero]
        cases V (y + (if t.2.2 = true then 1 else -1) * (specOffset q.dir t.1 t.2.1).1) (x + (if t.2.2 = true then 1 else -1) * (specOffset q.dir t.1 t.2.1).2) with
        | none => exact ⟨g1, g2, g3⟩
        | some v =>
          refine ⟨?_, ?_, ?_⟩
          · cases t.1 <;> (show a.sum + 0 = 0; omega)
          · show min a.min v ≤ px
            omega
          · show px ≤ max a.max v
            omega
      exact ih _ this.1 this.2.1 this.2.2
  obtain ⟨k1, k2, k3⟩ := key specTaps ⟨0, px, px⟩ rfl (Int.le_refl _) (Int.le_refl _)
  unfold specFilter
  simp only [k1]
  unfold iclip
  split_ifs <;> omega

/-- What a call computes, from the samples near the block. -/
theorem filter_eq (d : Depth) {q : Params} (hq : Ok q) (hs : q.pri ≠ 0 ∨ q.sec ≠ 0) (e : Edges) {w h : Nat} (hw : w = 4 ∨ w = 8) (hh : h = 4 ∨ h = 8) (p : Input)
    {V : Int → Int → Option Int} (hV : ViewOk d V) (y0 x0 : Int)
    (hv : ∀ y x : Int, -2 ≤ y → y < h + 2 → -2 ≤ x → x < w + 2 → view e w h p y x = V (y0 + y) (x0 + x)) {y x : Nat} (hy : y < h) (hx : x < w) :
    filterBlock d q e w h p y x = some (specFilter d q V (p.dst y x) (y0 + y) (x0 + x)) := by
  have hn : ∀ y x : Int, -2 ≤ y → y < h + 2 → -2 ≤ x → x < w + 2 → view e w h (clipIn d p) y x = view e w h p y x := by
    intro y x g1 g2 g3 g4
    rw [view_clip]
    cases hu : view e w h p y x with
    | none => rfl
    | some u =>
      rw [hv y x g1 g2 g3 g4] at hu
      rw [Option.map_some, iclip_id (hV _ _ _ hu)]
  have hd : (clipIn d p).dst y x = p.dst y x := by
    have e1 : ∀ p : Input, view e w h p y x = some (p.dst y x) := fun p => by
      unfold view
      rw [if_neg (by omega), if_neg (by omega), if_neg (by omega), if_neg (by omega)]
    have := hn y x (by omega) (by omega) (by omega) (by omega)
    rw [e1, e1] at this
    exact Option.some.inj this
  have h1 : filterBlock d q e w h p y x = filterBlock d q e w h (clipIn d p) y x := by
    unfold filterBlock
    rw [← padding_congr e (w := w) (h := h) (by omega) (by omega) hn]
    unfold pixel
    rw [hd]
  rw [h1, C55_cdef d q hq hs e w h hw hh (clipIn d p) (viewOk_clip d e w h p) y x hy hx, hd]
  congr 1
  refine specFilter_congr d hq.dir ?_
  intro dy dx g1 g2 g3 g4
  rw [hn _ _ (by omega) (by omega) (by omega) (by omega), hv _ _ (by omega) (by omega) (by omega) (by omega), Int.add_assoc, Int.add_assoc]

/-! ## The direction -/

theorem yDir_spec (cost : Nat → Nat) : Av1.yDir cost < 8 ∧ (∀ k < 8, cost k ≤ cost (Av1.yDir cost)) ∧ ∀ k < Av1.yDir cost, cost k < cost (Av1.yDir cost) := by
  have key : ∀ n, (List.range n).foldl (fun best d => if cost d > cost best then d else best) 0 < max n 1 ∧
      (∀ k < n, cost k ≤ cost ((List.range n).foldl (fun best d => if cost d > cost best then d else best) 0)) ∧
      ∀ k < (List.range n).foldl (fun best d => if cost d > cost best then d else best) 0, cost k < cost ((List.range n).foldl (fun best d => if cost d > cost best then d else best) 0) := by
    intro n
    induction n with
    | zero => exact ⟨Nat.zero_lt_one, fun k hk => by omega, fun k hk => by exact absurd hk (Nat.not_lt_zero _)⟩
    | succ n ih =>
      rw [List.range_succ, List.foldl_append]
      generalize (List.range n).foldl (fun best d => if cost d > cost best then d else best) 0 = b at ih
      obtain ⟨i1, i2, i3⟩ := ih
      simp only [List.foldl_cons, List.foldl_nil]
      split_ifs with hc
      · refine ⟨by omega, fun k hk => ?_, fun k hk => ?_⟩
        · by_cases h : k = n
          · rw [h]
          · have := i2 k (by omega)
            omega
        · have := i2 k hk
          omega
      · refine ⟨by omega, fun k hk => ?_, i3⟩
        by_cases h : k = n
        · rw [h]; omega
        · exact i2 k (by omega)
  exact key 8

theorem findDir_eq (d : Depth) (img : Nat → Nat → Int) (hi : ∀ y < 8, ∀ x < 8, 0 ≤ img y x ∧ img y x ≤ d.max) :
    findDir d img = some (Av1.yDir (energy d img), Av1.variance (energy d img)) := by
  obtain ⟨dir, var, h1, h2, h3, h4, h5⟩ := C56_direction d img hi
  obtain ⟨g1, g2, g3⟩ := yDir_spec (energy d img)
  have : dir = Av1.yDir (energy d img) := by
    rcases Nat.lt_trichotomy dir (Av1.yDir (energy d img)) with h | h | h
    · have a := g3 _ h
      have b := h3 _ g1
      omega
    · exact h
    · have a := h4 _ h
      have b := g2 _ h2
      omega
  subst this
  rw [h1, h5]
  rfl

end Dav1d.Cdf
