import Verif.Dsp.WarpProps
import Mathlib.Algebra.BigOperators.Group.List.Basic
/-! # The warp parameters derived from neighbouring blocks: C47 -/
namespace Dav1d.Warp
open List

/-! ## Selection of samples -/

/-- Entries of `mvd` and `pts` that are selected. -/
def good (e : Option Int × Pt) : Bool := e.1.isSome

theorem nextBad_spec (l : List (Option Int × Pt)) (i : Nat) (hi : ∀ k < i, ∀ e, l[k]? = some e → good e = true)
    (hb : ∃ (k : Nat) (e : _), l[k]? = some e ∧ good e = false) :
    ∃ m e, nextBad l i = some m ∧ i ≤ m ∧ l[m]? = some e ∧ good e = false ∧ ∀ k < m, ∀ e, l[k]? = some e → good e = true := by
  fun_induction nextBad l i with
  | case1 i h =>
    obtain ⟨k, e, hk, hbad⟩ := hb
    by_cases hki : k < i
    · rw [hi k hki e hk] at hbad; exact absurd hbad (by decide)
    · have h1 := List.getElem?_eq_none_iff.mp h
      have h2 := (List.getElem?_eq_some_iff.mp hk).1
      omega
  | case2 i p h => exact ⟨i, _, rfl, le_refl _, h, rfl, hi⟩
  | case3 i v p h ih =>
    have := ih (by
      intro k hk e he
      by_cases hki : k < i
      · exact hi k hki e he
      · have : k = i := by omega
        subst this
        rw [h] at he; cases he; rfl)
    obtain ⟨m, e, h1, h2, h3⟩ := this
    exact ⟨m, e, h1, by omega, h3⟩

theorem prevGood_spec (l : List (Option Int × Pt)) (j : Nat) (hj : j < l.length) (hg : ∃ k ≤ j, ∃ e, l[k]? = some e ∧ good e = true) :
    ∃ m e, prevGood l j = some m ∧ m ≤ j ∧ l[m]? = some e ∧ good e = true ∧ ∀ k, m < k → k ≤ j → ∀ e, l[k]? = some e → good e = false := by
  induction j with
  | zero =>
    obtain ⟨k, hk, e, he, hgd⟩ := hg
    have : k = 0 := by omega
    subst this
    obtain ⟨a, p⟩ := e
    cases a with
    | none => cases hgd
    | some v => exact ⟨0, _, by unfold prevGood; rw [he], le_refl _, he, hgd, by intros; omega⟩
  | succ j ih =>
    obtain ⟨⟨a, p⟩, he⟩ : ∃ e, l[j + 1]? = some e := ⟨l[j + 1], List.getElem?_eq_getElem hj⟩
    cases a with
    | some v => exact ⟨j + 1, _, by unfold prevGood; rw [he], le_refl _, he, rfl, by intros; omega⟩
    | none =>
      have := ih (by omega) (by
        obtain ⟨k, hk, e, he', hgd⟩ := hg
        refine ⟨k, ?_, e, he', hgd⟩
        by_contra hc
        have : k = j + 1 := by omega
        subst this
        rw [he] at he'; cases he'; cases hgd)
      obtain ⟨m, e, h1, h2, h3, h4, h5⟩ := this
      refine ⟨m, e, ?_, by omega, h3, h4, ?_⟩
      · rw [prevGood, he]; exact h1
      · intro k hk hkj e' he'
        by_cases hc : k ≤ j
        · exact h5 k hk hc e' he'
        · have : k = j + 1 := by omega
          subst this
          rw [he] at he'; cases he'; rfl

/-- Overwriting a discarded entry adds one to the selected ones. -/
theorem filter_set_perm {α : Type} (p : α → Bool) : ∀ (l : List α) (i : Nat) (a e : α), l[i]? = some a → p a = false → p e = true →
    (l.set i e).filter p ~ e :: l.filter p
  | [], _, _, _, h, _, _ => by simp at h
  | b :: l, 0, a, e, h, ha, he => by
    simp at h; subst h
    simp [ha, he]
  | b :: l, i + 1, a, e, h, ha, he => by
    have := filter_set_perm p l i a e (by simpa using h) ha he
    by_cases hb : p b
    · simp only [List.set_cons_succ, List.filter_cons, hb, if_true]
      exact (this.cons b).trans (List.Perm.swap _ _ _)
    · simp only [List.set_cons_succ, List.filter_cons, hb]
      simpa using this

theorem filter_take_step {α : Type} (p : α → Bool) (l : List α) : ∀ (n m : Nat), m ≤ n →
    (∀ k, m ≤ k → k < n → ∀ e, l[k]? = some e → p e = false) → (l.take n).filter p = (l.take m).filter p := by
  intro n
  induction n with
  | zero => intro m hm _; have : m = 0 := by omega
            subst this; rfl
  | succ n ih =>
    intro m hm h
    by_cases hc : m = n + 1
    · subst hc; rfl
    · rw [List.take_succ, List.filter_append, ih m (by omega) (fun k h1 h2 => h k h1 (by omega))]
      cases he : l[n]? with
      | none => simp
      | some e => simp [h n (by omega) (by omega) e he]

theorem compact_spec (G : List (Option Int × Pt)) (hG : G ≠ []) : ∀ (n : Nat) (l : List (Option Int × Pt)) (i j : Nat),
    (∀ k < i, ∀ e, l[k]? = some e → good e = true) → j < l.length → (l.take (j + 1)).filter good ~ G →
    (l.filter (fun e => !good e)).length = n →
    ∃ l', compact n l i j = some l' ∧ l'.take G.length ~ G := by
  intro n
  induction n with
  | zero =>
    intro l i j _ hj hp hb
    refine ⟨l, rfl, ?_⟩
    have hall : ∀ e ∈ l, good e = true := by
      intro e he
      by_contra hc
      have : e ∈ l.filter (fun e => !good e) := List.mem_filter.mpr ⟨he, by simpa using hc⟩
      rw [List.length_eq_zero_iff.mp hb] at this
      cases this
    have : (l.take (j + 1)).filter good = l.take (j + 1) := by
      rw [List.filter_eq_self]; intro e he; exact hall e (List.mem_of_mem_take he)
    rw [this] at hp
    have hlen := hp.length_eq
    rw [List.length_take, Nat.min_eq_left (by omega)] at hlen
    rw [← hlen]; exact hp
  | succ n ih =>
    intro l i j hi hj hp hb
    have hbad : ∃ (k : Nat) (e : _), l[k]? = some e ∧ good e = false := by
      obtain ⟨e, he⟩ : ∃ e, e ∈ l.filter (fun e => !good e) := List.exists_mem_of_length_pos (by omega)
      obtain ⟨h1, h2⟩ := List.mem_filter.mp he
      obtain ⟨k, hk⟩ := List.mem_iff_getElem?.mp h1
      exact ⟨k, e, hk, by simpa using h2⟩
    obtain ⟨m, eb, hm, him, hmb, hbb, hmg⟩ := nextBad_spec l i hi hbad
    have hgood : ∃ k ≤ j, ∃ e, l[k]? = some e ∧ good e = true := by
      obtain ⟨e, he⟩ : ∃ e, e ∈ (l.take (j + 1)).filter good := List.exists_mem_of_length_pos (by
        rw [hp.length_eq]; exact List.length_pos_iff.mpr hG)
      obtain ⟨h1, h2⟩ := List.mem_filter.mp he
      obtain ⟨k, hk⟩ := List.mem_iff_getElem?.mp h1
      have hkl := (List.getElem?_eq_some_iff.mp hk).1
      rw [List.length_take] at hkl
      rw [List.getElem?_take_of_lt (by omega)] at hk
      exact ⟨k, by omega, e, hk, h2⟩
    obtain ⟨q, eg, hq, hqj, hqg, hgg, hqb⟩ := prevGood_spec l j hj hgood
    have hcut : (l.take (j + 1)).filter good = (l.take (q + 1)).filter good :=
      filter_take_step good l (j + 1) (q + 1) (by omega) (fun k h1 h2 e he => hqb k (by omega) (by omega) e he)
    rw [hcut] at hp
    have hmq : m ≠ q := by
      intro e; subst e
      rw [hmb] at hqg; cases hqg; rw [hbb] at hgg; cases hgg
    rw [compact, hm, Option.bind_some, hq, Option.bind_some, if_neg hmq]
    by_cases hgt : m > q
    · rw [if_pos hgt]
      refine ⟨l, rfl, ?_⟩
      have : (l.take (q + 1)).filter good = l.take (q + 1) := by
        rw [List.filter_eq_self]
        intro e he
        obtain ⟨k, hk⟩ := List.mem_iff_getElem?.mp he
        have hkl := (List.getElem?_eq_some_iff.mp hk).1
        rw [List.length_take] at hkl
        rw [List.getElem?_take_of_lt (by omega)] at hk
        exact hmg k (by omega) e hk
      rw [this] at hp
      have hlen := hp.length_eq
      rw [List.length_take, Nat.min_eq_left (by omega)] at hlen
      rw [← hlen]; exact hp
    · rw [if_neg hgt, hqg, Option.bind_some]
      have hmlt : m < q := by omega
      apply ih
      · intro k hk e he
        by_cases hkm : k = m
        · subst hkm
          rw [List.getElem?_set_self (by omega)] at he
          cases he; exact hgg
        · rw [List.getElem?_set_ne (by omega)] at he
          exact hmg k (by omega) e he
      · rw [List.length_set]; omega
      · rw [show q - 1 + 1 = q by omega]
        refine Perm.trans ?_ hp
        rw [List.take_succ, List.filter_append, hqg]
        have h1 : (l.set m eg).take q = (l.take q).set m eg := by rw [List.take_set]
        rw [h1]
        refine (filter_set_perm good _ m eb eg (by rw [List.getElem?_take_of_lt hmlt]; exact hmb) hbb hgg).trans ?_
        simp only [Option.toList_some, List.filter_cons, hgg, if_true, List.filter_nil]
        exact (List.perm_append_comm (l₁ := [eg])).symm.symm
      · have hl : (l.filter (fun e => !good e)).length + (l.filter good).length = l.length := by
          rw [Nat.add_comm, ← List.length_eq_length_filter_add]
        have hl' : ((l.set m eg).filter (fun e => !good e)).length + ((l.set m eg).filter good).length = l.length := by
          rw [Nat.add_comm, ← List.length_eq_length_filter_add, List.length_set]
        have h2 := (filter_set_perm good l m eb eg hmb hbb hgg).length_eq
        simp only [List.length_cons] at h2
        omega

/-- The samples given to dav1d_find_affine_int are, in some order, those with similar motion, or the first. -/
theorem select_spec (pts : List Pt) (bw4 bh4 : Int) (mv : Mv) :
    ∃ sel, select pts bw4 bh4 mv = some sel ∧
      sel ~ (if pts.filter (fun p => (mvd (thresh bw4 bh4) mv p).isSome) = [] then pts.take 1
        else pts.filter (fun p => (mvd (thresh bw4 bh4) mv p).isSome)) := by
  unfold select
  dsimp only
  generalize hl : pts.map (fun p => (mvd (thresh bw4 bh4) mv p, p)) = l
  have hfl : (l.filter good).map Prod.snd = pts.filter (fun p => (mvd (thresh bw4 bh4) mv p).isSome) := by
    rw [← hl, List.filter_map, List.map_map]
    have : (Prod.snd ∘ fun p => (mvd (thresh bw4 bh4) mv p, p)) = id := rfl
    rw [this, List.map_id]; rfl
  have hfg : (l.filter fun e => e.1.isSome) = l.filter good := rfl
  rw [hfg, ← hfl]
  by_cases h0 : (l.filter good).length = 0
  · rw [if_pos h0, List.length_eq_zero_iff.mp h0]
    exact ⟨_, rfl, by simp⟩
  · rw [if_neg h0]
    have hne : l.filter good ≠ [] := by intro h; rw [h] at h0; exact h0 rfl
    rw [if_neg (by simpa using hne)]
    have hlen : l.length = pts.length := by rw [← hl, List.length_map]
    have hpos : 0 < l.length := by
      have := List.length_filter_le good l; omega
    have hb : (l.filter (fun e => !good e)).length = pts.length - (l.filter good).length := by
      have : (l.filter good).length + (l.filter (fun e => !good e)).length = l.length := by
        rw [← List.length_eq_length_filter_add]
      omega
    obtain ⟨l', h1, h2⟩ := compact_spec (l.filter good) hne _ l 0 (pts.length - 1) (by intros; omega) (by omega)
      (by rw [List.take_of_length_le (by omega)]) hb
    exact ⟨_, by rw [h1]; rfl, h2.map _⟩

/-! ## The sums -/

open Spec (Block)

/-- Where a neighbour `c` of the block `b` is, in the coordinates of `pts`: relative to the block's position. -/
def ptOf (b c : Block) : Pt :=
  let x := Spec.sx b c + (2 * b.w - 1) * 8
  let y := Spec.sy b c + (2 * b.h - 1) * 8
  ⟨x, y, x + c.mv.x, y + c.mv.y⟩

/-- A neighbour that is near enough: its centre is within 126·2 pixels of the block's in either direction. -/
structure Near (b c : Block) : Prop where
  x : |2 * (c.x - b.x) + (c.w - b.w)| ≤ 126
  y : |2 * (c.y - b.y) + (c.h - b.h)| ≤ 126

theorem sx_eq (b c : Block) : Spec.sx b c = 16 * (2 * (c.x - b.x) + (c.w - b.w)) := by
  unfold Spec.sx Spec.Block.cx; ring
theorem sy_eq (b c : Block) : Spec.sy b c = 16 * (2 * (c.y - b.y) + (c.h - b.h)) := by
  unfold Spec.sy Spec.Block.cy; ring
theorem dx_eq (b c : Block) : Spec.dx b c = Spec.sx b c + (c.mv.x - b.mv.x) := by unfold Spec.dx Spec.sx; ring
theorem dy_eq (b c : Block) : Spec.dy b c = Spec.sy b c + (c.mv.y - b.mv.y) := by unfold Spec.dy Spec.sy; ring

theorem addTerm_eq {acc p q k : Int} (hp : |p| ≤ 2016) (hq : |q| ≤ 2272) (hk : 0 ≤ k ∧ k ≤ 8) (ha : |acc| ≤ 7 * 1200000) :
    addTerm acc p q k = some (acc + (Spec.lsProduct p q + k)) ∧ |Spec.lsProduct p q + k| ≤ 1200000 := by
  have h1 := abs_mul_le hp hq
  rw [abs_le] at *
  unfold addTerm Spec.lsProduct asr
  generalize p * q = m at *
  have hb : -1200000 ≤ m / 4 + (p + q) + k ∧ m / 4 + (p + q) + k ≤ 1200000 := by omega
  refine ⟨?_, hb⟩
  rw [i32_eq (by omega), Option.bind_some, i32_eq (by omega), Option.bind_some, show m / 2 ^ 2 + p + q + k = m / 4 + (p + q) + k by norm_num; ring,
    i32_eq (by omega)]

/-- The motion of `c` is near enough to take part. -/
def isUsed (b c : Block) : Bool := |c.mv.x - b.mv.x| < 256 ∧ |c.mv.y - b.mv.y| < 256

/-- Sums of at most `k` terms. -/
structure Acc.Small (k : Int) (A : Acc) : Prop where
  a00 : |A.a00| ≤ k * 1200000
  a01 : |A.a01| ≤ k * 1200000
  a11 : |A.a11| ≤ k * 1200000
  bx0 : |A.bx0| ≤ k * 1200000
  bx1 : |A.bx1| ≤ k * 1200000
  by0 : |A.by0| ≤ k * 1200000
  by1 : |A.by1| ≤ k * 1200000

/-- The sums after some more neighbours. -/
def Acc.add (A : Acc) (b : Block) (l : List Block) : Acc :=
  ⟨A.a00 + Spec.a00 b l, A.a01 + Spec.a01 b l, A.a11 + Spec.a11 b l, A.bx0 + Spec.bx0 b l, A.bx1 + Spec.bx1 b l,
    A.by0 + Spec.by0 b l, A.by1 + Spec.by1 b l⟩

theorem add_abs {a b k : Int} (ha : |a| ≤ k * 1200000) (hb : |b| ≤ 1200000) : |a + b| ≤ (k + 1) * 1200000 := by
  have := abs_add_le a b; linarith

theorem addSample_used (b c : Block) (hn : Near b c) (hu : isUsed b c = true) (A : Acc) (k : Int) (hk : k ≤ 7) (hA : A.Small k) :
    addSample ((2 * b.w - 1) * 8 + b.mv.x) ((2 * b.h - 1) * 8 + b.mv.y) ((2 * b.w - 1) * 8) ((2 * b.h - 1) * 8) A (ptOf b c) =
      some (A.add b [c]) ∧ (A.add b [c]).Small (k + 1) := by
  obtain ⟨hx, hy⟩ := hn
  unfold isUsed at hu
  have hu' := of_decide_eq_true hu
  obtain ⟨ux, uy⟩ := hu'
  have e1 : (ptOf b c).outx - ((2 * b.w - 1) * 8 + b.mv.x) = Spec.dx b c := by rw [dx_eq]; unfold ptOf; dsimp only; ring
  have e2 : (ptOf b c).outy - ((2 * b.h - 1) * 8 + b.mv.y) = Spec.dy b c := by rw [dy_eq]; unfold ptOf; dsimp only; ring
  have e3 : (ptOf b c).inx - ((2 * b.w - 1) * 8) = Spec.sx b c := by unfold ptOf; dsimp only; ring
  have e4 : (ptOf b c).iny - ((2 * b.h - 1) * 8) = Spec.sy b c := by unfold ptOf; dsimp only; ring
  unfold addSample
  dsimp only
  rw [e1, e2, e3, e4]
  have hsx := sx_eq b c
  have hsy := sy_eq b c
  have hdx := dx_eq b c
  have hdy := dy_eq b c
  have bsx : |Spec.sx b c| ≤ 2016 := by rw [abs_le] at *; omega
  have bsy : |Spec.sy b c| ≤ 2016 := by rw [abs_le] at *; omega
  have bdx : |Spec.dx b c| ≤ 2272 := by rw [abs_le] at *; rw [abs_lt] at *; omega
  have bdy : |Spec.dy b c| ≤ 2272 := by rw [abs_le] at *; rw [abs_lt] at *; omega
  have bsx' : |Spec.sx b c| ≤ 2272 := by omega
  have bsy' : |Spec.sy b c| ≤ 2272 := by omega
  rw [if_pos (by rw [abs_eq, abs_eq, hdx, hdy, abs_lt, abs_lt]; rw [abs_lt] at ux uy; omega)]
  have t00 := addTerm_eq (k := 8) bsx bsx' (by norm_num) (le_trans hA.a00 (by omega))
  have t01 := addTerm_eq (k := 4) bsx bsy' (by norm_num) (le_trans hA.a01 (by omega))
  have t11 := addTerm_eq (k := 8) bsy bsy' (by norm_num) (le_trans hA.a11 (by omega))
  have tx0 := addTerm_eq (k := 8) bsx bdx (by norm_num) (le_trans hA.bx0 (by omega))
  have tx1 := addTerm_eq (k := 4) bsy bdx (by norm_num) (le_trans hA.bx1 (by omega))
  have ty0 := addTerm_eq (k := 4) bsx bdy (by norm_num) (le_trans hA.by0 (by omega))
  have ty1 := addTerm_eq (k := 8) bsy bdy (by norm_num) (le_trans hA.by1 (by omega))
  rw [t00.1, Option.bind_some, t01.1, Option.bind_some, t11.1, Option.bind_some, tx0.1, Option.bind_some, tx1.1, Option.bind_some,
    ty0.1, Option.bind_some, ty1.1, Option.bind_some]
  have hone : A.add b [c] = ⟨A.a00 + (Spec.lsProduct (Spec.sx b c) (Spec.sx b c) + 8), A.a01 + (Spec.lsProduct (Spec.sx b c) (Spec.sy b c) + 4),
      A.a11 + (Spec.lsProduct (Spec.sy b c) (Spec.sy b c) + 8), A.bx0 + (Spec.lsProduct (Spec.sx b c) (Spec.dx b c) + 8),
      A.bx1 + (Spec.lsProduct (Spec.sy b c) (Spec.dx b c) + 4), A.by0 + (Spec.lsProduct (Spec.sx b c) (Spec.dy b c) + 4),
      A.by1 + (Spec.lsProduct (Spec.sy b c) (Spec.dy b c) + 8)⟩ := by
    simp [Acc.add, Spec.a00, Spec.a01, Spec.a11, Spec.bx0, Spec.bx1, Spec.by0, Spec.by1, Spec.sum]
  rw [hone]
  exact ⟨rfl, ⟨add_abs hA.a00 t00.2, add_abs hA.a01 t01.2, add_abs hA.a11 t11.2, add_abs hA.bx0 tx0.2, add_abs hA.bx1 tx1.2,
    add_abs hA.by0 ty0.2, add_abs hA.by1 ty1.2⟩⟩

theorem addSample_unused (b c : Block) (hu : isUsed b c = false) (A : Acc) :
    addSample ((2 * b.w - 1) * 8 + b.mv.x) ((2 * b.h - 1) * 8 + b.mv.y) ((2 * b.w - 1) * 8) ((2 * b.h - 1) * 8) A (ptOf b c) = some A := by
  unfold isUsed at hu
  have hu' := of_decide_eq_false hu
  have e1 : (ptOf b c).outx - ((2 * b.w - 1) * 8 + b.mv.x) = Spec.dx b c := by rw [dx_eq]; unfold ptOf; dsimp only; ring
  have e2 : (ptOf b c).outy - ((2 * b.h - 1) * 8 + b.mv.y) = Spec.dy b c := by rw [dy_eq]; unfold ptOf; dsimp only; ring
  have e3 : (ptOf b c).inx - ((2 * b.w - 1) * 8) = Spec.sx b c := by unfold ptOf; dsimp only; ring
  have e4 : (ptOf b c).iny - ((2 * b.h - 1) * 8) = Spec.sy b c := by unfold ptOf; dsimp only; ring
  unfold addSample
  dsimp only
  rw [e1, e2, e3, e4, if_neg]
  rw [abs_eq, abs_eq, dx_eq, dy_eq]
  intro h
  apply hu'
  rw [abs_lt] at *
  rw [abs_lt] at *
  omega

theorem Acc.Small.mono {k m : Int} {A : Acc} (h : A.Small k) (hkm : k ≤ m) : A.Small m :=
  ⟨by have := h.a00; linarith, by have := h.a01; linarith, by have := h.a11; linarith, by have := h.bx0; linarith,
    by have := h.bx1; linarith, by have := h.by0; linarith, by have := h.by1; linarith⟩

theorem add_cons (A : Acc) (b c : Block) (l : List Block) : (A.add b [c]).add b l = A.add b (c :: l) := by
  simp [Acc.add, Spec.a00, Spec.a01, Spec.a11, Spec.bx0, Spec.bx1, Spec.by0, Spec.by1, Spec.sum]
  refine ⟨?_, ?_, ?_, ?_, ?_, ?_, ?_⟩ <;> ring

theorem add_nil (A : Acc) (b : Block) : A.add b [] = A := by
  simp [Acc.add, Spec.a00, Spec.a01, Spec.a11, Spec.bx0, Spec.bx1, Spec.by0, Spec.by1, Spec.sum]

theorem fold_eq (b : Block) : ∀ (l : List Block), (∀ c ∈ l, Near b c) → ∀ (A : Acc) (k : Int), 0 ≤ k → k + l.length ≤ 8 → A.Small k →
    (l.map (ptOf b)).foldlM (addSample ((2 * b.w - 1) * 8 + b.mv.x) ((2 * b.h - 1) * 8 + b.mv.y) ((2 * b.w - 1) * 8) ((2 * b.h - 1) * 8)) A =
      some (A.add b (l.filter (isUsed b))) ∧ (A.add b (l.filter (isUsed b))).Small 8
  | [], _, A, k, h0, hk, hA => by
    rw [List.filter_nil, add_nil]
    exact ⟨rfl, hA.mono (by simpa using hk)⟩
  | c :: l, hl, A, k, h0, hk, hA => by
    simp only [List.length_cons] at hk
    push_cast at hk
    rw [List.map_cons, List.foldlM_cons]
    by_cases hu : isUsed b c = true
    · obtain ⟨h1, h2⟩ := addSample_used b c (hl c (by simp)) hu A k (by omega) hA
      obtain ⟨h3, h4⟩ := fold_eq b l (fun c' hc' => hl c' (by simp [hc'])) (A.add b [c]) (k + 1) (by omega) (by omega) h2
      rw [List.filter_cons, if_pos hu, ← add_cons]
      rw [h1]
      exact ⟨h3, h4⟩
    · have hu' : isUsed b c = false := by simpa using hu
      rw [addSample_unused b c hu' A, List.filter_cons, if_neg hu]
      exact fold_eq b l (fun c' hc' => hl c' (by simp [hc'])) A k h0 (by omega) hA

end Dav1d.Warp
