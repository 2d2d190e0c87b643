import Verif.Syn.LrsLines
import Verif.Syn.LrsSpec
import Verif.Syn.LrsShift
import Verif.Syn.LruRead
import Verif.Dsp.LrProps
/-!
# The stripes of a unit
-/
set_option linter.unusedVariables false
set_option linter.unusedSimpArgs false
namespace Dav1d.Lrs
open Dav1d.Syn.Lru (Cfg RUnit Ptr CfgOk)
open Dav1d.Lr (Args Buf Junk)

/-- The filter of a unit as specified. -/
def gFn (d : Depth) (u : RUnit) (src : Plane) (y x : Int) : Int :=
  if u.type = 2 then Lr.Spec.wiener d.bpc (fun k => [u.h0, u.h1, u.h2].getD k 0) (fun k => [u.v0, u.v1, u.v2].getD k 0) src y x
  else Lr.Spec.selfGuided d.bpc (u.type - 3) u.w0 u.w1 src y x

theorem lrFn_spec {d : Depth} {u : RUnit} {a : Args} {j : Buf × Junk} (hu : u.type = 2 ∨ 3 ≤ u.type ∧ u.type < 19) (hw : 0 < a.w) (hh : 0 < a.h)
    (hb : a.e.bottom = true → a.h % 2 = 0 ∧ 6 ≤ a.h) (hs : Lr.SrcOk d a) (y x : Int) :
    (Lr.Inside a y x → lrFn d u a j y x = gFn d u (Lr.Spec.source a) y x) ∧ (¬Lr.Inside a y x → lrFn d u a j y x = a.dst y x) := by
  unfold lrFn gFn
  by_cases h : u.type = 2
  · rw [if_pos h, if_pos h]
    exact Lr.C60_wiener d _ _ a j.1 hw hh y x
  · rw [if_neg h, if_neg h]
    exact Lr.C60_sgr d a (u.type - 3) u.w0 u.w1 j.2 (by omega) hw hh hb hs y x

theorem gFn_shift {d : Depth} {u : RUnit} {s t : Plane} {a b y x : Int} (hu : u.type = 2 ∨ 3 ≤ u.type ∧ u.type < 19) (ha : a % 2 = 0)
    (h : ∀ j i, x - 3 ≤ i → i ≤ x + 3 → s j i = t (j + a) (i + b)) : gFn d u s y x = gFn d u t (y + a) (x + b) := by
  unfold gFn
  by_cases hh : u.type = 2
  · rw [if_pos hh, if_pos hh]; exact wiener_shift h
  · rw [if_neg hh, if_neg hh]; exact selfGuided_shift (by omega) ha h

variable {E : Syn.Lru.Av1.Env} {p : Nat} {C D : Plane} {c : Call} {W H y sh : Nat} {lpf st en : Int} {top : Bool} {left : Nat → Nat → Int} {fr : Plane}

/-- What a filter is given is what the specification names. -/
theorem source_eq (hW : Av1.PlaneEndX E p = (W : Int) - 1) (hH : Av1.PlaneEndY E p = (H : Int) - 1) (hw : 0 < c.w) (hs : 0 < sh) (hx : c.x + c.w ≤ W) (hyH : y + sh ≤ H)
    (hL : if c.hasL then 4 ≤ c.x else c.x = 0) (hR : if c.hasR then c.x + c.w + 3 ≤ W else c.x + c.w = W)
    (hT : if top then (y : Int) = st ∧ 2 ≤ y else y = 0) (hst : st ≤ y) (hen : (y + sh : Int) - 1 ≤ en)
    (hB : if (c.args y sh lpf top left fr).e.bottom then (y + sh : Int) - 1 = en ∧ y + sh < H else y + sh = H)
    (hf : ∀ Y X : Int, y ≤ Y → Y < y + sh → c.x ≤ X → X < c.x + c.w + 3 → X < W → fr Y X = C Y X)
    (hl : c.hasL = true → ∀ j k : Nat, j < sh → 1 ≤ k → k < 4 → left j k = C (y + j) ((c.x : Int) - 4 + k))
    (ht : top = true → ∀ r : Nat, r < 2 → c.lines (lpf + r) = D ((y : Int) - 2 + r))
    (hb : (c.args y sh lpf top left fr).e.bottom = true → ∀ r : Nat, r < 2 → c.lines (lpf + 6 + r) = D (min (y + sh + r) ((H : Int) - 1)))
    (j i : Int) (hi : -3 ≤ i) (hi2 : i < c.w + 3) :
    Lr.Spec.source (c.args y sh lpf top left fr) j i = Av1.get_source_sample E p C D st en (y + j) (c.x + i) := by
  generalize hbo : (c.args y sh lpf top left fr).e.bottom = bot at hB hb
  obtain ⟨i', e1⟩ : ∃ i', i' = if i < 0 ∧ ¬c.hasL = true then 0 else if (c.w : Int) ≤ i ∧ ¬c.hasR = true then (c.w : Int) - 1 else i := ⟨_, rfl⟩
  have e2 : max 0 (min ((W : Int) - 1) (c.x + i)) = c.x + i' ∧ (i' < 0 → c.hasL = true ∧ -3 ≤ i') ∧ i' < c.w + 3 ∧ c.x + i' < (W : Int) := by
    cases h1 : c.hasL <;> cases h2 : c.hasR <;> rw [h1] at hL e1 <;> rw [h2] at hR e1 <;> simp only [Bool.false_eq_true, if_false, if_true, reduceIte, not_true, not_false_eq_true, and_true, and_false] at hL hR e1 <;>
      (refine ⟨?_, ?_, ?_, ?_⟩ <;> (try simp only [Bool.false_eq_true, false_and, true_and]) <;> (try split at e1) <;> (try split at e1) <;> omega)
  unfold Lr.Spec.source Av1.get_source_sample
  rw [hW, hH]
  simp only [hbo]
  rw [e2.1]
  show (if j < 0 ∧ top = true then c.lines (lpf + (if j = -1 then 1 else 0)) (c.x + (if i < 0 ∧ ¬c.hasL = true then 0 else if (c.w : Int) ≤ i ∧ ¬c.hasR = true then (c.w : Int) - 1 else i)) else
    if (sh : Int) ≤ j ∧ bot = true then c.lines (lpf + (if j = (sh : Int) then 6 else 7)) (c.x + (if i < 0 ∧ ¬c.hasL = true then 0 else if (c.w : Int) ≤ i ∧ ¬c.hasR = true then (c.w : Int) - 1 else i)) else
    if (if i < 0 ∧ ¬c.hasL = true then 0 else if (c.w : Int) ≤ i ∧ ¬c.hasR = true then (c.w : Int) - 1 else i) < 0 then
      left (if j < 0 then 0 else if (sh : Int) ≤ j then (sh : Int) - 1 else j).toNat ((if i < 0 ∧ ¬c.hasL = true then 0 else if (c.w : Int) ≤ i ∧ ¬c.hasR = true then (c.w : Int) - 1 else i) + 4).toNat
    else fr (y + (if j < 0 then 0 else if (sh : Int) ≤ j then (sh : Int) - 1 else j)) (c.x + (if i < 0 ∧ ¬c.hasL = true then 0 else if (c.w : Int) ≤ i ∧ ¬c.hasR = true then (c.w : Int) - 1 else i))) = _
  rw [← e1]
  obtain ⟨-, e3, e4, e5⟩ := e2
  by_cases c1 : j < 0 ∧ top = true
  · rw [if_pos c1]
    obtain ⟨c1, c2⟩ := c1
    rw [c2] at hT
    simp only [if_true] at hT
    by_cases c3 : j = -1
    · rw [if_pos c3, if_pos (by omega)]
      have := ht c2 1 (by decide)
      rw [show lpf + ((1 : Nat) : Int) = lpf + 1 from rfl] at this
      rw [this]
      congr 1; omega
    · rw [if_neg c3, if_pos (by omega)]
      have := ht c2 0 (by decide)
      rw [show lpf + ((0 : Nat) : Int) = lpf + 0 from rfl] at this
      rw [this]
      congr 1; omega
  rw [if_neg c1]
  by_cases c2 : (sh : Int) ≤ j ∧ bot = true
  · rw [if_pos c2]
    obtain ⟨c2, c3⟩ := c2
    rw [c3] at hB
    simp only [if_true] at hB
    by_cases c4 : j = sh
    · rw [if_pos c4, if_neg (by omega), if_pos (by omega)]
      have := hb c3 0 (by decide)
      rw [show lpf + 6 + ((0 : Nat) : Int) = lpf + 6 by omega] at this
      rw [this]
      congr 1; omega
    · rw [if_neg c4, if_neg (by omega), if_pos (by omega)]
      have := hb c3 1 (by decide)
      rw [show lpf + 6 + ((1 : Nat) : Int) = lpf + 7 by omega] at this
      rw [this]
      congr 1; omega
  rw [if_neg c2]
  obtain ⟨j', e6⟩ : ∃ j', j' = if j < 0 then 0 else if (sh : Int) ≤ j then (sh : Int) - 1 else j := ⟨_, rfl⟩
  rw [← e6]
  have e7 : 0 ≤ j' ∧ j' < sh ∧ max 0 (min ((H : Int) - 1) (y + j)) = y + j' := by
    cases h1 : top <;> cases h2 : bot <;> rw [h1] at hT c1 <;> rw [h2] at hB c2 <;> simp only [Bool.false_eq_true, if_false, if_true, reduceIte, and_true, and_false, not_false_eq_true] at hT hB c1 c2 <;>
      (split at e6 <;> (try split at e6) <;> omega)
  rw [e7.2.2]
  by_cases c3 : i' < 0
  · rw [if_pos c3, if_neg (by omega), if_neg (by omega), hl (e3 c3).1 _ _ (by omega) (by have := (e3 c3).2; omega) (by omega)]
    have := (e3 c3).2
    congr 1 <;> omega
  · rw [if_neg c3, if_neg (by omega), if_neg (by omega), hf _ _ (by omega) (by omega) (by omega) (by omega) (by omega)]

theorem get_range {m : Int} (hW : Av1.PlaneEndX E p = (W : Int) - 1) (hH : Av1.PlaneEndY E p = (H : Int) - 1) (hW0 : 0 < W) (hH0 : 0 < H)
    (hC : ∀ Y X : Int, 0 ≤ Y → Y < H → 0 ≤ X → X < W → 0 ≤ C Y X ∧ C Y X ≤ m) (hD : ∀ Y X : Int, 0 ≤ Y → Y < H → 0 ≤ X → X < W → 0 ≤ D Y X ∧ D Y X ≤ m)
    (hst : st ≤ H) (hen : 0 ≤ en) (Y X : Int) : 0 ≤ Av1.get_source_sample E p C D st en Y X ∧ Av1.get_source_sample E p C D st en Y X ≤ m := by
  unfold Av1.get_source_sample
  rw [hW, hH]
  simp only
  split
  · exact hD _ _ (by omega) (by omega) (by omega) (by omega)
  · split
    · exact hD _ _ (by omega) (by omega) (by omega) (by omega)
    · exact hC _ _ (by omega) (by omega) (by omega) (by omega)

theorem stripe_arith {S O N K K0 rowH H y sh : Nat} {last : Bool} (hS : S = 64 ∧ O = 8 ∨ S = 32 ∧ O = 4) (hN : N = 1 ∨ N = 2) (hy : y = K * S - O) (hK : K0 ≤ K)
    (hsh : sh = min ((K + 1) * S - O - y) (rowH - y)) (hlt : y < rowH) (hl : last = false ∧ rowH = (K0 + N) * S - O ∧ rowH < H ∨ last = true ∧ rowH = H ∧ H ≤ (K0 + N) * S) :
    0 < sh ∧ y + sh ≤ rowH ∧ rowH ≤ H ∧ K ≤ K0 + N ∧ y % 2 = 0 ∧
    ((last = false ∨ y + sh ≠ rowH) → y + sh = (K + 1) * S - O ∧ y + sh < H ∧ sh % 2 = 0 ∧ 6 ≤ sh ∧ K < K0 + N) ∧ (¬(last = false ∨ y + sh ≠ rowH) → y + sh = H) ∧
    (0 < y → 1 ≤ K ∧ (y : Int) = K * S - O ∧ 2 ≤ y) ∧ (K : Int) * S - O ≤ y ∧ y + sh ≤ (K + 1) * S - O ∧ (y + sh < rowH → y + sh = (K + 1) * S - O) := by
  rcases hS with ⟨rfl, rfl⟩ | ⟨rfl, rfl⟩ <;> rcases hN with rfl | rfl <;> rcases hl with ⟨rfl, h1, h2⟩ | ⟨rfl, h1, h2⟩ <;>
    simp only [true_or, forall_const, not_true, false_implies, true_and, Bool.true_eq_false, false_or, reduceCtorEq] <;> omega

theorem stripe_num {f : Cfg} (hs : E.subY p = f.ssV p) {K y sh Y : Nat} (hy : y = K * S f p - O f p) (h1 : y + sh ≤ (K + 1) * S f p - O f p) (h2 : y ≤ Y) (h3 : Y < y + sh) :
    Av1.StripeStartY E p Y = (K : Int) * S f p - O f p ∧ Av1.StripeEndY E p Y = ((K + 1) * S f p - O f p : Nat) - 1 := by
  have e : Av1.StripeNum E p Y = K := by
    unfold Av1.StripeNum
    rw [hs]
    unfold S O at hy h1
    rcases ss_cases f p with h | h <;> rw [h] at hy h1 ⊢ <;> simp only [Nat.reducePow, Nat.reduceDiv] at hy h1 ⊢ <;> omega
  unfold Av1.StripeEndY Av1.StripeStartY
  rw [e, hs]
  unfold S O at hy h1 ⊢
  rcases ss_cases f p with h | h <;> rw [h] at hy h1 ⊢ <;> simp only [Nat.reducePow, Nat.reduceDiv, pow_zero, pow_one] at hy h1 ⊢ <;> omega

/-- The loop of lr_stripe. -/
theorem stripes {f : Cfg} {tt : Bool} {sby : Nat} (hsub : E.subY p = f.ssV p) (hW : Av1.PlaneEndX E p = (W : Int) - 1) (hHp : planeH f p = H) (hH : Av1.PlaneEndY E p = (H : Int) - 1)
    (hu : c.u.type = 2 ∨ 3 ≤ c.u.type ∧ c.u.type < 19) (hss : c.ss = f.ssV p) (hw : 0 < c.w) (hx : c.x + c.w ≤ W)
    (hL : if c.hasL then 4 ≤ c.x else c.x = 0) (hR : if c.hasR then c.x + c.w + 3 ≤ W else c.x + c.w = W)
    (hC : ∀ Y X : Int, 0 ≤ Y → Y < H → 0 ≤ X → X < W → 0 ≤ C Y X ∧ C Y X ≤ c.d.max) (hD : ∀ Y X : Int, 0 ≤ Y → Y < H → 0 ≤ X → X < W → 0 ≤ D Y X ∧ D Y X ≤ c.d.max)
    (hG : Good f p tt D sby c.lines)
    (hl : c.last = false ∧ c.rowH = (sby * N f + N f) * S f p - O f p ∧ c.rowH < H ∨ c.last = true ∧ c.rowH = H ∧ H ≤ (sby * N f + N f) * S f p) :
    ∀ (n K y sh : Nat) (lpf : Int) (top : Bool) (left : Nat → Nat → Int) (fr : Plane), sby * N f ≤ K → y = K * S f p - O f p → sh = min ((K + 1) * S f p - O f p - y) (c.rowH - y) → y < c.rowH →
      c.rowH < y + n → lpf = line0 f tt sby + 4 * (K - sby * N f : Nat) → top = decide (0 < y) →
      (∀ Y X : Int, y ≤ Y → Y < c.rowH → c.x ≤ X → X < c.x + c.w + 3 → X < W → fr Y X = C Y X) →
      (c.hasL = true → ∀ j k : Nat, y + j < c.rowH → 1 ≤ k → k < 4 → left j k = C (y + j) ((c.x : Int) - 4 + k)) →
      ∀ Y X : Int,
        ((y ≤ Y ∧ Y < c.rowH ∧ c.x ≤ X ∧ X < c.x + c.w) → stripeLoop c n y sh lpf top left fr Y X =
          gFn c.d c.u (Av1.get_source_sample E p C D (Av1.StripeStartY E p Y.toNat) (Av1.StripeEndY E p Y.toNat)) Y X) ∧
        (¬(y ≤ Y ∧ Y < c.rowH ∧ c.x ≤ X ∧ X < c.x + c.w) → stripeLoop c n y sh lpf top left fr Y X = fr Y X) := by
  intro n
  induction n with
  | zero => intros; omega
  | succ n ih =>
    intro K y sh lpf top left fr hK hy hsh hlt hn hlpf htop hf hleft Y X
    obtain ⟨a1, a2, a3, a4, a5, a6, a7, a8, a9, a10, a11⟩ := stripe_arith (num f p).1 (num f p).2.1 hy hK hsh hlt hl
    have hbot : (c.args y sh lpf top left fr).e.bottom = decide (c.last = false ∨ y + sh ≠ c.rowH) := rfl
    have en0 : (((K + 1) * S f p - O f p : Nat) : Int) = ((K + 1) * S f p - O f p : Nat) := rfl
    have src := source_eq (E := E) (p := p) (C := C) (D := D) (c := c) (W := W) (H := H) (y := y) (sh := sh) (lpf := lpf) (top := top) (left := left) (fr := fr)
      (st := (K : Int) * S f p - O f p) (en := (((K + 1) * S f p - O f p : Nat) : Int) - 1) hW hH hw a1 hx (by omega) hL hR
      (by
        rw [htop]
        by_cases h : 0 < y
        · simp only [h, decide_true, if_true]; exact ⟨(a8 h).2.1, (a8 h).2.2⟩
        · simp only [h, decide_false, Bool.false_eq_true, if_false]; omega)
      a9 (by omega)
      (by
        rw [hbot]
        by_cases h : c.last = false ∨ y + sh ≠ c.rowH
        · rw [decide_eq_true h, if_pos rfl]; have := a6 h; omega
        · rw [decide_eq_false h, if_neg (by decide)]; exact a7 h)
      (fun Y X h1 h2 h3 h4 h5 => hf Y X h1 (by omega) h3 h4 h5)
      (fun h j k h1 h2 h3 => hleft h j k (by omega) h2 h3)
      (by
        intro h r hr
        rw [htop] at h
        have h := a8 (of_decide_eq_true h)
        have e : stop f p (sby * N f + (K - sby * N f) - 1) = y := by
          unfold stop
          rw [show sby * N f + (K - sby * N f) - 1 + 1 = K by omega, hy]
        have := hG (K - sby * N f) r (by omega) (by omega) (by omega) (by rw [e, hHp]; omega)
        rw [e, hHp] at this
        rw [hlpf, this]
        congr 1; omega)
      (by
        intro h r hr
        rw [hbot] at h
        have h := a6 (of_decide_eq_true h)
        have e : stop f p (sby * N f + (K - sby * N f + 1) - 1) = y + sh := by
          unfold stop
          rw [show sby * N f + (K - sby * N f + 1) - 1 + 1 = K + 1 by omega, h.1]
        have := hG (K - sby * N f + 1) (r + 2) (by omega) (by omega) (by omega) (by rw [e, hHp]; omega)
        rw [e, hHp] at this
        rw [hlpf, show line0 f tt sby + 4 * ((K - sby * N f : Nat) : Int) + 6 + (r : Int) = line0 f tt sby + 4 * ((K - sby * N f + 1 : Nat) : Int) + ((r + 2 : Nat) : Int) by omega, this]
        congr 1; omega)
    have ok : Lr.SrcOk c.d (c.args y sh lpf top left fr) := by
      intro j i _ _ h1 h2
      have h2 : i ≤ (c.w : Int) + 2 := h2
      rw [src j i h1 (by omega)]
      exact get_range hW hH (by omega) (by omega) hC hD (by omega) (by omega) _ _
    have blk := lrFn_spec (j := c.junk) hu (a := c.args y sh lpf top left fr) hw a1 (fun h => by
      rw [hbot] at h
      have := a6 (of_decide_eq_true h)
      exact ⟨this.2.2.1, this.2.2.2.1⟩) ok
    unfold stripeLoop
    rw [if_pos a2]
    generalize hfr : (fun Y X : Int => lrFn c.d c.u (c.args y sh lpf top left fr) c.junk (Y - y) (X - c.x)) = fr'
    have b1 : ∀ Y X : Int, (y ≤ Y ∧ Y < y + sh ∧ c.x ≤ X ∧ X < c.x + c.w) → fr' Y X =
        gFn c.d c.u (Av1.get_source_sample E p C D (Av1.StripeStartY E p Y.toNat) (Av1.StripeEndY E p Y.toNat)) Y X := by
      intro Y X h
      have i1 : Lr.Inside (c.args y sh lpf top left fr) (Y - y) (X - c.x) := by
        show 0 ≤ Y - (y : Int) ∧ Y - (y : Int) < (sh : Int) ∧ 0 ≤ X - (c.x : Int) ∧ X - (c.x : Int) < (c.w : Int)
        omega
      rw [← hfr]
      show lrFn c.d c.u (c.args y sh lpf top left fr) c.junk (Y - y) (X - c.x) = _
      rw [(blk _ _).1 i1]
      obtain ⟨s1, s2⟩ := stripe_num (E := E) hsub hy a10 (Y := Y.toNat) (by omega) (by omega)
      rw [s1, s2]
      have := gFn_shift (d := c.d) (u := c.u) (s := Lr.Spec.source (c.args y sh lpf top left fr))
        (t := Av1.get_source_sample E p C D ((K : Int) * S f p - O f p) ((((K + 1) * S f p - O f p : Nat) : Int) - 1)) (a := y) (b := c.x) (y := Y - y) (x := X - c.x) hu (by omega)
        (fun j i h1 h2 => by rw [src j i (by omega) (by omega), Int.add_comm j, Int.add_comm i])
      rw [this]
      congr 1 <;> omega
    have b2 : ∀ Y X : Int, ¬(y ≤ Y ∧ Y < y + sh ∧ c.x ≤ X ∧ X < c.x + c.w) → fr' Y X = fr Y X := by
      intro Y X h
      have i1 : ¬Lr.Inside (c.args y sh lpf top left fr) (Y - y) (X - c.x) := by
        show ¬(0 ≤ Y - (y : Int) ∧ Y - (y : Int) < (sh : Int) ∧ 0 ≤ X - (c.x : Int) ∧ X - (c.x : Int) < (c.w : Int))
        omega
      rw [← hfr]
      show lrFn c.d c.u (c.args y sh lpf top left fr) c.junk (Y - y) (X - c.x) = _
      rw [(blk _ _).2 i1]
      show fr (y + (Y - y)) (c.x + (X - c.x)) = _
      congr 1 <;> omega
    have hS : 64 / 2 ^ c.ss = S f p := by rw [hss]; rfl
    simp only [hS]
    by_cases hend : min (S f p) (c.rowH - (y + sh)) = 0
    · rw [if_pos hend]
      have hSp : 0 < S f p := S_pos f p
      have : c.rowH = y + sh := by omega
      constructor
      · intro h; exact b1 Y X (by omega)
      · intro h; exact b2 Y X (by omega)
    · rw [if_neg hend]
      have hn' : y + sh < c.rowH := by omega
      have he := a11 hn'
      have hO : O f p ≤ S f p := by rcases (num f p).1 with h | h <;> omega
      have := ih (K + 1) (y + sh) (min (S f p) (c.rowH - (y + sh))) (lpf + 4) true (fun j => left (sh + j)) fr' (by omega) he
        (by
          rw [he, show (K + 1 + 1) * S f p - O f p - ((K + 1) * S f p - O f p) = S f p by
            rw [Nat.add_mul (K + 1), Nat.one_mul]
            have : S f p ≤ (K + 1) * S f p := Nat.le_mul_of_pos_left _ (by omega)
            omega])
        hn' (by omega) (by rw [hlpf]; omega) (by rw [decide_eq_true]; omega)
        (fun Y X h1 h2 h3 h4 h5 => by rw [b2 Y X (by omega)]; exact hf Y X (by omega) h2 h3 h4 h5)
        (fun h j k h1 h2 h3 => by
          rw [hleft h (sh + j) k (by omega) h2 h3]
          congr 1; omega) Y X
      constructor
      · intro h
        by_cases h2 : Y < y + sh
        · rw [this.2 (by omega)]
          exact b1 Y X (by omega)
        · exact this.1 (by omega)
      · intro h
        rw [this.2 (by omega)]
        exact b2 Y X (by omega)

end Dav1d.Lrs
