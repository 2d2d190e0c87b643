import Verif.Coef.Scan
/-!
# Contexts from the buffer of levels
-/
namespace Dav1d.Coef
open Itx (Tx TxClass)

/-- A level as it is stored in the buffer. -/
def enc (t : Nat) : Nat := 64 * min 3 t + t

/-- Levels by `x` and `y`. -/
def qx (cls : TxClass) (q : Nat → Nat → Nat) (x y : Nat) : Nat :=
  match cls with
  | .h => q x y
  | _ => q y x

/-- Number of values of `x`. -/
def xs (b : Arg) (cls : TxClass) : Nat :=
  match cls with
  | .h => b.spec.H
  | _ => b.spec.W

/-- Number of values of `y`. -/
def ys (b : Arg) (cls : TxClass) : Nat :=
  match cls with
  | .h => b.spec.W
  | _ => b.spec.H

/-- The buffer of levels holds `q`. -/
def LevInv (b : Arg) (cls : TxClass) (q : Nat → Nat → Nat) (L : Lev) : Prop :=
  ∀ j, j < (clsOf b cls).stride * (xs b cls + 2) →
    L j = some (enc (qx cls q (j / (clsOf b cls).stride) (j % (clsOf b cls).stride)))

/-- The levels read before position `p`: inside the block, not before `p` in the scan, at most 15. -/
structure QOk (b : Arg) (cls : TxClass) (q : Nat → Nat → Nat) (p : Nat × Nat) : Prop where
  inside : ∀ r c, q r c ≠ 0 → r < b.spec.H ∧ c < b.spec.W
  key : ∀ r c, q r c ≠ 0 → key cls p ≤ key cls (r, c)
  le : ∀ r c, q r c ≤ 15

/-- Sizes for which a class is used. -/
def SizeOk (b : Arg) (cls : TxClass) : Prop := cls ≠ .d2 → b.spec.W ≤ 16 ∧ b.spec.H ≤ 16

theorem hw4 (b : Arg) : 4 ≤ b.spec.H ∧ b.spec.H ≤ 32 ∧ 4 ≤ b.spec.W ∧ b.spec.W ≤ 32 := by
  have : ∀ tx : Tx, 4 ≤ min 32 tx.h ∧ min 32 tx.h ≤ 32 ∧ 4 ≤ min 32 tx.w ∧ min 32 tx.w ≤ 32 := by
    intro tx; cases tx <;> decide
  exact this b.tx

theorem stride_eq (b : Arg) (cls : TxClass) : (clsOf b cls).stride = if cls = .d2 then b.spec.H else 16 := by
  obtain ⟨pH, pW, sH, sW⟩ := hw_pow b
  cases cls
  · show 4 <<< slh b = _; rw [sH, ← pH]; rfl
  · rfl
  · rfl

theorem cls_eq (b : Arg) (cls : TxClass) : (clsOf b cls).cls = cls := by cases cls <;> rfl

theorem clear_eq (b : Arg) (cls : TxClass) : (clsOf b cls).clear = (clsOf b cls).stride * (xs b cls + 2) := by
  obtain ⟨pH, pW, sH, sW⟩ := hw_pow b
  cases cls <;> simp only [clsOf, xs, sH, sW, pH, pW]

theorem ys_le_stride {b : Arg} {cls : TxClass} (hs : SizeOk b cls) : ys b cls ≤ (clsOf b cls).stride ∧ 4 ≤ (clsOf b cls).stride := by
  have := hw4 b
  rw [stride_eq]
  cases cls
  · simp only [ys, if_true]; omega
  · have := hs (by decide); simp only [ys]; rw [if_neg (by decide)]; omega
  · have := hs (by decide); simp only [ys]; rw [if_neg (by decide)]; omega

theorem qx_inside {b : Arg} {cls : TxClass} {q : Nat → Nat → Nat} {p : Nat × Nat} (h : QOk b cls q p) {x y : Nat}
    (hq : qx cls q x y ≠ 0) : x < xs b cls ∧ y < ys b cls := by
  cases cls
  · have := h.inside _ _ hq; exact ⟨this.2, this.1⟩
  · exact h.inside _ _ hq
  · have := h.inside _ _ hq; exact ⟨this.2, this.1⟩

/-- A read next to `p`: behind the end of a line the buffer has zeros. -/
theorem lev_read {b : Arg} {cls : TxClass} {q : Nat → Nat → Nat} {p : Nat × Nat} {L : Lev} (hs : SizeOk b cls)
    (hq : QOk b cls q p) (hL : LevInv b cls q L) {x' y' : Nat}
    (hx : (xy cls p).1 < xs b cls) (hy : (xy cls p).2 < ys b cls)
    (hk : cls = .d2 ∧ x' + y' ≤ (xy cls p).1 + (xy cls p).2 + 2 ∨ cls ≠ .d2 ∧ y' ≤ (xy cls p).2 + 4)
    (hx1 : (xy cls p).1 ≤ x') (hx' : x' ≤ (xy cls p).1 + (if y' = (xy cls p).2 then 2 else 1)) (hy1 : (xy cls p).2 ≤ y') :
    L (x' * (clsOf b cls).stride + y') = some (enc (qx cls q x' y')) := by
  obtain ⟨h1, h2⟩ := ys_le_stride hs
  obtain ⟨h3, h4, h5, h6⟩ := hw4 b
  have hst := stride_eq b cls
  unfold LevInv at hL
  rw [Nat.mul_comm x']
  generalize (clsOf b cls).stride = st at *
  have hx2 : x' ≤ (xy cls p).1 + 2 := by split at hx' <;> omega
  rcases Nat.lt_or_ge y' st with hlt | hge
  · have e1 : (st * x' + y') / st = x' := by
      rw [Nat.mul_add_div (by omega), Nat.div_eq_of_lt hlt, Nat.add_zero]
    have e2 : (st * x' + y') % st = y' := by rw [Nat.mul_add_mod, Nat.mod_eq_of_lt hlt]
    have hb : st * x' + y' < st * (xs b cls + 2) := by
      have : st * (x' + 1) ≤ st * (xs b cls + 2) := Nat.mul_le_mul_left _ (by omega)
      rw [Nat.mul_add] at this; omega
    rw [hL _ hb, e1, e2]
  · -- the read continues at the beginning of the next line
    have hne : y' ≠ (xy cls p).2 := by omega
    rw [if_neg hne] at hx'
    have hlt : y' - st < st := by
      rcases hk with ⟨e, h⟩ | ⟨e, h⟩
      · have : y' ≤ (xy cls p).2 + 2 := by omega
        omega
      · rw [if_neg e] at hst
        omega
    have e : st * x' + y' = st * (x' + 1) + (y' - st) := by rw [Nat.mul_add]; omega
    have e1 : (st * (x' + 1) + (y' - st)) / st = x' + 1 := by
      rw [Nat.mul_add_div (by omega), Nat.div_eq_of_lt hlt, Nat.add_zero]
    have e2 : (st * (x' + 1) + (y' - st)) % st = y' - st := by rw [Nat.mul_add_mod, Nat.mod_eq_of_lt hlt]
    have hb : st * (x' + 1) + (y' - st) < st * (xs b cls + 2) := by
      have : st * (x' + 1 + 1) ≤ st * (xs b cls + 2) := Nat.mul_le_mul_left _ (by omega)
      rw [Nat.mul_add] at this; omega
    have z1 : qx cls q x' y' = 0 := by
      apply Decidable.byContradiction
      intro hn
      have := (qx_inside hq hn).2
      omega
    have z2 : qx cls q (x' + 1) (y' - st) = 0 := by
      apply Decidable.byContradiction
      intro hn
      cases cls
      · have := hq.key _ _ hn
        simp only [key, xy] at *
        rcases hk with ⟨_, h⟩ | ⟨e, _⟩
        · simp only [if_true] at hst; omega
        · exact absurd rfl e
      · have := hq.key _ _ hn
        simp only [key, xy] at *
        rcases hk with ⟨e, _⟩ | ⟨_, h⟩
        · exact absurd e (by decide)
        · simp only [reduceCtorEq, if_false] at hst; omega
      · have := hq.key _ _ hn
        simp only [key, xy] at *
        rcases hk with ⟨e, _⟩ | ⟨_, h⟩
        · exact absurd e (by decide)
        · simp only [reduceCtorEq, if_false] at hst; omega
    rw [e, hL _ hb, e1, e2, z1, z2]

theorem xy_inside {b : Arg} {cls : TxClass} {p : Nat × Nat} (hp : p.1 < b.spec.H ∧ p.2 < b.spec.W) :
    (xy cls p).1 < xs b cls ∧ (xy cls p).2 < ys b cls := by
  cases cls
  · exact ⟨hp.2, hp.1⟩
  · exact hp
  · exact ⟨hp.2, hp.1⟩

/-! ### Arithmetic of stored levels -/

theorem min3 (t : Nat) : min 3 t ≤ t ∧ (t ≤ 15 → t ≤ 5 * min 3 t) := by omega

theorem lo_arith' {S T : Nat} (h1 : S ≤ T) (h2 : T ≤ 5 * S) :
    (if 64 * S + T > 512 then 4 else (64 * S + T + 64) >>> 7) = min ((S + 1) / 2) 4 := by
  rw [Nat.shiftRight_eq_div_pow]; split <;> omega

theorem lo_arith {t1 t2 t3 t4 t5 : Nat} (h1 : t1 ≤ 15) (h2 : t2 ≤ 15) (h3 : t3 ≤ 15) (h4 : t4 ≤ 15) (h5 : t5 ≤ 15) :
    (if enc t1 + enc t2 + enc t3 + enc t4 + enc t5 > 512 then 4 else (enc t1 + enc t2 + enc t3 + enc t4 + enc t5 + 64) >>> 7) =
      min ((min 3 t1 + min 3 t2 + min 3 t3 + min 3 t4 + min 3 t5 + 1) / 2) 4 := by
  have e : enc t1 + enc t2 + enc t3 + enc t4 + enc t5 =
      64 * (min 3 t1 + min 3 t2 + min 3 t3 + min 3 t4 + min 3 t5) + (t1 + t2 + t3 + t4 + t5) := by
    simp only [enc, Nat.mul_add, Nat.add_assoc, Nat.add_comm, Nat.add_left_comm]
  have c1 := (min3 t1).1; have c2 := (min3 t2).1; have c3 := (min3 t3).1; have c4 := (min3 t4).1; have c5 := (min3 t5).1
  have b1 := (min3 t1).2 h1; have b2 := (min3 t2).2 h2; have b3 := (min3 t3).2 h3; have b4 := (min3 t4).2 h4
  have b5 := (min3 t5).2 h5
  rw [e]
  apply lo_arith'
  · exact Nat.add_le_add (Nat.add_le_add (Nat.add_le_add (Nat.add_le_add c1 c2) c3) c4) c5
  · simp only [Nat.mul_add]
    exact Nat.add_le_add (Nat.add_le_add (Nat.add_le_add (Nat.add_le_add b1 b2) b3) b4) b5

theorem hi_arith {t1 t2 t3 : Nat} (h1 : t1 ≤ 15) (h2 : t2 ≤ 15) (h3 : t3 ≤ 15) :
    (enc t1 + enc t2 + enc t3) &&& 63 = min 15 t1 + min 15 t2 + min 15 t3 := by
  rw [and63, Nat.min_eq_right h1, Nat.min_eq_right h2, Nat.min_eq_right h3]
  simp only [enc]
  generalize min 3 t1 = m1; generalize min 3 t2 = m2; generalize min 3 t3 = m3
  omega

theorem hi_half (m : Nat) : (if m > 12 then 6 else (m + 1) >>> 1) = min ((m + 1) / 2) 6 := by
  rw [Nat.shiftRight_eq_div_pow]; split <;> omega

theorem nbrSum_eq {b : Arg} {cls : TxClass} {q : Nat → Nat → Nat} {p : Nat × Nat} (hq : QOk b cls q p) (m : Nat)
    (l : List (Nat × Nat)) (r c : Nat) :
    Spec.nbrSum b.spec q m l r c = (l.map fun o => min m (q (r + o.1) (c + o.2))).sum := by
  rw [Spec.nbrSum]
  congr 1
  apply List.map_congr_left
  intro o _
  split
  · rfl
  · next h =>
    have : q (r + o.1) (c + o.2) = 0 := by
      apply Decidable.byContradiction
      intro hn; exact h (hq.inside _ _ hn)
    rw [this, Nat.min_zero]

/-- Offset of two-dimensional types. -/
def offs (tx : Tx) (r c : Nat) : Nat :=
  if r = 0 ∧ c = 0 then 0
  else if tx.w < tx.h ∧ r < 2 then 11
  else if tx.w > tx.h ∧ c < 2 then 16
  else if r + c < 2 then 1
  else if r + c < 4 then 6
  else 21

theorem offs_min (tx : Tx) (r c : Nat) : offs tx r c = offs tx (min r 4) (min c 4) := by
  have e1 : (r = 0 ∧ c = 0) ↔ (min r 4 = 0 ∧ min c 4 = 0) := by omega
  have e2 : (tx.w < tx.h ∧ r < 2) ↔ (tx.w < tx.h ∧ min r 4 < 2) := by omega
  have e3 : (tx.w > tx.h ∧ c < 2) ↔ (tx.w > tx.h ∧ min c 4 < 2) := by omega
  have e4 : r + c < 2 ↔ min r 4 + min c 4 < 2 := by omega
  have e5 : r + c < 4 ↔ min r 4 + min c 4 < 4 := by omega
  simp only [offs, e1, e2, e3, e4, e5]

theorem offs_tab (b : Arg) (r c : Nat) : ((clsOf b .d2).offsets.getD (min r 4) [])[min c 4]? = some (offs b.tx r c) := by
  have : ∀ tx : Tx, ∀ i ∈ List.range 5, ∀ j ∈ List.range 5,
      ((loCtxOffsets.getD ((if txNum tx ≥ 5 then 1 else 0) + (txNum tx &&& (if txNum tx ≥ 5 then 1 else 0))) []).getD i [])[j]? =
        some (offs tx i j) := by intro tx; cases tx <;> decide +kernel
  rw [offs_min]
  exact this b.tx _ (List.mem_range.2 (by omega)) _ (List.mem_range.2 (by omega))

theorem baseCtx_d2 {b : Arg} {q : Nat → Nat → Nat} {p : Nat × Nat} (hp : p ≠ (0, 0)) : Spec.baseCtx b.spec .d2 q p.1 p.2 =
    offs b.tx p.1 p.2 + min ((Spec.nbrSum b.spec q 3 (Spec.baseNbrs .d2) p.1 p.2 + 1) / 2) 4 := by
  have e : ¬(p.1 = 0 ∧ p.2 = 0) := fun h => hp (Prod.ext h.1 h.2)
  have etx : b.spec.tx = b.tx := rfl
  simp only [Spec.baseCtx, offs, e, if_false, etx]
  split
  · omega
  · split
    · omega
    · split
      · omega
      · split <;> omega

theorem y5 (y : Nat) : (if y > 1 then 10 else y * 5) = 5 * min y 2 := by split <;> omega

theorem getLoCtx_eq {b : Arg} {cls : TxClass} {q : Nat → Nat → Nat} {p : Nat × Nat} {L : Lev} (hs : SizeOk b cls)
    (hq : QOk b cls q p) (hL : LevInv b cls q L) (hp : p.1 < b.spec.H ∧ p.2 < b.spec.W) (h0 : cls = .d2 → p ≠ (0, 0)) :
    ∃ mag, getLoCtx (clsOf b cls) L ((xy cls p).1 * (clsOf b cls).stride + (xy cls p).2) (xy cls p).1 (xy cls p).2 =
      some (Spec.baseCtx b.spec cls q p.1 p.2, mag) ∧ mag &&& 63 = Spec.nbrSum b.spec q 15 (Spec.brNbrs cls) p.1 p.2 := by
  obtain ⟨hx, hy⟩ := xy_inside (cls := cls) hp
  have rdL := @lev_read b cls q p L hs hq hL
  have le : ∀ x y, qx cls q x y ≤ 15 := by intro x y; cases cls <;> exact hq.le _ _
  rw [getLoCtx, cls_eq]
  have r1 := @rdL (xy cls p).1 ((xy cls p).2 + 1) hx hy (by cases cls <;> simp <;> omega) (by omega)
    (by split <;> omega) (by omega)
  have r2 := @rdL ((xy cls p).1 + 1) (xy cls p).2 hx hy (by cases cls <;> simp <;> omega) (by omega)
    (by split <;> omega) (by omega)
  rw [Nat.add_assoc, r1, show (xy cls p).1 * (clsOf b cls).stride + (xy cls p).2 + (clsOf b cls).stride =
    ((xy cls p).1 + 1) * (clsOf b cls).stride + (xy cls p).2 by rw [Nat.add_mul]; omega, r2]
  cases cls with
  | d2 =>
    have r3 := @rdL ((xy .d2 p).1 + 1) ((xy .d2 p).2 + 1) hx hy (Or.inl ⟨rfl, by omega⟩) (by omega)
      (by split <;> omega) (by omega)
    have r4 := @rdL (xy .d2 p).1 ((xy .d2 p).2 + 2) hx hy (Or.inl ⟨rfl, by omega⟩) (by omega)
      (by split <;> omega) (by omega)
    have r5 := @rdL ((xy .d2 p).1 + 2) (xy .d2 p).2 hx hy (Or.inl ⟨rfl, by omega⟩) (by omega)
      (by rw [if_pos rfl]; omega) (by omega)
    dsimp only
    rw [show ((xy .d2 p).1 + 1) * (clsOf b .d2).stride + (xy .d2 p).2 + 1 =
        ((xy .d2 p).1 + 1) * (clsOf b .d2).stride + ((xy .d2 p).2 + 1) from rfl, r3,
      show (xy .d2 p).1 * (clsOf b .d2).stride + (xy .d2 p).2 + 2 =
        (xy .d2 p).1 * (clsOf b .d2).stride + ((xy .d2 p).2 + 2) from rfl, r4,
      show (xy .d2 p).1 * (clsOf b .d2).stride + (xy .d2 p).2 + 2 * (clsOf b .d2).stride =
        ((xy .d2 p).1 + 2) * (clsOf b .d2).stride + (xy .d2 p).2 by rw [Nat.add_mul]; omega, r5]
    have eo := offs_tab b p.1 p.2
    rw [show (xy .d2 p).2 = p.1 from rfl, show (xy .d2 p).1 = p.2 from rfl, eo]
    dsimp only
    refine ⟨_, congrArg some (Prod.ext ?_ rfl), ?_⟩
    · dsimp only
      rw [lo_arith (le _ _) (le _ _) (le _ _) (le _ _) (le _ _), baseCtx_d2 (h0 rfl), nbrSum_eq hq]
      simp only [qx, Spec.baseNbrs, List.map_cons, List.map_nil, List.sum_cons, List.sum_nil, Nat.add_zero]
      congr 3; omega
    · rw [hi_arith (le _ _) (le _ _) (le _ _), nbrSum_eq hq]
      simp only [qx, Spec.brNbrs, List.map_cons, List.map_nil, List.sum_cons, List.sum_nil, Nat.add_zero]
      omega
  | h =>
    have r3 := @rdL (xy .h p).1 ((xy .h p).2 + 2) hx hy (Or.inr ⟨by decide, by omega⟩) (by omega)
      (by split <;> omega) (by omega)
    have r4 := @rdL (xy .h p).1 ((xy .h p).2 + 3) hx hy (Or.inr ⟨by decide, by omega⟩) (by omega)
      (by split <;> omega) (by omega)
    have r5 := @rdL (xy .h p).1 ((xy .h p).2 + 4) hx hy (Or.inr ⟨by decide, by omega⟩) (by omega)
      (by split <;> omega) (by omega)
    dsimp only
    rw [Nat.add_assoc, r3, Nat.add_assoc, r4, Nat.add_assoc, r5]
    dsimp only
    refine ⟨_, congrArg some (Prod.ext ?_ rfl), ?_⟩
    · dsimp only
      rw [lo_arith (le _ _) (le _ _) (le _ _) (le _ _) (le _ _)]
      rw [y5]
      simp only [Spec.baseCtx, nbrSum_eq hq, xy]
      simp only [qx, Spec.baseNbrs, List.map_cons, List.map_nil, List.sum_cons, List.sum_nil, Nat.add_zero]
      simp only [Nat.add_assoc, Nat.add_comm, Nat.add_left_comm]
    · rw [hi_arith (le _ _) (le _ _) (le _ _), nbrSum_eq hq]
      simp only [qx, Spec.brNbrs, List.map_cons, List.map_nil, List.sum_cons, List.sum_nil, Nat.add_zero, xy]
      omega
  | v =>
    have r3 := @rdL (xy .v p).1 ((xy .v p).2 + 2) hx hy (Or.inr ⟨by decide, by omega⟩) (by omega)
      (by split <;> omega) (by omega)
    have r4 := @rdL (xy .v p).1 ((xy .v p).2 + 3) hx hy (Or.inr ⟨by decide, by omega⟩) (by omega)
      (by split <;> omega) (by omega)
    have r5 := @rdL (xy .v p).1 ((xy .v p).2 + 4) hx hy (Or.inr ⟨by decide, by omega⟩) (by omega)
      (by split <;> omega) (by omega)
    dsimp only
    rw [Nat.add_assoc, r3, Nat.add_assoc, r4, Nat.add_assoc, r5]
    dsimp only
    refine ⟨_, congrArg some (Prod.ext ?_ rfl), ?_⟩
    · dsimp only
      rw [lo_arith (le _ _) (le _ _) (le _ _) (le _ _) (le _ _)]
      rw [y5]
      simp only [Spec.baseCtx, nbrSum_eq hq, xy]
      simp only [qx, Spec.baseNbrs, List.map_cons, List.map_nil, List.sum_cons, List.sum_nil, Nat.add_zero]
      simp only [Nat.add_assoc, Nat.add_comm, Nat.add_left_comm]
    · rw [hi_arith (le _ _) (le _ _) (le _ _), nbrSum_eq hq]
      simp only [qx, Spec.brNbrs, List.map_cons, List.map_nil, List.sum_cons, List.sum_nil, Nat.add_zero, xy]
      omega

end Dav1d.Coef
