import Verif.Syn.VartxModel
import Verif.Syn.VartxSpec
/-!
# One tree of transforms
-/
set_option linter.unusedVariables false
set_option linter.unusedSimpArgs false
namespace Dav1d.Syn.Vartx
open Dav1d.Part.Lpf (txW txH txLw txLh txMax txSub tx_facts tx_pos)

variable {ok : Req → Nat → Prop}

/-- The size of a transform in samples. -/
def szOf (tx : Nat) : Nat × Nat := (4 * txW tx, 4 * txH tx)

/-! ## Regions -/

/-- A unit of a region. -/
def InReg (row col h w r k : Nat) : Prop := row ≤ r ∧ r < row + h ∧ col ≤ k ∧ k < col + w

/-- What is expected before a region is read: the entries above and on the left of it are those of the specification, and its bits are clear. -/
structure Pre (E : Av1.Env) (row col h w : Nat) (M : Nat → Nat → Prop) (s : St) (t : Av1.TxSizes) : Prop where
  a : ∀ X, col ≤ X → X < col + w → X < E.MiCols → 4 * 2 ^ s.a X = Av1.get_above_tx_width E t row X
  l : ∀ Y, row ≤ Y → Y < row + h → Y < E.MiRows → 4 * 2 ^ s.l (Y % 32) = Av1.get_left_tx_height E t Y col
  clear : ∀ d b, M d b → bitOf s.ms d b = false

/-- What holds after it: nothing is changed outside, entries at the bottom and at the right end are the sizes there, and the bits tell the sizes. -/
structure Post (E : Av1.Env) (row col h w : Nat) (M : Nat → Nat → Prop) (D : Nat × Nat → Nat → Nat → Nat) (s : St) (t : Av1.TxSizes) (s' : St) (t' : Av1.TxSizes) : Prop where
  fa : ∀ X, ¬ (col ≤ X ∧ X < col + w) → s'.a X = s.a X
  fl : ∀ i, ¬ (row % 32 ≤ i ∧ i < row % 32 + h) → s'.l i = s.l i
  ft : ∀ r k, ¬ InReg row col h w r k → t' r k = t r k
  fm : ∀ d b, ¬ M d b → bitOf s'.ms d b = bitOf s.ms d b
  oa : row + h < E.MiRows → ∀ X, col ≤ X → X < col + w → X < E.MiCols → 4 * 2 ^ s'.a X = (t' (row + h - 1) X).1
  ol : col + w < E.MiCols → ∀ Y, row ≤ Y → Y < row + h → Y < E.MiRows → 4 * 2 ^ s'.l (Y % 32) = (t' Y (col + w - 1)).2
  dec : ∀ r k, InReg row col h w r k → r < E.MiRows → k < E.MiCols → t' r k = szOf (D s'.ms r k) ∧ D s'.ms r k < 19

/-- The decoding depends on the bits of the region only. -/
def Dep (row col h w : Nat) (M : Nat → Nat → Prop) (D : Nat × Nat → Nat → Nat → Nat) : Prop :=
  ∀ ms ms', (∀ d b, M d b → bitOf ms d b = bitOf ms' d b) → ∀ r k, InReg row col h w r k → D ms r k = D ms' r k

def RegionOk (ok : Req → Nat → Prop) (E : Av1.Env) (row col h w : Nat) (M : Nat → Nat → Prop) (D : Nat × Nat → Nat → Nat → Nat) (p : St → Prog St) (q : Av1.TxSizes → Prog Av1.TxSizes) : Prop :=
  ∀ s t, Pre E row col h w M s t → Same ok (Post E row col h w M D s t) (p s) (q t)

theorem above_congr {E : Av1.Env} {t t' : Av1.TxSizes} {row X : Nat} (h : t' (row - 1) X = t (row - 1) X) : Av1.get_above_tx_width E t' row X = Av1.get_above_tx_width E t row X := by
  unfold Av1.get_above_tx_width; rw [h]
theorem left_congr {E : Av1.Env} {t t' : Av1.TxSizes} {col Y : Nat} (h : t' Y (col - 1) = t Y (col - 1)) : Av1.get_left_tx_height E t' Y col = Av1.get_left_tx_height E t Y col := by
  unfold Av1.get_left_tx_height; rw [h]
theorem above_in {E : Av1.Env} {t : Av1.TxSizes} {row X : Nat} (h : row ≠ E.MiRow) : Av1.get_above_tx_width E t row X = (t (row - 1) X).1 := by
  unfold Av1.get_above_tx_width; rw [if_neg h]
theorem left_in {E : Av1.Env} {t : Av1.TxSizes} {col Y : Nat} (h : col ≠ E.MiCol) : Av1.get_left_tx_height E t Y col = (t Y (col - 1)).2 := by
  unfold Av1.get_left_tx_height; rw [if_neg h]

theorem same_map {α β : Type} {R Q : α → β → Prop} {p : Prog α} {q : Prog β} (h : Same ok R p q) (hk : ∀ a b, R a b → Q a b) : Same ok Q p q := Same.mono hk h

/-- Two regions side by side. -/
theorem hcomp {E : Av1.Env} {row col h w1 w2 : Nat} {M1 M2 M : Nat → Nat → Prop} {D1 D2 D : Nat × Nat → Nat → Nat → Nat} {p1 p2 : St → Prog St} {q1 q2 : Av1.TxSizes → Prog Av1.TxSizes}
    (hw : 0 < w1) (hcol : E.MiCol ≤ col) (h1 : RegionOk ok E row col h w1 M1 D1 p1 q1)
    (h2 : col + w1 < E.MiCols → RegionOk ok E row (col + w1) h w2 M2 D2 p2 q2)
    (hq : ¬ col + w1 < E.MiCols → q2 = pure)
    (hdis : ∀ d b, M1 d b → ¬ M2 d b) (hM : ∀ d b, M1 d b ∨ M2 d b → M d b) (dep : Dep row col h w1 M1 D1)
    (hD1 : ∀ ms r k, InReg row col h w1 r k → D ms r k = D1 ms r k) (hD2 : ∀ ms r k, InReg row (col + w1) h w2 r k → D ms r k = D2 ms r k) :
    RegionOk ok E row col h (w1 + w2) M D (fun s => p1 s >>= fun s => if col + w1 < E.MiCols then p2 s else pure s) (fun t => q1 t >>= q2) := by
  intro s t hp
  refine Same.bind (h1 s t ⟨fun X a b c => hp.a X a (by omega) c, hp.l, fun d b hm => hp.clear d b (hM d b (.inl hm))⟩) fun s1 t1 o => ?_
  by_cases hin : col + w1 < E.MiCols
  · rw [if_pos hin]
    refine Same.mono (fun s2 t2 o2 => ?_) (h2 hin s1 t1 ⟨?_, ?_, ?_⟩)
    · constructor
      · intro X hX
        rw [o2.fa X (by omega), o.fa X (by omega)]
      · intro i hi
        rw [o2.fl i hi, o.fl i hi]
      · intro r k hr
        rw [o2.ft r k (by unfold InReg at *; omega), o.ft r k (by unfold InReg at *; omega)]
      · intro d b hm
        rw [o2.fm d b (fun hh => hm (hM d b (.inr hh))), o.fm d b (fun hh => hm (hM d b (.inl hh)))]
      · intro hr X x1 x2 x3
        by_cases hX : X < col + w1
        · rw [o2.fa X (by omega), o.oa hr X x1 hX x3, o2.ft _ _ (by unfold InReg; omega)]
        · exact o2.oa hr X (by omega) (by omega) x3
      · intro hc Y y1 y2 y3
        rw [o2.ol (by omega) Y y1 y2 y3, Nat.add_assoc]
      · intro r k hr hr1 hk1
        by_cases hk : k < col + w1
        · rw [o2.ft r k (by unfold InReg; omega), hD1 _ _ _ (by unfold InReg at *; omega)]
          rw [← dep s1.ms s2.ms (fun d b hm => (o2.fm d b (hdis d b hm)).symm) r k (by unfold InReg at *; omega)]
          exact o.dec r k (by unfold InReg at *; omega) hr1 hk1
        · rw [hD2 _ _ _ (by unfold InReg at *; omega)]; exact o2.dec r k (by unfold InReg at *; omega) hr1 hk1
    · intro X x1 x2 x3
      rw [o.fa X (by omega), hp.a X (by omega) (by omega) x3]
      exact (above_congr (o.ft _ _ (by unfold InReg; omega))).symm
    · intro Y y1 y2 y3
      rw [o.ol hin Y y1 y2 y3, left_in (by omega)]
    · intro d b hm
      rw [o.fm d b (fun hh => hdis d b hh hm)]
      exact hp.clear d b (hM d b (.inr hm))
  · rw [if_neg hin, hq hin]
    refine Same.ret ?_
    constructor
    · intro X hX; exact o.fa X (by omega)
    · exact o.fl
    · intro r k hr; exact o.ft r k (by unfold InReg at *; omega)
    · intro d b hm; exact o.fm d b (fun hh => hm (hM d b (.inl hh)))
    · intro hr X x1 x2 x3; exact o.oa hr X x1 (by omega) x3
    · intro hc; omega
    · intro r k hr hr1 hk1
      rw [hD1 _ _ _ (by unfold InReg at *; omega)]; exact o.dec r k (by unfold InReg at *; omega) hr1 hk1

theorem mod_at {row h Y : Nat} (hr : row % 32 + h ≤ 32) (h1 : row ≤ Y) (h2 : Y < row + h) : Y % 32 = row % 32 + (Y - row) := by omega

/-- Two regions one below the other. -/
theorem vcomp {E : Av1.Env} {row col h1' h2' w : Nat} {M1 M2 M : Nat → Nat → Prop} {D1 D2 D : Nat × Nat → Nat → Nat → Nat} {p1 p2 : St → Prog St} {q1 q2 : Av1.TxSizes → Prog Av1.TxSizes}
    (hh : 0 < h1') (hrow : E.MiRow ≤ row) (h32 : row % 32 + (h1' + h2') ≤ 32) (h1 : RegionOk ok E row col h1' w M1 D1 p1 q1)
    (h2 : row + h1' < E.MiRows → RegionOk ok E (row + h1') col h2' w M2 D2 p2 q2)
    (hq : ¬ row + h1' < E.MiRows → q2 = pure)
    (hdis : ∀ d b, M1 d b → ¬ M2 d b) (hM : ∀ d b, M1 d b ∨ M2 d b → M d b) (dep : Dep row col h1' w M1 D1)
    (hD1 : ∀ ms r k, InReg row col h1' w r k → D ms r k = D1 ms r k) (hD2 : ∀ ms r k, InReg (row + h1') col h2' w r k → D ms r k = D2 ms r k) :
    RegionOk ok E row col (h1' + h2') w M D (fun s => p1 s >>= fun s => if row + h1' < E.MiRows then p2 s else pure s) (fun t => q1 t >>= q2) := by
  intro s t hp
  refine Same.bind (h1 s t ⟨hp.a, fun Y a b c => hp.l Y a (by omega) c, fun d b hm => hp.clear d b (hM d b (.inl hm))⟩) fun s1 t1 o => ?_
  by_cases hin : row + h1' < E.MiRows
  · rw [if_pos hin]
    by_cases hz : h2' = 0
    · subst hz
      refine Same.mono (fun s2 t2 o2 => ?_) (h2 hin s1 t1 ⟨?_, ?_, ?_⟩)
      · constructor
        · intro X hX; rw [o2.fa X hX, o.fa X hX]
        · intro i hi; rw [o2.fl i (by omega), o.fl i (by omega)]
        · intro r k hr
          rw [o2.ft r k (by unfold InReg at *; omega), o.ft r k (by unfold InReg at *; omega)]
        · intro d b hm
          rw [o2.fm d b (fun hh => hm (hM d b (.inr hh))), o.fm d b (fun hh => hm (hM d b (.inl hh)))]
        · intro hr X x1 x2 x3
          exact o2.oa hr X x1 x2 x3
        · intro hc Y y1 y2 y3
          rw [o2.fl _ (by omega), o.ol hc Y y1 (by omega) y3, o2.ft _ _ (by unfold InReg; omega)]
        · intro r k hr hr1 hk1
          rw [o2.ft r k (by unfold InReg; omega), hD1 _ _ _ (by unfold InReg at *; omega)]
          rw [← dep s1.ms s2.ms (fun d b hm => (o2.fm d b (hdis d b hm)).symm) r k (by unfold InReg at *; omega)]
          exact o.dec r k (by unfold InReg at *; omega) hr1 hk1
      · intro X x1 x2 x3
        rw [o.oa hin X x1 x2 x3, above_in (by omega)]
      · intro Y y1 y2 y3; omega
      · intro d b hm
        rw [o.fm d b (fun hh => hdis d b hh hm)]
        exact hp.clear d b (hM d b (.inr hm))
    have hmod : (row + h1') % 32 = row % 32 + h1' := by omega
    refine Same.mono (fun s2 t2 o2 => ?_) (h2 hin s1 t1 ⟨?_, ?_, ?_⟩)
    · constructor
      · intro X hX
        rw [o2.fa X hX, o.fa X hX]
      · intro i hi
        rw [o2.fl i (by omega), o.fl i (by omega)]
      · intro r k hr
        rw [o2.ft r k (by unfold InReg at *; omega), o.ft r k (by unfold InReg at *; omega)]
      · intro d b hm
        rw [o2.fm d b (fun hh => hm (hM d b (.inr hh))), o.fm d b (fun hh => hm (hM d b (.inl hh)))]
      · intro hr X x1 x2 x3
        rw [o2.oa (by omega) X x1 x2 x3, Nat.add_assoc]
      · intro hc Y y1 y2 y3
        by_cases hY : Y < row + h1'
        · rw [o2.fl _ (by omega), o.ol hc Y y1 hY y3, o2.ft _ _ (by unfold InReg; omega)]
        · exact o2.ol hc Y (by omega) (by omega) y3
      · intro r k hr hr1 hk1
        by_cases hk : r < row + h1'
        · rw [o2.ft r k (by unfold InReg; omega), hD1 _ _ _ (by unfold InReg at *; omega)]
          rw [← dep s1.ms s2.ms (fun d b hm => (o2.fm d b (hdis d b hm)).symm) r k (by unfold InReg at *; omega)]
          exact o.dec r k (by unfold InReg at *; omega) hr1 hk1
        · rw [hD2 _ _ _ (by unfold InReg at *; omega)]; exact o2.dec r k (by unfold InReg at *; omega) hr1 hk1
    · intro X x1 x2 x3
      rw [o.oa hin X x1 x2 x3, above_in (by omega)]
    · intro Y y1 y2 y3
      rw [o.fl _ (by omega), hp.l Y (by omega) (by omega) y3]
      exact (left_congr (o.ft _ _ (by unfold InReg; omega))).symm
    · intro d b hm
      rw [o.fm d b (fun hh => hdis d b hh hm)]
      exact hp.clear d b (hM d b (.inr hm))
  · rw [if_neg hin, hq hin]
    refine Same.ret ?_
    constructor
    · exact o.fa
    · intro i hi; exact o.fl i (by omega)
    · intro r k hr; exact o.ft r k (by unfold InReg at *; omega)
    · intro d b hm; exact o.fm d b (fun hh => hm (hM d b (.inl hh)))
    · intro hr; omega
    · intro hc Y y1 y2 y3; exact o.ol hc Y y1 (by omega) y3
    · intro r k hr hr1 hk1
      rw [hD1 _ _ _ (by unfold InReg at *; omega)]; exact o.dec r k (by unfold InReg at *; omega) hr1 hk1

end Dav1d.Syn.Vartx
