import Verif.Syn.HeadSteps
/-!
# The beginning of a block: indices of CDEF, quantizers and loop filter levels
-/
set_option linter.unusedSectionVars false
namespace Dav1d.Syn
open CdfTab (Field ModeF)
open Dav1d.Part (Call bsW bsH sbStep)
open Dav1d.Part.Ctx (Edge Seg Blk)

/-- CDEF is used in the frame. -/
def cdefOn (F : Av1.Frm) : Bool := !(F.CodedLossless || !F.enable_cdef || F.allow_intrabc)

/-- `cdef_idx` of the masks: the four entries of the masks are the 64x64 areas. `D` are those of the
superblocks that were begun. -/
def CdefRel {L : Type} (F : Av1.Frm) (D : Nat → Nat → Prop) (t : TS L) (s : Av1.St) : Prop :=
  cdefOn F = true → ∀ X Y, D X Y → t.cdef (X / 2) (Y / 2) (X % 2 + 2 * (Y % 2)) = s.cdef_idx (16 * Y) (16 * X)

/-- The current quantizer index and differences of levels. -/
structure QRel {L : Type} (H : Hdr) (t : TS L) (s : Av1.St) : Prop where
  q : t.lastQ = s.CurrentQIndex
  lf : t.lastLf = s.DeltaLF
  still : H.dqPresent = false → t.lastQ = H.yac
  range : 0 ≤ t.lastQ ∧ t.lastQ ≤ 255 ∧ (H.dqPresent = true → 1 ≤ t.lastQ)
  len : t.lastLf.length = 4
  lfRange : ∀ i < 4, -63 ≤ t.lastLf.getD i 0 ∧ t.lastLf.getD i 0 ≤ 63

/-- The tables are those of the current values. -/
def TabOk {L : Type} (H : Hdr) (tbl : Nat → Nat → Nat) (lfv : List Int → L) (t : TS L) : Prop :=
  t.dq = initQuant H tbl t.lastQ ∧ t.lflvl = lfv t.lastLf

/-- The tables are not yet chosen, and will be. -/
def TabWeak {L : Type} (H : Hdr) (tbl : Nat → Nat → Nat) (lfv : List Int → L) (t : TS L) : Prop :=
  (t.lastQ = H.yac ∨ t.dq = initQuant H tbl t.lastQ) ∧ (t.lastLf = [0, 0, 0, 0] ∨ t.lflvl = lfv t.lastLf)

theorem bsSb_iff : ∀ bs < 22, ∀ b : Bool, (bs = bsSb b) ↔ (bsW bs = sbStep b ∧ bsH bs = sbStep b) := by decide

theorem iclip_eq (v lo hi : Int) : iclip v lo hi = Av1.Clip3 lo hi v := rfl

theorem delta_same {ok : Req → Nat → Prop} {f : ModeF} {idx : List Nat} {e : Av1.El} (h : .sym (.mode f) idx 3 = e.req) (res : Nat) :
    Same ok (fun a b => a = b * 2 ^ res) (readDelta f idx res) (Av1.read_delta_value e) := by
  unfold readDelta Av1.read_delta_value
  refine Same.bind (S_same h) ?_
  rintro d _ ⟨rfl, -, -⟩
  refine Same.bind (R := Eq) ?_ ?_
  · refine Same.ite Iff.rfl (fun _ => ?_) (fun _ => rfl)
    refine Same.bind (bits_same 3) ?_
    rintro n _ ⟨rfl, -⟩
    show Same _ _ (bits (1 + n) >>= _) (bits (n + 1) >>= _)
    rw [Nat.add_comm 1 n]
    refine Same.bind (bits_same (n + 1)) ?_
    rintro v _ ⟨rfl, -⟩
    exact Same.ret (by omega)
  · rintro a _ rfl
    refine Same.ite Iff.rfl (fun _ => ?_) (fun _ => by exact (Int.zero_mul _).symm)
    show Same _ _ (bit >>= _) (bits 1 >>= _)
    refine Same.bind (R := fun x y => x = decide (y ≠ 0)) (show Same _ _ bit (bits 1) from ⟨rfl, fun _ _ _ => rfl⟩) ?_
    rintro _ y rfl
    refine Same.ret ?_
    by_cases hy : y = 0 <;> simp [hy]

theorem getD_set_clip {lf : List Int} {i : Nat} (h : -63 ≤ lf.getD i 0 ∧ lf.getD i 0 ≤ 63) : lf.set i (Av1.Clip3 (-63) 63 (lf.getD i 0 + 0)) = lf := by
  have : Av1.Clip3 (-63) 63 (lf.getD i 0 + 0) = lf.getD i 0 := by
    unfold Av1.Clip3; rw [if_neg (by omega), if_neg (by omega)]; omega
  rw [this]
  by_cases hi : i < lf.length
  · rw [List.getD_eq_getElem?_getD, List.getElem?_eq_getElem hi, Option.getD_some, List.set_getElem_self]
  · rw [List.set_eq_of_length_le (by omega)]

theorem clip_range (v : Int) : -63 ≤ Av1.Clip3 (-63) 63 v ∧ Av1.Clip3 (-63) 63 v ≤ 63 := by
  unfold Av1.Clip3; split
  · omega
  · split <;> omega

theorem range_set {lf : List Int} (hr : ∀ i < 4, -63 ≤ lf.getD i 0 ∧ lf.getD i 0 ≤ 63) (i : Nat) (v : Int) :
    ∀ j < 4, -63 ≤ (lf.set i (Av1.Clip3 (-63) 63 v)).getD j 0 ∧ (lf.set i (Av1.Clip3 (-63) 63 v)).getD j 0 ≤ 63 := by
  intro j hj
  by_cases h : i = j ∧ i < lf.length
  · obtain ⟨rfl, h⟩ := h
    rw [List.getD_eq_getElem?_getD, List.getElem?_set_self h]
    exact clip_range v
  · have e : (lf.set i (Av1.Clip3 (-63) 63 v)).getD j 0 = lf.getD j 0 := by
      by_cases h1 : i < lf.length
      · rw [List.getD_eq_getElem?_getD, List.getElem?_set_ne (by omega), List.getD_eq_getElem?_getD]
      · rw [List.set_eq_of_length_le (by omega)]
    rw [e]; exact hr j hj

theorem cell0 (X Y xi yi : Nat) : (X / 2 = xi / 2 ∧ Y / 2 = yi / 2 ∧ X % 2 + 2 * (Y % 2) = xi % 2 + 2 * (yi % 2)) ↔ (X = xi ∧ Y = yi) := by omega
theorem cell1 (X Y xi yi : Nat) (h : xi % 2 = 0) : (X / 2 = xi / 2 ∧ Y / 2 = yi / 2 ∧ X % 2 + 2 * (Y % 2) = xi % 2 + 2 * (yi % 2) + 1) ↔ (X = xi + 1 ∧ Y = yi) := by omega
theorem cell2 (X Y xi yi : Nat) (h : yi % 2 = 0) : (X / 2 = xi / 2 ∧ Y / 2 = yi / 2 ∧ X % 2 + 2 * (Y % 2) = xi % 2 + 2 * (yi % 2) + 2) ↔ (X = xi ∧ Y = yi + 1) := by omega
theorem cell3 (X Y xi yi : Nat) (h : xi % 2 = 0) (h' : yi % 2 = 0) : (X / 2 = xi / 2 ∧ Y / 2 = yi / 2 ∧ X % 2 + 2 * (Y % 2) = xi % 2 + 2 * (yi % 2) + 3) ↔ (X = xi + 1 ∧ Y = yi + 1) := by omega

section
variable {bw bh : Nat} {H : Hdr} {F : Av1.Frm} (hF : Agrees bw bh H F) {c : Call} {E : Around} {P : Av1.Pos} (hE : Sees H F c E P)
include hF

theorem lfs_same : ∀ (n i : Nat) (lf : List Int), lf.length = 4 → (∀ i < 4, -63 ≤ lf.getD i 0 ∧ lf.getD i 0 ≤ 63) → (H.dlfMulti = true ∨ n = 0 ∨ (n = 1 ∧ i = 0)) → i + n ≤ 4 →
    Same (segOk F P) (fun a b => a = b ∧ a.length = 4 ∧ ∀ i < 4, -63 ≤ a.getD i 0 ∧ a.getD i 0 ≤ 63) (readLfs H n i lf) (Av1.delta_lf_loop F n i lf)
  | 0, _, lf, hl, hr, _, _ => ⟨rfl, hl, hr⟩
  | n + 1, i, lf, hl, hr, hm, hn => by
    unfold readLfs Av1.delta_lf_loop
    obtain ⟨d1, d2, d3⟩ := hF.dlf
    refine Same.bind (delta_same (by
      rw [← d3]
      cases h : H.dlfMulti with
      | true => rw [if_pos rfl, Bool.toNat_true, Nat.add_comm i 1]; rfl
      | false =>
        rw [h] at hm
        have : i = 0 := by rcases hm with h | h | h; cases h; cases h; exact h.2
        subst this; rfl) _) ?_
    rintro _ v rfl
    have e : (if v ≠ 0 then lf.set i (Av1.Clip3 (-63) 63 (lf.getD i 0 + v * 2 ^ F.delta_lf_res)) else lf) = lf.set i (Av1.Clip3 (-63) 63 (lf.getD i 0 + v * 2 ^ F.delta_lf_res)) := by
      by_cases hv : v = 0
      · subst hv; rw [Int.zero_mul, getD_set_clip (hr i (by omega))]; rfl
      · rw [if_pos hv]
    rw [e, iclip_eq, d2]
    exact lfs_same n (i + 1) _ (by rw [List.length_set]; exact hl) (range_set hr _ _)
      (by rcases hm with h | h | h; exact .inl h; cases h; exact .inr (.inl (by omega))) (by omega)

include hE

theorem cdef_same {L : Type} {D : Nat → Nat → Prop} (skip : Bool) (t : TS L) (s : Av1.St) (h : CdefRel F D t s) (hD : D (c.x / 16) (c.y / 16)) :
    Same (segOk F P) (fun t' s' => CdefRel F D t' s' ∧ (∃ g, t' = { t with cdef := g }) ∧ ∃ g, s' = { s with cdef_idx := g }) (readCdef H c skip t) (Av1.read_cdef F P skip s) := by
  have hc := hF.cdef
  obtain ⟨p1, p2, p3, p4⟩ := hE.at_
  have e : cdefBase H.sb128 c.x c.y + (if H.sb128 then c.x / 16 % 2 + 2 * (c.y / 16 % 2) else 0) = c.x / 16 % 2 + 2 * (c.y / 16 % 2) := by
    unfold cdefBase; cases H.sb128 <;> simp
  unfold readCdef Av1.read_cdef
  dsimp only
  rw [e, p1, p2, p3, p4]
  cases hs : skip with
  | true => exact ⟨h, ⟨_, rfl⟩, ⟨_, rfl⟩⟩
  | false =>
    cases ho : cdefOn F with
    | false =>
      unfold cdefOn at ho
      have ho : (F.CodedLossless || !F.enable_cdef || F.allow_intrabc) = true := by
        revert ho; cases F.CodedLossless <;> cases F.enable_cdef <;> cases F.allow_intrabc <;> decide
      rw [if_pos ho] at hc
      rw [if_pos (show (false || F.CodedLossless || !F.enable_cdef || F.allow_intrabc) = true by rw [Bool.false_or]; exact ho)]
      rw [hc]
      have noC : ∀ t' : TS L, CdefRel F D t' s := by
        intro t' hh; unfold cdefOn at hh; rw [ho] at hh; cases hh
      by_cases hm : (!false && decide (t.cdef (c.x / 32) (c.y / 32) (c.x / 16 % 2 + 2 * (c.y / 16 % 2)) = -1)) = true
      · rw [if_pos hm]
        refine ⟨noC _, ?_, ⟨_, rfl⟩⟩
        split <;> split <;> split <;> exact ⟨_, rfl⟩
      · rw [if_neg hm]
        exact ⟨noC _, ⟨_, rfl⟩, ⟨_, rfl⟩⟩
    | true =>
      have hr := h ho
      unfold cdefOn at ho
      have ho' : (F.CodedLossless || !F.enable_cdef || F.allow_intrabc) = false := by
        revert ho; cases F.CodedLossless <;> cases F.enable_cdef <;> cases F.allow_intrabc <;> decide
      rw [ho', if_neg (by decide)] at hc
      rw [if_neg (show ¬ (false || F.CodedLossless || !F.enable_cdef || F.allow_intrabc) = true by rw [Bool.false_or, ho']; decide)]
      have hk := hr (c.x / 16) (c.y / 16) hD
      rw [show c.x / 16 / 2 = c.x / 32 by omega, show c.y / 16 / 2 = c.y / 32 by omega] at hk
      rw [hk, hc, show 16 * (c.y / 16) = c.y / 16 * 16 by omega, show 16 * (c.x / 16) = c.x / 16 * 16 by omega]
      rw [Bool.not_false, Bool.true_and]
      refine Same.ite (by rw [decide_eq_true_eq]) (fun _ => ?_) (fun _ => ⟨h, ⟨_, rfl⟩, ⟨_, rfl⟩⟩)
      refine Same.bind (bits_same _) ?_
      rintro v _ ⟨rfl, -⟩
      refine Same.ret ⟨?_, ?_, ⟨_, rfl⟩⟩
      · intro _ X Y hXD
        have hXY := hr X Y hXD
        clear hXD hD
        have hw := hE.wide
        have hh := hE.high
        have hp : 0 < bsW c.bs ∧ 0 < bsH c.bs := by have := hE.size; omega
        dsimp only
        generalize bsW c.bs = w at *
        generalize bsH c.bs = h4 at *
        have hcond : ((16 * Y % 16 = 0 ∧ c.y / 16 * 16 ≤ 16 * Y ∧ 16 * Y < c.y / 16 * 16 + h4) ∧ 16 * X % 16 = 0 ∧ c.x / 16 * 16 ≤ 16 * X ∧ 16 * X < c.x / 16 * 16 + w) ↔
            ((X = c.x / 16 ∨ (w > 16 ∧ X = c.x / 16 + 1)) ∧ (Y = c.y / 16 ∨ (h4 > 16 ∧ Y = c.y / 16 + 1))) := by
          have a1 : (16 * Y % 16 = 0 ∧ c.y / 16 * 16 ≤ 16 * Y ∧ 16 * Y < c.y / 16 * 16 + h4) ↔ (Y = c.y / 16 ∨ (h4 > 16 ∧ Y = c.y / 16 + 1)) := by omega
          have a2 : (16 * X % 16 = 0 ∧ c.x / 16 * 16 ≤ 16 * X ∧ 16 * X < c.x / 16 * 16 + w) ↔ (X = c.x / 16 ∨ (w > 16 ∧ X = c.x / 16 + 1)) := by omega
          rw [a1, a2]; exact ⟨fun h => ⟨h.2, h.1⟩, fun h => ⟨h.2, h.1⟩⟩
        simp only [hcond]
        have hwx : w > 16 → c.x / 16 % 2 = 0 := by omega
        have hhy : h4 > 16 → c.y / 16 % 2 = 0 := by omega
        have h32 : (w = 32 ∧ h4 = 32) ↔ (w > 16 ∧ h4 > 16) := by omega
        rw [show c.x / 32 = c.x / 16 / 2 by omega, show c.y / 32 = c.y / 16 / 2 by omega]
        simp only [h32]
        clear hcond h32 hw hh hp hk
        generalize c.x / 16 = xi at *
        generalize c.y / 16 = yi at *
        have c0 := cell0 X Y xi yi
        by_cases hw16 : w > 16 <;> by_cases hh16 : h4 > 16
        · have c1 := cell1 X Y xi yi (hwx hw16)
          have c2 := cell2 X Y xi yi (hhy hh16)
          have c3 := cell3 X Y xi yi (hwx hw16) (hhy hh16)
          simp only [hw16, hh16, true_and, and_self, if_true, TS.setCdef, c0, c1, c2, c3]
          by_cases hx0 : X = xi <;> by_cases hx1 : X = xi + 1 <;> by_cases hy0 : Y = yi <;> by_cases hy1 : Y = yi + 1 <;>
            simp only [hx0, hx1, hy0, hy1, true_and, false_and, and_true, and_false, or_true, true_or, or_false, false_or, if_true, if_false] <;>
            first | rfl | omega | (simp; try omega) | exact hXY | skip
          all_goals first | exact hXY | (rw [hx0] at hXY; exact hXY) | (rw [hy0] at hXY; exact hXY) | (rw [hx1] at hXY; exact hXY) | (rw [hy1] at hXY; exact hXY) | omega
        · have c1 := cell1 X Y xi yi (hwx hw16)
          simp only [hw16, hh16, true_and, false_and, and_false, or_false, if_true, if_false, TS.setCdef, c0, c1]
          by_cases hx0 : X = xi <;> by_cases hx1 : X = xi + 1 <;> by_cases hy0 : Y = yi <;> simp [hx0, hx1, hy0]
          all_goals first | exact hXY | (rw [hx0] at hXY; exact hXY) | (rw [hy0] at hXY; exact hXY) | (rw [hx1] at hXY; exact hXY) | (rw [hy1] at hXY; exact hXY) | omega
        · have c2 := cell2 X Y xi yi (hhy hh16)
          simp only [hw16, hh16, true_and, false_and, and_false, or_false, if_true, if_false, TS.setCdef, c0, c2]
          by_cases hx0 : X = xi <;> by_cases hy0 : Y = yi <;> by_cases hy1 : Y = yi + 1 <;> simp [hx0, hy0, hy1]
          all_goals first | exact hXY | (rw [hx0] at hXY; exact hXY) | (rw [hy0] at hXY; exact hXY) | (rw [hx1] at hXY; exact hXY) | (rw [hy1] at hXY; exact hXY) | omega
        · simp only [hw16, hh16, false_and, or_false, if_false, TS.setCdef, c0]
          by_cases hx0 : X = xi <;> by_cases hy0 : Y = yi <;> simp [hx0, hy0]
          all_goals first | exact hXY | (rw [hx0] at hXY; exact hXY) | (rw [hy0] at hXY; exact hXY) | (rw [hx1] at hXY; exact hXY) | (rw [hy1] at hXY; exact hXY) | omega
      · split <;> split <;> split <;> exact ⟨_, rfl⟩

/-- Reading of the differences. -/
theorem qlf_same {L : Type} (skip : Bool) (t : TS L) (s : Av1.St) (hq : QRel H t s) (hd : s.ReadDeltas = H.dqPresent) :
    Same (segOk F P) (fun t' s' => QRel H t' s' ∧ (∃ q lf, t' = { t with lastQ := q, lastLf := lf }) ∧ s'.cdef_idx = s.cdef_idx)
      (readQLf H c skip t) (Av1.read_delta_qindex F P skip s >>= fun s => Av1.read_delta_lf F P skip s) := by
  obtain ⟨p1, p2, p3, p4⟩ := hE.at_
  obtain ⟨q1, q2⟩ := hF.dq
  obtain ⟨d1, d2, d3⟩ := hF.dlf
  have hsb : Av1.isSb F P = decide (c.bs = bsSb H.sb128) := by
    unfold Av1.isSb
    rw [p3, p4, ← hF.sb128, ← Bool.decide_and]
    exact decide_eq_decide.2 (bsSb_iff _ hE.bs _).symm
  unfold readQLf Av1.read_delta_qindex Av1.read_delta_lf
  rw [hsb]
  have stay : Same (segOk F P) (fun (t' : TS L) (s' : Av1.St) => QRel H t' s' ∧ (∃ q lf, t' = { t with lastQ := q, lastLf := lf }) ∧ s'.cdef_idx = s.cdef_idx) (pure t) (pure s) :=
    ⟨hq, ⟨_, _, rfl⟩, rfl⟩
  by_cases hno : (decide (c.bs = bsSb H.sb128) && skip) = true
  · have : (H.dqPresent && (decide (c.bs ≠ bsSb H.sb128) || !skip)) = false := by
      rw [Bool.and_eq_true, decide_eq_true_eq] at hno
      rw [hno.2, decide_eq_false (by simp [hno.1])]; simp
    rw [this]
    simp only [hno, if_true]
    exact stay
  · have hyes : (decide (c.bs ≠ bsSb H.sb128) || !skip) = true := by
      by_cases h1 : c.bs = bsSb H.sb128 <;> cases skip <;> simp [h1] at hno ⊢
    rw [hyes, Bool.and_true]
    simp only [hno, Bool.false_eq_true, if_false]
    rw [hd]
    cases hp : H.dqPresent with
    | false =>
      simp only [pure_bind', Bool.false_eq_true, if_false, hd, hp, Bool.false_and]
      exact stay
    | true =>
      rw [if_pos rfl, if_pos rfl, bind_assoc']
      refine Same.bind (delta_same (e := .delta_q_abs) rfl _) ?_
      rintro _ v rfl
      rw [pure_bind']
      have hdl : ∀ (s' : Av1.St), s' = (if v ≠ 0 then { s with CurrentQIndex := Av1.Clip3 1 255 (s.CurrentQIndex + v * 2 ^ F.delta_q_res), ReadDeltas := true } else s) →
          s'.ReadDeltas = true ∧ s'.DeltaLF = s.DeltaLF ∧ s'.CurrentQIndex = Av1.Clip3 1 255 (s.CurrentQIndex + v * 2 ^ F.delta_q_res) ∧ s'.cdef_idx = s.cdef_idx := by
        rintro s' rfl
        by_cases hv : v = 0
        · subst hv
          rw [if_neg (by simp)]
          refine ⟨by rw [hd, hp], rfl, ?_, rfl⟩
          have := hq.range
          rw [hq.q] at this
          have := this.2.2 hp
          unfold Av1.Clip3
          rw [Int.zero_mul, if_neg (by omega), if_neg (by omega)]; omega
        · rw [if_pos hv]; exact ⟨rfl, rfl, rfl, rfl⟩
      obtain ⟨z1, z2, z3, z4⟩ := hdl _ rfl
      generalize (if v ≠ 0 then { s with CurrentQIndex := Av1.Clip3 1 255 (s.CurrentQIndex + v * 2 ^ F.delta_q_res), ReadDeltas := true } else s) = s' at *
      have qr : ∀ lf : List Int, lf.length = 4 → (∀ i < 4, -63 ≤ lf.getD i 0 ∧ lf.getD i 0 ≤ 63) →
          QRel H { t with lastQ := iclip (t.lastQ + v * 2 ^ H.dqRes) 1 255, lastLf := lf } { s' with DeltaLF := lf } := by
        intro lf hl hr
        have hc1 : ∀ x, 1 ≤ Av1.Clip3 1 255 x ∧ Av1.Clip3 1 255 x ≤ 255 := by
          intro x; unfold Av1.Clip3; split
          · omega
          · split <;> omega
        refine ⟨?_, rfl, ?_, ?_, hl, hr⟩
        · dsimp only; rw [z3, iclip_eq, q2, hq.q]
        · intro hh; rw [hp] at hh; cases hh
        · dsimp only; rw [iclip_eq]
          have := hc1 (t.lastQ + v * 2 ^ H.dqRes)
          exact ⟨by omega, this.2, fun _ => this.1⟩
      rw [z1, Bool.true_and, ← d1]
      cases hlf : H.dlfPresent with
      | false =>
        rw [if_neg (by decide), if_neg (by decide), pure_bind']
        refine ⟨?_, ⟨_, _, rfl⟩, z4⟩
        have := qr t.lastLf hq.len hq.lfRange
        have e : ({ s' with DeltaLF := t.lastLf } : Av1.St) = s' := by rw [hq.lf, ← z2]
        rw [e] at this; exact this
      | true =>
        rw [if_pos rfl, if_pos rfl]
        have en : (if H.dlfMulti = true then (if (!H.mono) = true then 4 else 2) else 1) = (if F.delta_lf_multi = true then (if F.NumPlanes > 1 then 4 else 2) else 1) := by
          rw [d3, hF.mono]
          rcases hF.planes with h | h <;> rw [h] <;> rfl
        rw [← en, z2, hq.lf]
        refine Same.bind (lfs_same hF _ 0 _ (by rw [← hq.lf]; exact hq.len) (by rw [← hq.lf]; exact hq.lfRange) ?_ ?_) ?_
        · cases H.dlfMulti
          · exact .inr (.inr ⟨rfl, rfl⟩)
          · exact .inl rfl
        · cases H.dlfMulti <;> cases H.mono <;> decide
        · rintro a _ ⟨rfl, h1, h2⟩
          have q := qr a h1 h2
          exact ⟨⟨q.q, q.lf, q.still, q.range, q.len, q.lfRange⟩, ⟨_, _, rfl⟩, z4⟩

omit hE hF in
/-- The tables are chosen. -/
theorem tables_ok {L : Type} (tbl : Nat → Nat → Nat) (lfv : List Int → L) {t t' : TS L} (hw : TabWeak H tbl lfv t) {q : Int} {lf : List Int}
    (ht : t' = { t with lastQ := q, lastLf := lf }) : TabOk H tbl lfv (TS.tables H tbl lfv t t') := by
  subst ht
  unfold TabOk TS.tables
  dsimp only
  refine ⟨?_, ?_⟩
  · by_cases h1 : q = H.yac
    · rw [if_pos h1, h1]
    · rw [if_neg h1]
      by_cases h2 : q = t.lastQ
      · subst h2
        rw [if_neg (by simp)]
        exact hw.1.resolve_left h1
      · rw [if_pos h2]
  · by_cases h1 : lf = [0, 0, 0, 0]
    · rw [if_pos h1, h1]
    · rw [if_neg h1]
      by_cases h2 : lf = t.lastLf
      · subst h2
        rw [if_neg (by simp)]
        exact hw.2.resolve_left h1
      · rw [if_pos h2]

/-- At the first block of a superblock. -/
def atSb (sb128 : Bool) (c : Call) : Prop := c.x % sbStep sb128 = 0 ∧ c.y % sbStep sb128 = 0
instance (sb128 : Bool) (c : Call) : Decidable (atSb sb128 c) := inferInstanceAs (Decidable (_ ∧ _))

theorem deltas_same {L : Type} {D : Nat → Nat → Prop} (tbl : Nat → Nat → Nat) (lfv : List Int → L) (skip : Bool) (t : TS L) (s : Av1.St) (hq : QRel H t s) (hc : CdefRel F D t s)
    (hd : s.ReadDeltas = (H.dqPresent && decide (atSb H.sb128 c))) (ht : if atSb H.sb128 c then TabWeak H tbl lfv t else TabOk H tbl lfv t) :
    Same (segOk F P) (fun t' s' => QRel H t' s' ∧ CdefRel F D t' s' ∧ TabOk H tbl lfv t')
      (readDeltas H tbl lfv c skip t) (Av1.read_delta_qindex F P skip s >>= fun s => Av1.read_delta_lf F P skip s) := by
  unfold readDeltas
  by_cases ha : atSb H.sb128 c
  · rw [if_pos ha] at ht
    rw [decide_eq_true ha, Bool.and_true] at hd
    rw [if_pos (show c.x % sbStep H.sb128 = 0 ∧ c.y % sbStep H.sb128 = 0 from ha)]
    have := Same.bind (g := pure) (f := fun t' => pure (TS.tables H tbl lfv t t')) (Q := fun t' s' => QRel H t' s' ∧ CdefRel F D t' s' ∧ TabOk H tbl lfv t')
      (qlf_same hF hE skip t s hq hd) (by
        rintro t' s' ⟨h1, ⟨q, lf, h2⟩, h3⟩
        refine ⟨⟨h1.q, h1.lf, h1.still, h1.range, h1.len, h1.lfRange⟩, ?_, tables_ok tbl lfv ht h2⟩
        intro ho X Y hXY
        rw [h3]; subst h2; exact hc ho X Y hXY)
    rw [bind_assoc'] at this
    have e : (fun a => (Av1.read_delta_lf F P skip a >>= pure)) = fun s => Av1.read_delta_lf F P skip s := by
      funext a
      exact bind_pure' _
    rw [e] at this
    exact this
  · rw [if_neg ha] at ht
    rw [decide_eq_false ha, Bool.and_false] at hd
    rw [if_neg (show ¬ (c.x % sbStep H.sb128 = 0 ∧ c.y % sbStep H.sb128 = 0) from ha)]
    have e : Av1.read_delta_qindex F P skip s = pure s := by
      unfold Av1.read_delta_qindex
      simp only [hd, Bool.false_eq_true, if_false, ite_self]
    rw [e, pure_bind']
    unfold Av1.read_delta_lf
    rw [hd, Bool.false_and, if_neg (show ¬ (false = true) by decide)]
    have : Same (segOk F P) (fun t' s' => QRel H t' s' ∧ CdefRel F D t' s' ∧ TabOk H tbl lfv t') (pure t) (pure s) := ⟨hq, hc, ht⟩
    split <;> exact this

end

end Dav1d.Syn
