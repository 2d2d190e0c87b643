import Verif.Syn.LrsStripe
/-!
# The units of a row of superblocks
-/
set_option linter.unusedVariables false
set_option linter.unusedSimpArgs false
namespace Dav1d.Lrs
open Dav1d.Syn.Lru (Cfg RUnit Ptr CfgOk lrSbrow rowUnits)
open Dav1d.Lr (Args Buf Junk)

variable {f : Cfg} {p : Nat}

theorem sb_arith {V st h sbh sby : Nat} (hV : V = 0 ∨ V = 1) (hst : st = 16 ∨ st = 32) (hs : sbh = ((h + 7) / 8 * 2 + st - 1) / st) (h0 : sby < sbh) (hh : 0 < h) :
    (sby + 1 < sbh → (sby + 1) * (st * 4 / 2 ^ V) < (h + V) / 2 ^ V) ∧ (¬sby + 1 < sbh → (h + V) / 2 ^ V ≤ (sby + 1) * (st * 4 / 2 ^ V)) ∧ sby * (st * 4 / 2 ^ V) < (h + V) / 2 ^ V := by
  rcases hV with rfl | rfl <;> rcases hst with rfl | rfl <;> simp only [Nat.reducePow, Nat.reduceDiv, Nat.reduceMul] <;> omega

theorem rows_arith {S O N sby sbh H y rowH o z : Nat} (n1 : S = 64 ∧ O = 8 ∨ S = 32 ∧ O = 4) (n2 : N = 1 ∨ N = 2) (ho : o = 8 ∨ o = 16) (h0 : sby < sbh)
    (a1 : sby + 1 < sbh → (sby + 1) * (S * N) < H) (a2 : ¬sby + 1 < sbh → H ≤ (sby + 1) * (S * N)) (a3 : sby * (S * N) < H)
    (hy : sby = 0 ∧ y = 0 ∨ sby ≠ 0 ∧ y = sby * (S * N) - O) (hr : sby + 1 < sbh ∧ rowH = min ((sby + 1) * (S * N) - O) H ∨ ¬sby + 1 < sbh ∧ rowH = min ((sby + 1) * (S * N)) H)
    (hz : y = 0 ∧ z = 0 ∨ y ≠ 0 ∧ z = o) :
    y = sby * N * S - O ∧ y < rowH ∧ rowH ≤ H ∧ (y + z) / (S * N) = sby ∧
    (sby + 1 ≠ sbh ∧ rowH = (sby * N + N) * S - O ∧ rowH < H ∨ sby + 1 = sbh ∧ rowH = H ∧ H ≤ (sby * N + N) * S) := by
  rcases n1 with ⟨rfl, rfl⟩ | ⟨rfl, rfl⟩ <;> rcases n2 with rfl | rfl <;> simp only [Nat.reduceMul] at * <;> (refine ⟨by omega, by omega, by omega, by omega, ?_⟩) <;>
    by_cases h1 : sby + 1 < sbh
  all_goals first
    | (have := a1 h1; left; refine ⟨by omega, by omega, by omega⟩)
    | (have := a2 h1; right; refine ⟨by omega, by omega, by omega⟩)

/-- The rows of a row of superblocks. -/
theorem rows (hf : CfgOk f) {sby : Nat} (hs : sby < f.sbh) :
    (lrSbrow f p sby).1 = sby * N f * S f p - O f p ∧ (lrSbrow f p sby).1 < (lrSbrow f p sby).2.1 ∧ (lrSbrow f p sby).2.1 ≤ planeH f p ∧
    (((lrSbrow f p sby).1 + if (lrSbrow f p sby).1 ≠ 0 then 8 * 2 ^ f.ssV p else 0) / 2 ^ lg f p = sby) ∧
    (decide (sby + 1 = f.sbh) = false ∧ (lrSbrow f p sby).2.1 = (sby * N f + N f) * S f p - O f p ∧ (lrSbrow f p sby).2.1 < planeH f p ∨
      decide (sby + 1 = f.sbh) = true ∧ (lrSbrow f p sby).2.1 = planeH f p ∧ planeH f p ≤ (sby * N f + N f) * S f p) := by
  have e1 : (lrSbrow f p sby).1 = yStripe f p sby := rfl
  have e2 : (lrSbrow f p sby).2.1 = min ((sby + 1) * 2 ^ lg f p - 8 / 2 ^ f.ssV p * if sby + 1 < f.sbh then 1 else 0) (planeH f p) := rfl
  rw [e1, e2, yStripe_eq, (num f p).2.2]
  have hst : f.step = 16 ∨ f.step = 32 := by unfold Cfg.step; split <;> simp
  obtain ⟨a1, a2, a3⟩ := sb_arith (ss_cases f p) hst (h := f.h) (sbh := f.sbh) rfl hs hf.h
  have e3 : f.step * 4 / 2 ^ f.ssV p = S f p * N f := by
    unfold Cfg.step S N
    rcases ss_cases f p with h | h <;> rw [h] <;> split <;> rfl
  have e4 : (f.h + f.ssV p) / 2 ^ f.ssV p = planeH f p := rfl
  have e5 : 8 / 2 ^ f.ssV p = O f p := rfl
  have e6 : 8 * 2 ^ f.ssV p = 8 ∨ 8 * 2 ^ f.ssV p = 16 := by rcases ss_cases f p with h | h <;> rw [h] <;> decide
  rw [e3, e4] at a1 a2 a3
  rw [e5]
  rw [decide_eq_false_iff_not, decide_eq_true_iff]
  refine rows_arith (o := 8 * 2 ^ f.ssV p) (num f p).1 (num f p).2.1 e6 hs a1 a2 a3 ?_ ?_ ?_
  · by_cases h : sby = 0
    · left; rw [if_pos h, h]; simp
    · right; rw [if_neg h]; exact ⟨h, rfl⟩
  · by_cases h : sby + 1 < f.sbh
    · left; rw [if_pos h, Nat.mul_one]; exact ⟨h, rfl⟩
    · right; rw [if_neg h]; exact ⟨h, rfl⟩
  · generalize (sby * (S f p * N f) - if sby = 0 then 0 else O f p) = yy
    by_cases h : yy = 0
    · exact Or.inl ⟨h, if_neg (not_not.2 h)⟩
    · exact Or.inr ⟨h, if_pos h⟩

variable {E : Syn.Lru.Av1.Env} {C D : Plane} {tt : Bool} {d : Depth} {junk : Buf × Junk} {lines : Plane} {sby : Nat}

/-- What is fixed for a row of superblocks. -/
structure Fixed (f : Cfg) (p : Nat) (E : Syn.Lru.Av1.Env) (C D : Plane) (tt : Bool) (d : Depth) (lines : Plane) (sby : Nat) : Prop where
  cfg : CfgOk f
  row : sby < f.sbh
  sub : E.subY p = f.ssV p
  endX : Av1.PlaneEndX E p = (planeW f p : Int) - 1
  endY : Av1.PlaneEndY E p = (planeH f p : Int) - 1
  rangeC : ∀ Y X : Int, 0 ≤ Y → Y < planeH f p → 0 ≤ X → X < planeW f p → 0 ≤ C Y X ∧ C Y X ≤ d.max
  rangeD : ∀ Y X : Int, 0 ≤ Y → Y < planeH f p → 0 ≤ X → X < planeW f p → 0 ≤ D Y X ∧ D Y X ≤ d.max
  good : Good f p tt D sby lines

/-- The filter at a position, with the samples of its stripe. -/
def atPos (E : Syn.Lru.Av1.Env) (p : Nat) (C D : Plane) (d : Depth) (u : RUnit) (Y X : Int) : Int :=
  gFn d u (Av1.get_source_sample E p C D (Av1.StripeStartY E p Y.toNat) (Av1.StripeEndY E p Y.toNat)) Y X

/-- One unit. -/
theorem unit_spec (hF : Fixed f p E C D tt d lines sby) {u : RUnit} (hu : u.type = 2 ∨ 3 ≤ u.type ∧ u.type < 19) {x w : Nat} {hasL hasR : Bool} {left : Nat → Nat → Int} {fr : Plane}
    (hw : 0 < w) (hx : x + w ≤ planeW f p) (hL : if hasL then 4 ≤ x else x = 0) (hR : if hasR then x + w + 3 ≤ planeW f p else x + w = planeW f p)
    (hf : ∀ Y X : Int, (lrSbrow f p sby).1 ≤ Y → Y < (lrSbrow f p sby).2.1 → x ≤ X → X < planeW f p → fr Y X = C Y X)
    (hl : hasL = true → ∀ j k : Nat, (lrSbrow f p sby).1 + j < (lrSbrow f p sby).2.1 → 1 ≤ k → k < 4 → left j k = C ((lrSbrow f p sby).1 + j) ((x : Int) - 4 + k)) (Y X : Int) :
    (((lrSbrow f p sby).1 ≤ Y ∧ Y < (lrSbrow f p sby).2.1 ∧ x ≤ X ∧ X < x + w) →
      lrStripe f p tt d junk lines u x (lrSbrow f p sby).1 w (lrSbrow f p sby).2.1 hasL hasR left fr Y X = atPos E p C D d u Y X) ∧
    (¬((lrSbrow f p sby).1 ≤ Y ∧ Y < (lrSbrow f p sby).2.1 ∧ x ≤ X ∧ X < x + w) →
      lrStripe f p tt d junk lines u x (lrSbrow f p sby).1 w (lrSbrow f p sby).2.1 hasL hasR left fr Y X = fr Y X) := by
  obtain ⟨r1, r2, r3, r4, r5⟩ := rows (p := p) hF.cfg hF.row
  have fe : (lrSbrow f p sby).1 + (64 - 8 * if (lrSbrow f p sby).1 = 0 then 1 else 0) / 2 ^ f.ssV p = stop f p (sby * N f) := (first_end f p sby).1
  unfold lrStripe
  simp only [r4]
  have hlpf : (if tt = true then (sby : Int) * (4 * if f.sb128 = true then 2 else 1) - 4 else 0) = line0 f tt sby := by
    unfold line0 N
    cases tt <;> cases f.sb128 <;> simp <;> omega
  rw [hlpf]
  generalize (lrSbrow f p sby).1 = y at *
  generalize (lrSbrow f p sby).2.1 = rowH at *
  exact stripes (E := E) (p := p) (C := C) (D := D) (W := planeW f p) (H := planeH f p) (f := f) (tt := tt) (sby := sby)
    (c := ⟨d, u, junk, lines, decide (sby + 1 = f.sbh), f.ssV p, x, w, rowH, hasL, hasR⟩) hF.sub hF.endX rfl hF.endY hu rfl hw hx hL hR hF.rangeC hF.rangeD hF.good r5
    (rowH + 1) (sby * N f) y _ _ _ left fr (Nat.le_refl _) r1 (by unfold stop at fe; rw [← fe, Nat.add_sub_cancel_left]) r2 (by show rowH < _; omega) (by simp) rfl
    (fun Y X h1 h2 h3 _ h5 => hf Y X h1 h2 h3 h5) hl Y X

theorem head_units (us shift w a b n x : Nat) : ∃ v, (rowUnits us shift w a b (n + 1) x).head? = some (x, v, (a + x / 2 ^ shift, b + x / 2 ^ (shift - 1) % 2)) := by
  unfold rowUnits
  simp only
  split
  · exact ⟨_, rfl⟩
  · exact ⟨_, rfl⟩

/-- All units of the row. -/
theorem units_spec (hF : Fixed f p E C D tt d lines sby) {mem : Ptr → RUnit} {us shift a b : Nat} (hU : 32 ≤ 2 ^ us) :
    ∀ (n x : Nat) (hasL : Bool) (left : Nat → Nat → Int) (fr : Plane),
      (∀ e ∈ rowUnits us shift (planeW f p) a b n x, (mem e.2.2).type = 0 ∨ (mem e.2.2).type = 2 ∨ 3 ≤ (mem e.2.2).type ∧ (mem e.2.2).type < 19) →
      x < planeW f p → planeW f p < x + n → (if hasL then 4 ≤ x else x = 0) →
      (∀ Y X : Int, (lrSbrow f p sby).1 ≤ Y → Y < (lrSbrow f p sby).2.1 → x ≤ X → X < planeW f p → fr Y X = C Y X) →
      (hasL = true → (mem (a + x / 2 ^ shift, b + x / 2 ^ (shift - 1) % 2)).type ≠ 0 →
        ∀ j k : Nat, (lrSbrow f p sby).1 + j < (lrSbrow f p sby).2.1 → 1 ≤ k → k < 4 → left j k = C ((lrSbrow f p sby).1 + j) ((x : Int) - 4 + k)) →
      ∀ Y X : Int,
        (((lrSbrow f p sby).1 ≤ Y ∧ Y < (lrSbrow f p sby).2.1 ∧ x ≤ X ∧ X < planeW f p) → ∃ e ∈ rowUnits us shift (planeW f p) a b n x, (e.1 ≤ X ∧ X < e.1 + e.2.1) ∧
          unitLoop f p tt d junk lines mem (lrSbrow f p sby).1 (lrSbrow f p sby).2.1 (rowUnits us shift (planeW f p) a b n x) hasL left fr Y X =
            if (mem e.2.2).type = 0 then C Y X else atPos E p C D d (mem e.2.2) Y X) ∧
        (¬((lrSbrow f p sby).1 ≤ Y ∧ Y < (lrSbrow f p sby).2.1 ∧ x ≤ X ∧ X < planeW f p) →
          unitLoop f p tt d junk lines mem (lrSbrow f p sby).1 (lrSbrow f p sby).2.1 (rowUnits us shift (planeW f p) a b n x) hasL left fr Y X = fr Y X) := by
  intro n
  induction n with
  | zero => intros; omega
  | succ n ih =>
    intro x hasL left fr hm hxW hn hL hf hl Y X
    by_cases hc : x + (2 ^ us + 2 ^ us / 2) ≤ planeW f p
    · have e : rowUnits us shift (planeW f p) a b (n + 1) x = (x, 2 ^ us, (a + x / 2 ^ shift, b + x / 2 ^ (shift - 1) % 2)) :: rowUnits us shift (planeW f p) a b n (x + 2 ^ us) := by
        conv => lhs; unfold rowUnits
        simp only [if_pos hc]
      rw [e] at hm ⊢
      generalize hpt : ((a + x / 2 ^ shift, b + x / 2 ^ (shift - 1) % 2) : Ptr) = pt at *
      obtain ⟨n, rfl⟩ : ∃ k, n = k + 1 := ⟨n - 1, by omega⟩
      obtain ⟨v, hv⟩ := head_units us shift (planeW f p) a b n (x + 2 ^ us)
      have hne : (rowUnits us shift (planeW f p) a b (n + 1) (x + 2 ^ us)).isEmpty = false := by
        cases h : rowUnits us shift (planeW f p) a b (n + 1) (x + 2 ^ us) with
        | nil => rw [h] at hv; simp at hv
        | cons _ _ => rfl
      unfold unitLoop
      simp only [hv, hne, Bool.not_false]
      have us1 := unit_spec (junk := junk) hF (u := mem pt) (x := x) (w := 2 ^ us) (hasL := hasL) (hasR := true) (left := left) (fr := fr)
      generalize hfr : (if (mem pt).type ≠ 0 then lrStripe f p tt d junk lines (mem pt) x (lrSbrow f p sby).1 (2 ^ us) (lrSbrow f p sby).2.1 hasL true left fr else fr) = fr'
      have b1 : ∀ Y X : Int, ((lrSbrow f p sby).1 ≤ Y ∧ Y < (lrSbrow f p sby).2.1 ∧ (x : Int) ≤ X ∧ X < x + (2 ^ us : Nat)) →
          fr' Y X = if (mem pt).type = 0 then C Y X else atPos E p C D d (mem pt) Y X := by
        intro Y X h
        rw [← hfr]
        by_cases ht : (mem pt).type = 0
        · rw [if_pos ht, if_neg (not_not.2 ht)]
          exact hf Y X h.1 h.2.1 h.2.2.1 (by omega)
        · rw [if_neg ht, if_pos ht]
          exact (us1 ((hm _ List.mem_cons_self).resolve_left ht) (by omega) (by omega) hL (by simp only [if_true]; omega) hf (fun g => hl g ht) Y X).1 h
      have b2 : ∀ Y X : Int, ¬((lrSbrow f p sby).1 ≤ Y ∧ Y < (lrSbrow f p sby).2.1 ∧ (x : Int) ≤ X ∧ X < x + (2 ^ us : Nat)) → fr' Y X = fr Y X := by
        intro Y X h
        rw [← hfr]
        by_cases ht : (mem pt).type = 0
        · rw [if_neg (not_not.2 ht)]
        · rw [if_pos ht]
          exact (us1 ((hm _ List.mem_cons_self).resolve_left ht) (by omega) (by omega) hL (by simp only [if_true]; omega) hf (fun g => hl g ht) Y X).2 h
      have rest := ih (x + 2 ^ us) true
        (if decide ((mem (a + (x + 2 ^ us) / 2 ^ shift, b + (x + 2 ^ us) / 2 ^ (shift - 1) % 2)).type ≠ 0) = true then fun j k => fr ((lrSbrow f p sby).1 + j) (x + (2 ^ us : Nat) - 4 + k) else left) fr'
        (fun e he => hm e (List.mem_cons_of_mem _ he)) (by omega) (by omega) (by simp only [if_true]; omega)
        (fun Y X h1 h2 h3 h4 => by rw [b2 Y X (by omega)]; exact hf Y X h1 h2 (by omega) h4)
        (fun _ ht j k h1 h2 h3 => by
          rw [if_pos (decide_eq_true ht), hf _ _ (by omega) (by omega) (by omega) (by omega)]
          congr 1) Y X
      constructor
      · intro h
        by_cases hx2 : X < x + (2 ^ us : Nat)
        · refine ⟨_, List.mem_cons_self, ⟨h.2.2.1, hx2⟩, ?_⟩
          refine (rest.2 (by omega)).trans ?_
          exact b1 Y X (by omega)
        · obtain ⟨e, he, h1, h2⟩ := rest.1 (by omega)
          exact ⟨e, List.mem_cons_of_mem _ he, h1, h2⟩
      · intro h
        refine (rest.2 (by omega)).trans ?_
        exact b2 Y X (by omega)
    · have e : rowUnits us shift (planeW f p) a b (n + 1) x = [(x, planeW f p - x, (a + x / 2 ^ shift, b + x / 2 ^ (shift - 1) % 2))] := by
        conv => lhs; unfold rowUnits
        simp only [if_neg hc]
      rw [e] at hm ⊢
      generalize hpt : ((a + x / 2 ^ shift, b + x / 2 ^ (shift - 1) % 2) : Ptr) = pt at *
      unfold unitLoop unitLoop
      simp only [List.isEmpty_nil, Bool.not_true]
      by_cases ht : (mem pt).type = 0
      · rw [if_neg (not_not.2 ht)]
        refine ⟨fun h => ⟨_, List.mem_singleton.2 rfl, ⟨h.2.2.1, by show X < (x : Int) + (planeW f p - x : Nat); omega⟩, ?_⟩, fun _ => rfl⟩
        rw [if_pos ht]
        exact hf Y X h.1 h.2.1 h.2.2.1 h.2.2.2
      · rw [if_pos ht]
        have us1 := unit_spec (junk := junk) hF (u := mem pt) (x := x) (w := planeW f p - x) (hasL := hasL) (hasR := false) (left := left) (fr := fr)
          ((hm _ (List.mem_singleton.2 rfl)).resolve_left ht) (by omega) (by omega) hL (by simp only [Bool.false_eq_true, if_false]; omega) hf (fun g => hl g ht) Y X
        refine ⟨fun h => ⟨_, List.mem_singleton.2 rfl, ⟨h.2.2.1, by show X < (x : Int) + (planeW f p - x : Nat); omega⟩, ?_⟩, fun h => us1.2 (by omega)⟩
        rw [if_neg ht]
        exact us1.1 (by omega)

end Dav1d.Lrs
