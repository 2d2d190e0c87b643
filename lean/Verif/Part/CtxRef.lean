import Verif.Part.CtxSpec
/-!
# The contexts for reference frames are those of the specification
-/
set_option linter.unusedVariables false
set_option linter.unusedSimpArgs false
namespace Dav1d.Part.Ctx

/-- What the contexts hold of a block of an inter frame, or of no block. -/
def refsOf : Option Blk → Refs
  | none => ⟨0, 0, -1, -1⟩
  | some b => match b.kind with
    | .inter _ comp r0 r1 _ _ _ _ => ⟨0, comp, r0, r1⟩
    | _ => ⟨1, 0, -1, -1⟩

/-- Only whether there are two references matters for most contexts. -/
def Refs.norm (r : Refs) : Refs := { r with comp := if r.comp = 0 then 0 else 1 }

theorem norm_cond (r : Refs) : (r.norm.comp = 0) = (r.comp = 0) := by
  unfold Refs.norm; dsimp only; split <;> simp_all

section
variable (a l : Refs) (t u : Bool)

theorem cntOf_norm (s : Int → Option Nat) (h : Bool) (i : Nat) : cntOf s a.norm h i = cntOf s a h i := by
  unfold cntOf; simp only [norm_cond, ne_eq]; rfl

theorem getIntraCtx_norm : getIntraCtx a.norm l.norm t u = getIntraCtx a l t u := rfl
theorem getCompCtx_norm : getCompCtx a.norm l.norm t u = getCompCtx a l t u := by
  unfold getCompCtx; simp only [norm_cond, ne_eq]; rfl
theorem hasUniComp_norm : hasUniComp a.norm = hasUniComp a := rfl
theorem getCompDirCtx_norm : getCompDirCtx a.norm l.norm t u = getCompDirCtx a l t u := by
  unfold getCompDirCtx
  have e1 : ∀ p : Prop, [Decidable p] → (if p then l.norm else a.norm) = (if p then l else a).norm := by intro p _; split <;> rfl
  have e2 : ∀ p : Prop, [Decidable p] → (if p then a.norm else l.norm) = (if p then a else l).norm := by intro p _; split <;> rfl
  simp only [e1, e2, norm_cond, ne_eq, hasUniComp_norm]; rfl
theorem getRefCtx_norm : getRefCtx a.norm l.norm t u = getRefCtx a l t u := by unfold getRefCtx; simp only [cntOf_norm]
theorem getFwdRefCtx_norm : getFwdRefCtx a.norm l.norm t u = getFwdRefCtx a l t u := by unfold getFwdRefCtx; simp only [cntOf_norm]
theorem getFwdRef1Ctx_norm : getFwdRef1Ctx a.norm l.norm t u = getFwdRef1Ctx a l t u := by unfold getFwdRef1Ctx; simp only [cntOf_norm]
theorem getFwdRef2Ctx_norm : getFwdRef2Ctx a.norm l.norm t u = getFwdRef2Ctx a l t u := by unfold getFwdRef2Ctx; simp only [cntOf_norm]
theorem getBwdRefCtx_norm : getBwdRefCtx a.norm l.norm t u = getBwdRefCtx a l t u := by unfold getBwdRefCtx; simp only [cntOf_norm]
theorem getBwdRef1Ctx_norm : getBwdRef1Ctx a.norm l.norm t u = getBwdRef1Ctx a l t u := by unfold getBwdRef1Ctx; simp only [cntOf_norm]
theorem getUniP1Ctx_norm : getUniP1Ctx a.norm l.norm t u = getUniP1Ctx a l t u := by unfold getUniP1Ctx; simp only [cntOf_norm]

end

/-- All cases. -/
def nbTable : List (Refs × Bool × Int × Int) :=
  [(Refs.mk 0 0 (-1) (-1), false, 0, -1), (Refs.mk 1 0 (-1) (-1), true, 0, -1)] ++
  ((List.range 7).flatMap fun (r : Nat) => [(Refs.mk 0 0 r (-1), true, (r : Int) + 1, -1), (Refs.mk 0 0 r (-1), true, (r : Int) + 1, 0)]) ++
  ((List.range 7).flatMap fun (r : Nat) => (List.range r).map fun (q : Nat) => (Refs.mk 0 1 q r, true, (q : Int) + 1, (r : Int) + 1))

theorem nb_mem {o : Option Blk} (h : ∀ b, o = some b → b.Valid true) :
    ((refsOf o).norm, (Av1.nb o).avail, (Av1.nb o).ref0, (Av1.nb o).ref1) ∈ nbTable := by
  cases o with
  | none => decide
  | some b =>
    have hv := h b rfl
    obtain ⟨sk, sp, k⟩ := b
    cases k with
    | intra m p lw lh => exact List.mem_append_left _ (List.mem_append_left _ (List.mem_cons_of_mem _ List.mem_cons_self))
    | copy => cases hv
    | inter sm comp r0 r1 f0 f1 md ii =>
      obtain ⟨-, h1, -, h2, h3, h4⟩ := hv
      obtain ⟨n, rfl⟩ := Int.eq_ofNat_of_zero_le h2
      have hn : n < 7 := by omega
      unfold nbTable refsOf Refs.norm Av1.nb Av1.refFrame0 Av1.refFrame1
      dsimp only
      by_cases h0 : comp = 0
      · subst h0
        rw [if_pos rfl] at h4
        subst h4
        refine List.mem_append_left _ (List.mem_append_right _ (List.mem_flatMap.2 ⟨n, List.mem_range.2 hn, ?_⟩))
        cases ii <;> simp
      · rw [if_neg h0] at h4
        obtain ⟨m, rfl⟩ := Int.eq_ofNat_of_zero_le (show 0 ≤ r1 by omega)
        refine List.mem_append_right _ (List.mem_flatMap.2 ⟨m, List.mem_range.2 (by omega), List.mem_map.2 ⟨n, List.mem_range.2 (by omega), ?_⟩⟩)
        simp [h0]

/-- All contexts agree. -/
def agree (a l : Refs × Bool × Int × Int) : Bool :=
  let t := a.2.1
  let u := l.2.1
  let A : Av1.Nb := ⟨a.2.1, a.2.2.1, a.2.2.2, 0, 0⟩
  let L : Av1.Nb := ⟨l.2.1, l.2.2.1, l.2.2.2, 0, 0⟩
  getIntraCtx a.1 l.1 t u == Av1.isInterCtx A L &&
  (getCompCtx a.1 l.1 t u == Av1.compModeCtx A L &&
  (getCompDirCtx a.1 l.1 t u == Av1.compRefTypeCtx A L &&
  (getRefCtx a.1 l.1 t u == Av1.singleRefP1 A L &&
  (getBwdRefCtx a.1 l.1 t u == Av1.singleRefP2 A L &&
  (getFwdRefCtx a.1 l.1 t u == Av1.singleRefP3 A L &&
  (getFwdRef1Ctx a.1 l.1 t u == Av1.singleRefP4 A L &&
  (getFwdRef2Ctx a.1 l.1 t u == Av1.singleRefP5 A L &&
  (getBwdRef1Ctx a.1 l.1 t u == Av1.singleRefP6 A L &&
  getUniP1Ctx a.1 l.1 t u == Av1.uniCompRefP1 A L))))))))

theorem all_agree : ∀ a ∈ nbTable, ∀ l ∈ nbTable, agree a l = true := by decide +kernel

section
variable {A L : Option Blk} (hA : ∀ b, A = some b → b.Valid true) (hL : ∀ b, L = some b → b.Valid true)
include hA hL

/-- The contexts for references of two neighbours of an inter frame. -/
theorem ref_ctxs :
    getIntraCtx (refsOf A) (refsOf L) A.isSome L.isSome = Av1.isInterCtx (Av1.nb A) (Av1.nb L) ∧
    getCompCtx (refsOf A) (refsOf L) A.isSome L.isSome = Av1.compModeCtx (Av1.nb A) (Av1.nb L) ∧
    getCompDirCtx (refsOf A) (refsOf L) A.isSome L.isSome = Av1.compRefTypeCtx (Av1.nb A) (Av1.nb L) ∧
    getRefCtx (refsOf A) (refsOf L) A.isSome L.isSome = Av1.singleRefP1 (Av1.nb A) (Av1.nb L) ∧
    getBwdRefCtx (refsOf A) (refsOf L) A.isSome L.isSome = Av1.singleRefP2 (Av1.nb A) (Av1.nb L) ∧
    getFwdRefCtx (refsOf A) (refsOf L) A.isSome L.isSome = Av1.singleRefP3 (Av1.nb A) (Av1.nb L) ∧
    getFwdRef1Ctx (refsOf A) (refsOf L) A.isSome L.isSome = Av1.singleRefP4 (Av1.nb A) (Av1.nb L) ∧
    getFwdRef2Ctx (refsOf A) (refsOf L) A.isSome L.isSome = Av1.singleRefP5 (Av1.nb A) (Av1.nb L) ∧
    getBwdRef1Ctx (refsOf A) (refsOf L) A.isSome L.isSome = Av1.singleRefP6 (Av1.nb A) (Av1.nb L) ∧
    getUniP1Ctx (refsOf A) (refsOf L) A.isSome L.isSome = Av1.uniCompRefP1 (Av1.nb A) (Av1.nb L) := by
  have h := all_agree _ (nb_mem hA) _ (nb_mem hL)
  have av : ∀ o : Option Blk, (Av1.nb o).avail = o.isSome := by intro o; cases o <;> rfl
  unfold agree at h
  dsimp only at h
  simp only [Bool.and_eq_true, beq_iff_eq, getIntraCtx_norm, getCompCtx_norm, getCompDirCtx_norm, getRefCtx_norm, getFwdRefCtx_norm,
    getFwdRef1Ctx_norm, getFwdRef2Ctx_norm, getBwdRefCtx_norm, getBwdRef1Ctx_norm, getUniP1Ctx_norm] at h
  obtain ⟨h1, h2, h3, h4, h5, h6, h7, h8, h9, h10⟩ := h
  rw [← av, ← av]
  exact ⟨h1, h2, h3, h4, h5, h6, h7, h8, h9, h10⟩

theorem mask_ctx : getMaskCompCtx (refsOf A) (refsOf L) = Av1.compGroupIdxCtx (Av1.nb A) (Av1.nb L) := by
  have one : ∀ o : Option Blk, (∀ b, o = some b → b.Valid true) →
      (if (refsOf o).comp ≥ 3 then 1 else if (refsOf o).ref0 = 6 then 3 else 0) =
      (if (Av1.nb o).avail then (if !(Av1.nb o).single then (Av1.nb o).group else if (Av1.nb o).ref0 = 7 then 3 else 0) else 0 : Nat) := by
    intro o ho
    cases o with
    | none => decide
    | some b =>
      have hv := ho b rfl
      obtain ⟨sk, sp, k⟩ := b
      cases k with
      | intra m p lw lh => simp [refsOf, Av1.nb, Av1.Nb.single, Av1.refFrame0, Av1.refFrame1]
      | copy => cases hv
      | inter sm comp r0 r1 f0 f1 md ii =>
        obtain ⟨-, h1, -, h2, h3, h4⟩ := hv
        simp only [refsOf, Av1.nb, Av1.Nb.single, Av1.refFrame0, Av1.refFrame1, Av1.compGroupIdx, if_true]
        by_cases h0 : comp = 0
        · subst h0
          have e : (r0 + 1 = 7) = (r0 = 6) := by simp only [eq_iff_iff]; omega
          by_cases h6 : r0 = 6 <;> cases ii <;> simp [e, h6]
        · rw [if_neg h0] at h4
          have e1 : ¬ (r1 + 1 ≤ 0) := by omega
          have e2 : ¬ (r0 = 6) := by omega
          have e3 : (comp ≥ 3) = (comp = 3 ∨ comp = 4) := by simp only [eq_iff_iff]; omega
          simp [h0, e1, e2, e3]
  unfold getMaskCompCtx Av1.compGroupIdxCtx
  dsimp only
  rw [one A hA, one L hL, Nat.min_comm]

theorem jnt_ctx (n : Nat) (poc p0 p1 : Int) : getJntCompCtx n poc p0 p1 (refsOf A) (refsOf L) =
    Av1.compoundIdxCtx (Av1.nb A) (Av1.nb L) (Av1.relativeDist n p0 poc).natAbs (Av1.relativeDist n p1 poc).natAbs := by
  have one : ∀ o : Option Blk, (∀ b, o = some b → b.Valid true) →
      (if (refsOf o).comp ≥ 2 ∨ (refsOf o).ref0 = 6 then 1 else 0) =
      (if (Av1.nb o).avail then (if !(Av1.nb o).single then (Av1.nb o).idx else if (Av1.nb o).ref0 = 7 then 1 else 0) else 0 : Nat) := by
    intro o ho
    cases o with
    | none => decide
    | some b =>
      have hv := ho b rfl
      obtain ⟨sk, sp, k⟩ := b
      cases k with
      | intra m p lw lh => simp [refsOf, Av1.nb, Av1.Nb.single, Av1.refFrame0, Av1.refFrame1]
      | copy => cases hv
      | inter sm comp r0 r1 f0 f1 md ii =>
        obtain ⟨-, h1, -, h2, h3, h4⟩ := hv
        simp only [refsOf, Av1.nb, Av1.Nb.single, Av1.refFrame0, Av1.refFrame1, Av1.compoundIdx, if_true]
        by_cases h0 : comp = 0
        · subst h0
          have e : (r0 + 1 = 7) = (r0 = 6) := by simp only [eq_iff_iff]; omega
          by_cases h6 : r0 = 6 <;> cases ii <;> simp [e, h6]
        · rw [if_neg h0] at h4
          have e1 : ¬ (r1 + 1 ≤ 0) := by omega
          have e2 : ¬ (r0 = 6) := by omega
          by_cases h1' : comp = 1
          · subst h1'; simp [e1, e2]
          · have e3 : comp ≥ 2 := by omega
            simp [h0, e1, e2, e3, h1']
  have pd : ∀ a b, pocDiff n a b = Av1.relativeDist n a b := by
    intro a b
    unfold pocDiff Av1.relativeDist
    dsimp only
    split
    · rfl
    · have :  ((a - b) / 2 ^ (n - 1)) % 2 = 0 ∨ ((a - b) / 2 ^ (n - 1)) % 2 = 1 := by omega
      rcases this with h | h <;> rw [h] <;> simp
  have sym : ∀ a b, (Av1.relativeDist n a b).natAbs = (Av1.relativeDist n b a).natAbs := by
    intro a b
    unfold Av1.relativeDist
    dsimp only
    split
    · rfl
    · have hm : (0 : Int) < 2 ^ (n - 1) := Int.pow_pos (by decide)
      generalize (2 : Int) ^ (n - 1) = m at hm
      have d1 := Int.emod_add_mul_ediv (a - b) m
      have d2 := Int.emod_add_mul_ediv (b - a) m
      have r1 := Int.emod_nonneg (a - b) (Int.ne_of_gt hm)
      have r2 := Int.emod_nonneg (b - a) (Int.ne_of_gt hm)
      have r3 := Int.emod_lt_of_pos (a - b) hm
      have r4 := Int.emod_lt_of_pos (b - a) hm
      generalize (a - b) % m = x at *
      generalize (b - a) % m = y at *
      generalize (a - b) / m = q at *
      generalize (b - a) / m = s at *
      have hs : m * (q + s) = -(x + y) := by rw [Int.mul_add]; omega
      have hqs : q + s = 0 ∨ q + s = -1 := by
        rcases Int.lt_trichotomy (q + s) 0 with h | h | h
        · right
          rcases Int.lt_trichotomy (q + s) (-1) with h' | h' | h'
          · exfalso
            have : m * (q + s) ≤ m * (-2) := Int.mul_le_mul_of_nonneg_left (by omega) (by omega)
            omega
          · exact h'
          · omega
        · exact .inl h
        · exfalso
          have : m * 1 ≤ m * (q + s) := Int.mul_le_mul_of_nonneg_left (by omega) (by omega)
          omega
      rcases hqs with h | h
      · rw [h] at hs
        have : x = 0 ∧ y = 0 := by omega
        have e : (q % 2 = 1) = (s % 2 = 1) := by simp only [eq_iff_iff]; omega
        rw [this.1, this.2]
        simp only [e]
      · rw [h] at hs
        have hxy : x + y = m := by omega
        by_cases hq : q % 2 = 1
        · have : ¬ s % 2 = 1 := by omega
          rw [if_pos hq, if_neg this]; omega
        · have : s % 2 = 1 := by omega
          rw [if_neg hq, if_pos this]; omega
  unfold getJntCompCtx Av1.compoundIdxCtx
  dsimp only
  rw [one A hA, one L hL, pd, pd, sym poc p1]
  by_cases h : (Av1.relativeDist n p0 poc).natAbs = (Av1.relativeDist n p1 poc).natAbs
  · rw [if_pos h, if_pos h]
  · rw [if_neg h, if_neg h]

end

end Dav1d.Part.Ctx
