import Verif.Syn.CdfRows
/-!
# Lemmas for C85: the lines that are saved before CDEF
-/
set_option linter.unusedVariables false
namespace Dav1d.Cdf
open Dav1d.Syn.Lru (Cfg)
open Dav1d.Lrs (Plane S O N lg planeH yStripe yStripe_eq num stop copyLpf copyLpf_saved copyLpf_other saveLoop saveLoop_at saveLoop_other line0 S_pos start0)
open Dav1d.Cdef

/-- The lines saved for the end of a row of superblocks. -/
def pos (f : Cfg) (k : Nat) : Int := if f.resized then (k : Int) * 4 else ((k : Int) + 1) * (if f.sb128 then 8 else 4) - 4

/-- dav1d_copy_lpf with more than one thread, src/lf_apply_tmpl.c:111-172, with the frame `fr`: the lines that CDEF uses, which are f->lf.lr_lpf_line or, with super-resolution, f->lf.cdef_lpf_line. -/
def saveLines (f : Cfg) (k : Nat) (fr lpf : Nat → Plane) : Nat → Plane := fun pl =>
  if f.resized then copyCdef f pl (fr pl) k (lpf pl) else copyLpf f pl true (fr pl) k (lpf pl)

theorem num2 (f : Cfg) (pl : Nat) : S f pl = 8 * bkH f pl ∧ O f pl = bkH f pl ∧ half f = 8 * N f ∧ (if f.sb128 = true then (8 : Int) else 4) = 4 * N f := by
  have : bkH f pl = O f pl := rfl
  rw [this]
  refine ⟨?_, rfl, ?_, ?_⟩
  · rcases (num f pl).1 with ⟨h, g⟩ | ⟨h, g⟩ <;> rw [h, g]
  · unfold half N; split <;> rfl
  · unfold N; split <;> rfl

theorem last_stop {f : Cfg} {k : Nat} (pl : Nat) (hk : k + 1 < f.sbh) : y0 f pl (2 * last f k) = stop f pl (k * N f + (N f - 1)) ∧ stop f pl (k * N f + (N f - 1)) + 2 ≤ planeH f pl ∧
    stop f pl (k * N f + (N f - 1)) = (k + 1) * (S f pl * N f) - O f pl ∧ 2 ≤ stop f pl (k * N f + (N f - 1)) := by
  obtain ⟨a1, a2, a3, _⟩ := num2 f pl
  obtain ⟨b1, b2, b3⟩ := sb_facts (Nat.lt_of_succ_lt hk)
  have b2 := b2 hk
  rw [y0_eq]
  unfold last stop
  rw [if_pos hk, a1, a2, a3]
  rw [a3, bh_eq] at b2
  have hn := (num f pl).2.1
  unfold planeH
  rcases bkH_cases f pl with ⟨h, e⟩ | ⟨h, e⟩ <;> rw [h, e] <;> rcases hn with h2 | h2 <;> rw [h2] at b2 ⊢ <;> simp <;> omega

theorem saveLines_at {f : Cfg} {k : Nat} (fr lpf : Nat → Plane) (pl : Nat) (hk : k + 1 < f.sbh) (r : Nat) (hr : r < 4) (X : Int) :
    saveLines f k fr lpf pl (pos f k + r) X = fr pl (y0 f pl (2 * last f k) - 2 + r) X := by
  obtain ⟨c1, c2, c3, c4⟩ := last_stop pl hk
  obtain ⟨_, _, _, a4⟩ := num2 f pl
  rw [c1]
  unfold saveLines pos
  rw [a4]
  split_ifs with h
  · unfold copyCdef
    have hn := num f pl
    have e : yStripe f pl k + ((64 <<< if f.sb128 then 1 else 0) - 8 * if yStripe f pl k = 0 then 1 else 0) / 2 ^ f.ssV pl = stop f pl (k * N f + (N f - 1)) := by
      rw [c3, yStripe_eq]
      unfold S O N
      rcases Lrs.ss_cases f pl with hv | hv <;> rw [hv] <;> cases f.sb128 <;> simp <;> split_ifs <;> omega
    have hS := S_pos f pl
    have := saveLoop_at (D := fr pl) (h := planeH f pl) (ss := f.ssV pl) (rowH := min ((k + 1) * 2 ^ lg f pl) (planeH f pl - 1)) (by omega) hS (planeH f pl + 1) (yStripe f pl k)
      (((64 <<< if f.sb128 then 1 else 0) - 8 * if yStripe f pl k = 0 then 1 else 0) / 2 ^ f.ssV pl) (k * 4 : Nat) (lpf pl) (by omega) 0 r hr
      (by rw [e, hn.2.2, Nat.zero_mul, Nat.add_zero]; rw [c3] at c2 ⊢; omega)
    rw [e, Nat.zero_mul, Nat.add_zero] at this
    rw [show (k : Int) * 4 + (r : Int) = (k * 4 : Nat) + 4 * ((0 : Nat) : Int) + r by omega, this]
    congr 1
    omega
  · have hn : 1 ≤ N f := by rcases (num f pl).2.1 with h | h <;> omega
    have := copyLpf_saved (D := fr pl) (f := f) (p := pl) (tt := true) (sby := k) (b := lpf pl) (m := N f - 1) (r := r) (by omega) hr (by omega)
    have e0 : line0 f true k = 4 * (k * N f : Nat) - 4 := rfl
    rw [show ((k : Int) + 1) * (4 * (N f : Int)) - 4 + (r : Int) = line0 f true k + 4 * ((N f - 1 + 1 : Nat) : Int) + r by
      rw [e0, Nat.sub_add_cancel hn]; rcases (num f pl).2.1 with h | h <;> rw [h] <;> omega, this]
    congr 1
    omega

theorem saveLines_other {f : Cfg} {k j : Nat} (fr lpf : Nat → Plane) (pl : Nat) (hj : j ≠ k) (r : Nat) (hr : r < 4) (X : Int) :
    saveLines f k fr lpf pl (pos f j + r) X = lpf pl (pos f j + r) X := by
  obtain ⟨_, _, _, a4⟩ := num2 f pl
  unfold saveLines pos
  rw [a4]
  split_ifs with h
  · unfold copyCdef
    rw [saveLoop_other 0 _ _ _ _ _ 1 ?_ _ (by omega)]
    rw [yStripe_eq, (num f pl).2.2]
    unfold S O N
    rcases Lrs.ss_cases f pl with hv | hv <;> rw [hv] <;> cases f.sb128 <;> simp <;> split_ifs <;> omega
  · have e0 : line0 f true k = 4 * (k * N f : Nat) - 4 := rfl
    rw [copyLpf_other (by rw [e0]; rcases (num f pl).2.1 with h | h <;> rw [h] <;> omega)]
    rfl

/-- The lines of a row of superblocks are those before CDEF. -/
def Saved (f : Cfg) (D lpf : Nat → Plane) (k : Nat) : Prop := k + 1 < f.sbh → ∀ pl, Pl f pl → ∀ (r : Nat) (X : Int), r < 4 → 0 ≤ X → X < x0 f pl f.bw → lpf pl (pos f k + r) X = D pl (y0 f pl (2 * last f k) - 2 + r) X

theorem last_first {f : Cfg} {k : Nat} (hk : k + 1 < f.sbh) : last f k = first f (k + 1) := by
  unfold last first
  rw [if_pos hk, if_neg (by omega)]

theorem lpfOk_of {f : Cfg} {D lpf : Nat → Plane} {k : Nat} (hs : k < f.sbh) (h1 : Saved f D lpf k) (h2 : k = 0 ∨ Saved f D lpf (k - 1)) : LpfOk f D lpf k := by
  intro pl hp r X g1 g2 g3 g4
  constructor
  · intro h
    obtain ⟨j, rfl⟩ : ∃ j, k = j + 1 := ⟨k - 1, by omega⟩
    have h2 := h2.resolve_left (by omega)
    rw [Nat.add_sub_cancel] at h2
    have := h2 (by omega) pl hp r.toNat X (by omega) g3 g4
    rw [Int.toNat_of_nonneg g1] at this
    rw [← last_first hs]
    rw [← this]
    congr 1
    unfold pos
    split_ifs <;> push_cast <;> omega
  · intro h
    have := h1 h pl hp (r.toNat + 2) X (by omega) g3 g4
    push_cast at this
    rw [Int.toNat_of_nonneg g1] at this
    rw [show (y0 f pl (2 * last f k) : Int) + r = y0 f pl (2 * last f k) - 2 + (r + 2) by omega, ← this]
    congr 1
    unfold pos
    split_ifs <;> omega
end Dav1d.Cdf
