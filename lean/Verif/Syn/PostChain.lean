import Verif.Syn.SrChain
/-!
# C89: CDEF and loop restoration in one frame, without super-resolution
-/
set_option linter.unusedVariables false
namespace Dav1d.Post
open Dav1d.Syn.Lru (Cfg CfgOk RUnit Ptr lrSbrow E Enc loc)
open Dav1d.Syn.Lru.Av1 (unitRow unitCol unitRows unitCols LrUnit)
open Dav1d.Cdf (Pl Col Row y0 x0 first last St Deblock Saved filterSbrowCdef saveLines)
open Dav1d.Sres (Fr FrOk lr_rows row_unique Out)

/-- CdefFrame of the specification, for the frame `D` before CDEF. -/
def cdef (c : Fr) (D : Nat → Plane) (idx : Nat → Nat → Int) (skips : Nat → Nat → Bool) (pl : Nat) : Plane := fun Y X => Cdf.Av1.CdefFrame (Cdf.envOf c.f c.d c.hdr idx skips D) pl Y.toNat X.toNat

/-- LrFrame of the specification for a frame without super-resolution, where UpscaledCdefFrame is CdefFrame and UpscaledCurrFrame is the frame `D` before CDEF; a plane without restoration is CdefFrame. -/
def finalFrame (c : Fr) (D : Nat → Plane) (idx : Nat → Nat → Int) (skips : Nat → Nat → Bool) (units : Nat → Nat → Nat → LrUnit) (pl Y X : Nat) : Int :=
  if c.f.type pl = 0 then cdef c D idx skips pl Y X
  else Lrs.Av1.LrFrame (E c.f) c.d.bpc pl (cdef c D idx skips pl) (D pl) (units pl (unitRow (E c.f) pl Y) (unitCol (E c.f) pl X)) Y X

/-- Loop restoration of a row of superblocks, src/recon_tmpl.c:2091-2101, after lines of `saved` were saved from the frame `D` before CDEF. -/
def lr (c : Fr) (D : Nat → Plane) (saved : List Nat) (k : Nat) (fr : Nat → Plane) : Nat → Plane := fun pl => if c.f.type pl ≠ 0 then
  Lrs.lrSbrowPlane c.f pl c.tt c.d (c.junk pl k) (c.left pl k) (Lrs.copies c.f pl c.tt (D pl) saved (c.lines0 pl)) (c.mem pl) k (fr pl) else fr pl

/-- One thread, dav1d_filter_sbrow of src/recon_tmpl.c:2103-2113: a row of superblocks goes through the deblocking filter, CDEF and loop restoration, all in one frame, before the next one does. `k` are
done. Of the state before only the line buffer of CDEF has to be kept. -/
inductive One (c : Fr) (lpf D : Nat → Plane) : Nat → St → Prop
  | start (s : St) : One c lpf D 0 s
  | next {k : Nat} {s : St} (s' : St) : One c lpf D k s → k < c.f.sbh → Deblock c.f D k s.fr s'.fr → s'.line = s.line → s'.tf = s.tf →
      One c lpf D (k + 1) { filterSbrowCdef c.f c.d c.hdr false c.mask lpf k s' with fr := lr c D (List.range (k + 1)) k (filterSbrowCdef c.f c.d c.hdr false c.mask lpf k s').fr }

/-- More than one thread: `n` rows of superblocks went through the deblocking filter, lines of some were saved, some are through CDEF and some of these through loop restoration. -/
inductive Many (c : Fr) (D : Nat → Plane) : (n : Nat) → (saved done lrs : List Nat) → (fr lpf : Nat → Plane) → Prop
  | start (fr lpf : Nat → Plane) : Many c D 0 [] [] [] fr lpf
  | deblock {n : Nat} {saved done lrs : List Nat} {fr lpf : Nat → Plane} (fr' : Nat → Plane) : Many c D n saved done lrs fr lpf → n < c.f.sbh → Deblock c.f D n fr fr' → Many c D (n + 1) saved done lrs fr' lpf
  | save {n : Nat} {saved done lrs : List Nat} {fr lpf : Nat → Plane} (k : Nat) : Many c D n saved done lrs fr lpf → k < n → k ∉ saved → Many c D n (saved ++ [k]) done lrs fr (saveLines c.f k fr lpf)
  | cdef {n : Nat} {saved done lrs : List Nat} {lpf : Nat → Plane} (k : Nat) (s : St) : Many c D n saved done lrs s.fr lpf → k ∉ done → k ∈ saved → (k = 0 ∨ k - 1 ∈ saved) →
      Many c D n saved (k :: done) lrs (filterSbrowCdef c.f c.d c.hdr true c.mask lpf k s).fr lpf
  | restore {n : Nat} {saved done lrs : List Nat} {fr lpf : Nat → Plane} (k : Nat) : Many c D n saved done lrs fr lpf → k ∈ done → k ∉ lrs → Many c D n saved done (k :: lrs) (lr c D saved k fr) lpf

variable {c : Fr} {lpf D : Nat → Plane} {idx : Nat → Nat → Int} {skips : Nat → Nat → Bool} {units : Nat → Nat → Nat → LrUnit}

theorem planeH_le (f : Cfg) (pl : Nat) : Lrs.planeH f pl ≤ y0 f pl f.bh := by
  rw [Cdf.bh_eq, Cdf.y0_eq]
  unfold Lrs.planeH
  rcases Cdf.bkH_cases f pl with ⟨k, k'⟩ | ⟨k, k'⟩ <;> rw [k', k] <;> simp only [Nat.pow_zero, Nat.pow_one] <;> omega

theorem planeW_le {f : Cfg} (h : f.w = f.srw) (pl : Nat) : Lrs.planeW f pl ≤ x0 f pl f.bw := by
  rw [Cdf.bw_eq, Cdf.x0_eq]
  unfold Lrs.planeW
  rw [← h]
  rcases Cdf.bkW_cases f pl with ⟨k, k'⟩ | ⟨k, k'⟩ <;> rw [k', k] <;> simp only [Nat.pow_zero, Nat.pow_one] <;> omega

theorem cdef_range (h : FrOk c D idx skips units) {pl : Nat} (hp : Pl c.f pl) {Y X : Int} (h1 : 0 ≤ Y) (h2 : Y < y0 c.f pl c.f.bh) (h3 : 0 ≤ X) (h4 : X < x0 c.f pl c.f.bw) :
    0 ≤ cdef c D idx skips pl Y X ∧ cdef c D idx skips pl Y X ≤ c.d.max := by
  have e : (Cdf.envOf c.f c.d c.hdr idx skips D).CurrFrame pl Y.toNat X.toNat = D pl Y X := by show D pl (Y.toNat : Int) (X.toNat : Int) = _; rw [Int.toNat_of_nonneg h1, Int.toNat_of_nonneg h3]
  have hd := h.D pl hp Y X h1 h2 h3 h4
  rw [← e] at hd
  unfold cdef Cdf.Av1.CdefFrame
  simp only
  split_ifs
  · exact hd
  · have hv := Cdf.available_ok (hdr := c.hdr) (idx := idx) (skips := skips) h.D hp
    obtain ⟨a1, a2, a3, a4⟩ := Cdef.spec_acc c.d (Cdf.Av1.blockParams (Cdf.envOf c.f c.d c.hdr idx skips D) pl (Y.toNat * 2 ^ Cdf.Av1.subY (Cdf.envOf c.f c.d c.hdr idx skips D) pl / 8 * 2)
      (X.toNat * 2 ^ Cdf.Av1.subX (Cdf.envOf c.f c.d c.hdr idx skips D) pl / 8 * 2)) hv hd Y.toNat X.toNat Cdef.specTaps Cdef.spec_mem ⟨0, _, _⟩ hd.1 (Int.le_refl _) (Int.le_refl _) hd.2
    unfold Cdef.specFilter
    simp only
    have key : ∀ {v a b p : Int}, 0 ≤ a → a ≤ p → p ≤ b → b ≤ c.d.max → 0 ≤ iclip v a b ∧ iclip v a b ≤ c.d.max := by
      intro v a b p _ _ _ _
      unfold iclip
      split_ifs <;> omega
    exact key a1 a2 a3 a4

theorem lr_spec (h : FrOk c D idx skips units) (hw : c.f.w = c.f.srw) {k : Nat} (hk : k < c.f.sbh) {saved : List Nat} (hr : Lrs.Ready c.tt k saved) {fr : Nat → Plane}
    (hfr : ∀ pl Y X, Col c.f pl X → Row c.f k pl Y → fr pl Y X = Cdf.Av1.CdefFrame (Cdf.envOf c.f c.d c.hdr idx skips D) pl Y.toNat X.toNat) :
    (∀ pl Y X : Nat, Out c.f k pl Y X → lr c D saved k fr pl Y X = finalFrame c D idx skips units pl Y X) ∧
    (∀ pl Y X, Pl c.f pl → ¬Row c.f k pl Y → lr c D saved k fr pl Y X = fr pl Y X) := by
  have hc : ∀ pl Y X : Nat, Out c.f k pl Y X → fr pl Y X = cdef c D idx skips pl Y X := fun pl Y X ho => hfr pl Y X ⟨ho.1, ho.2.2.1, by have := planeW_le hw pl; have := ho.2.2.2; omega⟩ ho.2.1.1
  have main : ∀ pl, Pl c.f pl → (∀ Y X : Nat, Out c.f k pl Y X → lr c D saved k fr pl Y X = finalFrame c D idx skips units pl Y X) ∧ ∀ Y X, ¬Row c.f k pl Y → lr c D saved k fr pl Y X = fr pl Y X := by
    intro pl hp
    unfold lr finalFrame
    by_cases ht : c.f.type pl = 0
    · simp only [ht, ne_eq, not_true_eq_false, if_false, if_true]
      exact ⟨fun Y X => hc pl Y X, fun _ _ _ => trivial⟩
    · simp only [ne_eq, ht, not_false_eq_true, if_true, if_false]
      have hH := planeH_le c.f pl
      have hW := planeW_le hw pl
      obtain ⟨m1, m2⟩ := Lrs.C84_sbrow (tt := c.tt) (d := c.d) (C := cdef c D idx skips pl) (D := D pl) (mem := c.mem pl) (units := units pl) h.cfg ht
        (fun Y X g1 g2 g3 g4 => cdef_range h hp g1 (by omega) g3 (by omega)) (fun Y X g1 g2 g3 g4 => h.D pl hp Y X g1 (by omega) g3 (by omega)) (h.units pl ht) hk hr (c.lines0 pl) (c.junk pl k) (c.left pl k)
        (fr := fr pl) (fun Y X g1 g2 g3 => hc pl Y X ⟨hp, (lr_rows (pl := pl) h.size hk Y).1 ⟨by omega, by omega⟩, by omega, by omega⟩)
      refine ⟨fun Y X ho => ?_, fun Y X hn => m2 Y X fun hh => hn ((lr_rows (pl := pl) h.size hk Y).1 ⟨hh.1, hh.2.1⟩).1⟩
      have hrow := (lr_rows (pl := pl) h.size hk Y).2 ho.2.1
      exact m1 Y X (by omega) (by omega) (by have := ho.2.2.2; omega)
  exact ⟨fun pl Y X ho => (main pl ho.1).1 Y X ho, fun pl Y X hp => (main pl hp).2 Y X⟩

theorem one_inv (h : FrOk c D idx skips units) (hw : c.f.w = c.f.srw) (htt : c.tt = false) {k : Nat} {s : St} (hr : One c lpf D k s) : k ≤ c.f.sbh ∧
    (∀ j, j < k → ∀ pl Y X : Nat, Out c.f j pl Y X → s.fr pl Y X = finalFrame c D idx skips units pl Y X) ∧
    (k ≠ 0 → k < c.f.sbh → ∀ pl X, Col c.f pl X → ∀ r : Int, 0 ≤ r → r < 2 → s.line s.tf pl r X = D pl (y0 c.f pl (2 * first c.f k) - 2 + r) X) := by
  induction hr with
  | start s => exact ⟨Nat.zero_le _, fun j hj => absurd hj (by omega), fun h => absurd rfl h⟩
  | @next k s s' _ hk hd hl ht ih =>
    obtain ⟨i1, i2, i3⟩ := ih
    obtain ⟨c1, c2, c3⟩ := Cdf.C85_sbrow (tt := false) (lpf := lpf) h.hdr h.cfg.layout h.D h.mask hk s' (fun pl Y X hc hr => hd.2 pl Y X hc hr.1 (by have := hr.2; omega))
      (fun _ pl X hc r h1 h2 => ⟨fun h0 => by rw [hl, ht]; exact i3 h0 hk pl X hc r h1 h2, fun h3 =>
        hd.2 pl _ X hc (by have := Cdf.y0_mono c.f pl (a := first c.f k) (b := last c.f k) (by have := Cdf.first_le_last hk; omega); omega) (by rw [if_pos h3]; omega)⟩) (fun h => by cases h)
    obtain ⟨l1, l2⟩ := lr_spec h hw hk (saved := List.range (k + 1)) (by rw [htt]; unfold Lrs.Ready; rw [if_neg (by decide)]) c1
    refine ⟨hk, fun j hj pl Y X ho => ?_, fun _ hlt pl X hc r h1 h2 => ?_⟩
    · rcases (show j = k ∨ j < k by omega) with rfl | hj
      · exact l1 pl Y X ho
      · have m := Cdf.y0_mono c.f pl (Cdf.last_le_first hj hk)
        have hY := ho.2.1.1.2
        have hX : Col c.f pl X := ⟨ho.1, ho.2.2.1, by have := planeW_le hw pl; have := ho.2.2.2; omega⟩
        show lr c D (List.range (k + 1)) k (filterSbrowCdef c.f c.d c.hdr false c.mask lpf k s').fr pl Y X = _
        rw [l2 pl Y X ho.1 (fun g => by have := g.1; omega), c2 pl Y X ho.1 (fun g => by have := g.2.1; omega), hd.1 pl Y X hX (by omega)]
        exact i2 j hj pl Y X ho
    · rw [← Cdf.last_first hlt]
      exact c3 rfl hlt pl X hc r h1 h2

theorem all_rows {P : Nat → Prop} {fr : Nat → Plane} {F : Nat → Nat → Nat → Int} (hP : ∀ k, k < c.f.sbh → P k) (h : ∀ k, P k → ∀ pl Y X : Nat, Out c.f k pl Y X → fr pl Y X = F pl Y X)
    {pl Y X : Nat} (hp : Pl c.f pl) (hY : Y < Lrs.planeH c.f pl) (hX : X < Lrs.planeW c.f pl) : fr pl Y X = F pl Y X := by
  obtain ⟨k, k1, k2⟩ := Cdf.row_exists c.f pl (Y := Y) (by omega) (by have := planeH_le c.f pl; omega)
  exact h k (hP k k1) pl Y X ⟨hp, ⟨k2, by omega⟩, by omega, by omega⟩

/-- **C89.** One thread: when all rows of superblocks are done, each sample of the frame is that of the specification. -/
theorem C89_one (h : FrOk c D idx skips units) (hw : c.f.w = c.f.srw) (htt : c.tt = false) {s : St} (hr : One c lpf D c.f.sbh s) {pl Y X : Nat} (hp : Pl c.f pl) (hY : Y < Lrs.planeH c.f pl)
    (hX : X < Lrs.planeW c.f pl) : s.fr pl Y X = finalFrame c D idx skips units pl Y X :=
  all_rows (P := fun k => k < c.f.sbh) (fun _ h => h) (one_inv h hw htt hr).2.1 hp hY hX

theorem many_inv (h : FrOk c D idx skips units) (hw : c.f.w = c.f.srw) (htt : c.tt = true) {n : Nat} {saved done lrs : List Nat} {fr lpf : Nat → Plane} (hr : Many c D n saved done lrs fr lpf) :
    n ≤ c.f.sbh ∧ (∀ k ∈ saved, k < n) ∧ (∀ k ∈ done, k ∈ saved ∧ (k = 0 ∨ k - 1 ∈ saved)) ∧ (∀ k ∈ lrs, k ∈ done) ∧
    (∀ k, k < n → k ∉ lrs → ∀ pl Y X, Col c.f pl X → Row c.f k pl Y → fr pl Y X = if k ∈ done then Cdf.Av1.CdefFrame (Cdf.envOf c.f c.d c.hdr idx skips D) pl Y.toNat X.toNat else D pl Y X) ∧
    (∀ k ∈ lrs, ∀ pl Y X : Nat, Out c.f k pl Y X → fr pl Y X = finalFrame c D idx skips units pl Y X) ∧
    (∀ k, n = k + 1 → n < c.f.sbh → ∀ pl X, Col c.f pl X → ∀ r : Int, 0 ≤ r → r < 2 → fr pl (y0 c.f pl (2 * last c.f k) + r) X = D pl (y0 c.f pl (2 * last c.f k) + r) X) ∧
    (∀ k ∈ saved, Saved c.f D lpf k) := by
  have hcol : ∀ {k pl Y X : Nat}, Out c.f k pl Y X → Col c.f pl X := fun {k pl Y X} ho => ⟨ho.1, ho.2.2.1, by have := planeW_le hw pl; have := ho.2.2.2; omega⟩
  induction hr with
  | start fr lpf => exact ⟨Nat.zero_le _, by simp, by simp, by simp, fun k h => absurd h (by omega), by simp, fun k h => absurd h (by omega), by simp⟩
  | @deblock n saved done lrs fr lpf fr' _ hn hd ih =>
    obtain ⟨i1, i2, i3, i7, i4, i8, i5, i6⟩ := ih
    refine ⟨hn, fun k hk => by have := i2 k hk; omega, i3, i7, ?_, ?_, ?_, i6⟩
    · intro k hk hnl pl Y X hc hr
      rcases (show k = n ∨ k < n by omega) with rfl | hk
      · rw [if_neg (fun h => by have := i2 k (i3 k h).1; omega)]
        exact hd.2 pl Y X hc hr.1 (by have := hr.2; omega)
      · have := Cdf.y0_mono c.f pl (Cdf.last_le_first hk hn)
        have hY := hr.2
        rw [hd.1 pl Y X hc (by omega)]
        exact i4 k hk hnl pl Y X hc hr
    · intro k hk pl Y X ho
      have hkn := i2 k (i3 k (i7 k hk)).1
      have := Cdf.y0_mono c.f pl (Cdf.last_le_first hkn hn)
      have hY := ho.2.1.1.2
      rw [hd.1 pl Y X (hcol ho) (by omega)]
      exact i8 k hk pl Y X ho
    · intro k hk hlt pl X hc r h1 h2
      obtain rfl : n = k := by omega
      exact hd.2 pl _ X hc (by have := Cdf.y0_mono c.f pl (a := first c.f n) (b := last c.f n) (by have := Cdf.first_le_last hn; omega); omega) (by rw [if_pos hlt]; omega)
  | @save n saved done lrs fr lpf k _ hk hns ih =>
    obtain ⟨i1, i2, i3, i7, i4, i8, i5, i6⟩ := ih
    refine ⟨i1, fun j hj => ?_, fun j hj => ⟨List.mem_append_left _ (i3 j hj).1, (i3 j hj).2.imp id (List.mem_append_left _)⟩, i7, i4, i8, i5, ?_⟩
    · rcases List.mem_append.1 hj with hj | hj
      · exact i2 j hj
      · rw [List.mem_singleton.1 hj]; exact hk
    · intro j hj hlt pl hp r X hr hX0 hX1
      by_cases e : j = k
      · subst e
        rw [Cdf.saveLines_at fr lpf pl hlt r hr X]
        have hc : Col c.f pl X := ⟨hp, hX0, hX1⟩
        have hfl := Cdf.first_le_last (f := c.f) (k := j) (by omega)
        have m1 := Cdf.y0_mono c.f pl (a := first c.f j + 1) (b := last c.f j) (by omega)
        have m2 := Cdf.y0_succ c.f pl (first c.f j)
        have m3 := Cdf.bkH_ge c.f pl
        rcases (show r < 2 ∨ 2 ≤ r by omega) with h2 | h2
        · rw [i4 j hk (fun h => hns (i3 j (i7 j h)).1) pl _ X hc ⟨by omega, by omega⟩, if_neg (fun h => hns (i3 j h).1)]
        · by_cases hn : n = j + 1
          · have := i5 j hn (by omega) pl X hc ((r : Int) - 2) (by omega) (by omega)
            rw [show (y0 c.f pl (2 * last c.f j) : Int) - 2 + r = y0 c.f pl (2 * last c.f j) + (r - 2) by omega]
            exact this
          · have e := Cdf.last_first hlt
            have hfl := Cdf.first_le_last (f := c.f) (k := j + 1) hlt
            have m1 := Cdf.y0_mono c.f pl (a := first c.f (j + 1) + 1) (b := last c.f (j + 1)) (by omega)
            have m2 := Cdf.y0_succ c.f pl (first c.f (j + 1))
            have hnd : j + 1 ∉ done := fun h => hns ((i3 (j + 1) h).2.resolve_left (by omega))
            rw [i4 (j + 1) (by omega) (fun h => hnd (i7 _ h)) pl _ X hc ⟨by rw [e]; omega, by rw [e]; omega⟩, if_neg hnd]
      · rw [Cdf.saveLines_other fr lpf pl e r hr X]
        rcases List.mem_append.1 hj with hj | hj
        · exact i6 j hj hlt pl hp r X hr hX0 hX1
        · exact absurd (List.mem_singleton.1 hj) e
  | @cdef n saved done lrs lpf k s _ hnd hks hkp ih =>
    obtain ⟨i1, i2, i3, i7, i4, i8, i5, i6⟩ := ih
    have hkn := i2 k hks
    obtain ⟨c1, c2, _⟩ := Cdf.C85_sbrow (tt := true) (lpf := lpf) h.hdr h.cfg.layout h.D h.mask (sby := k) (by omega) s
      (fun pl Y X hc hr => by rw [i4 k hkn (fun h => hnd (i7 k h)) pl Y X hc hr, if_neg hnd]) (fun h => by cases h) (fun _ => ⟨i6 k hks, hkp.imp id (i6 (k - 1))⟩)
    have other : ∀ {j : Nat}, j < n → j ≠ k → ∀ pl Y X, Pl c.f pl → Row c.f j pl Y → (filterSbrowCdef c.f c.d c.hdr true c.mask lpf k s).fr pl Y X = s.fr pl Y X :=
      fun {j} hj e pl Y X hp hr => c2 pl Y X hp fun g => e (row_unique (by omega) (by omega) hr g.2)
    refine ⟨i1, i2, fun j hj => ?_, fun j hj => List.mem_cons_of_mem _ (i7 j hj), fun j hj hjl pl Y X hc hr => ?_, fun j hj pl Y X ho => ?_, fun j hj hlt pl X hc r h1 h2 => ?_, i6⟩
    · rcases List.mem_cons.1 hj with rfl | hj
      · exact ⟨hks, hkp⟩
      · exact i3 j hj
    · by_cases e : j = k
      · subst e
        rw [if_pos List.mem_cons_self]
        exact c1 pl Y X hc hr
      · rw [other hj e pl Y X hc.1 hr, i4 j hj hjl pl Y X hc hr]
        simp only [List.mem_cons, e, false_or]
    · rw [other (i2 j (i3 j (i7 j hj)).1) (fun e => hnd (e ▸ i7 j hj)) pl Y X ho.1 ho.2.1.1]
      exact i8 j hj pl Y X ho
    · rw [c2 pl _ X hc.1 ?_]
      · exact i5 j hj hlt pl X hc r h1 h2
      · rintro ⟨_, h⟩
        have r4 := h.2
        have := Cdf.y0_mono c.f pl (a := last c.f k) (b := last c.f j) (by
          rcases (show k = j ∨ k < j by omega) with rfl | h
          · exact Nat.le_refl _
          · have h1 := Cdf.last_le_first (f := c.f) h (by omega)
            have h2 := Cdf.first_le_last (f := c.f) (k := j) (by omega)
            omega)
        omega
  | @restore n saved done lrs fr lpf k _ hkd hkl ih =>
    obtain ⟨i1, i2, i3, i7, i4, i8, i5, i6⟩ := ih
    have hkn := i2 k (i3 k hkd).1
    obtain ⟨l1, l2⟩ := lr_spec h hw (k := k) (by omega) (saved := saved) (by rw [htt]; unfold Lrs.Ready; rw [if_pos rfl]; exact i3 k hkd) (fr := fr) (fun pl Y X hc hr => by rw [i4 k hkn hkl pl Y X hc hr, if_pos hkd])
    refine ⟨i1, i2, i3, fun j hj => ?_, fun j hj hjl pl Y X hc hr => ?_, fun j hj pl Y X ho => ?_, fun j hj hlt pl X hc r h1 h2 => ?_, i6⟩
    · rcases List.mem_cons.1 hj with rfl | hj
      · exact hkd
      · exact i7 j hj
    · have e : j ≠ k := fun e => hjl (e ▸ List.mem_cons_self)
      rw [l2 pl Y X hc.1 fun g => e (row_unique (by omega) (by omega) hr g)]
      exact i4 j hj (fun g => hjl (List.mem_cons_of_mem _ g)) pl Y X hc hr
    · by_cases e : j = k
      · subst e
        exact l1 pl Y X ho
      · have hj : j ∈ lrs := by
          rcases List.mem_cons.1 hj with g | g
          · exact absurd g e
          · exact g
        have hjn := i2 j (i3 j (i7 j hj)).1
        rw [l2 pl Y X ho.1 fun g => e (row_unique (by omega) (by omega) ho.2.1.1 g)]
        exact i8 j hj pl Y X ho
    · rw [l2 pl _ X hc.1 ?_]
      · exact i5 j hj hlt pl X hc r h1 h2
      · intro h
        have r4 := h.2
        have := Cdf.y0_mono c.f pl (a := last c.f k) (b := last c.f j) (by
          rcases (show k = j ∨ k < j by omega) with rfl | h
          · exact Nat.le_refl _
          · have h1 := Cdf.last_le_first (f := c.f) h (by omega)
            have h2 := Cdf.first_le_last (f := c.f) (k := j) (by omega)
            omega)
        omega

/-- **C89.** More than one thread: in whatever order the filters are run, rows of superblocks that went through all are as in the specification, and the frame is once all did. -/
theorem C89_many (h : FrOk c D idx skips units) (hw : c.f.w = c.f.srw) (htt : c.tt = true) {n : Nat} {saved done lrs : List Nat} {fr lpf : Nat → Plane} (hr : Many c D n saved done lrs fr lpf)
    (ha : ∀ k, k < c.f.sbh → k ∈ lrs) {pl Y X : Nat} (hp : Pl c.f pl) (hY : Y < Lrs.planeH c.f pl) (hX : X < Lrs.planeW c.f pl) : fr pl Y X = finalFrame c D idx skips units pl Y X := by
  obtain ⟨_, _, _, _, _, i8, _, _⟩ := many_inv h hw htt hr
  exact all_rows (P := fun k => k ∈ lrs) ha i8 hp hY hX

/-! ## Examples -/

/-- 200x136, 4:2:0, with Wiener filters for all planes. -/
def exV : Cfg := ⟨200, 136, 200, 8, 1, fun p => if p < 3 then 2 else 0, 6, 6, false⟩
def exFr (tt : Bool) (junk : Nat → Nat → Lr.Buf × Lr.Junk) (left : Nat → Nat → Nat → Nat → Int) (lines0 : Nat → Plane) : Fr :=
  ⟨exV, .b8, tt, Cdf.exHdr, fun _ => Cdf.exMask, fun _ _ => Lrs.exUnit, junk, left, lines0⟩

theorem exV_ok : CfgOk exV := by
  refine ⟨by decide, by decide, by decide, by decide, by decide, fun p => ?_, fun h => absurd h (by decide), by decide⟩
  show (if p < 3 then 2 else 0) ≤ 3 ∧ (3 ≤ p → (if p < 3 then 2 else 0) = 0)
  split_ifs <;> omega

theorem exFr_ok (tt : Bool) (junk : Nat → Nat → Lr.Buf × Lr.Junk) (left : Nat → Nat → Nat → Nat → Int) (lines0 : Nat → Plane) :
    FrOk (exFr tt junk left lines0) Cdf.exD Cdf.exIdx Cdf.exSkips (fun _ _ _ => .wiener (3, -7, 15) (2, -8, 16)) where
  cfg := exV_ok
  srw := show exV.srw ≤ 65536 by decide
  hdr := Cdf.exHdr_ok
  D := Cdf.exD_ok _
  mask := Cdf.exMask_ok _
  units := fun _ _ _ _ _ _ => ⟨rfl, rfl, rfl⟩

theorem exV_sbh : exV.sbh = 3 := by decide

/-- One thread. -/
example (junk : Nat → Nat → Lr.Buf × Lr.Junk) (left : Nat → Nat → Nat → Nat → Int) (lines0 lpf : Nat → Plane) (s0 : St) : ∃ s, One (exFr false junk left lines0) lpf Cdf.exD 3 s ∧
    ∀ pl Y X : Nat, pl ≤ 2 → Y < Lrs.planeH exV pl → X < Lrs.planeW exV pl →
      s.fr pl Y X = finalFrame (exFr false junk left lines0) Cdf.exD Cdf.exIdx Cdf.exSkips (fun _ _ _ => .wiener (3, -7, 15) (2, -8, 16)) pl Y X := by
  have lt : ∀ k, k < 3 → k < (exFr false junk left lines0).f.sbh := fun k hk => by show k < exV.sbh; rw [exV_sbh]; exact hk
  have h := One.next { s0 with fr := Cdf.exDeb exV 0 s0.fr } (One.start (c := exFr false junk left lines0) (lpf := lpf) (D := Cdf.exD) s0) (lt 0 (by decide)) (Cdf.exDeb_ok _ _ _) rfl rfl
  generalize ({ filterSbrowCdef _ _ _ _ _ _ _ _ with fr := _ } : St) = s1 at h
  have h := One.next { s1 with fr := Cdf.exDeb exV 1 s1.fr } h (lt 1 (by decide)) (Cdf.exDeb_ok _ _ _) rfl rfl
  generalize ({ filterSbrowCdef _ _ _ _ _ _ _ _ with fr := _ } : St) = s2 at h
  have h := One.next { s2 with fr := Cdf.exDeb exV 2 s2.fr } h (lt 2 (by decide)) (Cdf.exDeb_ok _ _ _) rfl rfl
  refine ⟨_, h, fun pl Y X hp hY hX => C89_one (lpf := lpf) (exFr_ok _ _ _ _) rfl rfl ?_ (Or.inr ⟨by show exV.layout ≠ 0; decide, hp⟩) hY hX⟩
  have e : (exFr false junk left lines0).f.sbh = 3 := exV_sbh
  rw [e]
  exact h

/-- Two rows of superblocks go through the deblocking filter, the second is filtered and restored, then the third comes; the first is last. -/
example (junk : Nat → Nat → Lr.Buf × Lr.Junk) (left : Nat → Nat → Nat → Nat → Int) (lines0 lpf0 fr0 : Nat → Plane) (loc : Nat → St) : ∃ fr lpf, Many (exFr true junk left lines0) Cdf.exD 3 [1, 0, 2] [0, 2, 1] [0, 2, 1] fr lpf ∧
    ∀ pl Y X : Nat, pl ≤ 2 → Y < Lrs.planeH exV pl → X < Lrs.planeW exV pl →
      fr pl Y X = finalFrame (exFr true junk left lines0) Cdf.exD Cdf.exIdx Cdf.exSkips (fun _ _ _ => .wiener (3, -7, 15) (2, -8, 16)) pl Y X := by
  have lt : ∀ k, k < 3 → k < (exFr true junk left lines0).f.sbh := fun k hk => by show k < exV.sbh; rw [exV_sbh]; exact hk
  have h := Many.start (c := exFr true junk left lines0) (D := Cdf.exD) fr0 lpf0
  have h := Many.deblock _ h (lt 0 (by decide)) (Cdf.exDeb_ok _ _ _)
  have h := Many.deblock _ h (lt 1 (by decide)) (Cdf.exDeb_ok _ _ _)
  have h := Many.save 1 h (by decide) (by decide)
  have h := Many.save 0 h (by decide) (by decide)
  have h := Many.cdef 1 { loc 1 with fr := _ } h (by decide) (by decide) (by decide)
  have h := Many.restore 1 h (by decide) (by decide)
  have h := Many.deblock _ h (lt 2 (by decide)) (Cdf.exDeb_ok _ _ _)
  have h := Many.save 2 h (by decide) (by decide)
  have h := Many.cdef 2 { loc 2 with fr := _ } h (by decide) (by decide) (by decide)
  have h := Many.restore 2 h (by decide) (by decide)
  have h := Many.cdef 0 { loc 0 with fr := _ } h (by decide) (by decide) (by decide)
  have h := Many.restore 0 h (by decide) (by decide)
  refine ⟨_, _, h, fun pl Y X hp hY hX => C89_many (exFr_ok _ _ _ _) rfl rfl h ?_ (Or.inr ⟨by show exV.layout ≠ 0; decide, hp⟩) hY hX⟩
  intro k hk
  have hk : k < 3 := exV_sbh ▸ hk
  have : k = 0 ∨ k = 1 ∨ k = 2 := by omega
  rcases this with rfl | rfl | rfl <;> decide

end Dav1d.Post
