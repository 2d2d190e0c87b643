import Verif.Syn.CdfStrip
/-!
# Lemmas for C85: the strips of a row of superblocks, and the lines saved with more than one thread
-/
namespace Dav1d.Cdf
open Dav1d.Syn.Lru (Cfg)
open Dav1d.Lrs (Plane planeH lg yStripe saveLoop copyLpf copies Good good_tt S O N stop line0 num yStripe_eq saveLoop_at saveLoop_other S_pos)
open Dav1d.Cdef

theorem y0_succ (f : Cfg) (pl K : Nat) : y0 f pl (2 * (K + 1)) = y0 f pl (2 * K) + bkH f pl := by
  rw [y0_eq, y0_eq, Nat.add_mul, Nat.one_mul]

theorem y0_mono (f : Cfg) (pl : Nat) {a b : Nat} (h : a ≤ b) : y0 f pl (2 * a) ≤ y0 f pl (2 * b) := by
  rw [y0_eq, y0_eq]
  exact Nat.mul_le_mul_right _ h

section
variable {c : Ctx} {idx : Nat → Nat → Int} {skips : Nat → Nat → Bool} {D : Nat → Plane}

/-- The loop over the strips up to the end. -/
theorem strips_spec (hh : HdrOk c.hdr) (hlay : c.f.layout ≤ 3) (hD : InRange c.f c.d D) : ∀ (n K : Nat) (s : St), c.byEnd = 2 * (K + n) → c.byEnd ≤ c.f.bh → c.byStart ≤ 2 * K →
    (∀ K', K ≤ K' → K' < K + n → RowOk c idx skips K') →
    (∀ pl, Pl c.f pl → ∀ Y X : Int, y0 c.f pl (2 * K) ≤ Y → Y < y0 c.f pl (2 * (K + n)) → 0 ≤ X → X < x0 c.f pl c.f.bw → s.fr pl Y X = D pl Y X) →
    (0 < n → 2 * K ≠ 0 → ∀ pl, Pl c.f pl → ∀ r X : Int, 0 ≤ r → r < 2 → 0 ≤ X → X < x0 c.f pl c.f.bw → topLn c (2 * K) s pl r X = D pl (y0 c.f pl (2 * K) - 2 + r) X) →
    (c.byEnd < c.f.bh → ∀ pl, Pl c.f pl → ∀ r X : Int, 0 ≤ r → r < 2 → 0 ≤ X → X < x0 c.f pl c.f.bw →
      (if c.tt = true ∧ c.sbrowStart = false then c.lpf pl ((if c.f.resized then (c.sby : Int) * 4 + 2 else (c.sby : Int) * (if c.f.sb128 then 8 else 4) + (if c.f.sb128 then 4 else 0) + 2) + r) X
        else s.fr pl (y0 c.f pl (2 * (K + n)) + r) X) = D pl (y0 c.f pl (2 * (K + n)) + r) X) →
    (∀ pl, Pl c.f pl → ∀ Y X : Int, (strips c n (2 * K) s).fr pl Y X = if y0 c.f pl (2 * K) ≤ Y ∧ Y < y0 c.f pl (2 * (K + n)) ∧ 0 ≤ X ∧ X < x0 c.f pl c.f.bw then
      Av1.CdefFrame (envOf c.f c.d c.hdr idx skips D) pl Y.toNat X.toNat else s.fr pl Y X) ∧
    (0 < n → (c.tt = false ∨ c.sbrowStart = true) → c.byEnd < c.f.bh → ∀ pl, Pl c.f pl → ∀ r X : Int, 0 ≤ r → r < 2 → 0 ≤ X → X < x0 c.f pl c.f.bw →
      (strips c n (2 * K) s).line (strips c n (2 * K) s).tf pl (lineOff c.tt c.sby pl + r) X = D pl (y0 c.f pl (2 * (K + n)) - 2 + r) X)
  | 0, K, s, _, _, _, _, _, _, _ => by
    refine ⟨?_, fun h => by omega⟩
    intro pl _ Y X
    rw [if_neg (by rw [Nat.add_zero]; omega)]
    rfl
  | n + 1, K, s, he, hb, hst, hM, hF, hT, hB => by
    have hmono := fun pl => y0_mono c.f pl (a := K + 1) (b := K + (n + 1)) (by omega)
    have hsucc := fun pl => y0_succ c.f pl K
    have hge := fun pl => bkH_ge c.f pl
    have hRdy : Ready c D (2 * K) s := by
      intro pl hp
      have hm := hmono pl
      have hs := hsucc pl
      refine ⟨fun Y X g1 g2 g3 g4 => hF pl hp Y X g1 (by omega) g3 g4, fun g => hT (Nat.succ_pos _) g pl hp, ?_⟩
      intro g r X g1 g2 g3 g4
      unfold botLn
      have hbk := hge pl
      rcases Nat.eq_zero_or_pos n with hn | hn
      · subst hn
        have := hB (by omega) pl hp r X g1 g2 g3 g4
        rw [Nat.zero_add] at this
        rw [show (y0 c.f pl (2 * K) : Int) + bkH c.f pl + r = y0 c.f pl (2 * (K + 1)) + r by omega, ← this]
        by_cases hc : c.tt = true ∧ c.sbrowStart = false
        · rw [if_pos hc, if_pos ⟨hc.1, by rw [hc.2]; simp, by rw [hc.2]; simp, by omega⟩]
        · rw [if_neg hc, if_neg (by
            rintro ⟨k1, _, k2, _⟩
            exact hc ⟨k1, by cases hq : c.sbrowStart; · rfl
                             · exact absurd hq k2⟩), ← hs]
      · rw [if_neg (by omega)]
        have hm2 := y0_mono c.f pl (a := K + 2) (b := K + (n + 1)) (by omega)
        have hs2 := y0_succ c.f pl (K + 1)
        rw [show K + 1 + 1 = K + 2 by omega] at hs2
        rw [hF pl hp _ X (by omega) (by omega) g3 g4]
        congr 1
    obtain ⟨q1, q2, q3⟩ := strip_spec hh hlay hD (hM K (Nat.le_refl _) (by omega)) hRdy (by omega)
    have hq3 : 2 * K + 2 < c.f.bh → (c.tt = false ∨ c.sbrowStart = true ∨ 0 < n) → ∀ pl, Pl c.f pl → ∀ r X : Int, 0 ≤ r → r < 2 → 0 ≤ X → X < x0 c.f pl c.f.bw →
        (strip c (2 * K) s).line (strip c (2 * K) s).tf pl (lineOff c.tt c.sby pl + r) X = D pl (y0 c.f pl (2 * (K + 1)) - 2 + r) X := by
      intro g1 g2 pl hp r X k1 k2 k3 k4
      rw [q1, q3 (by rcases g2 with g | g | g; · exact Or.inl g
                     · exact Or.inr (Or.inl g)
                     · exact Or.inr (Or.inr (by omega))) g1 pl hp r X k1 k2 k3 k4]
      have hs := hsucc pl
      congr 1
      omega
    obtain ⟨r1, r2⟩ := strips_spec hh hlay hD n (K + 1) (strip c (2 * K) s) (by rw [he]; omega) hb (by omega) (fun K' g1 g2 => hM K' (by omega) (by omega))
      (by
        intro pl hp Y X g1 g2 g3 g4
        have hs := hsucc pl
        rw [show K + 1 + n = K + (n + 1) by omega] at g2
        rw [q2 pl hp, if_neg (by omega)]
        exact hF pl hp Y X (by omega) g2 g3 g4)
      (by
        intro hn _ pl hp r X g1 g2 g3 g4
        · unfold topLn
          rw [if_neg (by omega)]
          exact hq3 (by omega) (Or.inr (Or.inr hn)) pl hp r X g1 g2 g3 g4)
      (by
        intro g pl hp r X g1 g2 g3 g4
        have := hB g pl hp r X g1 g2 g3 g4
        have hs := hsucc pl
        have hm := hmono pl
        rw [show K + 1 + n = K + (n + 1) by omega, q2 pl hp, if_neg (c := _ ∧ _ ∧ _ ∧ _) (by omega)]
        exact this)
    rw [show K + 1 + n = K + (n + 1) by omega] at r1 r2
    refine ⟨?_, ?_⟩
    · intro pl hp Y X
      show (strips c n (2 * (K + 1)) (strip c (2 * K) s)).fr pl Y X = _
      have hs := hsucc pl
      have hm := hmono pl
      rw [r1 pl hp, q2 pl hp]
      by_cases g : (y0 c.f pl (2 * (K + 1)) : Int) ≤ Y ∧ Y < y0 c.f pl (2 * (K + (n + 1))) ∧ 0 ≤ X ∧ X < x0 c.f pl c.f.bw
      · rw [if_pos g, if_pos (by omega)]
      · rw [if_neg g]
        by_cases g' : (y0 c.f pl (2 * K) : Int) ≤ Y ∧ Y < y0 c.f pl (2 * K) + bkH c.f pl ∧ 0 ≤ X ∧ X < x0 c.f pl c.f.bw
        · rw [if_pos g', if_pos (by omega)]
        · rw [if_neg g', if_neg (by omega)]
    · intro _ g1 g2
      rcases Nat.eq_zero_or_pos n with hn | hn
      · subst hn
        exact hq3 (by omega) (g1.imp id Or.inl)
      · exact r2 hn g1 g2
end

/-! ## A row of superblocks -/

/-- The masks of the frame hold `cdef_idx` for 64x64 and `Skips` for 4x4 luma samples: a bit is not set if both units of 4x4 in a strip of 8 rows are skipped. -/
structure MaskOk (f : Cfg) (mask : Nat → Mask) (idx : Nat → Nat → Int) (skips : Nat → Nat → Bool) : Prop where
  lo : ∀ a r, ((mask a).noskip r).1 < 2 ^ 16
  idx : ∀ r c, r < f.bh → c < f.bw → idx r c = (mask (r / 32 * f.sb128w + c / 32)).cdefIdx (r % 32 / 16 * 2 + c % 32 / 16)
  skip : ∀ r c, r < f.bh → c < f.bw → r % 2 = 0 → bitOf ((mask (r / 32 * f.sb128w + c / 32)).noskip (r % 32 / 2)) (c % 32) = !(skips r c && skips (r + 1) c)

/-- Half of the height of a superblock in units of 4. -/
def half (f : Cfg) : Nat := if f.sb128 then 16 else 8

/-- The rows, in units of 8 luma rows, that are filtered with a row of superblocks: 8 luma rows less at the end than it has, if there is another one, and 8 from the one before. -/
def first (f : Cfg) (sby : Nat) : Nat := sby * half f - if sby = 0 then 0 else 1
def last (f : Cfg) (sby : Nat) : Nat := if sby + 1 < f.sbh then (sby + 1) * half f - 1 else f.bh / 2

theorem half_cases (f : Cfg) : f.sb128 = true ∧ half f = 16 ∧ f.step = 32 ∨ f.sb128 = false ∧ half f = 8 ∧ f.step = 16 := by
  unfold half Cfg.step
  cases f.sb128 <;> simp

theorem sb_facts {f : Cfg} {sby : Nat} (hs : sby < f.sbh) : 2 * (sby * half f) < f.bh ∧ (sby + 1 < f.sbh → 2 * ((sby + 1) * half f) < f.bh) ∧ (¬sby + 1 < f.sbh → f.bh ≤ 2 * ((sby + 1) * half f)) := by
  have : f.sbh = (f.bh + f.step - 1) / f.step := rfl
  rw [this] at hs ⊢
  rcases half_cases f with ⟨_, h1, h2⟩ | ⟨_, h1, h2⟩ <;> rw [h2] at hs ⊢ <;> rw [h1] <;> omega

theorem rowOk_of {f : Cfg} {mask : Nat → Mask} {idx : Nat → Nat → Int} {skips : Nat → Nat → Bool} (hM : MaskOk f mask idx skips) {c : Ctx} (hc : c.f = f) {K : Nat} (hK : 2 * K < f.bh)
    (hl : ∀ k, c.lflvl k = mask (2 * K / 32 * f.sb128w + k)) : RowOk c idx skips K := by
  refine ⟨fun a r => by rw [hl]; exact hM.lo _ _, fun bx h => ?_, fun bx h => ?_⟩
  · rw [hl]
    exact hM.idx _ _ hK (by rw [← hc]; exact h)
  · rw [hl]
    exact hM.skip _ _ hK (by rw [← hc]; exact h) (by omega)

/-- The lines before CDEF that are used with more than one thread. -/
def LpfOk (f : Cfg) (D lpf : Nat → Plane) (sby : Nat) : Prop := ∀ pl, Pl f pl → ∀ r X : Int, 0 ≤ r → r < 2 → 0 ≤ X → X < x0 f pl f.bw →
  (sby ≠ 0 → lpf pl ((if f.resized then ((sby : Int) - 1) * 4 else (sby : Int) * (if f.sb128 then 8 else 4) - 4) + r) X = D pl (y0 f pl (2 * first f sby) - 2 + r) X) ∧
  (sby + 1 < f.sbh → lpf pl ((if f.resized then (sby : Int) * 4 + 2 else (sby : Int) * (if f.sb128 then 8 else 4) + (if f.sb128 then 4 else 0) + 2) + r) X = D pl (y0 f pl (2 * last f sby) + r) X)

section
variable {f : Cfg} {d : Depth} {hdr : Hdr} {tt : Bool} {mask : Nat → Mask} {idx : Nat → Nat → Int} {skips : Nat → Nat → Bool} {D lpf : Nat → Plane} {sby : Nat}

theorem sbrow_spec (hh : HdrOk hdr) (hlay : f.layout ≤ 3) (hD : InRange f d D) (hM : MaskOk f mask idx skips) (hs : sby < f.sbh) (s : St)
    (hF : ∀ pl, Pl f pl → ∀ Y X : Int, y0 f pl (2 * first f sby) ≤ Y → Y < y0 f pl (2 * last f sby) → 0 ≤ X → X < x0 f pl f.bw → s.fr pl Y X = D pl Y X)
    (hOne : tt = false → ∀ pl, Pl f pl → ∀ r X : Int, 0 ≤ r → r < 2 → 0 ≤ X → X < x0 f pl f.bw →
      (sby ≠ 0 → s.line s.tf pl r X = D pl (y0 f pl (2 * first f sby) - 2 + r) X) ∧ (sby + 1 < f.sbh → s.fr pl (y0 f pl (2 * last f sby) + r) X = D pl (y0 f pl (2 * last f sby) + r) X))
    (hTt : tt = true → LpfOk f D lpf sby) :
    (∀ pl, Pl f pl → ∀ Y X : Int, (filterSbrowCdef f d hdr tt mask lpf sby s).fr pl Y X =
      if y0 f pl (2 * first f sby) ≤ Y ∧ Y < y0 f pl (2 * last f sby) ∧ 0 ≤ X ∧ X < x0 f pl f.bw then Av1.CdefFrame (envOf f d hdr idx skips D) pl Y.toNat X.toNat else s.fr pl Y X) ∧
    (tt = false → sby + 1 < f.sbh → ∀ pl, Pl f pl → ∀ r X : Int, 0 ≤ r → r < 2 → 0 ≤ X → X < x0 f pl f.bw →
      (filterSbrowCdef f d hdr tt mask lpf sby s).line (filterSbrowCdef f d hdr tt mask lpf sby s).tf pl r X = D pl (y0 f pl (2 * last f sby) - 2 + r) X) := by
  obtain ⟨b1, b2, b3⟩ := sb_facts hs
  have hbh := bh_eq f
  have hlast1 : sby * half f < last f sby ∧ 2 * last f sby ≤ f.bh ∧ (sby + 1 < f.sbh ↔ 2 * last f sby < f.bh) := by
    unfold last
    split_ifs with h
    · have := b2 h
      rw [Nat.add_mul, Nat.one_mul] at this ⊢
      rcases half_cases f with ⟨_, g, _⟩ | ⟨_, g, _⟩ <;> rw [g] at this ⊢ <;> exact ⟨by omega, by omega, by constructor <;> omega⟩
    · generalize (f.h + 7) / 8 = NR at hbh
      refine ⟨by omega, by omega, by constructor <;> omega⟩
  obtain ⟨l1, l2, l3⟩ := hlast1
  -- the second call
  have hB : ∀ s' : St, (∀ pl, Pl f pl → ∀ Y X : Int, y0 f pl (2 * (sby * half f)) ≤ Y → Y < y0 f pl (2 * last f sby) → 0 ≤ X → X < x0 f pl f.bw → s'.fr pl Y X = D pl Y X) →
      (2 * (sby * half f) ≠ 0 → ∀ pl, Pl f pl → ∀ r X : Int, 0 ≤ r → r < 2 → 0 ≤ X → X < x0 f pl f.bw → s'.line s'.tf pl (lineOff tt sby pl + r) X = D pl (y0 f pl (2 * (sby * half f)) - 2 + r) X) →
      (tt = false → ∀ pl, Pl f pl → ∀ r X : Int, 0 ≤ r → r < 2 → 0 ≤ X → X < x0 f pl f.bw → sby + 1 < f.sbh → s'.fr pl (y0 f pl (2 * last f sby) + r) X = D pl (y0 f pl (2 * last f sby) + r) X) →
      let c : Ctx := ⟨f, d, hdr, tt, lpf, fun k => mask ((if f.sb128 then sby else sby / 2) * f.sb128w + k), sby, sby * f.step, min (sby * f.step + (f.step - 2 * if sby + 1 < f.sbh then 1 else 0)) f.bh, false⟩
      (∀ pl, Pl f pl → ∀ Y X : Int, (cdefBrow c s').fr pl Y X = if y0 f pl (2 * (sby * half f)) ≤ Y ∧ Y < y0 f pl (2 * last f sby) ∧ 0 ≤ X ∧ X < x0 f pl f.bw then
        Av1.CdefFrame (envOf f d hdr idx skips D) pl Y.toNat X.toNat else s'.fr pl Y X) ∧
      (tt = false → sby + 1 < f.sbh → ∀ pl, Pl f pl → ∀ r X : Int, 0 ≤ r → r < 2 → 0 ≤ X → X < x0 f pl f.bw →
        (cdefBrow c s').line (cdefBrow c s').tf pl r X = D pl (y0 f pl (2 * last f sby) - 2 + r) X) := by
    intro s' k1 k2 k3 c
    have he : c.byEnd = 2 * last f sby := by
      show min (sby * f.step + (f.step - 2 * if sby + 1 < f.sbh then 1 else 0)) f.bh = _
      unfold last
      generalize (f.h + 7) / 8 = NR at hbh
      split_ifs with h
      · have := b2 h
        rw [Nat.add_mul, Nat.one_mul] at this ⊢
        rcases half_cases f with ⟨_, g, g'⟩ | ⟨_, g, g'⟩ <;> rw [g'] <;> rw [g] at this ⊢ <;> omega
      · have := b3 h
        rw [Nat.add_mul, Nat.one_mul] at this
        rcases half_cases f with ⟨_, g, g'⟩ | ⟨_, g, g'⟩ <;> rw [g'] <;> rw [g] at this <;> omega
    have hst : c.byStart = 2 * (sby * half f) := by
      show sby * f.step = _
      rcases half_cases f with ⟨_, g, g'⟩ | ⟨_, g, g'⟩ <;> rw [g', g] <;> omega
    obtain ⟨n, hn⟩ : ∃ n, last f sby = sby * half f + n := ⟨last f sby - sby * half f, by omega⟩
    have hn1 : (c.byEnd - c.byStart + 1) / 2 = n := by rw [he, hst]; omega
    have := strips_spec (c := c) (idx := idx) (skips := skips) hh hlay hD n (sby * half f) { s' with bit := false } (by rw [he, hn]) (by rw [he]; exact l2) (by rw [hst])
      (fun K' g1 g2 => rowOk_of hM rfl (by omega) (fun k => by
        show mask ((if f.sb128 then sby else sby / 2) * f.sb128w + k) = _
        congr 3
        have hl : K' < (sby + 1) * half f := by
          have : last f sby ≤ (sby + 1) * half f := by
            unfold last
            split_ifs with h
            · omega
            · have := b3 h
              omega
          omega
        rw [Nat.add_mul, Nat.one_mul] at hl
        rcases half_cases f with ⟨g, g', _⟩ | ⟨g, g', _⟩ <;> rw [g'] at g1 hl <;> rw [g] <;> simp <;> omega))
      (by rw [← hn]; exact k1)
      (by
        intro _ g pl hp r X q1 q2 q3 q4
        unfold topLn
        rw [if_neg (by rintro ⟨_, h, _⟩; cases h)]
        exact k2 g pl hp r X q1 q2 q3 q4)
      (by
        intro g pl hp r X q1 q2 q3 q4
        rw [← hn]
        have hlt : sby + 1 < f.sbh := l3.2 (by rw [← he]; exact g)
        cases htt : tt with
        | true =>
          rw [if_pos ⟨htt, rfl⟩]
          exact (hTt htt pl hp r X q1 q2 q3 q4).2 hlt
        | false =>
          rw [if_neg (by rintro ⟨h, _⟩; exact absurd (h.symm.trans htt) (by decide))]
          exact k3 htt pl hp r X q1 q2 q3 q4 hlt)
    rw [← hn] at this
    unfold cdefBrow
    rw [hn1, hst]
    refine ⟨this.1, ?_⟩
    intro h1 h2 pl hp r X q1 q2 q3 q4
    have h4 := this.2 (by omega) (Or.inl h1) (by rw [he]; exact l3.1 h2) pl hp r X q1 q2 q3 q4
    have e0 : lineOff c.tt c.sby pl = 0 := by
      show (if tt = true then _ else _) = _
      rw [h1]
      rfl
    rw [e0, Int.zero_add] at h4
    exact h4
  unfold filterSbrowCdef
  simp only []
  by_cases h0 : sby = 0
  · rw [if_neg (not_not.2 h0)]
    have hf0 : first f sby = sby * half f := by unfold first; rw [if_pos h0]; rfl
    rw [hf0] at hF ⊢
    exact hB s hF (fun g => by rw [h0] at g; omega) (fun h pl hp r X q1 q2 q3 q4 => (hOne h pl hp r X q1 q2 q3 q4).2)
  · rw [if_pos h0]
    have hfi : sby * half f = first f sby + 1 := by
      unfold first
      rw [if_neg h0]
      rcases half_cases f with ⟨_, g, _⟩ | ⟨_, g, _⟩ <;> rw [g] <;> omega
    have hsuc := fun pl => y0_succ f pl (first f sby)
    have hge := fun pl => bkH_ge f pl
    have hmono := fun pl => y0_mono f pl (a := first f sby + 2) (b := last f sby) (by omega)
    have hsuc2 := fun pl => y0_succ f pl (first f sby + 1)
    generalize hA : (⟨f, d, hdr, tt, lpf, fun k => mask ((if f.sb128 then sby - 1 else (sby - 1) / 2) * f.sb128w + k), sby, sby * f.step - 2, sby * f.step, true⟩ : Ctx) = cA
    have hcf : cA.f = f := by rw [← hA]
    have hst : sby * f.step = 2 * (first f sby + 1) := by
      rw [← hfi]
      rcases half_cases f with ⟨_, g, g'⟩ | ⟨_, g, g'⟩ <;> rw [g', g] <;> omega
    have hA1 := strips_spec (c := cA) (idx := idx) (skips := skips) (by rw [← hA]; exact hh) (by rw [hcf]; exact hlay) (by rw [← hA]; exact hD) 1 (first f sby) { s with bit := false }
      (by rw [← hA]; exact hst) (by rw [← hA]; show sby * f.step ≤ f.bh; omega) (by rw [← hA]; show sby * f.step - 2 ≤ _; omega)
      (fun K' g1 g2 => rowOk_of hM hcf (by omega) (fun k => by
        rw [← hA]
        show mask ((if f.sb128 then sby - 1 else (sby - 1) / 2) * f.sb128w + k) = _
        congr 3
        rw [show K' = sby * half f - 1 by omega]
        rcases half_cases f with ⟨g, g', _⟩ | ⟨g, g', _⟩ <;> rw [g', g] <;> simp <;> omega))
      (by
        rw [hcf]
        intro pl hp Y X q1 q2 q3 q4
        have a1 := hsuc2 pl
        have a2 := hmono pl
        rw [show first f sby + 1 + 1 = first f sby + 2 by omega] at a1
        exact hF pl hp Y X q1 (by omega) q3 q4)
      (by
        rw [hcf]
        intro _ _ pl hp r X q1 q2 q3 q4
        unfold topLn
        cases htt : tt with
        | true =>
          rw [if_pos (by rw [← hA]; exact ⟨htt, rfl, by show 2 * first f sby = sby * f.step - 2; omega⟩)]
          have := (hTt htt pl hp r X q1 q2 q3 q4).1 h0
          rw [← hA]
          exact this
        | false =>
          rw [if_neg (by rw [← hA]; rintro ⟨h, _⟩; exact absurd (h.symm.trans htt) (by decide))]
          have e0 : lineOff cA.tt cA.sby pl = 0 := by
            rw [← hA]
            show (if tt = true then _ else _) = _
            rw [htt]
            rfl
          rw [e0, Int.zero_add]
          exact (hOne htt pl hp r X q1 q2 q3 q4).1 h0)
      (by
        rw [hcf]
        intro _ pl hp r X q1 q2 q3 q4
        rw [if_neg (by rw [← hA]; rintro ⟨_, h⟩; cases h)]
        have a1 := hsuc2 pl
        have a2 := hmono pl
        have a3 := hge pl
        have a4 := hsuc pl
        rw [show first f sby + 1 + 1 = first f sby + 2 by omega] at a1
        exact hF pl hp _ X (by omega) (by omega) q3 q4)
    rw [hcf] at hA1
    have hcb : cdefBrow cA s = strips cA 1 (2 * first f sby) { s with bit := false } := by
      unfold cdefBrow
      have e1 : cA.byStart = 2 * first f sby := by rw [← hA]; show sby * f.step - 2 = _; omega
      have e2 : cA.byEnd = 2 * first f sby + 2 := by rw [← hA]; show sby * f.step = _; omega
      rw [e1, e2, show (2 * first f sby + 2 - 2 * first f sby + 1) / 2 = 1 by omega]
    rw [← hcb] at hA1
    obtain ⟨a1, a2⟩ := hA1
    have henv : envOf f cA.d cA.hdr idx skips D = envOf f d hdr idx skips D := by rw [← hA]
    have hoff : lineOff cA.tt cA.sby = lineOff tt sby := by rw [← hA]
    have hend : cA.byEnd < f.bh := by rw [← hA]; show sby * f.step < f.bh; omega
    rw [henv] at a1
    rw [hoff] at a2
    have hB1 := hB (cdefBrow cA s)
      (by
        intro pl hp Y X q1 q2 q3 q4
        rw [hfi] at q1
        have g1 := hsuc pl
        rw [a1 pl hp, if_neg (by omega)]
        exact hF pl hp Y X (by omega) q2 q3 q4)
      (by
        intro _
        rw [hfi]
        exact a2 (by omega) (Or.inr (by rw [← hA])) hend)
      (by
        intro h pl hp r X q1 q2 q3 q4 q5
        have g1 := y0_mono f pl (a := first f sby + 1) (b := last f sby) (by omega)
        rw [a1 pl hp, if_neg (by omega)]
        exact (hOne h pl hp r X q1 q2 q3 q4).2 q5)
    refine ⟨?_, hB1.2⟩
    intro pl hp Y X
    have g1 := y0_mono f pl (a := first f sby + 1) (b := last f sby) (by omega)
    have g2 := hsuc pl
    rw [hB1.1 pl hp, a1 pl hp, hfi]
    by_cases g : (y0 f pl (2 * (first f sby + 1)) : Int) ≤ Y ∧ Y < y0 f pl (2 * last f sby) ∧ 0 ≤ X ∧ X < x0 f pl f.bw
    · rw [if_pos g, if_pos (by omega)]
    · rw [if_neg g]
      by_cases g' : (y0 f pl (2 * first f sby) : Int) ≤ Y ∧ Y < y0 f pl (2 * (first f sby + 1)) ∧ 0 ≤ X ∧ X < x0 f pl f.bw
      · rw [if_pos g', if_pos (by omega)]
      · rw [if_neg g', if_neg (by omega)]
end

end Dav1d.Cdf
