import Verif.Syn.CdfBlock
/-!
# Lemmas for C85: a strip of 8 luma rows
-/
namespace Dav1d.Cdf
open Dav1d.Syn.Lru (Cfg)
open Dav1d.Lrs (Plane)
open Dav1d.Cdef

/-- The bit for a column of 4 luma samples in `noskip_mask[row]`. -/
def bitOf (m : Nat × Nat) (k : Nat) : Bool := if k < 16 then m.1.testBit k else m.2.testBit (k - 16)

/-- The masks of a strip hold `cdef_idx` and `Skips`. -/
structure RowOk (c : Ctx) (idx : Nat → Nat → Int) (skips : Nat → Nat → Bool) (K : Nat) : Prop where
  lo : ∀ a r, ((c.lflvl a).noskip r).1 < 2 ^ 16
  idx : ∀ bx < c.f.bw, idx (2 * K) bx = (c.lflvl (bx / 32)).cdefIdx (2 * K % 32 / 16 * 2 + bx % 32 / 16)
  skip : ∀ bx < c.f.bw, bitOf ((c.lflvl (bx / 32)).noskip (2 * K % 32 / 2)) (bx % 32) = !(skips (2 * K) bx && skips (2 * K + 1) bx)

theorem and3 (n k : Nat) : n &&& (3 <<< k) = 0 ↔ n.testBit k = false ∧ n.testBit (k + 1) = false := by
  have h3 : ∀ i, Nat.testBit 3 i = decide (i < 2) := fun i => Nat.testBit_two_pow_sub_one 2 i
  constructor
  · intro h
    have hb : ∀ i, (n &&& (3 <<< k)).testBit i = false := fun i => by rw [h]; exact Nat.zero_testBit i
    constructor
    · have := hb k
      rw [Nat.testBit_and, Nat.testBit_shiftLeft, h3] at this
      simpa using this
    · have := hb (k + 1)
      rw [Nat.testBit_and, Nat.testBit_shiftLeft, h3] at this
      simpa using this
  · rintro ⟨h1, h2⟩
    refine Nat.eq_of_testBit_eq fun i => ?_
    rw [Nat.testBit_and, Nat.testBit_shiftLeft, h3, Nat.zero_testBit]
    by_cases g1 : i = k
    · rw [g1, h1, Bool.false_and]
    · by_cases g2 : i = k + 1
      · rw [g2, h2, Bool.false_and]
      · by_cases g3 : k ≤ i
        · rw [show decide (i - k < 2) = false from decide_eq_false (by omega), Bool.and_false, Bool.and_false]
        · rw [show decide (i ≥ k) = false from decide_eq_false g3, Bool.false_and, Bool.and_false]

theorem whole_bit {a b k : Nat} (ha : a < 2 ^ 16) : (b <<< 16 ||| a).testBit k = bitOf (a, b) k := by
  unfold bitOf
  rw [Nat.testBit_or, Nat.testBit_shiftLeft]
  split_ifs with h
  · rw [show decide (k ≥ 16) = false from decide_eq_false (by omega), Bool.false_and, Bool.false_or]
  · rw [show decide (k ≥ 16) = true from decide_eq_true (by omega), Bool.true_and,
      Nat.testBit_lt_two_pow (Nat.lt_of_lt_of_le ha (Nat.pow_le_pow_right (by omega) (by omega))), Bool.or_false]

theorem and30 (J : Nat) : 2 * J &&& 30 = 2 * J % 32 := by
  have : (J &&& 15) <<< 1 = J <<< 1 &&& 15 <<< 1 := Nat.shiftLeft_and_distrib
  rw [Nat.shiftLeft_eq, Nat.shiftLeft_eq, show 15 <<< 1 = 30 from rfl, Nat.pow_one, Nat.mul_comm J 2, show J &&& 15 = J % 16 from Nat.and_two_pow_sub_one_eq_mod J 4] at this
  omega

theorem and16 (n : Nat) : (n &&& 16) >>> 3 = n % 32 / 16 * 2 := by
  have h : ∀ m < 32, (m &&& 16) >>> 3 = m / 16 * 2 := by decide
  rw [← h (n % 32) (Nat.mod_lt _ (by decide)), ← show n &&& 31 = n % 32 from Nat.and_two_pow_sub_one_eq_mod n 5, Nat.and_assoc, show 31 &&& 16 = 16 from rfl]

/-- Where a strip stands before the block `2 * J`: the blocks before it are done, and the two columns left of it before CDEF are where they are looked for. -/
structure Inv (c : Ctx) (idx : Nat → Nat → Int) (skips : Nat → Nat → Bool) (D : Nat → Plane) (K J : Nat) (s0 s : St) : Prop where
  line : s.line = s0.line
  tf : s.tf = s0.tf
  fr : ∀ pl, Pl c.f pl → ∀ Y X : Int, s.fr pl Y X = if y0 c.f pl (2 * K) ≤ Y ∧ Y < y0 c.f pl (2 * K) + bkH c.f pl ∧ 0 ≤ X ∧ X < x0 c.f pl (2 * J) then
    Av1.CdefFrame (envOf c.f c.d c.hdr idx skips D) pl Y.toNat X.toNat else s0.fr pl Y X
  left : 0 < J → 2 * J < c.f.bw → ∀ pl, Pl c.f pl → ∀ y x : Int, 0 ≤ y → y < bkH c.f pl → 0 ≤ x → x < 2 →
    (if s.lastSkip = true ∨ (if pl = 0 then s.prevY else s.prevUv) = false then s.fr pl (y0 c.f pl (2 * K) + y) (x0 c.f pl (2 * J) - 2 + x) else s.bak s.bit pl y x) =
      D pl (y0 c.f pl (2 * K) + y) (x0 c.f pl (2 * J) - 2 + x)

section
variable {c : Ctx} {idx : Nat → Nat → Int} {skips : Nat → Nat → Bool} {D : Nat → Plane} {K J : Nat} {s0 s : St}

theorem Inv.cur (hR : Ready c D (2 * K) s0) (h : Inv c idx skips D K J s0 s) : ∀ pl, Pl c.f pl → ∀ Y X : Int, y0 c.f pl (2 * K) ≤ Y → Y < y0 c.f pl (2 * K) + bkH c.f pl →
    x0 c.f pl (2 * J) ≤ X → X < x0 c.f pl c.f.bw → s.fr pl Y X = D pl Y X := by
  intro pl hp Y X h1 h2 h3 h4
  rw [h.fr pl hp, if_neg (by omega)]
  exact (hR pl hp).1 Y X h1 h2 (by omega) h4

theorem x0_succ (f : Cfg) (pl J : Nat) : x0 f pl (2 * (J + 1)) = x0 f pl (2 * J) + bkW f pl := by
  rw [x0_eq, x0_eq, Nat.add_mul, Nat.one_mul]

theorem bkW_ge (f : Cfg) (pl : Nat) : 4 ≤ bkW f pl := by rcases bkW_cases f pl with ⟨h, _⟩ | ⟨h, _⟩ <;> omega
theorem bkH_ge (f : Cfg) (pl : Nat) : 4 ≤ bkH f pl := by rcases bkH_cases f pl with ⟨h, _⟩ | ⟨h, _⟩ <;> omega

/-- A block that stays as it is. -/
theorem Inv.skipBlock (hR : Ready c D (2 * K) s0) (h : Inv c idx skips D K J s0 s) (hJ : 2 * J < c.f.bw)
    (hsk : idx (2 * K) (2 * J) = -1 ∨ Av1.skip (envOf c.f c.d c.hdr idx skips D) (2 * K) (2 * J) = true ∨
      idx (2 * K) (2 * J) ≠ -1 ∧ c.hdr.yStr (idx (2 * K) (2 * J)).toNat = 0 ∧ c.hdr.uvStr (idx (2 * K) (2 * J)).toNat = 0) :
    Inv c idx skips D K (J + 1) s0 { s with lastSkip := true } := by
  have hx := fun pl => x_lt (pl := pl) hJ
  refine ⟨h.line, h.tf, ?_, ?_⟩
  · intro pl hp Y X
    show s.fr pl Y X = _
    have e := x0_succ c.f pl J
    have hxx := hx pl
    by_cases hB : inB c.f pl (2 * K) (2 * J) Y X
    · obtain ⟨b1, b2, b3, b4⟩ := hB
      rw [h.cur hR pl hp Y X b1 b2 b3 (by omega), if_pos (by omega)]
      obtain ⟨Y', rfl⟩ := Int.eq_ofNat_of_zero_le (a := Y) (by omega)
      obtain ⟨X', rfl⟩ := Int.eq_ofNat_of_zero_le (a := X) (by omega)
      rw [Int.toNat_natCast, Int.toNat_natCast]
      have hpos := pos_block (f := c.f) (pl := pl) (K := K) (J := J) (Y := Y') (X := X') ⟨b1, b2, b3, b4⟩
      unfold Av1.CdefFrame
      simp only [(sub_eq (d := c.d) (hdr := c.hdr) (idx := idx) (skips := skips) (D := D) hp).1, (sub_eq (d := c.d) (hdr := c.hdr) (idx := idx) (skips := skips) (D := D) hp).2, hpos.1, hpos.2]
      by_cases hc : (envOf c.f c.d c.hdr idx skips D).cdef_idx (2 * K) (2 * J) = -1 ∨ Av1.skip (envOf c.f c.d c.hdr idx skips D) (2 * K) (2 * J) = true
      · rw [if_pos hc]
        rfl
      · rw [if_neg hc]
        obtain ⟨_, g1, g2⟩ : idx (2 * K) (2 * J) ≠ -1 ∧ c.hdr.yStr (idx (2 * K) (2 * J)).toNat = 0 ∧ c.hdr.uvStr (idx (2 * K) (2 * J)).toNat = 0 := by
          rcases hsk with g | g | g
          · exact absurd (Or.inl g) hc
          · exact absurd (Or.inr g) hc
          · exact g
        have l0 : levels c.d 0 = (0, 0) := by rw [levels_eq]; simp
        by_cases hp0 : pl = 0
        · subst hp0
          rw [params_y, g1, l0]
          refine (specFilter_zero _ ?_ rfl _ _ _ _).symm
          show adjustStrength 0 _ = 0
          unfold adjustStrength
          split_ifs <;> simp
        · rw [params_uv c _ _ hp0, g2, l0]
          exact (specFilter_zero _ rfl rfl _ _ _ _).symm
    · rw [h.fr pl hp]
      unfold inB at hB
      by_cases g : (y0 c.f pl (2 * K) : Int) ≤ Y ∧ Y < y0 c.f pl (2 * K) + bkH c.f pl ∧ 0 ≤ X ∧ X < x0 c.f pl (2 * J)
      · rw [if_pos g, if_pos (by omega)]
      · rw [if_neg g, if_neg (by omega)]
  · intro _ h2 pl hp y x g1 g2 g3 g4
    rw [if_pos (Or.inl rfl)]
    show s.fr pl _ _ = _
    have e := x0_succ c.f pl J
    have hw := bkW_ge c.f pl
    have hxx := hx pl
    exact h.cur hR pl hp _ _ (by omega) (by omega) (by omega) (by omega)

/-- A block that is filtered. -/
theorem Inv.filterBlock (hh : HdrOk c.hdr) (hlay : c.f.layout ≤ 3) (hD : InRange c.f c.d D) (hR : Ready c D (2 * K) s0) (h : Inv c idx skips D K J s0 s) (hK : 2 * K < c.f.bh) (hJ : 2 * J < c.f.bw)
    (hi : idx (2 * K) (2 * J) ≠ -1) (hsk : Av1.skip (envOf c.f c.d c.hdr idx skips D) (2 * K) (2 * J) = false) {n : Nat} (hn : n &&& (3 <<< (2 * J &&& 30)) ≠ 0) :
    Inv c idx skips D K (J + 1) s0 (block c (2 * K) (c.hdr.yStr (idx (2 * K) (2 * J)).toNat) (c.hdr.uvStr (idx (2 * K) (2 * J)).toNat) n (2 * J) s) := by
  have hcf := fun t : St => fun (ht : ∀ pl, Pl c.f pl → ∀ Y X : Int, y0 c.f pl (2 * K) ≤ Y → Y < y0 c.f pl (2 * K) + bkH c.f pl → x0 c.f pl (2 * J) ≤ X → X < x0 c.f pl c.f.bw → t.fr pl Y X = D pl Y X) =>
    fun pl hp => fun hs => fun (Y X : Nat) hB => callFb_eq (s := t) (pl := pl) (idx := idx) (skips := skips) hh hlay hD hp hK hJ ht hi hsk hs (Y := Y) (X := X) hB
  unfold block
  rw [if_neg hn]
  generalize c.hdr.yStr (idx (2 * K) (2 * J)).toNat = yl at hcf ⊢
  generalize c.hdr.uvStr (idx (2 * K) (2 * J)).toNat = ul at hcf ⊢
  simp only []
  generalize hs1 : ({ s with bak := saveCols c (2 * K) (2 * J) (yl ≠ 0) (ul ≠ 0) s } : St) = s1
  have e1 : s1.fr = s.fr := by rw [← hs1]
  have e2 : s1.line = s.line := by rw [← hs1]
  have e3 : s1.tf = s.tf := by rw [← hs1]
  have e4 : s1.bit = s.bit := by rw [← hs1]
  have e5 : s1.bak = saveCols c (2 * K) (2 * J) (yl ≠ 0) (ul ≠ 0) s := by rw [← hs1]
  have hcur := h.cur hR
  have hfl : ∀ pl, Pl c.f pl → (pl ≠ 0 → c.f.layout ≠ 0) := by
    intro pl hp h0
    rcases hp with g | g
    · exact absurd g h0
    · exact g.1
  -- the columns left of the block
  have hleft : ∀ pl, Pl c.f pl → (if pl = 0 then yl else ul) ≠ 0 → 2 * J ≠ 0 → ∀ y x : Int, 0 ≤ y → y < bkH c.f pl → 0 ≤ x → x < 2 →
      s1.bak s1.bit pl y x = D pl (y0 c.f pl (2 * K) + y) (x0 c.f pl (2 * J) - 2 + x) := by
    intro pl hp hfl1 hj y x g1 g2 g3 g4
    have hL := h.left (by omega) hJ pl hp y x g1 g2 g3 g4
    have hb : ∀ b : Bool, b ≠ !b := by decide
    rw [e5, e4]
    unfold saveCols
    have hel : (edges c.f (2 * K) (2 * J)).left = true := decide_eq_true hj
    rw [hel]
    have hx0 : ((x0 c.f pl (2 * J) + 0 / 2 ^ c.f.ssH pl : Nat) : Int) = x0 c.f pl (2 * J) := by rw [Nat.zero_div, Nat.add_zero]
    have key : ∀ (dy du : Bool), (if pl = 0 then dy else du) = (if s.lastSkip = true ∨ (if pl = 0 then s.prevY else s.prevUv) = false then true else false) →
        (if (dy || du) && true then (fun b => if b = s.bit then backup2x8 c.f s.fr (2 * K) (2 * J) 0 dy du (s.bak b) else s.bak b) else s.bak) s.bit pl y x =
          D pl (y0 c.f pl (2 * K) + y) (x0 c.f pl (2 * J) - 2 + x) := by
      intro dy du hd
      by_cases hq : s.lastSkip = true ∨ (if pl = 0 then s.prevY else s.prevUv) = false
      · rw [if_pos hq] at hL hd
        have hor : ((dy || du) && true) = true := by
          by_cases hp0 : pl = 0
          · rw [if_pos hp0] at hd; rw [hd]; rfl
          · rw [if_neg hp0] at hd; rw [hd, Bool.or_true]; rfl
        rw [hor, if_pos rfl]
        show (if s.bit = s.bit then _ else _ : Nat → Plane) pl y x = _
        rw [if_pos rfl]
        unfold backup2x8
        rw [if_pos ⟨by
          by_cases hp0 : pl = 0
          · rw [if_pos hp0] at hd; exact Or.inl ⟨hp0, hd⟩
          · rw [if_neg hp0] at hd; exact Or.inr ⟨hp0, hfl pl hp hp0, hd⟩, g1, g2, g3, g4⟩, hx0]
        exact hL
      · rw [if_neg hq] at hL hd
        split_ifs
        · show (if s.bit = s.bit then _ else _ : Nat → Plane) pl y x = _
          rw [if_pos rfl]
          unfold backup2x8
          rw [if_neg]
          · exact hL
          · rintro ⟨hc | hc, _⟩
            · rw [if_pos hc.1, hc.2] at hd; cases hd
            · rw [if_neg hc.1, hc.2.2] at hd; cases hd
        · exact hL
    have hkey := key (if s.lastSkip = true then decide (yl ≠ 0) else (s.prevY ^^ decide (yl ≠ 0)) && decide (yl ≠ 0)) (if s.lastSkip = true then decide (ul ≠ 0) else (s.prevUv ^^ decide (ul ≠ 0)) && decide (ul ≠ 0)) (by
      by_cases hp0 : pl = 0
      · simp only [if_pos hp0] at hfl1 ⊢
        rw [decide_eq_true hfl1]
        cases s.lastSkip <;> cases s.prevY <;> rfl
      · simp only [if_neg hp0] at hfl1 ⊢
        rw [decide_eq_true hfl1]
        cases s.lastSkip <;> cases s.prevUv <;> rfl)
    split_ifs at hkey ⊢ <;> first | exact hkey | (show (if s.bit = !s.bit then _ else _ : Nat → Plane) pl y x = _; rw [if_neg (hb _)]; exact hkey)
  -- the samples
  have hseen : ∀ pl, Pl c.f pl → (if pl = 0 then yl else ul) ≠ 0 → Seen c D K J pl s1 := by
    intro pl hp hf1
    have hRp := hR pl hp
    refine ⟨by rw [e1]; exact hcur pl hp, hleft pl hp hf1, ?_, ?_⟩
    · intro hk r X g1 g2 g3 g4
      rw [← hRp.2.1 hk r X g1 g2 g3 g4]
      unfold topLn
      rw [e2, e3, h.line, h.tf]
    · intro hk r X g1 g2 g3 g4
      rw [← hRp.2.2 hk r X g1 g2 g3 g4]
      unfold botLn
      split_ifs <;> first | rfl | rw [e1, h.fr pl hp, if_neg (by omega)]
  have hfr : ∀ pl, Pl c.f pl → ∀ Y X : Int, callFb c (2 * K) (2 * J) yl ul s1 pl Y X = if y0 c.f pl (2 * K) ≤ Y ∧ Y < y0 c.f pl (2 * K) + bkH c.f pl ∧ 0 ≤ X ∧ X < x0 c.f pl (2 * (J + 1)) then
      Av1.CdefFrame (envOf c.f c.d c.hdr idx skips D) pl Y.toNat X.toNat else s0.fr pl Y X := by
    intro pl hp Y X
    have e := x0_succ c.f pl J
    by_cases hB : inB c.f pl (2 * K) (2 * J) Y X
    · have hB' := hB
      obtain ⟨b1, b2, b3, b4⟩ := hB'
      rw [if_pos (by omega)]
      obtain ⟨Y', rfl⟩ := Int.eq_ofNat_of_zero_le (a := Y) (by omega)
      obtain ⟨X', rfl⟩ := Int.eq_ofNat_of_zero_le (a := X) (by omega)
      rw [Int.toNat_natCast, Int.toNat_natCast]
      exact hcf s1 (by rw [e1]; exact hcur) pl hp (hseen pl hp) Y' X' hB
    · rw [callFb_out hB, e1, h.fr pl hp]
      unfold inB at hB
      by_cases g : (y0 c.f pl (2 * K) : Int) ≤ Y ∧ Y < y0 c.f pl (2 * K) + bkH c.f pl ∧ 0 ≤ X ∧ X < x0 c.f pl (2 * J)
      · rw [if_pos g, if_pos (by omega)]
      · rw [if_neg g, if_neg (by omega)]
  refine ⟨h.line, h.tf, hfr, ?_⟩
  intro _ h2 pl hp y x g1 g2 g3 g4
  have e := x0_succ c.f pl J
  have hw := bkW_ge c.f pl
  have hxx := x_lt (pl := pl) hJ
  have hD1 : s.fr pl (y0 c.f pl (2 * K) + y) (x0 c.f pl (2 * (J + 1)) - 2 + x) = D pl (y0 c.f pl (2 * K) + y) (x0 c.f pl (2 * (J + 1)) - 2 + x) :=
    hcur pl hp _ _ (by omega) (by omega) (by omega) (by omega)
  by_cases hfp : (if pl = 0 then yl else ul) ≠ 0
  · have hpf : (if pl = 0 then decide (yl ≠ 0) else decide (ul ≠ 0)) = true := by
      by_cases hp0 : pl = 0
      · rw [if_pos hp0] at hfp ⊢; exact decide_eq_true hfp
      · rw [if_neg hp0] at hfp ⊢; exact decide_eq_true hfp
    rw [if_neg (by rintro (g | g); · cases g
                   · exact absurd (g.symm.trans hpf) (by decide))]
    show saveCols c (2 * K) (2 * J) (yl ≠ 0) (ul ≠ 0) s (!s.bit) pl y x = _
    unfold saveCols
    have her : (edges c.f (2 * K) (2 * J)).right = true := decide_eq_true (by omega)
    simp only [her, if_true]
    unfold backup2x8
    have hx0 : ((x0 c.f pl (2 * J) + 8 / 2 ^ c.f.ssH pl : Nat) : Int) = x0 c.f pl (2 * (J + 1)) := by rw [e]; rfl
    rw [if_pos ⟨by
      by_cases hp0 : pl = 0
      · rw [if_pos hp0] at hpf; exact Or.inl ⟨hp0, hpf⟩
      · rw [if_neg hp0] at hpf; exact Or.inr ⟨hp0, hfl pl hp hp0, hpf⟩, g1, g2, g3, g4⟩, hx0]
    exact hD1
  · have hpf : (if pl = 0 then decide (yl ≠ 0) else decide (ul ≠ 0)) = false := by
      by_cases hp0 : pl = 0
      · rw [if_pos hp0] at hfp ⊢; exact decide_eq_false hfp
      · rw [if_neg hp0] at hfp ⊢; exact decide_eq_false hfp
    rw [if_pos (Or.inr hpf)]
    show callFb c (2 * K) (2 * J) yl ul s1 pl _ _ = _
    rw [← hD1, ← e1]
    unfold callFb
    simp only []
    by_cases hp0 : pl = 0
    · subst hp0
      rw [if_pos rfl] at hfp
      have h0 : yl = 0 := by omega
      have l0 : levels c.d 0 = (0, 0) := by rw [levels_eq]; simp
      rw [if_pos rfl, h0, l0, if_neg (by simp), if_neg (by simp)]
    · rw [if_neg hp0] at hfp
      rw [if_neg hp0, if_pos (Or.inl (by omega))]

/-- The loop over the blocks of 64 columns. -/
theorem blocks_inv (hh : HdrOk c.hdr) (hlay : c.f.layout ≤ 3) (hD : InRange c.f c.d D) (hR : Ready c D (2 * K) s0) (hK : 2 * K < c.f.bh) {i : Int} (hi : i ≠ -1) {m : Nat} : ∀ (n J : Nat) (s : St),
    Inv c idx skips D K J s0 s → 2 * (J + n) ≤ c.f.bw →
    (∀ J', J ≤ J' → J' < J + n → idx (2 * K) (2 * J') = i ∧ (m &&& (3 <<< (2 * J' &&& 30)) = 0 ↔ Av1.skip (envOf c.f c.d c.hdr idx skips D) (2 * K) (2 * J') = true)) →
    Inv c idx skips D K (J + n) s0 (blocks c (2 * K) (c.hdr.yStr i.toNat) (c.hdr.uvStr i.toNat) m n (2 * J) s)
  | 0, J, s, h, _, _ => h
  | n + 1, J, s, h, hn, hB => by
    obtain ⟨b1, b2⟩ := hB J (Nat.le_refl _) (by omega)
    have hst : Inv c idx skips D K (J + 1) s0 (block c (2 * K) (c.hdr.yStr i.toNat) (c.hdr.uvStr i.toNat) m (2 * J) s) := by
      by_cases hsk : m &&& (3 <<< (2 * J &&& 30)) = 0
      · unfold block
        rw [if_pos hsk]
        exact h.skipBlock hR (by omega) (Or.inr (Or.inl (b2.1 hsk)))
      · rw [← b1]
        exact h.filterBlock hh hlay hD hR hK (by omega) (by rw [b1]; exact hi) (by
          cases hq : Av1.skip (envOf c.f c.d c.hdr idx skips D) (2 * K) (2 * J) with
          | false => rfl
          | true => exact absurd (b2.2 hq) hsk) hsk
    have := blocks_inv hh hlay hD hR hK hi n (J + 1) _ hst (by omega) fun J' g1 g2 => hB J' (by omega) (by omega)
    rw [show J + (n + 1) = J + 1 + n by omega]
    exact this

/-- Blocks that are not looked at. -/
theorem skips_inv (hR : Ready c D (2 * K) s0) {i : Int} (hi : i = -1 ∨ i ≠ -1 ∧ c.hdr.yStr i.toNat = 0 ∧ c.hdr.uvStr i.toNat = 0) : ∀ (n J : Nat) (s : St),
    Inv c idx skips D K J s0 s → 2 * (J + n) ≤ c.f.bw → (∀ J', J ≤ J' → J' < J + n → idx (2 * K) (2 * J') = i) → (n = 0 → s.lastSkip = true ∨ c.f.bw ≤ 2 * J) →
    Inv c idx skips D K (J + n) s0 { s with lastSkip := true }
  | 0, J, s, h, _, _, h0 => by
    refine ⟨h.line, h.tf, h.fr, ?_⟩
    intro g1 g2 pl hp y x k1 k2 k3 k4
    rcases h0 rfl with g | g
    · have := h.left g1 g2 pl hp y x k1 k2 k3 k4
      rw [if_pos (Or.inl g)] at this
      rw [if_pos (Or.inl rfl)]
      exact this
    · omega
  | n + 1, J, s, h, hn, hB, _ => by
    have hx : i = -1 ∨ Av1.skip (envOf c.f c.d c.hdr idx skips D) (2 * K) (2 * J) = true ∨ i ≠ -1 ∧ c.hdr.yStr i.toNat = 0 ∧ c.hdr.uvStr i.toNat = 0 := by
      rcases hi with g | g
      · exact Or.inl g
      · exact Or.inr (Or.inr g)
    have hst := h.skipBlock hR (by omega) (by rw [hB J (Nat.le_refl _) (by omega)]; exact hx)
    have := skips_inv hR hi n (J + 1) _ hst (by omega) (fun J' g1 g2 => hB J' (by omega) (by omega)) (fun _ => Or.inl rfl)
    rw [show J + (n + 1) = J + 1 + n by omega]
    exact this

/-- 64 columns. -/
theorem sb64_inv (hh : HdrOk c.hdr) (hlay : c.f.layout ≤ 3) (hD : InRange c.f c.d D) (hM : RowOk c idx skips K) (hR : Ready c D (2 * K) s0) (hK : 2 * K < c.f.bh) {NC : Nat} (hN : c.f.bw = 2 * NC)
    {sbx : Nat} (h : Inv c idx skips D K (min (sbx * 8) NC) s0 s) : Inv c idx skips D K (min ((sbx + 1) * 8) NC) s0 (sb64 c (2 * K) sbx s) := by
  have e1 : sbx >>> 1 = sbx / 2 := Nat.shiftRight_eq_div_pow sbx 1
  have e2 : sbx &&& 1 = sbx % 2 := Nat.and_one_is_mod sbx
  have e3 : (2 * K &&& 30) >>> 1 = 2 * K % 32 / 2 := by rw [and30, Nat.shiftRight_eq_div_pow]
  unfold sb64
  simp only [e1, e2, e3, and16]
  have hidx : ∀ J', min (sbx * 8) NC ≤ J' → J' < min ((sbx + 1) * 8) NC → idx (2 * K) (2 * J') = (c.lflvl (sbx / 2)).cdefIdx (2 * K % 32 / 16 * 2 + sbx % 2) := by
    intro J' g1 g2
    rw [hM.idx (2 * J') (by omega), show 2 * J' / 32 = sbx / 2 by omega, show 2 * J' % 32 / 16 = sbx % 2 by omega]
  generalize hi : (c.lflvl (sbx / 2)).cdefIdx (2 * K % 32 / 16 * 2 + sbx % 2) = i at hidx ⊢
  have hn : min (sbx * 8) NC + (min ((sbx + 1) * 8) NC - min (sbx * 8) NC) = min ((sbx + 1) * 8) NC := by omega
  split_ifs with hc
  · have := skips_inv hR (i := i) (Decidable.byCases (fun g => Or.inl g) fun g => Or.inr ⟨g, hc.resolve_left g⟩) (min ((sbx + 1) * 8) NC - min (sbx * 8) NC) _ s h (by omega) (fun J' g1 g2 => hidx J' g1 (by omega)) (fun g => Or.inr (by omega))
    rw [hn] at this
    exact this
  · by_cases hs : sbx * 8 ≤ NC
    · have hmin : min (sbx * 8) NC = sbx * 8 := by omega
      rw [hmin] at h hn hidx
      have := blocks_inv hh hlay hD hR hK (i := i) (fun g => hc (Or.inl g)) (m := (((c.lflvl (sbx / 2)).noskip (2 * K % 32 / 2)).2 <<< 16 ||| ((c.lflvl (sbx / 2)).noskip (2 * K % 32 / 2)).1))
        (min ((sbx + 1) * 8) NC - sbx * 8) _ s h (by omega) (fun J' g1 g2 => ⟨hidx J' g1 (by omega), by
          have k0 := hM.lo (sbx / 2) (2 * K % 32 / 2)
          have k1 := hM.skip (2 * J') (by omega)
          have k2 := hM.skip (2 * J' + 1) (by omega)
          rw [show 2 * J' / 32 = sbx / 2 by omega] at k1
          rw [show (2 * J' + 1) / 32 = sbx / 2 by omega, show (2 * J' + 1) % 32 = 2 * J' % 32 + 1 by omega] at k2
          rw [and3, and30, whole_bit k0, whole_bit k0, k1, k2]
          unfold Av1.skip
          show _ ↔ (skips (2 * K) (2 * J') && skips (2 * K + 1) (2 * J') && skips (2 * K) (2 * J' + 1) && skips (2 * K + 1) (2 * J' + 1)) = true
          cases skips (2 * K) (2 * J') <;> cases skips (2 * K + 1) (2 * J') <;> cases skips (2 * K) (2 * J' + 1) <;> cases skips (2 * K + 1) (2 * J' + 1) <;> decide⟩)
      rw [hn, show 2 * (sbx * 8) = sbx * 16 by omega] at this
      rw [show (min ((sbx + 1) * 16) c.f.bw - sbx * 16 + 1) / 2 = min ((sbx + 1) * 8) NC - sbx * 8 by omega]
      exact this
    · rw [show (min ((sbx + 1) * 16) c.f.bw - sbx * 16 + 1) / 2 = 0 by omega, show min ((sbx + 1) * 8) NC = min (sbx * 8) NC by omega]
      exact h

theorem sbs_inv (hh : HdrOk c.hdr) (hlay : c.f.layout ≤ 3) (hD : InRange c.f c.d D) (hM : RowOk c idx skips K) (hR : Ready c D (2 * K) s0) (hK : 2 * K < c.f.bh) {NC : Nat} (hN : c.f.bw = 2 * NC) :
    ∀ (n sbx : Nat) (s : St), Inv c idx skips D K (min (sbx * 8) NC) s0 s → Inv c idx skips D K (min ((sbx + n) * 8) NC) s0 (sbs c (2 * K) n sbx s)
  | 0, _, _, h => h
  | n + 1, sbx, s, h => by
    rw [show sbx + (n + 1) = sbx + 1 + n by omega]
    exact sbs_inv hh hlay hD hM hR hK hN n (sbx + 1) _ (sb64_inv hh hlay hD hM hR hK hN h)

/-- A strip: it is filtered, all else stays as it is. If there is a strip below, and it does not use lines from elsewhere, the last two rows as they were are kept for it. -/
theorem strip_spec (hh : HdrOk c.hdr) (hlay : c.f.layout ≤ 3) (hD : InRange c.f c.d D) (hM : RowOk c idx skips K) (hR : Ready c D (2 * K) s) (hK : 2 * K < c.f.bh) :
    (strip c (2 * K) s).tf = !s.tf ∧
    (∀ pl, Pl c.f pl → ∀ Y X : Int, (strip c (2 * K) s).fr pl Y X = if y0 c.f pl (2 * K) ≤ Y ∧ Y < y0 c.f pl (2 * K) + bkH c.f pl ∧ 0 ≤ X ∧ X < x0 c.f pl c.f.bw then
      Av1.CdefFrame (envOf c.f c.d c.hdr idx skips D) pl Y.toNat X.toNat else s.fr pl Y X) ∧
    ((c.tt = false ∨ c.sbrowStart = true ∨ 2 * K + 2 < c.byEnd) → 2 * K + 2 < c.f.bh → ∀ pl, Pl c.f pl → ∀ r X : Int, 0 ≤ r → r < 2 → 0 ≤ X → X < x0 c.f pl c.f.bw →
      (strip c (2 * K) s).line (!s.tf) pl (lineOff c.tt c.sby pl + r) X = D pl (y0 c.f pl (2 * K) + bkH c.f pl - 2 + r) X) := by
  have hN := bw_eq c.f
  generalize (c.f.w + 7) / 8 = NC at hN
  unfold strip
  simp only []
  generalize hl : (if (c.tt = false ∨ c.sbrowStart ∨ 2 * K + 2 < c.byEnd) ∧ 2 * K + 2 < c.f.bh then
      (fun t => if t = !s.tf then backup2lines c.f s.fr (2 * K) (lineOff c.tt c.sby) (s.line t) else s.line t) else s.line) = line
  have hline : line s.tf = s.line s.tf := by
    rw [← hl]
    split_ifs
    · exact if_neg (by cases s.tf <;> decide)
    · rfl
  have hR' : Ready c D (2 * K) { s with line := line, lastSkip := true, prevY := false, prevUv := false } := by
    intro pl hp
    obtain ⟨h1, h2, h3⟩ := hR pl hp
    refine ⟨h1, ?_, h3⟩
    intro g r X g1 g2 g3 g4
    rw [← h2 g r X g1 g2 g3 g4]
    unfold topLn
    show (if _ then _ else line s.tf _ _ _) = _
    rw [hline]
  have hx0 : ∀ pl, x0 c.f pl (2 * 0) = 0 := fun pl => by rw [x0_eq, Nat.zero_mul]
  have h0 : Inv c idx skips D K (min (0 * 8) NC) { s with line := line, lastSkip := true, prevY := false, prevUv := false } { s with line := line, lastSkip := true, prevY := false, prevUv := false } := by
    rw [Nat.zero_mul, Nat.zero_min]
    refine ⟨rfl, rfl, ?_, fun g => by omega⟩
    intro pl hp Y X
    rw [hx0, if_neg (by omega)]
  have hI := sbs_inv hh hlay hD hM hR' hK hN (c.f.sb128w <<< 1) 0 _ h0
  have hfin : min ((0 + c.f.sb128w <<< 1) * 8) NC = NC := by
    have : c.f.sb128w = (c.f.bw + 31) / 32 := rfl
    rw [Nat.shiftLeft_eq, this]
    omega
  rw [hfin] at hI
  refine ⟨by rw [hI.tf], ?_, ?_⟩
  · intro pl hp Y X
    have := hI.fr pl hp Y X
    rw [← hN] at this
    exact this
  · intro g1 g2 pl hp r X k1 k2 k3 k4
    rw [hI.line]
    show line (!s.tf) pl _ X = _
    rw [← hl, if_pos ⟨g1, g2⟩]
    show (if (!s.tf) = !s.tf then _ else _ : Nat → Plane) pl _ X = _
    rw [if_pos rfl]
    unfold backup2lines
    have hge := bkH_ge c.f pl
    rw [if_pos ⟨hp.imp id And.left, by omega, by omega⟩, (hR pl hp).1 _ _ (by omega) (by omega) k3 k4]
    congr 1
    omega

end
end Dav1d.Cdf
