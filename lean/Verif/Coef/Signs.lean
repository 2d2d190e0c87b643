import Verif.Coef.Tokens
/-!
# Second pass: remainders, signs and dequantisation
-/
namespace Dav1d.Coef
open Itx (Tx TxClass)

variable {σ α : Type}

theorem cfMax_eq {b : Arg} (hb : b.Ok) : cfMax b + 1 = 2 ^ (7 + b.bpc) := by
  rcases hb.bpc with h | h | h <;> simp only [cfMax, h] <;> decide

theorem dqShift_eq (b : Arg) : (if b.spec.tx.w * b.spec.tx.h > 1024 then 4 else if b.spec.tx.w * b.spec.tx.h > 256 then 2 else 1) =
    2 ^ dqShift b := by
  have : ∀ tx : Tx, (if tx.w * tx.h > 1024 then 4 else if tx.w * tx.h > 256 then 2 else 1) = 2 ^ (dim tx 7 - 2) := by
    intro tx; cases tx <;> decide
  exact this b.tx

/-- Quantizers times the largest token without remainder fit. -/
theorem dq_le {b : Arg} (hb : b.Ok) : 14 * b.dq 0 ≤ cfMax b ∧ 14 * b.dq 1 ≤ cfMax b ∧ b.dq 0 ≤ 29247 ∧ b.dq 1 ≤ 29247 := by
  have h : ∀ n ∈ List.range 3, ∀ i ∈ List.range 256, ∀ j ∈ List.range 2,
      14 * ((Tables.dqTbl.getD n []).getD i []).getD j 0 < 2 ^ (15 + 2 * n) ∧
      ((Tables.dqTbl.getD n []).getD i []).getD j 0 ≤ 29247 := by decide +kernel
  obtain ⟨i, j, hi, hj, e0, e1⟩ := hb.dq
  have hm := cfMax_eq hb
  have hn : (b.bpc - 8) / 2 < 3 ∧ 15 + 2 * ((b.bpc - 8) / 2) = 7 + b.bpc := by rcases hb.bpc with h | h | h <;> rw [h] <;> decide
  have h0 := h _ (List.mem_range.2 hn.1) i (List.mem_range.2 hi) 0 (by decide)
  have h1 := h _ (List.mem_range.2 hn.1) j (List.mem_range.2 hj) 1 (by decide)
  rw [← e0, hn.2] at h0
  rw [← e1, hn.2] at h1
  generalize 2 ^ (7 + b.bpc) = n at *
  omega

theorem txtp_matrix {t : Nat} (ht : t < 17) : (typeOf t).usesMatrix = decide (t < IDTX) := by
  have : ∀ t ∈ List.range 17, (typeOf t).usesMatrix = decide (t < IDTX) := by decide
  exact this t (List.mem_range.2 ht)

/-- The quantizer after the matrix. -/
def effQ (b : Spec.Blk) (t : Spec.TxType) (p : Nat × Nat) (q : Nat) : Nat :=
  match b.qm with
  | some f => if t.usesMatrix then (q * f p.1 p.2 + 16) / 32 else q
  | none => q

theorem dequant_eq (b : Spec.Blk) (t : Spec.TxType) (p : Nat × Nat) (level : Nat) (neg : Bool) : Spec.dequant b t p level neg =
    if neg then -((min (level * effQ b t p (if p = (0, 0) then b.dcQ else b.acQ) % 2 ^ 24 /
        (if b.tx.w * b.tx.h > 1024 then 4 else if b.tx.w * b.tx.h > 256 then 2 else 1)) (2 ^ (7 + b.bitDepth)) : Nat) : Int)
      else ((min (level * effQ b t p (if p = (0, 0) then b.dcQ else b.acQ) % 2 ^ 24 /
        (if b.tx.w * b.tx.h > 1024 then 4 else if b.tx.w * b.tx.h > 256 then 2 else 1)) (2 ^ (7 + b.bitDepth) - 1) : Nat) : Int) := by
  rw [Spec.dequant]
  rfl

/-- Level and state after the remainder. -/
def lvl (src : Source σ) (tok : Nat) (s : σ) : Nat × σ :=
  if tok > 14 then ((Spec.readGolomb src s).1 + 14, (Spec.readGolomb src s).2) else (tok, s)

theorem lvl_lt (src : Source σ) {tok : Nat} (h : ¬tok ≥ 15) (s : σ) : lvl src tok s = (tok, s) := if_neg (by omega)

theorem lvl_ge (src : Source σ) {tok : Nat} (h : tok ≥ 15) (s : σ) :
    lvl src tok s = ((Spec.readGolomb src s).1 + 14, (Spec.readGolomb src s).2) := if_pos (by omega)

theorem signed_min {sign dq m : Nat} (hs : sign ≤ 1) (hm : 1 ≤ m) :
    signed sign (min dq (m - 1 + sign)) =
      if decide (sign = 1) then -((min dq m : Nat) : Int) else ((min dq (m - 1) : Nat) : Int) := by
  rw [signed]
  rcases Nat.lt_or_ge sign 1 with h | h
  · have : sign = 0 := by omega
    subst this; simp
  · have : sign = 1 := by omega
    subst this
    rw [if_pos (by decide), Nat.sub_add_cancel hm]; simp

theorem signed_range {sign dq m : Nat} (hs : sign ≤ 1) (h : dq ≤ m - 1 + sign) (hm : 1 ≤ m) :
    -(m : Int) ≤ signed sign dq ∧ signed sign dq < m := by
  rw [signed]; split <;> omega

theorem and24 (x : Nat) : (x % 2 ^ 32) &&& 0xffffff = x % 2 ^ 24 := by
  rw [show (0xffffff : Nat) = 2 ^ 24 - 1 from by decide, Nat.and_two_pow_sub_one_eq_mod, Nat.mod_mod_of_dvd]
  exact ⟨2 ^ 8, by decide⟩

/-- Dequantisation. -/
theorem dqTok_eq (src : Source σ) {b : Arg} (hb : b.Ok) {txtp : Nat} (ht : txtp < 17) {p : Nat × Nat}
    (hp : p.1 < b.spec.H ∧ p.2 < b.spec.W) {tok sign : Nat} (h15 : tok ≤ 15) (hs : sign ≤ 1) (s : σ)
    (k : Nat → Nat → σ → Option α) :
    ∃ dq, dqTok src b (if txtp < IDTX then b.qm else none) (if p = (0, 0) then b.dq 0 else b.dq 1) (rcOf b p) tok sign s k =
        k ((lvl src tok s).1 % 2 ^ 20) dq (lvl src tok s).2 ∧
      signed sign dq = Spec.dequant b.spec (typeOf txtp) p ((lvl src tok s).1 % 2 ^ 20) (sign = 1) ∧ dq ≤ cfMax b + sign := by
  have hcm := cfMax_eq hb
  have hdq := dq_le hb
  have hq : 14 * (if p = (0, 0) then b.dq 0 else b.dq 1) ≤ cfMax b ∧ (if p = (0, 0) then b.dq 0 else b.dq 1) ≤ 29247 := by
    split <;> omega
  have e0 : ((if p = (0, 0) then b.spec.dcQ else b.spec.acQ) : Nat) = (if p = (0, 0) then b.dq 0 else b.dq 1) := rfl
  have hcm' : cfMax b = 2 ^ (7 + b.spec.bitDepth) - 1 := by
    have : b.spec.bitDepth = b.bpc := rfl
    rw [this]; omega
  have hpos : 1 ≤ 2 ^ (7 + b.spec.bitDepth) := Nat.one_le_two_pow
  rw [dequant_eq, e0, dqShift_eq]
  generalize (if p = (0, 0) then b.dq 0 else b.dq 1) = Q at *
  -- the quantizer after the matrix
  have key : ∀ Q', effQ b.spec (typeOf txtp) p Q = Q' →
      (∃ dq, dqTok src b (if txtp < IDTX then b.qm else none) Q (rcOf b p) tok sign s k =
        k ((lvl src tok s).1 % 2 ^ 20) dq (lvl src tok s).2 ∧
        dq = min ((lvl src tok s).1 % 2 ^ 20 * Q' % 2 ^ 24 / 2 ^ dqShift b) (cfMax b + sign)) →
      ∃ dq, dqTok src b (if txtp < IDTX then b.qm else none) Q (rcOf b p) tok sign s k =
        k ((lvl src tok s).1 % 2 ^ 20) dq (lvl src tok s).2 ∧
        signed sign dq = (if decide (sign = 1) then
          -((min ((lvl src tok s).1 % 2 ^ 20 * effQ b.spec (typeOf txtp) p Q % 2 ^ 24 / 2 ^ dqShift b)
            (2 ^ (7 + b.spec.bitDepth)) : Nat) : Int)
          else ((min ((lvl src tok s).1 % 2 ^ 20 * effQ b.spec (typeOf txtp) p Q % 2 ^ 24 / 2 ^ dqShift b)
            (2 ^ (7 + b.spec.bitDepth) - 1) : Nat) : Int)) ∧ dq ≤ cfMax b + sign := by
    intro Q' e ⟨dq, h1, h2⟩
    refine ⟨dq, h1, ?_, by rw [h2]; exact Nat.min_le_right ..⟩
    rw [e, h2, hcm']
    exact signed_min hs hpos
  have noqm : (if txtp < IDTX then b.qm else none) = none → (∃ dq, dqTok src b (if txtp < IDTX then b.qm else none) Q (rcOf b p) tok sign s k =
        k ((lvl src tok s).1 % 2 ^ 20) dq (lvl src tok s).2 ∧
        dq = min ((lvl src tok s).1 % 2 ^ 20 * Q % 2 ^ 24 / 2 ^ dqShift b) (cfMax b + sign)) := by
    intro e
    rw [e, dqTok, dqNoQm]
    by_cases h : tok ≥ 15
    · rw [if_pos h, lvl_ge src h, golombTok_eq]
      refine ⟨_, rfl, ?_⟩
      dsimp only
      rw [and24, Nat.shiftRight_eq_div_pow, Nat.mul_comm]
    · have hl : tok % 2 ^ 20 = tok := Nat.mod_eq_of_lt (by omega)
      have hm1 : Q * tok ≤ Q * 14 := Nat.mul_le_mul_left _ (by omega)
      have hsm : Q * tok / 2 ^ dqShift b ≤ Q * tok := Nat.div_le_self ..
      rw [if_neg h, lvl_lt src h, Nat.shiftRight_eq_div_pow]
      dsimp only
      rw [if_pos (by omega), hl]
      refine ⟨_, rfl, ?_⟩
      rw [Nat.mul_comm tok, Nat.mod_eq_of_lt (show Q * tok < 2 ^ 24 by omega), Nat.min_eq_left (by omega)]
  by_cases hi : txtp < IDTX
  · have hu : (typeOf txtp).usesMatrix = true := by rw [txtp_matrix ht]; exact decide_eq_true hi
    cases hqm : b.qm with
    | none =>
      have e : b.spec.qm = none := by show b.qm.map _ = none; rw [hqm]; rfl
      refine hqm ▸ key Q (by rw [effQ, e]) (noqm (by rw [hqm, if_pos hi]))
    | some m =>
      have e : b.spec.qm = some (fun r c => m (c * min 32 b.tx.h + r)) := by show b.qm.map _ = _; rw [hqm]; rfl
      have hmm := hb.qm m hqm (rcOf b p)
      refine hqm ▸ key ((Q * m (rcOf b p) + 16) / 32) (by rw [effQ, e]; dsimp only; rw [if_pos hu]; rfl) ?_
      rw [if_pos hi, hqm, dqTok, if_pos (rcOf_lt hp).1, dqQm]
      have hqb : (Q * m (rcOf b p) + 16) / 32 ≤ 233062 := by
        have : Q * m (rcOf b p) ≤ 29247 * 255 := Nat.mul_le_mul hq.2 (by omega)
        omega
      rw [show (Q * m (rcOf b p) + 16) >>> 5 = (Q * m (rcOf b p) + 16) / 32 from Nat.shiftRight_eq_div_pow ..]
      dsimp only
      generalize (Q * m (rcOf b p) + 16) / 32 = Q' at *
      by_cases h : tok ≥ 15
      · rw [if_pos h, lvl_ge src h, golombTok_eq]
        refine ⟨_, rfl, ?_⟩
        dsimp only
        rw [and24, Nat.shiftRight_eq_div_pow, Nat.mul_comm]
      · have hl : tok % 2 ^ 20 = tok := Nat.mod_eq_of_lt (by omega)
        have hm1 : Q' * tok ≤ Q' * 14 := Nat.mul_le_mul_left _ (by omega)
        rw [if_neg h, lvl_lt src h, Nat.shiftRight_eq_div_pow]
        dsimp only
        rw [if_pos (by omega), hl]
        refine ⟨_, rfl, ?_⟩
        rw [Nat.mul_comm tok, Nat.mod_eq_of_lt (show Q' * tok < 2 ^ 24 by omega)]
  · have hu : (typeOf txtp).usesMatrix = false := by rw [txtp_matrix ht]; exact decide_eq_false hi
    refine key Q ?_ (noqm (if_neg hi))
    rw [effQ]
    cases b.spec.qm with
    | none => rfl
    | some f => dsimp only; rw [hu]; simp

theorem signed_abs (sign dq : Nat) : (signed sign dq).natAbs = dq := by
  rw [signed]; split <;> simp

/-- Dequantisation, with the value named. -/
theorem dqTok_val (src : Source σ) {b : Arg} (hb : b.Ok) {txtp : Nat} (ht : txtp < 17) {p : Nat × Nat}
    (hp : p.1 < b.spec.H ∧ p.2 < b.spec.W) {tok sign : Nat} (h15 : tok ≤ 15) (hs : sign ≤ 1) (s : σ) :
    ∃ dq, (∀ k : Nat → Nat → σ → Option α,
        dqTok src b (if txtp < IDTX then b.qm else none) (if p = (0, 0) then b.dq 0 else b.dq 1) (rcOf b p) tok sign s k =
        k ((lvl src tok s).1 % 2 ^ 20) dq (lvl src tok s).2) ∧
      signed sign dq = Spec.dequant b.spec (typeOf txtp) p ((lvl src tok s).1 % 2 ^ 20) (sign = 1) ∧ dq ≤ cfMax b + sign := by
  obtain ⟨dq, _, h2, h3⟩ := dqTok_eq src hb ht hp h15 hs s (fun _ _ _ => (none : Option α))
  refine ⟨dq, fun k => ?_, h2, h3⟩
  obtain ⟨dq', h1', h2', _⟩ := dqTok_eq src hb ht hp h15 hs s k
  rw [h1', ← signed_abs sign dq', h2', ← h2, signed_abs]

theorem rcOf_zero {b : Arg} {p : Nat × Nat} (hp : p ≠ (0, 0)) : rcOf b p ≠ 0 := by
  intro e
  rw [rcOf] at e
  have h1 : p.1 = 0 := by omega
  have h2 : p.2 * b.spec.H = 0 := by omega
  have := (pos_hw b).1
  have h3 : p.2 = 0 := by
    rcases Nat.mul_eq_zero.1 h2 with h | h
    · exact h
    · omega
  exact hp (Prod.ext h1 h3)

/-- An empty chain. -/
theorem Chain.zero {b : Arg} {q : Nat → Nat → Nat} {cf : Nat → Int} : ∀ {l : List (Nat × Nat)},
    (∀ p ∈ l, p ≠ (0, 0)) → Chain b q cf l 0 → ∀ p ∈ l, q p.1 p.2 = 0 ∧ cf (rcOf b p) = 0
  | [], _, _ => by intro p hp; cases hp
  | p :: ps, hl, h => by
    rcases h with ⟨h1, h2, h3⟩ | ⟨_, h2, _⟩
    · intro p' hp'
      rcases List.mem_cons.1 hp' with rfl | hp'
      · exact ⟨h1, h2⟩
      · exact h3.zero (fun p h => hl p (List.mem_cons_of_mem _ h)) p' hp'
    · exact absurd h2.symm (rcOf_zero (hl p (List.mem_cons_self ..)))

theorem readSigns_zero (src : Source σ) (b : Spec.Blk) (t : Spec.TxType) (q : Nat → Nat → Nat) (a : Spec.Acc) (s : σ) :
    ∀ (l : List (Nat × Nat)), (∀ p ∈ l, q p.1 p.2 = 0) → Spec.readSigns src b t q false l a s = (a, s)
  | [], _ => rfl
  | p :: l, h => by
    rw [Spec.readSigns, if_pos (h p (List.mem_cons_self ..))]
    exact readSigns_zero src b t q a s l (fun p hp => h p (List.mem_cons_of_mem _ hp))

/-- A step of the second pass that reads a sign. -/
theorem readSigns_cons (src : Source σ) (b : Spec.Blk) (t : Spec.TxType) (q : Nat → Nat → Nat) (first : Bool)
    (p : Nat × Nat) (l : List (Nat × Nat)) (a : Spec.Acc) (s : σ) (h : q p.1 p.2 ≠ 0) :
    Spec.readSigns src b t q first (p :: l) a s =
      let sg := if first then src.sym ⟨.coef .dcSign, [b.ptype, Spec.dcSignCtx b]⟩ 1 s else src.bit s
      let g := lvl src (q p.1 p.2) sg.2
      Spec.readSigns src b t q false l
        { coef := Spec.set2 a.coef p (Spec.dequant b t p (g.1 % 2 ^ 20) (sg.1 = 1)), cul := a.cul + g.1 % 2 ^ 20,
          cat := if p = (0, 0) then (if sg.1 = 1 then 1 else 2) else a.cat } g.2 := by
  rw [Spec.readSigns, if_neg h]
  rfl

theorem cfSet_range {b : Arg} (hb : b.Ok) {cf : Nat → Int} {i sign dq : Nat} (hi : i < cfSize b) (hs : sign ≤ 1)
    (h : dq ≤ cfMax b + sign) : cfSet (cfSize b) b.bpc cf i (signed sign dq) = some (fun j => if j = i then signed sign dq else cf j) := by
  have hm := cfMax_eq hb
  have hr := signed_range (m := cfMax b + 1) (dq := dq) hs (by omega) (by omega)
  have h2 : cfMax b + 1 ≤ (if b.bpc = 8 then 2 ^ 15 else 2 ^ 31) := by
    rw [hm]; rcases hb.bpc with h | h | h <;> rw [h] <;> decide
  rw [cfSet, if_pos]
  refine ⟨hi, ?_⟩
  by_cases h8 : b.bpc = 8
  · simp only [h8, if_true] at h2 ⊢
    omega
  · simp only [h8, if_false] at h2 ⊢
    omega

/-- The second pass over the coefficients after the first. -/
theorem acSigns_eq (src : Source σ) {b : Arg} (hb : b.Ok) {txtp : Nat} (ht : txtp < 17) {q : Nat → Nat → Nat}
    (hq : ∀ r c, q r c ≤ 15) (k : (Nat → Int) → Nat → σ → Option α) :
    ∀ (l : List (Nat × Nat)) (fuel rc : Nat) (cf : Nat → Int) (a : Spec.Acc) (s : σ),
      l.Nodup → (∀ p ∈ l, (p.1 < b.spec.H ∧ p.2 < b.spec.W) ∧ p ≠ (0, 0)) → Chain b q cf l rc → rc ≠ 0 → l.length < fuel →
      a.cul + l.length * 2 ^ 20 < 2 ^ 32 →
      (∀ p : Nat × Nat, p.1 < b.spec.H → p ∉ l → cf (rcOf b p) = a.coef p.1 p.2) → (∀ p ∈ l, a.coef p.1 p.2 = 0) →
      ∃ cf', acSigns src b (if txtp < IDTX then b.qm else none) fuel rc cf a.cul s k =
          k cf' (Spec.readSigns src b.spec (typeOf txtp) q false l a s).1.cul
            (Spec.readSigns src b.spec (typeOf txtp) q false l a s).2 ∧
        (∀ p : Nat × Nat, p.1 < b.spec.H → cf' (rcOf b p) = (Spec.readSigns src b.spec (typeOf txtp) q false l a s).1.coef p.1 p.2) ∧
        (Spec.readSigns src b.spec (typeOf txtp) q false l a s).1.cat = a.cat
  | [], _, _, _, _, _, _, _, hc, h0, _, _, _, _ => absurd hc h0
  | p :: l, fuel, rc, cf, a, s, hd, hin, hc, h0, hf, hcul, hout, hl => by
    have hpin := hin p (List.mem_cons_self ..)
    have hd' := List.nodup_cons.1 hd
    have hin' : ∀ p ∈ l, (p.1 < b.spec.H ∧ p.2 < b.spec.W) ∧ p ≠ (0, 0) := fun p h => hin p (List.mem_cons_of_mem _ h)
    rw [List.length_cons] at hf
    rw [List.length_cons, Nat.add_mul] at hcul
    have hcul1 : a.cul + l.length * 2 ^ 20 < 2 ^ 32 :=
      Nat.lt_of_le_of_lt (Nat.add_le_add_left (Nat.le_add_right ..) _) hcul
    rcases hc with ⟨h1, h2, h3⟩ | ⟨h1, h2, nx, h3, h4, h5⟩
    · rw [Spec.readSigns, if_pos h1]
      refine acSigns_eq src hb ht hq k l fuel rc cf a s hd'.2 hin' h3 h0 (by omega) hcul1 ?_
        (fun p h => hl p (List.mem_cons_of_mem _ h))
      intro p' hp' hm
      by_cases e : p' = p
      · rw [e, h2, hl p (List.mem_cons_self ..)]
      · exact hout p' hp' (fun h => (List.mem_cons.1 h).elim e hm)
    · rw [readSigns_cons _ _ _ _ _ _ _ _ _ h1]
      obtain ⟨f, rfl⟩ : ∃ f, fuel = f + 1 := ⟨fuel - 1, by omega⟩
      have hs := src.bit_le s
      have hqp := hq p.1 p.2
      simp only [Bool.false_eq_true, if_false]
      rw [acSigns, h2, if_pos (rcOf_lt hpin.1).1, h4]
      have htok : ((((q p.1 p.2 * 2048 + nx : Nat) : Int)) % 2 ^ 32).toNat = q p.1 p.2 * 2048 + nx := by omega
      rw [htok]
      have e1 : (if q p.1 p.2 * 2048 + nx ≥ 15 <<< 11 then 15 else (q p.1 p.2 * 2048 + nx) >>> 11) = q p.1 p.2 := by
        rw [Nat.shiftLeft_eq, Nat.shiftRight_eq_div_pow]
        split <;> omega
      have e2 : (q p.1 p.2 * 2048 + nx) &&& 0x3ff = nx := by
        have := Nat.and_two_pow_sub_one_eq_mod (q p.1 p.2 * 2048 + nx) 10
        rw [show (2 ^ 10 - 1 : Nat) = 0x3ff by decide, show (2 ^ 10 : Nat) = 1024 by decide] at this
        rw [this]; omega
      dsimp only
      rw [e1, e2]
      obtain ⟨dq, d1, d2, d3⟩ := dqTok_val (α := α) src hb ht hpin.1 hqp hs (src.bit s).2
      have e3 : (if p = (0, 0) then b.dq 0 else b.dq 1) = b.dq 1 := if_neg hpin.2
      rw [e3] at d1
      have hlv : (lvl src (q p.1 p.2) (src.bit s).2).1 % 2 ^ 20 < 2 ^ 20 := Nat.mod_lt _ (by decide)
      rw [if_neg hpin.2]
      generalize (lvl src (q p.1 p.2) (src.bit s).2).1 % 2 ^ 20 = lv at *
      generalize (lvl src (q p.1 p.2) (src.bit s).2).2 = s2 at *
      have hmod : (a.cul + lv) % 2 ^ 32 = a.cul + lv := Nat.mod_eq_of_lt (by omega)
      rw [d1, cfSet_range hb (rcOf_lt hpin.1).1 hs d3]
      dsimp only
      rw [hmod, ← d2]
      have hne : ∀ p' ∈ l, rcOf b p' ≠ rcOf b p := fun p' hp' e =>
        hd'.1 (rcOf_inj (hin' p' hp').1.1 hpin.1.1 e ▸ hp')
      have hch : Chain b q (fun j => if j = rcOf b p then signed (src.bit s).1 dq else cf j) l nx :=
        h5.congr (fun p' hp' => ⟨rfl, if_neg (hne p' hp')⟩)
      have ho : ∀ p' : Nat × Nat, p'.1 < b.spec.H → p' ∉ l →
          (fun j => if j = rcOf b p then signed (src.bit s).1 dq else cf j) (rcOf b p') =
            Spec.set2 a.coef p (signed (src.bit s).1 dq) p'.1 p'.2 := by
        intro p' hp' hm
        dsimp only
        rw [set2_app]
        by_cases e : p' = p
        · rw [e, if_pos rfl, if_pos ⟨rfl, rfl⟩]
        · rw [if_neg (fun h => e (rcOf_inj hp' hpin.1.1 h)), if_neg (fun h => e (Prod.ext h.1 h.2))]
          exact hout p' hp' (fun h => (List.mem_cons.1 h).elim e hm)
      have hz : ∀ p' ∈ l, Spec.set2 a.coef p (signed (src.bit s).1 dq) p'.1 p'.2 = 0 := by
        intro p' hp'
        have hpne : ¬(p'.1 = p.1 ∧ p'.2 = p.2) := fun h => hd'.1 ((Prod.ext h.1 h.2 : p' = p) ▸ hp')
        rw [set2_app, if_neg hpne]
        exact hl p' (List.mem_cons_of_mem _ hp')
      by_cases hnx : nx = 0
      · subst hnx
        rw [if_neg (by simp)]
        have hzero := hch.zero (fun p h => (hin' p h).2)
        rw [readSigns_zero _ _ _ _ _ _ l (fun p h => (hzero p h).1)]
        refine ⟨_, rfl, ?_, rfl⟩
        intro p' hp'
        by_cases hm : p' ∈ l
        · dsimp only
          rw [hz p' hm]
          exact (hzero p' hm).2
        · exact ho p' hp' hm
      · rw [if_pos hnx]
        exact acSigns_eq src hb ht hq k l f nx _
          { coef := Spec.set2 a.coef p (signed (src.bit s).1 dq), cul := a.cul + lv, cat := a.cat } s2
          hd'.2 hin' hch hnx (by omega) (by dsimp only; omega) ho hz

theorem typeClass_eq {t : Nat} (ht : t < 17) : typeClass[t]? = some (typeOf t).cls := by
  have : ∀ t ∈ List.range 17, typeClass[t]? = some (typeOf t).cls := by decide
  exact this t (List.mem_range.2 ht)

theorem ctx_or {x : Nat} (hx : x < 64) : x ||| (1 <<< 6) = x + 64 ∧ x ||| (2 <<< 6) = x + 128 := by
  have : ∀ x ∈ List.range 64, x ||| (1 <<< 6) = x + 64 ∧ x ||| (2 <<< 6) = x + 128 := by decide +kernel
  exact this x (List.mem_range.2 hx)

theorem ptype_eq' (b : Arg) : b.spec.ptype = b.chroma := ptype_eq b

theorem dcSign_lt (b : Spec.Blk) : Spec.dcSignCtx b < 3 := by
  simp only [Spec.dcSignCtx]
  split
  · omega
  · split <;> omega

/-- The second pass. -/
theorem residual_eq (src : Source σ) {b : Arg} (hb : b.Ok) {txtp : Nat} (ht : txtp < 17) {cls : TxClass}
    {sc : List (Nat × Nat)} {eob rc dc : Nat} {q : Nat → Nat → Nat} {cf : Nat → Int} (hsc : ScanOk b cls sc)
    (h : Tokens b sc eob q rc dc cf) (s : σ) (k : (Nat → Int) → Nat → σ → Option α) :
    ∃ cf', residual src b txtp rc dc cf s k =
        k cf' (ctxByte ⟨min 63 (Spec.readSigns src b.spec (typeOf txtp) q true (sc.take (eob + 1)) {} s).1.cul,
          (Spec.readSigns src b.spec (typeOf txtp) q true (sc.take (eob + 1)) {} s).1.cat⟩)
          (Spec.readSigns src b.spec (typeOf txtp) q true (sc.take (eob + 1)) {} s).2 ∧
      ∀ p : Nat × Nat, p.1 < b.spec.H →
        cf' (rcOf b p) = (Spec.readSigns src b.spec (typeOf txtp) q true (sc.take (eob + 1)) {} s).1.coef p.1 p.2 := by
  have hl := drop_take_cons hsc.first (Nat.zero_le eob)
  rw [List.drop_zero] at hl
  rw [hl]
  have hnm := not_mem_rest hsc.nodup hsc.first (Nat.zero_le eob)
  have hnd : ((sc.take (eob + 1)).drop (0 + 1)).Nodup :=
    (hsc.nodup.sublist (List.take_sublist ..)).sublist (List.drop_sublist ..)
  have hin : ∀ p ∈ (sc.take (eob + 1)).drop (0 + 1), (p.1 < b.spec.H ∧ p.2 < b.spec.W) ∧ p ≠ (0, 0) :=
    fun p hp => ⟨hsc.inside p (mem_rest hp), fun e => hnm (e ▸ hp)⟩
  have hlen : ((sc.take (eob + 1)).drop (0 + 1)).length < 1024 := by
    have h1 := hsc.len
    have h2 := (cfSize_eq b).2
    rw [List.length_drop, List.length_take]
    omega
  have hch : Chain b q cf ((sc.take (eob + 1)).drop (0 + 1)) rc := h.chain
  have hrest : ∀ p : Nat × Nat, p.1 < b.spec.H → p ∉ (sc.take (eob + 1)).drop (0 + 1) → cf (rcOf b p) = 0 := h.rest
  have hlast : (∀ p ∈ (sc.take (eob + 1)).drop (0 + 1), q p.1 p.2 = 0) → q 0 0 ≠ 0 := by
    intro hz h0
    obtain ⟨p, hp, hne⟩ := h.last
    have hm : p ∈ sc.take (eob + 1) := List.mem_of_getElem? (i := eob) (by rw [List.getElem?_take_of_lt (by omega)]; exact hp)
    rw [hl] at hm
    rcases List.mem_cons.1 hm with rfl | hm
    · exact hne h0
    · exact hne (hz p hm)
  generalize (sc.take (eob + 1)).drop (0 + 1) = l at *
  rw [residual, h.dc]
  dsimp only
  by_cases h0 : q 0 0 = 0
  · rw [if_pos h0, Spec.readSigns, if_pos h0]
    have hrc : rc ≠ 0 := by
      intro e
      subst e
      exact hlast (fun p hp => (hch.zero (fun p h => (hin p h).2) p hp).1) h0
    obtain ⟨cf', h1, h2, h3⟩ := acSigns_eq src hb ht h.le
      (fun cf cul s => k cf (min cul 63 ||| (1 <<< 6)) s) l 1025 rc cf {} s hnd hin hch hrc (by omega)
      (by dsimp only; omega) (fun p hp hm => hrest p hp hm) (fun _ _ => rfl)
    refine ⟨cf', ?_, h2⟩
    refine Eq.trans h1 ?_
    rw [h3, ctxByte, Nat.min_comm, (ctx_or (x := min 63 _) (by omega)).1]
    rfl
  · rw [if_neg h0, readSigns_cons _ _ _ _ _ _ _ _ _ h0]
    have hcdf : (⟨.coef .dcSign, [b.spec.ptype, Spec.dcSignCtx b.spec]⟩ : Cdf) = ⟨.coef .dcSign, [b.chroma, dcSignCtx b]⟩ := by
      rw [ptype_eq', dcSignCtx_eq hb]
    have hok : (Cdf.mk (.coef .dcSign) [b.chroma, dcSignCtx b]).ok 1 = true :=
      ok_dcSign (chroma_lt b) (by rw [dcSignCtx_eq hb]; exact dcSign_lt _)
    rw [rd_ok hok]
    simp only [if_true, hcdf]
    have hs := src.sym_le ⟨.coef .dcSign, [b.chroma, dcSignCtx b]⟩ 1 s
    generalize src.sym ⟨.coef .dcSign, [b.chroma, dcSignCtx b]⟩ 1 s = sg at *
    have hp0 := hsc.inside (0, 0) (List.mem_of_getElem? hsc.first)
    obtain ⟨dq, d1, d2, d3⟩ := dqTok_val (α := α) src hb ht hp0 (h.le 0 0) hs sg.2
    have hr0 : rcOf b (0, 0) = 0 := by simp [rcOf]
    rw [hr0, if_pos rfl] at d1
    have hsz : 0 < cfSize b := hr0 ▸ (rcOf_lt hp0).1
    rw [d1, cfSet_range hb hsz hs d3]
    dsimp only
    rw [← d2]
    have hlv : (lvl src (q 0 0) sg.2).1 % 2 ^ 20 < 2 ^ 20 := Nat.mod_lt _ (by decide)
    generalize (lvl src (q 0 0) sg.2).1 % 2 ^ 20 = lv at *
    generalize (lvl src (q 0 0) sg.2).2 = s2 at *
    have hne : ∀ p' ∈ l, rcOf b p' ≠ 0 := fun p' hp' => rcOf_zero (hin p' hp').2
    have hch' : Chain b q (fun j => if j = 0 then signed sg.1 dq else cf j) l rc :=
      hch.congr (fun p' hp' => ⟨rfl, if_neg (hne p' hp')⟩)
    have ho : ∀ p' : Nat × Nat, p'.1 < b.spec.H → p' ∉ l →
        (fun j => if j = 0 then signed sg.1 dq else cf j) (rcOf b p') =
          Spec.set2 (fun _ _ => 0) (0, 0) (signed sg.1 dq) p'.1 p'.2 := by
      intro p' hp' hm
      dsimp only
      rw [set2_app]
      by_cases e : p' = (0, 0)
      · rw [e, if_pos hr0, if_pos ⟨rfl, rfl⟩]
      · rw [if_neg (rcOf_zero e), if_neg (fun h => e (Prod.ext h.1 h.2))]
        exact hrest p' hp' hm
    have hz : ∀ p' ∈ l, Spec.set2 (fun _ _ => (0 : Int)) (0, 0) (signed sg.1 dq) p'.1 p'.2 = 0 := by
      intro p' hp'
      rw [set2_app, if_neg (fun h => (hin p' hp').2 (Prod.ext h.1 h.2))]
    have hctx : ∀ cul, min cul 63 ||| (if sg.1 = 0 then 2 <<< 6 else 0) = ctxByte ⟨min 63 cul, if sg.1 = 1 then 1 else 2⟩ := by
      intro cul
      rw [ctxByte, Nat.min_comm]
      rcases Nat.lt_or_ge sg.1 1 with hh | hh
      · have e : sg.1 = 0 := by omega
        rw [e, if_pos rfl, (ctx_or (x := min 63 cul) (by omega)).2]; rfl
      · have e : sg.1 = 1 := by omega
        rw [e, if_neg (by decide), Nat.or_zero]; rfl
    by_cases hrc : rc = 0
    · subst hrc
      rw [if_neg (by simp)]
      have hzero := hch'.zero (fun p h => (hin p h).2)
      rw [readSigns_zero _ _ _ _ _ _ l (fun p h => (hzero p h).1)]
      refine ⟨fun j => if j = 0 then signed sg.1 dq else cf j, ?_, ?_⟩
      · rw [hctx]; dsimp only; rw [Nat.zero_add]
      · intro p' hp'
        by_cases hm : p' ∈ l
        · dsimp only
          rw [hz p' hm]
          exact (hzero p' hm).2
        · exact ho p' hp' hm
    · rw [if_pos hrc]
      obtain ⟨cf', h1, h2, h3⟩ := acSigns_eq src hb ht h.le
        (fun cf cul s => k cf (min cul 63 ||| (if sg.1 = 0 then 2 <<< 6 else 0)) s) l 1025 rc _
        { coef := Spec.set2 (fun _ _ => 0) (0, 0) (signed sg.1 dq), cul := 0 + lv, cat := if sg.1 = 1 then 1 else 2 } s2
        hnd hin hch' hrc (by omega) (by dsimp only; omega) ho hz
      refine ⟨cf', ?_, h2⟩
      rw [Nat.zero_add] at h1
      refine Eq.trans h1 ?_
      rw [hctx, h3]
      simp only [Nat.zero_add]

end Dav1d.Coef
