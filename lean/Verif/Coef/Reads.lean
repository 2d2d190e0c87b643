import Verif.Coef.Words
/-!
# Symbols, transform type, end of block, Golomb codes
-/
namespace Dav1d.Coef
open Itx (Tx TxClass)
open CdfTab (Field)

variable {σ α : Type}

theorem rd_ok {src : Source σ} {c : Cdf} {n : Nat} (h : c.ok n = true) (s : σ) (k : Nat → σ → Option α) :
    rd src c n s k = k (src.sym c n s).1 (src.sym c n s).2 := if_pos h

/-! ### Tables are accessed inside their dimensions -/

theorem ok_skip {c x : Nat} (hc : c < 5) (hx : x < 13) : (Cdf.mk (.coef .skip) [c, x]).ok 1 = true := by
  have : ∀ c ∈ List.range 5, ∀ x ∈ List.range 13, (Cdf.mk (.coef .skip) [c, x]).ok 1 = true := by decide +kernel
  exact this c (List.mem_range.2 hc) x (List.mem_range.2 hx)

theorem ok_bin2 {p i : Nat} (hp : p < 2) (hi : i < 2) : (Cdf.mk (.coef .eobBin16) [p, i]).ok 4 = true ∧
    (Cdf.mk (.coef .eobBin32) [p, i]).ok 5 = true ∧ (Cdf.mk (.coef .eobBin64) [p, i]).ok 6 = true ∧
    (Cdf.mk (.coef .eobBin128) [p, i]).ok 7 = true ∧ (Cdf.mk (.coef .eobBin256) [p, i]).ok 8 = true := by
  have : ∀ p ∈ List.range 2, ∀ i ∈ List.range 2, (Cdf.mk (.coef .eobBin16) [p, i]).ok 4 = true ∧
    (Cdf.mk (.coef .eobBin32) [p, i]).ok 5 = true ∧ (Cdf.mk (.coef .eobBin64) [p, i]).ok 6 = true ∧
    (Cdf.mk (.coef .eobBin128) [p, i]).ok 7 = true ∧ (Cdf.mk (.coef .eobBin256) [p, i]).ok 8 = true := by decide +kernel
  exact this p (List.mem_range.2 hp) i (List.mem_range.2 hi)

theorem ok_bin1 {p : Nat} (hp : p < 2) : (Cdf.mk (.coef .eobBin512) [p]).ok 9 = true ∧
    (Cdf.mk (.coef .eobBin1024) [p]).ok 10 = true := by
  have : ∀ p ∈ List.range 2, (Cdf.mk (.coef .eobBin512) [p]).ok 9 = true ∧
    (Cdf.mk (.coef .eobBin1024) [p]).ok 10 = true := by decide +kernel
  exact this p (List.mem_range.2 hp)

theorem ok_hiBit {c p i : Nat} (hc : c < 5) (hp : p < 2) (hi : i < 11) : (Cdf.mk (.coef .eobHiBit) [c, p, i]).ok 1 = true := by
  have : ∀ c ∈ List.range 5, ∀ p ∈ List.range 2, ∀ i ∈ List.range 11, (Cdf.mk (.coef .eobHiBit) [c, p, i]).ok 1 = true := by
    decide +kernel
  exact this c (List.mem_range.2 hc) p (List.mem_range.2 hp) i (List.mem_range.2 hi)

theorem ok_eobBase {c p i : Nat} (hc : c < 5) (hp : p < 2) (hi : i < 4) : (Cdf.mk (.coef .eobBaseTok) [c, p, i]).ok 2 = true := by
  have : ∀ c ∈ List.range 5, ∀ p ∈ List.range 2, ∀ i ∈ List.range 4, (Cdf.mk (.coef .eobBaseTok) [c, p, i]).ok 2 = true := by
    decide +kernel
  exact this c (List.mem_range.2 hc) p (List.mem_range.2 hp) i (List.mem_range.2 hi)

theorem ok_base {c p i : Nat} (hc : c < 5) (hp : p < 2) (hi : i < 41) : (Cdf.mk (.coef .baseTok) [c, p, i]).ok 3 = true := by
  have : ∀ c ∈ List.range 5, ∀ p ∈ List.range 2, ∀ i ∈ List.range 41, (Cdf.mk (.coef .baseTok) [c, p, i]).ok 3 = true := by
    decide +kernel
  exact this c (List.mem_range.2 hc) p (List.mem_range.2 hp) i (List.mem_range.2 hi)

theorem ok_br {c p i : Nat} (hc : c < 4) (hp : p < 2) (hi : i < 21) : (Cdf.mk (.coef .brTok) [c, p, i]).ok 3 = true := by
  have : ∀ c ∈ List.range 4, ∀ p ∈ List.range 2, ∀ i ∈ List.range 21, (Cdf.mk (.coef .brTok) [c, p, i]).ok 3 = true := by
    decide +kernel
  exact this c (List.mem_range.2 hc) p (List.mem_range.2 hp) i (List.mem_range.2 hi)

theorem ok_dcSign {p i : Nat} (hp : p < 2) (hi : i < 3) : (Cdf.mk (.coef .dcSign) [p, i]).ok 1 = true := by
  have : ∀ p ∈ List.range 2, ∀ i ∈ List.range 3, (Cdf.mk (.coef .dcSign) [p, i]).ok 1 = true := by decide +kernel
  exact this p (List.mem_range.2 hp) i (List.mem_range.2 hi)

theorem ok_intra {y : Nat} (hy : y < 13) : (∀ m < 2, (Cdf.mk (.mode .txtpIntra1) [m, y]).ok 6 = true) ∧
    (∀ m < 3, (Cdf.mk (.mode .txtpIntra2) [m, y]).ok 4 = true) := by
  have h1 : ∀ y ∈ List.range 13, ∀ m ∈ List.range 2, (Cdf.mk (.mode .txtpIntra1) [m, y]).ok 6 = true := by decide +kernel
  have h2 : ∀ y ∈ List.range 13, ∀ m ∈ List.range 3, (Cdf.mk (.mode .txtpIntra2) [m, y]).ok 4 = true := by decide +kernel
  exact ⟨fun m hm => h1 y (List.mem_range.2 hy) m (List.mem_range.2 hm),
    fun m hm => h2 y (List.mem_range.2 hy) m (List.mem_range.2 hm)⟩

theorem ok_inter : (∀ m < 2, (Cdf.mk (.mode .txtpInter1) [m]).ok 15 = true) ∧ (Cdf.mk (.mode .txtpInter2) []).ok 11 = true ∧
    (∀ m < 4, (Cdf.mk (.mode .txtpInter3) [m]).ok 1 = true) := by
  have h1 : ∀ m ∈ List.range 2, (Cdf.mk (.mode .txtpInter1) [m]).ok 15 = true := by decide +kernel
  have h3 : ∀ m ∈ List.range 4, (Cdf.mk (.mode .txtpInter3) [m]).ok 1 = true := by decide +kernel
  exact ⟨fun m hm => h1 m (List.mem_range.2 hm), by decide +kernel, fun m hm => h3 m (List.mem_range.2 hm)⟩

theorem dim7 (tx : Tx) : dim tx 7 < 5 := by cases tx <;> decide
theorem chroma_lt (b : Arg) : b.chroma < 2 := by unfold Arg.chroma; split <;> omega
theorem ptype_eq (b : Arg) : b.spec.ptype = b.chroma := rfl
theorem szCtx_eq (b : Arg) : b.spec.szCtx = dim b.tx 7 := (sz_ctx b.tx).1
theorem sqr_eq (b : Arg) : b.spec.sqr = dim b.tx 4 := (sz_ctx b.tx).2.1
theorem sqrUp_eq (b : Arg) : b.spec.sqrUp = dim b.tx 5 := (sz_ctx b.tx).2.2

/-! ### Bits -/

theorem bools_eq (src : Source σ) : ∀ n v s, bools src n v s = Spec.readBits src n v s
  | 0, _, _ => rfl
  | n + 1, v, s => by
    have hb := src.bit_le s
    have e : (v <<< 1) ||| (src.bit s).1 = 2 * v + (src.bit s).1 := by
      rw [Nat.shiftLeft_eq, Nat.pow_one, Nat.mul_comm]
      exact (Nat.two_pow_add_eq_or_of_lt (i := 1) (by omega) v).symm
    rw [bools, Spec.readBits, e]
    exact bools_eq src n _ _

theorem readBits_state (src : Source σ) : ∀ n v w s, (Spec.readBits src n v s).2 = (Spec.readBits src n w s).2
  | 0, _, _, _ => rfl
  | n + 1, v, w, s => by rw [Spec.readBits, Spec.readBits]; exact readBits_state src n _ _ _

theorem readBits_val (src : Source σ) : ∀ n v s, (Spec.readBits src n v s).1 = v * 2 ^ n + (Spec.readBits src n 0 s).1
  | 0, v, s => by simp [Spec.readBits]
  | n + 1, v, s => by
    rw [Spec.readBits, Spec.readBits, readBits_val src n (2 * v + _), readBits_val src n (2 * 0 + _), Nat.pow_succ]
    simp only [Nat.add_mul, Nat.mul_zero, Nat.zero_add]
    rw [Nat.mul_comm 2 v, Nat.mul_assoc v 2, Nat.mul_comm 2 (2 ^ n)]; omega

theorem readBits_lt (src : Source σ) : ∀ n s, (Spec.readBits src n 0 s).1 < 2 ^ n
  | 0, s => by simp [Spec.readBits]
  | n + 1, s => by
    have hb := src.bit_le s
    have ih := readBits_lt src n (src.bit s).2
    rw [Spec.readBits, readBits_val, Nat.pow_succ]
    rcases (show (src.bit s).1 = 0 ∨ (src.bit s).1 = 1 by omega) with e | e <;> rw [e] <;> omega

/-- High tokens. -/
theorem hiTok_eq {src : Source σ} {c : Cdf} (h : c.ok 3 = true) (s : σ) (k : Nat → σ → Option α) :
    hiTok src c s k = k (Spec.readBr src c 4 3 s).1 (Spec.readBr src c 4 3 s).2 := by
  have step : ∀ n l s, (Spec.readBr src c (n + 1) l s) = if (src.sym c 3 s).1 = 3 then
      Spec.readBr src c n (l + 3) (src.sym c 3 s).2 else (l + (src.sym c 3 s).1, (src.sym c 3 s).2) := by
    intro n l s
    have := src.sym_le c 3 s
    rw [Spec.readBr]
    by_cases e : (src.sym c 3 s).1 = 3
    · rw [if_pos e]; simp only [e]; rfl
    · rw [if_neg e]; exact if_pos (by omega)
  simp only [hiTok, rd_ok h]
  rw [step 3 3]
  by_cases e1 : (src.sym c 3 s).1 = 3
  · simp only [e1, ne_eq, not_true_eq_false, if_false, if_true]
    rw [step 2]
    by_cases e2 : (src.sym c 3 (src.sym c 3 s).2).1 = 3
    · simp only [e2, not_true_eq_false, if_false, if_true]
      rw [step 1]
      by_cases e3 : (src.sym c 3 (src.sym c 3 (src.sym c 3 s).2).2).1 = 3
      · simp only [e3, not_true_eq_false, if_false, if_true]
        rw [step 0]
        split
        · next e4 => rw [e4]; rfl
        · rfl
      · simp only [e3, not_false_eq_true, if_false, if_true]
    · simp only [e2, not_false_eq_true, if_false, if_true]
  · simp only [e1, ne_eq, not_false_eq_true, if_false, if_true]

theorem readBr_range {src : Source σ} {c : Cdf} : ∀ n l s, l ≤ (Spec.readBr src c n l s).1 ∧
    (Spec.readBr src c n l s).1 ≤ l + 3 * n
  | 0, l, s => by simp [Spec.readBr]
  | n + 1, l, s => by
    have := src.sym_le c 3 s
    rw [Spec.readBr]

    split
    · dsimp only; omega
    · have ih := readBr_range (src := src) (c := c) n (l + (src.sym c 3 s).1) (src.sym c 3 s).2
      omega

/-! ### Golomb codes -/

theorem golombLen_eq (src : Source σ) : ∀ f n s, golombLen src f n s = Spec.golombZeros src f n s
  | 0, _, _ => rfl
  | f + 1, n, s => by
    have := src.bit_le s
    rw [golombLen, Spec.golombZeros]
    by_cases e : (src.bit s).1 = 1
    · rw [if_neg (by omega), if_pos e]
    · rw [if_pos (by omega), if_neg e]; exact golombLen_eq src f _ _

theorem golombVal_eq (src : Source σ) : ∀ n v w s, v % 2 ^ 32 = w % 2 ^ 32 →
    (golombVal src n v s).1 % 2 ^ 32 = (Spec.readBits src n w s).1 % 2 ^ 32 ∧
    (golombVal src n v s).2 = (Spec.readBits src n w s).2
  | 0, v, w, s, h => ⟨h, rfl⟩
  | n + 1, v, w, s, h => by
    rw [golombVal, Spec.readBits]
    exact golombVal_eq src n _ _ _ (by rw [Nat.shiftLeft_eq]; omega)

theorem and20 (x : Nat) : x &&& 1048575 = x % 1048576 := by
  have := Nat.and_two_pow_sub_one_eq_mod x 20
  rwa [show (2 ^ 20 - 1 : Nat) = 1048575 by decide, show (2 ^ 20 : Nat) = 1048576 by decide] at this

theorem golomb_arith {v w : Nat} (h : v % 2 ^ 32 = w % 2 ^ 32) :
    ((v + (2 ^ 32 - 1)) % 2 ^ 32 + 15) % 2 ^ 32 % 1048576 = (w + 14) % 2 ^ 20 := by omega

theorem golombTok_eq (src : Source σ) (s : σ) :
    golombTok src s = (((Spec.readGolomb src s).1 + 14) % 2 ^ 20, (Spec.readGolomb src s).2) := by
  have e : Spec.readGolomb src s = Spec.readBits src (golombLen src 32 0 s).1 1 (golombLen src 32 0 s).2 := by
    rw [Spec.readGolomb, golombLen_eq]
  rw [e, golombTok, golomb]
  generalize golombLen src 32 0 s = l
  have h := golombVal_eq src l.1 1 1 l.2 rfl
  rw [and20]
  dsimp only
  rw [h.2, golomb_arith h.1]

/-! ### End of block -/

theorem wh_log (b : Arg) : b.spec.W = 4 * 2 ^ slw b ∧ b.spec.H = 4 * 2 ^ slh b ∧
    Nat.log2 (b.spec.W * b.spec.H) - 4 = slw b + slh b ∧ slw b ≤ 3 ∧ slh b ≤ 3 := by
  have : ∀ tx : Tx, min 32 tx.w = 4 * 2 ^ min (dim tx 2) 3 ∧ min 32 tx.h = 4 * 2 ^ min (dim tx 3) 3 ∧
      Nat.log2 (min 32 tx.w * min 32 tx.h) - 4 = min (dim tx 2) 3 + min (dim tx 3) 3 ∧ min (dim tx 2) 3 ≤ 3 ∧
      min (dim tx 3) 3 ≤ 3 := by intro tx; cases tx <;> decide +kernel
  exact this b.tx

theorem eobBin_eq (b : Arg) (cls : TxClass) : eobBinCdf b (if cls ≠ .d2 then 1 else 0) = some (Spec.eobPtCdf b.spec cls) ∧
    (Spec.eobPtCdf b.spec cls).1.ok (Spec.eobPtCdf b.spec cls).2 = true ∧
    (Spec.eobPtCdf b.spec cls).2 = slw b + slh b + 4 := by
  obtain ⟨hW, hH, hl, h1, h2⟩ := wh_log b
  have e : (if cls ≠ .d2 then 1 else 0) = (if cls = .d2 then (0 : Nat) else 1) := by cases cls <;> rfl
  have hi : (if cls = .d2 then (0 : Nat) else 1) < 2 := by split <;> omega
  rw [e, eobBinCdf, Spec.eobPtCdf, ptype_eq, hl]
  have hn : slw b + slh b ≤ 6 := by omega
  generalize slw b + slh b = n at *
  have c2 := ok_bin2 (chroma_lt b) hi
  have c1 := ok_bin1 (chroma_lt b)
  rcases (show n = 0 ∨ n = 1 ∨ n = 2 ∨ n = 3 ∨ n = 4 ∨ n = 5 ∨ n = 6 by omega) with e | e | e | e | e | e | e <;> subst e
  · exact ⟨rfl, c2.1, rfl⟩
  · exact ⟨rfl, c2.2.1, rfl⟩
  · exact ⟨rfl, c2.2.2.1, rfl⟩
  · exact ⟨rfl, c2.2.2.2.1, rfl⟩
  · exact ⟨rfl, c2.2.2.2.2, rfl⟩
  · exact ⟨rfl, c1.1, rfl⟩
  · exact ⟨rfl, c1.2, rfl⟩

theorem readEob_eq (src : Source σ) (b : Arg) (cls : TxClass) (s : σ) (k : Nat → σ → Option α) :
    ∃ e, readEob src b cls s k = k e (Spec.readEob src b.spec cls s).2 ∧ (Spec.readEob src b.spec cls s).1 = e + 1 ∧
      e < b.spec.W * b.spec.H := by
  obtain ⟨h1, h2, h3⟩ := eobBin_eq b cls
  obtain ⟨hW, hH, _, l1, l2⟩ := wh_log b
  have hwh : b.spec.W * b.spec.H = 2 ^ (slw b + slh b + 4) := by
    rw [hW, hH, Nat.pow_add, Nat.pow_add, Nat.mul_mul_mul_comm]; omega
  rw [readEob, h1, Spec.readEob]
  dsimp only
  rw [rd_ok h2, ptype_eq, szCtx_eq]
  have hle := src.sym_le (Spec.eobPtCdf b.spec cls).1 (Spec.eobPtCdf b.spec cls).2 s
  generalize src.sym (Spec.eobPtCdf b.spec cls).1 (Spec.eobPtCdf b.spec cls).2 s = r at *
  obtain ⟨n, s'⟩ := r
  dsimp only at *
  rw [hwh]
  have hp : 2 ^ n ≤ 2 ^ (slw b + slh b + 4) := Nat.pow_le_pow_right (by omega) (by omega)
  by_cases hn : n > 1
  · rw [if_pos hn, if_neg (by omega), rd_ok (ok_hiBit (dim7 b.tx) (chroma_lt b) (by omega)), bools_eq]
    have hx := src.sym_le ⟨.coef .eobHiBit, [dim b.tx 7, b.chroma, n]⟩ 1 s'
    rw [show n + 1 - 1 = n by omega, show n + 1 - 3 = n - 2 by omega, show n + 1 - 2 = n - 2 + 1 by omega]
    generalize src.sym ⟨.coef .eobHiBit, [dim b.tx 7, b.chroma, n]⟩ 1 s' = x at *
    obtain ⟨hi, s''⟩ := x
    dsimp only at *
    rw [readBits_val src (n - 2) hi, readBits_state src (n - 2) 0 hi]
    have hy := readBits_lt src (n - 2) s''
    generalize (Spec.readBits src (n - 2) 0 s'').1 = y at *
    refine ⟨_, rfl, ?_, ?_⟩
    · have e1 : hi ||| 2 = hi + 2 := by rcases (show hi = 0 ∨ hi = 1 by omega) with e | e <;> rw [e] <;> rfl
      rw [e1, Nat.shiftLeft_eq, Nat.mul_comm (hi + 2), ← Nat.two_pow_add_eq_or_of_lt hy, Nat.pow_succ, Nat.mul_add,
        Nat.mul_comm hi]
      omega
    · have e1 : hi ||| 2 = hi + 2 := by rcases (show hi = 0 ∨ hi = 1 by omega) with e | e <;> rw [e] <;> rfl
      rw [e1, Nat.shiftLeft_eq, Nat.mul_comm (hi + 2), ← Nat.two_pow_add_eq_or_of_lt hy]
      have e2 : 2 ^ n = 2 ^ (n - 2) * 4 := by rw [show n = n - 2 + 2 by omega, Nat.pow_add]; rfl
      have : 2 ^ (n - 2) * (hi + 2) ≤ 2 ^ (n - 2) * 3 := Nat.mul_le_mul_left _ (by omega)
      omega
  · rw [if_neg hn, if_pos (by omega)]
    refine ⟨n, rfl, rfl, ?_⟩
    have : n < 2 ^ n := Nat.lt_two_pow_self
    omega

/-! ### Transform type -/

theorem types_lists : (∀ i < 5, ∃ t, typesPerSet[i]? = some t ∧ t < 17 ∧ typeOf t = Spec.TxSet.intra2.types.getD i .dctDct) ∧
    (∀ i < 7, ∃ t, typesPerSet[i + 5]? = some t ∧ t < 17 ∧ typeOf t = Spec.TxSet.intra1.types.getD i .dctDct) ∧
    (∀ i < 12, ∃ t, typesPerSet[i + 12]? = some t ∧ t < 17 ∧ typeOf t = Spec.TxSet.inter2.types.getD i .dctDct) ∧
    (∀ i < 16, ∃ t, typesPerSet[i + 24]? = some t ∧ t < 17 ∧ typeOf t = Spec.TxSet.inter1.types.getD i .dctDct) ∧
    (∀ i < 2, (((i + (2 ^ 32 - 1)) % 2 ^ 32) &&& IDTX) < 17 ∧
      typeOf (((i + (2 ^ 32 - 1)) % 2 ^ 32) &&& IDTX) = Spec.TxSet.inter3.types.getD i .dctDct) := by
  have h1 : ∀ i ∈ List.range 5, typesPerSet[i]? = some (typesPerSet.getD i 0) ∧ typesPerSet.getD i 0 < 17 ∧
      typeOf (typesPerSet.getD i 0) = Spec.TxSet.intra2.types.getD i .dctDct := by decide +kernel
  have h2 : ∀ i ∈ List.range 7, typesPerSet[i + 5]? = some (typesPerSet.getD (i + 5) 0) ∧ typesPerSet.getD (i + 5) 0 < 17 ∧
      typeOf (typesPerSet.getD (i + 5) 0) = Spec.TxSet.intra1.types.getD i .dctDct := by decide +kernel
  have h3 : ∀ i ∈ List.range 12, typesPerSet[i + 12]? = some (typesPerSet.getD (i + 12) 0) ∧ typesPerSet.getD (i + 12) 0 < 17 ∧
      typeOf (typesPerSet.getD (i + 12) 0) = Spec.TxSet.inter2.types.getD i .dctDct := by decide +kernel
  have h4 : ∀ i ∈ List.range 16, typesPerSet[i + 24]? = some (typesPerSet.getD (i + 24) 0) ∧ typesPerSet.getD (i + 24) 0 < 17 ∧
      typeOf (typesPerSet.getD (i + 24) 0) = Spec.TxSet.inter1.types.getD i .dctDct := by decide +kernel
  have h5 : ∀ i ∈ List.range 2, (((i + (2 ^ 32 - 1)) % 2 ^ 32) &&& IDTX) < 17 ∧
      typeOf (((i + (2 ^ 32 - 1)) % 2 ^ 32) &&& IDTX) = Spec.TxSet.inter3.types.getD i .dctDct := by decide +kernel
  exact ⟨fun i h => ⟨_, h1 i (List.mem_range.2 h)⟩, fun i h => ⟨_, h2 i (List.mem_range.2 h)⟩,
    fun i h => ⟨_, h3 i (List.mem_range.2 h)⟩, fun i h => ⟨_, h4 i (List.mem_range.2 h)⟩, fun i h => h5 i (List.mem_range.2 h)⟩

theorem uv_types : ∀ u < 14, txtpFromUvmode[u]? = some (txtpFromUvmode.getD u 0) ∧ txtpFromUvmode.getD u 0 < 17 ∧
    typeOf (txtpFromUvmode.getD u 0) = modeToTxfm u ∧ modeToTxfm u ∈ Spec.TxSet.intra1.types ∧
    modeToTxfm u ∈ Spec.TxSet.intra2.types := by
  have : ∀ u ∈ List.range 14, txtpFromUvmode[u]? = some (txtpFromUvmode.getD u 0) ∧ txtpFromUvmode.getD u 0 < 17 ∧
    typeOf (txtpFromUvmode.getD u 0) = modeToTxfm u ∧ modeToTxfm u ∈ Spec.TxSet.intra1.types ∧
    modeToTxfm u ∈ Spec.TxSet.intra2.types := by decide +kernel
  exact fun u h => this u (List.mem_range.2 h)

theorem inter_types : ∀ t < 16, typeOf t ∈ Spec.TxSet.inter1.types ∧
    (typeOf t ∈ Spec.TxSet.inter2.types ↔ (1 <<< t) &&& ((1 <<< 15) ||| (1 <<< 14) ||| (1 <<< 13) ||| (1 <<< 12)) = 0) ∧
    (typeOf t ∈ Spec.TxSet.inter3.types ↔ t = 0 ∨ t = 9) := by
  have : ∀ t ∈ List.range 16, typeOf t ∈ Spec.TxSet.inter1.types ∧
    (typeOf t ∈ Spec.TxSet.inter2.types ↔ (1 <<< t) &&& ((1 <<< 15) ||| (1 <<< 14) ||| (1 <<< 13) ||| (1 <<< 12)) = 0) ∧
    (typeOf t ∈ Spec.TxSet.inter3.types ↔ t = 0 ∨ t = 9) := by decide +kernel
  exact fun t h => this t (List.mem_range.2 h)

theorem dims45 (tx : Tx) : dim tx 4 ≤ dim tx 5 ∧ dim tx 5 ≤ 4 ∧ (dim tx 5 = 4 → tx.w = 64 ∨ tx.h = 64) := by
  cases tx <;> decide

theorem readTxtp_eq {src : Source σ} {b : Arg} (hb : b.Ok) (s : σ) (k : Nat → σ → Option α) :
    ∃ t, readTxtp src b s k = k t (Spec.readType src b.spec s).2 ∧ typeOf t = (Spec.readType src b.spec s).1 ∧ t < 17 := by
  obtain ⟨T1, T2, T3, T4, T5⟩ := types_lists
  obtain ⟨d1, d2, d3⟩ := dims45 b.tx
  obtain ⟨o1, o2, o3⟩ := ok_inter
  rw [readTxtp, Spec.readType]
  by_cases hl : b.lossless = true
  · have e0 : b.spec.lossless = true := hl
    rw [if_pos hl, if_pos e0, hb.lossless hl]
    exact ⟨16, rfl, rfl, by omega⟩
  have e0 : ¬b.spec.lossless = true := hl
  have hl' : b.lossless = false := by simpa using hl
  rw [if_neg hl, if_neg e0]
  have eInter : b.spec.isInter = !b.intra := rfl
  have eRed : b.spec.reducedTxSet = b.reduced := rfl
  have ePl : b.spec.plane = b.plane := rfl
  have eq : b.spec.qidx = b.qidx := rfl
  have edir : b.spec.intraDir = if b.yMode = 13 then filterDir b.yAngle else b.yMode := rfl
  have euv : b.spec.uvType = modeToTxfm b.uvMode := rfl
  have elt : b.spec.lumaType = typeOf b.txtp := rfl
  by_cases h4 : dim b.tx 5 + (if b.intra then 1 else 0) ≥ 4
  · rw [if_pos h4]
    have hs : Spec.txSet b.spec = .dctOnly := by
      rw [Spec.txSet, sqrUp_eq, eInter]
      cases hi : b.intra with
      | true => rw [hi] at h4; by_cases h : dim b.tx 5 > 3 <;> simp_all <;> omega
      | false => rw [hi] at h4; simp at h4; rw [if_pos (by omega)]
    refine ⟨0, ?_, ?_, by omega⟩
    · rw [hs]; by_cases hp : b.plane = 0 <;> simp [ePl, hp, DCT_DCT]
    · rw [hs]; by_cases hp : b.plane = 0 <;> simp [ePl, hp, typeOf, Spec.TxSet.types]
      · split <;> simp_all
  rw [if_neg h4]
  by_cases hc : b.plane = 0
  · have ec : ¬b.chroma = 1 := by simp [Arg.chroma, hc]
    rw [if_neg ec, if_pos (show b.spec.plane = 0 from hc)]
    by_cases hq : b.qidx = 0
    · rw [if_pos hq, if_neg (by rw [eq]; omega)]
      exact ⟨0, rfl, rfl, by omega⟩
    rw [if_neg hq]
    cases hi : b.intra with
    | true =>
      rw [hi] at h4
      have h5 : dim b.tx 5 < 3 := by simp at h4; omega
      have hdir : ∃ y, (if b.yMode = 13 then filterModeToYMode[b.yAngle]? else some b.yMode) = some y ∧ y < 13 ∧
          b.spec.intraDir = y := by
        rw [edir]
        rcases hb.yMode with h | ⟨h, h'⟩
        · exact ⟨b.yMode, if_neg (by omega), h, if_neg (by omega)⟩
        · rw [if_pos h, if_pos h]
          have : ∀ a ∈ List.range 5, filterModeToYMode[a]? = some (filterDir a) ∧ filterDir a < 13 := by decide +kernel
          exact ⟨_, (this _ (List.mem_range.2 h')).1, (this _ (List.mem_range.2 h')).2, rfl⟩
      obtain ⟨y, y1, y2, y3⟩ := hdir
      rw [if_pos rfl, y1]
      dsimp only
      obtain ⟨i1, i2⟩ := ok_intra y2
      by_cases hr : b.reduced = true ∨ dim b.tx 4 = 2
      · have hs : Spec.txSet b.spec = .intra2 := by
          rw [Spec.txSet, sqrUp_eq, sqr_eq, eInter, hi, eRed]
          rw [if_neg (by omega), if_neg (by simp), if_neg (by omega)]
          rcases hr with h | h
          · rw [if_pos h]
          · split
            · rfl
            · first | rfl | rw [if_pos h]
        rw [if_pos hr, if_pos ⟨by rw [hs]; simp, by rw [eq]; omega⟩, hs, rd_ok (i2 _ (by omega))]
        dsimp only [Spec.typeCdf]
        rw [sqr_eq, y3, show Spec.TxSet.intra2.types.length - 1 = 4 from rfl]
        have hle := src.sym_le ⟨.mode .txtpIntra2, [dim b.tx 4, y]⟩ 4 s
        obtain ⟨t, t1, t2, t3⟩ := T1 _ (Nat.lt_succ_of_le hle)
        rw [Nat.add_zero, t1]
        exact ⟨t, rfl, t3, t2⟩
      · have hs : Spec.txSet b.spec = .intra1 := by
          rw [Spec.txSet, sqrUp_eq, sqr_eq, eInter, hi, eRed]
          rw [if_neg (by omega), if_neg (by simp), if_neg (by omega), if_neg (fun h => hr (Or.inl h)),
            if_neg (fun h => hr (Or.inr h))]
        rw [if_neg hr, if_pos ⟨by rw [hs]; simp, by rw [eq]; omega⟩, hs,
          rd_ok (i1 _ (by have : dim b.tx 4 ≠ 2 := fun h => hr (Or.inr h); omega))]
        dsimp only [Spec.typeCdf]
        rw [sqr_eq, y3, show Spec.TxSet.intra1.types.length - 1 = 6 from rfl]
        have hle := src.sym_le ⟨.mode .txtpIntra1, [dim b.tx 4, y]⟩ 6 s
        obtain ⟨t, t1, t2, t3⟩ := T2 _ (Nat.lt_succ_of_le hle)
        rw [t1]
        exact ⟨t, rfl, t3, t2⟩
    | false =>
      rw [hi] at h4
      have h5 : dim b.tx 5 < 4 := by simp at h4; omega
      rw [if_neg (by simp)]
      by_cases hr : b.reduced = true ∨ dim b.tx 5 = 3
      · have hs : Spec.txSet b.spec = .inter3 := by
          rw [Spec.txSet, sqrUp_eq, sqr_eq, eInter, hi, eRed]
          rw [if_neg (by omega), if_pos (by simp), if_pos hr]
        rw [if_pos hr, if_pos ⟨by rw [hs]; simp, by rw [eq]; omega⟩, hs, rd_ok (o3 _ (by omega))]
        dsimp only [Spec.typeCdf]
        rw [sqr_eq, show Spec.TxSet.inter3.types.length - 1 = 1 from rfl]
        have hle := src.sym_le ⟨.mode .txtpInter3, [dim b.tx 4]⟩ 1 s
        obtain ⟨t2, t3⟩ := T5 _ (Nat.lt_succ_of_le hle)
        exact ⟨_, rfl, t3, t2⟩
      · rw [if_neg hr]
        have hr1 : ¬b.reduced = true := fun h => hr (Or.inl h)
        have hr2 : dim b.tx 5 ≠ 3 := fun h => hr (Or.inr h)
        by_cases h2 : dim b.tx 4 = 2
        · have hs : Spec.txSet b.spec = .inter2 := by
            rw [Spec.txSet, sqrUp_eq, sqr_eq, eInter, hi, eRed]
            rw [if_neg (by omega), if_pos (by simp), if_neg hr, if_pos h2]
          rw [if_pos h2, if_pos ⟨by rw [hs]; simp, by rw [eq]; omega⟩, hs, rd_ok o2]
          dsimp only [Spec.typeCdf]
          rw [show Spec.TxSet.inter2.types.length - 1 = 11 from rfl]
          have hle := src.sym_le ⟨.mode .txtpInter2, []⟩ 11 s
          obtain ⟨t, t1, t2, t3⟩ := T3 _ (Nat.lt_succ_of_le hle)
          rw [t1]
          exact ⟨t, rfl, t3, t2⟩
        · have hs : Spec.txSet b.spec = .inter1 := by
            rw [Spec.txSet, sqrUp_eq, sqr_eq, eInter, hi, eRed]
            rw [if_neg (by omega), if_pos (by simp), if_neg hr, if_neg h2]
          rw [if_neg h2, if_pos ⟨by rw [hs]; simp, by rw [eq]; omega⟩, hs, rd_ok (o1 _ (by omega))]
          dsimp only [Spec.typeCdf]
          rw [sqr_eq, show Spec.TxSet.inter1.types.length - 1 = 15 from rfl]
          have hle := src.sym_le ⟨.mode .txtpInter1, [dim b.tx 4]⟩ 15 s
          obtain ⟨t, t1, t2, t3⟩ := T4 _ (Nat.lt_succ_of_le hle)
          rw [t1]
          exact ⟨t, rfl, t3, t2⟩
  · have ec : b.chroma = 1 := by simp [Arg.chroma, hc]
    rw [if_pos ec, if_neg (show ¬b.spec.plane = 0 from hc)]
    dsimp only
    rw [eInter]
    cases hi : b.intra with
    | true =>
      rw [hi] at h4
      have h5 : dim b.tx 5 < 3 := by simp at h4; omega
      obtain ⟨u1, u2, u3, u4, u5⟩ := uv_types b.uvMode hb.uvMode
      rw [if_pos rfl, u1]
      refine ⟨_, rfl, ?_, u2⟩
      simp only [Bool.not_true, Bool.false_eq_true, if_false]
      rw [euv, if_pos, u3]
      rw [Spec.txSet, sqrUp_eq, sqr_eq, eInter, hi, eRed, if_neg (by omega), if_neg (by simp), if_neg (by omega)]
      split
      · exact u5
      · split
        · exact u5
        · exact u4
    | false =>
      rw [hi] at h4
      have h5 : dim b.tx 5 < 4 := by simp at h4; omega
      rw [if_neg (by simp)]
      refine ⟨_, rfl, ?_, ?_⟩
      · simp only [Bool.not_false, if_true]
        have hset : Spec.txSet b.spec = if b.reduced = true ∨ dim b.tx 5 = 3 then .inter3 else
            if dim b.tx 4 = 2 then .inter2 else .inter1 := by
          rw [Spec.txSet, sqrUp_eq, sqr_eq, eInter, hi, eRed, if_neg (by omega), if_pos (by simp)]
        rw [elt, hset]
        obtain ⟨v1, v2, v3⟩ := inter_types b.txtp (hb.txtp hl')
        rw [uvInterTxtp]
        by_cases h3 : dim b.tx 5 = 3
        · rw [if_pos h3, if_pos (Or.inr h3)]
          by_cases h9 : b.txtp = IDTX
          · rw [if_pos h9, if_pos (v3.2 (Or.inr h9)), h9]
          · rw [if_neg h9]
            split
            · next h => rw [(v3.1 h).resolve_right h9]; rfl
            · rfl
        · rw [if_neg h3]
          by_cases hr : b.reduced = true
          · rw [if_pos (Or.inl hr), if_pos (v3.2 (hb.txtpReduced hl' hr)), if_neg]
            rintro ⟨_, h⟩
            rcases hb.txtpReduced hl' hr with e | e <;> rw [e] at h <;> exact absurd h (by decide)
          · rw [if_neg (show ¬(b.reduced = true ∨ dim b.tx 5 = 3) from fun h => h.elim hr h3)]
            by_cases h2 : dim b.tx 4 = 2
            · rw [if_pos h2]
              by_cases hm : typeOf b.txtp ∈ Spec.TxSet.inter2.types
              · rw [if_pos hm, if_neg]
                rintro ⟨_, h⟩; exact h (v2.1 hm)
              · rw [if_neg hm, if_pos ⟨h2, fun h => hm (v2.2 h)⟩]; rfl
            · rw [if_neg h2, if_pos v1, if_neg (fun h => h2 h.1)]
      · have := hb.txtp hl'
        rw [uvInterTxtp]
        split
        · split <;> simp [IDTX, DCT_DCT]
        · split
          · simp [DCT_DCT]
          · omega

end Dav1d.Coef
