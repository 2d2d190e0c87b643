import Verif.Msac.Refine
/-! Encoder interval lemmas. -/
namespace Dav1d

theorem firstBits_eq (data : List UInt8) (k : Nat) : firstBits data k = bv (bytesBits data) 0 k := by
  unfold firstBits bv; rw [pk_eq]; rfl

theorem boundary_anti {R f g a b : Nat} (h : f ≤ g) (hab : b < a) :
    SymDec.boundary R g b + 4 ≤ SymDec.boundary R f a := by
  unfold SymDec.boundary
  have h1 : (32768 - g) >>> 6 ≤ (32768 - f) >>> 6 := by
    rw [Nat.shiftRight_eq_div_pow, Nat.shiftRight_eq_div_pow]; exact Nat.div_le_div_right (by omega)
  have h2 : ((R >>> 8) * ((32768 - g) >>> 6)) >>> 1 ≤ ((R >>> 8) * ((32768 - f) >>> 6)) >>> 1 := by
    rw [Nat.shiftRight_eq_div_pow _ 1, Nat.shiftRight_eq_div_pow _ 1]
    exact Nat.div_le_div_right (Nat.mul_le_mul_left _ h1)
  omega

/-- `pick` finds the symbol whose boundaries enclose the value. -/
theorem pick_eq {R c : Nat} : ∀ (fs : List Nat) (u s x : Nat), fs.Pairwise (· ≤ ·) → x < fs.length →
    SymDec.boundary R (fs.getD x 0) (fs.length - 1 - x) ≤ c →
    (x ≠ 0 → c < SymDec.boundary R (fs.getD (x - 1) 0) (fs.length - 1 - (x - 1))) →
    SymDec.pick R c fs u s = (s + x, if x = 0 then u else SymDec.boundary R (fs.getD (x - 1) 0) (fs.length - 1 - (x - 1)),
      SymDec.boundary R (fs.getD x 0) (fs.length - 1 - x)) := by
  intro fs
  induction fs with
  | nil => intro u s x _ hx; simp at hx
  | cons f fs ih =>
    intro u s x hp hx h1 h2
    rw [List.pairwise_cons] at hp
    cases x with
    | zero =>
      simp only [List.getD_cons_zero, List.length_cons, Nat.add_sub_cancel, Nat.sub_zero] at h1
      simp only [SymDec.pick]
      rw [if_neg (by omega)]
      simp
    | succ x =>
      have hx' : x < fs.length := by simpa using hx
      have h2' := h2 (by omega)
      have hc : c < SymDec.boundary R f fs.length := by
        cases x with
        | zero => simpa using h2'
        | succ y =>
          simp only [Nat.add_sub_cancel, List.getD_cons_succ, List.length_cons] at h2'
          have hy : y < fs.length := by omega
          have hf := hp.1 fs[y] (List.getElem_mem hy)
          have : fs.getD y 0 = fs[y] := by
            rw [List.getD_eq_getElem?_getD, List.getElem?_eq_getElem hy]; rfl
          rw [this] at h2'
          have := boundary_anti (R := R) hf (show fs.length - (y + 1) < fs.length by omega)
          omega
      simp only [SymDec.pick]
      rw [if_pos hc]
      have e1 : (f :: fs).length - 1 - (x + 1) = fs.length - 1 - x := by simp only [List.length_cons]; omega
      rw [List.getD_cons_succ, e1] at h1
      rw [ih _ (s + 1) x hp.2 hx' h1 ?_]
      · refine Prod.ext (by simp only; omega) (Prod.ext ?_ ?_)
        · simp only [if_neg (show ¬ x + 1 = 0 by omega), Nat.add_sub_cancel]
          cases x with
          | zero => simp
          | succ y =>
            rw [if_neg (by omega)]
            simp only [Nat.add_sub_cancel, List.getD_cons_succ, List.length_cons]
            congr 1; omega
        · simp only [List.getD_cons_succ, e1]
      · intro hx0
        obtain ⟨y, rfl⟩ : ∃ y, x = y + 1 := ⟨x - 1, by omega⟩
        simp only [Nat.add_sub_cancel, List.getD_cons_succ, List.length_cons] at h2' ⊢
        rw [show fs.length - 1 - y = fs.length - (y + 1) by omega]; exact h2'

/-- Both boundaries of a symbol lie in the range, and the symbol has at least 4 of it. -/
theorem bounds_ok {R : Nat} (hR : 2 ^ 15 ≤ R) {fs : List Nat} (hp : fs.Pairwise (· ≤ ·)) (hpos : ∀ f ∈ fs, 0 < f)
    (h16 : fs.length ≤ 16) {x : Nat} (hx : x < fs.length) :
    (EncIv.bounds R fs x).1 ≤ R ∧ (EncIv.bounds R fs x).2 + 4 ≤ (EncIv.bounds R fs x).1 := by
  have hget : ∀ i, (h : i < fs.length) → fs.getD i 0 = fs[i] := by
    intro i h; rw [List.getD_eq_getElem?_getD, List.getElem?_eq_getElem h]; rfl
  have hb : ∀ i, i < fs.length → SymDec.boundary R (fs.getD i 0) (fs.length - 1 - i) ≤ R := by
    intro i h
    rw [hget i h]
    unfold SymDec.boundary
    have := hpos _ (List.getElem_mem h)
    exact boundary_le hR (by omega) (by omega)
  unfold EncIv.bounds
  simp only
  by_cases h0 : x = 0
  · subst h0
    simp only [if_true]
    refine ⟨le_refl _, ?_⟩
    rw [hget 0 hx]
    have h0 := hpos _ (List.getElem_mem hx)
    have : SymDec.boundary R fs[0] (fs.length - 1 - 0) + 4 ≤ R := by
      unfold SymDec.boundary
      have h3 := boundary_le (R := R) (p := 32768 - fs[0]) (left := fs.length) hR (by omega) (by omega)
      omega
    exact this
  · rw [if_neg h0]
    refine ⟨hb (x - 1) (by omega), ?_⟩
    rw [hget x hx, hget (x - 1) (by omega)]
    apply boundary_anti
    · exact List.pairwise_iff_getElem.1 hp (x - 1) x (by omega) hx (by omega)
    · omega

/-- Where decoder, encoder interval and data agree: `p = 15 + shift` bits have been consumed. -/
structure EncInv (data : List UInt8) (t : SymDec) (e : EncIv) : Prop where
  rem : t.rem = (bytesBits data).drop (15 + e.shift)
  maxBits : t.maxBits = 8 * (data.length : Int) - (15 + e.shift : Nat)
  range : t.range = e.range
  lo : 2 ^ 15 ≤ e.range
  hi : e.range < 2 ^ 16
  value : t.value + 1 + firstBits data (15 + e.shift) = e.low + e.range

theorem encInv_init (data : List UInt8) : EncInv data (SymDec.init data) EncIv.init where
  rem := by
    unfold SymDec.init EncIv.init
    simp only
    by_cases h : data.length * 8 ≤ 15
    · rw [min_eq_left h, List.drop_eq_nil_of_le (by simp; omega), List.drop_eq_nil_of_le (by simp; omega)]
    · rw [min_eq_right (by omega)]
  maxBits := by simp [SymDec.init, EncIv.init]
  range := rfl
  lo := le_refl _
  hi := by decide
  value := by
    have hr := renorm_value (bytesBits data) ⟨bytesBits data, 0, 0, 8 * (data.length : Int)⟩ 0 0 1 (by simp)
      (by rw [bytesBits_length]; push_cast; ring)
    have e15 : 15 - Nat.log2 1 = 15 := by decide
    rw [e15, Nat.zero_mul, Nat.zero_add] at hr
    have hsv : (SymDec.init data).value = sv (bytesBits data) 0 15 := by
      rw [← hr.1]
      unfold SymDec.renorm SymDec.init
      simp only [e15]
      have e : (max 0 (8 * (data.length : Int))).toNat = data.length * 8 := by omega
      rw [e, Nat.min_comm, Nat.xor_comm]
      congr 1
    rw [hsv, firstBits_eq]
    unfold EncIv.init sv
    have := bv_lt (bytesBits data) 0 15
    simp only [Nat.add_zero, Nat.zero_add]
    omega

/-- Data in the interval after a symbol is in the interval before it, between the symbol's boundaries. -/
theorem contains_step {data : List UInt8} {e : EncIv} {fs : List Nat} {x : Nat}
    (hb : (EncIv.bounds e.range fs x).2 ≤ (EncIv.bounds e.range fs x).1) (hu : (EncIv.bounds e.range fs x).1 ≤ e.range)
    (h : (e.encode fs x).Contains data) :
    e.low + e.range ≤ firstBits data (15 + e.shift) + (EncIv.bounds e.range fs x).1 ∧
    firstBits data (15 + e.shift) + (EncIv.bounds e.range fs x).2 < e.low + e.range := by
  unfold EncIv.Contains EncIv.encode at h
  simp only [firstBits_eq] at h ⊢
  set uv := EncIv.bounds e.range fs x
  set d := 15 - Nat.log2 (uv.1 - uv.2)
  rw [← Nat.add_assoc, bv_add] at h
  have hlt := bv_lt (bytesBits data) (0 + (15 + e.shift)) d
  set X := bv (bytesBits data) 0 (15 + e.shift)
  set Y := bv (bytesBits data) (0 + (15 + e.shift)) d
  obtain ⟨h1, h2⟩ := h
  rw [← Nat.add_mul] at h2
  constructor
  · by_contra hc
    have : X + 1 ≤ e.low + (e.range - uv.1) := by omega
    have := Nat.mul_le_mul_right (2 ^ d) this
    rw [Nat.add_mul, Nat.one_mul] at this
    omega
  · by_contra hc
    have : e.low + (e.range - uv.1) + (uv.1 - uv.2) ≤ X := by omega
    have := Nat.mul_le_mul_right (2 ^ d) this
    omega

theorem contains_before {data : List UInt8} {e : EncIv} {fs : List Nat} {x : Nat}
    (hb : (EncIv.bounds e.range fs x).2 ≤ (EncIv.bounds e.range fs x).1) (hu : (EncIv.bounds e.range fs x).1 ≤ e.range)
    (h : (e.encode fs x).Contains data) : e.Contains data := by
  obtain ⟨h1, h2⟩ := contains_step hb hu h
  exact ⟨by omega, by omega⟩

theorem encode_range {e : EncIv} {fs : List Nat} {x : Nat} (hi : e.range < 2 ^ 16)
    (hb : (EncIv.bounds e.range fs x).2 < (EncIv.bounds e.range fs x).1) (hu : (EncIv.bounds e.range fs x).1 ≤ e.range) :
    2 ^ 15 ≤ (e.encode fs x).range ∧ (e.encode fs x).range < 2 ^ 16 := by
  unfold EncIv.encode
  simp only
  obtain ⟨r1, r2, r3⟩ := range_norm (R := (EncIv.bounds e.range fs x).1 - (EncIv.bounds e.range fs x).2) (by omega) (by omega)
  exact ⟨r1, r2⟩

theorem encode_step {data : List UInt8} {t : SymDec} {e : EncIv} (h : EncInv data t e) {fs : List Nat} {x : Nat}
    (hp : fs.Pairwise (· ≤ ·)) (hpos : ∀ f ∈ fs, 0 < f) (h16 : fs.length ≤ 16) (hx : x < fs.length)
    (hc : (e.encode fs x).Contains data) :
    (t.decode fs).1 = x ∧ EncInv data (t.decode fs).2 (e.encode fs x) := by
  obtain ⟨b1, b2⟩ := bounds_ok h.lo hp hpos h16 hx
  obtain ⟨c1, c2⟩ := contains_step (by omega) b1 hc
  have hv := h.value
  have hpick := pick_eq (R := e.range) (c := t.value) fs t.range 0 x hp hx
    (by have : (EncIv.bounds e.range fs x).2 ≤ t.value := by omega
        exact this)
    (by intro h0
        have : t.value < (EncIv.bounds e.range fs x).1 := by omega
        unfold EncIv.bounds at this
        simp only [if_neg h0] at this
        exact this)
  have hpick' : SymDec.pick t.range t.value fs t.range 0 =
      (x, (EncIv.bounds e.range fs x).1, (EncIv.bounds e.range fs x).2) := by
    rw [h.range] at hpick ⊢
    rw [hpick, Nat.zero_add]; rfl
  unfold SymDec.decode
  rw [hpick']
  refine ⟨rfl, ?_⟩
  obtain ⟨r1, r2⟩ := encode_range h.hi (by omega) b1
  have hval := renorm_value (bytesBits data) t (15 + e.shift) (t.value - (EncIv.bounds e.range fs x).2)
    ((EncIv.bounds e.range fs x).1 - (EncIv.bounds e.range fs x).2) h.rem
    (by rw [h.maxBits, bytesBits_length]; push_cast; ring)
  refine ⟨?_, ?_, ?_, r1, r2, ?_⟩
  · simp only
    rw [hval.2]
    unfold EncIv.encode
    simp only
    rw [Nat.add_assoc]
  · unfold SymDec.renorm EncIv.encode
    simp only
    rw [h.maxBits]
    push_cast
    omega
  · unfold SymDec.renorm EncIv.encode
    simp only
    rw [Nat.shiftLeft_eq]
  · simp only
    rw [hval.1]
    unfold EncIv.encode
    simp only [firstBits_eq] at hv c1 c2 ⊢
    rw [← Nat.add_assoc, bv_add, Nat.zero_add]
    generalize 15 - Nat.log2 ((EncIv.bounds e.range fs x).1 - (EncIv.bounds e.range fs x).2) = d
    have hlt := bv_lt (bytesBits data) (15 + e.shift) d
    unfold sv
    generalize hY : bv (bytesBits data) (15 + e.shift) d = Y at *
    generalize hX : bv (bytesBits data) 0 (15 + e.shift) = X at *
    generalize (EncIv.bounds e.range fs x).1 = u at *
    generalize (EncIv.bounds e.range fs x).2 = v at *
    rw [← Nat.add_mul]
    have e1 : e.low + (e.range - u) + (u - v) = (t.value - v) + 1 + X := by omega
    rw [e1]
    rw [Nat.add_mul, Nat.add_mul, Nat.one_mul]
    omega

end Dav1d
