import Verif.Msac.Model
import Verif.Msac.Spec
import Verif.GetBits.Lemmas
/-! Refinement of the windowed symbol decoder to the specification. -/
namespace Dav1d

/-- `k` bits of the stream from position `p`, zero padded. -/
def pk (B : List Bool) (p k : Nat) : List Bool := (List.range k).map (fun i => B.getD (p + i) false)

theorem pk_length (B p k) : (pk B p k).length = k := by simp [pk]

theorem pk_add (B : List Bool) (p a b : Nat) : pk B p (a + b) = pk B p a ++ pk B (p + a) b := by
  unfold pk
  rw [List.range_add, List.map_append, List.map_map]
  congr 1
  apply List.map_congr_left
  intro i _
  simp [Nat.add_assoc]

theorem pk_eq (B : List Bool) (p k : Nat) : pk B p k = (B.drop p ++ List.replicate k false).take k := by
  apply List.ext_getElem?
  intro i
  unfold pk
  by_cases hi : i < k
  · rw [List.getElem?_map, List.getElem?_range hi, List.getElem?_take_of_lt hi, Option.map_some]
    by_cases h2 : i < (B.drop p).length
    · rw [List.getElem?_append_left h2, List.getElem?_drop]
      rw [List.length_drop] at h2
      rw [List.getD_eq_getElem?_getD, List.getElem?_eq_getElem (by omega)]; rfl
    · rw [List.getElem?_append_right (by omega)]
      rw [List.length_drop] at h2
      rw [List.getElem?_replicate, if_pos (by simp; omega)]
      rw [List.getD_eq_getElem?_getD, List.getElem?_eq_none (by omega)]; rfl
  · rw [List.getElem?_eq_none (by simp; omega), List.getElem?_eq_none (by simp; omega)]

/-- Value of `k` bits of the stream at `p`. -/
def bv (B : List Bool) (p k : Nat) : Nat := bitsVal (pk B p k)

/-- Value of the inverted bits. -/
def sv (B : List Bool) (p k : Nat) : Nat := 2 ^ k - 1 - bv B p k

theorem bv_lt (B p k) : bv B p k < 2 ^ k := by
  have := bitsVal_lt (pk B p k); rwa [pk_length] at this

theorem bv_add (B : List Bool) (p a b : Nat) : bv B p (a + b) = bv B p a * 2 ^ b + bv B (p + a) b := by
  unfold bv; rw [pk_add, bitsVal_append, pk_length]

theorem sv_lt (B p k) : sv B p k < 2 ^ k := by
  unfold sv; have := Nat.two_pow_pos k; omega

theorem sv_add (B : List Bool) (p a b : Nat) : sv B p (a + b) = sv B p a * 2 ^ b + sv B (p + a) b := by
  unfold sv
  rw [bv_add]
  have h1 := bv_lt B p a
  have h2 := bv_lt B (p + a) b
  obtain ⟨x, hx⟩ : ∃ x, 2 ^ a = bv B p a + 1 + x := ⟨2 ^ a - (bv B p a + 1), by omega⟩
  obtain ⟨y, hy⟩ : ∃ y, 2 ^ b = bv B (p + a) b + 1 + y := ⟨2 ^ b - (bv B (p + a) b + 1), by omega⟩
  have e1 : 2 ^ a - 1 - bv B p a = x := by omega
  have e2 : 2 ^ b - 1 - bv B (p + a) b = y := by omega
  rw [e1, e2]
  have : 2 ^ (a + b) = bv B p a * 2 ^ b + bv B (p + a) b + 1 + (x * 2 ^ b + y) := by
    rw [Nat.pow_add, hx, Nat.add_mul, Nat.add_mul, Nat.one_mul]
    omega
  omega

@[simp] theorem sv_zero (B p) : sv B p 0 = 0 := by simp [sv]

theorem pk_over (B : List Bool) (p k : Nat) (h : B.length ≤ p) : pk B p k = List.replicate k false := by
  rw [pk_eq, List.drop_eq_nil_of_le h]; simp

theorem sv_over (B : List Bool) (p k : Nat) (h : B.length ≤ p) : sv B p k = 2 ^ k - 1 := by
  unfold sv bv; rw [pk_over B p k h]; simp

theorem bytesBits_drop (buf : List UInt8) (i : Nat) : (bytesBits buf).drop (8 * i) = bytesBits (buf.drop i) := by
  induction i generalizing buf with
  | zero => simp
  | succ i ih =>
    rcases buf with _ | ⟨b, buf⟩
    · simp
    · rw [bytesBits_cons, List.drop_succ_cons, ← ih buf]
      have h8 : (natBits 8 b.toNat).length = 8 := natBits_length 8 b.toNat
      rw [show 8 * (i + 1) = (natBits 8 b.toNat).length + 8 * i by rw [h8]; ring, List.drop_length_add_append]

theorem xor_ff (b : UInt8) : b.toNat ^^^ 0xff = 255 - b.toNat := by
  have : ∀ w : Fin 256, w.val ^^^ 0xff = 255 - w.val := by decide +kernel
  exact this ⟨b.toNat, b.toNat_lt⟩

theorem sv_byte (buf : List UInt8) (pos : Nat) (h : pos < buf.length) :
    sv (bytesBits buf) (8 * pos) 8 = buf[pos].toNat ^^^ 0xff := by
  rw [xor_ff]
  unfold sv bv
  rw [pk_eq, bytesBits_drop, List.drop_eq_getElem_cons h, bytesBits_cons, List.append_assoc,
    List.take_append_of_le_length (by simp), List.take_of_length_le (by simp), bitsVal_byte]
  norm_num

theorem or_ones (A low m : Nat) (h : low < 2 ^ m) : (A * 2 ^ m + low) ||| (2 ^ m - 1) = A * 2 ^ m + (2 ^ m - 1) := by
  have hp := Nat.two_pow_pos m
  rw [Nat.mul_comm, Nat.two_pow_add_eq_or_of_lt h, Nat.or_assoc,
    Nat.two_pow_add_eq_or_of_lt (show 2 ^ m - 1 < 2 ^ m by omega)]
  congr 1
  apply Nat.eq_of_testBit_eq
  intro i
  rw [Nat.testBit_or, Nat.testBit_two_pow_sub_one]
  by_cases hi : i < m
  · simp [hi]
  · have : low.testBit i = false := Nat.testBit_lt_two_pow
      (Nat.lt_of_lt_of_le h (Nat.pow_le_pow_right (by omega) (by omega)))
    simp [hi, this]

theorem refillLoop_spec' (buf : List UInt8) (n : Nat) : ∀ (A low pos c : Nat), buf.length - pos = n →
    low < 2 ^ (c + 8) → (pos < buf.length → low = 0) → pos ≤ buf.length →
    ∃ k low' pos' c', Msac.refillLoop buf (A * 2 ^ (c + 8) + low) pos c =
        ((A * 2 ^ k + sv (bytesBits buf) (8 * pos) k) * 2 ^ (c + 8 - k) + low', pos', c') ∧
      low' < 2 ^ (c + 8 - k) ∧ k ≤ c + 8 ∧ pos ≤ pos' ∧ pos' ≤ buf.length ∧
      (c : Int) - c' = 8 * ((pos' : Int) - pos) ∧
      ((c' < 0 ∧ -8 ≤ c' ∧ (k : Int) = c - c' ∧ low' = 0) ∨
       (0 ≤ c' ∧ pos' = buf.length ∧ k = c + 8)) := by
  induction n with
  | zero =>
    intro A low pos c hn hlow hz hpos
    have hpe : pos = buf.length := by omega
    refine ⟨c + 8, 0, pos, c, ?_, ?_, le_refl _, le_refl _, by omega, by omega, Or.inr ⟨by omega, hpe, rfl⟩⟩
    · rw [Msac.refillLoop, dif_neg (by omega)]
      have e : ((c : Int) + 8).toNat = c + 8 := by omega
      rw [e, or_ones _ _ _ hlow, sv_over _ _ _ (by rw [bytesBits_length]; omega)]
      simp
    · simp
  | succ n ih =>
    intro A low pos c hn hlow hz hpos
    have hlt : pos < buf.length := by omega
    have hl0 := hz hlt
    subst hl0
    rw [Msac.refillLoop, dif_pos hlt]
    have hb := sv_byte buf pos hlt
    have hb8 : buf[pos].toNat ^^^ 0xff < 2 ^ 8 := by rw [← hb]; exact sv_lt _ _ _
    have e1 : (A * 2 ^ (c + 8) + 0) ||| ((buf[pos].toNat ^^^ 0xff) <<< (c : Int).toNat)
        = (A * 2 ^ 8 + sv (bytesBits buf) (8 * pos) 8) * 2 ^ c := by
      rw [Int.toNat_natCast, Nat.shiftLeft_eq, Nat.add_zero, Nat.mul_comm A]
      have : (buf[pos].toNat ^^^ 0xff) * 2 ^ c < 2 ^ (c + 8) := by
        rw [Nat.pow_add, Nat.mul_comm (2 ^ c)]
        exact Nat.mul_lt_mul_of_pos_right hb8 (Nat.two_pow_pos _)
      rw [← Nat.two_pow_add_eq_or_of_lt this, hb, Nat.pow_add]; ring
    simp only [e1]
    by_cases hc : (c : Int) - 8 ≥ 0
    · rw [if_pos hc]
      obtain ⟨c2, rfl⟩ : ∃ c2, c = c2 + 8 := ⟨c - 8, by omega⟩
      have ec : ((c2 + 8 : Nat) : Int) - 8 = (c2 : Int) := by push_cast; ring
      rw [ec]
      obtain ⟨k, low', pos', c', h1, h2, h3, h4, h5, h6, h7⟩ :=
        ih (A * 2 ^ 8 + sv (bytesBits buf) (8 * pos) 8) 0 (pos + 1) c2 (by omega) (Nat.two_pow_pos _)
          (fun _ => rfl) (by omega)
      rw [Nat.add_zero] at h1
      refine ⟨k + 8, low', pos', c', ?_, ?_, by omega, by omega, h5, by omega, ?_⟩
      · rw [h1]
        have e2 : c2 + 8 + 8 - (k + 8) = c2 + 8 - k := by omega
        have e3 : sv (bytesBits buf) (8 * pos) (k + 8)
            = sv (bytesBits buf) (8 * pos) 8 * 2 ^ k + sv (bytesBits buf) (8 * (pos + 1)) k := by
          rw [Nat.add_comm k 8, sv_add, show 8 * pos + 8 = 8 * (pos + 1) by ring]
        have e4 : (A * 2 ^ 8 + sv (bytesBits buf) (8 * pos) 8) * 2 ^ k
            + sv (bytesBits buf) (8 * (pos + 1)) k = A * 2 ^ (k + 8) + sv (bytesBits buf) (8 * pos) (k + 8) := by
          rw [e3, Nat.pow_add]; ring
        rw [e2, ← e4]
      · rwa [show c2 + 8 + 8 - (k + 8) = c2 + 8 - k by omega]
      · rcases h7 with ⟨a, b, c, d⟩ | ⟨a, b, c⟩
        · exact Or.inl ⟨a, b, by omega, d⟩
        · exact Or.inr ⟨a, b, by omega⟩
    · rw [if_neg hc]
      refine ⟨8, 0, pos + 1, (c : Int) - 8, ?_, by simp, by omega, by omega, by omega, by omega,
        Or.inl ⟨by omega, by omega, by omega, rfl⟩⟩
      simp

/-- Spec renormalization in arithmetic form. -/
theorem renorm_value (B : List Bool) (t : SymDec) (p S R : Nat) (hrem : t.rem = B.drop p)
    (hmax : t.maxBits = (B.length : Int) - p) :
    (t.renorm R S).value = S * 2 ^ (15 - Nat.log2 R) + sv B p (15 - Nat.log2 R) ∧
    (t.renorm R S).rem = B.drop (p + (15 - Nat.log2 R)) := by
  unfold SymDec.renorm
  simp only
  generalize 15 - Nat.log2 R = d
  have hm : (max 0 t.maxBits).toNat = B.length - p := by rw [hmax]; omega
  rw [hm, hrem]
  constructor
  · have e1 : bitsVal ((B.drop p).take (min d (B.length - p))) <<< (d - min d (B.length - p)) = bv B p d := by
      rw [Nat.shiftLeft_eq]
      unfold bv
      rw [pk_eq, List.take_append, bitsVal_append, List.take_replicate, bitsVal_replicate]
      simp only [List.length_replicate, List.length_drop, Nat.add_zero]
      congr 1
      · by_cases h : d ≤ B.length - p
        · rw [min_eq_left h]
        · rw [min_eq_right (by omega), List.take_of_length_le (by simp), List.take_of_length_le (by simp; omega)]
      · congr 1; omega
    rw [e1, Nat.shiftLeft_eq]
    have hp := Nat.two_pow_pos d
    have hb := bv_lt B p d
    have e2 : (S + 1) * 2 ^ d - 1 = S * 2 ^ d + (2 ^ d - 1) := by rw [Nat.add_mul]; omega
    rw [e2]
    have hx : bv B p d ^^^ (2 ^ d - 1) = sv B p d := by
      apply Nat.eq_of_testBit_eq
      intro i
      have : sv B p d = 2 ^ d - (bv B p d + 1) := by unfold sv; omega
      rw [this, Nat.testBit_two_pow_sub_succ hb, Nat.testBit_xor, Nat.testBit_two_pow_sub_one]
      by_cases hi : i < d
      · simp [hi]
      · have : (bv B p d).testBit i = false := Nat.testBit_lt_two_pow
          (Nat.lt_of_lt_of_le hb (Nat.pow_le_pow_right (by omega) (by omega)))
        simp [hi, this]
    have hdiv : (bv B p d ^^^ (S * 2 ^ d + (2 ^ d - 1))) / 2 ^ d = S := by
      rw [Nat.xor_div_two_pow, Nat.div_eq_of_lt hb, Nat.zero_xor, Nat.mul_comm, Nat.mul_add_div hp,
        Nat.div_eq_of_lt (by omega), Nat.add_zero]
    have hmod : (bv B p d ^^^ (S * 2 ^ d + (2 ^ d - 1))) % 2 ^ d = sv B p d := by
      rw [Nat.xor_mod_two_pow, Nat.mod_eq_of_lt hb, Nat.mul_comm, Nat.mul_add_mod,
        Nat.mod_eq_of_lt (show 2 ^ d - 1 < 2 ^ d by omega), hx]
    have := Nat.div_add_mod (bv B p d ^^^ (S * 2 ^ d + (2 ^ d - 1))) (2 ^ d)
    rw [hdiv, hmod] at this
    rw [← this]; ring
  · rw [List.drop_drop]
    by_cases h : d ≤ B.length - p
    · rw [min_eq_left h]
    · rw [min_eq_right (by omega), List.drop_eq_nil_of_le (by omega), List.drop_eq_nil_of_le (by omega)]

/-- Relation between C state, specification state and stream position. -/
structure MInv (W : Nat) (s : Msac) (t : SymDec) (p : Nat) : Prop where
  h15 : 15 ≤ p
  hpos : s.pos ≤ s.buf.length
  rem : t.rem = (bytesBits s.buf).drop p
  maxBits : t.maxBits = 8 * (s.buf.length : Int) - p
  range : t.range = s.rng
  lo : 2 ^ 15 ≤ s.rng
  hi : s.rng < 2 ^ 16
  val : t.value < t.range
  win : ∃ L low, L ≤ W - 16 ∧
    s.dif = (t.value * 2 ^ L + sv (bytesBits s.buf) p L) * 2 ^ (W - 16 - L) + low ∧ low < 2 ^ (W - 16 - L) ∧
    ((s.cnt = (L : Int) ∧ p + L = 8 * s.pos ∧ (s.pos < s.buf.length → low = 0)) ∨
     (s.cnt < 0 ∧ -15 < s.cnt ∧ s.pos = s.buf.length ∧ (p : Int) + s.cnt = 8 * s.buf.length ∧ (W : Int) - 15 + s.cnt ≤ L))

/-- What the C decoder maintains whatever happens. -/
structure MSafe (W : Nat) (s : Msac) : Prop where
  lo : 2 ^ 15 ≤ s.rng
  hi : s.rng < 2 ^ 16
  top : s.dif < s.rng * 2 ^ (W - 16)

theorem MInv.safe {W s t p} (h : MInv W s t p) : MSafe W s where
  lo := h.lo
  hi := h.hi
  top := by
    obtain ⟨L, low, h1, h2, h3, _⟩ := h.win
    have hv := h.val
    rw [h.range] at hv
    have hs := sv_lt (bytesBits s.buf) p L
    rw [h2]
    have e : 2 ^ (W - 16) = 2 ^ L * 2 ^ (W - 16 - L) := by rw [← Nat.pow_add]; congr 1; omega
    rw [e]
    have a1 : t.value * 2 ^ L + sv (bytesBits s.buf) p L + 1 ≤ s.rng * 2 ^ L := by
      calc _ ≤ t.value * 2 ^ L + 2 ^ L := by omega
        _ = (t.value + 1) * 2 ^ L := by ring
        _ ≤ _ := Nat.mul_le_mul_right _ hv
    calc _ < (t.value * 2 ^ L + sv (bytesBits s.buf) p L) * 2 ^ (W - 16 - L) + 2 ^ (W - 16 - L) := by omega
      _ = (t.value * 2 ^ L + sv (bytesBits s.buf) p L + 1) * 2 ^ (W - 16 - L) := by ring
      _ ≤ s.rng * 2 ^ L * 2 ^ (W - 16 - L) := Nat.mul_le_mul_right _ a1
      _ = _ := by ring

theorem MInv.top {W s t p} (h : MInv W s t p) : s.dif / 2 ^ (W - 16) = t.value := by
  obtain ⟨L, low, h1, h2, h3, _⟩ := h.win
  have hs := sv_lt (bytesBits s.buf) p L
  have e : 2 ^ (W - 16) = 2 ^ (W - 16 - L) * 2 ^ L := by rw [← Nat.pow_add]; congr 1; omega
  rw [e, ← Nat.div_div_eq_div_mul, h2, Nat.mul_comm _ (2 ^ (W - 16 - L)), Nat.mul_add_div (Nat.two_pow_pos _),
    Nat.div_eq_of_lt h3, Nat.add_zero, Nat.mul_comm, Nat.mul_add_div (Nat.two_pow_pos _), Nat.div_eq_of_lt hs,
    Nat.add_zero]

theorem range_norm {R : Nat} (h0 : 0 < R) (h : R < 2 ^ 16) :
    2 ^ 15 ≤ R * 2 ^ (15 - Nat.log2 R) ∧ R * 2 ^ (15 - Nat.log2 R) < 2 ^ 16 ∧ Nat.log2 R ≤ 15 := by
  have h1 : 2 ^ Nat.log2 R ≤ R := Nat.log2_self_le (by omega)
  have h2 : R < 2 ^ (Nat.log2 R + 1) := Nat.lt_log2_self
  have h3 : Nat.log2 R < 16 := (Nat.log2_lt (by omega)).2 h
  refine ⟨?_, ?_, by omega⟩
  · calc 2 ^ 15 = 2 ^ Nat.log2 R * 2 ^ (15 - Nat.log2 R) := by rw [← Nat.pow_add]; congr 1; omega
      _ ≤ _ := Nat.mul_le_mul_right _ h1
  · calc _ < 2 ^ (Nat.log2 R + 1) * 2 ^ (15 - Nat.log2 R) := Nat.mul_lt_mul_of_pos_right h2 (Nat.two_pow_pos _)
      _ = _ := by rw [← Nat.pow_add]; congr 1; omega

theorem norm_safe {W : Nat} {s : Msac} (h : MSafe W s) {u v : Nat} (h1 : v * 2 ^ (W - 16) ≤ s.dif)
    (h2 : s.dif < u * 2 ^ (W - 16)) (hur : u ≤ s.rng) (hc : s.cnt < 0) :
    MSafe W (s.norm W (s.dif - v * 2 ^ (W - 16)) (u - v)) ∧
    (s.norm W (s.dif - v * 2 ^ (W - 16)) (u - v)).cnt ≤ s.cnt ∧
    (s.norm W (s.dif - v * 2 ^ (W - 16)) (u - v)).allowUpdate = s.allowUpdate := by
  have huv : v < u := by
    by_contra hcc
    have := Nat.mul_le_mul_right (2 ^ (W - 16)) (show u ≤ v by omega)
    omega
  have hhi := h.hi
  obtain ⟨r1, r2, r3⟩ := range_norm (R := u - v) (by omega) (by omega)
  unfold Msac.norm
  simp only
  rw [if_neg (by omega)]
  refine ⟨⟨?_, ?_, ?_⟩, ?_, rfl⟩
  · simp only [Nat.shiftLeft_eq]; exact r1
  · simp only [Nat.shiftLeft_eq]; exact r2
  · simp only [Nat.shiftLeft_eq]
    refine Nat.lt_of_le_of_lt (Nat.mod_le _ _) ?_
    have : s.dif - v * 2 ^ (W - 16) < (u - v) * 2 ^ (W - 16) := by
      rw [Nat.sub_mul]; omega
    calc _ < (u - v) * 2 ^ (W - 16) * 2 ^ (15 - Nat.log2 (u - v)) :=
          Nat.mul_lt_mul_of_pos_right this (Nat.two_pow_pos _)
      _ = _ := by ring
  · simp only; omega

theorem norm_spec {W : Nat} (hW : 32 ≤ W) {s : Msac} {t : SymDec} {p : Nat} (h : MInv W s t p) {u v : Nat}
    (hv : v ≤ t.value) (hu : t.value < u) (hur : u ≤ s.rng) :
    (MInv W (s.norm W (s.dif - v * 2 ^ (W - 16)) (u - v)) (t.renorm (u - v) (t.value - v)) (p + (15 - Nat.log2 (u - v))) ∨
     ((s.norm W (s.dif - v * 2 ^ (W - 16)) (u - v)).cnt ≤ -15 ∧ (t.renorm (u - v) (t.value - v)).maxBits ≤ -15 ∧
      MSafe W (s.norm W (s.dif - v * 2 ^ (W - 16)) (u - v)))) ∧
    (s.norm W (s.dif - v * 2 ^ (W - 16)) (u - v)).buf = s.buf ∧
    (s.norm W (s.dif - v * 2 ^ (W - 16)) (u - v)).allowUpdate = s.allowUpdate := by
  have hhi := h.hi
  have hsafe := h.safe
  have htop := h.top
  have hdlo : v * 2 ^ (W - 16) ≤ s.dif := by
    rw [← Nat.le_div_iff_mul_le (Nat.two_pow_pos _), htop]; exact hv
  have hdhi : s.dif < u * 2 ^ (W - 16) := by
    rw [← Nat.div_lt_iff_lt_mul (Nat.two_pow_pos _), htop]; exact hu
  have hR0 : 0 < u - v := by omega
  obtain ⟨r1, r2, r3⟩ := range_norm (R := u - v) hR0 (by omega)
  obtain ⟨rv, rr⟩ := renorm_value (bytesBits s.buf) t p (t.value - v) (u - v) h.rem
    (by rw [h.maxBits, bytesBits_length]; push_cast; ring)
  have hSR : t.value - v < u - v := by omega
  set d := 15 - Nat.log2 (u - v) with hd
  set S := t.value - v with hS
  set R := u - v with hR
  set B := bytesBits s.buf with hB
  have hd15 : d ≤ 15 := by omega
  have hval' : S * 2 ^ d + sv B p d < R * 2 ^ d := by
    have := sv_lt B p d
    calc _ < S * 2 ^ d + 2 ^ d := by omega
      _ = (S + 1) * 2 ^ d := by ring
      _ ≤ _ := Nat.mul_le_mul_right _ hSR
  have hmax' : (t.renorm R S).maxBits = 8 * (s.buf.length : Int) - (p + d : Nat) := by
    simp only [SymDec.renorm, h.maxBits, ← hd]; push_cast; ring
  have hrange' : (t.renorm R S).range = R * 2 ^ d := by simp only [SymDec.renorm, Nat.shiftLeft_eq, ← hd]
  obtain ⟨L, low, hL, hdif, hlow, hcase⟩ := h.win
  -- the window after the subtraction
  have hsub : s.dif - v * 2 ^ (W - 16) = (S * 2 ^ L + sv B p L) * 2 ^ (W - 16 - L) + low := by
    have e : 2 ^ (W - 16) = 2 ^ L * 2 ^ (W - 16 - L) := by rw [← Nat.pow_add]; congr 1; omega
    obtain ⟨x, hx⟩ : ∃ x, t.value = S + v := ⟨0, by omega⟩
    rw [hdif, e]
    rw [show t.value = S + v by omega]
    have : ((S + v) * 2 ^ L + sv B p L) * 2 ^ (W - 16 - L) + low
        = (S * 2 ^ L + sv B p L) * 2 ^ (W - 16 - L) + low + v * (2 ^ L * 2 ^ (W - 16 - L)) := by ring
    rw [this, Nat.add_sub_cancel]
  have hltW : (s.dif - v * 2 ^ (W - 16)) * 2 ^ d < 2 ^ W := by
    have : s.dif - v * 2 ^ (W - 16) < R * 2 ^ (W - 16) := by rw [hR, Nat.sub_mul]; omega
    calc _ < R * 2 ^ (W - 16) * 2 ^ d := Nat.mul_lt_mul_of_pos_right this (Nat.two_pow_pos _)
      _ = R * 2 ^ d * 2 ^ (W - 16) := by ring
      _ < 2 ^ 16 * 2 ^ (W - 16) := Nat.mul_lt_mul_of_pos_right r2 (Nat.two_pow_pos _)
      _ = 2 ^ W := by rw [← Nat.pow_add]; congr 1; omega
  have hdif1 : ((s.dif - v * 2 ^ (W - 16)) <<< d) % 2 ^ W
      = ((S * 2 ^ L + sv B p L) * 2 ^ (W - 16 - L) + low) * 2 ^ d := by
    rw [Nat.shiftLeft_eq, Nat.mod_eq_of_lt hltW, hsub]
  -- shifting inside the valid bits
  have hshift : d ≤ L → ((S * 2 ^ L + sv B p L) * 2 ^ (W - 16 - L) + low) * 2 ^ d
      = ((S * 2 ^ d + sv B p d) * 2 ^ (L - d) + sv B (p + d) (L - d)) * 2 ^ (W - 16 - (L - d)) + low * 2 ^ d := by
    intro hdL
    have e1 : sv B p L = sv B p d * 2 ^ (L - d) + sv B (p + d) (L - d) := by
      rw [← sv_add]; congr 1; omega
    have e2 : 2 ^ (W - 16 - (L - d)) = 2 ^ (W - 16 - L) * 2 ^ d := by rw [← Nat.pow_add]; congr 1; omega
    have e3 : 2 ^ L = 2 ^ d * 2 ^ (L - d) := by rw [← Nat.pow_add]; congr 1; omega
    rw [e1, e2, e3]; ring
  have hlow' : d ≤ L → low * 2 ^ d < 2 ^ (W - 16 - (L - d)) := by
    intro hdL
    have e2 : 2 ^ (W - 16 - (L - d)) = 2 ^ (W - 16 - L) * 2 ^ d := by rw [← Nat.pow_add]; congr 1; omega
    rw [e2]; exact Nat.mul_lt_mul_of_pos_right hlow (Nat.two_pow_pos _)
  unfold Msac.norm
  simp only
  rw [← hd, hdif1]
  rcases hcase with ⟨hc, hpL, hz⟩ | ⟨hc, hc15, hpe, hpc, hLc⟩
  · by_cases hdL : d ≤ L
    · rw [if_neg (by omega)]
      refine ⟨Or.inl ⟨le_trans h.h15 (Nat.le_add_right _ _), h.hpos, by rw [rr], hmax', by rw [hrange']; simp [Nat.shiftLeft_eq], by simpa [Nat.shiftLeft_eq] using r1,
        by simpa [Nat.shiftLeft_eq] using r2, by rw [hrange', rv]; exact hval', ?_⟩, rfl, rfl⟩
      refine ⟨L - d, low * 2 ^ d, by omega, ?_, hlow' hdL, Or.inl ⟨?_, ?_, ?_⟩⟩
      · rw [rv]; exact hshift hdL
      · simp only [hc]; omega
      · simp only; omega
      · intro hh; rw [hz hh]; simp
    · rw [if_pos (by omega)]
      -- refill
      unfold Msac.refill
      simp only
      have hcv : (W : Int) - (s.cnt - (d : Int)) - 24 = ((W + d - L - 24 : Nat) : Int) := by omega
      rw [hcv]
      set c := W + d - L - 24 with hcdef
      have hform : ((S * 2 ^ L + sv B p L) * 2 ^ (W - 16 - L) + low) * 2 ^ d
          = (S * 2 ^ L + sv B p L) * 2 ^ (c + 8) + low * 2 ^ d := by
        have : 2 ^ (c + 8) = 2 ^ (W - 16 - L) * 2 ^ d := by rw [← Nat.pow_add]; congr 1; omega
        rw [this]; ring
      have hlow2 : low * 2 ^ d < 2 ^ (c + 8) := by
        have : 2 ^ (c + 8) = 2 ^ (W - 16 - L) * 2 ^ d := by rw [← Nat.pow_add]; congr 1; omega
        rw [this]; exact Nat.mul_lt_mul_of_pos_right hlow (Nat.two_pow_pos _)
      obtain ⟨k, low', pos', c', g1, g2, g3, g4, g5, g6, g7⟩ :=
        refillLoop_spec' s.buf _ (S * 2 ^ L + sv B p L) (low * 2 ^ d) s.pos c rfl hlow2
          (fun hh => by rw [hz hh]; simp) h.hpos
      rw [hform, g1]
      rw [← hB] at *
      simp only
      have hkge : d - L ≤ k := by omega
      have hAk : (S * 2 ^ L + sv B p L) * 2 ^ k + sv B (8 * s.pos) k
          = (S * 2 ^ d + sv B p d) * 2 ^ (k + L - d) + sv B (p + d) (k + L - d) := by
        have e1 : sv B p L * 2 ^ k + sv B (8 * s.pos) k = sv B p (L + k) := by rw [sv_add, hpL]
        have e2 : sv B p d * 2 ^ (k + L - d) + sv B (p + d) (k + L - d) = sv B p (L + k) := by
          rw [← sv_add]; congr 1; omega
        have e3 : S * 2 ^ L * 2 ^ k = S * 2 ^ d * 2 ^ (k + L - d) := by
          rw [Nat.mul_assoc, Nat.mul_assoc, ← Nat.pow_add, ← Nat.pow_add]; congr 2; omega
        rw [Nat.add_mul, Nat.add_mul, Nat.add_assoc, Nat.add_assoc, e1, e2, e3]
      refine ⟨?_, by trivial, by trivial⟩
      rcases g7 with ⟨a1, a2, a3, a4⟩ | ⟨a1, a2, a3⟩
      · left
        refine ⟨le_trans h.h15 (Nat.le_add_right _ _), g5, by rw [rr], hmax', by rw [hrange']; simp [Nat.shiftLeft_eq], by simpa [Nat.shiftLeft_eq] using r1,
          by simpa [Nat.shiftLeft_eq] using r2, by rw [hrange', rv]; exact hval', ?_⟩
        refine ⟨k + L - d, low', by omega, ?_, ?_, Or.inl ⟨?_, ?_, ?_⟩⟩
        · rw [rv]
          simp only
          rw [← hB, hAk]
          congr 3; omega
        · rw [show W - 16 - (k + L - d) = c + 8 - k by omega]; exact g2
        · simp only; omega
        · simp only; omega
        · intro _; exact a4
      · by_cases hneg : (W : Int) - c' - 24 < 0
        · by_cases h15 : (W : Int) - c' - 24 ≤ -15
          · right
            refine ⟨by simpa using h15, ?_, ?_, ?_, ?_⟩
            · rw [hmax']; push_cast; omega
            · simpa [Nat.shiftLeft_eq] using r1
            · simpa [Nat.shiftLeft_eq] using r2
            · simp only [Nat.shiftLeft_eq]
              rw [hAk]
              have e : 2 ^ (W - 16) = 2 ^ (k + L - d) * 2 ^ (c + 8 - k) := by rw [← Nat.pow_add]; congr 1; omega
              have q := sv_lt B (p + d) (k + L - d)
              rw [e]
              calc _ < ((S * 2 ^ d + sv B p d) * 2 ^ (k + L - d) + sv B (p + d) (k + L - d)) * 2 ^ (c + 8 - k) + 2 ^ (c + 8 - k) := by omega
                _ = ((S * 2 ^ d + sv B p d) * 2 ^ (k + L - d) + sv B (p + d) (k + L - d) + 1) * 2 ^ (c + 8 - k) := by ring
                _ ≤ ((S * 2 ^ d + sv B p d) * 2 ^ (k + L - d) + 2 ^ (k + L - d)) * 2 ^ (c + 8 - k) := Nat.mul_le_mul_right _ (by omega)
                _ = (S * 2 ^ d + sv B p d + 1) * 2 ^ (k + L - d) * 2 ^ (c + 8 - k) := by ring
                _ ≤ R * 2 ^ d * 2 ^ (k + L - d) * 2 ^ (c + 8 - k) :=
                  Nat.mul_le_mul_right _ (Nat.mul_le_mul_right _ hval')
                _ = _ := by ring
          · left
            refine ⟨le_trans h.h15 (Nat.le_add_right _ _), g5, by rw [rr], hmax', by rw [hrange']; simp [Nat.shiftLeft_eq], by simpa [Nat.shiftLeft_eq] using r1,
              by simpa [Nat.shiftLeft_eq] using r2, by rw [hrange', rv]; exact hval', ?_⟩
            refine ⟨k + L - d, low', by omega, ?_, ?_, Or.inr ⟨?_, ?_, ?_, ?_, ?_⟩⟩
            · rw [rv]
              simp only
              rw [← hB, hAk]
              congr 3; omega
            · rw [show W - 16 - (k + L - d) = c + 8 - k by omega]; exact g2
            · simpa using hneg
            · simp only; omega
            · exact a2
            · simp only; push_cast; omega
            · simp only; omega
        · left
          refine ⟨le_trans h.h15 (Nat.le_add_right _ _), g5, by rw [rr], hmax', by rw [hrange']; simp [Nat.shiftLeft_eq], by simpa [Nat.shiftLeft_eq] using r1,
            by simpa [Nat.shiftLeft_eq] using r2, by rw [hrange', rv]; exact hval', ?_⟩
          -- only the bits up to the end of the data count as look-ahead
          set L' := ((W : Int) - c' - 24).toNat with hL'
          have hle : L' ≤ k + L - d := by omega
          refine ⟨L', sv B (p + d + L') (k + L - d - L') * 2 ^ (c + 8 - k) + low', by omega, ?_, ?_, Or.inl ⟨?_, ?_, ?_⟩⟩
          · rw [rv]
            simp only
            rw [← hB, hAk]
            have e1 : sv B (p + d) (k + L - d) = sv B (p + d) L' * 2 ^ (k + L - d - L') + sv B (p + d + L') (k + L - d - L') := by
              rw [← sv_add]; congr 1; omega
            have e2 : 2 ^ (k + L - d) = 2 ^ L' * 2 ^ (k + L - d - L') := by rw [← Nat.pow_add]; congr 1; omega
            have e3 : 2 ^ (W - 16 - L') = 2 ^ (k + L - d - L') * 2 ^ (c + 8 - k) := by rw [← Nat.pow_add]; congr 1; omega
            rw [e1, e2, e3]; ring
          · have e3 : 2 ^ (W - 16 - L') = 2 ^ (k + L - d - L') * 2 ^ (c + 8 - k) := by rw [← Nat.pow_add]; congr 1; omega
            have q := sv_lt B (p + d + L') (k + L - d - L')
            rw [e3]
            calc _ < sv B (p + d + L') (k + L - d - L') * 2 ^ (c + 8 - k) + 2 ^ (c + 8 - k) := by omega
              _ = (sv B (p + d + L') (k + L - d - L') + 1) * 2 ^ (c + 8 - k) := by ring
              _ ≤ _ := Nat.mul_le_mul_right _ q
          · simp only; omega
          · simp only; omega
          · intro hh; simp only at hh; omega
  · rw [if_neg (by omega)]
    by_cases h15 : s.cnt - (d : Int) ≤ -15
    · refine ⟨Or.inr ⟨by simpa using h15, ?_, ?_, ?_, ?_⟩, rfl, rfl⟩
      · rw [hmax']; push_cast; omega
      · simpa [Nat.shiftLeft_eq] using r1
      · simpa [Nat.shiftLeft_eq] using r2
      · simp only [Nat.shiftLeft_eq]
        rw [← hsub]
        have : s.dif - v * 2 ^ (W - 16) < R * 2 ^ (W - 16) := by rw [hR, Nat.sub_mul]; omega
        calc _ < R * 2 ^ (W - 16) * 2 ^ d := Nat.mul_lt_mul_of_pos_right this (Nat.two_pow_pos _)
          _ = _ := by ring
    · have hdL : d ≤ L := by omega
      refine ⟨Or.inl ⟨le_trans h.h15 (Nat.le_add_right _ _), h.hpos, by rw [rr], hmax', by rw [hrange']; simp [Nat.shiftLeft_eq], by simpa [Nat.shiftLeft_eq] using r1,
        by simpa [Nat.shiftLeft_eq] using r2, by rw [hrange', rv]; exact hval', ?_⟩, rfl, rfl⟩
      refine ⟨L - d, low * 2 ^ d, by omega, ?_, hlow' hdL, Or.inr ⟨?_, ?_, hpe, ?_, ?_⟩⟩
      · rw [rv]; exact hshift hdL
      · simp only; omega
      · simp only; omega
      · simp only; push_cast; omega
      · simp only; omega

end Dav1d
