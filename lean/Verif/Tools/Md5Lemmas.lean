import Verif.Tools.Md5Sin

namespace Dav1d.Md5

open Dav1d.Input (le)

/-! ### One block -/

theorem rot_eq (x : UInt32) (n : Nat) (h0 : 0 < n) (h : n < 32) :
    leftrotate x (UInt32.ofNat n) = Spec.rotl x n := by
  unfold leftrotate Spec.rotl
  apply UInt32.toBitVec_inj.1
  have h1 : (UInt32.ofNat n).toNat = n := by
    rw [UInt32.toNat_ofNat']; exact Nat.mod_eq_of_lt (by omega)
  have h2 : (32 - UInt32.ofNat n).toNat = 32 - n := by
    rw [UInt32.toNat_sub_of_le _ _ (by rw [UInt32.le_iff_toNat_le, h1]; show n ≤ 32; omega), h1]
    rfl
  rw [BitVec.rotateLeft_def, UInt32.toBitVec_or, UInt32.toBitVec_shiftLeft,
    UInt32.toBitVec_shiftRight, Nat.mod_eq_of_lt h]
  have e (y : UInt32) (m : Nat) (hm : y.toNat = m) (hm' : m < 32) : y.toBitVec % 32 = BitVec.ofNat 32 m := by
    apply BitVec.eq_of_toNat_eq
    rw [BitVec.toNat_umod, BitVec.toNat_ofNat]
    show y.toNat % 32 = m % 2 ^ 32
    omega
  rw [e _ _ h1 h, e _ _ h2 (by omega)]
  simp only [BitVec.shiftLeft_eq', BitVec.ushiftRight_eq', BitVec.toNat_ofNat]
  rw [Nat.mod_eq_of_lt (by omega : n < 2 ^ 32), Nat.mod_eq_of_lt (by omega : 32 - n < 2 ^ 32)]

theorem shift_bounds : ∀ i ∈ List.range 64, 0 < Spec.shift i ∧ Spec.shift i < 32 := by decide

theorem add_right_comm' (a b c : UInt32) : a + b + c = a + c + b := by
  rw [UInt32.add_assoc, UInt32.add_comm b c, ← UInt32.add_assoc]

theorem op_form (x : Nat → UInt32) (s : Abcd) (i : Nat) (hi : i < 64) :
    Spec.op x s i = ⟨s.d, s.b + leftrotate (s.a + Spec.aux (i / 16) s.b s.c s.d + k i +
      x (Spec.index i)) (UInt32.ofNat (Spec.shift i)), s.b, s.c⟩ := by
  have hs := shift_bounds i (List.mem_range.2 hi)
  rw [rot_eq _ _ hs.1 hs.2, k_eq i hi, add_right_comm' _ (Spec.T i) (x _)]
  rfl

/-- `G` as the code writes it. -/
theorem g_eq (b c d : UInt32) : Spec.aux 1 b c d = (d &&& b) ||| (~~~d &&& c) := by
  show (b &&& d) ||| (c &&& ~~~d) = _
  rw [UInt32.and_comm b d, UInt32.and_comm c]

theorem op_formG (x : Nat → UInt32) (s : Abcd) (i : Nat) (hi : i / 16 = 1) :
    Spec.op x s i = ⟨s.d, s.b + leftrotate (s.a + ((s.d &&& s.b) ||| (~~~s.d &&& s.c)) + k i +
      x (Spec.index i)) (UInt32.ofNat (Spec.shift i)), s.b, s.c⟩ := by
  rw [op_form x s i (by omega), hi, g_eq]

theorem ops0 (x : Nat → UInt32) (s : Abcd) :
    Spec.op x (Spec.op x (Spec.op x (Spec.op x s 0) 1) 2) 3 = stepF x 0 s := by
  rw [op_form x _ 0 (by decide), op_form x _ 1 (by decide), op_form x _ 2 (by decide),
    op_form x _ 3 (by decide)]
  rfl

theorem ops4 (x : Nat → UInt32) (s : Abcd) :
    Spec.op x (Spec.op x (Spec.op x (Spec.op x s 4) 5) 6) 7 = stepF x 4 s := by
  rw [op_form x _ 4 (by decide), op_form x _ 5 (by decide), op_form x _ 6 (by decide),
    op_form x _ 7 (by decide)]
  rfl

theorem ops8 (x : Nat → UInt32) (s : Abcd) :
    Spec.op x (Spec.op x (Spec.op x (Spec.op x s 8) 9) 10) 11 = stepF x 8 s := by
  rw [op_form x _ 8 (by decide), op_form x _ 9 (by decide), op_form x _ 10 (by decide),
    op_form x _ 11 (by decide)]
  rfl

theorem ops12 (x : Nat → UInt32) (s : Abcd) :
    Spec.op x (Spec.op x (Spec.op x (Spec.op x s 12) 13) 14) 15 = stepF x 12 s := by
  rw [op_form x _ 12 (by decide), op_form x _ 13 (by decide), op_form x _ 14 (by decide),
    op_form x _ 15 (by decide)]
  rfl

theorem ops16 (x : Nat → UInt32) (s : Abcd) :
    Spec.op x (Spec.op x (Spec.op x (Spec.op x s 16) 17) 18) 19 = stepG x 16 s := by
  rw [op_formG x _ 16 (by decide), op_formG x _ 17 (by decide), op_formG x _ 18 (by decide),
    op_formG x _ 19 (by decide)]
  rfl

theorem ops20 (x : Nat → UInt32) (s : Abcd) :
    Spec.op x (Spec.op x (Spec.op x (Spec.op x s 20) 21) 22) 23 = stepG x 20 s := by
  rw [op_formG x _ 20 (by decide), op_formG x _ 21 (by decide), op_formG x _ 22 (by decide),
    op_formG x _ 23 (by decide)]
  rfl

theorem ops24 (x : Nat → UInt32) (s : Abcd) :
    Spec.op x (Spec.op x (Spec.op x (Spec.op x s 24) 25) 26) 27 = stepG x 24 s := by
  rw [op_formG x _ 24 (by decide), op_formG x _ 25 (by decide), op_formG x _ 26 (by decide),
    op_formG x _ 27 (by decide)]
  rfl

theorem ops28 (x : Nat → UInt32) (s : Abcd) :
    Spec.op x (Spec.op x (Spec.op x (Spec.op x s 28) 29) 30) 31 = stepG x 28 s := by
  rw [op_formG x _ 28 (by decide), op_formG x _ 29 (by decide), op_formG x _ 30 (by decide),
    op_formG x _ 31 (by decide)]
  rfl

theorem ops32 (x : Nat → UInt32) (s : Abcd) :
    Spec.op x (Spec.op x (Spec.op x (Spec.op x s 32) 33) 34) 35 = stepH x 32 s := by
  rw [op_form x _ 32 (by decide), op_form x _ 33 (by decide), op_form x _ 34 (by decide),
    op_form x _ 35 (by decide)]
  rfl

theorem ops36 (x : Nat → UInt32) (s : Abcd) :
    Spec.op x (Spec.op x (Spec.op x (Spec.op x s 36) 37) 38) 39 = stepH x 36 s := by
  rw [op_form x _ 36 (by decide), op_form x _ 37 (by decide), op_form x _ 38 (by decide),
    op_form x _ 39 (by decide)]
  rfl

theorem ops40 (x : Nat → UInt32) (s : Abcd) :
    Spec.op x (Spec.op x (Spec.op x (Spec.op x s 40) 41) 42) 43 = stepH x 40 s := by
  rw [op_form x _ 40 (by decide), op_form x _ 41 (by decide), op_form x _ 42 (by decide),
    op_form x _ 43 (by decide)]
  rfl

theorem ops44 (x : Nat → UInt32) (s : Abcd) :
    Spec.op x (Spec.op x (Spec.op x (Spec.op x s 44) 45) 46) 47 = stepH x 44 s := by
  rw [op_form x _ 44 (by decide), op_form x _ 45 (by decide), op_form x _ 46 (by decide),
    op_form x _ 47 (by decide)]
  rfl

theorem ops48 (x : Nat → UInt32) (s : Abcd) :
    Spec.op x (Spec.op x (Spec.op x (Spec.op x s 48) 49) 50) 51 = stepI x 48 s := by
  rw [op_form x _ 48 (by decide), op_form x _ 49 (by decide), op_form x _ 50 (by decide),
    op_form x _ 51 (by decide)]
  rfl

theorem ops52 (x : Nat → UInt32) (s : Abcd) :
    Spec.op x (Spec.op x (Spec.op x (Spec.op x s 52) 53) 54) 55 = stepI x 52 s := by
  rw [op_form x _ 52 (by decide), op_form x _ 53 (by decide), op_form x _ 54 (by decide),
    op_form x _ 55 (by decide)]
  rfl

theorem ops56 (x : Nat → UInt32) (s : Abcd) :
    Spec.op x (Spec.op x (Spec.op x (Spec.op x s 56) 57) 58) 59 = stepI x 56 s := by
  rw [op_form x _ 56 (by decide), op_form x _ 57 (by decide), op_form x _ 58 (by decide),
    op_form x _ 59 (by decide)]
  rfl

theorem ops60 (x : Nat → UInt32) (s : Abcd) :
    Spec.op x (Spec.op x (Spec.op x (Spec.op x s 60) 61) 62) 63 = stepI x 60 s := by
  rw [op_form x _ 60 (by decide), op_form x _ 61 (by decide), op_form x _ 62 (by decide),
    op_form x _ 63 (by decide)]
  rfl

theorem range64 : List.range 64 = [0, 1, 2, 3, 4, 5, 6, 7, 8, 9, 10, 11, 12, 13, 14, 15, 16, 17, 18,
    19, 20, 21, 22, 23, 24, 25, 26, 27, 28, 29, 30, 31, 32, 33, 34, 35, 36, 37, 38, 39, 40, 41, 42,
    43, 44, 45, 46, 47, 48, 49, 50, 51, 52, 53, 54, 55, 56, 57, 58, 59, 60, 61, 62, 63] := by rfl

theorem compress_eq (s : Abcd) (x : Nat → UInt32) : Spec.compress s x = body s x := by
  unfold Spec.compress
  rw [range64]
  simp only [List.foldl]
  rw [ops0, ops4, ops8, ops12, ops16, ops20, ops24, ops28, ops32, ops36, ops40, ops44, ops48, ops52, ops56, ops60]
  rfl

theorem le_take4 (l : List UInt8) : le (l.take 4) =
    (l.getD 0 0).toNat + 256 * (l.getD 1 0).toNat + 65536 * (l.getD 2 0).toNat +
      16777216 * (l.getD 3 0).toNat := by
  rcases l with _ | ⟨a, _ | ⟨b, _ | ⟨c, _ | ⟨d, l⟩⟩⟩⟩ <;>
    simp only [List.take, le, List.getD_cons_zero, List.getD_cons_succ, List.getD_nil,
      UInt8.toNat_zero] <;> omega

theorem word_eq (data : List UInt8) (i : Nat) : word data i = Spec.blockWord data i := by
  unfold word Spec.blockWord
  rw [le_take4]
  simp only [List.getD_eq_getElem?_getD, List.getElem?_drop]

/-! ### Blocks -/

theorem process_short (s : Abcd) (l : List UInt8) (h : l.length < 64) : Spec.process s l = s := by
  rw [Spec.process, if_neg (by omega)]

theorem process_block (s : Abcd) (b l : List UInt8) (h : b.length = 64) :
    Spec.process s (b ++ l) = Spec.process (body s (word b)) l := by
  rw [Spec.process, if_pos (by simp; omega), compress_eq]
  have e1 : (b ++ l).take 64 = b := by rw [← h, List.take_left]
  have e2 : (b ++ l).drop 64 = l := by rw [← h, List.drop_left]
  rw [e1, e2]
  congr 2
  exact funext fun i => (word_eq b i).symm

theorem process_append (n : Nat) : ∀ (s : Abcd) (a l : List UInt8), a.length = 64 * n →
    Spec.process s (a ++ l) = Spec.process (Spec.process s a) l := by
  induction n with
  | zero =>
    intro s a l h
    have : a = [] := List.length_eq_zero_iff.1 (by omega)
    subst this
    rw [process_short s [] (by decide)]
    rfl
  | succ n ih =>
    intro s a l h
    have ha : a = a.take 64 ++ a.drop 64 := (List.take_append_drop 64 a).symm
    have h1 : (a.take 64).length = 64 := by rw [List.length_take]; omega
    have h2 : (a.drop 64).length = 64 * n := by rw [List.length_drop]; omega
    rw [ha, List.append_assoc, process_block _ _ _ h1, ih _ _ _ h2, process_block _ _ _ h1]

/-- The state after the bytes `msg`. -/
structure Fed (m : Ctx) (msg : List UInt8) : Prop where
  len : m.len = msg.length % 2 ^ 64
  buf : m.data.length = 64
  ex : ∃ whole tail, msg = whole ++ tail ∧ whole.length = 64 * (msg.length / 64) ∧
    tail.length = msg.length % 64 ∧ m.abcd = Spec.process Spec.start whole ∧
    m.data.take tail.length = tail

theorem init_fed : Fed init [] := by
  refine ⟨rfl, by decide, [], [], rfl, rfl, rfl, ?_, rfl⟩
  rw [process_short _ [] (by decide)]
  rfl

theorem Fed.len64 {m : Ctx} {msg : List UInt8} (h : Fed m msg) : m.len % 64 = msg.length % 64 := by
  rw [h.len]; omega

/-- At a block boundary the state holds all of the message. -/
theorem Fed.abcd {m : Ctx} {msg : List UInt8} (h : Fed m msg) (h0 : msg.length % 64 = 0) :
    m.abcd = Spec.process Spec.start msg := by
  obtain ⟨w, t, e, _, ht, ha, _⟩ := h.ex
  have : t = [] := List.length_eq_zero_iff.1 (by omega)
  subst this
  rw [ha, e, List.append_nil]

theorem splice0 (buf src : List UInt8) (h : buf.length = 64) (hs : src.length ≤ 64) :
    (splice buf 0 src).length = 64 ∧ (splice buf 0 src).take src.length = src := by
  unfold splice
  simp only [List.take_zero, List.nil_append]
  constructor
  · simp; omega
  · exact List.take_left

/-- A whole block at a boundary. -/
theorem fed_block {m : Ctx} {msg b : List UInt8} (h : Fed m msg) (h0 : msg.length % 64 = 0)
    (hb : b.length = 64) :
    Fed { Ctx.run { m with data := splice m.data 0 b } with len := (m.len + 64) % 2 ^ 64 }
      (msg ++ b) := by
  obtain ⟨l1, l2⟩ := splice0 m.data b h.buf (by omega)
  have e : splice m.data 0 b = b := by
    have := l2
    rwa [hb, List.take_of_length_le (Nat.le_of_eq l1)] at this
  refine ⟨?_, l1, msg ++ b, [], by simp, by simp; omega, by simp; omega, ?_, rfl⟩
  · simp only [h.len, List.length_append, hb]
    omega
  · show body m.abcd (word (splice m.data 0 b)) = _
    rw [e, process_append (msg.length / 64) _ _ _ (by omega), ← h.abcd h0]
    have := process_block m.abcd b [] hb
    rw [List.append_nil, process_short _ [] (by decide)] at this
    exact this.symm

/-- Part of a block at a boundary. -/
theorem fed_part {m : Ctx} {msg b : List UInt8} (h : Fed m msg) (h0 : msg.length % 64 = 0)
    (hb : b.length < 64) :
    Fed { m with data := splice m.data 0 b, len := (m.len + b.length) % 2 ^ 64 } (msg ++ b) := by
  obtain ⟨l1, l2⟩ := splice0 m.data b h.buf (by omega)
  refine ⟨?_, l1, msg, b, rfl, by simp; omega, by simp; omega, h.abcd h0, l2⟩
  simp only [h.len, List.length_append]
  omega

theorem blocks_fed (n : Nat) : ∀ (m : Ctx) (msg d : List UInt8), d.length / 64 = n → Fed m msg →
    (msg.length % 64 = 0 ∨ d = []) → Fed (blocks m d) (msg ++ d) := by
  induction n with
  | zero =>
    intro m msg d hd h h0
    rw [blocks, if_neg (by omega)]
    by_cases he : d.length = 0
    · rw [if_neg (by omega), List.length_eq_zero_iff.1 he, List.append_nil]
      exact h
    · rw [if_pos he]
      refine fed_part h (h0.resolve_right ?_) (by omega)
      intro e; subst e; exact he rfl
  | succ n ih =>
    intro m msg d hd h h0
    have h0 : msg.length % 64 = 0 := h0.resolve_right (by intro e; subst e; simp at hd)
    rw [blocks, if_pos (by omega)]
    have hb : (d.take 64).length = 64 := by rw [List.length_take]; omega
    have := ih _ (msg ++ d.take 64) (d.drop 64) (by rw [List.length_drop]; omega)
      (fed_block h h0 hb) (.inl (by rw [List.length_append, hb]; omega))
    rwa [List.append_assoc, List.take_append_drop] at this

/-- Filling the buffer from the middle. -/
theorem splice_mid (buf src tail : List UInt8) (h : buf.length = 64)
    (ht : buf.take tail.length = tail) (hs : tail.length + src.length ≤ 64) :
    (splice buf tail.length src).length = 64 ∧
      (splice buf tail.length src).take (tail ++ src).length = tail ++ src := by
  unfold splice
  rw [ht]
  constructor
  · simp; omega
  · exact List.take_left

theorem update_fed (m : Ctx) (msg d : List UInt8) (h : Fed m msg) :
    Fed (update m d) (msg ++ d) := by
  unfold update
  by_cases hd : d.length = 0
  · rw [if_pos hd, List.length_eq_zero_iff.1 hd, List.append_nil]
    exact h
  rw [if_neg hd]
  by_cases h0 : m.len % 64 = 0
  · rw [if_neg (by omega)]
    exact blocks_fed _ m msg d rfl h (.inl (by rw [← h.len64]; exact h0))
  rw [if_pos h0]
  dsimp only
  rw [h.len64] at *
  generalize htmp : min d.length (64 - msg.length % 64) = tmp
  obtain ⟨w, t, e, hw, ht, ha, hb⟩ := h.ex
  have hl : (d.take tmp).length = tmp := by rw [List.length_take]; omega
  have hlt : tmp < 2 ^ 64 := by omega
  obtain ⟨s1, s2⟩ := splice_mid m.data (d.take tmp) t h.buf hb (by rw [hl]; omega)
  rw [← ht]
  have key : ∀ m' : Ctx, Fed m' (msg ++ d.take tmp) →
      Fed (blocks m' (d.drop tmp)) (msg ++ d) := by
    intro m' hm'
    have := blocks_fed _ m' (msg ++ d.take tmp) (d.drop tmp) rfl hm' (by
      by_cases hc : d.length ≤ 64 - msg.length % 64
      · right
        exact List.drop_eq_nil_of_le (by omega)
      · left
        rw [List.length_append, hl]
        omega)
    rwa [List.append_assoc, List.take_append_drop] at this
  apply key
  have hn : (m.len + tmp) % 2 ^ 64 = (msg ++ d.take tmp).length % 2 ^ 64 := by
    rw [h.len, List.length_append, hl]; omega
  by_cases hz : (m.len + tmp) % 2 ^ 64 % 64 = 0
  · rw [if_pos hz]
    have hz' : (msg.length + tmp) % 64 = 0 := by
      rw [hn, List.length_append, hl] at hz; omega
    have hfull : (t ++ d.take tmp).length = 64 := by
      rw [List.length_append, hl, ht]; omega
    have hwhole : splice m.data t.length (d.take tmp) = t ++ d.take tmp := by
      have := s2
      rwa [hfull, List.take_of_length_le (Nat.le_of_eq s1)] at this
    refine ⟨hn, s1, msg ++ d.take tmp, [], by simp, ?_, ?_, ?_, rfl⟩
    · rw [List.length_append, hl]; omega
    · rw [List.length_append, hl]; simp; omega
    · show body m.abcd (word (splice m.data t.length (d.take tmp))) = _
      rw [hwhole, e, List.append_assoc, process_append _ _ _ _ hw, ← ha]
      have := process_block m.abcd _ [] hfull
      rw [List.append_nil, process_short _ [] (by decide)] at this
      exact this.symm
  · rw [if_neg hz]
    have hz' : (msg.length + tmp) % 64 ≠ 0 := by
      rw [hn, List.length_append, hl] at hz; omega
    refine ⟨hn, s1, w, t ++ d.take tmp, by rw [e, List.append_assoc], ?_, ?_, ha, s2⟩
    · rw [List.length_append, hl]; omega
    · rw [List.length_append, List.length_append, hl]; omega

/-! ### Padding -/

theorem pad_fed (n : Nat) : ∀ (fuel : Nat) (m : Ctx) (msg : List UInt8), Fed m msg →
    (120 - msg.length % 64) % 64 = n → n < fuel →
    Fed (padLoop fuel m) (msg ++ List.replicate n 0) := by
  induction n with
  | zero =>
    intro fuel m msg h hn hf
    obtain ⟨fuel, rfl⟩ : ∃ f, fuel = f + 1 := ⟨fuel - 1, by omega⟩
    rw [padLoop, if_neg (by rw [h.len64]; omega), List.replicate_zero, List.append_nil]
    exact h
  | succ n ih =>
    intro fuel m msg h hn hf
    obtain ⟨fuel, rfl⟩ : ∃ f, fuel = f + 1 := ⟨fuel - 1, by omega⟩
    rw [padLoop, if_pos (by rw [h.len64]; omega)]
    have := ih fuel _ (msg ++ [0x00]) (update_fed m msg [0x00] h)
      (by rw [List.length_append, List.length_singleton]; omega) (by omega)
    rwa [List.append_assoc] at this

theorem ofNat_mod (v n : Nat) (h : 256 ∣ n) : UInt8.ofNat (v % n) = UInt8.ofNat v := by
  apply UInt8.toNat_inj.1
  rw [UInt8.toNat_ofNat', UInt8.toNat_ofNat']
  exact Nat.mod_mod_of_dvd v h

theorem bytes64_eq (v : Nat) : bytes64 (v % 2 ^ 64) = Spec.lowFirst 8 v := by
  have h (i : Nat) (hi : i < 8) :
      UInt8.ofNat (v % 2 ^ 64 / 256 ^ i) = UInt8.ofNat (v / 256 ^ i) := by
    have e : (2 ^ 64 : Nat) = 256 ^ i * 256 ^ (8 - i) := by
      rw [← Nat.pow_add, show i + (8 - i) = 8 by omega]
      rfl
    rw [e, Nat.mod_mul_right_div_self]
    refine ofNat_mod _ _ ?_
    obtain ⟨j, hj⟩ : ∃ j, 8 - i = j + 1 := ⟨7 - i, by omega⟩
    rw [hj, Nat.pow_succ]
    exact Nat.dvd_mul_left _ _
  unfold bytes64
  rw [show List.range 8 = [0, 1, 2, 3, 4, 5, 6, 7] from rfl]
  simp only [List.map]
  rw [h 0 (by decide), h 1 (by decide), h 2 (by decide), h 3 (by decide), h 4 (by decide),
    h 5 (by decide), h 6 (by decide), h 7 (by decide)]
  simp only [Spec.lowFirst, Nat.div_div_eq_div_mul, Nat.reduceMul, Nat.reducePow, Nat.div_one]

theorem finish_abcd (m : Ctx) (msg : List UInt8) (h : Fed m msg) :
    (finish m).abcd = Spec.process Spec.start (Spec.pad msg) := by
  unfold finish
  dsimp only
  have e : m.len * 8 % 2 ^ 64 = 8 * msg.length % 2 ^ 64 := by rw [h.len]; omega
  rw [e, bytes64_eq]
  have h1 := update_fed m msg [0x80] h
  have h2 := pad_fed _ 64 _ _ h1 rfl (Nat.mod_lt _ (by decide))
  have h3 := update_fed _ _ (Spec.lowFirst 8 (8 * msg.length)) h2
  have hr : (120 - (msg ++ [0x80]).length % 64) % 64 = (119 - msg.length % 64) % 64 := by
    rw [List.length_append, List.length_singleton]; omega
  rw [hr] at h3
  refine h3.abcd ?_
  simp only [List.length_append, List.length_replicate, List.length_singleton]
  rw [show (Spec.lowFirst 8 (8 * msg.length)).length = 8 from rfl]
  omega

end Dav1d.Md5
