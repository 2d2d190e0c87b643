import Verif.GetBits.Model
import Mathlib.Tactic.Ring
import Mathlib.Tactic.Linarith
import Mathlib.Tactic.IntervalCases
/-! Lemmas on bit strings and the refinement of the C reader to the bit list. -/
namespace Dav1d

theorem foldl_bits (l : List Bool) (a : Nat) :
    l.foldl (fun a b => 2 * a + b.toNat) a = a * 2 ^ l.length + bitsVal l := by
  unfold bitsVal
  induction l generalizing a with
  | nil => simp
  | cons b l ih =>
    simp only [List.foldl_cons, List.length_cons]
    rw [ih, ih (2 * 0 + b.toNat)]
    ring

@[simp] theorem bitsVal_nil : bitsVal [] = 0 := rfl

theorem bitsVal_append (l m : List Bool) : bitsVal (l ++ m) = bitsVal l * 2 ^ m.length + bitsVal m := by
  conv_lhs => unfold bitsVal
  rw [List.foldl_append, foldl_bits m]; rfl

theorem bitsVal_cons (b : Bool) (l : List Bool) :
    bitsVal (b :: l) = b.toNat * 2 ^ l.length + bitsVal l := by
  have := bitsVal_append [b] l
  simpa [bitsVal] using this

@[simp] theorem bitsVal_replicate (n : Nat) : bitsVal (List.replicate n false) = 0 := by
  induction n with
  | zero => rfl
  | succ n ih => rw [List.replicate_succ, bitsVal_cons, ih]; simp

theorem bitsVal_lt (l : List Bool) : bitsVal l < 2 ^ l.length := by
  induction l with
  | nil => simp
  | cons b l ih =>
    rw [bitsVal_cons, List.length_cons, Nat.pow_succ]
    have : b.toNat ≤ 1 := Bool.toNat_le b
    have := Nat.mul_le_mul_right (2 ^ l.length) this
    omega

@[simp] theorem natBits_length (k n : Nat) : (natBits k n).length = k := by
  induction k generalizing n with
  | zero => rfl
  | succ k ih => simp [natBits, ih]

theorem bitsVal_natBits (k n : Nat) : bitsVal (natBits k n) = n % 2 ^ k := by
  induction k generalizing n with
  | zero => simp [natBits, Nat.mod_one]
  | succ k ih =>
    rw [natBits, bitsVal_append, ih]
    simp only [List.length_cons, List.length_nil, Nat.zero_add, Nat.pow_one]
    have h1 : bitsVal [n % 2 == 1] = n % 2 := by
      rcases Nat.mod_two_eq_zero_or_one n with h | h <;> simp [h, bitsVal]
    rw [h1, Nat.pow_succ, Nat.mul_comm (2 ^ k) 2, Nat.mod_mul]
    omega

theorem bitsVal_natBits_of_lt {k n : Nat} (h : n < 2 ^ k) : bitsVal (natBits k n) = n := by
  rw [bitsVal_natBits, Nat.mod_eq_of_lt h]

theorem bytesBits_cons (b : UInt8) (l : List UInt8) :
    bytesBits (b :: l) = natBits 8 b.toNat ++ bytesBits l := by simp [bytesBits]

@[simp] theorem bytesBits_nil : bytesBits [] = [] := rfl

theorem bytesBits_append (l m : List UInt8) :
    bytesBits (l ++ m) = bytesBits l ++ bytesBits m := by simp [bytesBits]

@[simp] theorem bytesBits_length (l : List UInt8) : (bytesBits l).length = 8 * l.length := by
  induction l with
  | nil => rfl
  | cons b l ih => rw [bytesBits_cons]; simp [ih]; ring

theorem bitsVal_byte (b : UInt8) : bitsVal (natBits 8 b.toNat) = b.toNat :=
  bitsVal_natBits_of_lt b.toNat_lt

/-- Window value of the bits `l`, left aligned in 64 bits. -/
def win (l : List Bool) : Nat := bitsVal (l ++ List.replicate (64 - l.length) false)

theorem win_eq {l : List Bool} : win l = bitsVal l * 2 ^ (64 - l.length) := by
  simp [win, bitsVal_append]

theorem win_lt {l : List Bool} (h : l.length ≤ 64) : win l < 2 ^ 64 := by
  have := bitsVal_lt (l ++ List.replicate (64 - l.length) false)
  simp only [List.length_append, List.length_replicate] at this
  rwa [Nat.add_sub_cancel' h] at this

theorem win_shiftLeft {l : List Bool} (h : l.length ≤ 64) (n : Nat) :
    (win l <<< n) % 2 ^ 64 = win (l.drop n) := by
  rw [Nat.shiftLeft_eq]
  by_cases hn : n ≤ l.length
  · have h2 := bitsVal_append (l.take n) (l.drop n)
    rw [List.take_append_drop] at h2
    rw [win_eq, win_eq, h2, List.length_drop]
    have e1 : 64 - (l.length - n) = (64 - l.length) + n := by omega
    rw [e1]
    have e2 : (bitsVal (l.take n) * 2 ^ (l.length - n) + bitsVal (l.drop n)) * 2 ^ (64 - l.length) * 2 ^ n
        = bitsVal (l.drop n) * 2 ^ (64 - l.length + n) + 2 ^ 64 * bitsVal (l.take n) := by
      have e3 : 2 ^ 64 = 2 ^ (l.length - n) * 2 ^ (64 - l.length) * 2 ^ n := by
        rw [← Nat.pow_add, ← Nat.pow_add]; congr 1; omega
      rw [e3, Nat.pow_add]; ring
    rw [e2, Nat.add_mul_mod_self_left]
    apply Nat.mod_eq_of_lt
    have h3 := bitsVal_lt (l.drop n)
    rw [List.length_drop] at h3
    calc bitsVal (l.drop n) * 2 ^ (64 - l.length + n)
        < 2 ^ (l.length - n) * 2 ^ (64 - l.length + n) :=
          Nat.mul_lt_mul_of_pos_right h3 (Nat.two_pow_pos _)
      _ = 2 ^ 64 := by rw [← Nat.pow_add]; congr 1; omega
  · rw [List.drop_eq_nil_of_le (by omega), win_eq]
    have : bitsVal l * 2 ^ (64 - l.length) * 2 ^ n = 2 ^ 64 * (bitsVal l * 2 ^ (n - l.length)) := by
      have : 2 ^ (64 - l.length) * 2 ^ n = 2 ^ 64 * 2 ^ (n - l.length) := by
        rw [← Nat.pow_add, ← Nat.pow_add]; congr 1; omega
      rw [Nat.mul_assoc, this]; ring
    rw [this, Nat.mul_mod_right, win_eq]; simp

theorem win_shiftRight {l : List Bool} (h : l.length ≤ 64) {n : Nat} (hn : n ≤ 64) :
    win l >>> (64 - n) = bitsVal ((l ++ List.replicate n false).take n) := by
  rw [Nat.shiftRight_eq_div_pow]
  have h1 : l ++ List.replicate (64 - l.length) false
      = (l ++ List.replicate n false).take n ++ (l ++ List.replicate (64 - l.length) false).drop n := by
    conv_lhs => rw [← List.take_append_drop n (l ++ List.replicate (64 - l.length) false)]
    congr 1
    rw [List.take_append, List.take_append, List.take_replicate, List.take_replicate]
    congr 2; omega
  unfold win
  rw [h1, bitsVal_append]
  have h2 : ((l ++ List.replicate (64 - l.length) false).drop n).length = 64 - n := by
    simp; omega
  rw [h2]
  have h3 := bitsVal_lt ((l ++ List.replicate (64 - l.length) false).drop n)
  rw [h2] at h3
  rw [Nat.mul_comm, Nat.mul_add_div (Nat.two_pow_pos _), Nat.div_eq_of_lt h3, Nat.add_zero]

theorem win_or {l m : List Bool} (h : l.length + m.length ≤ 64) :
    win l ||| bitsVal m <<< (64 - (l.length + m.length)) = win (l ++ m) := by
  rw [win_eq, win_eq, Nat.shiftLeft_eq, bitsVal_append, List.length_append]
  have h1 : bitsVal m * 2 ^ (64 - (l.length + m.length)) < 2 ^ (64 - l.length) := by
    calc _ < 2 ^ m.length * 2 ^ (64 - (l.length + m.length)) :=
          Nat.mul_lt_mul_of_pos_right (bitsVal_lt m) (Nat.two_pow_pos _)
      _ = _ := by rw [← Nat.pow_add]; congr 1; omega
  rw [Nat.mul_comm (bitsVal l), ← Nat.two_pow_add_eq_or_of_lt h1]
  have : 2 ^ (64 - l.length) = 2 ^ m.length * 2 ^ (64 - (l.length + m.length)) := by
    rw [← Nat.pow_add]; congr 1; omega
  rw [this]; ring

theorem win_zero_append {l m : List Bool} (h : l.length + m.length ≤ 64) (hm : bitsVal m = 0) :
    win (l ++ m) = win l := by
  rw [← win_or h, hm]; simp

/-- Refinement relation between the C reader and the bit list. -/
structure Rel (c : GetBits) (s : BitSt) : Prop where
  total : s.total = 8 * c.data.length
  err : s.err = c.error
  ptr : c.ptr ≤ c.data.length
  len : s.rem.length ≤ s.total
  win : (∃ l : List Bool, c.bitsLeft = l.length ∧ l.length ≤ 7 ∧ c.state.toNat = win l ∧
          s.rem = l ++ bytesBits (c.data.drop c.ptr) ∧ s.over = 0) ∨
        (c.bitsLeft = -(s.over : Int) ∧ 0 < s.over ∧ c.state = 0 ∧ s.rem = [] ∧
          c.ptr = c.data.length ∧ c.error = true)

theorem rel_init (data : List UInt8) : Rel (GetBits.init data) (BitSt.init data) where
  total := rfl
  err := rfl
  ptr := Nat.zero_le _
  len := by simp [BitSt.init]
  win := Or.inl ⟨[], by simp [GetBits.init, win_eq, BitSt.init]⟩

theorem refillFinish_spec (c : GetBits) (st : BitVec 32) (l m : List Bool)
    (hb : c.bitsLeft = l.length + m.length) (hpos : 0 < m.length) (hle : l.length + m.length ≤ 64)
    (hst : st.toNat = bitsVal m) (hw : c.state.toNat = win l) :
    ∃ w : BitVec 64, c.refillFinish st = some { c with state := w } ∧ w.toNat = win (l ++ m) := by
  refine ⟨c.state ||| (st.zeroExtend 64) <<< (64 - c.bitsLeft).toNat, ?_, ?_⟩
  · rw [GetBits.refillFinish, if_pos]; omega
  · have e : (64 - c.bitsLeft).toNat = 64 - (l.length + m.length) := by omega
    rw [BitVec.toNat_or, BitVec.toNat_shiftLeft, e, hw]
    have h32 : st.toNat < 2 ^ 32 := st.isLt
    have e2 : (st.zeroExtend 64).toNat = bitsVal m := by
      rw [BitVec.toNat_setWidth, Nat.mod_eq_of_lt (by omega), hst]
    rw [e2]
    have h1 : bitsVal m <<< (64 - (l.length + m.length)) < 2 ^ 64 := by
      rw [Nat.shiftLeft_eq]
      calc _ < 2 ^ m.length * 2 ^ (64 - (l.length + m.length)) :=
            Nat.mul_lt_mul_of_pos_right (bitsVal_lt m) (Nat.two_pow_pos _)
        _ = 2 ^ (m.length + (64 - (l.length + m.length))) := by rw [← Nat.pow_add]
        _ ≤ 2 ^ 64 := Nat.pow_le_pow_right (by omega) (by omega)
    rw [Nat.mod_eq_of_lt h1, win_or hle]

theorem refillLoop_spec (n : Nat) (hn : n ≤ 32) (c : GetBits) (st : BitVec 32) (l m : List Bool)
    (hb : c.bitsLeft = l.length + m.length) (hlt : l.length + m.length < n) (h8 : m.length % 8 = 0)
    (hst : st.toNat = bitsVal m) (hw : c.state.toNat = win l) (hp : c.ptr ≤ c.data.length) :
    ∃ c' l', GetBits.refillLoop n c st = some c' ∧ c'.data = c.data ∧ c'.ptr ≤ c'.data.length ∧
      c'.bitsLeft = (l'.length : Int) ∧ c'.state.toNat = win l' ∧ l'.length ≤ 64 ∧
      l' ++ bytesBits (c'.data.drop c'.ptr) = l ++ m ++ bytesBits (c.data.drop c.ptr) ∧
      ((n ≤ l'.length ∧ l'.length < n + 8 ∧ c'.error = c.error) ∨
       (l'.length < n ∧ c'.ptr = c'.data.length ∧ c'.error = true)) := by
  induction hk : c.data.length - c.ptr generalizing c st m with
  | zero =>
    have hge : c.data.length ≤ c.ptr := by omega
    rw [GetBits.refillLoop]
    rw [dif_pos hge]
    by_cases hz : st ≠ 0
    · have hm : 0 < m.length := by
        rcases m with _ | ⟨b, m⟩
        · exfalso; apply hz; apply BitVec.eq_of_toNat_eq; simpa using hst
        · simp
      obtain ⟨w, hw1, hw2⟩ := refillFinish_spec { c with error := true } st l m hb hm (by omega) hst hw
      refine ⟨{ c with error := true, state := w }, l ++ m, ?_, rfl, hp, ?_, hw2, by simp; omega, rfl, ?_⟩
      · simp only [if_pos hz, hw1]
      · simp [hb]
      · right; simp; omega
    · have hz : st = 0 := by simpa using hz
      have hm : bitsVal m = 0 := by rw [← hst, hz]; rfl
      refine ⟨{ c with error := true }, l ++ m, ?_, rfl, hp, ?_, ?_, by simp; omega, rfl, ?_⟩
      · simp [hz]
      · simp [hb]
      · rw [win_zero_append (by omega) hm]; exact hw
      · right; simp; omega
  | succ k ih =>
    have hlt2 : c.ptr < c.data.length := by omega
    rw [GetBits.refillLoop]
    rw [dif_neg (by omega), List.getElem?_eq_getElem hlt2]
    simp only
    generalize hbdef : c.data[c.ptr] = b
    have hst' : ((st <<< 8) ||| b.toBitVec.zeroExtend 32).toNat = bitsVal (m ++ natBits 8 b.toNat) := by
      rw [BitVec.toNat_or, BitVec.toNat_shiftLeft, hst, bitsVal_append, bitsVal_byte, natBits_length,
        Nat.shiftLeft_eq]
      have h1 := bitsVal_lt m
      have h2 : bitsVal m * 2 ^ 8 < 2 ^ 32 := by
        calc _ < 2 ^ m.length * 2 ^ 8 := Nat.mul_lt_mul_of_pos_right h1 (by norm_num)
          _ = 2 ^ (m.length + 8) := by rw [Nat.pow_add]
          _ ≤ _ := Nat.pow_le_pow_right (by omega) (by omega)
      rw [Nat.mod_eq_of_lt h2]
      have hb8 : b.toNat < 2 ^ 8 := b.toNat_lt
      have h3 : (b.toBitVec.zeroExtend 32).toNat = b.toNat := by
        rw [BitVec.toNat_setWidth]
        exact Nat.mod_eq_of_lt (by show b.toNat < _; omega)
      rw [h3, Nat.mul_comm, Nat.two_pow_add_eq_or_of_lt hb8]
    have hdrop : bytesBits (c.data.drop c.ptr) = natBits 8 b.toNat ++ bytesBits (c.data.drop (c.ptr + 1)) := by
      rw [List.drop_eq_getElem_cons hlt2, bytesBits_cons, hbdef]
    by_cases hgt : (n : Int) > c.bitsLeft + 8
    · rw [if_pos hgt]
      obtain ⟨c', l', h1, h2, h3, h4, h5, h6, h7, h8⟩ :=
        ih { c with ptr := c.ptr + 1, bitsLeft := c.bitsLeft + 8 } _ (m ++ natBits 8 b.toNat)
          (by simp [hb]; ring) (by simp; omega) (by simp; omega) hst' hw (Nat.succ_le_of_lt hlt2) (by simp; omega)
      refine ⟨c', l', h1, h2, h3, h4, h5, h6, ?_, h8⟩
      rw [h7, hdrop]; simp
    · rw [if_neg hgt]
      obtain ⟨w, hw1, hw2⟩ := refillFinish_spec { c with ptr := c.ptr + 1, bitsLeft := c.bitsLeft + 8 } _ l
        (m ++ natBits 8 b.toNat) (by simp [hb]; ring) (by simp) (by simp; omega) hst' hw
      refine ⟨_, l ++ (m ++ natBits 8 b.toNat), hw1, rfl, Nat.succ_le_of_lt hlt2, ?_, hw2, by simp; omega, ?_, ?_⟩
      · simp [hb]; ring
      · rw [hdrop]; simp
      · left
        simp only [List.length_append, natBits_length]
        refine ⟨by omega, by omega, trivial⟩

/-- Consuming `n` bits from a window holding the bits `l`. -/
theorem rel_consume {c : GetBits} {s : BitSt} {l : List Bool} {n : Nat} (_hn : 0 < n) (_hn32 : n ≤ 32)
    (htot : s.total = 8 * c.data.length) (hlen : s.rem.length ≤ s.total) (hp : c.ptr ≤ c.data.length) (herr : s.err = c.error)
    (hb : c.bitsLeft = l.length) (hw : c.state.toNat = win l) (h64 : l.length ≤ 64)
    (hrem : s.rem = l ++ bytesBits (c.data.drop c.ptr)) (hov : s.over = 0)
    (hcase : (n ≤ l.length ∧ l.length < n + 8) ∨ (l.length < n ∧ c.ptr = c.data.length ∧ c.error = true)) :
    (l ++ List.replicate n false).take n = s.peek n ∧
    Rel { c with bitsLeft := c.bitsLeft - n, state := c.state <<< n } (s.advance n) := by
  have hst : (c.state <<< n).toNat = win (l.drop n) := by
    rw [BitVec.toNat_shiftLeft, hw, win_shiftLeft h64]
  rcases hcase with ⟨h1, h2⟩ | ⟨h1, h2, h3⟩
  · constructor
    · unfold BitSt.peek
      rw [hrem, List.append_assoc, List.take_append_of_le_length h1, List.take_append_of_le_length h1]
    · refine ⟨htot, ?_, hp, by simp [BitSt.advance]; omega, Or.inl ⟨l.drop n, ?_, ?_, hst, ?_, ?_⟩⟩
      · simp only [BitSt.advance, hrem, List.length_append, herr]
        rw [decide_eq_false (by omega), Bool.or_false]
      · simp [hb]; omega
      · simp; omega
      · simp only [BitSt.advance, hrem]
        rw [List.drop_append_of_le_length h1]
      · simp only [BitSt.advance, hrem, List.length_append, hov]; omega
  · have hnil : bytesBits (c.data.drop c.ptr) = [] := by rw [h2]; simp
    rw [hnil, List.append_nil] at hrem
    constructor
    · unfold BitSt.peek; rw [hrem]
    · refine ⟨htot, ?_, hp, by simp [BitSt.advance]; omega, Or.inr ⟨?_, ?_, ?_, ?_, h2, h3⟩⟩
      · simp [BitSt.advance, herr, h3]
      · simp only [BitSt.advance, hov, hrem, hb]; omega
      · simp only [BitSt.advance, hov, hrem]; omega
      · apply BitVec.eq_of_toNat_eq
        rw [hst, List.drop_eq_nil_of_le (by omega), win_eq]; simp
      · simp only [BitSt.advance, hrem]; exact List.drop_eq_nil_of_le (by omega)

/-- Consuming bits past the end. -/
theorem rel_over {c : GetBits} {s : BitSt} {n : Nat}
    (h : Rel c s) (hb : c.bitsLeft = -(s.over : Int)) (hov : 0 < s.over) (hst : c.state = 0)
    (hrem : s.rem = []) (hp : c.ptr = c.data.length) (herr : c.error = true) :
    bitsVal (s.peek n) = 0 ∧ s.peek n = List.replicate n false ∧
    Rel { c with bitsLeft := c.bitsLeft - n, state := c.state <<< n } (s.advance n) := by
  have hpk : s.peek n = List.replicate n false := by simp [BitSt.peek, hrem]
  refine ⟨by rw [hpk]; simp, hpk, h.total, ?_, h.ptr, by simp [BitSt.advance, hrem], Or.inr ⟨?_, ?_, ?_, ?_, hp, herr⟩⟩
  · simp [BitSt.advance, h.err, herr]
  · simp [BitSt.advance, hrem, hb]; omega
  · simp [BitSt.advance, hrem]; omega
  · simp [hst]
  · simp [BitSt.advance, hrem]

theorem getBitsRaw_spec {c : GetBits} {s : BitSt} (h : Rel c s) {n : Nat} (h0 : 0 < n) (h32 : n ≤ 32) :
    ∃ w c' L, c.getBitsRaw n = some (w, c') ∧ w.toNat = win L ∧ L.length ≤ 64 ∧
      (L ++ List.replicate n false).take n = s.peek n ∧ Rel c' (s.advance n) := by
  unfold GetBits.getBitsRaw
  rw [if_pos ⟨h0, h32⟩]
  rcases h.win with ⟨l, hb, h7, hw, hrem, hov⟩ | ⟨hb, hov, hst, hrem, hp, herr⟩
  · by_cases hr : l.length < n
    · have hnr : c.needRefill n = true := by simp [GetBits.needRefill, hb]; omega
      obtain ⟨c', l', e1, e2, e3, e4, e5, e6, e7, e8⟩ := refillLoop_spec n h32 c 0 l [] (by simpa using hb)
        (by simpa using hr) rfl rfl hw h.ptr
      have hrf : c.refill n = some c' := by
        unfold GetBits.refill; rw [if_pos (by omega), e1]
      rw [if_pos hnr, hrf]
      simp only
      rw [List.append_nil] at e7
      have hc : (n ≤ l'.length ∧ l'.length < n + 8) ∨
          (l'.length < n ∧ c'.ptr = c'.data.length ∧ c'.error = true) := by
        rcases e8 with ⟨a, b, _⟩ | e8
        · exact Or.inl ⟨a, b⟩
        · exact Or.inr e8
      rcases e8 with ⟨a, b, e⟩ | ⟨a, b, e⟩
      · obtain ⟨r1, r2⟩ := rel_consume h0 h32 (by rw [h.total, e2]) h.len e3 (by rw [h.err, e]) e4 e5 e6
          (by rw [hrem, e7]) hov hc
        exact ⟨_, _, l', rfl, e5, e6, r1, r2⟩
      · obtain ⟨r1, r2⟩ := rel_consume (s := { s with err := true }) h0 h32 (by simp [h.total, e2]) h.len e3
          (by simp [e]) e4 e5 e6 (by simp [hrem, e7]) hov hc
        refine ⟨_, _, l', rfl, e5, e6, r1, ?_⟩
        have hlen : s.rem.length < n := by
          rw [hrem, ← e7, b]; simpa using a
        have : ({ s with err := true } : BitSt).advance n = s.advance n := by
          simp [BitSt.advance, hlen]
        rwa [this] at r2
    · have hnr : c.needRefill n = false := by simp [GetBits.needRefill, hb]; omega
      rw [if_neg (by simp [hnr])]
      obtain ⟨r1, r2⟩ := rel_consume h0 h32 h.total h.len h.ptr h.err hb hw (by omega) hrem hov
        (Or.inl ⟨by omega, by omega⟩)
      exact ⟨_, _, l, rfl, hw, by omega, r1, r2⟩
  · have hnr : c.needRefill n = false := by simp [GetBits.needRefill, hb]; omega
    rw [if_neg (by simp [hnr])]
    obtain ⟨_, r1, r2⟩ := rel_over (n := n) h hb hov hst hrem hp herr
    refine ⟨_, _, [], rfl, ?_, by simp, ?_, r2⟩
    · rw [hst, win_eq]; simp
    · rw [r1]; simp

@[simp] theorem peek_length (s : BitSt) (n : Nat) : (s.peek n).length = n := by
  simp [BitSt.peek]

theorem getBits_spec {c : GetBits} {s : BitSt} (h : Rel c s) {n : Nat} (h0 : 0 < n) (h32 : n ≤ 32) :
    ∃ c', c.getBits n = some (bitsVal (s.peek n), c') ∧ Rel c' (s.advance n) := by
  obtain ⟨w, c', L, e1, e2, e3, e4, e5⟩ := getBitsRaw_spec h h0 h32
  refine ⟨c', ?_, e5⟩
  unfold GetBits.getBits
  rw [e1]
  simp only [BitVec.toNat_ushiftRight, e2]
  rw [win_shiftRight e3 (by omega), e4]

theorem bitsVal_head (l : List Bool) : l.head? = some true ↔ 2 ^ (l.length - 1) ≤ bitsVal l := by
  rcases l with _ | ⟨b, l⟩
  · simp
  · have := bitsVal_lt l
    rw [bitsVal_cons]
    cases b <;> simp; omega

theorem getSBits_spec {c : GetBits} {s : BitSt} (h : Rel c s) {n : Nat} (h0 : 0 < n) (h32 : n ≤ 32) :
    ∃ c', c.getSBits n = some (bitsSVal (s.peek n), c') ∧ Rel c' (s.advance n) := by
  obtain ⟨w, c', L, e1, e2, e3, e4, e5⟩ := getBitsRaw_spec h h0 h32
  refine ⟨c', ?_, e5⟩
  unfold GetBits.getSBits
  rw [e1]
  simp only
  congr 2
  have h1 : w.toNat >>> (64 - n) = bitsVal (s.peek n) := by
    rw [e2, win_shiftRight e3 (by omega), e4]
  rw [Nat.shiftRight_eq_div_pow] at h1
  rw [BitVec.toInt_sshiftRight, Int.shiftRight_eq_div_pow, BitVec.toInt_eq_toNat_cond]
  unfold bitsSVal
  simp only [bitsVal_head, peek_length]
  have e : (2:Nat) ^ 64 = 2 ^ n * 2 ^ (64 - n) := by rw [← Nat.pow_add]; congr 1; omega
  have en : (2:Nat) ^ n = 2 * 2 ^ (n - 1) := by
    conv_lhs => rw [show n = (n - 1) + 1 by omega, Nat.pow_succ]
    ring
  have hpos : 0 < 2 ^ (64 - n) := Nat.two_pow_pos _
  simp only [← h1]
  have key : (2 * w.toNat < 2 ^ 64) ↔ ¬ (2 ^ (n - 1) ≤ w.toNat / 2 ^ (64 - n)) := by
    rw [Nat.le_div_iff_mul_le hpos, e, en]
    constructor <;> intro hh <;> nlinarith
  by_cases hc : 2 * w.toNat < 2 ^ 64
  · rw [if_pos hc, if_neg (key.1 hc)]
    norm_cast
  · rw [if_neg hc, if_pos (by by_contra h; exact hc (key.2 h))]
    have : ((w.toNat : Int) - ((2 ^ 64 : Nat) : Int)) = (w.toNat : Int) + (-(2 ^ n : Int)) * (2 ^ (64 - n) : Int) := by
      rw [e]; push_cast; ring
    rw [this]
    push_cast
    rw [Int.add_mul_ediv_right _ _ (by positivity)]
    ring

theorem getBit_spec {c : GetBits} {s : BitSt} (h : Rel c s) :
    ∃ c', c.getBit = some (bitsVal (s.peek 1), c') ∧ Rel c' (s.advance 1) := by
  unfold GetBits.getBit
  rcases h.win with ⟨l, hb, h7, hw, hrem, hov⟩ | ⟨hb, hov, hst, hrem, hp, herr⟩
  · rcases l with _ | ⟨a, l⟩
    · have hb0 : c.bitsLeft = 0 := by simpa using hb
      by_cases hlt : c.ptr < c.data.length
      · rw [if_pos ⟨hb0, by omega⟩, List.getElem?_eq_getElem hlt]
        simp only
        generalize hbd : c.data[c.ptr] = b
        have hdrop : s.rem = natBits 8 b.toNat ++ bytesBits (c.data.drop (c.ptr + 1)) := by
          rw [hrem, List.drop_eq_getElem_cons hlt, bytesBits_cons, hbd, List.nil_append]
        have h8 : (natBits 8 b.toNat).length = 8 := natBits_length _ _
        have hb8 : b.toNat < 2 ^ 8 := b.toNat_lt
        have hpk : s.peek 1 = (natBits 8 b.toNat).take 1 := by
          unfold BitSt.peek
          rw [hdrop, List.append_assoc, List.take_append_of_le_length (by omega)]
        have hval := bitsVal_append ((natBits 8 b.toNat).take 1) ((natBits 8 b.toNat).drop 1)
        rw [List.take_append_drop, bitsVal_byte] at hval
        have hd7 : ((natBits 8 b.toNat).drop 1).length = 7 := by simp
        have hlt7 := bitsVal_lt ((natBits 8 b.toNat).drop 1)
        rw [hd7] at hval hlt7
        refine ⟨{ c with ptr := c.ptr + 1, bitsLeft := 7, state := (b.toBitVec.zeroExtend 64) <<< 57 }, ?_,
          ⟨h.total, ?_, Nat.succ_le_of_lt hlt, by have := h.len; simp [BitSt.advance]; omega, Or.inl ⟨(natBits 8 b.toNat).drop 1, ?_, ?_, ?_, ?_, ?_⟩⟩⟩
        · rw [hpk, Nat.shiftRight_eq_div_pow]
          congr 2
          omega
        · simp only [BitSt.advance, h.err, hdrop, List.length_append, h8]
          rw [decide_eq_false (by omega), Bool.or_false]
        · simp
        · simp
        · simp only [BitVec.toNat_shiftLeft, BitVec.toNat_setWidth]
          rw [win_eq, hd7]
          show (b.toNat % 2 ^ 64) <<< 57 % 2 ^ 64 = _
          rw [Nat.shiftLeft_eq]; omega
        · simp only [BitSt.advance, hdrop]
          rw [List.drop_append_of_le_length (by omega)]
        · simp only [BitSt.advance, hov, hdrop, List.length_append, h8]; omega
      · rw [if_neg (by omega), if_pos hb0]
        have hpe : c.ptr = c.data.length := by have := h.ptr; omega
        obtain ⟨r1, r2⟩ := rel_consume (c := { c with error := true }) (s := { s with err := true }) (l := []) (n := 1)
          (by omega) (by omega) h.total h.len h.ptr rfl hb hw (by simp) hrem hov
          (Or.inr ⟨by simp, hpe, rfl⟩)
        have hlen : s.rem.length < 1 := by rw [hrem, hpe]; simp
        have e : ({ s with err := true } : BitSt).advance 1 = s.advance 1 := by
          simp [BitSt.advance, hlen]
        rw [e] at r2
        refine ⟨_, ?_, r2⟩
        simp only [BitVec.toNat_ushiftRight]
        rw [hw, show (63 : Nat) = 64 - 1 from rfl, win_shiftRight (by simp) (by omega), r1]
        rfl
    · have hne : c.bitsLeft ≠ 0 := by rw [hb]; simp; omega
      rw [if_neg (by tauto), if_neg hne]
      obtain ⟨r1, r2⟩ := rel_consume (l := a :: l) (n := 1) (by omega) (by omega) h.total h.len h.ptr h.err hb hw
        (by omega) hrem hov (Or.inl ⟨by simp, by omega⟩)
      refine ⟨_, ?_, r2⟩
      simp only [BitVec.toNat_ushiftRight]
      rw [hw, show (63 : Nat) = 64 - 1 from rfl, win_shiftRight (by omega) (by omega), r1]
      rfl
  · have hne : c.bitsLeft ≠ 0 := by omega
    rw [if_neg (by tauto), if_neg hne]
    obtain ⟨r0, r1, r2⟩ := rel_over (n := 1) h hb hov hst hrem hp herr
    refine ⟨_, ?_, r2⟩
    simp [r0, hst]

theorem align_spec {c : GetBits} {s : BitSt} (h : Rel c s) :
    ∃ c', c.byteAlign = some c' ∧ Rel c' s.align := by
  unfold GetBits.byteAlign
  rcases h.win with ⟨l, hb, h7, hw, hrem, hov⟩ | ⟨hb, hov, hst, hrem, hp, herr⟩
  · rw [if_pos (by omega)]
    refine ⟨_, rfl, h.total, h.err, h.ptr, by have := h.len; simp [BitSt.align]; omega, Or.inl ⟨[], rfl, by simp, by simp [win_eq], ?_, rfl⟩⟩
    simp only [BitSt.align, hrem, List.nil_append, List.length_append, bytesBits_length]
    rw [show (l.length + 8 * (c.data.drop c.ptr).length) % 8 = l.length by omega]
    simp
  · rw [if_pos (by omega)]
    refine ⟨_, rfl, h.total, h.err, h.ptr, by have := h.len; simp [BitSt.align]; omega, Or.inl ⟨[], rfl, by simp, by simp [win_eq], ?_, rfl⟩⟩
    simp [BitSt.align, hrem, hp]

theorem pos_spec {c : GetBits} {s : BitSt} (h : Rel c s) : c.pos = s.pos := by
  unfold GetBits.pos BitSt.pos
  have := h.ptr
  rcases h.win with ⟨l, hb, h7, hw, hrem, hov⟩ | ⟨hb, hov, hst, hrem, hp, herr⟩
  · have hlen := h.len
    rw [hrem, h.total] at hlen
    rw [hb, hov, h.total, hrem]
    simp only [List.length_append, bytesBits_length, List.length_drop] at hlen ⊢
    omega
  · rw [hb, h.total, hrem, hp]; simp; omega

theorem win_eq_zero {l : List Bool} (h : l.length ≤ 64) : win l = 0 ↔ l.all (fun b => !b) = true := by
  rw [win_eq]
  have hp := Nat.two_pow_pos (64 - l.length)
  rw [Nat.mul_eq_zero]
  have : bitsVal l = 0 ↔ l.all (fun b => !b) = true := by
    clear h hp
    induction l with
    | nil => simp
    | cons b l ih =>
      rw [bitsVal_cons]
      have h2 := Nat.two_pow_pos l.length
      cases b <;> simp [ih]
  rw [← this]
  constructor
  · rintro (h | h)
    · exact h
    · omega
  · exact Or.inl

theorem byte_all_zero (b : UInt8) : (natBits 8 b.toNat).all (fun b => !b) = decide (b = 0) := by
  have : ∀ n : Fin 256, (natBits 8 n.val).all (fun b => !b) = decide (n.val = 0) := by decide +kernel
  rw [this ⟨b.toNat, b.toNat_lt⟩, decide_eq_decide]
  constructor
  · intro h; exact UInt8.toNat_inj.1 (by simpa using h)
  · rintro rfl; rfl

theorem bytesBits_all_zero (d : List UInt8) :
    (bytesBits d).all (fun b => !b) = d.all (fun b => decide (b = 0)) := by
  induction d with
  | nil => rfl
  | cons b d ih => rw [bytesBits_cons, List.all_append, ih, byte_all_zero, List.all_cons]

theorem trimZeros_spec (data : List UInt8) (ptr : Nat) : ∀ n, ptr + n ≤ data.length →
    ∃ m, GetBits.trimZeros data ptr n = some m ∧
      (m = 0 ↔ ((data.drop ptr).take n).all (fun b => decide (b = 0)) = true) := by
  intro n
  induction n with
  | zero => intro _; exact ⟨0, rfl, by simp⟩
  | succ n ih =>
    intro h
    have hlt : ptr + n < data.length := by omega
    obtain ⟨m, h1, h2⟩ := ih (by omega)
    rw [GetBits.trimZeros, List.getElem?_eq_getElem hlt]
    simp only
    rw [List.take_add_one, List.all_append, List.getElem?_drop, List.getElem?_eq_getElem hlt]
    by_cases hb : data[ptr + n] = 0
    · rw [if_pos hb]
      exact ⟨m, h1, by rw [h2]; simp [hb]⟩
    · rw [if_neg hb]
      exact ⟨n + 1, rfl, by simp [hb]⟩

theorem restZero_spec {c : GetBits} {s : BitSt} (h : Rel c s) :
    c.restZero = some (s.rem.all (fun b => !b)) := by
  unfold GetBits.restZero
  have hp := h.ptr
  rcases h.win with ⟨l, hb, h7, hw, hrem, hov⟩ | ⟨hb, hov, hst, hrem, hp', herr⟩
  · rw [hrem, List.all_append, bytesBits_all_zero]
    by_cases h0 : c.state = 0
    · rw [if_neg (by simpa using h0)]
      obtain ⟨m, h1, h2⟩ := trimZeros_spec c.data c.ptr (c.data.length - c.ptr) (by omega)
      rw [h1]
      have : l.all (fun b => !b) = true := (win_eq_zero (by omega)).1 (by rw [← hw, h0]; rfl)
      rw [this, Bool.true_and]
      rw [List.take_of_length_le (by simp)] at h2
      simp only [Option.some.injEq]
      rw [Bool.eq_iff_iff]
      simpa using h2
    · rw [if_pos h0]
      have : l.all (fun b => !b) = false := by
        rw [← Bool.not_eq_true]
        intro h'
        have := (win_eq_zero (by omega)).2 h'
        exact h0 (BitVec.eq_of_toNat_eq (by rw [hw, this]; rfl))
      rw [this]; rfl
  · rw [if_neg (by simpa using hst), hp', hrem]
    simp [GetBits.trimZeros]

@[simp] theorem packBytes_bytesBits (d : List UInt8) : BitSt.packBytes (bytesBits d) = d := by
  induction d with
  | nil => rfl
  | cons b d ih =>
    have : ∀ l, BitSt.packBytes (natBits 8 b.toNat ++ l) =
        UInt8.ofNat (bitsVal (natBits 8 b.toNat)) :: BitSt.packBytes l := fun l => rfl
    rw [bytesBits_cons, this, bitsVal_byte, ih]; simp

theorem rest_spec {c : GetBits} {s : BitSt} (h : Rel c s) : c.data.drop c.ptr = s.restBytes := by
  unfold BitSt.restBytes
  rcases h.win with ⟨l, hb, h7, hw, hrem, hov⟩ | ⟨hb, hov, hst, hrem, hp', herr⟩
  · rw [hrem, List.length_append, bytesBits_length]
    rw [show (l.length + 8 * (c.data.drop c.ptr).length) % 8 = l.length by omega]
    simp
  · rw [hrem, hp']; simp [BitSt.packBytes]

namespace Prog

variable {α β : Type}

theorem runC_spec (p : Prog α) : ∀ {c : GetBits} {s : BitSt}, p.WF → Rel c s →
    ∃ c', p.runC c = some ((p.run s).1, c') ∧ Rel c' (p.run s).2 := by
  induction p with
  | ret a => intro c s _ h; exact ⟨c, rfl, h⟩
  | bit k ih =>
    intro c s wf h
    obtain ⟨c', e1, e2⟩ := getBit_spec h
    simp only [runC, e1, run]
    exact ih _ (wf _ (by simpa using bitsVal_lt (s.peek 1))) e2
  | bits n k ih =>
    intro c s wf h
    obtain ⟨h0, h32, wf⟩ := wf
    obtain ⟨c', e1, e2⟩ := getBits_spec h h0 h32
    simp only [runC, e1, run]
    exact ih _ (wf _ (by simpa using bitsVal_lt (s.peek n))) e2
  | sbits n k ih =>
    intro c s wf h
    obtain ⟨h0, h32, wf⟩ := wf
    obtain ⟨c', e1, e2⟩ := getSBits_spec h h0 h32
    simp only [runC, e1, run]
    have hlt := bitsVal_lt (s.peek n)
    have hh := bitsVal_head (s.peek n)
    rw [peek_length] at hlt hh
    have en : (2:Nat) ^ n = 2 * 2 ^ (n - 1) := by
      conv_lhs => rw [show n = (n - 1) + 1 by omega, Nat.pow_succ]
      ring
    have en' : (2:Int) ^ n = 2 * 2 ^ (n - 1) := by exact_mod_cast en
    have ec : ((2:Nat) ^ (n - 1) : Int) = (2:Int) ^ (n - 1) := by norm_cast
    refine ih _ (wf _ ?_ ?_) e2
    · unfold bitsSVal
      rw [peek_length]
      split
      · rename_i h; have := hh.1 h; rw [en']; omega
      · have := Nat.two_pow_pos (n - 1); omega
    · unfold bitsSVal
      rw [peek_length]
      split
      · rw [en']; omega
      · rename_i h
        have : ¬ 2 ^ (n - 1) ≤ bitsVal (s.peek n) := fun h' => h (hh.2 h')
        omega
  | align k ih =>
    intro c s wf h
    obtain ⟨c', e1, e2⟩ := align_spec h
    simp only [runC, e1, run]
    exact ih wf e2
  | err k ih =>
    intro c s wf h
    simp only [runC, run, h.err]
    exact ih _ (wf _) h
  | setErr k ih =>
    intro c s wf h
    simp only [runC, run]
    refine ih wf ⟨h.total, rfl, h.ptr, h.len, ?_⟩
    rcases h.win with h1 | ⟨hb, hov, hst, hrem, hp, herr⟩
    · exact Or.inl h1
    · exact Or.inr ⟨hb, hov, hst, hrem, hp, rfl⟩
  | restZero k ih =>
    intro c s wf h
    simp only [runC, run, restZero_spec h]
    exact ih _ (wf _) h
  | rest k ih =>
    intro c s wf h
    simp only [runC, run, rest_spec h]
    exact ih _ (wf _) h

@[simp] theorem run_bind (p : Prog α) (f : α → Prog β) (s : BitSt) :
    (p >>= f).run s = (f (p.run s).1).run (p.run s).2 := by
  show (Prog.bind p f).run s = _
  induction p generalizing s with
  | ret a => rfl
  | bit k ih => exact ih _ _
  | bits n k ih => exact ih _ _
  | sbits n k ih => exact ih _ _
  | align k ih => exact ih _
  | err k ih => exact ih _ _
  | setErr k ih => exact ih _
  | restZero k ih => exact ih _ _
  | rest k ih => exact ih _ _

@[simp] theorem run_ret (a : α) (s : BitSt) : (ret a).run s = (a, s) := rfl
@[simp] theorem run_pure (a : α) (s : BitSt) : (pure a : Prog α).run s = (a, s) := rfl

theorem wf_bind {p : Prog α} {f : α → Prog β} (hp : p.WF) (hf : ∀ a, (f a).WF) : (p >>= f).WF := by
  show (Prog.bind p f).WF
  induction p with
  | ret a => exact hf a
  | bit k ih => exact fun v hv => ih v (hp v hv)
  | bits n k ih => exact ⟨hp.1, hp.2.1, fun v hv => ih v (hp.2.2 v hv)⟩
  | sbits n k ih => exact ⟨hp.1, hp.2.1, fun v h1 h2 => ih v (hp.2.2 v h1 h2)⟩
  | align k ih => exact ih hp
  | err k ih => exact fun v => ih v (hp v)
  | setErr k ih => exact ih hp
  | restZero k ih => exact fun v => ih v (hp v)
  | rest k ih => exact fun v => ih v (hp v)

/-- `Reads p a w`: run at a point where the remaining bits start with `w`, the program returns `a` and
consumes exactly `w`, without touching the error flag. -/
def Reads (p : Prog α) (a : α) (w : List Bool) : Prop :=
  ∀ s rest, s.rem = w ++ rest → p.run s = (a, { s with rem := rest })

theorem Reads.ret (a : α) : Reads (Prog.ret a) a [] := by
  intro s rest h
  have : s.rem = rest := by simpa using h
  simp [← this]

theorem Reads.pure (a : α) : Reads (Pure.pure a : Prog α) a [] := Reads.ret a

theorem Reads.bind {p : Prog α} {f : α → Prog β} {a b w w'} (h1 : Reads p a w) (h2 : Reads (f a) b w') :
    Reads (p >>= f) b (w ++ w') := by
  intro s rest h
  rw [run_bind, h1 s (w' ++ rest) (by simpa using h)]
  simp only
  rw [h2 _ rest rfl]

theorem advance_of {s : BitSt} {w rest : List Bool} (h : s.rem = w ++ rest) {n : Nat} (hn : w.length = n) :
    s.peek n = w ∧ s.advance n = { s with rem := rest } := by
  subst hn
  constructor
  · simp [BitSt.peek, h]
  · simp [BitSt.advance, h]

theorem reads_getBits_list (w : List Bool) : Reads (getBits w.length) (bitsVal w) w := by
  intro s rest h
  obtain ⟨h1, h2⟩ := advance_of h rfl
  simp [getBits, run, h1, h2]

theorem reads_getBits {n v : Nat} (h : v < 2 ^ n) : Reads (getBits n) v (natBits n v) := by
  have := reads_getBits_list (natBits n v)
  rwa [natBits_length, bitsVal_natBits_of_lt h] at this

theorem reads_getBit (b : Bool) : Reads getBit b.toNat [b] := by
  intro s rest h
  obtain ⟨h1, h2⟩ := advance_of h (n := 1) rfl
  simp [getBit, run, h1, h2, bitsVal]

theorem reads_getFlag (b : Bool) : Reads getFlag b [b] := by
  intro s rest h
  obtain ⟨h1, h2⟩ := advance_of h (n := 1) rfl
  cases b <;> simp [getFlag, run, h1, h2, bitsVal]

end Prog
end Dav1d
