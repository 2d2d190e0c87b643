import Verif.Msac.EncProg
import Verif.GetBits.CodesSpec
import Verif.GetBits.Model
import Verif.GetBits.CodesLemmas
/-!
# Values coded with several symbols, and the trailing bits check

Models of the helpers built from the symbol decoder: src/msac.h:94-109, src/msac.c:60-74 and 187-202,
src/recon_tmpl.c:49-57, and of `check_trailing_bits_after_symbol_coder`, src/decode.c:2577-2594.
-/
namespace Dav1d
namespace SProg

/-- `dav1d_msac_decode_bools`, src/msac.h:94-99, with the accumulated value as argument. -/
def boolsAcc : Nat → Nat → SProg Nat
  | 0, v => ret v
  | n + 1, v => equi fun b => boolsAcc n (2 * v + b)

/-- `dav1d_msac_decode_bools`, src/msac.h:94-99 (no overflow for `n ≤ 32`, the code uses at most 15). -/
def bools (n : Nat) : SProg Nat := boolsAcc n 0

/-- `dav1d_msac_decode_uniform`, src/msac.h:101-109. -/
def uniform (n : Nat) : SProg Nat :=
  let l := Nat.log2 n + 1
  let m := 2 ^ l - n
  (bools (l - 1)).bind fun v => if v < m then ret v else equi fun b => ret (v * 2 - m + b)

/-- `dav1d_msac_decode_subexp`, src/msac.c:60-74. -/
def subexp (ref n k : Nat) : SProg Nat :=
  let fin (a k : Nat) : SProg Nat := (bools k).bind fun u =>
    let v := u + a
    ret (if ref * 2 ≤ n then Prog.invRecenter ref v else n - 1 - Prog.invRecenter (n - 1 - ref) v)
  equi fun b0 => if b0 = 0 then fin 0 k else
  equi fun b1 => if b1 = 0 then fin (2 ^ k) k else
  equi fun b2 => fin (2 ^ (k + (b2 + 1))) (k + (b2 + 1))

/-- `dav1d_msac_decode_hi_tok_c`, src/msac.c:187-202. -/
def hiTok (id : Nat) : SProg Nat :=
  sym id fun t => if t ≠ 3 then ret (3 + t) else
  sym id fun t => if t ≠ 3 then ret (6 + t) else
  sym id fun t => if t ≠ 3 then ret (9 + t) else
  sym id fun t => ret (12 + t)

/-- First loop of `read_golomb`, src/recon_tmpl.c:53: `fuel = 32 - len`. -/
def golombLen : (fuel len : Nat) → (Nat → SProg Nat) → SProg Nat
  | 0, len, k => equi fun _ => k len
  | fuel + 1, len, k => equi fun b => if b = 0 then golombLen fuel (len + 1) k else k len

/-- `read_golomb`, src/recon_tmpl.c:49-57 (`val` is a 32-bit unsigned). -/
def golomb : SProg Nat :=
  golombLen 32 0 fun len => (boolsAcc len 1).bind fun v => ret (((v % 2 ^ 32) + 2 ^ 32 - 1) % 2 ^ 32)

end SProg

/-- `check_trailing_bits_after_symbol_coder`, src/decode.c:2577-2594. `some false` is return value 0 (the
padding is as required), `some true` is 1, `none` is a failed assertion or a read outside the tile. -/
def Msac.checkTrailing (s : Msac) : Option Bool :=
  let nBits : Int := -(s.cnt + 14)
  if nBits > 0 then none else
  let nBytes : Int := (nBits + 7) / 8
  let p : Int := s.pos + nBytes
  let pattern := 128 >>> ((nBits - 1) % 8).toNat
  if p - 1 < 0 then none else
  match s.buf[(p - 1).toNat]? with
  | none => none
  | some b =>
    if b.toNat &&& (2 * pattern - 1) ≠ pattern then some true
    else some ((s.buf.drop p.toNat).any (fun b => b ≠ 0))

/-- The padding of a tile as required by the specification (AV1 spec 8.2.4): with `position` the number of
bits read, the bit at `trailingPosition = position - Min(15, SymbolMaxBits + 15)` is one and all the
following bits of the tile are zero. -/
def TrailingOK (data : List UInt8) (t : SymDec) : Prop :=
  ∃ n, (bytesBits data).drop (((8 * data.length - t.rem.length : Nat) : Int) - min 15 (t.maxBits + 15)).toNat =
    true :: List.replicate n false

/-- Feed a list of symbols to a program: its result and the unused symbols. -/
def SProg.replay {α : Type} : SProg α → List Nat → Option (α × List Nat)
  | .ret a, xs => some (a, xs)
  | .sym _ k, x :: xs => (k x).replay xs
  | .boolAdapt _ k, x :: xs => (k x).replay xs
  | .bool _ k, x :: xs => (k x).replay xs
  | .equi k, x :: xs => (k x).replay xs
  | .sym _ _, [] => none
  | .boolAdapt _ _, [] => none
  | .bool _ _, [] => none
  | .equi _, [] => none

/-- Bits as symbols. -/
def bitSyms (l : List Bool) : List Nat := l.map Bool.toNat

/-- Writer for decode_subexp_bool, AV1 spec 5.11.58, with parameter `k` (the analogue of `subexpBits`). -/
def subexpBoolBits (numSyms k v : Nat) : (fuel mk i : Nat) → List Bool
  | 0, _, _ => []
  | fuel + 1, mk, i =>
    let b2 := if i = 0 then k else k + i - 1
    let a := 2 ^ b2
    if numSyms ≤ mk + 3 * a then nsBits (numSyms - mk) (v - mk)
    else if v < mk + a then false :: natBits b2 (v - mk)
    else true :: subexpBoolBits numSyms k v fuel (mk + a) (i + 1)

/-- Writer for decode_unsigned_subexp_with_ref_bool, AV1 spec 5.11.58. -/
def subexpBoolRefBits (mx k r x : Nat) : List Bool :=
  let v := if 2 * r ≤ mx then recenter r x else recenter (mx - 1 - r) (mx - 1 - x)
  subexpBoolBits mx k v (mx + 1) 0 0

theorem replay_bind {α β : Type} (p : SProg α) (f : α → SProg β) : ∀ xs,
    (p.bind f).replay xs = match p.replay xs with | none => none | some (a, r) => (f a).replay r := by
  induction p with
  | ret a => intro xs; rfl
  | sym id k ih => intro xs; cases xs <;> simp [SProg.bind, SProg.replay, ih]
  | boolAdapt id k ih => intro xs; cases xs <;> simp [SProg.bind, SProg.replay, ih]
  | bool f k ih => intro xs; cases xs <;> simp [SProg.bind, SProg.replay, ih]
  | equi k ih => intro xs; cases xs <;> simp [SProg.bind, SProg.replay, ih]

theorem encode_replay {α : Type} {adapt : Bool} (p : SProg α) : ∀ xs st e a st' e',
    p.encode adapt xs st e = some (a, st', e') → p.replay xs = some (a, []) := by
  induction p with
  | ret a =>
    intro xs st e a' st' e' h
    cases xs with
    | nil =>
      simp only [SProg.encode, Option.some.injEq, Prod.mk.injEq] at h
      simp [SProg.replay, h.1]
    | cons => simp [SProg.encode] at h
  | sym id k ih =>
    intro xs st e a' st' e' h
    cases xs with
    | nil => simp [SProg.encode] at h
    | cons x xs =>
      simp only [SProg.encode] at h
      split at h
      · exact ih _ _ _ _ _ _ _ h
      · simp at h
  | boolAdapt id k ih =>
    intro xs st e a' st' e' h
    cases xs with
    | nil => simp [SProg.encode] at h
    | cons x xs =>
      simp only [SProg.encode] at h
      split at h
      · exact ih _ _ _ _ _ _ _ h
      · simp at h
  | bool f k ih =>
    intro xs st e a' st' e' h
    cases xs with
    | nil => simp [SProg.encode] at h
    | cons x xs =>
      simp only [SProg.encode] at h
      split at h
      · exact ih _ _ _ _ _ _ _ h
      · simp at h
  | equi k ih =>
    intro xs st e a' st' e' h
    cases xs with
    | nil => simp [SProg.encode] at h
    | cons x xs =>
      simp only [SProg.encode] at h
      split at h
      · exact ih _ _ _ _ _ _ _ h
      · simp at h

theorem replay_boolsAcc (l : List Bool) (v : Nat) (rest : List Nat) :
    (SProg.boolsAcc l.length v).replay (bitSyms l ++ rest) = some (v * 2 ^ l.length + bitsVal l, rest) := by
  induction l generalizing v with
  | nil => simp [SProg.boolsAcc, SProg.replay, bitSyms, bitsVal]
  | cons b l ih =>
    simp only [List.length_cons, SProg.boolsAcc, bitSyms, List.map_cons, List.cons_append, SProg.replay]
    have := ih (2 * v + b.toNat)
    unfold bitSyms at this
    rw [this]
    have h1 : bitsVal (b :: l) = b.toNat * 2 ^ l.length + bitsVal l := by
      have := bitsVal_append [b] l
      simpa [bitsVal] using this
    rw [h1, Nat.pow_succ]
    congr 2
    ring

theorem natBits_length' (k n : Nat) : (natBits k n).length = k := by
  induction k generalizing n with
  | zero => rfl
  | succ k ih => simp [natBits, ih]

theorem replay_boolsAcc' (k n v : Nat) (h : n < 2 ^ k) (rest : List Nat) :
    (SProg.boolsAcc k v).replay (bitSyms (natBits k n) ++ rest) = some (v * 2 ^ k + n, rest) := by
  have := replay_boolsAcc (natBits k n) v rest
  rw [natBits_length', bitsVal_natBits_of_lt h] at this
  exact this

theorem replay_bools (k n : Nat) (h : n < 2 ^ k) (rest : List Nat) :
    (SProg.bools k).replay (bitSyms (natBits k n) ++ rest) = some (n, rest) := by
  have := replay_boolsAcc' k n 0 h rest
  simpa [SProg.bools] using this

theorem replay_uniform (n v : Nat) (hn : 0 < n) (hv : v < n) (rest : List Nat) :
    (SProg.uniform n).replay (bitSyms (nsBits n v) ++ rest) = some (v, rest) := by
  have h1 : 2 ^ Nat.log2 n ≤ n := Nat.log2_self_le (by omega)
  have h2 : n < 2 ^ (Nat.log2 n + 1) := Nat.lt_log2_self
  unfold SProg.uniform nsBits
  simp only [Nat.add_sub_cancel]
  rw [replay_bind]
  have hp : 2 ^ (Nat.log2 n + 1) = 2 * 2 ^ Nat.log2 n := by rw [Nat.pow_succ]; ring
  set m := 2 ^ (Nat.log2 n + 1) - n with hm
  by_cases hlt : v < m
  · rw [if_pos hlt, replay_bools _ _ (by omega)]
    simp only [hlt, if_true, SProg.replay]
  · rw [if_neg hlt]
    unfold bitSyms
    rw [List.map_append, List.append_assoc]
    have := replay_bools (Nat.log2 n) ((v + m) / 2) (by omega) ([(v + m) % 2 == 1].map Bool.toNat ++ rest)
    unfold bitSyms at this
    rw [this]
    simp only
    rw [if_neg (by omega)]
    simp only [List.map_cons, List.map_nil, List.cons_append, List.nil_append, SProg.replay]
    congr 2
    have : ((v + m) % 2 == 1).toNat = (v + m) % 2 := by
      rcases Nat.mod_two_eq_zero_or_one (v + m) with h | h <;> rw [h] <;> rfl
    rw [this]; omega

theorem replay_golomb (v : Nat) (hv : v + 1 < 2 ^ 32) (rest : List Nat) :
    SProg.golomb.replay (bitSyms (uvlcBits v) ++ rest) = some (v, rest) := by
  have h1 : 2 ^ Nat.log2 (v + 1) ≤ v + 1 := Nat.log2_self_le (by omega)
  have h2 : v + 1 < 2 ^ (Nat.log2 (v + 1) + 1) := Nat.lt_log2_self
  have h3 : Nat.log2 (v + 1) < 32 := (Nat.log2_lt (by omega)).2 hv
  have key : ∀ lz fuel len (k : Nat → SProg Nat) xs, lz ≤ fuel →
      0 < fuel - lz → (SProg.golombLen fuel len k).replay (List.replicate lz 0 ++ 1 :: xs) = (k (len + lz)).replay xs := by
    intro lz
    induction lz with
    | zero =>
      intro fuel len k xs _ hf
      obtain ⟨f, rfl⟩ : ∃ f, fuel = f + 1 := ⟨fuel - 1, by omega⟩
      simp [SProg.golombLen, SProg.replay]
    | succ lz ih =>
      intro fuel len k xs hle hf
      obtain ⟨f, rfl⟩ : ∃ f, fuel = f + 1 := ⟨fuel - 1, by omega⟩
      simp only [List.replicate_succ, List.cons_append, SProg.golombLen, SProg.replay, if_true]
      rw [ih f (len + 1) k xs (by omega) (by omega)]
      congr 2; omega
  unfold SProg.golomb uvlcBits bitSyms
  simp only [List.map_append, List.map_replicate, List.map_cons, List.append_assoc, List.cons_append,
    List.nil_append, Bool.toNat_false, Bool.toNat_true]
  rw [key _ _ _ _ _ (by omega) (by omega), replay_bind, Nat.zero_add]
  have := replay_boolsAcc' (Nat.log2 (v + 1)) (v + 1 - 2 ^ Nat.log2 (v + 1)) 1 (by rw [Nat.pow_succ] at h2; omega) rest
  unfold bitSyms at this
  rw [this]
  simp only [SProg.replay]
  have e : (((1 * 2 ^ Nat.log2 (v + 1) + (v + 1 - 2 ^ Nat.log2 (v + 1))) % 2 ^ 32) + 2 ^ 32 - 1) % 2 ^ 32 = v := by
    rw [show 1 * 2 ^ Nat.log2 (v + 1) + (v + 1 - 2 ^ Nat.log2 (v + 1)) = v + 1 by omega, Nat.mod_eq_of_lt hv]
    omega
  rw [e]

theorem invRecenter_recenter (r x : Nat) : Prog.invRecenter r (recenter r x) = x := by
  unfold Prog.invRecenter recenter
  split
  · rw [if_pos (by omega)]
  · split
    · rw [if_neg (by omega), if_pos (by omega)]; omega
    · rw [if_neg (by omega), if_neg (by omega)]; omega

theorem recenter_lt {r x n : Nat} (hx : x < n) (hr : 2 * r ≤ n) : recenter r x < n := by
  unfold recenter; split
  · omega
  · split <;> omega

theorem subexpBool_bits (a k v : Nat) (ha : a = 2 ^ k) :
    subexpBoolBits (8 * a) k v (8 * a + 1) 0 0 =
      if v < a then false :: natBits k v
      else if v < 2 * a then true :: false :: natBits k (v - a)
      else true :: true :: nsBits (6 * a) (v - 2 * a) := by
  have hpos : 0 < a := by rw [ha]; exact Nat.two_pow_pos k
  obtain ⟨f, hf⟩ : ∃ f, 8 * a + 1 = f + 3 := ⟨8 * a - 2, by omega⟩
  rw [hf]
  unfold subexpBoolBits
  simp only [if_true, ← ha, Nat.zero_add, Nat.sub_zero]
  rw [if_neg (by omega)]
  by_cases h1 : v < a
  · rw [if_pos h1, if_pos h1]
  · rw [if_neg h1, if_neg h1]
    unfold subexpBoolBits
    simp only [Nat.add_sub_cancel]
    rw [if_neg (show ¬ (0 + 1 = 0) by omega), if_neg (by rw [← ha]; omega)]
    by_cases h2 : v < 2 * a
    · rw [if_pos (by rw [← ha]; omega), if_pos h2]
    · rw [if_neg (by rw [← ha]; omega), if_neg h2]
      unfold subexpBoolBits
      rw [if_neg (show ¬ (0 + 1 + 1 = 0) by omega), show k + (0 + 1 + 1) - 1 = k + 1 by omega]
      have : 2 ^ (k + 1) = 2 * a := by rw [Nat.pow_succ, ha]; ring
      simp only [this, ← ha]
      rw [if_pos (by omega)]
      congr 3 <;> omega

theorem natBits_top0 (k : Nat) : ∀ n, n < 2 ^ k → natBits (k + 1) n = false :: natBits k n := by
  induction k with
  | zero =>
    intro n hn
    have : n = 0 := by simpa using hn
    subst this; rfl
  | succ k ih =>
    intro n hn
    have h1 : natBits (k + 1 + 1) n = natBits (k + 1) (n / 2) ++ [n % 2 == 1] := rfl
    have h2 : natBits (k + 1) n = natBits k (n / 2) ++ [n % 2 == 1] := rfl
    rw [h1, ih _ (by rw [Nat.pow_succ] at hn; omega), h2]; rfl

theorem natBits_top1 (k : Nat) : ∀ n, n < 2 ^ k → natBits (k + 1) (2 ^ k + n) = true :: natBits k n := by
  induction k with
  | zero =>
    intro n hn
    have : n = 0 := by simpa using hn
    subst this; rfl
  | succ k ih =>
    intro n hn
    have h1 : natBits (k + 1 + 1) (2 ^ (k + 1) + n) = natBits (k + 1) ((2 ^ (k + 1) + n) / 2) ++ [(2 ^ (k + 1) + n) % 2 == 1] := rfl
    have h2 : natBits (k + 1) n = natBits k (n / 2) ++ [n % 2 == 1] := rfl
    have h3 : 2 ^ (k + 1) = 2 * 2 ^ k := by rw [Nat.pow_succ]; ring
    rw [h1, h2, show (2 ^ (k + 1) + n) / 2 = 2 ^ k + n / 2 by omega, ih _ (by omega),
      show (2 ^ (k + 1) + n) % 2 = n % 2 by omega]; rfl

theorem ns_6a (a k w : Nat) (ha : a = 2 ^ k) (hw : w < 6 * a) :
    nsBits (6 * a) w = if w < 2 * a then false :: natBits (k + 1) w else true :: natBits (k + 2) (w - 2 * a) := by
  have hpos : 0 < a := by rw [ha]; exact Nat.two_pow_pos k
  have e1 : 2 ^ (k + 1) = 2 * a := by rw [Nat.pow_succ, ha]; ring
  have e2 : 2 ^ (k + 2) = 4 * a := by rw [Nat.pow_succ, e1]; ring
  have e3 : 2 ^ (k + 3) = 8 * a := by rw [Nat.pow_succ, e2]; ring
  have hl : Nat.log2 (6 * a) = k + 2 := by
    rw [Nat.log2_eq_iff (by omega)]
    constructor
    · omega
    · rw [show k + 2 + 1 = k + 3 by omega]; omega
  unfold nsBits
  simp only [hl, show k + 2 + 1 = k + 3 by omega, show k + 3 - 1 = k + 2 by omega, e3]
  rw [show 8 * a - 6 * a = 2 * a by omega]
  split
  · exact natBits_top0 (k + 1) w (by omega)
  · have : natBits (k + 2) ((w + 2 * a) / 2) ++ [(w + 2 * a) % 2 == 1] = natBits (k + 2 + 1) (w + 2 * a) := rfl
    rw [this]
    have := natBits_top1 (k + 2) (w - 2 * a) (by omega)
    rw [← this]
    congr 1
    omega

theorem replay_subexp (k r x : Nat) (hr : r < 8 * 2 ^ k) (hx : x < 8 * 2 ^ k) (rest : List Nat) :
    (SProg.subexp r (8 * 2 ^ k) k).replay (bitSyms (subexpBoolRefBits (8 * 2 ^ k) k r x) ++ rest) = some (x, rest) := by
  obtain ⟨a, ha⟩ : ∃ a, a = 2 ^ k := ⟨_, rfl⟩
  rw [← ha] at hr hx ⊢
  have hpos : 0 < a := by rw [ha]; exact Nat.two_pow_pos k
  have e1 : 2 ^ (k + 1) = 2 * a := by rw [Nat.pow_succ, ha]; ring
  have e2 : 2 ^ (k + 2) = 4 * a := by rw [Nat.pow_succ, e1]; ring
  unfold subexpBoolRefBits
  simp only
  set v := if 2 * r ≤ 8 * a then recenter r x else recenter (8 * a - 1 - r) (8 * a - 1 - x) with hv
  have hvl : v < 8 * a := by
    rw [hv]; split
    · exact recenter_lt hx (by omega)
    · exact recenter_lt (by omega) (by omega)
  have hres : (if r * 2 ≤ 8 * a then Prog.invRecenter r v else 8 * a - 1 - Prog.invRecenter (8 * a - 1 - r) v) = x := by
    by_cases h : 2 * r ≤ 8 * a
    · rw [if_pos (by omega), hv, if_pos h, invRecenter_recenter]
    · rw [if_neg (by omega), hv, if_neg h, invRecenter_recenter]; omega
  rw [subexpBool_bits a k v ha]
  unfold SProg.subexp
  simp only [← ha]
  by_cases h1 : v < a
  · rw [if_pos h1]
    simp only [bitSyms, List.map_cons, List.cons_append, SProg.replay, Bool.toNat_false, if_true]
    have := replay_bools k v (by omega) rest
    unfold bitSyms at this
    rw [replay_bind, this]
    simp only [SProg.replay, Nat.add_zero, hres]
  · rw [if_neg h1]
    by_cases h2 : v < 2 * a
    · rw [if_pos h2]
      simp only [bitSyms, List.map_cons, List.cons_append, SProg.replay, Bool.toNat_false, Bool.toNat_true, if_true,
        Nat.one_ne_zero, if_false]
      have := replay_bools k (v - a) (by omega) rest
      unfold bitSyms at this
      rw [replay_bind, this]
      simp only [SProg.replay, Nat.sub_add_cancel (show a ≤ v by omega), hres]
    · rw [if_neg h2, ns_6a a k _ ha (by omega)]
      by_cases h3 : v - 2 * a < 2 * a
      · rw [if_pos h3]
        simp only [bitSyms, List.map_cons, List.cons_append, SProg.replay, Bool.toNat_false, Bool.toNat_true,
          Nat.one_ne_zero, if_false, Nat.zero_add]
        have := replay_bools (k + 1) (v - 2 * a) (by omega) rest
        unfold bitSyms at this
        rw [replay_bind, this]
        simp only [SProg.replay, e1, Nat.sub_add_cancel (show 2 * a ≤ v by omega), hres]
      · rw [if_neg h3]
        simp only [bitSyms, List.map_cons, List.cons_append, SProg.replay, Bool.toNat_true,
          Nat.one_ne_zero, if_false, Nat.reduceAdd]
        have := replay_bools (k + 2) (v - 2 * a - 2 * a) (by omega) rest
        unfold bitSyms at this
        rw [replay_bind, this]
        simp only [SProg.replay, e2]
        rw [show v - 2 * a - 2 * a + 4 * a = v by omega, hres]

/-! ### Trailing bits -/

theorem trailing_byte : ∀ b : Fin 256, ∀ j : Fin 8,
    (b.val &&& (2 * (128 >>> j.val) - 1) = 128 >>> j.val) ↔
      (natBits 8 b.val).drop j.val = true :: List.replicate (7 - j.val) false := by
  decide +kernel

theorem byte_zero : ∀ b : Fin 256, natBits 8 b.val = List.replicate 8 false → b.val = 0 := by
  decide +kernel

theorem bytes_zero (l : List UInt8) : (∃ n, bytesBits l = List.replicate n false) ↔ l.any (fun b => b ≠ 0) = false := by
  induction l with
  | nil => exact ⟨fun _ => rfl, fun _ => ⟨0, rfl⟩⟩
  | cons b l ih =>
    have hb : (natBits 8 b.toNat).length = 8 := natBits_length' _ _
    constructor
    · rintro ⟨n, h⟩
      have hc : bytesBits (b :: l) = natBits 8 b.toNat ++ bytesBits l := rfl
      rw [hc] at h
      have hn : n = 8 + (bytesBits l).length := by
        have := congrArg List.length h
        simp only [List.length_append, hb, List.length_replicate] at this
        omega
      rw [hn, ← List.replicate_append_replicate] at h
      obtain ⟨h1, h2⟩ := List.append_inj h (by simp [hb])
      have hz : b.toNat = 0 := byte_zero ⟨b.toNat, UInt8.toNat_lt b⟩ h1
      have hz' : b = 0 := by
        apply UInt8.toNat_inj.1; simpa using hz
      have := ih.1 ⟨_, h2⟩
      simp only [List.any_cons, hz', this]
      decide
    · intro h
      simp only [List.any_cons, Bool.or_eq_false_iff, decide_eq_false_iff_not, not_not] at h
      obtain ⟨n, hn⟩ := ih.2 h.2
      refine ⟨8 + n, ?_⟩
      have hc : bytesBits (b :: l) = natBits 8 b.toNat ++ bytesBits l := rfl
      rw [hc, hn, h.1, ← List.replicate_append_replicate]; rfl

theorem checkTrailing_spec {W : Nat} {s : Msac} {t : SymDec} {p : Nat} (h : MInv W s t p) :
    ∃ r, s.checkTrailing = some r ∧ (r = false ↔ TrailingOK s.buf t) := by
  obtain ⟨L, low, _, _, _, hcase⟩ := h.win
  have hpos := h.hpos
  have hp := h.h15
  have hcnt : (p : Int) + s.cnt = 8 * s.pos ∧ -15 < s.cnt := by
    rcases hcase with hc | hc <;> omega
  have hmax := h.maxBits
  -- the padding starts at bit p - 15
  have hstart : (((8 * s.buf.length - t.rem.length : Nat) : Int) - min 15 (t.maxBits + 15)).toNat = p - 15 := by
    rw [h.rem, List.length_drop, bytesBits_length, hmax]
    omega
  obtain ⟨i, j, hj, hij⟩ : ∃ i j, j < 8 ∧ p - 15 = 8 * i + j := ⟨(p - 15) / 8, (p - 15) % 8, by omega, by omega⟩
  have hk : ((p - 15 : Nat) : Int) = 8 * s.pos + (-(s.cnt + 14)) - 1 := by omega
  have hi : i < s.buf.length := by omega
  have e1 : ((-(s.cnt + 14) - 1) % 8 : Int).toNat = j := by omega
  have e2 : (s.pos : Int) + (-(s.cnt + 14) + 7) / 8 = i + 1 := by omega
  unfold Msac.checkTrailing
  simp only [e1, e2]
  rw [if_neg (by omega), if_neg (by omega), show ((i : Int) + 1 - 1).toNat = i by omega, List.getElem?_eq_getElem hi,
    show ((i : Int) + 1).toNat = i + 1 by omega]
  have hb := trailing_byte ⟨s.buf[i].toNat, UInt8.toNat_lt _⟩ ⟨j, hj⟩
  simp only at hb
  have hdrop : (bytesBits s.buf).drop (8 * i + j) = (natBits 8 s.buf[i].toNat).drop j ++ bytesBits (s.buf.drop (i + 1)) := by
    rw [← List.drop_drop, bytesBits_drop, List.drop_eq_getElem_cons hi]
    have hc : bytesBits (s.buf[i] :: s.buf.drop (i + 1)) = natBits 8 s.buf[i].toNat ++ bytesBits (s.buf.drop (i + 1)) := rfl
    rw [hc, List.drop_append_of_le_length (by rw [natBits_length']; omega)]
  have hlen : ((natBits 8 s.buf[i].toNat).drop j).length = (true :: List.replicate (7 - j) false).length := by
    rw [List.length_drop, natBits_length', List.length_cons, List.length_replicate]; omega
  have hspec : TrailingOK s.buf t ↔
      (natBits 8 s.buf[i].toNat).drop j = true :: List.replicate (7 - j) false ∧ (s.buf.drop (i + 1)).any (fun b => b ≠ 0) = false := by
    unfold TrailingOK
    rw [hstart, hij, hdrop, ← bytes_zero]
    constructor
    · rintro ⟨n, hn⟩
      have hnl : n = (7 - j) + (bytesBits (s.buf.drop (i + 1))).length := by
        have := congrArg List.length hn
        rw [List.length_append, hlen] at this
        simp only [List.length_cons, List.length_replicate] at this
        omega
      rw [hnl, ← List.replicate_append_replicate, ← List.cons_append] at hn
      obtain ⟨a1, a2⟩ := List.append_inj hn hlen
      exact ⟨a1, _, a2⟩
    · rintro ⟨a1, n, a2⟩
      refine ⟨(7 - j) + n, ?_⟩
      rw [a1, a2, ← List.replicate_append_replicate, List.cons_append]
  by_cases hm : s.buf[i].toNat &&& (2 * (128 >>> j) - 1) = 128 >>> j
  · refine ⟨(s.buf.drop (i + 1)).any (fun b => b ≠ 0), by simp only [hm, ne_eq, not_true_eq_false, if_false], ?_⟩
    rw [hspec]
    exact ⟨fun hr => ⟨hb.1 hm, hr⟩, fun hr => hr.2⟩
  · refine ⟨true, by simp only [ne_eq, hm, not_false_eq_true, if_true], ?_⟩
    rw [hspec]
    constructor
    · intro hr; cases hr
    · intro hr; exact absurd (hb.2 hr.1) hm

end Dav1d
