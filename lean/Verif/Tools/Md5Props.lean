import Verif.Tools.Md5Lemmas

/-
C51: the digest of the md5 muxer is that of RFC 1321 of the visible samples.
-/

namespace Dav1d.Md5

open Dav1d.Input (le)

/-! ### The rows of a picture -/

theorem rows_fed (mem : Int → UInt8) (stride : Int) (n : Nat) : ∀ (h : Nat) (ptr : Int) (m : Ctx)
    (msg : List UInt8), Fed m msg → Fed (rows mem stride n h ptr m)
      (msg ++ (List.range h).flatMap fun (y : Nat) => load mem (ptr + y * stride) n) := by
  intro h
  induction h with
  | zero =>
    intro ptr m msg hm
    rw [List.range_zero, List.flatMap_nil, List.append_nil]
    exact hm
  | succ h ih =>
    intro ptr m msg hm
    rw [rows, List.range_succ_eq_map]
    have := ih (ptr + stride) _ _ (update_fed m msg (load mem ptr n) hm)
    rw [List.append_assoc] at this
    simp only [List.flatMap_cons, List.flatMap_map, Nat.cast_zero, Int.zero_mul, Int.add_zero]
    have e (y : Nat) : ptr + ((y + 1 : Nat) : Int) * stride = ptr + stride + y * stride := by
      push_cast
      ring
    simp only [Nat.succ_eq_add_one, e]
    exact this

theorem load8 (mem : Int → UInt8) (ptr : Int) (w : Nat) : load mem ptr w =
    (List.range w).flatMap fun (x : Nat) => Spec.lowFirst 1 (mem (ptr + x)).toNat := by
  unfold load
  rw [List.map_eq_flatMap]
  simp [Spec.lowFirst]

theorem load16 (mem : Int → UInt8) (ptr : Int) (w : Nat) : load mem ptr (w * 2) =
    (List.range w).flatMap fun (x : Nat) => Spec.lowFirst 2
      ((mem (ptr + 2 * x)).toNat + 256 * (mem (ptr + 2 * x + 1)).toNat) := by
  unfold load
  induction w with
  | zero => rfl
  | succ w ih =>
    rw [show (w + 1) * 2 = w * 2 + 1 + 1 by ring, List.range_succ, List.range_succ, List.range_succ,
      List.map_append, List.map_append, ih, List.flatMap_append, List.append_assoc]
    congr 1
    simp only [List.map_cons, List.map_nil, List.flatMap_cons, List.flatMap_nil, List.append_nil,
      Spec.lowFirst, List.cons_append, List.nil_append]
    have h1 := (mem (ptr + 2 * w)).toNat_lt
    have h2 := (mem (ptr + 2 * w + 1)).toNat_lt
    congr 1
    · rw [show ((w * 2 : Nat) : Int) = 2 * w by push_cast; ring]
      apply UInt8.toNat_inj.1
      rw [UInt8.toNat_ofNat']
      omega
    · congr 1
      rw [show ptr + ((w * 2 + 1 : Nat) : Int) = ptr + 2 * w + 1 by push_cast; ring]
      apply UInt8.toNat_inj.1
      rw [UInt8.toNat_ofNat']
      omega

/-- The rows of a plane. -/
theorem plane_fed (p : Pic) (pl : Nat) (w h : Nat) (m : Ctx) (msg : List UInt8) (hm : Fed m msg)
    (hb : p.bpc = 8 ∨ p.bpc = 10 ∨ p.bpc = 12) (stride : Int)
    (hs : stride = if pl = 0 then p.stride0 else p.stride1) :
    Fed (rows (p.mem pl) stride (w <<< (if p.bpc > 8 then 1 else 0)) h 0 m)
      (msg ++ ((List.range h).flatMap fun y => (List.range w).map fun x =>
        Spec.sample p pl x y).flatMap (Spec.lowFirst (if p.bpc = 8 then 1 else 2))) := by
  have := rows_fed (p.mem pl) stride (w <<< (if p.bpc > 8 then 1 else 0)) h 0 m msg hm
  convert this using 2
  rw [List.flatMap_assoc]
  congr 1
  funext y
  rw [List.flatMap_map]
  unfold Spec.sample
  rw [← hs]
  rcases hb with hb | hb | hb
  · rw [if_neg (show ¬ p.bpc > 8 by omega), Nat.shiftLeft_zero, load8, if_pos hb]
    simp only [if_pos hb, Int.zero_add]
  all_goals
    rw [if_pos (show p.bpc > 8 by omega), Nat.shiftLeft_eq, Nat.pow_one, load16,
      if_neg (show ¬ p.bpc = 8 by omega)]
    simp only [if_neg (show ¬ p.bpc = 8 by omega), Int.zero_add]

theorem sub0 (n : Nat) : Spec.sub n 0 = n := rfl

theorem sub1 (n : Nat) : Spec.sub n 1 = (n + 1) >>> 1 := by
  rw [Nat.shiftRight_eq_div_pow]
  show n / 2 + n % 2 = _
  omega

theorem write_fed (m : Ctx) (msg : List UInt8) (p : Pic) (hm : Fed m msg)
    (hb : p.bpc = 8 ∨ p.bpc = 10 ∨ p.bpc = 12) : Fed (write m p) (msg ++ Spec.message p) := by
  unfold write
  dsimp only
  have h0 := plane_fed p 0 p.w p.h m msg hm hb p.stride0 rfl
  by_cases hl : p.layout = .i400
  · rw [if_neg (by simp [hl])]
    unfold Spec.message Spec.samples
    rw [hl]
    simpa [Spec.planes, sub0] using h0
  rw [if_pos hl]
  generalize hcw : (p.w + if p.layout ≠ .i444 then 1 else 0) >>> (if p.layout ≠ .i444 then 1 else 0) = cw
  generalize hch : (p.h + if p.layout = .i420 then 1 else 0) >>> (if p.layout = .i420 then 1 else 0) = ch
  have h1 := plane_fed p 1 cw ch _ _ h0 hb p.stride1 rfl
  have h2 := plane_fed p 2 cw ch _ _ h1 hb p.stride1 rfl
  rw [List.append_assoc, List.append_assoc, ← List.flatMap_append, ← List.flatMap_append] at h2
  convert h2 using 2
  unfold Spec.message Spec.samples
  subst hcw hch
  rcases hlay : p.layout <;> simp_all [Spec.planes, sub0, sub1]

/-! ### Digits -/

theorem dig_eq : ∀ n ∈ List.range 16,
    "0123456789abcdef".toList.getD n '?' = Nat.digitChar n := by decide

theorem hexByte_eq (b : UInt32) (n : Nat) (hb : b.toNat = n % 256) :
    hexByte b = Spec.hex (UInt8.ofNat n) := by
  unfold hexByte Spec.hex
  dsimp only
  rw [hb, UInt8.toNat_ofNat', dig_eq _ (List.mem_range.2 (by omega)),
    dig_eq _ (List.mem_range.2 (by omega))]
  rw [show n % 256 / 16 % 16 = n % 2 ^ 8 / 16 by omega]

theorem hexWord_eq (w : UInt32) : hexWord w = (Spec.lowFirst 4 w.toNat).flatMap Spec.hex := by
  have hw := w.toNat_lt
  unfold hexWord
  rw [hexByte_eq _ w.toNat, hexByte_eq _ (w.toNat / 256), hexByte_eq _ (w.toNat / 256 / 256),
    hexByte_eq _ (w.toNat / 256 / 256 / 256)]
  · simp [Spec.lowFirst]
  all_goals
    simp only [UInt32.toNat_and, UInt32.toNat_shiftRight]
    try rw [show UInt32.toNat 255 = 2 ^ 8 - 1 from rfl, Nat.and_two_pow_sub_one_eq_mod]
    try rw [Nat.shiftRight_eq_div_pow]
    try rw [show UInt32.toNat 8 % 32 = 8 from rfl]
    try rw [show UInt32.toNat 16 % 32 = 16 from rfl]
    try rw [show UInt32.toNat 24 % 32 = 24 from rfl]
    try omega

theorem close_fed (m : Ctx) (msg : List UInt8) (h : Fed m msg) :
    close m = (Spec.md5 msg).flatMap Spec.hex ++ ['\n'] := by
  unfold close Spec.md5
  dsimp only
  rw [finish_abcd m msg h]
  simp only [hexWord_eq, List.flatMap_append]

/-! ### Verification -/

/-- A hexadecimal digit of either case. -/
def Spec.IsHex (c : Char) : Prop := c ∈ "0123456789abcdefABCDEF".toList

theorem digit_hex : ∀ c ∈ "0123456789abcdefABCDEF".toList,
    (digit c).isSome = true ∧ (digit c).getD 0 < 16 ∧
      Nat.digitChar ((digit c).getD 0) = c.toLower := by decide

theorem digit_some {c : Char} (h : Spec.IsHex c) :
    ∃ v, digit c = some v ∧ v < 16 ∧ Nat.digitChar v = c.toLower := by
  obtain ⟨h1, h2, h3⟩ := digit_hex c h
  obtain ⟨v, hv⟩ := Option.isSome_iff_exists.1 h1
  rw [hv] at h2 h3
  exact ⟨v, hv, h2, h3⟩

theorem digitChar_inj : ∀ a ∈ List.range 16, ∀ b ∈ List.range 16,
    Nat.digitChar a = Nat.digitChar b → a = b := by decide

theorem or_shift (x y : UInt32) (k : Nat) (hk : k < 32) (hx : x.toNat < 2 ^ k)
    (hy : y.toNat * 2 ^ k < 2 ^ 32) :
    (x ||| (y <<< UInt32.ofNat k)).toNat = x.toNat + y.toNat * 2 ^ k := by
  rw [UInt32.toNat_or, UInt32.toNat_shiftLeft, UInt32.toNat_ofNat', Nat.mod_eq_of_lt (by omega : k < 2 ^ 32),
    Nat.mod_eq_of_lt hk, Nat.shiftLeft_eq, Nat.mod_eq_of_lt hy, Nat.or_comm, ← Nat.shiftLeft_eq,
    ← Nat.shiftLeft_add_eq_or_of_lt hx, Nat.add_comm]

/-- The word read from eight digits. -/
theorem parse_toNat (l : List Char) (v : Nat → Nat) (hv : ∀ i < 8, v i < 16)
    (hd : ∀ i < 8, digit (l.getD i '\x00') = some (v i)) :
    (parseWord l).toNat = 16 * v 0 + v 1 + 256 * (16 * v 2 + v 3) + 65536 * (16 * v 4 + v 5) +
      16777216 * (16 * v 6 + v 7) := by
  have hst (j : Nat) (hj : j < 4) :
      (strtoul (l.getD (2 * j) '\x00') (l.getD (2 * j + 1) '\x00')).toNat =
        16 * v (2 * j) + v (2 * j + 1) := by
    have h1 := hv (2 * j) (by omega)
    have h2 := hv (2 * j + 1) (by omega)
    unfold strtoul
    rw [hd _ (by omega), hd _ (by omega)]
    show (UInt32.ofNat _).toNat = _
    rw [UInt32.toNat_ofNat']
    exact Nat.mod_eq_of_lt (by omega)
  have e0 := hst 0 (by decide)
  have e1 := hst 1 (by decide)
  have e2 := hst 2 (by decide)
  have e3 := hst 3 (by decide)
  have b0 := hv 0 (by decide)
  have b1 := hv 1 (by decide)
  have b2 := hv 2 (by decide)
  have b3 := hv 3 (by decide)
  have b4 := hv 4 (by decide)
  have b5 := hv 5 (by decide)
  have b6 := hv 6 (by decide)
  have b7 := hv 7 (by decide)
  simp only [Nat.reduceMul, Nat.reduceAdd] at e0 e1 e2 e3
  unfold parseWord
  simp only [Nat.reduceMul, Nat.reduceAdd]
  generalize strtoul (l.getD 0 '\x00') (l.getD 1 '\x00') = w0 at *
  generalize strtoul (l.getD 2 '\x00') (l.getD 3 '\x00') = w1 at *
  generalize strtoul (l.getD 4 '\x00') (l.getD 5 '\x00') = w2 at *
  generalize strtoul (l.getD 6 '\x00') (l.getD 7 '\x00') = w3 at *
  have f1 := or_shift w0 w1 8 (by decide) (by omega) (by omega)
  have f2 := or_shift _ w2 16 (by decide) (by rw [f1]; omega) (by omega)
  have f3 := or_shift _ w3 24 (by decide) (by rw [f2, f1]; omega) (by omega)
  refine (Eq.trans ?_ f3).trans (by rw [f2, f1]; omega)
  rfl

/-- A word is printed as the digits it was read from. -/
theorem parse_iff (l : List Char) (w : UInt32) (hl : l.length = 8)
    (hx : ∀ c ∈ l, Spec.IsHex c) : parseWord l = w ↔ l.map Char.toLower = hexWord w := by
  have hlen : ∃ c0 c1 c2 c3 c4 c5 c6 c7, l = [c0, c1, c2, c3, c4, c5, c6, c7] := by
    rcases l with _ | ⟨c0, _ | ⟨c1, _ | ⟨c2, _ | ⟨c3, _ | ⟨c4, _ | ⟨c5, _ | ⟨c6, _ | ⟨c7, _ | ⟨c8, l⟩⟩⟩⟩⟩⟩⟩⟩⟩ <;>
      simp at hl
    exact ⟨c0, c1, c2, c3, c4, c5, c6, c7, rfl⟩
  obtain ⟨c0, c1, c2, c3, c4, c5, c6, c7, rfl⟩ := hlen
  obtain ⟨v0, d0, b0, t0⟩ := digit_some (hx c0 (by simp))
  obtain ⟨v1, d1, b1, t1⟩ := digit_some (hx c1 (by simp))
  obtain ⟨v2, d2, b2, t2⟩ := digit_some (hx c2 (by simp))
  obtain ⟨v3, d3, b3, t3⟩ := digit_some (hx c3 (by simp))
  obtain ⟨v4, d4, b4, t4⟩ := digit_some (hx c4 (by simp))
  obtain ⟨v5, d5, b5, t5⟩ := digit_some (hx c5 (by simp))
  obtain ⟨v6, d6, b6, t6⟩ := digit_some (hx c6 (by simp))
  obtain ⟨v7, d7, b7, t7⟩ := digit_some (hx c7 (by simp))
  have hp := parse_toNat [c0, c1, c2, c3, c4, c5, c6, c7]
    (fun i => [v0, v1, v2, v3, v4, v5, v6, v7].getD i 0)
    (by
      intro i hi
      have : i = 0 ∨ i = 1 ∨ i = 2 ∨ i = 3 ∨ i = 4 ∨ i = 5 ∨ i = 6 ∨ i = 7 := by omega
      rcases this with rfl | rfl | rfl | rfl | rfl | rfl | rfl | rfl <;> assumption)
    (by
      intro i hi
      have : i = 0 ∨ i = 1 ∨ i = 2 ∨ i = 3 ∨ i = 4 ∨ i = 5 ∨ i = 6 ∨ i = 7 := by omega
      rcases this with rfl | rfl | rfl | rfl | rfl | rfl | rfl | rfl <;> assumption)
  simp only [List.getD_cons_zero, List.getD_cons_succ] at hp
  have hw := w.toNat_lt
  rw [hexWord_eq]
  simp only [List.map_cons, List.map_nil, ← t0, ← t1, ← t2, ← t3, ← t4, ← t5, ← t6, ← t7,
    Spec.lowFirst, List.flatMap_cons, List.flatMap_nil, Spec.hex, UInt8.toNat_ofNat',
    List.cons_append, List.nil_append]
  rw [← UInt32.toNat_inj, hp]
  generalize w.toNat = n at *
  constructor
  · intro e
    rw [show n % 2 ^ 8 / 16 = v0 by omega, show n % 2 ^ 8 % 16 = v1 by omega,
      show n / 256 % 2 ^ 8 / 16 = v2 by omega, show n / 256 % 2 ^ 8 % 16 = v3 by omega,
      show n / 256 / 256 % 2 ^ 8 / 16 = v4 by omega, show n / 256 / 256 % 2 ^ 8 % 16 = v5 by omega,
      show n / 256 / 256 / 256 % 2 ^ 8 / 16 = v6 by omega,
      show n / 256 / 256 / 256 % 2 ^ 8 % 16 = v7 by omega]
  · intro e
    simp only [List.cons.injEq, and_true] at e
    obtain ⟨e0, e1, e2, e3, e4, e5, e6, e7⟩ := e
    have inj {a b : Nat} (ha : a < 16) (hb : b < 16) (h : Nat.digitChar a = Nat.digitChar b) :
        a = b := digitChar_inj a (List.mem_range.2 ha) b (List.mem_range.2 hb) h
    have g0 := inj b0 (by omega) e0
    have g1 := inj b1 (by omega) e1
    have g2 := inj b2 (by omega) e2
    have g3 := inj b3 (by omega) e3
    have g4 := inj b4 (by omega) e4
    have g5 := inj b5 (by omega) e5
    have g6 := inj b6 (by omega) e6
    have g7 := inj b7 (by omega) e7
    omega

/-- `parseWord` reads eight characters. -/
theorem parse_take (l : List Char) : parseWord l = parseWord (l.take 8) := by
  unfold parseWord
  simp only [List.getD_eq_getElem?_getD, List.getElem?_take]
  rfl

theorem verify_fed (m : Ctx) (msg : List UInt8) (s : List Char) (h : Fed m msg)
    (hs : 32 ≤ s.length) (hx : ∀ c ∈ s.take 32, Spec.IsHex c) :
    verify m s = true ↔ (s.take 32).map Char.toLower = (Spec.md5 msg).flatMap Spec.hex := by
  unfold verify
  dsimp only
  rw [if_neg (by omega), decide_eq_true_eq, parse_take s, parse_take (s.drop 8),
    parse_take (s.drop 16), parse_take (s.drop 24), finish_abcd m msg h]
  have hsub (i : Nat) (hi : i ≤ 24) : ((s.drop i).take 8).length = 8 ∧
      ∀ c ∈ (s.drop i).take 8, Spec.IsHex c := by
    refine ⟨by rw [List.length_take, List.length_drop]; omega, fun c hc => hx c ?_⟩
    rw [List.mem_take_iff_getElem] at hc ⊢
    obtain ⟨j, hj, rfl⟩ := hc
    rw [List.length_drop] at hj
    exact ⟨i + j, by omega, by rw [List.getElem_drop]⟩
  have e : s.take 32 = s.take 8 ++ ((s.drop 8).take 8 ++ ((s.drop 16).take 8 ++ (s.drop 24).take 8)) := by
    rw [show s.drop 24 = (s.drop 16).drop 8 by rw [List.drop_drop], ← List.take_add,
      show s.drop 16 = (s.drop 8).drop 8 by rw [List.drop_drop], ← List.take_add, ← List.take_add]
  rw [e]
  unfold Spec.md5
  dsimp only
  generalize Spec.process Spec.start (Spec.pad msg) = st
  simp only [List.map_append, List.flatMap_append, ← hexWord_eq]
  have p0 := parse_iff (s.take 8) st.a (hsub 0 (by omega)).1 (hsub 0 (by omega)).2
  have p1 := parse_iff ((s.drop 8).take 8) st.b (hsub 8 (by omega)).1 (hsub 8 (by omega)).2
  have p2 := parse_iff ((s.drop 16).take 8) st.c (hsub 16 (by omega)).1 (hsub 16 (by omega)).2
  have p3 := parse_iff ((s.drop 24).take 8) st.d (hsub 24 (by omega)).1 (hsub 24 (by omega)).2
  have hl (w : UInt32) : (hexWord w).length = 8 := by rfl
  have hm (i : Nat) (hi : i ≤ 24) : (((s.drop i).take 8).map Char.toLower).length = 8 := by
    rw [List.length_map]; exact (hsub i hi).1
  constructor
  · intro e
    have ea := congrArg Abcd.a e
    have eb := congrArg Abcd.b e
    have ec := congrArg Abcd.c e
    have ed := congrArg Abcd.d e
    rw [p0.1 ea, p1.1 eb, p2.1 ec, p3.1 ed]
    simp only [List.append_assoc]
  · intro e
    simp only [List.append_assoc] at e
    obtain ⟨q0, e⟩ := List.append_inj e ((hm 0 (by omega)).trans (hl _).symm)
    obtain ⟨q1, e⟩ := List.append_inj e ((hm 8 (by omega)).trans (hl _).symm)
    obtain ⟨q2, q3⟩ := List.append_inj e ((hm 16 (by omega)).trans (hl _).symm)
    rw [p0.2 q0, p1.2 q1, p2.2 q2, p3.2 q3]

/-! ### C51 -/

/-- The state after writing pictures. -/
theorem pics_fed (ps : List Pic) : ∀ (m : Ctx) (msg : List UInt8), Fed m msg →
    (∀ p ∈ ps, p.bpc = 8 ∨ p.bpc = 10 ∨ p.bpc = 12) →
    Fed (ps.foldl write m) (msg ++ ps.flatMap Spec.message) := by
  induction ps with
  | nil => intro m msg h _; simpa using h
  | cons p ps ih =>
    intro m msg h hb
    rw [List.foldl_cons, List.flatMap_cons, ← List.append_assoc]
    exact ih _ _ (write_fed m msg p h (hb p (by simp))) (fun q hq => hb q (by simp [hq]))

/-- C51. What is printed after any sequence of pictures is the MD5 digest of RFC 1321, in
hexadecimal, of the visible samples of all planes of all pictures in order. -/
theorem C51_digest (ps : List Pic) (hb : ∀ p ∈ ps, p.bpc = 8 ∨ p.bpc = 10 ∨ p.bpc = 12) :
    close (ps.foldl write init) =
      (Spec.md5 (ps.flatMap Spec.message)).flatMap Spec.hex ++ ['\n'] :=
  close_fed _ _ (by simpa using pics_fed ps init [] init_fed hb)

/-- C51. Any way to cut a message into calls of `md5_update` results in its digest. -/
theorem C51_chunks (chunks : List (List UInt8)) :
    close (chunks.foldl update init) = (Spec.md5 chunks.flatten).flatMap Spec.hex ++ ['\n'] := by
  refine close_fed _ _ ?_
  suffices ∀ (m : Ctx) (msg : List UInt8), Fed m msg →
      Fed (chunks.foldl update m) (msg ++ chunks.flatten) by simpa using this init [] init_fed
  induction chunks with
  | nil => intro m msg h; simpa using h
  | cons c cs ih =>
    intro m msg h
    rw [List.foldl_cons, List.flatten_cons, ← List.append_assoc]
    exact ih _ _ (update_fed m msg c h)

/-- C51. The digest depends on the visible samples only: not on strides, padding or where the
planes are. -/
theorem C51_samples_only (ps qs : List Pic)
    (hp : ∀ p ∈ ps, p.bpc = 8 ∨ p.bpc = 10 ∨ p.bpc = 12)
    (hq : ∀ p ∈ qs, p.bpc = 8 ∨ p.bpc = 10 ∨ p.bpc = 12)
    (h : ps.map (fun p => (p.bpc, Spec.samples p)) = qs.map (fun p => (p.bpc, Spec.samples p))) :
    close (ps.foldl write init) = close (qs.foldl write init) := by
  rw [C51_digest ps hp, C51_digest qs hq]
  have e (l : List Pic) : l.flatMap Spec.message =
      (l.map (fun p => (p.bpc, Spec.samples p))).flatMap
        (fun x => x.2.flatMap (Spec.lowFirst (if x.1 = 8 then 1 else 2))) := by
    rw [List.flatMap_map]; rfl
  rw [e, e, h]

/-- C51. `--verify` with a string that begins with 32 hexadecimal digits succeeds exactly if these
are the digest, in either case. -/
theorem C51_verify (ps : List Pic) (s : List Char)
    (hb : ∀ p ∈ ps, p.bpc = 8 ∨ p.bpc = 10 ∨ p.bpc = 12) (hs : 32 ≤ s.length)
    (hx : ∀ c ∈ s.take 32, Spec.IsHex c) :
    verify (ps.foldl write init) s = true ↔
      (s.take 32).map Char.toLower = (Spec.md5 (ps.flatMap Spec.message)).flatMap Spec.hex :=
  verify_fed _ _ s (by simpa using pics_fed ps init [] init_fed hb) hs hx

/-- C51. A shorter string is never accepted. -/
theorem C51_verify_short (m : Ctx) (s : List Char) (hs : s.length < 32) : verify m s = false := by
  unfold verify
  dsimp only
  rw [if_pos hs]

/-! ### Cases -/

/-- The empty message, from the test suite of the RFC. -/
example : (Spec.md5 []).flatMap Spec.hex ++ ['\n'] =
    "d41d8cd98f00b204e9800998ecf8427e\n".toList := by
  have := C51_digest [] (by simp)
  rw [List.flatMap_nil] at this
  rw [← this]
  decide +kernel

/-- "abc" and a longer message, from the test suite of the RFC. -/
example : (Spec.md5 [0x61, 0x62, 0x63]).flatMap Spec.hex ++ ['\n'] =
    "900150983cd24fb0d6963f7d28e17f72\n".toList := by
  rw [show [0x61, 0x62, 0x63] = List.flatten [[(0x61 : UInt8)], [0x62, 0x63]] from rfl,
    ← C51_chunks]
  decide +kernel

example : (Spec.md5 ("12345678901234567890123456789012345678901234567890123456789012345678901234567890".toList.map
      fun c => UInt8.ofNat c.toNat)).flatMap Spec.hex ++ ['\n'] =
    "57edf4a22be3c955ac49da2e2107b67a\n".toList := by
  have := C51_chunks ["12345678901234567890123456789012345678901234567890123456789012345678901234567890".toList.map
      fun c => UInt8.ofNat c.toNat]
  rw [List.flatten_singleton] at this
  rw [← this]
  decide +kernel

/-- A picture of 3x3 pixels at 10 bits in 4:2:0, with strides of either sign. -/
def demoPic : Pic := ⟨3, 3, 10, .i420, fun pl i => UInt8.ofNat (i + 100 + 50 * pl).toNat, -8, 6⟩

example : (Spec.message demoPic).length = 34 ∧ (Spec.samples demoPic).length = 17 := by decide

/-- The verification accepts some strings that are not a digest: a blank counts as a digit 0. -/
example : verify init "d41d8cd98f00b204e9800998ecf8427e".toList = true ∧
    verify init "D41D8CD98F00B204E9800998ECF8427E and more".toList = true ∧
    verify init "d41d8cd98f00b2 4e980 998ecf8427e".toList = true ∧
    verify init "d41d8cd98f00b204e9800998ecf8427f".toList = false := by decide +kernel

end Dav1d.Md5
