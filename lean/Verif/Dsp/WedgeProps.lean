import Verif.Dsp.Wedge
import Verif.Dsp.WedgeSpec
import Mathlib.Tactic.Ring
/-!
# Property C46: the wedge and inter-intra masks
-/
namespace Dav1d.Wedge

/-! ### What the masks contain -/

section
variable (w h : Nat) (cb : List Code) (signs : Nat)

/-- The sign of mask `n`. -/
def sg (n : Nat) : Bool := (signs / 2 ^ n) % 2 == 1

/-- Byte `i` of the luma mask `n`. -/
def lv (n i : Nat) : Nat :=
  let c := cb.getD n ⟨.horizontal, 0, 0⟩
  let v := master c.dir (32 - h * c.y / 8 + i / w) (32 - w * c.x / 8 + i % w)
  if sg signs n then 64 - v else v

/-- Byte `i` of the 4:2:2 mask for the luma mask `l`. -/
def cv422 (l : Nat → Nat) (s : Bool) (i : Nat) : Nat :=
  let a := (i / (w / 2)) * w + 2 * (i % (w / 2))
  (l a + l (a + 1) + 1 - b2n s) / 2

/-- Byte `i` of the 4:2:0 mask for the luma mask `l`. -/
def cv420 (l : Nat → Nat) (s : Bool) (i : Nat) : Nat :=
  let a := (i / (w / 2)) * (2 * w) + 2 * (i % (w / 2))
  (l a + l (a + 1) + l (a + w) + l (a + w + 1) + 2 - b2n s) / 4
end

theorem slot_disj {S e e' i : Nat} (hi : i < S) (h : e ≠ e') : ¬ (e' * S ≤ e * S + i ∧ e * S + i < e' * S + S) := by
  rcases Nat.lt_or_gt_of_ne h with h | h
  · have := Nat.mul_le_mul_right S (show e + 1 ≤ e' by omega)
    rw [Nat.add_mul] at this; omega
  · have := Nat.mul_le_mul_right S (show e' + 1 ≤ e by omega)
    rw [Nat.add_mul] at this; omega

theorem write_in {m : Mem} {e S i : Nat} {f : Nat → Nat} (hi : i < S) : m.write (e * S) S f (e * S + i) = f i := by
  unfold Mem.write
  rw [if_pos (by omega), Nat.add_sub_cancel_left]

theorem write_out {m : Mem} {e e' S i : Nat} {f : Nat → Nat} (hi : i < S) (h : e ≠ e') : m.write (e' * S) S f (e * S + i) = m (e * S + i) := by
  unfold Mem.write
  rw [if_neg (slot_disj hi h)]

/-- The number of the slot of mask `n` with the sign bit `b`. -/
def slot (n : Nat) (b : Bool) : Nat := n + 16 * b2n b

theorem slot_ne {n n' : Nat} {b b' : Bool} (hn : n < 16) (hn' : n' < 16) (h : n ≠ n' ∨ b ≠ b') : slot n b ≠ slot n' b' := by
  unfold slot b2n
  cases b <;> cases b' <;> simp at * <;> omega

theorem slot_mul (n S : Nat) (b : Bool) : n * S + b2n b * (16 * S) = slot n b * S := by unfold slot; ring

/-- The sizes for which the arrays are exactly filled. -/
structure Dims (w h : Nat) : Prop where
  w2 : w % 2 = 0
  wpos : 0 < w
  h2 : h % 2 = 0

theorem Dims.s422 {w h : Nat} (D : Dims w h) : w / 2 * h = w * h / 2 := by
  obtain ⟨a, rfl⟩ : ∃ a, w = 2 * a := ⟨w / 2, by have := D.w2; omega⟩
  rw [Nat.mul_div_cancel_left _ (by omega), Nat.mul_assoc, Nat.mul_div_cancel_left _ (by omega)]

theorem Dims.s420 {w h : Nat} (D : Dims w h) : w / 2 * ((h + 1) / 2) = w * h / 4 := by
  obtain ⟨a, rfl⟩ : ∃ a, w = 2 * a := ⟨w / 2, by have := D.w2; omega⟩
  obtain ⟨b, rfl⟩ : ∃ a, h = 2 * a := ⟨h / 2, by have := D.h2; omega⟩
  rw [Nat.mul_div_cancel_left _ (by omega), show (2 * b + 1) / 2 = b by omega, show 2 * a * (2 * b) = 4 * (a * b) by ring, Nat.mul_div_cancel_left _ (by omega)]

theorem lt_of_div {a n i : Nat} (h : i < a * n) : i / a < n := by
  rw [Nat.div_lt_iff_lt_mul (Nat.pos_of_ne_zero (by rintro rfl; simp at h))]; rwa [Nat.mul_comm]

/-- The rows that 4:2:2 reads are within the luma mask. -/
theorem Dims.in422 {w h i : Nat} (D : Dims w h) (hi : i < w * h / 2) : (i / (w / 2)) * w + 2 * (i % (w / 2)) + 1 < w * h := by
  rw [← D.s422] at hi
  have h1 := lt_of_div hi
  have h2 := Nat.mod_lt i (show 0 < w / 2 by have := D.w2; have := D.wpos; omega)
  have h3 := Nat.mul_le_mul_right w (show i / (w / 2) + 1 ≤ h by omega)
  rw [Nat.add_mul, Nat.mul_comm h w] at h3
  omega

theorem Dims.in420 {w h i : Nat} (D : Dims w h) (hi : i < w * h / 4) : (i / (w / 2)) * (2 * w) + 2 * (i % (w / 2)) + w + 1 < w * h := by
  rw [← D.s420] at hi
  have h1 := lt_of_div hi
  have h2 := Nat.mod_lt i (show 0 < w / 2 by have := D.w2; have := D.wpos; omega)
  have hh := D.h2
  have h3 := Nat.mul_le_mul_right w (show 2 * (i / (w / 2)) + 2 ≤ h by omega)
  have h4 : i / (w / 2) * (2 * w) = 2 * (i / (w / 2)) * w := by ring
  rw [Nat.add_mul, Nat.mul_comm h w] at h3
  omega

/-- What holds after the masks before `n` have been made. -/
structure Filled (w h : Nat) (cb : List Code) (signs n : Nat) (M : Masks) : Prop where
  o444 : ∀ k < n, ∀ s, M.off444 s k = k * (w * h)
  o422 : ∀ k < n, ∀ s, M.off422 s k = slot k (s ^^ sg signs k) * (w * h / 2)
  o420 : ∀ k < n, ∀ s, M.off420 s k = slot k (s ^^ sg signs k) * (w * h / 4)
  v444 : ∀ k < n, ∀ i < w * h, M.m444 (k * (w * h) + i) = lv w h cb signs k i
  v422 : ∀ k < n, ∀ s, ∀ i < w * h / 2, M.m422 (slot k (s ^^ sg signs k) * (w * h / 2) + i) = cv422 w (lv w h cb signs k) s i
  v420 : ∀ k < n, ∀ s, ∀ i < w * h / 4, M.m420 (slot k (s ^^ sg signs k) * (w * h / 4) + i) = cv420 w (lv w h cb signs k) s i

theorem chroma422 {w h : Nat} (D : Dims w h) {m luma : Mem} {e p : Nat} {l : Nat → Nat} (s : Bool) (hl : ∀ i < w * h, luma (p + i) = l i) {i : Nat} (hi : i < w * h / 2) :
    initChroma m (e * (w * h / 2)) luma p s w h false (e * (w * h / 2) + i) = cv422 w l s i := by
  unfold initChroma cv422
  simp only [Bool.false_eq_true, if_false]
  rw [D.s422, write_in hi]
  have := D.in422 hi
  rw [Nat.add_assoc p, hl _ (by omega), Nat.add_assoc p, hl _ (by omega)]
  rfl

theorem chroma420 {w h : Nat} (D : Dims w h) {m luma : Mem} {e p : Nat} {l : Nat → Nat} (s : Bool) (hl : ∀ i < w * h, luma (p + i) = l i) {i : Nat} (hi : i < w * h / 4) :
    initChroma m (e * (w * h / 4)) luma p s w h true (e * (w * h / 4) + i) = cv420 w l s i := by
  unfold initChroma cv420
  simp only [if_true]
  rw [D.s420, write_in hi]
  have := D.in420 hi
  generalize hA : i / (w / 2) * (2 * w) = A at *
  generalize hB : 2 * (i % (w / 2)) = B at *
  rw [show p + A + B = p + (A + B) by omega, hl _ (by omega), show p + (A + B) + 1 = p + (A + B + 1) by omega, hl _ (by omega),
    show p + A + w + B = p + (A + B + w) by omega, hl _ (by omega), show p + (A + B + w) + 1 = p + (A + B + w + 1) by omega, hl _ (by omega)]
  rw [show l (A + B) + l (A + B + 1) + 1 + l (A + B + w) + l (A + B + w + 1) + 1 = l (A + B) + l (A + B + 1) + l (A + B + w) + l (A + B + w + 1) + 2 by omega]
  rfl

theorem chroma422_out {w h : Nat} (D : Dims w h) {m luma : Mem} {e e' p : Nat} (s : Bool) {i : Nat} (hi : i < w * h / 2) (he : e ≠ e') :
    initChroma m (e' * (w * h / 2)) luma p s w h false (e * (w * h / 2) + i) = m (e * (w * h / 2) + i) := by
  unfold initChroma
  simp only [Bool.false_eq_true, if_false]
  rw [D.s422, write_out hi he]

theorem chroma420_out {w h : Nat} (D : Dims w h) {m luma : Mem} {e e' p : Nat} (s : Bool) {i : Nat} (hi : i < w * h / 4) (he : e ≠ e') :
    initChroma m (e' * (w * h / 4)) luma p s w h true (e * (w * h / 4) + i) = m (e * (w * h / 4) + i) := by
  unfold initChroma
  simp only [if_true]
  rw [D.s420, write_out hi he]

theorem fillOne_ok {w h : Nat} (D : Dims w h) {cb : List Code} {signs n : Nat} {M : Masks} (hn : n < 16) (H : Filled w h cb signs n M) :
    Filled w h cb signs (n + 1) (fillOne w h cb signs M n) := by
  have L : ∀ i < w * h, (fillOne w h cb signs M n).m444 (n * (w * h) + i) = lv w h cb signs n i := by
    intro i hi
    simp only [fillOne, copy2d]
    rw [write_in hi]
    rfl
  constructor
  · intro k hk s
    simp only [fillOne, setOff]
    by_cases e : k = n
    · subst e; cases s <;> simp
    · rw [if_neg (by tauto), if_neg (by tauto), H.o444 k (by omega)]
  · intro k hk s
    simp only [fillOne, setOff]
    by_cases e : k = n
    · subst e
      cases s
      · simp only [Bool.false_eq_true, false_and, if_false, and_self, if_true, Bool.false_xor]; exact slot_mul _ _ _
      · simp only [and_self, if_true, Bool.true_xor]; exact slot_mul _ _ _
    · rw [if_neg (by tauto), if_neg (by tauto), H.o422 k (by omega)]
  · intro k hk s
    simp only [fillOne, setOff]
    by_cases e : k = n
    · subst e
      cases s
      · simp only [Bool.false_eq_true, false_and, if_false, and_self, if_true, Bool.false_xor]; exact slot_mul _ _ _
      · simp only [and_self, if_true, Bool.true_xor]; exact slot_mul _ _ _
    · rw [if_neg (by tauto), if_neg (by tauto), H.o420 k (by omega)]
  · intro k hk i hi
    by_cases e : k = n
    · subst e; exact L i hi
    · simp only [fillOne, copy2d]
      rw [write_out hi e, H.v444 k (by omega) i hi]
  · intro k hk s i hi
    have U : (fillOne w h cb signs M n).m422 = initChroma (initChroma M.m422 (slot n (sg signs n) * (w * h / 2)) (fillOne w h cb signs M n).m444 (n * (w * h)) false w h false)
        (slot n (!sg signs n) * (w * h / 2)) (fillOne w h cb signs M n).m444 (n * (w * h)) true w h false := by
      rw [← slot_mul, ← slot_mul]; rfl
    rw [U]
    by_cases e : k = n
    · subst e
      cases s
      · rw [Bool.false_xor, chroma422_out D _ hi (slot_ne hn hn (Or.inr (by cases sg signs k <;> decide))), chroma422 D _ L hi]
      · rw [Bool.true_xor, chroma422 D _ L hi]
    · rw [chroma422_out D _ hi (slot_ne (by omega) hn (Or.inl e)), chroma422_out D _ hi (slot_ne (by omega) hn (Or.inl e)), H.v422 k (by omega) s i hi]
  · intro k hk s i hi
    have U : (fillOne w h cb signs M n).m420 = initChroma (initChroma M.m420 (slot n (sg signs n) * (w * h / 4)) (fillOne w h cb signs M n).m444 (n * (w * h)) false w h true)
        (slot n (!sg signs n) * (w * h / 4)) (fillOne w h cb signs M n).m444 (n * (w * h)) true w h true := by
      rw [← slot_mul, ← slot_mul]; rfl
    rw [U]
    by_cases e : k = n
    · subst e
      cases s
      · rw [Bool.false_xor, chroma420_out D _ hi (slot_ne hn hn (Or.inr (by cases sg signs k <;> decide))), chroma420 D _ L hi]
      · rw [Bool.true_xor, chroma420 D _ L hi]
    · rw [chroma420_out D _ hi (slot_ne (by omega) hn (Or.inl e)), chroma420_out D _ hi (slot_ne (by omega) hn (Or.inl e)), H.v420 k (by omega) s i hi]

theorem fill_ok {w h : Nat} (D : Dims w h) (cb : List Code) (signs : Nat) : Filled w h cb signs 16 (fill w h cb signs) := by
  have : ∀ n ≤ 16, Filled w h cb signs n ((List.range n).foldl (fillOne w h cb signs) ⟨fun _ => 0, fun _ => 0, fun _ => 0, fun _ _ => 0, fun _ _ => 0, fun _ _ => 0⟩) := by
    intro n
    induction n with
    | zero => intro _; constructor <;> intro k hk <;> omega
    | succ n ih =>
      intro hn
      rw [List.range_succ, List.foldl_append]
      exact fillOne_ok D (by omega) (ih (by omega))
  exact this 16 (le_refl _)

theorem Size.dims (z : Size) : Dims z.w z.h := by cases z <;> exact ⟨rfl, by decide, rfl⟩

def Size.lv (z : Size) (n y x : Nat) : Nat := Wedge.lv z.w z.h z.cb z.signs n (y * z.w + x)

section
variable {z : Size} {idx x y : Nat}

theorem mask444 (hn : idx < 16) (hx : x < z.w) (hy : y < z.h) (s : Bool) : wedgeMask z .l444 s idx x y = z.lv idx y x := by
  have F := fill_ok z.dims z.cb z.signs
  have e : z.masks.m444 (z.masks.off444 s idx + y * z.w + x) = z.lv idx y x := by
    unfold Size.masks
    have := Nat.mul_le_mul_right z.w (show y + 1 ≤ z.h by omega)
    rw [Nat.add_mul, Nat.mul_comm z.h] at this
    rw [F.o444 idx hn, Nat.add_assoc, F.v444 idx hn _ (by omega)]
    rfl
  exact e

/-- The average of the luma mask over two pixels, rounded up for sign 0 and down for sign 1. -/
theorem mask422 (hn : idx < 16) (hx : x < z.w / 2) (hy : y < z.h) (s : Bool) :
    wedgeMask z .l422 s idx x y = (z.lv idx y (2 * x) + z.lv idx y (2 * x + 1) + 1 - b2n s) / 2 := by
  have D := z.dims
  have F := fill_ok D z.cb z.signs
  have e : z.masks.m422 (z.masks.off422 s idx + y * (z.w / 2) + x) = cv422 z.w (Wedge.lv z.w z.h z.cb z.signs idx) s (y * (z.w / 2) + x) := by
    unfold Size.masks
    have := Nat.mul_le_mul_right (z.w / 2) (show y + 1 ≤ z.h by omega)
    rw [Nat.add_mul, Nat.mul_comm z.h, D.s422] at this
    rw [F.o422 idx hn, Nat.add_assoc, F.v422 idx hn _ _ (by omega)]
  refine Eq.trans e ?_
  unfold cv422 Size.lv
  rw [Nat.mul_comm y (z.w / 2), Nat.mul_add_div (by omega), Nat.div_eq_of_lt hx, Nat.add_zero, Nat.mul_add_mod, Nat.mod_eq_of_lt hx]
  rfl

theorem mask420 (hn : idx < 16) (hx : x < z.w / 2) (hy : y < z.h / 2) (s : Bool) :
    wedgeMask z .l420 s idx x y =
      (z.lv idx (2 * y) (2 * x) + z.lv idx (2 * y) (2 * x + 1) + z.lv idx (2 * y + 1) (2 * x) + z.lv idx (2 * y + 1) (2 * x + 1) + 2 - b2n s) / 4 := by
  have D := z.dims
  have F := fill_ok D z.cb z.signs
  have e : z.masks.m420 (z.masks.off420 s idx + y * (z.w / 2) + x) = cv420 z.w (Wedge.lv z.w z.h z.cb z.signs idx) s (y * (z.w / 2) + x) := by
    unfold Size.masks
    have := Nat.mul_le_mul_right (z.w / 2) (show y + 1 ≤ (z.h + 1) / 2 by omega)
    rw [Nat.add_mul, Nat.mul_comm ((z.h + 1) / 2), D.s420] at this
    rw [F.o420 idx hn, Nat.add_assoc, F.v420 idx hn _ _ (by omega)]
  refine Eq.trans e ?_
  unfold cv420 Size.lv
  rw [Nat.mul_comm y (z.w / 2), Nat.mul_add_div (by omega), Nat.div_eq_of_lt hx, Nat.add_zero, Nat.mul_add_mod, Nat.mod_eq_of_lt hx]
  dsimp only
  rw [show y * (2 * z.w) = 2 * y * z.w by ring, show (2 * y + 1) * z.w + 2 * x = 2 * y * z.w + 2 * x + z.w by ring,
    show (2 * y + 1) * z.w + (2 * x + 1) = 2 * y * z.w + 2 * x + z.w + 1 by ring]
  rfl
end

/-! ### The luma masks are as specified -/

/-- The number of a direction in the specification. -/
def Dir.num : Dir → Nat
  | .horizontal => 0 | .vertical => 1 | .oblique27 => 2 | .oblique63 => 3 | .oblique117 => 4 | .oblique153 => 5

theorem master_check : ∀ d ∈ [Dir.horizontal, .vertical, .oblique27, .oblique63, .oblique117, .oblique153], ∀ i ∈ List.range 64, ∀ j ∈ List.range 64,
    master d i j ≤ 64 ∧ Spec.masterMask d.num i j = (if d.num = 4 then 64 - master d i j else master d i j) := by decide +kernel

theorem master_spec (d : Dir) {i j : Nat} (hi : i < 64) (hj : j < 64) :
    master d i j ≤ 64 ∧ Spec.masterMask d.num i j = (if d.num = 4 then 64 - master d i j else master d i j) :=
  master_check d (by cases d <;> decide) i (List.mem_range.mpr hi) j (List.mem_range.mpr hj)

theorem code_check : ∀ z ∈ Size.all, ∀ n ∈ List.range 16,
    let c := z.cb.getD n ⟨.horizontal, 0, 0⟩
    Spec.code z.w z.h n = (c.dir.num, c.x, c.y) ∧ Spec.flipSign z.w z.h n = (sg z.signs n ^^ (c.dir.num == 4)) ∧
      32 - z.h * c.y / 8 + z.h ≤ 64 ∧ 32 - z.w * c.x / 8 + z.w ≤ 64 := by decide +kernel

theorem Size.mem (z : Size) : z ∈ Size.all := by cases z <;> decide

theorem lv_spec (z : Size) {n x y : Nat} (hn : n < 16) (hx : x < z.w) (hy : y < z.h) : z.lv n y x ≤ 64 ∧ z.lv n y x = Spec.wedgeMask z.w z.h false n y x := by
  obtain ⟨hc, hf, h1, h2⟩ := code_check z z.mem n (List.mem_range.mpr hn)
  unfold Size.lv Wedge.lv Spec.wedgeMask Spec.cut
  rw [hf, hc]
  dsimp only at *
  rw [Nat.mul_comm y, Nat.mul_add_div (by omega), Nat.div_eq_of_lt hx, Nat.add_zero, Nat.mul_add_mod, Nat.mod_eq_of_lt hx]
  generalize z.cb.getD n ⟨.horizontal, 0, 0⟩ = c at *
  rw [Nat.mul_comm c.y, Nat.mul_comm c.x]
  obtain ⟨hm, hs⟩ := master_spec c.dir (i := 32 - z.h * c.y / 8 + y) (j := 32 - z.w * c.x / 8 + x) (by omega) (by omega)
  rw [hs]
  by_cases h4 : c.dir.num = 4
  · rw [if_pos h4, h4]
    cases sg z.signs n <;> simp <;> omega
  · rw [if_neg h4]
    have : (c.dir.num == 4) = false := by simpa using h4
    rw [this]
    cases sg z.signs n <;> simp <;> omega

/-! ### Properties -/

theorem cut_le (z : Size) {n x y : Nat} (hn : n < 16) (hx : x < z.w) (hy : y < z.h) : Spec.cut z.w z.h n y x ≤ 64 := by
  obtain ⟨hc, hf, h1, h2⟩ := code_check z z.mem n (List.mem_range.mpr hn)
  unfold Spec.cut
  rw [hc]
  dsimp only at *
  generalize z.cb.getD n ⟨.horizontal, 0, 0⟩ = c at *
  rw [Nat.mul_comm c.y, Nat.mul_comm c.x]
  obtain ⟨hm, hs⟩ := master_spec c.dir (i := 32 - z.h * c.y / 8 + y) (j := 32 - z.w * c.x / 8 + x) (by omega) (by omega)
  rw [hs]
  split_ifs <;> omega

theorem spec_le (z : Size) (s : Bool) {n x y : Nat} (hn : n < 16) (hx : x < z.w) (hy : y < z.h) : Spec.wedgeMask z.w z.h s n y x ≤ 64 ∧
    Spec.wedgeMask z.w z.h (!s) n y x = 64 - Spec.wedgeMask z.w z.h s n y x := by
  have h := cut_le z hn hx hy
  unfold Spec.wedgeMask
  cases s <;> cases hf : Spec.flipSign z.w z.h n <;> simp [hf] at * <;> omega

/-- The dimensions of the block in a plane. -/
def planeW (z : Size) (c : Layout) : Nat := if c.ssHor then z.w / 2 else z.w
def planeH (z : Size) (c : Layout) : Nat := if c.ssVer then z.h / 2 else z.h

/-- **C46**: in luma (`chroma` absent) and in the chroma planes of every layout the weight of the first prediction is the mask of the specification:
that of the sign and wedge index of the block, averaged and rounded over the luma pixels covered by a chroma pixel. -/
theorem C46_spec (z : Size) (chroma : Option Layout) (maskSign : Bool) {idx x y : Nat} (hn : idx < 16) (hx : x < planeW z (chroma.getD .l444)) (hy : y < planeH z (chroma.getD .l444)) :
    weight z chroma maskSign idx x y false =
      Spec.planeMask (Spec.wedgeMask z.w z.h maskSign idx) (chroma.getD .l444).ssHor (chroma.getD .l444).ssVer y x := by
  have luma : ∀ s, x < z.w → y < z.h → (if false = maskSign then (wedgeMask z .l444 s idx x y : Int) else 64 - (wedgeMask z .l444 s idx x y : Int)) =
      Spec.wedgeMask z.w z.h maskSign idx y x := by
    intro s hx hy
    rw [mask444 hn hx hy, (lv_spec z hn hx hy).2]
    have := spec_le z false hn hx hy
    cases maskSign
    · simp
    · rw [← Bool.not_false, this.2]
      simp; omega
  have dw := z.dims.w2
  have dh := z.dims.h2
  rcases chroma with _ | c | c | c
  · exact luma _ hx hy
  · exact luma _ hx hy
  · simp only [weight, Option.getD_some, Layout.ssHor, Layout.ssVer, Spec.planeMask, planeW, planeH, if_true, Bool.false_eq_true, if_false] at *
    rw [mask422 hn hx hy, (lv_spec z hn (by omega) hy).2, (lv_spec z hn (by omega) hy).2]
    have h1 := spec_le z false hn (show 2 * x < z.w by omega) hy
    have h2 := spec_le z false hn (show 2 * x + 1 < z.w by omega) hy
    cases maskSign
    · simp [b2n]
    · rw [← Bool.not_false, h1.2, h2.2]
      simp [b2n]; omega
  · simp only [weight, Option.getD_some, Layout.ssHor, Layout.ssVer, Spec.planeMask, planeW, planeH, if_true, Bool.false_eq_true, if_false] at *
    have b1 : 2 * x < z.w := by omega
    have b2 : 2 * x + 1 < z.w := by omega
    have b3 : 2 * y < z.h := by omega
    have b4 : 2 * y + 1 < z.h := by omega
    rw [mask420 hn hx hy, (lv_spec z hn b1 b3).2, (lv_spec z hn b2 b3).2, (lv_spec z hn b1 b4).2, (lv_spec z hn b2 b4).2]
    have h1 := spec_le z false hn b1 b3
    have h2 := spec_le z false hn b2 b3
    have h3 := spec_le z false hn b1 b4
    have h4 := spec_le z false hn b2 b4
    cases maskSign
    · simp [b2n]
    · rw [← Bool.not_false, h1.2, h2.2, h3.2, h4.2]
      simp [b2n]; omega

/-- **C46**: the weights of the two predictions add up to 64 and lie between 0 and 64. -/
theorem C46_weights (z : Size) (chroma : Option Layout) (maskSign : Bool) {idx x y : Nat} (hn : idx < 16) (hx : x < planeW z (chroma.getD .l444)) (hy : y < planeH z (chroma.getD .l444)) :
    weight z chroma maskSign idx x y false + weight z chroma maskSign idx x y true = 64 ∧
      ∀ p, 0 ≤ weight z chroma maskSign idx x y p ∧ weight z chroma maskSign idx x y p ≤ 64 := by
  have sum : weight z chroma maskSign idx x y false + weight z chroma maskSign idx x y true = 64 := by
    unfold weight
    cases maskSign <;> simp
  refine ⟨sum, ?_⟩
  have r : 0 ≤ weight z chroma maskSign idx x y false ∧ weight z chroma maskSign idx x y false ≤ 64 := by
    rw [C46_spec z chroma maskSign hn hx hy]
    have dw := z.dims.w2
    have dh := z.dims.h2
    rcases chroma with _ | c | c | c <;>
      simp only [Option.getD_none, Option.getD_some, Layout.ssHor, Layout.ssVer, Spec.planeMask, planeW, planeH, if_true, Bool.false_eq_true, if_false] at *
    · have := spec_le z maskSign hn hx hy; omega
    · have := spec_le z maskSign hn hx hy; omega
    · have h1 := spec_le z maskSign hn (show 2 * x < z.w by omega) hy
      have h2 := spec_le z maskSign hn (show 2 * x + 1 < z.w by omega) hy
      omega
    · have h1 := spec_le z maskSign hn (show 2 * x < z.w by omega) (show 2 * y < z.h by omega)
      have h2 := spec_le z maskSign hn (show 2 * x + 1 < z.w by omega) (show 2 * y < z.h by omega)
      have h3 := spec_le z maskSign hn (show 2 * x < z.w by omega) (show 2 * y + 1 < z.h by omega)
      have h4 := spec_le z maskSign hn (show 2 * x + 1 < z.w by omega) (show 2 * y + 1 < z.h by omega)
      omega
  intro p
  cases p <;> omega

/-- The average of four luma weights is never half way between two integers. -/
theorem no_ties : ∀ z ∈ Size.all, ∀ n ∈ List.range 16, ∀ y ∈ List.range (z.h / 2), ∀ x ∈ List.range (z.w / 2),
    (z.lv n (2 * y) (2 * x) + z.lv n (2 * y) (2 * x + 1) + z.lv n (2 * y + 1) (2 * x) + z.lv n (2 * y + 1) (2 * x + 1)) % 4 ≠ 2 := by decide +kernel

/-- **C46**: in luma and in the chroma planes of 4:4:4 and 4:2:0, flipping the sign swaps the weights of the two predictions. -/
theorem C46_flip (z : Size) (chroma : Option Layout) (hc : chroma ≠ some .l422) (maskSign p : Bool) {idx x y : Nat} (hn : idx < 16)
    (hx : x < planeW z (chroma.getD .l444)) (hy : y < planeH z (chroma.getD .l444)) :
    weight z chroma (!maskSign) idx x y p = weight z chroma maskSign idx x y (!p) := by
  have key : ∀ s, weight z chroma (!s) idx x y false = weight z chroma s idx x y true := by
    intro s
    have e1 := C46_spec z chroma (!s) hn hx hy
    have e2 := C46_spec z chroma s hn hx hy
    have e3 := (C46_weights z chroma s hn hx hy).1
    have dw := z.dims.w2
    have dh := z.dims.h2
    rcases chroma with _ | c | c | c
    · have l := spec_le z s hn hx hy
      simp only [Option.getD_none, Layout.ssHor, Layout.ssVer, Spec.planeMask] at e1 e2
      rw [e1, l.2]
      omega
    · have l := spec_le z s hn hx hy
      simp only [Option.getD_some, Layout.ssHor, Layout.ssVer, Spec.planeMask] at e1 e2
      rw [e1, l.2]
      omega
    · exact absurd rfl hc
    · simp only [Option.getD_some, Layout.ssHor, Layout.ssVer, Spec.planeMask, planeW, planeH, if_true] at *
      have b1 : 2 * x < z.w := by omega
      have b2 : 2 * x + 1 < z.w := by omega
      have b3 : 2 * y < z.h := by omega
      have b4 : 2 * y + 1 < z.h := by omega
      have t := no_ties z z.mem idx (List.mem_range.mpr hn) y (List.mem_range.mpr hy) x (List.mem_range.mpr hx)
      rw [(lv_spec z hn b1 b3).2, (lv_spec z hn b2 b3).2, (lv_spec z hn b1 b4).2, (lv_spec z hn b2 b4).2] at t
      have h1 := spec_le z s hn b1 b3
      have h2 := spec_le z s hn b2 b3
      have h3 := spec_le z s hn b1 b4
      have h4 := spec_le z s hn b2 b4
      rw [h1.2, h2.2, h3.2, h4.2] at e1
      cases s
      · omega
      · have h1 := spec_le z false hn b1 b3
        have h2 := spec_le z false hn b2 b3
        have h3 := spec_le z false hn b1 b4
        have h4 := spec_le z false hn b2 b4
        simp only [Bool.not_false] at h1 h2 h3 h4
        omega
  cases p
  · exact key maskSign
  · have := key (!maskSign)
    rw [Bool.not_not] at this
    exact this.symm

/-- With 4:2:2 too, flipping the sign swaps the weights, except that ties are rounded up for the first prediction with both signs: the
weights then differ by one, as in the specification. -/
theorem C46_flip_422 (z : Size) (maskSign p : Bool) {idx x y : Nat} (hn : idx < 16) (hx : x < planeW z .l422) (hy : y < planeH z .l422) :
    weight z (some .l422) (!maskSign) idx x y p - weight z (some .l422) maskSign idx x y (!p) = 0 ∨
    weight z (some .l422) (!maskSign) idx x y p - weight z (some .l422) maskSign idx x y (!p) = (if p then -1 else 1) := by
  have key : ∀ s, weight z (some .l422) (!s) idx x y false - weight z (some .l422) s idx x y true = 0 ∨
      weight z (some .l422) (!s) idx x y false - weight z (some .l422) s idx x y true = 1 := by
    intro s
    have e1 := C46_spec z (some .l422) (!s) hn hx hy
    have e2 := C46_spec z (some .l422) s hn hx hy
    have e3 := (C46_weights z (some .l422) s hn hx hy).1
    have dw := z.dims.w2
    simp only [Option.getD_some, Layout.ssHor, Layout.ssVer, Spec.planeMask, planeW, planeH, if_true, Bool.false_eq_true, if_false] at *
    have h1 := spec_le z s hn (show 2 * x < z.w by omega) hy
    have h2 := spec_le z s hn (show 2 * x + 1 < z.w by omega) hy
    rw [h1.2, h2.2] at e1
    omega
  cases p
  · simpa using key maskSign
  · have := key (!maskSign)
    simp only [Bool.not_not, if_true, Bool.not_true] at *
    omega

/-- **C46**: the mask of inter-intra prediction with a wedge, `II_MASK` of src/wedge.h:82-86, is the specified mask of sign 0 in every plane. -/
theorem C46_interintra_wedge (z : Size) (c : Layout) {idx x y : Nat} (hn : idx < 16) (hx : x < planeW z c) (hy : y < planeH z c) :
    wedgeMask z c false idx x y = Spec.planeMask (Spec.wedgeMask z.w z.h false idx) c.ssHor c.ssVer y x := by
  have := C46_spec z (some c) false hn hx hy
  simp only [weight, if_true] at this
  exact_mod_cast this

/-- The block sizes that inter-intra prediction exists for. -/
def Size.interintra (z : Size) : Bool := z != .s32x8 && z != .s8x32

theorem ii_check : ∀ z ∈ Size.all.filter Size.interintra, ∀ c ∈ [Layout.l444, .l422, .l420], ∀ m ∈ [IiMode.dc, .vert, .hor, .smooth],
    ∀ y ∈ List.range (planeH z c), ∀ x ∈ List.range (planeW z c), iiMask z c m x y = some (Spec.iiMask (planeW z c) (planeH z c) m.num y x) := by decide +kernel

/-- **C46**: the masks of smooth inter-intra prediction are the specified ones in every plane. -/
theorem C46_interintra (z : Size) (hz : z.interintra) (c : Layout) (m : IiMode) {x y : Nat} (hx : x < planeW z c) (hy : y < planeH z c) :
    iiMask z c m x y = some (Spec.iiMask (planeW z c) (planeH z c) m.num y x) :=
  ii_check z (List.mem_filter.mpr ⟨z.mem, hz⟩) c (by cases c <;> decide) m (by cases m <;> decide) y (List.mem_range.mpr hy) x (List.mem_range.mpr hx)

/-- Where the masks start in the structure: the array, a member of `fields`, and the bytes per mask. -/
def starts : List (Nat × Nat × Nat) :=
  [(1, 16, 32 * 32), (2, 16, 32 * 16), (3, 16, 32 * 8), (4, 16, 16 * 32), (5, 16, 16 * 16), (6, 16, 16 * 8), (7, 16, 8 * 32), (8, 16, 8 * 16), (9, 16, 8 * 8),
   (10, 32, 16 * 32), (11, 32, 16 * 16), (12, 32, 16 * 8), (13, 32, 8 * 32), (14, 32, 8 * 16), (15, 32, 8 * 8), (16, 32, 4 * 32), (17, 32, 4 * 16), (18, 32, 4 * 8),
   (19, 32, 16 * 16), (20, 32, 16 * 8), (21, 32, 16 * 4), (22, 32, 8 * 16), (23, 32, 8 * 8), (24, 32, 8 * 4), (25, 32, 4 * 16), (26, 32, 4 * 8), (27, 32, 4 * 4),
   (28, 1, 32 * 32), (29, 3, 32 * 32), (30, 3, 16 * 32), (31, 3, 16 * 16), (32, 3, 8 * 32), (33, 3, 8 * 16), (34, 3, 8 * 8), (35, 3, 4 * 16), (36, 3, 4 * 8), (37, 3, 4 * 4)]

/-- **C46**: every mask starts at a multiple of 8 bytes of the structure, fits in its array, and the multiple fits in the 16 bits it is kept in, so that
the pointer formed from it is the one it was made from. -/
theorem C46_offsets : ∀ f ∈ starts, ∀ n ∈ List.range f.2.1,
    let p := (fieldOffsets fields 0).getD f.1 0 + n * f.2.2
    (n + 1) * f.2.2 ≤ (fields.getD f.1 (0, 0)).1 ∧ p % 8 = 0 ∧ p / 8 < 2 ^ 16 ∧ (p / 8 % 2 ^ 16) * 8 = p := by decide +kernel

/-! ### Examples -/

/-- Weights that are neither 0 nor 64, and a tie. -/
example : Size.s16x8.lv 9 3 7 = 62 := by decide +kernel
example : weight .s16x8 none true 9 7 3 false = 2 := by
  rw [C46_spec .s16x8 none true (by decide) (by decide) (by decide)]; decide +kernel
example : weight .s16x8 none false 9 7 3 true = weight .s16x8 none true 9 7 3 false :=
  C46_flip .s16x8 none (by decide) true true (idx := 9) (x := 7) (y := 3) (by decide) (by decide) (by decide)
example : weight .s32x32 (some .l422) true 0 15 7 false = 15 ∧ weight .s32x32 (some .l422) false 0 15 7 true = 14 := by
  have := (C46_weights .s32x32 (some .l422) false (idx := 0) (x := 15) (y := 7) (by decide) (by decide) (by decide)).1
  have e := C46_spec .s32x32 (some .l422) false (idx := 0) (x := 15) (y := 7) (by decide) (by decide) (by decide)
  rw [C46_spec .s32x32 (some .l422) true (by decide) (by decide) (by decide)]
  refine ⟨by decide +kernel, ?_⟩
  have v : Spec.planeMask (Spec.wedgeMask Size.s32x32.w Size.s32x32.h false 0) true false 7 15 = 50 := by decide +kernel
  simp only [Option.getD_some, Layout.ssHor, Layout.ssVer, v] at e
  omega
example : iiMask .s16x32 .l420 .smooth 3 5 = some 26 := by decide +kernel

end Dav1d.Wedge
