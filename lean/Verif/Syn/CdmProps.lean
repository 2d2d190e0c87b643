import Verif.Syn.CdmSpec
import Verif.Syn.CdfProps
/-!
# C86: the masks that CDEF uses hold the skip flags and indices of the frame
-/
set_option linter.unusedVariables false
namespace Dav1d.Cdm
open Dav1d.Syn.Lru (Cfg)
open Dav1d.Cdf (Mask bitOf)

theorem and16 (n : Nat) : (n &&& 16) >>> 3 = n % 32 / 16 * 2 := Cdf.and16 n
theorem and16' (n : Nat) : (n &&& 16) >>> 4 = n % 32 / 16 := by
  have h : ∀ m < 32, (m &&& 16) >>> 4 = m / 16 := by decide
  rw [← h (n % 32) (Nat.mod_lt _ (by decide)), ← show n &&& 31 = n % 32 from Nat.and_two_pow_sub_one_eq_mod n 5, Nat.and_assoc, show 31 &&& 16 = 16 from rfl]
theorem and31 (n : Nat) : n &&& 31 = n % 32 := Nat.and_two_pow_sub_one_eq_mod n 5
theorem and15 (n : Nat) : n &&& 15 = n % 16 := Nat.and_two_pow_sub_one_eq_mod n 4

/-- Sizes of blocks, in units of 4. -/
def Size (n : Nat) : Prop := n = 1 ∨ n = 2 ∨ n = 4 ∨ n = 8 ∨ n = 16 ∨ n = 32

/-- A block of the frame: it begins inside, at multiples of its height and width, and is not larger than a superblock. -/
structure BlkOk (f : Cfg) (b : Blk) : Prop where
  h : Size b.h
  w : Size b.w
  y : b.y < f.bh ∧ b.y % b.h = 0
  x : b.x < f.bw ∧ b.x % b.w = 0
  sb : b.h ≤ f.step ∧ b.w ≤ f.step

/-! ## Flags -/

theorem mask_table : ∀ w ∈ [1, 2, 4, 8, 16, 32], ∀ p < 32, p % w = 0 → ∀ k < 32,
    (if k < 16 then decide (p / 16 = 0) && (maskOf w p).testBit k else (decide (p / 16 = 1) || decide (w = 32)) && (maskOf w p).testBit (k - 16)) = decide (p ≤ k ∧ k < p + w) := by decide +kernel

theorem bit_or {w p : Nat} (hw : Size w) (hp : p < 32) (ha : p % w = 0) (m : Nat × Nat) {k : Nat} (hk : k < 32) :
    bitOf (if (p &&& 16) >>> 4 = 0 then (m.1 ||| maskOf w p) % 2 ^ 16 else m.1, if (p &&& 16) >>> 4 = 1 ∨ w = 32 then (m.2 ||| maskOf w p) % 2 ^ 16 else m.2) k =
      (bitOf m k || decide (p ≤ k ∧ k < p + w)) := by
  rw [← mask_table w (by unfold Size at hw; simpa using hw) p hp ha k hk, and16', Nat.mod_eq_of_lt hp]
  unfold bitOf
  by_cases h : k < 16
  · rw [if_pos h, if_pos h, if_pos h]
    by_cases h1 : p / 16 = 0
    · rw [if_pos h1, Nat.testBit_mod_two_pow, Nat.testBit_or]
      simp [h, h1]
    · rw [if_neg h1]
      simp [h1]
  · rw [if_neg h, if_neg h, if_neg h]
    have h16 : k - 16 < 16 := by omega
    by_cases h1 : p / 16 = 1 ∨ w = 32
    · rw [if_pos h1, Nat.testBit_mod_two_pow, Nat.testBit_or]
      rcases h1 with h1 | h1 <;> simp [h16, h1]
    · rw [if_neg h1]
      rw [not_or] at h1
      simp [h1]

theorem orRows_bit {w p : Nat} (hw : Size w) (hp : p < 32) (ha : p % w = 0) : ∀ n r m j k, k < 32 →
    bitOf (orRows w p n r m j) k = (bitOf (m j) k || decide (r ≤ j ∧ j < r + n) && decide (p ≤ k ∧ k < p + w))
  | 0, r, m, j, k, hk => by
    unfold orRows
    rw [show decide (r ≤ j ∧ j < r + 0) = false from decide_eq_false (by omega)]
    simp
  | n + 1, r, m, j, k, hk => by
    unfold orRows
    rw [orRows_bit hw hp ha n (r + 1) _ j k hk]
    by_cases h : j = r
    · subst h
      rw [if_pos rfl]
      show (bitOf (_, _) k || _) = _
      rw [bit_or hw hp ha (m j) hk]
      rw [show decide (j + 1 ≤ j ∧ j < j + 1 + n) = false from decide_eq_false (by omega), show decide (j ≤ j ∧ j < j + (n + 1)) = true from decide_eq_true (by omega)]
      simp
    · rw [if_neg h]
      congr 2
      exact decide_eq_decide.2 (by omega)

theorem orRows_lt {w p : Nat} : ∀ n r m j, (∀ j, (m j).1 < 2 ^ 16) → (orRows w p n r m j).1 < 2 ^ 16
  | 0, _, m, j, h => h j
  | n + 1, r, m, j, h => by
    unfold orRows
    refine orRows_lt n (r + 1) _ j fun j => ?_
    by_cases e : j = r
    · rw [if_pos e]
      show (if _ then _ else _) < _
      split
      · exact Nat.mod_lt _ (by decide)
      · exact h j
    · rw [if_neg e]
      exact h j

/-- The place of a mask. -/
def at_ (f : Cfg) (r c : Nat) : Nat := r / 32 * f.sb128w + c / 32

theorem at_inj {f : Cfg} {r c r' c' : Nat} (h1 : c < f.bw) (h2 : c' < f.bw) : at_ f r c = at_ f r' c' ↔ r / 32 = r' / 32 ∧ c / 32 = c' / 32 := by
  have a1 : c / 32 < f.sb128w := by unfold Cfg.sb128w; omega
  have a2 : c' / 32 < f.sb128w := by unfold Cfg.sb128w; omega
  unfold at_
  constructor
  · intro h
    have hW : 0 < f.sb128w := by omega
    have e1 := congrArg (· / f.sb128w) h
    have e2 := congrArg (· % f.sb128w) h
    simp only [Nat.add_comm (_ * f.sb128w), Nat.add_mul_div_right _ _ hW, Nat.add_mul_mod_self_right, Nat.div_eq_of_lt a1, Nat.div_eq_of_lt a2, Nat.mod_eq_of_lt a1, Nat.mod_eq_of_lt a2] at e1 e2
    omega
  · rintro ⟨h, g⟩
    rw [h, g]

theorem onMask_at (f : Cfg) (y x : Nat) (g : Mask → Mask) (mem : Nat → Mask) (a : Nat) : onMask f y x g mem a = if a = at_ f y x then g (mem a) else mem a := by
  unfold onMask at_
  rw [Nat.shiftRight_eq_div_pow, Nat.shiftRight_eq_div_pow]

/-- The place of the index of a block. -/
def qOf (b : Blk) : Nat := b.y % 32 / 16 * 2 + b.x % 32 / 16

theorem cdefIndex_eq (f : Cfg) (b : Blk) (m : Mask) : cdefIndex f b m = if b.skip = false ∧ m.cdefIdx (qOf b) = -1 then
    { m with cdefIdx := fun k => if k = qOf b ∨ b.w > 16 ∧ k = qOf b + 1 ∨ b.h > 16 ∧ k = qOf b + 2 ∨ b.w = 32 ∧ b.h = 32 ∧ k = qOf b + 3 then b.v else m.cdefIdx k } else m := by
  have e : (if f.sb128 then 0 else ((b.x &&& 16) >>> 4) + ((b.y &&& 16) >>> 3)) + (if f.sb128 then ((b.x &&& 16) >>> 4) + ((b.y &&& 16) >>> 3) else 0) = qOf b := by
    rw [and16, and16']
    unfold qOf
    split <;> omega
  unfold cdefIndex
  simp only [e]

theorem cdefIndex_noskip (f : Cfg) (b : Blk) (m : Mask) : (cdefIndex f b m).noskip = m.noskip := by
  rw [cdefIndex_eq]
  split <;> rfl

theorem size_range {h y r : Nat} (hh : Size h) (ha : y % h = 0) : (y % 32 / 2 ≤ r % 32 / 2 ∧ r % 32 / 2 < y % 32 / 2 + (h + 1) / 2) ∧ r / 32 = y / 32 ↔ (y ≤ r / 2 * 2 ∧ r / 2 * 2 < y + h ∨ y ≤ r / 2 * 2 + 1 ∧ r / 2 * 2 + 1 < y + h) := by
  rcases hh with h | h | h | h | h | h <;> subst h <;> omega

theorem size_col {w x c : Nat} (hh : Size w) (ha : x % w = 0) : (x % 32 ≤ c % 32 ∧ c % 32 < x % 32 + w) ∧ c / 32 = x / 32 ↔ x ≤ c ∧ c < x + w := by
  rcases hh with h | h | h | h | h | h <;> subst h <;> omega

/-- The flag of a unit in a strip of 8 luma rows after a block. -/
theorem block_bit {f : Cfg} {b : Blk} (hb : BlkOk f b) (mem : Nat → Mask) {r c : Nat} (hc : c < f.bw) (hr : r % 2 = 0) :
    bitOf ((block f b mem (at_ f r c)).noskip (r % 32 / 2)) (c % 32) = (bitOf ((mem (at_ f r c)).noskip (r % 32 / 2)) (c % 32) || !b.skip && decide (Av1.covers b r c ∨ Av1.covers b (r + 1) c)) := by
  have e1 : r / 2 * 2 = r := by omega
  have s1 := size_range (r := r) hb.h hb.y.2
  have s2 := size_col (c := c) hb.w hb.x.2
  rw [e1] at s1
  have hcov : (Av1.covers b r c ∨ Av1.covers b (r + 1) c) ↔ (b.y ≤ r ∧ r < b.y + b.h ∨ b.y ≤ r + 1 ∧ r + 1 < b.y + b.h) ∧ b.x ≤ c ∧ c < b.x + b.w := by unfold Av1.covers; omega
  rw [← s1, ← s2] at hcov
  unfold block
  rw [onMask_at]
  have hinj := at_inj (f := f) (r := r) (r' := b.y) hc hb.x.1
  by_cases h : at_ f r c = at_ f b.y b.x
  · rw [if_pos h]
    unfold noskip
    cases hs : b.skip with
    | true => simp [cdefIndex_noskip]
    | false =>
      obtain ⟨g1, g2⟩ := hinj.1 h
      rw [if_neg (by decide)]
      show bitOf (orRows _ _ _ _ (cdefIndex f b _).noskip _) _ = _
      rw [cdefIndex_noskip, and31, and31, orRows_bit hb.w (Nat.mod_lt _ (by decide)) (by have := hb.w; have := hb.x.2; rcases hb.w with h | h | h | h | h | h <;> rw [h] at this ⊢ <;> omega) _ _ _ _ _ (Nat.mod_lt _ (by decide)), Nat.shiftRight_eq_div_pow]
      rw [Bool.not_false, Bool.true_and, ← Bool.decide_and]
      congr 1
      exact decide_eq_decide.2 (by rw [hcov]; simp only [g1, g2, and_true, Nat.pow_one])
  · rw [if_neg h]
    have : ¬(Av1.covers b r c ∨ Av1.covers b (r + 1) c) := fun g => h (hinj.2 ⟨(hcov.1 g).1.2, (hcov.1 g).2.2⟩)
    rw [show decide (Av1.covers b r c ∨ Av1.covers b (r + 1) c) = false from decide_eq_false this]
    simp

/-! ## Indices -/

/-- The index that is used for a unit. -/
def view (f : Cfg) (mem : Nat → Mask) (r c : Nat) : Int := (mem (at_ f r c)).cdefIdx (r % 32 / 16 * 2 + c % 32 / 16)

theorem unit_range {h y r : Nat} (hh : Size h) (ha : y % h = 0) : (y / 16 * 16 ≤ r / 16 * 16 ∧ r / 16 * 16 < y / 16 * 16 + h ∧ (r / 16 * 16 - y / 16 * 16) % 16 = 0) ↔
    r / 32 = y / 32 ∧ (r % 32 / 16 = y % 32 / 16 ∨ h = 32) := by
  rcases hh with h | h | h | h | h | h <;> subst h <;> omega

theorem size_32 {h y : Nat} (hh : Size h) (ha : y % h = 0) : (h > 16 ↔ h = 32) ∧ (h = 32 → y % 32 / 16 = 0) := by
  rcases hh with h | h | h | h | h | h <;> subst h <;> omega

theorem place {R C A B h w : Nat} (hR : R < 2) (hC : C < 2) (hA : A < 2) (hB : B < 2) (h1 : h > 16 ↔ h = 32) (h2 : h = 32 → A = 0) (w1 : w > 16 ↔ w = 32) (w2 : w = 32 → B = 0) :
    (R * 2 + C = A * 2 + B ∨ w > 16 ∧ R * 2 + C = A * 2 + B + 1 ∨ h > 16 ∧ R * 2 + C = A * 2 + B + 2 ∨ w = 32 ∧ h = 32 ∧ R * 2 + C = A * 2 + B + 3) ↔ (R = A ∨ h = 32) ∧ (C = B ∨ w = 32) := by
  rw [h1, w1]
  clear h1 w1
  by_cases e1 : h = 32 <;> by_cases e2 : w = 32
  · have := h2 e1; have := w2 e2
    simp only [e1, e2, true_and, or_true, and_true, iff_true]; omega
  · have := h2 e1
    simp only [e1, e2, true_and, false_and, or_true, or_false, false_or]; omega
  · have := w2 e2
    simp only [e1, e2, true_and, false_and, and_false, or_true, or_false, and_true]; omega
  · simp only [e1, e2, false_and, or_false]; omega

theorem view_block {f : Cfg} {b : Blk} (hb : BlkOk f b) (mem : Nat → Mask) {r c : Nat} (hc : c < f.bw) : view f (block f b mem) r c =
    if b.skip = false ∧ view f mem b.y b.x = -1 ∧ (r / 32 = b.y / 32 ∧ (r % 32 / 16 = b.y % 32 / 16 ∨ b.h = 32)) ∧ c / 32 = b.x / 32 ∧ (c % 32 / 16 = b.x % 32 / 16 ∨ b.w = 32) then (b.v : Int) else view f mem r c := by
  have hinj := at_inj (f := f) (r := r) (r' := b.y) hc hb.x.1
  have hq : view f mem b.y b.x = (mem (at_ f b.y b.x)).cdefIdx (qOf b) := rfl
  unfold view block
  rw [onMask_at]
  by_cases h : at_ f r c = at_ f b.y b.x
  · obtain ⟨g1, g2⟩ := hinj.1 h
    rw [if_pos h]
    have e : ∀ m, (noskip b m).cdefIdx = m.cdefIdx := fun m => by unfold noskip; split <;> rfl
    rw [e, cdefIndex_eq, h]
    have s1 := size_32 hb.h hb.y.2
    have s2 := size_32 hb.w hb.x.2
    have hp := place (R := r % 32 / 16) (C := c % 32 / 16) (A := b.y % 32 / 16) (B := b.x % 32 / 16) (by omega) (by omega) (by omega) (by omega) s1.1 s1.2 s2.1 s2.2
    by_cases k : b.skip = false ∧ (mem (at_ f b.y b.x)).cdefIdx (qOf b) = -1
    · rw [if_pos k]
      show (if _ then _ else _) = _
      unfold qOf at k ⊢
      rw [if_congr hp rfl rfl]
      simp only [k, g1, g2, true_and]
    · rw [if_neg k, if_neg (fun g => k ⟨g.1, g.2.1⟩)]
  · rw [if_neg h, if_neg (fun g => h (hinj.2 ⟨g.2.2.1.1, g.2.2.2.1⟩))]

/-- A superblock of the frame. -/
structure SbOk (f : Cfg) (y x : Nat) : Prop where
  y : y < f.bh ∧ y % f.step = 0
  x : x < f.bw ∧ x % f.step = 0

theorem view_sb {f : Cfg} {y x : Nat} (hb : SbOk f y x) (mem : Nat → Mask) {r c : Nat} (hc : c < f.bw) : view f (sbStart f y x mem) r c =
    if (r / 16 * 16 = y ∨ f.sb128 = true ∧ r / 16 * 16 = y + 16) ∧ (c / 16 * 16 = x ∨ f.sb128 = true ∧ c / 16 * 16 = x + 16) then -1 else view f mem r c := by
  have hinj := at_inj (f := f) (r := r) (r' := y) hc hb.x.1
  obtain ⟨h1, h2⟩ := And.intro hb.y.2 hb.x.2
  unfold view sbStart
  rw [onMask_at]
  unfold Cfg.step at h1 h2
  cases h : f.sb128 with
  | true =>
    rw [h, if_pos rfl] at h1 h2
    by_cases g : at_ f r c = at_ f y x
    · obtain ⟨g1, g2⟩ := hinj.1 g
      rw [if_pos g, if_pos rfl, if_pos (by constructor <;> simp only [true_and] <;> omega)]
      exact if_pos (by omega)
    · rw [if_neg g, if_neg]
      intro k
      simp only [true_and] at k
      exact g (hinj.2 (by omega))
  | false =>
    rw [h, if_neg (by decide)] at h1 h2
    simp only [Bool.false_eq_true, false_and, or_false, if_false]
    by_cases g : at_ f r c = at_ f y x
    · obtain ⟨g1, g2⟩ := hinj.1 g
      rw [if_pos g]
      show (if _ then _ else _) = _
      rw [and16, and16']
      exact if_congr (by omega) rfl rfl
    · rw [if_neg g, if_neg]
      intro k
      exact g (hinj.2 (by omega))

/-! ## The frame -/

/-- A unit is in a superblock that was begun. -/
def Begun (f : Cfg) (L : List (Nat × Nat)) (r c : Nat) : Prop := ∃ e ∈ L, e.1 ≤ r ∧ r < e.1 + f.step ∧ e.2 ≤ c ∧ c < e.2 + f.step

/-- Superblocks are begun and blocks decoded, in any order and by any number of threads, except that a superblock is begun before its blocks are decoded, and that no unit is decoded twice. The masks
are cleared before, src/decode.c:3041 (of the flags, that matters). On the left the decoder, on the right the specification. -/
inductive Run (f : Cfg) : List (Nat × Nat) → List Blk → (Nat → Mask) → Av1.State → Prop
  | start (mem : Nat → Mask) (s : Av1.State) : (∀ a r, (mem a).noskip r = (0, 0)) → Run f [] [] mem s
  | sb {L : List (Nat × Nat)} {dec : List Blk} {mem : Nat → Mask} {s : Av1.State} (y x : Nat) : Run f L dec mem s → SbOk f y x → Run f ((y, x) :: L) dec (sbStart f y x mem) (Av1.clear_cdef f.sb128 y x s)
  | block {L : List (Nat × Nat)} {dec : List Blk} {mem : Nat → Mask} {s : Av1.State} (b : Blk) : Run f L dec mem s → BlkOk f b → Begun f L b.y b.x →
      (∀ b' ∈ dec, ∀ r c, Av1.covers b r c → ¬Av1.covers b' r c) → Run f L (b :: dec) (block f b mem) (Av1.decode_block b s)

theorem sbStart_noskip (f : Cfg) (y x : Nat) (mem : Nat → Mask) (a : Nat) : (sbStart f y x mem a).noskip = (mem a).noskip := by
  unfold sbStart
  rw [onMask_at]
  split_ifs <;> rfl

theorem run_inv {f : Cfg} {L : List (Nat × Nat)} {dec : List Blk} {mem : Nat → Mask} {s : Av1.State} (h : Run f L dec mem s) :
    (∀ a r, ((mem a).noskip r).1 < 2 ^ 16) ∧
    (∀ r c, c < f.bw → Begun f L r c → view f mem r c = s.cdef_idx (r / 16 * 16) (c / 16 * 16)) ∧
    (∀ r c, c < f.bw → r % 2 = 0 → (bitOf ((mem (at_ f r c)).noskip (r % 32 / 2)) (c % 32) = true ↔ ∃ b ∈ dec, b.skip = false ∧ (Av1.covers b r c ∨ Av1.covers b (r + 1) c))) ∧
    (∀ b ∈ dec, ∀ r c, Av1.covers b r c → s.Skips r c = b.skip) := by
  induction h with
  | start mem s h =>
    refine ⟨fun a r => by rw [h]; decide, fun r c _ ⟨e, he, _⟩ => absurd he (by simp), fun r c _ _ => ?_, fun b hb => absurd hb (by simp)⟩
    rw [h]
    unfold bitOf
    simp
  | @sb L dec mem s y x _ hs ih =>
    obtain ⟨i1, i2, i3, i4⟩ := ih
    refine ⟨fun a r => by rw [sbStart_noskip]; exact i1 a r, ?_, fun r c hc hr => by rw [sbStart_noskip]; exact i3 r c hc hr, i4⟩
    rintro r c hc ⟨e, he, h⟩
    rw [view_sb hs mem hc]
    unfold Av1.clear_cdef
    simp only
    split_ifs with g
    · rfl
    · rcases List.mem_cons.1 he with rfl | he
      · refine absurd ?_ g
        have h1 := hs.y.2
        have h2 := hs.x.2
        unfold Cfg.step at h1 h2 h
        simp only at h
        cases e : f.sb128 with
        | true => rw [e, if_pos rfl] at h1 h2 h; simp only [true_and]; omega
        | false => rw [e, if_neg (by decide)] at h1 h2 h; simp only [Bool.false_eq_true, false_and, or_false]; omega
      · exact i2 r c hc ⟨e, he, h⟩
  | @block L dec mem s b _ hb hL hd ih =>
    obtain ⟨i1, i2, i3, i4⟩ := ih
    refine ⟨fun a r => ?_, fun r c hc hB => ?_, fun r c hc hr => ?_, fun b' hb' r c hcov => ?_⟩
    · unfold block
      rw [onMask_at]
      split
      · unfold noskip
        split
        · rw [cdefIndex_noskip]; exact i1 a r
        · refine orRows_lt _ _ _ _ fun j => ?_
          rw [cdefIndex_noskip]; exact i1 a j
      · exact i1 a r
    · rw [view_block hb mem hc, i2 b.y b.x hb.x.1 hL, i2 r c hc hB]
      have u1 := unit_range (r := r) hb.h hb.y.2
      have u2 := unit_range (r := c) hb.w hb.x.2
      unfold Av1.decode_block Av1.read_cdef
      simp only
      cases hk : b.skip with
      | true => simp
      | false =>
        by_cases g : s.cdef_idx (b.y / 16 * 16) (b.x / 16 * 16) = -1
        · simp only [g, if_true, Bool.false_eq_true, if_false, true_and]
          exact if_congr (by rw [u1, u2]) rfl rfl
        · simp [g]
    · rw [block_bit hb mem hc hr, Bool.or_eq_true, i3 r c hc hr]
      simp only [List.mem_cons, Bool.and_eq_true, Bool.not_eq_true', decide_eq_true_eq]
      constructor
      · rintro (⟨b', h1, h2⟩ | h)
        · exact ⟨b', .inr h1, h2⟩
        · exact ⟨b, .inl rfl, h⟩
      · rintro ⟨b', rfl | h1, h2⟩
        · exact .inr h2
        · exact .inl ⟨b', h1, h2⟩
    · show (if Av1.covers b r c then b.skip else s.Skips r c) = _
      rcases List.mem_cons.1 hb' with rfl | hb'
      · exact if_pos hcov
      · rw [if_neg (fun h => hd b' hb' r c h hcov)]
        exact i4 b' hb' r c hcov

/-- **C86.** When all blocks of the frame are decoded, the masks hold what CDEF expects of them (`MaskOk` of C85): for each 64x64 the index of the specification, and for each strip of 8 luma rows
and column of 4 whether a block there is not skipped. -/
theorem C86_masks {f : Cfg} {L : List (Nat × Nat)} {dec : List Blk} {mem : Nat → Mask} {s : Av1.State} (h : Run f L dec mem s)
    (hL : ∀ r c, r < f.bh → c < f.bw → Begun f L r c) (hdec : ∀ r c, r < f.bh → c < f.bw → ∃ b ∈ dec, Av1.covers b r c) :
    Cdf.MaskOk f mem (fun r c => s.cdef_idx (r / 16 * 16) (c / 16 * 16)) s.Skips := by
  obtain ⟨i1, i2, i3, i4⟩ := run_inv h
  refine ⟨i1, fun r c hr hc => (i2 r c hc (hL r c hr hc)).symm, fun r c hr hc h2 => ?_⟩
  have hbh := Cdf.bh_eq f
  obtain ⟨b1, m1, c1⟩ := hdec r c hr hc
  obtain ⟨b2, m2, c2⟩ := hdec (r + 1) c (by omega) hc
  rw [i4 b1 m1 r c c1, i4 b2 m2 (r + 1) c c2]
  have h3 := i3 r c hc h2
  unfold at_ at h3
  cases hs : b1.skip && b2.skip with
  | true =>
    rw [Bool.and_eq_true] at hs
    rw [Bool.not_true, ← Bool.not_eq_true, h3]
    rintro ⟨b, hb, g1, g2⟩
    rcases g2 with g2 | g2
    · have := (i4 b hb r c g2).symm.trans (i4 b1 m1 r c c1)
      rw [g1, hs.1] at this
      exact absurd this (by decide)
    · have := (i4 b hb (r + 1) c g2).symm.trans (i4 b2 m2 (r + 1) c c2)
      rw [g1, hs.2] at this
      exact absurd this (by decide)
  | false =>
    rw [Bool.not_false, h3]
    rw [Bool.and_eq_false_iff] at hs
    rcases hs with hs | hs
    · exact ⟨b1, m1, hs, .inl c1⟩
    · exact ⟨b2, m2, hs, .inr c2⟩

/-- **C86.** With C85: the frame is CdefFrame for the skip flags and indices that the specification has after all blocks, for one thread in the filter and for more. -/
theorem C86_frame {f : Cfg} {d : Depth} {hdr : Cdf.Hdr} {D : Nat → Lrs.Plane} {L : List (Nat × Nat)} {dec : List Blk} {mem : Nat → Mask} {s : Av1.State} (h : Run f L dec mem s)
    (hL : ∀ r c, r < f.bh → c < f.bw → Begun f L r c) (hdec : ∀ r c, r < f.bh → c < f.bw → ∃ b ∈ dec, Av1.covers b r c) (hh : Cdf.HdrOk hdr) (hlay : f.layout ≤ 3) (hD : Cdf.InRange f d D) :
    (∀ lpf t, Cdf.One f d hdr mem lpf D f.sbh t → ∀ pl Y X : Nat, Cdf.Pl f pl → Y < Cdf.y0 f pl f.bh → X < Cdf.x0 f pl f.bw →
      t.fr pl Y X = Cdf.Av1.CdefFrame (Cdf.envOf f d hdr (fun r c => s.cdef_idx (r / 16 * 16) (c / 16 * 16)) s.Skips D) pl Y X) ∧
    (∀ n saved done fr lpf, Cdf.Many f d hdr mem D n saved done fr lpf → (∀ k, k < f.sbh → k ∈ done) → ∀ pl Y X : Nat, Cdf.Pl f pl → Y < Cdf.y0 f pl f.bh → X < Cdf.x0 f pl f.bw →
      fr pl Y X = Cdf.Av1.CdefFrame (Cdf.envOf f d hdr (fun r c => s.cdef_idx (r / 16 * 16) (c / 16 * 16)) s.Skips D) pl Y X) :=
  ⟨fun lpf t ht pl Y X hp hY hX => Cdf.C85_one hh hlay hD (C86_masks h hL hdec) ht hp hY hX,
    fun n saved done fr lpf hm ha => (Cdf.C85_many hh hlay hD (C86_masks h hL hdec) hm).2 ha⟩

/-! ## Tiles -/

/-- One of the two entries of 16 bits. -/
def word (m : Nat × Nat) (i : Nat) : Nat := if i = 0 then m.1 else m.2

theorem orRows_word {w p i : Nat} : ∀ n r m j, ¬((r ≤ j ∧ j < r + n) ∧ (if i = 0 then (p &&& 16) >>> 4 = 0 else (p &&& 16) >>> 4 = 1 ∨ w = 32)) → word (orRows w p n r m j) i = word (m j) i
  | 0, _, _, _, _ => rfl
  | n + 1, r, m, j, h => by
    unfold orRows
    rw [orRows_word n (r + 1) _ j (fun g => h ⟨by omega, g.2⟩)]
    by_cases e : j = r
    · rw [if_pos e]
      have h' : ¬(if i = 0 then (p &&& 16) >>> 4 = 0 else (p &&& 16) >>> 4 = 1 ∨ w = 32) := fun g => h ⟨by omega, g⟩
      unfold word
      by_cases h0 : i = 0
      · rw [if_pos h0] at h' ⊢
        rw [if_pos h0]
        exact if_neg h'
      · rw [if_neg h0] at h' ⊢
        rw [if_neg h0]
        exact if_neg h'
    · rw [if_neg e]

/-- **C86.** A block changes only entries of 64x64s that it lies in. Tiles begin at superblocks, so threads that decode different tiles do not write to the same entry, although 128x128 share a mask. -/
theorem C86_own {f : Cfg} {b : Blk} (hb : BlkOk f b) (mem : Nat → Mask) {r c : Nat} (hc : c < f.bw)
    (h : ¬((b.y / 16 ≤ r / 16 ∧ r / 16 ≤ (b.y + b.h - 1) / 16) ∧ b.x / 16 ≤ c / 16 ∧ c / 16 ≤ (b.x + b.w - 1) / 16)) :
    (block f b mem (at_ f r c)).cdefIdx (r % 32 / 16 * 2 + c % 32 / 16) = (mem (at_ f r c)).cdefIdx (r % 32 / 16 * 2 + c % 32 / 16) ∧
    word ((block f b mem (at_ f r c)).noskip (r % 32 / 2)) (c % 32 / 16) = word ((mem (at_ f r c)).noskip (r % 32 / 2)) (c % 32 / 16) := by
  have key : ∀ {n y r : Nat}, Size n → y % n = 0 → r / 32 = y / 32 → (r % 32 / 16 = y % 32 / 16 ∨ n = 32) → y / 16 ≤ r / 16 ∧ r / 16 ≤ (y + n - 1) / 16 := by
    intro n y r hn ha h1 h2
    rcases hn with h | h | h | h | h | h <;> subst h <;> omega
  constructor
  · have := view_block hb mem (r := r) hc
    rw [if_neg] at this
    · exact this
    · rintro ⟨_, _, ⟨g1, g2⟩, g3, g4⟩
      exact h ⟨key hb.h hb.y.2 g1 g2, key hb.w hb.x.2 g3 g4⟩
  · unfold block
    rw [onMask_at]
    split
    · rename_i g
      obtain ⟨g1, g2⟩ := (at_inj hc hb.x.1).1 g
      unfold noskip
      split
      · rw [cdefIndex_noskip]
      · show word (orRows _ _ _ _ (cdefIndex f b _).noskip _) _ = _
        rw [cdefIndex_noskip, orRows_word]
        rintro ⟨k1, k2⟩
        refine h ⟨?_, key hb.w hb.x.2 g2 ?_⟩
        · rw [and31, Nat.shiftRight_eq_div_pow] at k1
          have := hb.y.2
          rcases hb.h with e | e | e | e | e | e <;> rw [e] at k1 this ⊢ <;> omega
        · rw [and31, and16', Nat.mod_mod] at k2
          split at k2
          · exact .inl (by omega)
          · rcases k2 with k2 | k2
            · exact .inl (by omega)
            · exact .inr k2
    · rfl

/-! ## Examples -/

instance (n : Nat) : Decidable (Size n) := by unfold Size; infer_instance
instance (f : Cfg) (b : Blk) : Decidable (BlkOk f b) :=
  decidable_of_iff (Size b.h ∧ Size b.w ∧ (b.y < f.bh ∧ b.y % b.h = 0) ∧ (b.x < f.bw ∧ b.x % b.w = 0) ∧ b.h ≤ f.step ∧ b.w ≤ f.step)
    ⟨fun h => ⟨h.1, h.2.1, h.2.2.1, h.2.2.2.1, h.2.2.2.2⟩, fun h => ⟨h.h, h.w, h.y, h.x, h.sb⟩⟩
instance (f : Cfg) (y x : Nat) : Decidable (SbOk f y x) := decidable_of_iff ((y < f.bh ∧ y % f.step = 0) ∧ x < f.bw ∧ x % f.step = 0) ⟨fun h => ⟨h.1, h.2⟩, fun h => ⟨h.y, h.x⟩⟩
instance (f : Cfg) (L : List (Nat × Nat)) (r c : Nat) : Decidable (Begun f L r c) := by unfold Begun; infer_instance

/-- Two blocks have no unit in common. -/
def apart (a b : Blk) : Prop := a.y + a.h ≤ b.y ∨ b.y + b.h ≤ a.y ∨ a.x + a.w ≤ b.x ∨ b.x + b.w ≤ a.x
instance (a b : Blk) : Decidable (apart a b) := by unfold apart; infer_instance

theorem run_exists (f : Cfg) (mem : Nat → Mask) (s : Av1.State) (h0 : ∀ a r, (mem a).noskip r = (0, 0)) (L : List (Nat × Nat)) (hL : ∀ e ∈ L, SbOk f e.1 e.2) : ∀ B : List Blk,
    (∀ b ∈ B, BlkOk f b ∧ Begun f L b.y b.x) → B.Pairwise apart → ∃ mem' s', Run f L B mem' s'
  | [], _, _ => by
    induction L with
    | nil => exact ⟨mem, s, .start mem s h0⟩
    | cons e L ih =>
      obtain ⟨m', s', h⟩ := ih (fun e he => hL e (List.mem_cons_of_mem _ he)) (fun b hb => absurd hb List.not_mem_nil)
      exact ⟨_, _, .sb e.1 e.2 h (hL e List.mem_cons_self)⟩
  | b :: B, hB, hp => by
    obtain ⟨h1, h2⟩ := List.pairwise_cons.1 hp
    obtain ⟨m', s', h⟩ := run_exists f mem s h0 L hL B (fun b hb => hB b (List.mem_cons_of_mem _ hb)) h2
    refine ⟨_, _, .block b h (hB b List.mem_cons_self).1 (hB b List.mem_cons_self).2 fun b' hb' r c k1 k2 => ?_⟩
    have := h1 b' hb'
    unfold Av1.covers at k1 k2
    unfold apart at this
    omega

/-- 200x136 with superblocks of 64x64: the first one has blocks of 32x32, one of which has blocks of 4x16 and 16x4 in it; the others are one block. -/
def exL : List (Nat × Nat) := [(32, 48), (32, 32), (32, 16), (32, 0), (16, 48), (16, 32), (16, 16), (16, 0), (0, 48), (0, 32), (0, 16), (0, 0)]
def exB : List Blk := [⟨32, 48, 16, 16, true, 1⟩, ⟨32, 32, 16, 16, false, 1⟩, ⟨32, 16, 16, 16, true, 0⟩, ⟨32, 0, 16, 16, false, 1⟩, ⟨16, 48, 16, 16, false, 0⟩, ⟨16, 32, 16, 16, true, 0⟩, ⟨16, 16, 16, 16, false, 0⟩,
  ⟨16, 0, 16, 16, false, 1⟩, ⟨0, 48, 16, 16, true, 0⟩, ⟨0, 32, 16, 16, true, 0⟩, ⟨0, 16, 16, 16, false, 0⟩, ⟨8, 8, 8, 8, true, 0⟩, ⟨8, 0, 8, 8, false, 1⟩, ⟨0, 8, 8, 8, true, 1⟩,
  ⟨4, 4, 4, 4, false, 1⟩, ⟨4, 0, 4, 4, true, 0⟩, ⟨0, 7, 4, 1, false, 1⟩, ⟨0, 6, 4, 1, true, 1⟩, ⟨0, 5, 4, 1, true, 1⟩, ⟨0, 4, 4, 1, true, 1⟩,
  ⟨3, 0, 1, 4, false, 1⟩, ⟨2, 0, 1, 4, true, 1⟩, ⟨1, 0, 1, 4, true, 1⟩, ⟨0, 0, 1, 4, true, 1⟩]

example (m : Nat → Int) (s : Av1.State) : ∃ mem' s', Run Syn.Lru.exA exL exB mem' s' ∧ Cdf.MaskOk Syn.Lru.exA mem' (fun r c => s'.cdef_idx (r / 16 * 16) (c / 16 * 16)) s'.Skips := by
  obtain ⟨m', s', h⟩ := run_exists Syn.Lru.exA (fun _ => ⟨m, fun _ => (0, 0)⟩) s (fun _ _ => rfl) exL (by decide +kernel) exB (by decide +kernel) (by decide +kernel)
  have h1 : ∀ r < 34, ∀ c < 50, Begun Syn.Lru.exA exL r c := by decide +kernel
  have h2 : ∀ r < 34, ∀ c < 50, ∃ b ∈ exB, Av1.covers b r c := by decide +kernel
  exact ⟨m', s', h, C86_masks h (fun r c hr hc => h1 r hr c hc) (fun r c hr hc => h2 r hr c hc)⟩

/-- The flags of the first strips of the first 128x128: strip 0 has only the block of 4x16 in column 7, strip 1 also the 16x4 in row 3. -/
def exMem : Nat → Mask := exB.foldr (fun b m => block Syn.Lru.exA b m) fun _ => ⟨fun _ => -1, fun _ => (0, 0)⟩
example : [0, 1, 2, 4].map (exMem 0).noskip = [(0x80, 0xffff), (0x8f, 0xffff), (0xf0, 0xffff), (0xff, 0xffff)] ∧ (List.range 4).map (exMem 0).cdefIdx = [1, 0, 1, 0] := by decide +kernel
/-- One block of 128x128. -/
example : (block Syn.Lru.exB ⟨0, 0, 32, 32, false, 3⟩ (fun _ => ⟨fun _ => -1, fun _ => (0, 0)⟩) 0).noskip 15 = (0xffff, 0xffff) ∧
    (List.range 4).map (block Syn.Lru.exB ⟨0, 0, 32, 32, false, 3⟩ (fun _ => ⟨fun _ => -1, fun _ => (0, 0)⟩) 0).cdefIdx = [3, 3, 3, 3] ∧
    (List.range 4).map (block Syn.Lru.exB ⟨0, 16, 32, 16, false, 3⟩ (fun _ => ⟨fun _ => -1, fun _ => (0, 0)⟩) 0).cdefIdx = [-1, 3, -1, 3] := by decide +kernel

end Dav1d.Cdm
