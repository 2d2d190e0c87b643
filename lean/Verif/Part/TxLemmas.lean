import Verif.Part.TxModel
import Verif.Part.Leaf
/-!
# Transform blocks are made in order
-/
set_option linter.unusedVariables false
namespace Dav1d.Part

/-- What is known of a transform block when `D` is what was made before: `I` tells which units are in the tile. -/
structure TbGood (I D : Nat → Nat → Prop) (t : Tb) : Prop where
  fresh : ∀ a b, I a b → t.covers a b → ¬ D a b
  start : I t.x t.y
  left : ∀ i q, i < t.h → t.x = q + 1 → I q (t.y + i) → D q (t.y + i)
  top : ∀ i r, i < t.w → t.y = r + 1 → I (t.x + i) r → D (t.x + i) r
  corner : ∀ q r, t.x = q + 1 → t.y = r + 1 → I q r → D q r
  tr : ∀ i r, i < t.w → t.y = r + 1 → I (t.x + t.w + i) r → (t.tr = true ↔ D (t.x + t.w + i) r)
  bl : ∀ i q, i < t.h → t.x = q + 1 → I q (t.y + t.h + i) → (t.bl = true ↔ D q (t.y + t.h + i))

/-- What is made in addition. -/
def Plus (D : Nat → Nat → Prop) (ts : List Tb) (a b : Nat) : Prop := D a b ∨ Made ts a b

/-- All transform blocks are right one after the other. -/
def TbsGood (G : (Nat → Nat → Prop) → Tb → Prop) : (Nat → Nat → Prop) → List Tb → Prop
  | _, [] => True
  | D, t :: ts => G D t ∧ TbsGood G (Plus D [t]) ts

theorem made_append (l1 l2 : List Tb) (a b : Nat) : Made (l1 ++ l2) a b ↔ Made l1 a b ∨ Made l2 a b := by
  unfold Made
  constructor
  · rintro ⟨t, h1, h2⟩
    exact (List.mem_append.1 h1).imp (fun h => ⟨t, h, h2⟩) (fun h => ⟨t, h, h2⟩)
  · rintro (⟨t, h1, h2⟩ | ⟨t, h1, h2⟩)
    · exact ⟨t, List.mem_append_left _ h1, h2⟩
    · exact ⟨t, List.mem_append_right _ h1, h2⟩

theorem plus_append (D : Nat → Nat → Prop) (l1 l2 : List Tb) : Plus (Plus D l1) l2 = Plus D (l1 ++ l2) := by
  funext a b
  unfold Plus
  rw [propext (made_append l1 l2 a b), or_assoc]

theorem plus_nil (D : Nat → Nat → Prop) : Plus D [] = D := by
  funext a b
  unfold Plus Made
  simp

theorem TbsGood.append {G : (Nat → Nat → Prop) → Tb → Prop} : ∀ {l1 l2 : List Tb} {D : Nat → Nat → Prop}, TbsGood G D l1 →
    TbsGood G (Plus D l1) l2 → TbsGood G D (l1 ++ l2)
  | [], l2, D, _, h => by rwa [plus_nil] at h
  | t :: l1, l2, D, ⟨h1, h2⟩, h => ⟨h1, TbsGood.append h2 (by rw [plus_append]; exact h)⟩

theorem TbsGood.get {G : (Nat → Nat → Prop) → Tb → Prop} : ∀ {l1 : List Tb} {t : Tb} {l2 : List Tb} {D : Nat → Nat → Prop},
    TbsGood G D (l1 ++ t :: l2) → G (Plus D l1) t
  | [], t, l2, D, ⟨h, _⟩ => by rw [plus_nil]; exact h
  | u :: l1, t, l2, D, ⟨_, h⟩ => by
    have := TbsGood.get h
    rwa [plus_append] at this

/-- A loop: `Inv v D` holds when the variable is `v` and `D` is made. -/
theorem for_good {G : (Nat → Nat → Prop) → Tb → Prop} {g : Nat → List Tb} {s e : Nat} (hs : 0 < s) {Inv : Nat → (Nat → Nat → Prop) → Prop} {v0 : Nat}
    (body : ∀ v D, v < e → v0 ≤ v → (v - v0) % s = 0 → Inv v D → TbsGood G D (g v) ∧ Inv (v + s) (Plus D (g v))) :
    ∀ (n v : Nat) (D : Nat → Nat → Prop), e ≤ v + n → v0 ≤ v → (v - v0) % s = 0 → Inv v D →
      TbsGood G D ((forList s e n v).flatMap g) ∧ ∃ v', e ≤ v' ∧ v0 ≤ v' ∧ (v' - v0) % s = 0 ∧ Inv v' (Plus D ((forList s e n v).flatMap g))
  | 0, v, D, hn, h0, hm, hi => by
    refine ⟨trivial, v, by omega, h0, hm, ?_⟩
    show Inv v (Plus D [])
    rw [plus_nil]; exact hi
  | n + 1, v, D, hn, h0, hm, hi => by
    unfold forList
    split
    · rename_i hv
      obtain ⟨h1, h2⟩ := body v D hv h0 hm hi
      have hm' : (v + s - v0) % s = 0 := by
        have : v + s - v0 = (v - v0) + s := by omega
        rw [this, Nat.add_mod_right]; exact hm
      obtain ⟨h3, v', h4, h5, h6, h7⟩ := for_good hs body n (v + s) _ (by omega) (by omega) hm' h2
      rw [List.flatMap_cons]
      refine ⟨h1.append h3, v', h4, h5, h6, ?_⟩
      rw [← plus_append]; exact h7
    · rename_i hv
      refine ⟨trivial, v, by omega, h0, hm, ?_⟩
      show Inv v (Plus D [])
      rw [plus_nil]; exact hi

theorem step_le {s n v : Nat} (hs : 0 < s) (hn : n % s = 0) (hv : v % s = 0) (h : v < n) : v + s = n ∨ v + s + s ≤ n := by
  obtain ⟨a, rfl⟩ := Nat.dvd_of_mod_eq_zero hn
  obtain ⟨b, rfl⟩ := Nat.dvd_of_mod_eq_zero hv
  have hab : b < a := Nat.lt_of_mul_lt_mul_left h
  rcases Nat.eq_or_lt_of_le (Nat.succ_le_of_lt hab) with h1 | h1
  · left; rw [← h1, Nat.succ_eq_add_one, Nat.mul_add, Nat.mul_one]
  · right
    have h2 : b + 2 ≤ a := h1
    have := Nat.mul_le_mul_left s h2
    rw [Nat.mul_add] at this
    omega

/-! ## Inside a block -/

/-- A block of `W` times `H` units at (X, Y), of which `Wc` times `Hc` are in the frame, with chunks of `CW` times `CH`
units and transforms of `tw` times `th` units. -/
structure Blk where
  X : Nat
  Y : Nat
  W : Nat
  H : Nat
  Wc : Nat
  Hc : Nat
  CW : Nat
  CH : Nat
  tw : Nat
  th : Nat

/-- The units made when the loops are at `iy`, `ix`, `y` and `x`. -/
def Blk.done (k : Blk) (iy ix y x a b : Nat) : Prop :=
  k.X ≤ a ∧ a < k.X + k.W ∧ k.Y ≤ b ∧ b < k.Y + k.H ∧
  (b < k.Y + iy ∨ (b < k.Y + iy + k.CH ∧ (a < k.X + ix ∨ (a < k.X + ix + k.CW ∧ (b < k.Y + y ∨ (b < k.Y + y + k.th ∧ a < k.X + x))))))

/-- `D` is what was made before the block and those units. -/
def Blk.Inv (k : Blk) (I D0 : Nat → Nat → Prop) (iy ix y x : Nat) (D : Nat → Nat → Prop) : Prop :=
  ∀ a b, I a b → (D a b ↔ D0 a b ∨ k.done iy ix y x a b)

/-- The sizes fit together. -/
structure Blk.Ok (k : Blk) (I D0 : Nat → Nat → Prop) (t b : Prop) : Prop where
  fresh : ∀ i j, i < k.W → j < k.H → I (k.X + i) (k.Y + j) → ¬ D0 (k.X + i) (k.Y + j)
  start : ∀ i j, i < k.Wc → j < k.Hc → I (k.X + i) (k.Y + j)
  tr : ∀ i r, i < k.W → k.Y = r + 1 → I (k.X + k.W + i) r → (t ↔ D0 (k.X + k.W + i) r)
  bl : ∀ i q, i < k.H → k.X = q + 1 → I q (k.Y + k.H + i) → (b ↔ D0 q (k.Y + k.H + i))
  top : ∀ i r, i < k.W → k.Y = r + 1 → I (k.X + i) r → D0 (k.X + i) r
  left : ∀ i q, i < k.H → k.X = q + 1 → I q (k.Y + i) → D0 q (k.Y + i)
  corner : ∀ q r, k.X = q + 1 → k.Y = r + 1 → I q r → D0 q r
  right : ∀ i j, i < k.W → j < k.H → I (k.X + k.W + i) (k.Y + j) → ¬ D0 (k.X + k.W + i) (k.Y + j)
  below : ∀ i j, i < k.W → j < k.H → I (k.X + i) (k.Y + k.H + j) → ¬ D0 (k.X + i) (k.Y + k.H + j)
  clipX : k.Wc = k.W ∨ (k.Wc ≤ k.W ∧ ∀ a b, I a b → a < k.X + k.Wc)
  clipY : k.Hc = k.H ∨ (k.Hc ≤ k.H ∧ ∀ a b, I a b → b < k.Y + k.Hc)
  tw : 0 < k.tw
  th : 0 < k.th
  CW : 0 < k.CW
  CH : 0 < k.CH
  W : k.W % k.tw = 0
  H : k.H % k.th = 0
  cw : k.CW % k.tw = 0
  ch : k.CH % k.th = 0

/-- Where the loops are. -/
structure Blk.At (k : Blk) (iy ix y x : Nat) : Prop where
  y0 : iy ≤ y
  x0 : ix ≤ x
  yc : y < k.Hc
  xc : x < k.Wc
  yC : y + k.th ≤ iy + k.CH
  xC : x + k.tw ≤ ix + k.CW
  yH : y + k.th = k.H ∨ y + k.th + k.th ≤ k.H
  xW : x + k.tw = k.W ∨ x + k.tw + k.tw ≤ k.W
  yD : y + k.th = iy + k.CH ∨ y + k.th + k.th ≤ iy + k.CH
  xD : x + k.tw = ix + k.CW ∨ x + k.tw + k.tw ≤ ix + k.CW

theorem tb_good {k : Blk} {I D0 D : Nat → Nat → Prop} {tn bn iy ix y x : Nat} (hk : k.Ok I D0 (tn = 1) (bn = 1)) (ha : k.At iy ix y x)
    (hi : k.Inv I D0 iy ix y x D) {t : Tb} (ex : t.x = k.X + x) (ey : t.y = k.Y + y) (ew : t.w = k.tw) (eh : t.h = k.th)
    (htr : t.tr = true ↔ ¬ ((iy < y ∨ ¬ (ix + k.CW < k.Wc ∨ (iy = 0 ∧ tn = 1))) ∧ min k.Wc (ix + k.CW) ≤ x + k.tw))
    (hbl : t.bl = true ↔ ¬ (ix < x ∨ (¬ (ix = 0 ∧ (iy + k.CH < k.Hc ∨ bn = 1)) ∧ min k.Hc (iy + k.CH) ≤ y + k.th))) :
    TbGood I D t ∧ k.Inv I D0 iy ix y (x + k.tw) (Plus D [t]) := by
  obtain ⟨a1, a2, a3, a4, a5, a6, a7, a8, a9, a10⟩ := ha
  have c1 := hk.clipX
  have c2 := hk.clipY
  have c3 := hk.tw
  have c4 := hk.th
  refine ⟨⟨?_, ?_, ?_, ?_, ?_, ?_, ?_⟩, ?_⟩
  · intro a b hab hc
    unfold Tb.covers at hc
    rw [ex, ey, ew, eh] at hc
    rw [hi a b hab]
    rintro (h | h)
    · refine hk.fresh (a - k.X) (b - k.Y) (by omega) (by omega) ?_ ?_
      · rw [show k.X + (a - k.X) = a by omega, show k.Y + (b - k.Y) = b by omega]; exact hab
      · rw [show k.X + (a - k.X) = a by omega, show k.Y + (b - k.Y) = b by omega]; exact h
    · unfold Blk.done at h; omega
  · rw [ex, ey]; exact hk.start x y a4 a3
  · intro i q h1 h2 h3
    rw [ex] at h2
    rw [ey] at h3 ⊢
    rw [eh] at h1
    rw [hi _ _ h3]
    by_cases hx : x = 0
    · left
      rw [Nat.add_assoc] at h3 ⊢
      exact hk.left (y + i) q (by omega) (by omega) h3
    · right
      unfold Blk.done; omega
  · intro i q h1 h2 h3
    rw [ey] at h2
    rw [ex] at h3 ⊢
    rw [ew] at h1
    rw [hi _ _ h3]
    by_cases hx : y = 0
    · left
      rw [Nat.add_assoc] at h3 ⊢
      exact hk.top (x + i) q (by omega) (by omega) h3
    · right
      unfold Blk.done; omega
  · intro q r h1 h2 h3
    rw [ex] at h1
    rw [ey] at h2
    rw [hi _ _ h3]
    by_cases hx : x = 0
    · left
      by_cases hy : y = 0
      · exact hk.corner q r (by omega) (by omega) h3
      · have e : r = k.Y + (y - 1) := by omega
        rw [e] at h3 ⊢
        exact hk.left (y - 1) q (by omega) (by omega) h3
    · by_cases hy : y = 0
      · left
        have e : q = k.X + (x - 1) := by omega
        rw [e] at h3 ⊢
        exact hk.top (x - 1) r (by omega) (by omega) h3
      · right
        unfold Blk.done; omega
  · intro i r h1 h2 h3
    rw [ey] at h2
    rw [ex, ew] at h3 ⊢
    rw [ew] at h1
    rw [htr, hi _ _ h3]
    have hc : k.Wc = k.W ∨ (k.Wc ≤ k.W ∧ x + k.tw + i < k.Wc) := c1.imp id (fun h => ⟨h.1, by have := h.2 _ _ h3; omega⟩)
    by_cases hw : x + k.tw + i < k.W
    · by_cases hy : y = 0
      · have h4 : D0 (k.X + x + k.tw + i) r := by
          have e : k.X + x + k.tw + i = k.X + (x + k.tw + i) := by omega
          rw [e] at h3 ⊢
          exact hk.top _ r hw (by omega) h3
        simp only [h4, true_or, iff_true]
        omega
      · have h4 : ¬ D0 (k.X + x + k.tw + i) r := by
          have e : k.X + x + k.tw + i = k.X + (x + k.tw + i) := by omega
          have e' : r = k.Y + (y - 1) := by omega
          rw [e, e'] at h3 ⊢
          exact hk.fresh _ _ hw (by omega) h3
        simp only [h4, false_or]
        unfold Blk.done
        omega
    · have e : k.X + x + k.tw + i = k.X + k.W + i := by omega
      by_cases hy : y = 0
      · rw [e] at h3 ⊢
        rw [← hk.tr i r (by omega) (by omega) h3]
        unfold Blk.done
        omega
      · have h4 : ¬ D0 (k.X + x + k.tw + i) r := by
          have e' : r = k.Y + (y - 1) := by omega
          rw [e, e'] at h3 ⊢
          exact hk.right i _ (by omega) (by omega) h3
        simp only [h4, false_or]
        unfold Blk.done
        omega
  · intro i q h1 h2 h3
    rw [ex] at h2
    rw [ey, eh] at h3 ⊢
    rw [eh] at h1
    rw [hbl, hi _ _ h3]
    have hc : k.Hc = k.H ∨ (k.Hc ≤ k.H ∧ y + k.th + i < k.Hc) := c2.imp id (fun h => ⟨h.1, by have := h.2 _ _ h3; omega⟩)
    by_cases hw : y + k.th + i < k.H
    · by_cases hx : x = 0
      · have h4 : D0 q (k.Y + y + k.th + i) := by
          have e : k.Y + y + k.th + i = k.Y + (y + k.th + i) := by omega
          rw [e] at h3 ⊢
          exact hk.left _ q hw (by omega) h3
        simp only [h4, true_or, iff_true]
        omega
      · have h4 : ¬ D0 q (k.Y + y + k.th + i) := by
          have e : k.Y + y + k.th + i = k.Y + (y + k.th + i) := by omega
          have e' : q = k.X + (x - 1) := by omega
          rw [e, e'] at h3 ⊢
          exact hk.fresh _ _ (by omega) hw h3
        simp only [h4, false_or]
        unfold Blk.done
        omega
    · have e : k.Y + y + k.th + i = k.Y + k.H + i := by omega
      by_cases hx : x = 0
      · rw [e] at h3 ⊢
        rw [← hk.bl i q (by omega) (by omega) h3]
        unfold Blk.done
        omega
      · have h4 : ¬ D0 q (k.Y + y + k.th + i) := by
          have e' : q = k.X + (x - 1) := by omega
          rw [e, e'] at h3 ⊢
          exact hk.below _ i (by omega) (by omega) h3
        simp only [h4, false_or]
        unfold Blk.done
        omega
  · intro a b hab
    unfold Plus Made
    simp only [List.mem_singleton, exists_eq_left]
    rw [hi a b hab, or_assoc]
    refine or_congr Iff.rfl ?_
    unfold Blk.done Tb.covers
    rw [ex, ey, ew, eh]
    omega

/-! ## The loops -/

theorem map_flatMap {l : List Nat} {g : Nat → Tb} : l.map g = l.flatMap fun x => [g x] := by
  induction l with
  | nil => rfl
  | cons a l ih => rw [List.map_cons, List.flatMap_cons, ih]; rfl

theorem mod_trans {a b s : Nat} (h1 : a % b = 0) (h2 : b % s = 0) : a % s = 0 :=
  Nat.mod_eq_zero_of_dvd (Nat.dvd_trans (Nat.dvd_of_mod_eq_zero h2) (Nat.dvd_of_mod_eq_zero h1))

theorem mod_back {v v0 s : Nat} (h0 : v0 % s = 0) (hle : v0 ≤ v) (h : (v - v0) % s = 0) : v % s = 0 := by
  have := Nat.mod_eq_zero_of_dvd (Nat.dvd_add (Nat.dvd_of_mod_eq_zero h) (Nat.dvd_of_mod_eq_zero h0))
  rwa [Nat.sub_add_cancel hle] at this

theorem shift_chunk {ss v : Nat} (hs : ss ≤ 1) (hv : v % 16 = 0) : (v + 16) >>> ss = v >>> ss + 16 >>> ss ∧ (v >>> ss) % (16 >>> ss) = 0 ∧
    (v = 0 ↔ v >>> ss = 0) := by
  have : ss = 0 ∨ ss = 1 := by omega
  rcases this with rfl | rfl
  · exact ⟨rfl, hv, Iff.rfl⟩
  · have h16 : 16 >>> 1 = 8 := rfl
    rw [h16]
    simp only [Nat.shiftRight_eq_div_pow, Nat.pow_one]; omega

theorem shift_pos {ss c x : Nat} (hs : ss ≤ 1) : (c + (x <<< ss)) >>> ss = c >>> ss + x := by
  have : ss = 0 ∨ ss = 1 := by omega
  rcases this with rfl | rfl <;>
    simp only [Nat.shiftRight_eq_div_pow, Nat.shiftLeft_eq, Nat.pow_zero, Nat.pow_one, Nat.div_one, Nat.mul_one] <;> omega

theorem flag_tr {y iy ix initY CW Wc x tw : Nat} (F : Bool) (h : initY = 0 ↔ iy = 0) :
    (!((decide (y > iy) || !(if ix + CW < Wc then true else if initY ≠ 0 then false else F)) && decide (x + tw ≥ min Wc (ix + CW)))) = true ↔
    ¬ ((iy < y ∨ ¬ (ix + CW < Wc ∨ (iy = 0 ∧ F.toNat = 1))) ∧ min Wc (ix + CW) ≤ x + tw) := by
  generalize min Wc (ix + CW) = m
  by_cases h1 : ix + CW < Wc
  · simp [h1]; omega
  · by_cases h2 : initY = 0
    · have h3 : iy = 0 := h.1 h2
      cases F <;> simp [h1, h2, h3]; omega
    · have h3 : iy ≠ 0 := fun hx => h2 (h.2 hx)
      simp [h1, h2, h3]

theorem flag_bl {x ix iy initX CH Hc y th : Nat} (F : Bool) (h : initX = 0 ↔ ix = 0) :
    (!(decide (x > ix) || (!(if initX ≠ 0 then false else if iy + CH < Hc then true else F) && decide (y + th ≥ min Hc (iy + CH))))) = true ↔
    ¬ (ix < x ∨ (¬ (ix = 0 ∧ (iy + CH < Hc ∨ F.toNat = 1)) ∧ min Hc (iy + CH) ≤ y + th)) := by
  generalize min Hc (iy + CH) = m
  by_cases h2 : initX = 0
  · have h3 : ix = 0 := h.1 h2
    by_cases h1 : iy + CH < Hc
    · simp [h1, h2, h3]
    · cases F <;> simp [h1, h2, h3]
  · have h3 : ix ≠ 0 := fun hx => h2 (h.2 hx)
    simp [h2, h3]

theorem chunk_good {p : Plane} (hH : p.ssH ≤ 1) (hV : p.ssV ≤ 1) {k : Blk} {I D0 D : Nat → Nat → Prop} {x0 y0 bx by' flags initY initX : Nat}
    (hk : k.Ok I D0 (flags.testBit p.bit = true) (flags.testBit (p.bit + 3) = true)) (eX : k.X = bx >>> p.ssH) (eY : k.Y = by' >>> p.ssV)
    (eCW : k.CW = 16 >>> p.ssH) (eCH : k.CH = 16 >>> p.ssV) (mY : initY % 16 = 0) (mX : initX % 16 = 0)
    (hi : k.Inv I D0 (initY >>> p.ssV) (initX >>> p.ssH) (initY >>> p.ssV) (initX >>> p.ssH) D) :
    TbsGood (TbGood I) D (chunkTbs p x0 y0 bx by' k.Wc k.Hc k.tw k.th flags initY initX) ∧
    k.Inv I D0 (initY >>> p.ssV) ((initX + 16) >>> p.ssH) (initY >>> p.ssV) ((initX + 16) >>> p.ssH)
      (Plus D (chunkTbs p x0 y0 bx by' k.Wc k.Hc k.tw k.th flags initY initX)) := by
  obtain ⟨sx1, sx2, sx3⟩ := shift_chunk hH mX
  obtain ⟨sy1, sy2, sy3⟩ := shift_chunk hV mY
  unfold chunkTbs
  dsimp only
  rw [sx1, sy1]
  rw [← eCW] at sx2 ⊢
  rw [← eCH] at sy2 ⊢
  generalize hix : initX >>> p.ssH = ix at *
  generalize hiy : initY >>> p.ssV = iy at *
  have c1 := hk.clipX
  have c2 := hk.clipY
  have c3 := hk.tw
  have c4 := hk.th
  have m1 := mod_trans sx2 hk.cw
  have m2 := mod_trans sy2 hk.ch
  simp only [map_flatMap]
  -- the rows
  have hrow := for_good (G := TbGood I) hk.th (Inv := fun y D => k.Inv I D0 iy ix y ix D) (v0 := iy) (e := min k.Hc (iy + k.CH))
    (g := fun y => (forList k.tw (min k.Wc (ix + k.CW)) (min k.Wc (ix + k.CW)) ix).flatMap fun x =>
      [tbAt p x0 y0 bx by' k.tw k.th
          (!((decide (y > iy) || !(if ix + k.CW < k.Wc then true else if initY ≠ 0 then false else flags.testBit p.bit)) && decide (x + k.tw ≥ min k.Wc (ix + k.CW))))
          (!(decide (x > ix) || (!(if initX ≠ 0 then false else if iy + k.CH < k.Hc then true else flags.testBit (p.bit + 3)) && decide (y + k.th ≥ min k.Hc (iy + k.CH))))) y x])
    (fun y D hy1 hy2 hy3 hD => by
      have my := mod_back m2 hy2 hy3
      have s1 := step_le hk.th hk.H my (by omega)
      have s2 := step_le hk.th hk.ch hy3 (by omega)
      -- the columns
      have hcol := for_good (G := TbGood I) hk.tw (Inv := fun x D => k.Inv I D0 iy ix y x D) (v0 := ix) (e := min k.Wc (ix + k.CW))
        (g := fun x => [tbAt p x0 y0 bx by' k.tw k.th
          (!((decide (y > iy) || !(if ix + k.CW < k.Wc then true else if initY ≠ 0 then false else flags.testBit p.bit)) && decide (x + k.tw ≥ min k.Wc (ix + k.CW))))
          (!(decide (x > ix) || (!(if initX ≠ 0 then false else if iy + k.CH < k.Hc then true else flags.testBit (p.bit + 3)) && decide (y + k.th ≥ min k.Hc (iy + k.CH))))) y x])
        (fun x D hx1 hx2 hx3 hD => by
          have mx := mod_back m1 hx2 hx3
          have s3 := step_le hk.tw hk.W mx (by omega)
          have s4 := step_le hk.tw hk.cw hx3 (by omega)
          have hk' : k.Ok I D0 ((flags.testBit p.bit).toNat = 1) ((flags.testBit (p.bit + 3)).toNat = 1) := by
            have e : ∀ b : Bool, (b.toNat = 1) = (b = true) := by intro b; cases b <;> simp
            rw [e, e]; exact hk
          have := tb_good hk' (t := tbAt p x0 y0 bx by' k.tw k.th
          (!((decide (y > iy) || !(if ix + k.CW < k.Wc then true else if initY ≠ 0 then false else flags.testBit p.bit)) && decide (x + k.tw ≥ min k.Wc (ix + k.CW))))
          (!(decide (x > ix) || (!(if initX ≠ 0 then false else if iy + k.CH < k.Hc then true else flags.testBit (p.bit + 3)) && decide (y + k.th ≥ min k.Hc (iy + k.CH))))) y x)
            (iy := iy) (ix := ix) (y := y) (x := x) ⟨hy2, hx2, by omega, by omega, by omega, by omega, s1, s3, by omega, by omega⟩ hD
            (by rw [eX]; exact shift_pos hH) (by rw [eY]; exact shift_pos hV) rfl rfl
            (flag_tr _ (by omega)) (flag_bl _ (by omega))
          exact ⟨⟨this.1, trivial⟩, this.2⟩)
        (min k.Wc (ix + k.CW)) ix D (by omega) (Nat.le_refl _) (by rw [Nat.sub_self, Nat.zero_mod]) hD
      obtain ⟨q1, x', q2, q3, q4, q5⟩ := hcol
      refine ⟨q1, fun a b hab => (q5 a b hab).trans (or_congr Iff.rfl ?_)⟩
      have hc : k.Wc = k.W ∨ (k.Wc ≤ k.W ∧ a < k.X + k.Wc) := c1.imp id (fun h => ⟨h.1, h.2 _ _ hab⟩)
      unfold Blk.done; omega)
    (min k.Hc (iy + k.CH)) iy D (by omega) (Nat.le_refl _) (by rw [Nat.sub_self, Nat.zero_mod]) hi
  obtain ⟨q1, y', q2, q3, q4, q5⟩ := hrow
  refine ⟨q1, fun a b hab => (q5 a b hab).trans (or_congr Iff.rfl ?_)⟩
  have hc : k.Hc = k.H ∨ (k.Hc ≤ k.H ∧ b < k.Y + k.Hc) := c2.imp id (fun h => ⟨h.1, h.2 _ _ hab⟩)
  unfold Blk.done; omega

end Dav1d.Part
