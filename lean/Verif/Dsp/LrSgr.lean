import Verif.Dsp.LrWiener
/-!
# The rows of the self-guided filter

What the rows hold while sgr_3x3_c, sgr_5x5_c and sgr_mix_c go through a block.
-/
namespace Dav1d.Lr

/-! ## Rows of sums -/

/-- The pixel at column `x` of a row with padding. -/
def px (a : Args) (left : Option (Nat → Int)) (src : Int → Int) (x : Int) : Int :=
  if x < 0 then leftPx a left src (-x).toNat else rightPx a src x

theorem px_left (a : Args) (left : Option (Nat → Int)) (src : Int → Int) (k : Nat) (hk : 0 < k) :
    px a left src (-(k : Int)) = leftPx a left src k := by
  unfold px; rw [if_pos (by omega)]; congr 1; omega

theorem px_right (a : Args) (left : Option (Nat → Int)) (src : Int → Int) (k : Nat) :
    px a left src (k : Int) = rightPx a src k := by
  unfold px; rw [if_neg (by omega)]

/-- The sums of 3 pixels as stored. -/
def val3 (d : Depth) (p : Int → Int) (k : Nat) : Int × Int :=
  (i32 (p ((k : Int) - 2) * p ((k : Int) - 2) + p ((k : Int) - 1) * p ((k : Int) - 1) + p k * p k),
   coef d (p ((k : Int) - 2) + p ((k : Int) - 1) + p k))

/-- The sums of 5 pixels as stored. -/
def val5 (d : Depth) (p : Int → Int) (k : Nat) : Int × Int :=
  (i32 (p ((k : Int) - 3) * p ((k : Int) - 3) + p ((k : Int) - 2) * p ((k : Int) - 2) + p ((k : Int) - 1) * p ((k : Int) - 1) +
     p k * p k + p ((k : Int) + 1) * p ((k : Int) + 1)),
   coef d (p ((k : Int) - 3) + p ((k : Int) - 2) + p ((k : Int) - 1) + p k + p ((k : Int) + 1)))

theorem box3RowH_eq (d : Depth) (a : Args) (left : Option (Nat → Int)) (src : Int → Int) (row : Row) (k : Nat)
    (hk : k < a.w + 2) : box3RowH d a left src row k = val3 d (px a left src) k := by
  have key : ∀ n, iter n (fun i (s : (Int × Int) × Row) =>
      ((s.1.2, rightPx a src i),
       fun k => if k = i then
           (i32 (s.1.1 * s.1.1 + s.1.2 * s.1.2 + rightPx a src i * rightPx a src i), coef d (s.1.1 + s.1.2 + rightPx a src i))
         else s.2 k))
      ((leftPx a left src 2, leftPx a left src 1), row) =
      ((px a left src ((n : Int) - 2), px a left src ((n : Int) - 1)),
        fun k => if k < n then val3 d (px a left src) k else row k) := by
    intro n
    induction n with
    | zero =>
      have e1 := px_left a left src 1 (by omega)
      have e2 := px_left a left src 2 (by omega)
      rw [← e1, ← e2]
      rfl
    | succ n ih =>
      show (fun (i : Nat) (s : (Int × Int) × Row) =>
        ((s.1.2, rightPx a src (i : Nat)),
         fun k => if k = i then
             (i32 (s.1.1 * s.1.1 + s.1.2 * s.1.2 + rightPx a src i * rightPx a src i), coef d (s.1.1 + s.1.2 + rightPx a src i))
           else s.2 k)) n _ = _
      rw [ih]
      dsimp only
      have e0 := px_right a left src n
      rw [← e0]
      have e1 : ((n + 1 : Nat) : Int) - 2 = (n : Int) - 1 := by omega
      have e2 : ((n + 1 : Nat) : Int) - 1 = (n : Int) := by omega
      rw [e1, e2]
      congr 1
      funext k
      by_cases h : k = n
      · rw [if_pos h, if_pos (by omega), h]; rfl
      · rw [if_neg h]
        split_ifs <;> first | rfl | omega
  have e : box3RowH d a left src row k = _ := congrFun (congrArg Prod.snd (key (a.w + 2))) k
  rw [e]
  exact if_pos hk

theorem box5RowH_eq (d : Depth) (a : Args) (left : Option (Nat → Int)) (src : Int → Int) (row : Row) (hw : 0 < a.w) (k : Nat)
    (hk : k < a.w + 2) : box5RowH d a left src row k = val5 d (px a left src) k := by
  have key : ∀ n, iter n (fun i (s : (Int × Int × Int × Int) × Row) =>
      ((s.1.2.1, s.1.2.2.1, s.1.2.2.2, rightPx a src (i + 1)),
       fun k => if k = i then
           (i32 (s.1.1 * s.1.1 + s.1.2.1 * s.1.2.1 + s.1.2.2.1 * s.1.2.2.1 + s.1.2.2.2 * s.1.2.2.2 +
              rightPx a src (i + 1) * rightPx a src (i + 1)),
            coef d (s.1.1 + s.1.2.1 + s.1.2.2.1 + s.1.2.2.2 + rightPx a src (i + 1)))
         else s.2 k))
      ((leftPx a left src 3, leftPx a left src 2, leftPx a left src 1, src 0), row) =
      ((px a left src ((n : Int) - 3), px a left src ((n : Int) - 2), px a left src ((n : Int) - 1), px a left src n),
        fun k => if k < n then val5 d (px a left src) k else row k) := by
    intro n
    induction n with
    | zero =>
      have e1 := px_left a left src 1 (by omega)
      have e2 := px_left a left src 2 (by omega)
      have e3 := px_left a left src 3 (by omega)
      have e0 : px a left src ((0 : Nat) : Int) = src 0 := by
        rw [px_right]; unfold rightPx; rw [if_pos (by left; omega)]; rfl
      rw [← e1, ← e2, ← e3, ← e0]
      rfl
    | succ n ih =>
      show (fun (i : Nat) (s : (Int × Int × Int × Int) × Row) =>
      ((s.1.2.1, s.1.2.2.1, s.1.2.2.2, rightPx a src ((i : Int) + 1)),
       fun k => if k = i then
           (i32 (s.1.1 * s.1.1 + s.1.2.1 * s.1.2.1 + s.1.2.2.1 * s.1.2.2.1 + s.1.2.2.2 * s.1.2.2.2 +
              rightPx a src ((i : Int) + 1) * rightPx a src ((i : Int) + 1)),
            coef d (s.1.1 + s.1.2.1 + s.1.2.2.1 + s.1.2.2.2 + rightPx a src ((i : Int) + 1)))
         else s.2 k)) n _ = _
      rw [ih]
      dsimp only
      have e0 := px_right a left src (n + 1)
      have ec : ((n + 1 : Nat) : Int) = (n : Int) + 1 := by omega
      rw [ec] at e0
      rw [← e0]
      have e1 : ((n + 1 : Nat) : Int) - 3 = (n : Int) - 2 := by omega
      have e2 : ((n + 1 : Nat) : Int) - 2 = (n : Int) - 1 := by omega
      have e3 : ((n + 1 : Nat) : Int) - 1 = (n : Int) := by omega
      rw [e1, e2, e3, ec]
      congr 1
      funext k
      by_cases h : k = n
      · rw [if_pos h, if_pos (by omega), h]; rfl
      · rw [if_neg h]
        split_ifs <;> first | rfl | omega
  have e : box5RowH d a left src row k = _ := congrFun (congrArg Prod.snd (key (a.w + 2))) k
  rw [e]
  exact if_pos hk

/-- The sums of 3 samples of row `y`, as stored. -/
def h3 (c : Ctx) (y : Int) (k : Nat) : Int × Int := val3 c.d (Spec.source c.a y) k

/-- The sums of 5 samples of row `y`, as stored. -/
def h5 (c : Ctx) (y : Int) (k : Nat) : Int × Int := val5 c.d (Spec.source c.a y) k

theorem px_colX (a : Args) (hw : 0 < a.w) (left : Option (Nat → Int)) (src : Int → Int) (f : Int → Int) (x : Int)
    (h3 : -3 ≤ x) (hf0 : ∀ x, 0 ≤ x → f x = src x)
    (hf1 : ∀ x, -3 ≤ x → x < 0 → f x = match left with | some l => l (4 - (-x).toNat) | none => src (-((-x).toNat : Int))) :
    px a left src x = f (colX a x) := by
  by_cases hx : x < 0
  · have e1 : px a left src x = leftPx a left src (-x).toNat := by unfold px; rw [if_pos hx]
    rw [e1]
    by_cases hl : a.e.left = true
    · have e2 : colX a x = x := by
        unfold colX; rw [if_neg (fun h => h.2 hl), if_neg (by omega)]
      rw [e2, hf1 x h3 hx]
      unfold leftPx
      rw [if_pos hl]
      cases left <;> rfl
    · have e2 : colX a x = 0 := by unfold colX; rw [if_pos ⟨hx, hl⟩]
      rw [e2, hf0 0 le_rfl]
      unfold leftPx
      rw [if_neg hl]
  · have e1 : px a left src x = rightPx a src x := by unfold px; rw [if_neg hx]
    rw [e1]
    by_cases hr : a.w ≤ x ∧ ¬a.e.right
    · have e2 : colX a x = (a.w : Int) - 1 := by unfold colX; rw [if_neg (fun h => hx h.1), if_pos hr]
      rw [e2, hf0 _ (by omega)]
      unfold rightPx
      rw [if_neg]
      rintro (h | h)
      · omega
      · exact hr.2 h
    · have e2 : colX a x = x := by unfold colX; rw [if_neg (fun h => hx h.1), if_neg hr]
      rw [e2, hf0 _ (by omega)]
      unfold rightPx
      rw [if_pos]
      by_cases h : x < a.w
      · exact Or.inl h
      · right
        by_contra h'
        exact hr ⟨by omega, h'⟩

theorem px_lpf (a : Args) (hw : 0 < a.w) (y : Int) (k : Int) (x : Int) (h3 : -3 ≤ x)
    (h : ∀ x, rowSel a y x = a.lpf k x) : px a none (a.lpf k) x = Spec.source a y x := by
  rw [source_eq, px_colX a hw none (a.lpf k) (rowSel a y) x h3 (fun x _ => h x)]
  intro x _ hx
  rw [h]
  dsimp only
  congr 1
  omega

theorem px_in (a : Args) (hw : 0 < a.w) (y : Int) (n : Nat) (x : Int) (h3 : -3 ≤ x)
    (h : ∀ x, rowSel a y x = if x < 0 then a.left n (x + 4).toNat else a.dst n x) :
    px a (some (a.left n)) (a.dst n) x = Spec.source a y x := by
  rw [source_eq, px_colX a hw _ (a.dst n) (rowSel a y) x h3 (fun x hx => by rw [h, if_neg (by omega)])]
  intro x _ hx
  rw [h, if_pos hx]
  dsimp only
  congr 1
  omega

theorem val3_congr (d : Depth) (p q : Int → Int) (k : Nat) (h : ∀ x, -3 ≤ x → p x = q x) : val3 d p k = val3 d q k := by
  unfold val3
  rw [h _ (by omega), h _ (by omega), h _ (by omega)]

theorem val5_congr (d : Depth) (p q : Int → Int) (k : Nat) (h : ∀ x, -3 ≤ x → p x = q x) : val5 d p k = val5 d q k := by
  unfold val5
  rw [h _ (by omega), h _ (by omega), h _ (by omega), h _ (by omega), h ((k : Int) + 1) (by omega)]

/-- Rows of the block. -/
theorem row_in (c : Ctx) (hw : 0 < c.a.w) (n : Nat) (hn : n < c.a.h) (dst : Int → Int → Int)
    (hd : ∀ x, dst n x = c.a.dst n x) (row : Row) (k : Nat) (hk : k < c.a.w + 2) :
    box3RowH c.d c.a (some (c.a.left n)) (dst n) row k = h3 c n k ∧
    box5RowH c.d c.a (some (c.a.left n)) (dst n) row k = h5 c n k := by
  have e : dst n = c.a.dst n := funext hd
  rw [e]
  have hc : clampY c.a (n : Int) = n := by unfold clampY; rw [if_neg (by omega), if_neg (by omega)]
  have key : ∀ x : Int, -3 ≤ x → px c.a (some (c.a.left n)) (c.a.dst n) x = Spec.source c.a n x := by
    intro x hx
    apply px_in c.a hw n n x hx
    intro x
    rw [rowSel_in c.a n x (by omega) (by omega), hc]
    simp
  constructor
  · rw [box3RowH_eq c.d c.a _ _ row k hk]
    exact val3_congr _ _ _ _ key
  · rw [box5RowH_eq c.d c.a _ _ row hw k hk]
    exact val5_congr _ _ _ _ key

/-- Rows above. -/
theorem row_top (c : Ctx) (hw : 0 < c.a.w) (ht : c.a.e.top = true) (y : Int) (hy : y < 0) (row : Row) (k : Nat)
    (hk : k < c.a.w + 2) :
    box3RowH c.d c.a none (c.a.lpf (if y = -1 then 1 else 0)) row k = h3 c y k ∧
    box5RowH c.d c.a none (c.a.lpf (if y = -1 then 1 else 0)) row k = h5 c y k := by
  have key : ∀ x : Int, -3 ≤ x → px c.a none (c.a.lpf (if y = -1 then 1 else 0)) x = Spec.source c.a y x := by
    intro x hx
    exact px_lpf c.a hw y _ x hx (fun x => rowSel_top c.a y x hy ht)
  constructor
  · rw [box3RowH_eq c.d c.a _ _ row k hk]
    exact val3_congr _ _ _ _ key
  · rw [box5RowH_eq c.d c.a _ _ row hw k hk]
    exact val5_congr _ _ _ _ key

/-- Rows below. -/
theorem row_bottom (c : Ctx) (hw : 0 < c.a.w) (ht : c.a.e.bottom = true) (y : Int) (hy : c.a.h ≤ y) (row : Row) (k : Nat)
    (hk : k < c.a.w + 2) :
    box3RowH c.d c.a none (c.a.lpf (if y = c.a.h then 6 else 7)) row k = h3 c y k ∧
    box5RowH c.d c.a none (c.a.lpf (if y = c.a.h then 6 else 7)) row k = h5 c y k := by
  have key : ∀ x : Int, -3 ≤ x → px c.a none (c.a.lpf (if y = c.a.h then 6 else 7)) x = Spec.source c.a y x := by
    intro x hx
    exact px_lpf c.a hw y _ x hx (fun x => rowSel_bottom c.a y x hy ht)
  constructor
  · rw [box3RowH_eq c.d c.a _ _ row k hk]
    exact val3_congr _ _ _ _ key
  · rw [box5RowH_eq c.d c.a _ _ row hw k hk]
    exact val5_congr _ _ _ _ key

/-- Without rows above, the first row stands for them. -/
theorem h_first (c : Ctx) (ht : c.a.e.top = false) (hh : 0 < c.a.h) (y : Int) (hy : y ≤ 0) : h3 c y = h3 c 0 ∧ h5 c y = h5 c 0 := by
  have e : Spec.source c.a y = Spec.source c.a 0 := by
    funext x
    rw [source_eq, source_eq, rowSel_in c.a y _ (fun _ => ht) (by omega), rowSel_in c.a 0 _ (fun _ => ht) (by omega)]
    have : clampY c.a y = clampY c.a 0 := by
      unfold clampY
      split_ifs <;> omega
    rw [this]
  constructor <;> funext k
  · unfold h3; rw [e]
  · unfold h5; rw [e]

/-- Without rows below, the last row stands for them. -/
theorem h_last (c : Ctx) (ht : c.a.e.bottom = false) (hh : 0 < c.a.h) (y : Int) (hy : (c.a.h : Int) - 1 ≤ y) :
    h3 c y = h3 c ((c.a.h : Int) - 1) ∧ h5 c y = h5 c ((c.a.h : Int) - 1) := by
  have e : Spec.source c.a y = Spec.source c.a ((c.a.h : Int) - 1) := by
    funext x
    rw [source_eq, source_eq, rowSel_in c.a y _ (by omega) (fun _ => ht), rowSel_in c.a _ _ (by omega) (fun _ => ht)]
    have : clampY c.a y = clampY c.a ((c.a.h : Int) - 1) := by
      unfold clampY
      split_ifs <;> omega
    rw [this]
  constructor <;> funext k
  · unfold h3; rw [e]
  · unfold h5; rw [e]

/-- The third row above is the second. -/
theorem h_third (c : Ctx) (ht : c.a.e.top = true) : h5 c (-3) = h5 c (-2) := by
  have e : Spec.source c.a (-3) = Spec.source c.a (-2) := by
    funext x
    rw [source_eq, source_eq, rowSel_top c.a _ _ (by omega) ht, rowSel_top c.a _ _ (by omega) ht]
    rfl
  funext k
  unfold h5
  rw [e]

/-! ## Rings -/

/-- Row `i` of a ring has the given values. -/
def Holds (c : Ctx) (r : Ring) (i : Nat) (f : Nat → Int × Int) : Prop := ∀ k < c.a.w + 2, r.get i k = f k

theorem get_putRow_same (r : Ring) (i k : Nat) (f : Row → Row) (h : r.ptr i = k) : (r.putRow k f).get i = f (r.get i) := by
  unfold Ring.get Ring.putRow; dsimp only; rw [if_pos h]

theorem get_putRow_ne (r : Ring) (i k : Nat) (f : Row → Row) (h : r.ptr i ≠ k) : (r.putRow k f).get i = r.get i := by
  unfold Ring.get Ring.putRow; dsimp only; rw [if_neg h]

theorem get_put_same (r : Ring) (i : Nat) (f : Row → Row) : (r.put i f).get i = f (r.get i) := get_putRow_same r i _ f rfl

theorem get_put_ne (r : Ring) (i j : Nat) (f : Row → Row) (h : r.ptr i ≠ r.ptr j) : (r.put j f).get i = r.get i :=
  get_putRow_ne r i _ f h

/-- The first `n` pointers are different. -/
def Inj (n : Nat) (r : Ring) : Prop := ∀ i < n, ∀ j < n, r.ptr i = r.ptr j → i = j

theorem inj_rotate (n : Nat) (r : Ring) (h : Inj n r) : Inj n (r.rotate n) := by
  intro i hi j hj e
  unfold Ring.rotate at e
  dsimp only at e
  split_ifs at e with h1 h2 h3 h4 h5 h6 <;> first | omega | skip
  · have := h _ h1 _ h2 e; omega
  · have := h _ h1 _ (by omega) e; omega
  · have := h _ (by omega) _ h5 e; omega

theorem inj_rotate5x2 (r : Ring) (h : Inj 5 r) : Inj 5 r.rotate5x2 := by
  intro i hi j hj e
  unfold Ring.rotate5x2 at e
  dsimp only at e
  split_ifs at e <;> first | omega | skip
  · have := h _ (by omega) _ (by omega) e; omega
  · have := h _ (by omega) _ (by omega) e; omega
  · have := h _ (by omega) _ (by omega) e; omega
  · have := h _ (by omega) _ (by omega) e; omega

theorem inj_putRow (n k : Nat) (r : Ring) (f : Row → Row) (h : Inj n r) : Inj n (r.putRow k f) := h

/-- `A` and `B` of row `y`, from boxes of 9 samples, as stored. -/
def ab3 (c : Ctx) (y : Int) (k : Nat) : Int × Int :=
  calcAb c.d c.g.s1 9 455
    (i32 ((h3 c (y - 1) k).1 + (h3 c y k).1 + (h3 c (y + 1) k).1),
     coef c.d ((h3 c (y - 1) k).2 + (h3 c y k).2 + (h3 c (y + 1) k).2))

/-- `A` and `B` of row `y`, from boxes of 25 samples, as stored. -/
def ab5 (c : Ctx) (y : Int) (k : Nat) : Int × Int :=
  calcAb c.d c.g.s0 25 164
    (i32 ((h5 c (y - 2) k).1 + (h5 c (y - 1) k).1 + (h5 c y k).1 + (h5 c (y + 1) k).1 + (h5 c (y + 2) k).1),
     coef c.d ((h5 c (y - 2) k).2 + (h5 c (y - 1) k).2 + (h5 c y k).2 + (h5 c (y + 1) k).2 + (h5 c (y + 2) k).2))

theorem vert3_holds (c : Ctx) (sum : Ring) (y : Int) (h0 : Holds c sum 0 (h3 c (y - 1))) (h1 : Holds c sum 1 (h3 c y))
    (h2 : Holds c sum 2 (h3 c (y + 1))) (out : Row) (k : Nat) (hk : k < c.a.w + 2) :
    calcRowAb c.d c.a.w c.g.s1 9 455 (box3RowV c.d c.a.w sum out) k = ab3 c y k := by
  unfold calcRowAb box3RowV ab3
  rw [if_pos hk, if_pos hk, h0 k hk, h1 k hk, h2 k hk]

theorem vert5_holds (c : Ctx) (sum : Ring) (y : Int) (h0 : Holds c sum 0 (h5 c (y - 2))) (h1 : Holds c sum 1 (h5 c (y - 1)))
    (h2 : Holds c sum 2 (h5 c y)) (h3 : Holds c sum 3 (h5 c (y + 1))) (h4 : Holds c sum 4 (h5 c (y + 2)))
    (out : Row) (k : Nat) (hk : k < c.a.w + 2) :
    calcRowAb c.d c.a.w c.g.s0 25 164 (box5RowV c.d c.a.w sum out) k = ab5 c y k := by
  unfold calcRowAb box5RowV ab5
  rw [if_pos hk, if_pos hk, h0 k hk, h1 k hk, h2 k hk, h3 k hk, h4 k hk]

/-! ## Pixels -/

/-- `tmp` of sgr_finish_filter_row1 for the pixel at `y`, `x`. -/
def t3 (c : Ctx) (y : Int) (x : Nat) : Int :=
  let P (f : Int × Int → Int) : Nat → Nat → Int := fun k j => f (ab3 c (y - 1 + k) j)
  coef c.d (asr (eightNeighbors (P (·.1)) (x + 1) - eightNeighbors (P (·.2)) (x + 1) * c.a.dst y x + 2 ^ 8) 9)

/-- `tmp` of sgr_finish_filter2 for the pixel at `y`, `x`. -/
def t5 (c : Ctx) (y : Int) (x : Nat) : Int :=
  if y % 2 = 0 then
    let P (f : Int × Int → Int) : Nat → Nat → Int := fun k j => f (ab5 c (y - 1 + 2 * k) j)
    coef c.d (asr (sixNeighbors (P (·.1)) (x + 1) - sixNeighbors (P (·.2)) (x + 1) * c.a.dst y x + 2 ^ 8) 9)
  else
    let q (f : Int × Int → Int) : Int := f (ab5 c y (x + 1)) * 6 + (f (ab5 c y x) + f (ab5 c y (x + 2))) * 5
    coef c.d (asr (q (·.1) - q (·.2) * c.a.dst y x + 2 ^ 7) 8)

theorem finishRow1_eq (c : Ctx) (r : Ring) (o : Nat) (y : Int) (src : Int → Int) (hs : ∀ x, src x = c.a.dst y x)
    (h0 : Holds c r o (ab3 c (y - 1))) (h1 : Holds c r (1 + o) (ab3 c y)) (h2 : Holds c r (2 + o) (ab3 c (y + 1)))
    (x : Nat) (hx : x < c.a.w) : finishRow1 c.d src r o x = t3 c y x := by
  have e : ∀ k < 3, ∀ j < c.a.w + 2, r.get (k + o) j = ab3 c (y - 1 + k) j := by
    intro k hk j hj
    have : k = 0 ∨ k = 1 ∨ k = 2 := by omega
    rcases this with rfl | rfl | rfl
    · rw [Nat.zero_add, h0 j hj]; congr 1; omega
    · rw [h1 j hj]; congr 1; omega
    · rw [h2 j hj]; congr 1; omega
  unfold finishRow1 t3 eightNeighbors
  dsimp only
  rw [e 0 (by omega) _ (by omega), e 1 (by omega) _ (by omega), e 2 (by omega) _ (by omega),
    e 0 (by omega) _ (by omega), e 1 (by omega) _ (by omega), e 2 (by omega) _ (by omega),
    e 0 (by omega) _ (by omega), e 1 (by omega) _ (by omega), e 2 (by omega) _ (by omega), hs]

theorem finish2First_eq (c : Ctx) (r : Ring) (y : Int) (hy : y % 2 = 0) (src : Int → Int) (hs : ∀ x, src x = c.a.dst y x)
    (h0 : Holds c r 0 (ab5 c (y - 1))) (h1 : Holds c r 1 (ab5 c (y + 1)))
    (x : Nat) (hx : x < c.a.w) : finish2First c.d src r x = t5 c y x := by
  have e : ∀ k < 2, ∀ j < c.a.w + 2, r.get k j = ab5 c (y - 1 + 2 * k) j := by
    intro k hk j hj
    have : k = 0 ∨ k = 1 := by omega
    rcases this with rfl | rfl
    · rw [h0 j hj]; congr 1; omega
    · rw [h1 j hj]; congr 1; omega
  unfold finish2First t5 sixNeighbors
  rw [if_pos hy]
  dsimp only
  rw [e 0 (by omega) _ (by omega), e 1 (by omega) _ (by omega), 
    e 0 (by omega) _ (by omega), e 1 (by omega) _ (by omega), 
    e 0 (by omega) _ (by omega), e 1 (by omega) _ (by omega), hs]

theorem finish2Second_eq (c : Ctx) (r : Ring) (y : Int) (hy : y % 2 = 1) (src : Int → Int) (hs : ∀ x, src x = c.a.dst y x)
    (h1 : Holds c r 1 (ab5 c y))
    (x : Nat) (hx : x < c.a.w) : finish2Second c.d src r x = t5 c y x := by
  unfold finish2Second t5
  rw [if_neg (by omega)]
  dsimp only
  rw [h1 _ (by omega), h1 _ (by omega), h1 _ (by omega), hs]

/-- The rows before `n` have the given pixels, nothing else has changed. -/
def DstOk (c : Ctx) (out : Int → Nat → Int) (n : Nat) (dst : Int → Int → Int) : Prop :=
  ∀ r x, dst r x = if 0 ≤ r ∧ r < n ∧ 0 ≤ x ∧ x < c.a.w then out r x.toNat else c.a.dst r x

/-- The pixel of sgr_3x3_c. -/
def out3 (c : Ctx) (y : Int) (x : Nat) : Int := c.d.clip (c.a.dst y x + asr (c.g.w1 * t3 c y x + 2 ^ 10) 11)

/-- The pixel of sgr_5x5_c. -/
def out5 (c : Ctx) (y : Int) (x : Nat) : Int := c.d.clip (c.a.dst y x + asr (c.g.w0 * t5 c y x + 2 ^ 10) 11)

/-- The pixel of sgr_mix_c. -/
def outM (c : Ctx) (y : Int) (x : Nat) : Int :=
  c.d.clip (c.a.dst y x + asr (c.g.w0 * t5 c y x + c.g.w1 * t3 c y x + 2 ^ 10) 11)

theorem DstOk.row {c : Ctx} {out : Int → Nat → Int} {n : Nat} {dst : Int → Int → Int} (h : DstOk c out n dst) (m : Nat)
    (hm : n ≤ m) (x : Int) : dst m x = c.a.dst m x := by
  rw [h, if_neg (by omega)]

theorem weighted1_ok (c : Ctx) (w : Int) (t t' : Nat → Int) (out : Int → Nat → Int) (n : Nat) (dst : Int → Int → Int)
    (h : DstOk c out n dst) (ht : ∀ x < c.a.w, t x = t' x)
    (ho : ∀ x < c.a.w, out n x = c.d.clip (c.a.dst n x + asr (w * t' x + 2 ^ 10) 11)) :
    DstOk c out (n + 1) (weightedRow1 c.d c.a.w w t n dst) := by
  intro r x
  unfold weightedRow1
  by_cases hr : r = n ∧ 0 ≤ x ∧ x < c.a.w
  · rw [if_pos hr, if_pos (by omega), hr.1, h.row n le_rfl, ht _ (by omega), ho _ (by omega)]
    congr 2
    congr 1
    omega
  · rw [if_neg hr, h]
    split_ifs <;> first | rfl | omega

theorem weighted2_ok (c : Ctx) (w0 w1 : Int) (t1 t1' t2 t2' : Nat → Int) (out : Int → Nat → Int) (n : Nat)
    (dst : Int → Int → Int)
    (h : DstOk c out n dst) (ht1 : ∀ x < c.a.w, t1 x = t1' x) (ht2 : ∀ x < c.a.w, t2 x = t2' x)
    (ho : ∀ x < c.a.w, out n x = c.d.clip (c.a.dst n x + asr (w0 * t1' x + w1 * t2' x + 2 ^ 10) 11)) :
    DstOk c out (n + 1) (weightedRow2 c.d c.a.w w0 w1 t1 t2 n dst) := by
  intro r x
  unfold weightedRow2
  by_cases hr : r = n ∧ 0 ≤ x ∧ x < c.a.w
  · rw [if_pos hr, if_pos (by omega), hr.1, h.row n le_rfl, ht1 _ (by omega), ht2 _ (by omega), ho _ (by omega)]
    congr 2
    congr 1
    omega
  · rw [if_neg hr, h]
    split_ifs <;> first | rfl | omega

end Dav1d.Lr
