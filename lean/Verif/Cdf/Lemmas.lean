import Verif.Cdf.Model
import Verif.Msac.EncProg
/-! Lemmas about the layout and the copies of the probability tables. -/
namespace Dav1d.CdfTab

theorem mem_ctxFields (f : Field) : f ∈ ctxFields := by
  have hc : ∀ f : CoefF, f ∈ CoefF.all := by intro f; cases f <;> decide
  have hm : ∀ f : ModeF, f ∈ ModeF.all := by intro f; cases f <;> decide
  have hv : ∀ f : MvF, f ∈ MvF.all := by intro f; cases f <;> decide
  unfold ctxFields
  simp only [List.mem_append, List.mem_map]
  cases f with
  | coef f => exact .inl (.inl (.inl (.inl ⟨f, hc f, rfl⟩)))
  | mode f => exact .inl (.inl (.inl (.inr ⟨f, hm f, rfl⟩)))
  | mv s f =>
    cases s
    · exact .inl (.inl (.inr ⟨f, hv f, rfl⟩))
    · exact .inl (.inr ⟨f, hv f, rfl⟩)
  | joint => exact .inr (by decide)
  | kfym => exact .inr (by decide)

/-- A property of all members, checked on the list. -/
theorem forall_field {p : Field → Bool} (h : ctxFields.all p = true) (f : Field) : p f = true :=
  List.all_eq_true.1 h f (mem_ctxFields f)

theorem find_of_disjoint (off : Field → Nat) (w : Nat) : ∀ (l : List Field) (_ : l.Pairwise (fun f g => off f + f.size ≤ off g))
    (f : Field) (_ : f ∈ l) (_ : off f ≤ w ∧ w < off f + f.size),
    l.find? (fun f => decide (off f ≤ w ∧ w < off f + f.size)) = some f := by
  intro l
  induction l with
  | nil => intro _ f hf; cases hf
  | cons g l ih =>
    intro hp f hf hw
    obtain ⟨hg, hp⟩ := List.pairwise_cons.1 hp
    rcases List.mem_cons.1 hf with rfl | hf
    · rw [List.find?_cons_of_pos (by simpa using hw)]
    · have := hg f hf
      rw [List.find?_cons_of_neg (by simp; omega)]
      exact ih hp f hf hw

theorem defFields_disjoint : defFields.Pairwise (fun f g => defOff f + f.size ≤ defOff g) := by decide +kernel

theorem defWord_eq (f : Field) (hf : f ∈ defFields) (i : Nat) (hi : i < f.size) :
    defWord (defOff f + i) = initWord (initRows 0 f) f.width i := by
  unfold defWord
  rw [find_of_disjoint defOff _ _ defFields_disjoint f hf (by omega)]
  simp only [Nat.add_sub_cancel_left]

/-- The member of `default_cdf` that a member of `CdfContext` is copied from. -/
def origin : Field → Field
  | .mv _ f => .mv false f
  | f => f

/-- Where a member lies in the ranges copied by `copyStatic`. -/
def copyCheck (f : Field) : Bool :=
  let comp1 := ctxMv + mvCompSize
  match f with
  | .coef _ => decide (ctxOff f + f.size ≤ ctxM ∧ ctxOff f + f.size ≤ comp1)
  | .mode _ | .mv false _ =>
    decide (ctxM ≤ ctxOff f ∧ ctxOff f + f.size ≤ ctxM + defOff .joint ∧ ctxOff f + f.size ≤ comp1 ∧
      ctxOff f - ctxM = defOff f) && decide (f ∈ defFields)
  | .mv true _ | .joint | .kfym =>
    decide (comp1 ≤ ctxOff f ∧ ctxOff f + f.size ≤ comp1 + (defSize - defMv) ∧
      ctxOff f - comp1 + defMv = defOff (origin f)) && decide (origin f ∈ defFields)

theorem copyCheck_all : ctxFields.all copyCheck = true := by decide +kernel

theorem size_origin (f : Field) : (origin f).size = f.size := by cases f <;> rfl
theorem width_origin (f : Field) : (origin f).width = f.width := by cases f <;> rfl
theorem initRows_origin (q : Nat) (f : Field) : initRows q (origin f) = initRows q f := by cases f <;> rfl

/-- The copy of the static tables fills every member with its initialisers. -/
theorem copyStatic_eq (q : Nat) (dst : Mem) (f : Field) (i : Nat) (hi : i < f.size) :
    copyStatic q dst f i = initWord (initRows q f) f.width i := by
  have h := forall_field copyCheck_all f
  unfold copyStatic
  cases f with
  | coef c =>
    simp only [copyCheck, decide_eq_true_eq] at h
    dsimp only
    rw [if_neg (by omega), if_neg (by omega)]
    rfl
  | mode c =>
    simp only [copyCheck, Bool.and_eq_true, decide_eq_true_eq] at h
    obtain ⟨⟨h1, h2, h3, h4⟩, h5⟩ := h
    dsimp only
    rw [if_neg (by omega), if_pos (by omega)]
    have : ctxOff (.mode c) + i - ctxM = defOff (.mode c) + i := by omega
    rw [this, defWord_eq _ h5 _ hi]; rfl
  | mv s c =>
    cases s with
    | false =>
      simp only [copyCheck, Bool.and_eq_true, decide_eq_true_eq] at h
      obtain ⟨⟨h1, h2, h3, h4⟩, h5⟩ := h
      dsimp only
      rw [if_neg (by omega), if_pos (by omega)]
      have : ctxOff (.mv false c) + i - ctxM = defOff (.mv false c) + i := by omega
      rw [this, defWord_eq _ h5 _ hi]; rfl
    | true =>
      simp only [copyCheck, Bool.and_eq_true, decide_eq_true_eq] at h
      obtain ⟨⟨h1, h2, h3⟩, h5⟩ := h
      dsimp only
      rw [if_pos (by omega)]
      have : ctxOff (.mv true c) + i - (ctxMv + mvCompSize) + defMv = defOff (origin (.mv true c)) + i := by omega
      rw [this, defWord_eq _ h5 _ (by rw [size_origin]; exact hi)]; rfl
  | joint =>
    simp only [copyCheck, Bool.and_eq_true, decide_eq_true_eq] at h
    obtain ⟨⟨h1, h2, h3⟩, h5⟩ := h
    dsimp only
    rw [if_pos (by omega)]
    have : ctxOff .joint + i - (ctxMv + mvCompSize) + defMv = defOff (origin .joint) + i := by omega
    rw [this, defWord_eq _ h5 _ hi]; rfl
  | kfym =>
    simp only [copyCheck, Bool.and_eq_true, decide_eq_true_eq] at h
    obtain ⟨⟨h1, h2, h3⟩, h5⟩ := h
    dsimp only
    rw [if_pos (by omega)]
    have : ctxOff .kfym + i - (ctxMv + mvCompSize) + defMv = defOff (origin .kfym) + i := by omega
    rw [this, defWord_eq _ h5 _ hi]; rfl

/-! ## Rows -/

/-- The check of one default row: as many values as probabilities, room for the counter, and a valid distribution. -/
def rowCheck (f : Field) (r : Nat) (row : List Nat) : Bool :=
  !rowUsed f r || (decide (row.length = nsym f r) && decide (∀ x ∈ row, 0 < x ∧ x ≤ 32768) &&
    decide (row.Pairwise (· ≤ ·)))

def rowsCheck (f : Field) : Nat → List (List Nat) → Bool
  | _, [] => true
  | r, row :: l => rowCheck f r row && rowsCheck f (r + 1) l

def fieldCheck (q : Nat) (f : Field) : Bool := decide ((initRows q f).length = f.rows) && rowsCheck f 0 (initRows q f)

theorem rowsCheck_get {f : Field} : ∀ (l : List (List Nat)) (r k : Nat) (_ : rowsCheck f r l = true) (_ : k < l.length),
    rowCheck f (r + k) (l.getD k []) = true := by
  intro l
  induction l with
  | nil => intro r k _ hk; simp at hk
  | cons a l ih =>
    intro r k h hk
    simp only [rowsCheck, Bool.and_eq_true] at h
    cases k with
    | zero => exact h.1
    | succ k =>
      have := ih (r + 1) k h.2 (by simpa using hk)
      rw [show r + (k + 1) = r + 1 + k by omega]
      simpa using this

theorem fieldCheck0 : ctxFields.all (fieldCheck 0) = true := by decide +kernel
theorem fieldCheck1 : ctxFields.all (fieldCheck 1) = true := by decide +kernel
theorem fieldCheck2 : ctxFields.all (fieldCheck 2) = true := by decide +kernel
theorem fieldCheck3 : ctxFields.all (fieldCheck 3) = true := by decide +kernel

theorem defaultRow_ok (q : Nat) (hq : q < 4) (t : Tab) (ht : rowUsed t.field t.row = true) :
    ((initRows q t.field).getD t.row []).length = t.n ∧ (∀ x ∈ (initRows q t.field).getD t.row [], 0 < x ∧ x ≤ 32768) ∧
    ((initRows q t.field).getD t.row []).Pairwise (· ≤ ·) := by
  have h : fieldCheck q t.field = true := by
    have : q = 0 ∨ q = 1 ∨ q = 2 ∨ q = 3 := by omega
    rcases this with rfl | rfl | rfl | rfl
    · exact forall_field fieldCheck0 _
    · exact forall_field fieldCheck1 _
    · exact forall_field fieldCheck2 _
    · exact forall_field fieldCheck3 _
  unfold fieldCheck at h
  simp only [Bool.and_eq_true, decide_eq_true_eq] at h
  have hr : t.row < t.field.rows := by
    unfold rowUsed at ht
    simp only [Bool.and_eq_true, decide_eq_true_eq] at ht
    exact ht.1
  have := rowsCheck_get _ 0 t.row h.2 (by omega)
  rw [Nat.zero_add] at this
  unfold rowCheck at this
  rw [ht] at this
  simp only [Bool.not_true, Bool.false_or, Bool.and_eq_true, decide_eq_true_eq] at this
  exact ⟨this.1.1, this.1.2, this.2⟩

/-- The number of probabilities fits the width of the member. -/
def widthCheck (f : Field) : Bool :=
  decide (∀ r ∈ List.range f.rows, 1 ≤ nsym f r ∧ nsym f r ≤ 15 ∧ nsym f r < f.width)

theorem widthCheck_all : ctxFields.all widthCheck = true := by decide +kernel

theorem n_bounds (t : Tab) (hr : t.row < t.field.rows) : 1 ≤ t.n ∧ t.n ≤ 15 ∧ t.n < t.field.width := by
  have h := forall_field widthCheck_all t.field
  unfold widthCheck at h
  rw [decide_eq_true_eq] at h
  exact h t.row (List.mem_range.2 hr)

theorem used_row {t : Tab} (ht : rowUsed t.field t.row = true) : t.row < t.field.rows := by
  unfold rowUsed at ht
  simp only [Bool.and_eq_true, decide_eq_true_eq] at ht
  exact ht.1

theorem read_used {t : Tab} {k : Kind} (ht : t.readBy k = true) : rowUsed t.field t.row = true := by
  unfold Tab.readBy at ht
  rw [Bool.and_eq_true] at ht
  exact ht.1

theorem index_lt {t : Tab} (hr : t.row < t.field.rows) {i : Nat} (hi : i ≤ t.n) :
    t.row * t.field.width + i < t.field.size := by
  have := (n_bounds t hr).2.2
  unfold Field.size
  have h2 : (t.row + 1) * t.field.width ≤ t.field.rows * t.field.width := Nat.mul_le_mul_right _ hr
  rw [Nat.add_mul] at h2
  omega

theorem row_length (m : Mem) (t : Tab) : (m.row t).length = t.n + 1 := by simp [Mem.row]

theorem row_congr {m m' : Mem} {t : Tab} (h : ∀ i ≤ t.n, m t.field (t.row * t.field.width + i) = m' t.field (t.row * t.field.width + i)) :
    m.row t = m'.row t := by
  unfold Mem.row
  apply List.map_congr_left
  intro i hi
  rw [List.mem_range] at hi
  exact h i (by omega)

/-- Any row: its probabilities and its counter. -/
theorem row_split (m : Mem) (t : Tab) :
    m.row t = (List.range t.n).map (fun i => m t.field (t.row * t.field.width + i)) ++ [m t.field (t.row * t.field.width + t.n)] := by
  unfold Mem.row
  rw [List.range_succ, List.map_append]
  rfl

/-- The row of a table after copying the static tables. -/
theorem static_row (q : Nat) (hq : q < 4) (junk : Mem) (t : Tab) (ht : rowUsed t.field t.row = true) :
    (copyStatic q junk).row t = ((initRows q t.field).getD t.row []).map (fun x => 32768 - x) ++ [0] := by
  obtain ⟨h1, _, _⟩ := defaultRow_ok q hq t ht
  have hr := used_row ht
  obtain ⟨b1, b2, b3⟩ := n_bounds t hr
  apply List.ext_getElem
  · rw [row_length, List.length_append, List.length_map, h1]; rfl
  · intro i hi hj
    rw [row_length] at hi
    simp only [Mem.row, List.getElem_map, List.getElem_range]
    rw [copyStatic_eq q junk _ _ (index_lt hr (by omega))]
    unfold initWord
    have e1 : (t.row * t.field.width + i) / t.field.width = t.row := by
      rw [Nat.mul_comm, Nat.mul_add_div (by omega), Nat.div_eq_of_lt (by omega), Nat.add_zero]
    have e2 : (t.row * t.field.width + i) % t.field.width = i := by
      rw [Nat.mul_comm, Nat.mul_add_mod, Nat.mod_eq_of_lt (by omega)]
    rw [e1, e2]
    by_cases hin : i < t.n
    · rw [List.getElem_append_left (by rw [List.length_map, h1]; exact hin), List.getElem?_eq_getElem (by rw [h1]; exact hin)]
      simp
    · rw [List.getElem_append_right (by rw [List.length_map, h1]; omega), List.getElem?_eq_none (by rw [h1]; omega)]
      simp

theorem static_valid (q : Nat) (hq : q < 4) (junk : Mem) (t : Tab) (ht : rowUsed t.field t.row = true) :
    CdfValid ((copyStatic q junk).row t) ∧ toSpec ((copyStatic q junk).row t) = Spec.defaultCdf q t := by
  obtain ⟨h1, h2, h3⟩ := defaultRow_ok q hq t ht
  obtain ⟨b1, b2, b3⟩ := n_bounds t (used_row ht)
  rw [static_row q hq junk t ht]
  constructor
  · refine ⟨_, _, rfl, by rw [List.length_map, h1]; exact b1, by rw [List.length_map, h1]; exact b2, ?_, ?_, by omega⟩
    · intro p hp
      obtain ⟨x, hx, rfl⟩ := List.mem_map.1 hp
      have := h2 x hx; omega
    · rw [List.pairwise_map]
      exact h3.imp (fun h => by omega)
  · rw [toSpec_append]
    unfold Spec.defaultCdf
    congr 2
    rw [List.map_map]
    conv => rhs; rw [← List.map_id ((initRows q t.field).getD t.row [])]
    apply List.map_congr_left
    intro x hx
    have := h2 x hx
    simp only [Function.comp_apply, id_eq]; omega

/-! ## Adaptation -/

theorem adapt_row_same (m : Mem) (t : Tab) (s : Nat) : (m.adapt t s).row t = Msac.adaptCdf (m.row t) t.n s := by
  have hl : (Msac.adaptCdf (m.row t) t.n s).length = t.n + 1 := by
    unfold Msac.adaptCdf; simp [row_length]
  apply List.ext_getElem
  · rw [row_length, hl]
  · intro i hi hj
    rw [row_length] at hi
    rw [hl] at hj
    simp only [Mem.row, List.getElem_map, List.getElem_range, Mem.adapt]
    rw [if_pos ⟨trivial, by omega, by omega⟩, Nat.add_sub_cancel_left, List.getD_eq_getElem?_getD,
      List.getElem?_eq_getElem (by rw [show (List.map (fun i => m t.field (t.row * t.field.width + i)) (List.range (t.n + 1))) = m.row t from rfl, hl]; exact hj)]
    rfl

theorem adapt_row_other (m : Mem) (t u : Tab) (s : Nat) (ht : t.row < t.field.rows) (hu : u.row < u.field.rows) (hne : u ≠ t) :
    (m.adapt t s).row u = m.row u := by
  apply row_congr
  intro i hi
  unfold Mem.adapt
  rw [if_neg]
  rintro ⟨h1, h2, h3⟩
  have bt := (n_bounds t ht).2.2
  have bu := (n_bounds u hu).2.2
  apply hne
  obtain ⟨uf, ur⟩ := u
  obtain ⟨tf, tr⟩ := t
  simp only at h1 h2 h3 bt bu hi ⊢
  subst h1
  simp only [Tab.mk.injEq, true_and]
  rcases Nat.lt_trichotomy ur tr with h | h | h
  · have : (ur + 1) * uf.width ≤ tr * uf.width := Nat.mul_le_mul_right _ h
    rw [Nat.add_mul] at this
    omega
  · exact h
  · have : (tr + 1) * uf.width ≤ ur * uf.width := Nat.mul_le_mul_right _ h
    rw [Nat.add_mul] at this
    omega

/-! ## Update -/

/-- What is stored to a member in `commonStores` and in `interStores`: exactly the counters, of members before
`intrabc` and of members between `y_mode` and `kfym`; and where the member lies in the copied ranges. -/
def updCheck (f : Field) : Bool :=
  let counters := (List.range (if f = .mode .interintra then 4 else f.rows)).map (fun r => r * f.width + nsym f r)
  match f with
  | .mode .intrabc | .kfym =>
    decide (ctxOff (.mode .intrabc) ≤ ctxOff f) &&
    decide (ctxOff f + f.size ≤ ctxOff (.mode .yMode) ∨ ctxOff .kfym ≤ ctxOff f) &&
    decide (storesTo commonStores f = []) && decide (storesTo interStores f = [])
  | .joint | .mv _ _ =>
    decide (ctxOff (.mode .intrabc) ≤ ctxOff f) &&
    decide (ctxOff (.mode .yMode) ≤ ctxOff f ∧ ctxOff f + f.size ≤ ctxOff .kfym) &&
    decide (storesTo commonStores f = []) && decide (storesTo interStores f = counters)
  | .coef _ =>
    decide (ctxOff f + f.size ≤ ctxOff (.mode .intrabc)) && decide (ctxOff f + f.size ≤ ctxOff (.mode .yMode)) &&
    decide (storesTo commonStores f = counters) && decide (storesTo interStores f = [])
  | .mode g =>
    if interOnly g then
      decide (ctxOff (.mode .intrabc) ≤ ctxOff f) &&
      decide (ctxOff (.mode .yMode) ≤ ctxOff f ∧ ctxOff f + f.size ≤ ctxOff .kfym) &&
      decide (storesTo commonStores f = []) && decide (storesTo interStores f = counters)
    else
      decide (ctxOff f + f.size ≤ ctxOff (.mode .intrabc)) && decide (ctxOff f + f.size ≤ ctxOff (.mode .yMode)) &&
      decide (storesTo commonStores f = counters) && decide (storesTo interStores f = [])

theorem updCheck_all : ctxFields.all updCheck = true := by decide +kernel

end Dav1d.CdfTab
