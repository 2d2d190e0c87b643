import Verif.Cdf.Lemmas
/-! The tables of the code follow those of the specification. -/
namespace Dav1d.CdfTab

/-- Members saved by frames of kind `k`. -/
def saved (k : Kind) : Field → Bool
  | .mode .intrabc => false
  | .kfym => false
  | .coef _ => true
  | .mode g => !interOnly g || k == .inter
  | .mv _ _ => k == .inter
  | .joint => k == .inter

/-- A table with the counter set to 0. -/
def cleared (d : List Nat) : List Nat := d.dropLast ++ [0]

theorem zero_row_none {l : List (Field × List Nat)} (m : Mem) (t : Tab) (h : storesTo l t.field = []) :
    (zero l m).row t = m.row t := by
  apply row_congr
  intro i _
  unfold zero
  rw [h, if_neg (by simp)]

theorem zero_row {l : List (Field × List Nat)} (m : Mem) (t : Tab) (N : Nat) (hN : t.row < N) (hr : N ≤ t.field.rows)
    (h : storesTo l t.field = (List.range N).map (fun r => r * t.field.width + nsym t.field r)) :
    (zero l m).row t = cleared (m.row t) := by
  have b := (n_bounds t (by omega)).2.2
  rw [row_split, row_split, cleared, List.dropLast_concat]
  congr 1
  · apply List.map_congr_left
    intro i hi
    rw [List.mem_range] at hi
    unfold zero
    rw [h, if_neg]
    intro hm
    obtain ⟨r, h1, h2⟩ := List.mem_map.1 hm
    rw [List.mem_range] at h1
    have b' := (n_bounds ⟨t.field, r⟩ (by show r < t.field.rows; omega)).2.2
    simp only [Tab.n] at b' hi b
    rcases Nat.lt_trichotomy r t.row with hc | hc | hc
    · have : (r + 1) * t.field.width ≤ t.row * t.field.width := Nat.mul_le_mul_right _ hc
      rw [Nat.add_mul] at this
      omega
    · subst hc; omega
    · have : (t.row + 1) * t.field.width ≤ r * t.field.width := Nat.mul_le_mul_right _ hc
      rw [Nat.add_mul] at this
      omega
  · unfold zero
    rw [h, if_pos]
    exact List.mem_map.2 ⟨t.row, List.mem_range.2 hN, rfl⟩

theorem copyRange_row {p : Nat → Prop} [DecidablePred p] (a b : Mem) (t : Tab) (hr : t.row < t.field.rows)
    (h : ∀ j, ctxOff t.field ≤ j → j < ctxOff t.field + t.field.size → p j) :
    Mem.row (fun f i => if p (ctxOff f + i) then a f i else b f i) t = a.row t := by
  apply row_congr
  intro i hi
  have := index_lt hr hi
  rw [if_pos (h _ (by omega) (by omega))]

theorem keepRange_row {p : Nat → Prop} [DecidablePred p] (a b : Mem) (t : Tab) (hr : t.row < t.field.rows)
    (h : ∀ j, ctxOff t.field ≤ j → j < ctxOff t.field + t.field.size → ¬ p j) :
    Mem.row (fun f i => if p (ctxOff f + i) then a f i else b f i) t = b.row t := by
  apply row_congr
  intro i hi
  have := index_lt hr hi
  rw [if_neg (h _ (by omega) (by omega))]

/-- The facts about a member needed below. -/
inductive Place (f : Field) : Prop
  | common (h0 : saved .intra f = true) (h1 : ctxOff f + f.size ≤ ctxOff (.mode .intrabc)) (h2 : ctxOff f + f.size ≤ ctxOff (.mode .yMode))
      (h3 : storesTo commonStores f = (List.range f.rows).map (fun r => r * f.width + nsym f r)) (h4 : storesTo interStores f = [])
      (h5 : saved .inter f = true)
  | inter (N : Nat) (hN : N ≤ f.rows) (hN' : ∀ r, rowUsed f r = true → r < N) (h0 : saved .intra f = false)
      (h1 : ctxOff (.mode .intrabc) ≤ ctxOff f) (h2 : ctxOff (.mode .yMode) ≤ ctxOff f ∧ ctxOff f + f.size ≤ ctxOff .kfym)
      (h3 : storesTo commonStores f = []) (h4 : storesTo interStores f = (List.range N).map (fun r => r * f.width + nsym f r))
      (h5 : saved .inter f = true)
  | never (h0 : saved .intra f = false) (h1 : ctxOff (.mode .intrabc) ≤ ctxOff f)
      (h2 : ctxOff f + f.size ≤ ctxOff (.mode .yMode) ∨ ctxOff .kfym ≤ ctxOff f)
      (h3 : storesTo commonStores f = []) (h4 : storesTo interStores f = []) (h5 : saved .inter f = false)

theorem used_lt {f : Field} {r : Nat} (h : rowUsed f r = true) : r < f.rows := used_row (t := ⟨f, r⟩) h

theorem place_of (f : Field) : Place f := by
  have h := forall_field updCheck_all f
  cases f with
  | coef c =>
    simp only [updCheck, Bool.and_eq_true, decide_eq_true_eq] at h
    exact .common rfl h.1.1.1 h.1.1.2 h.1.2 h.2 rfl
  | mv s c =>
    simp only [updCheck, Bool.and_eq_true, decide_eq_true_eq] at h
    exact .inter _ (Nat.le_refl _) (fun r hr => used_lt hr) rfl h.1.1.1 h.1.1.2 h.1.2 h.2 rfl
  | joint =>
    simp only [updCheck, Bool.and_eq_true, decide_eq_true_eq] at h
    exact .inter _ (Nat.le_refl _) (fun r hr => used_lt hr) rfl h.1.1.1 h.1.1.2 h.1.2 h.2 rfl
  | kfym =>
    simp only [updCheck, Bool.and_eq_true, decide_eq_true_eq] at h
    exact .never rfl h.1.1.1 h.1.1.2 h.1.2 h.2 rfl
  | mode c =>
    by_cases hc : c = .intrabc
    · subst hc
      simp only [updCheck, Bool.and_eq_true, decide_eq_true_eq] at h
      exact .never rfl h.1.1.1 h.1.1.2 h.1.2 h.2 rfl
    · by_cases hi : interOnly c = true
      · by_cases hx : c = .interintra
        · subst hx
          have h : updCheck (.mode .interintra) = true := h
          simp only [updCheck, interOnly, if_true, Bool.and_eq_true, decide_eq_true_eq] at h
          refine .inter 4 (by decide) ?_ rfl h.1.1.1 h.1.1.2 h.1.2 h.2 rfl
          intro r hr
          simp only [rowUsed, Bool.and_eq_true, decide_eq_true_eq] at hr
          exact hr.2
        · have e : updCheck (.mode c) = (decide (ctxOff (.mode .intrabc) ≤ ctxOff (.mode c)) &&
              decide (ctxOff (.mode .yMode) ≤ ctxOff (.mode c) ∧ ctxOff (.mode c) + (Field.mode c).size ≤ ctxOff .kfym) &&
              decide (storesTo commonStores (.mode c) = []) &&
              decide (storesTo interStores (.mode c) = (List.range (Field.mode c).rows).map
                (fun r => r * (Field.mode c).width + nsym (.mode c) r))) := by
            unfold updCheck
            cases c <;> first | exact absurd rfl hc | exact absurd rfl hx | exact absurd hi (by decide) | rfl
          rw [e] at h
          simp only [Bool.and_eq_true, decide_eq_true_eq] at h
          refine .inter _ (Nat.le_refl _) (fun r hr => used_lt hr) ?_ h.1.1.1 h.1.1.2 h.1.2 h.2 ?_
          · cases c <;> first | exact absurd hi (by decide) | rfl
          · cases c <;> first | exact absurd hi (by decide) | rfl
      · have e : updCheck (.mode c) = (decide (ctxOff (.mode c) + (Field.mode c).size ≤ ctxOff (.mode .intrabc)) &&
            decide (ctxOff (.mode c) + (Field.mode c).size ≤ ctxOff (.mode .yMode)) &&
            decide (storesTo commonStores (.mode c) = (List.range (Field.mode c).rows).map
                (fun r => r * (Field.mode c).width + nsym (.mode c) r)) && decide (storesTo interStores (.mode c) = [])) := by
          unfold updCheck
          cases c <;> first | exact absurd rfl hc | exact absurd rfl hi | rfl
        rw [e] at h
        simp only [Bool.and_eq_true, decide_eq_true_eq] at h
        refine .common ?_ h.1.1.1 h.1.1.2 h.1.2 h.2 ?_
        · cases c <;> first | exact absurd rfl hc | exact absurd rfl hi | rfl
        · cases c <;> first | exact absurd rfl hc | exact absurd rfl hi | rfl

/-- `dav1d_cdf_thread_update`: members saved by the frame get the tables of the tile with cleared counters, the others
keep theirs. -/
theorem update_row (k : Kind) (dst src : Mem) (t : Tab) (ht : rowUsed t.field t.row = true) :
    (threadUpdate k dst src).row t = if saved k t.field = true then cleared (src.row t) else dst.row t := by
  have hr := used_row ht
  unfold threadUpdate
  cases place_of t.field with
  | common h0 h1 h2 h3 h4 h5 =>
    have e : (zero commonStores (fun f i => if ctxOff f + i < ctxOff (.mode .intrabc) then src f i else dst f i)).row t =
        cleared (src.row t) := by
      rw [zero_row _ t _ hr (Nat.le_refl _) h3,
        copyRange_row (p := fun j => j < ctxOff (.mode .intrabc)) src dst t hr (fun j _ hj => by omega)]
    cases k with
    | intra => dsimp only; rw [if_pos h0, e]
    | inter =>
      dsimp only
      rw [if_pos h5, zero_row_none _ t h4, keepRange_row (p := fun j => ctxOff (.mode .yMode) ≤ j ∧
        j < ctxOff (.mode .yMode) + (ctxOff .kfym - ctxOff (.mode .yMode))) src _ t hr (fun j _ hj => by omega), e]
  | inter N hN hN' h0 h1 h2 h3 h4 h5 =>
    cases k with
    | intra =>
      dsimp only
      rw [if_neg (by rw [h0]; simp), zero_row_none _ t h3,
        keepRange_row (p := fun j => j < ctxOff (.mode .intrabc)) src dst t hr (fun j _ hj => by omega)]
    | inter =>
      dsimp only
      rw [if_pos h5, zero_row _ t N (hN' _ ht) hN h4, copyRange_row (p := fun j => ctxOff (.mode .yMode) ≤ j ∧
        j < ctxOff (.mode .yMode) + (ctxOff .kfym - ctxOff (.mode .yMode))) src _ t hr (fun j _ hj => by omega)]
  | never h0 h1 h2 h3 h4 h5 =>
    have e : (zero commonStores (fun f i => if ctxOff f + i < ctxOff (.mode .intrabc) then src f i else dst f i)).row t =
        dst.row t := by
      rw [zero_row_none _ t h3,
        keepRange_row (p := fun j => j < ctxOff (.mode .intrabc)) src dst t hr (fun j _ hj => by omega)]
    cases k with
    | intra => dsimp only; rw [if_neg (by rw [h0]; simp), e]
    | inter =>
      dsimp only
      rw [if_neg (by rw [h5]; simp), zero_row_none _ t h4, keepRange_row (p := fun j => ctxOff (.mode .yMode) ≤ j ∧
        j < ctxOff (.mode .yMode) + (ctxOff .kfym - ctxOff (.mode .yMode))) src _ t hr (fun j _ hj => by omega), e]

/-! ## Tiles -/

/-- The tables that frames of kind `k` read are valid and equal those of the specification. -/
def TileRel (k : Kind) (m : Mem) (s : Spec.Tables) : Prop :=
  ∀ t : Tab, t.readBy k = true → CdfValid (m.row t) ∧ toSpec (m.row t) = s (Spec.ident k t)

theorem ident_inj {k : Kind} {t u : Tab} (h : Spec.ident k t = Spec.ident k u) : t = u := by
  unfold Spec.ident at h
  split at h <;> split at h <;> cases h <;> rfl

theorem view_eq {k : Kind} {m : Mem} {s : Spec.Tables} (h : TileRel k m s) : m.view k = Spec.view k s := by
  funext t
  exact (h t.1 t.2).2

theorem tileRel_adapt {k : Kind} {m : Mem} {s : Spec.Tables} (h : TileRel k m s) (t : RTab k) (x : Nat) (hx : x ≤ t.1.n) :
    TileRel k (m.adapt t.1 x) (Spec.adapt k s (t, x)) := by
  intro u hu
  by_cases he : u = t.1
  · subst he
    obtain ⟨h1, h2⟩ := h t.1 t.2
    have hl : (m.row t.1).length - 1 = t.1.n := by rw [row_length]; omega
    have a := cdfValid_adapt h1 (x := x) (by rw [hl]; exact hx)
    have b := adapt_ok h1.ok x (by rw [hl]; exact hx)
    rw [adapt_row_same]
    rw [hl] at a b
    refine ⟨a.1, ?_⟩
    unfold Spec.adapt
    rw [if_pos rfl, b.2.2, h2]
  · rw [adapt_row_other _ _ _ _ (used_row (read_used t.2)) (used_row (read_used hu)) he]
    refine ⟨(h u hu).1, ?_⟩
    unfold Spec.adapt
    rw [if_neg (fun hc => he (ident_inj hc))]
    exact (h u hu).2

theorem runTile_rel {k : Kind} {m : Mem} {s : Spec.Tables} (h : TileRel k m s) (t : Tile k) :
    TileRel k (runTile m t) (Spec.runTile s t) ∧
    (∀ u : Tab, rowUsed u.field u.row = true → u.readBy k = false → (runTile m t).row u = m.row u) ∧
    (∀ i, (∀ u : Tab, u.readBy k = true → Spec.ident k u ≠ i) → Spec.runTile s t i = s i) := by
  unfold runTile Spec.runTile
  rw [view_eq h]
  have hok := t.ok (Spec.view k s)
  revert hok
  generalize t.run (Spec.view k s) = l
  intro hok
  induction l generalizing m s with
  | nil => exact ⟨h, fun _ _ _ => rfl, fun _ _ => rfl⟩
  | cons e l ih =>
    have h1 := tileRel_adapt h e.1 e.2 (hok e (List.mem_cons_self ..))
    obtain ⟨a1, a2, a3⟩ := ih h1 (fun x hx => hok x (List.mem_cons_of_mem _ hx))
    refine ⟨a1, ?_, ?_⟩
    · intro u hu hk
      rw [List.foldl_cons, a2 u hu hk, adapt_row_other _ _ _ _ (used_row (read_used e.1.2)) (used_row hu)]
      intro hc
      rw [hc, e.1.2] at hk
      cases hk
    · intro i hi
      rw [List.foldl_cons, a3 i hi]
      unfold Spec.adapt
      rw [if_neg (fun hc => hi e.1.1 e.1.2 hc.symm)]

/-! ## Slots -/

/-- Tables in a slot: valid, counter 0 and equal to those of the specification, but for the tables that are never read
from a slot. -/
def SlotRel (m : Mem) (s : Spec.Tables) : Prop :=
  ∀ t : Tab, rowUsed t.field t.row = true → saved .inter t.field = true →
    CdfValid (m.row t) ∧ toSpec (m.row t) = s (.main t) ∧ (s (.main t)).count = 0

/-- Start of a frame: as `TileRel`, with counters 0. -/
def StartRel (k : Kind) (m : Mem) (s : Spec.Tables) : Prop :=
  TileRel k m s ∧ ∀ t : Tab, t.readBy k = true → (s (Spec.ident k t)).count = 0

theorem saved_read {t : Tab} (ht : rowUsed t.field t.row = true) : t.readBy .inter = saved .inter t.field := by
  unfold Tab.readBy
  rw [ht, Bool.true_and]
  obtain ⟨f, r⟩ := t
  cases f with
  | mode c => cases c <;> rfl
  | _ => rfl

theorem saved_read_intra {t : Tab} (ht : rowUsed t.field t.row = true) (h : saved .intra t.field = true) :
    t.readBy .intra = true ∧ Spec.ident .intra t = .main t ∧ saved .inter t.field = true := by
  unfold Tab.readBy Spec.ident
  rw [ht, Bool.true_and]
  obtain ⟨f, r⟩ := t
  cases f with
  | mode c => cases c <;> first | exact Bool.noConfusion (show false = true from h) | exact ⟨rfl, rfl, rfl⟩
  | coef c => exact ⟨rfl, rfl, rfl⟩
  | mv s c => exact Bool.noConfusion (show false = true from h)
  | _ => exact Bool.noConfusion (show false = true from h)

theorem slot_start {m : Mem} {s : Spec.Tables} (h : SlotRel m s) : StartRel .inter m s := by
  have e : ∀ t : Tab, Spec.ident .inter t = .main t := fun t => by unfold Spec.ident; rw [if_neg (by simp)]
  constructor
  · intro t ht
    have hu := read_used ht
    rw [saved_read hu] at ht
    rw [e]
    exact ⟨(h t hu ht).1, (h t hu ht).2.1⟩
  · intro t ht
    have hu := read_used ht
    rw [saved_read hu] at ht
    rw [e]
    exact (h t hu ht).2.2

theorem qcat_eq (qidx : Nat) : initStatic qidx = .static (Spec.qcat qidx) ∧ Spec.qcat qidx < 4 := by
  unfold initStatic Spec.qcat
  constructor
  · congr 1
    repeat' split
    all_goals omega
  · repeat' split
    all_goals omega

theorem default_slot (qidx : Nat) (junk : Mem) : SlotRel (threadCopy junk (initStatic qidx)) (Spec.defaults qidx) := by
  obtain ⟨e, hq⟩ := qcat_eq qidx
  rw [e]
  intro t ht _
  obtain ⟨a, b⟩ := static_valid _ hq junk t ht
  exact ⟨a, b, rfl⟩

theorem default_start (k : Kind) (qidx : Nat) (junk : Mem) :
    StartRel k (threadCopy junk (initStatic qidx)) (Spec.defaults qidx) := by
  obtain ⟨e, hq⟩ := qcat_eq qidx
  rw [e]
  constructor
  · intro t ht
    obtain ⟨a, b⟩ := static_valid _ hq junk t (read_used ht)
    refine ⟨a, b.trans ?_⟩
    unfold Spec.ident
    split <;> rfl
  · intro t _
    unfold Spec.ident
    split <;> rfl

theorem toSpec_cleared {d : List Nat} (h : CdfValid d) : CdfValid (cleared d) ∧ toSpec (cleared d) = { toSpec d with count := 0 } := by
  obtain ⟨ps, c, rfl, h1, h2, h3, h4, h5⟩ := h
  unfold cleared
  rw [List.dropLast_concat, toSpec_append, toSpec_append]
  exact ⟨⟨ps, 0, rfl, h1, h2, h3, h4, by omega⟩, rfl⟩

/-- What a frame saves corresponds to what the specification saves. -/
theorem finish_rel {k : Kind} {m : Mem} {s : Spec.Tables} (hs : StartRel k m s) (hslot : SlotRel m s) (tile : Tile k) :
    SlotRel (threadUpdate k m (runTile m tile)) (Spec.clear (Spec.runTile s tile)) := by
  obtain ⟨h1, h2, h3⟩ := runTile_rel hs.1 tile
  intro t ht hsv
  rw [update_row _ _ _ _ ht]
  cases k with
  | inter =>
    rw [if_pos hsv]
    have hr : t.readBy .inter = true := by rw [saved_read ht]; exact hsv
    obtain ⟨a, b⟩ := h1 t hr
    have e : Spec.ident .inter t = .main t := by unfold Spec.ident; rw [if_neg (by simp)]
    rw [e] at b
    obtain ⟨c, d⟩ := toSpec_cleared a
    refine ⟨c, ?_, rfl⟩
    rw [d, b]; rfl
  | intra =>
    by_cases hc : saved .intra t.field = true
    · rw [if_pos hc]
      obtain ⟨i1, i2, _⟩ := saved_read_intra ht hc
      obtain ⟨a, b⟩ := h1 t i1
      rw [i2] at b
      obtain ⟨c, d⟩ := toSpec_cleared a
      refine ⟨c, ?_, rfl⟩
      rw [d, b]; rfl
    · rw [if_neg hc]
      obtain ⟨a, b, c⟩ := hslot t ht hsv
      have e : Spec.runTile s tile (.main t) = s (.main t) := by
        apply h3
        intro u hu hid
        unfold Spec.ident at hid
        split at hid
        · cases hid
        · rename_i hn
          cases hid
          apply hc
          obtain ⟨f, r⟩ := t
          unfold Tab.readBy at hu
          rw [Bool.and_eq_true] at hu
          cases f with
          | mode g => cases g <;> first | exact Bool.noConfusion (show false = true from hu.2) | exact Bool.noConfusion (show false = true from hsv) | rfl
          | coef g => rfl
          | mv b g => exact absurd ⟨rfl, rfl⟩ hn
          | joint => exact absurd ⟨rfl, rfl⟩ hn
          | kfym => exact Bool.noConfusion (show false = true from hsv)
      unfold Spec.clear
      rw [e]
      refine ⟨a, ?_, rfl⟩
      rw [b]
      generalize s (.main t) = x at c
      obtain ⟨p, q⟩ := x
      simp only at c
      rw [c]

/-- Slots of the code and of the specification correspond. -/
def SlotsRel (junk : Mem) (a : Nat → Option Thread) (b : Nat → Option Spec.Tables) : Prop :=
  ∀ i, match a i, b i with
    | none, none => True
    | some th, some s => SlotRel (threadCopy junk th) s
    | _, _ => False

theorem slotsRel_none {junk : Mem} {a b} (h : SlotsRel junk a b) (i : Nat) : a i = none ↔ b i = none := by
  have := h i
  cases ha : a i <;> cases hb : b i <;> rw [ha, hb] at this <;> simp_all

/-- All tables seen are valid and have counter 0. -/
def Fresh (o : Σ k, View k) : Prop := ∀ t : RTab o.1, (o.2 t).Valid ∧ (o.2 t).count = 0 ∧ (o.2 t).probs.length = t.1.n + 1

theorem fresh_of_start {k : Kind} {m : Mem} {s : Spec.Tables} (h : StartRel k m s) : Fresh ⟨k, m.view k⟩ := by
  intro t
  obtain ⟨a, b⟩ := h.1 t.1 t.2
  have c := h.2 t.1 t.2
  refine ⟨(cdfValid_iff a.ok).1 a, ?_, ?_⟩
  · show (toSpec (m.row t.1)).count = 0
    rw [b]; exact c
  · show (toSpec (m.row t.1)).probs.length = _
    unfold toSpec
    simp [row_length]

theorem step_rel {junk : Mem} {a b} (h : SlotsRel junk a b) (e : Ev) (hw : e.WF) :
    (step junk a e = none ∧ Spec.step b e = none) ∨
    ∃ a' b' o, step junk a e = some (a', o) ∧ Spec.step b e = some (b', o) ∧ SlotsRel junk a' b' ∧ ∀ x ∈ o, Fresh x := by
  cases e with
  | showKey j =>
    refine .inr ⟨_, _, _, rfl, rfl, ?_, by simp⟩
    intro i
    by_cases hij : i = j
    · subst hij; simpa using h i
    · simpa [hij] using h j
  | drop d =>
    refine .inr ⟨_, _, _, rfl, rfl, ?_, by simp⟩
    intro i
    dsimp only
    by_cases hd : d i = true
    · rw [if_pos hd, if_pos hd]; trivial
    · rw [if_neg hd, if_neg hd]; exact h i
  | frame f =>
    have key : (frameIn a f = none ∧ Spec.start b f = none) ∨ ∃ th s, frameIn a f = some th ∧ Spec.start b f = some s ∧
        SlotRel (threadCopy junk th) s ∧ StartRel f.kind (threadCopy junk th) s := by
      unfold frameIn Spec.start
      cases hp : f.primary with
      | none => exact .inr ⟨_, _, rfl, rfl, default_slot _ _, default_start _ _ _⟩
      | some i =>
        have hk : f.kind = .inter := by
          cases hkk : f.kind with
          | inter => rfl
          | intra => have := hw hkk; rw [hp] at this; cases this
        dsimp only
        have hi := h i
        cases ha : a i with
        | none => exact .inl ⟨rfl, (slotsRel_none h i).1 ha⟩
        | some th =>
          cases hb : b i with
          | none => rw [ha, hb] at hi; exact hi.elim
          | some s =>
            rw [ha, hb] at hi
            refine .inr ⟨th, s, rfl, rfl, hi, ?_⟩
            rw [hk]
            exact slot_start hi
    unfold step Spec.step
    dsimp only
    rcases key with ⟨k1, k2⟩ | ⟨th, s, k1, k2, k3, k4⟩
    · rw [k1, k2]; exact .inl ⟨rfl, rfl⟩
    · rw [k1, k2]
      dsimp only
      unfold frameOut Spec.finish
      by_cases hc : f.refreshContext = true
      · rw [if_pos hc, if_pos hc]
        cases ht : f.tiles[f.update]? with
        | none => exact .inl ⟨rfl, rfl⟩
        | some tile =>
          refine .inr ⟨_, _, _, rfl, by rw [view_eq k4.1]; rfl, ?_, ?_⟩
          · intro i
            dsimp only
            by_cases hr : f.refresh i = true
            · rw [if_pos hr, if_pos hr]
              exact finish_rel k4 k3 tile
            · rw [if_neg hr, if_neg hr]; exact h i
          · intro x hx
            rw [List.mem_singleton] at hx
            subst hx
            exact fresh_of_start k4
      · rw [if_neg hc, if_neg hc]
        refine .inr ⟨_, _, _, rfl, by rw [view_eq k4.1], ?_, ?_⟩
        · intro i
          dsimp only
          by_cases hr : f.refresh i = true
          · rw [if_pos hr, if_pos hr]
            exact k3
          · rw [if_neg hr, if_neg hr]; exact h i
        · intro x hx
          rw [List.mem_singleton] at hx
          subst hx
          exact fresh_of_start k4

theorem session_rel {junk : Mem} : ∀ (l : List Ev) (a b) (_ : SlotsRel junk a b) (_ : ∀ e ∈ l, e.WF),
    session junk a l = Spec.session b l ∧ ∀ o, session junk a l = some o → ∀ x ∈ o, Fresh x := by
  intro l
  induction l with
  | nil =>
    intro a b _ _
    refine ⟨rfl, ?_⟩
    intro o ho x hx
    cases ho
    cases hx
  | cons e l ih =>
    intro a b h hw
    unfold session Spec.session
    rcases step_rel h e (hw e (List.mem_cons_self ..)) with ⟨h1, h2⟩ | ⟨a', b', o, h1, h2, h3, h4⟩
    · rw [h1, h2]
      exact ⟨rfl, fun o ho => by cases ho⟩
    · rw [h1, h2]
      dsimp only
      obtain ⟨i1, i2⟩ := ih a' b' h3 (fun x hx => hw x (List.mem_cons_of_mem _ hx))
      refine ⟨by rw [i1], ?_⟩
      intro p hp x hx
      rw [Option.map_eq_some_iff] at hp
      obtain ⟨r, hr, rfl⟩ := hp
      rcases List.mem_append.1 hx with hx | hx
      · exact h4 x hx
      · exact i2 r hr x hx

end Dav1d.CdfTab
