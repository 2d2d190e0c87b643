import Verif.Dsp.LrSgrRun

/-!
# sgr_5x5_c, row by row

The rows of sums, of `A` and `B`, and of pixels, through the loop over two rows and the paths for few rows.
-/

namespace Dav1d.Lr

theorem Holds.at5 {c : Ctx} {r : Ring} {i : Nat} {y y' : Int} (h : Holds c r i (h5 c y)) (e : y = y') :
    Holds c r i (h5 c y') := by rw [← e]; exact h

theorem Holds.at3 {c : Ctx} {r : Ring} {i : Nat} {y y' : Int} (h : Holds c r i (h3 c y)) (e : y = y') :
    Holds c r i (h3 c y') := by rw [← e]; exact h

theorem Holds.ab5 {c : Ctx} {r : Ring} {i : Nat} {y y' : Int} (h : Holds c r i (ab5 c y)) (e : y = y') :
    Holds c r i (Lr.ab5 c y') := by rw [← e]; exact h

theorem Holds.ab3 {c : Ctx} {r : Ring} {i : Nat} {y y' : Int} (h : Holds c r i (ab3 c y)) (e : y = y') :
    Holds c r i (Lr.ab3 c y') := by rw [← e]; exact h

/-! ## The rings of sums and of `A` and `B` -/

/-- `n` rows have been read. -/
structure S5 (c : Ctx) (n : Int) (r : Ring) : Prop where
  s0 : Holds c r 0 (h5 c (n - 3))
  s1 : Holds c r 1 (h5 c (n - 2))
  s2 : Holds c r 2 (h5 c (n - 1))

/-- Two further rows have been stored. -/
structure T5 (c : Ctx) (n : Int) (r : Ring) : Prop extends S5 c n r where
  s3 : Holds c r 3 (h5 c n)
  s4 : Holds c r 4 (h5 c (n + 1))

theorem T5.rot {c : Ctx} {n : Int} {r : Ring} (h : T5 c n r) : S5 c (n + 2) r.rotate5x2 :=
  ⟨(h.s2.of_get (r' := r.rotate5x2) (i := 0) rfl).at5 (by omega), (h.s3.of_get (r' := r.rotate5x2) (i := 1) rfl).at5 (by omega),
    (h.s4.of_get (r' := r.rotate5x2) (i := 2) rfl).at5 (by omega)⟩

/-- `A` and `B` with `n` rows read. -/
structure A5 (c : Ctx) (n : Int) (r : Ring) : Prop where
  a0 : Holds c r 0 (Lr.ab5 c (n - 3))
  ne : r.ptr 0 ≠ r.ptr 1

/-- sgr_box5_vert on the ring of `A` and `B`. -/
def put5 (c : Ctx) (sum ab : Ring) : Ring :=
  ab.put 1 (fun out => calcRowAb c.d c.a.w c.g.s0 25 164 (box5RowV c.d c.a.w sum out))

theorem put5_one {c : Ctx} {n : Int} {sum : Ring} (h : T5 c n sum) (ab : Ring) : Holds c (put5 c sum ab) 1 (Lr.ab5 c (n - 1)) := by
  intro k hk
  unfold put5
  rw [get_put_same]
  exact vert5_holds c sum (n - 1) (h.s0.at5 (by omega)) (h.s1.at5 (by omega)) h.s2 (h.s3.at5 (by omega)) (h.s4.at5 (by omega)) _ k hk

theorem put5_zero (c : Ctx) (sum ab : Ring) (h : ab.ptr 0 ≠ ab.ptr 1) : (put5 c sum ab).get 0 = ab.get 0 :=
  get_put_ne ab 0 1 _ h

theorem put5_ptr (c : Ctx) (sum ab : Ring) : (put5 c sum ab).ptr = ab.ptr := rfl

theorem put5_rot {c : Ctx} {n : Int} {sum : Ring} (h : T5 c n sum) (ab : Ring) (hn : ab.ptr 0 ≠ ab.ptr 1) :
    A5 c (n + 2) ((put5 c sum ab).rotate 2) :=
  ⟨((put5_one h ab).of_get (r' := (put5 c sum ab).rotate 2) (i := 0) rfl).ab5 (by omega), fun e => hn (Eq.symm e)⟩

/-- Storing two rows. -/
theorem T5.of_put {c : Ctx} {n : Int} {r : Ring} (h : S5 c n r) (i3 i4 : Nat) (f g : Row → Row)
    (e3 : r.ptr 3 = i3) (e4 : r.ptr 4 = i4) (h0 : r.ptr 0 ≠ i3 ∧ r.ptr 0 ≠ i4) (h1 : r.ptr 1 ≠ i3 ∧ r.ptr 1 ≠ i4)
    (h2 : r.ptr 2 ≠ i3 ∧ r.ptr 2 ≠ i4) (h34 : i3 ≠ i4)
    (hf : ∀ row k, k < c.a.w + 2 → f row k = h5 c n k) (hg : ∀ row k, k < c.a.w + 2 → g row k = h5 c (n + 1) k) :
    T5 c n ((r.putRow i3 f).putRow i4 g) := by
  have ne : ∀ i, r.ptr i ≠ i3 ∧ r.ptr i ≠ i4 → ((r.putRow i3 f).putRow i4 g).get i = r.get i := by
    intro i hi
    rw [get_putRow_ne (r.putRow i3 f) i i4 g hi.2, get_putRow_ne r i i3 f hi.1]
  refine ⟨⟨h.s0.of_get (ne 0 h0), h.s1.of_get (ne 1 h1), h.s2.of_get (ne 2 h2)⟩, ?_, ?_⟩
  · intro k hk
    have : (r.putRow i3 f).ptr 3 ≠ i4 := by
      show r.ptr 3 ≠ i4
      omega
    rw [get_putRow_ne (r.putRow i3 f) 3 i4 g this, get_putRow_same r 3 i3 f e3]
    exact hf _ k hk
  · intro k hk
    rw [get_putRow_same (r.putRow i3 f) 4 i4 g e4]
    exact hg _ k hk

/-- Storing a row and repeating it, without rows below. -/
theorem T5.of_put_last {c : Ctx} {n : Int} {r : Ring} (h : S5 c n r) (i3 : Nat) (f : Row → Row)
    (e3 : r.ptr 3 = i3) (h0 : r.ptr 0 ≠ i3) (h1 : r.ptr 1 ≠ i3) (h2 : r.ptr 2 ≠ i3)
    (hf : ∀ row k, k < c.a.w + 2 → f row k = h5 c n k) (he : h5 c (n + 1) = h5 c n) :
    T5 c n ((r.putRow i3 f).alias 4 3) := by
  have k3 : Holds c (r.putRow i3 f) 3 (h5 c n) := by
    intro k hk
    rw [get_putRow_same r 3 i3 f e3]
    exact hf _ k hk
  refine ⟨⟨h.s0.of_get (get_putRow_ne r 0 i3 f h0), h.s1.of_get (get_putRow_ne r 1 i3 f h1),
    h.s2.of_get (get_putRow_ne r 2 i3 f h2)⟩, k3, ?_⟩
  rw [he]
  exact k3.of_get (r' := (r.putRow i3 f).alias 4 3) (i := 4) rfl

/-- Repeating the last row, without rows below. -/
theorem T5.of_dup {c : Ctx} {n : Int} {r : Ring} (h : S5 c n r) (hb : c.a.e.bottom = false) (h1 : 0 < c.a.h)
    (hn : (c.a.h : Int) ≤ n) : T5 c n ((r.alias 3 2).alias 4 2) := by
  have e : ∀ y : Int, (c.a.h : Int) - 1 ≤ y → h5 c y = h5 c ((c.a.h : Int) - 1) := fun y hy => (h_last c hb h1 y hy).2
  have k2 : Holds c r 2 (h5 c ((c.a.h : Int) - 1)) := by
    have := h.s2
    rw [e _ (by omega)] at this
    exact this
  refine ⟨⟨h.s0, h.s1, h.s2⟩, ?_, ?_⟩
  · rw [e _ (by omega)]
    exact k2.of_get (r' := (r.alias 3 2).alias 4 2) (i := 3) rfl
  · rw [e _ (by omega)]
    exact k2.of_get (r' := (r.alias 3 2).alias 4 2) (i := 4) rfl

theorem bottom6 (c : Ctx) (hw : 0 < c.a.w) (hb : c.a.e.bottom = true) (row : Row) (k : Nat) (hk : k < c.a.w + 2) :
    box3RowH c.d c.a none (c.a.lpf 6) row k = h3 c c.a.h k ∧ box5RowH c.d c.a none (c.a.lpf 6) row k = h5 c c.a.h k := by
  have := row_bottom c hw hb c.a.h le_rfl row k hk
  rw [if_pos rfl] at this
  exact this

theorem bottom7 (c : Ctx) (hw : 0 < c.a.w) (hb : c.a.e.bottom = true) (row : Row) (k : Nat) (hk : k < c.a.w + 2) :
    box3RowH c.d c.a none (c.a.lpf 7) row k = h3 c ((c.a.h : Int) + 1) k ∧
      box5RowH c.d c.a none (c.a.lpf 7) row k = h5 c ((c.a.h : Int) + 1) k := by
  have := row_bottom c hw hb ((c.a.h : Int) + 1) (by omega) row k hk
  rw [if_neg (by omega : ¬(c.a.h : Int) + 1 = c.a.h)] at this
  exact this

/-- The five pointers before the first two rows with rows above. -/
theorem top5 {c : Ctx} (hw : 0 < c.a.w) (ht : c.a.e.top = true) (buf : Nat → Row) :
    S5 c 0 (((⟨fun i => i - 1, buf⟩ : Ring).putRow 0 (box5RowH c.d c.a none (c.a.lpf 0))).putRow 1
      (box5RowH c.d c.a none (c.a.lpf 1))) := by
  have a : ∀ i, i - 1 = 0 → Holds c (((⟨fun i => i - 1, buf⟩ : Ring).putRow 0 (box5RowH c.d c.a none (c.a.lpf 0))).putRow 1
      (box5RowH c.d c.a none (c.a.lpf 1))) i (h5 c (-2)) := by
    intro i hi k hk
    rw [get_putRow_ne _ i 1 _ (by show i - 1 ≠ 1; omega), get_putRow_same _ i 0 _ hi]
    exact (row_top0 c hw ht _ k hk).2
  refine ⟨?_, ?_, ?_⟩
  · have e : (0 : Int) - 3 = -3 := by omega
    rw [e, h_third c ht]
    exact a 0 rfl
  · exact (a 1 rfl).at5 (by omega)
  · intro k hk
    rw [get_putRow_same _ 2 1 _ rfl]
    have := (row_top1 c hw ht (Ring.get ((⟨fun i => i - 1, buf⟩ : Ring).putRow 0 (box5RowH c.d c.a none (c.a.lpf 0))) 2) k hk).2
    have e : (0 : Int) - 1 = -1 := by omega
    rw [e]
    exact this

/-- The five pointers after the first row without rows above. -/
theorem first5 {c : Ctx} (hw : 0 < c.a.w) (hh : 0 < c.a.h) (buf : Nat → Row) (i : Nat) :
    Holds c ((⟨fun _ => 0, buf⟩ : Ring).putRow 0 (box5RowH c.d c.a (some (c.a.left 0)) (c.a.dst ((0 : Nat) : Int)))) i
      (h5 c ((0 : Nat) : Int)) := by
  intro k hk
  rw [get_putRow_same _ i 0 _ rfl]
  exact (row_in c hw 0 hh c.a.dst (fun _ => rfl) _ k hk).2

/-! ## The state -/

/-- What holds when `n` rows have been read, and the rows before `n - 2` are done. -/
structure W5 (c : Ctx) (n : Nat) (s : St5) : Prop where
  sum : S5 c n s.sum
  ab : A5 c n s.ab
  y : s.y + 2 = n
  even : n % 2 = 0
  dst : DstOk c (out5 c) s.y s.dst

theorem vert5_ab (c : Ctx) (s : St5) : (St5.vert c s).ab = put5 c s.sum s.ab := rfl

theorem fin5 (c : Ctx) (n : Nat) (s : St5) (ht : T5 c n s.sum) (ha : A5 c n s.ab) (hy : s.y + 2 = n) (he : n % 2 = 0)
    (hd : DstOk c (out5 c) s.y s.dst) : W5 c (n + 2) (St5.finish2 c (St5.vert c s)) := by
  have p0 : Holds c (St5.vert c s).ab 0 (Lr.ab5 c ((n : Int) - 3)) := ha.a0.of_get (put5_zero c s.sum s.ab ha.ne)
  have p1 : Holds c (St5.vert c s).ab 1 (Lr.ab5 c ((n : Int) - 1)) := put5_one ht s.ab
  have d1 : DstOk c (out5 c) (s.y + 1) (weightedRow1 c.d c.a.w c.g.w0
      (finish2First c.d (s.dst s.y) (St5.vert c s).ab) s.y s.dst) := by
    apply weighted1_ok c c.g.w0 _ (t5 c s.y) (out5 c) s.y s.dst hd
    · intro x hx
      exact finish2First_eq c _ s.y (by omega) _ (hd.row _ le_rfl) (p0.ab5 (by omega)) (p1.ab5 (by omega)) x hx
    · intro x _
      rfl
  refine ⟨?_, ?_, ?_, by omega, ?_⟩
  · have := ht.rot
    rw [Nat.cast_add]
    exact this
  · have := put5_rot ht s.ab ha.ne
    rw [Nat.cast_add]
    exact this
  · show s.y + 2 + 2 = n + 2
    omega
  · apply weighted1_ok c c.g.w0 _ (t5 c ((s.y + 1 : Nat) : Int)) (out5 c) (s.y + 1) _ d1
    · intro x hx
      exact finish2Second_eq c _ ((s.y + 1 : Nat) : Int) (by omega) _ (hd.row _ (by omega)) (p1.ab5 (by omega)) x hx
    · intro x _
      rfl

/-- The last row, when there is one left. -/
theorem one5 (c : Ctx) (hb : c.a.e.bottom = false) (n : Nat) (s : St5) (h : W5 c n s) (hn : c.a.h + 1 = n) :
    DstOk c (out5 c) c.a.h (St5.output1 c s).dst := by
  have hy := h.y
  have he := h.even
  have ht : T5 c n ((s.sum.alias 3 2).alias 4 2) := T5.of_dup h.sum hb (by omega) (by omega)
  have p0 : Holds c (put5 c ((s.sum.alias 3 2).alias 4 2) s.ab) 0 (Lr.ab5 c ((n : Int) - 3)) :=
    h.ab.a0.of_get (put5_zero c _ s.ab h.ab.ne)
  have p1 : Holds c (put5 c ((s.sum.alias 3 2).alias 4 2) s.ab) 1 (Lr.ab5 c ((n : Int) - 1)) := put5_one ht s.ab
  have d1 : DstOk c (out5 c) (s.y + 1) (St5.output1 c s).dst := by
    apply weighted1_ok c c.g.w0 _ (t5 c s.y) (out5 c) s.y s.dst h.dst
    · intro x hx
      exact finish2First_eq c _ s.y (by omega) _ (h.dst.row _ le_rfl) (p0.ab5 (by omega)) (p1.ab5 (by omega)) x hx
    · intro x _
      rfl
  have : s.y + 1 = c.a.h := by omega
  rw [← this]
  exact d1

theorem vert2_5 (c : Ctx) (hb : c.a.e.bottom = false) (s : St5) (h : W5 c c.a.h s) :
    DstOk c (out5 c) c.a.h (St5.vert2 c s).dst := by
  have hy := h.y
  have w := fin5 c c.a.h { s with sum := (s.sum.alias 3 2).alias 4 2 } (T5.of_dup h.sum hb (by omega) le_rfl) h.ab h.y h.even h.dst
  have : s.y + 2 = c.a.h := by omega
  rw [← this]
  exact w.dst

/-- The label `odd`, after a row has been stored. -/
theorem odd5 (c : Ctx) (hb : c.a.e.bottom = false) (n : Nat) (s : St5) (ht : T5 c n (s.sum.alias 4 3)) (ha : A5 c n s.ab)
    (hy : s.y + 2 = n) (he : n % 2 = 0) (hd : DstOk c (out5 c) s.y s.dst) (hn : n + 1 = c.a.h) :
    DstOk c (out5 c) c.a.h (St5.odd c s).dst := by
  have w := fin5 c n { s with sum := s.sum.alias 4 3 } ht ha hy he hd
  exact one5 c hb (n + 2) _ w (by omega)

/-- The loop invariant. -/
structure F5 (c : Ctx) (n : Nat) (s : St5) : Prop extends W5 c n s where
  sy : s.sy = n
  sinj : Inj 5 s.sum

theorem Inj.ne {n : Nat} {r : Ring} (h : Inj n r) (i j : Nat) (hi : i < n) (hj : j < n) (hne : i ≠ j) : r.ptr i ≠ r.ptr j :=
  fun e => hne (h i hi j hj e)

theorem main5 (c : Ctx) (hw : 0 < c.a.w) (hb : c.a.e.bottom = true → c.a.h % 2 = 0) (m n : Nat) (s : St5)
    (hn : n + m = c.a.h) (h : F5 c n s) : DstOk c (out5 c) c.a.h (St5.main c m s).dst := by
  induction m using Nat.twoStepInduction generalizing n s with
  | zero =>
    obtain ⟨hW, hsy, hi⟩ := h
    have hn' : n = c.a.h := by omega
    subst hn'
    unfold St5.main
    by_cases hb' : c.a.e.bottom = true
    · rw [if_pos hb']
      have hy := hW.y
      have ht : T5 c c.a.h ((s.sum.putRow (s.sum.ptr 3) (box5RowH c.d c.a none (c.a.lpf 6))).putRow (s.sum.ptr 4)
          (box5RowH c.d c.a none (c.a.lpf 7))) :=
        T5.of_put hW.sum _ _ _ _ rfl rfl
          ⟨hi.ne 0 3 (by omega) (by omega) (by omega), hi.ne 0 4 (by omega) (by omega) (by omega)⟩
          ⟨hi.ne 1 3 (by omega) (by omega) (by omega), hi.ne 1 4 (by omega) (by omega) (by omega)⟩
          ⟨hi.ne 2 3 (by omega) (by omega) (by omega), hi.ne 2 4 (by omega) (by omega) (by omega)⟩
          (hi.ne 3 4 (by omega) (by omega) (by omega))
          (fun row k hk => (bottom6 c hw hb' row k hk).2) (fun row k hk => (bottom7 c hw hb' row k hk).2)
      have w := fin5 c c.a.h (St5.rowLpf c (s.sum.ptr 4) 7 (St5.rowLpf c (s.sum.ptr 3) 6 s)) ht hW.ab hW.y hW.even hW.dst
      have : s.y + 2 = c.a.h := by omega
      rw [← this]
      exact w.dst
    · rw [if_neg hb']
      exact vert2_5 c (by simpa using hb') s hW
  | one =>
    obtain ⟨hW, hsy, hi⟩ := h
    have hb' : c.a.e.bottom = false := by
      by_contra hc
      have := hb (by simpa using hc)
      have := hW.even
      omega
    unfold St5.main
    have ht : T5 c n ((s.sum.putRow (s.sum.ptr 3) (box5RowH c.d c.a (some (c.a.left s.sy)) (s.dst s.sy))).alias 4 3) := by
      apply T5.of_put_last hW.sum _ _ rfl (hi.ne 0 3 (by omega) (by omega) (by omega))
        (hi.ne 1 3 (by omega) (by omega) (by omega)) (hi.ne 2 3 (by omega) (by omega) (by omega))
      · intro row k hk
        rw [hsy]
        exact (row_in c hw n (by omega) s.dst (hW.dst.row n (by have := hW.y; omega)) row k hk).2
      · rw [(h_last c hb' (by omega) _ (by omega)).2, (h_last c hb' (by omega) (n : Int) (by omega)).2]
    exact odd5 c hb' n (St5.rowH c (s.sum.ptr 3) s) ht hW.ab hW.y hW.even hW.dst hn
  | more m ih _ =>
    obtain ⟨hW, hsy, hi⟩ := h
    unfold St5.main
    have hy := hW.y
    have ht : T5 c n ((s.sum.putRow (s.sum.ptr 3) (box5RowH c.d c.a (some (c.a.left s.sy)) (s.dst s.sy))).putRow (s.sum.ptr 4)
        (box5RowH c.d c.a (some (c.a.left (s.sy + 1))) (s.dst ((s.sy + 1 : Nat) : Int)))) := by
      apply T5.of_put hW.sum _ _ _ _ rfl rfl
        ⟨hi.ne 0 3 (by omega) (by omega) (by omega), hi.ne 0 4 (by omega) (by omega) (by omega)⟩
        ⟨hi.ne 1 3 (by omega) (by omega) (by omega), hi.ne 1 4 (by omega) (by omega) (by omega)⟩
        ⟨hi.ne 2 3 (by omega) (by omega) (by omega), hi.ne 2 4 (by omega) (by omega) (by omega)⟩
        (hi.ne 3 4 (by omega) (by omega) (by omega))
      · intro row k hk
        rw [hsy]
        exact (row_in c hw n (by omega) s.dst (hW.dst.row n (by omega)) row k hk).2
      · intro row k hk
        rw [hsy]
        have := (row_in c hw (n + 1) (by omega) s.dst (hW.dst.row (n + 1) (by omega)) row k hk).2
        have e : ((n + 1 : Nat) : Int) = (n : Int) + 1 := by omega
        rw [e] at this ⊢
        exact this
    have w := fin5 c n (St5.rowH c (s.sum.ptr 4) (St5.rowH c (s.sum.ptr 3) s)) ht hW.ab hW.y hW.even hW.dst
    refine ih (n + 2) _ (by omega) ⟨w, ?_, inj_rotate5x2 _ hi⟩
    show s.sy + 1 + 1 = n + 2
    omega

/-! ## The first rows -/

/-- What holds before the first pair of rows is complete: nothing is done. -/
structure P5 (c : Ctx) (s : St5) : Prop where
  ne : s.ab.ptr 0 ≠ s.ab.ptr 1
  y : s.y = 0
  dst : s.dst = c.a.dst

theorem DstOk.zero {c : Ctx} {out : Int → Nat → Int} {dst : Int → Int → Int} (h : dst = c.a.dst) : DstOk c out 0 dst := by
  intro r x
  rw [h, if_neg (by omega)]

/-- The first two rows. -/
theorem start5 (c : Ctx) (s : St5) (ht : T5 c ((0 : Nat) : Int) s.sum) (h : P5 c s) : W5 c 2 (St5.rot (St5.vert c s)) := by
  refine ⟨?_, ?_, ?_, by omega, ?_⟩
  · exact ht.rot
  · exact put5_rot ht s.ab h.ne
  · show s.y + 2 = 2
    rw [h.y]
  · show DstOk c (out5 c) s.y s.dst
    rw [h.y]
    exact DstOk.zero h.dst

/-- One row only. -/
theorem vert1_5 (c : Ctx) (hb : c.a.e.bottom = false) (hh : c.a.h = 1) (s : St5) (ht : T5 c ((0 : Nat) : Int) (s.sum.alias 4 3))
    (h : P5 c s) : DstOk c (out5 c) c.a.h (St5.vert1 c s).dst := by
  have w := start5 c { s with sum := s.sum.alias 4 3 } ht ⟨h.ne, h.y, h.dst⟩
  exact one5 c hb 2 _ w (by omega)

theorem top5_run (c : Ctx) (hw : 0 < c.a.w) (hh : 0 < c.a.h) (ht : c.a.e.top = true)
    (hb : c.a.e.bottom = true → c.a.h % 2 = 0 ∧ 6 ≤ c.a.h) (s : St5) (h : P5 c s) (hsy : s.sy = 0) :
    DstOk c (out5 c) c.a.h (St5.restTop c (St5.initTop c s)).dst := by
  have nb : c.a.h ≤ 2 → c.a.e.bottom = false := by
    intro h
    by_contra hc
    have := hb (by simpa using hc)
    omega
  have hs := top5 (c := c) hw ht s.sum.buf
  -- the row stored last
  have r0 : ∀ row k, k < c.a.w + 2 → box5RowH c.d c.a (some (c.a.left s.sy)) (s.dst s.sy) row k = h5 c ((0 : Nat) : Int) k := by
    intro row k hk
    rw [hsy, h.dst]
    exact (row_in c hw 0 hh c.a.dst (fun _ => rfl) row k hk).2
  have hp : P5 c (St5.initTop c s) := ⟨h.ne, h.y, h.dst⟩
  have hptr : ∀ i, (St5.initTop c s).sum.ptr i = i - 1 := fun _ => rfl
  have hy1 : (St5.initTop c s).sy = 1 := by
    show s.sy + 1 = 1
    omega
  have t1 : c.a.h = 1 → T5 c ((0 : Nat) : Int) ((St5.initTop c s).sum.alias 4 3) := by
    intro h1
    apply T5.of_put_last hs 2 _ rfl (by show (0 : Nat) ≠ 2; omega) (by show (0 : Nat) ≠ 2; omega) (by show (1 : Nat) ≠ 2; omega) r0
    have hb' := nb (by omega)
    rw [(h_last c hb' (by omega) _ (by omega)).2, (h_last c hb' (by omega) (0 : Int) (by omega)).2]
  have t2 : 1 < c.a.h → T5 c ((0 : Nat) : Int) (St5.rowH c 3 (St5.initTop c s)).sum := by
    intro h1
    apply T5.of_put hs 2 3 _ _ rfl rfl ⟨by show (0 : Nat) ≠ 2; omega, by show (0 : Nat) ≠ 3; omega⟩
      ⟨by show (0 : Nat) ≠ 2; omega, by show (0 : Nat) ≠ 3; omega⟩ ⟨by show (1 : Nat) ≠ 2; omega, by show (1 : Nat) ≠ 3; omega⟩
      (by omega) r0
    intro row k hk
    show box5RowH c.d c.a (some (c.a.left (s.sy + 1))) (s.dst ((s.sy + 1 : Nat) : Int)) row k = _
    rw [hsy, h.dst]
    exact (row_in c hw 1 h1 c.a.dst (fun _ => rfl) row k hk).2
  generalize St5.initTop c s = s' at *
  unfold St5.restTop
  by_cases l1 : c.a.h ≤ 1
  · rw [if_pos l1]
    exact vert1_5 c (nb (by omega)) (by omega) s' (t1 (by omega)) hp
  · rw [if_neg l1]
    have w : W5 c 2 (St5.secondTop c s') := start5 c (St5.rowH c 3 s') (t2 (by omega)) ⟨hp.ne, hp.y, hp.dst⟩
    have q : ∀ i, (St5.secondTop c s').sum.ptr i = if i < 3 then i + 2 - 1 else if i < 5 then i - 3 - 1 else i - 1 := by
      intro i
      show (if i < 3 then s'.sum.ptr (i + 2) else if i < 5 then s'.sum.ptr (i - 3) else s'.sum.ptr i) = _
      rw [hptr, hptr, hptr]
    have qy : (St5.secondTop c s').sy = 2 := by
      show s'.sy + 1 = 2
      omega
    generalize St5.secondTop c s' = s2 at *
    by_cases l2 : c.a.h ≤ 2
    · rw [if_pos l2]
      have : c.a.h = 2 := by omega
      exact vert2_5 c (nb l2) s2 (by rw [this]; exact w)
    · rw [if_neg l2]
      refine main5 c hw (fun h => (hb h).1) (c.a.h - 2) 2 _ (by omega) ⟨⟨?_, w.ab, w.y, w.even, w.dst⟩, qy, ?_⟩
      · exact ⟨w.sum.s0, w.sum.s1, w.sum.s2⟩
      · intro i hi j hj e
        have e' : (if i = 3 then 4 else s2.sum.ptr i) = if j = 3 then 4 else s2.sum.ptr j := e
        rw [q, q] at e'
        split_ifs at e' <;> omega

theorem first5_run (c : Ctx) (hw : 0 < c.a.w) (hh : 0 < c.a.h) (ht : c.a.e.top = false)
    (hb : c.a.e.bottom = true → c.a.h % 2 = 0 ∧ 6 ≤ c.a.h) (s : St5) (h : P5 c s) (hsy : s.sy = 0) :
    DstOk c (out5 c) c.a.h (St5.restFirst c (St5.initFirst c s)).dst := by
  have nb : c.a.h ≤ 4 → c.a.e.bottom = false := by
    intro h
    by_contra hc
    have := hb (by simpa using hc)
    omega
  have hf : ∀ y : Int, y ≤ 0 → h5 c y = h5 c ((0 : Nat) : Int) := fun y hy => (h_first c ht hh y hy).2
  have hall : ∀ i, Holds c (St5.initFirst c s).sum i (h5 c ((0 : Nat) : Int)) := by
    intro i
    have := first5 hw hh s.sum.buf i
    show Holds c (Ring.putRow _ 0 (box5RowH c.d c.a (some (c.a.left s.sy)) (s.dst s.sy))) i _
    rw [hsy, h.dst]
    exact this
  have hp : P5 c (St5.initFirst c s) := ⟨h.ne, h.y, h.dst⟩
  have hptr : ∀ i, (St5.initFirst c s).sum.ptr i = 0 := fun _ => rfl
  have hy1 : (St5.initFirst c s).sy = 1 := by
    show s.sy + 1 = 1
    omega
  generalize St5.initFirst c s = s' at *
  have s0 : S5 c ((0 : Nat) : Int) s'.sum :=
    ⟨(hall 0).eq (hf _ (by omega)), (hall 1).eq (hf _ (by omega)), (hall 2).eq (hf _ (by omega))⟩
  unfold St5.restFirst
  by_cases l1 : c.a.h ≤ 1
  · rw [if_pos l1]
    apply vert1_5 c (nb (by omega)) (by omega) s' _ hp
    refine ⟨⟨s0.s0, s0.s1, s0.s2⟩, hall 3, ?_⟩
    have hb' := nb (by omega)
    rw [(h_last c hb' (by omega) _ (by omega)).2]
    exact ((hall 3).of_get (r' := s'.sum.alias 4 3) (i := 4) rfl).at5 (by omega)
  · rw [if_neg l1]
    have w : W5 c 2 (St5.second c s') := by
      apply start5 c (St5.rowH c 1 { s' with sum := s'.sum.point 4 1 }) _ ⟨hp.ne, hp.y, hp.dst⟩
      have keep : ∀ i < 4, Holds c (St5.rowH c 1 { s' with sum := s'.sum.point 4 1 }).sum i (h5 c ((0 : Nat) : Int)) := by
        intro i hi
        have hne : (s'.sum.point 4 1).ptr i = s'.sum.ptr i := if_neg (by omega)
        have e : (St5.rowH c 1 { s' with sum := s'.sum.point 4 1 }).sum.get i = s'.sum.get i := by
          have := get_putRow_ne (s'.sum.point 4 1) i 1 (box5RowH c.d c.a (some (c.a.left s'.sy)) (s'.dst s'.sy))
            (by rw [hne, hptr]; omega)
          refine Eq.trans this ?_
          show s'.sum.buf _ = s'.sum.buf _
          rw [hne]
        exact (hall i).of_get e
      refine ⟨⟨(keep 0 (by omega)).eq (hf _ (by omega)), (keep 1 (by omega)).eq (hf _ (by omega)),
        (keep 2 (by omega)).eq (hf _ (by omega))⟩, keep 3 (by omega), ?_⟩
      intro k hk
      have := get_putRow_same (s'.sum.point 4 1) 4 1 (box5RowH c.d c.a (some (c.a.left s'.sy)) (s'.dst s'.sy)) rfl
      show (Ring.putRow (s'.sum.point 4 1) 1 (box5RowH c.d c.a (some (c.a.left s'.sy)) (s'.dst s'.sy))).get 4 k = _
      rw [this, hy1, hp.dst]
      exact (row_in c hw 1 (by omega) c.a.dst (fun _ => rfl) _ k hk).2
    have q : ∀ i < 5, (St5.second c s').sum.ptr i = if i = 2 then 1 else 0 := by
      intro i hi
      show (if i < 3 then (if i + 2 = 4 then 1 else s'.sum.ptr (i + 2)) else if i < 5 then
        (if i - 3 = 4 then 1 else s'.sum.ptr (i - 3)) else _) = _
      rw [hptr, hptr]
      split_ifs <;> omega
    have qy : (St5.second c s').sy = 2 := by
      show s'.sy + 1 = 2
      omega
    generalize St5.second c s' = s2 at *
    by_cases l2 : c.a.h ≤ 2
    · rw [if_pos l2]
      have : c.a.h = 2 := by omega
      exact vert2_5 c (nb (by omega)) s2 (by rw [this]; exact w)
    · rw [if_neg l2]
      have wy := w.y
      have hs : S5 c ((2 : Nat) : Int) ((s2.sum.point 3 2).point 4 3) := ⟨w.sum.s0, w.sum.s1, w.sum.s2⟩
      have r2 : ∀ row k, k < c.a.w + 2 → box5RowH c.d c.a (some (c.a.left s2.sy)) (s2.dst s2.sy) row k = h5 c ((2 : Nat) : Int) k := by
        intro row k hk
        rw [qy]
        exact (row_in c hw 2 (by omega) s2.dst (w.dst.row 2 (by omega)) row k hk).2
      have p0 : ((s2.sum.point 3 2).point 4 3).ptr 0 = 0 := q 0 (by omega)
      have p1 : ((s2.sum.point 3 2).point 4 3).ptr 1 = 0 := q 1 (by omega)
      have p2 : ((s2.sum.point 3 2).point 4 3).ptr 2 = 1 := q 2 (by omega)
      by_cases l3 : c.a.h ≤ 3
      · rw [if_pos l3]
        have hb' := nb (by omega)
        apply odd5 c hb' 2 (St5.third c s2) _ w.ab w.y w.even w.dst (by omega)
        apply T5.of_put_last hs 2 _ rfl (by omega) (by omega) (by omega) r2
        rw [(h_last c hb' (by omega) _ (by omega)).2, (h_last c hb' (by omega) ((2 : Nat) : Int) (by omega)).2]
      · rw [if_neg l3]
        have ht2 : T5 c ((2 : Nat) : Int) (St5.rowH c 3 (St5.third c s2)).sum := by
          apply T5.of_put hs 2 3 _ _ rfl rfl ⟨by omega, by omega⟩ ⟨by omega, by omega⟩ ⟨by omega, by omega⟩ (by omega) r2
          intro row k hk
          show box5RowH c.d c.a (some (c.a.left (s2.sy + 1))) (s2.dst ((s2.sy + 1 : Nat) : Int)) row k = _
          rw [qy]
          exact (row_in c hw 3 (by omega) s2.dst (w.dst.row 3 (by omega)) row k hk).2
        have w4 : W5 c 4 (St5.fourth c (St5.third c s2)) :=
          fin5 c 2 (St5.rowH c 3 (St5.third c s2)) ht2 w.ab w.y w.even w.dst
        have q4 : ∀ i < 5, (St5.fourth c (St5.third c s2)).sum.ptr i = if i = 0 then 1 else if i = 1 then 2 else if i = 2 then 3 else 0 := by
          intro i hi
          have : i = 0 ∨ i = 1 ∨ i = 2 ∨ i = 3 ∨ i = 4 := by omega
          rcases this with rfl | rfl | rfl | rfl | rfl
          · exact p2
          · rfl
          · rfl
          · exact p0
          · exact p1
        have q4y : (St5.fourth c (St5.third c s2)).sy = 4 := by
          show s2.sy + 1 + 1 = 4
          omega
        generalize St5.fourth c (St5.third c s2) = s4 at *
        by_cases l4 : c.a.h ≤ 4
        · rw [if_pos l4]
          have : c.a.h = 4 := by omega
          exact vert2_5 c (nb (by omega)) s4 (by rw [this]; exact w4)
        · rw [if_neg l4]
          refine main5 c hw (fun h => (hb h).1) (c.a.h - 4) 4 _ (by omega) ⟨⟨?_, w4.ab, w4.y, w4.even, w4.dst⟩, q4y, ?_⟩
          · exact ⟨w4.sum.s0, w4.sum.s1, w4.sum.s2⟩
          · intro i hi j hj e
            have e' : (if i = 3 then 4 else s4.sum.ptr i) = if j = 3 then 4 else s4.sum.ptr j := e
            rw [q4 i hi, q4 j hj] at e'
            split_ifs at e' <;> omega

/-- sgr_5x5_c computes the pixels row by row from the samples. With rows below, the height has to be even and 6 or more:
for other blocks the code does not look at them. -/
theorem run5 (c : Ctx) (j : Junk) (hw : 0 < c.a.w) (hh : 0 < c.a.h)
    (hb : c.a.e.bottom = true → c.a.h % 2 = 0 ∧ 6 ≤ c.a.h) : DstOk c (out5 c) c.a.h (sgr5x5 c j) := by
  unfold sgr5x5 St5.run
  by_cases ht : c.a.e.top = true
  · rw [if_pos ht]
    exact top5_run c hw hh ht hb _ ⟨by show (0 : Nat) ≠ 1; omega, rfl, rfl⟩ rfl
  · rw [if_neg ht]
    exact first5_run c hw hh (by simpa using ht) hb _ ⟨by show (0 : Nat) ≠ 1; omega, rfl, rfl⟩ rfl

end Dav1d.Lr
