import Verif.Dsp.LrSgrRun5

/-!
# sgr_mix_c, row by row

Both sizes of boxes together: the rings of sgr_5x5_c, and a ring of four rows of `A` and `B` from boxes of 9 samples.
-/

namespace Dav1d.Lr

/-! ## The rings of boxes of 9 samples -/

/-- `n` rows have been read. -/
structure S3 (c : Ctx) (n : Int) (r : Ring) : Prop where
  s0 : Holds c r 0 (h3 c (n - 2))
  s1 : Holds c r 1 (h3 c (n - 1))

/-- A further row has been stored. -/
structure T3 (c : Ctx) (n : Int) (r : Ring) : Prop extends S3 c n r where
  s2 : Holds c r 2 (h3 c n)

theorem T3.rot {c : Ctx} {n : Int} {r : Ring} (h : T3 c n r) : S3 c (n + 1) (r.rotate 3) :=
  ⟨(h.s1.of_get (r' := r.rotate 3) (i := 0) rfl).at3 (by omega), (h.s2.of_get (r' := r.rotate 3) (i := 1) rfl).at3 (by omega)⟩

/-- `A` and `B` with `n` rows read, `n` even. -/
structure A3 (c : Ctx) (n : Int) (r : Ring) : Prop where
  a1 : Holds c r 1 (Lr.ab3 c (n - 3))
  a2 : Holds c r 2 (Lr.ab3 c (n - 2))
  inj : Inj 4 r

/-- `A` and `B` with `n` rows read, `n` odd. -/
structure B3 (c : Ctx) (n : Int) (r : Ring) : Prop where
  a0 : Holds c r 0 (Lr.ab3 c (n - 4))
  a1 : Holds c r 1 (Lr.ab3 c (n - 3))
  a2 : Holds c r 2 (Lr.ab3 c (n - 2))
  inj : Inj 4 r

/-- sgr_box3_vert on the ring of `A` and `B`. -/
def put3 (c : Ctx) (sum ab : Ring) : Ring :=
  ab.put 3 (fun out => calcRowAb c.d c.a.w c.g.s1 9 455 (box3RowV c.d c.a.w sum out))

theorem put3_three {c : Ctx} {n : Int} {sum : Ring} (h : T3 c n sum) (ab : Ring) : Holds c (put3 c sum ab) 3 (Lr.ab3 c (n - 1)) := by
  intro k hk
  unfold put3
  rw [get_put_same]
  exact vert3_holds c sum (n - 1) (h.s0.at3 (by omega)) h.s1 (h.s2.at3 (by omega)) _ k hk

theorem put3_get (c : Ctx) (sum ab : Ring) (h : Inj 4 ab) (i : Nat) (hi : i < 3) : (put3 c sum ab).get i = ab.get i :=
  get_put_ne ab i 3 _ (h.ne i 3 (by omega) (by omega) (by omega))

theorem put3_inj (c : Ctx) (sum ab : Ring) (h : Inj 4 ab) : Inj 4 ((put3 c sum ab).rotate 4) := inj_rotate 4 _ h

theorem A3.next {c : Ctx} {n : Int} {sum ab : Ring} (h : A3 c n ab) (ht : T3 c n sum) :
    B3 c (n + 1) ((put3 c sum ab).rotate 4) :=
  ⟨((h.a1.of_get (put3_get c sum ab h.inj 1 (by omega))).of_get (r' := (put3 c sum ab).rotate 4) (i := 0) rfl).ab3 (by omega),
    ((h.a2.of_get (put3_get c sum ab h.inj 2 (by omega))).of_get (r' := (put3 c sum ab).rotate 4) (i := 1) rfl).ab3 (by omega),
    ((put3_three ht ab).of_get (r' := (put3 c sum ab).rotate 4) (i := 2) rfl).ab3 (by omega), put3_inj c sum ab h.inj⟩

theorem B3.next {c : Ctx} {n : Int} {sum ab : Ring} (h : B3 c n ab) (ht : T3 c n sum) :
    A3 c (n + 1) ((put3 c sum ab).rotate 4) :=
  ⟨((h.a2.of_get (put3_get c sum ab h.inj 2 (by omega))).of_get (r' := (put3 c sum ab).rotate 4) (i := 1) rfl).ab3 (by omega),
    ((put3_three ht ab).of_get (r' := (put3 c sum ab).rotate 4) (i := 2) rfl).ab3 (by omega), put3_inj c sum ab h.inj⟩

/-- Storing a row. -/
theorem T3.of_put {c : Ctx} {n : Int} {r : Ring} (h : S3 c n r) (i2 : Nat) (f : Row → Row) (e2 : r.ptr 2 = i2)
    (h0 : r.ptr 0 ≠ i2) (h1 : r.ptr 1 ≠ i2) (hf : ∀ row k, k < c.a.w + 2 → f row k = h3 c n k) : T3 c n (r.putRow i2 f) := by
  refine ⟨⟨h.s0.of_get (get_putRow_ne r 0 i2 f h0), h.s1.of_get (get_putRow_ne r 1 i2 f h1)⟩, ?_⟩
  intro k hk
  rw [get_putRow_same r 2 i2 f e2]
  exact hf _ k hk

/-- Repeating the last row, without rows below. -/
theorem T3.of_dup {c : Ctx} {n : Int} {r : Ring} (h : S3 c n r) (hb : c.a.e.bottom = false) (h1 : 0 < c.a.h)
    (hn : (c.a.h : Int) ≤ n) : T3 c n (r.alias 2 1) := by
  refine ⟨⟨h.s0, h.s1⟩, ?_⟩
  have e : h3 c n = h3 c (n - 1) := by
    rw [(h_last c hb h1 n (by omega)).1, (h_last c hb h1 (n - 1) (by omega)).1]
  rw [e]
  exact h.s1.of_get (r' := r.alias 2 1) (i := 2) rfl

/-! ## The state -/

/-- What holds when `n` rows have been read, and the rows before `n - 2` are done. -/
structure WM (c : Ctx) (n : Nat) (s : StM) : Prop where
  s5 : S5 c n s.sum5
  a5 : A5 c n s.ab5
  s3 : S3 c n s.sum3
  a3 : A3 c n s.ab3
  y : s.y + 2 = n
  even : n % 2 = 0
  dst : DstOk c (outM c) s.y s.dst

theorem finM (c : Ctx) (n : Nat) (s : StM) (ht5 : T5 c n s.sum5) (ha5 : A5 c n s.ab5) (ht3 : T3 c ((n : Int) + 1) s.sum3)
    (ha3 : B3 c ((n : Int) + 1) s.ab3) (hy : s.y + 2 = n) (he : n % 2 = 0)
    (hd : DstOk c (outM c) s.y s.dst) : WM c (n + 2) (StM.finish c (StM.vert3 c (StM.vert5 c s))) := by
  have p0 : Holds c (put5 c s.sum5 s.ab5) 0 (Lr.ab5 c ((n : Int) - 3)) := ha5.a0.of_get (put5_zero c s.sum5 s.ab5 ha5.ne)
  have p1 : Holds c (put5 c s.sum5 s.ab5) 1 (Lr.ab5 c ((n : Int) - 1)) := put5_one ht5 s.ab5
  have q0 := ha3.a0.of_get (put3_get c s.sum3 s.ab3 ha3.inj 0 (by omega))
  have q1 := ha3.a1.of_get (put3_get c s.sum3 s.ab3 ha3.inj 1 (by omega))
  have q2 := ha3.a2.of_get (put3_get c s.sum3 s.ab3 ha3.inj 2 (by omega))
  have q3 := put3_three ht3 s.ab3
  have d1 : DstOk c (outM c) (s.y + 1) (weightedRow2 c.d c.a.w c.g.w0 c.g.w1
      (finish2First c.d (s.dst s.y) (put5 c s.sum5 s.ab5)) (finishRow1 c.d (s.dst s.y) (put3 c s.sum3 s.ab3) 0) s.y s.dst) := by
    apply weighted2_ok c c.g.w0 c.g.w1 _ (t5 c s.y) _ (t3 c s.y) (outM c) s.y s.dst hd
    · intro x hx
      exact finish2First_eq c _ s.y (by omega) _ (hd.row _ le_rfl) (p0.ab5 (by omega)) (p1.ab5 (by omega)) x hx
    · intro x hx
      exact finishRow1_eq c _ 0 s.y _ (hd.row _ le_rfl) (q0.ab3 (by omega)) (q1.ab3 (by omega)) (q2.ab3 (by omega)) x hx
    · intro x _
      rfl
  refine ⟨?_, ?_, ?_, ?_, ?_, by omega, ?_⟩
  · have := ht5.rot
    rw [Nat.cast_add]
    exact this
  · have := put5_rot ht5 s.ab5 ha5.ne
    rw [Nat.cast_add]
    exact this
  · have := ht3.rot
    have e : ((n + 2 : Nat) : Int) = (n : Int) + 1 + 1 := by omega
    rw [e]
    exact this
  · have := ha3.next ht3
    have e : ((n + 2 : Nat) : Int) = (n : Int) + 1 + 1 := by omega
    rw [e]
    exact this
  · show s.y + 2 + 2 = n + 2
    omega
  · apply weighted2_ok c c.g.w0 c.g.w1 _ (t5 c ((s.y + 1 : Nat) : Int)) _ (t3 c ((s.y + 1 : Nat) : Int)) (outM c) (s.y + 1) _ d1
    · intro x hx
      exact finish2Second_eq c _ ((s.y + 1 : Nat) : Int) (by omega) _ (hd.row _ (by omega)) (p1.ab5 (by omega)) x hx
    · intro x hx
      exact finishRow1_eq c _ 1 ((s.y + 1 : Nat) : Int) _ (hd.row _ (by omega)) (q1.ab3 (by omega)) (q2.ab3 (by omega))
        (q3.ab3 (by omega)) x hx
    · intro x _
      rfl

/-- The last row, when there is one left. -/
theorem oneM (c : Ctx) (hb : c.a.e.bottom = false) (n : Nat) (s : StM) (h : WM c n s) (hn : c.a.h + 1 = n) :
    DstOk c (outM c) c.a.h (StM.output1 c s).dst := by
  have hy := h.y
  have he := h.even
  have ht : T5 c n ((s.sum5.alias 3 2).alias 4 2) := T5.of_dup h.s5 hb (by omega) (by omega)
  have ht3 : T3 c n (s.sum3.alias 2 1) := T3.of_dup h.s3 hb (by omega) (by omega)
  have p0 : Holds c (put5 c ((s.sum5.alias 3 2).alias 4 2) s.ab5) 0 (Lr.ab5 c ((n : Int) - 3)) :=
    h.a5.a0.of_get (put5_zero c _ s.ab5 h.a5.ne)
  have p1 : Holds c (put5 c ((s.sum5.alias 3 2).alias 4 2) s.ab5) 1 (Lr.ab5 c ((n : Int) - 1)) := put5_one ht s.ab5
  have q := h.a3.next ht3
  have d1 : DstOk c (outM c) (s.y + 1) (StM.output1 c s).dst := by
    apply weighted2_ok c c.g.w0 c.g.w1 _ (t5 c s.y) _ (t3 c s.y) (outM c) s.y s.dst h.dst
    · intro x hx
      exact finish2First_eq c _ s.y (by omega) _ (h.dst.row _ le_rfl) (p0.ab5 (by omega)) (p1.ab5 (by omega)) x hx
    · intro x hx
      exact finishRow1_eq c _ 0 s.y _ (h.dst.row _ le_rfl) (q.a0.ab3 (by omega)) (q.a1.ab3 (by omega)) (q.a2.ab3 (by omega)) x hx
    · intro x _
      rfl
  have : s.y + 1 = c.a.h := by omega
  rw [← this]
  exact d1

theorem vert2_M (c : Ctx) (hb : c.a.e.bottom = false) (s : StM) (h : WM c c.a.h s) :
    DstOk c (outM c) c.a.h (StM.vert2 c s).dst := by
  have hy := h.y
  have ht3 : T3 c c.a.h (s.sum3.alias 2 1) := T3.of_dup h.s3 hb (by omega) le_rfl
  have w := finM c c.a.h (StM.dup3 (StM.rot3 (StM.vert3 c (StM.dup3 (StM.dup5 s)))))
    (T5.of_dup h.s5 hb (by omega) le_rfl) h.a5 (T3.of_dup ht3.rot hb (by omega) (by omega)) (h.a3.next ht3) h.y h.even h.dst
  have : s.y + 2 = c.a.h := by omega
  rw [← this]
  exact w.dst

/-- The label `odd`, after a row has been stored. -/
theorem oddM (c : Ctx) (hb : c.a.e.bottom = false) (n : Nat) (s : StM) (ht : T5 c n (s.sum5.alias 4 3)) (ha : A5 c n s.ab5)
    (hs3 : S3 c ((n : Int) + 1) s.sum3) (ha3 : B3 c ((n : Int) + 1) s.ab3)
    (hy : s.y + 2 = n) (he : n % 2 = 0) (hd : DstOk c (outM c) s.y s.dst) (hn : n + 1 = c.a.h) :
    DstOk c (outM c) c.a.h (StM.odd c s).dst := by
  have w := finM c n (StM.dup3 (StM.pad5 s)) ht ha (T3.of_dup hs3 hb (by omega) (by omega)) ha3 hy he hd
  exact oneM c hb (n + 2) _ w (by omega)

/-- The loop invariant. -/
structure FM (c : Ctx) (n : Nat) (s : StM) : Prop extends WM c n s where
  sy : s.sy = n
  inj5 : Inj 5 s.sum5
  inj3 : Inj 3 s.sum3

theorem mainM (c : Ctx) (hw : 0 < c.a.w) (hb : c.a.e.bottom = true → c.a.h % 2 = 0) (m n : Nat) (s : StM)
    (hn : n + m = c.a.h) (h : FM c n s) : DstOk c (outM c) c.a.h (StM.main c m s).dst := by
  induction m using Nat.twoStepInduction generalizing n s with
  | zero =>
    obtain ⟨hW, hsy, hi, hi3⟩ := h
    have hn' : n = c.a.h := by omega
    subst hn'
    unfold StM.main
    by_cases hb' : c.a.e.bottom = true
    · rw [if_pos hb']
      have hy := hW.y
      have ht : T5 c c.a.h ((s.sum5.putRow (s.sum5.ptr 3) (box5RowH c.d c.a none (c.a.lpf 6))).putRow (s.sum5.ptr 4)
          (box5RowH c.d c.a none (c.a.lpf 7))) :=
        T5.of_put hW.s5 _ _ _ _ rfl rfl
          ⟨hi.ne 0 3 (by omega) (by omega) (by omega), hi.ne 0 4 (by omega) (by omega) (by omega)⟩
          ⟨hi.ne 1 3 (by omega) (by omega) (by omega), hi.ne 1 4 (by omega) (by omega) (by omega)⟩
          ⟨hi.ne 2 3 (by omega) (by omega) (by omega), hi.ne 2 4 (by omega) (by omega) (by omega)⟩
          (hi.ne 3 4 (by omega) (by omega) (by omega))
          (fun row k hk => (bottom6 c hw hb' row k hk).2) (fun row k hk => (bottom7 c hw hb' row k hk).2)
      have ht3 : T3 c c.a.h (s.sum3.putRow (s.sum3.ptr 2) (box3RowH c.d c.a none (c.a.lpf 6))) :=
        T3.of_put hW.s3 _ _ rfl (hi3.ne 0 2 (by omega) (by omega) (by omega)) (hi3.ne 1 2 (by omega) (by omega) (by omega))
          (fun row k hk => (bottom6 c hw hb' row k hk).1)
      have hi3' : Inj 3 ((s.sum3.putRow (s.sum3.ptr 2) (box3RowH c.d c.a none (c.a.lpf 6))).rotate 3) := inj_rotate 3 _ hi3
      have ht3' := T3.of_put ht3.rot _ (box3RowH c.d c.a none (c.a.lpf 7)) rfl
        (hi3'.ne 0 2 (by omega) (by omega) (by omega)) (hi3'.ne 1 2 (by omega) (by omega) (by omega))
          (fun row k hk => (bottom7 c hw hb' row k hk).1)
      have w := finM c c.a.h (StM.rowLpf c _ _ 7 (StM.rot3 (StM.vert3 c (StM.rowLpf c (s.sum3.ptr 2) (s.sum5.ptr 3) 6 s))))
        ht hW.a5 ht3' (hW.a3.next ht3) hW.y hW.even hW.dst
      have : s.y + 2 = c.a.h := by omega
      rw [← this]
      exact w.dst
    · rw [if_neg hb']
      exact vert2_M c (by simpa using hb') s hW
  | one =>
    obtain ⟨hW, hsy, hi, hi3⟩ := h
    have hb' : c.a.e.bottom = false := by
      by_contra hc
      have := hb (by simpa using hc)
      have := hW.even
      omega
    unfold StM.main
    have hr : ∀ row k, k < c.a.w + 2 → box3RowH c.d c.a (some (c.a.left s.sy)) (s.dst s.sy) row k = h3 c n k ∧
        box5RowH c.d c.a (some (c.a.left s.sy)) (s.dst s.sy) row k = h5 c n k := by
      intro row k hk
      rw [hsy]
      exact row_in c hw n (by omega) s.dst (hW.dst.row n (by have := hW.y; omega)) row k hk
    have ht : T5 c n ((s.sum5.putRow (s.sum5.ptr 3) (box5RowH c.d c.a (some (c.a.left s.sy)) (s.dst s.sy))).alias 4 3) := by
      apply T5.of_put_last hW.s5 _ _ rfl (hi.ne 0 3 (by omega) (by omega) (by omega))
        (hi.ne 1 3 (by omega) (by omega) (by omega)) (hi.ne 2 3 (by omega) (by omega) (by omega))
      · exact fun row k hk => (hr row k hk).2
      · rw [(h_last c hb' (by omega) _ (by omega)).2, (h_last c hb' (by omega) (n : Int) (by omega)).2]
    have ht3 : T3 c n (s.sum3.putRow (s.sum3.ptr 2) (box3RowH c.d c.a (some (c.a.left s.sy)) (s.dst s.sy))) :=
      T3.of_put hW.s3 _ _ rfl (hi3.ne 0 2 (by omega) (by omega) (by omega)) (hi3.ne 1 2 (by omega) (by omega) (by omega))
        (fun row k hk => (hr row k hk).1)
    exact oddM c hb' n (StM.rot3 (StM.vert3 c (StM.rowH c (s.sum3.ptr 2) (s.sum5.ptr 3) s))) ht hW.a5 ht3.rot
      (hW.a3.next ht3) hW.y hW.even hW.dst hn
  | more m ih _ =>
    obtain ⟨hW, hsy, hi, hi3⟩ := h
    unfold StM.main
    dsimp only
    have hy := hW.y
    have hr : ∀ row k, k < c.a.w + 2 → box3RowH c.d c.a (some (c.a.left s.sy)) (s.dst s.sy) row k = h3 c n k ∧
        box5RowH c.d c.a (some (c.a.left s.sy)) (s.dst s.sy) row k = h5 c n k := by
      intro row k hk
      rw [hsy]
      exact row_in c hw n (by omega) s.dst (hW.dst.row n (by omega)) row k hk
    have hr' : ∀ row k, k < c.a.w + 2 →
        box3RowH c.d c.a (some (c.a.left (s.sy + 1))) (s.dst ((s.sy + 1 : Nat) : Int)) row k = h3 c ((n : Int) + 1) k ∧
        box5RowH c.d c.a (some (c.a.left (s.sy + 1))) (s.dst ((s.sy + 1 : Nat) : Int)) row k = h5 c ((n : Int) + 1) k := by
      intro row k hk
      rw [hsy]
      have := row_in c hw (n + 1) (by omega) s.dst (hW.dst.row (n + 1) (by omega)) row k hk
      have e : ((n + 1 : Nat) : Int) = (n : Int) + 1 := by omega
      rw [e] at this ⊢
      exact this
    have ht : T5 c n ((s.sum5.putRow (s.sum5.ptr 3) (box5RowH c.d c.a (some (c.a.left s.sy)) (s.dst s.sy))).putRow (s.sum5.ptr 4)
        (box5RowH c.d c.a (some (c.a.left (s.sy + 1))) (s.dst ((s.sy + 1 : Nat) : Int)))) := by
      exact T5.of_put hW.s5 _ _ _ _ rfl rfl
        ⟨hi.ne 0 3 (by omega) (by omega) (by omega), hi.ne 0 4 (by omega) (by omega) (by omega)⟩
        ⟨hi.ne 1 3 (by omega) (by omega) (by omega), hi.ne 1 4 (by omega) (by omega) (by omega)⟩
        ⟨hi.ne 2 3 (by omega) (by omega) (by omega), hi.ne 2 4 (by omega) (by omega) (by omega)⟩
        (hi.ne 3 4 (by omega) (by omega) (by omega))
        (fun row k hk => (hr row k hk).2) (fun row k hk => (hr' row k hk).2)
    have ht3 : T3 c n (s.sum3.putRow (s.sum3.ptr 2) (box3RowH c.d c.a (some (c.a.left s.sy)) (s.dst s.sy))) :=
      T3.of_put hW.s3 _ _ rfl (hi3.ne 0 2 (by omega) (by omega) (by omega)) (hi3.ne 1 2 (by omega) (by omega) (by omega))
        (fun row k hk => (hr row k hk).1)
    have hi3' : Inj 3 ((s.sum3.putRow (s.sum3.ptr 2) (box3RowH c.d c.a (some (c.a.left s.sy)) (s.dst s.sy))).rotate 3) :=
      inj_rotate 3 _ hi3
    have ht3' := T3.of_put ht3.rot _ (box3RowH c.d c.a (some (c.a.left (s.sy + 1))) (s.dst ((s.sy + 1 : Nat) : Int))) rfl
      (hi3'.ne 0 2 (by omega) (by omega) (by omega)) (hi3'.ne 1 2 (by omega) (by omega) (by omega))
      (fun row k hk => (hr' row k hk).1)
    have w := finM c n (StM.rowH c _ _ (StM.rot3 (StM.vert3 c (StM.rowH c (s.sum3.ptr 2) (s.sum5.ptr 3) s))))
      ht hW.a5 ht3' (hW.a3.next ht3) hW.y hW.even hW.dst
    refine ih (n + 2) _ (by omega) ⟨w, ?_, inj_rotate5x2 _ hi, inj_rotate 3 _ hi3'⟩
    show s.sy + 1 + 1 = n + 2
    omega

/-! ## The first rows -/

/-- What holds after the first row. -/
structure PM (c : Ctx) (s : StM) : Prop where
  ne : s.ab5.ptr 0 ≠ s.ab5.ptr 1
  s3 : S3 c 1 s.sum3
  a2 : Holds c s.ab3 2 (Lr.ab3 c (-1))
  inj : Inj 4 s.ab3
  y : s.y = 0
  sy : s.sy = 1
  dst : s.dst = c.a.dst

/-- The first two rows. -/
theorem startM (c : Ctx) (s : StM) (ht : T5 c ((0 : Nat) : Int) s.sum5) (ht3 : T3 c 1 s.sum3)
    (ne : s.ab5.ptr 0 ≠ s.ab5.ptr 1) (a2 : Holds c s.ab3 2 (Lr.ab3 c (-1))) (inj : Inj 4 s.ab3) (y : s.y = 0)
    (dst : s.dst = c.a.dst) : WM c 2 (StM.rot3 (StM.vert3 c (StM.rot5 (StM.vert5 c s)))) := by
  refine ⟨ht.rot, put5_rot ht s.ab5 ne, ht3.rot, ?_, ?_, by omega, ?_⟩
  · refine ⟨?_, ?_, put3_inj c s.sum3 s.ab3 inj⟩
    · exact ((a2.of_get (put3_get c s.sum3 s.ab3 inj 2 (by omega))).of_get (r' := (put3 c s.sum3 s.ab3).rotate 4)
        (i := 1) rfl).ab3 (by omega)
    · exact ((put3_three ht3 s.ab3).of_get (r' := (put3 c s.sum3 s.ab3).rotate 4) (i := 2) rfl).ab3 (by omega)
  · show s.y + 2 = 2
    rw [y]
  · show DstOk c (outM c) s.y s.dst
    rw [y]
    exact DstOk.zero dst

/-- One row only. -/
theorem vert1_M (c : Ctx) (hb : c.a.e.bottom = false) (hh : c.a.h = 1) (s : StM)
    (ht : T5 c ((0 : Nat) : Int) (s.sum5.alias 4 3)) (h : PM c s) : DstOk c (outM c) c.a.h (StM.vert1 c s).dst := by
  have w := startM c (StM.dup3 (StM.pad5 s)) ht (T3.of_dup h.s3 hb (by omega) (by omega)) h.ne h.a2 h.inj h.y h.dst
  exact oneM c hb 2 _ w (by omega)

theorem top3M {c : Ctx} (hw : 0 < c.a.w) (ht : c.a.e.top = true) (buf : Nat → Row) :
    S3 c 0 (((⟨fun i => i, buf⟩ : Ring).putRow 0 (box3RowH c.d c.a none (c.a.lpf 0))).putRow 1
      (box3RowH c.d c.a none (c.a.lpf 1))) := by
  constructor
  · intro k hk
    rw [get_putRow_ne _ 0 1 _ (by show (0 : Nat) ≠ 1; omega), get_putRow_same _ 0 0 _ rfl]
    have e : (0 : Int) - 2 = -2 := by omega
    rw [e]
    exact (row_top0 c hw ht _ k hk).1
  · intro k hk
    rw [get_putRow_same _ 1 1 _ rfl]
    have e : (0 : Int) - 1 = -1 := by omega
    rw [e]
    exact (row_top1 c hw ht _ k hk).1

theorem topM_run (c : Ctx) (hw : 0 < c.a.w) (hh : 0 < c.a.h) (ht : c.a.e.top = true)
    (hb : c.a.e.bottom = true → c.a.h % 2 = 0 ∧ 6 ≤ c.a.h) (s : StM) (ne : s.ab5.ptr 0 ≠ s.ab5.ptr 1) (inj : Inj 4 s.ab3)
    (y : s.y = 0) (hsy : s.sy = 0) (hdst : s.dst = c.a.dst) :
    DstOk c (outM c) c.a.h (StM.restTop c (StM.initTop c s)).dst := by
  have nb : c.a.h ≤ 2 → c.a.e.bottom = false := by
    intro h
    by_contra hc
    have := hb (by simpa using hc)
    omega
  have hs := top5 (c := c) hw ht s.sum5.buf
  have r0 : ∀ row k, k < c.a.w + 2 → box3RowH c.d c.a (some (c.a.left s.sy)) (s.dst s.sy) row k = h3 c ((0 : Nat) : Int) k ∧
      box5RowH c.d c.a (some (c.a.left s.sy)) (s.dst s.sy) row k = h5 c ((0 : Nat) : Int) k := by
    intro row k hk
    rw [hsy, hdst]
    exact row_in c hw 0 hh c.a.dst (fun _ => rfl) row k hk
  have hs3 := T3.of_put (top3M (c := c) hw ht s.sum3.buf) 2 (box3RowH c.d c.a (some (c.a.left s.sy)) (s.dst s.sy)) rfl
    (by show (0 : Nat) ≠ 2; omega) (by show (1 : Nat) ≠ 2; omega) (fun row k hk => (r0 row k hk).1)
  have hp : PM c (StM.initTop c s) := by
    refine ⟨ne, ?_, ?_, inj_rotate 4 _ inj, y, ?_, hdst⟩
    · exact hs3.rot
    · exact ((put3_three hs3 s.ab3).of_get (r' := (put3 c _ s.ab3).rotate 4) (i := 2) rfl).ab3 (by omega)
    · show s.sy + 1 = 1
      omega
  have hptr : ∀ i, (StM.initTop c s).sum5.ptr i = i - 1 := fun _ => rfl
  have hptr3 : ∀ i, (StM.initTop c s).sum3.ptr i = if i + 1 < 3 then i + 1 else if i + 1 = 3 then 0 else i := fun _ => rfl
  have t1 : c.a.h = 1 → T5 c ((0 : Nat) : Int) ((StM.initTop c s).sum5.alias 4 3) := by
    intro h1
    apply T5.of_put_last hs 2 _ rfl (by show (0 : Nat) ≠ 2; omega) (by show (0 : Nat) ≠ 2; omega) (by show (1 : Nat) ≠ 2; omega)
      (fun row k hk => (r0 row k hk).2)
    have hb' := nb (by omega)
    rw [(h_last c hb' (by omega) _ (by omega)).2, (h_last c hb' (by omega) (0 : Int) (by omega)).2]
  have t2 : 1 < c.a.h → ∀ k3, T5 c ((0 : Nat) : Int) (StM.rowH c k3 3 (StM.initTop c s)).sum5 := by
    intro h1 k3
    apply T5.of_put hs 2 3 _ _ rfl rfl ⟨by show (0 : Nat) ≠ 2; omega, by show (0 : Nat) ≠ 3; omega⟩
      ⟨by show (0 : Nat) ≠ 2; omega, by show (0 : Nat) ≠ 3; omega⟩ ⟨by show (1 : Nat) ≠ 2; omega, by show (1 : Nat) ≠ 3; omega⟩
      (by omega) (fun row k hk => (r0 row k hk).2)
    intro row k hk
    show box5RowH c.d c.a (some (c.a.left (s.sy + 1))) (s.dst ((s.sy + 1 : Nat) : Int)) row k = _
    rw [hsy, hdst]
    exact (row_in c hw 1 h1 c.a.dst (fun _ => rfl) row k hk).2
  clear hs3 hs r0
  generalize StM.initTop c s = s' at *
  unfold StM.restTop
  by_cases l1 : c.a.h ≤ 1
  · rw [if_pos l1]
    exact vert1_M c (nb (by omega)) (by omega) s' (t1 (by omega)) hp
  · rw [if_neg l1]
    have hi3 : Inj 3 s'.sum3 := by
      intro i hi j hj e
      rw [hptr3, hptr3] at e
      split_ifs at e <;> omega
    have t3 : T3 c ((1 : Nat) : Int) (StM.rowH c (s'.sum3.ptr 2) 3 s').sum3 := by
      apply T3.of_put hp.s3 _ _ rfl (hi3.ne 0 2 (by omega) (by omega) (by omega)) (hi3.ne 1 2 (by omega) (by omega) (by omega))
      intro row k hk
      rw [hp.sy, hp.dst]
      exact (row_in c hw 1 (by omega) c.a.dst (fun _ => rfl) row k hk).1
    have w : WM c 2 (StM.secondTop c s') := startM c (StM.rowH c (s'.sum3.ptr 2) 3 s') (t2 (by omega) _) t3 hp.ne hp.a2
      hp.inj hp.y hp.dst
    have q : ∀ i, (StM.secondTop c s').sum5.ptr i = if i < 3 then i + 2 - 1 else if i < 5 then i - 3 - 1 else i - 1 := by
      intro i
      show (if i < 3 then s'.sum5.ptr (i + 2) else if i < 5 then s'.sum5.ptr (i - 3) else s'.sum5.ptr i) = _
      rw [hptr, hptr, hptr]
    have qy : (StM.secondTop c s').sy = 2 := by
      show s'.sy + 1 = 2
      have := hp.sy
      omega
    have q3 : Inj 3 (StM.secondTop c s').sum3 := inj_rotate 3 _ hi3
    generalize StM.secondTop c s' = s2 at *
    by_cases l2 : c.a.h ≤ 2
    · rw [if_pos l2]
      have : c.a.h = 2 := by omega
      exact vert2_M c (nb l2) s2 (by rw [this]; exact w)
    · rw [if_neg l2]
      refine mainM c hw (fun h => (hb h).1) (c.a.h - 2) 2 _ (by omega) ⟨⟨?_, w.a5, w.s3, w.a3, w.y, w.even, w.dst⟩, qy, ?_, q3⟩
      · exact ⟨w.s5.s0, w.s5.s1, w.s5.s2⟩
      · intro i hi j hj e
        have e' : (if i = 3 then 4 else s2.sum5.ptr i) = if j = 3 then 4 else s2.sum5.ptr j := e
        rw [q, q] at e'
        split_ifs at e' <;> omega

theorem first3M {c : Ctx} (hw : 0 < c.a.w) (hh : 0 < c.a.h) (buf : Nat → Row) (i : Nat) :
    Holds c ((⟨fun _ => 0, buf⟩ : Ring).putRow 0 (box3RowH c.d c.a (some (c.a.left 0)) (c.a.dst ((0 : Nat) : Int)))) i
      (h3 c ((0 : Nat) : Int)) := by
  intro k hk
  rw [get_putRow_same _ i 0 _ rfl]
  exact (row_in c hw 0 hh c.a.dst (fun _ => rfl) _ k hk).1

theorem firstM_run (c : Ctx) (hw : 0 < c.a.w) (hh : 0 < c.a.h) (ht : c.a.e.top = false)
    (hb : c.a.e.bottom = true → c.a.h % 2 = 0 ∧ 6 ≤ c.a.h) (s : StM) (ne : s.ab5.ptr 0 ≠ s.ab5.ptr 1) (inj : Inj 4 s.ab3)
    (y : s.y = 0) (hsy : s.sy = 0) (hdst : s.dst = c.a.dst) :
    DstOk c (outM c) c.a.h (StM.restFirst c (StM.initFirst c s)).dst := by
  have nb : c.a.h ≤ 4 → c.a.e.bottom = false := by
    intro h
    by_contra hc
    have := hb (by simpa using hc)
    omega
  have hf : ∀ y : Int, y ≤ 0 → h5 c y = h5 c ((0 : Nat) : Int) := fun y hy => (h_first c ht hh y hy).2
  have hf3 : ∀ y : Int, y ≤ 0 → h3 c y = h3 c ((0 : Nat) : Int) := fun y hy => (h_first c ht hh y hy).1
  have hall : ∀ i, Holds c (StM.initFirst c s).sum5 i (h5 c ((0 : Nat) : Int)) := by
    intro i
    have := first5 hw hh s.sum5.buf i
    show Holds c (Ring.putRow _ 0 (box5RowH c.d c.a (some (c.a.left s.sy)) (s.dst s.sy))) i _
    rw [hsy, hdst]
    exact this
  have hall3 : ∀ i, Holds c ((⟨fun _ => 0, s.sum3.buf⟩ : Ring).putRow 0 (box3RowH c.d c.a (some (c.a.left s.sy)) (s.dst s.sy))) i
      (h3 c ((0 : Nat) : Int)) := by
    intro i
    have := first3M hw hh s.sum3.buf i
    rw [hsy, hdst]
    exact this
  have hs3 : T3 c 0 ((⟨fun _ => 0, s.sum3.buf⟩ : Ring).putRow 0 (box3RowH c.d c.a (some (c.a.left s.sy)) (s.dst s.sy))) :=
    ⟨⟨(hall3 0).eq (hf3 _ (by omega)), (hall3 1).eq (hf3 _ (by omega))⟩, (hall3 2).eq (hf3 _ (by omega))⟩
  have hp : PM c (StM.initFirst c s) := by
    refine ⟨ne, ?_, ?_, inj_rotate 4 _ inj, y, ?_, hdst⟩
    · exact hs3.rot
    · exact ((put3_three hs3 s.ab3).of_get (r' := (put3 c _ s.ab3).rotate 4) (i := 2) rfl).ab3 (by omega)
    · show s.sy + 1 = 1
      omega
  have hptr : ∀ i, (StM.initFirst c s).sum5.ptr i = 0 := fun _ => rfl
  have hptr3 : ∀ i, (StM.initFirst c s).sum3.ptr i = 0 := by
    intro i
    show (if i + 1 < 3 then 0 else if i + 1 = 3 then 0 else 0) = 0
    split_ifs <;> rfl
  clear hs3 hall3
  generalize StM.initFirst c s = s' at *
  have s0 : S5 c ((0 : Nat) : Int) s'.sum5 :=
    ⟨(hall 0).eq (hf _ (by omega)), (hall 1).eq (hf _ (by omega)), (hall 2).eq (hf _ (by omega))⟩
  have hy1 := hp.sy
  unfold StM.restFirst
  by_cases l1 : c.a.h ≤ 1
  · rw [if_pos l1]
    apply vert1_M c (nb (by omega)) (by omega) s' _ hp
    refine ⟨⟨s0.s0, s0.s1, s0.s2⟩, hall 3, ?_⟩
    have hb' := nb (by omega)
    rw [(h_last c hb' (by omega) _ (by omega)).2]
    exact ((hall 3).of_get (r' := s'.sum5.alias 4 3) (i := 4) rfl).at5 (by omega)
  · rw [if_neg l1]
    have r1 := row_in c hw 1 (by omega) c.a.dst (fun _ => rfl)
    have w : WM c 2 (StM.second c s') := by
      apply startM c (StM.rowH c 1 1 { s' with sum5 := s'.sum5.point 4 1, sum3 := s'.sum3.point 2 1 }) _ _ hp.ne hp.a2 hp.inj
        hp.y hp.dst
      · have keep : ∀ i < 4, Holds c ((s'.sum5.point 4 1).putRow 1 (box5RowH c.d c.a (some (c.a.left s'.sy)) (s'.dst s'.sy))) i
            (h5 c ((0 : Nat) : Int)) := by
          intro i hi
          have hne : (s'.sum5.point 4 1).ptr i = s'.sum5.ptr i := if_neg (by omega)
          have e : ((s'.sum5.point 4 1).putRow 1 (box5RowH c.d c.a (some (c.a.left s'.sy)) (s'.dst s'.sy))).get i = s'.sum5.get i := by
            have := get_putRow_ne (s'.sum5.point 4 1) i 1 (box5RowH c.d c.a (some (c.a.left s'.sy)) (s'.dst s'.sy))
              (by rw [hne, hptr]; omega)
            refine Eq.trans this ?_
            show s'.sum5.buf _ = s'.sum5.buf _
            rw [hne]
          exact (hall i).of_get e
        refine ⟨⟨(keep 0 (by omega)).eq (hf _ (by omega)), (keep 1 (by omega)).eq (hf _ (by omega)),
          (keep 2 (by omega)).eq (hf _ (by omega))⟩, keep 3 (by omega), ?_⟩
        intro k hk
        have := get_putRow_same (s'.sum5.point 4 1) 4 1 (box5RowH c.d c.a (some (c.a.left s'.sy)) (s'.dst s'.sy)) rfl
        show (Ring.putRow (s'.sum5.point 4 1) 1 (box5RowH c.d c.a (some (c.a.left s'.sy)) (s'.dst s'.sy))).get 4 k = _
        rw [this, hy1, hp.dst]
        exact (r1 _ k hk).2
      · have hs : S3 c 1 (s'.sum3.point 2 1) := ⟨hp.s3.s0, hp.s3.s1⟩
        have z0 : (s'.sum3.point 2 1).ptr 0 = 0 := hptr3 0
        have z1 : (s'.sum3.point 2 1).ptr 1 = 0 := hptr3 1
        apply T3.of_put hs 1 _ rfl (by omega) (by omega)
        intro row k hk
        show box3RowH c.d c.a (some (c.a.left s'.sy)) (s'.dst s'.sy) row k = _
        rw [hy1, hp.dst]
        exact (r1 row k hk).1
    have q : ∀ i < 5, (StM.second c s').sum5.ptr i = if i = 2 then 1 else 0 := by
      intro i hi
      show (if i < 3 then (if i + 2 = 4 then 1 else s'.sum5.ptr (i + 2)) else if i < 5 then
        (if i - 3 = 4 then 1 else s'.sum5.ptr (i - 3)) else _) = _
      rw [hptr, hptr]
      split_ifs <;> omega
    have q30 : (StM.second c s').sum3.ptr 0 = 0 := hptr3 1
    have q31 : (StM.second c s').sum3.ptr 1 = 1 := rfl
    have qy : (StM.second c s').sy = 2 := by
      show s'.sy + 1 = 2
      omega
    generalize StM.second c s' = s2 at *
    by_cases l2 : c.a.h ≤ 2
    · rw [if_pos l2]
      have : c.a.h = 2 := by omega
      exact vert2_M c (nb (by omega)) s2 (by rw [this]; exact w)
    · rw [if_neg l2]
      have wy := w.y
      have hs : S5 c ((2 : Nat) : Int) ((s2.sum5.point 3 2).point 4 3) := ⟨w.s5.s0, w.s5.s1, w.s5.s2⟩
      have hs3 : S3 c ((2 : Nat) : Int) (s2.sum3.point 2 2) := ⟨w.s3.s0, w.s3.s1⟩
      have r2 : ∀ row k, k < c.a.w + 2 → box3RowH c.d c.a (some (c.a.left s2.sy)) (s2.dst s2.sy) row k = h3 c ((2 : Nat) : Int) k ∧
          box5RowH c.d c.a (some (c.a.left s2.sy)) (s2.dst s2.sy) row k = h5 c ((2 : Nat) : Int) k := by
        intro row k hk
        rw [qy]
        exact row_in c hw 2 (by omega) s2.dst (w.dst.row 2 (by omega)) row k hk
      have p0 : ((s2.sum5.point 3 2).point 4 3).ptr 0 = 0 := q 0 (by omega)
      have p1 : ((s2.sum5.point 3 2).point 4 3).ptr 1 = 0 := q 1 (by omega)
      have p2 : ((s2.sum5.point 3 2).point 4 3).ptr 2 = 1 := q 2 (by omega)
      have z0 : (s2.sum3.point 2 2).ptr 0 = 0 := q30
      have z1 : (s2.sum3.point 2 2).ptr 1 = 1 := q31
      have ht3 : T3 c ((2 : Nat) : Int)
          ((s2.sum3.point 2 2).putRow 2 (box3RowH c.d c.a (some (c.a.left s2.sy)) (s2.dst s2.sy))) :=
        T3.of_put hs3 2 _ rfl (by omega) (by omega) (fun row k hk => (r2 row k hk).1)
      have hi3 : Inj 3 (StM.third c s2).sum3 := by
        apply inj_rotate
        intro i hi j hj e
        have v : ∀ i < 3, (s2.sum3.point 2 2).ptr i = i := by
          intro i hi
          have : i = 0 ∨ i = 1 ∨ i = 2 := by omega
          rcases this with rfl | rfl | rfl
          · exact z0
          · exact z1
          · rfl
        have e' : (s2.sum3.point 2 2).ptr i = (s2.sum3.point 2 2).ptr j := e
        rw [v i hi, v j hj] at e'
        exact e'
      by_cases l3 : c.a.h ≤ 3
      · rw [if_pos l3]
        have hb' := nb (by omega)
        apply oddM c hb' 2 (StM.third c s2) _ w.a5 ht3.rot (w.a3.next ht3) w.y w.even w.dst (by omega)
        apply T5.of_put_last hs 2 _ rfl (by omega) (by omega) (by omega) (fun row k hk => (r2 row k hk).2)
        rw [(h_last c hb' (by omega) _ (by omega)).2, (h_last c hb' (by omega) ((2 : Nat) : Int) (by omega)).2]
      · rw [if_neg l3]
        have r3 : ∀ row k, k < c.a.w + 2 →
            box3RowH c.d c.a (some (c.a.left (s2.sy + 1))) (s2.dst ((s2.sy + 1 : Nat) : Int)) row k = h3 c ((3 : Nat) : Int) k ∧
            box5RowH c.d c.a (some (c.a.left (s2.sy + 1))) (s2.dst ((s2.sy + 1 : Nat) : Int)) row k = h5 c ((3 : Nat) : Int) k := by
          intro row k hk
          rw [qy]
          exact row_in c hw 3 (by omega) s2.dst (w.dst.row 3 (by omega)) row k hk
        have ht2 : T5 c ((2 : Nat) : Int) (StM.rowH c ((StM.third c s2).sum3.ptr 2) 3 (StM.third c s2)).sum5 := by
          apply T5.of_put hs 2 3 _ _ rfl rfl ⟨by omega, by omega⟩ ⟨by omega, by omega⟩ ⟨by omega, by omega⟩ (by omega)
            (fun row k hk => (r2 row k hk).2)
          exact fun row k hk => (r3 row k hk).2
        have ht3' : T3 c (((2 : Nat) : Int) + 1) (StM.rowH c ((StM.third c s2).sum3.ptr 2) 3 (StM.third c s2)).sum3 := by
          apply T3.of_put (r := (StM.third c s2).sum3) ht3.rot _ _ rfl (hi3.ne 0 2 (by omega) (by omega) (by omega))
            (hi3.ne 1 2 (by omega) (by omega) (by omega))
          exact fun row k hk => (r3 row k hk).1
        have w4 : WM c 4 (StM.fourth c (StM.third c s2)) :=
          finM c 2 (StM.rowH c ((StM.third c s2).sum3.ptr 2) 3 (StM.third c s2)) ht2 w.a5 ht3' (w.a3.next ht3) w.y w.even w.dst
        have q4 : ∀ i < 5, (StM.fourth c (StM.third c s2)).sum5.ptr i =
            if i = 0 then 1 else if i = 1 then 2 else if i = 2 then 3 else 0 := by
          intro i hi
          have : i = 0 ∨ i = 1 ∨ i = 2 ∨ i = 3 ∨ i = 4 := by omega
          rcases this with rfl | rfl | rfl | rfl | rfl
          · exact p2
          · rfl
          · rfl
          · exact p0
          · exact p1
        have q4y : (StM.fourth c (StM.third c s2)).sy = 4 := by
          show s2.sy + 1 + 1 = 4
          omega
        have q43 : Inj 3 (StM.fourth c (StM.third c s2)).sum3 := inj_rotate 3 _ hi3
        clear ht2 ht3' ht3 hi3
        generalize StM.fourth c (StM.third c s2) = s4 at *
        by_cases l4 : c.a.h ≤ 4
        · rw [if_pos l4]
          have : c.a.h = 4 := by omega
          exact vert2_M c (nb (by omega)) s4 (by rw [this]; exact w4)
        · rw [if_neg l4]
          refine mainM c hw (fun h => (hb h).1) (c.a.h - 4) 4 _ (by omega)
            ⟨⟨?_, w4.a5, w4.s3, w4.a3, w4.y, w4.even, w4.dst⟩, q4y, ?_, q43⟩
          · exact ⟨w4.s5.s0, w4.s5.s1, w4.s5.s2⟩
          · intro i hi j hj e
            have e' : (if i = 3 then 4 else s4.sum5.ptr i) = if j = 3 then 4 else s4.sum5.ptr j := e
            rw [q4 i hi, q4 j hj] at e'
            split_ifs at e' <;> omega

/-- sgr_mix_c computes the pixels row by row from the samples. With rows below, the height has to be even and 6 or more:
for other blocks the code does not look at them. -/
theorem runM (c : Ctx) (j : Junk) (hw : 0 < c.a.w) (hh : 0 < c.a.h)
    (hb : c.a.e.bottom = true → c.a.h % 2 = 0 ∧ 6 ≤ c.a.h) : DstOk c (outM c) c.a.h (sgrMix c j) := by
  unfold sgrMix StM.run
  by_cases ht : c.a.e.top = true
  · rw [if_pos ht]
    exact topM_run c hw hh ht hb _ (by show (0 : Nat) ≠ 1; omega) (inj_id 4 _) rfl rfl rfl
  · rw [if_neg ht]
    exact firstM_run c hw hh (by simpa using ht) hb _ (by show (0 : Nat) ≠ 1; omega) (inj_id 4 _) rfl rfl rfl

end Dav1d.Lr
