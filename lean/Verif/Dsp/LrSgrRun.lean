import Verif.Dsp.LrSgr
/-!
# The self-guided filters go through all rows of a block
-/
namespace Dav1d.Lr

/-- Row `i` holds what row `j` of the same ring did. -/
theorem Holds.of_get {c : Ctx} {r r' : Ring} {i j : Nat} {f : Nat → Int × Int} (h : Holds c r j f)
    (e : r'.get i = r.get j) : Holds c r' i f := by
  intro k hk
  rw [e]
  exact h k hk

theorem Holds.eq {c : Ctx} {r : Ring} {i : Nat} {f g : Nat → Int × Int} (h : Holds c r i f) (e : g = f) : Holds c r i g := by
  rw [e]; exact h

/-! ## sgr_3x3_c -/

/-- What holds when `n` rows have been read, at least two, and the rows before `n - 2` are done. -/
structure W3 (c : Ctx) (n : Nat) (s : St3) : Prop where
  s0 : Holds c s.sum 0 (h3 c ((n : Int) - 2))
  s1 : Holds c s.sum 1 (h3 c ((n : Int) - 1))
  a0 : Holds c s.ab 0 (ab3 c ((n : Int) - 3))
  a1 : Holds c s.ab 1 (ab3 c ((n : Int) - 2))
  inj : Inj 3 s.ab
  y : s.y + 2 = n
  dst : DstOk c (out3 c) s.y s.dst

theorem vert_ab (c : Ctx) (s : St3) : (St3.vert c s).ab =
    s.ab.put 2 (fun out => calcRowAb c.d c.a.w c.g.s1 9 455 (box3RowV c.d c.a.w s.sum out)) := rfl

theorem step3 (c : Ctx) (n : Nat) (s : St3) (h : W3 c n s) (h2 : Holds c s.sum 2 (h3 c n)) :
    W3 c (n + 1) (St3.finish1 c (St3.vert c s)) := by
  have hab : Holds c (St3.vert c s).ab 2 (ab3 c ((n : Int) - 1)) := by
    intro k hk
    rw [vert_ab, get_put_same]
    exact vert3_holds c s.sum _ (h.s0.eq (by congr 1; omega)) h.s1 (h2.eq (by congr 1; omega)) _ k hk
  have e0 : (St3.vert c s).ab.get 0 = s.ab.get 0 := by
    rw [vert_ab]
    exact get_put_ne s.ab 0 2 _ (fun e => absurd (h.inj 0 (by omega) 2 (by omega) e) (by omega))
  have e1 : (St3.vert c s).ab.get 1 = s.ab.get 1 := by
    rw [vert_ab]
    exact get_put_ne s.ab 1 2 _ (fun e => absurd (h.inj 1 (by omega) 2 (by omega) e) (by omega))
  have hy := h.y
  have hyn : (s.y : Int) = (n : Int) - 2 := by omega
  refine ⟨?_, ?_, ?_, ?_, ?_, ?_, ?_⟩
  · exact (h.s1.of_get (r' := (St3.finish1 c (St3.vert c s)).sum) rfl).eq (by congr 1; omega)
  · exact (h2.of_get (r' := (St3.finish1 c (St3.vert c s)).sum) rfl).eq (by congr 1; omega)
  · exact (h.a1.of_get (r' := (St3.finish1 c (St3.vert c s)).ab) (i := 0) e1).eq (by congr 1; omega)
  · exact (hab.of_get (r' := (St3.finish1 c (St3.vert c s)).ab) (i := 1) rfl).eq (by congr 1; omega)
  · exact inj_rotate 3 _ h.inj
  · show s.y + 1 + 2 = n + 1
    omega
  · apply weighted1_ok c c.g.w1 _ (t3 c s.y) (out3 c) s.y s.dst h.dst
    · intro x hx
      apply finishRow1_eq c _ 0 _ _ (h.dst.row _ le_rfl) _ _ _ x hx
      · exact (h.a0.of_get e0).eq (by congr 1; omega)
      · exact (h.a1.of_get e1).eq (by congr 1)
      · exact hab.eq (by congr 1; omega)
    · intro x _
      rfl

/-- The loop invariant: the next row can be stored. -/
structure F3 (c : Ctx) (n : Nat) (s : St3) : Prop extends W3 c n s where
  sy : s.sy = n
  sinj : Inj 3 s.sum

theorem put2 (c : Ctx) (n : Nat) (s : St3) (h : W3 c n s) (hi : Inj 3 s.sum) (f : Row → Row) (sy : Nat)
    (hf : ∀ row k, k < c.a.w + 2 → f row k = h3 c n k) :
    W3 c n { s with sum := s.sum.put 2 f, sy := sy } ∧
      Holds c ({ s with sum := s.sum.put 2 f, sy := sy } : St3).sum 2 (h3 c n) := by
  constructor
  · refine ⟨h.s0.of_get (get_put_ne s.sum 0 2 _ (fun e => absurd (hi 0 (by omega) 2 (by omega) e) (by omega))),
      h.s1.of_get (get_put_ne s.sum 1 2 _ (fun e => absurd (hi 1 (by omega) 2 (by omega) e) (by omega))),
      h.a0, h.a1, h.inj, h.y, h.dst⟩
  · intro k hk
    show (s.sum.put 2 f).get 2 k = _
    rw [get_put_same]
    exact hf _ k hk

theorem loop3 (c : Ctx) (hw : 0 < c.a.w) (n : Nat) (s : St3) (h : F3 c n s) (hn : n < c.a.h) :
    F3 c (n + 1) (St3.finish1 c (St3.hv c s)) := by
  obtain ⟨hW, hsy, hinj⟩ := h
  have hp := put2 c n s hW hinj (box3RowH c.d c.a (some (c.a.left s.sy)) (s.dst s.sy)) (s.sy + 1) (by
    intro row k hk
    rw [hsy]
    exact (row_in c hw n hn s.dst (hW.dst.row n (by have := hW.y; omega)) row k hk).1)
  refine ⟨step3 c n _ hp.1 hp.2, ?_, ?_⟩
  · show s.sy + 1 = n + 1
    omega
  · exact inj_rotate 3 _ hinj

theorem rows3 (c : Ctx) (hw : 0 < c.a.w) (m n : Nat) (s : St3) (h : F3 c n s) (hn : n + m ≤ c.a.h) :
    F3 c (n + m) (St3.rows c m s) := by
  induction m with
  | zero => exact h
  | succ m ih => exact loop3 c hw (n + m) _ (ih (by omega)) (by omega)

theorem alias3_get (r : Ring) : (r.alias 2 1).get 0 = r.get 0 ∧ (r.alias 2 1).get 1 = r.get 1 ∧ (r.alias 2 1).get 2 = r.get 1 :=
  ⟨rfl, rfl, rfl⟩

theorem output3 (c : Ctx) (hb : c.a.e.bottom = false) (n : Nat) (s : St3) (h : W3 c n s) (h1 : 0 < c.a.h) (hn : c.a.h ≤ n) :
    W3 c (n + 1) (St3.finish1 c (St3.vert c { s with sum := s.sum.alias 2 1 })) := by
  apply step3
  · exact ⟨h.s0, h.s1, h.a0, h.a1, h.inj, h.y, h.dst⟩
  · have e : h3 c (n : Int) = h3 c ((n : Int) - 1) := by
      rw [(h_last c hb h1 _ (by omega)).1, (h_last c hb h1 ((n : Int) - 1) (by omega)).1]
    rw [e]
    exact h.s1

theorem vert2_3 (c : Ctx) (hb : c.a.e.bottom = false) (s : St3) (h : W3 c c.a.h s) (h1 : 0 < c.a.h) :
    DstOk c (out3 c) c.a.h (St3.vert2 c s).dst := by
  have e1 := output3 c hb _ s h h1 le_rfl
  have e2 := output3 c hb _ _ e1 h1 (by omega)
  have := e2.dst
  have hy := e2.y
  have : (St3.vert2 c s).y = c.a.h := by
    have : (St3.vert2 c s).y + 2 = c.a.h + 1 + 1 := hy
    omega
  rw [← this]
  exact e2.dst

theorem main3 (c : Ctx) (hw : 0 < c.a.w) (m : Nat) (s : St3) (hn : 2 + m = c.a.h) (h : F3 c 2 s) :
    DstOk c (out3 c) c.a.h (St3.main c m s).dst := by
  have hf := rows3 c hw m 2 s h (by omega)
  rw [hn] at hf
  unfold St3.main
  dsimp only
  by_cases hb : c.a.e.bottom = true
  · rw [if_pos hb]
    obtain ⟨hW, hsy, hinj⟩ := hf
    generalize St3.rows c m s = t at *
    have p1 := put2 c c.a.h t hW hinj (box3RowH c.d c.a none (c.a.lpf 6)) t.sy (by
      intro row k hk
      have := (row_bottom c hw hb c.a.h le_rfl row k hk).1
      rw [if_pos rfl] at this
      exact this)
    have w1 := step3 c c.a.h _ p1.1 p1.2
    have i1 : Inj 3 (St3.finish1 c (St3.hvLpf c 6 t)).sum := inj_rotate 3 _ hinj
    have p2 := put2 c (c.a.h + 1) _ w1 i1 (box3RowH c.d c.a none (c.a.lpf 7)) (St3.finish1 c (St3.hvLpf c 6 t)).sy (by
      intro row k hk
      have := (row_bottom c hw hb ((c.a.h : Int) + 1) (by omega) row k hk).1
      rw [if_neg (by omega)] at this
      exact this)
    have w2 := step3 c (c.a.h + 1) _ p2.1 p2.2
    have hy := w2.y
    have : (St3.finish1 c (St3.hvLpf c 7 (St3.finish1 c (St3.hvLpf c 6 t)))).y = c.a.h := by
      have : (St3.finish1 c (St3.hvLpf c 7 (St3.finish1 c (St3.hvLpf c 6 t)))).y + 2 = c.a.h + 1 + 1 := hy
      omega
    rw [← this]
    exact w2.dst
  · rw [if_neg hb]
    exact vert2_3 c (by simpa using hb) _ hf.toW3 (by omega)

/-- Before the first row is done: `A` and `B` of row `y` from the rows around it, which replace the oldest. -/
theorem start3 (c : Ctx) (y : Int) (s : St3) (h0 : Holds c s.sum 0 (h3 c (y - 1))) (h1 : Holds c s.sum 1 (h3 c y))
    (h2 : Holds c s.sum 2 (h3 c (y + 1))) (hi : Inj 3 s.ab) :
    Holds c (St3.rot (St3.vert c s)).sum 0 (h3 c y) ∧ Holds c (St3.rot (St3.vert c s)).sum 1 (h3 c (y + 1)) ∧
    Holds c (St3.rot (St3.vert c s)).ab 1 (ab3 c y) ∧ (St3.rot (St3.vert c s)).ab.get 0 = s.ab.get 1 ∧
    Inj 3 (St3.rot (St3.vert c s)).ab := by
  refine ⟨h1, h2, ?_, ?_, inj_rotate 3 _ hi⟩
  · intro k hk
    show (St3.vert c s).ab.get 2 k = _
    rw [vert_ab, get_put_same]
    exact vert3_holds c s.sum _ h0 h1 h2 _ k hk
  · show (St3.vert c s).ab.get 1 = s.ab.get 1
    rw [vert_ab]
    exact get_put_ne s.ab 1 2 _ (fun e => absurd (hi 1 (by omega) 2 (by omega) e) (by omega))

theorem vert1_3 (c : Ctx) (hb : c.a.e.bottom = false) (s : St3) (hh : c.a.h = 1) (h0 : Holds c s.sum 0 (h3 c (-1)))
    (h1 : Holds c s.sum 1 (h3 c 0)) (ha : Holds c s.ab 1 (ab3 c (-1))) (hi : Inj 3 s.ab) (hy : s.y = 0)
    (hd : s.dst = c.a.dst) : DstOk c (out3 c) c.a.h (St3.vert1 c s).dst := by
  have hz : h3 c 1 = h3 c 0 := by
    rw [(h_last c hb (by omega) 1 (by omega)).1, (h_last c hb (by omega) 0 (by omega)).1]
  obtain ⟨g0, g1, g2, g3, g4⟩ := start3 c 0 { s with sum := s.sum.alias 2 1 } h0 h1 (h1.eq hz) hi
  have w : W3 c 2 (St3.rot (St3.vert c { s with sum := s.sum.alias 2 1 })) := by
    refine ⟨g0, g1, ha.of_get g3, g2, g4, ?_, ?_⟩
    · show s.y + 2 = 2
      omega
    · show DstOk c (out3 c) s.y s.dst
      intro r x
      rw [hd, if_neg (by omega)]
  have w2 := output3 c hb 2 _ w (by omega) (by omega)
  have : (St3.vert1 c s).y = c.a.h := by
    have : (St3.vert1 c s).y + 2 = 2 + 1 := w2.y
    omega
  rw [← this]
  exact w2.dst

/-- What holds when `n` rows have been read, one or two, and none is done. -/
structure P3 (c : Ctx) (n : Nat) (s : St3) : Prop where
  s0 : Holds c s.sum 0 (h3 c ((n : Int) - 2))
  s1 : Holds c s.sum 1 (h3 c ((n : Int) - 1))
  a1 : Holds c s.ab 1 (ab3 c ((n : Int) - 2))
  inj : Inj 3 s.ab
  y : s.y = 0
  sy : s.sy = n
  dst : s.dst = c.a.dst

/-- Reading a row before the first is done. -/
theorem hv3 (c : Ctx) (hw : 0 < c.a.w) (n : Nat) (hn : n < c.a.h) (s : St3)
    (s0 : Holds c s.sum 0 (h3 c ((n : Int) - 2))) (s1 : Holds c s.sum 1 (h3 c ((n : Int) - 1)))
    (inj : Inj 3 s.ab) (y : s.y = 0) (sy : s.sy = n) (dst : s.dst = c.a.dst)
    (p0 : s.sum.ptr 0 ≠ s.sum.ptr 2) (p1 : s.sum.ptr 1 ≠ s.sum.ptr 2) :
    P3 c (n + 1) (St3.rot (St3.hv c s)) ∧ (St3.rot (St3.hv c s)).ab.get 0 = s.ab.get 1 ∧
      (St3.rot (St3.hv c s)).sum.ptr = (s.sum.rotate 3).ptr := by
  obtain ⟨g0, g1, g2, g3, g4⟩ := start3 c ((n : Int) - 1)
    { s with sum := s.sum.put 2 (box3RowH c.d c.a (some (c.a.left s.sy)) (s.dst s.sy)), sy := s.sy + 1 }
    ((s0.of_get (get_put_ne s.sum 0 2 _ p0)).eq (by congr 1; omega))
    (s1.of_get (get_put_ne s.sum 1 2 _ p1))
    (by
      intro k hk
      show (s.sum.put 2 _).get 2 k = _
      rw [get_put_same, sy, dst, (row_in c hw n hn c.a.dst (fun _ => rfl) _ k hk).1]
      congr 1
      omega) inj
  refine ⟨⟨g0.eq (by congr 1; omega), g1.eq (by congr 1; omega), g2.eq (by congr 1; omega), g4, y, ?_, dst⟩, g3, rfl⟩
  show s.sy + 1 = n + 1
  omega

/-- With two rows read the loop can start. -/
theorem P3.toF3 {c : Ctx} {s : St3} (h : P3 c 2 s) (a0 : Holds c s.ab 0 (ab3 c (-1))) (hi : Inj 3 s.sum) : F3 c 2 s :=
  ⟨⟨h.s0, h.s1, a0, h.a1, h.inj, by rw [h.y], by
    intro r x
    rw [h.dst, h.y, if_neg (by omega)]⟩, h.sy, hi⟩

theorem P3.toW3 {c : Ctx} {s : St3} (h : P3 c 2 s) (a0 : Holds c s.ab 0 (ab3 c (-1))) : W3 c 2 s :=
  ⟨h.s0, h.s1, a0, h.a1, h.inj, by rw [h.y], by
    intro r x
    rw [h.dst, h.y, if_neg (by omega)]⟩

theorem inj_id (n : Nat) (buf : Nat → Row) : Inj n ({ ptr := fun i => i, buf := buf } : Ring) := fun _ _ _ _ e => e

theorem row_top0 (c : Ctx) (hw : 0 < c.a.w) (ht : c.a.e.top = true) (row : Row) (k : Nat) (hk : k < c.a.w + 2) :
    box3RowH c.d c.a none (c.a.lpf 0) row k = h3 c (-2) k ∧ box5RowH c.d c.a none (c.a.lpf 0) row k = h5 c (-2) k := by
  have := row_top c hw ht (-2) (by omega) row k hk
  rw [if_neg (by omega : ¬(-2 : Int) = -1)] at this
  exact this

theorem row_top1 (c : Ctx) (hw : 0 < c.a.w) (ht : c.a.e.top = true) (row : Row) (k : Nat) (hk : k < c.a.w + 2) :
    box3RowH c.d c.a none (c.a.lpf 1) row k = h3 c (-1) k ∧ box5RowH c.d c.a none (c.a.lpf 1) row k = h5 c (-1) k := by
  have := row_top c hw ht (-1) (by omega) row k hk
  rw [if_pos rfl] at this
  exact this

theorem initTop3 (c : Ctx) (hw : 0 < c.a.w) (hh : 0 < c.a.h) (ht : c.a.e.top = true) (s : St3) (hi : Inj 3 s.ab)
    (hy : s.y = 0) (hsy : s.sy = 0) (hd : s.dst = c.a.dst) :
    P3 c 1 (St3.rot (St3.hv c (St3.initTop c s))) ∧
      (St3.rot (St3.hv c (St3.initTop c s))).sum.ptr = ((⟨fun i => i, s.sum.buf⟩ : Ring).rotate 3).ptr := by
  have e0 : Holds c (St3.initTop c s).sum 0 (h3 c (-2)) := by
    intro k hk
    show (Ring.putRow _ 1 _).get 0 k = _
    rw [get_putRow_ne _ 0 1 _ (by show (0 : Nat) ≠ 1; omega), get_putRow_same _ 0 0 _ rfl]
    exact (row_top0 c hw ht _ k hk).1
  have e1 : Holds c (St3.initTop c s).sum 1 (h3 c (-1)) := by
    intro k hk
    show (Ring.putRow _ 1 _).get 1 k = _
    rw [get_putRow_same _ 1 1 _ rfl]
    exact (row_top1 c hw ht _ k hk).1
  obtain ⟨p, _, q⟩ := hv3 c hw 0 hh (St3.initTop c s) e0 e1 hi hy hsy hd (by show (0 : Nat) ≠ 2; omega)
    (by show (1 : Nat) ≠ 2; omega)
  exact ⟨p, q⟩

theorem initFirst3 (c : Ctx) (hw : 0 < c.a.w) (hh : 0 < c.a.h) (ht : c.a.e.top = false) (s : St3) (hi : Inj 3 s.ab)
    (hy : s.y = 0) (hsy : s.sy = 0) (hd : s.dst = c.a.dst) :
    P3 c 1 (St3.rot (St3.vert c (St3.initFirst c s))) ∧ (St3.rot (St3.vert c (St3.initFirst c s))).sum.ptr 0 = 0 ∧
      (St3.rot (St3.vert c (St3.initFirst c s))).sum.ptr 1 = 0 := by
  have hf : ∀ y : Int, y ≤ 0 → h3 c y = h3 c 0 := fun y hy => (h_first c ht hh y hy).1
  have hall : ∀ i, Holds c (St3.initFirst c s).sum i (h3 c 0) := by
    intro i k hk
    show (Ring.putRow _ 0 _).get i k = _
    rw [get_putRow_same _ i 0 _ rfl, hsy, hd]
    have e := (row_in c hw 0 hh c.a.dst (fun _ => rfl) (Ring.get ⟨fun _ => 0, s.sum.buf⟩ i) k hk).1
    rw [Int.ofNat_zero] at e
    exact e
  have hsy' : (St3.initFirst c s).sy = 1 := by
    show s.sy + 1 = 1
    omega
  have hi' : Inj 3 (St3.initFirst c s).ab := hi
  have hy' : (St3.initFirst c s).y = 0 := hy
  have hd' : (St3.initFirst c s).dst = c.a.dst := hd
  have hp : ∀ i, (St3.initFirst c s).sum.ptr i = 0 := fun _ => rfl
  generalize St3.initFirst c s = s' at *
  have k0 := hf (-1 - 1) (by omega)
  have k1 := hf (-1) (by omega)
  have k2 := hf (-1 + 1) (by omega)
  obtain ⟨g0, g1, g2, g3, g4⟩ := start3 c (-1) s' ((hall 0).eq k0) ((hall 1).eq k1) ((hall 2).eq k2) hi'
  have x1 : ((1 : Nat) : Int) - 2 = -1 := by omega
  have x2 : ((1 : Nat) : Int) - 1 = -1 + 1 := by omega
  exact ⟨⟨by rw [x1]; exact g0, by rw [x2]; exact g1, by rw [x1]; exact g2, g4, hy', hsy', hd'⟩, hp 1, hp 2⟩

theorem restTop3 (c : Ctx) (hw : 0 < c.a.w) (hh : 0 < c.a.h) (nb : c.a.h ≤ 2 → c.a.e.bottom = false) (s : St3) (p : P3 c 1 s)
    (h0 : s.sum.ptr 0 = 1) (h1 : s.sum.ptr 1 = 2) (h2 : s.sum.ptr 2 = 0) :
    DstOk c (out3 c) c.a.h (St3.restTop c s).dst := by
  unfold St3.restTop
  by_cases l1 : c.a.h ≤ 1
  · rw [if_pos l1]
    exact vert1_3 c (nb (by omega)) s (by omega) p.s0 p.s1 p.a1 p.inj p.y p.dst
  · rw [if_neg l1]
    obtain ⟨p', ha, hp'⟩ := hv3 c hw 1 (by omega) s p.s0 p.s1 p.inj p.y p.sy p.dst (by omega) (by omega)
    have ha0 : Holds c (St3.rot (St3.hv c s)).ab 0 (ab3 c (-1)) := p.a1.of_get ha
    have hi : Inj 3 (St3.rot (St3.hv c s)).sum := by
      have : Inj 3 (s.sum.rotate 3) := by
        apply inj_rotate
        intro a ha b hb e
        have : ∀ i < 3, s.sum.ptr i = (i + 1) % 3 := by
          intro i hi
          have : i = 0 ∨ i = 1 ∨ i = 2 := by omega
          rcases this with rfl | rfl | rfl <;> omega
        rw [this a ha, this b hb] at e
        omega
      intro a ha b hb e
      rw [hp'] at e
      exact this a ha b hb e
    by_cases l2 : c.a.h ≤ 2
    · rw [if_pos l2]
      have e2 : c.a.h = 2 := by omega
      have := p'.toW3 ha0
      exact vert2_3 c (nb (by omega)) _ (by rw [e2]; exact this) (by omega)
    · rw [if_neg l2]
      exact main3 c hw _ _ (by omega) (p'.toF3 ha0 hi)

theorem restFirst3 (c : Ctx) (hw : 0 < c.a.w) (hh : 0 < c.a.h) (nb : c.a.h ≤ 2 → c.a.e.bottom = false) (s : St3)
    (p : P3 c 1 s) (h0 : s.sum.ptr 0 = 0) (h1 : s.sum.ptr 1 = 0) :
    DstOk c (out3 c) c.a.h (St3.restFirst c s).dst := by
  unfold St3.restFirst
  by_cases l1 : c.a.h ≤ 1
  · rw [if_pos l1]
    exact vert1_3 c (nb (by omega)) s (by omega) p.s0 p.s1 p.a1 p.inj p.y p.dst
  · rw [if_neg l1]
    obtain ⟨p', ha, hp'⟩ := hv3 c hw 1 (by omega) { s with sum := s.sum.point 2 1 } p.s0 p.s1 p.inj p.y p.sy p.dst
      (by show s.sum.ptr 0 ≠ 1; omega) (by show s.sum.ptr 1 ≠ 1; omega)
    have ha0 : Holds c (St3.second c s).ab 0 (ab3 c (-1)) := p.a1.of_get ha
    have q0 : (St3.second c s).sum.ptr 0 = 0 := h1
    have q1 : (St3.second c s).sum.ptr 1 = 1 := rfl
    have p2 : P3 c 2 (St3.second c s) := p'
    clear p' ha hp'
    generalize St3.second c s = s2 at *
    by_cases l2 : c.a.h ≤ 2
    · rw [if_pos l2]
      have e2 : c.a.h = 2 := by omega
      have := p2.toW3 ha0
      exact vert2_3 c (nb (by omega)) _ (by rw [e2]; exact this) (by omega)
    · rw [if_neg l2]
      apply main3 c hw _ _ (by omega)
      have p2 : P3 c 2 { s2 with sum := s2.sum.point 2 2 } := ⟨p2.s0, p2.s1, p2.a1, p2.inj, p2.y, p2.sy, p2.dst⟩
      apply p2.toF3 ha0
      intro a ha b hb e
      have : ∀ i < 3, (s2.sum.point 2 2).ptr i = i := by
        intro i hi
        have : i = 0 ∨ i = 1 ∨ i = 2 := by omega
        rcases this with rfl | rfl | rfl
        · exact q0
        · exact q1
        · rfl
      have e' : (s2.sum.point 2 2).ptr a = (s2.sum.point 2 2).ptr b := e
      rw [this a ha, this b hb] at e'
      exact e'

/-- sgr_3x3_c computes the pixels row by row from the samples. With rows below, the height has to be 3 or more: for lower
blocks the code does not look at them. -/
theorem run3 (c : Ctx) (j : Junk) (hw : 0 < c.a.w) (hh : 0 < c.a.h) (hb : c.a.e.bottom = true → 3 ≤ c.a.h) :
    DstOk c (out3 c) c.a.h (sgr3x3 c j) := by
  have nb : c.a.h ≤ 2 → c.a.e.bottom = false := by
    intro h
    by_contra hc
    have := hb (by simpa using hc)
    omega
  unfold sgr3x3 St3.run
  by_cases ht : c.a.e.top = true
  · rw [if_pos ht]
    obtain ⟨p, q⟩ := initTop3 c hw hh ht ⟨⟨fun _ => 0, j.sum3⟩, ⟨fun i => i, j.ab3⟩, c.a.dst, 0, 0⟩ (inj_id 3 _) rfl rfl rfl
    exact restTop3 c hw hh nb _ p (by rw [q]; rfl) (by rw [q]; rfl) (by rw [q]; rfl)
  · rw [if_neg ht]
    obtain ⟨p, q0, q1⟩ := initFirst3 c hw hh (by simpa using ht)
      ⟨⟨fun _ => 0, j.sum3⟩, ⟨fun i => i, j.ab3⟩, c.a.dst, 0, 0⟩ (inj_id 3 _) rfl rfl rfl
    exact restFirst3 c hw hh nb _ p q0 q1

end Dav1d.Lr
