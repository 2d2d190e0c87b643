import Verif.Part.Spec
/-!
# Invariants of decode_sb
-/
namespace Dav1d.Part
variable {σ : Type}

/-! ## The record -/

theorem decoded_call (log : List Ev) (c : Call) (a b : Nat) :
    Decoded (log ++ [.call c]) a b ↔ Decoded log a b ∨ c.covers a b := by
  unfold Decoded
  constructor
  · rintro ⟨d, hd, hc⟩
    rcases List.mem_append.1 hd with h | h
    · exact .inl ⟨d, h, hc⟩
    · cases List.mem_singleton.1 h; exact .inr hc
  · rintro (⟨d, hd, hc⟩ | h)
    · exact ⟨d, List.mem_append_left _ hd, hc⟩
    · exact ⟨c, List.mem_append_right _ (List.mem_singleton.2 rfl), h⟩

theorem decoded_read (log : List Ev) (bl ctx x y a b : Nat) :
    Decoded (log ++ [.read bl ctx x y]) a b ↔ Decoded log a b := by
  unfold Decoded
  constructor
  · rintro ⟨d, hd, hc⟩
    rcases List.mem_append.1 hd with h | h
    · exact ⟨d, h, hc⟩
    · cases List.mem_singleton.1 h
  · rintro ⟨d, hd, hc⟩
    exact ⟨d, List.mem_append_left _ hd, hc⟩

theorem decoded_calls (log : List Ev) (cs : List Call) (a b : Nat) :
    Decoded (log ++ cs.map .call) a b ↔ Decoded log a b ∨ ∃ c ∈ cs, c.covers a b := by
  unfold Decoded
  constructor
  · rintro ⟨d, hd, hc⟩
    rcases List.mem_append.1 hd with h | h
    · exact .inl ⟨d, h, hc⟩
    · obtain ⟨c, hc1, hc2⟩ := List.mem_map.1 h
      cases hc2; exact .inr ⟨d, hc1, hc⟩
  · rintro (⟨d, hd, hc⟩ | ⟨c, h1, h2⟩)
    · exact ⟨d, List.mem_append_left _ hd, hc⟩
    · exact ⟨c, List.mem_append_right _ (List.mem_map.2 ⟨c, h1, rfl⟩), h2⟩

theorem cover_append (l1 l2 : List Ev) (a b : Nat) : coverOf (l1 ++ l2) a b = (coverOf l1 a b).or (coverOf l2 a b) := by
  unfold coverOf; exact List.findSome?_append

theorem cover_some {log : List Ev} {a b : Nat} {c : Call} (h : coverOf log a b = some c) : Ev.call c ∈ log ∧ c.covers a b := by
  unfold coverOf at h
  obtain ⟨e, he, h2⟩ := List.exists_of_findSome?_eq_some h
  cases e with
  | read => cases h2
  | call d =>
    dsimp only at h2
    split at h2
    · cases h2; exact ⟨he, by assumption⟩
    · cases h2

theorem cover_none {log : List Ev} {a b : Nat} : coverOf log a b = none ↔ ¬ Decoded log a b := by
  unfold coverOf
  rw [List.findSome?_eq_none_iff]
  constructor
  · rintro h ⟨c, hc, hcov⟩
    have := h _ hc
    dsimp only at this
    rw [if_pos hcov] at this
    cases this
  · intro h e he
    cases e with
    | read => rfl
    | call c =>
      dsimp only
      rw [if_neg]
      intro hc
      exact h ⟨c, he, hc⟩

theorem cover_stable {l1 l2 : List Ev} {a b : Nat} (h : Decoded (l1 ++ l2) a b → Decoded l1 a b) :
    coverOf (l1 ++ l2) a b = coverOf l1 a b := by
  by_cases hd : Decoded l1 a b
  · rw [cover_append]
    cases hc : coverOf l1 a b with
    | none => exact absurd hd (cover_none.1 hc)
    | some c => rfl
  · rw [cover_none.2 hd, cover_none.2 (fun hx => hd (h hx))]

/-! ## Events in order -/

/-- What is decoded around a block with `W` times `E` units at (X, Y) in a plane; `u` and `v` give the luma column and row
of a unit. -/
structure Around (T : Tile) (u v : Nat → Nat) (D : Nat → Nat → Prop) (X Y W E : Nat) (t b : Prop) : Prop where
  tr : ∀ i r, i < W → Y = r + 1 → T.has (u (X + W + i)) (v r) → (t ↔ D (u (X + W + i)) (v r))
  bl : ∀ i q, i < E → X = q + 1 → T.has (u q) (v (Y + E + i)) → (b ↔ D (u q) (v (Y + E + i)))
  top : ∀ i r, i < W → Y = r + 1 → T.has (u (X + i)) (v r) → D (u (X + i)) (v r)
  left : ∀ i q, i < E → X = q + 1 → T.has (u q) (v (Y + i)) → D (u q) (v (Y + i))
  corner : ∀ q r, X = q + 1 → Y = r + 1 → T.has (u q) (v r) → D (u q) (v r)
  right : ∀ i j, i < W → j < E → T.has (u (X + W + i)) (v (Y + j)) → ¬ D (u (X + W + i)) (v (Y + j))
  below : ∀ i j, i < W → j < E → T.has (u (X + i)) (v (Y + E + j)) → ¬ D (u (X + i)) (v (Y + E + j))

/-- A block is in place: it begins in the tile, covers only units not decoded before, has an even position and size or
is one unit wide (high), ends in the tile unless the frame ends there, and its flags are right. -/
structure CallOk (f : Frame) (T : Tile) (before : List Ev) (c : Call) : Prop where
  start : T.has c.x c.y
  fresh : ∀ a b, c.covers a b → ¬ Decoded before a b
  evenX : bsW c.bs = 1 ∨ (bsW c.bs % 2 = 0 ∧ c.x % 2 = 0)
  evenY : bsH c.bs = 1 ∨ (bsH c.bs % 2 = 0 ∧ c.y % 2 = 0)
  pos : 0 < bsW c.bs ∧ 0 < bsH c.bs
  insX : T.x1 = f.bw ∨ c.x + bsW c.bs ≤ T.x1
  insY : T.y1 = f.bh ∨ c.y + bsH c.bs ≤ T.y1
  farX : T.x1 = f.bw ∨ c.x + bsW c.bs = T.x1 ∨ c.x + 2 * bsW c.bs ≤ T.x1
  farY : T.y1 = f.bh ∨ c.y + bsH c.bs = T.y1 ∨ c.y + 2 * bsH c.bs ≤ T.y1
  around : ∀ p ∈ planes f, p.hasBlock c → Around T p.lastX p.lastY (Decoded before) (p.x c) (p.y c) (p.w c) (p.h c)
    (c.flags.testBit p.bit = true) (c.flags.testBit (p.bit + 3) = true)

theorem CallOk.edges {f : Frame} {T : Tile} {before : List Ev} {c : Call} (h : CallOk f T before c) {p : Plane} (hp : p ∈ planes f)
    (hb : p.hasBlock c) : EdgesOk T p before c :=
  ⟨fun i b h1 h2 h3 => (h.around p hp hb).tr i b h1 h2 h3, fun i a h1 h2 h3 => (h.around p hp hb).bl i a h1 h2 h3⟩

/-- An event is right in its place. -/
def EvOk (f : Frame) (T : Tile) (before : List Ev) : Ev → Prop
  | .call c => CallOk f T before c
  | .read bl ctx x y => ctx = specCtx before (32 / 2 ^ bl) x y

/-- All events are right. -/
def AllOk (f : Frame) (T : Tile) (log : List Ev) : Prop := ∀ pre e post, log = pre ++ e :: post → EvOk f T pre e

theorem AllOk.snoc {f : Frame} {T : Tile} {log : List Ev} (h : AllOk f T log) {e : Ev} (he : EvOk f T log e) : AllOk f T (log ++ [e]) := by
  intro pre e' post heq
  rcases List.eq_nil_or_concat post with hp | ⟨post', x, hp⟩
  · subst hp
    obtain ⟨h1, h2⟩ := List.append_inj' heq rfl
    cases h2
    subst h1
    exact he
  · subst hp
    have heq' : log ++ [e] = (pre ++ e' :: post') ++ [x] := by rw [heq]; simp
    obtain ⟨h1, _⟩ := List.append_inj' heq' rfl
    exact h pre e' post' h1

/-- The calls are right one after the other. -/
def CallsOk (f : Frame) (T : Tile) : List Ev → List Call → Prop
  | _, [] => True
  | log, c :: cs => CallOk f T log c ∧ CallsOk f T (log ++ [.call c]) cs

theorem AllOk.calls {f : Frame} {T : Tile} : ∀ (cs : List Call) {log : List Ev}, AllOk f T log → CallsOk f T log cs → AllOk f T (log ++ cs.map .call)
  | [], log, h, _ => by simpa using h
  | c :: cs, log, h, ⟨h1, h2⟩ => by
    have := AllOk.calls cs (h.snoc (e := .call c) h1) h2
    simpa using this

theorem blks_ok (S : Src σ) : ∀ (cs : List Call) (st : St σ), blks S cs st = .err ∨
    ∃ s, blks S cs st = .ok { st with src := s, log := st.log ++ cs.map .call }
  | [], st => .inr ⟨st.src, by simp [blks]⟩
  | c :: cs, st => by
    unfold blks
    cases h : S.block st.src c with
    | none => exact .inl rfl
    | some s =>
      rcases blks_ok S cs { st with src := s, log := st.log ++ [.call c] } with h1 | ⟨s', h1⟩
      · exact .inl h1
      · exact .inr ⟨s', by simpa using h1⟩

/-! ## Nodes -/

/-- The unit lies in the node at (x, y) with half size `h`. -/
def Sq (x y h a b : Nat) : Prop := x ≤ a ∧ a < x + 2 * h ∧ y ≤ b ∧ b < y + 2 * h

/-- What is decoded around a node before it is. -/
def Ring (x y h : Nat) (tr bl : Prop) (a b : Nat) : Prop :=
  (b < y ∧ (a < x + 2 * h ∨ tr)) ∨ (y ≤ b ∧ a < x ∧ (b < y + 2 * h ∨ bl))

/-- A tile that does not end with the frame ends with the node or leaves room for another one of its size. -/
def Far (f : Frame) (T : Tile) (h x y : Nat) : Prop :=
  (T.x1 = f.bw ∨ x + 2 * h = T.x1 ∨ x + 4 * h ≤ T.x1) ∧ (T.y1 = f.bh ∨ y + 2 * h = T.y1 ∨ y + 4 * h ≤ T.y1)

/-- A node lies in the tile and inside the frame or across its end. -/
structure Geo (f : Frame) (T : Tile) (h x y : Nat) : Prop where
  x0 : T.x0 ≤ x
  xl : x < T.x1
  y0 : T.y0 ≤ y
  yl : y < T.y1
  x1 : T.x1 = f.bw ∨ (x + 2 * h ≤ T.x1 ∧ T.x1 ≤ f.bw)
  y1 : T.y1 = f.bh ∨ (y + 2 * h ≤ T.y1 ∧ T.y1 ≤ f.bh)
  evx : x % 2 = 0
  evy : y % 2 = 0
  bw : f.bw % 2 = 0
  bh : f.bh % 2 = 0
  far : Far f T h x y

/-- An entry of the above context describes the widths of the block covering (2 i, r - 1). -/
def DescA (st : St σ) (i r : Nat) : Prop := ∀ j, j < 5 → ((st.a i).testBit j = true ↔
  0 < r ∧ ∃ c, coverOf st.log (2 * i) (r - 1) = some c ∧ bsW c.bs < 2 ^ (j + 1))

/-- An entry of the left context describes the height of the block covering (r - 1, 2 i). -/
def DescL (st : St σ) (i r : Nat) : Prop := ∀ j, j < 5 → ((st.l (i % 16)).testBit j = true ↔
  0 < r ∧ ∃ c, coverOf st.log (r - 1) (2 * i) = some c ∧ bsH c.bs < 2 ^ (j + 1))

/-- Before a node. -/
structure Pre (f : Frame) (T : Tile) (h x y : Nat) (tr bl : Prop) (st : St σ) : Prop where
  ring : ∀ a b, T.has a b → x ≤ a + 2 → a < x + 4 * h → y ≤ b + 2 → b < y + 4 * h → (Decoded st.log a b ↔ Ring x y h tr bl a b)
  free : ∀ a b, Sq x y h a b → ¬ Decoded st.log a b
  ok : AllOk f T st.log
  ctxA : ∀ i, x / 2 ≤ i → i < x / 2 + h → 2 * i < T.x1 → DescA st i y
  ctxL : ∀ i, y / 2 ≤ i → i < y / 2 + h → 2 * i < T.y1 → DescL st i x

/-- After a node. -/
structure Post (f : Frame) (T : Tile) (h x y : Nat) (st st' : St σ) : Prop where
  ext : ∃ new, st'.log = st.log ++ new
  within : ∀ a b, Decoded st'.log a b → Decoded st.log a b ∨ Sq x y h a b
  full : ∀ a b, T.has a b → Sq x y h a b → Decoded st'.log a b
  ok : AllOk f T st'.log
  sameA : ∀ i, ¬ (x / 2 ≤ i ∧ i < x / 2 + h) → st'.a i = st.a i
  sameL : ∀ i, ¬ (y % 32 / 2 ≤ i ∧ i < y % 32 / 2 + h) → st'.l i = st.l i
  ctxA : ∀ i, x / 2 ≤ i → i < x / 2 + h → 2 * i < T.x1 → y + 2 * h ≤ T.y1 → DescA st' i (y + 2 * h)
  ctxL : ∀ i, y / 2 ≤ i → i < y / 2 + h → 2 * i < T.y1 → x + 2 * h ≤ T.x1 → DescL st' i (x + 2 * h)

theorem Post.mono {f : Frame} {T : Tile} {h x y : Nat} {st st' : St σ} (p : Post f T h x y st st') {a b : Nat} (hd : Decoded st.log a b) :
    Decoded st'.log a b := by
  obtain ⟨new, hn⟩ := p.ext
  obtain ⟨c, h1, h2⟩ := hd
  exact ⟨c, by rw [hn]; exact List.mem_append_left _ h1, h2⟩

/-- A block outside of the node is the same afterwards. -/
theorem Post.cover {f : Frame} {T : Tile} {h x y : Nat} {st st' : St σ} (p : Post f T h x y st st') {a b : Nat} (ho : ¬ Sq x y h a b) :
    coverOf st'.log a b = coverOf st.log a b := by
  obtain ⟨new, hn⟩ := p.ext
  rw [hn]
  refine cover_stable fun hd => ?_
  rw [← hn] at hd
  exact (p.within a b hd).resolve_right ho

theorem Post.descA {f : Frame} {T : Tile} {h x y : Nat} {st st' : St σ} (p : Post f T h x y st st') {i r : Nat} (hd : DescA st i r)
    (h1 : ¬ (x / 2 ≤ i ∧ i < x / 2 + h)) (h2 : 0 < r → ¬ Sq x y h (2 * i) (r - 1)) : DescA st' i r := by
  intro j hj
  rw [p.sameA i h1, hd j hj]
  by_cases h0 : 0 < r
  · rw [p.cover (h2 h0)]
  · exact ⟨fun h => absurd h.1 h0, fun h => absurd h.1 h0⟩

theorem Post.descL {f : Frame} {T : Tile} {h x y : Nat} {st st' : St σ} (p : Post f T h x y st st') {i r : Nat} (hd : DescL st i r)
    (h1 : ¬ (y % 32 / 2 ≤ i % 16 ∧ i % 16 < y % 32 / 2 + h)) (h2 : 0 < r → ¬ Sq x y h (r - 1) (2 * i)) : DescL st' i r := by
  intro j hj
  rw [p.sameL _ h1, hd j hj]
  by_cases h0 : 0 < r
  · rw [p.cover (h2 h0)]
  · exact ⟨fun h => absurd h.1 h0, fun h => absurd h.1 h0⟩

/-! ## A node without children -/

/-- What the blocks of an undivided node have to satisfy. -/
structure Leaf (f : Frame) (T : Tile) (h x y : Nat) (log : List Ev) (cs : List Call) (wa ha : Nat) : Prop where
  calls : CallsOk f T log cs
  sub : ∀ c ∈ cs, ∀ a b, c.covers a b → Sq x y h a b
  full : ∀ a b, T.has a b → Sq x y h a b → ∃ c ∈ cs, c.covers a b
  width : ∀ c ∈ cs, ∀ a, c.covers a (y + 2 * h - 1) → bsW c.bs = wa
  height : ∀ c ∈ cs, ∀ b, c.covers (x + 2 * h - 1) b → bsH c.bs = ha

theorem mod16 {k y i : Nat} (hk : k ≤ 4) (hy : y % (2 * 2 ^ k) = 0) : (y / 2 ≤ i ∧ i < y / 2 + 2 ^ k) →
    (y % 32 / 2 ≤ i % 16 ∧ i % 16 < y % 32 / 2 + 2 ^ k) := by
  have : k = 0 ∨ k = 1 ∨ k = 2 ∨ k = 3 ∨ k = 4 := by omega
  rcases this with rfl | rfl | rfl | rfl | rfl <;> simp only [Nat.reducePow, Nat.reduceMul] at hy ⊢ <;> omega

theorem leaf_cover {f : Frame} {T : Tile} {h x y : Nat} {log : List Ev} {cs : List Call} {wa ha : Nat} (hl : Leaf f T h x y log cs wa ha)
    {a b : Nat} (hn : ¬ Decoded log a b) (hs : Sq x y h a b) (ht : T.has a b) :
    ∃ c ∈ cs, c.covers a b ∧ coverOf (log ++ cs.map .call) a b = some c := by
  have hd : Decoded (log ++ cs.map .call) a b := (decoded_calls _ _ _ _).2 (.inr (hl.full a b ht hs))
  cases hc : coverOf (log ++ cs.map .call) a b with
  | none => exact absurd hd (cover_none.1 hc)
  | some c =>
    obtain ⟨h1, h2⟩ := cover_some hc
    rcases List.mem_append.1 h1 with h3 | h3
    · exact absurd ⟨c, h3, h2⟩ hn
    · obtain ⟨d, h4, h5⟩ := List.mem_map.1 h3
      cases h5
      exact ⟨c, h4, h2, rfl⟩

/-- The blocks of an undivided node, and the contexts after them. -/
theorem leaf_post {f : Frame} {T : Tile} {k x y : Nat} (hk : k ≤ 4) (hy : y % (2 * 2 ^ k) = 0) {tr bl : Prop} {st : St σ}
    (hg : Geo f T (2 ^ k) x y) (hp : Pre f T (2 ^ k) x y tr bl st) (hpass : f.pass ≠ 2) (S : Src σ) {cs : List Call} {wa ha bp : Nat}
    (hl : Leaf f T (2 ^ k) x y st.log cs wa ha)
    (hbp : bp ≠ 3 ∨ k = 0) (hwa : ∀ j, j < 5 → ((alPart 0 (4 - k) bp).testBit j = true ↔ wa < 2 ^ (j + 1)))
    (hha : ∀ j, j < 5 → ((alPart 1 (4 - k) bp).testBit j = true ↔ ha < 2 ^ (j + 1))) :
    (blks S cs st).bind (setCtx f (4 - k) bp (2 ^ k) x y) = .err ∨
    ∃ st', (blks S cs st).bind (setCtx f (4 - k) bp (2 ^ k) x y) = .ok st' ∧ Post f T (2 ^ k) x y st st' := by
  rcases blks_ok S cs st with h | ⟨s, h⟩
  · left; rw [h]; rfl
  right
  rw [h]
  have h4 : bp ≠ 3 ∨ 4 - k = 4 := hbp.imp id (fun h => by omega)
  simp only [Res.bind, setCtx, if_pos (And.intro hpass h4)]
  have hp1 : 0 < 2 ^ k := Nat.pow_pos (by decide)
  have hm : ∀ i, _ := fun i => mod16 (i := i) hk hy
  generalize hh : 2 ^ k = h at *
  have ex := hg.evx
  have ey := hg.evy
  have gx0 := hg.x0
  have gy0 := hg.y0
  refine ⟨_, rfl, ⟨_, rfl⟩, ?_, ?_, hp.ok.calls cs hl.calls, ?_, ?_, ?_, ?_⟩
  · intro a b hd
    rcases (decoded_calls _ _ _ _).1 hd with h1 | ⟨c, h1, h2⟩
    · exact .inl h1
    · exact .inr (hl.sub c h1 a b h2)
  · intro a b h1 h2
    exact (decoded_calls _ _ _ _).2 (.inr (hl.full a b h1 h2))
  · intro i hi
    exact if_neg hi
  · intro i hi
    exact if_neg hi
  · intro i h1 h2 h3 h4 j hj
    have hsq : Sq x y h (2 * i) (y + 2 * h - 1) := by unfold Sq; omega
    have ht : T.has (2 * i) (y + 2 * h - 1) := by unfold Tile.has; omega
    obtain ⟨c, hc1, hc2, hc3⟩ := leaf_cover hl (hp.free _ _ hsq) hsq ht
    dsimp only
    rw [if_pos ⟨h1, h2⟩, hwa j hj, hc3, ← hl.width c hc1 _ hc2]
    exact ⟨fun h => ⟨by omega, c, rfl, h⟩, fun ⟨_, d, h5, h6⟩ => by cases h5; exact h6⟩
  · intro i h1 h2 h3 h4 j hj
    have hsq : Sq x y h (x + 2 * h - 1) (2 * i) := by unfold Sq; omega
    have ht : T.has (x + 2 * h - 1) (2 * i) := by unfold Tile.has; omega
    obtain ⟨c, hc1, hc2, hc3⟩ := leaf_cover hl (hp.free _ _ hsq) hsq ht
    dsimp only
    rw [if_pos (hm i ⟨h1, h2⟩), hha j hj, hc3, ← hl.height c hc1 _ hc2]
    exact ⟨fun h => ⟨by omega, c, rfl, h⟩, fun ⟨_, d, h5, h6⟩ => by cases h5; exact h6⟩

end Dav1d.Part
