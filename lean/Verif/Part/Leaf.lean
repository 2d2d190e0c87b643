import Verif.Part.Lemmas
/-!
# Nodes that are not divided into nodes
-/
set_option linter.unusedSimpArgs false
set_option linter.unusedVariables false
namespace Dav1d.Part
variable {σ : Type}

/-! ## Tables -/

/-- What the six bits of a flag word say. -/
def Bits (w : Nat) (t0 t1 t2 b0 b1 b2 : Prop) : Prop :=
  (w.testBit 0 = true ↔ t0) ∧ (w.testBit 1 = true ↔ t1) ∧ (w.testBit 2 = true ↔ t2) ∧
  (w.testBit 3 = true ↔ b0) ∧ (w.testBit 4 = true ↔ b1) ∧ (w.testBit 5 = true ↔ b2)

instance (w : Nat) (t0 t1 t2 b0 b1 b2 : Prop) [Decidable t0] [Decidable t1] [Decidable t2] [Decidable b0] [Decidable b1]
    [Decidable b2] : Decidable (Bits w t0 t1 t2 b0 b1 b2) := by unfold Bits; infer_instance

/-- The words of a node. -/
structure NodeBits (n : Node) (h : Nat) (tr bl : Prop) : Prop where
  o : Bits n.o tr tr tr bl bl bl
  h0 : Bits n.h0 tr tr tr True True True
  v0 : Bits n.v0 True True True bl bl bl
  h1 : Bits n.h1 False False (h = 1 ∧ tr) bl bl bl
  v1 : Bits n.v1 tr tr tr False (h = 1 ∧ bl) (h = 1 ∧ bl)

theorem nodeBits (k : Nat) (tr bl : Bool) : NodeBits (initNode k tr bl).node (2 ^ k) (tr = true) (bl = true) := by
  cases k with
  | zero => constructor <;> cases tr <;> cases bl <;> decide
  | succ k =>
    have h1 : (2 ^ (k + 1) = 1) = False := by
      have := Nat.pow_pos (n := k) (show 0 < 2 by decide)
      simp only [eq_iff_iff, iff_false]
      rw [Nat.pow_succ]; omega
    constructor <;> simp only [initNode, initBranch, Tree.node, h1, false_and] <;> cases tr <;> cases bl <;> decide

/-- The words of a tip for its four blocks. -/
theorem tipBits (tr bl : Bool) : ∃ n s0 s1 s2, initNode 0 tr bl = .tip n s0 s1 s2 ∧
    Bits s0 (tr = true) (tr = true) (tr = true) False True False ∧
    Bits s1 True (tr = true) (tr = true) (bl = true) (bl = true) (bl = true) ∧
    Bits s2 False False (tr = true) False (bl = true) (bl = true) :=
  ⟨_, _, _, _, rfl, by cases tr <;> cases bl <;> decide⟩

/-- The words of a branch for the blocks of a partition into four. -/
theorem branchBits (k : Nat) (tr bl : Bool) : ∃ n h4 v4 c0 c1 c2 c3, initNode (k + 1) tr bl = .branch n h4 v4 c0 c1 c2 c3 ∧
    Bits h4 False False (2 ^ (k + 1) = 2 ∧ tr = true) True True True ∧
    Bits v4 True True True False (2 ^ (k + 1) = 2 ∧ bl = true) (2 ^ (k + 1) = 2 ∧ bl = true) ∧
    c0 = initNode k true true ∧ c1 = initNode k tr false ∧ c2 = initNode k true bl ∧ c3 = initNode k false false := by
  refine ⟨_, _, _, _, _, _, _, rfl, ?_, ?_, rfl, rfl, rfl, rfl⟩
  · cases k with
    | zero => cases tr <;> cases bl <;> decide
    | succ k =>
      have h1 : (2 ^ (k + 1 + 1) = 2) = False := by
        have := Nat.pow_pos (n := k) (show 0 < 2 by decide)
        simp only [eq_iff_iff, iff_false]
        rw [Nat.pow_succ, Nat.pow_succ]; omega
      rw [if_neg (by omega)]
      simp only [h1, false_and]
      decide
  · cases k with
    | zero => cases tr <;> cases bl <;> decide
    | succ k =>
      have h1 : (2 ^ (k + 1 + 1) = 2) = False := by
        have := Nat.pow_pos (n := k) (show 0 < 2 by decide)
        simp only [eq_iff_iff, iff_false]
        rw [Nat.pow_succ, Nat.pow_succ]; omega
      rw [if_neg (by omega)]
      simp only [h1, false_and]
      decide

theorem constBits : Bits ALL_TR_BL True True True True True True ∧ Bits ALL_TR True True True False False False ∧
    Bits ALL_BL False False False True True True ∧ Bits 0 False False False False False False := by decide

/-- The sizes of the blocks of a partition. -/
theorem dims : ∀ k ≤ 4,
    (bsW (bsOf (4 - k) 0 0) = 2 * 2 ^ k ∧ bsH (bsOf (4 - k) 0 0) = 2 * 2 ^ k) ∧
    (bsW (bsOf (4 - k) 1 0) = 2 * 2 ^ k ∧ bsH (bsOf (4 - k) 1 0) = 2 ^ k) ∧
    (bsW (bsOf (4 - k) 2 0) = 2 ^ k ∧ bsH (bsOf (4 - k) 2 0) = 2 * 2 ^ k) := by decide

theorem dimsT : ∀ k ≤ 4, 1 ≤ k →
    (bsW (bsOf (4 - k) 4 0) = 2 ^ k ∧ bsH (bsOf (4 - k) 4 0) = 2 ^ k) ∧
    (bsW (bsOf (4 - k) 4 1) = 2 * 2 ^ k ∧ bsH (bsOf (4 - k) 4 1) = 2 ^ k) ∧
    (bsW (bsOf (4 - k) 5 0) = 2 * 2 ^ k ∧ bsH (bsOf (4 - k) 5 0) = 2 ^ k) ∧
    (bsW (bsOf (4 - k) 5 1) = 2 ^ k ∧ bsH (bsOf (4 - k) 5 1) = 2 ^ k) ∧
    (bsW (bsOf (4 - k) 6 0) = 2 ^ k ∧ bsH (bsOf (4 - k) 6 0) = 2 ^ k) ∧
    (bsW (bsOf (4 - k) 6 1) = 2 ^ k ∧ bsH (bsOf (4 - k) 6 1) = 2 * 2 ^ k) ∧
    (bsW (bsOf (4 - k) 7 0) = 2 ^ k ∧ bsH (bsOf (4 - k) 7 0) = 2 * 2 ^ k) ∧
    (bsW (bsOf (4 - k) 7 1) = 2 ^ k ∧ bsH (bsOf (4 - k) 7 1) = 2 ^ k) := by
  intro k hk h1
  have : k = 1 ∨ k = 2 ∨ k = 3 ∨ k = 4 := by omega
  rcases this with rfl | rfl | rfl | rfl <;> decide

theorem dims4 : ∀ k ≤ 3, 1 ≤ k →
    (bsW (bsOf (4 - k) 8 0) = 2 * 2 ^ k ∧ bsH (bsOf (4 - k) 8 0) = 2 ^ k / 2) ∧
    (bsW (bsOf (4 - k) 9 0) = 2 ^ k / 2 ∧ bsH (bsOf (4 - k) 9 0) = 2 * 2 ^ k) := by
  intro k hk h1
  have : k = 1 ∨ k = 2 ∨ k = 3 := by omega
  rcases this with rfl | rfl | rfl <;> decide

theorem dimsS : bsW bs4x4 = 1 ∧ bsH bs4x4 = 1 := by decide

/-- The contexts after a partition: widths at the bottom and heights on the right. -/
theorem ctxTab : ∀ k ≤ 4, ∀ j < 5,
    (((alPart 0 (4 - k) 0).testBit j = true ↔ 2 * 2 ^ k < 2 ^ (j + 1)) ∧ ((alPart 1 (4 - k) 0).testBit j = true ↔ 2 * 2 ^ k < 2 ^ (j + 1))) ∧
    (((alPart 0 (4 - k) 1).testBit j = true ↔ 2 * 2 ^ k < 2 ^ (j + 1)) ∧ ((alPart 1 (4 - k) 1).testBit j = true ↔ 2 ^ k < 2 ^ (j + 1))) ∧
    (((alPart 0 (4 - k) 2).testBit j = true ↔ 2 ^ k < 2 ^ (j + 1)) ∧ ((alPart 1 (4 - k) 2).testBit j = true ↔ 2 * 2 ^ k < 2 ^ (j + 1))) := by decide

theorem ctxTabT : ∀ k ≤ 4, 1 ≤ k → ∀ j < 5,
    (((alPart 0 (4 - k) 4).testBit j = true ↔ 2 * 2 ^ k < 2 ^ (j + 1)) ∧ ((alPart 1 (4 - k) 4).testBit j = true ↔ 2 ^ k < 2 ^ (j + 1))) ∧
    (((alPart 0 (4 - k) 5).testBit j = true ↔ 2 ^ k < 2 ^ (j + 1)) ∧ ((alPart 1 (4 - k) 5).testBit j = true ↔ 2 ^ k < 2 ^ (j + 1))) ∧
    (((alPart 0 (4 - k) 6).testBit j = true ↔ 2 ^ k < 2 ^ (j + 1)) ∧ ((alPart 1 (4 - k) 6).testBit j = true ↔ 2 * 2 ^ k < 2 ^ (j + 1))) ∧
    (((alPart 0 (4 - k) 7).testBit j = true ↔ 2 ^ k < 2 ^ (j + 1)) ∧ ((alPart 1 (4 - k) 7).testBit j = true ↔ 2 ^ k < 2 ^ (j + 1))) := by
  intro k hk h1
  have : k = 1 ∨ k = 2 ∨ k = 3 ∨ k = 4 := by omega
  rcases this with rfl | rfl | rfl | rfl <;> decide

theorem ctxTab4 : ∀ k ≤ 3, 1 ≤ k → ∀ j < 5,
    (((alPart 0 (4 - k) 8).testBit j = true ↔ 2 * 2 ^ k < 2 ^ (j + 1)) ∧ ((alPart 1 (4 - k) 8).testBit j = true ↔ 2 ^ k / 2 < 2 ^ (j + 1))) ∧
    (((alPart 0 (4 - k) 9).testBit j = true ↔ 2 ^ k / 2 < 2 ^ (j + 1)) ∧ ((alPart 1 (4 - k) 9).testBit j = true ↔ 2 * 2 ^ k < 2 ^ (j + 1))) := by
  intro k hk h1
  have : k = 1 ∨ k = 2 ∨ k = 3 := by omega
  rcases this with rfl | rfl | rfl <;> decide

theorem ctxTabS : ∀ j < 5, ((alPart 0 4 3).testBit j = true ↔ 1 < 2 ^ (j + 1)) ∧ ((alPart 1 4 3).testBit j = true ↔ 1 < 2 ^ (j + 1)) := by decide

/-! ## One block after the other -/

/-- The units near the node for which we know what has been decoded. -/
def Near (T : Tile) (h x y a b : Nat) : Prop :=
  (T.has a b ∧ x ≤ a + 2 ∧ a < x + 4 * h ∧ y ≤ b + 2 ∧ b < y + 4 * h) ∨ Sq x y h a b

/-- `D` tells what has been decoded near the node. -/
def Rel (T : Tile) (h x y : Nat) (log : List Ev) (D : Nat → Nat → Prop) : Prop :=
  ∀ a b, Near T h x y a b → (Decoded log a b ↔ D a b)

/-- The unit is in a rectangle. -/
def Rect (x y w h a b : Nat) : Prop := x ≤ a ∧ a < x + w ∧ y ≤ b ∧ b < y + h

theorem Around.congr {T : Tile} {u v : Nat → Nat} {D D' : Nat → Nat → Prop} {X Y W E : Nat} {t b t' b' : Prop} (ht : t' ↔ t) (hb : b' ↔ b)
    (hD : ∀ i j, X ≤ i + 1 → i < X + W + W → Y ≤ j + 1 → j < Y + E + E → T.has (u i) (v j) → (D' (u i) (v j) ↔ D (u i) (v j)))
    (hW : 0 < W) (hE : 0 < E) (h : Around T u v D X Y W E t b) : Around T u v D' X Y W E t' b' := by
  constructor
  · intro i r h1 h2 h3
    rw [ht, hD _ _ (by omega) (by omega) (by omega) (by omega) h3]; exact h.tr i r h1 h2 h3
  · intro i r h1 h2 h3
    rw [hb, hD _ _ (by omega) (by omega) (by omega) (by omega) h3]; exact h.bl i r h1 h2 h3
  · intro i r h1 h2 h3
    rw [hD _ _ (by omega) (by omega) (by omega) (by omega) h3]; exact h.top i r h1 h2 h3
  · intro i r h1 h2 h3
    rw [hD _ _ (by omega) (by omega) (by omega) (by omega) h3]; exact h.left i r h1 h2 h3
  · intro i r h1 h2 h3
    rw [hD _ _ (by omega) (by omega) (by omega) (by omega) h3]; exact h.corner i r h1 h2 h3
  · intro i r h1 h2 h3
    rw [hD _ _ (by omega) (by omega) (by omega) (by omega) h3]; exact h.right i r h1 h2 h3
  · intro i r h1 h2 h3
    rw [hD _ _ (by omega) (by omega) (by omega) (by omega) h3]; exact h.below i r h1 h2 h3

/-- The luma column (row) of a unit without and with subsampling. -/
def u1 (a : Nat) : Nat := a
def u2 (a : Nat) : Nat := 2 * a + 1

theorem last_u : luma.lastX = u1 ∧ luma.lastY = u1 ∧ chroma422.lastX = u2 ∧ chroma422.lastY = u1 ∧ chroma420.lastX = u2 ∧ chroma420.lastY = u2 := by
  refine ⟨?_, ?_, ?_, ?_, ?_, ?_⟩ <;> funext a <;>
    simp only [luma, chroma422, chroma420, Plane.lastX, Plane.lastY, u1, u2, Nat.pow_zero, Nat.pow_one] <;> omega

/-- A block of a node is in place. -/
structure Good (f : Frame) (T : Tile) (h x y : Nat) (D : Nat → Nat → Prop) (cx cy w e : Nat) (t0 t1 t2 b0 b1 b2 : Prop) : Prop where
  start : T.has cx cy
  sub : x ≤ cx ∧ cx + w ≤ x + 2 * h ∧ y ≤ cy ∧ cy + e ≤ y + 2 * h ∧ 0 < w ∧ 0 < e
  next : (cx + w = x + 2 * h ∨ cx + 2 * w ≤ x + 2 * h) ∧ (cy + e = y + 2 * h ∨ cy + 2 * e ≤ y + 2 * h)
  evenX : w = 1 ∨ (w % 2 = 0 ∧ cx % 2 = 0)
  evenY : e = 1 ∨ (e % 2 = 0 ∧ cy % 2 = 0)
  insX : T.x1 = f.bw ∨ cx + w ≤ T.x1
  insY : T.y1 = f.bh ∨ cy + e ≤ T.y1
  fresh : ∀ a b, Rect cx cy w e a b → ¬ D a b
  p444 : Around T u1 u1 D cx cy w e t0 b0
  p422 : f.i422 = true → (1 < w ∨ cx % 2 = 1) → Around T u2 u1 D (cx / 2) cy ((w + 1) / 2) e t1 b1
  p420 : (1 < w ∨ cx % 2 = 1) → (1 < e ∨ cy % 2 = 1) → Around T u2 u2 D (cx / 2) (cy / 2) ((w + 1) / 2) ((e + 1) / 2) t2 b2

theorem Good.ok {f : Frame} {T : Tile} {h x y : Nat} {D : Nat → Nat → Prop} {log : List Ev} (evx : x % 2 = 0) (evy : y % 2 = 0) (far : Far f T h x y) (hr : Rel T h x y log D)
    {c : Call} {w e : Nat} (hw : bsW c.bs = w) (he : bsH c.bs = e)
    {t0 t1 t2 b0 b1 b2 : Prop} (hb : Bits c.flags t0 t1 t2 b0 b1 b2) (hg : Good f T h x y D c.x c.y w e t0 t1 t2 b0 b1 b2) : CallOk f T log c := by
  obtain ⟨hb0, hb1, hb2, hb3, hb4, hb5⟩ := hb
  have hs := hg.sub
  have hex := hg.evenX
  have hey := hg.evenY
  refine ⟨hg.start, ?_, by rw [hw]; exact hex, by rw [he]; exact hey, by omega, by rw [hw]; exact hg.insX, by rw [he]; exact hg.insY, ?_, ?_, ?_⟩
  · intro a b hc
    have hc' : Rect c.x c.y w e a b := by unfold Call.covers at hc; rw [hw, he] at hc; exact hc
    rw [hr a b (.inr (by unfold Rect at hc'; unfold Sq; omega))]
    exact hg.fresh a b hc'
  · have h1 := hg.next.1
    have h2 := far.1
    rw [hw]; omega
  · have h1 := hg.next.2
    have h2 := far.2
    rw [he]; omega
  · obtain ⟨l1, l2, l3, l4, l5, l6⟩ := last_u
    intro p hp hh
    unfold planes at hp
    simp only [List.mem_cons, List.not_mem_nil, or_false] at hp
    rcases hp with rfl | hp
    · rw [l1, l2]
      simp only [luma, Plane.x, Plane.y, Plane.w, Plane.h, hw, he, Nat.pow_zero, Nat.div_one, Nat.add_zero]
      refine Around.congr hb0 hb3 (fun i j h1 h2 h3 h4 h5 => hr _ _ (.inl ⟨h5, ?_⟩)) (by omega) (by omega) hg.p444
      unfold u1; omega
    · by_cases hi : f.i422 = true
      · rw [if_pos hi] at hp
        subst hp
        simp only [chroma422, Plane.hasBlock, hw, he] at hh
        rw [l3, l4]
        simp only [chroma422, Plane.x, Plane.y, Plane.w, Plane.h, hw, he, Nat.pow_zero, Nat.pow_one, Nat.div_one, Nat.add_zero]
        refine Around.congr hb1 hb4 (fun i j h1 h2 h3 h4 h5 => hr _ _ (.inl ⟨h5, ?_⟩)) (by omega) (by omega) (hg.p422 hi (by omega))
        unfold u1 u2; omega
      · rw [if_neg hi] at hp
        subst hp
        simp only [chroma420, Plane.hasBlock, hw, he] at hh
        rw [l5, l6]
        simp only [chroma420, Plane.x, Plane.y, Plane.w, Plane.h, hw, he, Nat.pow_one]
        refine Around.congr hb2 hb5 (fun i j h1 h2 h3 h4 h5 => hr _ _ (.inl ⟨h5, ?_⟩)) (by omega) (by omega) (hg.p420 (by omega) (by omega))
        unfold u2; omega

/-- The next block. -/
theorem calls_cons {f : Frame} {T : Tile} {h x y : Nat} {D : Nat → Nat → Prop} {log : List Ev} (evx : x % 2 = 0) (evy : y % 2 = 0) (far : Far f T h x y) (hr : Rel T h x y log D)
    {c : Call} {w e : Nat} (hw : bsW c.bs = w) (he : bsH c.bs = e)
    {t0 t1 t2 b0 b1 b2 : Prop} (hb : Bits c.flags t0 t1 t2 b0 b1 b2) (hg : Good f T h x y D c.x c.y w e t0 t1 t2 b0 b1 b2) {cs : List Call}
    (hn : ∀ log', Rel T h x y log' (fun a b => D a b ∨ Rect c.x c.y w e a b) → CallsOk f T log' cs) : CallsOk f T log (c :: cs) := by
  refine ⟨hg.ok evx evy far hr hw he hb, hn _ ?_⟩
  intro a b hab
  rw [decoded_call, hr a b hab]
  unfold Call.covers Rect
  rw [hw, he]

/-- Before the first block of a node. -/
theorem Pre.rel {f : Frame} {T : Tile} {h x y : Nat} {tr bl : Prop} {st : St σ} (hp : Pre f T h x y tr bl st) :
    Rel T h x y st.log (Ring x y h tr bl) := by
  intro a b hab
  rcases hab with ⟨h1, h2, h3, h4, h5⟩ | h1
  · exact hp.ring a b h1 h2 h3 h4 h5
  · refine ⟨fun hd => absurd hd (hp.free a b h1), fun hd => ?_⟩
    unfold Sq at h1
    unfold Ring at hd
    rcases hd with hd | hd <;> omega

/-- Closes the conditions around a block in a plane. -/
macro "arnd" : tactic => `(tactic|
  (constructor <;> (try simp only [Ring, Rect, Tile.has, true_iff, false_iff, true_or, u1, u2]) <;> omega))

/-- Closes the conditions on a block. -/
macro "good" : tactic => `(tactic|
  (dsimp only
   refine ⟨?_, ?_, ?_, ?_, ?_, ?_, ?_, ?_, ?_, fun _ hx => ?_, fun hx hy => ?_⟩ <;>
   first
   | arnd
   | ((try simp only [Ring, Rect, Tile.has, true_iff, false_iff, true_or, and_true, true_and]) ; omega)))

/-- The same where the layout is known not to be 4:2:2. -/
macro "good'" hi:ident : tactic => `(tactic|
  (dsimp only
   refine ⟨?_, ?_, ?_, ?_, ?_, ?_, ?_, ?_, ?_, fun hx => absurd hx $hi, fun hx hy => ?_⟩ <;>
   first
   | arnd
   | ((try simp only [Ring, Rect, Tile.has, true_iff, false_iff, true_or, and_true, true_and]) ; omega)))

/-- Splits a membership. -/
macro "mems" : tactic => `(tactic|
  (intro c hc
   simp only [List.mem_cons, List.not_mem_nil, or_false, List.mem_append, List.append_nil] at hc
   repeat' (first | subst hc | (rcases hc with hc | hc))))

section
variable {f : Frame} {T : Tile} {h x y tn bn : Nat} {log : List Ev} {n : Node} {l b b' : Nat}

theorem leaf0 (hg : Geo f T h x y) (hr : Rel T h x y log (Ring x y h (tn = 1) (bn = 1))) (hn : NodeBits n h (tn = 1) (bn = 1)) (h1 : h = 1 ∨ (2 ≤ h ∧ h % 2 = 0)) (hw : bsW b = 2 * h) (he : bsH b = 2 * h) :
    Leaf f T h x y log [⟨l, b, 0, n.o, x, y⟩] (2 * h) (2 * h) := by
  obtain ⟨g1, g2, g3, g4, g5, g6, g7, g8, g9, g10, g11⟩ := hg
  refine ⟨?_, ?_, ?_, ?_, ?_⟩
  · refine calls_cons g7 g8 g11 hr hw he (hn.o) (by good) (fun log0 hr0 => ?_)
    exact trivial
  · mems <;> simp only [Call.covers, Sq, he, hw] <;> omega
  · intro a b h1 h2
    simp only [List.mem_cons, List.not_mem_nil, or_false, exists_eq_or_imp, exists_eq_left, Call.covers, he, hw]
    unfold Tile.has at h1; unfold Sq at h2; omega
  · mems <;> simp only [Call.covers, he, hw] <;> first | omega | (intros; trivial)
  · mems <;> simp only [Call.covers, he, hw] <;> first | omega | (intros; trivial)

theorem leaf1 (hg : Geo f T h x y) (hr : Rel T h x y log (Ring x y h (tn = 1) (bn = 1))) (hn : NodeBits n h (tn = 1) (bn = 1)) (h1 : h = 1 ∨ (2 ≤ h ∧ h % 2 = 0)) (hx : x + h < f.bw) (hy : y + h < f.bh) (hw : bsW b = 2 * h) (he : bsH b = h) :
    Leaf f T h x y log [⟨l, b, 1, n.h0, x, y⟩, ⟨l, b, 1, n.h1, x, y + h⟩] (2 * h) (h) := by
  obtain ⟨g1, g2, g3, g4, g5, g6, g7, g8, g9, g10, g11⟩ := hg
  refine ⟨?_, ?_, ?_, ?_, ?_⟩
  · refine calls_cons g7 g8 g11 hr hw he (hn.h0) (by good) (fun log0 hr0 => ?_)
    refine calls_cons g7 g8 g11 hr0 hw he (hn.h1) (by good) (fun log1 hr1 => ?_)
    exact trivial
  · mems <;> simp only [Call.covers, Sq, he, hw] <;> omega
  · intro a b h1 h2
    simp only [List.mem_cons, List.not_mem_nil, or_false, exists_eq_or_imp, exists_eq_left, Call.covers, he, hw]
    unfold Tile.has at h1; unfold Sq at h2; omega
  · mems <;> simp only [Call.covers, he, hw] <;> first | omega | (intros; trivial)
  · mems <;> simp only [Call.covers, he, hw] <;> first | omega | (intros; trivial)

theorem leaf1e (hg : Geo f T h x y) (hr : Rel T h x y log (Ring x y h (tn = 1) (bn = 1))) (hn : NodeBits n h (tn = 1) (bn = 1)) (h1 : 2 ≤ h ∧ h % 2 = 0) (hx : x + h < f.bw) (hy : ¬ y + h < f.bh) (hw : bsW b = 2 * h) (he : bsH b = h) :
    Leaf f T h x y log [⟨l, b, 1, n.h0, x, y⟩] (2 * h) (h) := by
  obtain ⟨g1, g2, g3, g4, g5, g6, g7, g8, g9, g10, g11⟩ := hg
  refine ⟨?_, ?_, ?_, ?_, ?_⟩
  · refine calls_cons g7 g8 g11 hr hw he (hn.h0) (by good) (fun log0 hr0 => ?_)
    exact trivial
  · mems <;> simp only [Call.covers, Sq, he, hw] <;> omega
  · intro a b h1 h2
    simp only [List.mem_cons, List.not_mem_nil, or_false, exists_eq_or_imp, exists_eq_left, Call.covers, he, hw]
    unfold Tile.has at h1; unfold Sq at h2; omega
  · mems <;> simp only [Call.covers, he, hw] <;> first | omega | (intros; trivial)
  · mems <;> simp only [Call.covers, he, hw] <;> first | omega | (intros; trivial)

theorem leaf2 (hg : Geo f T h x y) (hr : Rel T h x y log (Ring x y h (tn = 1) (bn = 1))) (hn : NodeBits n h (tn = 1) (bn = 1)) (h1 : h = 1 ∨ (2 ≤ h ∧ h % 2 = 0)) (hx : x + h < f.bw) (hy : y + h < f.bh) (hw : bsW b = h) (he : bsH b = 2 * h) (hi : ¬ f.i422 = true) :
    Leaf f T h x y log [⟨l, b, 2, n.v0, x, y⟩, ⟨l, b, 2, n.v1, x + h, y⟩] (h) (2 * h) := by
  obtain ⟨g1, g2, g3, g4, g5, g6, g7, g8, g9, g10, g11⟩ := hg
  refine ⟨?_, ?_, ?_, ?_, ?_⟩
  · refine calls_cons g7 g8 g11 hr hw he (hn.v0) (by good' hi) (fun log0 hr0 => ?_)
    refine calls_cons g7 g8 g11 hr0 hw he (hn.v1) (by good' hi) (fun log1 hr1 => ?_)
    exact trivial
  · mems <;> simp only [Call.covers, Sq, he, hw] <;> omega
  · intro a b h1 h2
    simp only [List.mem_cons, List.not_mem_nil, or_false, exists_eq_or_imp, exists_eq_left, Call.covers, he, hw]
    unfold Tile.has at h1; unfold Sq at h2; omega
  · mems <;> simp only [Call.covers, he, hw] <;> first | omega | (intros; trivial)
  · mems <;> simp only [Call.covers, he, hw] <;> first | omega | (intros; trivial)

theorem leaf2e (hg : Geo f T h x y) (hr : Rel T h x y log (Ring x y h (tn = 1) (bn = 1))) (hn : NodeBits n h (tn = 1) (bn = 1)) (h1 : 2 ≤ h ∧ h % 2 = 0) (hx : ¬ x + h < f.bw) (hy : y + h < f.bh) (hw : bsW b = h) (he : bsH b = 2 * h) (hi : ¬ f.i422 = true) :
    Leaf f T h x y log [⟨l, b, 2, n.v0, x, y⟩] (h) (2 * h) := by
  obtain ⟨g1, g2, g3, g4, g5, g6, g7, g8, g9, g10, g11⟩ := hg
  refine ⟨?_, ?_, ?_, ?_, ?_⟩
  · refine calls_cons g7 g8 g11 hr hw he (hn.v0) (by good' hi) (fun log0 hr0 => ?_)
    exact trivial
  · mems <;> simp only [Call.covers, Sq, he, hw] <;> omega
  · intro a b h1 h2
    simp only [List.mem_cons, List.not_mem_nil, or_false, exists_eq_or_imp, exists_eq_left, Call.covers, he, hw]
    unfold Tile.has at h1; unfold Sq at h2; omega
  · mems <;> simp only [Call.covers, he, hw] <;> first | omega | (intros; trivial)
  · mems <;> simp only [Call.covers, he, hw] <;> first | omega | (intros; trivial)

theorem leaf3 (hg : Geo f T h x y) (hr : Rel T h x y log (Ring x y h (tn = 1) (bn = 1))) (hn : NodeBits n h (tn = 1) (bn = 1)) (h1 : h = 1) (hx : x + h < f.bw) (hy : y + h < f.bh) (hw : bsW b = 1) (he : bsH b = 1) {s0 s1 s2 : Nat} (q0 : Bits s0 (tn = 1) (tn = 1) (tn = 1) False True False) (q1 : Bits s1 True (tn = 1) (tn = 1) (bn = 1) (bn = 1) (bn = 1)) (q2 : Bits s2 False False (tn = 1) False (bn = 1) (bn = 1)) :
    Leaf f T h x y log [⟨l, b, 3, ALL_TR_BL, x, y⟩, ⟨l, b, 3, s0, x + 1, y⟩, ⟨l, b, 3, s1, x, y + 1⟩, ⟨l, b, 3, s2, x + 1, y + 1⟩] (1) (1) := by
  obtain ⟨g1, g2, g3, g4, g5, g6, g7, g8, g9, g10, g11⟩ := hg
  refine ⟨?_, ?_, ?_, ?_, ?_⟩
  · refine calls_cons g7 g8 g11 hr hw he (constBits.1) (by good) (fun log0 hr0 => ?_)
    refine calls_cons g7 g8 g11 hr0 hw he (q0) (by good) (fun log1 hr1 => ?_)
    refine calls_cons g7 g8 g11 hr1 hw he (q1) (by good) (fun log2 hr2 => ?_)
    refine calls_cons g7 g8 g11 hr2 hw he (q2) (by good) (fun log3 hr3 => ?_)
    exact trivial
  · mems <;> simp only [Call.covers, Sq, he, hw] <;> omega
  · intro a b h1 h2
    simp only [List.mem_cons, List.not_mem_nil, or_false, exists_eq_or_imp, exists_eq_left, Call.covers, he, hw]
    unfold Tile.has at h1; unfold Sq at h2; omega
  · mems <;> simp only [Call.covers, he, hw] <;> first | omega | (intros; trivial)
  · mems <;> simp only [Call.covers, he, hw] <;> first | omega | (intros; trivial)

theorem leaf4 (hg : Geo f T h x y) (hr : Rel T h x y log (Ring x y h (tn = 1) (bn = 1))) (hn : NodeBits n h (tn = 1) (bn = 1)) (h1 : 2 ≤ h ∧ h % 2 = 0) (hx : x + h < f.bw) (hy : y + h < f.bh) (hw : bsW b = h) (he : bsH b = h) (hw' : bsW b' = 2 * h) (he' : bsH b' = h) :
    Leaf f T h x y log [⟨l, b, 4, ALL_TR_BL, x, y⟩, ⟨l, b, 4, n.v1, x + h, y⟩, ⟨l, b', 4, n.h1, x, y + h⟩] (2 * h) (h) := by
  obtain ⟨g1, g2, g3, g4, g5, g6, g7, g8, g9, g10, g11⟩ := hg
  refine ⟨?_, ?_, ?_, ?_, ?_⟩
  · refine calls_cons g7 g8 g11 hr hw he (constBits.1) (by good) (fun log0 hr0 => ?_)
    refine calls_cons g7 g8 g11 hr0 hw he (hn.v1) (by good) (fun log1 hr1 => ?_)
    refine calls_cons g7 g8 g11 hr1 hw' he' (hn.h1) (by good) (fun log2 hr2 => ?_)
    exact trivial
  · mems <;> simp only [Call.covers, Sq, he, he', hw, hw'] <;> omega
  · intro a b h1 h2
    simp only [List.mem_cons, List.not_mem_nil, or_false, exists_eq_or_imp, exists_eq_left, Call.covers, he, he', hw, hw']
    unfold Tile.has at h1; unfold Sq at h2; omega
  · mems <;> simp only [Call.covers, he, he', hw, hw'] <;> first | omega | (intros; trivial)
  · mems <;> simp only [Call.covers, he, he', hw, hw'] <;> first | omega | (intros; trivial)

theorem leaf5 (hg : Geo f T h x y) (hr : Rel T h x y log (Ring x y h (tn = 1) (bn = 1))) (hn : NodeBits n h (tn = 1) (bn = 1)) (h1 : 2 ≤ h ∧ h % 2 = 0) (hx : x + h < f.bw) (hy : y + h < f.bh) (hw : bsW b = 2 * h) (he : bsH b = h) (hw' : bsW b' = h) (he' : bsH b' = h) :
    Leaf f T h x y log [⟨l, b, 5, n.h0, x, y⟩, ⟨l, b', 5, n.v0, x, y + h⟩, ⟨l, b', 5, 0, x + h, y + h⟩] (h) (h) := by
  obtain ⟨g1, g2, g3, g4, g5, g6, g7, g8, g9, g10, g11⟩ := hg
  refine ⟨?_, ?_, ?_, ?_, ?_⟩
  · refine calls_cons g7 g8 g11 hr hw he (hn.h0) (by good) (fun log0 hr0 => ?_)
    refine calls_cons g7 g8 g11 hr0 hw' he' (hn.v0) (by good) (fun log1 hr1 => ?_)
    refine calls_cons g7 g8 g11 hr1 hw' he' (constBits.2.2.2) (by good) (fun log2 hr2 => ?_)
    exact trivial
  · mems <;> simp only [Call.covers, Sq, he, he', hw, hw'] <;> omega
  · intro a b h1 h2
    simp only [List.mem_cons, List.not_mem_nil, or_false, exists_eq_or_imp, exists_eq_left, Call.covers, he, he', hw, hw']
    unfold Tile.has at h1; unfold Sq at h2; omega
  · mems <;> simp only [Call.covers, he, he', hw, hw'] <;> first | omega | (intros; trivial)
  · mems <;> simp only [Call.covers, he, he', hw, hw'] <;> first | omega | (intros; trivial)

theorem leaf6 (hg : Geo f T h x y) (hr : Rel T h x y log (Ring x y h (tn = 1) (bn = 1))) (hn : NodeBits n h (tn = 1) (bn = 1)) (h1 : 2 ≤ h ∧ h % 2 = 0) (hx : x + h < f.bw) (hy : y + h < f.bh) (hw : bsW b = h) (he : bsH b = h) (hw' : bsW b' = h) (he' : bsH b' = 2 * h) (hi : ¬ f.i422 = true) :
    Leaf f T h x y log [⟨l, b, 6, ALL_TR_BL, x, y⟩, ⟨l, b, 6, n.h1, x, y + h⟩, ⟨l, b', 6, n.v1, x + h, y⟩] (h) (2 * h) := by
  obtain ⟨g1, g2, g3, g4, g5, g6, g7, g8, g9, g10, g11⟩ := hg
  refine ⟨?_, ?_, ?_, ?_, ?_⟩
  · refine calls_cons g7 g8 g11 hr hw he (constBits.1) (by good' hi) (fun log0 hr0 => ?_)
    refine calls_cons g7 g8 g11 hr0 hw he (hn.h1) (by good' hi) (fun log1 hr1 => ?_)
    refine calls_cons g7 g8 g11 hr1 hw' he' (hn.v1) (by good' hi) (fun log2 hr2 => ?_)
    exact trivial
  · mems <;> simp only [Call.covers, Sq, he, he', hw, hw'] <;> omega
  · intro a b h1 h2
    simp only [List.mem_cons, List.not_mem_nil, or_false, exists_eq_or_imp, exists_eq_left, Call.covers, he, he', hw, hw']
    unfold Tile.has at h1; unfold Sq at h2; omega
  · mems <;> simp only [Call.covers, he, he', hw, hw'] <;> first | omega | (intros; trivial)
  · mems <;> simp only [Call.covers, he, he', hw, hw'] <;> first | omega | (intros; trivial)

theorem leaf7 (hg : Geo f T h x y) (hr : Rel T h x y log (Ring x y h (tn = 1) (bn = 1))) (hn : NodeBits n h (tn = 1) (bn = 1)) (h1 : 2 ≤ h ∧ h % 2 = 0) (hx : x + h < f.bw) (hy : y + h < f.bh) (hw : bsW b = h) (he : bsH b = 2 * h) (hw' : bsW b' = h) (he' : bsH b' = h) (hi : ¬ f.i422 = true) :
    Leaf f T h x y log [⟨l, b, 7, n.v0, x, y⟩, ⟨l, b', 7, n.h0, x + h, y⟩, ⟨l, b', 7, 0, x + h, y + h⟩] (h) (h) := by
  obtain ⟨g1, g2, g3, g4, g5, g6, g7, g8, g9, g10, g11⟩ := hg
  refine ⟨?_, ?_, ?_, ?_, ?_⟩
  · refine calls_cons g7 g8 g11 hr hw he (hn.v0) (by good' hi) (fun log0 hr0 => ?_)
    refine calls_cons g7 g8 g11 hr0 hw' he' (hn.h0) (by good' hi) (fun log1 hr1 => ?_)
    refine calls_cons g7 g8 g11 hr1 hw' he' (constBits.2.2.2) (by good' hi) (fun log2 hr2 => ?_)
    exact trivial
  · mems <;> simp only [Call.covers, Sq, he, he', hw, hw'] <;> omega
  · intro a b h1 h2
    simp only [List.mem_cons, List.not_mem_nil, or_false, exists_eq_or_imp, exists_eq_left, Call.covers, he, he', hw, hw']
    unfold Tile.has at h1; unfold Sq at h2; omega
  · mems <;> simp only [Call.covers, he, he', hw, hw'] <;> first | omega | (intros; trivial)
  · mems <;> simp only [Call.covers, he, he', hw, hw'] <;> first | omega | (intros; trivial)

theorem leaf8 (hg : Geo f T h x y) (hr : Rel T h x y log (Ring x y h (tn = 1) (bn = 1))) (hn : NodeBits n h (tn = 1) (bn = 1)) {q : Nat} (hq : h = 2 * q) (hq2 : q = 1 ∨ (2 ≤ q ∧ q % 2 = 0)) (hx : x + h < f.bw) (hy : y + h < f.bh) (h3 : y + q + q + q < f.bh) (hw : bsW b = 2 * h) (he : bsH b = q) {h4 : Nat} (q4 : Bits h4 False False (h = 2 ∧ tn = 1) True True True) :
    Leaf f T h x y log [⟨l, b, 8, n.h0, x, y⟩, ⟨l, b, 8, h4, x, y + q⟩, ⟨l, b, 8, ALL_BL, x, y + q + q⟩, ⟨l, b, 8, n.h1, x, y + q + q + q⟩] (2 * h) (q) := by
  obtain ⟨g1, g2, g3, g4, g5, g6, g7, g8, g9, g10, g11⟩ := hg
  refine ⟨?_, ?_, ?_, ?_, ?_⟩
  · refine calls_cons g7 g8 g11 hr hw he (hn.h0) (by good) (fun log0 hr0 => ?_)
    refine calls_cons g7 g8 g11 hr0 hw he (q4) (by good) (fun log1 hr1 => ?_)
    refine calls_cons g7 g8 g11 hr1 hw he (constBits.2.2.1) (by good) (fun log2 hr2 => ?_)
    refine calls_cons g7 g8 g11 hr2 hw he (hn.h1) (by good) (fun log3 hr3 => ?_)
    exact trivial
  · mems <;> simp only [Call.covers, Sq, he, hw] <;> omega
  · intro a b h1 h2
    simp only [List.mem_cons, List.not_mem_nil, or_false, exists_eq_or_imp, exists_eq_left, Call.covers, he, hw]
    unfold Tile.has at h1; unfold Sq at h2; omega
  · mems <;> simp only [Call.covers, he, hw] <;> first | omega | (intros; trivial)
  · mems <;> simp only [Call.covers, he, hw] <;> first | omega | (intros; trivial)

theorem leaf8e (hg : Geo f T h x y) (hr : Rel T h x y log (Ring x y h (tn = 1) (bn = 1))) (hn : NodeBits n h (tn = 1) (bn = 1)) {q : Nat} (hq : h = 2 * q) (hq2 : q = 1 ∨ (2 ≤ q ∧ q % 2 = 0)) (hx : x + h < f.bw) (hy : y + h < f.bh) (h3 : ¬ y + q + q + q < f.bh) (hw : bsW b = 2 * h) (he : bsH b = q) {h4 : Nat} (q4 : Bits h4 False False (h = 2 ∧ tn = 1) True True True) :
    Leaf f T h x y log [⟨l, b, 8, n.h0, x, y⟩, ⟨l, b, 8, h4, x, y + q⟩, ⟨l, b, 8, ALL_BL, x, y + q + q⟩] (2 * h) (q) := by
  obtain ⟨g1, g2, g3, g4, g5, g6, g7, g8, g9, g10, g11⟩ := hg
  refine ⟨?_, ?_, ?_, ?_, ?_⟩
  · refine calls_cons g7 g8 g11 hr hw he (hn.h0) (by good) (fun log0 hr0 => ?_)
    refine calls_cons g7 g8 g11 hr0 hw he (q4) (by good) (fun log1 hr1 => ?_)
    refine calls_cons g7 g8 g11 hr1 hw he (constBits.2.2.1) (by good) (fun log2 hr2 => ?_)
    exact trivial
  · mems <;> simp only [Call.covers, Sq, he, hw] <;> omega
  · intro a b h1 h2
    simp only [List.mem_cons, List.not_mem_nil, or_false, exists_eq_or_imp, exists_eq_left, Call.covers, he, hw]
    unfold Tile.has at h1; unfold Sq at h2; omega
  · mems <;> simp only [Call.covers, he, hw] <;> first | omega | (intros; trivial)
  · mems <;> simp only [Call.covers, he, hw] <;> first | omega | (intros; trivial)

theorem leaf9 (hg : Geo f T h x y) (hr : Rel T h x y log (Ring x y h (tn = 1) (bn = 1))) (hn : NodeBits n h (tn = 1) (bn = 1)) {q : Nat} (hq : h = 2 * q) (hq2 : q = 1 ∨ (2 ≤ q ∧ q % 2 = 0)) (hx : x + h < f.bw) (hy : y + h < f.bh) (h3 : x + q + q + q < f.bw) (hw : bsW b = q) (he : bsH b = 2 * h) {v4 : Nat} (q4 : Bits v4 True True True False (h = 2 ∧ bn = 1) (h = 2 ∧ bn = 1)) (hi : ¬ f.i422 = true) :
    Leaf f T h x y log [⟨l, b, 9, n.v0, x, y⟩, ⟨l, b, 9, v4, x + q, y⟩, ⟨l, b, 9, ALL_TR, x + q + q, y⟩, ⟨l, b, 9, n.v1, x + q + q + q, y⟩] (q) (2 * h) := by
  obtain ⟨g1, g2, g3, g4, g5, g6, g7, g8, g9, g10, g11⟩ := hg
  refine ⟨?_, ?_, ?_, ?_, ?_⟩
  · refine calls_cons g7 g8 g11 hr hw he (hn.v0) (by good' hi) (fun log0 hr0 => ?_)
    refine calls_cons g7 g8 g11 hr0 hw he (q4) (by good' hi) (fun log1 hr1 => ?_)
    refine calls_cons g7 g8 g11 hr1 hw he (constBits.2.1) (by good' hi) (fun log2 hr2 => ?_)
    refine calls_cons g7 g8 g11 hr2 hw he (hn.v1) (by good' hi) (fun log3 hr3 => ?_)
    exact trivial
  · mems <;> simp only [Call.covers, Sq, he, hw] <;> omega
  · intro a b h1 h2
    simp only [List.mem_cons, List.not_mem_nil, or_false, exists_eq_or_imp, exists_eq_left, Call.covers, he, hw]
    unfold Tile.has at h1; unfold Sq at h2; omega
  · mems <;> simp only [Call.covers, he, hw] <;> first | omega | (intros; trivial)
  · mems <;> simp only [Call.covers, he, hw] <;> first | omega | (intros; trivial)

theorem leaf9e (hg : Geo f T h x y) (hr : Rel T h x y log (Ring x y h (tn = 1) (bn = 1))) (hn : NodeBits n h (tn = 1) (bn = 1)) {q : Nat} (hq : h = 2 * q) (hq2 : q = 1 ∨ (2 ≤ q ∧ q % 2 = 0)) (hx : x + h < f.bw) (hy : y + h < f.bh) (h3 : ¬ x + q + q + q < f.bw) (hw : bsW b = q) (he : bsH b = 2 * h) {v4 : Nat} (q4 : Bits v4 True True True False (h = 2 ∧ bn = 1) (h = 2 ∧ bn = 1)) (hi : ¬ f.i422 = true) :
    Leaf f T h x y log [⟨l, b, 9, n.v0, x, y⟩, ⟨l, b, 9, v4, x + q, y⟩, ⟨l, b, 9, ALL_TR, x + q + q, y⟩] (q) (2 * h) := by
  obtain ⟨g1, g2, g3, g4, g5, g6, g7, g8, g9, g10, g11⟩ := hg
  refine ⟨?_, ?_, ?_, ?_, ?_⟩
  · refine calls_cons g7 g8 g11 hr hw he (hn.v0) (by good' hi) (fun log0 hr0 => ?_)
    refine calls_cons g7 g8 g11 hr0 hw he (q4) (by good' hi) (fun log1 hr1 => ?_)
    refine calls_cons g7 g8 g11 hr1 hw he (constBits.2.1) (by good' hi) (fun log2 hr2 => ?_)
    exact trivial
  · mems <;> simp only [Call.covers, Sq, he, hw] <;> omega
  · intro a b h1 h2
    simp only [List.mem_cons, List.not_mem_nil, or_false, exists_eq_or_imp, exists_eq_left, Call.covers, he, hw]
    unfold Tile.has at h1; unfold Sq at h2; omega
  · mems <;> simp only [Call.covers, he, hw] <;> first | omega | (intros; trivial)
  · mems <;> simp only [Call.covers, he, hw] <;> first | omega | (intros; trivial)
end

end Dav1d.Part
