import Verif.Part.LpfGeo
/-!
# The blocks of all tiles of a frame
-/
set_option linter.unusedVariables false
namespace Dav1d.Part.Lpf

/-- The tile in a row and a column: src/decode.c:2462-2465. -/
def Grid.tile (G : Grid) (f : Frame) (sb128 : Bool) (t : Nat × Nat) : Tile :=
  ⟨G.cs t.2 * sbStep sb128, min (G.cs (t.2 + 1) * sbStep sb128) f.bw, G.rs t.1 * sbStep sb128, min (G.rs (t.1 + 1) * sbStep sb128) f.bh⟩

/-- The tiles cut the frame in rows and columns. -/
structure Grid.Ok (G : Grid) (f : Frame) (sb128 : Bool) : Prop where
  c0 : G.cs 0 = 0
  r0 : G.rs 0 = 0
  c1 : ∀ k < G.cols, G.cs k < G.cs (k + 1)
  r1 : ∀ k < G.rows, G.rs k < G.rs (k + 1)
  c2 : ∀ k < G.cols, G.cs k * sbStep sb128 < f.bw
  r2 : ∀ k < G.rows, G.rs k * sbStep sb128 < f.bh
  c3 : f.bw ≤ G.cs G.cols * sbStep sb128
  r3 : f.bh ≤ G.rs G.rows * sbStep sb128

/-- A frame whose blocks are decoded in the order `order`. -/
structure FrameOk (C : Cfg) (G : Grid) (order : List ((Nat × Nat) × Call)) : Prop where
  ssH : C.comp.plane.ssH < 2
  ssV : C.comp.plane.ssV < 2
  w4 : C.D.w4 ≤ C.f.bw ∧ C.f.bw ≤ C.D.w4 + 1
  h4 : C.D.h4 ≤ C.f.bh ∧ C.f.bh ≤ C.D.h4 + 1
  bw : C.f.bw % 2 = 0
  bh : C.f.bh % 2 = 0
  grid : G.Ok C.f C.sb128
  mem : ∀ e ∈ order, e.1.1 < G.rows ∧ e.1.2 < G.cols
  tiles : ∀ t : Nat × Nat, t.1 < G.rows → t.2 < G.cols → TileCfg C (G.tile C.f C.sb128 t) (callsOf order t)

theorem mem_callsOf {order : List ((Nat × Nat) × Call)} {t : Nat × Nat} {c : Call} : c ∈ callsOf order t ↔ (t, c) ∈ order := by
  unfold callsOf
  rw [List.mem_filterMap]
  constructor
  · rintro ⟨⟨t', c'⟩, h1, h2⟩
    dsimp only at h2
    by_cases h : t' = t
    · rw [if_pos h] at h2; cases h2; rw [← h]; exact h1
    · rw [if_neg h] at h2; cases h2
  · intro h
    exact ⟨_, h, if_pos rfl⟩

theorem callsOf_append (a b : List ((Nat × Nat) × Call)) (t : Nat × Nat) : callsOf (a ++ b) t = callsOf a t ++ callsOf b t := by
  unfold callsOf; rw [List.filterMap_append]

theorem callsOf_cons (e : (Nat × Nat) × Call) (b : List ((Nat × Nat) × Call)) (t : Nat × Nat) : callsOf (e :: b) t = if e.1 = t then e.2 :: callsOf b t else callsOf b t := by
  unfold callsOf
  by_cases h : e.1 = t
  · rw [List.filterMap_cons_some (by rw [if_pos h]), if_pos h]
  · rw [List.filterMap_cons_none (by rw [if_neg h]), if_neg h]

/-- In which part of an increasing sequence a number lies. -/
theorem part_of {s : Nat → Nat} {n x q : Nat} (hq : 0 < q) (h0 : s 0 = 0) (hn : x < s n * q) : ∃ k < n, s k * q ≤ x ∧ x < s (k + 1) * q := by
  induction n with
  | zero => rw [h0] at hn; omega
  | succ n ih =>
    by_cases h : x < s n * q
    · obtain ⟨k, h1, h2⟩ := ih h
      exact ⟨k, by omega, h2⟩
    · exact ⟨n, by omega, by omega, hn⟩

theorem seq_le {s : Nat → Nat} {n : Nat} (h : ∀ k < n, s k < s (k + 1)) {a b : Nat} (hab : a ≤ b) (hb : b ≤ n) : s a ≤ s b := by
  induction b with
  | zero => have : a = 0 := by omega
            rw [this]; exact Nat.le_refl _
  | succ b ih =>
    by_cases e : a = b + 1
    · rw [e]; exact Nat.le_refl _
    · have := ih (by omega) (by omega)
      have := h b (by omega)
      omega

theorem seq_lt {s : Nat → Nat} {n : Nat} (h : ∀ k < n, s k < s (k + 1)) {a b : Nat} (hab : a < b) (hb : b ≤ n) : s a < s b := by
  have := h a (by omega)
  have := seq_le h (a := a + 1) (b := b) (by omega) hb
  omega

theorem part_unique {s : Nat → Nat} {n x q a b : Nat} (h : ∀ k < n, s k < s (k + 1)) (ha : a < n) (hb : b < n)
    (a1 : s a * q ≤ x) (a2 : x < s (a + 1) * q) (b1 : s b * q ≤ x) (b2 : x < s (b + 1) * q) : a = b := by
  rcases Nat.lt_trichotomy a b with e | e | e
  · have := Nat.mul_le_mul_right q (seq_le h (a := a + 1) (b := b) (by omega) (by omega)); omega
  · exact e
  · have := Nat.mul_le_mul_right q (seq_le h (a := b + 1) (b := a) (by omega) (by omega)); omega

variable {C : Cfg} {G : Grid} {order : List ((Nat × Nat) × Call)}

theorem step_pos (b : Bool) : 0 < sbStep b := by rcases step_two b with e | e <;> omega

theorem tile_has {f : Frame} {sb128 : Bool} {t : Nat × Nat} {a b : Nat} : (G.tile f sb128 t).has a b ↔
    (G.cs t.2 * sbStep sb128 ≤ a ∧ a < G.cs (t.2 + 1) * sbStep sb128 ∧ a < f.bw) ∧ (G.rs t.1 * sbStep sb128 ≤ b ∧ b < G.rs (t.1 + 1) * sbStep sb128 ∧ b < f.bh) := by
  unfold Tile.has Grid.tile
  dsimp only
  omega

theorem tile_ok {f : Frame} {sb128 : Bool} (hG : G.Ok f sb128) (hw : f.bw % 2 = 0) (hh : f.bh % 2 = 0) {t : Nat × Nat} : TileOk f sb128 (G.tile f sb128 t) := by
  unfold Grid.tile
  refine ⟨Nat.mul_mod_left _ _, Nat.mul_mod_left _ _, ?_, ?_, hw, hh⟩ <;> dsimp only
  · rcases Nat.le_total (G.cs (t.2 + 1) * sbStep sb128) f.bw with e | e
    · rw [Nat.min_eq_left e]; exact .inr ⟨Nat.mul_mod_left _ _, e⟩
    · rw [Nat.min_eq_right e]; exact .inl rfl
  · rcases Nat.le_total (G.rs (t.1 + 1) * sbStep sb128) f.bh with e | e
    · rw [Nat.min_eq_left e]; exact .inr ⟨Nat.mul_mod_left _ _, e⟩
    · rw [Nat.min_eq_right e]; exact .inl rfl

theorem FrameOk.tileAt (h : FrameOk C G order) {a b : Nat} (ha : a < C.f.bw) (hb : b < C.f.bh) : ∃ t : Nat × Nat, t.1 < G.rows ∧ t.2 < G.cols ∧ (G.tile C.f C.sb128 t).has a b := by
  obtain ⟨k, k1, k2, k3⟩ := part_of (step_pos C.sb128) h.grid.c0 (Nat.lt_of_lt_of_le ha h.grid.c3)
  obtain ⟨r, r1, r2, r3⟩ := part_of (step_pos C.sb128) h.grid.r0 (Nat.lt_of_lt_of_le hb h.grid.r3)
  exact ⟨(r, k), r1, k1, tile_has.2 ⟨⟨k2, k3, ha⟩, r2, r3, hb⟩⟩

theorem FrameOk.tile_unique (h : FrameOk C G order) {t t' : Nat × Nat} (h1 : t.1 < G.rows) (h2 : t.2 < G.cols) (h1' : t'.1 < G.rows) (h2' : t'.2 < G.cols)
    {a b : Nat} (e : (G.tile C.f C.sb128 t).has a b) (e' : (G.tile C.f C.sb128 t').has a b) : t = t' := by
  obtain ⟨⟨a1, a2, -⟩, b1, b2, -⟩ := tile_has.1 e
  obtain ⟨⟨c1, c2, -⟩, d1, d2, -⟩ := tile_has.1 e'
  exact Prod.ext (part_unique h.grid.r1 h1 h1' b1 b2 d1 d2) (part_unique h.grid.c1 h2 h2' a1 a2 c1 c2)

theorem FrameOk.cfg (h : FrameOk C G order) {e : (Nat × Nat) × Call} (he : e ∈ order) : TileCfg C (G.tile C.f C.sb128 e.1) (callsOf order e.1) ∧ e.2 ∈ callsOf order e.1 :=
  ⟨h.tiles _ (h.mem e he).1 (h.mem e he).2, mem_callsOf.2 he⟩

theorem FrameOk.blk (h : FrameOk C G order) {e : (Nat × Nat) × Call} (he : e ∈ order) : BlkOk C e.2 :=
  (h.cfg he).1.blk (h.cfg he).2

theorem FrameOk.ss (h : FrameOk C G order) : (C.comp.plane.ssH = 0 ∨ C.comp.plane.ssH = 1) ∧ (C.comp.plane.ssV = 0 ∨ C.comp.plane.ssV = 1) := by
  have := h.ssH; have := h.ssV; omega

theorem FrameOk.unique (h : FrameOk C G order) {e e' : (Nat × Nat) × Call} (he : e ∈ order) (he' : e' ∈ order) {X Y : Nat} (h1 : C.Has e.2 X Y) (h2 : C.Has e'.2 X Y) : e = e' := by
  have t1 := (h.cfg he).1.inTile (h.cfg he).2 h1
  have t2 := (h.cfg he').1.inTile (h.cfg he').2 h2
  have et := h.tile_unique (h.mem e he).1 (h.mem e he).2 (h.mem e' he').1 (h.mem e' he').2 t1 t2
  refine Prod.ext et ?_
  exact (h.cfg he).1.unique (h.cfg he).2 (by rw [et]; exact (h.cfg he').2) h1 h2

/-- The block of every unit on the screen. -/
def Owns (C : Cfg) (order : List ((Nat × Nat) × Call)) (own : Nat → Nat → (Nat × Nat) × Call) : Prop :=
  ∀ X Y, X < C.cols → Y < C.rows → own X Y ∈ order ∧ C.Has (own X Y).2 X Y

theorem FrameOk.onscreen (h : FrameOk C G order) {X Y : Nat} : (X < C.cols → C.u X < C.f.bw) ∧ (Y < C.rows → C.v Y < C.f.bh) := by
  obtain ⟨e1, e2⟩ := h.ss
  have := h.w4
  have := h.h4
  have := h.bw
  have := h.bh
  unfold Cfg.cols Cfg.rows Cfg.u Cfg.v Av1.cols Av1.rows Plane.lastX Plane.lastY
  constructor
  · rcases e1 with e1 | e1 <;> rw [e1] <;> simp only [Nat.pow_zero, Nat.pow_one, Nat.mul_one, Nat.div_one] <;> omega
  · rcases e2 with e1 | e1 <;> rw [e1] <;> simp only [Nat.pow_zero, Nat.pow_one, Nat.mul_one, Nat.div_one] <;> omega

theorem FrameOk.owns (h : FrameOk C G order) : ∃ own, Owns C order own := by
  have : ∀ X Y, ∃ e : (Nat × Nat) × Call, X < C.cols → Y < C.rows → e ∈ order ∧ C.Has e.2 X Y := by
    intro X Y
    by_cases hX : X < C.cols
    · by_cases hY : Y < C.rows
      · obtain ⟨t, t1, t2, t3⟩ := h.tileAt ((h.onscreen (X := X) (Y := Y)).1 hX) ((h.onscreen (X := X) (Y := Y)).2 hY)
        obtain ⟨c, c1, c2⟩ := (h.tiles t t1 t2).owner hX hY t3
        exact ⟨(t, c), fun _ _ => ⟨mem_callsOf.1 c1, c2⟩⟩
      · exact ⟨((0, 0), ⟨0, 0, 0, 0, 0, 0⟩), fun _ hh => absurd hh hY⟩
    · exact ⟨((0, 0), ⟨0, 0, 0, 0, 0, 0⟩), fun hh => absurd hh hX⟩
  exact ⟨fun X Y => Classical.choose (this X Y), fun X Y => Classical.choose_spec (this X Y)⟩

/-! ## Sizes and edges -/

section
variable {own : Nat → Nat → (Nat × Nat) × Call}

/-- The size of the transform at a unit, across the edges of a direction. -/
def size (C : Cfg) (own : Nat → Nat → (Nat × Nat) × Call) (d X Y : Nat) : Nat :=
  if d = 0 then C.W (own X Y).2 (Y - C.py (own X Y).2) (X - C.px (own X Y).2) else C.H (own X Y).2 (Y - C.py (own X Y).2) (X - C.px (own X Y).2)

/-- How far the unit is in the block. -/
def off (C : Cfg) (own : Nat → Nat → (Nat × Nat) × Call) (d X Y : Nat) : Nat :=
  if d = 0 then X - C.px (own X Y).2 else Y - C.py (own X Y).2

/-- The size before the edge. -/
def prevSize (C : Cfg) (own : Nat → Nat → (Nat × Nat) × Call) (d X Y : Nat) : Nat :=
  if d = 0 then size C own 0 (X - 1) Y else size C own 1 X (Y - 1)

/-- The edge is filtered. -/
def IsEdge (C : Cfg) (own : Nat → Nat → (Nat × Nat) × Call) (d X Y : Nat) : Prop :=
  off C own d X Y = 0 ∨ ((C.info (own X Y).2).inner ∧ off C own d X Y % size C own d X Y = 0)

/-- The unit is at the begin of its tile. -/
def Start (C : Cfg) (G : Grid) (own : Nat → Nat → (Nat × Nat) × Call) (d X Y : Nat) : Prop :=
  if d = 0 then X = C.tx0 (G.tile C.f C.sb128 (own X Y).1) else Y = C.ty0 (G.tile C.f C.sb128 (own X Y).1)

/-- The size of the filter: at the begin of a tile, as long as it was not corrected (`U`), the other size is not taken into account. -/
def Sz (C : Cfg) (G : Grid) (own : Nat → Nat → (Nat × Nat) × Call) (U : Nat → Nat → Nat → Prop) (d X Y s : Nat) : Prop :=
  (Start C G own d X Y ∧ ¬ U d X Y ∧ s = cls C.comp (size C own d X Y)) ∨
  (¬ (Start C G own d X Y ∧ ¬ U d X Y) ∧ s = min (cls C.comp (size C own d X Y)) (cls C.comp (prevSize C own d X Y)))

/-- The bits. -/
def PU (C : Cfg) (G : Grid) (own : Nat → Nat → (Nat × Nat) × Call) (U : Nat → Nat → Nat → Prop) (d X Y s : Nat) : Prop :=
  d < 2 ∧ X < C.cols ∧ Y < C.rows ∧ IsEdge C own d X Y ∧ Sz C G own U d X Y s

theorem reset_eq (C : Cfg) : C.reset = C.comp.sizes - 1 := by
  unfold Cfg.reset
  cases C.comp <;> rfl

theorem min_reset (C : Cfg) (n : Nat) : min (cls C.comp n) C.reset = cls C.comp n := by
  have := cls_lt C.comp n
  rw [reset_eq]; omega

theorem own_eq (h : FrameOk C G order) (ho : Owns C order own) {e : (Nat × Nat) × Call} (he : e ∈ order) {X Y : Nat} (hh : C.Has e.2 X Y) : own X Y = e := by
  obtain ⟨s1, s2, -⟩ := (has_iff (h.blk he) _ _).1 hh
  exact h.unique (ho X Y s1 s2).1 he (ho X Y s1 s2).2 hh

/-- The bits of a block, with the contexts it sees. -/
theorem blk_pu (h : FrameOk C G order) (ho : Owns C order own) {o1 o2 : List ((Nat × Nat) × Call)} {e : (Nat × Nat) × Call} (hs : order = o1 ++ e :: o2)
    {d X Y s : Nat} (hh : C.Has e.2 X Y) :
    C.Blk (C.enter (C.after (callsOf o1 e.1)) e.2) e.2 d X Y s ↔ PU C G own (fun _ _ _ => False) d X Y s := by
  have he : e ∈ order := by rw [hs]; simp
  obtain ⟨s1, s2, -⟩ := (has_iff (h.blk he) _ _).1 hh
  have oe := own_eq h ho he hh
  have hcs : callsOf order e.1 = callsOf o1 e.1 ++ e.2 :: callsOf o2 e.1 := by
    rw [hs, callsOf_append, callsOf_cons, if_pos rfl]
  have hT := (h.cfg he).1
  have ht := hT.inTile (h.cfg he).2 hh
  have gx := (hT.x0.1 _).1 ht.1
  have gy := (hT.x0.2 _).1 ht.2.2.1
  have hst := hT.laid.start e.2 (h.cfg he).2
  have gpx : C.tx0 (G.tile C.f C.sb128 e.1) ≤ C.px e.2 := by
    unfold Cfg.tx0 Cfg.px Plane.x; exact Nat.div_le_div_right hst.1
  have gpy : C.ty0 (G.tile C.f C.sb128 e.1) ≤ C.py e.2 := by
    unfold Cfg.ty0 Cfg.py Plane.y; exact Nat.div_le_div_right hst.2.2.1
  obtain ⟨k0, k1, k2, k3, k4⟩ := hh
  have hh : C.Has e.2 X Y := ⟨k0, k1, k2, k3, k4⟩
  have mem1 : ∀ c ∈ callsOf o1 e.1, (e.1, c) ∈ order := fun c hc => by
    rw [hs]; exact List.mem_append_left _ (mem_callsOf.1 hc)
  unfold Cfg.Blk PU
  constructor
  · rintro ⟨-, hx⟩
    rcases hx with ⟨rfl, hx⟩ | ⟨rfl, hx⟩
    · refine ⟨by decide, s1, s2, ?_, ?_⟩
      · unfold IsEdge off
        rw [if_pos rfl, oe]
        rcases hx with ⟨h1, -⟩ | ⟨h1, h2, h3, -⟩
        · exact .inl h1
        · refine .inr ⟨h2, ?_⟩
          unfold size; rw [if_pos rfl, oe]; exact h3
      · unfold Sz Start
        simp only [if_true]
        rw [oe]
        rcases hx with ⟨h1, h2⟩ | ⟨h1, h2, h3, h4⟩
        · have hpx : X = C.px e.2 := by omega
          subst hpx
          have hl := left_ctx hT hcs hh
          have hsz : size C own 0 (C.px e.2) Y = C.W e.2 (Y - C.py e.2) 0 := by unfold size; rw [if_pos rfl, oe, Nat.sub_self]
          by_cases hst : C.px e.2 = C.tx0 (G.tile C.f C.sb128 e.1)
          · left
            refine ⟨hst, fun hf => hf, ?_⟩
            rw [h2, hl.1 hst, min_reset, hsz]
          · right
            refine ⟨fun hf => hst hf.1, ?_⟩
            obtain ⟨-, c, c1, c2, c3⟩ := hl.2 hst
            rw [h2, c3, hsz]
            unfold prevSize size
            rw [if_pos rfl, if_pos rfl, own_eq h ho (mem1 c c1) c2]
        · right
          have hp : C.Has e.2 (X - 1) Y := ⟨k0, by omega, by omega, k3, k4⟩
          refine ⟨fun hf => ?_, ?_⟩
          · have := hf.1; omega
          · rw [h4]
            unfold prevSize size
            rw [if_pos rfl, if_pos rfl, if_pos rfl, oe, own_eq h ho he hp, show X - C.px e.2 - 1 = X - 1 - C.px e.2 by omega]
    · refine ⟨by decide, s1, s2, ?_, ?_⟩
      · unfold IsEdge off
        rw [if_neg (by decide), oe]
        rcases hx with ⟨h1, -⟩ | ⟨h1, h2, h3, -⟩
        · exact .inl h1
        · refine .inr ⟨h2, ?_⟩
          unfold size; rw [if_neg (by decide), oe]; exact h3
      · unfold Sz Start
        simp only [if_neg (show ¬ (1 : Nat) = 0 by decide)]
        rw [oe]
        rcases hx with ⟨h1, h2⟩ | ⟨h1, h2, h3, h4⟩
        · have hpx : Y = C.py e.2 := by omega
          subst hpx
          have hl := above_ctx hT hcs hh
          have ha : (C.enter (C.after (callsOf o1 e.1)) e.2).a X = (C.after (callsOf o1 e.1)).a X := by unfold Cfg.enter; split <;> rfl
          have hsz : size C own 1 X (C.py e.2) = C.H e.2 0 (X - C.px e.2) := by unfold size; rw [if_neg (by decide), oe, Nat.sub_self]
          rw [ha] at h2
          by_cases hst : C.py e.2 = C.ty0 (G.tile C.f C.sb128 e.1)
          · left
            refine ⟨hst, fun hf => hf, ?_⟩
            rw [h2, hl.1 hst, min_reset, hsz]
          · right
            refine ⟨fun hf => hst hf.1, ?_⟩
            obtain ⟨-, c, c1, c2, c3⟩ := hl.2 hst
            rw [h2, c3, hsz]
            unfold prevSize size
            rw [if_neg (by decide), if_neg (by decide), own_eq h ho (mem1 c c1) c2]
        · right
          have hp : C.Has e.2 X (Y - 1) := ⟨k0, k1, k2, by omega, by omega⟩
          refine ⟨fun hf => ?_, ?_⟩
          · have := hf.1; omega
          · rw [h4]
            unfold prevSize size
            rw [if_neg (by decide), if_neg (by decide), if_neg (by decide), oe, own_eq h ho he hp, show Y - C.py e.2 - 1 = Y - 1 - C.py e.2 by omega]
  · rintro ⟨hd, -, -, he', hz⟩
    refine ⟨hh, ?_⟩
    unfold Sz Start at hz
    have hd2 : d = 0 ∨ d = 1 := by omega
    rcases hd2 with rfl | rfl
    · refine .inl ⟨rfl, ?_⟩
      simp only [if_true] at hz
      unfold IsEdge off at he'
      rw [if_pos rfl] at he'
      rw [oe] at hz he'
      unfold Edge
      by_cases hx : X - C.px e.2 = 0
      · left
        refine ⟨hx, ?_⟩
        have hpx : X = C.px e.2 := by omega
        subst hpx
        have hl := left_ctx hT hcs hh
        have hsz : size C own 0 (C.px e.2) Y = C.W e.2 (Y - C.py e.2) 0 := by unfold size; rw [if_pos rfl, oe, Nat.sub_self]
        rcases hz with ⟨z1, -, z2⟩ | ⟨z1, z2⟩
        · rw [hl.1 z1, min_reset, z2, hsz]
        · obtain ⟨-, c, c1, c2, c3⟩ := hl.2 (fun hf => z1 ⟨hf, fun hf => hf⟩)
          rw [c3, z2, hsz]
          unfold prevSize size
          rw [if_pos rfl, if_pos rfl, own_eq h ho (mem1 c c1) c2]
      · right
        have hp : C.Has e.2 (X - 1) Y := ⟨k0, by omega, by omega, k3, k4⟩
        rcases he' with he' | ⟨i1, i2⟩
        · exact absurd he' hx
        · refine ⟨by omega, i1, ?_, ?_⟩
          · unfold size at i2; rw [if_pos rfl, oe] at i2; exact i2
          · rcases hz with ⟨z1, -⟩ | ⟨z1, z2⟩
            · omega
            · rw [z2]
              unfold prevSize size
              rw [if_pos rfl, if_pos rfl, if_pos rfl, oe, own_eq h ho he hp, show X - C.px e.2 - 1 = X - 1 - C.px e.2 by omega]
    · refine .inr ⟨rfl, ?_⟩
      simp only [if_neg (show ¬ (1 : Nat) = 0 by decide)] at hz
      unfold IsEdge off at he'
      rw [if_neg (by decide)] at he'
      rw [oe] at hz he'
      have ha : (C.enter (C.after (callsOf o1 e.1)) e.2).a X = (C.after (callsOf o1 e.1)).a X := by unfold Cfg.enter; split <;> rfl
      rw [ha]
      unfold Edge
      by_cases hx : Y - C.py e.2 = 0
      · left
        refine ⟨hx, ?_⟩
        have hpx : Y = C.py e.2 := by omega
        subst hpx
        have hl := above_ctx hT hcs hh
        have hsz : size C own 1 X (C.py e.2) = C.H e.2 0 (X - C.px e.2) := by unfold size; rw [if_neg (by decide), oe, Nat.sub_self]
        rcases hz with ⟨z1, -, z2⟩ | ⟨z1, z2⟩
        · rw [hl.1 z1, min_reset, z2, hsz]
        · obtain ⟨-, c, c1, c2, c3⟩ := hl.2 (fun hf => z1 ⟨hf, fun hf => hf⟩)
          rw [c3, z2, hsz]
          unfold prevSize size
          rw [if_neg (by decide), if_neg (by decide), own_eq h ho (mem1 c c1) c2]
      · right
        have hp : C.Has e.2 X (Y - 1) := ⟨k0, k1, k2, by omega, by omega⟩
        rcases he' with he' | ⟨i1, i2⟩
        · exact absurd he' hx
        · refine ⟨by omega, i1, ?_, ?_⟩
          · unfold size at i2; rw [if_neg (by decide), oe] at i2; exact i2
          · rcases hz with ⟨z1, -⟩ | ⟨z1, z2⟩
            · omega
            · rw [z2]
              unfold prevSize size
              rw [if_neg (by decide), if_neg (by decide), if_neg (by decide), oe, own_eq h ho he hp, show Y - C.py e.2 - 1 = Y - 1 - C.py e.2 by omega]

/-! ## After all blocks -/

theorem run_snoc (C : Cfg) (lvl : Nat → Nat → Nat → Nat) (o : List ((Nat × Nat) × Call)) (e : (Nat × Nat) × Call) : C.run lvl (o ++ [e]) = C.step (C.run lvl o) e := by
  unfold Cfg.run; rw [List.foldl_append]; rfl

theorem run_loc (C : Cfg) (lvl : Nat → Nat → Nat → Nat) (o : List ((Nat × Nat) × Call)) (t : Nat × Nat) : (C.run lvl o).loc t = C.after (callsOf o t) := by
  induction o using snoc_ind with
  | nil => rfl
  | snoc o e ih =>
    rw [run_snoc, callsOf_append, callsOf_cons]
    unfold Cfg.step
    dsimp only
    by_cases h : t = e.1
    · rw [if_pos h, if_pos h.symm, ih]
      show _ = C.after (callsOf o t ++ [e.2])
      rw [after_snoc]
    · rw [if_neg h, if_neg (fun hh => h hh.symm), ih]
      show _ = C.after (callsOf o t ++ [])
      rw [List.append_nil]

/-- The bits after some blocks. -/
theorem run_rep (lvl : Nat → Nat → Nat → Nat) (o : List ((Nat × Nat) × Call)) : (∀ e ∈ o, BlkOk C e.2) →
    FRep C (C.run lvl o).sh.m (fun d X Y s => ∃ o1 e o2, o = o1 ++ e :: o2 ∧ C.Blk (C.enter (C.after (callsOf o1 e.1)) e.2) e.2 d X Y s) := by
  induction o using snoc_ind with
  | nil =>
    intro _ r k
    refine (rep_zero C.nn).congr fun d l s pos _ => ?_
    constructor
    · intro hf; exact hf.elim
    · rintro (⟨-, -, o1, e, o2, hh, -⟩ | ⟨-, -, o1, e, o2, hh, -⟩) <;> cases o1 <;> cases hh
  | snoc o e ih =>
    intro hb
    rw [run_snoc]
    refine (shared_rep (hb e (by simp)) ((C.run lvl o).loc e.1) (ih fun e' he' => hb e' (by simp [he']))).congr fun d X Y s _ => ?_
    rw [run_loc]
    constructor
    · rintro (⟨o1, e', o2, h1, h2⟩ | h2)
      · exact ⟨o1, e', o2 ++ [e], by rw [h1]; simp, h2⟩
      · exact ⟨o, e, [], rfl, h2⟩
    · rintro ⟨o1, e', o2, h1, h2⟩
      rcases List.eq_nil_or_concat o2 with rfl | ⟨o2', z, rfl⟩
      · obtain ⟨g1, g2⟩ := List.append_inj' h1 rfl
        cases g2; subst g1
        exact .inr h2
      · rw [List.concat_eq_append, ← List.cons_append, ← List.append_assoc] at h1
        obtain ⟨g1, g2⟩ := List.append_inj' h1 rfl
        exact .inl ⟨o1, e', o2', g1, h2⟩

/-- The bits after all blocks. -/
theorem frame_rep (h : FrameOk C G order) (ho : Owns C order own) (lvl : Nat → Nat → Nat → Nat) :
    FRep C (C.run lvl order).sh.m (PU C G own fun _ _ _ => False) := by
  refine (run_rep lvl order fun e he => h.blk he).congr fun d X Y s _ => ?_
  constructor
  · rintro ⟨o1, e, o2, h1, h2⟩
    exact (blk_pu h ho h1 h2.1).1 h2
  · intro hp
    obtain ⟨e1, e2⟩ := ho X Y hp.2.1 hp.2.2.1
    obtain ⟨o1, o2, h1⟩ := List.append_of_mem e1
    exact ⟨o1, _, o2, h1, (blk_pu h ho h1 e2).2 hp⟩

/-- The levels after all blocks. -/
theorem frame_lvl (h : FrameOk C G order) (ho : Owns C order own) (lvl : Nat → Nat → Nat → Nat) {k : Nat} (hk : C.comp.lvlOk k) {X Y : Nat} (hX : X < C.cols) (hY : Y < C.rows) :
    (C.run lvl order).sh.lvl X Y k = (C.info (own X Y).2).lvl k := by
  obtain ⟨e1, e2⟩ := ho X Y hX hY
  have key : ∀ o : List ((Nat × Nat) × Call), (∀ e ∈ o, e ∈ order) → own X Y ∈ o → (C.run lvl o).sh.lvl X Y k = (C.info (own X Y).2).lvl k := by
    intro o
    induction o using snoc_ind with
    | nil => intro _ hh; cases hh
    | snoc o e ih =>
      intro hm hh
      rw [run_snoc]
      have he := hm e (by simp)
      obtain ⟨g1, g2⟩ := shared_lvl (h.blk he) ((C.run lvl o).loc e.1) (C.run lvl o).sh hk X Y
      by_cases hhas : C.Has e.2 X Y
      · rw [own_eq h ho he hhas]; exact g1 hhas
      · refine (g2 hhas).trans (ih (fun e' he' => hm e' (by simp [he'])) ?_)
        rcases List.mem_append.1 hh with hh | hh
        · exact hh
        · rw [List.mem_singleton] at hh; rw [← hh] at hhas; exact absurd e2 hhas
  exact key order (fun _ hh => hh) e1

end
end Dav1d.Part.Lpf
