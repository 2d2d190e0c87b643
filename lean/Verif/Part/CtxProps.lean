import Verif.Part.CtxRef
import Verif.Part.CtxLemmas
/-!
# Contexts of blocks: the properties
-/
set_option linter.unusedVariables false
set_option linter.unusedSimpArgs false
namespace Dav1d.Part.Ctx

/-- Block `c` comes in the decoding of tile `T` after the events `before`, whatever the data are. -/
def Run (f : Frame) (sb128 : Bool) (T : Tile) (before after : List Ev) (c : Call) : Prop :=
  f.pass ≠ 2 ∧ TileOk f sb128 T ∧ ∃ (σ : Type) (S : Src σ) (s : σ) (st : St σ), (∀ s bl ctx, (S.part s bl ctx).1 ≤ typeCount bl) ∧
    decodeTile S f sb128 T.x0 T.x1 T.y0 T.y1 s = .ok st ∧ st.log = before ++ .call c :: after

/-- `t->a` and `t->l` when decode_b is called for `c`; `info` is what decode_b found out about the blocks before. -/
def ctxsAt (inter sb128 : Bool) (info : Call → Blk) (old : Ctxs Edge) (before : List Ev) (c : Call) : Ctxs Edge :=
  (Ctxs.after (sbStep sb128) (Edge.reset (!inter)) (fun d => (info d).set inter d.bs) old (blocks before)).enter (sbStep sb128) (Edge.reset (!inter)) c

/-- The same in pass 2. -/
def ctxsAt2 (inter sb128 : Bool) (info : Call → Blk) (old : Ctxs Edge) (before : List Ev) (c : Call) : Ctxs Edge :=
  (Ctxs.after (sbStep sb128) (Edge.reset2 (!inter)) (fun d _ => (info d).set2) old (blocks before)).enter (sbStep sb128) (Edge.reset2 (!inter)) c

variable {f : Frame} {sb128 : Bool} {T : Tile} {before after : List Ev} {c : Call}

theorem Run.facts (h : Run f sb128 T before after c) : AllOk f T (before ++ .call c :: after) ∧
    ∃ r, RowsFrom (sbStep sb128) r (blocks (before ++ .call c :: after)) := by
  obtain ⟨hp, hT, σ, S, s, st, hS, h1, h2⟩ := h
  rcases decodeTile_ok S hS hp hT s with h3 | ⟨st', h3, h4, h5⟩
  · rw [h1] at h3; cases h3
  · rw [h1] at h3; cases h3
    obtain ⟨new, e1, e2⟩ := tile_news S hS hp sb128 T.x0 T.x1 hT.x0 _ _ _ _ hT.y0 h1
    have : new = st.log := by rw [e1]; rfl
    rw [this, h2] at e2
    rw [h2] at h5
    exact ⟨h5, _, e2⟩

theorem step_cases (sb128 : Bool) : sbStep sb128 = 16 ∨ sbStep sb128 = 32 := by cases sb128 <;> simp [sbStep]

theorem Run.placed (h : Run f sb128 T before after c) : c.bs < 22 ∧ c.x % bsW c.bs = 0 ∧ c.y % bsH c.bs = 0 := by
  obtain ⟨-, r, -, h2⟩ := h.facts
  have := (h2 c (by rw [blocks_append]; exact List.mem_append_right _ List.mem_cons_self)).2
  exact ⟨this.bs, this.ax, this.ay⟩

theorem Run.start (h : Run f sb128 T before after c) : T.has c.x c.y := (h.facts.1.call rfl).start

theorem Run.inX (h : Run f sb128 T before after c) : c.inX c.x ∧ c.x < T.x1 := by
  have := (h.facts.1.call rfl).pos
  have h2 := h.start
  exact ⟨⟨Nat.le_refl _, by omega⟩, h2.2.1⟩

theorem Run.inY (h : Run f sb128 T before after c) : c.inY c.y ∧ c.y < T.y1 := by
  have := (h.facts.1.call rfl).pos
  have h2 := h.start
  exact ⟨⟨Nat.le_refl _, by omega⟩, h2.2.2.2⟩

theorem Run.above_some (h : Run f sb128 T before after c) : (nbAbove T before c).isSome = decide (T.y0 < c.y) := by
  unfold nbAbove
  by_cases hy : T.y0 < c.y
  · obtain ⟨c0, _, _, hc, _⟩ := last_above h.facts.1 rfl h.inX.1 h.inX.2 hy
    rw [if_pos hy, hc]; simp [hy]
  · rw [if_neg hy]; simp [hy]

theorem Run.left_some (h : Run f sb128 T before after c) : (nbLeft T before c).isSome = decide (T.x0 < c.x) := by
  unfold nbLeft
  by_cases hx : T.x0 < c.x
  · obtain ⟨c0, _, _, hc, _⟩ := last_left h.facts.1 rfl h.inY.1 h.inY.2 hx
    rw [if_pos hx, hc]; simp [hx]
  · rw [if_neg hx]; simp [hx]

/-! ## Entries -/

/-- What matters of an entry. -/
def Edge.mask (inter : Bool) (e : Edge) : Edge :=
  if inter then e else { e with refs := ⟨e.refs.intra, 0, 0, 0⟩, filter0 := 0, filter1 := 0 }

theorem mask_reset (inter : Bool) (e e' : Edge) : (Edge.reset (!inter) e).mask inter = (Edge.reset (!inter) e').mask inter := by
  cases inter <;> rfl

theorem mask_set {inter : Bool} {b : Blk} (hb : b.Valid inter) (bs i : Nat) (e e' : Edge) :
    (b.set inter bs i e).mask inter = (b.set inter bs i e').mask inter := by
  obtain ⟨sk, sp, k⟩ := b
  cases k with
  | intra m p lw lh => cases inter <;> rfl
  | copy => cases hb; rfl
  | inter sm comp r0 r1 f0 f1 md ii => cases inter <;> rfl

def Edge.zero : Edge := ⟨0, 0, 0, 0, ⟨0, 0, 0, 0⟩, 0, 0, 0, 0⟩

theorem shows_mask {inter : Bool} {i : Nat} {o : Option (Blk × Nat)} {e e' : Edge} (h : e.mask inter = e'.mask inter) (hs : Av1.Shows inter i o e') :
    Av1.Shows inter i o e := by
  obtain ⟨a1, a2, a3, a4, ⟨a5, a6, a7, a8⟩, a9, a10, a11, a12⟩ := e
  obtain ⟨b1, b2, b3, b4, ⟨b5, b6, b7, b8⟩, b9, b10, b11, b12⟩ := e'
  cases inter
  · simp only [Edge.mask, Bool.false_eq_true, if_false, Edge.mk.injEq, Refs.mk.injEq] at h
    obtain ⟨rfl, rfl, rfl, rfl, ⟨rfl, -⟩, -, -, rfl, rfl⟩ := h
    exact ⟨hs.skip, hs.segPred, hs.skipMode, hs.palSz, hs.mode, hs.intra, hs.tx, nofun, nofun, nofun, nofun, nofun⟩
  · simp only [Edge.mask, if_true] at h
    rw [h]; exact hs

theorem shows_reset (inter : Bool) (i : Nat) (e : Edge) : Av1.Shows inter i none (Edge.reset (!inter) e) := by
  cases inter <;> constructor <;> first | rfl | (intro _; rfl) | (intro hh; cases hh)

theorem shows_set {inter : Bool} {b : Blk} (hb : b.Valid inter) (bs i : Nat) (e : Edge) : Av1.Shows inter i (some (b, bs)) (b.set inter bs i e) := by
  obtain ⟨sk, sp, k⟩ := b
  cases k with
  | intra m p lw lh =>
    cases inter <;> constructor <;> first | rfl | (intro _; rfl) | (intro hh; cases hh; done) | skip
    all_goals (simp only [Blk.set, Option.elim, Av1.txOf]; split <;> rfl)
  | copy => cases hb; constructor <;> first | rfl | (intro hh; cases hh)
  | inter sm comp r0 r1 f0 f1 md ii =>
    obtain ⟨rfl, h1, -, h2, h3, h4⟩ := hb
    constructor <;> first | rfl | (intro _; rfl) | skip
    · intro _
      simp only [Blk.set, Option.elim, Av1.refFrame0]; omega
    · intro _
      simp only [Blk.set, Option.elim, Av1.refFrame1]
      by_cases h0 : comp = 0
      · rw [if_pos h0] at h4
        rw [if_neg (by simpa using h0)]
        cases ii <;> simp <;> omega
      · rw [if_neg h0] at h4
        rw [if_pos h0]; omega

/-- The block and its size. -/
def withSize (info : Call → Blk) (o : Option Call) : Option (Blk × Nat) := o.map fun d => (info d, d.bs)

section
variable (h : Run f sb128 T before after c) {inter : Bool} {info : Call → Blk} (hv : ∀ d, (info d).Valid inter) (old : Ctxs Edge)
include h hv

/-- **C73.** Before a block is decoded, the entries of `t->a` for all its columns in the tile hold what was decoded for the
block right above, or the values for no block at the top of the tile, whatever was in the arrays before. -/
theorem C73_above {X : Nat} (hx : c.x ≤ X ∧ X < c.x + bsW c.bs) (hX : X < T.x1) :
    Av1.Shows inter 0 (withSize info (if T.y0 < c.y then coverOf before X (c.y - 1) else none)) ((ctxsAt inter sb128 info old before c).a X) := by
  have key := above_entry h.facts.1 rfl (X := X) hx hX (sbStep sb128) (Edge.reset (!inter)) (fun d => (info d).set inter d.bs) old (Edge.mask inter)
    ((Edge.reset (!inter) Edge.zero).mask inter) (fun d i => ((info d).set inter d.bs i Edge.zero).mask inter) (fun e => mask_reset inter e _)
    (fun d i e => mask_set (hv d) d.bs i e _)
  unfold ctxsAt
  rw [enter_a]
  generalize (if T.y0 < c.y then coverOf before X (c.y - 1) else none) = o at key
  cases o with
  | none => exact shows_mask key (shows_reset inter 0 _)
  | some d => exact shows_mask key (shows_set (hv d) d.bs 0 _)

/-- **C73.** And the entries of `t->l` for all its rows in the tile hold what was decoded for the block right on the left,
or the values for no block at the left side of the tile. -/
theorem C73_left {Y : Nat} (hy : c.y ≤ Y ∧ Y < c.y + bsH c.bs) (hY : Y < T.y1) :
    Av1.Shows inter 1 (withSize info (if T.x0 < c.x then coverOf before (c.x - 1) Y else none)) ((ctxsAt inter sb128 info old before c).l (Y % 32)) := by
  obtain ⟨ok, r, hr⟩ := h.facts
  have key := left_entry ok (step_cases sb128) hr rfl (Y := Y) hy hY (Edge.reset (!inter)) (fun d => (info d).set inter d.bs) old (Edge.mask inter)
    ((Edge.reset (!inter) Edge.zero).mask inter) (fun d i => ((info d).set inter d.bs i Edge.zero).mask inter) (fun e => mask_reset inter e _)
    (fun d i e => mask_set (hv d) d.bs i e _)
  unfold ctxsAt
  generalize (if T.x0 < c.x then coverOf before (c.x - 1) Y else none) = o at key
  cases o with
  | none => exact shows_mask key (shows_reset inter 1 _)
  | some d => exact shows_mask key (shows_set (hv d) d.bs 1 _)

end

/-- **C73.** The updates stay in the arrays of 32 entries. -/
theorem C73_inside (h : Run f sb128 T before after c) : c.x % 32 + bsW c.bs ≤ 32 ∧ c.y % 32 + bsH c.bs ≤ 32 := by
  obtain ⟨h1, h2, h3⟩ := h.placed
  obtain ⟨w1, w2⟩ := bsW_dvd c.bs h1
  obtain ⟨v1, v2⟩ := bsH_dvd c.bs h1
  exact ⟨no_wrap w1 w2 h2, no_wrap v1 v2 h3⟩

/-! ## Contexts -/

theorem shows_refs {i : Nat} {info : Call → Blk} {o : Option Call} {e : Edge} (hv : ∀ d, (info d).Valid true) (hs : Av1.Shows true i (withSize info o) e) :
    e.refs = refsOf (o.map info) := by
  obtain ⟨a1, a2, a3, a4, ⟨a5, a6, a7, a8⟩, a9, a10, a11, a12⟩ := e
  have e1 := hs.intra
  have e2 := hs.comp rfl
  have e3 := hs.ref0 rfl
  have e4 := hs.ref1 rfl
  dsimp only at e1 e2 e3 e4 ⊢
  subst e1 e2 e3 e4
  cases o with
  | none => rfl
  | some d =>
    have := hv d
    simp only [withSize, Option.map_some, Option.elim, refsOf]
    generalize info d = b at *
    obtain ⟨sk, sp, k⟩ := b
    cases k with
    | intra => rfl
    | copy => cases this
    | inter sm comp r0 r1 f0 f1 md ii =>
      obtain ⟨-, h1, -, h2, h3, h4⟩ := this
      simp only [Av1.intraOf, Av1.refFrame0, Av1.refFrame1, Refs.mk.injEq, true_and]
      refine ⟨by omega, ?_⟩
      by_cases h0 : comp = 0
      · rw [if_pos h0] at h4
        rw [if_neg (by simpa using h0)]
        cases ii <;> simp <;> omega
      · rw [if_neg h0] at h4
        rw [if_pos h0]; omega

/-- The entries for the first column and the first row of the block. -/
def Ctxs.at (s : Ctxs Edge) (c : Call) : Edge × Edge := (s.a c.x, s.l (c.y % 32))

section
variable (h : Run f sb128 T before after c) {inter : Bool} {info : Call → Blk} (hv : ∀ d, (info d).Valid inter) (old : Ctxs Edge)
include h hv

theorem shows_nb : Av1.Shows inter 0 (withSize info (nbAbove T before c)) ((ctxsAt inter sb128 info old before c).at c).1 ∧
    Av1.Shows inter 1 (withSize info (nbLeft T before c)) ((ctxsAt inter sb128 info old before c).at c).2 :=
  ⟨C73_above h hv old h.inX.1 h.inX.2, C73_left h hv old h.inY.1 h.inY.2⟩

/-- **C74.** In every frame, skip, skip_mode, seg_id_predicted and has_palette_y are read with the contexts of the AV1
specification from the blocks above and on the left. -/
theorem C74_flags {A L : Option Blk} (hA : A = (nbAbove T before c).map info) (hL : L = (nbLeft T before c).map info)
    {a l : Edge} (he : (a, l) = (ctxsAt inter sb128 info old before c).at c) :
    getSkipCtx a l = Av1.skipCtx A L ∧ getSkipModeCtx a l = Av1.skipModeCtx A L ∧ getSegPredCtx a l = Av1.segIdPredictedCtx A L ∧
    getPalCtx a l = Av1.hasPaletteYCtx A L := by
  obtain ⟨s1, s2⟩ := shows_nb h hv old
  rw [← he] at s1 s2
  dsimp only at s1 s2
  have ks : ∀ b : Blk, (Av1.usesSkipMode b).toNat = Av1.skipModeOf b := by
    intro b; unfold Av1.skipModeOf Av1.usesSkipMode; cases b.kind <;> rfl
  have kp : ∀ b : Blk, (Av1.hasPalette b).toNat = if 0 < Av1.palSzOf b then 1 else 0 := by
    intro b; unfold Av1.palSzOf Av1.hasPalette; cases b.kind <;> first | rfl | skip
    rename_i n _ _; by_cases hn : n > 0 <;> simp [hn]
  subst hA hL
  unfold getSkipCtx getSkipModeCtx getSegPredCtx getPalCtx Av1.skipCtx Av1.skipModeCtx Av1.segIdPredictedCtx Av1.hasPaletteYCtx Av1.sumCtx
  rw [s1.skip, s2.skip, s1.skipMode, s2.skipMode, s1.segPred, s2.segPred, s1.palSz, s2.palSz]
  cases nbAbove T before c <;> cases nbLeft T before c <;> simp [withSize, ks, kp]

omit hv in
theorem nb_bs {d : Call} (hd : nbAbove T before c = some d ∨ nbLeft T before c = some d) : d.bs < 22 := by
  have hc : ∃ X Y, coverOf before X Y = some d := by
    unfold nbAbove nbLeft at hd
    rcases hd with hd | hd <;> split at hd <;> first | exact ⟨_, _, hd⟩ | cases hd
  obtain ⟨X, Y, hc⟩ := hc
  obtain ⟨-, r, -, h2⟩ := h.facts
  refine (h2 d ?_).2.bs
  rw [blocks_append]
  exact List.mem_append_left _ (List.mem_filterMap.2 ⟨_, (cover_some hc).1, rfl⟩)

/-- **C74.** tx_depth, for a block whose largest transform has 4·2^lw x 4·2^lh samples. -/
theorem C74_tx {a l : Edge} (he : (a, l) = (ctxsAt inter sb128 info old before c).at c) (lw lh : Nat) :
    getTxCtx a l lw lh = Av1.txDepthCtx (withSize info (nbAbove T before c)) (withSize info (nbLeft T before c)) (4 * 2 ^ lw) (4 * 2 ^ lh) := by
  obtain ⟨s1, s2⟩ := shows_nb h hv old
  rw [← he] at s1 s2
  dsimp only at s1 s2
  have kw : ∀ b < 22, bsW b = 2 ^ bsLog b 0 := by decide
  have kh : ∀ b < 22, bsH b = 2 ^ bsLog b 1 := by decide
  have hA : ∀ d, nbAbove T before c = some d → d.bs < 22 := fun d hd => nb_bs h (.inl hd)
  have hL : ∀ d, nbLeft T before c = some d → d.bs < 22 := fun d hd => nb_bs h (.inr hd)
  have pw : ∀ m n : Nat, (4 * 2 ^ m ≥ 4 * 2 ^ n) = ((m : Int) ≥ (n : Int)) := by
    intro m n
    have := Nat.pow_le_pow_iff_right (a := 2) (n := n) (m := m) (by decide)
    simp only [ge_iff_le, eq_iff_iff]
    omega
  have w : ∀ o : Option Call, (∀ d, o = some d → d.bs < 22) → ∀ lw : Nat, ((withSize info o).elim (-1) (fun p => (Av1.txOf p.1 p.2 0 : Int)) ≥ (lw : Int)) =
      (Av1.txDepthCtx.aboveW (withSize info o) ≥ 4 * 2 ^ lw) := by
    intro o ho lw
    cases o with
    | none =>
      have := Nat.two_pow_pos lw
      simp only [withSize, Option.map_none, Option.elim, eq_iff_iff, Av1.txDepthCtx.aboveW, Av1.txDepthCtx.leftH]
      omega
    | some d =>
      simp only [withSize, Option.map_some, Option.elim, Av1.txOf, Av1.txDepthCtx.aboveW, Av1.txDepthCtx.leftH]
      rw [kw _ (ho d rfl)]
      cases (info d).kind <;> simp only [pw, if_true]
  have v : ∀ o : Option Call, (∀ d, o = some d → d.bs < 22) → ∀ lh : Nat, ((withSize info o).elim (-1) (fun p => (Av1.txOf p.1 p.2 1 : Int)) ≥ (lh : Int)) =
      (Av1.txDepthCtx.leftH (withSize info o) ≥ 4 * 2 ^ lh) := by
    intro o ho lh
    cases o with
    | none =>
      have := Nat.two_pow_pos lh
      simp only [withSize, Option.map_none, Option.elim, eq_iff_iff, Av1.txDepthCtx.aboveW, Av1.txDepthCtx.leftH]
      omega
    | some d =>
      simp only [withSize, Option.map_some, Option.elim, Av1.txOf, Av1.txDepthCtx.aboveW, Av1.txDepthCtx.leftH]
      rw [kh _ (ho d rfl)]
      cases (info d).kind <;> simp only [pw, if_neg (show ¬ 1 = 0 by decide)]
  unfold getTxCtx Av1.txDepthCtx
  rw [s1.tx, s2.tx]
  simp only [w _ hA, v _ hL]
  omega

/-- **C74.** Whether the edges of luma are filtered as those of smooth blocks. -/
theorem C74_smooth {A L : Option Blk} (hA : A = (nbAbove T before c).map info) (hL : L = (nbLeft T before c).map info)
    {a l : Edge} (he : (a, l) = (ctxsAt inter sb128 info old before c).at c) :
    smFlag a = Av1.isSmooth A ∧ smFlag l = Av1.isSmooth L := by
  obtain ⟨s1, s2⟩ := shows_nb h hv old
  rw [← he] at s1 s2
  dsimp only at s1 s2
  have sm : ∀ b : Blk, (Av1.intraOf b ≠ 0 && (Av1.anyModeOf b = 9 || Av1.anyModeOf b = 10 || Av1.anyModeOf b = 11)) = Av1.isSmooth (some b) := by
    intro b
    obtain ⟨sk, sp, k⟩ := b
    cases k <;> simp [Av1.isSmooth, Av1.intraOf, Av1.anyModeOf, Av1.yMode]
    rename_i m _ _ _
    by_cases h13 : m = 13 <;> simp [h13]
  have key : ∀ (o : Option Call) (i : Nat) (e : Edge), Av1.Shows inter i (withSize info o) e → smFlag e = Av1.isSmooth (o.map info) := by
    intro o i e s
    unfold smFlag
    rw [s.intra, s.mode]
    cases o with
    | none => simp [withSize, Av1.isSmooth]
    | some d =>
      exact sm (info d)
  subst hA hL
  exact ⟨key _ _ _ s1, key _ _ _ s2⟩

/-- **C74.** The same in the second pass, with the entries of that pass. -/
theorem C74_smooth2 {A L : Option Blk} (hA : A = (nbAbove T before c).map info) (hL : L = (nbLeft T before c).map info)
    {a l : Edge} (he : (a, l) = (ctxsAt2 inter sb128 info old before c).at c) :
    smFlag a = Av1.isSmooth A ∧ smFlag l = Av1.isSmooth L := by
  obtain ⟨ok, r, hr⟩ := h.facts
  have r0 : ∀ e, smFlag (Edge.reset2 (!inter) e) = false := by intro e; cases inter <;> simp [smFlag, Edge.reset2]
  have g0 : ∀ (d : Call) (i : Nat) (e : Edge), smFlag ((fun d (_ : Nat) => (info d).set2) d i e) = Av1.isSmooth (some (info d)) := by
    intro d i e
    dsimp only
    unfold Av1.isSmooth smFlag Blk.set2
    dsimp only
    cases (info d).kind <;> simp
    rename_i m _ _ _
    by_cases h13 : m = 13 <;> simp [h13]
  have k1 := above_entry ok rfl h.inX.1 h.inX.2 (sbStep sb128) (Edge.reset2 (!inter)) (fun d _ => (info d).set2) old smFlag false
    (fun d i => Av1.isSmooth (some (info d))) r0 g0
  have k2 := left_entry ok (step_cases sb128) hr rfl h.inY.1 h.inY.2 (Edge.reset2 (!inter)) (fun d _ => (info d).set2) old smFlag false
    (fun d i => Av1.isSmooth (some (info d))) r0 g0
  have e1 : a = (ctxsAt2 inter sb128 info old before c).a c.x := congrArg Prod.fst he
  have e2 : l = (ctxsAt2 inter sb128 info old before c).l (c.y % 32) := congrArg Prod.snd he
  unfold ctxsAt2 at e1 e2
  rw [enter_a] at e1
  rw [← e1] at k1
  rw [← e2] at k2
  subst hA hL
  rw [k1, k2]
  unfold nbAbove nbLeft
  constructor
  · generalize (if T.y0 < c.y then coverOf before c.x (c.y - 1) else none) = o; cases o <;> rfl
  · generalize (if T.x0 < c.x then coverOf before (c.x - 1) c.y else none) = o; cases o <;> rfl

end

/-- **C74.** In frames without inter prediction the luma mode is read with the contexts of the modes above and on the
left. -/
theorem C74_mode (h : Run f sb128 T before after c) {info : Call → Blk} (hv : ∀ d, (info d).Valid false) (old : Ctxs Edge)
    {A L : Option Blk} (hA : A = (nbAbove T before c).map info) (hL : L = (nbLeft T before c).map info)
    {a l : Edge} (he : (a, l) = (ctxsAt false sb128 info old before c).at c) :
    getKfModeCtx a l = (Av1.intraModeContext (Av1.modeOf A), Av1.intraModeContext (Av1.modeOf L)) := by
  obtain ⟨s1, s2⟩ := shows_nb h hv old
  rw [← he] at s1 s2
  dsimp only at s1 s2
  have key : ∀ (o : Option Call) (i : Nat) (e : Edge), Av1.Shows false i (withSize info o) e →
      [0, 1, 2, 3, 4, 4, 4, 4, 3, 0, 1, 2, 0].getD e.mode 0 = Av1.intraModeContext (Av1.modeOf (o.map info)) := by
    intro o i e s
    have t : ∀ m ≤ 12, [0, 1, 2, 3, 4, 4, 4, 4, 3, 0, 1, 2, 0].getD m 0 = Av1.intraModeContext m := by decide
    rw [s.mode]
    cases o with
    | none => rfl
    | some d =>
      have hd := hv d
      simp only [withSize, Option.map_some, Option.elim]
      generalize info d = b at *
      obtain ⟨sk, sp, k⟩ := b
      cases k with
      | intra m p lw lh =>
        dsimp only [Blk.Valid] at hd
        dsimp only [Av1.anyModeOf, Av1.modeOf, Av1.yMode]
        by_cases h13 : m = 13
        · rw [if_pos h13]; rfl
        · rw [if_neg h13]; exact t m (by omega)
      | copy => rfl
      | inter => cases hd.1
  subst hA hL
  unfold getKfModeCtx
  dsimp only
  rw [key _ _ _ s1, key _ _ _ s2]

/-- What the contexts for reference frames should be. -/
structure RefCtxsOk (a l : Refs) (ht hl : Bool) (A L : Av1.Nb) : Prop where
  isInter : getIntraCtx a l ht hl = Av1.isInterCtx A L
  compMode : getCompCtx a l ht hl = Av1.compModeCtx A L
  compRefType : getCompDirCtx a l ht hl = Av1.compRefTypeCtx A L
  p1 : getRefCtx a l ht hl = Av1.singleRefP1 A L
  p2 : getBwdRefCtx a l ht hl = Av1.singleRefP2 A L
  p3 : getFwdRefCtx a l ht hl = Av1.singleRefP3 A L
  p4 : getFwdRef1Ctx a l ht hl = Av1.singleRefP4 A L
  p5 : getFwdRef2Ctx a l ht hl = Av1.singleRefP5 A L
  p6 : getBwdRef1Ctx a l ht hl = Av1.singleRefP6 A L
  uni : getUniP1Ctx a l ht hl = Av1.uniCompRefP1 A L
  group : getMaskCompCtx a l = Av1.compGroupIdxCtx A L
  /-- The distances are those of the order hints of the two references to that of the frame. -/
  idx : ∀ (n : Nat) (poc poc0 poc1 : Int), getJntCompCtx n poc poc0 poc1 a l =
    Av1.compoundIdxCtx A L (Av1.relativeDist n poc0 poc).natAbs (Av1.relativeDist n poc1 poc).natAbs

section
variable (h : Run f sb128 T before after c) {info : Call → Blk} (hv : ∀ d, (info d).Valid true) (old : Ctxs Edge)
include h hv

/-- **C74.** In inter frames the contexts for is_inter and for everything about reference frames and compound prediction
are those of the AV1 specification; `have_top` and `have_left` are those of src/decode.c:700-701. -/
theorem C74_refs {A L : Option Blk} (hA : A = (nbAbove T before c).map info) (hL : L = (nbLeft T before c).map info)
    {a l : Edge} (he : (a, l) = (ctxsAt true sb128 info old before c).at c) :
    RefCtxsOk a.refs l.refs (decide (T.y0 < c.y)) (decide (T.x0 < c.x)) (Av1.nb A) (Av1.nb L) := by
  obtain ⟨s1, s2⟩ := shows_nb h hv old
  rw [← he] at s1 s2
  have vA : ∀ b, A = some b → b.Valid true := by
    intro b hb; rw [hA] at hb; obtain ⟨d, -, rfl⟩ := Option.map_eq_some_iff.1 hb; exact hv d
  have vL : ∀ b, L = some b → b.Valid true := by
    intro b hb; rw [hL] at hb; obtain ⟨d, -, rfl⟩ := Option.map_eq_some_iff.1 hb; exact hv d
  have e1 : a.refs = refsOf A := by rw [hA]; exact shows_refs hv s1
  have e2 : l.refs = refsOf L := by rw [hL]; exact shows_refs hv s2
  have t1 : decide (T.y0 < c.y) = A.isSome := by rw [hA, ← h.above_some]; cases nbAbove T before c <;> rfl
  have t2 : decide (T.x0 < c.x) = L.isSome := by rw [hL, ← h.left_some]; cases nbLeft T before c <;> rfl
  rw [e1, e2, t1, t2]
  obtain ⟨h1, h2, h3, h4, h5, h6, h7, h8, h9, h10⟩ := ref_ctxs vA vL
  exact ⟨h1, h2, h3, h4, h5, h6, h7, h8, h9, h10, mask_ctx vA vL, fun n poc p0 p1 => jnt_ctx vA vL n poc p0 p1⟩

/-- **C74.** interp_filter: filter_dir uses the CDFs of direction `dir` (src/decode.c:1876-1899), of which there are 8 in
each direction. -/
theorem C74_filter {A L : Option Blk} (hA : A = (nbAbove T before c).map info) (hL : L = (nbLeft T before c).map info)
    {a l : Edge} (he : (a, l) = (ctxsAt true sb128 info old before c).at c) {dir : Nat} (hd : dir < 2) {ref : Int} (hr : 0 ≤ ref) (compound : Bool) :
    8 * dir + getFilterCtx a l compound.toNat dir ref = Av1.interpFilterCtx A L (ref + 1) compound dir := by
  obtain ⟨s1, s2⟩ := shows_nb h hv old
  rw [← he] at s1 s2
  dsimp only at s1 s2
  have key : ∀ (o : Option Call) (i : Nat) (e : Edge), Av1.Shows true i (withSize info o) e →
      (if e.refs.ref0 = ref ∨ e.refs.ref1 = ref then (if dir = 0 then e.filter0 else e.filter1) else 3) =
      Av1.filterType (o.map info) (ref + 1) dir := by
    intro o i e s
    rw [s.ref0 rfl, s.ref1 rfl, s.filter0 rfl, s.filter1 rfl]
    cases o with
    | none =>
      simp only [withSize, Option.map_none, Option.elim, Av1.filterType]
      simp
    | some d =>
      simp only [withSize, Option.map_some, Option.elim, Av1.filterType]
      have e1 : (Av1.refFrame0 (info d) - 1 = ref) = (Av1.refFrame0 (info d) = ref + 1) := by simp only [eq_iff_iff]; omega
      have e2 : (max (Av1.refFrame1 (info d) - 1) (-1) = ref) = (Av1.refFrame1 (info d) = ref + 1) := by simp only [eq_iff_iff]; omega
      have e3 : (if dir = 0 then Av1.interpFilter (info d) 0 else Av1.interpFilter (info d) 1) = Av1.interpFilter (info d) dir := by
        have : dir = 0 ∨ dir = 1 := by omega
        rcases this with rfl | rfl <;> rfl
      simp only [e1, e2, e3]
  subst hA hL
  unfold getFilterCtx Av1.interpFilterCtx
  dsimp only
  rw [key _ _ _ s1, key _ _ _ s2]
  generalize Av1.filterType ((nbAbove T before c).map info) (ref + 1) dir = x
  generalize Av1.filterType ((nbLeft T before c).map info) (ref + 1) dir = y
  have : dir = 0 ∨ dir = 1 := by omega
  cases compound <;> rcases this with rfl | rfl <;> simp only [Bool.toNat_true, Bool.toNat_false] <;>
    by_cases h1 : x = y <;> by_cases h2 : x = 3 <;> by_cases h3 : y = 3 <;> simp_all [eq_comm] <;> omega

end

/-! ## Segment ids -/

theorem seg_cover {f : Frame} {T : Tile} (old : Nat → Nat → Nat) (id : Call → Nat) (x y : Nat) : ∀ (n : Nat) (p : List Ev), p.length = n → AllOk f T p →
    ∀ d, coverOf p x y = some d → segAfter old id (blocks p) x y = id d
  | 0, p, hn, _, d, hd => by
    cases List.eq_nil_of_length_eq_zero hn
    cases hd
  | n + 1, p, hn, h, d, hd => by
    rcases List.eq_nil_or_concat p with rfl | ⟨l, e, rfl⟩
    · cases hn
    rw [List.concat_eq_append] at hn h hd ⊢
    have hl : AllOk f T l := fun pre x post hx => h pre x (post ++ [e]) (by rw [hx]; simp)
    have he := h l e [] rfl
    have ih := seg_cover old id x y n l (by simpa using hn) hl
    unfold coverOf at hd
    rw [List.findSome?_append] at hd
    have hd : (coverOf l x y).or (coverOf [e] x y) = some d := hd
    cases e with
    | read bl ctx x' y' =>
      have : blocks (l ++ [Ev.read bl ctx x' y']) = blocks l := by rw [blocks_append]; exact List.append_nil _
      rw [this]
      refine ih d ?_
      have e0 : coverOf [Ev.read bl ctx x' y'] x y = none := rfl
      rw [e0, Option.or_none] at hd
      exact hd
    | call c =>
      have e1 : blocks (l ++ [Ev.call c]) = blocks l ++ [c] := by rw [blocks_append]; rfl
      rw [e1]
      unfold segAfter
      rw [List.foldl_append]
      show setSeg (segAfter old id (blocks l)) c (id c) x y = id d
      unfold setSeg
      by_cases hc : c.covers x y
      · have : ¬ Decoded l x y := he.fresh x y hc
        rw [cover_none.2 this, Option.none_or] at hd
        have e0 : coverOf [Ev.call c] x y = some c := by unfold coverOf; simp [hc]
        rw [e0] at hd
        cases hd
        rw [if_pos ⟨hc.2.2.1, hc.2.2.2, hc.1, hc.2.1⟩]
      · rw [if_neg (fun hh => hc ⟨hh.2.2.1, hh.2.2.2, hh.1, hh.2.1⟩)]
        refine ih d ?_
        have e0 : coverOf [Ev.call c] x y = none := by unfold coverOf; simp [hc]
        rw [e0, Option.or_none] at hd
        exact hd

/-- The segment id of the block covering a unit if the unit is in the tile, -1 otherwise. -/
def segIdAt (T : Tile) (before : List Ev) (id : Call → Nat) (inTile : Bool) (x y : Nat) : Int :=
  if inTile then (coverOf before x y).elim (-1) fun d => (id d : Int) else -1

/-- **C74.** The predicted segment id and the context of segment_id are those of the AV1 specification from the ids of the
blocks above on the left, above and on the left in the tile, whatever was in the map before; and these blocks exist. -/
theorem C74_segment (h : Run f sb128 T before after c) (old : Nat → Nat → Nat) (id : Call → Nat) {ul u l : Int}
    (hul : ul = segIdAt T before id (T.y0 < c.y && T.x0 < c.x) (c.x - 1) (c.y - 1)) (hu : u = segIdAt T before id (T.y0 < c.y) c.x (c.y - 1))
    (hl : l = segIdAt T before id (T.x0 < c.x) (c.x - 1) c.y) :
    (((getCurFrameSegid (segAfter old id (blocks before)) c.x c.y (T.y0 < c.y) (T.x0 < c.x)).1 : Int),
      (getCurFrameSegid (segAfter old id (blocks before)) c.x c.y (T.y0 < c.y) (T.x0 < c.x)).2) = (Av1.segmentPred ul u l, Av1.segmentCtx ul u l) := by
  obtain ⟨ok, -⟩ := h.facts
  have okb : AllOk f T before := fun pre x post hx => ok pre x (post ++ .call c :: after) (by rw [hx]; simp)
  have hin := h.start
  have sc := fun x y d hd => seg_cover old id x y _ before rfl okb d hd
  unfold segIdAt at hul hu hl
  by_cases hy : T.y0 < c.y <;> by_cases hx : T.x0 < c.x
  · obtain ⟨du, _, _, cu, _⟩ := last_above ok rfl h.inX.1 h.inX.2 hy
    obtain ⟨dl, p0, q0, cl, hs, _⟩ := last_left ok rfl h.inY.1 h.inY.2 hx
    have hd : Decoded before (c.x - 1) (c.y - 1) := by
      have vl := (cover_some cl).2
      by_cases hdy : dl.y ≤ c.y - 1
      · exact ⟨dl, (cover_some cl).1, vl.1, vl.2.1, hdy, by have := vl.2.2; omega⟩
      · have hs' : before ++ .call c :: after = p0 ++ .call dl :: (q0 ++ .call c :: after) := by rw [hs]; simp
        have := above_done ok _ p0 _ dl rfl hs' (c.x - 1) (c.y - 1) ⟨vl.1, vl.2.1⟩ (by have := h.inX.2; omega) (by omega) (by omega)
        rw [hs]; exact this.left
    obtain ⟨dd, cd⟩ : ∃ d, coverOf before (c.x - 1) (c.y - 1) = some d := by
      cases hcv : coverOf before (c.x - 1) (c.y - 1) with
      | none => exact absurd hd (cover_none.1 hcv)
      | some d => exact ⟨d, rfl⟩
    simp only [hy, hx, decide_true, Bool.and_self, if_true, cu, cl, cd, Option.elim] at hul hu hl
    unfold getCurFrameSegid
    simp only [hy, hx, decide_true, Bool.and_self, if_true, sc _ _ _ cu, sc _ _ _ cl, sc _ _ _ cd]
    subst hul hu hl
    generalize id du = a
    generalize id dl = b
    generalize id dd = e
    unfold Av1.segmentPred Av1.segmentCtx
    have n1 : ¬ ((a : Int) = -1) := by omega
    have n2 : ¬ ((b : Int) = -1) := by omega
    have n3 : ¬ ((e : Int) < 0) := by omega
    simp only [n1, n2, n3, if_false, Int.natCast_inj, Prod.mk.injEq]
    refine ⟨?_, ?_⟩
    · by_cases h1 : a = e
      · rw [if_pos h1, if_pos h1.symm]
      · rw [if_neg h1, if_neg (fun hh => h1 hh.symm)]
    repeat' split
    all_goals omega
  · obtain ⟨du, _, _, cu, _⟩ := last_above ok rfl h.inX.1 h.inX.2 hy
    simp only [hy, hx, decide_true, decide_false, Bool.and_false, Bool.false_eq_true, if_true, if_false, cu, Option.elim] at hul hu hl
    unfold getCurFrameSegid
    simp only [hy, hx, decide_true, decide_false, Bool.false_and, Bool.false_eq_true, if_true, if_false, sc _ _ _ cu]
    subst hul hu hl
    have n1 : ¬ ((id du : Int) = -1) := by omega
    simp [Av1.segmentPred, Av1.segmentCtx, n1]
  · obtain ⟨dl, p0, q0, cl, hs, _⟩ := last_left ok rfl h.inY.1 h.inY.2 hx
    simp only [hy, hx, decide_true, decide_false, Bool.false_and, Bool.false_eq_true, if_true, if_false, cl, Option.elim] at hul hu hl
    unfold getCurFrameSegid
    simp only [hy, hx, decide_true, decide_false, Bool.and_false, Bool.false_eq_true, if_true, if_false, sc _ _ _ cl]
    subst hul hu hl
    have n1 : ¬ ((id dl : Int) = -1) := by omega
    simp [Av1.segmentPred, Av1.segmentCtx, n1]
  · simp only [hy, hx, decide_false, Bool.false_and, Bool.false_eq_true, if_false] at hul hu hl
    unfold getCurFrameSegid
    simp only [hy, hx, decide_false, Bool.and_false, Bool.false_eq_true, if_false]
    subst hul hu hl
    simp [Av1.segmentPred, Av1.segmentCtx]

/-! ## Reference frames -/

/-- The reader of syntax elements: the CDF of the element is used with its context. -/
def reader {σ : Type} (R : BoolSrc σ RefCdf) (A L : Av1.Nb) (e : Av1.Elem) (s : σ) : Bool × σ := R s e.cdf (e.ctx A L)

/-- One more for each reference: RefFrame. -/
def toFrames (r : Int × Int) : Int × Int := (r.1 + 1, if r.2 = -1 then -1 else r.2 + 1)

/-- The features of a segment in the terms of the specification. -/
def segRefOf (seg : Option Seg) : Option Int := match seg with | some g => if g.ref ≥ 0 then some g.ref else none | none => none
def segOtherOf (seg : Option Seg) : Bool := match seg with | some g => g.globalmv || g.skip | none => false

section
variable {σ : Type} (R : BoolSrc σ RefCdf) {a l : Refs} {ht hl : Bool} {A L : Av1.Nb} (ok : RefCtxsOk a l ht hl A L)
include ok

omit ok in
theorem rd_of {e : Av1.Elem} {k : RefCdf} {n : Nat} {s : σ} {x : Bool × σ} (h : R s k n = x) (hk : k = e.cdf) (hn : n = e.ctx A L) :
    reader R A L e s = x := by subst hk hn; exact h

theorem readRefs_eq {seg : Option Seg} (hseg : ∀ g, seg = some g → g.ref = -1 ∨ 1 ≤ g.ref) (skipMode : Bool) (skipRefs : Int × Int)
    (switchable : Bool) (bw4 bh4 : Nat) (s : σ) {r : Int × Int} {s' : σ} (h : readRefs R seg skipMode skipRefs switchable (min bw4 bh4) a l ht hl s = (r, s')) :
    Av1.readRefFrames (reader R A L) skipMode (toFrames skipRefs) (segRefOf seg) (segOtherOf seg) switchable bw4 bh4 s = (toFrames r, s') := by
  have single : ∀ s r s', readRefs.single R a l ht hl s = (r, s') → (
        let (p1, s) := reader R A L .single_ref_p1 s
        if p1 then
          let (p2, s) := reader R A L .single_ref_p2 s
          if !p2 then
            let (p6, s) := reader R A L .single_ref_p6 s
            ((if p6 then 6 else 5, -1), s)
          else ((7, -1), s)
        else
          let (p3, s) := reader R A L .single_ref_p3 s
          if p3 then
            let (p5, s) := reader R A L .single_ref_p5 s
            ((if p5 then 4 else 3, -1), s)
          else
            let (p4, s) := reader R A L .single_ref_p4 s
            ((if p4 then 2 else 1, -1), s) : (Int × Int) × σ) = (toFrames r, s') := by
    intro s r s' h
    unfold readRefs.single at h
    rcases h1 : R s (.ref 0) (getRefCtx a l ht hl) with ⟨b1, s1⟩
    have h1' : reader R A L .single_ref_p1 s = (b1, s1) := rd_of R h1 rfl ok.p1
    rw [h1] at h
    rw [h1']
    cases b1
    · rcases h2 : R s1 (.ref 2) (getFwdRefCtx a l ht hl) with ⟨b2, s2⟩
      have h2' : reader R A L .single_ref_p3 s1 = (b2, s2) := rd_of R h2 rfl ok.p3
      simp only [Bool.false_eq_true, if_false, h2, h2'] at h ⊢
      cases b2
      · rcases h3 : R s2 (.ref 3) (getFwdRef1Ctx a l ht hl) with ⟨b3, s3⟩
        have h3' : reader R A L .single_ref_p4 s2 = (b3, s3) := rd_of R h3 rfl ok.p4
        simp only [Bool.false_eq_true, if_false, h3, h3', Prod.mk.injEq] at h ⊢
        obtain ⟨rfl, rfl⟩ := h
        cases b3 <;> simp [toFrames, b2n]
      · rcases h3 : R s2 (.ref 4) (getFwdRef2Ctx a l ht hl) with ⟨b3, s3⟩
        have h3' : reader R A L .single_ref_p5 s2 = (b3, s3) := rd_of R h3 rfl ok.p5
        simp only [if_true, h3, h3', Prod.mk.injEq] at h ⊢
        obtain ⟨rfl, rfl⟩ := h
        cases b3 <;> simp [toFrames, b2n]
    · rcases h2 : R s1 (.ref 1) (getBwdRefCtx a l ht hl) with ⟨b2, s2⟩
      have h2' : reader R A L .single_ref_p2 s1 = (b2, s2) := rd_of R h2 rfl ok.p2
      simp only [if_true, h2, h2'] at h ⊢
      cases b2
      · rcases h3 : R s2 (.ref 5) (getBwdRef1Ctx a l ht hl) with ⟨b3, s3⟩
        have h3' : reader R A L .single_ref_p6 s2 = (b3, s3) := rd_of R h3 rfl ok.p6
        simp only [Bool.false_eq_true, Bool.not_false, if_true, if_false, h3, h3', Prod.mk.injEq] at h ⊢
        obtain ⟨rfl, rfl⟩ := h
        cases b3 <;> simp [toFrames, b2n]
      · simp only [Bool.false_eq_true, Bool.not_true, if_true, if_false, Prod.mk.injEq] at h ⊢
        obtain ⟨rfl, rfl⟩ := h
        simp [toFrames]
  have comp : ∀ s s', ∀ r : Int × Int, (
      let (dir, s) := R s .compDir (getCompDirCtx a l ht hl)
      if dir then
        let (b, s) := R s (.compFwdRef 0) (getFwdRefCtx a l ht hl)
        let (ref0, s) : Int × σ :=
          if b then
            let (b2, s) := R s (.compFwdRef 2) (getFwdRef2Ctx a l ht hl)
            (2 + (b2n b2 : Int), s)
          else
            let (b2, s) := R s (.compFwdRef 1) (getFwdRef1Ctx a l ht hl)
            ((b2n b2 : Int), s)
        let (b, s) := R s (.compBwdRef 0) (getBwdRefCtx a l ht hl)
        if b then ((ref0, 6), s)
        else
          let (b2, s) := R s (.compBwdRef 1) (getBwdRef1Ctx a l ht hl)
          ((ref0, 4 + (b2n b2 : Int)), s)
      else
        let (b, s) := R s (.compUniRef 0) (getRefCtx a l ht hl)
        if b then ((4, 6), s)
        else
          let (b1, s) := R s (.compUniRef 1) (getUniP1Ctx a l ht hl)
          let ref1 : Int := 1 + (b2n b1 : Int)
          if ref1 = 2 then
            let (b2, s) := R s (.compUniRef 2) (getFwdRef2Ctx a l ht hl)
            ((0, ref1 + (b2n b2 : Int)), s)
          else ((0, ref1), s) : (Int × Int) × σ) = (r, s') → (
        let (bidir, s) := reader R A L .comp_ref_type s
        if !bidir then
          let (u, s) := reader R A L .uni_comp_ref s
          if u then ((5, 7), s)
          else
            let (u1, s) := reader R A L .uni_comp_ref_p1 s
            if u1 then
              let (u2, s) := reader R A L .uni_comp_ref_p2 s
              if u2 then ((1, 4), s) else ((1, 3), s)
            else ((1, 2), s)
        else
          let (c, s) := reader R A L .comp_ref s
          let (r0, s) : Int × σ :=
            if !c then
              let (c1, s) := reader R A L .comp_ref_p1 s
              (if c1 then 2 else 1, s)
            else
              let (c2, s) := reader R A L .comp_ref_p2 s
              (if c2 then 4 else 3, s)
          let (b, s) := reader R A L .comp_bwdref s
          if !b then
            let (b1, s) := reader R A L .comp_bwdref_p1 s
            ((r0, if b1 then 6 else 5), s)
          else ((r0, 7), s) : (Int × Int) × σ) = (toFrames r, s') := by
    intro s s' r h
    rcases h1 : R s .compDir (getCompDirCtx a l ht hl) with ⟨b1, s1⟩
    have h1' : reader R A L .comp_ref_type s = (b1, s1) := rd_of R h1 rfl ok.compRefType
    rw [h1] at h
    rw [h1']
    cases b1
    · rcases h2 : R s1 (.compUniRef 0) (getRefCtx a l ht hl) with ⟨b2, s2⟩
      have h2' : reader R A L .uni_comp_ref s1 = (b2, s2) := rd_of R h2 rfl ok.p1
      simp only [Bool.false_eq_true, Bool.not_false, if_false, if_true, h2, h2'] at h ⊢
      cases b2
      · rcases h3 : R s2 (.compUniRef 1) (getUniP1Ctx a l ht hl) with ⟨b3, s3⟩
        have h3' : reader R A L .uni_comp_ref_p1 s2 = (b3, s3) := rd_of R h3 rfl ok.uni
        simp only [Bool.false_eq_true, if_false, h3, h3'] at h ⊢
        cases b3
        · simp [b2n] at h ⊢
          obtain ⟨rfl, rfl⟩ := h
          simp [toFrames]
        · rcases h4 : R s3 (.compUniRef 2) (getFwdRef2Ctx a l ht hl) with ⟨b4, s4⟩
          have h4' : reader R A L .uni_comp_ref_p2 s3 = (b4, s4) := rd_of R h4 rfl ok.p5
          rw [if_pos (by decide), h4] at h
          simp only [if_true, h4, h4', Prod.mk.injEq] at h ⊢
          obtain ⟨rfl, rfl⟩ := h
          cases b4 <;> simp [toFrames, b2n]
      · simp only [if_true, Prod.mk.injEq] at h ⊢
        obtain ⟨rfl, rfl⟩ := h
        simp [toFrames]
    · rcases h2 : R s1 (.compFwdRef 0) (getFwdRefCtx a l ht hl) with ⟨b2, s2⟩
      have h2' : reader R A L .comp_ref s1 = (b2, s2) := rd_of R h2 rfl ok.p3
      simp only [Bool.false_eq_true, Bool.not_true, if_false, if_true, h2, h2'] at h ⊢
      have bwd : ∀ (x y : Int) (s3 : σ), y = x + 1 → 0 ≤ x → (
          let (b, s) := R s3 (.compBwdRef 0) (getBwdRefCtx a l ht hl)
          if b then ((x, 6), s)
          else
            let (b2, s) := R s (.compBwdRef 1) (getBwdRef1Ctx a l ht hl)
            ((x, 4 + (b2n b2 : Int)), s) : (Int × Int) × σ) = (r, s') → (
          let (b, s) := reader R A L .comp_bwdref s3
          if !b then
            let (b1, s) := reader R A L .comp_bwdref_p1 s
            ((y, if b1 then 6 else 5), s)
          else ((y, 7), s) : (Int × Int) × σ) = (toFrames r, s') := by
        intro x y s3 hxy hx h
        subst hxy
        rcases h4 : R s3 (.compBwdRef 0) (getBwdRefCtx a l ht hl) with ⟨b4, s4⟩
        have h4' : reader R A L .comp_bwdref s3 = (b4, s4) := rd_of R h4 rfl ok.p2
        rw [h4] at h
        rw [h4']
        cases b4
        · rcases h5 : R s4 (.compBwdRef 1) (getBwdRef1Ctx a l ht hl) with ⟨b5, s5⟩
          have h5' : reader R A L .comp_bwdref_p1 s4 = (b5, s5) := rd_of R h5 rfl ok.p6
          simp only [Bool.false_eq_true, Bool.not_false, if_true, if_false, h5, h5', Prod.mk.injEq] at h ⊢
          obtain ⟨rfl, rfl⟩ := h
          cases b5 <;> simp [toFrames, b2n]
        · simp only [Bool.false_eq_true, Bool.not_true, if_true, if_false, Prod.mk.injEq] at h ⊢
          obtain ⟨rfl, rfl⟩ := h
          simp [toFrames]
      cases b2
      · rcases h3 : R s2 (.compFwdRef 1) (getFwdRef1Ctx a l ht hl) with ⟨b3, s3⟩
        have h3' : reader R A L .comp_ref_p1 s2 = (b3, s3) := rd_of R h3 rfl ok.p4
        simp only [Bool.false_eq_true, Bool.not_false, if_true, if_false, h3, h3'] at h ⊢
        exact bwd _ _ _ (by cases b3 <;> simp [b2n]) (by omega) h
      · rcases h3 : R s2 (.compFwdRef 2) (getFwdRef2Ctx a l ht hl) with ⟨b3, s3⟩
        have h3' : reader R A L .comp_ref_p2 s2 = (b3, s3) := rd_of R h3 rfl ok.p5
        simp only [Bool.false_eq_true, Bool.not_true, if_true, if_false, h3, h3'] at h ⊢
        exact bwd _ _ _ (by cases b3 <;> simp [b2n]) (by omega) h
  have hmin : decide (min bw4 bh4 > 1) = decide (min bw4 bh4 ≥ 2) := decide_eq_decide.2 Iff.rfl
  unfold readRefs at h
  unfold Av1.readRefFrames
  cases skipMode with
  | true =>
    simp only [if_true, Prod.mk.injEq] at h ⊢
    obtain ⟨rfl, rfl⟩ := h
    exact ⟨rfl, rfl⟩
  | false =>
    simp only [Bool.false_eq_true, if_false] at h ⊢
    cases seg with
    | none =>
      simp only [readRefs.compAllowed, segRefOf, segOtherOf, Bool.false_eq_true, if_false, Bool.true_and] at h ⊢
      rw [hmin] at h
      by_cases hc : (switchable && decide (min bw4 bh4 ≥ 2)) = true
      · rw [if_pos hc] at h ⊢
        rcases h1 : R s .comp (getCompCtx a l ht hl) with ⟨b1, s1⟩
        have h1' : reader R A L .comp_mode s = (b1, s1) := rd_of R h1 rfl ok.compMode
        rw [h1] at h
        rw [h1']
        cases b1
        · exact single _ _ _ h
        · exact comp _ _ _ h
      · rw [if_neg hc] at h ⊢
        exact single _ _ _ h
    | some g =>
      obtain ⟨gr, gg, gs⟩ := g
      rcases hseg _ rfl with hg | hg
      · dsimp only at hg
        subst hg
        cases gg with
        | true =>
          have h2 : (((0 : Int), (-1 : Int)), s) = (r, s') := h
          simp only [Prod.mk.injEq] at h2
          obtain ⟨rfl, rfl⟩ := h2
          rfl
        | false =>
          cases gs with
          | true =>
            have h2 : (((0 : Int), (-1 : Int)), s) = (r, s') := h
            simp only [Prod.mk.injEq] at h2
            obtain ⟨rfl, rfl⟩ := h2
            rfl
          | false =>
            simp only [readRefs.compAllowed, segRefOf, segOtherOf, show ¬ ((-1 : Int) ≥ 0) by decide, show ¬ ((-1 : Int) > 0) by decide, if_false, Bool.or_self, Bool.false_eq_true, decide_true,
              Bool.not_false, Bool.and_true, Bool.true_and] at h ⊢
            rw [hmin] at h
            by_cases hc : (switchable && decide (min bw4 bh4 ≥ 2)) = true
            · rw [if_pos hc] at h ⊢
              rcases h1 : R s .comp (getCompCtx a l ht hl) with ⟨b1, s1⟩
              have h1' : reader R A L .comp_mode s = (b1, s1) := rd_of R h1 rfl ok.compMode
              rw [h1] at h
              rw [h1']
              cases b1
              · exact single _ _ _ h
              · exact comp _ _ _ h
            · rw [if_neg hc] at h ⊢
              exact single _ _ _ h
      · dsimp only at hg
        have n1 : decide (gr = -1) = false := decide_eq_false (by omega)
        have n2 : gr > 0 := by omega
        have n3 : gr ≥ 0 := by omega
        have e1 : segRefOf (some ⟨gr, gg, gs⟩) = some gr := if_pos n3
        rw [e1]
        simp only [readRefs.compAllowed, n1, n2, Bool.false_and, Bool.false_eq_true, if_false, if_true, Prod.mk.injEq] at h
        obtain ⟨rfl, rfl⟩ := h
        simp [toFrames]

end

/-- **C75.** The reference frames of an inter block are read as read_ref_frames( ) of the AV1 specification says: the same
syntax elements in the same order, each with its CDF and its context from the blocks above and on the left, and the
result is the same RefFrame[ ]. -/
theorem C75_references (h : Run f sb128 T before after c) {info : Call → Blk} (hv : ∀ d, (info d).Valid true) (old : Ctxs Edge)
    {A L : Option Blk} (hA : A = (nbAbove T before c).map info) (hL : L = (nbLeft T before c).map info)
    {a l : Edge} (he : (a, l) = (ctxsAt true sb128 info old before c).at c)
    {σ : Type} (R : BoolSrc σ RefCdf) {seg : Option Seg} (hseg : ∀ g, seg = some g → g.ref = -1 ∨ 1 ≤ g.ref) (skipMode : Bool) (skipRefs : Int × Int)
    (switchable : Bool) (s : σ) {r : Int × Int} {s' : σ}
    (hr : readRefs R seg skipMode skipRefs switchable (min (bsW c.bs) (bsH c.bs)) a.refs l.refs (decide (T.y0 < c.y)) (decide (T.x0 < c.x)) s = (r, s')) :
    Av1.readRefFrames (reader R (Av1.nb A) (Av1.nb L)) skipMode (toFrames skipRefs) (segRefOf seg) (segOtherOf seg) switchable (bsW c.bs) (bsH c.bs) s =
      (toFrames r, s') :=
  readRefs_eq R (C74_refs h hv old hA hL he) hseg skipMode skipRefs switchable _ _ s hr

/-- One reference of seven, or two of them in increasing order. -/
def InRefs (r : Int × Int) : Prop := 0 ≤ r.1 ∧ r.1 ≤ 6 ∧ (r.2 = -1 ∨ r.1 < r.2 ∧ r.2 ≤ 6)

/-- **C75.** What is read is one reference of seven, or two of them in increasing order, as long as this holds for the
references of skip_mode and of the segment. -/
theorem C75_range {σ : Type} (R : BoolSrc σ RefCdf) {seg : Option Seg} (hseg : ∀ g, seg = some g → g.ref ≤ 7) (skipMode : Bool) {skipRefs : Int × Int}
    (hskip : 0 ≤ skipRefs.1 ∧ skipRefs.1 < skipRefs.2 ∧ skipRefs.2 ≤ 6) (switchable : Bool) (minDim : Nat) (a l : Refs) (ht hl : Bool) (s : σ)
    {r : Int × Int} {s' : σ} (hr : readRefs R seg skipMode skipRefs switchable minDim a l ht hl s = (r, s')) :
    InRefs r := by
  have hb : ∀ b : Bool, (0 : Int) ≤ (b2n b : Int) ∧ (b2n b : Int) ≤ 1 := by intro b; cases b <;> simp [b2n]
  have g1 : ∀ (k : Int) (b : Bool), 0 ≤ k → k ≤ 5 → InRefs (k + (b2n b : Int), -1) := fun k b h1 h2 => by
    have := hb b; unfold InRefs; dsimp only; omega
  have g0 : ∀ (b : Bool), InRefs ((b2n b : Int), -1) := fun b => by have := hb b; unfold InRefs; dsimp only; omega
  have one : ∀ s (r : Int × Int) (s' : σ), readRefs.single R a l ht hl s = (r, s') → InRefs r := by
    intro s r s' h
    unfold readRefs.single at h
    dsimp only at h
    repeat' split at h
    all_goals
      simp only [Prod.mk.injEq] at h
      obtain ⟨rfl, rfl⟩ := h
      first
        | exact g0 _
        | exact g1 4 _ (by decide) (by decide)
        | exact g1 2 _ (by decide) (by decide)
        | (unfold InRefs; decide)
  unfold readRefs at hr
  cases skipMode with
  | true =>
    cases hr
    unfold InRefs
    omega
  | false =>
    rw [if_neg Bool.false_ne_true] at hr
    generalize readRefs.compAllowed seg switchable minDim = cnd at hr
    generalize (if cnd = true then R s .comp (getCompCtx a l ht hl) else (false, s)) = x at hr
    obtain ⟨isComp, s1⟩ := x
    cases isComp with
    | false =>
      simp only [Bool.false_eq_true, if_false] at hr
      cases seg with
      | none => exact one _ _ _ hr
      | some g =>
        have := hseg g rfl
        dsimp only at hr
        repeat' split at hr
        · cases hr; unfold InRefs; dsimp only; omega
        · cases hr; unfold InRefs; decide
        · exact one _ _ _ hr
    | true =>
      simp only [if_true] at hr
      rcases h1 : R s1 .compDir (getCompDirCtx a l ht hl) with ⟨b1, s2⟩
      rw [h1] at hr
      cases b1 with
      | true =>
        simp only [if_true] at hr
        rcases h2 : R s2 (.compFwdRef 0) (getFwdRefCtx a l ht hl) with ⟨b2, s3⟩
        rw [h2] at hr
        have g2 : ∀ (k : Int) (b : Bool), 0 ≤ k → k ≤ 3 → InRefs (k, 4 + (b2n b : Int)) := fun k b h1 h2 => by
          have := hb b; unfold InRefs; dsimp only; omega
        have g3 : ∀ k : Int, 0 ≤ k → k ≤ 3 → InRefs (k, 6) := fun k h1 h2 => by unfold InRefs; dsimp only; omega
        have fwd : ∀ (k : Int) (s4 : σ), 0 ≤ k → k ≤ 3 → (
            let (b, s) := R s4 (.compBwdRef 0) (getBwdRefCtx a l ht hl)
            if b then ((k, 6), s)
            else
              let (b2, s) := R s (.compBwdRef 1) (getBwdRef1Ctx a l ht hl)
              ((k, 4 + (b2n b2 : Int)), s) : (Int × Int) × σ) = (r, s') → InRefs r := by
          intro k s4 k0 k3 h
          dsimp only at h
          split at h
          · cases h; exact g3 k k0 k3
          · cases h; exact g2 k _ k0 k3
        cases b2 with
        | true =>
          have := hb (R s3 (.compFwdRef 2) (getFwdRef2Ctx a l ht hl)).1
          exact fwd (2 + (b2n (R s3 (.compFwdRef 2) (getFwdRef2Ctx a l ht hl)).1 : Int)) _ (by omega) (by omega) hr
        | false =>
          have := hb (R s3 (.compFwdRef 1) (getFwdRef1Ctx a l ht hl)).1
          exact fwd (b2n (R s3 (.compFwdRef 1) (getFwdRef1Ctx a l ht hl)).1 : Int) _ (by omega) (by omega) hr
      | false =>
        simp only [Bool.false_eq_true, if_false] at hr
        repeat' split at hr
        · cases hr; unfold InRefs; decide
        · rename_i hh
          cases hr
          have := hb (R (R (R s2 (.compUniRef 0) (getRefCtx a l ht hl)).2 (.compUniRef 1) (getUniP1Ctx a l ht hl)).2 (.compUniRef 2) (getFwdRef2Ctx a l ht hl)).1
          unfold InRefs; dsimp only; omega
        · cases hr
          have := hb (R (R s2 (.compUniRef 0) (getRefCtx a l ht hl)).2 (.compUniRef 1) (getUniP1Ctx a l ht hl)).1
          unfold InRefs; dsimp only; omega

/-! ## An example -/

/-- Inter blocks with one or two references depending on the position, some with inter-intra prediction, and intra blocks. -/
def smallInfo (c : Call) : Blk :=
  if c.x % 4 = 0 then ⟨true, false, .inter false 0 ((c.y % 7 : Nat) : Int) (-1) 1 2 3 (c.y % 2 = 1)⟩
  else if c.x % 4 = 2 then ⟨false, true, .inter false 2 0 4 0 0 1 false⟩
  else ⟨false, false, .intra 9 0 1 0⟩

theorem smallInfo_valid (c : Call) : (smallInfo c).Valid true := by
  unfold smallInfo
  split
  · refine ⟨rfl, by decide, by decide, by omega, by omega, ?_⟩
    rw [if_pos rfl]
  · split
    · exact ⟨rfl, by decide, by decide, by decide, by decide, by decide⟩
    · exact (by decide : 9 ≤ 13)

/-- The 16x4 block at (8, 1) of the run in Part/Props, which has blocks above and on the left. -/
theorem smallRun_at : Run smallFrame false smallTile ((logOf smallRun).take 8) ((logOf smallRun).drop 9) ⟨3, 14, 8, 60, 8, 1⟩ := by
  have h : ∃ st, smallRun = .ok st ∧ st.log = (logOf smallRun).take 8 ++ .call ⟨3, 14, 8, 60, 8, 1⟩ :: (logOf smallRun).drop 9 := by
    refine ⟨_, rfl, ?_⟩
    decide +kernel
  obtain ⟨st, h1, h2⟩ := h
  exact ⟨by decide, smallTile_ok, _, scripted, _, st, scripted_range, h1, h2⟩

/-- C73, C74, C75: both neighbours exist, and the block on the left is not that of the first row of the superblock. -/
example : ((nbAbove smallTile ((logOf smallRun).take 8) ⟨3, 14, 8, 60, 8, 1⟩).map fun d => (d.x, d.y, d.bs)) = some (8, 0, 14) ∧
    ((nbLeft smallTile ((logOf smallRun).take 8) ⟨3, 14, 8, 60, 8, 1⟩).map fun d => (d.x, d.y, d.bs)) = some (4, 0, 12) := by
  decide +kernel

/-- Frames without inter prediction: palettes and intra block copy. -/
def stillInfo (c : Call) : Blk := if c.x % 8 = 0 then ⟨true, false, .intra 13 0 1 0⟩ else if c.x % 8 = 4 then ⟨false, true, .copy⟩ else ⟨false, false, .intra 0 4 2 2⟩

theorem stillInfo_valid (c : Call) : (stillInfo c).Valid false := by
  unfold stillInfo
  split
  · exact (by decide : 13 ≤ 13)
  · split
    · rfl
    · exact (by decide : 0 ≤ 13)

/-- C75: bits from a list; two references in the same direction. -/
def listBits : BoolSrc (List Bool) RefCdf := fun s _ _ => (s.headD false, s.tail)

example : readRefs listBits (some ⟨-1, false, false⟩) false (0, 4) true 4 ⟨0, 0, 3, -1⟩ ⟨1, 0, -1, -1⟩ true true [true, false, false, true, true, true] =
    ((0, 3), [true]) := by decide

end Dav1d.Part.Ctx
