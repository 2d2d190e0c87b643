import Verif.Syn.VartxBlock
/-!
# C82: the transforms of inter blocks are those of the specification
-/
set_option linter.unusedVariables false
set_option linter.unusedSimpArgs false
namespace Dav1d.Syn.Vartx
open Dav1d.Part (Frame Call Tile Ev Decoded coverOf blocks bsW bsH sbStep forList)
open Dav1d.Part.Lpf (txW txH txLw txLh txMax txSub tx_facts tx_pos)
open Dav1d.Part.Ctx (bsLog Run)

variable {ok : Req → Nat → Prop} {f : Frame} {sb128 : Bool} {T : Tile} {before after : List Ev} {c : Call}

/-! ## Statements -/

/-- The block `c` for the specification; `left` is what the blocks before left. -/
def envAt (H : Cfg) (f : Frame) (T : Tile) (left : Call → Left) (before : List Ev) (skip : Bool) (c : Call) : Av1.Env :=
  { MiSize := Intra.miSize c.bs, MiRow := c.y, MiCol := c.x, MiRows := f.bh, MiCols := f.bw, TX_MODE_SELECT := H.switchable, Lossless := H.lossless, skip := skip
    AvailU := decide (T.y0 < c.y), AvailL := decide (T.x0 < c.x)
    Skips := fun r k => (coverOf before k r).elim false fun d => (left d).skip
    IsInters := fun r k => (coverOf before k r).elim false fun d => (left d).inter
    MiSizes := fun r k => (coverOf before k r).elim 0 fun d => Intra.miSize d.bs }

/-- InterTxSizes has what the blocks before left. -/
def Holds (left : Call → Left) (before : List Ev) (t : Av1.TxSizes) : Prop := ∀ r k d, coverOf before k r = some d → t r k = (left d).tx r k

/-- The contexts that a block left agree with its sizes: below and on the right of it there are its own size if it has no coefficients and was predicted by inter, else the sizes of the
transforms. -/
structure LeftOk (f : Frame) (d : Call) (i : Left) : Prop where
  a : d.y + bsH d.bs < f.bh → ∀ X, d.x ≤ X → X < d.x + bsW d.bs → X < f.bw → 4 * 2 ^ i.a X = if i.skip ∧ i.inter then 4 * bsW d.bs else (i.tx (d.y + bsH d.bs - 1) X).1
  l : d.x + bsW d.bs < f.bw → ∀ Y, d.y ≤ Y → Y < d.y + bsH d.bs → Y < f.bh → 4 * 2 ^ i.l (Y % 32) = if i.skip ∧ i.inter then 4 * bsH d.bs else (i.tx Y (d.x + bsW d.bs - 1)).2

/-- The contexts for a block. -/
def ctxAt (sb128 : Bool) (left : Call → Left) (l : Nat → Nat) (before : List Ev) (c : Call) : Ctxs := Ctxs.before (sbStep sb128) left l (blocks before) c

/-- The block in the decoder is that of the specification. A lossless block with skip has TX_4X4 there (which nothing depends on: it has no coefficients, and the loop filter has a rule of
its own), but its largest transforms here. -/
structure Rel (H : Cfg) (F : Copy.Av1.Fmt) (f : Frame) (c : Call) (skip : Bool) (t0 : Av1.TxSizes) (a l : Nat → Nat) (o : Out) (t : Av1.TxSizes) : Prop where
  max : o.maxYtx < 19 ∧ szOf o.maxYtx = if H.lossless ∧ skip = false then (4, 4) else Intra.Av1.Max_Tx_Size_Rect (4 * bsW c.bs, 4 * bsH c.bs)
  tx : ¬ (H.lossless ∧ skip = true) → ∀ r k, c.covers k r → r < f.bh → k < f.bw →
    t r k = szOf (unitTx (o.split0, o.split1) o.maxYtx c.x c.y r k) ∧ unitTx (o.split0, o.split1) o.maxYtx c.x c.y r k < 19
  out : ∀ r k, ¬ c.covers k r → t r k = t0 r k
  bits : (∀ b, o.split0.testBit b = true → b = 0 ∨ b = 1 ∨ b = 4 ∨ b = 5) ∧ o.split1 < 65536
  none : H.lossless → o.split0 = 0 ∧ o.split1 = 0
  uvtx : ¬ (H.lossless ∧ skip = true) → Intra.LayoutOk F H.layout → (F.subX = true → F.subY = false → bsH c.bs ≤ bsW c.bs) →
    szOf o.uvtx = Av1.uvTxSize H.lossless F.subX F.subY (4 * bsW c.bs) (4 * bsH c.bs)
  next : H.switchable → LeftOk f c ⟨skip, true, o.a, o.l, t⟩
  frameA : ∀ X, ¬ (c.x ≤ X ∧ X < c.x + bsW c.bs) → o.a X = a X
  frameL : ∀ i, ¬ (c.y % 32 ≤ i ∧ i < c.y % 32 + bsH c.bs) → o.l i = l i

/-! ## Contexts -/

/-- The contexts as those of `Part.Ctx`, with functions for entries. -/
def gOf (left : Call → Left) (d : Call) (i : Nat) (_ : Nat → Nat) : Nat → Nat := if i = 0 then (left d).a else (left d).l

theorem fold_eq (st : Nat) (left : Call → Left) : ∀ (cs : List Call) (s : Ctxs) (S : Part.Ctx.Ctxs (Nat → Nat)),
    (∀ i, s.a i = S.a i i) → (∀ i, s.l i = S.l i i) → s.row = S.row →
    let s' := cs.foldl (fun (s : Ctxs) d => (s.enter st d).update (left d) d) s
    let S' := cs.foldl (fun (S : Part.Ctx.Ctxs (Nat → Nat)) d => (S.enter st (fun _ _ => 4) d).update (gOf left) d) S
    (∀ i, s'.a i = S'.a i i) ∧ (∀ i, s'.l i = S'.l i i) ∧ s'.row = S'.row
  | [], s, S, h1, h2, h3 => ⟨h1, h2, h3⟩
  | d :: cs, s, S, h1, h2, h3 => by
    refine fold_eq st left cs _ _ ?_ ?_ ?_
    · intro i
      unfold Ctxs.enter Ctxs.update Part.Ctx.Ctxs.enter Part.Ctx.Ctxs.update Part.Ctx.setN gOf
      dsimp only
      rw [h3]
      by_cases hr : S.row = some (d.y / st) <;> simp only [hr, if_true, if_false] <;> split <;> simp [h1]
    · intro i
      unfold Ctxs.enter Ctxs.update Part.Ctx.Ctxs.enter Part.Ctx.Ctxs.update Part.Ctx.setN gOf
      dsimp only
      rw [h3]
      by_cases hr : S.row = some (d.y / st) <;> simp only [hr, if_true, if_false] <;> split <;> simp [h2]
    · unfold Ctxs.enter Ctxs.update Part.Ctx.Ctxs.enter Part.Ctx.Ctxs.update
      dsimp only
      rw [h3]
      by_cases hr : S.row = some (d.y / st) <;> simp [hr, h3]

theorem enter_eq (st : Nat) (c : Call) {s : Ctxs} {S : Part.Ctx.Ctxs (Nat → Nat)} (h1 : ∀ i, s.a i = S.a i i) (h2 : ∀ i, s.l i = S.l i i) (h3 : s.row = S.row) :
    (∀ i, (s.enter st c).a i = (S.enter st (fun _ _ => 4) c).a i i) ∧ ∀ i, (s.enter st c).l i = (S.enter st (fun _ _ => 4) c).l i i := by
  unfold Ctxs.enter Part.Ctx.Ctxs.enter
  rw [h3]
  split
  · exact ⟨h1, h2⟩
  · exact ⟨h1, fun _ => rfl⟩

theorem ctx_eq' (st : Nat) (left : Call → Left) (l : Nat → Nat) (cs : List Call) (c : Call) :
    let S := (Part.Ctx.Ctxs.after st (fun _ _ => 4) (gOf left) ⟨fun _ _ => 0, fun _ => l, none⟩ cs).enter st (fun _ _ => 4) c
    (∀ i, (Ctxs.before st left l cs c).a i = S.a i i) ∧ ∀ i, (Ctxs.before st left l cs c).l i = S.l i i := by
  obtain ⟨h1, h2, h3⟩ := fold_eq st left cs (Ctxs.mk (fun _ => 4) l none) ⟨fun _ _ => 4, fun _ => l, none⟩ (fun _ => rfl) (fun _ => rfl) rfl
  exact enter_eq st c h1 h2 h3

theorem above_at (h : Run f sb128 T before after c) (left : Call → Left) (l : Nat → Nat) {X : Nat} (hx : c.inX X) (hX : X < T.x1) :
    (ctxAt sb128 left l before c).a X = match (if T.y0 < c.y then coverOf before X (c.y - 1) else none) with
      | some d => (left d).a X
      | none => 4 := by
  unfold ctxAt
  rw [(ctx_eq' _ left l (blocks before) c).1 X, Part.Ctx.enter_a]
  exact Part.Ctx.above_entry h.facts.1 rfl hx hX (sbStep sb128) (fun _ _ => 4) (gOf left) ⟨fun _ _ => 0, fun _ => l, none⟩ (fun e => e X) 4 (fun d i => if i = 0 then (left d).a X else (left d).l X)
    (fun _ => rfl) (fun d i e => by unfold gOf; split <;> rfl)

theorem left_at (h : Run f sb128 T before after c) (left : Call → Left) (l : Nat → Nat) {Y : Nat} (hy : c.inY Y) (hY : Y < T.y1) :
    (ctxAt sb128 left l before c).l (Y % 32) = match (if T.x0 < c.x then coverOf before (c.x - 1) Y else none) with
      | some d => (left d).l (Y % 32)
      | none => 4 := by
  obtain ⟨h1, r, h2⟩ := h.facts
  unfold ctxAt
  rw [(ctx_eq' _ left l (blocks before) c).2 (Y % 32)]
  exact Part.Ctx.left_entry h1 (by cases sb128 <;> decide) h2 rfl hy hY (fun _ _ => 4) (gOf left) ⟨fun _ _ => 0, fun _ => l, none⟩ (fun e => e (Y % 32)) 4
    (fun d i => if i = 0 then (left d).a (Y % 32) else (left d).l (Y % 32)) (fun _ => rfl) (fun d i e => by unfold gOf; split <;> rfl)

theorem mem_blk {log : List Ev} {d : Call} (h : Ev.call d ∈ log) : d ∈ blocks log := List.mem_filterMap.2 ⟨_, h, rfl⟩

/-- Blocks before are in place. -/
theorem before_bs (h : Run f sb128 T before after c) {d : Call} (hd : Ev.call d ∈ before) : d.bs < 22 := by
  obtain ⟨-, r, -, h2⟩ := h.facts
  exact (h2 d (by rw [Part.blocks_append]; exact List.mem_append_left _ (mem_blk hd))).2.bs

section
variable {H : Cfg} {left : Call → Left} {t0 : Av1.TxSizes} {skip : Bool}

theorem width_eq {b : Nat} (hb : b < 22) : Av1.Block_Width (Intra.miSize b) = bsW b * 4 ∧ Av1.Block_Height (Intra.miSize b) = bsH b * 4 := by
  unfold Av1.Block_Width Av1.Block_Height
  rw [Intra.size_eq b hb]
  exact ⟨rfl, rfl⟩

theorem pre_a (h : Run f sb128 T before after c) (hL : ∀ d ∈ blocks before, LeftOk f d (left d)) (ht : Holds left before t0) (l : Nat → Nat) {X : Nat} (h1 : c.x ≤ X)
    (h2 : X < c.x + bsW c.bs) (h3 : X < f.bw) :
    4 * 2 ^ (ctxAt sb128 left l before c).a X = Av1.get_above_tx_width (envAt H f T left before skip c) t0 c.y X := by
  have hok := h.facts.1.call rfl
  have hX : X < T.x1 := by have := hok.insX; omega
  have hyb : c.y < f.bh := by
    have := h.inY.2
    have := h.2.1.y1
    omega
  rw [above_at h left l ⟨h1, h2⟩ hX]
  unfold Av1.get_above_tx_width
  rw [if_pos (show c.y = (envAt H f T left before skip c).MiRow from rfl)]
  by_cases hy : T.y0 < c.y
  · obtain ⟨d, -, -, hc, -⟩ := Part.last_above h.facts.1 rfl ⟨h1, h2⟩ hX hy
    obtain ⟨hm, hv⟩ := Part.cover_some hc
    have hdb := before_bs h hm
    have hend : d.y + bsH d.bs = c.y := by
      have := hok.fresh X c.y ⟨h1, h2, Nat.le_refl _, by have := hok.pos; omega⟩
      by_contra hne
      refine this ⟨d, hm, hv.1, hv.2.1, ?_, ?_⟩
      · have := hv.2.2.1; omega
      · have := hv.2.2.2; omega
    have hl := (hL d (mem_blk hm)).a (by omega) X hv.1 hv.2.1 h3
    have e : (envAt H f T left before skip c).AvailU = true := by show decide _ = true; exact decide_eq_true hy
    rw [if_pos hy, hc, e, if_neg (by decide)]
    have e1 : (envAt H f T left before skip c).Skips (c.y - 1) X = (left d).skip := by show Option.elim (coverOf before X (c.y - 1)) _ _ = _; rw [hc]; rfl
    have e2 : (envAt H f T left before skip c).IsInters (c.y - 1) X = (left d).inter := by show Option.elim (coverOf before X (c.y - 1)) _ _ = _; rw [hc]; rfl
    have e3 : (envAt H f T left before skip c).MiSizes (c.y - 1) X = Intra.miSize d.bs := by show Option.elim (coverOf before X (c.y - 1)) _ _ = _; rw [hc]; rfl
    rw [e1, e2, e3, (width_eq hdb).1, ht _ _ d hc]
    dsimp only
    rw [hl, hend, Nat.mul_comm]
  · have e : (envAt H f T left before skip c).AvailU = false := by show decide _ = false; exact decide_eq_false hy
    rw [if_neg hy, e, if_pos rfl]; rfl

theorem pre_l (h : Run f sb128 T before after c) (hL : ∀ d ∈ blocks before, LeftOk f d (left d)) (ht : Holds left before t0) (l : Nat → Nat) {Y : Nat} (h1 : c.y ≤ Y)
    (h2 : Y < c.y + bsH c.bs) (h3 : Y < f.bh) :
    4 * 2 ^ (ctxAt sb128 left l before c).l (Y % 32) = Av1.get_left_tx_height (envAt H f T left before skip c) t0 Y c.x := by
  have hok := h.facts.1.call rfl
  have hY : Y < T.y1 := by have := hok.insY; omega
  have hxb : c.x < f.bw := by
    have := h.inX.2
    have := h.2.1.x1
    omega
  rw [left_at h left l ⟨h1, h2⟩ hY]
  unfold Av1.get_left_tx_height
  rw [if_pos (show c.x = (envAt H f T left before skip c).MiCol from rfl)]
  by_cases hx : T.x0 < c.x
  · obtain ⟨d, -, -, hc, -⟩ := Part.last_left h.facts.1 rfl ⟨h1, h2⟩ hY hx
    obtain ⟨hm, hv⟩ := Part.cover_some hc
    have hdb := before_bs h hm
    have hend : d.x + bsW d.bs = c.x := by
      have := hok.fresh c.x Y ⟨Nat.le_refl _, by have := hok.pos; omega, h1, h2⟩
      by_contra hne
      refine this ⟨d, hm, ?_, ?_, hv.2.2.1, hv.2.2.2⟩
      · have := hv.1; omega
      · have := hv.2.1; omega
    have hl := (hL d (mem_blk hm)).l (by omega) Y hv.2.2.1 hv.2.2.2 h3
    have e : (envAt H f T left before skip c).AvailL = true := by show decide _ = true; exact decide_eq_true hx
    rw [if_pos hx, hc, e, if_neg (by decide)]
    have e1 : (envAt H f T left before skip c).Skips Y (c.x - 1) = (left d).skip := by show Option.elim (coverOf before (c.x - 1) Y) _ _ = _; rw [hc]; rfl
    have e2 : (envAt H f T left before skip c).IsInters Y (c.x - 1) = (left d).inter := by show Option.elim (coverOf before (c.x - 1) Y) _ _ = _; rw [hc]; rfl
    have e3 : (envAt H f T left before skip c).MiSizes Y (c.x - 1) = Intra.miSize d.bs := by show Option.elim (coverOf before (c.x - 1) Y) _ _ = _; rw [hc]; rfl
    rw [e1, e2, e3, (width_eq hdb).2, ht _ _ d hc]
    dsimp only
    rw [hl, hend, Nat.mul_comm]
  · have e : (envAt H f T left before skip c).AvailL = false := by show decide _ = false; exact decide_eq_false hx
    rw [if_neg hx, e, if_pos rfl]; rfl

theorem grid (h : Run f sb128 T before after c) (hL : ∀ d ∈ blocks before, LeftOk f d (left d)) (ht : Holds left before t0) (l : Nat → Nat) :
    Same ok (Post (envAt H f T left before skip c) c.y c.x (bsH c.bs) (bsW c.bs) MB (fun ms r k => unitTx ms (maxTx c.bs 0) c.x c.y r k)
        ⟨(0, 0), (ctxAt sb128 left l before c).a, (ctxAt sb128 left l before c).l⟩ t0)
      (unitLoop f c (maxTx c.bs 0) ⟨(0, 0), (ctxAt sb128 left l before c).a, (ctxAt sb128 left l before c).l⟩)
      ((Av1.steps (bsH c.bs) (txH (maxTx c.bs 0))).foldlM (fun t i => (Av1.steps (bsW c.bs) (txW (maxTx c.bs 0))).foldlM (fun t j =>
        Av1.read_var_tx_size (envAt H f T left before skip c) 2 (c.y + i) (c.x + j) (szOf (maxTx c.bs 0)) t) t) t0) := by
  have hb := h.placed.1
  obtain ⟨w1, w2⟩ := width_eq hb
  have hh := h.halves
  obtain ⟨m1, m2, m3⟩ := max_log c.bs hb
  have hx : c.x < f.bw := by
    have := h.inX.2
    have := h.2.1.x1
    omega
  have hy : c.y < f.bh := by
    have := h.inY.2
    have := h.2.1.y1
    omega
  refine grid_ok (ok := ok) (E := envAt H f T left before skip c) (max_facts c.bs hb).1 ?_ m2 ?_ hx ?_ hy (Part.Ctx.C73_inside h).2 _ _ ⟨?_, ?_, ?_⟩
  · show _ = Nat.log2 (min 64 (max (Av1.Block_Width (Intra.miSize c.bs)) (Av1.Block_Height (Intra.miSize c.bs)))) - 2
    rw [w1, w2]; exact m1
  · rcases loopW c.bs hb with ⟨a, b⟩ | ⟨a, b, d⟩
    · exact .inl ⟨a, b⟩
    · exact .inr ⟨a, b, d, hh.w d⟩
  · rcases loopH c.bs hb with ⟨a, b⟩ | ⟨a, b, d⟩
    · exact .inl ⟨a, b⟩
    · exact .inr ⟨a, b, d, hh.h d⟩
  · intro X x1 x2 x3
    exact pre_a h hL ht l x1 x2 x3
  · intro Y y1 y2 y3
    exact pre_l h hL ht l y1 y2 y3
  · intro d b _
    rcases d with _ | _ | d <;> simp [bitOf]

theorem ms_lt {m n : Nat} (h : ∀ b, m.testBit b = true → b < n) : m < 2 ^ n := by
  refine Nat.lt_pow_two_of_testBit _ fun i hi => ?_
  by_contra hne
  have := h i (by simpa using hne)
  omega

theorem uv_eq {F : Copy.Av1.Fmt} {b layout : Nat} (hb : b < 22) (hl : Intra.LayoutOk F layout) (hs : F.subX = true → F.subY = false → bsH b ≤ bsW b) :
    szOf (maxTx b layout) = Av1.uvTxSize false F.subX F.subY (4 * bsW b) (4 * bsH b) := by
  have key : ∀ l ∈ [1, 2, 3], ∀ b < 22, (l = 2 → bsH b ≤ bsW b) → szOf (maxTx b l) = Av1.uvTxSize false (decide (l ≤ 2)) (decide (l = 1)) (4 * bsW b) (4 * bsH b) := by decide +kernel
  unfold Intra.LayoutOk at hl
  simp only [Prod.mk.injEq] at hl
  rcases hl with ⟨a, b', e⟩ | ⟨a, b', e⟩ | ⟨a, b', e⟩
  · rw [e, a, b']; exact key 1 (by simp) b hb (fun h => absurd h (by decide))
  · rw [e, a, b']; exact key 2 (by simp) b hb (fun _ => hs a b')
  · rw [e, a, b']; exact key 3 (by simp) b hb (fun h => absurd h (by decide))

theorem max_zero : ∀ b < 22, maxTx b 0 = 0 → bsW b = 1 ∧ bsH b = 1 ∧ ∀ l ∈ [1, 2, 3], maxTx b l = 0 := by decide +kernel

theorem coef_zero : ∀ (n depth tx xo yo x y r k : Nat), coefTx (0, 0) n depth tx xo yo x y r k = tx
  | 0, _, _, _, _, _, _, _, _ => rfl
  | n + 1, depth, tx, xo, yo, x, y, r, k => by
    unfold coefTx
    rw [if_neg]
    rcases depth with _ | _ | d <;> simp [bitOf]

theorem fill_in {row col h w : Nat} {sz : Nat × Nat} {t : Av1.TxSizes} {r k : Nat} (h1 : row ≤ r ∧ r < row + h ∧ col ≤ k ∧ k < col + w) : Av1.fill row col h w sz t r k = sz := if_pos h1
theorem fill_out {row col h w : Nat} {sz : Nat × Nat} {t : Av1.TxSizes} {r k : Nat} (h1 : ¬ (row ≤ r ∧ r < row + h ∧ col ≤ k ∧ k < col + w)) : Av1.fill row col h w sz t r k = t r k := if_neg h1

/-- **C82.** read_vartx_tree reads the same symbols with the same contexts as read_block_tx_size of the specification, and finds the same transforms. The contexts it leaves are right
for the blocks after it. -/
theorem C82_block (h : Run f sb128 T before after c) {F : Copy.Av1.Fmt} (hL : ∀ d ∈ blocks before, LeftOk f d (left d)) (ht : Holds left before t0) (l : Nat → Nat) :
    Same ok (Rel H F f c skip t0 (ctxAt sb128 left l before c).a (ctxAt sb128 left l before c).l)
      (readVartxTree H f c skip (ctxAt sb128 left l before c).a (ctxAt sb128 left l before c).l)
      (Av1.read_block_tx_size (envAt H f T left before skip c) t0) := by
  have hb := h.placed.1
  obtain ⟨w1, w2⟩ := width_eq hb
  obtain ⟨m1, m2, m3, m4⟩ := max_facts c.bs hb
  obtain ⟨n1, n2, n3⟩ := max_log c.bs hb
  obtain ⟨l1, l2⟩ := bs_logs c.bs hb
  have hpos := (h.facts.1.call rfl).pos
  have h32 := (Part.Ctx.C73_inside h).2
  have q1 : bsW c.bs * 4 / 4 = bsW c.bs := by omega
  have q2 : bsH c.bs * 4 / 4 = bsH c.bs := by omega
  have hq : Av1.read_block_tx_size (envAt H f T left before skip c) t0 =
      if H.switchable = true ∧ Intra.miSize c.bs > 0 ∧ skip = false ∧ H.lossless = false then
        (Av1.steps (bsH c.bs) (txH (maxTx c.bs 0))).foldlM (fun t i => (Av1.steps (bsW c.bs) (txW (maxTx c.bs 0))).foldlM (fun t j =>
          Av1.read_var_tx_size (envAt H f T left before skip c) 2 (c.y + i) (c.x + j) (szOf (maxTx c.bs 0)) t) t) t0
      else pure (Av1.fill c.y c.x (bsH c.bs) (bsW c.bs) (if H.lossless then (4, 4) else szOf (maxTx c.bs 0)) t0) := by
    unfold Av1.read_block_tx_size
    dsimp only [envAt]
    rw [w1, w2, n3, sz1, sz2, q1, q2]
    rfl
  rw [hq]
  unfold readVartxTree
  dsimp only
  have inC : ∀ r k, c.covers k r ↔ (c.y ≤ r ∧ r < c.y + bsH c.bs ∧ c.x ≤ k ∧ k < c.x + bsW c.bs) := by
    intro r k; unfold Call.covers; omega
  have hmax : szOf (maxTx c.bs 0) = Intra.Av1.Max_Tx_Size_Rect (4 * bsW c.bs, 4 * bsH c.bs) := by rw [← n3, Nat.mul_comm, Nat.mul_comm (bsH c.bs)]
  by_cases c1 : skip = false ∧ (H.lossless = true ∨ maxTx c.bs 0 = 0)
  · obtain ⟨rfl, c1⟩ := c1
    rw [if_pos ⟨rfl, c1⟩, if_neg (c := H.switchable = true ∧ Intra.miSize c.bs > 0 ∧ false = false ∧ H.lossless = false)]
    swap
    · rintro ⟨-, z, -, z2⟩
      rcases c1 with c1 | c1
      · rw [c1] at z2; cases z2
      · rw [m4.1 c1] at z; omega
    have hsz : (if H.lossless then (4, 4) else szOf (maxTx c.bs 0)) = (4, 4) := by
      cases hl : H.lossless with
      | true => rfl
      | false =>
        rcases c1 with c1 | c1
        · rw [hl] at c1; cases c1
        · rw [c1]; rfl
    rw [hsz, l1, l2]
    refine Same.ret ?_
    constructor
    · dsimp only
      refine ⟨by omega, ?_⟩
      by_cases hl : H.lossless = true
      · rw [if_pos ⟨hl, rfl⟩]; rfl
      · rw [if_neg (fun hh => hl hh.1), ← hmax]
        rcases c1 with c1 | c1
        · exact absurd c1 hl
        · rw [c1]
    · intro _ r k hc _ _
      rw [fill_in ((inC r k).1 hc)]
      unfold unitTx
      rw [coef_zero]
      exact ⟨rfl, show 0 < 19 from by decide⟩
    · intro r k hc
      exact fill_out fun hh => hc ((inC r k).2 hh)
    · exact ⟨fun b hh => by simp at hh, show 0 < 65536 from by decide⟩
    · exact fun _ => ⟨rfl, rfl⟩
    · intro _ hl hs
      dsimp only
      cases hll : H.lossless with
      | true => rfl
      | false =>
        rcases c1 with c1 | c1
        · rw [hll] at c1; cases c1
        · rw [← uv_eq hb hl hs, (max_zero c.bs hb c1).2.2 H.layout (by unfold Intra.LayoutOk at hl; simp only [Prod.mk.injEq] at hl; simp; omega)]
    · intro hsw
      rw [if_pos hsw, if_pos hsw]
      constructor
      · intro _ X x1 x2 _
        rw [if_neg (by simp)]
        dsimp only
        rw [fill_in (by omega)]
        unfold setR
        rw [if_pos ⟨x1, x2⟩]
        rfl
      · intro _ Y y1 y2 _
        rw [if_neg (by simp)]
        dsimp only
        rw [fill_in (by omega)]
        unfold setR
        rw [if_pos (by omega)]
        rfl
    · intro X hX
      dsimp only
      split
      · exact if_neg hX
      · rfl
    · intro i hi
      dsimp only
      split
      · exact if_neg hi
      · rfl
  rw [if_neg c1]
  by_cases c2 : H.switchable = false ∨ skip = true
  · rw [if_pos c2, if_neg (c := H.switchable = true ∧ Intra.miSize c.bs > 0 ∧ skip = false ∧ H.lossless = false)]
    swap
    · rintro ⟨z, -, z2, -⟩
      rcases c2 with c2 | c2
      · rw [c2] at z; cases z
      · rw [c2] at z2; cases z2
    refine Same.ret ?_
    constructor
    · dsimp only
      refine ⟨m1, ?_⟩
      rw [if_neg (fun hh => c1 ⟨hh.2, .inl hh.1⟩), hmax]
    · intro hn r k hc _ _
      rw [fill_in ((inC r k).1 hc)]
      unfold unitTx
      rw [coef_zero]
      refine ⟨?_, m1⟩
      rw [if_neg]
      intro hl
      cases hsk : skip with
      | true => exact hn ⟨hl, hsk⟩
      | false => exact c1 ⟨hsk, .inl hl⟩
    · intro r k hc
      exact fill_out fun hh => hc ((inC r k).2 hh)
    · exact ⟨fun b hh => by simp at hh, show 0 < 65536 from by decide⟩
    · exact fun _ => ⟨rfl, rfl⟩
    · intro hn hl hs
      dsimp only
      have : H.lossless = false := by
        cases hll : H.lossless with
        | false => rfl
        | true =>
          cases hsk : skip with
          | true => exact absurd ⟨hll, hsk⟩ hn
          | false => exact absurd ⟨hsk, .inl hll⟩ c1
      rw [this]
      exact uv_eq hb hl hs
    · intro hsw
      have hsk : skip = true := by
        rcases c2 with c2 | c2
        · rw [c2] at hsw; cases hsw
        · exact c2
      rw [if_pos hsw, if_pos hsw, l1, l2]
      constructor
      · intro _ X x1 x2 _
        dsimp only
        rw [if_pos (c := skip = true ∧ true = true) ⟨hsk, rfl⟩]
        unfold setR
        rw [if_pos ⟨x1, x2⟩, l1]
      · intro _ Y y1 y2 _
        dsimp only
        rw [if_pos (c := skip = true ∧ true = true) ⟨hsk, rfl⟩]
        unfold setR
        rw [if_pos (by omega), l2]
    · intro X hX
      dsimp only
      split
      · rw [l1]; exact if_neg hX
      · rfl
    · intro i hi
      dsimp only
      split
      · rw [l2]; exact if_neg hi
      · rfl
  rw [if_neg c2, if_pos (c := H.switchable = true ∧ Intra.miSize c.bs > 0 ∧ skip = false ∧ H.lossless = false)]
  swap
  · refine ⟨?_, ?_, ?_, ?_⟩
    · cases hs : H.switchable with
      | true => rfl
      | false => exact absurd (.inl hs) c2
    · rcases Nat.eq_zero_or_pos (Intra.miSize c.bs) with z | z
      · cases hsk : skip with
        | true => exact absurd (.inr hsk) c2
        | false => exact absurd ⟨hsk, .inr (m4.2 z)⟩ c1
      · exact z
    · cases hsk : skip with
      | true => exact absurd (.inr hsk) c2
      | false => rfl
    · cases hl : H.lossless with
      | false => rfl
      | true =>
        cases hsk : skip with
        | true => exact absurd (.inr hsk) c2
        | false => exact absurd ⟨hsk, .inl hl⟩ c1
  have hsk : skip = false := by
    cases hsk : skip with
    | true => exact absurd (.inr hsk) c2
    | false => rfl
  have hll : H.lossless = false := by
    cases hl : H.lossless with
    | false => rfl
    | true => exact absurd ⟨hsk, .inl hl⟩ c1
  rw [← bind_pure' (List.foldlM _ t0 _)]
  refine Same.bind (grid h hL ht l) fun s t o => Same.ret ?_
  have b0 : ∀ b, s.ms.1.testBit b = true → b = 0 ∨ b = 1 ∨ b = 4 ∨ b = 5 := by
    intro b hbit
    by_contra hne
    have := o.fm 0 b (fun hm => by have := mb_bits hm; omega)
    simp [bitOf, hbit] at this
  have b1 : ∀ b, s.ms.2.testBit b = true → b < 16 := by
    intro b hbit
    by_contra hne
    have := o.fm 1 b (fun hm => by have := mb_bits hm; omega)
    simp [bitOf, hbit] at this
  have t0' : s.ms.1 % 256 = s.ms.1 := Nat.mod_eq_of_lt (ms_lt (n := 8) fun b hh => by have := b0 b hh; omega)
  rw [t0']
  constructor
  · dsimp only
    refine ⟨m1, ?_⟩
    rw [if_neg (by rw [hll]; simp), hmax]
  · intro _ r k hc hr hk
    exact o.dec r k ((inC r k).1 hc) hr hk
  · intro r k hc
    exact o.ft r k fun hh => hc ((inC r k).2 hh)
  · exact ⟨b0, ms_lt (n := 16) b1⟩
  · intro hl; rw [hll] at hl; cases hl
  · intro _ hl hs
    rw [hll]
    exact uv_eq hb hl hs
  · intro _
    constructor
    · intro hr X x1 x2 x3
      rw [if_neg (by rw [hsk]; simp)]
      exact o.oa hr X x1 x2 x3
    · intro hc Y y1 y2 y3
      rw [if_neg (by rw [hsk]; simp)]
      exact o.ol hc Y y1 y2 y3
  · intro X hX; exact o.fa X hX
  · intro i hi; exact o.fl i hi
end

/-- **C82.** The entries of the contexts after the block are those that `Ctxs.update` sets. -/
theorem C82_frame {H : Cfg} {F : Copy.Av1.Fmt} {skip : Bool} {t0 t : Av1.TxSizes} {s : Ctxs} {o : Out} (hr : Rel H F f c skip t0 s.a s.l o t) :
    s.update ⟨skip, true, o.a, o.l, t⟩ c = { s with a := o.a, l := o.l } := by
  unfold Ctxs.update
  congr 1
  · funext X
    by_cases hX : c.x ≤ X ∧ X < c.x + bsW c.bs
    · exact if_pos hX
    · rw [if_neg hX, hr.frameA X hX]
  · funext Y
    by_cases hY : c.y % 32 ≤ Y ∧ Y < c.y % 32 + bsH c.bs
    · exact if_pos hY
    · rw [if_neg hY, hr.frameL Y hY]

/-- **C82.** What intra blocks leave is right for the blocks after them as well. -/
theorem C82_intra (f : Frame) (d : Call) (skip : Bool) {tx : Nat} (ht : tx < 19) : LeftOk f d (Left.intra skip tx) := by
  obtain ⟨f1, f2, -⟩ := tx_facts tx ht
  constructor
  · intro _ X _ _ _
    show 4 * 2 ^ txLw tx = if skip = true ∧ false = true then _ else 4 * txW tx
    rw [if_neg (by simp), f1]
  · intro _ Y _ _ _
    show 4 * 2 ^ txLh tx = if skip = true ∧ false = true then _ else 4 * txH tx
    rw [if_neg (by simp), f2]

/-! ## Reading the coefficients -/

theorem kid_coef {ms : Nat × Nat} {n depth tx xo yo x y r k i j : Nat} (ht : tx < 19) (h0 : tx ≠ 0) (hb : bitOf ms depth (yo * 4 + xo) = true)
    (h : InReg (y + j * txH (txSub tx)) (x + i * txW (txSub tx)) (txH (txSub tx)) (txW (txSub tx)) r k) :
    coefTx ms (n + 1) depth tx xo yo x y r k = coefTx ms n (depth + 1) (txSub tx) (xo * 2 + i) (yo * 2 + j) (x + i * txW (txSub tx)) (y + j * txH (txSub tx)) r k := by
  have hp := tx_pos (tx_sub tx ht).1
  unfold InReg at h
  have e1 : (k - x) / txW (txSub tx) = i := by
    rw [Nat.div_eq_iff (by omega), Nat.mul_comm]
    rw [Nat.mul_comm i] at h
    omega
  have e2 : (r - y) / txH (txSub tx) = j := by
    rw [Nat.div_eq_iff (by omega), Nat.mul_comm]
    rw [Nat.mul_comm j] at h
    omega
  conv => lhs; unfold coefTx
  rw [if_pos hb, if_neg h0, e1, e2]

theorem coef_le {ms : Nat × Nat} : ∀ (n depth tx xo yo x y r k : Nat), tx < 19 → coefTx ms n depth tx xo yo x y r k < 19 →
    txW (coefTx ms n depth tx xo yo x y r k) ≤ txW tx ∧ txH (coefTx ms n depth tx xo yo x y r k) ≤ txH tx
  | 0, _, _, _, _, _, _, _, _, _, _ => ⟨Nat.le_refl _, Nat.le_refl _⟩
  | n + 1, depth, tx, xo, yo, x, y, r, k, ht, h => by
    unfold coefTx at h ⊢
    by_cases hb : bitOf ms depth (yo * 4 + xo) = true
    · rw [if_pos hb] at h ⊢
      by_cases h0 : tx = 0
      · rw [if_pos h0] at h; omega
      · rw [if_neg h0] at h ⊢
        have := coef_le n _ _ _ _ _ _ r k (tx_sub tx ht).1 h
        have hk := tx_kids tx ht h0
        omega
    · rw [if_neg hb]; exact ⟨Nat.le_refl _, Nat.le_refl _⟩

/-- A call of transform_block. -/
def blkOf (e : Nat × Nat × Nat) : (Nat × Nat) × Nat × Nat := (szOf e.1, 4 * e.2.1, 4 * e.2.2)

theorem tree_out {MiRows MiCols : Nat} {t : Av1.TxSizes} (m X Y w h : Nat) (ho : X ≥ MiCols * 4 ∨ Y ≥ MiRows * 4) : Av1.transform_tree MiRows MiCols t m X Y w h = [] := by
  cases m
  · rfl
  · unfold Av1.transform_tree; rw [if_pos ho]

/-- One tree. -/
theorem tree_coefs {bw bh : Nat} {ms : Nat × Nat} {t : Av1.TxSizes} : ∀ (n depth tx xo yo x y m : Nat), n < m → tx < 19 → y < bh → x < bw →
    (∀ r k, InReg y x (txH tx) (txW tx) r k → r < bh → k < bw → t r k = szOf (coefTx ms n depth tx xo yo x y r k) ∧ coefTx ms n depth tx xo yo x y r k < 19) →
    (coefTree bw bh ms n depth tx xo yo x y).map blkOf = Av1.transform_tree bh bw t m (4 * x) (4 * y) (4 * txW tx) (4 * txH tx)
  | _, _, _, _, _, _, _, 0, hm, _, _, _, _ => by omega
  | 0, depth, tx, xo, yo, x, y, m + 1, hm, ht, hy, hx, h => by
    have hp := tx_pos ht
    have e := (h y x (by unfold InReg; omega) hy hx).1
    unfold coefTree Av1.transform_tree
    rw [if_neg (show ¬ (4 * x ≥ bw * 4 ∨ 4 * y ≥ bh * 4) by omega), show 4 * y / 4 = y by omega, show 4 * x / 4 = x by omega, e]
    have e' : coefTx ms 0 depth tx xo yo x y y x = tx := rfl
    dsimp only
    rw [e', if_pos (show 4 * txW tx ≤ (szOf tx).1 ∧ 4 * txH tx ≤ (szOf tx).2 from ⟨Nat.le_refl _, Nat.le_refl _⟩)]
    rfl
  | n + 1, depth, tx, xo, yo, x, y, m + 1, hm, ht, hy, hx, h => by
    have hp := tx_pos ht
    have hi : InReg y x (txH tx) (txW tx) y x := by unfold InReg; omega
    obtain ⟨e, e19⟩ := h y x hi hy hx
    unfold coefTree Av1.transform_tree
    rw [if_neg (show ¬ (4 * x ≥ bw * 4 ∨ 4 * y ≥ bh * 4) by omega), show 4 * y / 4 = y by omega, show 4 * x / 4 = x by omega, e]
    dsimp only
    by_cases hb : bitOf ms depth (yo * 4 + xo) = true
    · have h0 : tx ≠ 0 := by
        intro h0
        unfold coefTx at e19
        rw [if_pos hb, if_pos h0] at e19; omega
      have hs := (tx_sub tx ht).1
      have hps := tx_pos hs
      have hkids := tx_kids tx ht h0
      have e2 := kid_coef (n := n) (i := 0) (j := 0) (x := x) (y := y) (r := y) (k := x) ht h0 hb (by unfold InReg; omega)
      have hle := coef_le (ms := ms) n (depth + 1) (txSub tx) (xo * 2 + 0) (yo * 2 + 0) (x + 0 * txW (txSub tx)) (y + 0 * txH (txSub tx)) y x hs (by rw [← e2]; exact e19)
      rw [← e2] at hle
      rw [if_pos hb, if_neg (show ¬ (4 * txW tx ≤ (szOf (coefTx ms (n + 1) depth tx xo yo x y y x)).1 ∧ 4 * txH tx ≤ (szOf (coefTx ms (n + 1) depth tx xo yo x y y x)).2) by
        show ¬ (4 * txW tx ≤ 4 * _ ∧ 4 * txH tx ≤ 4 * _)
        omega)]
      have kid : ∀ i j x' y', x' = x + i * txW (txSub tx) → y' = y + j * txH (txSub tx) → i * txW (txSub tx) + txW (txSub tx) ≤ txW tx → j * txH (txSub tx) + txH (txSub tx) ≤ txH tx →
          y' < bh → x' < bw → (coefTree bw bh ms n (depth + 1) (txSub tx) (xo * 2 + i) (yo * 2 + j) x' y').map blkOf =
            Av1.transform_tree bh bw t m (4 * x') (4 * y') (4 * txW (txSub tx)) (4 * txH (txSub tx)) := by
        intro i j x' y' e1 e2 h1 h2 hy' hx'
        subst e1 e2
        refine tree_coefs n (depth + 1) (txSub tx) _ _ _ _ m (by omega) hs hy' hx' fun r k hr h3 h4 => ?_
        rw [← kid_coef ht h0 hb hr]
        exact h r k (by unfold InReg at hr ⊢; omega) h3 h4
      have k00 := kid 0 0 x y (by omega) (by omega) (by omega) (by omega) hy hx
      rw [List.map_append, List.map_append, show xo * 2 = xo * 2 + 0 from rfl, show yo * 2 = yo * 2 + 0 from rfl]
      rw [k00]
      rcases hkids with ⟨a1, a2, a3⟩ | ⟨a1, a2, a3⟩ | ⟨a1, a2, a3⟩
      · rw [if_neg (show ¬ 4 * txW tx > 4 * txH tx by omega), if_neg (show ¬ 4 * txW tx < 4 * txH tx by omega), show 4 * txW tx / 2 = 4 * txW (txSub tx) by omega,
          show 4 * txH tx / 2 = 4 * txH (txSub tx) by omega, ← Nat.mul_add, ← Nat.mul_add]
        have c1 : txW tx ≥ txH tx := by omega
        have c2 : txH tx ≥ txW tx := by omega
        by_cases hx2 : x + txW (txSub tx) < bw
        · rw [if_pos ⟨c1, hx2⟩, kid 1 0 _ y (by omega) (by omega) (by omega) (by omega) hy hx2]
          by_cases hy2 : y + txH (txSub tx) < bh
          · rw [if_pos ⟨c2, hy2⟩, if_pos ⟨c1, hx2⟩, List.map_append, kid 0 1 x _ (by omega) (by omega) (by omega) (by omega) hy2 hx, kid 1 1 _ _ (by omega) (by omega) (by omega) (by omega) hy2 hx2]
            simp only [List.append_assoc]
          · rw [if_neg (fun hh => hy2 hh.2), tree_out m (4 * x) (4 * (y + txH (txSub tx))) _ _ (.inr (by omega)), tree_out m (4 * (x + txW (txSub tx))) (4 * (y + txH (txSub tx))) _ _ (.inr (by omega))]
            simp
        · rw [if_neg (fun hh => hx2 hh.2), tree_out m (4 * (x + txW (txSub tx))) (4 * y) _ _ (.inl (by omega)), tree_out m (4 * (x + txW (txSub tx))) (4 * (y + txH (txSub tx))) _ _ (.inl (by omega))]
          by_cases hy2 : y + txH (txSub tx) < bh
          · rw [if_pos ⟨c2, hy2⟩, if_neg (fun hh => hx2 hh.2), List.map_append, kid 0 1 x _ (by omega) (by omega) (by omega) (by omega) hy2 hx]
            simp
          · rw [if_neg (fun hh => hy2 hh.2), tree_out m (4 * x) (4 * (y + txH (txSub tx))) _ _ (.inr (by omega))]
            simp
      · rw [if_pos (show 4 * txW tx > 4 * txH tx by omega), show 4 * txW tx / 2 = 4 * txW (txSub tx) by omega, show 4 * txH tx = 4 * txH (txSub tx) by omega, ← Nat.mul_add,
          if_neg (show ¬ (txH tx ≥ txW tx ∧ y + txH (txSub tx) < bh) by omega)]
        by_cases hx2 : x + txW (txSub tx) < bw
        · rw [if_pos ⟨by omega, hx2⟩, kid 1 0 _ y (by omega) (by omega) (by omega) (by omega) hy hx2]
          simp
        · rw [if_neg (fun hh => hx2 hh.2), tree_out m (4 * (x + txW (txSub tx))) (4 * y) _ _ (.inl (by omega))]
          simp
      · rw [if_neg (show ¬ 4 * txW tx > 4 * txH tx by omega), if_pos (show 4 * txW tx < 4 * txH tx by omega), show 4 * txH tx / 2 = 4 * txH (txSub tx) by omega,
          show 4 * txW tx = 4 * txW (txSub tx) by omega, ← Nat.mul_add, if_neg (show ¬ (txW tx ≥ txH tx ∧ x + txW (txSub tx) < bw) by omega)]
        by_cases hy2 : y + txH (txSub tx) < bh
        · rw [if_pos ⟨by omega, hy2⟩, if_neg (show ¬ (txW tx ≥ txH tx ∧ x + txW (txSub tx) < bw) by omega), List.map_append, kid 0 1 x _ (by omega) (by omega) (by omega) (by omega) hy2 hx]
          simp
        · rw [if_neg (fun hh => hy2 hh.2), tree_out m (4 * x) (4 * (y + txH (txSub tx))) _ _ (.inr (by omega))]
          simp
    · have : coefTx ms (n + 1) depth tx xo yo x y y x = tx := by unfold coefTx; rw [if_neg hb]
      rw [if_neg hb, this, if_pos (show 4 * txW tx ≤ (szOf tx).1 ∧ 4 * txH tx ≤ (szOf tx).2 from ⟨Nat.le_refl _, Nat.le_refl _⟩)]
      rfl

theorem for_one {s e n v : Nat} (hn : 0 < n) (h1 : v < e) (h2 : e ≤ v + s) : forList s e n v = [v] := by
  cases n with
  | zero => omega
  | succ n =>
    unfold forList
    rw [if_pos h1]
    cases n with
    | zero => rfl
    | succ n => unfold forList; rw [if_neg (by omega)]

theorem for_two {s e n v : Nat} (hn : 1 < n) (h1 : v + s < e) (h2 : e ≤ v + s + s) : forList s e n v = [v, v + s] := by
  cases n with
  | zero => omega
  | succ n =>
    unfold forList
    rw [if_pos (by omega), for_one (by omega) h1 h2]

theorem for_unit : ∀ (n e v : Nat), e ≤ v + n → forList 1 e n v = (List.range (e - v)).map (v + ·)
  | 0, e, v, h => by rw [show e - v = 0 by omega]; rfl
  | n + 1, e, v, h => by
    unfold forList
    by_cases hv : v < e
    · rw [if_pos hv, for_unit n e (v + 1) (by omega), show e - v = (e - (v + 1)) + 1 by omega, List.range_succ_eq_map]
      simp only [List.map_cons, List.map_map, Nat.add_zero]
      congr 1
      refine List.map_congr_left fun a _ => ?_
      show v + 1 + a = v + (a + 1)
      omega
    · rw [if_neg hv, show e - v = 0 by omega]; rfl

theorem range_cut {α : Type} {g : Nat → List α} {P : Nat → Prop} [DecidablePred P] {K : Nat} (hP : ∀ x, P x ↔ K ≤ x) : ∀ N : Nat,
    (List.range N).flatMap (fun x => if P x then [] else g x) = (List.range (min N K)).flatMap g
  | 0 => by simp
  | N + 1 => by
    rw [List.range_succ, List.flatMap_append, range_cut hP N]
    by_cases h : K ≤ N
    · rw [show min (N + 1) K = K by omega, show min N K = K by omega]
      simp [(hP N).2 h]
    · rw [show min (N + 1) K = N + 1 by omega, show min N K = N by omega, List.range_succ, List.flatMap_append]
      simp [(hP N).not.2 h]

theorem steps4 (n : Nat) : Av1.steps (n * 4) 4 = (List.range n).map (· * 4) := by
  unfold Av1.steps; rw [Nat.mul_div_cancel _ (by decide)]

/-- A chunk of TX_4X4. -/
theorem chunk_4x4 {bw bh x y vx vy ex ey nx ny W H : Nat} (hny : ey ≤ vy + ny) (hnx : ex ≤ vx + nx) (hey : ey - vy = min H (bh - (y + vy))) (hex : ex - vx = min W (bw - (x + vx))) :
    ((forList 1 ey ny vy).flatMap fun j => (forList 1 ex nx vx).flatMap fun i => [blkOf (0, x + i, y + j)]) =
      (Av1.steps (H * 4) 4).flatMap fun j => (Av1.steps (W * 4) 4).flatMap fun i =>
        if (x + vx) * 4 + i ≥ bw * 4 ∨ (y + vy) * 4 + j ≥ bh * 4 then [] else [((4, 4), (x + vx) * 4 + i, (y + vy) * 4 + j)] := by
  rw [for_unit ny ey vy hny, for_unit nx ex vx hnx, steps4, steps4, hey, hex]
  simp only [List.flatMap_map]
  rw [← range_cut (P := fun j => bh - (y + vy) ≤ j) (fun _ => Iff.rfl) H]
  congr 1
  funext j
  by_cases hj : bh - (y + vy) ≤ j
  · rw [if_pos hj]
    symm
    rw [List.flatMap_eq_nil_iff]
    intro i _
    rw [if_pos (by omega)]
  · rw [if_neg hj, ← range_cut (P := fun i => bw - (x + vx) ≤ i) (fun _ => Iff.rfl) W]
    congr 1
    funext i
    by_cases hi : bw - (x + vx) ≤ i
    · rw [if_pos hi, if_pos (by omega)]
    · rw [if_neg hi, if_neg (by omega)]
      show [((4, 4), 4 * (x + (vx + i)), 4 * (y + (vy + j)))] = _
      rw [show 4 * (x + (vx + i)) = (x + vx) * 4 + i * 4 by omega, show 4 * (y + (vy + j)) = (y + vy) * 4 + j * 4 by omega]

theorem tree_zero {bw bh n depth tx xo yo x y : Nat} : coefTree bw bh (0, 0) n depth tx xo yo x y = [(tx, x, y)] := by
  cases n with
  | zero => rfl
  | succ n =>
    unfold coefTree
    rw [if_neg]
    rcases depth with _ | _ | d <;> simp [bitOf]

/-- The widths and heights of blocks, in chunks of 64 samples. -/
theorem chunks : ∀ b < 22, ((bsW b ≤ 16 ∧ max 1 (bsW b * 4 / 64) = 1 ∧ txW (maxTx b 0) = bsW b) ∨ (bsW b = 32 ∧ max 1 (bsW b * 4 / 64) = 2 ∧ txW (maxTx b 0) = 16)) ∧
    ((bsH b ≤ 16 ∧ max 1 (bsH b * 4 / 64) = 1 ∧ txH (maxTx b 0) = bsH b) ∨ (bsH b = 32 ∧ max 1 (bsH b * 4 / 64) = 2 ∧ txH (maxTx b 0) = 16)) ∧
    (bsW b = 32 → bsH b ≥ 16) ∧ (bsH b = 32 → bsW b ≥ 16) := by decide +kernel

/-- Where the chunk `i` of a block is. -/
structure Geo (W bw x i : Nat) : Prop where
  pos : 0 < min W (bw - x)
  lt : 16 * i < min (min W (bw - x)) (16 * i + 16)
  le : min (min W (bw - x)) (16 * i + 16) ≤ 16 * i + min 16 W
  le' : min (min W (bw - x)) (16 * i + 16) ≤ 16 * i + min W (bw - x)
  sub : min (min W (bw - x)) (16 * i + 16) - 16 * i = min (min 16 W) (bw - (x + 16 * i))
  ins : x + 16 * i < bw
  off : (if 16 * i ≠ 0 then 1 else 0) = i
  mul : 16 * i = i * min 16 W
  cov : ∀ k, x + 16 * i ≤ k → k < x + 16 * i + min 16 W → x ≤ k ∧ k < x + W

theorem geo {W bw x i : Nat} (h : i = 0 ∧ W ≤ 16 ∨ W = 32 ∧ i < 2 ∧ x + 16 < bw) (hx : x < bw) (hW : 0 < W) : Geo W bw x i := by
  rcases h with ⟨rfl, h⟩ | ⟨rfl, h1, h2⟩
  · constructor <;> first | omega | rfl
  · have : i = 0 ∨ i = 1 := by omega
    rcases this with rfl | rfl
    · constructor <;> first | omega | rfl
    · constructor <;> first | omega | rfl

/-- **C82.** The coefficients of the luma transforms are read in the order of the specification, for the same transforms at the same places. -/
theorem C82_coefs (h : Run f sb128 T before after c) {H : Cfg} {F : Copy.Av1.Fmt} {left : Call → Left} {t0 t : Av1.TxSizes} {a l : Nat → Nat} {o : Out} (hr : Rel H F f c false t0 a l o t) :
    (coefBlocks f c o.maxYtx (o.split0, o.split1)).map blkOf = Av1.residual_luma (envAt H f T left before false c) t := by
  have hb := h.placed.1
  obtain ⟨w1, w2⟩ := width_eq hb
  obtain ⟨m1, m2, m3, m4⟩ := max_facts c.bs hb
  obtain ⟨n1, n2, n3⟩ := max_log c.bs hb
  obtain ⟨kW, kH, k1, k2⟩ := chunks c.bs hb
  have hh := h.halves
  have hpos := (h.facts.1.call rfl).pos
  have hx : c.x < f.bw := by
    have := h.inX.2
    have := h.2.1.x1
    omega
  have hy : c.y < f.bh := by
    have := h.inY.2
    have := h.2.1.y1
    omega
  have eW : forList 16 (min (bsW c.bs) (f.bw - c.x)) (min (bsW c.bs) (f.bw - c.x)) 0 = (List.range (max 1 (bsW c.bs * 4 / 64))).map (16 * ·) := by
    rcases kW with ⟨a1, a2, -⟩ | ⟨a1, a2, -⟩
    · rw [a2, for_one (by omega) (by omega) (by omega)]; rfl
    · have := hh.w a1
      rw [a2, for_two (by omega) (by omega) (by omega)]; rfl
  have eH : forList 16 (min (bsH c.bs) (f.bh - c.y)) (min (bsH c.bs) (f.bh - c.y)) 0 = (List.range (max 1 (bsH c.bs * 4 / 64))).map (16 * ·) := by
    rcases kH with ⟨a1, a2, -⟩ | ⟨a1, a2, -⟩
    · rw [a2, for_one (by omega) (by omega) (by omega)]; rfl
    · have := hh.h a1
      rw [a2, for_two (by omega) (by omega) (by omega)]; rfl
  unfold coefBlocks Av1.residual_luma
  dsimp only
  rw [eW, eH]
  simp only [envAt, w1, w2, List.flatMap_map, List.map_flatMap]
  refine List.flatMap_congr fun j hj => List.flatMap_congr fun i hi => ?_
  have hj := List.mem_range.1 hj
  have hi := List.mem_range.1 hi
  have gW : Geo (bsW c.bs) f.bw c.x i := by
    refine geo ?_ hx hpos.1
    rcases kW with ⟨a1, a2, -⟩ | ⟨a1, a2, -⟩
    · exact .inl ⟨by omega, a1⟩
    · exact .inr ⟨a1, by omega, hh.w a1⟩
  have gH : Geo (bsH c.bs) f.bh c.y j := by
    refine geo ?_ hy hpos.2
    rcases kH with ⟨a1, a2, -⟩ | ⟨a1, a2, -⟩
    · exact .inl ⟨by omega, a1⟩
    · exact .inr ⟨a1, by omega, hh.h a1⟩
  obtain ⟨o1, o2⟩ := hr.max
  have szW : (if max 1 (bsW c.bs * 4 / 64) > 1 ∨ max 1 (bsH c.bs * 4 / 64) > 1 then 64 else bsW c.bs * 4) = min 16 (bsW c.bs) * 4 := by
    split <;> omega
  have szH : (if max 1 (bsW c.bs * 4 / 64) > 1 ∨ max 1 (bsH c.bs * 4 / 64) > 1 then 64 else bsH c.bs * 4) = min 16 (bsH c.bs) * 4 := by
    split <;> omega
  rw [szW, szH, Nat.add_comm 16 (16 * j)]
  clear szW szH kW kH k1 k2 eW eH hi hj n1 n2
  cases hl : H.lossless with
  | true =>
    rw [hl, if_pos ⟨rfl, rfl⟩] at o2
    have e0 : o.maxYtx = 0 := (tx_more o.maxYtx o1).2.2.2.2.1 o2
    obtain ⟨s0, s1⟩ := hr.none hl
    rw [e0, s0, s1, if_neg (c := true = false) (by decide)]
    simp only [tree_zero, List.map_cons, List.map_nil]
    have t1 : txW 0 = 1 ∧ txH 0 = 1 := by decide
    rw [t1.1, t1.2, chunk_4x4 (W := min 16 (bsW c.bs)) (H := min 16 (bsH c.bs)) (bw := f.bw) (bh := f.bh) gH.le' gW.le' gH.sub gW.sub, Nat.mul_comm i, Nat.mul_comm j]
    rfl
  | false =>
    rw [hl, if_neg (by simp), Nat.mul_comm, Nat.mul_comm 4 (bsH c.bs), n3] at o2
    have oW : txW o.maxYtx = min 16 (bsW c.bs) := by
      have := congrArg Prod.fst o2
      have : 4 * txW o.maxYtx = 4 * txW (maxTx c.bs 0) := this
      rw [← m2]; omega
    have oH : txH o.maxYtx = min 16 (bsH c.bs) := by
      have := congrArg Prod.snd o2
      have : 4 * txH o.maxYtx = 4 * txH (maxTx c.bs 0) := this
      rw [← m3]; omega
    rw [if_pos (c := false = false) rfl, for_one gH.pos gH.lt (by rw [oH]; exact gH.le), for_one gW.pos gW.lt (by rw [oW]; exact gW.le)]
    simp only [List.flatMap_cons, List.flatMap_nil, List.append_nil, Nat.sub_self, Nat.zero_div, Nat.add_zero]
    rw [gW.off, gH.off, tree_coefs (t := t) 2 0 o.maxYtx i j (c.x + 16 * i) (c.y + 16 * j) 5 (by omega) o1 gH.ins gW.ins ?_]
    · rw [oW, oH, Nat.mul_comm i, Nat.mul_comm j, Nat.mul_comm 4, Nat.mul_comm 4, Nat.mul_comm 4, Nat.mul_comm 4]
    · intro r k hrk h1 h2
      have g1 := gW.mul
      have g2 := gH.mul
      rw [← oW] at g1
      rw [← oH] at g2
      have hcov : c.covers k r := by
        unfold InReg at hrk
        rw [oW, oH] at hrk
        obtain ⟨a1, a2⟩ := gW.cov k hrk.2.2.1 hrk.2.2.2
        obtain ⟨b1, b2⟩ := gH.cov r hrk.1 hrk.2.1
        exact ⟨a1, a2, b1, b2⟩
      rw [g1, g2] at hrk ⊢
      rw [← unit_at o1 hrk]
      exact hr.tx (by simp) r k hcov h1 h2

/-! ## Examples -/

def exLeft (d : Call) : Left := Left.intra (d.x % 2 = 0) (d.bs % 5)
def exSizes (before : List Ev) : Av1.TxSizes := fun r k => (coverOf before k r).elim (0, 0) fun d => (exLeft d).tx r k
theorem exHolds (before : List Ev) : Holds exLeft before (exSizes before) := by
  intro r k d h
  unfold exSizes
  rw [h]; rfl


/-- The 16x4 block of the run in Part/Props. -/
example (skip : Bool) (l : Nat → Nat) := C82_block (ok := anything) Dav1d.Part.Ctx.smallRun_at (H := ⟨true, false, 1⟩) (F := ⟨true, true, true⟩) (skip := skip)
  (fun d _ => C82_intra _ d _ (by omega)) (exHolds _) l

/-- A 64x64 block of which 48 columns are in the frame: the first 32x32 part is split twice, and the one on the right of it once. -/
def exFrame : Frame := { Dav1d.Part.smallFrame with bw := 12, bh := 16 }
def exOut : Option Out × List Nat := (readVartxTree ⟨true, false, 1⟩ exFrame ⟨1, 3, 0, 0, 0, 0⟩ false (fun _ => 4) (fun _ => 4)).run Copy.listed [1, 1, 1, 0, 0, 99]
example : exOut.1.map (fun o => ([o.maxYtx, o.uvtx, o.split0, o.split1], (List.range 12).map o.a, (List.range 16).map o.l)) =
    some ([4, 3, 1, 3], [3, 3, 3, 3, 3, 3, 3, 3, 3, 3, 3, 3], [2, 2, 2, 2, 2, 2, 2, 2, 3, 3, 3, 3, 3, 3, 3, 3]) ∧ exOut.2 = [99] := by decide +kernel
example : exOut.1.map (fun o => coefBlocks exFrame ⟨1, 3, 0, 0, 0, 0⟩ o.maxYtx (o.split0, o.split1)) =
    some [(2, 0, 0), (2, 4, 0), (2, 0, 4), (2, 4, 4), (2, 8, 0), (2, 8, 4), (3, 0, 8), (3, 8, 8)] := by decide +kernel

end Dav1d.Syn.Vartx
