import Verif.Part.LpfOps
import Verif.Part.Props
/-!
# Deblocking filters exactly the edges of the specification

C76: for any tiling of the frame, any partition of the tiles and any order in which blocks of different tiles are decoded, loop_filter is called
exactly for the edges that 7.14.2 of the AV1 specification filters, with the filter size of 7.14.3 and the level of 7.14.4, each once.
-/
set_option linter.unusedVariables false
namespace Dav1d.Part.Lpf

/-- The blocks of a frame, in some order; the tiles are decoded each by decodeTile, with any values of the syntax elements, and possibly at the same time.
`C.D`, the frame size, is `f->w4` and `f->h4`; `C.f` has `f->bw` and `f->bh` (src/decode.c:3554-3557). -/
structure Decoded (C : Cfg) (G : Grid) (order : List ((Nat × Nat) × Call)) : Prop where
  ssH : C.comp.plane.ssH ≤ 1
  ssV : C.comp.plane.ssV ≤ 1
  pass : C.f.pass ≠ 2
  w4 : C.f.bw = (C.D.w4 + 1) / 2 * 2
  h4 : C.f.bh = (C.D.h4 + 1) / 2 * 2
  grid : G.Ok C.f C.sb128
  mem : ∀ e ∈ order, e.1.1 < G.rows ∧ e.1.2 < G.cols
  tiles : ∀ t : Nat × Nat, t.1 < G.rows → t.2 < G.cols → ∃ (σ : Type) (S : Src σ) (s : σ) (st : St σ),
    (∀ s bl ctx, (S.part s bl ctx).1 ≤ typeCount bl) ∧
    decodeTile S C.f C.sb128 (G.tile C.f C.sb128 t).x0 (G.tile C.f C.sb128 t).x1 (G.tile C.f C.sb128 t).y0 (G.tile C.f C.sb128 t).y1 s = .ok st ∧
    callsOf order t = blocks st.log
  valid : ∀ e ∈ order, (C.info e.2).Valid C.comp e.2

variable {C : Cfg} {G : Grid} {order : List ((Nat × Nat) × Call)} {own : Nat → Nat → (Nat × Nat) × Call}

theorem Decoded.ok (h : Decoded C G order) : FrameOk C G order := by
  have h1 := h.w4
  have h2 := h.h4
  refine ⟨by have := h.ssH; omega, by have := h.ssV; omega, by omega, by omega, by omega, by omega, h.grid, h.mem, ?_⟩
  intro t t1 t2
  obtain ⟨σ, S, s, st, hS, hd, hb⟩ := h.tiles t t1 t2
  have hT : TileOk C.f C.sb128 (G.tile C.f C.sb128 t) := tile_ok h.grid (by omega) (by omega)
  refine ⟨by have := h.ssH; omega, by have := h.ssV; omega, by omega, by omega, hT, ?_, ?_⟩
  · rw [hb]; exact laid_of h.pass hT hS hd
  · intro c hc; exact h.valid _ (mem_callsOf.1 hc)

/-! ## Sizes are powers of two -/

theorem varTx_pow (split : Nat → Nat → Nat → Bool) : ∀ (n depth a b row col y x : Nat), ∃ a' b', a' ≤ a ∧ b' ≤ b ∧
    Av1.varTx split n depth (2 ^ a) (2 ^ b) row col y x = (2 ^ a', 2 ^ b')
  | 0, depth, a, b, row, col, y, x => ⟨a, b, Nat.le_refl _, Nat.le_refl _, rfl⟩
  | n + 1, depth, a, b, row, col, y, x => by
    rw [Av1.varTx]
    split
    · exact ⟨a, b, Nat.le_refl _, Nat.le_refl _, rfl⟩
    · rename_i hne
      dsimp only
      have half : ∀ {e : Nat}, 0 < e → 2 ^ e / 2 = 2 ^ (e - 1) := by
        intro e he
        obtain ⟨e', rfl⟩ : ∃ e', e = e' + 1 := ⟨e - 1, by omega⟩
        rw [Nat.pow_succ, Nat.mul_div_cancel _ (by decide)]
        rfl
      have hle : 2 ^ b ≤ 2 ^ a ↔ b ≤ a := Nat.pow_le_pow_iff_right (by decide)
      have hle' : 2 ^ a ≤ 2 ^ b ↔ a ≤ b := Nat.pow_le_pow_iff_right (by decide)
      have hab : 0 < a ∨ 0 < b := by
        rcases Nat.eq_zero_or_pos a with e | e
        · rcases Nat.eq_zero_or_pos b with e2 | e2
          · subst e; subst e2; exact absurd (.inl ⟨rfl, rfl⟩) hne
          · exact .inr e2
        · exact .inl e
      have e1 : (if 2 ^ b ≤ 2 ^ a then 2 ^ a / 2 else 2 ^ a) = 2 ^ (if b ≤ a then a - 1 else a) := by
        by_cases hc : b ≤ a
        · rw [if_pos (hle.2 hc), if_pos hc, half (by omega)]
        · rw [if_neg (fun e => hc (hle.1 e)), if_neg hc]
      have e2 : (if 2 ^ a ≤ 2 ^ b then 2 ^ b / 2 else 2 ^ b) = 2 ^ (if a ≤ b then b - 1 else b) := by
        by_cases hc : a ≤ b
        · rw [if_pos (hle'.2 hc), if_pos hc, half (by omega)]
        · rw [if_neg (fun e => hc (hle'.1 e)), if_neg hc]
      rw [e1, e2]
      obtain ⟨a', b', q1, q2, q3⟩ := varTx_pow split n (depth + 1) (if b ≤ a then a - 1 else a) (if a ≤ b then b - 1 else b)
        (row + (y - row) / 2 ^ (if a ≤ b then b - 1 else b) * 2 ^ (if a ≤ b then b - 1 else b))
        (col + (x - col) / 2 ^ (if b ≤ a then a - 1 else a) * 2 ^ (if b ≤ a then a - 1 else a)) y x
      refine ⟨a', b', ?_, ?_, q3⟩
      · split at q1 <;> omega
      · split at q2 <;> omega

/-- Transforms are not larger than the block. -/
theorem dims_pow {c : Call} (h : BlkOk C c) (hp : hasPlane C.comp.plane c = true) (y x : Nat) : ∃ a b, C.W c y x = 2 ^ a ∧ C.H c y x = 2 ^ b ∧
    2 ^ a ≤ C.comp.plane.w c ∧ 2 ^ b ≤ C.comp.plane.h c := by
  have hv := h.valid
  unfold Cfg.W Cfg.H
  cases hC : C.comp with
  | y =>
    rw [hC] at hv
    obtain ⟨v1, v2, v3, -⟩ := hv.y rfl
    obtain ⟨f1, f2, -⟩ := tx_facts _ v1
    have ew : Comp.y.plane.w c = bsW c.bs := by simp [Comp.plane, luma, Plane.w]
    have eh : Comp.y.plane.h c = bsH c.bs := by simp [Comp.plane, luma, Plane.h]
    rw [ew, eh]
    unfold Av1.txDim
    dsimp only
    split
    · exact ⟨_, _, f1, f2, by rw [← f1]; exact v2, by rw [← f2]; exact v3⟩
    · have := varTx_pow (C.info c).split 2 0 (txLw (C.info c).ytx) (txLh (C.info c).ytx) (y / txH (C.info c).ytx * txH (C.info c).ytx) (x / txW (C.info c).ytx * txW (C.info c).ytx) y x
      rw [← f1, ← f2] at this
      obtain ⟨a, b, q1, q2, q3⟩ := this
      rw [q3]
      refine ⟨a, b, rfl, rfl, ?_, ?_⟩
      · have := Nat.pow_le_pow_right (n := 2) (by decide) q1; omega
      · have := Nat.pow_le_pow_right (n := 2) (by decide) q2; omega
  | uv p =>
    rw [hC] at hv hp
    obtain ⟨v1, v2, v3⟩ := hv.uv p rfl hp
    obtain ⟨f1, f2, -⟩ := tx_facts _ v1
    exact ⟨_, _, f1, f2, by rw [← f1]; exact v2, by rw [← f2]; exact v3⟩

/-- The block in the plane: its size is a power of two, and its position a multiple of it. -/
theorem blk_pow {c : Call} (h : BlkOk C c) : (∃ a, C.comp.plane.w c = 2 ^ a ∧ C.px c % 2 ^ a = 0) ∧ (∃ b, C.comp.plane.h c = 2 ^ b ∧ C.py c % 2 ^ b = 0) := by
  obtain ⟨f1, f2⟩ := bs_facts _ h.bs
  have g1 := h.ax
  have g2 := h.ay
  obtain ⟨e1, e2⟩ := h.ss
  have key : ∀ {x w ss : Nat}, (w = 1 ∨ w = 2 ∨ w = 4 ∨ w = 8 ∨ w = 16 ∨ w = 32) → x % w = 0 → (ss = 0 ∨ ss = 1) → ∃ a, (w + ss) / 2 ^ ss = 2 ^ a ∧ x / 2 ^ ss % 2 ^ a = 0 := by
    intro x w ss hw hx hs
    rcases hs with rfl | rfl
    · rcases hw with rfl | rfl | rfl | rfl | rfl | rfl
      · exact ⟨0, rfl, by omega⟩
      · exact ⟨1, rfl, by omega⟩
      · exact ⟨2, rfl, by omega⟩
      · exact ⟨3, rfl, by omega⟩
      · exact ⟨4, rfl, by omega⟩
      · exact ⟨5, rfl, by omega⟩
    · rcases hw with rfl | rfl | rfl | rfl | rfl | rfl
      · exact ⟨0, rfl, by omega⟩
      · exact ⟨0, rfl, by omega⟩
      · exact ⟨1, rfl, by omega⟩
      · exact ⟨2, rfl, by omega⟩
      · exact ⟨3, rfl, by omega⟩
      · exact ⟨4, rfl, by omega⟩
  exact ⟨key f1 g1 e1, key f2 g2 e2⟩

/-- The edges of a block. -/
theorem edge_iff {at_ px B size : Nat} {skip intra : Bool} (hB : ∃ b, B = 2 ^ b ∧ px % 2 ^ b = 0) (hs : ∃ a, size = 2 ^ a ∧ 2 ^ a ≤ B) (h1 : px ≤ at_) (h2 : at_ < px + B) :
    (at_ - px = 0 ∨ ((intra = true ∨ skip = false) ∧ (at_ - px) % size = 0)) ↔ at_ % size = 0 ∧ (at_ % B = 0 ∨ skip = false ∨ intra = true) := by
  obtain ⟨b, rfl, hb⟩ := hB
  obtain ⟨a, rfl, ha⟩ := hs
  have hab : a ≤ b := (Nat.pow_le_pow_iff_right (by decide)).1 ha
  obtain ⟨q, hq⟩ := Nat.dvd_of_mod_eq_zero hb
  obtain ⟨t, ht⟩ := Nat.pow_dvd_pow 2 hab
  have e1 : at_ % 2 ^ b = at_ - px := by
    rw [show at_ = 2 ^ b * q + (at_ - px) by omega, Nat.mul_add_mod]
    rw [show 2 ^ b * q + (at_ - px) - px = at_ - px by omega]
    exact Nat.mod_eq_of_lt (by omega)
  have e2 : at_ % 2 ^ a = (at_ - px) % 2 ^ a := by
    have : at_ = 2 ^ a * (t * q) + (at_ - px) := by rw [← Nat.mul_assoc, ← ht]; omega
    rw [this, Nat.mul_add_mod, ← this]
  rw [e1, e2]
  constructor
  · rintro (h | ⟨h, h'⟩)
    · rw [h]; exact ⟨Nat.zero_mod _, .inl rfl⟩
    · exact ⟨h', h.elim (fun e => .inr (.inr e)) (fun e => .inr (.inl e))⟩
  · rintro ⟨h', h | h | h⟩
    · exact .inl h
    · exact .inr ⟨.inr h, h'⟩
    · exact .inr ⟨.inl h, h'⟩

/-- `wd` for sizes that are powers of two. -/
theorem wd_taps (K : Comp) (a b : Nat) : K.wdOf (min (cls K (2 ^ a)) (cls K (2 ^ b))) = Av1.taps K (Av1.filterSize K (min (2 ^ a) (2 ^ b))) := by
  have hmin : min (2 ^ a) (2 ^ b) = 2 ^ min a b := by
    rcases Nat.le_total a b with e | e
    · rw [Nat.min_eq_left e, Nat.min_eq_left (Nat.pow_le_pow_right (by decide) e)]
    · rw [Nat.min_eq_right e, Nat.min_eq_right (Nat.pow_le_pow_right (by decide) e)]
  unfold cls
  rw [Nat.log2_two_pow, Nat.log2_two_pow, hmin, show min (min (K.sizes - 1) a) (min (K.sizes - 1) b) = min (K.sizes - 1) (min a b) by omega]
  generalize min a b = n
  have big : ∀ {m : Nat}, m ≤ n → 2 ^ m ≤ 2 ^ n := fun hm => Nat.pow_le_pow_right (by decide) hm
  cases K with
  | y =>
    unfold Comp.wdOf Av1.taps Av1.filterSize Comp.sizes
    dsimp only
    rcases Nat.lt_or_ge n 2 with e | e
    · have : n = 0 ∨ n = 1 := by omega
      rcases this with rfl | rfl <;> decide
    · have := big e
      rw [Nat.min_eq_left (by omega), Nat.min_eq_left (by omega)]
      rfl
  | uv p =>
    unfold Comp.wdOf Av1.taps Av1.filterSize Comp.sizes
    dsimp only
    rcases Nat.lt_or_ge n 1 with e | e
    · have : n = 0 := by omega
      subst this; rfl
    · have := big e
      rw [Nat.min_eq_left (by omega), Nat.min_eq_left (by omega)]
      rfl

/-! ## The theorems -/

theorem at_iff (h : FrameOk C G order) (ho : Owns C order own) {X Y : Nat} (hX : X < C.cols) (hY : Y < C.rows) (c : Call) :
    Av1.At C.comp.plane (order.map Prod.snd) c X Y ↔ c = (own X Y).2 := by
  unfold Av1.At
  constructor
  · rintro ⟨h1, h2⟩
    obtain ⟨e, e1, rfl⟩ := List.mem_map.1 h1
    rw [own_eq h ho e1 ((has_iff (h.blk e1) X Y).2 ⟨hX, hY, h2⟩)]
  · rintro rfl
    obtain ⟨e1, e2⟩ := ho X Y hX hY
    exact ⟨List.mem_map.2 ⟨_, e1, rfl⟩, ((has_iff (h.blk e1) X Y).1 e2).2.2⟩

/-- C76: the calls of loop_filter in a pass (0: edges between columns, 1: edges between rows) for a kind of level (`k`: 0 and 1 in luma, 2 and 3 for the
planes of chroma) are the edges of the specification. -/
theorem C76_deblock (h : Decoded C G order) (lvl : Nat → Nat → Nat → Nat) {pass k : Nat} (hp : pass < 2) (hk : C.comp.lvlOk k) (op : Op) :
    op ∈ C.frameOps G order lvl pass k ↔ Av1.Filtered C.comp C.D C.info (order.map Prod.snd) pass k op := by
  have hf := h.ok
  obtain ⟨own, ho⟩ := hf.owns
  rw [ops_iff hf ho lvl hp hk]
  unfold Av1.Filtered
  dsimp only
  refine and_congr_right fun hX => and_congr_right fun hY => and_congr_right fun h0 => ?_
  obtain ⟨o1, o2⟩ := ho op.x op.y hX hY
  have hb := hf.blk o1
  obtain ⟨k0, k1, k2, k3, k4⟩ := o2
  obtain ⟨z1, z2⟩ := cw_eq C (own op.x op.y).2
  obtain ⟨p1, p2⟩ := blk_pow hb
  obtain ⟨sa, sb, s1, s2, s3, s4⟩ := dims_pow hb k0 (op.y - C.py (own op.x op.y).2) (op.x - C.px (own op.x op.y).2)
  have hp2 : pass = 0 ∨ pass = 1 := by omega
  rcases hp2 with rfl | rfl
  · simp only [if_true] at h0 ⊢
    have hX' : op.x - 1 < C.cols := by have : op.x < C.cols := hX; show _ < C.cols; omega
    obtain ⟨q1, q2⟩ := ho (op.x - 1) op.y hX' hY
    obtain ⟨ta, tb, t1, t2, -, -⟩ := dims_pow (hf.blk q1) q2.1 (op.y - C.py (own (op.x - 1) op.y).2) (op.x - 1 - C.px (own (op.x - 1) op.y).2)
    have hed := edge_iff (at_ := op.x) (skip := (C.info (own op.x op.y).2).skip) (intra := (C.info (own op.x op.y).2).intra) p1 ⟨sa, s1, s3⟩ k1 (by omega)
    have hsz : size C own 0 op.x op.y = C.W (own op.x op.y).2 (op.y - C.py (own op.x op.y).2) (op.x - C.px (own op.x op.y).2) := by unfold size; rw [if_pos rfl]
    have hps : prevSize C own 0 op.x op.y = C.W (own (op.x - 1) op.y).2 (op.y - C.py (own (op.x - 1) op.y).2) (op.x - 1 - C.px (own (op.x - 1) op.y).2) := by unfold prevSize size; rw [if_pos rfl, if_pos rfl]
    have hE : IsEdge C own 0 op.x op.y ↔ _ := hed
    have hwd := wd_taps C.comp sa ta
    rw [← s1, ← t1] at hwd
    change C.comp.wdOf (finSize C own 0 op.x op.y) = _ at hwd
    rw [hE, hwd]
    constructor
    · rintro ⟨⟨a1, a2⟩, a3, a4, a5⟩
      exact ⟨(own op.x op.y).2, (own (op.x - 1) op.y).2, (at_iff hf ho hX hY _).2 rfl, (at_iff hf ho hX' hY _).2 rfl, a1, a2, a3, a4, a5⟩
    · rintro ⟨c, prev, c1, c2, a1, a2, a3, a4, a5⟩
      rw [at_iff hf ho hX hY] at c1
      rw [at_iff hf ho hX' hY] at c2
      subst c1; subst c2
      exact ⟨⟨a1, a2⟩, a3, a4, a5⟩
  · simp only [if_neg (show ¬ (1 : Nat) = 0 by decide)] at h0 ⊢
    have hY' : op.y - 1 < C.rows := by have : op.y < C.rows := hY; show _ < C.rows; omega
    obtain ⟨q1, q2⟩ := ho op.x (op.y - 1) hX hY'
    obtain ⟨ta, tb, t1, t2, -, -⟩ := dims_pow (hf.blk q1) q2.1 (op.y - 1 - C.py (own op.x (op.y - 1)).2) (op.x - C.px (own op.x (op.y - 1)).2)
    have hed := edge_iff (at_ := op.y) (skip := (C.info (own op.x op.y).2).skip) (intra := (C.info (own op.x op.y).2).intra) p2 ⟨sb, s2, s4⟩ k3 (by omega)
    have hsz : size C own 1 op.x op.y = C.H (own op.x op.y).2 (op.y - C.py (own op.x op.y).2) (op.x - C.px (own op.x op.y).2) := by unfold size; rw [if_neg (by decide)]
    have hps : prevSize C own 1 op.x op.y = C.H (own op.x (op.y - 1)).2 (op.y - 1 - C.py (own op.x (op.y - 1)).2) (op.x - C.px (own op.x (op.y - 1)).2) := by unfold prevSize size; rw [if_neg (by decide), if_neg (by decide)]
    have hE : IsEdge C own 1 op.x op.y ↔ _ := hed
    have hwd := wd_taps C.comp sb tb
    rw [← s2, ← t2] at hwd
    change C.comp.wdOf (finSize C own 1 op.x op.y) = _ at hwd
    rw [hE, hwd]
    constructor
    · rintro ⟨⟨a1, a2⟩, a3, a4, a5⟩
      exact ⟨(own op.x op.y).2, (own op.x (op.y - 1)).2, (at_iff hf ho hX hY _).2 rfl, (at_iff hf ho hX hY' _).2 rfl, a1, a2, a3, a4, a5⟩
    · rintro ⟨c, prev, c1, c2, a1, a2, a3, a4, a5⟩
      rw [at_iff hf ho hX hY] at c1
      rw [at_iff hf ho hX hY'] at c2
      subst c1; subst c2
      exact ⟨⟨a1, a2⟩, a3, a4, a5⟩

/-- C76: no edge is filtered twice in a pass. -/
theorem C76_once (h : Decoded C G order) (lvl : Nat → Nat → Nat → Nat) (pass k : Nat) :
    (C.frameOps G order lvl pass k).Pairwise fun a b => (a.x, a.y) ≠ (b.x, b.y) := ops_once h.ok lvl pass k

/-- C76: the order in which blocks of different tiles are decoded, and what was in `f->lf.level` before, do not matter. -/
theorem C76_any_order {order' : List ((Nat × Nat) × Call)} (h : Decoded C G order) (h' : Decoded C G order') (he : ∀ t : Nat × Nat, callsOf order t = callsOf order' t)
    (lvl lvl' : Nat → Nat → Nat → Nat) {pass k : Nat} (hp : pass < 2) (hk : C.comp.lvlOk k) (op : Op) :
    op ∈ C.frameOps G order lvl pass k ↔ op ∈ C.frameOps G order' lvl' pass k := by
  rw [C76_deblock h lvl hp hk, C76_deblock h' lvl' hp hk]
  have hm : ∀ c, c ∈ order.map Prod.snd ↔ c ∈ order'.map Prod.snd := by
    have one : ∀ {a b : List ((Nat × Nat) × Call)}, (∀ t : Nat × Nat, callsOf a t = callsOf b t) → ∀ c, c ∈ a.map Prod.snd → c ∈ b.map Prod.snd := by
      intro a b hab c hc
      obtain ⟨e, e1, rfl⟩ := List.mem_map.1 hc
      have := mem_callsOf (t := e.1).2 e1
      rw [hab] at this
      exact List.mem_map.2 ⟨_, mem_callsOf.1 this, rfl⟩
    exact fun c => ⟨one he c, one (fun t => (he t).symm) c⟩
  unfold Av1.Filtered Av1.At
  simp only [hm]

/-! ## An example -/

/-- A frame of 76x88 samples with superblocks of 64x64 and four tiles. -/
def exFrame : Frame := ⟨20, 22, false, 1, fun _ _ => (0, 0)⟩
def exGrid : Grid := ⟨2, 2, id, id⟩

def exScript : Nat × Nat → List Nat
  | (0, 0) => [3, 0, 1, 2, 3, 0, 0, 0, 0, 1, 1]
  | (0, _) => [1, 1, 0, 3]
  | (_, 0) => [0, 0, 1, 2, 1, 3, 2, 1]
  | _ => [1, 1, 1, 1, 1, 1]

def exRun (t : Nat × Nat) : Res (List Nat) :=
  decodeTile scripted exFrame false (exGrid.tile exFrame false t).x0 (exGrid.tile exFrame false t).x1 (exGrid.tile exFrame false t).y0 (exGrid.tile exFrame false t).y1 (exScript t)

/-- The blocks of two tiles in turn. -/
def inTurn : List α → List α → List α
  | [], b => b
  | x :: a, b => x :: match b with
    | [] => a
    | y :: b => y :: inTurn a b

def exTile (t : Nat × Nat) : List ((Nat × Nat) × Call) := (blocks (logOf (exRun t))).map fun c => (t, c)
def exOrder : List ((Nat × Nat) × Call) := inTurn (exTile (0, 0)) (exTile (0, 1)) ++ inTurn (exTile (1, 1)) (exTile (1, 0))

/-- Blocks of 32x32 are inter blocks with splits of the transform; the others are intra blocks. In the second column of tiles the levels are 0. -/
def exInfo (c : Call) : LBlk :=
  if bsW c.bs = 8 ∧ bsH c.bs = 8 then ⟨false, false, 3, fun d r k => d == 0 || (d == 1 && r == 0 && k == 4), 2, fun k => 10 + k⟩
  else ⟨true, false, if 4 ≤ bsW c.bs ∧ 4 ≤ bsH c.bs then 2 else if 2 ≤ bsW c.bs ∧ 2 ≤ bsH c.bs then 1 else 0, fun _ _ _ => false,
    if 4 ≤ bsW c.bs ∧ 4 ≤ bsH c.bs then 1 else 0, fun _ => if 16 ≤ c.x then 0 else 7⟩

def exCfg (K : Comp) : Cfg := ⟨exFrame, false, ⟨19, 22⟩, exInfo, ⟨fun _ _ => 0, fun _ _ => 0, fun _ _ => 0, fun _ _ => 0⟩, K⟩

theorem exDecoded (K : Comp) (hK : K = .y ∨ K = .uv chroma420) : Decoded (exCfg K) exGrid exOrder := by
  have hss : K.plane.ssH ≤ 1 ∧ K.plane.ssV ≤ 1 := by rcases hK with rfl | rfl <;> decide
  refine ⟨hss.1, hss.2, (by decide : exFrame.pass ≠ 2), (by decide : 20 = (19 + 1) / 2 * 2), (by decide : 22 = (22 + 1) / 2 * 2), ?_, ?_, ?_, ?_⟩
  · have : exGrid.Ok exFrame false := ⟨rfl, rfl, by decide, by decide, by decide, by decide, by decide, by decide⟩
    exact this
  · decide +kernel
  · intro t t1 t2
    obtain ⟨r, k⟩ := t
    have h1 : r = 0 ∨ r = 1 := by have : r < 2 := t1; omega
    have h2 : k = 0 ∨ k = 1 := by have : k < 2 := t2; omega
    have key : ∀ r k, (match exRun (r, k) with | .ok st => decide (callsOf exOrder (r, k) = blocks st.log) | _ => false) = true →
        ∃ (σ : Type) (S : Src σ) (s : σ) (st : St σ), (∀ s bl ctx, (S.part s bl ctx).1 ≤ typeCount bl) ∧
          decodeTile S exFrame false (exGrid.tile exFrame false (r, k)).x0 (exGrid.tile exFrame false (r, k)).x1 (exGrid.tile exFrame false (r, k)).y0 (exGrid.tile exFrame false (r, k)).y1 s = .ok st ∧
          callsOf exOrder (r, k) = blocks st.log := by
      intro r k h
      cases hr : exRun (r, k) with
      | ok st => rw [hr] at h; exact ⟨_, scripted, exScript (r, k), st, scripted_range, hr, of_decide_eq_true h⟩
      | err => rw [hr] at h; cases h
      | ub => rw [hr] at h; cases h
    refine key r k ?_
    rcases h1 with rfl | rfl <;> rcases h2 with rfl | rfl <;> decide +kernel
  · intro e he
    have hall : ∀ e ∈ exOrder, ((exInfo e.2).ytx < 19 ∧ txW (exInfo e.2).ytx ≤ bsW e.2.bs ∧ txH (exInfo e.2).ytx ≤ bsH e.2.bs ∧ (bsW e.2.bs ≤ 2 * txW (exInfo e.2).ytx ∧ bsH e.2.bs ≤ 2 * txH (exInfo e.2).ytx ∨ (exInfo e.2).intra = true)) ∧
        (hasPlane chroma420 e.2 = true → (exInfo e.2).uvtx < 19 ∧ txW (exInfo e.2).uvtx ≤ chroma420.w e.2 ∧ txH (exInfo e.2).uvtx ≤ chroma420.h e.2) := by decide +kernel
    obtain ⟨⟨a1, a2, a3, a4⟩, b⟩ := hall e he
    constructor
    · intro _
      refine ⟨a1, a2, a3, fun hi => ?_⟩
      rcases a4 with a4 | a4
      · exact .inr a4
      · have hi' : (exInfo e.2).intra = false := hi
        rw [a4] at hi'; cases hi'
    · intro p hp hpl
      rcases hK with rfl | rfl
      · cases hp
      · cases hp; exact b hpl

/-- C76: the edge between the two upper tiles at the fifth row of units. The block after it has transforms of 8x8 and level 0, the one before it has
transforms of 16x16. -/
example : (⟨16, 4, 7, 8⟩ : Op) ∈ (exCfg .y).frameOps exGrid exOrder (fun _ _ _ => 0) 0 0 := by
  rw [C76_deblock (exDecoded .y (.inl rfl)) _ (by decide) (show (0 : Nat) < 2 by decide)]
  refine ⟨by decide, by decide, by decide, ⟨4, 17, 0, 63, 16, 4⟩, ⟨2, 8, 1, 0, 8, 4⟩, ⟨by decide +kernel, by decide⟩, ⟨by decide +kernel, by decide⟩, ?_⟩
  decide

/-- C76: the chroma transform of the first block has 16x16 samples. No edge inside it is filtered, whatever the level. -/
example (l w : Nat) : (⟨2, 1, l, w⟩ : Op) ∉ (exCfg (.uv chroma420)).frameOps exGrid exOrder (fun _ _ _ => 0) 0 2 := by
  rw [C76_deblock (exDecoded (.uv chroma420) (.inr rfl)) _ (by decide) (show 2 ≤ (2 : Nat) by decide)]
  rintro ⟨-, -, -, c, prev, ⟨h1, h2⟩, -, h3, -⟩
  have : ∀ c ∈ exOrder.map Prod.snd, c.covers (chroma420.lastX 2) (chroma420.lastY 1) → 2 % Av1.txSize (.uv chroma420) exInfo 0 c 2 1 ≠ 0 := by decide +kernel
  exact this c h1 h2 h3

end Dav1d.Part.Lpf
