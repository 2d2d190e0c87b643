import Verif.Syn.CdmProps
import Verif.Part.LpfProps
/-!
# C86: the blocks are those of the tiles of the frame

The blocks of C67: each tile is divided by decodeTile, with any values of the syntax elements, and blocks of different tiles may be decoded at the same time.
-/
set_option linter.unusedVariables false
namespace Dav1d.Cdm
open Dav1d.Syn.Lru (Cfg)
open Dav1d.Cdf (Mask)
open Dav1d.Part (Call Ev Src St Tile TileOk Frame blocks decodeTile typeCount sbStep bsW bsH AllOk)
open Dav1d.Part.Lpf (Grid callsOf mem_callsOf)

/-- A call of decode_b as a block; `skip` and `v` are what is read for it. -/
def blkOf (skip : (Nat × Nat) × Call → Bool) (v : (Nat × Nat) × Call → Nat) (e : (Nat × Nat) × Call) : Blk := ⟨e.2.y, e.2.x, bsH e.2.bs, bsW e.2.bs, skip e, v e⟩

/-- The frame is decoded: `order` are the calls of decode_b with their tiles, in the order in which they happen. -/
structure Tiles (f : Cfg) (F : Frame) (G : Grid) (order : List ((Nat × Nat) × Call)) : Prop where
  bw : F.bw = f.bw
  bh : F.bh = f.bh
  pass : F.pass ≠ 2
  grid : G.Ok F f.sb128
  mem : ∀ e ∈ order, e.1.1 < G.rows ∧ e.1.2 < G.cols
  tiles : ∀ t : Nat × Nat, t.1 < G.rows → t.2 < G.cols → ∃ (σ : Type) (S : Src σ) (s : σ) (st : St σ),
    (∀ s bl ctx, (S.part s bl ctx).1 ≤ typeCount bl) ∧
    decodeTile S F f.sb128 (G.tile F f.sb128 t).x0 (G.tile F f.sb128 t).x1 (G.tile F f.sb128 t).y0 (G.tile F f.sb128 t).y1 s = .ok st ∧
    callsOf order t = blocks st.log

/-- `Run` without conditions on the blocks: a superblock is begun before its blocks are decoded. -/
inductive Exec (f : Cfg) : List (Nat × Nat) → List Blk → (Nat → Mask) → Av1.State → Prop
  | start (mem : Nat → Mask) (s : Av1.State) : (∀ a r, (mem a).noskip r = (0, 0)) → Exec f [] [] mem s
  | sb {L : List (Nat × Nat)} {dec : List Blk} {mem : Nat → Mask} {s : Av1.State} (y x : Nat) : Exec f L dec mem s → SbOk f y x → Exec f ((y, x) :: L) dec (sbStart f y x mem) (Av1.clear_cdef f.sb128 y x s)
  | block {L : List (Nat × Nat)} {dec : List Blk} {mem : Nat → Mask} {s : Av1.State} (b : Blk) : Exec f L dec mem s → Begun f L b.y b.x → Exec f L (b :: dec) (block f b mem) (Av1.decode_block b s)

theorem exec_run {f : Cfg} {L : List (Nat × Nat)} {dec : List Blk} {mem : Nat → Mask} {s : Av1.State} (h : Exec f L dec mem s) : (∀ b ∈ dec, BlkOk f b) →
    dec.Pairwise (fun b b' => ∀ r c, Av1.covers b r c → ¬Av1.covers b' r c) → Run f L dec mem s := by
  induction h with
  | start mem s h => exact fun _ _ => .start mem s h
  | sb y x _ hs ih => exact fun h1 h2 => .sb y x (ih h1 h2) hs
  | block b _ hL ih =>
    intro h1 h2
    obtain ⟨h3, h4⟩ := List.pairwise_cons.1 h2
    exact .block b (ih (fun b hb => h1 b (List.mem_cons_of_mem _ hb)) h4) (h1 b List.mem_cons_self) hL h3

theorem exec_begun {f : Cfg} {L : List (Nat × Nat)} {dec : List Blk} {mem : Nat → Mask} {s : Av1.State} (h : Exec f L dec mem s) : (∀ b ∈ dec, Begun f L b.y b.x) ∧ ∀ e ∈ L, SbOk f e.1 e.2 := by
  induction h with
  | start => exact ⟨fun b hb => absurd hb List.not_mem_nil, fun b hb => absurd hb List.not_mem_nil⟩
  | sb y x _ hs ih =>
    refine ⟨fun b hb => ?_, fun e he => ?_⟩
    · obtain ⟨e, he, h⟩ := ih.1 b hb
      exact ⟨e, List.mem_cons_of_mem _ he, h⟩
    · rcases List.mem_cons.1 he with rfl | he
      · exact hs
      · exact ih.2 e he
  | block b _ hL ih =>
    refine ⟨fun b' hb => ?_, ih.2⟩
    rcases List.mem_cons.1 hb with rfl | hb
    · exact hL
    · exact ih.1 b' hb

theorem covers_blk (skip v e) (r c : Nat) : Av1.covers (blkOf skip v e) r c ↔ e.2.covers c r := by
  unfold Av1.covers Part.Call.covers blkOf
  simp only
  omega

section
variable {f : Cfg} {F : Frame} {G : Grid} {order : List ((Nat × Nat) × Call)}

theorem step_eq (f : Cfg) : f.step = sbStep f.sb128 := rfl

theorem dims : ∀ b < 22, Size (bsW b) ∧ Size (bsH b) := by decide

/-- What is known of one tile. -/
theorem tile_facts (h : Tiles f F G order) {t : Nat × Nat} (t1 : t.1 < G.rows) (t2 : t.2 < G.cols) : ∃ log : List Ev, callsOf order t = blocks log ∧ AllOk F (G.tile F f.sb128 t) log ∧
    (∀ c ∈ blocks log, c.bs < 22 ∧ c.x % bsW c.bs = 0 ∧ c.y % bsH c.bs = 0 ∧ bsW c.bs ≤ f.step ∧ bsH c.bs ≤ f.step) ∧ ∀ a b, (G.tile F f.sb128 t).has a b → ∃ c ∈ blocks log, c.covers a b := by
  obtain ⟨σ, S, s, st, hS, hd, hb⟩ := h.tiles t t1 t2
  have hw : F.bw % 2 = 0 := by rw [h.bw, Cdf.bw_eq]; omega
  have hh : F.bh % 2 = 0 := by rw [h.bh, Cdf.bh_eq]; omega
  have hT : TileOk F f.sb128 (G.tile F f.sb128 t) := Part.Lpf.tile_ok h.grid hw hh
  refine ⟨st.log, hb, ?_⟩
  rcases Part.decodeTile_ok S hS h.pass hT s with h3 | ⟨st', h3, h4, h5⟩
  · rw [hd] at h3; cases h3
  · rw [hd] at h3; cases h3
    obtain ⟨new, e1, e2⟩ := Part.tile_news S hS h.pass f.sb128 (G.tile F f.sb128 t).x0 (G.tile F f.sb128 t).x1 hT.x0 _ _ _ _ hT.y0 hd
    have : new = st.log := by rw [e1]; rfl
    rw [this] at e2
    refine ⟨h5, fun c hc => ?_, fun a b hab => ?_⟩
    · have k := (e2.2 c hc).2
      have y1 := k.y1
      have x1 := k.x1
      refine ⟨k.bs, k.ax, k.ay, ?_, ?_⟩ <;> rw [step_eq]
      · omega
      · have := Nat.mul_div_le c.y (sbStep f.sb128)
        omega
    · obtain ⟨c, h6, h7⟩ := h4 a b hab
      exact ⟨c, Part.Lpf.mem_blocks.2 h6, h7⟩

theorem blk_ok (h : Tiles f F G order) (skip : (Nat × Nat) × Call → Bool) (v : (Nat × Nat) × Call → Nat) {e : (Nat × Nat) × Call} (he : e ∈ order) : BlkOk f (blkOf skip v e) := by
  obtain ⟨t1, t2⟩ := h.mem e he
  obtain ⟨log, h1, h2, h3, h4⟩ := tile_facts h t1 t2
  have hm : e.2 ∈ blocks log := h1 ▸ mem_callsOf.2 he
  obtain ⟨k1, k2, k3, k4, k5⟩ := h3 _ hm
  obtain ⟨l1, l2, hl⟩ := List.append_of_mem (Part.Lpf.mem_blocks.1 hm)
  have hs := Part.Lpf.tile_has.1 (h2.call hl).start
  rw [h.bw, h.bh] at hs
  exact ⟨(dims _ k1).2, (dims _ k1).1, ⟨hs.2.2.2, k3⟩, ⟨hs.1.2.2, k2⟩, k5, k4⟩

/-- A unit of a block is in the rows and columns of the tile, if these are continued beyond the frame at the last ones. -/
theorem in_tile (h : Tiles f F G order) {e : (Nat × Nat) × Call} (he : e ∈ order) {a b : Nat} (hc : e.2.covers a b) :
    G.cs e.1.2 * sbStep f.sb128 ≤ a ∧ (e.1.2 + 1 < G.cols → a < G.cs (e.1.2 + 1) * sbStep f.sb128) ∧ G.rs e.1.1 * sbStep f.sb128 ≤ b ∧ (e.1.1 + 1 < G.rows → b < G.rs (e.1.1 + 1) * sbStep f.sb128) := by
  obtain ⟨t1, t2⟩ := h.mem e he
  obtain ⟨log, h1, h2, h3, h4⟩ := tile_facts h t1 t2
  have hm : e.2 ∈ blocks log := h1 ▸ mem_callsOf.2 he
  obtain ⟨l1, l2, hl⟩ := List.append_of_mem (Part.Lpf.mem_blocks.1 hm)
  have ok := h2.call hl
  have hs := Part.Lpf.tile_has.1 ok.start
  have ix : min (G.cs (e.1.2 + 1) * sbStep f.sb128) F.bw = F.bw ∨ e.2.x + bsW e.2.bs ≤ min (G.cs (e.1.2 + 1) * sbStep f.sb128) F.bw := ok.insX
  have iy : min (G.rs (e.1.1 + 1) * sbStep f.sb128) F.bh = F.bh ∨ e.2.y + bsH e.2.bs ≤ min (G.rs (e.1.1 + 1) * sbStep f.sb128) F.bh := ok.insY
  unfold Part.Call.covers at hc
  refine ⟨by omega, fun k => ?_, by omega, fun k => ?_⟩
  · have := h.grid.c2 _ k
    omega
  · have := h.grid.r2 _ k
    omega

theorem apart_of {s : Nat → Nat} {n x q a b : Nat} (h : ∀ k < n, s k < s (k + 1)) (ha : a < n) (hb : b < n) (a1 : s a * q ≤ x) (a2 : a + 1 < n → x < s (a + 1) * q) (b1 : s b * q ≤ x)
    (b2 : b + 1 < n → x < s (b + 1) * q) : a = b := by
  rcases Nat.lt_trichotomy a b with e | e | e
  · have := Nat.mul_le_mul_right q (Part.Lpf.seq_le h (a := a + 1) (b := b) (by omega) (by omega))
    have := a2 (by omega)
    omega
  · exact e
  · have := Nat.mul_le_mul_right q (Part.Lpf.seq_le h (a := b + 1) (b := a) (by omega) (by omega))
    have := b2 (by omega)
    omega

theorem order_apart (h : Tiles f F G order) : order.Pairwise fun d e => ∀ a b, e.2.covers a b → ¬d.2.covers a b := by
  refine Part.Lpf.pairwise_of_split fun p e q he d hd a b h1 h2 => ?_
  have me : e ∈ order := by rw [he]; simp
  have md : d ∈ order := by rw [he]; exact List.mem_append_left _ hd
  have i1 := in_tile h me h1
  have i2 := in_tile h md h2
  have et : d.1 = e.1 := Prod.ext (apart_of h.grid.r1 (h.mem d md).1 (h.mem e me).1 i2.2.2.1 i2.2.2.2 i1.2.2.1 i1.2.2.2) (apart_of h.grid.c1 (h.mem d md).2 (h.mem e me).2 i2.1 i2.2.1 i1.1 i1.2.1)
  obtain ⟨log, h3, h4, _, _⟩ := tile_facts h (h.mem e me).1 (h.mem e me).2
  rw [he, Part.Lpf.callsOf_append, Part.Lpf.callsOf_cons, if_pos rfl] at h3
  obtain ⟨l1, l2, hl, hb⟩ := Part.Lpf.blocks_split h3.symm
  refine (h4.call hl).fresh a b h1 ⟨d.2, Part.Lpf.mem_blocks.1 ?_, h2⟩
  rw [hb]
  exact mem_callsOf.2 (by rw [← et]; exact hd)

/-- **C86.** For every division of the frame into tiles and of the tiles into blocks, and every order in which blocks of different tiles are decoded, the masks hold what CDEF expects, for the flags and indices
that the specification has after the same blocks. -/
theorem C86_tiles (h : Tiles f F G order) {skip : (Nat × Nat) × Call → Bool} {v : (Nat × Nat) × Call → Nat} {L : List (Nat × Nat)} {mem : Nat → Mask} {s : Av1.State}
    (hx : Exec f L (order.map (blkOf skip v)).reverse mem s) : Cdf.MaskOk f mem (fun r c => s.cdef_idx (r / 16 * 16) (c / 16 * 16)) s.Skips := by
  have hok : ∀ b ∈ (order.map (blkOf skip v)).reverse, BlkOk f b := by
    intro b hb
    obtain ⟨e, he, rfl⟩ := List.mem_map.1 (List.mem_reverse.1 hb)
    exact blk_ok h skip v he
  have hrun := exec_run hx hok (by
    rw [List.pairwise_reverse, List.pairwise_map]
    refine (order_apart h).imp fun {d e} k r c => ?_
    rw [covers_blk, covers_blk]
    exact k c r)
  have hcov : ∀ r c, r < f.bh → c < f.bw → ∃ b ∈ (order.map (blkOf skip v)).reverse, Av1.covers b r c := by
    intro r c hr hc
    obtain ⟨k, k1, k2, k3⟩ := Part.Lpf.part_of (Part.Lpf.step_pos f.sb128) h.grid.c0 (Nat.lt_of_lt_of_le (by rw [h.bw]; exact hc) h.grid.c3)
    obtain ⟨j, j1, j2, j3⟩ := Part.Lpf.part_of (Part.Lpf.step_pos f.sb128) h.grid.r0 (Nat.lt_of_lt_of_le (by rw [h.bh]; exact hr) h.grid.r3)
    obtain ⟨log, h1, _, _, h4⟩ := tile_facts h (t := (j, k)) j1 k1
    obtain ⟨d, hd, hdc⟩ := h4 c r (Part.Lpf.tile_has.2 ⟨⟨k2, k3, by rw [h.bw]; exact hc⟩, j2, j3, by rw [h.bh]; exact hr⟩)
    rw [← h1] at hd
    exact ⟨_, List.mem_reverse.2 (List.mem_map_of_mem (mem_callsOf.1 hd)), (covers_blk ..).2 hdc⟩
  refine C86_masks hrun (fun r c hr hc => ?_) hcov
  obtain ⟨b, hb, hbc⟩ := hcov r c hr hc
  obtain ⟨e, he, g⟩ := (exec_begun hx).1 b hb
  have se := (exec_begun hx).2 e he
  have bo := hok b hb
  refine ⟨e, he, ?_⟩
  have s1 := se.y.2
  have s2 := se.x.2
  have b1 := bo.y.2
  have b2 := bo.x.2
  have b3 := bo.sb
  have b4 := bo.h
  have b5 := bo.w
  unfold Av1.covers at hbc
  have key : ∀ {st n y r E : Nat}, (st = 16 ∨ st = 32) → Size n → n ≤ st → y % n = 0 → E % st = 0 → E ≤ y → y < E + st → y ≤ r → r < y + n → E ≤ r ∧ r < E + st := by
    intro st n y r E hst hn
    rcases hst with rfl | rfl <;> rcases hn with rfl | rfl | rfl | rfl | rfl | rfl <;> omega
  have hst : f.step = 16 ∨ f.step = 32 := by unfold Cfg.step; split <;> simp
  have k1 := key hst b4 b3.1 b1 s1 g.1 g.2.1 hbc.1 hbc.2.1
  have k2 := key hst b5 b3.2 b2 s2 g.2.2.1 g.2.2.2 hbc.2.2.1 hbc.2.2.2
  exact ⟨k1.1, k1.2, k2.1, k2.2⟩

end

/-! ## An example -/

/-- 76x88 with superblocks of 64x64: the four tiles of the example of C76, whose blocks are decoded in turn. -/
def exP : Cfg := ⟨76, 88, 76, 8, 1, fun _ => 0, 6, 6, false⟩
theorem exTiles : Tiles exP Part.Lpf.exFrame Part.Lpf.exGrid Part.Lpf.exOrder :=
  have h := Part.Lpf.exDecoded .y (.inl rfl)
  ⟨rfl, rfl, h.pass, h.grid, h.mem, h.tiles⟩

def exSkip (e : (Nat × Nat) × Call) : Bool := decide ((e.2.x / 2 + e.2.y) % 3 = 0)
def exV (e : (Nat × Nat) × Call) : Nat := (e.2.x + e.2.y) % 4

theorem exec_exists (f : Cfg) (mem : Nat → Mask) (s : Av1.State) (h0 : ∀ a r, (mem a).noskip r = (0, 0)) (L : List (Nat × Nat)) (hL : ∀ e ∈ L, SbOk f e.1 e.2) : ∀ B : List Blk,
    (∀ b ∈ B, Begun f L b.y b.x) → ∃ mem' s', Exec f L B mem' s'
  | [], _ => by
    induction L with
    | nil => exact ⟨mem, s, .start mem s h0⟩
    | cons e L ih =>
      obtain ⟨m', s', h⟩ := ih (fun e he => hL e (List.mem_cons_of_mem _ he)) (fun b hb => absurd hb List.not_mem_nil)
      exact ⟨_, _, .sb e.1 e.2 h (hL e List.mem_cons_self)⟩
  | b :: B, hB => by
    obtain ⟨m', s', h⟩ := exec_exists f mem s h0 L hL B (fun b hb => hB b (List.mem_cons_of_mem _ hb))
    exact ⟨_, _, .block b h (hB b List.mem_cons_self)⟩

example (m : Nat → Int) (s : Av1.State) : ∃ L mem' s', Exec exP L (Part.Lpf.exOrder.map (blkOf exSkip exV)).reverse mem' s' ∧
    Cdf.MaskOk exP mem' (fun r c => s'.cdef_idx (r / 16 * 16) (c / 16 * 16)) s'.Skips := by
  obtain ⟨m', s', h⟩ := exec_exists exP (fun _ => ⟨m, fun _ => (0, 0)⟩) s (fun _ _ => rfl) [(16, 16), (0, 16), (16, 0), (0, 0)] (by decide +kernel) (Part.Lpf.exOrder.map (blkOf exSkip exV)).reverse (by decide +kernel)
  exact ⟨_, m', s', h, C86_tiles exTiles h⟩

/-- There are skipped blocks and others. -/
example : (Part.Lpf.exOrder.map exSkip).countP id = 7 ∧ Part.Lpf.exOrder.length = 22 := by decide +kernel

end Dav1d.Cdm
