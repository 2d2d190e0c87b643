import Verif.Syn.HeadState
import Verif.Part.CtxProps
/-!
# The beginning of a block: the properties
-/
set_option linter.unusedSectionVars false
set_option linter.unusedVariables false
namespace Dav1d.Syn
open CdfTab (Field ModeF)
open Dav1d.Part (Call bsW bsH sbStep Frame Tile Ev blocks AllOk TileOk RowsFrom InRow split_call last_left last_above cover_some Decoded blocks_append)
open Dav1d.Part.Ctx (Edge Seg Blk Ctxs Run ctxsAt nbAbove nbLeft segAfter segIdAt getCurFrameSegid)

/-- What decode_b sees at block `c`: `info` and `id` are what was decoded for the blocks before, `old` and `oldSeg` what was in the arrays
before the tile. `w4` and `h4` are those of src/decode.c:699-700. -/
def aroundAt (f : Frame) (sb128 : Bool) (T : Tile) (inter : Bool) (info : Call → Blk) (id : Call → Nat) (old : Ctxs Edge) (oldSeg : Nat → Nat → Nat) (before : List Ev) (c : Call) : Around :=
  { a := ((ctxsAt inter sb128 info old before c).at c).1
    l := ((ctxsAt inter sb128 info old before c).at c).2
    curSeg := segAfter oldSeg id (blocks before)
    haveTop := T.y0 < c.y
    haveLeft := T.x0 < c.x
    w4 := min (bsW c.bs) (f.bw - c.x)
    h4 := min (bsH c.bs) (f.bh - c.y) }

/-- The block in the terms of the specification: the blocks above and on the left in the tile, and the segment ids around. -/
def posAt (T : Tile) (info : Call → Blk) (id : Call → Nat) (before : List Ev) (c : Call) : Av1.Pos :=
  { MiRow := c.y, MiCol := c.x, bw4 := bsW c.bs, bh4 := bsH c.bs
    A := (nbAbove T before c).map info
    L := (nbLeft T before c).map info
    prevUL := segIdAt T before id (T.y0 < c.y && T.x0 < c.x) (c.x - 1) (c.y - 1)
    prevU := segIdAt T before id (T.y0 < c.y) c.x (c.y - 1)
    prevL := segIdAt T before id (T.x0 < c.x) (c.x - 1) c.y }

section
variable {f : Frame} {sb128 : Bool} {T : Tile} {before after : List Ev} {c : Call} {H : Hdr} {F : Av1.Frm}

theorem sees (h : Run f sb128 T before after c) (hF : Agrees f.bw f.bh H F) {info : Call → Blk} (hv : ∀ d, (info d).Valid H.inter) {id : Call → Nat} (hid : ∀ d, id d < 8)
    (old : Ctxs Edge) (oldSeg : Nat → Nat → Nat) :
    Sees H F c (aroundAt f sb128 T H.inter info id old oldSeg before c) (posAt T info id before c) := by
  obtain ⟨h1, h2, h3⟩ := h.placed
  obtain ⟨i1, i2⟩ := Dav1d.Part.Ctx.C73_inside h
  have hs := h.start
  have hT := h.2.1
  have hx1 := hT.x1
  have hy1 := hT.y1
  obtain ⟨s1, s2, s3, s4⟩ := hs
  have pos := (h.facts.1.call rfl).pos
  have w : ∀ b < 22, bsW b ≤ 16 ∨ bsW b = 32 := by decide
  have hh : ∀ b < 22, bsH b ≤ 16 ∨ bsH b = 32 := by decide
  have w := w _ h1
  have hh := hh _ h1
  obtain ⟨f1, f2, f3, -⟩ := Dav1d.Part.Ctx.C74_flags h hv old rfl rfl (a := ((ctxsAt H.inter sb128 info old before c).at c).1) (l := ((ctxsAt H.inter sb128 info old before c).at c).2) rfl
  have seg := Dav1d.Part.Ctx.C74_segment h oldSeg id rfl rfl rfl
  rw [Prod.mk.injEq] at seg
  have hlt : ∀ b x y, segIdAt T before id b x y ≤ 7 := by
    intro b x y
    unfold segIdAt
    split
    · cases Dav1d.Part.coverOf before x y with
      | none => show (-1 : Int) ≤ 7; decide
      | some d => have := hid d; simp only [Option.elim]; omega
    · decide
  refine ⟨h1, ⟨rfl, rfl, rfl, rfl⟩, ⟨?_, ?_, ?_, ?_⟩, ?_, ?_, f1, f2, f3, ?_, seg, ?_⟩
  · show min _ _ = min _ _; rw [← hF.cols, Nat.min_comm]
  · show min _ _ = min _ _; rw [← hF.rows, Nat.min_comm]
  · show 0 < min _ _; omega
  · show 0 < min _ _; omega
  · omega
  · omega
  · intro hi
    rw [hi] at hv
    show Dav1d.Part.Ctx.getIntraCtx ((ctxsAt H.inter sb128 info old before c).at c).1.refs ((ctxsAt H.inter sb128 info old before c).at c).2.refs _ _ = _
    rw [hi]
    exact (Dav1d.Part.Ctx.C74_refs h hv old rfl rfl rfl).isInter
  · have e := seg.1
    have : Dav1d.Part.Ctx.Av1.segmentPred (segIdAt T before id (T.y0 < c.y && T.x0 < c.x) (c.x - 1) (c.y - 1)) (segIdAt T before id (T.y0 < c.y) c.x (c.y - 1))
        (segIdAt T before id (T.x0 < c.x) (c.x - 1) c.y) ≤ 7 := by
      have := hlt (T.y0 < c.y) c.x (c.y - 1)
      have := hlt (T.x0 < c.x) (c.x - 1) c.y
      unfold Dav1d.Part.Ctx.Av1.segmentPred
      split
      · split <;> omega
      · split
        · omega
        · split <;> omega
    show (getCurFrameSegid (segAfter oldSeg id (blocks before)) c.x c.y (T.y0 < c.y) (T.x0 < c.x)).1 < 8
    omega

/-! ## First blocks of superblocks -/

theorem first_aux (h : Run f sb128 T before after c) : ∀ (n : Nat) (p q : List Ev) (e : Call), p.length = n → before ++ .call c :: after = p ++ .call e :: q → ¬ atSb sb128 e →
    ∃ d ∈ blocks p, atSb sb128 d ∧ d.x / sbStep sb128 = e.x / sbStep sb128 ∧ d.y / sbStep sb128 = e.y / sbStep sb128 := by
  obtain ⟨ok, r, -, hr⟩ := h.facts
  obtain ⟨-, hT, -⟩ := h
  have x0 := hT.x0
  have y0 := hT.y0
  intro n
  induction n using Nat.strongRecOn with
  | _ n ih =>
    intro p q e hn hl hna
    have hc := ok.call hl
    obtain ⟨s1, s2, s3, s4⟩ := hc.start
    have pos := hc.pos
    have go : ∀ (c0 : Call) (p0 q0 : List Ev), p = p0 ++ .call c0 :: q0 → c0.x / sbStep sb128 = e.x / sbStep sb128 → c0.y / sbStep sb128 = e.y / sbStep sb128 →
        ∃ d ∈ blocks p, atSb sb128 d ∧ d.x / sbStep sb128 = e.x / sbStep sb128 ∧ d.y / sbStep sb128 = e.y / sbStep sb128 := by
      intro c0 p0 q0 hp ex ey
      by_cases h0 : atSb sb128 c0
      · exact ⟨c0, by rw [hp, blocks_append]; exact List.mem_append_right _ List.mem_cons_self, h0, ex, ey⟩
      · obtain ⟨d, hd, h1, h2, h3⟩ := ih p0.length (by rw [← hn, hp]; simp) p0 (q0 ++ .call e :: q) c0 rfl (by rw [hl, hp]; simp) h0
        exact ⟨d, by rw [hp, blocks_append]; exact List.mem_append_left _ hd, h1, by omega, by omega⟩
    have inrow : ∀ (c0 : Call) (p0 q0 : List Ev), p = p0 ++ .call c0 :: q0 → InRow (sbStep sb128) (sbStep sb128 * (c0.y / sbStep sb128)) c0 := by
      intro c0 p0 q0 hp
      refine (hr c0 ?_).2
      rw [hl, hp]
      simp only [blocks_append]
      exact List.mem_append_left _ (List.mem_append_right _ List.mem_cons_self)
    by_cases hx : e.x % sbStep sb128 = 0
    · have hy : e.y % sbStep sb128 ≠ 0 := fun hy => hna ⟨hx, hy⟩
      have hlt : T.y0 < e.y := by
        have : T.y0 ≠ e.y := fun hh => hy (by rw [← hh]; exact y0)
        omega
      obtain ⟨c0, p0, q0, hcov, hp, -, -⟩ := last_above ok hl (X := e.x) ⟨Nat.le_refl _, by omega⟩ s2 hlt
      obtain ⟨-, v1, v2, v3, v4⟩ := cover_some hcov
      have i := inrow c0 p0 q0 hp
      have i1 := i.x1
      have i2 := i.y1
      refine go c0 p0 q0 hp ?_ ?_ <;> clear go inrow ih hr <;> cases sb128 <;>
        simp only [sbStep, Bool.false_eq_true, if_true, if_false] at * <;> omega
    · have hlt : T.x0 < e.x := by
        have : T.x0 ≠ e.x := fun hh => hx (by rw [← hh]; exact x0)
        omega
      obtain ⟨c0, p0, q0, hcov, hp, -, -⟩ := last_left ok hl (Y := e.y) ⟨Nat.le_refl _, by omega⟩ s4 hlt
      obtain ⟨-, v1, v2, v3, v4⟩ := cover_some hcov
      have i := inrow c0 p0 q0 hp
      have i1 := i.x1
      have i2 := i.y1
      refine go c0 p0 q0 hp ?_ ?_ <;> clear go inrow ih hr <;> cases sb128 <;>
        simp only [sbStep, Bool.false_eq_true, if_true, if_false] at * <;> omega

/-- **C77.** A block is at the origin of its superblock exactly if it is the first block of the superblock. -/
theorem C77_first (h : Run f sb128 T before after c) :
    (c.x % sbStep sb128 = 0 ∧ c.y % sbStep sb128 = 0) ↔ ¬ ∃ d ∈ blocks before, d.x / sbStep sb128 = c.x / sbStep sb128 ∧ d.y / sbStep sb128 = c.y / sbStep sb128 := by
  constructor
  · rintro ⟨hx, hy⟩ ⟨d, hd, e1, e2⟩
    have hc := h.facts.1.call rfl
    have hpos := hc.pos
    have key : ∃ d' ∈ blocks before, atSb sb128 d' ∧ d'.x / sbStep sb128 = c.x / sbStep sb128 ∧ d'.y / sbStep sb128 = c.y / sbStep sb128 := by
      by_cases ha : atSb sb128 d
      · exact ⟨d, hd, ha, e1, e2⟩
      · have hm : Ev.call d ∈ before := by
          revert hd; unfold blocks; simp only [List.mem_filterMap]
          rintro ⟨ev, h1, h2⟩
          cases ev <;> simp at h2
          subst h2; exact h1
        obtain ⟨p, q, hp⟩ := split_call hm
        obtain ⟨d', h1, h2, h3, h4⟩ := first_aux h p.length p (q ++ .call c :: after) d rfl (by rw [hp]; simp) ha
        exact ⟨d', by rw [hp, blocks_append]; exact List.mem_append_left _ h1, h2, by omega, by omega⟩
    obtain ⟨d', h1, ⟨h2, h2'⟩, h3, h4⟩ := key
    have ex : d'.x = c.x := by have := Nat.div_add_mod d'.x (sbStep sb128); have := Nat.div_add_mod c.x (sbStep sb128); rw [h3] at *; omega
    have ey : d'.y = c.y := by have := Nat.div_add_mod d'.y (sbStep sb128); have := Nat.div_add_mod c.y (sbStep sb128); rw [h4] at *; omega
    have hm : Ev.call d' ∈ before := by
      revert h1; unfold blocks; simp only [List.mem_filterMap]
      rintro ⟨ev, h1, h2⟩
      cases ev <;> simp at h2
      subst h2; exact h1
    obtain ⟨p, q, hp⟩ := split_call hm
    have dpos := (h.facts.1.call (p := p) (q := q ++ .call c :: after) (c := d') (by rw [hp]; simp)).pos
    exact hc.fresh c.x c.y ⟨by omega, by omega, by omega, by omega⟩ ⟨d', hm, by omega, by omega, by omega, by omega⟩
  · intro hno
    by_cases ha : atSb sb128 c
    · exact ha
    · obtain ⟨d, h1, -, h3, h4⟩ := first_aux h _ before after c rfl rfl ha
      exact absurd ⟨d, h1, h3, h4⟩ hno

end

/-! ## The state between blocks -/

/-- Between blocks of a superblock. `D` are the 64x64 areas of the superblocks that were begun. -/
structure Rel {L : Type} (H : Hdr) (F : Av1.Frm) (tbl : Nat → Nat → Nat) (lfv : List Int → L) (D : Nat → Nat → Prop) (t : TS L) (s : Av1.St) : Prop where
  cdef : CdefRel F D t s
  q : QRel H t s
  tables : TabOk H tbl lfv t

/-- Before the first block of a superblock. -/
structure RelStart {L : Type} (H : Hdr) (F : Av1.Frm) (tbl : Nat → Nat → Nat) (lfv : List Int → L) (D : Nat → Nat → Prop) (t : TS L) (s : Av1.St) : Prop where
  cdef : CdefRel F D t s
  q : QRel H t s
  tables : TabWeak H tbl lfv t

/-- What the state means: the index of CDEF of each 64x64 area, the quantizers of all segments and planes, and the loop filter levels (which
are a function `lfv` of DeltaLF). -/
structure Shows {L : Type} (F : Av1.Frm) (tbl : Nat → Nat → Nat) (lfv : List Int → L) (D : Nat → Nat → Prop) (t : TS L) (s : Av1.St) : Prop where
  cdef : F.CodedLossless = false → F.enable_cdef = true → F.allow_intrabc = false → ∀ X Y, D X Y → t.cdef (X / 2) (Y / 2) (X % 2 + 2 * (Y % 2)) = s.cdef_idx (16 * Y) (16 * X)
  dc : ∀ id < 8, ∀ plane < 3, t.dq id plane 0 = Av1.get_dc_quant F (fun q => tbl q 0) s id plane
  ac : ∀ id < 8, ∀ plane < 3, t.dq id plane 1 = Av1.get_ac_quant F (fun q => tbl q 1) s id plane
  levels : t.lflvl = lfv s.DeltaLF

section
variable {bw bh : Nat} {H : Hdr} {F : Av1.Frm} (hF : Agrees bw bh H F)
include hF

theorem Rel.shows {L : Type} {tbl : Nat → Nat → Nat} {lfv : List Int → L} {D : Nat → Nat → Prop} {t : TS L} {s : Av1.St} (h : Rel H F tbl lfv D t s) : Shows F tbl lfv D t s := by
  obtain ⟨hc, hq, h1, h2⟩ := h
  have key : ∀ id < 8, (if H.segEnabled then iclip (t.lastQ + H.segDq id) 0 255 else t.lastQ) = Av1.get_qidx F s id ∧ 0 ≤ Av1.get_qidx F s id ∧ Av1.get_qidx F s id ≤ 255 := by
    intro id hid
    unfold Av1.get_qidx
    have e : (if F.delta_q_present = true then s.CurrentQIndex else F.base_q_idx) = t.lastQ := by
      rw [← hF.dq.1]
      cases hd : H.dqPresent with
      | true => exact hq.q.symm
      | false => rw [hq.still hd]; exact hF.base.1.symm
    have hr := hq.range
    rw [e, hF.enabled, hF.altQ id hid, iclip_eq]
    have cl : ∀ v, 0 ≤ Av1.Clip3 0 255 v ∧ Av1.Clip3 0 255 v ≤ 255 := by
      intro v; unfold Av1.Clip3; split
      · omega
      · split <;> omega
    have cid : Av1.Clip3 0 255 t.lastQ = t.lastQ := by
      unfold Av1.Clip3; rw [if_neg (by omega), if_neg (by omega)]
    cases F.segmentation_enabled with
    | false => exact ⟨rfl, hr.1, hr.2.1⟩
    | true =>
      cases F.altQ id with
      | none => simp only [if_true, Option.getD_none, Int.add_zero, cid]; exact ⟨trivial, hr.1, hr.2.1⟩
      | some d => exact ⟨rfl, cl _⟩
  obtain ⟨d1, d2, d3, d4, d5⟩ := hF.deltas
  refine ⟨?_, ?_, ?_, ?_⟩
  · intro c1 c2 c3
    exact hc (by unfold cdefOn; rw [c1, c2, c3]; rfl)
  · intro id hid plane hp
    obtain ⟨k1, k2, k3⟩ := key id hid
    rw [h1]
    match plane, hp with
    | 0, _ => simp only [initQuant, Av1.get_dc_quant, k1, d1]; rfl
    | 1, _ => simp only [initQuant, Av1.get_dc_quant, k1, d2]; rfl
    | 2, _ => simp only [initQuant, Av1.get_dc_quant, k1, d4]; rfl
  · intro id hid plane hp
    obtain ⟨k1, k2, k3⟩ := key id hid
    rw [h1]
    match plane, hp with
    | 0, _ =>
      simp only [initQuant, Av1.get_ac_quant, k1, if_true, Av1.dc_q]
      congr 1
      unfold Av1.Clip3
      rw [if_neg (by omega), if_neg (by omega)]
    | 1, _ => simp only [initQuant, Av1.get_ac_quant, k1, d3]; rfl
    | 2, _ => simp only [initQuant, Av1.get_ac_quant, k1, d5]; rfl
  · rw [h2, hq.lf]

/-- **C77.** At the start of a tile, whatever the state was. -/
theorem C77_tile {L : Type} (tbl : Nat → Nat → Nat) (lfv : List Int → L) (D : Nat → Nat → Prop) (t : TS L) (s : Av1.St) (hc : CdefRel F D t s) :
    RelStart H F tbl lfv D (t.tileStart H) (Av1.tileStart F s) := by
  obtain ⟨b1, b2, b3, b4⟩ := hF.base
  refine ⟨hc, ⟨b1, rfl, fun _ => rfl, ⟨b2, b3, b4⟩, rfl, ?_⟩, .inl rfl, .inl rfl⟩
  intro i hi
  have : ∀ i < 4, -63 ≤ ([0, 0, 0, 0] : List Int).getD i 0 ∧ ([0, 0, 0, 0] : List Int).getD i 0 ≤ 63 := by decide
  exact this i hi

/-- **C77.** At the start of a superblock at column `x` and row `y`. -/
theorem C77_superblock {L : Type} {tbl : Nat → Nat → Nat} {lfv : List Int → L} {D : Nat → Nat → Prop} {t : TS L} {s : Av1.St} (h : RelStart H F tbl lfv D t s ∨ Rel H F tbl lfv D t s)
    {x y : Nat} (hx : x % sbStep H.sb128 = 0) (hy : y % sbStep H.sb128 = 0) :
    RelStart H F tbl lfv (fun X Y => D X Y ∨ 16 * X / sbStep H.sb128 = x / sbStep H.sb128 ∧ 16 * Y / sbStep H.sb128 = y / sbStep H.sb128) (t.sbStart H.sb128 x y) (Av1.sbStart F y x s) ∧
    (Av1.sbStart F y x s).ReadDeltas = H.dqPresent := by
  have h : RelStart H F tbl lfv D t s := by
    rcases h with h | ⟨h1, h2, h3, h4⟩
    · exact h
    · exact ⟨h1, h2, .inr h3, .inr h4⟩
  obtain ⟨hc, hq, hw⟩ := h
  have e : t.sbStart H.sb128 x y = { t with cdef := (t.sbStart H.sb128 x y).cdef } := by
    unfold TS.sbStart; cases H.sb128 <;> rfl
  refine ⟨⟨?_, ?_, ?_⟩, hF.dq.1.symm⟩
  · intro ho X Y hXY
    have hr := hc ho X Y
    show _ = if _ then _ else _
    rw [← hF.sb128]
    unfold TS.sbStart
    cases hb : H.sb128 with
    | false =>
      rw [hb] at hx hy hXY
      simp only [sbStep, Bool.false_eq_true, if_false, false_and, or_false] at hx hy hXY ⊢
      simp only [TS.setCdef, cdefBase, Bool.false_eq_true, if_false]
      by_cases hh : X = x / 16 ∧ Y = y / 16
      · rw [if_pos (by omega), if_pos (by omega)]
      · rw [if_neg (by omega), if_neg (by omega)]
        exact hr (by rcases hXY with h | h; exact h; omega)
    | true =>
      rw [hb] at hx hy hXY
      simp only [sbStep, if_true, true_and] at hx hy hXY ⊢
      simp only [TS.setCdef]
      by_cases hh : X / 2 = x / 32 ∧ Y / 2 = y / 32
      · obtain ⟨h1, h2⟩ := hh
        rw [if_pos (show 16 * Y = y ∧ 16 * X = x ∨ (16 * Y = y ∨ 16 * Y = y + 16) ∧ (16 * X = x ∨ 16 * X = x + 16) from .inr ⟨by omega, by omega⟩)]
        simp only [h1, h2, true_and]
        split
        · rfl
        · split
          · rfl
          · split
            · rfl
            · rw [if_pos (by omega)]
      · have n : ∀ i, ¬ (X / 2 = x / 32 ∧ Y / 2 = y / 32 ∧ X % 2 + 2 * (Y % 2) = i) := fun i h => hh ⟨h.1, h.2.1⟩
        rw [if_neg (n 3), if_neg (n 2), if_neg (n 1), if_neg (n 0)]
        rw [if_neg (by
          rintro (⟨a, b⟩ | ⟨a, b⟩)
          · exact hh ⟨by omega, by omega⟩
          · exact hh ⟨by omega, by omega⟩)]
        exact hr (by rcases hXY with h | h; exact h; exact absurd ⟨by omega, by omega⟩ hh)
  · rw [e]; exact ⟨hq.q, hq.lf, hq.still, hq.range, hq.len, hq.lfRange⟩
  · rw [e]; exact hw

end

/-! ## Blocks -/

/-- What is found out is the same. -/
structure HeadRel (h : Head) (d : Av1.Hd) : Prop where
  segId : (h.segId : Int) = d.segment_id
  segLt : h.segId < 8
  segPred : h.segPred = d.seg_id_predicted
  skipMode : h.skipMode = d.skip_mode
  skip : h.skip = d.skip
  intra : h.intra = !(d.is_inter || d.use_intrabc)

section
variable {bw bh : Nat} {H : Hdr} {F : Av1.Frm} (hF : Agrees bw bh H F) {c : Call} {E : Around} {P : Av1.Pos} (hE : Sees H F c E P)
include hF hE

/-- What is done with the state. -/
theorem state_same {L : Type} (tbl : Nat → Nat → Nat) (lfv : List Int → L) {D : Nat → Nat → Prop} (hD : D (c.x / 16) (c.y / 16)) (skip : Bool) (t : TS L) (s : Av1.St)
    (hr : if atSb H.sb128 c then RelStart H F tbl lfv D t s else Rel H F tbl lfv D t s) (hd : s.ReadDeltas = (H.dqPresent && decide (atSb H.sb128 c))) :
    Same (segOk F P) (fun t' s' => Rel H F tbl lfv D t' s') (readCdef H c skip t >>= fun t => readDeltas H tbl lfv c skip t)
      (Av1.read_cdef F P skip s >>= fun s => Av1.read_delta_qindex F P skip s >>= fun s => Av1.read_delta_lf F P skip s) := by
  have hc : CdefRel F D t s := by split at hr; exact hr.cdef; exact hr.cdef
  have hq : QRel H t s := by split at hr; exact hr.q; exact hr.q
  have ht : if atSb H.sb128 c then TabWeak H tbl lfv t else TabOk H tbl lfv t := by
    split at hr
    · rename_i ha; rw [if_pos ha]; exact hr.tables
    · rename_i ha; rw [if_neg ha]; exact hr.tables
  refine Same.bind (cdef_same hF hE skip t s hc hD) ?_
  rintro t' s' ⟨h1, ⟨g, rfl⟩, ⟨g', rfl⟩⟩
  refine Same.mono ?_ (deltas_same hF hE tbl lfv skip _ _ ⟨hq.q, hq.lf, hq.still, hq.range, hq.len, hq.lfRange⟩ h1 hd ht)
  rintro a b ⟨k1, k2, k3⟩
  exact ⟨k2, k1, k3⟩

omit hF hE in
theorem same_pure {α β : Type} {ok : Req → Nat → Prop} {R : α → β → Prop} {w : β} : ∀ {p : Prog α}, Same ok R p (pure w) → Same ok (fun a b => R a b ∧ b = w) p (pure w)
  | .ret a, h => ⟨h, rfl⟩
  | .err, h => h.elim
  | .read _ _, h => h.elim

theorem segPre_same' : Same (segOk F P) (fun p q => SegRel H false p q ∧
    (F.segmentation_update_map = false ∨ F.segmentation_enabled = false → ∀ skip, Av1.inter_segment_id F P skip false = pure q)) (readSegPre H E c) (Av1.inter_segment_id F P false true) := by
  have h := segPre_same hF hE
  by_cases hu : F.segmentation_update_map = false ∨ F.segmentation_enabled = false
  · obtain ⟨w, hw⟩ : ∃ w, ∀ skip pre, Av1.inter_segment_id F P skip pre = pure w := by
      unfold Av1.inter_segment_id
      cases he : F.segmentation_enabled with
      | false => exact ⟨_, fun _ _ => rfl⟩
      | true =>
        rw [he] at hu
        rcases hu with hu | hu
        · rw [hu]; exact ⟨_, fun _ _ => rfl⟩
        · cases hu
    rw [hw] at h ⊢
    refine Same.mono ?_ (same_pure h)
    rintro a b ⟨h1, rfl⟩
    exact ⟨h1, fun _ skip => hw skip false⟩
  · exact Same.mono (fun a b h1 => ⟨h1, fun hh => absurd hh hu⟩) h

theorem segPost_same' (skip : Bool) {pre : Nat × Bool × Option Seg} {ids : Int × Bool} (hpre : SegRel H false pre ids)
    (hw : F.segmentation_update_map = false ∨ F.segmentation_enabled = false → ∀ skip, Av1.inter_segment_id F P skip false = pure ids) :
    Same (segOk F P) (SegRel H true) (readSegPost H E c skip pre) (if (!F.SegIdPreSkip) = true then Av1.inter_segment_id F P skip false else pure ids) := by
  cases hp : F.SegIdPreSkip with
  | true =>
    unfold readSegPost
    rw [hF.preskip, hp, if_neg (by simp), if_neg (by decide)]
    obtain ⟨g1, g2, g3, g4⟩ := hpre
    exact ⟨g1, g2, g3, by rw [g4, hF.preskip, hp]; simp⟩
  | false =>
    rw [if_pos (by decide)]
    exact segPost_same hF hE hp skip pre ids hpre (fun hu => hw hu skip)

theorem inter_same {L : Type} (tbl : Nat → Nat → Nat) (lfv : List Int → L) {D : Nat → Nat → Prop} (hD : D (c.x / 16) (c.y / 16)) (t : TS L) (s : Av1.St) (hi : F.FrameIsIntra = false)
    (hr : if atSb H.sb128 c then RelStart H F tbl lfv D t s else Rel H F tbl lfv D t s) (hd : s.ReadDeltas = (H.dqPresent && decide (atSb H.sb128 c))) :
    Same (segOk F P) (fun p q => HeadRel p.1 q.1 ∧ Rel H F tbl lfv D p.2 q.2 ∧ q.2.ReadDeltas = false) (readHead H tbl lfv E c t) (Av1.inter_frame_head F P s) := by
  unfold readHead Av1.inter_frame_head
  refine Same.bind (segPre_same' hF hE) ?_
  rintro pre ids ⟨hpre, hw⟩
  refine Same.bind (skipMode_same hF hE hpre) ?_
  rintro skipMode _ rfl
  refine Same.bind (skip_same hF hE hpre skipMode) ?_
  rintro skip _ rfl
  have post := segPost_same' hF hE skip hpre hw
  refine Same.bind post fun pst ids' hpost => ?_
  have st := state_same hF hE tbl lfv hD skip t s hr hd
  have : ∀ (k : TS L → Prog (Head × TS L)), (readCdef H c skip t >>= fun t => readDeltas H tbl lfv c skip t >>= k) = ((readCdef H c skip t >>= fun t => readDeltas H tbl lfv c skip t) >>= k) := by
    intro k; rw [bind_assoc']
  rw [this]
  have : ∀ (k : Av1.St → Prog (Av1.Hd × Av1.St)), (Av1.read_cdef F P skip s >>= fun s => Av1.read_delta_qindex F P skip s >>= fun s => Av1.read_delta_lf F P skip s >>= k) =
      ((Av1.read_cdef F P skip s >>= fun s => Av1.read_delta_qindex F P skip s >>= fun s => Av1.read_delta_lf F P skip s) >>= k) := by
    intro k; simp only [bind_assoc']
  rw [this]
  refine Same.bind st fun t' s' hrel => ?_
  refine Same.bind (isInter_same hF hE hpost hi skipMode) ?_
  rintro _ b rfl
  obtain ⟨g1, g2, g3, g4⟩ := hpost
  refine Same.ret ⟨⟨g1, g2, g3, rfl, rfl, ?_⟩, ⟨hrel.cdef, ⟨hrel.q.q, hrel.q.lf, hrel.q.still, hrel.q.range, hrel.q.len, hrel.q.lfRange⟩, hrel.tables⟩, rfl⟩
  simp

omit hF hE in
theorem ite_bind {α β : Type} (b : Prop) [Decidable b] (p q : Prog α) (k : α → Prog β) : (if b then p else q) >>= k = if b then p >>= k else q >>= k := by
  split <;> rfl

omit hE in
/-- In frames without inter prediction the two kinds of segment ids are the same, and skip_mode is not used. -/
theorem intra_head_eq (hi : F.FrameIsIntra = true) (s : Av1.St) : Av1.intra_frame_head F P s = (do
    let ids ← Av1.inter_segment_id F P false true
    let skip_mode ← Av1.read_skip_mode F P ids.1
    let skip ← (if skip_mode then pure true else Av1.read_skip F P ids.1)
    let ids ← (if !F.SegIdPreSkip then Av1.inter_segment_id F P skip false else pure ids)
    let s ← Av1.read_cdef F P skip s
    let s ← Av1.read_delta_qindex F P skip s
    let s ← Av1.read_delta_lf F P skip s
    let use_intrabc ← (if F.allow_intrabc then Av1.S .use_intrabc else pure 0)
    pure (⟨ids.1, ids.2, skip_mode, skip, false, decide (use_intrabc ≠ 0)⟩, { s with ReadDeltas := false })) := by
  have hsm : ∀ id, Av1.read_skip_mode F P id = pure false := by
    intro id; unfold Av1.read_skip_mode; rw [hF.noSkipMode hi]; simp
  have e1 : Av1.inter_segment_id F P false true = (if F.SegIdPreSkip then Av1.intra_segment_id F P false else pure 0) >>= fun id => pure (id, false) := by
    unfold Av1.inter_segment_id Av1.intra_segment_id
    cases he : F.segmentation_enabled with
    | false => simp only [Bool.false_eq_true, if_false]; split <;> rfl
    | true =>
      obtain ⟨u1, u2⟩ := hF.still hi he
      rw [u1, u2]
      cases F.SegIdPreSkip <;> rfl
  have e2 : ∀ skip, Av1.inter_segment_id F P skip false = Av1.intra_segment_id F P skip >>= fun id => pure (id, false) := by
    intro skip
    unfold Av1.inter_segment_id Av1.intra_segment_id
    cases he : F.segmentation_enabled with
    | false => rfl
    | true =>
      obtain ⟨u1, u2⟩ := hF.still hi he
      rw [u1, u2]
      cases skip <;> rfl
  unfold Av1.intra_frame_head
  simp only [e1, e2, hsm, bind_assoc', pure_bind', ite_bind, Bool.false_eq_true, if_false]

theorem intra_same {L : Type} (tbl : Nat → Nat → Nat) (lfv : List Int → L) {D : Nat → Nat → Prop} (hD : D (c.x / 16) (c.y / 16)) (t : TS L) (s : Av1.St) (hi : F.FrameIsIntra = true)
    (hr : if atSb H.sb128 c then RelStart H F tbl lfv D t s else Rel H F tbl lfv D t s) (hd : s.ReadDeltas = (H.dqPresent && decide (atSb H.sb128 c))) :
    Same (segOk F P) (fun p q => HeadRel p.1 q.1 ∧ Rel H F tbl lfv D p.2 q.2 ∧ q.2.ReadDeltas = false) (readHead H tbl lfv E c t) (Av1.intra_frame_head F P s) := by
  rw [intra_head_eq hF hi]
  unfold readHead
  refine Same.bind (segPre_same' hF hE) ?_
  rintro pre ids ⟨hpre, hw⟩
  have nsm : Av1.read_skip_mode F P ids.1 = pure false := by unfold Av1.read_skip_mode; rw [hF.noSkipMode hi]; simp
  have hsm := skipMode_same hF hE hpre
  rw [nsm] at hsm
  rw [nsm]
  refine Same.bind (same_pure hsm) ?_
  rintro _ _ ⟨rfl, rfl⟩
  refine Same.bind (skip_same hF hE hpre false) ?_
  rintro skip _ rfl
  refine Same.bind (segPost_same' hF hE skip hpre hw) fun pst ids' hpost => ?_
  have st := state_same hF hE tbl lfv hD skip t s hr hd
  have : ∀ (k : TS L → Prog (Head × TS L)), (readCdef H c skip t >>= fun t => readDeltas H tbl lfv c skip t >>= k) = ((readCdef H c skip t >>= fun t => readDeltas H tbl lfv c skip t) >>= k) := by
    intro k; rw [bind_assoc']
  rw [this]
  have : ∀ (k : Av1.St → Prog (Av1.Hd × Av1.St)), (Av1.read_cdef F P skip s >>= fun s => Av1.read_delta_qindex F P skip s >>= fun s => Av1.read_delta_lf F P skip s >>= k) =
      ((Av1.read_cdef F P skip s >>= fun s => Av1.read_delta_qindex F P skip s >>= fun s => Av1.read_delta_lf F P skip s) >>= k) := by
    intro k; simp only [bind_assoc']
  rw [this]
  refine Same.bind st fun t' s' hrel => ?_
  obtain ⟨g1, g2, g3, g4⟩ := hpost
  have fin : ∀ b : Bool, HeadRel ⟨pst.1, pst.2.1, false, skip, !b, pst.2.2⟩ ⟨ids'.1, ids'.2, false, skip, false, b⟩ ∧ Rel H F tbl lfv D t' { s' with ReadDeltas := false } := by
    intro b
    exact ⟨⟨g1, g2, g3, rfl, rfl, by simp⟩, ⟨hrel.cdef, ⟨hrel.q.q, hrel.q.lf, hrel.q.still, hrel.q.range, hrel.q.len, hrel.q.lfRange⟩, hrel.tables⟩⟩
  have hinter : H.inter = false := by rw [hF.intra, hi]; rfl
  unfold readIntra
  rw [hinter, hF.intrabc]
  simp only [Bool.false_eq_true, if_false]
  cases F.allow_intrabc with
  | false => exact ⟨(fin false).1, (fin false).2, rfl⟩
  | true =>
    rw [if_pos rfl, if_pos rfl, bind_assoc']
    refine Same.bind (flag_S (e := .use_intrabc) rfl) ?_
    rintro _ v rfl
    exact ⟨(fin (decide (v ≠ 0))).1, (fin (decide (v ≠ 0))).2, rfl⟩

end

section
variable {f : Frame} {sb128 : Bool} {T : Tile} {before after : List Ev} {c : Call} {H : Hdr} {F : Av1.Frm}

/-- **C77.** For every block, decode_b reads segment_id, skip_mode, skip, cdef_idx, delta_q and delta_lf, is_inter and use_intrabc in the
order and with the contexts of the AV1 specification, finds the same values, and leaves the same indices of CDEF, quantizers and loop filter levels; for
all answers of the arithmetic decoder for which the segment ids are in range. `RelStart` holds before the first block of a superblock (`C77_tile`,
`C77_superblock`), `Rel` after each block, and ReadDeltas is set before the first block of each superblock only. -/
theorem C77_block (h : Run f sb128 T before after c) (hF : Agrees f.bw f.bh H F) (hsb : H.sb128 = sb128) {info : Call → Blk} (hv : ∀ d, (info d).Valid H.inter) {id : Call → Nat}
    (hid : ∀ d, id d < 8) (old : Ctxs Edge) (oldSeg : Nat → Nat → Nat) {L : Type} (tbl : Nat → Nat → Nat) (lfv : List Int → L) {D : Nat → Nat → Prop} (hD : D (c.x / 16) (c.y / 16))
    {t : TS L} {s : Av1.St}
    (hr : if c.x % sbStep sb128 = 0 ∧ c.y % sbStep sb128 = 0 then RelStart H F tbl lfv D t s ∧ s.ReadDeltas = H.dqPresent else Rel H F tbl lfv D t s ∧ s.ReadDeltas = false) :
    Same (segOk F (posAt T info id before c))
      (fun p q => HeadRel p.1 q.1 ∧ Rel H F tbl lfv D p.2 q.2 ∧ Shows F tbl lfv D p.2 q.2 ∧ q.2.ReadDeltas = false)
      (readHead H tbl lfv (aroundAt f sb128 T H.inter info id old oldSeg before c) c t) (Av1.head F (posAt T info id before c) s) := by
  have hE := sees h hF hv hid old oldSeg
  have hr' : (if atSb H.sb128 c then RelStart H F tbl lfv D t s else Rel H F tbl lfv D t s) ∧ s.ReadDeltas = (H.dqPresent && decide (atSb H.sb128 c)) := by
    rw [hsb]
    by_cases ha : atSb sb128 c
    · rw [if_pos (show _ ∧ _ from ha)] at hr
      rw [if_pos ha, decide_eq_true ha, Bool.and_true]; exact hr
    · rw [if_neg (show ¬ (_ ∧ _) from ha)] at hr
      rw [if_neg ha, decide_eq_false ha, Bool.and_false]; exact hr
  refine Same.mono (R := fun p q => HeadRel p.1 q.1 ∧ Rel H F tbl lfv D p.2 q.2 ∧ q.2.ReadDeltas = false) (fun p q hh => ⟨hh.1, hh.2.1, Rel.shows hF hh.2.1, hh.2.2⟩) ?_
  unfold Av1.head
  cases hi : F.FrameIsIntra with
  | true => exact intra_same hF hE tbl lfv hD t s hi hr'.1 hr'.2
  | false => exact inter_same hF hE tbl lfv hD t s hi hr'.1 hr'.2

end

/-! ## Segment ids out of range -/

/-- **C77.** Outside the range of `segOk` dav1d does not clip to LastActiveSegId, as the specification does, but takes segment 0: after segment_id 7 is read where 0 is
predicted, and the last segment with a feature is neither 0 nor 7, the two ids are different. -/
theorem C77_out_of_range {bw bh : Nat} {H : Hdr} {F : Av1.Frm} (hF : Agrees bw bh H F) (h0 : 0 < H.lastActive) (h7 : H.lastActive < 7) :
    segidOf H 0 7 = 0 ∧ Av1.Clip3 0 F.LastActiveSegId (Av1.neg_deinterleave 7 0 (F.LastActiveSegId + 1)) = H.lastActive := by
  obtain ⟨e, -, -⟩ := hF.last
  have e : F.LastActiveSegId = H.lastActive := by omega
  constructor
  · have hm : H.lastActive % 2 ^ 32 = H.lastActive := Int.emod_eq_of_lt (by omega) (by omega)
    simp only [segidOf, hm, negDeinterleave]
    simp [h7]
  · rw [e]
    unfold Av1.Clip3 Av1.neg_deinterleave
    rw [if_pos rfl, if_neg (by decide), if_pos (by omega)]

/-! ## Examples -/

/-- An inter frame with segments (2 and 5 have features), differences of quantizers and levels, and CDEF. -/
def exHdr : Hdr :=
  { inter := true, sb128 := false, mono := false, segEnabled := true, updateMap := true, temporal := true, preskip := true, lastActive := 5
    seg := fun i => if i = 2 then ⟨3, false, false⟩ else if i = 5 then ⟨-1, true, true⟩ else ⟨-1, false, false⟩
    segDq := fun i => if i = 2 then -20 else 0
    prevSeg := some fun x y => (x + y) % 3, skipModeEnabled := true, cdefBits := 2, dqPresent := true, dqRes := 1, dlfPresent := true, dlfMulti := true, dlfRes := 0
    yac := 100, ydcDelta := 1, uacDelta := 2, udcDelta := 3, vacDelta := -2, vdcDelta := -3, allowIntrabc := false }

def exFrm : Av1.Frm :=
  { FrameIsIntra := false, use_128x128_superblock := false, NumPlanes := 3, MiRows := Dav1d.Part.smallFrame.bh, MiCols := Dav1d.Part.smallFrame.bw
    segmentation_enabled := true, segmentation_update_map := true, segmentation_temporal_update := true, SegIdPreSkip := true, LastActiveSegId := 5
    altQ := fun i => if i = 2 then some (-20) else none
    refFrame := fun i => if i = 2 then some 3 else none
    skipFeature := fun i => i = 5, globalmv := fun i => i = 5, PrevSegmentIds := fun y x => (x + y) % 3
    skip_mode_present := true, CodedLossless := false, enable_cdef := true, allow_intrabc := false, cdef_bits := 2
    delta_q_present := true, delta_q_res := 1, delta_lf_present := true, delta_lf_multi := true, delta_lf_res := 0, base_q_idx := 100
    DeltaQYDc := 1, DeltaQUDc := 3, DeltaQUAc := 2, DeltaQVDc := -3, DeltaQVAc := -2 }

theorem ex_agrees : Agrees Dav1d.Part.smallFrame.bw Dav1d.Part.smallFrame.bh exHdr exFrm := by
  refine ⟨rfl, rfl, by decide, .inr rfl, rfl, rfl, rfl, rfl, rfl, rfl, by decide, by decide, by decide, by decide, by decide, nofun, ?_, nofun, rfl, nofun, by decide, ⟨rfl, rfl⟩,
    ⟨rfl, rfl, rfl⟩, by decide, by decide, rfl, fun _ => rfl⟩
  intro x y
  exact ⟨rfl, by dsimp only; omega⟩

def exTs : TS (List Int) := { cdef := fun _ _ _ => -1, lastQ := 90, lastLf := [1, 0, -2, 0], dq := initQuant exHdr (fun q k => 4 + q + k) 90, lflvl := [1, 0, -2, 0] }
def exSt : Av1.St := { cdef_idx := fun _ _ => -1, CurrentQIndex := 90, DeltaLF := [1, 0, -2, 0], ReadDeltas := false }

/-- C77 at the block at (8, 1) of the run in Part/Props. -/
example : Same (segOk exFrm (posAt Dav1d.Part.smallTile Dav1d.Part.Ctx.smallInfo (fun d => d.x % 8) ((Dav1d.Part.logOf Dav1d.Part.smallRun).take 8) ⟨3, 14, 8, 60, 8, 1⟩))
      (fun p q => HeadRel p.1 q.1 ∧ Rel exHdr exFrm (fun q k => 4 + q + k) id (fun _ _ => True) p.2 q.2 ∧ Shows exFrm (fun q k => 4 + q + k) id (fun _ _ => True) p.2 q.2 ∧ q.2.ReadDeltas = false)
      (readHead exHdr (fun q k => 4 + q + k) id (aroundAt Dav1d.Part.smallFrame false Dav1d.Part.smallTile true Dav1d.Part.Ctx.smallInfo (fun d => d.x % 8) ⟨fun _ => .zero, fun _ => .zero, none⟩ (fun _ _ => 9)
        ((Dav1d.Part.logOf Dav1d.Part.smallRun).take 8) ⟨3, 14, 8, 60, 8, 1⟩) ⟨3, 14, 8, 60, 8, 1⟩ exTs)
      (Av1.head exFrm (posAt Dav1d.Part.smallTile Dav1d.Part.Ctx.smallInfo (fun d => d.x % 8) ((Dav1d.Part.logOf Dav1d.Part.smallRun).take 8) ⟨3, 14, 8, 60, 8, 1⟩) exSt) := by
  refine C77_block Dav1d.Part.Ctx.smallRun_at ex_agrees rfl (H := exHdr) Dav1d.Part.Ctx.smallInfo_valid (fun d => Nat.mod_lt _ (by decide)) _ _ _ _ trivial ?_
  rw [if_neg (by decide)]
  exact ⟨⟨fun _ _ _ _ => rfl, ⟨rfl, rfl, nofun, by decide, rfl, by decide⟩, rfl, rfl⟩, rfl⟩

/-- Answers from a list. -/
def answers : List Nat → Req → Nat × List Nat := fun s _ => (s.headD 0, s.tail)

/-- The first block of a superblock: segment 1 is read (1 from 0 with nothing predicted), no skip_mode, no skip, cdef_idx 3, the quantizer index goes down by 2 * 5 and
the second of four levels up by 1. -/
example : ((readHead exHdr (fun q k => 4 + q + k) id ⟨⟨0, 0, 0, 0, ⟨0, 0, 0, 0⟩, 0, 0, 0, 0⟩, ⟨0, 0, 0, 0, ⟨0, 0, 0, 0⟩, 0, 0, 0, 0⟩, fun _ _ => 0, false, false, 4, 4⟩ ⟨1, 6, 0, 0, 0, 0⟩
    (exTs.tileStart exHdr)).run answers [0, 1, 0, 0, 3, 3, 0, 2, 1, 0, 1, 0, 0, 0, 1]).1.map (fun r => ((r.1.segId, r.1.skip, r.1.intra), r.2.lastQ, r.2.lastLf, r.2.dq 2 0 0, r.2.cdef 0 0 0)) =
    some ((1, false, false), 90, [0, 1, 0, 0], 75, 3) := by decide

end Dav1d.Syn
