import Verif.Syn.PalColors
import Verif.Syn.PalIndex
import Verif.Part.SbOrder
import Verif.Syn.CopyProps
import Verif.Dsp.IpredPx
/-!
# Palettes: the properties
-/
set_option linter.unusedVariables false
namespace Dav1d.Syn.Pal
open Dav1d.Part (Call Tile Ev Frame bsW bsH sbStep blocks blocks_append coverOf TileOk InRow)
open Dav1d.Part.Ctx

variable {f : Frame} {sb128 : Bool} {T : Tile} {before after : List Ev} {c : Call}

/-! ## The blocks around -/

/-- The step for one block. -/
def PalSt.step (st : Nat) (junk : Nat → PalSt) (info : Call → Blk) (chroma : Call → Bool) (pals : Call → PalBlk) (s : PalSt) (c : Call) : PalSt :=
  (s.enter st junk c).update (info c) (chroma c) (pals c) c

section
variable {st : Nat} {junk : Nat → PalSt} {info : Call → Blk} {chroma : Call → Bool} {pals : Call → PalBlk}

theorem pal_step_row (s : PalSt) (c : Call) : (s.step st junk info chroma pals c).row = some (c.y / st) := by
  unfold PalSt.step PalSt.update PalSt.enter
  dsimp only
  split
  · assumption
  · rfl

theorem pal_fold_row {r : Nat} : ∀ (cs : List Call) (s : PalSt), s.row = some r → (∀ c ∈ cs, c.y / st = r) →
    (cs.foldl (PalSt.step st junk info chroma pals) s).row = some r
  | [], s, hr, h => hr
  | c :: cs, s, hr, h => pal_fold_row cs _ (by rw [pal_step_row, h c List.mem_cons_self]) (fun d hd => h d (List.mem_cons_of_mem _ hd))

theorem pal_fold_a {r e : Nat} : ∀ (cs : List Call) (s : PalSt), s.row = some r →
    (∀ c ∈ cs, c.y / st = r ∧ ¬ (c.x % 32 ≤ e ∧ e < c.x % 32 + bsW c.bs)) → (cs.foldl (PalSt.step st junk info chroma pals) s).a e = s.a e
  | [], s, hr, h => rfl
  | c :: cs, s, hr, h => by
    obtain ⟨h1, h2⟩ := h c List.mem_cons_self
    rw [List.foldl_cons, pal_fold_a cs _ (by rw [pal_step_row, h1]) (fun d hd => h d (List.mem_cons_of_mem _ hd))]
    unfold PalSt.step PalSt.update setN PalSt.enter
    dsimp only
    rw [if_neg h2, if_pos (by rw [hr, h1])]

theorem pal_fold_l {r e : Nat} : ∀ (cs : List Call) (s : PalSt), s.row = some r →
    (∀ c ∈ cs, c.y / st = r ∧ ¬ (c.y % 32 ≤ e ∧ e < c.y % 32 + bsH c.bs)) → (cs.foldl (PalSt.step st junk info chroma pals) s).l e = s.l e
  | [], s, hr, h => rfl
  | c :: cs, s, hr, h => by
    obtain ⟨h1, h2⟩ := h c List.mem_cons_self
    rw [List.foldl_cons, pal_fold_l cs _ (by rw [pal_step_row, h1]) (fun d hd => h d (List.mem_cons_of_mem _ hd))]
    unfold PalSt.step PalSt.update setN PalSt.enter
    dsimp only
    rw [if_neg h2, if_pos (by rw [hr, h1])]

/-- The size for chroma that is stored. -/
def uvOf (info : Call → Blk) (chroma : Call → Bool) (pals : Call → PalBlk) (d : Call) : Nat := if isIntra (info d) && chroma d then (pals d).uv else 0

theorem uv_enter {s : PalSt} {t : Ctxs Nat} (h1 : s.row = t.row) (h2 : s.row ≠ none → ∀ i, (s.l i).uv = t.l i) (c : Call) (i : Nat) :
    ((s.enter st junk c).l i).uv = (t.enter st (fun _ => 0) c).l i := by
  unfold PalSt.enter Ctxs.enter
  by_cases hr : s.row = some (c.y / st)
  · rw [if_pos hr, if_pos (by rw [← h1]; exact hr)]
    exact h2 (by rw [hr]; simp) i
  · rw [if_neg hr, if_neg (by rw [← h1]; exact hr)]

/-- The sizes for chroma on the left are like the other contexts. -/
theorem uv_sim (old : PalSt) : ∀ (cs : List Call) (s : PalSt) (t : Ctxs Nat), s.row = t.row → (s.row ≠ none → ∀ i, (s.l i).uv = t.l i) →
    let s' := cs.foldl (PalSt.step st junk info chroma pals) s
    let t' := cs.foldl (fun t c => (t.enter st (fun _ => 0) c).update (fun d _ _ => uvOf info chroma pals d) c) t
    s'.row = t'.row ∧ (s'.row ≠ none → ∀ i, (s'.l i).uv = t'.l i)
  | [], s, t, h1, h2 => ⟨h1, h2⟩
  | c :: cs, s, t, h1, h2 => by
    refine uv_sim old cs _ _ ?_ (fun _ i => ?_)
    · rw [pal_step_row]; exact (enter_row st _ t c).symm
    · unfold PalSt.step PalSt.update Ctxs.update setN
      dsimp only
      have he := uv_enter (st := st) (junk := junk) h1 h2 c i
      split
      · rfl
      · exact he

end

/-- What the specification keeps of a block: PaletteSizes and PaletteColors of luma (0) and of chroma (1, with the colours of U). -/
def aroundOf (info : Call → Blk) (pals : Call → PalBlk) (pl : Nat) : Option Call → Av1.Around
  | none => ⟨0, fun _ => 0⟩
  | some d => ⟨if pl = 0 then Av1.palSzOf (info d) else (pals d).uv, (pals d).col pl⟩

/-- Whether a block has chroma. -/
def chromaAt (F : Copy.Av1.Fmt) (sb128 : Bool) (T : Tile) (c : Call) : Bool := (Copy.geoAt F sb128 T c).hasChroma

/-- What is found out about palettes: only intra blocks with chroma have a palette for chroma, and the palettes of Y and U are in increasing order (see
`C79_luma` and `C79_chroma`). -/
structure PalsOk (info : Call → Blk) (chroma : Call → Bool) (pals : Call → PalBlk) : Prop where
  uv : ∀ d, (pals d).uv > 0 → isIntra (info d) = true ∧ chroma d = true
  luma : ∀ d, Up ((List.range (Av1.palSzOf (info d))).map ((pals d).col 0))
  chroma : ∀ d, Up ((List.range (pals d).uv).map ((pals d).col 1))

/-- `t->pal_sz_uv` and `t->al_pal` when decode_b is called for `c`. -/
def palsAt (sb128 : Bool) (junk : Nat → PalSt) (info : Call → Blk) (chroma : Call → Bool) (pals : Call → PalBlk) (old : PalSt) (before : List Ev) (c : Call) : PalSt :=
  (PalSt.after (sbStep sb128) junk info chroma pals old (blocks before)).enter (sbStep sb128) junk c

theorem uvOf_eq {info : Call → Blk} {chroma : Call → Bool} {pals : Call → PalBlk} (hp : PalsOk info chroma pals) (d : Call) : uvOf info chroma pals d = (pals d).uv := by
  unfold uvOf
  rcases Nat.eq_zero_or_pos (pals d).uv with h | h
  · rw [h]; split <;> rfl
  · obtain ⟨h1, h2⟩ := hp.uv d h
    rw [h1, h2]; rfl

theorem palY_eq (b : Blk) : palY b = Av1.palSzOf b := by
  unfold palY Av1.palSzOf; rfl

/-- The entry written by a block. -/
theorem set_colors {info : Call → Blk} {chroma : Call → Bool} {pals : Call → PalBlk} (hp : PalsOk info chroma pals) (d : Call) (e : PalE) {pl : Nat} (hpl : pl < 2)
    (hsz : (aroundOf info pals pl (some d)).n > 0) : (PalE.set (info d) (chroma d) (pals d) e).pal pl = (pals d).col pl := by
  unfold PalE.set
  dsimp only
  have : pl = 0 ∨ pl = 1 := by omega
  rcases this with rfl | rfl
  · have : Av1.palSzOf (info d) > 0 := by simpa [aroundOf] using hsz
    rw [if_pos rfl, if_pos (by rw [palY_eq]; exact this)]
  · have : (pals d).uv > 0 := by simpa [aroundOf] using hsz
    obtain ⟨h1, h2⟩ := hp.uv d this
    rw [if_neg (by omega), h1, h2, decide_eq_true this]
    rfl

section
variable (h : Run f sb128 T before after c) {inter : Bool} {info : Call → Blk} (hv : ∀ d, (info d).Valid inter) (old : Ctxs Edge)
  {chroma : Call → Bool} {pals : Call → PalBlk} (hp : PalsOk info chroma pals) (junk : Nat → PalSt) (oldP : PalSt)
include h hv hp

/-- **C79.** The palette of the block on the left. -/
theorem C79_left {pl : Nat} (hpl : pl < 2) :
    leftPal (palsAt sb128 junk info chroma pals oldP before c) ((ctxsAt inter sb128 info old before c).at c).2 pl c =
      (List.range (aroundOf info pals pl (nbLeft T before c)).n).map (aroundOf info pals pl (nbLeft T before c)).color := by
  obtain ⟨ok, r, hr⟩ := h.facts
  have hstep := step_cases sb128
  -- the size
  have hsize : (if pl ≠ 0 then ((palsAt sb128 junk info chroma pals oldP before c).l (c.y % 32)).uv else ((ctxsAt inter sb128 info old before c).at c).2.palSz) =
      (aroundOf info pals pl (nbLeft T before c)).n := by
    by_cases h0 : pl = 0
    · subst h0
      rw [if_neg (by simp)]
      have := (shows_nb h hv old).2.palSz
      rw [this]
      unfold withSize aroundOf
      cases nbLeft T before c <;> rfl
    · rw [if_pos h0]
      have key := left_entry ok hstep hr rfl (Y := c.y) h.inY.1 h.inY.2 (fun _ => 0) (fun d _ _ => uvOf info chroma pals d) ({ a := fun i => 0, l := fun _ => 0, row := none } : Ctxs Nat)
        id 0 (fun d _ => uvOf info chroma pals d) (fun _ => rfl) (fun _ _ _ => rfl)
      have hs' := uv_sim (st := sbStep sb128) (junk := junk) (info := info) (chroma := chroma) (pals := pals) oldP (blocks before) { oldP with row := none }
        ({ a := fun i => 0, l := fun _ => 0, row := none } : Ctxs Nat) rfl (by simp)
      obtain ⟨e1, e2⟩ := hs'
      have he : ((palsAt sb128 junk info chroma pals oldP before c).l (c.y % 32)).uv =
          ((Ctxs.after (sbStep sb128) (fun _ => 0) (fun d _ _ => uvOf info chroma pals d) ({ a := fun i => 0, l := fun _ => 0, row := none } : Ctxs Nat) (blocks before)).enter (sbStep sb128) (fun _ => 0) c).l (c.y % 32) := by
        exact uv_enter e1 e2 _ _
      rw [he]
      have key' : _ = _ := key
      rw [id] at key'
      rw [key']
      unfold nbLeft
      generalize (if T.x0 < c.x then coverOf before (c.x - 1) c.y else none) = o
      cases o with
      | none => rfl
      | some d => simp only [aroundOf, if_neg h0]; exact uvOf_eq hp d
  unfold leftPal
  rw [hsize]
  refine List.map_congr_left fun i hi => ?_
  have hi := List.mem_range.1 hi
  unfold nbLeft at hi ⊢
  by_cases hx : T.x0 < c.x
  · obtain ⟨c0, p0, q0, hc, hs, hin0, hno⟩ := Dav1d.Part.last_left ok rfl h.inY.1 h.inY.2 hx
    rw [if_pos hx, hc] at hi ⊢
    obtain ⟨hpw, hin⟩ := hr
    have hb0 : blocks (.call c0 :: q0) = c0 :: blocks q0 := rfl
    have hb : blocks (before ++ .call c :: after) = blocks before ++ c :: blocks after := by rw [blocks_append]; rfl
    have hb1 : blocks (before ++ .call c :: after) = blocks p0 ++ c0 :: (blocks q0 ++ c :: blocks after) := by rw [hb, hs, blocks_append, hb0]; simp
    have i0 := hin c0 (by rw [hb1]; simp)
    have hY0 := rows_in (y := 0) hstep i0.2 hin0
    have hmid : ∀ d ∈ blocks q0, d.y / sbStep sb128 = c0.y / sbStep sb128 := by
      intro d hd
      rw [hb1] at hpw
      have hp1 := (List.pairwise_append.1 hpw).2.1
      have a1 := (List.pairwise_cons.1 hp1).1 d (List.mem_append_left _ hd)
      have a2 := (List.pairwise_append.1 (List.pairwise_cons.1 hp1).2).2.2 d hd c List.mem_cons_self
      omega
    have hst : ((palsAt sb128 junk info chroma pals oldP before c).l (c.y % 32)) =
        PalE.set (info c0) (chroma c0) (pals c0) ((((blocks p0).foldl (PalSt.step (sbStep sb128) junk info chroma pals) { oldP with row := none }).enter (sbStep sb128) junk c0).l (c.y % 32)) := by
      unfold palsAt PalSt.after
      rw [hs, blocks_append, hb0, List.foldl_append, List.foldl_cons]
      have hrow := pal_fold_row (st := sbStep sb128) (junk := junk) (info := info) (chroma := chroma) (pals := pals) (blocks q0)
        (PalSt.step (sbStep sb128) junk info chroma pals ((blocks p0).foldl (PalSt.step (sbStep sb128) junk info chroma pals) { oldP with row := none }) c0) (pal_step_row _ _) hmid
      have hl := pal_fold_l (st := sbStep sb128) (junk := junk) (info := info) (chroma := chroma) (pals := pals) (e := c.y % 32) (blocks q0)
        (PalSt.step (sbStep sb128) junk info chroma pals ((blocks p0).foldl (PalSt.step (sbStep sb128) junk info chroma pals) { oldP with row := none }) c0) (pal_step_row _ _)
        (fun d hd => ⟨hmid d hd, fun hi => hno d hd (idx_row hstep (hin d (by rw [hb1]; simp [hd])).2 (by rw [hmid d hd, hY0]) hi)⟩)
      have henter : ∀ s : PalSt, s.row = some (c0.y / sbStep sb128) → s.enter (sbStep sb128) junk c = s := fun s hs => by
        unfold PalSt.enter; rw [if_pos (by rw [hs, hY0])]
      unfold PalSt.step at hrow hl ⊢
      rw [henter _ hrow, hl]
      unfold PalSt.update setN
      dsimp only
      rw [if_pos (row_idx i0.2.bs i0.2.ay hin0)]
    rw [hst, set_colors hp c0 _ hpl (by omega)]
    rfl
  · rw [if_neg hx] at hi; simp [aroundOf] at hi

/-- **C79.** The palette of the block above, inside of the 64 rows. -/
theorem C79_above {pl : Nat} (hpl : pl < 2) :
    abovePal (palsAt sb128 junk info chroma pals oldP before c) ((ctxsAt inter sb128 info old before c).at c).1 pl c =
      (List.range (if c.y * 4 % 64 ≠ 0 then (aroundOf info pals pl (nbAbove T before c)).n else 0)).map (aroundOf info pals pl (nbAbove T before c)).color := by
  have hcond : (c.y % 32 % 16 ≠ 0) ↔ (c.y * 4 % 64 ≠ 0) := by omega
  unfold abovePal
  by_cases h16 : c.y * 4 % 64 ≠ 0
  swap
  · rw [if_neg h16, if_neg (fun q => h16 (hcond.1 q))]; rfl
  rw [if_pos h16, if_pos (hcond.2 h16)]
  obtain ⟨ok, r, hpw, hin⟩ := h.facts
  have hstep := step_cases sb128
  have hy : T.y0 < c.y := by
    have h1 := h.2.1.y0
    have h2 := h.start.2.2.1
    rcases Nat.lt_or_ge T.y0 c.y with h3 | h3
    · exact h3
    · exfalso
      have : T.y0 = c.y := by omega
      rcases hstep with hst | hst <;> rw [hst] at h1 <;> omega
  obtain ⟨c0, p0, q0, hc, hs, hin0, hno⟩ := Dav1d.Part.last_above ok rfl h.inX.1 h.inX.2 hy
  have hnb : nbAbove T before c = some c0 := by unfold nbAbove; rw [if_pos hy, hc]
  obtain ⟨m0, v0⟩ := Dav1d.Part.cover_some hc
  have hb0 : blocks (.call c0 :: q0) = c0 :: blocks q0 := rfl
  have hb : blocks (before ++ .call c :: after) = blocks before ++ c :: blocks after := by rw [blocks_append]; rfl
  have hb1 : blocks (before ++ .call c :: after) = blocks p0 ++ c0 :: (blocks q0 ++ c :: blocks after) := by rw [hb, hs, blocks_append, hb0]; simp
  have i0 := (hin c0 (by rw [hb1]; simp)).2
  have ic := (hin c (by rw [hb]; simp)).2
  -- the blocks between are in the same superblock
  have hc0 : c0.y / sbStep sb128 = c.y / sbStep sb128 ∧ c0.x / sbStep sb128 = c.x / sbStep sb128 := by
    obtain ⟨a1, a2, a3, a4, a5, a6⟩ := i0
    obtain ⟨v1, v2, v3, v4⟩ := v0
    refine ⟨?_, ?_⟩ <;>
    cases sb128 <;> simp only [sbStep, Bool.false_eq_true, if_true, if_false] at * <;> omega
  have hmid : ∀ d ∈ blocks q0, d.y / sbStep sb128 = c0.y / sbStep sb128 ∧ d.x / sbStep sb128 = c.x / sbStep sb128 := by
    intro d hd
    have ho := h.order
    rw [hb1] at ho
    have hp1 := (List.pairwise_append.1 ho).2.1
    have a1 := (List.pairwise_cons.1 hp1).1 d (List.mem_append_left _ hd)
    have a2 := (List.pairwise_append.1 (List.pairwise_cons.1 hp1).2).2.2 d hd c List.mem_cons_self
    unfold Dav1d.Part.SbLe at a1 a2
    omega
  have hidx : ∀ d : Call, InRow (sbStep sb128) (sbStep sb128 * (d.y / sbStep sb128)) d → d.x / sbStep sb128 = c.x / sbStep sb128 →
      d.x % 32 ≤ c.x % 32 ∧ c.x % 32 < d.x % 32 + bsW d.bs → d.inX c.x := by
    intro d hd hx hi
    obtain ⟨a1, a2, a3, a4, a5, a6⟩ := hd
    unfold Call.inX
    cases sb128 <;> simp only [sbStep, Bool.false_eq_true, if_true, if_false] at * <;> omega
  have hst : ((palsAt sb128 junk info chroma pals oldP before c).a (c.x % 32)) =
      PalE.set (info c0) (chroma c0) (pals c0) ((((blocks p0).foldl (PalSt.step (sbStep sb128) junk info chroma pals) { oldP with row := none }).enter (sbStep sb128) junk c0).a (c.x % 32)) := by
    unfold palsAt PalSt.after
    rw [hs, blocks_append, hb0, List.foldl_append, List.foldl_cons]
    have hrow := pal_fold_row (st := sbStep sb128) (junk := junk) (info := info) (chroma := chroma) (pals := pals) (blocks q0)
      (PalSt.step (sbStep sb128) junk info chroma pals ((blocks p0).foldl (PalSt.step (sbStep sb128) junk info chroma pals) { oldP with row := none }) c0) (pal_step_row _ _)
      (fun d hd => (hmid d hd).1)
    have hl := pal_fold_a (st := sbStep sb128) (junk := junk) (info := info) (chroma := chroma) (pals := pals) (e := c.x % 32) (blocks q0)
      (PalSt.step (sbStep sb128) junk info chroma pals ((blocks p0).foldl (PalSt.step (sbStep sb128) junk info chroma pals) { oldP with row := none }) c0) (pal_step_row _ _)
      (fun d hd => ⟨(hmid d hd).1, fun hi => hno d hd (hidx d (hin d (by rw [hb1]; simp [hd])).2 (hmid d hd).2 hi)⟩)
    have henter : ∀ s : PalSt, s.row = some (c0.y / sbStep sb128) → s.enter (sbStep sb128) junk c = s := fun s hs => by
      unfold PalSt.enter; rw [if_pos (by rw [hs, hc0.1])]
    unfold PalSt.step at hrow hl ⊢
    rw [henter _ hrow, hl]
    unfold PalSt.update setN
    dsimp only
    rw [if_pos]
    have hw := bsW_dvd c0.bs i0.bs
    have hnw := no_wrap hw.1 hw.2 i0.ax
    have hin1 := hin0
    unfold Call.inX at hin1
    omega
  have hsize : (if pl ≠ 0 then ((palsAt sb128 junk info chroma pals oldP before c).a (c.x % 32)).uv else ((ctxsAt inter sb128 info old before c).at c).1.palSz) =
      (aroundOf info pals pl (nbAbove T before c)).n := by
    by_cases h0 : pl = 0
    · subst h0
      rw [if_neg (by simp)]
      have := (shows_nb h hv old).1.palSz
      rw [this]
      unfold withSize aroundOf
      cases nbAbove T before c <;> rfl
    · rw [if_pos h0, hst, hnb]
      simp only [aroundOf, if_neg h0]
      exact uvOf_eq hp c0
  rw [hsize]
  refine List.map_congr_left fun i hi => ?_
  have hi := List.mem_range.1 hi
  rw [hnb] at hi ⊢
  rw [hst, set_colors hp c0 _ hpl (by omega)]
  rfl

omit h hv in
theorem around_up (pl : Nat) (hpl : pl < 2) (n : Nat) (o : Option Call) (hn : n ≤ (aroundOf info pals pl o).n) :
    Up ((List.range n).map (aroundOf info pals pl o).color) := by
  have key : Up ((List.range (aroundOf info pals pl o).n).map (aroundOf info pals pl o).color) := by
    have : pl = 0 ∨ pl = 1 := by omega
    cases o with
    | none => exact List.Pairwise.nil
    | some d =>
      rcases this with rfl | rfl
      · exact hp.luma d
      · exact hp.chroma d
  have hs : (List.range n).Sublist (List.range (aroundOf info pals pl o).n) := List.range_sublist.2 hn
  exact List.Pairwise.sublist (hs.map _) key

theorem cache_eq {pl : Nat} (hpl : pl < 2) :
    fillCache (leftPal (palsAt sb128 junk info chroma pals oldP before c) ((ctxsAt inter sb128 info old before c).at c).2 pl c)
      (abovePal (palsAt sb128 junk info chroma pals oldP before c) ((ctxsAt inter sb128 info old before c).at c).1 pl c) [] =
    Av1.get_palette_cache c.y (aroundOf info pals pl (nbAbove T before c)) (aroundOf info pals pl (nbLeft T before c)) := by
  rw [C79_left h hv old hp junk oldP hpl, C79_above h hv old hp junk oldP hpl]
  unfold Av1.get_palette_cache
  rw [← fill_merge _ _ _ 0 0 [] (Nat.le_refl _)]
  unfold restFrom
  simp only [Nat.sub_zero, List.range_eq_range']

/-- **C79.** The palette for luma: the code reads the same symbols as palette_mode_info and ends with the same colours, in increasing order. -/
theorem C79_luma (bpc szCtx : Nat) (oldCol : Nat → Nat) :
    Same ok Holds
      (readPalPlane bpc 0 szCtx (leftPal (palsAt sb128 junk info chroma pals oldP before c) ((ctxsAt inter sb128 info old before c).at c).2 0 c)
        (abovePal (palsAt sb128 junk info chroma pals oldP before c) ((ctxsAt inter sb128 info old before c).at c).1 0 c) oldCol)
      (Av1.palette_y bpc szCtx c.y (aroundOf info pals 0 (nbAbove T before c)) (aroundOf info pals 0 (nbLeft T before c))) := by
  refine plane_same bpc true szCtx ?_ ?_ oldCol (cache_eq h hv old hp junk oldP (by omega))
  · rw [C79_left h hv old hp junk oldP (by omega)]; exact around_up hp 0 (by omega) _ _ (Nat.le_refl _)
  · rw [C79_above h hv old hp junk oldP (by omega)]; exact around_up hp 0 (by omega) _ _ (by split <;> omega)

/-- **C79.** The palettes for chroma. -/
theorem C79_chroma {bpc : Nat} (hbpc : 8 ≤ bpc) (szCtx : Nat) (oldU oldV : Nat → Nat) :
    Same ok HoldsUv
      (readPalUv bpc szCtx (leftPal (palsAt sb128 junk info chroma pals oldP before c) ((ctxsAt inter sb128 info old before c).at c).2 1 c)
        (abovePal (palsAt sb128 junk info chroma pals oldP before c) ((ctxsAt inter sb128 info old before c).at c).1 1 c) oldU oldV)
      (Av1.palette_uv bpc szCtx c.y (aroundOf info pals 1 (nbAbove T before c)) (aroundOf info pals 1 (nbLeft T before c))) := by
  refine uv_same hbpc szCtx ?_ ?_ oldU oldV (cache_eq h hv old hp junk oldP (by omega))
  · rw [C79_left h hv old hp junk oldP (by omega)]; exact around_up hp 1 (by omega) _ _ (Nat.le_refl _)
  · rw [C79_above h hv old hp junk oldP (by omega)]; exact around_up hp 1 (by omega) _ _ (by split <;> omega)

end

/-! ## The map of the colours -/

/-- The palette is allowed for the size of the block, src/decode.c:1119-1120. -/
def palAllowed (c : Call) : Prop := max (bsW c.bs) (bsH c.bs) ≤ 16 ∧ bsW c.bs + bsH c.bs ≥ 4

/-- The indices are read, src/decode.c:1158-1185 with the sizes of 697-699 and 807; `dst` is where the indices go, `tmp` is `t->scratch.pal_idx_uv`. -/
def readMap (f : Frame) (F : Copy.Av1.Fmt) (c : Call) (chroma : Bool) (n dst tmp : Nat) (mem : Nat → Nat) : Prog (Nat → Nat) :=
  let w4 := min (bsW c.bs) (f.bw - c.x)
  let h4 := min (bsH c.bs) (f.bh - c.y)
  let ssH := F.subX.toNat
  let ssV := F.subY.toNat
  if chroma then readPalIndices 1 n ((w4 + ssH) / 2 ^ ssH) ((h4 + ssV) / 2 ^ ssV) ((bsW c.bs + ssH) / 2 ^ ssH) ((bsH c.bs + ssV) / 2 ^ ssV) dst tmp mem
  else readPalIndices 0 n w4 h4 (bsW c.bs) (bsH c.bs) dst tmp mem

theorem sizes_same (h : Run f sb128 T before after c) (F : Copy.Av1.Fmt) :
    Av1.onscreen F.subX (bsW c.bs * 4) f.bw c.x =
        (((bsW c.bs + F.subX.toNat) / 2 ^ F.subX.toNat) * 4, ((min (bsW c.bs) (f.bw - c.x) + F.subX.toNat) / 2 ^ F.subX.toNat) * 4) ∧
      Av1.onscreen F.subY (bsH c.bs * 4) f.bh c.y =
        (((bsH c.bs + F.subY.toNat) / 2 ^ F.subY.toNat) * 4, ((min (bsH c.bs) (f.bh - c.y) + F.subY.toNat) / 2 ^ F.subY.toNat) * 4) := by
  obtain ⟨ok, r, hpw, hin⟩ := h.facts
  have ic := (hin c (by rw [blocks_append]; simp [blocks])).2
  have hp := Copy.bs_pow c.bs ic.bs
  have hx := ic.ax
  have hy := ic.ay
  have ex := h.2.1.bw
  have ey := h.2.1.bh
  obtain ⟨b1, b2, b3, b4⟩ : T.x0 ≤ c.x ∧ c.x < T.x1 ∧ T.y0 ≤ c.y ∧ c.y < T.y1 := h.start
  have tx := h.2.1.x1
  have ty := h.2.1.y1
  unfold Av1.onscreen
  refine ⟨?_, ?_⟩
  · cases F.subX
    · simp; omega
    · simp only [Bool.toNat_true, if_true, Nat.pow_one]
      rcases hp.1 with hw | hw | hw | hw | hw | hw <;> rw [hw] at hx ⊢ <;> (split <;> refine Prod.ext ?_ ?_ <;> dsimp only <;> omega)
  · cases F.subY
    · simp; omega
    · simp only [Bool.toNat_true, if_true, Nat.pow_one]
      rcases hp.2 with hw | hw | hw | hw | hw | hw <;> rw [hw] at hy ⊢ <;> (split <;> refine Prod.ext ?_ ?_ <;> dsimp only <;> omega)

/-- **C79.** The map of the colours of a plane: the code reads the same symbols as palette_tokens, and then the memory holds the map with two indices in each byte, for the
whole block as it is predicted; all indices are those of colours. -/
theorem C79_map (h : Run f sb128 T before after c) (hal : palAllowed c) (F : Copy.Av1.Fmt) {n dst tmp : Nat} (hn : 2 ≤ n) (hn8 : n ≤ 8) (hd : dst ≤ tmp ∨ tmp + 64 * 64 ≤ dst) (mem : Nat → Nat) :
    Same ok (fun r m => Packed dst (bsW c.bs * 4) (bsH c.bs * 4) r m ∧ ∀ r c, m r c < n) (readMap f F c false n dst tmp mem)
        (Av1.palette_tokens 0 n (min (bsW c.bs * 4) ((f.bw - c.x) * 4)) (min (bsH c.bs * 4) ((f.bh - c.y) * 4))) ∧
      Same ok (fun r m => Packed dst (Av1.onscreen F.subX (bsW c.bs * 4) f.bw c.x).1 (Av1.onscreen F.subY (bsH c.bs * 4) f.bh c.y).1 r m ∧ ∀ r c, m r c < n)
        (readMap f F c true n dst tmp mem)
        (Av1.palette_tokens 1 n (Av1.onscreen F.subX (bsW c.bs * 4) f.bw c.x).2 (Av1.onscreen F.subY (bsH c.bs * 4) f.bh c.y).2) := by
  obtain ⟨b1, b2, b3, b4⟩ : T.x0 ≤ c.x ∧ c.x < T.x1 ∧ T.y0 ≤ c.y ∧ c.y < T.y1 := h.start
  have tx := h.2.1.x1
  have ty := h.2.1.y1
  have hpos := (h.facts.1.call rfl).pos
  obtain ⟨m1, m2⟩ := hal
  obtain ⟨s1, s2⟩ := sizes_same h F
  rw [s1, s2]
  unfold readMap
  refine ⟨?_, ?_⟩
  · rw [if_neg (by simp)]
    have := indices_same (ok := ok) (w4 := min (bsW c.bs) (f.bw - c.x)) (h4 := min (bsH c.bs) (f.bh - c.y)) 0 hn hn8 (by omega) (by omega) (by omega) (by omega) (by omega : bsW c.bs ≤ 16) (by omega : bsH c.bs ≤ 16) hd mem
    rw [show min (bsW c.bs * 4) ((f.bw - c.x) * 4) = min (bsW c.bs) (f.bw - c.x) * 4 by omega, show min (bsH c.bs * 4) ((f.bh - c.y) * 4) = min (bsH c.bs) (f.bh - c.y) * 4 by omega]
    exact this
  · rw [if_pos rfl]
    have q1 : ∀ s : Bool, ∀ w k : Nat, 0 < k → k ≤ w → w ≤ 16 → 0 < (k + s.toNat) / 2 ^ s.toNat ∧ (k + s.toNat) / 2 ^ s.toNat ≤ (w + s.toNat) / 2 ^ s.toNat ∧ (w + s.toNat) / 2 ^ s.toNat ≤ 16 := by
      intro s w k g1 g2 g3; cases s <;> simp only [Bool.toNat_true, Bool.toNat_false, Nat.pow_one, Nat.pow_zero] <;> omega
    obtain ⟨e1, e2, e3⟩ := q1 F.subX (bsW c.bs) (min (bsW c.bs) (f.bw - c.x)) (by omega) (by omega) (by omega)
    obtain ⟨e4, e5, e6⟩ := q1 F.subY (bsH c.bs) (min (bsH c.bs) (f.bh - c.y)) (by omega) (by omega) (by omega)
    exact indices_same (ok := ok) 1 hn hn8 e1 e2 e4 e5 e3 e6 hd mem

/-- **C79.** With the map in memory and the colours in the array, the prediction has in each pixel the colour with the index of the map. -/
theorem C79_pixels {dst bw bh n : Nat} {mem : Nat → Nat} {m : Nat → Nat → Nat} (hp : Packed dst bw bh mem m) (hm : ∀ r c, m r c < n) (hn : n ≤ 8) (hw : bw % 2 = 0)
    {r : Nat × (Nat → Nat)} {cs : List Nat} (hr : (List.range r.1).map r.2 = cs) (hrn : r.1 = n) {x y : Nat} (hx : x < bw) (hy : y < bh) :
    Dav1d.Ipred.palPred (fun i => some ((r.2 i : Nat) : Int)) (fun b => some (mem (dst + b))) bw x y = some ((cs.getD (m y x) 0 : Nat) : Int) := by
  have hb0 : 0 < bw / 2 := by omega
  rw [Dav1d.Ipred.C42_palette_index (pal := fun i => ((r.2 i : Nat) : Int)) (index := fun x y => m y x) (h := bh) hw (fun x y => by have := hm y x; omega) ?_ hx hy]
  · have := hm y x
    rw [← hr, List.getD_eq_getElem?_getD, List.getElem?_map, List.getElem?_range (by omega)]
    rfl
  · intro b hb
    have h1 := Nat.div_add_mod b (bw / 2)
    have h2 := Nat.mod_lt b hb0
    have h3 : b / (bw / 2) < bh := Nat.div_lt_of_lt_mul hb
    rw [← hp _ h3 _ h2, show dst + b / (bw / 2) * (bw / 2) + b % (bw / 2) = dst + b by rw [Nat.mul_comm]; omega]

/-! ## An example -/

/-- All blocks have a palette for luma, and those with chroma have one of three colours. -/
def palInfo (_ : Call) : Blk := ⟨false, false, .intra 0 4 2 2⟩

def exPals (F : Copy.Av1.Fmt) (c : Call) : PalBlk :=
  if chromaAt F false Dav1d.Part.smallTile c then ⟨3, fun _ i => 10 * i + c.x⟩ else ⟨0, fun _ i => 10 * i + c.x⟩

theorem exPals_ok (F : Copy.Av1.Fmt) : PalsOk palInfo (chromaAt F false Dav1d.Part.smallTile) (exPals F) := by
  have hu : ∀ n k, Up ((List.range n).map fun i => 10 * i + k) := fun n k => by
    unfold Up
    rw [List.pairwise_map]
    exact (List.pairwise_lt_range (n := n)).imp (fun h => by omega)
  refine ⟨fun d h => ⟨rfl, ?_⟩, fun d => ?_, fun d => ?_⟩
  · unfold exPals at h
    split at h
    · assumption
    · simp at h
  · unfold exPals; split <;> exact hu _ _
  · unfold exPals; split <;> exact hu _ _

/-- The 16x4 block of the run in Part/Props: both neighbours have a palette. -/
example : ((nbAbove Dav1d.Part.smallTile ((Dav1d.Part.logOf Dav1d.Part.smallRun).take 8) ⟨3, 14, 8, 60, 8, 1⟩).map fun d => (Av1.palSzOf (palInfo d), (exPals Copy.yuv420 d).uv)) = some (4, 0) ∧
    ((nbLeft Dav1d.Part.smallTile ((Dav1d.Part.logOf Dav1d.Part.smallRun).take 8) ⟨3, 14, 8, 60, 8, 1⟩).map fun d => (Av1.palSzOf (palInfo d), (exPals Copy.yuv420 d).uv)) = some (4, 3) := by
  decide +kernel
example := C79_luma (ok := anything) smallRun_at (inter := true) (info := palInfo) (fun _ => (by decide : 0 ≤ 13)) ⟨fun _ => .zero, fun _ => .zero, none⟩ (exPals_ok Copy.yuv420)
example := C79_map (ok := anything) smallRun_at ⟨by decide, by decide⟩ Copy.yuv420 (n := 5) (dst := 0) (tmp := 2048) (by decide) (by decide) (by decide) (fun _ => 0)

/-- A palette of four colours, two of them from the cache. -/
def exAbove : Av1.Around := ⟨3, fun i => 20 * i + 10⟩
def exLeft : Av1.Around := ⟨2, fun i => 30 * i + 30⟩
example : Av1.get_palette_cache 3 exAbove exLeft = [10, 30, 50, 60] := by decide +kernel
example : ((readPalPlane 8 0 2 ((List.range 2).map exLeft.color) ((List.range 3).map exAbove.color) (fun _ => 0)).run Copy.listed [2, 1, 0, 1, 0, 40, 3, 9]).1.map (fun r => (List.range r.1).map r.2) =
    some [10, 40, 50, 50] := by decide +kernel
/-- The map of an 8x8 block of which 4 columns are in the frame. -/
example : ((Av1.palette_tokens 0 3 4 8).run Copy.listed [1, 0, 2, 1, 1, 2, 0, 0, 1, 2, 2, 1]).1.map (fun m => (List.range 3).map fun r => (List.range 8).map (m r)) =
    ((readPalIndices 0 3 1 2 2 2 0 2048 (fun _ => 0)).run Copy.listed [1, 0, 2, 1, 1, 2, 0, 0, 1, 2, 2, 1]).1.map
      (fun mem => (List.range 3).map fun r => (List.range 8).map fun c => if c % 2 = 0 then mem (4 * r + c / 2) % 16 else mem (4 * r + c / 2) / 16) := by decide +kernel

end Dav1d.Syn.Pal
