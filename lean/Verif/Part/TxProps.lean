import Verif.Part.TxBlock
import Verif.Part.Props
/-!
# The surroundings of transform blocks: the properties
-/
set_option linter.unusedVariables false
namespace Dav1d.Part
variable {σ : Type}

theorem shift_end {ss w v : Nat} (hs : ss ≤ 1) (hv : v % 16 = 0) (h : w ≤ v) : (w + ss) >>> ss ≤ v >>> ss := by
  have : ss = 0 ∨ ss = 1 := by omega
  rcases this with rfl | rfl
  · simp only [Nat.shiftRight_zero]; omega
  · simp only [Nat.shiftRight_eq_div_pow, Nat.pow_one]; omega

/-- The transform blocks of an intra block. -/
theorem intra_good {f : Frame} {sb128 : Bool} {T : Tile} (hT : TileOk f sb128 T) {log : List Ev} {c : Call} (hc : CallOk f T log c) {p : Plane} (hp : p ∈ planes f)
    (hb : p.hasBlock c) {tw th : Nat} (ht : TxFits p c tw th) {D : Nat → Nat → Prop}
    (hD : ∀ a b, (T.inPlane p).has a b → (D a b ↔ Decoded log (p.lastX a) (p.lastY b))) :
    TbsGood (TbGood (T.inPlane p).has) D (intraTbs f T p c tw th) ∧
    ∀ a b, (T.inPlane p).has a b → (Plus D (intraTbs f T p c tw th) a b ↔
      D a b ∨ (p.x c ≤ a ∧ a < p.x c + p.w c ∧ p.y c ≤ b ∧ b < p.y c + p.h c)) := by
  have hk := blk_ok hT hc hp hb ht
  obtain ⟨hH, hV⟩ := plane_ss hp
  unfold intraTbs
  dsimp only
  simp only [if_pos ((hasPlane_iff p c).2 hb)]
  generalize hw4 : min (bsW c.bs) (f.bw - c.x) = w4
  generalize hh4 : min (bsH c.bs) (f.bh - c.y) = h4
  have eW : (blkOf f p c tw th).Wc = (w4 + p.ssH) >>> p.ssH := by rw [← hw4]; rfl
  have eH : (blkOf f p c tw th).Hc = (h4 + p.ssV) >>> p.ssV := by rw [← hh4]; rfl
  have eX : (blkOf f p c tw th).X = c.x >>> p.ssH := (Nat.shiftRight_eq_div_pow _ _).symm
  have eY : (blkOf f p c tw th).Y = c.y >>> p.ssV := (Nat.shiftRight_eq_div_pow _ _).symm
  have eCW : (blkOf f p c tw th).CW = 16 >>> p.ssH := rfl
  have eCH : (blkOf f p c tw th).CH = 16 >>> p.ssV := rfl
  have etw : (blkOf f p c tw th).tw = tw := rfl
  have eth : (blkOf f p c tw th).th = th := rfl
  have c1 := hk.clipX
  have c2 := hk.clipY
  have hfin : (p.x c, p.w c, p.y c, p.h c) = ((blkOf f p c tw th).X, (blkOf f p c tw th).W, (blkOf f p c tw th).Y, (blkOf f p c tw th).H) := rfl
  simp only [Prod.mk.injEq] at hfin
  obtain ⟨f1, f2, f3, f4⟩ := hfin
  rw [f1, f2, f3, f4]
  generalize blkOf f p c tw th = k at *
  have hloop := for_good (G := TbGood (T.inPlane p).has) (s := 16) (e := h4) (by decide) (v0 := 0)
    (Inv := fun v D => k.Inv (T.inPlane p).has (fun a b => Decoded log (p.lastX a) (p.lastY b)) (v >>> p.ssV) 0 (v >>> p.ssV) 0 D)
    (g := fun initY => (forList 16 w4 w4 0).flatMap fun initX =>
      chunkTbs p T.x0 T.y0 c.x c.y ((w4 + p.ssH) >>> p.ssH) ((h4 + p.ssV) >>> p.ssV) tw th c.flags initY initX)
    (fun initY D hy1 hy2 hy3 hD => by
      have hy4 : initY % 16 = 0 := by simpa using hy3
      have hin := for_good (G := TbGood (T.inPlane p).has) (s := 16) (e := w4) (by decide) (v0 := 0)
        (Inv := fun v D => k.Inv (T.inPlane p).has (fun a b => Decoded log (p.lastX a) (p.lastY b)) (initY >>> p.ssV) (v >>> p.ssH) (initY >>> p.ssV) (v >>> p.ssH) D)
        (g := fun initX => chunkTbs p T.x0 T.y0 c.x c.y ((w4 + p.ssH) >>> p.ssH) ((h4 + p.ssV) >>> p.ssV) tw th c.flags initY initX)
        (fun initX D hx1 hx2 hx3 hD => by
          have hx4 : initX % 16 = 0 := by simpa using hx3
          have := chunk_good (x0 := T.x0) (y0 := T.y0) hH hV hk eX eY eCW eCH hy4 hx4 hD
          rw [eW, eH, etw, eth] at this
          exact this)
        w4 0 D (by omega) (Nat.le_refl _) rfl (by simpa using hD)
      obtain ⟨q1, v, q2, q3, q4, q5⟩ := hin
      refine ⟨q1, fun a b hab => (q5 a b hab).trans (or_congr Iff.rfl ?_)⟩
      have h5 := shift_end hH (by simpa using q4) q2
      rw [← eW] at h5
      obtain ⟨sy1, -, -⟩ := shift_chunk hV hy4
      rw [sy1, ← eCH]
      have hcc : k.Wc = k.W ∨ (k.Wc ≤ k.W ∧ a < k.X + k.Wc) := c1.imp id (fun h => ⟨h.1, h.2 _ _ hab⟩)
      unfold Blk.done; omega)
    h4 0 D (by omega) (Nat.le_refl _) rfl
    (fun a b hab => by
      rw [hD a b hab]
      refine (or_iff_left ?_).symm
      simp only [Nat.zero_shiftRight]
      unfold Blk.done; omega)
  obtain ⟨q1, v, q2, q3, q4, q5⟩ := hloop
  refine ⟨q1, fun a b hab => (q5 a b hab).trans ?_⟩
  rw [hD a b hab]
  refine or_congr Iff.rfl ?_
  have h5 := shift_end hV (by simpa using q4) q2
  rw [← eH] at h5
  have hcc : k.Hc = k.H ∨ (k.Hc ≤ k.H ∧ b < k.Y + k.Hc) := c2.imp id (fun h => ⟨h.1, h.2 _ _ hab⟩)
  unfold Blk.done; omega

theorem intra_flags {f : Frame} {T : Tile} {p : Plane} {c : Call} {tw th : Nat} {t : Tb} (h : t ∈ intraTbs f T p c tw th) :
    t.left = decide (t.x > T.x0 >>> p.ssH) ∧ t.top = decide (t.y > T.y0 >>> p.ssV) := by
  unfold intraTbs at h
  dsimp only at h
  obtain ⟨y, _, h⟩ := List.mem_flatMap.1 h
  obtain ⟨x, _, h⟩ := List.mem_flatMap.1 h
  split at h
  · unfold chunkTbs at h
    dsimp only at h
    obtain ⟨y, _, h⟩ := List.mem_flatMap.1 h
    obtain ⟨x, _, h⟩ := List.mem_map.1 h
    subst h
    exact ⟨rfl, rfl⟩
  · cases h

/-- What is shown of every transform block. -/
structure TbFine (T : Tile) (p : Plane) (D : Nat → Nat → Prop) (t : Tb) : Prop where
  fresh : ∀ a b, (T.inPlane p).has a b → t.covers a b → ¬ D a b
  good : t.intra = true → TbGood (T.inPlane p).has D t
  left : t.intra = true → t.left = decide (t.x > T.x0 >>> p.ssH)
  top : t.intra = true → t.top = decide (t.y > T.y0 >>> p.ssV)

theorem TbsGood.imp {G G' : (Nat → Nat → Prop) → Tb → Prop} : ∀ {l : List Tb} {D : Nat → Nat → Prop}, (∀ D t, t ∈ l → G D t → G' D t) →
    TbsGood G D l → TbsGood G' D l
  | [], _, _, _ => trivial
  | t :: l, D, h, ⟨h1, h2⟩ => ⟨h D t (List.mem_cons_self ..) h1, TbsGood.imp (fun D u hu => h D u (List.mem_cons_of_mem _ hu)) h2⟩

theorem block_good {f : Frame} {sb128 : Bool} {T : Tile} (hT : TileOk f sb128 T) {log : List Ev} {c : Call} (hc : CallOk f T log c) {p : Plane} (hp : p ∈ planes f)
    {tx : Option (Nat × Nat)} (ht : ∀ tw th, tx = some (tw, th) → p.hasBlock c → TxFits p c tw th) {D : Nat → Nat → Prop}
    (hD : ∀ a b, (T.inPlane p).has a b → (D a b ↔ Decoded log (p.lastX a) (p.lastY b))) :
    TbsGood (TbFine T p) D (blockTbs f T p tx c) ∧
    ∀ a b, (T.inPlane p).has a b → (Plus D (blockTbs f T p tx c) a b ↔ Decoded (log ++ [.call c]) (p.lastX a) (p.lastY b)) := by
  by_cases hb : p.hasBlock c
  · have hcov := covers_plane hc hp
    cases tx with
    | some tt =>
      obtain ⟨tw, th⟩ := tt
      obtain ⟨h1, h2⟩ := intra_good hT hc hp hb (ht tw th rfl hb) hD
      refine ⟨TbsGood.imp (fun D t hm hg => ⟨hg.fresh, fun _ => hg, fun _ => (intra_flags hm).1, fun _ => (intra_flags hm).2⟩) h1, fun a b hab => ?_⟩
      unfold blockTbs
      dsimp only
      rw [h2 a b hab, hD a b hab, decoded_call, hcov a b]
      exact or_congr Iff.rfl ⟨fun h => ⟨hb, h⟩, fun h => h.2⟩
    | none =>
      unfold blockTbs
      dsimp only
      rw [if_pos ((hasPlane_iff p c).2 hb)]
      refine ⟨⟨⟨?_, (fun h => by cases h), (fun h => by cases h), (fun h => by cases h)⟩, trivial⟩, fun a b hab => ?_⟩
      · intro a b hab hcv
        rw [hD a b hab]
        exact hc.fresh _ _ ((hcov a b).2 ⟨hb, hcv⟩)
      · unfold Plus Made
        simp only [List.mem_singleton, exists_eq_left]
        rw [hD a b hab, decoded_call, hcov a b]
        exact or_congr Iff.rfl ⟨fun h => ⟨hb, h⟩, fun h => h.2⟩
  · have he : blockTbs f T p tx c = [] := by
      have hn : ¬ hasPlane p c = true := fun h => hb ((hasPlane_iff p c).1 h)
      cases tx with
      | none => unfold blockTbs; dsimp only; rw [if_neg hn]
      | some tt =>
        obtain ⟨tw, th⟩ := tt
        unfold blockTbs intraTbs
        dsimp only
        simp only [if_neg hn]
        simp
    rw [he]
    refine ⟨trivial, fun a b hab => ?_⟩
    rw [plus_nil, hD a b hab, decoded_call, covers_plane hc hp]
    exact ⟨.inl, fun h => h.resolve_right fun h => hb h.1⟩

theorem plane_good {f : Frame} {sb128 : Bool} {T : Tile} (hT : TileOk f sb128 T) {p : Plane} (hp : p ∈ planes f) {tx : Call → Option (Nat × Nat)} :
    ∀ (n : Nat) (log : List Ev), log.length = n → AllOk f T log →
    (∀ c ∈ blocks log, ∀ tw th, tx c = some (tw, th) → p.hasBlock c → TxFits p c tw th) →
    TbsGood (TbFine T p) (fun _ _ => False) (planeTbs f T p tx (blocks log)) ∧
    ∀ a b, (T.inPlane p).has a b → (Made (planeTbs f T p tx (blocks log)) a b ↔ Decoded log (p.lastX a) (p.lastY b))
  | 0, log, hn, _, _ => by
    cases List.eq_nil_of_length_eq_zero hn
    refine ⟨trivial, fun a b _ => ?_⟩
    unfold Made Decoded
    simp [planeTbs, blocks]
  | n + 1, log, hn, h, ht => by
    rcases List.eq_nil_or_concat log with rfl | ⟨l, e, rfl⟩
    · cases hn
    rw [List.concat_eq_append] at hn h ht ⊢
    have hl : AllOk f T l := fun pre x post hx => h pre x (post ++ [e]) (by rw [hx]; simp)
    have he := h l e [] rfl
    rw [blocks_append] at ht ⊢
    obtain ⟨i1, i2⟩ := plane_good hT hp n l (by simpa using hn) hl (fun c hc => ht c (List.mem_append_left _ hc))
    cases e with
    | read bl ctx x y =>
      have : blocks [Ev.read bl ctx x y] = [] := rfl
      rw [this, List.append_nil]
      exact ⟨i1, fun a b hab => (i2 a b hab).trans (decoded_read _ _ _ _ _ _ _).symm⟩
    | call c =>
      have hb1 : blocks [Ev.call c] = [c] := rfl
      rw [hb1] at ht ⊢
      have hf : ∀ l : List Tb, Plus (fun _ _ => False) l = Made l := by
        intro l; funext a b; unfold Plus; rw [false_or]
      have hb := block_good hT he hp (ht c (List.mem_append_right _ (List.mem_singleton.2 rfl))) (D := Made (planeTbs f T p tx (blocks l))) i2
      have hpl : planeTbs f T p tx (blocks l ++ [c]) = planeTbs f T p tx (blocks l) ++ blockTbs f T p (tx c) c := by
        unfold planeTbs; simp
      rw [hpl]
      refine ⟨i1.append (by rw [hf]; exact hb.1), fun a b hab => ?_⟩
      rw [← hb.2 a b hab]
      unfold Plus
      exact made_append _ _ _ _

/-! ## Sizes -/

/-- The transform is a power of two in both directions and at most `w` times `h` units. -/
def txLe (tx w h : Nat) : Bool :=
  decide (∃ i ∈ List.range 5, (txSize tx).1 = 2 ^ i) && decide (∃ j ∈ List.range 5, (txSize tx).2 = 2 ^ j) && decide ((txSize tx).1 ≤ w) && decide ((txSize tx).2 ≤ h)

theorem sub_le_check : ∀ tx ∈ List.range 19, (Tables.txDims.getD tx []).getD 6 0 < 19 ∧
    txLe ((Tables.txDims.getD tx []).getD 6 0) (txSize tx).1 (txSize tx).2 = true := by decide +kernel

theorem txLe_iff {tx w h : Nat} : txLe tx w h = true ↔ (∃ i ∈ List.range 5, (txSize tx).1 = 2 ^ i) ∧ (∃ j ∈ List.range 5, (txSize tx).2 = 2 ^ j) ∧ (txSize tx).1 ≤ w ∧ (txSize tx).2 ≤ h := by
  unfold txLe
  simp only [Bool.and_eq_true, decide_eq_true_eq, and_assoc]

theorem subTx_le {w h : Nat} : ∀ (n tx : Nat), tx < 19 → txLe tx w h = true → txLe (subTx n tx) w h = true
  | 0, _, _, h => h
  | n + 1, tx, hx, h => by
    obtain ⟨h1, h2⟩ := sub_le_check tx (List.mem_range.2 hx)
    refine subTx_le n _ h1 ?_
    obtain ⟨a1, a2, a3, a4⟩ := txLe_iff.1 h
    obtain ⟨b1, b2, b3, b4⟩ := txLe_iff.1 h2
    exact txLe_iff.2 ⟨b1, b2, Nat.le_trans b3 a3, Nat.le_trans b4 a4⟩

theorem max_le_check : ∀ bs ∈ List.range 22, (∀ k ∈ List.range 4, (Tables.maxTx.getD bs []).getD k 0 < 19) ∧
    1 ≤ bsW bs ∧ 1 ≤ bsH bs ∧ txLe 0 1 1 = true ∧
    txLe ((Tables.maxTx.getD bs []).getD 0 0) (min 16 (bsW bs)) (min 16 (bsH bs)) = true ∧
    txLe ((Tables.maxTx.getD bs []).getD 1 0) (min 8 ((bsW bs + 1) / 2)) (min 8 ((bsH bs + 1) / 2)) = true ∧
    txLe ((Tables.maxTx.getD bs []).getD 2 0) (min 8 ((bsW bs + 1) / 2)) (min 16 (bsH bs)) = true ∧
    txLe ((Tables.maxTx.getD bs []).getD 3 0) (min 16 (bsW bs)) (min 16 (bsH bs)) = true := by decide +kernel

/-- **C71.** The transform that decode_b chooses for an intra block, whatever depth was read, fits into the block and into a
chunk of 64x64 luma samples, in all channels and layouts. -/
theorem C71_sizes {layout : Nat} (hl : 1 ≤ layout ∧ layout ≤ 3) (ch : Chan) (lossless : Bool) (depth : Nat) (c : Call) (hb : c.bs < 22) :
    TxFits (ch.plane layout) c (txSize (intraTx layout ch lossless depth c.bs)).1 (txSize (intraTx layout ch lossless depth c.bs)).2 := by
  obtain ⟨k0, k1, k2, k3, k4, k5, k6, k7⟩ := max_le_check c.bs (List.mem_range.2 hb)
  have key : ∀ {p : Plane} {tx w h : Nat}, txLe tx w h = true → w ≤ p.w c → h ≤ p.h c → w ≤ 16 / 2 ^ p.ssH → h ≤ 16 / 2 ^ p.ssV →
      TxFits p c (txSize tx).1 (txSize tx).2 := by
    intro p tx w h h1 h2 h3 h4 h5
    obtain ⟨⟨i, -, a1⟩, ⟨j, -, a2⟩, a3, a4⟩ := txLe_iff.1 h1
    exact ⟨⟨i, a1⟩, ⟨j, a2⟩, by omega, by omega, by omega, by omega⟩
  cases lossless with
  | true =>
    unfold intraTx
    rw [if_pos rfl]
    cases ch with
    | y => exact key k3 (by simp [Chan.plane, luma, Plane.w]; omega) (by simp [Chan.plane, luma, Plane.h]; omega) (by simp [Chan.plane, luma]) (by simp [Chan.plane, luma])
    | uv =>
      have : layout = 1 ∨ layout = 2 ∨ layout = 3 := by omega
      rcases this with rfl | rfl | rfl
      · exact key k3 (by simp [Chan.plane, chroma420, Plane.w]; omega) (by simp [Chan.plane, chroma420, Plane.h]; omega) (by decide) (by decide)
      · exact key k3 (by simp [Chan.plane, chroma422, Plane.w]; omega) (by simp [Chan.plane, chroma422, Plane.h]; omega) (by decide) (by decide)
      · exact key k3 (by simp [Chan.plane, luma, Plane.w]; omega) (by simp [Chan.plane, luma, Plane.h]; omega) (by decide) (by decide)
  | false =>
    unfold intraTx
    rw [if_neg (by decide)]
    cases ch with
    | y =>
      exact key (subTx_le depth _ (k0 0 (by decide)) k4) (by simp [Chan.plane, luma, Plane.w]; omega) (by simp [Chan.plane, luma, Plane.h]; omega) (by simp [Chan.plane, luma]; omega) (by simp [Chan.plane, luma]; omega)
    | uv =>
      have : layout = 1 ∨ layout = 2 ∨ layout = 3 := by omega
      rcases this with rfl | rfl | rfl
      · exact key k5 (by simp [Chan.plane, chroma420, Plane.w]; omega) (by simp [Chan.plane, chroma420, Plane.h]; omega) (by simp [Chan.plane, chroma420]; omega) (by simp [Chan.plane, chroma420]; omega)
      · exact key k6 (by simp [Chan.plane, chroma422, Plane.w]; omega) (by simp [Chan.plane, chroma422, Plane.h]; omega) (by simp [Chan.plane, chroma422]; omega) (by simp [Chan.plane, chroma422]; omega)
      · exact key k7 (by simp [Chan.plane, luma, Plane.w]; omega) (by simp [Chan.plane, luma, Plane.h]; omega) (by simp [Chan.plane, luma]; omega) (by simp [Chan.plane, luma]; omega)

/-! ## The properties -/

theorem chan_plane {f : Frame} {layout : Nat} (hf : f.i422 = decide (layout = 2)) (ch : Chan) : ch.plane layout ∈ planes f := by
  unfold planes
  cases ch with
  | y => exact List.mem_cons_self ..
  | uv =>
    unfold Chan.plane
    dsimp only
    rw [hf]
    by_cases h1 : layout = 1
    · simp [h1]
    · by_cases h2 : layout = 2
      · simp [h2]
      · simp [h1, h2]

theorem bs_of_pos {bs : Nat} (h : 0 < bsW bs) : bs < 22 := by
  apply Nat.lt_of_not_le
  intro h1
  have : Tables.blockDims.getD bs [] = [] := by
    rw [List.getD_eq_getElem?_getD, List.getElem?_eq_none (by exact h1)]; rfl
  unfold bsW at h
  rw [this] at h
  exact absurd h (by decide)

theorem tile_tbs {S : Src σ} (hS : ∀ s bl ctx, (S.part s bl ctx).1 ≤ typeCount bl) {f : Frame} {sb128 : Bool} {T : Tile}
    (hpass : f.pass ≠ 2) (hT : TileOk f sb128 T) {s : σ} {st : St σ} (h : decodeTile S f sb128 T.x0 T.x1 T.y0 T.y1 s = .ok st)
    {layout : Nat} (hl : 1 ≤ layout ∧ layout ≤ 3) (hf : f.i422 = decide (layout = 2)) (ch : Chan) (info : Info) :
    TbsGood (TbFine T (ch.plane layout)) (fun _ _ => False) (planeTbs f T (ch.plane layout) (txOf layout ch info) (blocks st.log)) ∧
    ∀ a b, (T.inPlane (ch.plane layout)).has a b → Made (planeTbs f T (ch.plane layout) (txOf layout ch info) (blocks st.log)) a b := by
  have hp := chan_plane hf ch
  rcases decodeTile_ok S hS hpass hT s with h1 | ⟨st', h1, h2, h3⟩
  · rw [h] at h1; cases h1
  rw [h] at h1; cases h1
  have hbs : ∀ c ∈ blocks st.log, c.bs < 22 := by
    intro c hc
    obtain ⟨e, h4, h5⟩ := List.mem_filterMap.1 hc
    cases e with
    | read => cases h5
    | call d =>
      cases h5
      obtain ⟨pre, post, h6⟩ := List.append_of_mem h4
      have h7 : CallOk f T pre c := h3 pre _ post h6
      exact bs_of_pos h7.pos.1
  have := plane_good hT hp (tx := txOf layout ch info) _ st.log rfl h3 (fun c hc tw th htx _ => by
    unfold txOf at htx
    cases hi : info c with
    | none => rw [hi] at htx; cases htx
    | some i =>
      rw [hi] at htx
      have h8 := C71_sizes hl ch i.1 i.2 c (hbs c hc)
      simp only [Option.map_some, Option.some.injEq] at htx
      rw [htx] at h8
      exact h8)
  refine ⟨this.1, fun a b hab => (this.2 a b hab).2 (h2 _ _ ?_)⟩
  exact (plane_has hT hp a b).2 hab

/-- **C71.** For every transform block of an intra block, in luma and chroma of all layouts and with all transform sizes that
can be coded, what dav1d_prepare_intra_edges is told about the surroundings is right: see `TbEdges`. -/
theorem C71_edges (S : Src σ) (hS : ∀ s bl ctx, (S.part s bl ctx).1 ≤ typeCount bl) {f : Frame} {sb128 : Bool} {T : Tile}
    (hpass : f.pass ≠ 2) (hT : TileOk f sb128 T) (s : σ) {st : St σ} (h : decodeTile S f sb128 T.x0 T.x1 T.y0 T.y1 s = .ok st)
    {layout : Nat} (hl : 1 ≤ layout ∧ layout ≤ 3) (hf : f.i422 = decide (layout = 2)) (ch : Chan) (info : Info)
    {before after : List Tb} {t : Tb} (ht : planeTbs f T (ch.plane layout) (txOf layout ch info) (blocks st.log) = before ++ t :: after)
    (hi : t.intra = true) : TbEdges (T.inPlane (ch.plane layout)) before t := by
  obtain ⟨h1, -⟩ := tile_tbs hS hpass hT h hl hf ch info
  rw [ht] at h1
  have h2 := h1.get
  have hf : Plus (fun _ _ => False) before = Made before := by funext a b; unfold Plus; rw [false_or]
  rw [hf] at h2
  have g := h2.good hi
  have e1 : (T.inPlane (ch.plane layout)).x0 = T.x0 >>> (ch.plane layout).ssH := (Nat.shiftRight_eq_div_pow _ _).symm
  have e2 : (T.inPlane (ch.plane layout)).y0 = T.y0 >>> (ch.plane layout).ssV := (Nat.shiftRight_eq_div_pow _ _).symm
  have hs := g.start
  generalize hP : T.inPlane (ch.plane layout) = P at *
  have hx : ∀ {n : Nat}, n < t.x → t.x = t.x - 1 + 1 := by intro n h; omega
  have hy : ∀ {n : Nat}, n < t.y → t.y = t.y - 1 + 1 := by intro n h; omega
  constructor
  · exact hs
  · exact g.fresh
  · rw [h2.left hi, decide_eq_true_iff, e1]
  · rw [h2.top hi, decide_eq_true_iff, e2]
  · exact fun h i hi => g.left i _ hi (hx h)
  · exact fun h i hi => g.top i _ hi (hy h)
  · intro h h'
    refine g.corner _ _ (hx h) (hy h') ?_
    unfold Tile.has at hs ⊢
    omega
  · exact fun h i hi => g.tr i _ hi (hy h)
  · exact fun h i hi => g.bl i _ hi (hx h)

theorem tbs_count {T : Tile} {p : Plane} {a b : Nat} (hab : (T.inPlane p).has a b) : ∀ {l : List Tb} {D : Nat → Nat → Prop}, TbsGood (TbFine T p) D l →
    l.countP (fun t => decide (t.covers a b)) ≤ 1 ∧ (D a b → l.countP (fun t => decide (t.covers a b)) = 0)
  | [], _, _ => ⟨Nat.zero_le _, fun _ => rfl⟩
  | t :: l, D, ⟨h1, h2⟩ => by
    obtain ⟨i1, i2⟩ := tbs_count hab h2
    rw [List.countP_cons]
    by_cases hc : t.covers a b
    · have hn : ¬ D a b := h1.fresh a b hab hc
      have := i2 (.inr ⟨t, List.mem_singleton.2 rfl, hc⟩)
      rw [if_pos (decide_eq_true hc)]
      exact ⟨by omega, fun h => absurd h hn⟩
    · rw [if_neg (by simpa using hc)]
      exact ⟨i1, fun h => i2 (.inl h)⟩

/-- **C71.** The transform blocks and the blocks that are not intra reconstruct each unit of the tile exactly once in every
plane, also where a block reaches over the edge of the frame and for the chroma of blocks that are too small to have their own. -/
theorem C71_once (S : Src σ) (hS : ∀ s bl ctx, (S.part s bl ctx).1 ≤ typeCount bl) {f : Frame} {sb128 : Bool} {T : Tile}
    (hpass : f.pass ≠ 2) (hT : TileOk f sb128 T) (s : σ) {st : St σ} (h : decodeTile S f sb128 T.x0 T.x1 T.y0 T.y1 s = .ok st)
    {layout : Nat} (hl : 1 ≤ layout ∧ layout ≤ 3) (hf : f.i422 = decide (layout = 2)) (ch : Chan) (info : Info)
    {a b : Nat} (hab : (T.inPlane (ch.plane layout)).has a b) :
    (planeTbs f T (ch.plane layout) (txOf layout ch info) (blocks st.log)).countP (fun t => decide (t.covers a b)) = 1 := by
  obtain ⟨h1, h2⟩ := tile_tbs hS hpass hT h hl hf ch info
  obtain ⟨t, h3, h4⟩ := h2 a b hab
  have := (tbs_count hab h1).1
  have := List.countP_pos_iff (p := fun t : Tb => decide (t.covers a b)).2 ⟨t, h3, decide_eq_true h4⟩
  omega

/-! ## An example -/

/-- Blocks at odd rows are not intra; transforms of others are divided once, but not those in column 0. -/
def mixedInfo : Info := fun c => if c.y % 2 = 1 then none else some (false, if c.x = 0 then 0 else 1)

/-- The transform blocks of `smallRun` (56x40 samples, 18 blocks of several shapes) in luma and in chroma. -/
def smallTbs (ch : Chan) : List Tb := planeTbs smallFrame smallTile (ch.plane 1) (txOf 1 ch mixedInfo) (blocks (logOf smallRun))

/-- One that has units on all sides, of size 8x8 in luma: those above and to the right are available, those below on the left
are not, and both are in the tile. -/
example : ∃ st before after, smallRun = .ok st ∧
    planeTbs smallFrame smallTile (Chan.y.plane 1) (txOf 1 .y mixedInfo) (blocks st.log) = before ++ ⟨8, 6, 2, 2, true, true, true, true, false⟩ :: after ∧
    (smallTile.inPlane luma).has (8 + 2) 5 ∧ (smallTile.inPlane luma).has 7 (6 + 2) ∧ before.length = 16 := by
  refine ⟨_, (smallTbs .y).take 16, (smallTbs .y).drop 17, rfl, ?_, ?_, ?_, ?_⟩
  · decide +kernel
  · unfold Tile.has; decide
  · unfold Tile.has; decide
  · decide +kernel

/-- A frame of 256x192 samples in 4:2:2 with superblocks of 128x128, where all blocks are as large as possible. -/
def wideFrame : Frame := ⟨64, 48, true, 0, fun _ _ => (0, 0)⟩
def wideTile : Tile := ⟨0, 64, 0, 48⟩
theorem wideTile_ok : TileOk wideFrame true wideTile := by constructor <;> decide
def wideRun : Res (List Nat) := decodeTile scripted wideFrame true 0 64 0 48 []
def wideTbs (ch : Chan) : List Tb := planeTbs wideFrame wideTile (ch.plane 2) (txOf 2 ch fun _ => some (false, 1)) (blocks (logOf wideRun))

/-- Its first block has four chunks with two transforms of 32x32 chroma samples each. The first transform of the last chunk: the
units below on the left are available, those above and to the right belong to the next superblock. -/
example : ∃ st before after, wideRun = .ok st ∧
    planeTbs wideFrame wideTile (Chan.uv.plane 2) (txOf 2 .uv fun _ => some (false, 1)) (blocks st.log) = before ++ ⟨8, 16, 8, 8, true, true, true, false, true⟩ :: after ∧
    (wideTile.inPlane chroma422).has (8 + 8) 15 ∧ (wideTile.inPlane chroma422).has 7 (16 + 8) ∧ before.length = 6 := by
  refine ⟨_, (wideTbs .uv).take 6, (wideTbs .uv).drop 7, rfl, ?_, ?_, ?_, ?_⟩
  · decide +kernel
  · unfold Tile.has; decide
  · unfold Tile.has; decide
  · decide +kernel

end Dav1d.Part
