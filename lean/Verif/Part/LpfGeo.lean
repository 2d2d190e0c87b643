import Verif.Part.LpfBlk
import Verif.Part.Place
/-!
# Contexts of deblocking and neighbouring blocks
-/
set_option linter.unusedVariables false
namespace Dav1d.Part.Lpf

theorem snoc_ind {α : Type} {P : List α → Prop} (nil : P []) (snoc : ∀ l a, P l → P (l ++ [a])) (l : List α) : P l := by
  have H : ∀ (n : Nat) (l : List α), l.length = n → P l := by
    intro n
    induction n with
    | zero => intro l h; rw [List.eq_nil_of_length_eq_zero h]; exact nil
    | succ n ih =>
      intro l h
      rcases List.eq_nil_or_concat l with rfl | ⟨l', a, rfl⟩
      · exact nil
      · rw [List.concat_eq_append] at h ⊢
        exact snoc _ _ (ih l' (by simpa using h))
  exact H _ l rfl

/-! ## Blocks of a tile -/

/-- How the blocks of a tile lie. -/
structure Laid (f : Frame) (step : Nat) (T : Tile) (cs : List Call) : Prop where
  start : ∀ c ∈ cs, T.has c.x c.y
  bs : ∀ c ∈ cs, c.bs < 22 ∧ c.x % bsW c.bs = 0 ∧ c.y % bsH c.bs = 0
  insX : ∀ c ∈ cs, T.x1 = f.bw ∨ c.x + bsW c.bs ≤ T.x1
  insY : ∀ c ∈ cs, T.y1 = f.bh ∨ c.y + bsH c.bs ≤ T.y1
  row : ∀ c ∈ cs, c.y + bsH c.bs ≤ step * (c.y / step) + step
  cover : ∀ a b, T.has a b → ∃ c ∈ cs, c.covers a b
  ordX : cs.Pairwise fun c d => ∀ X, X < T.x1 → c.inX X → d.inX X → c.y + bsH c.bs ≤ d.y
  ordY : cs.Pairwise fun c d => ∀ Y, Y < T.y1 → c.inY Y → d.inY Y → c.x + bsW c.bs ≤ d.x
  rows : cs.Pairwise fun c d => c.y / step ≤ d.y / step

theorem pairwise_of_split {α : Type} {R : α → α → Prop} : ∀ {l : List α}, (∀ p c q, l = p ++ c :: q → ∀ d ∈ p, R d c) → l.Pairwise R
  | [], h => List.Pairwise.nil
  | a :: l, h => by
    refine List.Pairwise.cons ?_ (pairwise_of_split fun p c q he d hd => h (a :: p) c q (by rw [he]; rfl) d (List.mem_cons_of_mem _ hd))
    intro b hb
    obtain ⟨p, q, rfl⟩ := List.append_of_mem hb
    exact h (a :: p) b q rfl a List.mem_cons_self

theorem blocks_split : ∀ {log : List Ev} {p : List Call} {c : Call} {q : List Call}, blocks log = p ++ c :: q →
    ∃ l1 l2, log = l1 ++ .call c :: l2 ∧ blocks l1 = p
  | [], p, c, q, h => by cases p <;> cases h
  | .read a b x y :: log, p, c, q, h => by
    have h' : blocks log = p ++ c :: q := h
    obtain ⟨l1, l2, e1, e2⟩ := blocks_split h'
    exact ⟨.read a b x y :: l1, l2, by rw [e1]; rfl, e2⟩
  | .call d :: log, [], c, q, h => by
    have h' : d :: blocks log = c :: q := h
    cases h'
    exact ⟨[], log, rfl, rfl⟩
  | .call d :: log, a :: p, c, q, h => by
    have h' : d :: blocks log = a :: (p ++ c :: q) := h
    injection h' with h1 h2
    subst h1
    obtain ⟨l1, l2, e1, e2⟩ := blocks_split h2
    exact ⟨.call d :: l1, l2, by rw [e1]; rfl, by show d :: blocks l1 = _; rw [e2]⟩

theorem mem_blocks {log : List Ev} {c : Call} : c ∈ blocks log ↔ Ev.call c ∈ log := by
  constructor
  · intro h
    obtain ⟨e, h3, h4⟩ := List.mem_filterMap.1 h
    cases e with
    | read => cases h4
    | call d => cases h4; exact h3
  · intro h
    exact List.mem_filterMap.2 ⟨_, h, rfl⟩

/-- The blocks of a decoded tile. -/
theorem laid_of {f : Frame} {sb128 : Bool} {T : Tile} (hp : f.pass ≠ 2) (hT : TileOk f sb128 T) {σ : Type} {S : Src σ} {s : σ} {st : St σ}
    (hS : ∀ s bl ctx, (S.part s bl ctx).1 ≤ typeCount bl) (h1 : decodeTile S f sb128 T.x0 T.x1 T.y0 T.y1 s = .ok st) :
    Laid f (sbStep sb128) T (blocks st.log) := by
  rcases decodeTile_ok S hS hp hT s with h3 | ⟨st', h3, h4, h5⟩
  · rw [h1] at h3; cases h3
  · rw [h1] at h3; cases h3
    obtain ⟨new, e1, e2⟩ := tile_news S hS hp sb128 T.x0 T.x1 hT.x0 _ _ _ _ hT.y0 h1
    have : new = st.log := by rw [e1]; rfl
    rw [this] at e2
    have ok : ∀ c ∈ blocks st.log, ∃ l1, CallOk f T l1 c := by
      intro c hc
      obtain ⟨l1, l2, hl⟩ := List.append_of_mem (mem_blocks.1 hc)
      exact ⟨l1, h5.call hl⟩
    refine ⟨?_, ?_, ?_, ?_, ?_, ?_, ?_, ?_, e2.1⟩
    · intro c hc; obtain ⟨_, h⟩ := ok c hc; exact h.start
    · intro c hc; have := (e2.2 c hc).2; exact ⟨this.bs, this.ax, this.ay⟩
    · intro c hc; obtain ⟨_, h⟩ := ok c hc; exact h.insX
    · intro c hc; obtain ⟨_, h⟩ := ok c hc; exact h.insY
    · intro c hc; exact (e2.2 c hc).2.y1
    · intro a b hab
      obtain ⟨c, h6, h7⟩ := h4 a b hab
      exact ⟨c, mem_blocks.2 h6, h7⟩
    · refine pairwise_of_split fun p c q he d hd X hX h6 h7 => ?_
      obtain ⟨l1, l2, hl, hb⟩ := blocks_split he
      exact order_x h5 hl (mem_blocks.1 (by rw [hb]; exact hd)) h7 h6 hX
    · refine pairwise_of_split fun p c q he d hd Y hY h6 h7 => ?_
      obtain ⟨l1, l2, hl, hb⟩ := blocks_split he
      exact order_y h5 hl (mem_blocks.1 (by rw [hb]; exact hd)) h7 h6 hY

/-! ## Units of the plane -/

/-- Last column and row of luma of a unit. -/
abbrev Cfg.u (C : Cfg) (X : Nat) : Nat := C.comp.plane.lastX X
abbrev Cfg.v (C : Cfg) (Y : Nat) : Nat := C.comp.plane.lastY Y
abbrev Cfg.cols (C : Cfg) : Nat := Av1.cols C.comp.plane C.D
abbrev Cfg.rows (C : Cfg) : Nat := Av1.rows C.comp.plane C.D

theorem cw_eq (C : Cfg) (c : Call) : C.cw c = min (C.cols - C.px c) (C.comp.plane.w c) ∧ C.ch c = min (C.rows - C.py c) (C.comp.plane.h c) := by
  unfold Cfg.cw Cfg.ch Cfg.px Cfg.py Cfg.cols Cfg.rows Av1.cols Av1.rows Plane.x Plane.y Plane.w Plane.h
  cases C.comp with
  | y => simp [lumaW, lumaH, Comp.plane, luma]
  | uv p => simp only [chromaW, chromaH, Comp.plane, Nat.shiftRight_eq_div_pow]; exact ⟨trivial, trivial⟩

theorem BlkOk.ss {C : Cfg} {c : Call} (h : BlkOk C c) : (C.comp.plane.ssH = 0 ∨ C.comp.plane.ssH = 1) ∧ (C.comp.plane.ssV = 0 ∨ C.comp.plane.ssV = 1) := by
  have := h.ssH; have := h.ssV; omega

theorem covers_iff {C : Cfg} {c : Call} (h : BlkOk C c) (X Y : Nat) : c.covers (C.u X) (C.v Y) ↔
    hasPlane C.comp.plane c = true ∧ C.px c ≤ X ∧ X < C.px c + C.comp.plane.w c ∧ C.py c ≤ Y ∧ Y < C.py c + C.comp.plane.h c := by
  obtain ⟨f1, f2⟩ := bs_facts _ h.bs
  have g1 := h.ax
  have g2 := h.ay
  rw [hasPlane_iff]
  unfold Cfg.px Cfg.py Cfg.u Cfg.v Call.covers Plane.hasBlock Plane.lastX Plane.lastY Plane.x Plane.y Plane.w Plane.h
  generalize bsW c.bs = w at *
  generalize bsH c.bs = hh at *
  have a1 : (c.x % 2 = 0 ∧ w % 2 = 0) ∨ w = 1 := by rcases f1 with rfl | rfl | rfl | rfl | rfl | rfl <;> omega
  have a2 : (c.y % 2 = 0 ∧ hh % 2 = 0) ∨ hh = 1 := by rcases f2 with rfl | rfl | rfl | rfl | rfl | rfl <;> omega
  have b1 : 0 < w := by omega
  have b2 : 0 < hh := by omega
  clear f1 f2 g1 g2
  obtain ⟨e1, e2⟩ := h.ss
  rcases e1 with e1 | e1 <;> rcases e2 with e2 | e2 <;> rw [e1, e2] <;> simp only [Nat.pow_zero, Nat.pow_one, Nat.div_one, Nat.mul_one, Nat.add_zero] <;> omega

/-- A block has a unit on the screen exactly if it covers its last unit of luma. -/
theorem has_iff {C : Cfg} {c : Call} (h : BlkOk C c) (X Y : Nat) : C.Has c X Y ↔ X < C.cols ∧ Y < C.rows ∧ c.covers (C.u X) (C.v Y) := by
  rw [covers_iff h]
  unfold Cfg.Has
  obtain ⟨e1, e2⟩ := cw_eq C c
  rw [e1, e2]
  constructor
  · rintro ⟨a, b, c, d, e⟩
    exact ⟨by omega, by omega, a, b, by omega, d, by omega⟩
  · rintro ⟨a, b, c, d, e, f, g⟩
    exact ⟨c, d, by omega, f, by omega⟩

theorem u_mono {C : Cfg} {X X' : Nat} : C.u X < C.u X' ↔ X < X' := by
  unfold Cfg.u Plane.lastX
  have hp : 0 < 2 ^ C.comp.plane.ssH := Nat.two_pow_pos _
  generalize 2 ^ C.comp.plane.ssH = n at *
  constructor
  · intro h
    refine Nat.lt_of_not_le fun hle => ?_
    have := Nat.mul_le_mul_right n (show X' + 1 ≤ X + 1 by omega)
    omega
  · intro h
    have := Nat.mul_le_mul_right n (show X + 1 + 1 ≤ X' + 1 by omega)
    rw [Nat.add_mul (X + 1) 1 n] at this
    have h1 : n ≤ (X + 1) * n := by
      have := Nat.mul_le_mul_right n (show 1 ≤ X + 1 by omega); omega
    omega

theorem v_mono {C : Cfg} {X X' : Nat} : C.v X < C.v X' ↔ X < X' := by
  unfold Cfg.v Plane.lastY
  have hp : 0 < 2 ^ C.comp.plane.ssV := Nat.two_pow_pos _
  generalize 2 ^ C.comp.plane.ssV = n at *
  constructor
  · intro h
    refine Nat.lt_of_not_le fun hle => ?_
    have := Nat.mul_le_mul_right n (show X' + 1 ≤ X + 1 by omega)
    omega
  · intro h
    have := Nat.mul_le_mul_right n (show X + 1 + 1 ≤ X' + 1 by omega)
    rw [Nat.add_mul (X + 1) 1 n] at this
    have h1 : n ≤ (X + 1) * n := by
      have := Nat.mul_le_mul_right n (show 1 ≤ X + 1 by omega); omega
    omega

/-! ## Frame and tile -/

/-- What is fixed for a tile of a frame. -/
structure TileCfg (C : Cfg) (T : Tile) (cs : List Call) : Prop where
  ssH : C.comp.plane.ssH < 2
  ssV : C.comp.plane.ssV < 2
  w4 : C.D.w4 ≤ C.f.bw ∧ C.f.bw ≤ C.D.w4 + 1
  h4 : C.D.h4 ≤ C.f.bh ∧ C.f.bh ≤ C.D.h4 + 1
  tile : TileOk C.f C.sb128 T
  laid : Laid C.f (sbStep C.sb128) T cs
  valid : ∀ c ∈ cs, (C.info c).Valid C.comp c

variable {C : Cfg} {T : Tile} {cs : List Call}

theorem TileCfg.blk (h : TileCfg C T cs) {c : Call} (hc : c ∈ cs) : BlkOk C c := by
  obtain ⟨b1, b2, b3⟩ := h.laid.bs c hc
  have hs := h.laid.start c hc
  have hT := h.tile
  refine ⟨h.ssH, h.ssV, h.w4, h.h4, hT.bw, hT.bh, b1, b2, b3, ?_, ?_, h.valid c hc⟩
  · have := hs.2.1; rcases hT.x1 with e | e <;> omega
  · have := hs.2.2.2; rcases hT.y1 with e | e <;> omega

theorem TileCfg.ss (h : TileCfg C T cs) : (C.comp.plane.ssH = 0 ∨ C.comp.plane.ssH = 1) ∧ (C.comp.plane.ssV = 0 ∨ C.comp.plane.ssV = 1) := by
  have := h.ssH; have := h.ssV; omega

/-- Units on the screen are inside the frame. -/
theorem TileCfg.screen (h : TileCfg C T cs) {X Y : Nat} : (X < C.cols → C.u X < C.f.bw) ∧ (Y < C.rows → C.v Y < C.f.bh) := by
  have := h.w4; have := h.h4
  have := h.tile.bw; have := h.tile.bh
  obtain ⟨e1, e2⟩ := h.ss
  unfold Cfg.u Cfg.v Cfg.cols Cfg.rows Av1.cols Av1.rows Plane.lastX Plane.lastY
  rcases e1 with e1 | e1 <;> rcases e2 with e2 | e2 <;> rw [e1, e2] <;> simp only [Nat.pow_zero, Nat.pow_one, Nat.div_one, Nat.mul_one, Nat.add_zero] <;> omega

/-- The units of a block are in its tile. -/
theorem TileCfg.inTile (h : TileCfg C T cs) {c : Call} (hc : c ∈ cs) {X Y : Nat} (hh : C.Has c X Y) : T.has (C.u X) (C.v Y) := by
  obtain ⟨h1, h2, h3⟩ := (has_iff (h.blk hc) X Y).1 hh
  obtain ⟨s1, s2, s3, s4⟩ := h.laid.start c hc
  have i1 := h.laid.insX c hc
  have i2 := h.laid.insY c hc
  have t1 := (h.screen (Y := Y)).1 h1
  have t2 := (h.screen (X := X)).2 h2
  obtain ⟨c1, c2, c3, c4⟩ := h3
  exact ⟨by omega, by omega, by omega, by omega⟩

/-- The block of a unit. -/
theorem TileCfg.owner (h : TileCfg C T cs) {X Y : Nat} (hX : X < C.cols) (hY : Y < C.rows) (ht : T.has (C.u X) (C.v Y)) : ∃ c ∈ cs, C.Has c X Y := by
  obtain ⟨c, hc, hv⟩ := h.laid.cover _ _ ht
  exact ⟨c, hc, (has_iff (h.blk hc) X Y).2 ⟨hX, hY, hv⟩⟩

theorem pairwise_at {α : Type} {R : α → α → Prop} {p q : List α} {c d : α} (h : (p ++ c :: q).Pairwise R) (hd : d ∈ p) : R d c :=
  (List.pairwise_append.1 h).2.2 d hd c List.mem_cons_self

theorem pairwise_after {α : Type} {R : α → α → Prop} {p q : List α} {c d : α} (h : (p ++ c :: q).Pairwise R) (hd : d ∈ q) : R c d := by
  have := (List.pairwise_append.1 h).2.1
  exact (List.pairwise_cons.1 this).1 d hd

/-- Only one block of a tile has a unit. -/
theorem TileCfg.unique (h : TileCfg C T cs) {c d : Call} (hc : c ∈ cs) (hd : d ∈ cs) {X Y : Nat} (h1 : C.Has c X Y) (h2 : C.Has d X Y) : c = d := by
  have t := h.inTile hc h1
  obtain ⟨-, -, a1, a2, a3, a4⟩ := (has_iff (h.blk hc) X Y).1 h1
  obtain ⟨-, -, b1, b2, b3, b4⟩ := (has_iff (h.blk hd) X Y).1 h2
  obtain ⟨p, q, hs⟩ := List.append_of_mem hc
  have ho := h.laid.ordX
  rw [hs] at hd ho
  rcases List.mem_append.1 hd with hd | hd
  · have := pairwise_at ho hd (C.u X) t.2.1 ⟨b1, b2⟩ ⟨a1, a2⟩; omega
  · rcases List.mem_cons.1 hd with rfl | hd
    · rfl
    · have := pairwise_after ho hd (C.u X) t.2.1 ⟨a1, a2⟩ ⟨b1, b2⟩; omega

/-! ## Contexts -/

/-- The block writes the entry of the column. -/
def Cfg.WrA (C : Cfg) (c : Call) (X : Nat) : Prop := hasPlane C.comp.plane c = true ∧ C.px c ≤ X ∧ X < C.px c + C.cw c ∧ 0 < C.ch c
/-- The block writes the entry. -/
def Cfg.WrL (C : Cfg) (c : Call) (i : Nat) : Prop := hasPlane C.comp.plane c = true ∧ C.py c % C.NH ≤ i ∧ i < C.py c % C.NH + C.ch c ∧ 0 < C.cw c

theorem after_snoc (C : Cfg) (l : List Call) (c : Call) : C.after (l ++ [c]) = C.loc (C.after l) c := by
  unfold Cfg.after; rw [List.foldl_append]; rfl

theorem after_a_last {p : List Call} {c : Call} (hb : BlkOk C c) {X : Nat} (hc : C.WrA c X) : ∀ {q : List Call}, (∀ d ∈ q, BlkOk C d ∧ ¬ C.WrA d X) →
    (C.after (p ++ c :: q)).a X = cls C.comp (C.H c (C.ch c - 1) (X - C.px c)) := by
  intro q
  induction q using snoc_ind with
  | nil => intro _; rw [after_snoc]; exact (loc_a hb _ X).1 hc
  | snoc q d ih =>
    intro h
    rw [show p ++ c :: (q ++ [d]) = (p ++ c :: q) ++ [d] by simp, after_snoc]
    obtain ⟨h1, h2⟩ := h d (by simp)
    rw [(loc_a h1 _ X).2 h2]
    exact ih fun e he => h e (by simp [he])

theorem after_a_none {X : Nat} {q : List Call} : (∀ d ∈ q, BlkOk C d ∧ ¬ C.WrA d X) → (C.after q).a X = C.reset := by
  induction q using snoc_ind with
  | nil => intro _; rfl
  | snoc q d ih =>
    intro h
    rw [after_snoc]
    obtain ⟨h1, h2⟩ := h d (by simp)
    rw [(loc_a h1 _ X).2 h2]
    exact ih fun e he => h e (by simp [he])

theorem enter_same {L : Loc} {c : Call} (h : L.row = some (c.y / sbStep C.sb128)) : C.enter L c = L := by
  unfold Cfg.enter; rw [if_pos h]

theorem after_l_last {p : List Call} {c : Call} (hb : BlkOk C c) {i : Nat} (hc : C.WrL c i) : ∀ {q : List Call},
    (∀ d ∈ q, BlkOk C d ∧ d.y / sbStep C.sb128 = c.y / sbStep C.sb128 ∧ ¬ C.WrL d i) →
    (C.after (p ++ c :: q)).l i = cls C.comp (C.W c (i - C.py c % C.NH) (C.cw c - 1)) ∧ (C.after (p ++ c :: q)).row = some (c.y / sbStep C.sb128) := by
  intro q
  induction q using snoc_ind with
  | nil => intro _; rw [after_snoc]; exact ⟨(loc_l hb _ i).1 hc, loc_row _ _⟩
  | snoc q d ih =>
    intro h
    rw [show p ++ c :: (q ++ [d]) = (p ++ c :: q) ++ [d] by simp, after_snoc]
    obtain ⟨h1, h2, h3⟩ := h d (by simp)
    obtain ⟨i1, i2⟩ := ih fun e he => h e (by simp [he])
    rw [(loc_l h1 _ i).2 h3, loc_row, enter_same (by rw [i2, h2]), h2]
    exact ⟨i1, rfl⟩

theorem after_l_none {i : Nat} {q : List Call} : ∀ (c : Call), (∀ d ∈ q, BlkOk C d ∧ (d.y / sbStep C.sb128 = c.y / sbStep C.sb128 → ¬ C.WrL d i)) →
    (C.enter (C.after q) c).l i = C.reset := by
  induction q using snoc_ind with
  | nil =>
    intro c _
    unfold Cfg.enter
    rw [if_neg (by unfold Cfg.after Cfg.start; simp)]
  | snoc q d ih =>
    intro c h
    obtain ⟨h1, h2⟩ := h d (by simp)
    rw [after_snoc]
    by_cases hr : d.y / sbStep C.sb128 = c.y / sbStep C.sb128
    · rw [enter_same (by rw [loc_row, hr]), (loc_l h1 _ i).2 (h2 hr)]
      exact ih d fun e he => ⟨(h e (by simp [he])).1, fun e2 => (h e (by simp [he])).2 (e2.trans hr)⟩
    · unfold Cfg.enter
      rw [if_neg (by rw [loc_row]; intro hh; exact hr (Option.some.inj hh))]

theorem step_two (b : Bool) : sbStep b = 16 ∨ sbStep b = 32 := by cases b <;> simp [sbStep]

/-- The superblock row of a row of a block. -/
theorem TileCfg.rowOf (h : TileCfg C T cs) {c : Call} (hc : c ∈ cs) {v : Nat} (hv : c.inY v) : c.y / sbStep C.sb128 = v / sbStep C.sb128 := by
  have hr := h.laid.row c hc
  have hp : 0 < sbStep C.sb128 := by rcases step_two C.sb128 with e | e <;> omega
  symm
  rw [Nat.div_eq_iff hp]
  obtain ⟨h1, h2⟩ := hv
  have := Nat.div_mul_le_self c.y (sbStep C.sb128)
  rw [Nat.mul_comm] at hr
  omega

theorem TileCfg.nh (h : TileCfg C T cs) : 0 < C.NH ∧ 0 < C.NW := by
  have := word_n h.ssH
  have := word_n h.ssV
  unfold Cfg.NH Cfg.NW; omega

theorem TileCfg.cellRow (h : TileCfg C T cs) (Y : Nat) : C.v Y / 32 = Y / C.NH := by
  obtain ⟨-, e2⟩ := h.ss
  unfold Cfg.v Cfg.NH Plane.lastY
  rcases e2 with e2 | e2 <;> rw [e2] <;> simp only [Nat.pow_zero, Nat.pow_one, Nat.mul_one, Nat.shiftRight_eq_div_pow, Nat.div_one] <;> omega

theorem same_cell {n q P Y w : Nat} (hn : 0 < n) (hc : P % n + w ≤ n) (hq : P / n = Y / n) : (P % n ≤ Y % n ∧ Y % n < P % n + w) ↔ (P ≤ Y ∧ Y < P + w) := by
  have e1 := Nat.div_add_mod P n
  have e2 := Nat.div_add_mod Y n
  rw [hq] at e1
  omega

theorem in_cell_row {n P Y w : Nat} (hn : 0 < n) (hc : P % n + w ≤ n) (h1 : P ≤ Y) (h2 : Y < P + w) : P / n = Y / n ∧ Y % n = P % n + (Y - P) := by
  have e := Nat.div_add_mod Y n
  rw [Nat.mul_comm] at e
  have := in_cell e.symm (Nat.mod_lt _ hn) h1 h2 hc
  exact ⟨this.1.symm, this.2⟩

/-- Which blocks of a superblock row write the entry of a row. -/
theorem TileCfg.wrL (h : TileCfg C T cs) {d : Call} (hd : d ∈ cs) {Y : Nat} (hr : d.y / sbStep C.sb128 = C.v Y / sbStep C.sb128) :
    C.WrL d (Y % C.NH) ↔ C.Has d (C.px d) Y := by
  obtain ⟨-, c2, -, c4, -⟩ := (h.blk hd).cell
  have hq : C.py d / C.NH = Y / C.NH := by
    rw [c4, ← h.cellRow Y]
    have : sbStep C.sb128 = 16 ∨ sbStep C.sb128 = 32 := step_two _
    rcases this with e | e <;> rw [e] at hr <;> omega
  have := same_cell (q := 0) h.nh.1 c2 hq
  unfold Cfg.WrL Cfg.Has
  constructor
  · rintro ⟨a, b, c, e⟩
    have := this.1 ⟨b, c⟩
    exact ⟨a, Nat.le_refl _, by omega, this.1, this.2⟩
  · rintro ⟨a, b, c, e⟩
    have := this.2 e
    exact ⟨a, this.1, this.2, by omega⟩

/-- The begin of the tile in the plane. -/
def Cfg.tx0 (C : Cfg) (T : Tile) : Nat := T.x0 / 2 ^ C.comp.plane.ssH
def Cfg.ty0 (C : Cfg) (T : Tile) : Nat := T.y0 / 2 ^ C.comp.plane.ssV

theorem TileCfg.x0 (h : TileCfg C T cs) : (∀ X, T.x0 ≤ C.u X ↔ C.tx0 T ≤ X) ∧ (∀ Y, T.y0 ≤ C.v Y ↔ C.ty0 T ≤ Y) := by
  obtain ⟨e1, e2⟩ := h.ss
  have a1 := sb_even h.tile.x0
  have a2 := sb_even h.tile.y0
  unfold Cfg.u Cfg.v Cfg.tx0 Cfg.ty0 Plane.lastX Plane.lastY
  constructor <;> intro X
  · rcases e1 with e1 | e1 <;> rw [e1] <;> simp only [Nat.pow_zero, Nat.pow_one, Nat.mul_one, Nat.div_one] <;> omega
  · rcases e2 with e1 | e1 <;> rw [e1] <;> simp only [Nat.pow_zero, Nat.pow_one, Nat.mul_one, Nat.div_one] <;> omega

theorem TileCfg.before (h : TileCfg C T cs) (c : Call) : (0 < C.px c → C.u (C.px c - 1) < c.x) ∧ (0 < C.py c → C.v (C.py c - 1) < c.y) := by
  obtain ⟨e1, e2⟩ := h.ss
  unfold Cfg.u Cfg.v Cfg.px Cfg.py Plane.lastX Plane.lastY Plane.x Plane.y
  constructor
  · rcases e1 with e1 | e1 <;> rw [e1] <;> simp only [Nat.pow_zero, Nat.pow_one, Nat.mul_one, Nat.div_one] <;> omega
  · rcases e2 with e1 | e1 <;> rw [e1] <;> simp only [Nat.pow_zero, Nat.pow_one, Nat.mul_one, Nat.div_one] <;> omega

/-- The left contexts of a block. -/
theorem left_ctx (h : TileCfg C T cs) {p q : List Call} {c : Call} (hcs : cs = p ++ c :: q) {Y : Nat} (hh : C.Has c (C.px c) Y) :
    (C.px c = C.tx0 T → (C.enter (C.after p) c).l (Y % C.NH) = C.reset) ∧
    (C.px c ≠ C.tx0 T → 0 < C.px c ∧ ∃ d ∈ p, C.Has d (C.px c - 1) Y ∧
      (C.enter (C.after p) c).l (Y % C.NH) = cls C.comp (C.W d (Y - C.py d) (C.px c - 1 - C.px d))) := by
  have hc : c ∈ cs := by rw [hcs]; simp
  have mem : ∀ d ∈ p, d ∈ cs := fun d hd => by rw [hcs]; simp [hd]
  have ht := h.inTile hc hh
  obtain ⟨s1, s2, v1, v2, v3, v4⟩ := (has_iff (h.blk hc) _ _).1 hh
  have ordY := h.laid.ordY
  have rows := h.laid.rows
  rw [hcs] at ordY rows
  have hrc := h.rowOf hc (v := C.v Y) ⟨v3, v4⟩
  -- blocks of the same superblock row that write the entry
  have wr : ∀ d ∈ p, d.y / sbStep C.sb128 = c.y / sbStep C.sb128 → C.WrL d (Y % C.NH) → C.Has d (C.px d) Y ∧ d.x + bsW d.bs ≤ c.x ∧ d.x ≤ C.u (C.px d) ∧
      C.u (C.px d) < d.x + bsW d.bs ∧ d.inY (C.v Y) := by
    intro d hd hr hw
    have hH := (h.wrL (mem d hd) (Y := Y) (by rw [hr, hrc])).1 hw
    obtain ⟨-, -, w1, w2, w3, w4⟩ := (has_iff (h.blk (mem d hd)) _ _).1 hH
    exact ⟨hH, pairwise_at ordY hd _ ht.2.2.2 ⟨w3, w4⟩ ⟨v3, v4⟩, w1, w2, w3, w4⟩
  constructor
  · intro he
    refine after_l_none c fun d hd => ⟨h.blk (mem d hd), fun hr hw => ?_⟩
    obtain ⟨hH, o1, o2, o3, -⟩ := wr d hd hr hw
    have hx : C.px c ≤ C.px d := by
      rw [he]; exact (h.x0.1 _).1 (h.inTile (mem d hd) hH).1
    have : C.u (C.px c) ≤ C.u (C.px d) := Nat.le_of_not_lt fun hlt => by have := u_mono.1 hlt; omega
    omega
  · intro hne
    have hge : C.tx0 T ≤ C.px c := (h.x0.1 _).1 ht.1
    have hpos : 0 < C.px c := by omega
    refine ⟨hpos, ?_⟩
    have hb := (h.before c).1 hpos
    obtain ⟨d, hd, hHd⟩ := h.owner (X := C.px c - 1) (Y := Y) (by omega) s2
      ⟨(h.x0.1 _).2 (by omega), by have := (h.laid.start c hc).2.1; omega, ht.2.2⟩
    obtain ⟨-, -, w1, w2, w3, w4⟩ := (has_iff (h.blk hd) _ _).1 hHd
    -- it comes before
    have hdp : d ∈ p := by
      rw [hcs] at hd
      rcases List.mem_append.1 hd with hd | hd
      · exact hd
      · rcases List.mem_cons.1 hd with rfl | hd
        · omega
        · have := pairwise_after ordY hd _ ht.2.2.2 ⟨v3, v4⟩ ⟨w3, w4⟩; omega
    refine ⟨d, hdp, hHd, ?_⟩
    have hrd := h.rowOf hd (v := C.v Y) ⟨w3, w4⟩
    have o1 := pairwise_at ordY hdp _ ht.2.2.2 ⟨w3, w4⟩ ⟨v3, v4⟩
    obtain ⟨p1, p2, hp⟩ := List.append_of_mem hdp
    have hfull : cs = p1 ++ d :: (p2 ++ c :: q) := by rw [hcs, hp]; simp
    have ordY' := h.laid.ordY
    have rows' := h.laid.rows
    rw [hfull] at ordY' rows'
    -- where it ends
    obtain ⟨k0, k1, k2, k3, k4⟩ := hHd
    obtain ⟨z1, z2⟩ := cw_eq C d
    have hend : C.px d + C.cw d = C.px c := by
      have : ¬ C.px c < C.px d + C.comp.plane.w d := by
        intro hlt
        have := (covers_iff (h.blk hd) (C.px c) Y).2 ⟨k0, by omega, hlt, k3, by omega⟩
        have := this.2.1
        omega
      omega
    have hWr : C.WrL d (Y % C.NH) := by
      refine (h.wrL hd (by rw [hrd])).2 ⟨k0, Nat.le_refl _, by omega, k3, k4⟩
    obtain ⟨l1, l2⟩ := after_l_last (p := p1) (h.blk hd) hWr (q := p2) (fun e he => by
      have hep : e ∈ p := by rw [hp]; simp [he]
      have r1 := pairwise_after rows' (d := e) (by simp [he])
      have r2 := pairwise_at rows (d := e) hep
      have hr : e.y / sbStep C.sb128 = c.y / sbStep C.sb128 := by omega
      refine ⟨h.blk (mem e hep), by omega, fun hw => ?_⟩
      obtain ⟨hH, q1, q2, q3, q4⟩ := wr e hep hr hw
      have q5 := pairwise_after ordY' (d := e) (by simp [he]) _ ht.2.2.2 ⟨w3, w4⟩ q4
      have g1 : C.u (C.px c - 1) < C.u (C.px e) := by omega
      have g2 : C.u (C.px e) < C.u (C.px c) := by omega
      have g1 := u_mono.1 g1
      have g2 := u_mono.1 g2
      omega)
    rw [← hp] at l1 l2
    rw [enter_same (by rw [l2, hrd, hrc]), l1]
    obtain ⟨-, c2, -⟩ := (h.blk hd).cell
    have := in_cell_row h.nh.1 c2 k3 k4
    rw [this.2, Nat.add_sub_cancel_left, show C.cw d - 1 = C.px c - 1 - C.px d by omega]

/-- The blocks that write the entry of a column. -/
theorem TileCfg.wrA (h : TileCfg C T cs) {d : Call} (hd : d ∈ cs) {X : Nat} : C.WrA d X ↔ C.Has d X (C.py d) := by
  unfold Cfg.WrA Cfg.Has
  constructor
  · rintro ⟨a, b, c, e⟩; exact ⟨a, b, c, by omega, by omega⟩
  · rintro ⟨a, b, c, e, g⟩; exact ⟨a, b, c, by omega⟩

/-- The above contexts of a block. -/
theorem above_ctx (h : TileCfg C T cs) {p q : List Call} {c : Call} (hcs : cs = p ++ c :: q) {X : Nat} (hh : C.Has c X (C.py c)) :
    (C.py c = C.ty0 T → (C.after p).a X = C.reset) ∧
    (C.py c ≠ C.ty0 T → 0 < C.py c ∧ ∃ d ∈ p, C.Has d X (C.py c - 1) ∧
      (C.after p).a X = cls C.comp (C.H d (C.py c - 1 - C.py d) (X - C.px d))) := by
  have hc : c ∈ cs := by rw [hcs]; simp
  have mem : ∀ d ∈ p, d ∈ cs := fun d hd => by rw [hcs]; simp [hd]
  have ht := h.inTile hc hh
  obtain ⟨s1, s2, v1, v2, v3, v4⟩ := (has_iff (h.blk hc) _ _).1 hh
  have ordX := h.laid.ordX
  rw [hcs] at ordX
  have wr : ∀ d ∈ p, C.WrA d X → C.Has d X (C.py d) ∧ d.y + bsH d.bs ≤ c.y ∧ d.y ≤ C.v (C.py d) ∧ C.v (C.py d) < d.y + bsH d.bs ∧ d.inX (C.u X) := by
    intro d hd hw
    have hH := (h.wrA (mem d hd)).1 hw
    obtain ⟨-, -, w1, w2, w3, w4⟩ := (has_iff (h.blk (mem d hd)) _ _).1 hH
    exact ⟨hH, pairwise_at ordX hd _ ht.2.1 ⟨w1, w2⟩ ⟨v1, v2⟩, w3, w4, w1, w2⟩
  constructor
  · intro he
    refine after_a_none fun d hd => ⟨h.blk (mem d hd), fun hw => ?_⟩
    obtain ⟨hH, o1, o2, o3, -⟩ := wr d hd hw
    have hx : C.py c ≤ C.py d := by
      rw [he]; exact (h.x0.2 _).1 (h.inTile (mem d hd) hH).2.2.1
    have : C.v (C.py c) ≤ C.v (C.py d) := Nat.le_of_not_lt fun hlt => by have := v_mono.1 hlt; omega
    omega
  · intro hne
    have hge : C.ty0 T ≤ C.py c := (h.x0.2 _).1 ht.2.2.1
    have hpos : 0 < C.py c := by omega
    refine ⟨hpos, ?_⟩
    have hb := (h.before c).2 hpos
    obtain ⟨d, hd, hHd⟩ := h.owner (X := X) (Y := C.py c - 1) s1 (by omega)
      ⟨ht.1, ht.2.1, (h.x0.2 _).2 (by omega), by have := (h.laid.start c hc).2.2.2; omega⟩
    obtain ⟨-, -, w1, w2, w3, w4⟩ := (has_iff (h.blk hd) _ _).1 hHd
    have hdp : d ∈ p := by
      rw [hcs] at hd
      rcases List.mem_append.1 hd with hd | hd
      · exact hd
      · rcases List.mem_cons.1 hd with rfl | hd
        · omega
        · have := pairwise_after ordX hd _ ht.2.1 ⟨v1, v2⟩ ⟨w1, w2⟩; omega
    refine ⟨d, hdp, hHd, ?_⟩
    have o1 := pairwise_at ordX hdp _ ht.2.1 ⟨w1, w2⟩ ⟨v1, v2⟩
    obtain ⟨p1, p2, hp⟩ := List.append_of_mem hdp
    have hfull : cs = p1 ++ d :: (p2 ++ c :: q) := by rw [hcs, hp]; simp
    have ordX' := h.laid.ordX
    rw [hfull] at ordX'
    obtain ⟨k0, k1, k2, k3, k4⟩ := hHd
    obtain ⟨z1, z2⟩ := cw_eq C d
    have hend : C.py d + C.ch d = C.py c := by
      have : ¬ C.py c < C.py d + C.comp.plane.h d := by
        intro hlt
        have := (covers_iff (h.blk hd) X (C.py c)).2 ⟨k0, k1, by omega, by omega, hlt⟩
        have := this.2.2.2
        omega
      omega
    rw [hp, after_a_last (h.blk hd) (⟨k0, k1, k2, by omega⟩ : C.WrA d X) (fun e he => by
      have hep : e ∈ p := by rw [hp]; simp [he]
      refine ⟨h.blk (mem e hep), fun hw => ?_⟩
      obtain ⟨hH, q1, q2, q3, q4⟩ := wr e hep hw
      have q5 := pairwise_after ordX' (d := e) (by simp [he]) _ ht.2.1 ⟨w1, w2⟩ q4
      have g1 : C.v (C.py c - 1) < C.v (C.py e) := by omega
      have g2 : C.v (C.py e) < C.v (C.py c) := by omega
      have g1 := v_mono.1 g1
      have g2 := v_mono.1 g2
      omega)]
    rw [show C.ch d - 1 = C.py c - 1 - C.py d by omega]

/-- The above contexts at the end of a tile, in a column with a unit in its last row. -/
theorem end_ctx (h : TileCfg C T cs) {d : Call} (hd : d ∈ cs) {X Y : Nat} (hh : C.Has d X Y) (hY : C.v Y + 1 = T.y1) (hlt : T.y1 ≠ C.f.bh) :
    (C.after cs).a X = cls C.comp (C.H d (Y - C.py d) (X - C.px d)) := by
  have ht := h.inTile hd hh
  obtain ⟨s1, s2, w1, w2, w3, w4⟩ := (has_iff (h.blk hd) _ _).1 hh
  obtain ⟨p1, p2, hp⟩ := List.append_of_mem hd
  have ordX := h.laid.ordX
  rw [hp] at ordX
  obtain ⟨k0, k1, k2, k3, k4⟩ := hh
  obtain ⟨z1, z2⟩ := cw_eq C d
  have hins := h.laid.insY d hd
  have hend : C.py d + C.ch d = Y + 1 := by
    have : ¬ Y + 1 < C.py d + C.comp.plane.h d := by
      intro hlt
      have := (covers_iff (h.blk hd) X (Y + 1)).2 ⟨k0, k1, by omega, by omega, hlt⟩
      have := this.2.2.2
      have : C.v Y < C.v (Y + 1) := v_mono.2 (by omega)
      omega
    omega
  rw [hp, after_a_last (h.blk hd) (⟨k0, k1, k2, by omega⟩ : C.WrA d X) (fun e he => by
    have hec : e ∈ cs := by rw [hp]; simp [he]
    refine ⟨h.blk hec, fun hw => ?_⟩
    have hH := (h.wrA hec).1 hw
    obtain ⟨-, -, x1, x2, x3, x4⟩ := (has_iff (h.blk hec) _ _).1 hH
    have := pairwise_after ordX he _ ht.2.1 ⟨w1, w2⟩ ⟨x1, x2⟩
    have := (h.laid.start e hec).2.2.2
    omega)]
  rw [show C.ch d - 1 = Y - C.py d by omega]

/-- The left contexts at the end of a superblock row, in a row with a unit in the last column of the tile. -/
theorem right_ctx (h : TileCfg C T cs) {d : Call} (hd : d ∈ cs) {X Y : Nat} (hh : C.Has d X Y) (hX : C.u X + 1 = T.x1) (hlt : T.x1 ≠ C.f.bw) :
    (C.after (cs.filter fun c => decide (c.y / sbStep C.sb128 ≤ C.v Y / sbStep C.sb128))).l (Y % C.NH) =
      cls C.comp (C.W d (Y - C.py d) (X - C.px d)) := by
  have ht := h.inTile hd hh
  obtain ⟨s1, s2, w1, w2, w3, w4⟩ := (has_iff (h.blk hd) _ _).1 hh
  have hrd := h.rowOf hd (v := C.v Y) ⟨w3, w4⟩
  have hdf : d ∈ cs.filter fun c => decide (c.y / sbStep C.sb128 ≤ C.v Y / sbStep C.sb128) :=
    List.mem_filter.2 ⟨hd, decide_eq_true (by omega)⟩
  have ordY := h.laid.ordY.filter (fun c => decide (c.y / sbStep C.sb128 ≤ C.v Y / sbStep C.sb128))
  have rows := h.laid.rows.filter (fun c => decide (c.y / sbStep C.sb128 ≤ C.v Y / sbStep C.sb128))
  have mem : ∀ e ∈ cs.filter fun c => decide (c.y / sbStep C.sb128 ≤ C.v Y / sbStep C.sb128), e ∈ cs ∧ e.y / sbStep C.sb128 ≤ C.v Y / sbStep C.sb128 := by
    intro e he
    obtain ⟨h1, h2⟩ := List.mem_filter.1 he
    exact ⟨h1, of_decide_eq_true h2⟩
  generalize cs.filter (fun c => decide (c.y / sbStep C.sb128 ≤ C.v Y / sbStep C.sb128)) = l at *
  obtain ⟨p1, p2, hp⟩ := List.append_of_mem hdf
  rw [hp] at ordY rows
  obtain ⟨k0, k1, k2, k3, k4⟩ := hh
  obtain ⟨z1, z2⟩ := cw_eq C d
  have hins := h.laid.insX d hd
  have hend : C.px d + C.cw d = X + 1 := by
    have : ¬ X + 1 < C.px d + C.comp.plane.w d := by
      intro hlt
      have := (covers_iff (h.blk hd) (X + 1) Y).2 ⟨k0, by omega, hlt, k3, by omega⟩
      have := this.2.1
      have : C.u X < C.u (X + 1) := u_mono.2 (by omega)
      omega
    omega
  have hWr : C.WrL d (Y % C.NH) := (h.wrL hd (by rw [hrd])).2 ⟨k0, Nat.le_refl _, by omega, k3, k4⟩
  rw [hp, (after_l_last (p := p1) (h.blk hd) hWr (q := p2) (fun e he => by
    have hel : e ∈ l := by rw [hp]; simp [he]
    obtain ⟨hec, her⟩ := mem e hel
    have r1 := pairwise_after rows (d := e) he
    refine ⟨h.blk hec, by omega, fun hw => ?_⟩
    have hH := (h.wrL hec (Y := Y) (by omega)).1 hw
    obtain ⟨-, -, x1, x2, x3, x4⟩ := (has_iff (h.blk hec) _ _).1 hH
    have := pairwise_after ordY he _ ht.2.2.2 ⟨w3, w4⟩ ⟨x3, x4⟩
    have := (h.laid.start e hec).2.1
    omega)).1]
  obtain ⟨-, c2, -⟩ := (h.blk hd).cell
  have := in_cell_row h.nh.1 c2 k3 k4
  rw [this.2, Nat.add_sub_cancel_left, show C.cw d - 1 = X - C.px d by omega]

end Dav1d.Part.Lpf
