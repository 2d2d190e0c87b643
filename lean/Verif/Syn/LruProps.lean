import Verif.Syn.LruPlane
/-!
# C83: restoration units are read and used as the specification says
-/
set_option linter.unusedVariables false
set_option linter.unusedSimpArgs false
namespace Dav1d.Syn.Lru
open Dav1d.Part (Tile)
variable {ok : Req → Nat → Prop} {f : Cfg} {T : Tile} {p : Nat}

/-! ## Reading -/

/-- **C83.** At a superblock the same symbols are read as in read_lr of the specification. The units that are read have the type and the numbers of the specification, as has the reference for
the next ones; nothing else is written. -/
theorem C83_read (hf : CfgOk f) (hT : TileIn f T) {bx by' : Nat} (hi : InTile f T bx by') {ibc : Bool} (hb : ibc = true → ∀ p, f.type p = 0) {s : St} {t : Av1.State} (h : Rel f T s t) :
    Same ok (Step f T (fun q r c => f.type q ≠ 0 ∧ Has f q bx by' r c) s t) (readLr f bx by' s) (Av1.read_lr (envOf f ibc) by' bx t) := by
  cases ibc with
  | true =>
    have h0 := hb rfl
    have e : ∀ q s, readPlane f bx by' q s = pure s := fun q s => if_pos (h0 q)
    unfold readLr
    simp only [e, pure_bind']
    have e2 : Av1.read_lr (envOf f true) by' bx t = pure t := if_pos rfl
    rw [e2]
    exact Same.ret (Step.none h fun q r c w => w.1 (h0 q))
  | false =>
    have e2 : Av1.read_lr (envOf f false) by' bx t = Av1.forRange 0 (envOf f false).NumPlanes (fun plane s => Av1.read_lr_plane (envOf f false) by' bx plane s) t := if_neg (by simp [envOf])
    rw [e2]
    unfold readLr Av1.forRange
    by_cases hl : f.layout = 0
    · rw [show (envOf f false).NumPlanes - 0 = 1 from by simp [envOf, hl]]
      have e : ∀ q s, q ≠ 0 → readPlane f bx by' q s = pure s := fun q s hq => if_pos (hf.mono hl q hq)
      have e1 : (fun s => readPlane f bx by' 1 s >>= fun s => readPlane f bx by' 2 s) = (pure : St → Prog St) := by
        funext s
        rw [e 1 s (by decide), pure_bind', e 2 s (by decide)]
      rw [e1]
      show Same ok _ _ (Av1.read_lr_plane (E f) by' bx 0 t >>= pure)
      rw [bind_pure', bind_pure']
      refine (plane_same hf hT hi h).mono fun s' t' h' => h'.congr fun q r c => ?_
      constructor
      · rintro ⟨rfl, w⟩; exact w
      · intro w
        have hq : q = 0 := Classical.not_not.1 fun hq => w.1 (hf.mono hl q hq)
        subst hq
        exact ⟨rfl, w⟩
    · rw [show (envOf f false).NumPlanes - 0 = 3 from by simp [envOf, hl]]
      show Same ok _ _ (Av1.read_lr_plane (E f) by' bx 0 t >>= fun t => Av1.read_lr_plane (E f) by' bx 1 t >>= fun t => Av1.read_lr_plane (E f) by' bx 2 t >>= pure)
      refine Same.bind (plane_same hf hT hi h) fun s0 t0 h0 => ?_
      refine Same.bind (plane_same hf hT hi h0.rel) fun s1 t1 h1 => ?_
      rw [bind_pure']
      refine (plane_same hf hT hi h1.rel).mono fun s2 t2 h2 => ?_
      have h01 := h0.trans h1 (W := fun q r c => (q = 0 ∧ f.type 0 ≠ 0 ∧ Has f 0 bx by' r c) ∨ (q = 1 ∧ f.type 1 ≠ 0 ∧ Has f 1 bx by' r c)) fun _ _ _ => Iff.rfl
      refine h01.trans h2 fun q r c => ?_
      constructor
      · intro w
        have hq : q < 3 := Nat.lt_of_not_le fun hq => w.1 ((hf.type q).2 hq)
        have : q = 0 ∨ q = 1 ∨ q = 2 := by omega
        rcases this with rfl | rfl | rfl
        · exact .inl (.inl ⟨rfl, w⟩)
        · exact .inl (.inr ⟨rfl, w⟩)
        · exact .inr ⟨rfl, w⟩
      · rintro ((⟨rfl, w⟩ | ⟨rfl, w⟩) | ⟨rfl, w⟩) <;> exact w

/-! ## The start of tiles -/

theorem start_mono {a b : Nat} (h : a ≤ b) : Av1.unitColStart (E f) p a ≤ Av1.unitColStart (E f) p b := by
  unfold Av1.unitColStart
  refine Nat.div_le_div_right ?_
  have := Nat.mul_le_mul_right (Av1.numerator (E f) p) h
  omega

theorem end_le (a : Nat) : Av1.unitColEnd (E f) p a ≤ Av1.unitColStart (E f) p (a + f.step) := by
  unfold Av1.unitColEnd
  exact Nat.min_le_left _ _

theorem end_cols (a : Nat) : Av1.unitColEnd (E f) p a ≤ Av1.unitCols (E f) p := by
  unfold Av1.unitColEnd
  exact Nat.min_le_right _ _

theorem HasCol.lt (h : HasCol f T p) : Av1.unitColStart (E f) p T.x0 < Av1.unitCols (E f) p := by
  obtain ⟨bx, h1, h2⟩ := h
  have := start_mono (f := f) (p := p) h1.2.1
  have := end_cols (f := f) (p := p) bx
  omega

theorem init_eq (hf : CfgOk f) (hp : f.type p ≠ 0) (hc : HasCol f T p) (s : St) :
    initPlane f T.y0 T.x0 p s = (s.write p (start f T p) (defaults (s.mem p (start f T p)))).setRef p (start f T p) := by
  unfold initPlane start locPx
  rw [if_neg hp, show T.y0 * 4 / 128 = T.y0 / 32 from by omega, show T.y0 * 4 % 128 / 64 = T.y0 % 32 / 16 from by omega]
  by_cases hr : f.resized
  · rw [if_pos hr, if_pos hr]
    have e0 : (4 * T.x0 * f.d / 2 ^ f.ssH p + (2 ^ f.us p * 8 - 1)) / 2 ^ (f.us p + 3) = Av1.unitColStart (E f) p T.x0 := colRange_resized (ibc := false) hf hp hr T.x0
    dsimp only
    rw [e0, if_neg (by have := col_in hf hp hc.lt; omega)]
  · rw [if_neg hr, if_neg hr]
    have hW : f.sb128w = f.srSb128w := by
      have hr' : f.w = f.srw := Classical.not_not.1 hr
      unfold Cfg.sb128w Cfg.srSb128w Cfg.bw
      omega
    dsimp only
    rw [hW, show T.x0 * 4 / 128 = T.x0 / 32 from by omega, show T.x0 * 4 % 128 / 64 = T.x0 % 32 / 16 from by omega]

theorem init_other (y x : Nat) (s : St) {q : Nat} (hq : q ≠ p) : (initPlane f y x p s).mem q = s.mem q ∧ (initPlane f y x p s).ref q = s.ref q := by
  have key : ∀ a u, ((s.write p a u).setRef p a).mem q = s.mem q ∧ ((s.write p a u).setRef p a).ref q = s.ref q := fun a u => by
    refine ⟨funext fun b => ?_, ?_⟩
    · show (if q = p ∧ b = a then u else s.mem q b) = _
      rw [if_neg fun h => hq h.1]
    · show (if q = p then a else s.ref q) = _
      rw [if_neg hq]
  unfold initPlane
  dsimp only
  split
  · exact ⟨rfl, rfl⟩
  · split
    · split
      · exact ⟨rfl, rfl⟩
      · exact key _ _
    · exact key _ _

theorem init_self (hf : CfgOk f) (hp : f.type p ≠ 0) (hc : HasCol f T p) (s : St) :
    (initPlane f T.y0 T.x0 p s).ref p = start f T p ∧ (initPlane f T.y0 T.x0 p s).mem p (start f T p) = defaults (s.mem p (start f T p)) := by
  rw [init_eq hf hp hc]
  exact ⟨if_pos rfl, if_pos ⟨rfl, rfl⟩⟩

theorem defaults_ok (u : RUnit) {t : Av1.State} (h1 : ∀ pass, t.RefLrWiener p pass = (3, -7, 15)) (h2 : t.RefSgrXqd p = (-32, 31)) : RefOk p (defaults u) t := by
  constructor
  · intro _; rw [h1, h1]; unfold defaults; dsimp only; decide
  · rw [h1, h1]; unfold defaults; dsimp only; decide
  · rw [h1, h1]; unfold defaults; dsimp only; decide
  · rw [h2]; unfold defaults; dsimp only; decide

/-- **C83.** At the start of a tile, before units were read, the state is that of the specification. -/
theorem C83_init (hf : CfgOk f) (s : St) {t : Av1.State} (ht : ∀ p r c, t.units p r c = none) : Rel f T (tileInit f T.y0 T.x0 s) (Av1.clear t) := by
  have key : ∀ p, f.type p ≠ 0 → HasCol f T p → (tileInit f T.y0 T.x0 s).ref p = start f T p ∧ ∃ u, (tileInit f T.y0 T.x0 s).mem p (start f T p) = defaults u := by
    intro p hp hc
    have hq : p < 3 := Nat.lt_of_not_le fun hq => hp ((hf.type p).2 hq)
    have : p = 0 ∨ p = 1 ∨ p = 2 := by omega
    unfold tileInit
    rcases this with rfl | rfl | rfl
    · rw [(init_other _ _ _ (show 0 ≠ 2 by decide)).1, (init_other _ _ _ (show 0 ≠ 2 by decide)).2, (init_other _ _ _ (show 0 ≠ 1 by decide)).1, (init_other _ _ _ (show 0 ≠ 1 by decide)).2]
      exact ⟨(init_self hf hp hc _).1, _, (init_self hf hp hc _).2⟩
    · rw [(init_other _ _ _ (show 1 ≠ 2 by decide)).1, (init_other _ _ _ (show 1 ≠ 2 by decide)).2]
      exact ⟨(init_self hf hp hc _).1, _, (init_self hf hp hc _).2⟩
    · exact ⟨(init_self hf hp hc _).1, _, (init_self hf hp hc _).2⟩
  refine ⟨fun p hp hc => ?_, fun p hp hc => .inl (key p hp hc).1, fun p r c u _ _ hu => ?_⟩
  · obtain ⟨h1, u, h2⟩ := key p hp hc
    rw [h1, h2]
    exact defaults_ok u (fun _ => rfl) rfl
  · rw [show (Av1.clear t).units p r c = none from ht p r c] at hu
    cases hu

theorem init_mem (y x p : Nat) (s : St) (q : Nat) (a : Ptr) : (initPlane f y x p s).mem q a = s.mem q a ∨ (initPlane f y x p s).mem q a = defaults (s.mem q a) := by
  have key : ∀ b, ((s.write p b (defaults (s.mem p b))).setRef p b).mem q a = s.mem q a ∨ ((s.write p b (defaults (s.mem p b))).setRef p b).mem q a = defaults (s.mem q a) := fun b => by
    by_cases h : q = p ∧ a = b
    · obtain ⟨rfl, rfl⟩ := h
      exact .inr (if_pos ⟨rfl, rfl⟩)
    · exact .inl (if_neg h)
  unfold initPlane
  dsimp only
  split
  · exact .inl rfl
  · split
    · split
      · exact .inl rfl
      · exact key _
    · exact key _

theorem tile_mem (y x : Nat) (s : St) (q : Nat) (a : Ptr) : (tileInit f y x s).mem q a = s.mem q a ∨ ∃ u, (tileInit f y x s).mem q a = defaults u := by
  unfold tileInit
  rcases init_mem (f := f) y x 2 (initPlane f y x 1 (initPlane f y x 0 s)) q a with h | h
  · rw [h]
    rcases init_mem (f := f) y x 1 (initPlane f y x 0 s) q a with h | h
    · rw [h]
      rcases init_mem (f := f) y x 0 s q a with h | h
      · exact .inl h
      · exact .inr ⟨_, h⟩
    · exact .inr ⟨_, h⟩
  · exact .inr ⟨_, h⟩

/-- **C83.** The start of another tile does no harm, before units are read. -/
theorem C83_start (hf : CfgOk f) {s : St} {t : Av1.State} (ht : ∀ p r c, t.units p r c = none) (h : Rel f T s (Av1.clear t)) (B : Tile) :
    Rel f T { tileInit f B.y0 B.x0 s with ref := s.ref } (Av1.clear t) := by
  refine ⟨fun p hp hc => ?_, h.place, fun p r c u _ _ hu => ?_⟩
  · show RefOk p ((tileInit f B.y0 B.x0 s).mem p (s.ref p)) _
    rcases tile_mem (f := f) B.y0 B.x0 s p (s.ref p) with e | ⟨u, e⟩
    · rw [e]; exact h.ref p hp hc
    · rw [e]; exact defaults_ok u (fun _ => rfl) rfl
  · rw [show (Av1.clear t).units p r c = none from ht p r c] at hu
    cases hu

/-! ## Tiles are apart -/

theorem step_pos : 0 < f.step := by unfold Cfg.step; split <;> decide

theorem next_sb {a b : Nat} (ha : a % f.step = 0) (hb : b % f.step = 0) (h : a < b) : a + f.step ≤ b := by
  obtain ⟨i, rfl⟩ := Nat.dvd_of_mod_eq_zero ha
  obtain ⟨j, rfl⟩ := Nat.dvd_of_mod_eq_zero hb
  have hij : i < j := Nat.lt_of_mul_lt_mul_left h
  calc f.step * i + f.step = f.step * (i + 1) := (Nat.mul_succ _ _).symm
    _ ≤ f.step * j := Nat.mul_le_mul_left _ hij

theorem rowStart_mono {a b : Nat} (h : a ≤ b) : Av1.unitRowStart (E f) p a ≤ Av1.unitRowStart (E f) p b := by
  unfold Av1.unitRowStart
  refine Nat.div_le_div_right ?_
  have := Nat.mul_le_mul_right (4 / 2 ^ (E f).subY p) h
  omega

theorem rowEnd_le' (a : Nat) : Av1.unitRowEnd (E f) p a ≤ Av1.unitRowStart (E f) p (a + f.step) := by
  unfold Av1.unitRowEnd
  exact Nat.min_le_left _ _

/-- **C83.** A unit is read at one superblock only. -/
theorem C83_once {bx by' bx' by'' row col : Nat} (h1 : bx % f.step = 0 ∧ by' % f.step = 0) (h2 : bx' % f.step = 0 ∧ by'' % f.step = 0) (h : Has f p bx by' row col) (h' : Has f p bx' by'' row col) :
    bx = bx' ∧ by' = by'' := by
  obtain ⟨a1, a2, a3, a4⟩ := h
  obtain ⟨b1, b2, b3, b4⟩ := h'
  constructor
  · rcases Nat.lt_trichotomy bx bx' with h | h | h
    · have := start_mono (f := f) (p := p) (next_sb h1.1 h2.1 h)
      have := end_le (f := f) (p := p) bx
      omega
    · exact h
    · have := start_mono (f := f) (p := p) (next_sb h2.1 h1.1 h)
      have := end_le (f := f) (p := p) bx'
      omega
  · rcases Nat.lt_trichotomy by' by'' with h | h | h
    · have := rowStart_mono (f := f) (p := p) (next_sb h1.2 h2.2 h)
      have := rowEnd_le' (f := f) (p := p) by'
      omega
    · exact h
    · have := rowStart_mono (f := f) (p := p) (next_sb h2.2 h1.2 h)
      have := rowEnd_le' (f := f) (p := p) by''
      omega

/-- Tiles without common superblocks. -/
def Apart (A B : Tile) : Prop := A.x1 ≤ B.x0 ∨ B.x1 ≤ A.x0 ∨ A.y1 ≤ B.y0 ∨ B.y1 ≤ A.y0

theorem own_apart {A B : Tile} (h : Apart A B) {row col : Nat} (ha : Own f A p row col) (hb : Own f B p row col) : False := by
  obtain ⟨bx, by', i1, h1⟩ := ha
  obtain ⟨bx', by'', i2, h2⟩ := hb
  obtain ⟨rfl, rfl⟩ := C83_once ⟨i1.x.1, i1.y.1⟩ ⟨i2.x.1, i2.y.1⟩ h1 h2
  have := i1.x.2
  have := i1.y.2
  have := i2.x.2
  have := i2.y.2
  unfold Apart at h
  omega

theorem start_apart (hf : CfgOk f) (hp : f.type p ≠ 0) {A B : Tile} (hA : TileIn f A) (hB : TileIn f B) (h : Apart A B) (hc : HasCol f A p) {row col : Nat} (hb : Own f B p row col) :
    start f A p ≠ loc f p row col := by
  intro e
  obtain ⟨bx, by', i, hh⟩ := hb
  have S := sizes hf hp
  have hrow := (hh.row hf hp i.y.1).2
  unfold start loc at e
  rw [hrow] at e
  have hy0 : A.y0 * 4 % 64 = 0 := by
    have := hA.y0.1
    rcases S.st with h | h <;> rw [h] at this <;> omega
  have hby : by' * 4 % 64 = 0 := by
    have := i.y.1
    rcases S.st with h | h <;> rw [h] at this <;> omega
  have hx0 : A.x0 * 4 % 64 = 0 := by
    have := hA.x0.1
    rcases S.st with h | h <;> rw [h] at this <;> omega
  have hlt := hc.lt
  obtain ⟨ax, ⟨c0, c1, c2⟩, c3⟩ := hc
  have m1 := start_mono (f := f) (p := p) c1
  by_cases hr : f.resized
  · rw [if_pos hr] at e
    obtain ⟨e1, e2⟩ := locPx_inj e hy0 (mul64 hf hp _).2 hby (mul64 hf hp _).2 (col_in hf hp hlt) (col_in hf hp hh.col)
    have e3 := Nat.eq_of_mul_eq_mul_right (Nat.two_pow_pos _) e2
    have g1 := hh.2.2.1
    have g2 := hh.2.2.2
    have hA1 := hA.y0.2
    have iy := i.y.2
    have ix := i.x.2
    rcases h with h | h | h | h
    · have n1 := start_mono (f := f) (p := p) (next_sb c0 i.x.1 (by omega))
      have n2 := end_le (f := f) (p := p) ax
      omega
    · have n1 := start_mono (f := f) (p := p) (next_sb i.x.1 hA.x0.1 (by omega))
      have n2 := end_le (f := f) (p := p) bx
      omega
    · omega
    · omega
  · rw [if_neg hr] at e
    have hw : A.x0 * 4 / 128 < f.srSb128w := by
      have hr' : f.w = f.srw := Classical.not_not.1 hr
      have hx1 := hA.x1
      have := hA.x0
      have hbw : f.bw = (f.w + 7) / 8 * 2 := rfl
      have hW : f.srSb128w = (f.srw + 127) / 128 := rfl
      rcases S.st with h | h <;> rw [h] at this <;> omega
    obtain ⟨e1, e2⟩ := locPx_inj e hy0 hx0 hby (mul64 hf hp _).2 hw (col_in hf hp hh.col)
    obtain ⟨k1, k2⟩ := colRange (ibc := false) hf hp hr i.x.1 (by have := i.x.2.2; have := hB.x1; omega)
    by_cases hd : 4 * bx / 2 ^ f.ssH p % 2 ^ f.us p = 0 ∧ ¬ (4 * bx / 2 ^ f.ssH p ≠ 0 ∧ (f.w + f.ssH p) / 2 ^ f.ssH p < 4 * bx / 2 ^ f.ssH p + 2 ^ f.us p / 2)
    · obtain ⟨j1, j2⟩ := k1 hd
      have j2' : Av1.unitColEnd (E f) p bx = Av1.unitColStart (E f) p bx + 1 := j2
      have hcol : col = Av1.unitColStart (E f) p bx := by
        have := hh.2.2.1
        have := hh.2.2.2
        omega
      rw [hcol] at e2
      have j1' : Av1.unitColStart (E f) p bx * 2 ^ (f.us p + f.ssH p) = bx * 4 := j1
      have := i.x.2
      have := i.y.2
      have := hA.x0.2
      have := hA.y0.2
      unfold Apart at h
      omega
    · have j2' : Av1.unitColEnd (E f) p bx ≤ Av1.unitColStart (E f) p bx := k2 hd
      have := hh.2.2.1
      have := hh.2.2.2
      omega

/-- **C83.** Other tiles, which may be decoded at the same time, do not change what a tile relies on: they write their own units only. -/
theorem C83_other (hf : CfgOk f) {A B : Tile} (hA : TileIn f A) (hB : TileIn f B) (hd : Apart A B) {s s' : St} {t : Av1.State} (h : Rel f A s t) (hr : s'.ref = s.ref)
    (hm : ∀ q a, (∀ row col, f.type q ≠ 0 → Own f B q row col → a ≠ loc f q row col) → s'.mem q a = s.mem q a) : Rel f A s' t := by
  refine ⟨fun p hp hc => ?_, fun p hp hc => by rw [hr]; exact h.place p hp hc, fun p row col u hp ho hu => ?_⟩
  · rw [hr, hm p _ fun row col _ hb => ?_]
    · exact h.ref p hp hc
    · rcases h.place p hp hc with e | ⟨r, c, ho, e⟩
      · rw [e]; exact start_apart hf hp hA hB hd hc hb
      · rw [e]
        intro e'
        obtain ⟨rfl, rfl⟩ := loc_inj hf hp ho.col hb.col e'
        exact own_apart hd ho hb
  · rw [hm p _ fun r c _ hb e' => ?_]
    · exact h.units p row col u hp ho hu
    · obtain ⟨rfl, rfl⟩ := loc_inj hf hp ho.col hb.col e'
      exact own_apart hd ho hb

/-! ## Every unit is read -/

theorem coverDim {U s st r n b : Nat} (hU : U = 32 ∨ U = 64 ∨ U = 128 ∨ U = 256) (hs : s = 0 ∨ s = 1) (hst : st = 16 ∨ st = 32) (hv : st * 4 ≤ U * 2 ^ s) (h0 : 0 < n)
    (hr : r < max (((n + s) / 2 ^ s + U / 2) / U) 1) (hb : b = (n + 7) / 8 * 2) :
    ((r * (U * 2 ^ s) / 4) % st = 0 ∧ r * (U * 2 ^ s) / 4 < b ∧ r * (U * 2 ^ s) / 4 * 4 = r * (U * 2 ^ s)) ∧
    (4 * (r * (U * 2 ^ s) / 4) / 2 ^ s % U = 0 ∧ ¬ (4 * (r * (U * 2 ^ s) / 4) / 2 ^ s ≠ 0 ∧ (n + s) / 2 ^ s < 4 * (r * (U * 2 ^ s) / 4) / 2 ^ s + U / 2)) := by
  subst hb
  rcases hs with rfl | rfl <;> rcases hst with rfl | rfl <;> rcases hU with rfl | rfl | rfl | rfl <;> omega

theorem coverRow (hf : CfgOk f) (hp : f.type p ≠ 0) {row : Nat} (h : row < Av1.unitRows (E f) p) :
    ∃ by', (by' % f.step = 0 ∧ by' < f.bh) ∧ Av1.unitRowStart (E f) p by' ≤ row ∧ row < Av1.unitRowEnd (E f) p by' := by
  have S := sizes hf hp
  rw [rows_eq hf hp] at h
  obtain ⟨⟨h1, h2, h3⟩, h4⟩ := coverDim S.u S.sv S.st S.v hf.h h (b := f.bh) rfl
  have k := (rowRange (ibc := false) hf hp h1).1 (by rw [Nat.mul_comm _ 4]; exact h4)
  obtain ⟨k1, k2⟩ := k
  rw [pow_us, h3] at k1
  have e := Nat.eq_of_mul_eq_mul_right (Nat.mul_pos (Nat.two_pow_pos _) (Nat.two_pow_pos _)) k1
  have e' : Av1.unitRowStart (E f) p (row * (2 ^ f.us p * 2 ^ f.ssV p) / 4) = row := e
  refine ⟨_, ⟨h1, h2⟩, by omega, ?_⟩
  have k2' : Av1.unitRowEnd (E f) p (row * (2 ^ f.us p * 2 ^ f.ssV p) / 4) = Av1.unitRowStart (E f) p (row * (2 ^ f.us p * 2 ^ f.ssV p) / 4) + 1 := k2
  omega

theorem coverArith {U s bx d w srw col : Nat} (hU : U = 32 ∨ U = 64 ∨ U = 128 ∨ U = 256) (hs : s = 0 ∨ s = 1) (hd : 9 ≤ d ∧ d ≤ 16) (hw : (8 * srw + d / 2) / d ≤ w)
    (hc : col < max (((srw + s) / 2 ^ s + U / 2) / U) 1) (h0 : col ≠ 0) (h : bx * (4 / 2 ^ s * d) ≤ col * (U * 8)) : bx < (w + 7) / 8 * 2 := by
  have : d = 9 ∨ d = 10 ∨ d = 11 ∨ d = 12 ∨ d = 13 ∨ d = 14 ∨ d = 15 ∨ d = 16 := by omega
  have hc' : col * (U * 8) + U * 4 ≤ (srw + s) / 2 ^ s * 8 := by
    rcases hU with rfl | rfl | rfl | rfl <;> omega
  have hU' : 32 ≤ U := by omega
  generalize hz : col * (U * 8) = z at h hc'
  clear hz hc hU
  rcases hs with rfl | rfl <;> rcases this with rfl | rfl | rfl | rfl | rfl | rfl | rfl | rfl <;> omega

theorem coverCol (hf : CfgOk f) (hp : f.type p ≠ 0) {col : Nat} (h : col < Av1.unitCols (E f) p) :
    ∃ bx, (bx % f.step = 0 ∧ bx < f.bw) ∧ Av1.unitColStart (E f) p bx ≤ col ∧ col < Av1.unitColEnd (E f) p bx := by
  have S := sizes hf hp
  have hcols := h
  rw [cols_eq hf hp] at h
  by_cases hr : f.resized
  · have hd : f.d ≠ 8 ∧ (9 ≤ f.d ∧ f.d ≤ 16) ∧ (8 * f.srw + f.d / 2) / f.d ≤ f.w := by
      rcases hf.width with h | ⟨h1, h2, h3⟩
      · exact absurd h.2 hr
      · exact ⟨by omega, ⟨h1, h2⟩, by omega⟩
    have hnum : Av1.numerator (E f) p = 4 / 2 ^ f.ssH p * f.d := by
      unfold Av1.numerator
      rw [(subs hf hp).1, show (E f).use_superres = true from decide_eq_true hd.1, if_pos rfl]
      rfl
    have hden : Av1.denominator (E f) p = 2 ^ f.us p * 8 := by
      unfold Av1.denominator
      rw [show (E f).use_superres = true from decide_eq_true hd.1, if_pos rfl]
      rfl
    have hn : 0 < 4 / 2 ^ f.ssH p * f.d := Nat.mul_pos (by rcases S.sh with h | h <;> rw [h] <;> decide) (by omega)
    have hq : 0 < 2 ^ f.us p * 8 := Nat.mul_pos (Nat.two_pow_pos _) (by decide)
    let k := col * (2 ^ f.us p * 8) / (f.step * (4 / 2 ^ f.ssH p * f.d))
    have hk1 : k * f.step * (4 / 2 ^ f.ssH p * f.d) ≤ col * (2 ^ f.us p * 8) := by rw [Nat.mul_assoc]; exact Nat.div_mul_le_self _ _
    have hk2 : col * (2 ^ f.us p * 8) < (k * f.step + f.step) * (4 / 2 ^ f.ssH p * f.d) := by
      have := Nat.lt_mul_div_succ (col * (2 ^ f.us p * 8)) (Nat.mul_pos (step_pos (f := f)) hn)
      calc _ < _ := this
        _ = _ := by rw [Nat.mul_comm, ← Nat.mul_assoc, Nat.succ_mul]
    refine ⟨k * f.step, ⟨Nat.mul_mod_left _ _, ?_⟩, ?_, ?_⟩
    · by_cases h0 : col = 0
      · have : k = 0 := by show col * _ / _ = 0; rw [h0, Nat.zero_mul, Nat.zero_div]
        rw [this, Nat.zero_mul]
        have := hf.w
        unfold Cfg.bw
        omega
      · exact coverArith S.u S.sh hd.2.1 hd.2.2 h h0 hk1
    · unfold Av1.unitColStart
      rw [hnum, hden]
      have : k * f.step * (4 / 2 ^ f.ssH p * f.d) + 2 ^ f.us p * 8 - 1 < (col + 1) * (2 ^ f.us p * 8) := by rw [Nat.succ_mul]; omega
      exact Nat.le_of_lt_succ ((Nat.div_lt_iff_lt_mul hq).2 this)
    · unfold Av1.unitColEnd
      rw [show (E f).sbSize4 = f.step from rfl, hnum, hden]
      refine Nat.lt_min.2 ⟨?_, hcols⟩
      refine (Nat.le_div_iff_mul_le hq).2 ?_
      show (col + 1) * _ ≤ _
      rw [Nat.succ_mul]
      omega
  · have hr' : f.w = f.srw := Classical.not_not.1 hr
    rw [← hr'] at h
    obtain ⟨⟨h1, h2, h3⟩, h4⟩ := coverDim S.u S.sh S.st S.h hf.w h (b := f.bw) rfl
    obtain ⟨k1, k2⟩ := (colRange (ibc := false) hf hp hr h1 h2).1 h4
    rw [pow_us, h3] at k1
    have e := Nat.eq_of_mul_eq_mul_right (Nat.mul_pos (Nat.two_pow_pos _) (Nat.two_pow_pos _)) k1
    have e' : Av1.unitColStart (E f) p (col * (2 ^ f.us p * 2 ^ f.ssH p) / 4) = col := e
    have k2' : Av1.unitColEnd (E f) p (col * (2 ^ f.us p * 2 ^ f.ssH p) / 4) = Av1.unitColStart (E f) p (col * (2 ^ f.us p * 2 ^ f.ssH p) / 4) + 1 := k2
    exact ⟨_, ⟨h1, h2⟩, by omega, by omega⟩

/-- **C83.** Every unit of the frame is read at a superblock of the frame. (By `C83_once` there is one only.) -/
theorem C83_cover (hf : CfgOk f) (hp : f.type p ≠ 0) {row col : Nat} (hr : row < Av1.unitRows (E f) p) (hc : col < Av1.unitCols (E f) p) :
    ∃ bx by', InFrame f bx by' ∧ Has f p bx by' row col := by
  obtain ⟨by', h1, h2, h3⟩ := coverRow hf hp hr
  obtain ⟨bx, h4, h5, h6⟩ := coverCol hf hp hc
  exact ⟨bx, by', ⟨h4, h1⟩, h2, h3, h5, h6⟩

/-- **C83.** The places of units are in the memory, which has `sr_sb128w * sb128h` entries with 4 units per plane, src/decode.c:3017-3032. -/
theorem C83_bounds (hf : CfgOk f) (hp : f.type p ≠ 0) {row col : Nat} (hr : row < Av1.unitRows (E f) p) (hc : col < Av1.unitCols (E f) p) :
    (loc f p row col).1 < f.srSb128w * f.sb128h ∧ (loc f p row col).2 < 4 := by
  have hx := col_in hf hp hc
  have hy : row * 2 ^ (f.us p + f.ssV p) / 128 < f.sb128h := by
    have S := sizes hf hp
    have hh := hf.h
    rw [rows_eq hf hp] at hr
    rw [pow_us]
    unfold Cfg.sb128h Cfg.bh
    rcases S.sv with h1 | h1 <;> rcases S.u with h2 | h2 | h2 | h2 <;> rw [h1, h2] at hr ⊢ <;> omega
  unfold loc locPx
  constructor
  · calc _ < row * 2 ^ (f.us p + f.ssV p) / 128 * f.srSb128w + f.srSb128w := Nat.add_lt_add_left hx _
      _ = (row * 2 ^ (f.us p + f.ssV p) / 128 + 1) * f.srSb128w := (Nat.succ_mul _ _).symm
      _ ≤ f.sb128h * f.srSb128w := Nat.mul_le_mul_right _ hy
      _ = _ := Nat.mul_comm _ _
  · dsimp only
    omega

/-- **C83.** So are those with the defaults at the start of a tile. -/
theorem C83_bounds_start (hf : CfgOk f) (hp : f.type p ≠ 0) (hT : TileIn f T) (hc : HasCol f T p) : (start f T p).1 < f.srSb128w * f.sb128h ∧ (start f T p).2 < 4 := by
  have hy : T.y0 * 4 / 128 < f.sb128h := by
    have := hT.y0.2
    have := hT.y1
    unfold Cfg.sb128h
    omega
  have hx : (if f.resized then Av1.unitColStart (E f) p T.x0 * 2 ^ (f.us p + f.ssH p) else T.x0 * 4) / 128 < f.srSb128w := by
    split
    · exact col_in hf hp hc.lt
    · rename_i hr
      have hr' : f.w = f.srw := Classical.not_not.1 hr
      have hx1 := hT.x1
      have hm := hT.x0
      have hbw : f.bw = (f.w + 7) / 8 * 2 := rfl
      have hW : f.srSb128w = (f.srw + 127) / 128 := rfl
      have S := sizes hf hp
      rcases S.st with h | h <;> rw [h] at hm <;> omega
  unfold start locPx
  constructor
  · calc _ < T.y0 * 4 / 128 * f.srSb128w + f.srSb128w := Nat.add_lt_add_left hx _
      _ = (T.y0 * 4 / 128 + 1) * f.srSb128w := (Nat.succ_mul _ _).symm
      _ ≤ f.sb128h * f.srSb128w := Nat.mul_le_mul_right _ hy
      _ = _ := Nat.mul_comm _ _
  · dsimp only
    omega

/-! ## Use -/

theorem rowUnits_ge {us shift w a b : Nat} : ∀ n x, ∀ e ∈ rowUnits us shift w a b n x, x ≤ e.1
  | 0, x, e, h => by cases h
  | n + 1, x, e, h => by
    unfold rowUnits at h
    dsimp only at h
    split at h
    · rcases List.mem_cons.1 h with rfl | h
      · exact Nat.le_refl _
      · exact Nat.le_trans (Nat.le_add_right _ _) (rowUnits_ge n _ e h)
    · rcases List.mem_singleton.1 h with rfl
      exact Nat.le_refl _

theorem rowUnits_at {us shift w a b X : Nat} (hu : 2 ^ us / 2 * 2 = 2 ^ us) (hX : X < w) : ∀ n k, k * 2 ^ us ≤ X → w < k * 2 ^ us + n → (k = 0 ∨ k * 2 ^ us + 2 ^ us / 2 ≤ w) →
    ∃ e ∈ rowUnits us shift w a b n (k * 2 ^ us), (e.1 ≤ X ∧ X < e.1 + e.2.1) ∧
      e.2.2 = (a + min (max ((w + 2 ^ us / 2) / 2 ^ us) 1 - 1) (X / 2 ^ us) * 2 ^ us / 2 ^ shift, b + min (max ((w + 2 ^ us / 2) / 2 ^ us) 1 - 1) (X / 2 ^ us) * 2 ^ us / 2 ^ (shift - 1) % 2) ∧
      ∀ e' ∈ rowUnits us shift w a b n (k * 2 ^ us), e'.1 ≤ X ∧ X < e'.1 + e'.2.1 → e' = e
  | 0, k, h1, h2, h3 => by omega
  | n + 1, k, h1, h2, h3 => by
    have hU : 0 < 2 ^ us := Nat.two_pow_pos _
    have hk : k ≤ X / 2 ^ us := (Nat.le_div_iff_mul_le hU).2 h1
    have esucc : (k + 1) * 2 ^ us = k * 2 ^ us + 2 ^ us := Nat.succ_mul _ _
    unfold rowUnits
    dsimp only
    by_cases hc : k * 2 ^ us + (2 ^ us + 2 ^ us / 2) ≤ w
    · rw [if_pos hc]
      have hN : k + 1 ≤ max ((w + 2 ^ us / 2) / 2 ^ us) 1 - 1 := by
        have : k + 2 ≤ (w + 2 ^ us / 2) / 2 ^ us := by
          refine (Nat.le_div_iff_mul_le hU).2 ?_
          have e2 : (k + 2) * 2 ^ us = k * 2 ^ us + 2 * 2 ^ us := Nat.add_mul _ _ _
          omega
        omega
      by_cases hx : X < k * 2 ^ us + 2 ^ us
      · have hq : X / 2 ^ us = k := by
          have : X / 2 ^ us < k + 1 := (Nat.div_lt_iff_lt_mul hU).2 (by omega)
          omega
        refine ⟨_, List.mem_cons_self, ⟨h1, hx⟩, ?_, fun e' he' hc' => ?_⟩
        · rw [hq, Nat.min_eq_right (by omega)]
        · rcases List.mem_cons.1 he' with rfl | he'
          · rfl
          · have := rowUnits_ge _ _ _ he'
            omega
      · obtain ⟨e, g1, g2, g3, g4⟩ := rowUnits_at (us := us) (shift := shift) (a := a) (b := b) hu hX n (k + 1) (by omega) (by omega) (.inr (by omega))
        rw [esucc] at g1 g4
        refine ⟨e, List.mem_cons_of_mem _ g1, g2, g3, fun e' he' hc' => ?_⟩
        rcases List.mem_cons.1 he' with rfl | he'
        · exact absurd hc'.2 hx
        · exact g4 e' he' hc'
    · rw [if_neg hc]
      have hN : max ((w + 2 ^ us / 2) / 2 ^ us) 1 - 1 = k := by
        have h4 : (w + 2 ^ us / 2) / 2 ^ us < k + 2 := by
          refine (Nat.div_lt_iff_lt_mul hU).2 ?_
          have e2 : (k + 2) * 2 ^ us = k * 2 ^ us + 2 * 2 ^ us := Nat.add_mul _ _ _
          omega
        rcases h3 with rfl | h3
        · omega
        · have h5 : k + 1 ≤ (w + 2 ^ us / 2) / 2 ^ us := (Nat.le_div_iff_mul_le hU).2 (by omega)
          omega
      refine ⟨_, List.mem_singleton.2 rfl, ⟨h1, by dsimp only; omega⟩, ?_, fun e' he' _ => List.mem_singleton.1 he'⟩
      rw [hN, Nat.min_eq_left hk]


theorem adjust {U h q z : Nat} (hU : U = 32 ∨ U = 64 ∨ U = 128 ∨ U = 256) (h1 : z = q ∨ q ≤ z ∧ h ≤ (q + 1) * U) (h2 : q * U < h + 8) (h3 : 0 < h) :
    (if q * U ≠ 0 ∧ h < q * U + U / 2 then q * U - U else q * U) = min (max ((h + U / 2) / U) 1 - 1) z * U := by
  rcases hU with rfl | rfl | rfl | rfl <;> split <;> omega

theorem quot {U V L st h Y sbh sby : Nat} (hU : U = 32 ∨ U = 64 ∨ U = 128 ∨ U = 256) (hv : st * 4 ≤ U * 2 ^ V)
    (hc : (V = 0 ∧ st = 16 ∧ L = 64) ∨ (V = 0 ∧ st = 32 ∧ L = 128) ∨ (V = 1 ∧ st = 16 ∧ L = 32) ∨ (V = 1 ∧ st = 32 ∧ L = 64))
    (hs : sbh = ((h + 7) / 8 * 2 + st - 1) / st) (hY : Y < (h + V) / 2 ^ V) (hb : sby = (Y + 8 / 2 ^ V) / L ∨ sby < (Y + 8 / 2 ^ V) / L ∧ sby = sbh - 1) :
    ((Y * 2 ^ V / 4 * 4 + 8) / 2 ^ V / U = sby * L / U ∨ sby * L / U ≤ (Y * 2 ^ V / 4 * 4 + 8) / 2 ^ V / U ∧ (h + V) / 2 ^ V ≤ (sby * L / U + 1) * U) ∧ sby * L / U * U < (h + V) / 2 ^ V + 8 := by
  rcases hb with hb | ⟨hb, hb'⟩
  · refine ⟨.inl ?_, ?_⟩
    · clear hs hY
      rcases hc with ⟨rfl, rfl, rfl⟩ | ⟨rfl, rfl, rfl⟩ | ⟨rfl, rfl, rfl⟩ | ⟨rfl, rfl, rfl⟩ <;> rcases hU with rfl | rfl | rfl | rfl <;> omega
    · have : sby * L / U * U ≤ sby * L := Nat.div_mul_le_self _ _
      have h4 : sby * L ≤ Y + 8 / 2 ^ V := by rw [hb]; exact Nat.div_mul_le_self _ _
      have h5 : 8 / 2 ^ V ≤ 8 := Nat.div_le_self _ _
      omega
  · refine ⟨.inr ⟨?_, ?_⟩, ?_⟩
    · clear hs hY hb'
      rcases hc with ⟨rfl, rfl, rfl⟩ | ⟨rfl, rfl, rfl⟩ | ⟨rfl, rfl, rfl⟩ | ⟨rfl, rfl, rfl⟩ <;> rcases hU with rfl | rfl | rfl | rfl <;> omega
    · have h6 : (h + V) / 2 ^ V ≤ (sby + 1) * L := by
        clear hU hv hb
        rcases hc with ⟨rfl, rfl, rfl⟩ | ⟨rfl, rfl, rfl⟩ | ⟨rfl, rfl, rfl⟩ | ⟨rfl, rfl, rfl⟩ <;> omega
      have h7 : (sby + 1) * L ≤ (sby * L / U + 1) * U := by
        clear hs hY hb hb' h6
        rcases hc with ⟨rfl, rfl, rfl⟩ | ⟨rfl, rfl, rfl⟩ | ⟨rfl, rfl, rfl⟩ | ⟨rfl, rfl, rfl⟩ <;> rcases hU with rfl | rfl | rfl | rfl <;> omega
      omega
    · have : sby * L / U * U ≤ sby * L := Nat.div_mul_le_self _ _
      have h4 : (Y + 8 / 2 ^ V) / L * L ≤ Y + 8 / 2 ^ V := Nat.div_mul_le_self _ _
      have h5 : 8 / 2 ^ V ≤ 8 := Nat.div_le_self _ _
      have h6 := Nat.mul_le_mul_right L (Nat.le_of_lt hb)
      omega

/-- Rows of superblocks without symbols: all sizes are numerals. -/
theorem rowArith {U V L st h Y sbh : Nat} (hU : U = 32 ∨ U = 64 ∨ U = 128 ∨ U = 256) (hV : V = 0 ∨ V = 1) (hst : st = 16 ∨ st = 32) (hv : st * 4 ≤ U * 2 ^ V) (hL : L * 2 ^ V = st * 4)
    (hs : sbh = ((h + 7) / 8 * 2 + st - 1) / st) (hY : Y < (h + V) / 2 ^ V) :
    ∃ sby, sby < sbh ∧
      (∀ y rowH, y = sby * L - (if sby ≠ 0 then 8 else 0) / 2 ^ V → rowH = min ((sby + 1) * L - 8 / 2 ^ V * if sby + 1 < sbh then 1 else 0) ((h + V) / 2 ^ V) →
        (y ≤ Y ∧ Y < rowH) ∧
        ∀ rowY, rowY = y + 8 / 2 ^ V * (if y ≠ 0 then 1 else 0) →
          (if rowY / U * U ≠ 0 ∧ (h + V) / 2 ^ V < rowY / U * U + U / 2 then rowY / U * U - U else rowY / U * U) =
            min (max (((h + V) / 2 ^ V + U / 2) / U) 1 - 1) ((Y * 2 ^ V / 4 * 4 + 8) / 2 ^ V / U) * U) ∧
      ∀ sby' y' rowH', sby' < sbh → y' = sby' * L - (if sby' ≠ 0 then 8 else 0) / 2 ^ V → rowH' = min ((sby' + 1) * L - 8 / 2 ^ V * if sby' + 1 < sbh then 1 else 0) ((h + V) / 2 ^ V) →
        y' ≤ Y ∧ Y < rowH' → sby' = sby := by
  have hc : (V = 0 ∧ st = 16 ∧ L = 64) ∨ (V = 0 ∧ st = 32 ∧ L = 128) ∨ (V = 1 ∧ st = 16 ∧ L = 32) ∨ (V = 1 ∧ st = 32 ∧ L = 64) := by
    rcases hV with rfl | rfl <;> rcases hst with rfl | rfl <;> simp only [Nat.pow_zero, Nat.pow_one, Nat.mul_one] at hL <;> omega
  refine ⟨min ((Y + 8 / 2 ^ V) / L) (sbh - 1), ?_, ?_, ?_⟩
  · clear hL hV hst hv hU
    rcases hc with ⟨rfl, rfl, rfl⟩ | ⟨rfl, rfl, rfl⟩ | ⟨rfl, rfl, rfl⟩ | ⟨rfl, rfl, rfl⟩ <;> omega
  · intro y rowH hy hr
    constructor
    · clear hL hV hst hv hU
      rcases hc with ⟨rfl, rfl, rfl⟩ | ⟨rfl, rfl, rfl⟩ | ⟨rfl, rfl, rfl⟩ | ⟨rfl, rfl, rfl⟩ <;> split at hy <;> split at hr <;> omega
    · intro rowY hq
      have e : rowY = min ((Y + 8 / 2 ^ V) / L) (sbh - 1) * L := by
        clear hL hV hst hv hU hr
        rcases hc with ⟨rfl, rfl, rfl⟩ | ⟨rfl, rfl, rfl⟩ | ⟨rfl, rfl, rfl⟩ | ⟨rfl, rfl, rfl⟩ <;> split at hy <;> split at hq <;> omega
      clear hq hy hr hL hV hst
      obtain ⟨g1, g2⟩ := quot (sby := min ((Y + 8 / 2 ^ V) / L) (sbh - 1)) hU hv hc hs hY (by omega)
      rw [e]
      exact adjust hU g1 g2 (by omega)
  · intro sby' y' rowH' h1 h2 h3 h4
    clear hL hV hst hv hU
    rcases hc with ⟨rfl, rfl, rfl⟩ | ⟨rfl, rfl, rfl⟩ | ⟨rfl, rfl, rfl⟩ | ⟨rfl, rfl, rfl⟩ <;> split at h2 <;> split at h3 <;> omega

/-- The place of a unit from the position of its row in a plane. -/
theorem ptr_eq (hf : CfgOk f) (hp : f.type p ≠ 0) (row col : Nat) :
    (row * 2 ^ f.us p * 2 ^ f.ssV p / 128 * f.srSb128w + col * 2 ^ f.us p / 2 ^ (7 - f.ssH p), row * 2 ^ f.us p * 2 ^ f.ssV p / 64 % 2 * 2 + col * 2 ^ f.us p / 2 ^ (7 - f.ssH p - 1) % 2) = loc f p row col := by
  unfold loc locPx
  rw [pow_us, pow_us, ← Nat.mul_assoc, ← Nat.mul_assoc]
  have S := sizes hf hp
  have h1 : col * 2 ^ f.us p / 2 ^ (7 - f.ssH p) = col * 2 ^ f.us p * 2 ^ f.ssH p / 128 := by
    generalize col * 2 ^ f.us p = z
    rcases S.sh with h | h <;> rw [h]
    · show z / 128 = z * 1 / 128; omega
    · show z / 64 = z * 2 / 128; omega
  have h2 : col * 2 ^ f.us p / 2 ^ (7 - f.ssH p - 1) % 2 = col * 2 ^ f.us p * 2 ^ f.ssH p % 128 / 64 := by
    generalize col * 2 ^ f.us p = z
    rcases S.sh with h | h <;> rw [h]
    · show z / 64 % 2 = z * 1 % 128 / 64; omega
    · show z / 32 % 2 = z * 2 % 128 / 64; omega
  rw [h1, h2]
  generalize row * 2 ^ f.us p * 2 ^ f.ssV p = z
  rw [show z / 64 % 2 = z % 128 / 64 from by omega]

/-- **C83.** Every sample of a plane is filtered once: in one row of superblocks, as part of one unit there, and this is the unit of the specification. -/
theorem C83_apply (hf : CfgOk f) (hp : f.type p ≠ 0) {X Y : Nat} (hX : X < Av1.Round2 (E f).UpscaledWidth ((E f).subX p)) (hY : Y < Av1.Round2 (E f).FrameHeight ((E f).subY p)) :
    ∃ sby, sby < f.sbh ∧ ((lrSbrow f p sby).1 ≤ Y ∧ Y < (lrSbrow f p sby).2.1) ∧ (∀ sby', sby' < f.sbh → (lrSbrow f p sby').1 ≤ Y ∧ Y < (lrSbrow f p sby').2.1 → sby' = sby) ∧
      ∃ e ∈ (lrSbrow f p sby).2.2, (e.1 ≤ X ∧ X < e.1 + e.2.1) ∧ (∀ e' ∈ (lrSbrow f p sby).2.2, e'.1 ≤ X ∧ X < e'.1 + e'.2.1 → e' = e) ∧
        e.2.2 = loc f p (Av1.unitRow (E f) p Y) (Av1.unitCol (E f) p X) := by
  have S := sizes hf hp
  rw [(subs hf hp).1, round2 S.sh] at hX
  rw [(subs hf hp).2, round2 S.sv] at hY
  have hX' : X < (f.srw + f.ssH p) / 2 ^ f.ssH p := hX
  have hY' : Y < (f.h + f.ssV p) / 2 ^ f.ssV p := hY
  have hL : 2 ^ (6 - f.ssV p + if f.sb128 then 1 else 0) * 2 ^ f.ssV p = f.step * 4 := by
    unfold Cfg.step
    rcases S.sv with h | h <;> rw [h] <;> split <;> rfl
  obtain ⟨sby, h1, h2, h3⟩ := rowArith S.u S.sv S.st S.v hL (sbh := f.sbh) rfl hY'
  obtain ⟨h4, h5⟩ := h2 _ _ rfl rfl
  have h6 := h5 _ rfl
  refine ⟨sby, h1, h4, fun sby' g1 g2 => h3 sby' _ _ g1 rfl rfl g2, ?_⟩
  have hu : 2 ^ f.us p / 2 * 2 = 2 ^ f.us p := by rcases S.u with h | h | h | h <;> rw [h]
  have hrow : Av1.unitRow (E f) p Y = min (max (((f.h + f.ssV p) / 2 ^ f.ssV p + 2 ^ f.us p / 2) / 2 ^ f.us p) 1 - 1) ((Y * 2 ^ f.ssV p / 4 * 4 + 8) / 2 ^ f.ssV p / 2 ^ f.us p) := by
    unfold Av1.unitRow
    rw [rows_eq hf hp, (subs hf hp).2]
    rfl
  have hcol : Av1.unitCol (E f) p X = min (max (((f.srw + f.ssH p) / 2 ^ f.ssH p + 2 ^ f.us p / 2) / 2 ^ f.us p) 1 - 1) (X / 2 ^ f.us p) := by
    unfold Av1.unitCol
    rw [cols_eq hf hp, (subs hf hp).1]
    have : X * 2 ^ f.ssH p / 4 * 4 / 2 ^ f.ssH p / 2 ^ f.us p = X / 2 ^ f.us p := by
      rcases S.sh with h | h <;> rcases S.u with h' | h' | h' | h' <;> rw [h, h'] <;> omega
    show min _ (X * 2 ^ f.ssH p / 4 * 4 / 2 ^ f.ssH p / 2 ^ f.us p) = _
    rw [this]
  have key := fun a b => rowUnits_at (us := f.us p) (shift := 7 - f.ssH p) (a := a) (b := b) hu hX' ((f.srw + f.ssH p) / 2 ^ f.ssH p + 1) 0 (by omega) (by omega) (.inl rfl)
  rw [← hrow] at h6
  rw [← hcol] at key
  rw [Nat.zero_mul] at key
  obtain ⟨e, k1, k2, k3, k4⟩ := key (Av1.unitRow (E f) p Y * 2 ^ f.us p * 2 ^ f.ssV p / 128 * f.srSb128w) (Av1.unitRow (E f) p Y * 2 ^ f.us p * 2 ^ f.ssV p / 64 % 2 * 2)
  have hl : (lrSbrow f p sby).2.2 = rowUnits (f.us p) (7 - f.ssH p) ((f.srw + f.ssH p) / 2 ^ f.ssH p) (Av1.unitRow (E f) p Y * 2 ^ f.us p * 2 ^ f.ssV p / 128 * f.srSb128w)
      (Av1.unitRow (E f) p Y * 2 ^ f.us p * 2 ^ f.ssV p / 64 % 2 * 2) ((f.srw + f.ssH p) / 2 ^ f.ssH p + 1) 0 := by
    unfold lrSbrow
    dsimp only
    rw [h6]
  rw [hl]
  refine ⟨e, k1, k2, k4, ?_⟩
  rw [k3]
  exact ptr_eq hf hp _ _

/-- **C83.** What a sample is filtered with is what was read for its unit. -/
theorem C83_sample (hf : CfgOk f) (hp : f.type p ≠ 0) {s : St} {t : Av1.State} (h : Rel f T s t) {X Y : Nat} (hX : X < Av1.Round2 (E f).UpscaledWidth ((E f).subX p))
    (hY : Y < Av1.Round2 (E f).FrameHeight ((E f).subY p)) (ho : Own f T p (Av1.unitRow (E f) p Y) (Av1.unitCol (E f) p X)) {u : Av1.LrUnit}
    (hu : t.units p (Av1.unitRow (E f) p Y) (Av1.unitCol (E f) p X) = some u) {sby : Nat} (hs : sby < f.sbh) (hy : (lrSbrow f p sby).1 ≤ Y ∧ Y < (lrSbrow f p sby).2.1)
    {x w : Nat} {a : Ptr} (he : (x, w, a) ∈ (lrSbrow f p sby).2.2) (hx : x ≤ X ∧ X < x + w) : Enc (s.mem p a) u := by
  obtain ⟨sby', g1, g2, g3, e, g4, g5, g6, g7⟩ := C83_apply hf hp hX hY
  obtain rfl := g3 sby hs hy
  obtain rfl := g6 _ he hx
  rw [show a = _ from g7]
  exact h.units p _ _ u hp ho hu

/-! ## Examples -/

/-- 200x136, 4:2:0, all planes with restoration, units of 64x64 and 32x32. -/
def exA : Cfg := ⟨200, 136, 200, 8, 1, fun p => [1, 2, 3].getD p 0, 6, 5, false⟩
/-- 400x136, coded with half the width, 4:4:4, superblocks and units of 128x128. -/
def exB : Cfg := ⟨200, 136, 400, 16, 3, fun p => [3, 0, 1].getD p 0, 7, 7, true⟩

theorem exType {a b c : Nat} (ha : a ≤ 3) (hb : b ≤ 3) (hc : c ≤ 3) (p : Nat) : [a, b, c].getD p 0 ≤ 3 ∧ (3 ≤ p → [a, b, c].getD p 0 = 0) := by
  match p with
  | 0 => exact ⟨ha, fun h => absurd h (by decide)⟩
  | 1 => exact ⟨hb, fun h => absurd h (by decide)⟩
  | 2 => exact ⟨hc, fun h => absurd h (by decide)⟩
  | p + 3 => exact ⟨Nat.zero_le _, fun _ => rfl⟩
theorem exA_ok : CfgOk exA :=
  ⟨by decide, by decide, by decide, by decide, by decide, exType (by decide) (by decide) (by decide), fun h => absurd h (by decide), by decide⟩
theorem exB_ok : CfgOk exB :=
  ⟨by decide, by decide, by decide, by decide, by decide, exType (by decide) (by decide) (by decide), fun h => absurd h (by decide), by decide⟩

example : TileIn exA ⟨16, 50, 0, 34⟩ := ⟨by decide, by decide, by decide, by decide⟩
example : TileIn exB ⟨32, 50, 0, 34⟩ := ⟨by decide, by decide, by decide, by decide⟩
example : InTile exA ⟨16, 50, 0, 34⟩ 32 16 := ⟨by decide, by decide⟩
example : HasCol exB ⟨0, 32, 0, 34⟩ 2 := ⟨0, by decide, by decide⟩
example : Apart ⟨0, 32, 0, 34⟩ ⟨32, 50, 0, 34⟩ := .inl (by decide)
example : (Av1.unitRows (E exA) 0, Av1.unitCols (E exA) 0, Av1.unitRows (E exA) 1, Av1.unitCols (E exA) 1) = (2, 3, 2, 3) := by decide
/-- The first superblock of 128x128 has the units of two columns, after scaling. -/
example : Has exB 0 0 0 0 0 ∧ Has exB 0 0 0 0 1 ∧ ¬ Has exB 0 0 0 0 2 ∧ Has exB 0 32 0 0 2 := by unfold Has; decide

def exSt : St := ⟨fun _ _ => ⟨9, 9, 9, 9, 9, 9, 9, 9, 9⟩, fun _ => (77, 3)⟩
def exAv1 : Av1.State := ⟨fun _ _ => (0, 0, 0), fun _ => (0, 0), fun _ _ _ => none⟩
/-- A Wiener filter in luma, no filter in U, and a self-guided filter in V. -/
def exBits : List Nat := [1, 0, 1, 0, 0, 0, 1, 0, 0, 1, 0, 0, 1, 0, 0, 1, 0, 0, 0, 0, 0, 1, 0, 0, 1, 1, 0, 1, 0, 0, 0, 0, 1, 0, 0, 1, 0, 1, 1, 0, 1, 0, 0, 1, 1, 0, 0, 1, 0, 0, 0, 0, 1, 0, 0, 0, 0, 1, 1, 0, 0, 1, 0, 1, 0, 0, 1, 1, 0, 1, 99, 98]
def exRead (s : List Nat) (r : Req) : Nat × List Nat := (s.headD 0, s.tail)
def exOutA := (readLr exA 0 0 (tileInit exA 0 0 exSt)).run exRead exBits
def exOutB := (Av1.read_lr (E exA) 0 0 (Av1.clear exAv1)).run exRead exBits
example : exOutA.2 = exOutB.2 := by decide +kernel
example : exOutA.1.map (fun s => (List.range 3).map fun p => s.mem p (s.ref p)) = some [⟨2, 2, -7, 20, 2, -8, 15, -32, 31⟩, ⟨0, 3, -7, 15, 3, -7, 15, -32, 31⟩, ⟨6, 3, -7, 15, 3, -7, 15, -28, 26⟩] := by decide +kernel
example : exOutB.1.map (fun s => (List.range 3).map fun p => s.units p 0 0) =
    some [some (.wiener (2, -7, 20) (2, -8, 15)), some .none, some (.sgrproj 3 (-28, 26))] := by decide +kernel

/-- Rows of superblocks are shifted by 8, units are the last ones if there are less than half of them left. -/
example : (List.range exB.sbh).map (lrSbrow exB 0) =
    [(0, 120, [(0, 128, 0, 0), (128, 128, 1, 0), (256, 144, 2, 0)]), (120, 136, [(0, 128, 0, 0), (128, 128, 1, 0), (256, 144, 2, 0)])] := rfl
example : (List.range exA.sbh).map (lrSbrow exA 1) =
    [(0, 28, [(0, 32, 0, 0), (32, 32, 0, 1), (64, 36, 1, 0)]), (28, 60, [(0, 32, 0, 2), (32, 32, 0, 3), (64, 36, 1, 2)]), (60, 68, [(0, 32, 0, 2), (32, 32, 0, 3), (64, 36, 1, 2)])] := rfl
example : Av1.unitRow (E exA) 1 59 = 1 ∧ Av1.unitCol (E exA) 1 99 = 2 ∧ loc exA 1 1 2 = (1, 2) := by decide

end Dav1d.Syn.Lru
