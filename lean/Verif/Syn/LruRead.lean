import Verif.Syn.LruGeo
/-!
# Reading units
-/
set_option linter.unusedVariables false
set_option linter.unusedSimpArgs false
namespace Dav1d.Syn.Lru
open Dav1d.Part (Tile)
variable {ok : Req → Nat → Prop} {f : Cfg} {T : Tile} {p : Nat}

/-! ## Statements -/

abbrev E (f : Cfg) : Av1.Env := envOf f false

/-- The specification reads this unit at the superblock. -/
def Has (f : Cfg) (p bx by' row col : Nat) : Prop :=
  Av1.unitRowStart (E f) p by' ≤ row ∧ row < Av1.unitRowEnd (E f) p by' ∧ Av1.unitColStart (E f) p bx ≤ col ∧ col < Av1.unitColEnd (E f) p bx

/-- Tiles begin at superblocks. -/
structure TileIn (f : Cfg) (T : Tile) : Prop where
  x0 : T.x0 % f.step = 0 ∧ T.x0 < T.x1
  y0 : T.y0 % f.step = 0 ∧ T.y0 < T.y1
  x1 : T.x1 ≤ f.bw
  y1 : T.y1 ≤ f.bh

/-- The superblocks of a tile. -/
structure InTile (f : Cfg) (T : Tile) (bx by' : Nat) : Prop where
  x : bx % f.step = 0 ∧ T.x0 ≤ bx ∧ bx < T.x1
  y : by' % f.step = 0 ∧ T.y0 ≤ by' ∧ by' < T.y1

/-- The units of a tile. -/
def Own (f : Cfg) (T : Tile) (p row col : Nat) : Prop := ∃ bx by', InTile f T bx by' ∧ Has f p bx by' row col

/-- There are units in the columns of the tile. (In a row of superblocks there may be none.) -/
def HasCol (f : Cfg) (T : Tile) (p : Nat) : Prop := ∃ bx, (bx % f.step = 0 ∧ T.x0 ≤ bx ∧ bx < T.x1) ∧ Av1.unitColStart (E f) p bx < Av1.unitColEnd (E f) p bx

/-- The place where a tile has the defaults at first. -/
def start (f : Cfg) (T : Tile) (p : Nat) : Ptr := locPx f (T.y0 * 4) (if f.resized then Av1.unitColStart (E f) p T.x0 * 2 ^ (f.us p + f.ssH p) else T.x0 * 4)

/-- The reference has the numbers of the specification. -/
structure RefOk (p : Nat) (u : RUnit) (t : Av1.State) : Prop where
  v0 : p = 0 → u.v0 = (t.RefLrWiener p 0).1 ∧ u.h0 = (t.RefLrWiener p 1).1 ∧ (-5 ≤ u.v0 ∧ u.v0 < 11) ∧ -5 ≤ u.h0 ∧ u.h0 < 11
  v1 : u.v1 = (t.RefLrWiener p 0).2.1 ∧ u.h1 = (t.RefLrWiener p 1).2.1 ∧ (-23 ≤ u.v1 ∧ u.v1 < 9) ∧ -23 ≤ u.h1 ∧ u.h1 < 9
  v2 : u.v2 = (t.RefLrWiener p 0).2.2 ∧ u.h2 = (t.RefLrWiener p 1).2.2 ∧ (-17 ≤ u.v2 ∧ u.v2 < 47) ∧ -17 ≤ u.h2 ∧ u.h2 < 47
  w : u.w0 = (t.RefSgrXqd p).1 ∧ u.w1 = (t.RefSgrXqd p).2 ∧ (-96 ≤ u.w0 ∧ u.w0 < 32) ∧ -32 ≤ u.w1 ∧ u.w1 < 96

/-- A unit in memory is that of the specification. -/
def Enc (u : RUnit) : Av1.LrUnit → Prop
  | .none => u.type = 0
  | .wiener a b => u.type = 2 ∧ (u.v0, u.v1, u.v2) = a ∧ (u.h0, u.h1, u.h2) = b
  | .sgrproj set x => set < 16 ∧ u.type = 3 + set ∧ (u.w0, u.w1) = x

/-- The state of a tile is that of the specification. -/
structure Rel (f : Cfg) (T : Tile) (s : St) (t : Av1.State) : Prop where
  ref : ∀ p, f.type p ≠ 0 → HasCol f T p → RefOk p (s.mem p (s.ref p)) t
  place : ∀ p, f.type p ≠ 0 → HasCol f T p → s.ref p = start f T p ∨ ∃ row col, Own f T p row col ∧ s.ref p = loc f p row col
  units : ∀ p row col u, f.type p ≠ 0 → Own f T p row col → t.units p row col = some u → Enc (s.mem p (loc f p row col)) u

/-! ## Places -/

theorem split_eq {a b a' b' W : Nat} (h : a * W + b = a' * W + b') (hb : b < W) (hb' : b' < W) : a = a' ∧ b = b' := by
  have hW : 0 < W := by omega
  have h1 : (a * W + b) / W = a := by rw [Nat.add_comm, Nat.add_mul_div_right _ _ hW, Nat.div_eq_of_lt hb]; omega
  have h2 : (a' * W + b') / W = a' := by rw [Nat.add_comm, Nat.add_mul_div_right _ _ hW, Nat.div_eq_of_lt hb']; omega
  rw [h, h2] at h1
  subst h1
  exact ⟨rfl, by omega⟩

/-- Places of multiples of 64 samples are apart. -/
theorem locPx_inj {py px py' px' : Nat} (h : locPx f py px = locPx f py' px') (h1 : py % 64 = 0) (h2 : px % 64 = 0) (h3 : py' % 64 = 0) (h4 : px' % 64 = 0)
    (hx : px / 128 < f.srSb128w) (hx' : px' / 128 < f.srSb128w) : py = py' ∧ px = px' := by
  have e1 := congrArg Prod.fst h
  have e2 := congrArg Prod.snd h
  obtain ⟨a1, a2⟩ := split_eq (show py / 128 * f.srSb128w + px / 128 = py' / 128 * f.srSb128w + px' / 128 from e1) hx hx'
  have e3 : py % 128 / 64 * 2 + px % 128 / 64 = py' % 128 / 64 * 2 + px' % 128 / 64 := e2
  clear e1 e2 h
  omega

theorem srw_pos (hf : CfgOk f) : 0 < f.srw := by
  have hw := hf.w
  rcases hf.width with h | ⟨h1, h2, h3⟩
  · omega
  · by_cases h0 : f.srw = 0
    · rw [h0] at h3
      have : (8 * 0 + f.d / 2) / f.d = 0 := Nat.div_eq_of_lt (by omega)
      omega
    · omega

theorem mul64 (hf : CfgOk f) (hp : f.type p ≠ 0) (n : Nat) : n * 2 ^ (f.us p + f.ssV p) % 64 = 0 ∧ n * 2 ^ (f.us p + f.ssH p) % 64 = 0 := by
  have S := sizes hf hp
  rw [pow_us, pow_us]
  have hv := S.v
  have hh := S.h
  constructor
  · rcases S.sv with h | h <;> rcases S.u with h' | h' | h' | h' <;> rcases S.st with h'' | h'' <;> rw [h, h', h''] at hv <;> rw [h, h'] <;> omega
  · rcases S.sh with h | h <;> rcases S.u with h' | h' | h' | h' <;> rcases S.st with h'' | h'' <;> rw [h, h', h''] at hh <;> rw [h, h'] <;> omega

/-- Units of the frame are in the memory. -/
theorem col_in (hf : CfgOk f) (hp : f.type p ≠ 0) {col : Nat} (h : col < Av1.unitCols (E f) p) : col * 2 ^ (f.us p + f.ssH p) / 128 < f.srSb128w := by
  have S := sizes hf hp
  have hs := srw_pos hf
  rw [cols_eq hf hp] at h
  rw [pow_us]
  unfold Cfg.srSb128w
  rcases S.sh with h1 | h1 <;> rcases S.u with h2 | h2 | h2 | h2 <;> rw [h1, h2] at h ⊢ <;> omega

theorem loc_inj (hf : CfgOk f) (hp : f.type p ≠ 0) {row col row' col' : Nat} (hc : col < Av1.unitCols (E f) p) (hc' : col' < Av1.unitCols (E f) p) (h : loc f p row col = loc f p row' col') :
    row = row' ∧ col = col' := by
  obtain ⟨h1, h2⟩ := locPx_inj h (mul64 hf hp _).1 (mul64 hf hp _).2 (mul64 hf hp _).1 (mul64 hf hp _).2 (col_in hf hp hc) (col_in hf hp hc')
  exact ⟨Nat.eq_of_mul_eq_mul_right (Nat.two_pow_pos _) h1, Nat.eq_of_mul_eq_mul_right (Nat.two_pow_pos _) h2⟩

theorem Has.col {bx by' row col : Nat} (h : Has f p bx by' row col) : col < Av1.unitCols (E f) p := by
  have := h.2.2.2
  unfold Av1.unitColEnd at this
  omega

theorem Own.col {row col : Nat} (h : Own f T p row col) : col < Av1.unitCols (E f) p := by
  obtain ⟨_, _, _, h⟩ := h
  exact h.col

theorem Own.hasCol {row col : Nat} (h : Own f T p row col) : HasCol f T p := by
  obtain ⟨bx, _, h1, h2⟩ := h
  exact ⟨bx, h1.x, by have := h2.2.2; omega⟩

/-! ## A unit -/

theorem type_same {ft : Nat} (h0 : ft ≠ 0) (h3 : ft ≤ 3) :
    Same ok (fun a b => b = .NONE ∧ a = 0 ∨ b = .WIENER ∧ a = 2 ∨ b = .SGRPROJ ∧ a = 3) (readType ft) (Av1.restorationType (rtype ft)) := by
  have : ft = 1 ∨ ft = 2 ∨ ft = 3 := by omega
  rcases this with rfl | rfl | rfl
  · show Same ok _ (mode .restoreSwitchable [] 2 >>= _) (mode .restoreSwitchable [] 2 >>= _)
    refine Same.bind (mode_same rfl) fun a b h => ?_
    obtain ⟨rfl, h2, -⟩ := h
    refine Same.ret ?_
    have : a = 0 ∨ a = 1 ∨ a = 2 := by omega
    rcases this with rfl | rfl | rfl <;> simp
  · show Same ok _ (flag .restoreWiener [] >>= _) (flag .restoreWiener [] >>= _)
    refine Same.bind (flag_same rfl) fun a b h => ?_
    subst h
    refine Same.ret ?_
    cases a <;> simp
  · show Same ok _ (flag .restoreSgrproj [] >>= _) (flag .restoreSgrproj [] >>= _)
    refine Same.bind (flag_same rfl) fun a b h => ?_
    subst h
    refine Same.ret ?_
    cases a <;> simp

theorem params_zero : ∀ i : Nat, i < 16 → ((Dav1d.Lr.sgrParams.getD i (0, 0)).1 ≠ 0 ↔ (Dav1d.Lr.Spec.sgrParams.getD i ((0, 0), (0, 0))).1.1 ≠ 0) ∧
    ((Dav1d.Lr.sgrParams.getD i (0, 0)).2 ≠ 0 ↔ (Dav1d.Lr.Spec.sgrParams.getD i ((0, 0), (0, 0))).2.1 ≠ 0) := by decide

theorem tap0_same {r : Int} (h : -5 ≤ r ∧ r < 11) : Same ok (fun a b => a = b ∧ -5 ≤ a ∧ a < 11) (coef r 5 16 1) (Av1.wienerTap 0 r) :=
  coef_same (n := 16) (k := 1) (lo := -5) (hi := 11) rfl (by decide) rfl rfl (by decide) h
theorem tap1_same {r : Int} (h : -23 ≤ r ∧ r < 9) : Same ok (fun a b => a = b ∧ -23 ≤ a ∧ a < 9) (coef r 23 32 2) (Av1.wienerTap 1 r) :=
  coef_same (n := 32) (k := 2) (lo := -23) (hi := 9) rfl (by decide) rfl rfl (by decide) h
theorem tap2_same {r : Int} (h : -17 ≤ r ∧ r < 47) : Same ok (fun a b => a = b ∧ -17 ≤ a ∧ a < 47) (coef r 17 64 3) (Av1.wienerTap 2 r) :=
  coef_same (n := 64) (k := 3) (lo := -17) (hi := 47) rfl (by decide) rfl rfl (by decide) h
theorem xqd0_same {r : Int} (h : -96 ≤ r ∧ r < 32) : Same ok (fun a b => a = b ∧ -96 ≤ a ∧ a < 32) (coef r 96 128 4) (Av1.decode_signed_subexp_with_ref_bool (-96) (31 + 1) 4 r) :=
  coef_same (n := 128) (k := 4) (lo := -96) (hi := 31 + 1) rfl (by decide) rfl rfl (by decide) h
theorem xqd1_same {r : Int} (h : -32 ≤ r ∧ r < 96) : Same ok (fun a b => a = b ∧ -32 ≤ a ∧ a < 96) (coef r 32 128 4) (Av1.decode_signed_subexp_with_ref_bool (-32) (95 + 1) 4 r) :=
  coef_same (n := 128) (k := 4) (lo := -32) (hi := 95 + 1) rfl (by decide) rfl rfl (by decide) h

/-- A state after a unit was read. -/
structure Post (f : Cfg) (p row col : Nat) (s : St) (t : Av1.State) (s' : St) (t' : Av1.State) (u : Av1.LrUnit) : Prop where
  units : t'.units = fun q r c => if q = p ∧ r = row ∧ c = col then some u else t.units q r c
  enc : Enc (s'.mem p (loc f p row col)) u
  mem : ∀ q a, ¬ (q = p ∧ a = loc f p row col) → s'.mem q a = s.mem q a
  ref : RefOk p (s'.mem p (s'.ref p)) t'
  place : s'.ref p = s.ref p ∨ s'.ref p = loc f p row col
  other : ∀ q, q ≠ p → s'.ref q = s.ref q ∧ t'.RefLrWiener q = t.RefLrWiener q ∧ t'.RefSgrXqd q = t.RefSgrXqd q

theorem info_same {row col : Nat} {s : St} {t : Av1.State} (h0 : f.type p ≠ 0) (h3 : f.type p ≤ 3) (hr : RefOk p (s.mem p (s.ref p)) t) :
    Same ok (fun s' t' => ∃ u, Post f p row col s t s' t' u) (readInfo p (loc f p row col) (f.type p) s) (Av1.read_lr_unit (E f) p row col t) := by
  unfold readInfo Av1.read_lr_unit
  refine Same.bind (type_same h0 h3) fun a b hab => ?_
  generalize hA : loc f p row col = A
  have hr' : RefOk p ((s.write p A { s.mem p A with type := a }).mem p ((s.write p A { s.mem p A with type := a }).ref p)) t := by
    unfold St.write
    dsimp only
    by_cases hA' : s.ref p = A
    · rw [if_pos ⟨rfl, hA'⟩]
      rw [hA'] at hr
      exact ⟨hr.v0, hr.v1, hr.v2, hr.w⟩
    · rw [if_neg (fun h => hA' h.2)]; exact hr
  have hmem : ∀ q c, ¬ (q = p ∧ c = A) → (s.write p A { s.mem p A with type := a }).mem q c = s.mem q c := fun q c h => if_neg h
  have href : (s.write p A { s.mem p A with type := a }).ref = s.ref := rfl
  have hself : (s.write p A { s.mem p A with type := a }).mem p A = { s.mem p A with type := a } := if_pos ⟨rfl, rfl⟩
  dsimp only
  generalize s.write p A { s.mem p A with type := a } = s1 at hr' hmem href hself ⊢
  generalize hR : s1.mem p (s1.ref p) = r at hr' ⊢
  obtain ⟨k0, k1, k2, k3⟩ := hr'
  have hwm : ∀ (u : RUnit) q c, ¬ (q = p ∧ c = A) → ((s1.write p A u).setRef p A).mem q c = s.mem q c := fun u q c h => by
    show (if q = p ∧ c = A then u else s1.mem q c) = _
    rw [if_neg h, hmem q c h]
  have hws : ∀ u : RUnit, ((s1.write p A u).setRef p A).mem p A = u := fun u => if_pos ⟨rfl, rfl⟩
  have hwr : ∀ u : RUnit, ((s1.write p A u).setRef p A).ref p = A := fun u => if_pos rfl
  have hwo : ∀ (u : RUnit) q, q ≠ p → ((s1.write p A u).setRef p A).ref q = s.ref q := fun u q h => by
    show (if q = p then A else s1.ref q) = _
    rw [if_neg h, href]
  rcases hab with ⟨rfl, rfl⟩ | ⟨rfl, rfl⟩ | ⟨rfl, rfl⟩
  · rw [if_neg (by decide), if_neg (by decide)]
    refine Same.ret ⟨.none, rfl, ?_, ?_, ?_, .inl (by rw [href]), fun q _ => ⟨by rw [href], rfl, rfl⟩⟩
    · rw [hA, hself]; exact rfl
    · intro q c h; exact hmem q c (hA ▸ h)
    · rw [hR]; exact ⟨k0, k1, k2, k3⟩
  · rw [if_pos rfl]
    show Same ok _ _ (Av1.wienerPass p (t.RefLrWiener p 0) >>= _)
    unfold Av1.wienerPass
    rw [bind_assoc']
    refine Same.bind (R := fun a b => a = b ∧ (p = 0 → -5 ≤ a ∧ a < 11)) (Same.ite Iff.rfl (fun h => Same.ret ⟨rfl, fun h' => absurd h' h⟩) (fun h => ?_)) fun v0 v0' e0 => ?_
    · rw [← (k0 (Classical.not_not.1 h)).1]
      exact (tap0_same (k0 (Classical.not_not.1 h)).2.2.1).mono fun a b h => ⟨h.1, fun _ => h.2⟩
    obtain ⟨rfl, e0⟩ := e0
    rw [bind_assoc', ← k1.1]
    refine Same.bind (tap1_same k1.2.2.1) fun v1 v1' e1 => ?_
    obtain ⟨rfl, e1⟩ := e1
    rw [bind_assoc', ← k2.1]
    refine Same.bind (tap2_same k2.2.2.1) fun v2 v2' e2 => ?_
    obtain ⟨rfl, e2⟩ := e2
    rw [pure_bind', bind_assoc']
    refine Same.bind (R := fun a b => a = b ∧ (p = 0 → -5 ≤ a ∧ a < 11)) (Same.ite Iff.rfl (fun h => Same.ret ⟨rfl, fun h' => absurd h' h⟩) (fun h => ?_)) fun g0 g0' d0 => ?_
    · rw [← (k0 (Classical.not_not.1 h)).2.1]
      exact (tap0_same (k0 (Classical.not_not.1 h)).2.2.2).mono fun a b h => ⟨h.1, fun _ => h.2⟩
    obtain ⟨rfl, d0⟩ := d0
    rw [bind_assoc', ← k1.2.1]
    refine Same.bind (tap1_same k1.2.2.2) fun g1 g1' d1 => ?_
    obtain ⟨rfl, d1⟩ := d1
    rw [bind_assoc', ← k2.2.1]
    refine Same.bind (tap2_same k2.2.2.2) fun g2 g2' d2 => ?_
    obtain ⟨rfl, d2⟩ := d2
    rw [pure_bind']
    refine Same.ret ⟨.wiener (v0, v1, v2) (g0, g1, g2), rfl, ?_, ?_, ?_, .inr (by rw [hwr, hA]), fun q hq => ⟨hwo _ q hq, ?_, rfl⟩⟩
    · rw [hA, hws]; exact ⟨rfl, rfl, rfl⟩
    · intro q c h; exact hwm _ q c (hA ▸ h)
    · rw [hwr, hws]
      constructor
      · intro hp
        subst hp
        exact ⟨rfl, rfl, e0 rfl, d0 rfl⟩
      · refine ⟨?_, ?_, e1, d1⟩
        · show v1 = (if p = p then (if 0 = 0 then Av1.keepFirst p _ (v0, v1, v2) else _) else _ : Int × Int × Int).2.1
          rw [if_pos rfl, if_pos rfl]; unfold Av1.keepFirst; split <;> rfl
        · show g1 = (if p = p then (if 1 = 0 then _ else Av1.keepFirst p _ (g0, g1, g2)) else _ : Int × Int × Int).2.1
          rw [if_pos rfl, if_neg (by decide)]; unfold Av1.keepFirst; split <;> rfl
      · refine ⟨?_, ?_, e2, d2⟩
        · show v2 = (if p = p then (if 0 = 0 then Av1.keepFirst p _ (v0, v1, v2) else _) else _ : Int × Int × Int).2.2
          rw [if_pos rfl, if_pos rfl]; unfold Av1.keepFirst; split <;> rfl
        · show g2 = (if p = p then (if 1 = 0 then _ else Av1.keepFirst p _ (g0, g1, g2)) else _ : Int × Int × Int).2.2
          rw [if_pos rfl, if_neg (by decide)]; unfold Av1.keepFirst; split <;> rfl
      · exact k3
    · funext pass
      show (if q = p then _ else t.RefLrWiener q pass) = _
      rw [if_neg hq]
  · rw [if_neg (by decide), if_pos rfl]
    show Same ok _ _ (Av1.L 4 >>= _)
    rw [bools_eq]
    refine Same.bind (L_same 4) fun i i' hi => ?_
    obtain ⟨rfl, hi⟩ := hi
    obtain ⟨z1, z2⟩ := params_zero i hi
    refine Same.bind (R := fun a b => a = b ∧ -96 ≤ a ∧ a < 32) (Same.ite z1 (fun _ => ?_) (fun _ => Same.ret (by decide))) fun w0 w0' e0 => ?_
    · rw [← k3.1]; exact xqd0_same k3.2.2.1
    obtain ⟨rfl, e0⟩ := e0
    refine Same.bind (R := fun a b => a = b ∧ -32 ≤ a ∧ a < 96) (Same.ite z2 (fun _ => ?_) (fun _ => Same.ret ⟨?_, by decide, by decide⟩)) fun w1 w1' e1 => ?_
    · rw [← k3.2.1]; exact xqd1_same k3.2.2.2
    · unfold Av1.Clip3
      rw [if_neg (by omega), if_pos (by omega)]
    obtain ⟨rfl, e1⟩ := e1
    refine Same.ret ⟨.sgrproj i (w0, w1), rfl, ?_, ?_, ?_, .inr (by rw [hwr, hA]), fun q hq => ⟨hwo _ q hq, rfl, if_neg hq⟩⟩
    · rw [hA, hws]; exact ⟨hi, rfl, rfl⟩
    · intro q c h; exact hwm _ q c (hA ▸ h)
    · rw [hwr, hws]
      refine ⟨k0, k1, k2, ?_⟩
      refine ⟨?_, ?_, e0, e1⟩
      · show w0 = (if p = p then (w0, w1) else _ : Int × Int).1
        rw [if_pos rfl]
      · show w1 = (if p = p then (w0, w1) else _ : Int × Int).2
        rw [if_pos rfl]

end Dav1d.Syn.Lru
