import Verif.Dsp.Itx1d
/-!
# Two analyses of the transforms: bounds of the results, and what they do to a block that has only a DC coefficient
-/
namespace Dav1d.Itx

/-! ## Results on stores -/

/-- Two stores have the same variables with related values. -/
inductive Rel {α β : Type} (R : α → β → Prop) : Store α → Store β → Prop where
  | nil : Rel R [] []
  | cons {r : Reg} {v : α} {w : β} {s : Store α} {z : Store β} : R v w → Rel R s z → Rel R ((r, v) :: s) ((r, w) :: z)

theorem Rel.get {α β : Type} {R : α → β → Prop} {s : Store α} {z : Store β} (h : Rel R s z) (r : Reg) :
    (s.get r = none ∧ z.get r = none) ∨ ∃ v w, s.get r = some v ∧ z.get r = some w ∧ R v w := by
  induction h with
  | nil => exact Or.inl ⟨rfl, rfl⟩
  | @cons r' v w s z hvw hs ih =>
    cases hb : Nat.beq r'.code r.code with
    | true =>
      refine Or.inr ⟨v, w, ?_, ?_, hvw⟩
      · show (if Nat.beq r'.code r.code = true then some v else s.get r) = some v
        rw [if_pos hb]
      · show (if Nat.beq r'.code r.code = true then some w else z.get r) = some w
        rw [if_pos hb]
    | false =>
      have e1 : Store.get ((r', v) :: s) r = s.get r := by
        show (if Nat.beq r'.code r.code = true then some v else s.get r) = _
        rw [if_neg (by rw [hb]; exact Bool.false_ne_true)]
      have e2 : Store.get ((r', w) :: z) r = z.get r := by
        show (if Nat.beq r'.code r.code = true then some w else z.get r) = _
        rw [if_neg (by rw [hb]; exact Bool.false_ne_true)]
      rw [e1, e2]
      exact ih

/-- Lists of the same length with related elements. -/
inductive Rels {α β : Type} (R : α → β → Prop) : List α → List β → Prop where
  | nil : Rels R [] []
  | cons {v : α} {w : β} {s : List α} {z : List β} : R v w → Rels R s z → Rels R (v :: s) (w :: z)

theorem Rels.length {α β : Type} {R : α → β → Prop} {s : List α} {z : List β} (h : Rels R s z) : s.length = z.length := by
  induction h with
  | nil => rfl
  | cons _ _ ih => simp [ih]

theorem Rels.load {α β : Type} {R : α → β → Prop} {s : List α} {z : List β} (h : Rels R s z) :
    ∀ n, Rel R (Itx.load n s) (Itx.load n z) := by
  induction h with
  | nil => exact fun _ => .nil
  | cons hv _ ih => exact fun n => .cons hv (ih (n + 1))

/-! ## Safety: every operation the analysis allows is defined and its result is related -/

structure Safe {α : Type} (R : Int → α → Prop) (C : Dom Int) (A : Dom α) : Prop where
  lit : ∀ k, R (C.lit k) (A.lit k)
  add : ∀ {x y a b r}, R x a → R y b → A.add a b = some r → ∃ v, C.add x y = some v ∧ R v r
  sub : ∀ {x y a b r}, R x a → R y b → A.sub a b = some r → ∃ v, C.sub x y = some v ∧ R v r
  mul : ∀ {x a k r}, R x a → A.mul a k = some r → ∃ v, C.mul x k = some v ∧ R v r
  shr : ∀ {x a n r}, R x a → A.shr a n = some r → ∃ v, C.shr x n = some v ∧ R v r
  neg : ∀ {x a r}, R x a → A.neg a = some r → ∃ v, C.neg x = some v ∧ R v r
  clip : ∀ {x a r}, R x a → A.clip a = some r → ∃ v, C.clip x = some v ∧ R v r

theorem Safe.eval {α : Type} {R : Int → α → Prop} {C : Dom Int} {A : Dom α} (h : Safe R C A) {s : Store Int} {z : Store α}
    (hs : Rel R s z) : ∀ (e : E) (r : α), e.eval A z = some r → ∃ v, e.eval C s = some v ∧ R v r
  | .reg q, r, he => by
      rcases hs.get q with ⟨_, h2⟩ | ⟨v, w, h1, h2, h3⟩
      · rw [E.eval, h2] at he; cases he
      · rw [E.eval, h2] at he; cases he
        exact ⟨v, h1, h3⟩
  | .lit k, r, he => by
      rw [E.eval] at he; cases he
      exact ⟨_, rfl, h.lit k⟩
  | .add a b, r, he => by
      rw [E.eval, Option.bind_eq_some_iff] at he
      obtain ⟨x, hx, he⟩ := he
      rw [Option.bind_eq_some_iff] at he
      obtain ⟨y, hy, he⟩ := he
      obtain ⟨x', hx1, hx2⟩ := Safe.eval h hs a x hx
      obtain ⟨y', hy1, hy2⟩ := Safe.eval h hs b y hy
      obtain ⟨v, hv1, hv2⟩ := h.add hx2 hy2 he
      exact ⟨v, by rw [E.eval, hx1, Option.bind_some, hy1, Option.bind_some, hv1], hv2⟩
  | .sub a b, r, he => by
      rw [E.eval, Option.bind_eq_some_iff] at he
      obtain ⟨x, hx, he⟩ := he
      rw [Option.bind_eq_some_iff] at he
      obtain ⟨y, hy, he⟩ := he
      obtain ⟨x', hx1, hx2⟩ := Safe.eval h hs a x hx
      obtain ⟨y', hy1, hy2⟩ := Safe.eval h hs b y hy
      obtain ⟨v, hv1, hv2⟩ := h.sub hx2 hy2 he
      exact ⟨v, by rw [E.eval, hx1, Option.bind_some, hy1, Option.bind_some, hv1], hv2⟩
  | .mul a k, r, he => by
      rw [E.eval, Option.bind_eq_some_iff] at he
      obtain ⟨x, hx, he⟩ := he
      obtain ⟨x', hx1, hx2⟩ := Safe.eval h hs a x hx
      obtain ⟨v, hv1, hv2⟩ := h.mul hx2 he
      exact ⟨v, by rw [E.eval, hx1, Option.bind_some, hv1], hv2⟩
  | .shr a k, r, he => by
      rw [E.eval, Option.bind_eq_some_iff] at he
      obtain ⟨x, hx, he⟩ := he
      obtain ⟨x', hx1, hx2⟩ := Safe.eval h hs a x hx
      obtain ⟨v, hv1, hv2⟩ := h.shr hx2 he
      exact ⟨v, by rw [E.eval, hx1, Option.bind_some, hv1], hv2⟩
  | .neg a, r, he => by
      rw [E.eval, Option.bind_eq_some_iff] at he
      obtain ⟨x, hx, he⟩ := he
      obtain ⟨x', hx1, hx2⟩ := Safe.eval h hs a x hx
      obtain ⟨v, hv1, hv2⟩ := h.neg hx2 he
      exact ⟨v, by rw [E.eval, hx1, Option.bind_some, hv1], hv2⟩
  | .clip a, r, he => by
      rw [E.eval, Option.bind_eq_some_iff] at he
      obtain ⟨x, hx, he⟩ := he
      obtain ⟨x', hx1, hx2⟩ := Safe.eval h hs a x hx
      obtain ⟨v, hv1, hv2⟩ := h.clip hx2 he
      exact ⟨v, by rw [E.eval, hx1, Option.bind_some, hv1], hv2⟩

theorem Safe.run {α : Type} {R : Int → α → Prop} {C : Dom Int} {A : Dom α} (h : Safe R C A) :
    ∀ (p : Prog) {s : Store Int} {z z' : Store α}, Rel R s z → run A p z = some z' →
      ∃ s', Itx.run C p s = some s' ∧ Rel R s' z'
  | [], s, z, z', hs, hr => by
      rw [Itx.run] at hr; cases hr
      exact ⟨s, rfl, hs⟩
  | (r, e) :: p, s, z, z', hs, hr => by
      rw [Itx.run, Option.bind_eq_some_iff] at hr
      obtain ⟨w, hw, hr⟩ := hr
      rw [A.keep_eq] at hr
      obtain ⟨v, hv1, hv2⟩ := h.eval hs e w hw
      obtain ⟨s', hs1, hs2⟩ := Safe.run h p (.cons (r := r) hv2 hs) hr
      exact ⟨s', by rw [Itx.run, hv1, Option.bind_some, C.keep_eq, hs1], hs2⟩

theorem Rel.unload {α β : Type} {R : α → β → Prop} {s : Store α} {z : Store β} (h : Rel R s z) :
    ∀ k n {l : List β}, Itx.unload z n k = some l → ∃ m, Itx.unload s n k = some m ∧ Rels R m l
  | 0, n, l, hl => by
      rw [Itx.unload] at hl; cases hl
      exact ⟨[], rfl, .nil⟩
  | k + 1, n, l, hl => by
      rw [Itx.unload, Option.bind_eq_some_iff] at hl
      obtain ⟨w, hw, hl⟩ := hl
      rw [Option.map_eq_some_iff] at hl
      obtain ⟨l', hl', rfl⟩ := hl
      rcases h.get (.c n) with ⟨_, h2⟩ | ⟨v, w', h1, h2, h3⟩
      · rw [h2] at hw; cases hw
      · rw [h2] at hw; cases hw
        obtain ⟨m, hm1, hm2⟩ := Rel.unload h k (n + 1) hl'
        exact ⟨v :: m, by rw [Itx.unload, h1, Option.bind_some, hm1]; rfl, .cons h3 hm2⟩

theorem Safe.call {α : Type} {R : Int → α → Prop} {C : Dom Int} {A : Dom α} (h : Safe R C A) {p : Prog} {n : Nat}
    {x : List Int} {z y : List α} (hx : Rels R x z) (hr : call A p n z = some y) :
    ∃ v, Itx.call C p n x = some v ∧ Rels R v y := by
  rw [Itx.call, Option.bind_eq_some_iff] at hr
  obtain ⟨z', hz, hr⟩ := hr
  obtain ⟨s', hs1, hs2⟩ := h.run p (hx.load 0) hz
  obtain ⟨m, hm1, hm2⟩ := hs2.unload n 0 hr
  exact ⟨m, by rw [Itx.call, hs1, Option.bind_some, hm1], hm2⟩

/-! ## Bounds of absolute values -/

/-- A bound that is below 2^31. -/
def ck (v : Nat) : Option Nat := if Nat.ble v 2147483647 then some v else none

/-- Bounds when CLIP gives absolute values up to `M`. -/
def bnd (M : Nat) : Dom Nat where
  lit k := k.natAbs
  add a b := ck (a + b)
  sub a b := ck (a + b)
  mul a k := ck (a * k.natAbs)
  shr a n := some (a / 2 ^ n + 1)
  neg a := ck a
  clip _ := some M
  keep v k := match v with
    | 0 => k 0
    | n + 1 => k (n + 1)
  keep_eq v k := by cases v <;> rfl

def Bd (v : Int) (b : Nat) : Prop := v.natAbs ≤ b

theorem fit_of {v : Int} (h : v.natAbs ≤ 2147483647) : fit v = some v := by
  rw [fit, if_pos]; omega

theorem ck_some {a r : Nat} (h : ck a = some r) : a = r ∧ r ≤ 2147483647 := by
  rw [ck] at h
  split at h
  · rename_i hb
    cases h
    exact ⟨rfl, Nat.le_of_ble_eq_true hb⟩
  · cases h

theorem iclip_abs {v lo hi : Int} {M : Nat} (h1 : -(M : Int) ≤ lo) (h2 : lo ≤ hi) (h3 : hi ≤ M) :
    (iclip v lo hi).natAbs ≤ M := by
  rw [iclip]
  split
  · omega
  · split <;> omega

theorem bnd_safe {lo hi : Int} {M : Nat} (h1 : -(M : Int) ≤ lo) (h2 : lo ≤ hi) (h3 : hi ≤ M) :
    Safe Bd (int32 lo hi) (bnd M) where
  lit k := Nat.le_refl _
  add := by
    intro x y a b r hx hy hr
    obtain ⟨rfl, hb⟩ := ck_some hr
    have h : (x + y).natAbs ≤ a + b := Nat.le_trans (Int.natAbs_add_le x y) (Nat.add_le_add hx hy)
    exact ⟨x + y, fit_of (Nat.le_trans h hb), h⟩
  sub := by
    intro x y a b r hx hy hr
    obtain ⟨rfl, hb⟩ := ck_some hr
    have h : (x - y).natAbs ≤ a + b := Nat.le_trans (Int.natAbs_sub_le x y) (Nat.add_le_add hx hy)
    exact ⟨x - y, fit_of (Nat.le_trans h hb), h⟩
  mul := by
    intro x a k r hx hr
    obtain ⟨rfl, hb⟩ := ck_some hr
    have h : (x * k).natAbs ≤ a * k.natAbs := by rw [Int.natAbs_mul]; exact Nat.mul_le_mul_right _ hx
    exact ⟨x * k, fit_of (Nat.le_trans h hb), h⟩
  shr := by
    intro x a n r hx hr
    cases hr
    refine ⟨_, rfl, ?_⟩
    show (x / 2 ^ n).natAbs ≤ a / 2 ^ n + 1
    have hp : (0 : Int) < 2 ^ n := Int.pow_pos (by decide)
    have hx' : x.natAbs ≤ a := hx
    have hc : ((2 : Int) ^ n) = ((2 ^ n : Nat) : Int) := by simp
    have hpn : 0 < 2 ^ n := Nat.pow_pos (by decide)
    rw [hc]
    generalize hq : 2 ^ n = q at *
    have e1 : a / q * q ≤ a := Nat.div_mul_le_self a q
    have e2 : a < (a / q + 1) * q := by
      rw [Nat.mul_comm]; exact Nat.lt_mul_div_succ a hpn
    have hlow : -((a / q + 1 : Nat) : Int) ≤ x / (q : Int) := by
      rw [Int.le_ediv_iff_mul_le (by omega)]
      have : -((a / q + 1 : Nat) : Int) * (q : Int) = -(((a / q + 1) * q : Nat) : Int) := by
        rw [Int.natCast_mul, Int.neg_mul]
      rw [this]
      omega
    have hhigh : x / (q : Int) < ((a / q + 1 : Nat) : Int) := by
      rw [Int.ediv_lt_iff_lt_mul (by omega)]
      have : ((a / q + 1 : Nat) : Int) * (q : Int) = (((a / q + 1) * q : Nat) : Int) := by
        rw [Int.natCast_mul]
      rw [this]
      omega
    omega
  neg := by
    intro x a r hx hr
    obtain ⟨rfl, hb⟩ := ck_some hr
    have h : (-x).natAbs ≤ a := by rw [Int.natAbs_neg]; exact hx
    exact ⟨-x, fit_of (Nat.le_trans h hb), h⟩
  clip := by
    intro x a r _ hr
    cases hr
    exact ⟨_, rfl, iclip_abs h1 h2 h3⟩

theorem Rels.replicate {α β : Type} {R : α → β → Prop} {b : β} : ∀ {x : List α}, (∀ v ∈ x, R v b) →
    Rels R x (List.replicate x.length b)
  | [], _ => .nil
  | v :: x, h => .cons (h v (List.mem_cons_self ..)) (Rels.replicate fun w hw => h w (List.mem_cons_of_mem _ hw))

theorem Rels.mem {α β : Type} {R : α → β → Prop} {x : List α} {y : List β} (h : Rels R x y) :
    ∀ v ∈ x, ∃ w ∈ y, R v w := by
  induction h with
  | nil => intro v hv; cases hv
  | @cons v w s z hvw _ ih =>
    intro u hu
    rcases List.mem_cons.1 hu with rfl | hu
    · exact ⟨w, List.mem_cons_self .., hvw⟩
    · obtain ⟨w', hw', h'⟩ := ih u hu
      exact ⟨w', List.mem_cons_of_mem _ hw', h'⟩

/-- The bounds computed for `nin` inputs up to `B`: `nout` results up to `Bo`. -/
def bounded (p : Prog) (nin nout B M Bo : Nat) : Bool :=
  match call (bnd M) p nout (List.replicate nin B) with
  | some y => y.all (Nat.ble · Bo) && Nat.beq y.length nout
  | none => false

theorem bounded_call {p : Prog} {nin nout B M Bo : Nat} (h : bounded p nin nout B M Bo = true) {lo hi : Int}
    (h1 : -(M : Int) ≤ lo) (h2 : lo ≤ hi) (h3 : hi ≤ M) {x : List Int} (hl : x.length = nin) (hx : ∀ v ∈ x, v.natAbs ≤ B) :
    ∃ y, call (int32 lo hi) p nout x = some y ∧ y.length = nout ∧ ∀ v ∈ y, v.natAbs ≤ Bo := by
  rw [bounded] at h
  cases hc : call (bnd M) p nout (List.replicate nin B) with
  | none => rw [hc] at h; cases h
  | some z =>
    rw [hc] at h
    dsimp only at h
    rw [Bool.and_eq_true, List.all_eq_true] at h
    subst hl
    obtain ⟨y, hy1, hy2⟩ := (bnd_safe h1 h2 h3).call (Rels.replicate (R := Bd) hx) hc
    refine ⟨y, hy1, by rw [hy2.length]; exact Nat.eq_of_beq_eq_true h.2, fun v hv => ?_⟩
    obtain ⟨w, hw, hvw⟩ := hy2.mem v hv
    exact Nat.le_trans hvw (Nat.le_of_ble_eq_true (h.1 w hw))

/-! ## A block with only a DC coefficient -/

/-- Constants and the values that occur for one input `dc`: itself, `dc * 181`, that plus 128, that shifted by 8, and that
clipped. -/
inductive Sym where
  | con (k : Int) | dc | m | a | s | cs

def Sym.val (v lo hi : Int) : Sym → Int
  | .con k => k
  | .dc => v
  | .m => v * 181
  | .a => v * 181 + 128
  | .s => asr (v * 181 + 128) 8
  | .cs => iclip (asr (v * 181 + 128) 8) lo hi

def ckc (k : Int) : Option Sym := if k.natAbs ≤ 2147483647 then some (.con k) else none

def sym : Dom Sym where
  lit k := .con k
  add x y := match x, y with
    | .con j, .con k => ckc (j + k)
    | .m, .con k => if k = 128 then some .a else none
    | .m, _ => none
    | .con j, y => if j = 0 then some y else none
    | x, .con k => if k = 0 then some x else none
    | _, _ => none
  sub x y := match x, y with
    | .con j, .con k => ckc (j - k)
    | x, .con k => if k = 0 then some x else none
    | _, _ => none
  mul x j := match x with
    | .con k => ckc (k * j)
    | .dc => if j = 181 then some .m else none
    | _ => none
  shr x n := match x with
    | .con k => some (.con (asr k n))
    | .a => if n = 8 then some .s else none
    | _ => none
  neg x := match x with
    | .con k => ckc (-k)
    | _ => none
  clip x := match x with
    | .con k => if k = 0 then some (.con 0) else none
    | .s => some .cs
    | .cs => some .cs
    | _ => none
  keep x f := match x with
    | .con k => if k = 0 then f (.con 0) else f (.con k)
    | .dc => f .dc
    | .m => f .m
    | .a => f .a
    | .s => f .s
    | .cs => f .cs
  keep_eq x f := by
    cases x with
    | con k =>
      dsimp only
      split
      · rename_i h; rw [h]
      · rfl
    | _ => rfl

/-- The ranges in which the analysis is right. -/
structure SymOk (v lo hi : Int) : Prop where
  v1 : -1048576 ≤ v
  v2 : v ≤ 1048576
  lo1 : -2147483647 ≤ lo
  lo0 : lo ≤ 0
  hi0 : 0 ≤ hi
  hi1 : hi ≤ 2147483647

theorem iclip_zero {lo hi : Int} (h1 : lo ≤ 0) (h2 : 0 ≤ hi) : iclip 0 lo hi = 0 := by
  rw [iclip, if_neg (by omega), if_neg (by omega)]

theorem iclip_iclip {v lo hi : Int} (h : lo ≤ hi) : iclip (iclip v lo hi) lo hi = iclip v lo hi := by
  simp only [iclip]
  by_cases h1 : v < lo
  · simp only [if_pos h1]; rw [if_neg (by omega), if_neg (by omega)]
  · simp only [if_neg h1]
    by_cases h2 : v > hi
    · simp only [if_pos h2]; rw [if_neg (by omega), if_neg (by omega)]
    · simp only [if_neg h2, if_neg h1]

theorem asr_abs {x : Int} {n : Nat} : (asr x n).natAbs ≤ x.natAbs := by
  rw [asr]
  have hc : ((2 : Int) ^ n) = ((2 ^ n : Nat) : Int) := by simp
  have hpn : 0 < 2 ^ n := Nat.pow_pos (by decide)
  rw [hc]
  generalize 2 ^ n = q at *
  exact Int.natAbs_ediv_le_natAbs x q

theorem Sym.val_fit {v lo hi : Int} (h : SymOk v lo hi) : ∀ x : Sym, (∀ k, x ≠ .con k) → (x.val v lo hi).natAbs ≤ 2147483647
  | .con k, hk => absurd rfl (hk k)
  | .dc, _ => by have := h.v1; have := h.v2; rw [Sym.val]; omega
  | .m, _ => by have := h.v1; have := h.v2; rw [Sym.val]; omega
  | .a, _ => by have := h.v1; have := h.v2; rw [Sym.val]; omega
  | .s, _ => by
      have := h.v1; have := h.v2; rw [Sym.val]
      exact Nat.le_trans asr_abs (by omega)
  | .cs, _ => by
      rw [Sym.val]
      exact iclip_abs (M := 2147483647) h.lo1 (by have := h.lo0; have := h.hi0; omega) h.hi1

theorem ckc_some {k : Int} {r : Sym} (h : ckc k = some r) : r = .con k ∧ fit k = some k := by
  rw [ckc] at h
  split at h
  · rename_i hk
    cases h
    exact ⟨rfl, fit_of hk⟩
  · cases h

theorem fit_val {v lo hi : Int} (h : SymOk v lo hi) {x : Sym} (hx : ∀ k, x ≠ .con k) :
    fit (x.val v lo hi) = some (x.val v lo hi) := fit_of (Sym.val_fit h x hx)

theorem sym_add {v lo hi : Int} (h : SymOk v lo hi) : ∀ (x y : Sym) {r : Sym}, sym.add x y = some r →
    fit (x.val v lo hi + y.val v lo hi) = some (r.val v lo hi) := by
  have nn : ∀ x : Sym, (∀ k, x ≠ .con k) → fit (x.val v lo hi + 0) = some (x.val v lo hi) := fun x hx => by
    rw [Int.add_zero]; exact fit_val h hx
  have zz : ∀ x : Sym, (∀ k, x ≠ .con k) → fit (0 + x.val v lo hi) = some (x.val v lo hi) := fun x hx => by
    rw [Int.zero_add]; exact fit_val h hx
  intro x y r hr
  cases x with
  | con j =>
    cases y with
    | con k =>
      obtain ⟨rfl, hf⟩ := ckc_some hr
      exact hf
    | _ =>
      change (if j = 0 then some _ else none) = some r at hr
      split at hr
      · rename_i hj; subst hj; cases hr
        exact zz _ (fun k hk => by cases hk)
      · cases hr
  | m =>
    cases y with
    | con k =>
      change (if k = 128 then some Sym.a else none) = some r at hr
      split at hr
      · rename_i hj; subst hj; cases hr
        exact fit_val h (x := .a) (fun k hk => by cases hk)
      · cases hr
    | _ => cases hr
  | _ =>
    cases y with
    | con k =>
      change (if k = 0 then some _ else none) = some r at hr
      split at hr
      · rename_i hj; subst hj; cases hr
        exact nn _ (fun k hk => by cases hk)
      · cases hr
    | _ => cases hr

theorem sym_sub {v lo hi : Int} (h : SymOk v lo hi) : ∀ (x y : Sym) {r : Sym}, sym.sub x y = some r →
    fit (x.val v lo hi - y.val v lo hi) = some (r.val v lo hi) := by
  have nn : ∀ x : Sym, (∀ k, x ≠ .con k) → fit (x.val v lo hi - 0) = some (x.val v lo hi) := fun x hx => by
    rw [Int.sub_zero]; exact fit_val h hx
  intro x y r hr
  cases x with
  | con j =>
    cases y with
    | con k =>
      obtain ⟨rfl, hf⟩ := ckc_some hr
      exact hf
    | _ => cases hr
  | _ =>
    cases y with
    | con k =>
      change (if k = 0 then some _ else none) = some r at hr
      split at hr
      · rename_i hj; subst hj; cases hr
        exact nn _ (fun k hk => by cases hk)
      · cases hr
    | _ => cases hr

theorem sym_safe {v lo hi : Int} (h : SymOk v lo hi) : Safe (fun w (x : Sym) => w = x.val v lo hi) (int32 lo hi) sym where
  lit _ := rfl
  add := by
    rintro _ _ a b r rfl rfl hr
    exact ⟨_, sym_add h a b hr, rfl⟩
  sub := by
    rintro _ _ a b r rfl rfl hr
    exact ⟨_, sym_sub h a b hr, rfl⟩
  mul := by
    rintro _ a k r rfl hr
    cases a with
    | con j =>
      obtain ⟨rfl, hf⟩ := ckc_some hr
      exact ⟨_, hf, rfl⟩
    | dc =>
      change (if k = 181 then some Sym.m else none) = some r at hr
      split at hr
      · rename_i hj; subst hj; cases hr
        exact ⟨_, fit_val h (x := .m) (fun k hk => by cases hk), rfl⟩
      · cases hr
    | _ => cases hr
  shr := by
    rintro _ a k r rfl hr
    cases a with
    | con j => cases hr; exact ⟨_, rfl, rfl⟩
    | a =>
      change (if k = 8 then some Sym.s else none) = some r at hr
      split at hr
      · rename_i hj; subst hj; cases hr
        exact ⟨_, rfl, rfl⟩
      · cases hr
    | _ => cases hr
  neg := by
    rintro _ a r rfl hr
    cases a with
    | con j =>
      obtain ⟨rfl, hf⟩ := ckc_some hr
      exact ⟨_, hf, rfl⟩
    | _ => cases hr
  clip := by
    rintro _ a r rfl hr
    cases a with
    | con j =>
      change (if j = 0 then some (Sym.con 0) else none) = some r at hr
      split at hr
      · rename_i hj; subst hj; cases hr
        exact ⟨_, rfl, iclip_zero h.lo0 h.hi0⟩
      · cases hr
    | s => cases hr; exact ⟨_, rfl, rfl⟩
    | cs =>
      cases hr
      exact ⟨_, rfl, iclip_iclip (by have := h.lo0; have := h.hi0; omega)⟩
    | _ => cases hr

def Sym.isCs : Sym → Bool
  | .cs => true
  | _ => false

def Sym.isZero : Sym → Bool
  | .con k => k == 0
  | _ => false

/-- The analysis shows that all results are the clipped `(dc * 181 + 128) >> 8`. -/
def dcFlat (p : Prog) (nin nout : Nat) : Bool :=
  match call sym p nout (Sym.dc :: List.replicate nin (.con 0)) with
  | some y => y.all Sym.isCs && Nat.beq y.length nout
  | none => false

/-- The analysis shows that zeros are transformed to zeros. -/
def zeroFlat (p : Prog) (nin nout : Nat) : Bool :=
  match call sym p nout (List.replicate nin (.con 0)) with
  | some y => y.all Sym.isZero && Nat.beq y.length nout
  | none => false

theorem Rels.zeros {v lo hi : Int} : ∀ n, Rels (fun w (x : Sym) => w = x.val v lo hi) (List.replicate n 0)
    (List.replicate n (.con 0))
  | 0 => .nil
  | n + 1 => .cons rfl (Rels.zeros n)

theorem dcFlat_call {p : Prog} {nin nout : Nat} (h : dcFlat p nin nout = true) {v lo hi : Int} (ok : SymOk v lo hi) :
    call (int32 lo hi) p nout (v :: List.replicate nin 0) =
      some (List.replicate nout (iclip (asr (v * 181 + 128) 8) lo hi)) := by
  rw [dcFlat] at h
  cases hc : call sym p nout (Sym.dc :: List.replicate nin (.con 0)) with
  | none => rw [hc] at h; cases h
  | some z =>
    rw [hc] at h
    dsimp only at h
    rw [Bool.and_eq_true, List.all_eq_true] at h
    obtain ⟨y, hy1, hy2⟩ := (sym_safe ok).call (x := v :: List.replicate nin 0) (.cons rfl (Rels.zeros nin)) hc
    rw [hy1]
    congr 1
    rw [List.eq_replicate_iff]
    refine ⟨by rw [hy2.length]; exact Nat.eq_of_beq_eq_true h.2, fun w hw => ?_⟩
    obtain ⟨q, hq, rfl⟩ := hy2.mem w hw
    have := h.1 q hq
    cases q <;> first | rfl | cases this

theorem zeroFlat_call {p : Prog} {nin nout : Nat} (h : zeroFlat p nin nout = true) {lo hi : Int} (ok : SymOk 0 lo hi) :
    call (int32 lo hi) p nout (List.replicate nin 0) = some (List.replicate nout 0) := by
  rw [zeroFlat] at h
  cases hc : call sym p nout (List.replicate nin (.con 0)) with
  | none => rw [hc] at h; cases h
  | some z =>
    rw [hc] at h
    dsimp only at h
    rw [Bool.and_eq_true, List.all_eq_true] at h
    obtain ⟨y, hy1, hy2⟩ := (sym_safe ok).call (Rels.zeros nin) hc
    rw [hy1]
    congr 1
    rw [List.eq_replicate_iff]
    refine ⟨by rw [hy2.length]; exact Nat.eq_of_beq_eq_true h.2, fun w hw => ?_⟩
    obtain ⟨q, hq, rfl⟩ := hy2.mem w hw
    have := h.1 q hq
    cases q with
    | con k => exact eq_of_beq this
    | _ => cases this

end Dav1d.Itx
