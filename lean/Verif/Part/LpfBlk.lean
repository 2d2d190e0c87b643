import Verif.Part.LpfTx
import Verif.Part.TxBlock
import Verif.Part.Order
/-!
# The bits of one block
-/
set_option linter.unusedVariables false
namespace Dav1d.Part.Lpf

/-- The size class of a transform of `n` units. -/
def cls (C : Comp) (n : Nat) : Nat := min (C.sizes - 1) n.log2

theorem cls_y (tx : Nat) (h : tx < 19) : min 2 (txLw tx) = cls .y (txW tx) ∧ min 2 (txLh tx) = cls .y (txH tx) := by
  obtain ⟨h1, h2, _⟩ := tx_facts tx h
  rw [h1, h2]
  unfold cls Comp.sizes
  rw [Nat.log2_two_pow, Nat.log2_two_pow]
  exact ⟨rfl, rfl⟩

theorem cls_uv (p : Plane) (tx : Nat) (h : tx < 19) : (if txLw tx = 0 then 0 else 1) = cls (.uv p) (txW tx) ∧ (if txLh tx = 0 then 0 else 1) = cls (.uv p) (txH tx) := by
  obtain ⟨h1, h2, _⟩ := tx_facts tx h
  rw [h1, h2]
  unfold cls Comp.sizes
  rw [Nat.log2_two_pow, Nat.log2_two_pow]
  dsimp only
  constructor <;> split <;> omega

theorem cls_lt (C : Comp) (n : Nat) : cls C n < C.sizes := by
  unfold cls
  cases C <;> simp only [Comp.sizes] <;> omega

/-- Filtering inside the block. -/
def LBlk.inner (b : LBlk) : Prop := b.intra = true ∨ b.skip = false

/-- Which bit a unit at row `y` and column `x` of a block gets for the edge on its left, when `l` are the sizes on the left of the block; `W` are the
widths of the transforms. -/
def Edge (C : Comp) (inner : Prop) (W : Nat → Nat) (l x s : Nat) : Prop :=
  (x = 0 ∧ s = min (cls C (W 0)) l) ∨ (0 < x ∧ inner ∧ x % W x = 0 ∧ s = min (cls C (W x)) (cls C (W (x - 1))))

/-- All bits of a block. -/
def Bits (C : Comp) (inner : Prop) (W H : Nat → Nat → Nat) (by4 bx4 w4 h4 : Nat) (a l : Nat → Nat) (d line s pos : Nat) : Prop :=
  ∃ y x, y < h4 ∧ x < w4 ∧
    ((d = 0 ∧ line = bx4 + x ∧ pos = by4 + y ∧ Edge C inner (fun x => W y x) (l y) x s) ∨
     (d = 1 ∧ line = by4 + y ∧ pos = bx4 + x ∧ Edge C inner (fun y => H y x) (a x) y s))

/-- Transforms of one size. -/
theorem const_bits {nn : Nat → Nat} (hn : ∀ d, nn d ≤ 16) {ssH ssV : Nat} (hsH : ssH < 2) (hsV : ssV < 2) (h0 : nn 0 = 16 >>> ssV) (h1 : nn 1 = 16 >>> ssH)
    (C : Comp) {by4 bx4 w4 h4 W H : Nat} (hW : 0 < W) (hH : 0 < H) (hw : bx4 + w4 ≤ 2 * (16 >>> ssH)) (hh : by4 + h4 ≤ 2 * (16 >>> ssV)) (pw : 0 < w4) (ph : 0 < h4)
    (a l : Nat → Nat) {m : Mask} {P : Nat → Nat → Nat → Nat → Prop} (h : Rep nn m P) (skip : Bool) :
    Rep nn (
      let m := edgeLoop ssV 0 bx4 by4 h4 (fun y => min (cls C W) (l y)) m
      let m := edgeLoop ssH 1 by4 bx4 w4 (fun x => min (cls C H) (a x)) m
      if skip then m
      else
        let m := innerLoop ssV 0 bx4 by4 h4 W w4 (cls C W) m
        innerLoop ssH 1 by4 bx4 w4 H h4 (cls C H) m)
      (fun d line s pos => P d line s pos ∨ Bits C (skip = false) (fun _ _ => W) (fun _ _ => H) by4 bx4 w4 h4 a l d line s pos) := by
  have e1 := Rep.edge hn (line := bx4) (off := by4) (n := h4) (sz := fun y => min (cls C W) (l y)) hsV h0 h hh
  have e2 := Rep.edge hn (line := by4) (off := bx4) (n := w4) (sz := fun x => min (cls C H) (a x)) hsH h1 e1 hw
  cases skip with
  | true =>
    refine e2.congr ?_
    intro d line s pos hpos
    unfold Bits Edge
    constructor
    · rintro ((h | ⟨rfl, rfl, y, hy, rfl, rfl⟩) | ⟨rfl, rfl, x, hx, rfl, rfl⟩)
      · exact .inl h
      · exact .inr ⟨y, 0, hy, pw, .inl ⟨rfl, rfl, rfl, .inl ⟨rfl, rfl⟩⟩⟩
      · exact .inr ⟨0, x, ph, hx, .inr ⟨rfl, rfl, rfl, .inl ⟨rfl, rfl⟩⟩⟩
    · rintro (h | ⟨y, x, hy, hx, ⟨rfl, rfl, rfl, (⟨rfl, rfl⟩ | ⟨_, hh, _⟩)⟩ | ⟨rfl, rfl, rfl, (⟨rfl, rfl⟩ | ⟨_, hh, _⟩)⟩⟩)
      · exact .inl (.inl h)
      · exact .inl (.inr ⟨rfl, rfl, y, hy, rfl, rfl⟩)
      · cases hh
      · exact .inr ⟨rfl, rfl, x, hx, rfl, rfl⟩
      · cases hh
  | false =>
    have e3 := Rep.inner hn (line := bx4) (step := W) (len := w4) (size := cls C W) hsV h0 hh hW e2
    have e4 := Rep.inner hn (line := by4) (step := H) (len := h4) (size := cls C H) hsH h1 hw hH e3
    refine e4.congr ?_
    intro d line s pos hpos
    unfold Bits Edge
    constructor
    · rintro ((((h | ⟨rfl, rfl, y, hy, rfl, rfl⟩) | ⟨rfl, rfl, x, hx, rfl, rfl⟩) | ⟨rfl, rfl, q1, q2, x, x0, x1, x2, rfl⟩) | ⟨rfl, rfl, q1, q2, y, x0, x1, x2, rfl⟩)
      · exact .inl h
      · exact .inr ⟨y, 0, hy, pw, .inl ⟨rfl, rfl, rfl, .inl ⟨rfl, rfl⟩⟩⟩
      · exact .inr ⟨0, x, ph, hx, .inr ⟨rfl, rfl, rfl, .inl ⟨rfl, rfl⟩⟩⟩
      · exact .inr ⟨pos - by4, x, by omega, x1, .inl ⟨rfl, rfl, by omega, .inr ⟨x0, rfl, x2, (Nat.min_self _).symm⟩⟩⟩
      · exact .inr ⟨y, pos - bx4, x1, by omega, .inr ⟨rfl, rfl, by omega, .inr ⟨x0, rfl, x2, (Nat.min_self _).symm⟩⟩⟩
    · rintro (h | ⟨y, x, hy, hx, ⟨rfl, rfl, rfl, (⟨rfl, rfl⟩ | ⟨x0, -, x2, rfl⟩)⟩ | ⟨rfl, rfl, rfl, (⟨rfl, rfl⟩ | ⟨x0, -, x2, rfl⟩)⟩⟩)
      · exact .inl (.inl (.inl (.inl h)))
      · exact .inl (.inl (.inl (.inr ⟨rfl, rfl, y, hy, rfl, rfl⟩)))
      · exact .inl (.inr ⟨rfl, Nat.min_self _, by omega, by omega, x, x0, hx, x2, rfl⟩)
      · exact .inl (.inl (.inr ⟨rfl, rfl, x, hx, rfl, rfl⟩))
      · exact .inr ⟨rfl, Nat.min_self _, by omega, by omega, y, x0, hy, x2, rfl⟩

/-- Several lines. -/
theorem walks {nn : Nat → Nat} (hn : ∀ d, nn d ≤ 16) {ss dir line len off : Nat} (hs : ss < 2) (hd : nn dir = 16 >>> ss)
    {W w step : Nat → Nat → Nat} (hp : 0 < len) :
    ∀ {n : Nat} {m : Mask} {P : Nat → Nat → Nat → Nat → Prop}, Rep nn m P → off + n ≤ 2 * (16 >>> ss) →
    (∀ y < n, LineOk len (W y) (w y)) → (∀ y < n, ∀ x < len, x % W y x = 0 → step y x = W y x) →
    Rep nn ((List.range n).foldl (fun m y => Lpf.walk dir line len (sidx ss (off + y)) (smask ss (off + y)) (w y) (step y) len (step y 0) (w y 0) m) m)
      (fun d l s k => P d l s k ∨ (d = dir ∧ ∃ y, y < n ∧ k = off + y ∧ ∃ x, 0 < x ∧ x < len ∧ x % W y x = 0 ∧ l = line + x ∧ s = min (w y x) (w y (x - 1))))
  | 0, m, P, h, hk, hL, hst => h.congr fun d l s k _ => ⟨.inl, fun x => x.elim id fun ⟨_, y, hy, _⟩ => absurd hy (Nat.not_lt_zero _)⟩
  | n + 1, m, P, h, hk, hL, hst => by
    rw [List.range_succ, List.foldl_append]
    simp only [List.foldl_cons, List.foldl_nil]
    have ih := walks hn (line := line) (off := off) hs hd hp h (n := n) (by omega) (fun y hy => hL y (by omega)) (fun y hy => hst y (by omega))
    have hLn := hL n (by omega)
    have hsn := hst n (by omega)
    have e0 : step n 0 = W n 0 := hsn 0 hp (Nat.zero_mod _)
    have p0 := hLn.pos 0 hp
    have hin : ∀ k, k < len → k < W n 0 → W n k = W n 0 ∧ w n k = w n 0 := fun k h1 h2 =>
      hLn.cell 0 k hp h1 (by rw [Nat.zero_div, Nat.div_eq_of_lt h2])
    refine (Rep.walk hn (line := line) hs hd (pos := off + n) (by omega) hLn hsn len (step n 0) (w n 0) _ _ ih (by omega) ?_ (by omega)).congr ?_
    · intro hlt
      rw [e0] at hlt ⊢
      have := hLn.next (x := 0) (Nat.zero_mod _) (by omega)
      rw [Nat.zero_add] at this
      exact ⟨this.1, (hin (W n 0 - 1) (by omega) (by omega)).2.symm⟩
    · intro d l s k _
      constructor
      · rintro ((h | ⟨a, y, hy, c⟩) | ⟨a, b, x, x0, x1, x2, x3⟩)
        · exact .inl h
        · exact .inr ⟨a, y, by omega, c⟩
        · exact .inr ⟨a, n, by omega, b, x, by omega, x1, x2, x3⟩
      · rintro (h | ⟨a, y, hy, b, x, x0, x1, x2, x3⟩)
        · exact .inl (.inl h)
        · by_cases hyn : y = n
          · subst hyn
            refine .inr ⟨a, b, x, ?_, x1, x2, x3⟩
            rw [e0]
            refine Nat.le_of_not_lt fun hlt => ?_
            rw [(hin x x1 hlt).1, Nat.mod_eq_of_lt hlt] at x2
            omega
          · exact .inl (.inr ⟨a, y, by omega, b, x, x0, x1, x2, x3⟩)

/-- What is known about `txa`: the classes and the steps for the transforms of widths `W` and heights `H`, each of which occupies an aligned cell. -/
structure TxaOk (C : Comp) (w4 h4 : Nat) (W H : Nat → Nat → Nat) (t : Txa) : Prop where
  pos : ∀ y < h4, ∀ x < w4, 0 < W y x ∧ 0 < H y x
  w : ∀ y < h4, ∀ x < w4, t.w y x = cls C (W y x)
  h : ∀ y < h4, ∀ x < w4, t.h y x = cls C (H y x)
  sx : ∀ y < h4, ∀ x < w4, x % W y x = 0 → t.stepX y x = W y x
  sy : ∀ y < h4, ∀ x < w4, y % H y x = 0 → t.stepY y x = H y x
  cell : ∀ y < h4, ∀ x < w4, ∀ y' < h4, ∀ x' < w4, y' / H y x = y / H y x → x' / W y x = x / W y x → W y' x' = W y x ∧ H y' x' = H y x

theorem inter_bits {nn : Nat → Nat} (hn : ∀ d, nn d ≤ 16) (h0 : nn 0 = 16 >>> 0) (h1 : nn 1 = 16 >>> 0)
    (C : Comp) {by4 bx4 w4 h4 : Nat} {W H : Nat → Nat → Nat} (hw : bx4 + w4 ≤ 2 * (16 >>> 0)) (hh : by4 + h4 ≤ 2 * (16 >>> 0)) (pw : 0 < w4) (ph : 0 < h4)
    (a l : Nat → Nat) {m : Mask} {P : Nat → Nat → Nat → Nat → Prop} (h : Rep nn m P) (skip : Bool) {t : Txa} (ht : TxaOk C w4 h4 W H t) :
    Rep nn (maskEdgesInter m by4 bx4 w4 h4 skip t a l)
      (fun d line s pos => P d line s pos ∨ Bits C (skip = false) W H by4 bx4 w4 h4 a l d line s pos) := by
  have e1 := Rep.edge hn (line := bx4) (off := by4) (n := h4) (sz := fun y => min (t.w y 0) (l y)) (by decide : 0 < 2) h0 h hh
  have e2 := Rep.edge hn (line := by4) (off := bx4) (n := w4) (sz := fun x => min (t.h 0 x) (a x)) (by decide : 0 < 2) h1 e1 hw
  unfold maskEdgesInter
  cases skip with
  | true =>
    refine e2.congr ?_
    intro d line s pos hpos
    unfold Bits Edge
    constructor
    · rintro ((h | ⟨rfl, rfl, y, hy, rfl, rfl⟩) | ⟨rfl, rfl, x, hx, rfl, rfl⟩)
      · exact .inl h
      · exact .inr ⟨y, 0, hy, pw, .inl ⟨rfl, rfl, rfl, .inl ⟨rfl, by rw [ht.w y hy 0 pw]⟩⟩⟩
      · exact .inr ⟨0, x, ph, hx, .inr ⟨rfl, rfl, rfl, .inl ⟨rfl, by rw [ht.h 0 ph x hx]⟩⟩⟩
    · rintro (h | ⟨y, x, hy, hx, ⟨rfl, rfl, rfl, (⟨rfl, rfl⟩ | ⟨_, hh, _⟩)⟩ | ⟨rfl, rfl, rfl, (⟨rfl, rfl⟩ | ⟨_, hh, _⟩)⟩⟩)
      · exact .inl (.inl h)
      · exact .inl (.inr ⟨rfl, rfl, y, hy, rfl, by rw [ht.w y hy 0 pw]⟩)
      · cases hh
      · exact .inr ⟨rfl, rfl, x, hx, rfl, by rw [ht.h 0 ph x hx]⟩
      · cases hh
  | false =>
    have e3 := walks hn (line := bx4) (off := by4) (len := w4) (dir := 0) (ss := 0) (W := W) (w := t.w) (step := t.stepX) (by decide) h0 pw e2 hh
      (fun y hy => ⟨fun x hx => (ht.pos y hy x hx).1, fun k k' hk hk' he => by
        have := ht.cell y hy k hk y hy k' hk' rfl he
        rw [ht.w y hy k' hk', ht.w y hy k hk, this.1]; exact ⟨rfl, rfl⟩⟩) (fun y hy x hx => ht.sx y hy x hx)
    have e4 := walks hn (line := by4) (off := bx4) (len := h4) (dir := 1) (ss := 0) (W := fun x y => H y x) (w := fun x y => t.h y x)
      (step := fun x y => t.stepY y x) (by decide) h1 ph e3 hw
      (fun x hx => ⟨fun y hy => (ht.pos y hy x hx).2, fun k k' hk hk' he => by
        have := ht.cell k hk x hx k' hk' x hx he rfl
        rw [ht.h k' hk' x hx, ht.h k hk x hx, this.2]; exact ⟨rfl, rfl⟩⟩) (fun x hx y hy => ht.sy y hy x hx)
    refine e4.congr ?_
    intro d line s pos hpos
    unfold Bits Edge
    constructor
    · rintro ((((h | ⟨rfl, rfl, y, hy, rfl, rfl⟩) | ⟨rfl, rfl, x, hx, rfl, rfl⟩) | ⟨rfl, y, hy, rfl, x, x0, x1, x2, rfl, rfl⟩) | ⟨rfl, x, hx, rfl, y, x0, x1, x2, rfl, rfl⟩)
      · exact .inl h
      · exact .inr ⟨y, 0, hy, pw, .inl ⟨rfl, rfl, rfl, .inl ⟨rfl, by rw [ht.w y hy 0 pw]⟩⟩⟩
      · exact .inr ⟨0, x, ph, hx, .inr ⟨rfl, rfl, rfl, .inl ⟨rfl, by rw [ht.h 0 ph x hx]⟩⟩⟩
      · exact .inr ⟨y, x, hy, x1, .inl ⟨rfl, rfl, rfl, .inr ⟨x0, rfl, x2, by rw [ht.w y hy x x1, ht.w y hy (x - 1) (by omega)]⟩⟩⟩
      · exact .inr ⟨y, x, x1, hx, .inr ⟨rfl, rfl, rfl, .inr ⟨x0, rfl, x2, by rw [ht.h y x1 x hx, ht.h (y - 1) (by omega) x hx]⟩⟩⟩
    · rintro (h | ⟨y, x, hy, hx, ⟨rfl, rfl, rfl, (⟨rfl, rfl⟩ | ⟨x0, -, x2, rfl⟩)⟩ | ⟨rfl, rfl, rfl, (⟨rfl, rfl⟩ | ⟨x0, -, x2, rfl⟩)⟩⟩)
      · exact .inl (.inl (.inl (.inl h)))
      · exact .inl (.inl (.inl (.inr ⟨rfl, rfl, y, hy, rfl, by rw [ht.w y hy 0 pw]⟩)))
      · exact .inl (.inr ⟨rfl, y, hy, rfl, x, x0, hx, x2, rfl, by rw [ht.w y hy x hx, ht.w y hy (x - 1) (by omega)]⟩)
      · exact .inl (.inl (.inr ⟨rfl, rfl, x, hx, rfl, by rw [ht.h 0 ph x hx]⟩))
      · exact .inr ⟨rfl, x, hx, rfl, y, x0, hy, x2, rfl, by rw [ht.h y hy x hx, ht.h (y - 1) (by omega) x hx]⟩

/-! ## Absolute positions -/

/-- Size of an Av1Filter in units of the plane. -/
def Cfg.NW (C : Cfg) : Nat := 32 >>> C.comp.plane.ssH
def Cfg.NH (C : Cfg) : Nat := 32 >>> C.comp.plane.ssV
def Cfg.nn (C : Cfg) (d : Nat) : Nat := if d = 0 then 16 >>> C.comp.plane.ssV else 16 >>> C.comp.plane.ssH

/-- Size of a block inside the picture. -/
def Cfg.cw (C : Cfg) (c : Call) : Nat := match C.comp with
  | .y => lumaW C.D c
  | .uv p => chromaW p C.D c
def Cfg.ch (C : Cfg) (c : Call) : Nat := match C.comp with
  | .y => lumaH C.D c
  | .uv p => chromaH p C.D c

def Cfg.px (C : Cfg) (c : Call) : Nat := C.comp.plane.x c
def Cfg.py (C : Cfg) (c : Call) : Nat := C.comp.plane.y c

/-- The size of the transform of a unit of a block. -/
def Cfg.W (C : Cfg) (c : Call) (y x : Nat) : Nat := (Av1.txDim C.comp (C.info c) y x).1
def Cfg.H (C : Cfg) (c : Call) (y x : Nat) : Nat := (Av1.txDim C.comp (C.info c) y x).2

/-- The block writes the unit. -/
def Cfg.Has (C : Cfg) (c : Call) (X Y : Nat) : Prop :=
  hasPlane C.comp.plane c = true ∧ C.px c ≤ X ∧ X < C.px c + C.cw c ∧ C.py c ≤ Y ∧ Y < C.py c + C.ch c

/-- The bits of a block. -/
def Cfg.Blk (C : Cfg) (L : Loc) (c : Call) (d X Y s : Nat) : Prop := C.Has c X Y ∧
  ((d = 0 ∧ Edge C.comp (C.info c).inner (fun x => C.W c (Y - C.py c) x) (L.l (Y % C.NH)) (X - C.px c) s) ∨
   (d = 1 ∧ Edge C.comp (C.info c).inner (fun y => C.H c y (X - C.px c)) (L.a X) (Y - C.py c) s))

/-- The words have exactly the bits `P`: direction, column, row and size. -/
def FRep (C : Cfg) (m : Nat → Nat → Mask) (P : Nat → Nat → Nat → Nat → Prop) : Prop := ∀ r k,
  Rep C.nn (m r k) (fun d l s pos => (d = 0 ∧ l < C.NW ∧ P 0 (k * C.NW + l) (r * C.NH + pos) s) ∨ (d = 1 ∧ l < C.NH ∧ P 1 (k * C.NW + pos) (r * C.NH + l) s))

theorem FRep.congr {C : Cfg} {m : Nat → Nat → Mask} {P Q : Nat → Nat → Nat → Nat → Prop} (h : FRep C m P) (e : ∀ d X Y s, d < 2 → (P d X Y s ↔ Q d X Y s)) : FRep C m Q :=
  fun r k => (h r k).congr fun d l s pos _ => by rw [e 0 _ _ _ (by decide), e 1 _ _ _ (by decide)]

/-- What is known about a block. -/
structure BlkOk (C : Cfg) (c : Call) : Prop where
  ssH : C.comp.plane.ssH < 2
  ssV : C.comp.plane.ssV < 2
  w4 : C.D.w4 ≤ C.f.bw ∧ C.f.bw ≤ C.D.w4 + 1
  h4 : C.D.h4 ≤ C.f.bh ∧ C.f.bh ≤ C.D.h4 + 1
  evW : C.f.bw % 2 = 0
  evH : C.f.bh % 2 = 0
  bs : c.bs < 22
  ax : c.x % bsW c.bs = 0
  ay : c.y % bsH c.bs = 0
  x : c.x < C.f.bw
  y : c.y < C.f.bh
  valid : (C.info c).Valid C.comp c

theorem bs_facts : ∀ b < 22, (bsW b = 1 ∨ bsW b = 2 ∨ bsW b = 4 ∨ bsW b = 8 ∨ bsW b = 16 ∨ bsW b = 32) ∧
    (bsH b = 1 ∨ bsH b = 2 ∨ bsH b = 4 ∨ bsH b = 8 ∨ bsH b = 16 ∨ bsH b = 32) := by decide

theorem cell_one {x w : Nat} (hw : w = 1 ∨ w = 2 ∨ w = 4 ∨ w = 8 ∨ w = 16 ∨ w = 32) (h : x % w = 0) : x % 32 + w ≤ 32 := by
  rcases hw with rfl | rfl | rfl | rfl | rfl | rfl <;> omega

/-- A block does not cross the Av1Filter. -/
theorem BlkOk.cell {C : Cfg} {c : Call} (h : BlkOk C c) : C.px c % C.NW + C.cw c ≤ C.NW ∧ C.py c % C.NH + C.ch c ≤ C.NH ∧
    C.px c / C.NW = c.x / 32 ∧ C.py c / C.NH = c.y / 32 ∧ C.NW = 2 * C.nn 1 ∧ C.NH = 2 * C.nn 0 ∧
    C.px c % C.NW = (c.x % 32) >>> C.comp.plane.ssH ∧ C.py c % C.NH = (c.y % 32) >>> C.comp.plane.ssV ∧
    C.px c = c.x >>> C.comp.plane.ssH ∧ C.py c = c.y >>> C.comp.plane.ssV := by
  obtain ⟨f1, f2⟩ := bs_facts _ h.bs
  have c1 := cell_one f1 h.ax
  have c2 := cell_one f2 h.ay
  have g1 := h.ax
  have g2 := h.ay
  have s1 := h.ssH
  have s2 := h.ssV
  unfold Cfg.NW Cfg.NH Cfg.px Cfg.py Cfg.cw Cfg.ch Cfg.nn Plane.x Plane.y
  cases hC : C.comp with
  | y =>
    simp only [Comp.plane, luma, lumaW, lumaH, Nat.shiftRight_zero, Nat.pow_zero, Nat.div_one]
    simp only [if_true, Nat.one_ne_zero, if_false]
    refine ⟨?_, ?_, ?_, ?_, ?_, ?_, ?_, ?_, ?_, ?_⟩ <;> first | trivial | omega
  | uv p =>
    rw [hC] at s1 s2
    simp only [Comp.plane, chromaW, chromaH, if_true, Nat.one_ne_zero, if_false] at s1 s2 ⊢
    have e1 : p.ssH = 0 ∨ p.ssH = 1 := by omega
    have e2 : p.ssV = 0 ∨ p.ssV = 1 := by omega
    generalize bsW c.bs = w at *
    generalize bsH c.bs = hh at *
    have a1 : c.x % 2 = 0 ∨ w = 1 := by rcases f1 with rfl | rfl | rfl | rfl | rfl | rfl <;> omega
    have a2 : c.y % 2 = 0 ∨ hh = 1 := by rcases f2 with rfl | rfl | rfl | rfl | rfl | rfl <;> omega
    have b1 : w % 2 = 0 ∨ w = 1 := by omega
    have b2 : hh % 2 = 0 ∨ hh = 1 := by omega
    rcases e1 with e1 | e1 <;> rcases e2 with e2 | e2 <;> rw [e1, e2] <;> simp only [Nat.shiftRight_eq_div_pow, Nat.pow_one, Nat.pow_zero, Nat.div_one] <;>
      (refine ⟨?_, ?_, ?_, ?_, ?_, ?_, ?_, ?_, ?_, ?_⟩ <;> first | trivial | omega)

/-- Where a unit of an Av1Filter is. -/
theorem in_cell {n k l X P w : Nat} (hX : X = k * n + l) (hl : l < n) (h1 : P ≤ X) (h2 : X < P + w) (hc : P % n + w ≤ n) : k = P / n ∧ l = P % n + (X - P) := by
  have hn : 0 < n := by omega
  have e := Nat.div_add_mod P n
  rw [Nat.mul_comm] at e
  have hq : X / n = k := by rw [hX, Nat.mul_comm, Nat.mul_add_div hn, Nat.div_eq_of_lt hl]; rfl
  have hp : X / n = P / n := by
    rw [Nat.div_eq_iff hn]; omega
  have hk : k = P / n := by rw [← hq, hp]
  refine ⟨hk, ?_⟩
  rw [← hk] at e
  omega

/-- The bits of one Av1Filter in terms of absolute positions. -/
theorem bits_abs {C : Cfg} {c : Call} (h : BlkOk C c) (hp : hasPlane C.comp.plane c = true) (L : Loc) {d l s pos r k : Nat} (hpos : pos < 2 * C.nn d) :
    ((d = 0 ∧ l < C.NW ∧ C.Blk L c 0 (k * C.NW + l) (r * C.NH + pos) s) ∨ (d = 1 ∧ l < C.NH ∧ C.Blk L c 1 (k * C.NW + pos) (r * C.NH + l) s)) ↔
    (r = c.y / 32 ∧ k = c.x / 32 ∧ Bits C.comp (C.info c).inner (C.W c) (C.H c) (C.py c % C.NH) (C.px c % C.NW) (C.cw c) (C.ch c)
      (fun i => L.a (C.px c + i)) (fun i => L.l (C.py c % C.NH + i)) d l s pos) := by
  obtain ⟨c1, c2, c3, c4, c5, c6, -⟩ := h.cell
  have n1 : 0 < C.NW := by
    have := h.ssH; rcases word_n h.ssH with h | h <;> unfold Cfg.NW <;> omega
  have n2 : 0 < C.NH := by
    have := h.ssV; rcases word_n h.ssV with h | h <;> unfold Cfg.NH <;> omega
  have m1 := Nat.div_add_mod (C.px c) C.NW
  have m2 := Nat.div_add_mod (C.py c) C.NH
  rw [Nat.mul_comm] at m1 m2
  unfold Cfg.Blk Cfg.Has Bits
  constructor
  · rintro (⟨rfl, hl, ⟨-, x1, x2, y1, y2⟩, (⟨-, he⟩ | ⟨h0, -⟩)⟩ | ⟨rfl, hl, ⟨-, x1, x2, y1, y2⟩, (⟨h0, -⟩ | ⟨-, he⟩)⟩)
    · obtain ⟨a1, a2⟩ := in_cell rfl hl x1 x2 c1
      obtain ⟨b1, b2⟩ := in_cell rfl (by omega) y1 y2 c2
      refine ⟨by rw [b1, c4], by rw [a1, c3], r * C.NH + pos - C.py c, k * C.NW + l - C.px c, by omega, by omega, .inl ⟨rfl, a2, b2, ?_⟩⟩
      have : (r * C.NH + pos) % C.NH = pos := by rw [Nat.mul_comm, Nat.mul_add_mod, Nat.mod_eq_of_lt (by omega)]
      rw [this] at he
      dsimp only
      rw [← b2]; exact he
    · cases h0
    · cases h0
    · obtain ⟨a1, a2⟩ := in_cell rfl (by omega) x1 x2 c1
      obtain ⟨b1, b2⟩ := in_cell rfl hl y1 y2 c2
      refine ⟨by rw [b1, c4], by rw [a1, c3], r * C.NH + l - C.py c, k * C.NW + pos - C.px c, by omega, by omega, .inr ⟨rfl, b2, a2, ?_⟩⟩
      dsimp only
      rw [show C.px c + (k * C.NW + pos - C.px c) = k * C.NW + pos by omega]
      exact he
  · rintro ⟨hr, hk, y, x, hy, hx, ⟨rfl, rfl, rfl, he⟩ | ⟨rfl, rfl, rfl, he⟩⟩
    · rw [← c4] at hr; rw [← c3] at hk
      subst hr hk
      have e1 : C.px c / C.NW * C.NW + (C.px c % C.NW + x) = C.px c + x := by omega
      have e2 : C.py c / C.NH * C.NH + (C.py c % C.NH + y) = C.py c + y := by omega
      have e3 : (C.py c + y) % C.NH = C.py c % C.NH + y := by
        rw [← e2, Nat.mul_comm, Nat.mul_add_mod, Nat.mod_eq_of_lt (by omega)]
      refine .inl ⟨rfl, by omega, ?_, .inl ⟨rfl, ?_⟩⟩
      · rw [e1, e2]; exact ⟨hp, by omega, by omega, by omega, by omega⟩
      · rw [e1, e2, e3, show C.py c + y - C.py c = y by omega, show C.px c + x - C.px c = x by omega]
        exact he
    · rw [← c4] at hr; rw [← c3] at hk
      subst hr hk
      have e1 : C.px c / C.NW * C.NW + (C.px c % C.NW + x) = C.px c + x := by omega
      have e2 : C.py c / C.NH * C.NH + (C.py c % C.NH + y) = C.py c + y := by omega
      refine .inr ⟨rfl, by omega, ?_, .inr ⟨rfl, ?_⟩⟩
      · rw [e1, e2]; exact ⟨hp, by omega, by omega, by omega, by omega⟩
      · rw [e1, e2, show C.py c + y - C.py c = y by omega, show C.px c + x - C.px c = x by omega]
        exact he

/-- `txa` of an inter block. -/
theorem txa_ok {C : Cfg} {c : Call} (hC : C.comp = .y) (h : BlkOk C c) (hi : (C.info c).intra = false) :
    TxaOk .y (lumaW C.D c) (lumaH C.D c) (C.W c) (C.H c) (txaOf C.f C.D C.junk (C.info c) c) := by
  obtain ⟨v1, v2, v3, v4⟩ := h.valid.y hC
  have v4 := v4 hi
  have hw := h.w4
  have hh := h.h4
  have lw : ∀ x < lumaW C.D c, x < bsW c.bs ∧ c.x + x < C.f.bw := by intro x; unfold lumaW; omega
  have lh : ∀ y < lumaH C.D c, y < bsH c.bs ∧ c.y + y < C.f.bh := by intro y; unfold lumaH; omega
  obtain ⟨p1, p2⟩ := tx_pos v1
  -- the leaf at a unit
  have key : ∀ y < lumaH C.D c, ∀ x < lumaW C.D c, ∃ t, t < 19 ∧ C.W c y x = txW t ∧ C.H c y x = txH t ∧ Good (txaOf C.f C.D C.junk (C.info c) c) y x t ∧
      ∀ y' < lumaH C.D c, ∀ x' < lumaW C.D c, y' / txH t = y / txH t → x' / txW t = x / txW t → C.W c y' x' = txW t ∧ C.H c y' x' = txH t := by
    have dims : ∀ y < lumaH C.D c, ∀ x < lumaW C.D c, (txW (leafM (readVartx C.f c (C.info c)) 2 0 (C.info c).ytx (y / txH (C.info c).ytx) (x / txW (C.info c).ytx) (y / txH (C.info c).ytx * txH (C.info c).ytx) (x / txW (C.info c).ytx * txW (C.info c).ytx) y x),
     txH (leafM (readVartx C.f c (C.info c)) 2 0 (C.info c).ytx (y / txH (C.info c).ytx) (x / txW (C.info c).ytx) (y / txH (C.info c).ytx * txH (C.info c).ytx) (x / txW (C.info c).ytx * txW (C.info c).ytx) y x)) =
        (C.W c y x, C.H c y x) := by
      intro y hy x hx
      rw [leaf_dims C.f c v1 v4 (lh y hy).1 (lw x hx).1 (lh y hy).2 (lw x hx).2]
      unfold Cfg.W Cfg.H Av1.txDim
      rw [hC, hi]
      rfl
    intro y hy x hx
    have hd := Prod.mk.injEq .. ▸ dims y hy x hx
    have hin : ∀ y x, InR (y / txH (C.info c).ytx * txH (C.info c).ytx) (x / txW (C.info c).ytx * txW (C.info c).ytx) (txH (C.info c).ytx) (txW (C.info c).ytx) y x := by
      intro y x
      have a1 := Nat.div_add_mod y (txH (C.info c).ytx)
      have a2 := Nat.div_add_mod x (txW (C.info c).ytx)
      have a3 := Nat.mod_lt y p2
      have a4 := Nat.mod_lt x p1
      rw [Nat.mul_comm] at a1 a2
      unfold InR; omega
    have lc := fun y' x' => leaf_cell (readVartx C.f c (C.info c)) 2 0 (C.info c).ytx (y / txH (C.info c).ytx) (x / txW (C.info c).ytx) (y / txH (C.info c).ytx * txH (C.info c).ytx)
      (x / txW (C.info c).ytx * txW (C.info c).ytx) y x y' x' v1 (Nat.mul_mod_left _ _) (Nat.mul_mod_left _ _) (hin y x)
    refine ⟨_, (lc y x).1, hd.1.symm, hd.2.symm, decompAll_good _ v1 hy hx _, ?_⟩
    intro y' hy' x' hx' e1 e2
    obtain ⟨i1, i2⟩ := (lc y' x').2.2.2 e1 e2
    have hd' := Prod.mk.injEq .. ▸ dims y' hy' x' hx'
    have q1 : y' / txH (C.info c).ytx = y / txH (C.info c).ytx := by
      rw [Nat.div_eq_iff p2]; unfold InR at i1; omega
    have q2 : x' / txW (C.info c).ytx = x / txW (C.info c).ytx := by
      rw [Nat.div_eq_iff p1]; unfold InR at i1; omega
    rw [q1, q2, i2] at hd'
    exact ⟨hd'.1.symm, hd'.2.symm⟩
  refine ⟨?_, ?_, ?_, ?_, ?_, ?_⟩
  · intro y hy x hx
    obtain ⟨t, t1, t2, t3, _⟩ := key y hy x hx
    rw [t2, t3]; exact tx_pos t1
  · intro y hy x hx
    obtain ⟨t, t1, t2, t3, g, _⟩ := key y hy x hx
    rw [g.w, t2]; exact (cls_y t t1).1
  · intro y hy x hx
    obtain ⟨t, t1, t2, t3, g, _⟩ := key y hy x hx
    rw [g.h, t3]; exact (cls_y t t1).2
  · intro y hy x hx
    obtain ⟨t, t1, t2, t3, g, _⟩ := key y hy x hx
    rw [t2]; exact g.sx
  · intro y hy x hx
    obtain ⟨t, t1, t2, t3, g, _⟩ := key y hy x hx
    rw [t3]; exact g.sy
  · intro y hy x hx y' hy' x' hx' e1 e2
    obtain ⟨t, t1, t2, t3, g, q⟩ := key y hy x hx
    rw [t3] at e1; rw [t2] at e2; rw [t2, t3]
    exact q y' hy' x' hx' e1 e2

theorem frep_step {C : Cfg} {c : Call} (h : BlkOk C c) (hp : hasPlane C.comp.plane c = true) (L : Loc) {s : Shared} {P : Nat → Nat → Nat → Nat → Prop}
    (hr : FRep C s.m P) {g : Mask → Mask}
    (hg : ∀ m P', Rep C.nn m P' → Rep C.nn (g m) (fun d l s pos => P' d l s pos ∨
      Bits C.comp (C.info c).inner (C.W c) (C.H c) (C.py c % C.NH) (C.px c % C.NW) (C.cw c) (C.ch c)
      (fun i => L.a (C.px c + i)) (fun i => L.l (C.py c % C.NH + i)) d l s pos)) :
    FRep C (s.mask c g) (fun d X Y s => P d X Y s ∨ C.Blk L c d X Y s) := by
  intro r k
  unfold Shared.mask
  by_cases hc : r = c.y / 32 ∧ k = c.x / 32
  · rw [if_pos hc]
    refine (hg _ _ (hr r k)).congr ?_
    intro d l s pos hpos
    have := bits_abs h hp L (d := d) (l := l) (s := s) (pos := pos) (r := r) (k := k) hpos
    simp only [hc.1, hc.2, true_and] at this
    rw [hc.1, hc.2]
    rw [← this]
    constructor
    · rintro ((⟨a, b, c⟩ | ⟨a, b, c⟩) | (⟨a, b, c⟩ | ⟨a, b, c⟩))
      · exact .inl ⟨a, b, .inl c⟩
      · exact .inr ⟨a, b, .inl c⟩
      · exact .inl ⟨a, b, .inr c⟩
      · exact .inr ⟨a, b, .inr c⟩
    · rintro (⟨a, b, c | c⟩ | ⟨a, b, c | c⟩)
      · exact .inl (.inl ⟨a, b, c⟩)
      · exact .inr (.inl ⟨a, b, c⟩)
      · exact .inl (.inr ⟨a, b, c⟩)
      · exact .inr (.inr ⟨a, b, c⟩)
  · rw [if_neg hc]
    refine (hr r k).congr ?_
    intro d l s pos hpos
    have := bits_abs h hp L (d := d) (l := l) (s := s) (pos := pos) (r := r) (k := k) hpos
    have hno : ¬ ((d = 0 ∧ l < C.NW ∧ C.Blk L c 0 (k * C.NW + l) (r * C.NH + pos) s) ∨ (d = 1 ∧ l < C.NH ∧ C.Blk L c 1 (k * C.NW + pos) (r * C.NH + l) s)) :=
      fun hx => hc ⟨(this.1 hx).1, (this.1 hx).2.1⟩
    constructor
    · rintro (⟨a, b, c⟩ | ⟨a, b, c⟩)
      · exact .inl ⟨a, b, .inl c⟩
      · exact .inr ⟨a, b, .inl c⟩
    · rintro (⟨a, b, c | c⟩ | ⟨a, b, c | c⟩)
      · exact .inl ⟨a, b, c⟩
      · exact absurd (.inl ⟨a, b, c⟩) hno
      · exact .inr ⟨a, b, c⟩
      · exact absurd (.inr ⟨a, b, c⟩) hno

theorem frep_none {C : Cfg} {c : Call} {L : Loc} {m : Nat → Nat → Mask} {P : Nat → Nat → Nat → Nat → Prop}
    (hr : FRep C m P) (hno : ∀ X Y, ¬ C.Has c X Y) : FRep C m (fun d X Y s => P d X Y s ∨ C.Blk L c d X Y s) :=
  hr.congr fun d X Y s _ => ⟨.inl, fun h => h.elim id fun hb => absurd hb.1 (hno X Y)⟩

theorem nn_le {C : Cfg} (h1 : C.comp.plane.ssH < 2) (h2 : C.comp.plane.ssV < 2) (d : Nat) : C.nn d ≤ 16 := by
  have := word_n h1
  have := word_n h2
  unfold Cfg.nn
  split <;> omega

/-- The bits after one block. -/
theorem shared_rep {C : Cfg} {c : Call} (h : BlkOk C c) (L : Loc) {s : Shared} {P : Nat → Nat → Nat → Nat → Prop} (hr : FRep C s.m P) :
    FRep C (C.shared L s c).m (fun d X Y s => P d X Y s ∨ C.Blk (C.enter L c) c d X Y s) := by
  obtain ⟨c1, c2, c3, c4, c5, c6, c7, c8, c9, c10⟩ := h.cell
  have hnn := nn_le h.ssH h.ssV
  unfold Cfg.shared
  cases hC : C.comp with
  | y =>
    dsimp only
    unfold lumaShared
    dsimp only
    have pw : C.cw c = lumaW C.D c := by unfold Cfg.cw; rw [hC]
    have ph : C.ch c = lumaH C.D c := by unfold Cfg.ch; rw [hC]
    have hp : hasPlane C.comp.plane c = true := by
      obtain ⟨f1, f2⟩ := bs_facts _ h.bs
      rw [hasPlane_iff, hC]
      exact luma_has c (by omega)
    split
    · rename_i hpos
      dsimp only
      refine frep_step h hp (C.enter L c) hr ?_
      intro m P' hm
      have ex : C.px c % C.NW = c.x % 32 := by rw [c7, hC]; rfl
      have ey : C.py c % C.NH = c.y % 32 := by rw [c8, hC]; rfl
      have ex' : C.px c = c.x := by rw [c9, hC]; rfl
      have n0 : C.nn 0 = 16 >>> 0 := by unfold Cfg.nn; rw [hC]; rfl
      have n1 : C.nn 1 = 16 >>> 0 := by unfold Cfg.nn; rw [hC]; rfl
      rw [ex, ey, ex', pw, ph]
      rw [ex, pw] at c1; rw [ey, ph] at c2
      obtain ⟨v1, -, -, -⟩ := h.valid.y hC
      obtain ⟨p1, p2⟩ := tx_pos v1
      have w1 : c.x % 32 + lumaW C.D c ≤ 2 * (16 >>> 0) := by rw [← n1, ← c5]; exact c1
      have w2 : c.y % 32 + lumaH C.D c ≤ 2 * (16 >>> 0) := by rw [← n0, ← c6]; exact c2
      rw [hC]
      cases hi : (C.info c).intra with
      | true =>
        have := const_bits hnn (by decide : 0 < 2) (by decide : 0 < 2) n0 n1 .y (W := txW (C.info c).ytx) (H := txH (C.info c).ytx) p1 p2 w1 w2 (by omega) (by omega)
          (fun i => (C.enter L c).a (c.x + i)) (fun i => (C.enter L c).l (c.y % 32 + i)) hm false
        rw [← (cls_y _ v1).1, ← (cls_y _ v1).2] at this
        have e1 : (C.info c).inner = (false = false) := by unfold LBlk.inner; rw [hi]; simp
        have e2 : C.W c = fun _ _ => txW (C.info c).ytx := by funext y x; unfold Cfg.W Av1.txDim; rw [hC, hi]; rfl
        have e3 : C.H c = fun _ _ => txH (C.info c).ytx := by funext y x; unfold Cfg.H Av1.txDim; rw [hC, hi]; rfl
        rw [e1, e2, e3]
        exact this
      | false =>
        have := inter_bits hnn n0 n1 .y w1 w2 (by omega) (by omega)
          (fun i => (C.enter L c).a (c.x + i)) (fun i => (C.enter L c).l (c.y % 32 + i)) hm (C.info c).skip (txa_ok hC h hi)
        have e1 : (C.info c).inner = ((C.info c).skip = false) := by unfold LBlk.inner; rw [hi]; simp
        rw [e1]
        exact this
    · rename_i hz
      refine frep_none hr ?_
      rintro X Y ⟨-, a1, a2, a3, a4⟩
      rw [pw] at a2; rw [ph] at a4
      exact hz ⟨by omega, by omega⟩
  | uv p =>
    dsimp only
    unfold chromaShared
    dsimp only
    have pw : C.cw c = chromaW p C.D c := by unfold Cfg.cw; rw [hC]
    have ph : C.ch c = chromaH p C.D c := by unfold Cfg.ch; rw [hC]
    have hpl : C.comp.plane = p := by rw [hC]; rfl
    split
    · rename_i hpos
      dsimp only
      refine frep_step h (by rw [hpl]; exact hpos.1) (C.enter L c) hr ?_
      intro m P' hm
      rw [hpl] at c7 c8 c9 c10
      have n0 : C.nn 0 = 16 >>> p.ssV := by unfold Cfg.nn; rw [hpl]; rfl
      have n1 : C.nn 1 = 16 >>> p.ssH := by unfold Cfg.nn; rw [hpl]; rfl
      have s1 := h.ssH
      have s2 := h.ssV
      rw [hpl] at s1 s2
      rw [c7, pw] at c1; rw [c8, ph] at c2
      rw [c7, c8, c9, pw, ph]
      obtain ⟨v1, -, -⟩ := h.valid.uv p hC hpos.1
      obtain ⟨p1, p2⟩ := tx_pos v1
      rw [hC]
      have := const_bits hnn s1 s2 n0 n1 (.uv p) (W := txW (C.info c).uvtx) (H := txH (C.info c).uvtx) p1 p2 (by rw [← n1, ← c5]; exact c1) (by rw [← n0, ← c6]; exact c2)
        (Nat.pos_of_ne_zero hpos.2.1) (Nat.pos_of_ne_zero hpos.2.2)
        (fun i => (C.enter L c).a (c.x >>> p.ssH + i)) (fun i => (C.enter L c).l ((c.y % 32) >>> p.ssV + i)) hm (!(C.info c).intra && (C.info c).skip)
      rw [← (cls_uv p _ v1).1, ← (cls_uv p _ v1).2] at this
      have e1 : (C.info c).inner = ((!(C.info c).intra && (C.info c).skip) = false) := by
        unfold LBlk.inner; cases (C.info c).intra <;> cases (C.info c).skip <;> simp
      have e2 : C.W c = fun _ _ => txW (C.info c).uvtx := by funext y x; unfold Cfg.W Av1.txDim; rw [hC]
      have e3 : C.H c = fun _ _ => txH (C.info c).uvtx := by funext y x; unfold Cfg.H Av1.txDim; rw [hC]
      rw [e1, e2, e3]
      exact this
    · rename_i hz
      refine frep_none hr ?_
      rintro X Y ⟨a0, a1, a2, a3, a4⟩
      rw [pw] at a2; rw [ph] at a4; rw [hpl] at a0
      exact hz ⟨a0, by omega, by omega⟩

/-- The indices of the levels of a component. -/
def Comp.lvlOk (k : Nat) : Comp → Prop
  | .y => k < 2
  | .uv _ => 2 ≤ k

/-- The levels after one block. -/
theorem shared_lvl {C : Cfg} {c : Call} (h : BlkOk C c) (L : Loc) (s : Shared) {k : Nat} (hk : C.comp.lvlOk k) (X Y : Nat) :
    (C.Has c X Y → (C.shared L s c).lvl X Y k = (C.info c).lvl k) ∧ (¬ C.Has c X Y → (C.shared L s c).lvl X Y k = s.lvl X Y k) := by
  obtain ⟨-, -, -, -, -, -, -, -, c9, c10⟩ := h.cell
  unfold Cfg.shared Cfg.Has
  cases hC : C.comp with
  | y =>
    rw [hC] at hk
    rw [hC] at c9 c10
    have pw : C.cw c = lumaW C.D c := by unfold Cfg.cw; rw [hC]
    have ph : C.ch c = lumaH C.D c := by unfold Cfg.ch; rw [hC]
    have hp : hasPlane (Comp.plane .y) c = true := by
      obtain ⟨f1, f2⟩ := bs_facts _ h.bs
      rw [hasPlane_iff]
      exact luma_has c (by omega)
    simp only [Comp.plane, luma, Nat.shiftRight_zero] at c9 c10
    rw [c9, c10, pw, ph]
    dsimp only [lumaShared]
    constructor
    · rintro ⟨-, a1, a2, a3, a4⟩
      rw [if_pos (by omega)]
      exact if_pos ⟨a1, a2, a3, a4, hk⟩
    · intro hn
      split
      · exact if_neg fun ⟨a1, a2, a3, a4, _⟩ => hn ⟨hp, a1, a2, a3, a4⟩
      · rfl
  | uv p =>
    rw [hC] at hk
    have pw : C.cw c = chromaW p C.D c := by unfold Cfg.cw; rw [hC]
    have ph : C.ch c = chromaH p C.D c := by unfold Cfg.ch; rw [hC]
    have hpl : C.comp.plane = p := by rw [hC]; rfl
    rw [hpl] at c9 c10
    rw [c9, c10, pw, ph]
    dsimp only [chromaShared, Comp.plane]
    constructor
    · rintro ⟨a0, a1, a2, a3, a4⟩
      rw [if_pos ⟨a0, by omega, by omega⟩]
      exact if_pos ⟨a1, a2, a3, a4, hk⟩
    · intro hn
      split
      · rename_i hz
        exact if_neg fun ⟨a1, a2, a3, a4, _⟩ => hn ⟨hz.1, a1, a2, a3, a4⟩
      · rfl

/-- The contexts after one block. -/
theorem loc_a {C : Cfg} {c : Call} (h : BlkOk C c) (L : Loc) (X : Nat) :
    ((hasPlane C.comp.plane c = true ∧ C.px c ≤ X ∧ X < C.px c + C.cw c ∧ 0 < C.ch c) → (C.loc L c).a X = cls C.comp (C.H c (C.ch c - 1) (X - C.px c))) ∧
    (¬ (hasPlane C.comp.plane c = true ∧ C.px c ≤ X ∧ X < C.px c + C.cw c ∧ 0 < C.ch c) → (C.loc L c).a X = L.a X) := by
  obtain ⟨-, -, -, -, -, -, -, -, c9, c10⟩ := h.cell
  have en : (C.enter L c).a = L.a := by unfold Cfg.enter; split <;> rfl
  unfold Cfg.loc
  cases hC : C.comp with
  | y =>
    rw [hC] at c9 c10
    have pw : C.cw c = lumaW C.D c := by unfold Cfg.cw; rw [hC]
    have ph : C.ch c = lumaH C.D c := by unfold Cfg.ch; rw [hC]
    have hp : hasPlane (Comp.plane .y) c = true := by
      obtain ⟨f1, f2⟩ := bs_facts _ h.bs
      rw [hasPlane_iff]
      exact luma_has c (by omega)
    simp only [Comp.plane, luma, Nat.shiftRight_zero] at c9 c10
    rw [c9, pw, ph]
    dsimp only [lumaLoc]
    obtain ⟨v1, -, -, -⟩ := h.valid.y hC
    constructor
    · rintro ⟨-, a1, a2, a3⟩
      rw [if_pos (by omega)]
      dsimp only
      rw [if_pos ⟨a1, a2⟩]
      cases hi : (C.info c).intra with
      | true =>
        unfold Cfg.H Av1.txDim; rw [hC, hi]
        exact (cls_y _ v1).2
      | false => exact (txa_ok hC h hi).h _ (by omega) _ (by omega)
    · intro hn
      split
      · rename_i hz
        dsimp only
        rw [if_neg (fun hh => hn ⟨hp, hh.1, hh.2, by omega⟩), en]
      · rw [en]
  | uv p =>
    have pw : C.cw c = chromaW p C.D c := by unfold Cfg.cw; rw [hC]
    have ph : C.ch c = chromaH p C.D c := by unfold Cfg.ch; rw [hC]
    have hpl : C.comp.plane = p := by rw [hC]; rfl
    rw [hpl] at c9 c10
    rw [c9, pw, ph]
    dsimp only [chromaLoc, Comp.plane]
    constructor
    · rintro ⟨a0, a1, a2, a3⟩
      obtain ⟨v1, -, -⟩ := h.valid.uv p hC a0
      rw [if_pos ⟨a0, by omega, by omega⟩]
      dsimp only
      rw [if_pos ⟨a1, a2⟩]
      unfold Cfg.H Av1.txDim; rw [hC]
      exact (cls_uv p _ v1).2
    · intro hn
      split
      · rename_i hz
        dsimp only
        rw [if_neg (fun hh => hn ⟨hz.1, hh.1, hh.2, by omega⟩), en]
      · rw [en]

theorem loc_l {C : Cfg} {c : Call} (h : BlkOk C c) (L : Loc) (i : Nat) :
    ((hasPlane C.comp.plane c = true ∧ C.py c % C.NH ≤ i ∧ i < C.py c % C.NH + C.ch c ∧ 0 < C.cw c) → (C.loc L c).l i = cls C.comp (C.W c (i - C.py c % C.NH) (C.cw c - 1))) ∧
    (¬ (hasPlane C.comp.plane c = true ∧ C.py c % C.NH ≤ i ∧ i < C.py c % C.NH + C.ch c ∧ 0 < C.cw c) → (C.loc L c).l i = (C.enter L c).l i) := by
  obtain ⟨-, -, -, -, -, -, -, c8, -, -⟩ := h.cell
  unfold Cfg.loc
  cases hC : C.comp with
  | y =>
    rw [hC] at c8
    have pw : C.cw c = lumaW C.D c := by unfold Cfg.cw; rw [hC]
    have ph : C.ch c = lumaH C.D c := by unfold Cfg.ch; rw [hC]
    have hp : hasPlane (Comp.plane .y) c = true := by
      obtain ⟨f1, f2⟩ := bs_facts _ h.bs
      rw [hasPlane_iff]
      exact luma_has c (by omega)
    simp only [Comp.plane, luma, Nat.shiftRight_zero] at c8
    rw [c8, pw, ph]
    dsimp only [lumaLoc]
    obtain ⟨v1, -, -, -⟩ := h.valid.y hC
    constructor
    · rintro ⟨-, a1, a2, a3⟩
      rw [if_pos (by omega)]
      dsimp only
      rw [if_pos ⟨a1, a2⟩]
      cases hi : (C.info c).intra with
      | true =>
        unfold Cfg.W Av1.txDim; rw [hC, hi]
        exact (cls_y _ v1).1
      | false => exact (txa_ok hC h hi).w _ (by omega) _ (by omega)
    · intro hn
      split
      · rename_i hz
        dsimp only
        rw [if_neg (fun hh => hn ⟨hp, hh.1, hh.2, by omega⟩)]
      · rfl
  | uv p =>
    have pw : C.cw c = chromaW p C.D c := by unfold Cfg.cw; rw [hC]
    have ph : C.ch c = chromaH p C.D c := by unfold Cfg.ch; rw [hC]
    have hpl : C.comp.plane = p := by rw [hC]; rfl
    rw [hpl] at c8
    rw [c8, pw, ph]
    dsimp only [chromaLoc, Comp.plane]
    constructor
    · rintro ⟨a0, a1, a2, a3⟩
      obtain ⟨v1, -, -⟩ := h.valid.uv p hC a0
      rw [if_pos ⟨a0, by omega, by omega⟩]
      dsimp only
      rw [if_pos ⟨a1, a2⟩]
      unfold Cfg.W Av1.txDim; rw [hC]
      exact (cls_uv p _ v1).1
    · intro hn
      split
      · rename_i hz
        dsimp only
        rw [if_neg (fun hh => hn ⟨hz.1, hh.1, hh.2, by omega⟩)]
      · rfl

theorem loc_row {C : Cfg} (L : Loc) (c : Call) : (C.loc L c).row = some (c.y / sbStep C.sb128) := by
  have en : (C.enter L c).row = some (c.y / sbStep C.sb128) := by unfold Cfg.enter; split <;> first | assumption | rfl
  unfold Cfg.loc
  cases hC : C.comp with
  | y => dsimp only [lumaLoc]; split <;> exact en
  | uv p => dsimp only [chromaLoc]; split <;> exact en

end Dav1d.Part.Lpf
