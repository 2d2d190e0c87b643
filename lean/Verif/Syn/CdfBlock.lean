import Verif.Syn.CdfFilter
import Verif.Syn.LrsLines
/-!
# Lemmas for C85: one block
-/
namespace Dav1d.Cdf
open Dav1d.Syn.Lru (Cfg)
open Dav1d.Lrs (Plane)
open Dav1d.Cdef

/-- The frame for the specification. `idx` and `skips`: `cdef_idx` and `Skips`; `D`: the frame after the deblocking filter. -/
def envOf (f : Cfg) (d : Depth) (hdr : Hdr) (idx : Nat → Nat → Int) (skips : Nat → Nat → Bool) (D : Nat → Plane) : Av1.Env :=
  { MiRows := f.bh, MiCols := f.bw, NumPlanes := if f.layout = 0 then 1 else 3, subsampling_x := if f.layout = 3 then 0 else 1, subsampling_y := if f.layout ≤ 1 then 1 else 0
    depth := d, CdefDamping := hdr.damping
    cdef_y_pri_strength := fun i => hdr.yStr i / 4, cdef_y_sec_strength := fun i => if hdr.yStr i % 4 = 3 then 4 else hdr.yStr i % 4
    cdef_uv_pri_strength := fun i => hdr.uvStr i / 4, cdef_uv_sec_strength := fun i => if hdr.uvStr i % 4 = 3 then 4 else hdr.uvStr i % 4
    cdef_idx := idx, Skips := skips, CurrFrame := D }

/-- The planes of the frame. -/
def Pl (f : Cfg) (pl : Nat) : Prop := pl = 0 ∨ f.layout ≠ 0 ∧ pl ≤ 2

/-- Strengths have 6 bits, the damping is 3 to 6, src/obu.c:905-921. -/
structure HdrOk (hdr : Hdr) : Prop where
  y : ∀ i, hdr.yStr i < 64
  uv : ∀ i, hdr.uvStr i < 64
  damping : 3 ≤ hdr.damping ∧ hdr.damping ≤ 6

/-- The samples of the planes, up to the last 8 luma rows and columns, are in range. -/
def InRange (f : Cfg) (d : Depth) (D : Nat → Plane) : Prop :=
  ∀ pl, Pl f pl → ∀ Y X : Int, 0 ≤ Y → Y < y0 f pl f.bh → 0 ≤ X → X < x0 f pl f.bw → 0 ≤ D pl Y X ∧ D pl Y X ≤ d.max

theorem bkH_cases (f : Cfg) (pl : Nat) : bkH f pl = 8 ∧ f.ssV pl = 0 ∨ bkH f pl = 4 ∧ f.ssV pl = 1 := by
  unfold bkH Cfg.ssV
  split_ifs <;> simp

theorem bkW_cases (f : Cfg) (pl : Nat) : bkW f pl = 8 ∧ f.ssH pl = 0 ∨ bkW f pl = 4 ∧ f.ssH pl = 1 := by
  unfold bkW Cfg.ssH
  split_ifs <;> simp

theorem y0_eq (f : Cfg) (pl k : Nat) : y0 f pl (2 * k) = k * bkH f pl := by
  unfold y0
  rcases bkH_cases f pl with ⟨h, e⟩ | ⟨h, e⟩ <;> rw [h, e] <;> omega

theorem x0_eq (f : Cfg) (pl k : Nat) : x0 f pl (2 * k) = k * bkW f pl := by
  unfold x0
  rcases bkW_cases f pl with ⟨h, e⟩ | ⟨h, e⟩ <;> rw [h, e] <;> omega

theorem bh_eq (f : Cfg) : f.bh = 2 * ((f.h + 7) / 8) := by unfold Cfg.bh; omega
theorem bw_eq (f : Cfg) : f.bw = 2 * ((f.w + 7) / 8) := by unfold Cfg.bw; omega

section
variable {f : Cfg} {d : Depth} {hdr : Hdr} {idx : Nat → Nat → Int} {skips : Nat → Nat → Bool} {D : Nat → Plane}

theorem sub_eq {pl : Nat} (hp : Pl f pl) : Av1.subY (envOf f d hdr idx skips D) pl = f.ssV pl ∧ Av1.subX (envOf f d hdr idx skips D) pl = f.ssH pl := by
  unfold Av1.subY Av1.subX Cfg.ssV Cfg.ssH envOf
  unfold Pl at hp
  constructor <;> split_ifs <;> first | rfl | omega

theorem available_eq {pl : Nat} (hp : Pl f pl) (Y X : Int) : Av1.available (envOf f d hdr idx skips D) pl Y X =
    if 0 ≤ Y ∧ Y < y0 f pl f.bh ∧ 0 ≤ X ∧ X < x0 f pl f.bw then some (D pl Y X) else none := by
  unfold Av1.available
  rw [(sub_eq hp).1, (sub_eq hp).2]
  have : Av1.is_inside_filter_region (envOf f d hdr idx skips D) (Y * 2 ^ f.ssV pl / 4) (X * 2 ^ f.ssH pl / 4) ↔ 0 ≤ Y ∧ Y < y0 f pl f.bh ∧ 0 ≤ X ∧ X < x0 f pl f.bw := by
    unfold Av1.is_inside_filter_region
    show 0 ≤ _ ∧ _ < (f.bw : Int) ∧ 0 ≤ _ ∧ _ < (f.bh : Int) ↔ _
    rw [bh_eq, bw_eq, y0_eq, x0_eq]
    generalize (f.h + 7) / 8 = a
    generalize (f.w + 7) / 8 = b
    rcases bkH_cases f pl with ⟨h, e⟩ | ⟨h, e⟩ <;> rcases bkW_cases f pl with ⟨h', e'⟩ | ⟨h', e'⟩ <;> rw [h, e, h', e'] <;> simp only [Int.pow_zero, Int.pow_one] <;> omega
  simp only [this]
  rfl

theorem available_ok (hD : InRange f d D) {pl : Nat} (hp : Pl f pl) : ViewOk d (Av1.available (envOf f d hdr idx skips D) pl) := by
  intro y x v hv
  rw [available_eq hp] at hv
  split_ifs at hv with h
  obtain rfl := Option.some.inj hv
  exact hD pl hp y x h.1 h.2.1 h.2.2.1 h.2.2.2
end

/-- The samples around a strip are there. -/
def Ready (c : Ctx) (D : Nat → Plane) (by_ : Nat) (s : St) : Prop := ∀ pl, Pl c.f pl →
  (∀ Y X : Int, y0 c.f pl by_ ≤ Y → Y < y0 c.f pl by_ + bkH c.f pl → 0 ≤ X → X < x0 c.f pl c.f.bw → s.fr pl Y X = D pl Y X) ∧
  (by_ ≠ 0 → ∀ r X : Int, 0 ≤ r → r < 2 → 0 ≤ X → X < x0 c.f pl c.f.bw → topLn c by_ s pl r X = D pl (y0 c.f pl by_ - 2 + r) X) ∧
  (by_ + 2 < c.f.bh → ∀ r X : Int, 0 ≤ r → r < 2 → 0 ≤ X → X < x0 c.f pl c.f.bw → botLn c by_ s pl r X = D pl (y0 c.f pl by_ + bkH c.f pl + r) X)

/-- What a call sees. -/
theorem view_eq {c : Ctx} {hdr : Hdr} {idx : Nat → Nat → Int} {skips : Nat → Nat → Bool} {D : Nat → Plane} {K J pl : Nat} {s : St} (hp : Pl c.f pl) (hK : 2 * K < c.f.bh) (hJ : 2 * J < c.f.bw)
    (hc : ∀ Y X : Int, y0 c.f pl (2 * K) ≤ Y → Y < y0 c.f pl (2 * K) + bkH c.f pl → x0 c.f pl (2 * J) ≤ X → X < x0 c.f pl c.f.bw → s.fr pl Y X = D pl Y X)
    (hl : 2 * J ≠ 0 → ∀ y x : Int, 0 ≤ y → y < bkH c.f pl → 0 ≤ x → x < 2 → s.bak s.bit pl y x = D pl (y0 c.f pl (2 * K) + y) (x0 c.f pl (2 * J) - 2 + x))
    (ht : 2 * K ≠ 0 → ∀ r X : Int, 0 ≤ r → r < 2 → 0 ≤ X → X < x0 c.f pl c.f.bw → topLn c (2 * K) s pl r X = D pl (y0 c.f pl (2 * K) - 2 + r) X)
    (hb : 2 * K + 2 < c.f.bh → ∀ r X : Int, 0 ≤ r → r < 2 → 0 ≤ X → X < x0 c.f pl c.f.bw → botLn c (2 * K) s pl r X = D pl (y0 c.f pl (2 * K) + bkH c.f pl + r) X)
    (y x : Int) (hy : -2 ≤ y) (hy2 : y < bkH c.f pl + 2) (hx : -2 ≤ x) (hx2 : x < bkW c.f pl + 2) :
    view (edges c.f (2 * K) (2 * J)) (bkW c.f pl) (bkH c.f pl)
      ⟨fun y x => s.fr pl (y0 c.f pl (2 * K) + y) (x0 c.f pl (2 * J) + x), s.bak s.bit pl,
        fun r x => topLn c (2 * K) s pl r (x0 c.f pl (2 * J) + x), fun r x => botLn c (2 * K) s pl r (x0 c.f pl (2 * J) + x)⟩ y x =
      Av1.available (envOf c.f c.d hdr idx skips D) pl (y0 c.f pl (2 * K) + y) (x0 c.f pl (2 * J) + x) := by
  have eb := bh_eq c.f
  have ew := bw_eq c.f
  generalize (c.f.h + 7) / 8 = NR at eb
  generalize (c.f.w + 7) / 8 = NC at ew
  have e1 := y0_eq c.f pl K
  have e2 := x0_eq c.f pl J
  have e3 := y0_eq c.f pl NR
  have e4 := x0_eq c.f pl NC
  rw [← eb] at e3
  rw [← ew] at e4
  have hcond : ((x < 0 ∧ (edges c.f (2 * K) (2 * J)).left = false) ∨ (bkW c.f pl ≤ x ∧ (edges c.f (2 * K) (2 * J)).right = false) ∨
      (y < 0 ∧ (edges c.f (2 * K) (2 * J)).top = false) ∨ (bkH c.f pl ≤ y ∧ (edges c.f (2 * K) (2 * J)).bottom = false)) ↔
      ¬(0 ≤ y0 c.f pl (2 * K) + y ∧ y0 c.f pl (2 * K) + y < y0 c.f pl c.f.bh ∧ 0 ≤ x0 c.f pl (2 * J) + x ∧ x0 c.f pl (2 * J) + x < x0 c.f pl c.f.bw) := by
    simp only [edges, decide_eq_false_iff_not]
    rw [e1, e2, e3, e4]
    clear hc hl ht hb
    rcases bkH_cases c.f pl with ⟨h, _⟩ | ⟨h, _⟩ <;> rcases bkW_cases c.f pl with ⟨h', _⟩ | ⟨h', _⟩ <;> rw [h] at hy2 ⊢ <;> rw [h'] at hx2 ⊢ <;> omega
  rw [available_eq hp]
  unfold view
  by_cases hg : 0 ≤ y0 c.f pl (2 * K) + y ∧ y0 c.f pl (2 * K) + y < y0 c.f pl c.f.bh ∧ 0 ≤ x0 c.f pl (2 * J) + x ∧ x0 c.f pl (2 * J) + x < x0 c.f pl c.f.bw
  · rw [if_neg (fun h => hcond.1 h hg), if_pos hg]
    congr 1
    obtain ⟨g1, g2, g3, g4⟩ := hg
    by_cases h1 : y < 0
    · rw [if_pos h1]
      show topLn c (2 * K) s pl (y + 2) _ = _
      rw [ht (by intro h0; rw [h0] at g1; simp only [y0, Nat.zero_mul, Nat.zero_div] at g1; omega) _ _ (by omega) (by omega) g3 g4]
      congr 1; omega
    · rw [if_neg h1]
      by_cases h2 : (bkH c.f pl : Int) ≤ y
      · rw [if_pos h2]
        show botLn c (2 * K) s pl (y - bkH c.f pl) _ = _
        have : 2 * K + 2 < c.f.bh := by
          clear hc hl ht hb hcond
          rw [e1, e3] at g2
          rcases bkH_cases c.f pl with ⟨h, _⟩ | ⟨h, _⟩ <;> rw [h] at h2 g2 <;> omega
        rw [hb this _ _ (by omega) (by omega) g3 g4]
        congr 1; omega
      · rw [if_neg h2]
        by_cases h3 : x < 0
        · rw [if_pos h3]
          show s.bak s.bit pl y (x + 2) = _
          rw [hl (by intro h0; rw [h0] at g3; simp only [x0, Nat.zero_mul, Nat.zero_div] at g3; omega) _ _ (by omega) (by omega) (by omega) (by omega)]
          congr 1; omega
        · rw [if_neg h3]
          exact hc _ _ (by omega) (by omega) (by omega) g4
  · rw [if_pos (hcond.2 hg), if_neg hg]

/-! ## The calls for a block -/

theorem energy_congr (d : Depth) {img img' : Nat → Nat → Int} (h : ∀ y < 8, ∀ x < 8, img y x = img' y x) : energy d img = energy d img' := by
  have hs : ∀ k i, lineSum d img k i = lineSum d img' k i := by
    intro k i
    unfold lineSum
    congr 1
    refine List.map_congr_left ?_
    intro p hp
    obtain ⟨a, b⟩ := block_mem p (List.mem_of_mem_filter hp)
    rw [h _ a _ b]
  funext k
  unfold energy
  simp only [hs]

theorem levels_eq (d : Depth) (l : Nat) : levels d l = (l / 4 * 2 ^ (d.bpc - 8), (if l % 4 = 3 then 4 else l % 4) * 2 ^ (d.bpc - 8)) := by
  have e1 : l >>> 2 = l / 4 := Nat.shiftRight_eq_div_pow l 2
  have e2 : l &&& 3 = l % 4 := Nat.and_two_pow_sub_one_eq_mod l 2
  unfold levels
  simp only [e1, e2, Nat.shiftLeft_eq]
  congr 2
  split_ifs <;> omega

/-- Inside of a block. -/
def inB (f : Cfg) (pl by_ bx : Nat) (Y X : Int) : Prop := y0 f pl by_ ≤ Y ∧ Y < y0 f pl by_ + bkH f pl ∧ x0 f pl bx ≤ X ∧ X < x0 f pl bx + bkW f pl

theorem pos_block {f : Cfg} {pl K J : Nat} {Y X : Nat} (h : inB f pl (2 * K) (2 * J) Y X) : Y * 2 ^ f.ssV pl / 8 * 2 = 2 * K ∧ X * 2 ^ f.ssH pl / 8 * 2 = 2 * J := by
  obtain ⟨h1, h2, h3, h4⟩ := h
  rw [y0_eq] at h1 h2
  rw [x0_eq] at h3 h4
  rcases bkH_cases f pl with ⟨h, e⟩ | ⟨h, e⟩ <;> rcases bkW_cases f pl with ⟨h', e'⟩ | ⟨h', e'⟩ <;> rw [h] at h1 h2 <;> rw [h'] at h3 h4 <;> rw [e, e'] <;> constructor <;> omega

theorem uvDir_lt : ∀ l d, uvDir l d < 8 := by
  intro l d
  unfold uvDir
  have h1 : ∀ d < 8, [7, 0, 2, 4, 5, 6, 6, 6].getD d 0 < 8 := by decide
  have h2 : ∀ d < 8, [0, 1, 2, 3, 4, 5, 6, 7].getD d 0 < 8 := by decide
  by_cases hd : d < 8
  · split_ifs
    · exact h1 d hd
    · exact h2 d hd
  · split_ifs <;> rw [List.getD_eq_getElem?_getD, List.getElem?_eq_none (by simp; omega)] <;> decide

theorem uvDir_eq {f : Cfg} (h0 : f.layout ≠ 0) (hl : f.layout ≤ 3) {dir : Nat} (hd : dir < 8) :
    uvDir f.layout dir = Av1.Cdef_Uv_Dir (if f.layout = 3 then 0 else 1) (if f.layout ≤ 1 then 1 else 0) dir := by
  have h2 : ∀ d < 8, [0, 1, 2, 3, 4, 5, 6, 7].getD d 0 = d := by decide
  unfold uvDir Av1.Cdef_Uv_Dir
  rcases (show f.layout = 1 ∨ f.layout = 2 ∨ f.layout = 3 by omega) with h | h | h <;> rw [h] <;> simp only [h2 dir hd] <;> rfl

/-- What the two columns left of a block, for a plane that is filtered, the strip and the lines around it have to be. -/
structure Seen (c : Ctx) (D : Nat → Plane) (K J pl : Nat) (s : St) : Prop where
  hc : ∀ Y X : Int, y0 c.f pl (2 * K) ≤ Y → Y < y0 c.f pl (2 * K) + bkH c.f pl → x0 c.f pl (2 * J) ≤ X → X < x0 c.f pl c.f.bw → s.fr pl Y X = D pl Y X
  hl : 2 * J ≠ 0 → ∀ y x : Int, 0 ≤ y → y < bkH c.f pl → 0 ≤ x → x < 2 → s.bak s.bit pl y x = D pl (y0 c.f pl (2 * K) + y) (x0 c.f pl (2 * J) - 2 + x)
  ht : 2 * K ≠ 0 → ∀ r X : Int, 0 ≤ r → r < 2 → 0 ≤ X → X < x0 c.f pl c.f.bw → topLn c (2 * K) s pl r X = D pl (y0 c.f pl (2 * K) - 2 + r) X
  hb : 2 * K + 2 < c.f.bh → ∀ r X : Int, 0 ≤ r → r < 2 → 0 ≤ X → X < x0 c.f pl c.f.bw → botLn c (2 * K) s pl r X = D pl (y0 c.f pl (2 * K) + bkH c.f pl + r) X

theorem x_lt {f : Cfg} {pl J : Nat} (hJ : 2 * J < f.bw) : x0 f pl (2 * J) + bkW f pl ≤ x0 f pl f.bw := by
  have ew := bw_eq f
  generalize (f.w + 7) / 8 = NC at ew
  rw [ew] at hJ ⊢
  rw [x0_eq, x0_eq]
  rcases bkW_cases f pl with ⟨h, _⟩ | ⟨h, _⟩ <;> rw [h] <;> omega

theorem y_lt {f : Cfg} {pl K : Nat} (hK : 2 * K < f.bh) : y0 f pl (2 * K) + bkH f pl ≤ y0 f pl f.bh := by
  have ew := bh_eq f
  generalize (f.h + 7) / 8 = NC at ew
  rw [ew] at hK ⊢
  rw [y0_eq, y0_eq]
  rcases bkH_cases f pl with ⟨h, _⟩ | ⟨h, _⟩ <;> rw [h] <;> omega

section
variable {c : Ctx} {idx : Nat → Nat → Int} {skips : Nat → Nat → Bool} {D : Nat → Plane} {K J pl : Nat} {s : St}

/-- A call. -/
theorem fb_eq (hD : InRange c.f c.d D) (hp : Pl c.f pl) (hK : 2 * K < c.f.bh) (hJ : 2 * J < c.f.bw) (hs : Seen c D K J pl s) {q : Params} (hq : Ok q) (hz : q.pri ≠ 0 ∨ q.sec ≠ 0)
    {Y X : Nat} (hB : inB c.f pl (2 * K) (2 * J) Y X) :
    fb c (2 * K) (2 * J) s pl q Y X = specFilter c.d q (Av1.available (envOf c.f c.d c.hdr idx skips D) pl) (D pl Y X) Y X := by
  have hB' := hB
  obtain ⟨b1, b2, b3, b4⟩ := hB'
  have hxl := x_lt (pl := pl) hJ
  unfold fb
  rw [if_pos ⟨b1, b2, b3, b4⟩]
  have e1 : (Y : Int) - y0 c.f pl (2 * K) = ((Y - y0 c.f pl (2 * K) : Nat) : Int) := by omega
  have e2 : (X : Int) - x0 c.f pl (2 * J) = ((X - x0 c.f pl (2 * J) : Nat) : Int) := by omega
  rw [e1, e2, Int.toNat_natCast, Int.toNat_natCast]
  have hw : bkW c.f pl = 4 ∨ bkW c.f pl = 8 := by rcases bkW_cases c.f pl with ⟨h, _⟩ | ⟨h, _⟩ <;> omega
  have hh : bkH c.f pl = 4 ∨ bkH c.f pl = 8 := by rcases bkH_cases c.f pl with ⟨h, _⟩ | ⟨h, _⟩ <;> omega
  rw [filter_eq c.d hq hz (edges c.f (2 * K) (2 * J)) hw hh _ (available_ok (hdr := c.hdr) (idx := idx) (skips := skips) hD hp) (y0 c.f pl (2 * K)) (x0 c.f pl (2 * J))
    (fun y x g1 g2 g3 g4 => view_eq hp hK hJ hs.hc hs.hl hs.ht hs.hb y x g1 g2 g3 g4) (by omega) (by omega), Option.getD_some]
  have e3 : (y0 c.f pl (2 * K) : Int) + ((Y - y0 c.f pl (2 * K) : Nat) : Int) = Y := by omega
  have e4 : (x0 c.f pl (2 * J) : Int) + ((X - x0 c.f pl (2 * J) : Nat) : Int) = X := by omega
  show specFilter _ _ _ (s.fr pl _ _) _ _ = _
  rw [e3, e4, hs.hc Y X b1 b2 b3 (by omega)]

theorem fb_out {q : Params} {Y X : Int} (hB : ¬inB c.f pl (2 * K) (2 * J) Y X) : fb c (2 * K) (2 * J) s pl q Y X = s.fr pl Y X := if_neg hB

theorem callFb_out {yl ul : Nat} {Y X : Int} (hB : ¬inB c.f pl (2 * K) (2 * J) Y X) : callFb c (2 * K) (2 * J) yl ul s pl Y X = s.fr pl Y X := by
  unfold callFb
  simp only []
  split_ifs with h <;> first | rfl | (subst h; first | rfl | exact fb_out hB) | exact fb_out hB

/-- The direction and variance that are used. -/
theorem dirVar_eq (hD : InRange c.f c.d D) (hK : 2 * K < c.f.bh) (hJ : 2 * J < c.f.bw)
    (hc : ∀ Y X : Int, y0 c.f 0 (2 * K) ≤ Y → Y < y0 c.f 0 (2 * K) + bkH c.f 0 → x0 c.f 0 (2 * J) ≤ X → X < x0 c.f 0 c.f.bw → s.fr 0 Y X = D 0 Y X) {a b : Nat} (hab : a ≠ 0 ∨ b ≠ 0) :
    dirVar c (2 * K) (2 * J) s a b = (Av1.yDir (energy c.d fun y x => D 0 (2 * K * 4 + y : Nat) (2 * J * 4 + x : Nat)), Av1.variance (energy c.d fun y x => D 0 (2 * K * 4 + y : Nat) (2 * J * 4 + x : Nat))) := by
  have hx := x_lt (pl := 0) hJ
  have hy := y_lt (pl := 0) hK
  have s1 : bkH c.f 0 = 8 := by simp [bkH, Cfg.ssV]
  have s2 : bkW c.f 0 = 8 := by simp [bkW, Cfg.ssH]
  have s3 : y0 c.f 0 (2 * K) = 2 * K * 4 := by simp [y0, Cfg.ssV]
  have s4 : x0 c.f 0 (2 * J) = 2 * J * 4 := by simp [x0, Cfg.ssH]
  rw [s2, s4] at hx
  rw [s1, s3] at hy
  rw [s1, s3, s4] at hc
  have hi : ∀ y < 8, ∀ x < 8, s.fr 0 (y0 c.f 0 (2 * K) + y : Nat) (x0 c.f 0 (2 * J) + x : Nat) = D 0 (2 * K * 4 + y : Nat) (2 * J * 4 + x : Nat) := by
    intro y h1 x h2
    rw [s3, s4]
    exact hc _ _ (by omega) (by omega) (by omega) (by omega)
  unfold dirVar
  rw [if_pos hab, findDir_eq, Option.getD_some, energy_congr c.d hi]
  intro y h1 x h2
  rw [hi y h1 x h2]
  exact hD 0 (Or.inl rfl) _ _ (by omega) (by omega) (by omega) (by omega)

theorem adjust_eq (p var : Nat) : (if var ≠ 0 then (p * (4 + if var / 64 ≠ 0 then min (Nat.log2 (var / 64)) 12 else 0) + 8) / 16 else 0) = adjustStrength p var := by
  have e6 : var >>> 6 = var / 64 := Nat.shiftRight_eq_div_pow _ 6
  have e4 : ∀ n, n >>> 4 = n / 16 := fun n => Nat.shiftRight_eq_div_pow _ 4
  unfold adjustStrength
  rw [e6, e4]
  by_cases hv : var = 0
  · rw [if_neg (by omega), if_pos hv]
  · rw [if_pos hv, if_neg hv]

theorem params_y (c : Ctx) (r cc : Nat) : Av1.blockParams (envOf c.f c.d c.hdr idx skips D) 0 r cc =
    let cost := energy c.d fun y x => D 0 (r * 4 + y : Nat) (cc * 4 + x : Nat)
    let l := levels c.d (c.hdr.yStr (idx r cc).toNat)
    ⟨adjustStrength l.1 (Av1.variance cost), l.2, if l.1 = 0 then 0 else Av1.yDir cost, c.hdr.damping + (c.d.bpc - 8)⟩ := by
  unfold Av1.blockParams envOf
  simp only [levels_eq, ← adjust_eq, if_true]

theorem params_uv (c : Ctx) (r cc : Nat) (hp : pl ≠ 0) : Av1.blockParams (envOf c.f c.d c.hdr idx skips D) pl r cc =
    let cost := energy c.d fun y x => D 0 (r * 4 + y : Nat) (cc * 4 + x : Nat)
    let l := levels c.d (c.hdr.uvStr (idx r cc).toNat)
    ⟨l.1, l.2, if l.1 = 0 then 0 else Av1.Cdef_Uv_Dir (if c.f.layout = 3 then 0 else 1) (if c.f.layout ≤ 1 then 1 else 0) (Av1.yDir cost), c.hdr.damping + (c.d.bpc - 8) - 1⟩ := by
  unfold Av1.blockParams envOf
  simp only [levels_eq, if_neg hp]

/-- The calls for a plane of a block. -/
theorem callFb_eq (hh : HdrOk c.hdr) (hlay : c.f.layout ≤ 3) (hD : InRange c.f c.d D) (hp : Pl c.f pl) (hK : 2 * K < c.f.bh) (hJ : 2 * J < c.f.bw)
    (hc : ∀ pl, Pl c.f pl → ∀ Y X : Int, y0 c.f pl (2 * K) ≤ Y → Y < y0 c.f pl (2 * K) + bkH c.f pl → x0 c.f pl (2 * J) ≤ X → X < x0 c.f pl c.f.bw → s.fr pl Y X = D pl Y X)
    (hi : idx (2 * K) (2 * J) ≠ -1) (hsk : Av1.skip (envOf c.f c.d c.hdr idx skips D) (2 * K) (2 * J) = false)
    (hs : (if pl = 0 then c.hdr.yStr (idx (2 * K) (2 * J)).toNat else c.hdr.uvStr (idx (2 * K) (2 * J)).toNat) ≠ 0 → Seen c D K J pl s) {Y X : Nat} (hB : inB c.f pl (2 * K) (2 * J) Y X) :
    callFb c (2 * K) (2 * J) (c.hdr.yStr (idx (2 * K) (2 * J)).toNat) (c.hdr.uvStr (idx (2 * K) (2 * J)).toNat) s pl Y X = Av1.CdefFrame (envOf c.f c.d c.hdr idx skips D) pl Y X := by
  have hxl := x_lt (pl := pl) hJ
  have hpos := pos_block hB
  have hsame : s.fr pl Y X = D pl Y X := by
    obtain ⟨b1, b2, b3, b4⟩ := hB
    exact hc pl hp _ _ b1 b2 b3 (by omega)
  have hF : Av1.CdefFrame (envOf c.f c.d c.hdr idx skips D) pl Y X =
      specFilter c.d (Av1.blockParams (envOf c.f c.d c.hdr idx skips D) pl (2 * K) (2 * J)) (Av1.available (envOf c.f c.d c.hdr idx skips D) pl) (D pl Y X) Y X := by
    unfold Av1.CdefFrame
    simp only [(sub_eq (d := c.d) (hdr := c.hdr) (idx := idx) (skips := skips) (D := D) hp).1, (sub_eq (d := c.d) (hdr := c.hdr) (idx := idx) (skips := skips) (D := D) hp).2, hpos.1, hpos.2]
    rw [if_neg (by rintro (h | h); · exact hi h
                   · rw [hsk] at h; cases h)]
    rfl
  rw [hF]
  have hdv := fun (a b : Nat) (hab : a ≠ 0 ∨ b ≠ 0) => dirVar_eq (s := s) hD hK hJ (hc 0 (Or.inl rfl)) hab
  have hyd := (yDir_spec (energy c.d fun y x => D 0 (2 * K * 4 + y : Nat) (2 * J * 4 + x : Nat))).1
  have hy := hh.y (idx (2 * K) (2 * J)).toNat
  have hu := hh.uv (idx (2 * K) (2 * J)).toNat
  have hl0 : ∀ l, (levels c.d l).1 ≠ 0 ∨ (levels c.d l).2 ≠ 0 ↔ l ≠ 0 := by
    intro l
    rw [levels_eq]
    have h2 : 0 < 2 ^ (c.d.bpc - 8) := Nat.two_pow_pos _
    simp only [Nat.mul_ne_zero_iff]
    split_ifs <;> omega
  unfold callFb
  simp only []
  by_cases hp0 : pl = 0
  · subst hp0
    rw [if_pos rfl] at hs
    rw [if_pos rfl, params_y]
    simp only []
    generalize energy c.d (fun y x => D 0 (2 * K * 4 + y : Nat) (2 * J * 4 + x : Nat)) = cost at hdv hyd ⊢
    generalize (idx (2 * K) (2 * J)).toNat = i at hs hy hu ⊢
    by_cases h1 : (levels c.d (c.hdr.yStr i)).1 ≠ 0
    · rw [if_pos h1, if_neg h1, hdv _ _ (Or.inl h1)]
      have hO := (C55_params c.d (var := Av1.variance cost) hy hh.damping hyd).1
      by_cases h2 : adjustStrength (levels c.d (c.hdr.yStr i)).1 (Av1.variance cost) ≠ 0 ∨ (levels c.d (c.hdr.yStr i)).2 ≠ 0
      · rw [if_pos h2]
        exact fb_eq hD hp hK hJ (hs ((hl0 _).1 (Or.inl h1))) hO h2 hB
      · rw [if_neg h2, hsame]
        exact (specFilter_zero c.d (by dsimp only; omega) (by dsimp only; omega) _ _ _ _).symm
    · have h1' : (levels c.d (c.hdr.yStr i)).1 = 0 := by omega
      have ha : adjustStrength (levels c.d (c.hdr.yStr i)).1 (Av1.variance cost) = 0 := by
        rw [h1']
        unfold adjustStrength
        split_ifs <;> simp
      have hO := (C55_params c.d (var := Av1.variance cost) hy hh.damping (show 0 < 8 by omega)).1
      rw [ha] at hO
      rw [if_neg h1, ha, if_pos h1']
      by_cases h2 : (levels c.d (c.hdr.yStr i)).2 ≠ 0
      · rw [if_pos h2]
        exact fb_eq hD hp hK hJ (hs ((hl0 _).1 (Or.inr h2))) hO (Or.inr h2) hB
      · rw [if_neg h2, hsame]
        exact (specFilter_zero c.d rfl (by dsimp only; omega) _ _ _ _).symm
  · rw [if_neg hp0] at hs
    rw [if_neg hp0, params_uv c _ _ hp0]
    simp only []
    generalize energy c.d (fun y x => D 0 (2 * K * 4 + y : Nat) (2 * J * 4 + x : Nat)) = cost at hdv hyd ⊢
    generalize (idx (2 * K) (2 * J)).toNat = i at hs hy hu ⊢
    obtain ⟨hp1, hp2⟩ : c.f.layout ≠ 0 ∧ pl ≤ 2 := by rcases hp with h | h; · exact absurd h hp0
                                                      · exact h
    by_cases h0 : c.hdr.uvStr i = 0
    · rw [if_pos (Or.inl h0), hsame]
      have := mt (hl0 (c.hdr.uvStr i)).1 (fun h => h h0)
      exact (specFilter_zero c.d (by dsimp only; omega) (by dsimp only; omega) _ _ _ _).symm
    · rw [if_neg (by omega)]
      have hz := (hl0 (c.hdr.uvStr i)).2 h0
      by_cases h1 : (levels c.d (c.hdr.uvStr i)).1 ≠ 0
      · rw [if_pos h1, if_neg h1, hdv _ _ (Or.inr h1), ← uvDir_eq hp1 hlay hyd]
        exact fb_eq hD hp hK hJ (hs h0) (C55_params c.d (var := 0) hu hh.damping (uvDir_lt _ _)).2 hz hB
      · rw [if_neg h1, if_pos (by omega)]
        exact fb_eq hD hp hK hJ (hs h0) (C55_params c.d (var := 0) hu hh.damping (show 0 < 8 by omega)).2 hz hB
end

end Dav1d.Cdf
