import Verif.Dsp.FgRow
import Verif.Obu.FrameSpec

/-!
# Film grain: the picture gets the specified noise
-/
namespace Dav1d.Fg
open Dav1d

/-! ## Samples -/

theorem pixel_id (d : Depth) (v : Int) (h : 0 ≤ v ∧ v ≤ d.max) : pixel d v = v := by
  cases d <;> simp only [pixel, Depth.max, Depth.bpc] at * <;> norm_num at h <;> omega

theorem max_eq (d : Depth) : d.max = 256 * 2 ^ (d.bpc - 8) - 1 := by cases d <;> rfl

theorem max_eq' (d : Depth) : d.max = 2 ^ d.bpc - 1 := by cases d <;> rfl

theorem minValue_eq (d : Depth) (g : FilmGrainData) : minValue d g = Spec.minValue d.bpc g := rfl

theorem maxValue_luma (d : Depth) (g : FilmGrainData) : maxValue d g 235 = Spec.maxLuma d.bpc g := by
  unfold maxValue Spec.maxLuma
  rw [max_eq]
  rfl

theorem maxValue_chroma (d : Depth) (g : FilmGrainData) (b : Bool) :
    maxValue d g (if b then 235 else 240) = Spec.maxChroma d.bpc g b := by
  unfold maxValue Spec.maxChroma
  rw [max_eq]
  rfl

theorem luma_limits (d : Depth) (g : FilmGrainData) : 0 ≤ Spec.minValue d.bpc g ∧ Spec.minValue d.bpc g ≤ Spec.maxLuma d.bpc g ∧
    Spec.maxLuma d.bpc g ≤ d.max := by
  unfold Spec.minValue Spec.maxLuma
  cases d <;> split_ifs <;> decide

theorem chroma_limits (d : Depth) (g : FilmGrainData) (b : Bool) : 0 ≤ Spec.minValue d.bpc g ∧
    Spec.minValue d.bpc g ≤ Spec.maxChroma d.bpc g b ∧ Spec.maxChroma d.bpc g b ≤ d.max := by
  unfold Spec.minValue Spec.maxChroma
  cases d <;> split_ifs <;> decide

theorem toNat_lt (d : Depth) (v : Int) (h : 0 ≤ v ∧ v ≤ d.max) : v.toNat < 2 ^ d.bpc := by
  rw [max_eq'] at h
  have : ((2 ^ d.bpc : Nat) : Int) = 2 ^ d.bpc := by push_cast; rfl
  omega

theorem addNoiseY_eq (d : Depth) (g : FilmGrainData) (l : List (Nat × Nat)) (hl : Pts l) (junk : Int → Int) (src : Plane) (y0 n y x : Int)
    (hv : 0 ≤ src (y0 + y) x ∧ src (y0 + y) x ≤ d.max) :
    addNoiseY d g (generateScaling d l junk) src y0 n y x =
      Spec.clip3 (Spec.minValue d.bpc g) (Spec.maxLuma d.bpc g)
        (src (y0 + y) x + Spec.round2 (Spec.scaleLut d.bpc l (src (y0 + y) x).toNat * n) g.scalingShift) := by
  unfold addNoiseY
  dsimp only
  generalize src (y0 + y) x = v at *
  have e : generateScaling d l junk v = Spec.scaleLut d.bpc l v.toNat := by
    rw [← generateScaling_eq d l hl junk v.toNat (toNat_lt d v hv), Int.toNat_of_nonneg hv.1]
  rw [e, round2_eq, iclip_eq, maxValue_luma, minValue_eq]
  have hL := luma_limits d g
  have := clip3_range (Spec.minValue d.bpc g) (Spec.maxLuma d.bpc g)
    (v + Spec.round2 (Spec.scaleLut d.bpc l v.toNat * n) g.scalingShift) hL.2.1
  exact pixel_id d _ ⟨by omega, by omega⟩

/-- The value from which the scaling of chroma is looked up. -/
theorem addNoiseUv_eq (d : Depth) (g : FilmGrainData) (uv isId : Bool) (sx sy : Nat) (hx : sx ≤ 1) (l : List (Nat × Nat)) (hl : Pts l)
    (junk : Int → Int) (src luma : Plane) (y0 ly0 n y x : Int)
    (h0 : 0 ≤ luma (ly0 + y * 2 ^ sy) (x * 2 ^ sx) ∧ luma (ly0 + y * 2 ^ sy) (x * 2 ^ sx) ≤ d.max)
    (h1 : sx = 1 → 0 ≤ luma (ly0 + y * 2 ^ sy) (x * 2 ^ sx + 1) ∧ luma (ly0 + y * 2 ^ sy) (x * 2 ^ sx + 1) ≤ d.max) :
    let average := if sx = 1 then Spec.round2 (luma (ly0 + y * 2 ^ sy) (x * 2 ^ sx) + luma (ly0 + y * 2 ^ sy) (x * 2 ^ sx + 1)) 1
      else luma (ly0 + y * 2 ^ sy) (x * 2 ^ sx)
    let merged := if g.chromaScalingFromLuma then average else
      Spec.clip3 0 (2 ^ d.bpc - 1) ((average * (uvMult g uv).2.1 + src (y0 + y) x * (uvMult g uv).1) / 64 +
        (uvMult g uv).2.2 * 2 ^ (d.bpc - 8))
    addNoiseUv d g uv isId sx sy (generateScaling d l junk) src luma y0 ly0 n y x =
      Spec.clip3 (Spec.minValue d.bpc g) (Spec.maxChroma d.bpc g isId)
        (src (y0 + y) x + Spec.round2 (Spec.scaleLut d.bpc l merged.toNat * n) g.scalingShift) := by
  intro average merged
  have ha : (if sx ≠ 0 then pixel d (asr (luma (ly0 + y * 2 ^ sy) (x * 2 ^ sx) + luma (ly0 + y * 2 ^ sy) (x * 2 ^ sx + 1) + 1) 1)
      else luma (ly0 + y * 2 ^ sy) (x * 2 ^ sx)) = average ∧ 0 ≤ average ∧ average ≤ d.max := by
    simp only [average]
    rcases (by omega : sx = 0 ∨ sx = 1) with h | h
    · rw [if_neg (show ¬sx = 1 by omega), if_neg (show ¬sx ≠ 0 by omega)]
      exact ⟨rfl, h0⟩
    · rw [if_pos h, if_pos (show sx ≠ 0 by omega)]
      have h1 := h1 h
      generalize luma (ly0 + y * 2 ^ sy) (x * 2 ^ sx) = a at *
      generalize luma (ly0 + y * 2 ^ sy) (x * 2 ^ sx + 1) = b at *
      have e : Spec.round2 (a + b) 1 = (a + b + 1) / 2 := rfl
      have e' : asr (a + b + 1) 1 = (a + b + 1) / 2 := rfl
      rw [e, e', pixel_id d _ (by omega)]
      exact ⟨rfl, by omega, by omega⟩
  unfold addNoiseUv
  dsimp only
  rw [ha.1]
  have hm : (if g.chromaScalingFromLuma = true then average
      else d.clip (asr (average * (uvMult g uv).2.1 + src (y0 + y) x * (uvMult g uv).1) 6 + (uvMult g uv).2.2 * 2 ^ min8 d)) = merged ∧
      0 ≤ merged ∧ merged ≤ d.max := by
    simp only [merged]
    split_ifs with hc
    · exact ⟨rfl, ha.2⟩
    · rw [← max_eq']
      refine ⟨rfl, ?_⟩
      exact clip3_range 0 d.max _ (by cases d <;> decide)
  rw [hm.1]
  generalize merged = v at *
  have e : generateScaling d l junk v = Spec.scaleLut d.bpc l v.toNat := by
    rw [← generateScaling_eq d l hl junk v.toNat (toNat_lt d v hm.2), Int.toNat_of_nonneg hm.2.1]
  rw [e, round2_eq, iclip_eq, maxValue_chroma, minValue_eq]
  have hL := chroma_limits d g isId
  have := clip3_range (Spec.minValue d.bpc g) (Spec.maxChroma d.bpc g isId)
    (src (y0 + y) x + Spec.round2 (Spec.scaleLut d.bpc l v.toNat * n) g.scalingShift) hL.2.1
  exact pixel_id d _ ⟨by omega, by omega⟩

/-! ## Padding -/

theorem padLuma_eq (p : PicInfo) (row bh : Nat) (s : Plane) (Y X : Int) :
    padLuma p row bh s Y X =
      if X = p.w ∧ p.w % 2 = 1 ∧ p.layout.sx = 1 ∧ ∃ y : Nat, y < bh ∧ Y = row * 32 + y * 2 ^ p.layout.sy then s Y (p.w - 1) else s Y X := by
  have hc : p.w &&& p.layout.sx ≠ 0 ↔ p.w % 2 = 1 ∧ p.layout.sx = 1 := by
    have : p.layout.sx = 0 ∨ p.layout.sx = 1 := by unfold Layout.sx; split_ifs <;> omega
    rcases this with h | h
    · rw [h, Nat.and_zero]
      omega
    · rw [h, Nat.and_one_is_mod]
      omega
  unfold padLuma
  by_cases h : p.w % 2 = 1 ∧ p.layout.sx = 1
  · rw [if_pos (hc.mpr h)]
    have key := loop_inv bh (fun y s => setAt s (row * 32 + y * 2 ^ p.layout.sy) p.w (s (row * 32 + y * 2 ^ p.layout.sy) (p.w - 1))) s
      (fun k t => ∀ Y X : Int, t Y X = if X = p.w ∧ ∃ y : Nat, y < k ∧ Y = row * 32 + y * 2 ^ p.layout.sy then s Y (p.w - 1) else s Y X)
      (fun Y X => by rw [if_neg]; rintro ⟨_, y, hy, _⟩; omega) ?_
    · rw [key Y X]
      refine if_congr ?_ rfl rfl
      exact ⟨fun ⟨a, b⟩ => ⟨a, h.1, h.2, b⟩, fun ⟨a, _, _, b⟩ => ⟨a, b⟩⟩
    · intro k _ t ht Y X
      show (if Y = _ ∧ X = _ then _ else _) = _
      by_cases hk : Y = row * 32 + k * 2 ^ p.layout.sy ∧ X = p.w
      · rw [if_pos hk, if_pos ⟨hk.2, k, by omega, hk.1⟩, ht, if_neg (by omega), hk.1]
      · rw [if_neg hk, ht Y X]
        refine if_congr ?_ rfl rfl
        constructor
        · rintro ⟨a, y, hy, b⟩
          exact ⟨a, y, by omega, b⟩
        · rintro ⟨a, y, hy, b⟩
          refine ⟨a, y, ?_, b⟩
          by_contra hh
          have : y = k := by omega
          subst this
          exact hk ⟨b, a⟩
  · rw [if_neg (fun hh => h (hc.mp hh)), if_neg (fun hh => h ⟨hh.2.1, hh.2.2.1⟩)]

/-! ## One row -/

/-- The planes by number. -/
def Planes.outC (s : Planes) (uv : Bool) : Plane := if uv then s.outV else s.outU
def Planes.inC (s : Planes) (uv : Bool) : Plane := if uv then s.inV else s.inU
def Luts.c (l : Luts) (uv : Bool) : Plane := if uv then l.v else l.u
def Luts.sc (l : Luts) (g : FilmGrainData) (uv : Bool) : Int → Int :=
  if g.chromaScalingFromLuma then l.scY else if uv then l.scV else l.scU

theorem sx_le (l : Layout) : l.sx ≤ 1 := by cases l <;> decide
theorem sy_le (l : Layout) : l.sy ≤ 1 := by cases l <;> decide

def chromaCols (p : PicInfo) : Nat := (p.w + p.layout.sx) >>> p.layout.sx
def chromaRows (p : PicInfo) : Nat := (p.h + p.layout.sy) >>> p.layout.sy

/-- Whether noise is added to the plane. -/
def Active (g : FilmGrainData) (uv : Bool) : Prop := (uvPoints g uv).length ≠ 0 ∨ g.chromaScalingFromLuma = true

instance (g : FilmGrainData) (uv : Bool) : Decidable (Active g uv) := by unfold Active; infer_instance

theorem row_outY (p : PicInfo) (l : Luts) (junk : RowJunk) (s : Planes) (row : Nat) :
    (applyGrainRow p l junk s row).outY = if p.grain.yPoints.length ≠ 0 then
      fgRow p.depth p.grain l.y 0 0 p.w (min (p.h - row * 32) 32) row (row * 32)
        (addNoiseY p.depth p.grain l.scY s.inY (row * 32)) junk.offs junk.seed s.outY
    else s.outY := by
  unfold applyGrainRow
  dsimp only
  split_ifs <;> rfl

theorem row_inC (p : PicInfo) (l : Luts) (junk : RowJunk) (s : Planes) (row : Nat) (uv : Bool) :
    (applyGrainRow p l junk s row).inC uv = s.inC uv := by
  unfold applyGrainRow Planes.inC
  dsimp only
  cases uv <;> split_ifs <;> rfl

theorem row_inY (p : PicInfo) (l : Luts) (junk : RowJunk) (s : Planes) (row : Nat) :
    (applyGrainRow p l junk s row).inY = if Active p.grain false ∨ Active p.grain true then
      padLuma p row ((min (p.h - row * 32) 32 + p.layout.sy) >>> p.layout.sy) s.inY else s.inY := by
  unfold applyGrainRow Active uvPoints
  simp only [Bool.false_eq_true, if_false, if_true]
  split_ifs <;> first | rfl | (exfalso; simp_all)

theorem row_outC (p : PicInfo) (l : Luts) (junk : RowJunk) (s : Planes) (row : Nat) (uv : Bool) :
    (applyGrainRow p l junk s row).outC uv = if Active p.grain uv then
      fgRow p.depth p.grain (l.c uv) p.layout.sx p.layout.sy (chromaCols p) ((min (p.h - row * 32) 32 + p.layout.sy) >>> p.layout.sy) row
        ((row * 32) >>> p.layout.sy : Nat)
        (addNoiseUv p.depth p.grain uv p.isId p.layout.sx p.layout.sy (l.sc p.grain uv) (s.inC uv)
          (padLuma p row ((min (p.h - row * 32) 32 + p.layout.sy) >>> p.layout.sy) s.inY) ((row * 32) >>> p.layout.sy : Nat) (row * 32))
        junk.offs junk.seed (s.outC uv)
    else s.outC uv := by
  unfold applyGrainRow Active uvPoints Luts.sc
  dsimp only
  cases uv
  · show Planes.outU _ = _
    simp only [Bool.false_eq_true, if_false]
    split_ifs <;> first | rfl | (exfalso; simp_all)
  · show Planes.outV _ = _
    simp only [if_true]
    split_ifs <;> first | rfl | (exfalso; simp_all)

/-! ## The rows -/

/-- Luma with the padding. -/
def padded (p : PicInfo) (s : Plane) : Plane := fun Y X => if X = p.w then s Y (p.w - 1) else s Y X

/-- What noise makes of a sample. -/
def lumaValue (p : PicInfo) (l : Luts) (s : Planes) (y x : Nat) : Int :=
  addNoiseY p.depth p.grain l.scY s.inY 0 (Spec.image p.depth.bpc p.grain 0 0 l.y y x) y x

def chromaValue (p : PicInfo) (l : Luts) (s : Planes) (uv : Bool) (y x : Nat) : Int :=
  addNoiseUv p.depth p.grain uv p.isId p.layout.sx p.layout.sy (l.sc p.grain uv) (s.inC uv) (padded p s.inY) 0 0
    (Spec.image p.depth.bpc p.grain p.layout.sx p.layout.sy (l.c uv) y x) y x

/-- What holds when the rows `done` have been processed, in whatever order. -/
structure RowsInv (p : PicInfo) (l : Luts) (s0 : Planes) (done : List Nat) (s : Planes) : Prop where
  inC : ∀ uv, s.inC uv = s0.inC uv
  inY : ∀ Y X : Int, X ≠ p.w → s.inY Y X = s0.inY Y X
  outY : ∀ y x : Nat, y < p.h → x < p.w → s.outY y x =
    if y / 32 ∈ done ∧ p.grain.yPoints.length ≠ 0 then lumaValue p l s0 y x else s0.outY y x
  outC : ∀ uv, ∀ y x : Nat, y < chromaRows p → x < chromaCols p → s.outC uv y x =
    if y / Spec.blk p.layout.sy ∈ done ∧ Active p.grain uv then chromaValue p l s0 uv y x else s0.outC uv y x

theorem rows_step (p : PicInfo) (hseed : p.grain.seed < 65536) (l : Luts) (s0 : Planes) (done : List Nat) (s : Planes)
    (h : RowsInv p l s0 done s) (junk : RowJunk) (row : Nat) :
    RowsInv p l s0 (row :: done) (applyGrainRow p l junk s row) := by
  refine ⟨fun uv => by rw [row_inC, h.inC], fun Y X hX => ?_, fun y x hy hx => ?_, fun uv y x hy hx => ?_⟩
  · rw [row_inY]
    split_ifs
    · rw [padLuma_eq, if_neg (fun hh => hX hh.1), h.inY Y X hX]
    · exact h.inY Y X hX
  · rw [row_outY]
    by_cases hp : p.grain.yPoints.length ≠ 0
    · rw [if_pos hp, fgRow_eq p.depth p.grain hseed l.y 0 0 (by omega) (by omega) p.w _ row (by show _ ≤ 32; omega)]
      by_cases hr : y / 32 = row
      · rw [if_pos (by omega), if_pos ⟨by rw [hr]; exact List.mem_cons_self, hp⟩]
        unfold lumaValue addNoiseY
        have e : row * Spec.blk 0 + ((y : Int) - row * 32).toNat = y := by show row * 32 + _ = _; omega
        rw [e, show (row : Int) * 32 + (y - row * 32) = y by omega, show (0 : Int) + y = y by omega, Int.toNat_natCast,
          h.inY y x (by omega)]
      · rw [if_neg (by omega), h.outY y x hy hx]
        refine if_congr ?_ rfl rfl
        rw [List.mem_cons]
        exact ⟨fun ⟨a, b⟩ => ⟨Or.inr a, b⟩, fun ⟨a, b⟩ => ⟨a.resolve_left hr, b⟩⟩
    · rw [if_neg hp, if_neg (fun hh => hp hh.2), h.outY y x hy hx, if_neg (fun hh => hp hh.2)]
  · rw [row_outC]
    by_cases hp : Active p.grain uv
    · have hsx := sx_le p.layout
      have hsy := sy_le p.layout
      rw [if_pos hp]
      have eb : (row * 32) >>> p.layout.sy = row * Spec.blk p.layout.sy := by
        unfold Spec.blk
        generalize p.layout.sy = k at hsy
        rw [Nat.shiftRight_eq_div_pow]
        interval_cases k <;> norm_num
        omega
      have e32 : (32 : Nat) = Spec.blk p.layout.sy * 2 ^ p.layout.sy := by
        unfold Spec.blk
        generalize p.layout.sy = k at hsy
        interval_cases k <;> rfl
      have hbh : (min (p.h - row * 32) 32 + p.layout.sy) >>> p.layout.sy ≤ Spec.blk p.layout.sy := by
        unfold Spec.blk
        generalize p.layout.sy = k at hsy
        rw [Nat.shiftRight_eq_div_pow]
        interval_cases k <;> norm_num
        omega
      have hin : (row * Spec.blk p.layout.sy ≤ y ∧
          y < row * Spec.blk p.layout.sy + (min (p.h - row * 32) 32 + p.layout.sy) >>> p.layout.sy) ↔ y / Spec.blk p.layout.sy = row := by
        unfold chromaRows at hy
        unfold Spec.blk
        generalize p.layout.sy = k at hsy hy
        rw [Nat.shiftRight_eq_div_pow] at *
        interval_cases k <;> norm_num at * <;> omega
      rw [fgRow_eq p.depth p.grain hseed (l.c uv) _ _ hsx hsy _ _ row hbh, eb]
      by_cases hr : y / Spec.blk p.layout.sy = row
      · have hin' := hin.mpr hr
        have hX : 0 ≤ (x : Int) ∧ (x : Int) < (chromaCols p : Nat) := ⟨by omega, by omega⟩
        rw [if_pos ⟨by omega, by omega, hX.1, hX.2⟩, if_pos ⟨by rw [hr]; exact List.mem_cons_self, hp⟩]
        obtain ⟨i, hi⟩ : ∃ i : Nat, y = row * Spec.blk p.layout.sy + i := ⟨y - row * Spec.blk p.layout.sy, by omega⟩
        have hi' : (y : Int) - (row * Spec.blk p.layout.sy : Nat) = i := by omega
        have ey : (row : Int) * 32 + (i : Int) * 2 ^ p.layout.sy = 0 + (y : Int) * 2 ^ p.layout.sy := by
          have : (32 : Int) = Spec.blk p.layout.sy * 2 ^ p.layout.sy := by exact_mod_cast e32
          rw [hi, this]
          push_cast
          ring
        have hib : i < (min (p.h - row * 32) 32 + p.layout.sy) >>> p.layout.sy := by omega
        have hxw : x * 2 ^ p.layout.sx < p.w ∧ (p.layout.sx = 1 → x * 2 ^ p.layout.sx + 1 ≤ p.w) ∧
            (p.layout.sx = 1 → x * 2 ^ p.layout.sx + 1 = p.w → p.w % 2 = 1) := by
          unfold chromaCols at hx
          generalize p.layout.sx = k at hsx hx
          rw [Nat.shiftRight_eq_div_pow] at hx
          interval_cases k <;> norm_num at * <;> omega
        have px : (x : Int) * 2 ^ p.layout.sx = (x * 2 ^ p.layout.sx : Nat) := by push_cast; rfl
        have p0 : ∀ P : Plane, (∀ Y X : Int, X ≠ p.w → P Y X = s0.inY Y X) → ∀ Y : Int, P Y ((x : Int) * 2 ^ p.layout.sx) = s0.inY Y ((x : Int) * 2 ^ p.layout.sx) :=
          fun P hP Y => hP _ _ (by rw [px]; omega)
        have hpad : ∀ Y X : Int, X ≠ p.w →
            padLuma p row ((min (p.h - row * 32) 32 + p.layout.sy) >>> p.layout.sy) s.inY Y X = s0.inY Y X := by
          intro Y X hX
          rw [padLuma_eq, if_neg (fun hh => hX hh.1), h.inY Y X hX]
        have hpad' : ∀ Y X : Int, X ≠ p.w → padded p s0.inY Y X = s0.inY Y X := fun Y X hX => if_neg hX
        have p1 : p.layout.sx ≠ 0 → padLuma p row ((min (p.h - row * 32) 32 + p.layout.sy) >>> p.layout.sy) s.inY
            (row * 32 + (i : Int) * 2 ^ p.layout.sy) ((x : Int) * 2 ^ p.layout.sx + 1) =
            padded p s0.inY (0 + (y : Int) * 2 ^ p.layout.sy) ((x : Int) * 2 ^ p.layout.sx + 1) := by
          intro h1
          have h1 : p.layout.sx = 1 := by omega
          rw [← ey]
          by_cases hw : (x : Int) * 2 ^ p.layout.sx + 1 = p.w
          · have h2 := hxw.2.2 h1 (by rw [px] at hw; omega)
            rw [padLuma_eq, if_pos ⟨hw, h2, h1, i, hib, rfl⟩, h.inY _ _ (by omega)]
            exact (if_pos hw).symm
          · rw [hpad _ _ hw, hpad' _ _ hw]
        have et : ((x : Int)).toNat = x := Int.toNat_natCast x
        rw [hi', Int.toNat_natCast, ← hi, et]
        unfold chromaValue addNoiseUv
        dsimp only
        rw [p0 _ hpad, p0 _ hpad', ey, h.inC uv, show ((row * Spec.blk p.layout.sy : Nat) : Int) + i = 0 + y by omega]
        by_cases h1 : p.layout.sx = 0
        · rw [if_neg (not_not.mpr h1), if_neg (not_not.mpr h1)]
        · rw [if_pos h1, if_pos h1, ← ey, p1 h1, ey]
      · have : ¬(((row * Spec.blk p.layout.sy : Nat) : Int) ≤ y ∧
            (y : Int) < ((row * Spec.blk p.layout.sy : Nat) : Int) + ((min (p.h - row * 32) 32 + p.layout.sy) >>> p.layout.sy : Nat)) := by
          intro hh
          exact hr (hin.mp ⟨by omega, by omega⟩)
        rw [if_neg (fun hh => this ⟨hh.1, hh.2.1⟩), h.outC uv y x hy hx]
        refine if_congr ?_ rfl rfl
        rw [List.mem_cons]
        exact ⟨fun ⟨a, b⟩ => ⟨Or.inr a, b⟩, fun ⟨a, b⟩ => ⟨a.resolve_left hr, b⟩⟩
    · rw [if_neg hp, if_neg (fun hh => hp hh.2), h.outC uv y x hy hx, if_neg (fun hh => hp hh.2)]

theorem rows_inv (p : PicInfo) (hseed : p.grain.seed < 65536) (l : Luts) (rowJunk : Nat → RowJunk) (s0 : Planes) :
    ∀ (rows done : List Nat) (s : Planes), RowsInv p l s0 done s →
      RowsInv p l s0 (rows.reverse ++ done) (rows.foldl (fun s row => applyGrainRow p l (rowJunk row) s row) s) := by
  intro rows
  induction rows with
  | nil => intro done s h; exact h
  | cons r rs ih =>
    intro done s h
    have := ih (r :: done) _ (rows_step p hseed l s0 done s h (rowJunk r) r)
    rw [List.reverse_cons, List.append_assoc]
    exact this

theorem rows_start (p : PicInfo) (l : Luts) (s : Planes) : RowsInv p l s [] s :=
  ⟨fun _ => rfl, fun _ _ _ => rfl, fun _ _ _ _ => by simp, fun _ _ _ _ _ => by simp⟩

/-! ## The tables -/

theorem scaling_held {g : FilmGrainData} (h : FgHeld g) : Pts g.yPoints ∧ (∀ uv, Pts (uvPoints g uv)) ∧ g.arCoeffLag ≤ 3 ∧
    g.grainScaleShift ≤ 3 := by
  have hn : Pts [] := ⟨by simp, by simp⟩
  rcases h.2 with h | h
  · refine ⟨⟨h.y.range, h.y.increasing⟩, fun uv => ?_, h.lag, h.grainShift⟩
    cases uv
    · exact ⟨h.uv0.range, h.uv0.increasing⟩
    · exact ⟨h.uv1.range, h.uv1.increasing⟩
  · rw [h]
    exact ⟨hn, fun uv => by cases uv <;> exact hn, Nat.zero_le 3, Nat.zero_le 3⟩

theorem luts_y (p : PicInfo) (h : FgHeld p.grain) (junk : Luts) (hp : p.grain.yPoints.length > 0) (GY : Int → Int → Int)
    (hGY : Spec.IsLumaGrain p.depth.bpc p.grain GY) (y x : Nat) (hy : y < 73) (hx : x < 82) : (prepLuts p junk).y y x = GY y x := by
  have hh := scaling_held h
  refine IsGrain.unique hh.2.2.1 (generateGrainY_eq p.depth p.grain hh.2.2.2 h.1 junk.y) hGY (fun y x _ _ => ?_) (fun _ _ _ _ _ _ => rfl) y x hy hx
  rw [if_pos hp]

theorem lumaGrain_congr (sx sy : Nat) (hx : sx ≤ 1) (hy : sy ≤ 1) (A B : Int → Int → Int)
    (h : ∀ y x : Nat, y < 73 → x < 82 → A y x = B y x) (y x : Nat) (h3 : 3 ≤ y) (hy' : y < Spec.chromaHeight sy) (h3' : 3 ≤ x)
    (hx' : x < Spec.chromaWidth sx - 3) : Spec.lumaGrain sx sy A y x = Spec.lumaGrain sx sy B y x := by
  unfold Spec.lumaGrain
  congr 1
  refine Finset.sum_congr rfl (fun i hi => Finset.sum_congr rfl (fun j hj => h _ _ ?_ ?_))
  · have := Finset.mem_range.mp hi
    interval_cases sy <;> simp [Spec.chromaHeight] at * <;> omega
  · have := Finset.mem_range.mp hj
    interval_cases sx <;> simp [Spec.chromaWidth] at * <;> omega

theorem luts_c (p : PicInfo) (h : FgHeld p.grain) (junk : Luts) (uv : Bool) (ha : Active p.grain uv) (GY G : Int → Int → Int)
    (hGY : Spec.IsLumaGrain p.depth.bpc p.grain GY)
    (hG : Spec.IsChromaGrain p.depth.bpc p.grain (arCoeffsUv p.grain uv) (mask uv) p.layout.sx p.layout.sy GY G) (y x : Nat)
    (hy : y < Spec.chromaHeight p.layout.sy) (hx : x < Spec.chromaWidth p.layout.sx) : (prepLuts p junk).c uv y x = G y x := by
  have hh := scaling_held h
  have e : ∃ j, (prepLuts p junk).c uv = generateGrainUv p.depth p.grain uv p.layout.sx p.layout.sy (prepLuts p junk).y j := by
    unfold prepLuts Luts.c
    dsimp only
    unfold Active uvPoints at ha
    cases uv
    · exact ⟨junk.u, if_pos ha⟩
    · exact ⟨junk.v, if_pos ha⟩
  obtain ⟨j, e⟩ := e
  rw [e]
  refine IsGrain.unique hh.2.2.1
    (generateGrainUv_eq p.depth p.grain hh.2.2.2 h.1 uv p.layout.sx p.layout.sy (sx_le _) (sy_le _) (prepLuts p junk).y j) hG
    (fun _ _ _ _ => rfl) (fun y x h1 h2 h3 h4 => ?_) y x hy hx
  split_ifs with hp
  · rw [lumaGrain_congr _ _ (sx_le _) (sy_le _) _ _ (luts_y p h junk hp GY hGY) y x h1 h2 h3 h4]
  · rfl

/-- The points the scaling of a chroma plane is made from. -/
def pointsOf (g : FilmGrainData) (uv : Bool) : List (Nat × Nat) := if g.chromaScalingFromLuma then g.yPoints else uvPoints g uv

theorem luts_sc (p : PicInfo) (junk : Luts) (uv : Bool) (ha : Active p.grain uv) :
    ∃ j, (prepLuts p junk).sc p.grain uv = generateScaling p.depth (pointsOf p.grain uv) j := by
  unfold prepLuts Luts.sc pointsOf
  dsimp only
  by_cases hc : p.grain.chromaScalingFromLuma = true
  · rw [if_pos hc, if_pos hc, if_pos (Or.inr hc)]
    exact ⟨_, rfl⟩
  · rw [if_neg hc, if_neg hc]
    have hl := ha.resolve_right hc
    unfold uvPoints at *
    cases uv
    · exact ⟨junk.scU, if_pos hl⟩
    · exact ⟨junk.scV, if_pos hl⟩

end Dav1d.Fg
