import Verif.Dsp.FgPic

/-!
# C43 and C61: film grain

`applyGrain p junk rowJunk rows s` is the film grain of the picture described by `p`, with the planes `s` before, working
through `rows` of 32 luma rows in the given order. `junk` and `rowJunk` are the contents of uninitialised memory.
-/
namespace Dav1d.Fg
open Dav1d

/-- The picture has the film grain parameters of an accepted frame header (C14); none for chroma if monochrome. -/
structure PicOk (p : PicInfo) : Prop where
  grain : FgHeld p.grain
  mono : p.layout = .i400 → p.grain.uvPoints0 = [] ∧ p.grain.uvPoints1 = [] ∧ p.grain.chromaScalingFromLuma = false

/-- Every row of the picture is processed. -/
def AllRows (p : PicInfo) (rows : List Nat) : Prop := ∀ r, r ∈ rows ↔ r < (p.h + 31) / 32

/-- The samples of a plane of `h` rows and `w` columns are pixels. -/
def Samples (d : Depth) (h w : Nat) (s : Int → Int → Int) : Prop := ∀ y x : Nat, y < h → x < w → 0 ≤ s y x ∧ s y x ≤ 2 ^ d.bpc - 1

theorem final (p : PicInfo) (hp : PicOk p) (junk : Luts) (rowJunk : Nat → RowJunk) (rows : List Nat) (s : Planes) :
    RowsInv p (prepLuts p junk) (prepPlanes p s) (rows.reverse ++ []) (applyGrain p junk rowJunk rows s) :=
  rows_inv p hp.grain.1 (prepLuts p junk) rowJunk (prepPlanes p s) rows [] (prepPlanes p s) (rows_start _ _ _)

/-- C61: luma is as specified. -/
theorem C61_luma (p : PicInfo) (hp : PicOk p) (junk : Luts) (rowJunk : Nat → RowJunk) (rows : List Nat) (hrows : AllRows p rows)
    (s : Planes) (hs : Samples p.depth p.h p.w s.inY) (GY : Int → Int → Int) (hGY : Spec.IsLumaGrain p.depth.bpc p.grain GY)
    (y x : Nat) (hy : y < p.h) (hx : x < p.w) :
    (applyGrain p junk rowJunk rows s).outY y x = Spec.luma p.depth.bpc p.grain GY s.inY y x := by
  rw [(final p hp junk rowJunk rows s).outY y x hy hx]
  unfold Spec.luma
  by_cases h : p.grain.yPoints.length = 0
  · rw [if_neg (fun hh => hh.2 h), if_neg (by omega)]
    unfold prepPlanes
    dsimp only
    rw [if_pos h]
    exact if_pos (by omega)
  · rw [if_pos ⟨by simpa using (hrows (y / 32)).mpr (by omega), h⟩, if_pos (by omega)]
    dsimp only
    unfold lumaValue
    have e : (prepLuts p junk).scY = generateScaling p.depth p.grain.yPoints junk.scY := if_pos (Or.inl h)
    have hv := hs y x hy hx
    rw [← max_eq'] at hv
    have e0 : (0 : Int) + y = y := by omega
    rw [e, addNoiseY_eq p.depth p.grain _ (scaling_held hp.grain).1 _ _ _ _ _ _ (by rw [e0]; exact hv), e0,
      image_congr _ _ 0 0 (by omega) (by omega) _ GY (luts_y p hp.grain junk (by omega) GY hGY)]
    rfl

theorem chroma_spec (p : PicInfo) (hp : PicOk p) (h400 : p.layout ≠ .i400) (junk : Luts) (rowJunk : Nat → RowJunk) (rows : List Nat)
    (hrows : AllRows p rows) (s : Planes) (hs : Samples p.depth p.h p.w s.inY) (uv : Bool) (GY G : Int → Int → Int)
    (hGY : Spec.IsLumaGrain p.depth.bpc p.grain GY)
    (hG : Spec.IsChromaGrain p.depth.bpc p.grain (arCoeffsUv p.grain uv) (mask uv) p.layout.sx p.layout.sy GY G)
    (y x : Nat) (hy : y < chromaRows p) (hx : x < chromaCols p) :
    (applyGrain p junk rowJunk rows s).outC uv y x =
      Spec.chroma p.depth.bpc p.grain (uvPoints p.grain uv) (uvMult p.grain uv) p.isId p.w p.layout.sx p.layout.sy G s.inY (s.inC uv) y x := by
  have hsx := sx_le p.layout
  have hsy := sy_le p.layout
  rw [(final p hp junk rowJunk rows s).outC uv y x hy hx]
  unfold Spec.chroma
  by_cases h : Active p.grain uv
  · have hrow : y / Spec.blk p.layout.sy < (p.h + 31) / 32 := by
      unfold chromaRows at hy
      unfold Spec.blk
      generalize p.layout.sy = k at hsy hy
      rw [Nat.shiftRight_eq_div_pow] at hy
      interval_cases k <;> norm_num at * <;> omega
    rw [if_pos ⟨by simpa using (hrows _).mpr hrow, h⟩, if_pos (h.imp (fun h => Nat.pos_of_ne_zero h) id)]
    unfold chromaValue
    obtain ⟨j, e⟩ := luts_sc p junk uv h
    have hpts : Pts (pointsOf p.grain uv) := by
      unfold pointsOf
      split_ifs
      · exact (scaling_held hp.grain).1
      · exact (scaling_held hp.grain).2.1 uv
    have hin : (prepPlanes p s).inY = s.inY ∧ (prepPlanes p s).inC uv = s.inC uv := ⟨rfl, by cases uv <;> rfl⟩
    have hly : y * 2 ^ p.layout.sy < p.h := by
      unfold chromaRows at hy
      generalize p.layout.sy = k at hsy hy
      rw [Nat.shiftRight_eq_div_pow] at hy
      interval_cases k <;> norm_num at * <;> omega
    have hlx : x * 2 ^ p.layout.sx < p.w ∧ (p.layout.sx = 1 → x * 2 ^ p.layout.sx + 1 ≤ p.w) := by
      unfold chromaCols at hx
      generalize p.layout.sx = k at hsx hx
      rw [Nat.shiftRight_eq_div_pow] at hx
      interval_cases k <;> norm_num at * <;> omega
    have ey : (0 : Int) + (y : Int) * 2 ^ p.layout.sy = (y * 2 ^ p.layout.sy : Nat) := by push_cast; omega
    have ex : (x : Int) * 2 ^ p.layout.sx = (x * 2 ^ p.layout.sx : Nat) := by push_cast; rfl
    have v0 : padded p s.inY ((y * 2 ^ p.layout.sy : Nat)) ((x * 2 ^ p.layout.sx : Nat)) =
        s.inY ((y * 2 ^ p.layout.sy : Nat)) ((x * 2 ^ p.layout.sx : Nat)) := if_neg (by omega)
    have v1 : p.layout.sx = 1 → padded p s.inY ((y * 2 ^ p.layout.sy : Nat)) ((x * 2 ^ p.layout.sx : Nat) + 1) =
        s.inY ((y * 2 ^ p.layout.sy : Nat)) ((min (x * 2 ^ p.layout.sx + 1) (p.w - 1) : Nat)) := by
      intro h1
      have := hlx.2 h1
      unfold padded
      by_cases hw : ((x * 2 ^ p.layout.sx : Nat) : Int) + 1 = p.w
      · rw [if_pos hw]
        congr 1
        omega
      · rw [if_neg hw]
        congr 1
        omega
    have := addNoiseUv_eq p.depth p.grain uv p.isId p.layout.sx p.layout.sy hsx (pointsOf p.grain uv) hpts j (s.inC uv) (padded p s.inY)
      0 0 (Spec.image p.depth.bpc p.grain p.layout.sx p.layout.sy G y x) y x
      (by
        rw [ey, ex, v0, max_eq']
        exact hs _ _ hly hlx.1)
      (by
        intro h1
        rw [ey, ex, v1 h1, max_eq']
        exact hs _ _ hly (by omega))
    dsimp only at this
    rw [e, hin.1, hin.2, image_congr _ _ _ _ hsx hsy _ G (luts_c p hp.grain junk uv h GY G hGY hG), this, ey, ex, v0,
      show (0 : Int) + y = y by omega]
    dsimp only
    have ea : (if p.layout.sx = 1 then Spec.round2 (s.inY ((y * 2 ^ p.layout.sy : Nat)) ((x * 2 ^ p.layout.sx : Nat)) +
          padded p s.inY ((y * 2 ^ p.layout.sy : Nat)) ((x * 2 ^ p.layout.sx : Nat) + 1)) 1
        else s.inY ((y * 2 ^ p.layout.sy : Nat)) ((x * 2 ^ p.layout.sx : Nat))) =
        (if p.layout.sx = 1 then Spec.round2 (s.inY ((y * 2 ^ p.layout.sy : Nat)) ((x * 2 ^ p.layout.sx : Nat)) +
          s.inY ((y * 2 ^ p.layout.sy : Nat)) ((min (x * 2 ^ p.layout.sx + 1) (p.w - 1) : Nat))) 1
        else s.inY ((y * 2 ^ p.layout.sy : Nat)) ((x * 2 ^ p.layout.sx : Nat))) := by
      by_cases h1 : p.layout.sx = 1
      · rw [if_pos h1, if_pos h1, v1 h1]
      · rw [if_neg h1, if_neg h1]
    rw [ea]
    rfl
  · rw [if_neg (fun hh => h hh.2), if_neg (fun hh => h (hh.imp (fun a => Nat.pos_iff_ne_zero.mp a) id))]
    have hc : p.grain.chromaScalingFromLuma = false := by
      cases hc : p.grain.chromaScalingFromLuma
      · rfl
      · exact absurd (Or.inr hc) h
    have hl : (uvPoints p.grain uv).length = 0 := by
      by_contra hh
      exact h (Or.inl hh)
    unfold chromaRows at hy
    unfold uvPoints at hl
    cases uv
    · have e : (prepPlanes p s).outC false = copyRows ((p.h + p.layout.sy) >>> p.layout.sy) s.inU s.outU := by
        show (prepPlanes p s).outU = _
        unfold prepPlanes
        exact if_pos ⟨⟨h400, hc⟩, hl⟩
      rw [e]
      exact if_pos (by omega)
    · have e : (prepPlanes p s).outC true = copyRows ((p.h + p.layout.sy) >>> p.layout.sy) s.inV s.outV := by
        show (prepPlanes p s).outV = _
        unfold prepPlanes
        exact if_pos ⟨⟨h400, hc⟩, hl⟩
      rw [e]
      exact if_pos (by omega)

/-- C61: the first chroma plane is as specified. -/
theorem C61_cb (p : PicInfo) (hp : PicOk p) (h400 : p.layout ≠ .i400) (junk : Luts) (rowJunk : Nat → RowJunk) (rows : List Nat)
    (hrows : AllRows p rows) (s : Planes) (hs : Samples p.depth p.h p.w s.inY) (GY GU : Int → Int → Int)
    (hGY : Spec.IsLumaGrain p.depth.bpc p.grain GY)
    (hGU : Spec.IsChromaGrain p.depth.bpc p.grain p.grain.arCoeffsUv0 0xb524 p.layout.sx p.layout.sy GY GU)
    (y x : Nat) (hy : y < (p.h + p.layout.sy) / 2 ^ p.layout.sy) (hx : x < (p.w + p.layout.sx) / 2 ^ p.layout.sx) :
    (applyGrain p junk rowJunk rows s).outU y x =
      Spec.chroma p.depth.bpc p.grain p.grain.uvPoints0 p.grain.uvMult0 p.isId p.w p.layout.sx p.layout.sy GU s.inY s.inU y x :=
  chroma_spec p hp h400 junk rowJunk rows hrows s hs false GY GU hGY hGU y x
    (by unfold chromaRows; rw [Nat.shiftRight_eq_div_pow]; exact hy) (by unfold chromaCols; rw [Nat.shiftRight_eq_div_pow]; exact hx)

/-- C61: the second chroma plane is as specified. -/
theorem C61_cr (p : PicInfo) (hp : PicOk p) (h400 : p.layout ≠ .i400) (junk : Luts) (rowJunk : Nat → RowJunk) (rows : List Nat)
    (hrows : AllRows p rows) (s : Planes) (hs : Samples p.depth p.h p.w s.inY) (GY GV : Int → Int → Int)
    (hGY : Spec.IsLumaGrain p.depth.bpc p.grain GY)
    (hGV : Spec.IsChromaGrain p.depth.bpc p.grain p.grain.arCoeffsUv1 0x49d8 p.layout.sx p.layout.sy GY GV)
    (y x : Nat) (hy : y < (p.h + p.layout.sy) / 2 ^ p.layout.sy) (hx : x < (p.w + p.layout.sx) / 2 ^ p.layout.sx) :
    (applyGrain p junk rowJunk rows s).outV y x =
      Spec.chroma p.depth.bpc p.grain p.grain.uvPoints1 p.grain.uvMult1 p.isId p.w p.layout.sx p.layout.sy GV s.inY s.inV y x :=
  chroma_spec p hp h400 junk rowJunk rows hrows s hs true GY GV hGY hGV y x
    (by unfold chromaRows; rw [Nat.shiftRight_eq_div_pow]; exact hy) (by unfold chromaCols; rw [Nat.shiftRight_eq_div_pow]; exact hx)

/-- C61: the templates the theorems above speak about exist; and there is only one of each. -/
theorem C61_templates (d : Depth) (g : FilmGrainData) (h : FgHeld g) (c : List Int) (m sx sy : Nat) (hm : m = 0xb524 ∨ m = 0x49d8)
    (hx : sx ≤ 1) (hy : sy ≤ 1) :
    ∃ GY, Spec.IsLumaGrain d.bpc g GY ∧
      (∀ GY', Spec.IsLumaGrain d.bpc g GY' → ∀ y x : Nat, y < 73 → x < 82 → GY' y x = GY y x) ∧
      ∃ G, Spec.IsChromaGrain d.bpc g c m sx sy GY G ∧
        ∀ G', Spec.IsChromaGrain d.bpc g c m sx sy GY G' →
          ∀ y x : Nat, y < Spec.chromaHeight sy → x < Spec.chromaWidth sx → G' y x = G y x := by
  have hh := scaling_held h
  obtain ⟨GY, hGY⟩ := lumaGrain_exists d g hh.2.2.2 h.1
  refine ⟨GY, hGY, fun GY' h' => IsGrain.unique hh.2.2.1 h' hGY (fun _ _ _ _ => rfl) (fun _ _ _ _ _ _ => rfl), ?_⟩
  have hex : ∃ G, Spec.IsChromaGrain d.bpc g c m sx sy GY G := by
    rcases hm with rfl | rfl
    · exact ⟨_, generateGrainUv_eq d { g with arCoeffsUv0 := c } hh.2.2.2 h.1 false sx sy hx hy GY (fun _ _ => 0)⟩
    · exact ⟨_, generateGrainUv_eq d { g with arCoeffsUv1 := c } hh.2.2.2 h.1 true sx sy hx hy GY (fun _ _ => 0)⟩
  obtain ⟨G, hG⟩ := hex
  exact ⟨G, hG, fun G' h' => IsGrain.unique hh.2.2.1 h' hG (fun _ _ _ _ => rfl) (fun _ _ _ _ _ _ => rfl)⟩

/-! ## C43 -/

theorem templates (p : PicInfo) (hp : PicOk p) (uv : Bool) : ∃ GY G, Spec.IsLumaGrain p.depth.bpc p.grain GY ∧
    Spec.IsChromaGrain p.depth.bpc p.grain (arCoeffsUv p.grain uv) (mask uv) p.layout.sx p.layout.sy GY G := by
  obtain ⟨GY, h, _, G, hG, _⟩ := C61_templates p.depth p.grain hp.grain (arCoeffsUv p.grain uv) (mask uv) p.layout.sx p.layout.sy
    (by cases uv <;> decide) (sx_le _) (sy_le _)
  exact ⟨GY, G, h, hG⟩

/-- C43: luma samples stay in range; in the restricted range if that is asked for and noise is added. -/
theorem C43_luma_range (p : PicInfo) (hp : PicOk p) (junk : Luts) (rowJunk : Nat → RowJunk) (rows : List Nat) (hrows : AllRows p rows)
    (s : Planes) (hs : Samples p.depth p.h p.w s.inY) :
    Samples p.depth p.h p.w (applyGrain p junk rowJunk rows s).outY ∧
    (p.grain.yPoints ≠ [] → p.grain.clipToRestrictedRange = true → ∀ y x : Nat, y < p.h → x < p.w →
      16 * 2 ^ (p.depth.bpc - 8) ≤ (applyGrain p junk rowJunk rows s).outY y x ∧
      (applyGrain p junk rowJunk rows s).outY y x ≤ 235 * 2 ^ (p.depth.bpc - 8)) := by
  obtain ⟨GY, hGY⟩ := lumaGrain_exists p.depth p.grain (scaling_held hp.grain).2.2.2 hp.grain.1
  have hL := luma_limits p.depth p.grain
  rw [max_eq'] at hL
  refine ⟨fun y x hy hx => ?_, fun h1 h2 y x hy hx => ?_⟩
  · rw [C61_luma p hp junk rowJunk rows hrows s hs GY hGY y x hy hx]
    unfold Spec.luma
    split_ifs
    · have := clip3_range (Spec.minValue p.depth.bpc p.grain) (Spec.maxLuma p.depth.bpc p.grain) (s.inY y x +
        Spec.round2 (Spec.scaleLut p.depth.bpc p.grain.yPoints (s.inY y x).toNat * Spec.image p.depth.bpc p.grain 0 0 GY y x)
          p.grain.scalingShift) hL.2.1
      dsimp only
      omega
    · exact hs y x hy hx
  · rw [C61_luma p hp junk rowJunk rows hrows s hs GY hGY y x hy hx]
    unfold Spec.luma
    rw [if_pos (List.length_pos_iff.mpr h1)]
    have := clip3_range (Spec.minValue p.depth.bpc p.grain) (Spec.maxLuma p.depth.bpc p.grain) (s.inY y x +
        Spec.round2 (Spec.scaleLut p.depth.bpc p.grain.yPoints (s.inY y x).toNat * Spec.image p.depth.bpc p.grain 0 0 GY y x)
          p.grain.scalingShift) hL.2.1
    dsimp only
    generalize Spec.clip3 _ _ _ = v at *
    unfold Spec.minValue Spec.maxLuma at this
    rw [if_pos h2, if_pos h2] at this
    exact this

/-- C43: chroma samples stay in range; in the restricted range if that is asked for and noise is added. `uv` is the plane. -/
theorem C43_chroma_range (p : PicInfo) (hp : PicOk p) (h400 : p.layout ≠ .i400) (junk : Luts) (rowJunk : Nat → RowJunk) (rows : List Nat)
    (hrows : AllRows p rows) (s : Planes) (hs : Samples p.depth p.h p.w s.inY) (uv : Bool)
    (hc : Samples p.depth (chromaRows p) (chromaCols p) (s.inC uv)) :
    Samples p.depth (chromaRows p) (chromaCols p) ((applyGrain p junk rowJunk rows s).outC uv) ∧
    ((if uv then p.grain.uvPoints1 else p.grain.uvPoints0) ≠ [] ∨ p.grain.chromaScalingFromLuma = true →
      p.grain.clipToRestrictedRange = true → ∀ y x : Nat, y < chromaRows p → x < chromaCols p →
      16 * 2 ^ (p.depth.bpc - 8) ≤ (applyGrain p junk rowJunk rows s).outC uv y x ∧
      (applyGrain p junk rowJunk rows s).outC uv y x ≤ (if p.isId then 235 else 240) * 2 ^ (p.depth.bpc - 8)) := by
  obtain ⟨GY, G, hGY, hG⟩ := templates p hp uv
  have hL := chroma_limits p.depth p.grain p.isId
  rw [max_eq'] at hL
  refine ⟨fun y x hy hx => ?_, fun h1 h2 y x hy hx => ?_⟩
  · rw [chroma_spec p hp h400 junk rowJunk rows hrows s hs uv GY G hGY hG y x hy hx]
    unfold Spec.chroma
    by_cases ha : (uvPoints p.grain uv).length > 0 ∨ p.grain.chromaScalingFromLuma = true
    · rw [if_pos ha]
      dsimp only
      have := fun v => clip3_range (Spec.minValue p.depth.bpc p.grain) (Spec.maxChroma p.depth.bpc p.grain p.isId) v hL.2.1
      constructor
      · exact le_trans hL.1 (this _).1
      · exact le_trans (this _).2 hL.2.2
    · rw [if_neg ha]
      exact hc y x hy hx
  · rw [chroma_spec p hp h400 junk rowJunk rows hrows s hs uv GY G hGY hG y x hy hx]
    unfold Spec.chroma
    have ha : (uvPoints p.grain uv).length > 0 ∨ p.grain.chromaScalingFromLuma = true :=
      h1.imp (fun h => List.length_pos_iff.mpr h) id
    rw [if_pos ha]
    dsimp only
    have := fun v => clip3_range (Spec.minValue p.depth.bpc p.grain) (Spec.maxChroma p.depth.bpc p.grain p.isId) v hL.2.1
    generalize hv : Spec.clip3 _ _ _ = v
    have h3 := this v
    have h4 : Spec.minValue p.depth.bpc p.grain ≤ v ∧ v ≤ Spec.maxChroma p.depth.bpc p.grain p.isId := by
      rw [← hv]
      exact this _
    unfold Spec.minValue Spec.maxChroma at h4
    rw [if_pos h2, if_pos h2] at h4
    exact h4

/-- C43: without points luma is returned unchanged; chroma too, unless it takes its scaling from luma. -/
theorem C43_unchanged (p : PicInfo) (hp : PicOk p) (junk : Luts) (rowJunk : Nat → RowJunk) (rows : List Nat)
    (hrows : AllRows p rows) (s : Planes) (hs : Samples p.depth p.h p.w s.inY) :
    (p.grain.yPoints = [] → ∀ y x : Nat, y < p.h → x < p.w → (applyGrain p junk rowJunk rows s).outY y x = s.inY y x) ∧
    (p.layout ≠ .i400 → p.grain.chromaScalingFromLuma = false → ∀ uv, (if uv then p.grain.uvPoints1 else p.grain.uvPoints0) = [] →
      ∀ y x : Nat, y < chromaRows p → x < chromaCols p → (applyGrain p junk rowJunk rows s).outC uv y x = s.inC uv y x) := by
  refine ⟨fun h y x hy hx => ?_, fun h400 hc uv h y x hy hx => ?_⟩
  · obtain ⟨GY, hGY⟩ := lumaGrain_exists p.depth p.grain (scaling_held hp.grain).2.2.2 hp.grain.1
    rw [C61_luma p hp junk rowJunk rows hrows s hs GY hGY y x hy hx]
    unfold Spec.luma
    rw [h]
    rfl
  · obtain ⟨GY, G, hGY, hG⟩ := templates p hp uv
    rw [chroma_spec p hp h400 junk rowJunk rows hrows s hs uv GY G hGY hG y x hy hx]
    unfold Spec.chroma
    refine if_neg ?_
    unfold uvPoints
    rw [h, hc]
    simp

/-- C43: the result depends on the picture and the parameters, not on the order of the rows nor on what memory contained. -/
theorem C43_deterministic (p : PicInfo) (hp : PicOk p) (junk junk' : Luts) (rowJunk rowJunk' : Nat → RowJunk) (rows rows' : List Nat)
    (hrows : AllRows p rows) (hrows' : AllRows p rows') (s s' : Planes) (hs : Samples p.depth p.h p.w s.inY)
    (hY : s'.inY = s.inY) (hU : s'.inU = s.inU) (hV : s'.inV = s.inV) :
    (∀ y x : Nat, y < p.h → x < p.w →
      (applyGrain p junk rowJunk rows s).outY y x = (applyGrain p junk' rowJunk' rows' s').outY y x) ∧
    (p.layout ≠ .i400 → ∀ uv, ∀ y x : Nat, y < chromaRows p → x < chromaCols p →
      (applyGrain p junk rowJunk rows s).outC uv y x = (applyGrain p junk' rowJunk' rows' s').outC uv y x) := by
  have hs' : Samples p.depth p.h p.w s'.inY := hY ▸ hs
  refine ⟨fun y x hy hx => ?_, fun h400 uv y x hy hx => ?_⟩
  · obtain ⟨GY, hGY⟩ := lumaGrain_exists p.depth p.grain (scaling_held hp.grain).2.2.2 hp.grain.1
    rw [C61_luma p hp junk rowJunk rows hrows s hs GY hGY y x hy hx, C61_luma p hp junk' rowJunk' rows' hrows' s' hs' GY hGY y x hy hx, hY]
  · obtain ⟨GY, G, hGY, hG⟩ := templates p hp uv
    have e : s'.inC uv = s.inC uv := by cases uv; exacts [hU, hV]
    rw [chroma_spec p hp h400 junk rowJunk rows hrows s hs uv GY G hGY hG y x hy hx,
      chroma_spec p hp h400 junk' rowJunk' rows' hrows' s' hs' uv GY G hGY hG y x hy hx, hY, e]

/-- C43: the visible part of the decoded picture, which may be a reference, is not changed; nothing but the padding to the right
of the last luma column is. -/
theorem C43_input (p : PicInfo) (hp : PicOk p) (junk : Luts) (rowJunk : Nat → RowJunk) (rows : List Nat) (s : Planes) :
    (∀ y x : Int, x ≠ p.w → (applyGrain p junk rowJunk rows s).inY y x = s.inY y x) ∧
    (applyGrain p junk rowJunk rows s).inU = s.inU ∧ (applyGrain p junk rowJunk rows s).inV = s.inV :=
  ⟨fun y x hx => (final p hp junk rowJunk rows s).inY y x hx, (final p hp junk rowJunk rows s).inC false,
    (final p hp junk rowJunk rows s).inC true⟩

theorem clip3_id (lo hi v : Int) (h : lo ≤ v ∧ v ≤ hi) : Spec.clip3 lo hi v = v := by
  unfold Spec.clip3
  split_ifs <;> omega

/-- C43: has_grain, which decides whether film grain is applied at all: when it says no the picture would not be changed. -/
theorem C43_hasGrain (p : PicInfo) (hp : PicOk p) (hg : hasGrain p.grain = false) (junk : Luts) (rowJunk : Nat → RowJunk)
    (rows : List Nat) (hrows : AllRows p rows) (s : Planes) (hs : Samples p.depth p.h p.w s.inY)
    (hc : p.layout ≠ .i400 → ∀ uv, Samples p.depth (chromaRows p) (chromaCols p) (s.inC uv)) :
    (∀ y x : Nat, y < p.h → x < p.w → (applyGrain p junk rowJunk rows s).outY y x = s.inY y x) ∧
    (p.layout ≠ .i400 → ∀ uv, ∀ y x : Nat, y < chromaRows p → x < chromaCols p →
      (applyGrain p junk rowJunk rows s).outC uv y x = s.inC uv y x) := by
  unfold hasGrain at hg
  have hg := of_decide_eq_false hg
  have g1 := not_or.mp hg
  have g2 := not_or.mp g1.2
  have g3 := not_or.mp g2.2
  have e1 : p.grain.yPoints = [] := by simpa using g1.1
  have e2 : p.grain.uvPoints0 = [] := by simpa using g2.1
  have e3 : p.grain.uvPoints1 = [] := by simpa using g3.1
  have hu := C43_unchanged p hp junk rowJunk rows hrows s hs
  refine ⟨hu.1 e1, fun h400 uv y x hy hx => ?_⟩
  by_cases hcf : p.grain.chromaScalingFromLuma = true
  · have hcl : p.grain.clipToRestrictedRange = false := by
      cases h : p.grain.clipToRestrictedRange
      · rfl
      · exact absurd ⟨h, hcf⟩ g3.2
    obtain ⟨GY, G, hGY, hG⟩ := templates p hp uv
    rw [chroma_spec p hp h400 junk rowJunk rows hrows s hs uv GY G hGY hG y x hy hx]
    have hv := hc h400 uv y x hy hx
    unfold Spec.chroma
    rw [if_pos (Or.inr hcf)]
    dsimp only
    rw [if_pos hcf, if_pos hcf, e1]
    have hz : ∀ j, Spec.scaleLut p.depth.bpc [] j = 0 := by
      intro j
      unfold Spec.scaleLut Spec.scalingLut
      dsimp only
      split_ifs
      · rfl
      · rw [sub_zero, zero_mul, round2_zero]
        rfl
    rw [hz, zero_mul, round2_zero, add_zero]
    refine clip3_id _ _ _ ?_
    unfold Spec.minValue Spec.maxChroma
    rw [hcl, ← max_eq]
    rw [max_eq']
    simpa using hv
  · refine hu.2 h400 (by simpa using hcf) uv ?_ y x hy hx
    cases uv
    · exact e2
    · exact e3

/-! ## A case -/

/-- A 4:2:0 picture with an odd width and two rows. -/
def demoPic : PicInfo :=
  { w := 35, h := 40, depth := .b10, layout := .i420, isId := false,
    grain := { seed := 1234, yPoints := [(0, 20), (128, 80), (255, 40)], uvPoints0 := [(10, 30)], scalingShift := 10, arCoeffLag := 1,
               arCoeffsY := [1, 2, 3, 4], arCoeffsUv0 := [1, 2, 3, 4, 5], arCoeffsUv1 := [1, 2, 3, 4, 5], arCoeffShift := 7,
               uvMult0 := (64, 0, 0), uvMult1 := (64, 0, 0), overlapFlag := true, clipToRestrictedRange := true } }

theorem demoPic_ok : PicOk demoPic :=
  { grain := ⟨by decide, Or.inl
      { y := ⟨by decide, by decide, by decide⟩, uv0 := ⟨by decide, by decide, by decide⟩, uv1 := ⟨by decide, by decide, by decide⟩,
        scalingShift := by decide, lag := by decide, counts := by decide,
        coeffs := by
          intro v hv
          have : v ∈ [(1 : Int), 2, 3, 4, 5] := by
            simp only [demoPic, List.mem_cons, List.not_mem_nil, or_false] at hv ⊢
            omega
          simp only [List.mem_cons, List.not_mem_nil, or_false] at this
          unfold InSigned
          omega
        arShift := by decide, grainShift := by decide, mult0 := by unfold InSigned; decide, mult1 := by unfold InSigned; decide }⟩
    mono := fun h => by cases h }

/-- The bottom row first: still as specified. -/
example (s : Planes) (hs : Samples .b10 40 35 s.inY) (junk : Luts) (rowJunk : Nat → RowJunk) :
    ∃ GY GU, Spec.IsLumaGrain 10 demoPic.grain GY ∧
      Spec.IsChromaGrain 10 demoPic.grain [1, 2, 3, 4, 5] 0xb524 1 1 GY GU ∧
      (applyGrain demoPic junk rowJunk [1, 0] s).outY 39 34 = Spec.luma 10 demoPic.grain GY s.inY 39 34 ∧
      (applyGrain demoPic junk rowJunk [1, 0] s).outU 19 17 =
        Spec.chroma 10 demoPic.grain [(10, 30)] (64, 0, 0) false 35 1 1 GU s.inY s.inU 19 17 := by
  have hrows : AllRows demoPic [1, 0] := by
    intro r
    simp only [List.mem_cons, List.not_mem_nil, or_false]
    show _ ↔ r < 2
    omega
  obtain ⟨GY, h, _, GU, hG, _⟩ := C61_templates .b10 demoPic.grain demoPic_ok.grain [1, 2, 3, 4, 5] 0xb524 1 1 (by decide) (by decide) (by decide)
  exact ⟨GY, GU, h, hG, C61_luma demoPic demoPic_ok junk rowJunk _ hrows s hs GY h 39 34 (by decide) (by decide),
    C61_cb demoPic demoPic_ok (by decide) junk rowJunk _ hrows s hs GY GU h hG 19 17 (by decide) (by decide)⟩

/-- The numbers and the scaling function of that case. -/
example : Spec.random 8 (Spec.stripeSeed demoPic.grain 1) 0 = 233 ∧ Spec.scaleLut 10 demoPic.grain.yPoints 258 = 50 := by decide +kernel

end Dav1d.Fg
