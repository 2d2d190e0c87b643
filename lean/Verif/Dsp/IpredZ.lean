import Verif.Dsp.IpredDir
/-!
# The three kinds of directional prediction, C58
-/
namespace Dav1d.Ipred
open Lf

/-- The argument of the predictor and the sizes agree with the parameters of the specification. -/
structure Fits (D : Spec.Dir) (w h a : Nat) : Prop where
  ew : D.w = w
  eh : D.h = h
  filter : D.filter = argFilter a
  sm : D.sm = argSm a
  w4 : 4 ≤ w
  w64 : w ≤ 64
  h4 : 4 ≤ h
  h64 : h ≤ 64
  ax : 1 ≤ D.availX
  ay : 1 ≤ D.availY

theorem rd_above {tl : Edge} {A : Int → Int} {e : Int} (he : -1 ≤ e) (ht : ∀ k, 0 ≤ k → k ≤ e + 1 → tl k = some (A (k - 1))) (v : Int) :
    rd (fun k => tl (1 + k)) (-1) (e + 1) v = some (A (iclip v (-1) e)) := by
  unfold rd
  dsimp only
  rw [show e + 1 - 1 = e by omega, ht]
  · congr 2; omega
  · unfold iclip; split_ifs <;> omega
  · unfold iclip; split_ifs <;> omega

theorem sel {w h a : Nat} {D : Spec.Dir} (F : Fits D w h a) {ang delta : Int} (hpos : 0 < ang) (hd : delta.natAbs = ang.natAbs) :
    getUpsample (w + h) ang (argSm a) = Spec.useUpsample (D.w + D.h) D.sm delta ∧
    getFilterStrength (w + h) ang (argSm a) = Spec.strength (D.w + D.h) D.sm delta := by
  have e1 : ∀ wh sm, Spec.useUpsample wh sm delta = Spec.useUpsample wh sm ang := fun wh sm => by unfold Spec.useUpsample; rw [hd]
  have e2 : ∀ wh sm, Spec.strength wh sm delta = Spec.strength wh sm ang := fun wh sm => by unfold Spec.strength; rw [hd]
  rw [e1, e2, F.ew, F.eh, F.sm]
  refine ⟨upsample_sel hpos, ?_⟩
  rw [strength_eq, if_pos (by omega)]

theorem corner_id {A L : Int → Int} {D : Spec.Dir} {p : Int} (h : ¬ (90 < p ∧ p < 180)) : Spec.corner A L D p = A (-1) := by
  unfold Spec.corner
  rw [if_neg (by tauto)]

theorem edgeFilter_zero (sz : Int) (B : Int → Int) : Spec.edgeFilter sz 0 B = B := by
  funext k; unfold Spec.edgeFilter; simp

/-- The loops of ipred_z1_c and ipred_z3_c, on an edge that agrees with `E` as far as it is used and that is constant from there on to `M`. -/
theorem loop_spec {d : Depth} {E : Int → Int} {s : Dir} {dx M : Int} (hE : ∀ k, 0 ≤ k → k ≤ s.maxBase → s.edge k = some (E k)) (hP : Px d E)
    (hM : s.maxBase ≤ M) (h0 : 0 ≤ s.maxBase) (hcon : ∀ i, s.maxBase ≤ i → i ≤ M → E i = E s.maxBase) (hdx : 0 ≤ dx)
    (hstep : s.step = if s.up then 2 * dx else dx) (n m : Nat) :
    (if asr (s.step * (n + 1)) 6 + m * (if s.up then 2 else 1) < s.maxBase then
      (s.edge (asr (s.step * (n + 1)) 6 + m * (if s.up then 2 else 1))).bind fun p =>
      (s.edge (asr (s.step * (n + 1)) 6 + m * (if s.up then 2 else 1) + 1)).map fun q =>
        toPixel d (asr (p * (64 - and3E (s.step * (n + 1))) + q * and3E (s.step * (n + 1)) + 32) 6)
    else s.edge s.maxBase) =
    some (if (n + 1) * dx / 2 ^ (6 - (if s.up then 1 else 0)) + m * 2 ^ (if s.up then 1 else 0) < M then
      Spec.interp E s.up ((n + 1) * dx / 2 ^ (6 - (if s.up then 1 else 0)) + m * 2 ^ (if s.up then 1 else 0)) ((n + 1) * dx) else E M) := by
  have hpos : (0 : Int) ≤ (n + 1) * dx := by positivity
  have eb : asr (s.step * (n + 1)) 6 + (m : Int) * (if s.up then 2 else 1) = (n + 1) * dx / 2 ^ (6 - (if s.up then 1 else 0)) + m * 2 ^ (if s.up then 1 else 0) := by
    rw [hstep]
    unfold asr
    cases s.up
    · simp only [Bool.false_eq_true, if_false]; rw [mul_comm dx]; norm_num
    · simp only [if_true]; rw [mul_assoc, mul_comm dx]; norm_num; omega
  have hb0 : (0 : Int) ≤ (n + 1) * dx / 2 ^ (6 - (if s.up then 1 else 0)) := Int.ediv_nonneg hpos (by positivity)
  have hm0 : (0 : Int) ≤ m * 2 ^ (if s.up then 1 else 0) := by positivity
  rw [eb]
  generalize hb : ((n : Int) + 1) * dx / 2 ^ (6 - (if s.up then 1 else 0)) + m * 2 ^ (if s.up then 1 else 0) = b at *
  by_cases h1 : b < s.maxBase
  · rw [if_pos h1, if_pos (by omega)]
    refine lerp_spec hP (hE _ (by omega) (by omega)) (hE _ (by omega) (by omega)) ?_
    rw [hstep]
    cases s.up
    · simp only [Bool.false_eq_true, if_false]; rw [and3E_eq, mul_comm dx]
    · simp only [if_true]; rw [mul_assoc, and3E_two, mul_comm dx]
  · rw [if_neg h1, hE _ h0 (le_refl _)]
    congr 1
    split
    · rw [interp_const (c := E s.maxBase) (hcon _ (by omega) (by omega)) (hcon _ (by omega) (by omega))]
    · exact (hcon M hM (le_refl _)).symm

theorem up_wh {D : Spec.Dir} {w h a : Nat} (F : Fits D w h a) {delta : Int} (hu : Spec.useUpsample (D.w + D.h) D.sm delta = true) : w + h ≤ 16 := by
  unfold Spec.useUpsample at hu
  simp only [decide_eq_true_eq] at hu
  rw [F.ew, F.eh] at hu
  have := hu.2.2
  split at this <;> omega

/-- Angles below 90 degrees: ipred_z1_c reads no pixel but the ones above and computes what is specified. -/
theorem z1_spec {d : Depth} {A L : Int → Int} {tl : Edge} {w h a : Nat} {D : Spec.Dir} (F : Fits D w h a) (hp : Px d A)
    (ht : ∀ k, 0 ≤ k → k ≤ w + min (w : Int) h → tl k = some (A (k - 1))) (hc : ConstFrom A (w + min (w : Int) h - 1))
    (hc2 : D.availX < w → ConstFrom A (D.availX - 1)) (hA : D.haveAbove = true) (ha : Spec.Angle (argAngle a)) (h90 : argAngle a < 90) (x y : Nat) :
    z1 d tl w h a x y = some (Spec.directional d A L D (argAngle a) y x) := by
  obtain ⟨hw, hh, hfi, hsm, w4, w64, h4, h64, ax, ay⟩ := id F
  obtain ⟨hdx, hlo, hhi⟩ := derivative_get _ (angle_z1 ha h90)
  obtain ⟨sU, sS⟩ := sel F (ang := 90 - argAngle a) (delta := argAngle a - 90) (by omega) (by omega)
  have hrd := rd_above (tl := tl) (A := A) (e := w + min (w : Int) h - 1) (by omega) (fun k h0 h1 => ht k h0 (by omega))
  rw [show (w : Int) + min (w : Int) h - 1 + 1 = w + min (w : Int) h by omega] at hrd
  have hcor : Spec.withCorner (Spec.corner A L D (argAngle a)) A = A := by rw [corner_id (by omega), withCorner_self]
  -- the first pixel that is repeated
  obtain ⟨c, hcc, hc1, hce, hcz, hca⟩ : ∃ c, ConstFrom A c ∧ -1 ≤ c ∧ c ≤ w + min (w : Int) h - 1 ∧ c ≤ min (w : Int) D.availX + h - 1 ∧ (D.availX < w → c = D.availX - 1) := by
    by_cases hh : D.availX < w
    · exact ⟨_, hc2 hh, by omega, by omega, by omega, fun _ => rfl⟩
    · exact ⟨_, hc, by omega, by omega, by omega, fun h => absurd h hh⟩
  have hspec : ∀ E, Spec.aboveEdge d A L D (argAngle a) = E → Spec.directional d A L D (argAngle a) y x =
      (if ((y : Int) + 1) * Spec.derivative (argAngle a) / 2 ^ (6 - (if D.filter && Spec.useUpsample (D.w + D.h) D.sm (argAngle a - 90) then 1 else 0))
          + x * 2 ^ (if D.filter && Spec.useUpsample (D.w + D.h) D.sm (argAngle a - 90) then 1 else 0)
          < (D.w + D.h - 1) * 2 ^ (if D.filter && Spec.useUpsample (D.w + D.h) D.sm (argAngle a - 90) then 1 else 0) then
        Spec.interp E (D.filter && Spec.useUpsample (D.w + D.h) D.sm (argAngle a - 90))
          (((y : Int) + 1) * Spec.derivative (argAngle a) / 2 ^ (6 - (if D.filter && Spec.useUpsample (D.w + D.h) D.sm (argAngle a - 90) then 1 else 0))
          + x * 2 ^ (if D.filter && Spec.useUpsample (D.w + D.h) D.sm (argAngle a - 90) then 1 else 0)) (((y : Int) + 1) * Spec.derivative (argAngle a))
        else E ((D.w + D.h - 1) * 2 ^ (if D.filter && Spec.useUpsample (D.w + D.h) D.sm (argAngle a - 90) then 1 else 0))) := by
    rintro E rfl
    unfold Spec.directional
    dsimp only
    rw [if_pos (by omega : (argAngle a : Int) < 90)]
  obtain ⟨s, E, hset, hEd, hup, hstep, hP, hE, hM, h0, hcon⟩ : ∃ s E, z1Setup d tl w h a = some s ∧ Spec.aboveEdge d A L D (argAngle a) = E ∧
      s.up = (D.filter && Spec.useUpsample (D.w + D.h) D.sm (argAngle a - 90)) ∧ s.step = (if s.up then 2 * Spec.derivative (argAngle a) else Spec.derivative (argAngle a)) ∧
      Px d E ∧ (∀ k, 0 ≤ k → k ≤ s.maxBase → s.edge k = some (E k)) ∧ s.maxBase ≤ (D.w + D.h - 1) * 2 ^ (if s.up then 1 else 0) ∧ 0 ≤ s.maxBase ∧
      (∀ i, s.maxBase ≤ i → i ≤ (D.w + D.h - 1) * 2 ^ (if s.up then 1 else 0) → E i = E s.maxBase) := by
    unfold z1Setup Spec.aboveEdge
    rw [if_pos h90, hdx]
    simp only [Option.bind_some]
    rw [sU, sS, hcor, hfi, hA, if_pos (by omega : (argAngle a : Int) < 90), if_pos rfl]
    have hplain : ∀ k, 0 ≤ k → k ≤ (w : Int) + min (w : Int) h - 1 → tl (1 + k) = some (A k) := by
      intro k k0 k1; rw [ht _ (by omega) (by omega)]; congr 2; omega
    by_cases hfil : argFilter a
    swap
    · simp only [hfil, Bool.false_and, Bool.false_eq_true, if_false, ne_eq, not_true]
      refine ⟨_, _, rfl, rfl, rfl, rfl, hp, hplain, ?_, ?_, ?_⟩ <;> dsimp only
      · rw [hw, hh]; norm_num
      · omega
      · intro i hi _; exact hcc.eq (by omega) hce
    simp only [hfil, Bool.true_and, if_true]
    by_cases hu : Spec.useUpsample (D.w + D.h) D.sm (argAngle a - 90) = true
    · have hwh := up_wh F hu
      simp only [hu, if_true, up_strength hu, edgeFilter_zero]
      unfold inArray
      rw [if_pos (by omega)]
      refine ⟨_, _, rfl, rfl, rfl, rfl, upsample_range hp _, ?_, ?_, ?_, ?_⟩ <;> dsimp only
      · intro k k0 k1
        exact upsampleEdge_spec hrd hcc hc1 hce (by rw [hw, hh]; omega) ⟨k0, by omega⟩
      · rw [hw, hh]; norm_num; omega
      · omega
      · rw [hw, hh]; norm_num; intro i i0 i1
        rw [show i = 2 * ((w : Int) + h) - 2 by omega]
    · simp only [hu, Bool.false_eq_true, if_false]
      by_cases hs : Spec.strength (D.w + D.h) D.sm (argAngle a - 90) = 0
      · simp only [hs, ne_eq, not_true, if_false, edgeFilter_zero]
        refine ⟨_, _, rfl, rfl, rfl, rfl, hp, hplain, ?_, ?_, ?_⟩ <;> dsimp only
        · rw [hw, hh]; norm_num
        · omega
        · intro i hi _; exact hcc.eq (by omega) hce
      · have hs3 := strength_le (D.w + D.h) D.sm (argAngle a - 90)
        rw [if_pos hs]
        unfold inArray
        rw [if_pos (by omega)]
        refine ⟨_, _, rfl, rfl, rfl, rfl, edgeFilter_range hp _ hs3, ?_, ?_, ?_, ?_⟩ <;> dsimp only
        · intro k k0 k1
          refine filterEdge_spec (by omega) hp hrd hcc hc1 hce (by rw [hw, hh]; omega) ⟨k0, by omega⟩ (by omega) (by omega) ?_
          rw [hw, hh]
          by_cases hav : D.availX < w
          · have := hca hav; omega
          · omega
        · rw [hw, hh]; norm_num
        · omega
        · rw [hw, hh]; norm_num; intro i i0 i1
          rw [show i = (w : Int) + h - 1 by omega]
  rw [hspec E hEd, ← hup]
  unfold z1
  rw [hset, Option.bind_some]
  exact loop_spec hE hP hM h0 hcon (by omega) hstep y x

theorem filterEdge_mirror {d : Depth} {A : Int → Int} {sz limFrom limTo c e sz' i N : Int} {inp : Edge} {fr tt : Int} {str : Nat} (hs : 1 ≤ str ∧ str ≤ 3) (hp : Px d A)
    (hr : ∀ v, rd inp fr tt v = some (A (iclip (N - v) (-1) e))) (hc : ConstFrom A c) (h1 : -1 ≤ c) (he : c ≤ e) (hz : c ≤ sz' - 2) (hi : 0 ≤ N - i ∧ N - i < sz)
    (h0 : 0 ≤ i) (hie : i ≤ e ∨ c ≤ i) (hlt : sz ≤ limTo)
    (hf : (limFrom ≤ N - i ∧ i + 1 < sz') ∨ (limFrom ≤ N - i ∧ c ≤ i - 2) ∨ (N - i < limFrom ∧ sz' ≤ i + 1)) :
    filterEdge d sz limFrom limTo inp fr tt str (N - i) = some (Spec.edgeFilter sz' str A i) := by
  unfold filterEdge
  rw [if_pos hi, edgeFilter_eq]
  by_cases hl' : limFrom ≤ N - i
  · rw [if_neg (by omega), if_pos (by omega), kernel_get str hs]
    simp only [Option.bind_some]
    rw [tapSum5 hr, Option.map_some, toPixel_id (five_range str hs (hp _) (hp _) (hp _) (hp _) (hp _))]
    rw [five_comm str hs, show N - (N - i + 2) = i - 2 by omega, show N - (N - i + 1) = i - 1 by omega, show N - (N - i) = i by omega,
      show N - (N - i - 1) = i + 1 by omega, show N - (N - i - 2) = i + 2 by omega]
    by_cases hk : i + 1 < sz'
    · rw [if_pos ⟨by omega, by omega, hk⟩]
      simp only [clamp_read hc he hz h1]
    · rw [if_neg (by omega)]
      have hci : c ≤ i - 2 := by omega
      have hk : ∀ v, c ≤ v → A (iclip v (-1) e) = A i := by
        intro v hv
        refine hc.eq ?_ (by omega)
        unfold iclip; split_ifs <;> omega
      rw [hk _ (by omega), hk _ (by omega), hk _ (by omega), hk _ (by omega), hk _ (by omega), five_const str hs]
  · rw [if_pos (by omega), if_neg (by omega), hr, show N - (N - i) = i by omega]
    congr 1
    unfold iclip
    rw [if_neg (by omega)]
    by_cases h3 : i > e
    · rw [if_pos h3]; exact hc.eq he (by omega)
    · rw [if_neg h3]

theorem upsampleEdge_mirror {d : Depth} {A : Int → Int} {hsz c e n k N : Int} {inp : Edge} {fr tt : Int}
    (hr : ∀ v, rd inp fr tt v = some (A (iclip (N - v) (-1) e))) (hc : ConstFrom A c) (h1 : -1 ≤ c) (he : c ≤ e) (hz : c ≤ n - 1) (hk : 0 ≤ 2 * N - k ∧ 2 * N - k ≤ 2 * hsz - 2)
    (h0 : -2 ≤ k) :
    upsampleEdge d hsz inp fr tt (2 * N - k) = some (Spec.upsample d n A k) := by
  unfold upsampleEdge
  rw [if_pos hk, upsample_eq]
  by_cases h2 : k % 2 = 0
  · rw [if_pos (by omega), if_pos h2, hr, show N - (2 * N - k) / 2 = k / 2 by omega]
    congr 1
    unfold iclip
    rw [if_neg (by omega)]
    by_cases h3 : k / 2 > e
    · rw [if_pos h3]; exact hc.eq he (by omega)
    · rw [if_neg h3]
  · rw [if_neg (by omega), if_neg h2, tapSum4 hr, Option.map_some, show N - ((2 * N - k) / 2 - 1) = k / 2 + 2 by omega, show N - (2 * N - k) / 2 = k / 2 + 1 by omega,
      show N - ((2 * N - k) / 2 + 1) = k / 2 by omega, show N - ((2 * N - k) / 2 + 2) = k / 2 - 1 by omega]
    simp only [clamp_read hc he hz h1]
    congr 3
    ring

theorem rd_left {tl : Edge} {L : Int → Int} {e n fr : Int} (hfr : fr = n - 1 - e) (he : -1 ≤ e) (ht : ∀ j, -1 ≤ j → j ≤ e → tl (-(1 + j)) = some (L j)) (v : Int) :
    rd (fun k => tl (-n + k)) fr (n + 1) v = some (L (iclip (n - 1 - v) (-1) e)) := by
  unfold rd
  dsimp only
  have hcl : -n + iclip v fr (n + 1 - 1) = -(1 + iclip (n - 1 - v) (-1) e) := by
    subst hfr
    unfold iclip
    split_ifs <;> omega
  rw [hcl, ht]
  · unfold iclip; split_ifs <;> omega
  · unfold iclip; split_ifs <;> omega

/-- Angles above 180 degrees: ipred_z3_c reads no pixel but the ones on the left and computes what is specified. -/
theorem z3_spec {d : Depth} {A L : Int → Int} {tl : Edge} {w h a : Nat} {D : Spec.Dir} (F : Fits D w h a) (hp : Px d L) (hAL : A (-1) = L (-1))
    (ht : ∀ j, -1 ≤ j → j ≤ h + min (w : Int) h - 1 → tl (-(1 + j)) = some (L j)) (hc : ConstFrom L (h + min (w : Int) h - 1))
    (hc2 : D.availY < h → ConstFrom L (D.availY - 1)) (hA : D.haveLeft = true) (ha : Spec.Angle (argAngle a)) (h180 : 180 < argAngle a) {x y : Nat} (hx : x < w) (hy : y < h) :
    z3 d tl w h a x y = some (Spec.directional d A L D (argAngle a) y x) := by
  obtain ⟨hw, hh, hfi, hsm, w4, w64, h4, h64, ax, ay⟩ := id F
  obtain ⟨h212, hgood, h40⟩ := angle_z3 ha h180
  obtain ⟨hdy, hlo, hhi⟩ := derivative_get _ hgood
  rw [show ((270 - argAngle a : Nat) : Int) = 270 - (argAngle a : Int) by omega] at *
  obtain ⟨sU, sS⟩ := sel F (ang := argAngle a - 180) (delta := argAngle a - 180) (by omega) rfl
  have hrd := rd_left (tl := tl) (L := L) (n := w + h) (e := h + min (w : Int) h - 1) (fr := max ((w : Int) - h) 0) (by omega) (by omega) ht
  have hcor : Spec.withCorner (Spec.corner A L D (argAngle a)) L = L := by rw [corner_id (by omega), hAL, withCorner_self]
  obtain ⟨c, hcc, hc1, hce, hcz, hca⟩ : ∃ c, ConstFrom L c ∧ -1 ≤ c ∧ c ≤ h + min (w : Int) h - 1 ∧ c ≤ min (h : Int) D.availY + w - 1 ∧ (D.availY < h → c = D.availY - 1) := by
    by_cases hh : D.availY < h
    · exact ⟨_, hc2 hh, by omega, by omega, by omega, fun _ => rfl⟩
    · exact ⟨_, hc, by omega, by omega, by omega, fun h => absurd h hh⟩
  generalize hUp : (D.filter && Spec.useUpsample (D.w + D.h) D.sm (argAngle a - 180)) = up at *
  have hspec : ∀ E, Spec.leftEdge d A L D (argAngle a) = E → Spec.directional d A L D (argAngle a) y x =
      (if ((x : Int) + 1) * Spec.derivative (270 - argAngle a) / 2 ^ (6 - (if up then 1 else 0)) + y * 2 ^ (if up then 1 else 0)
          < (D.w + D.h - 1) * 2 ^ (if up then 1 else 0) then
        Spec.interp E up (((x : Int) + 1) * Spec.derivative (270 - argAngle a) / 2 ^ (6 - (if up then 1 else 0)) + y * 2 ^ (if up then 1 else 0))
          (((x : Int) + 1) * Spec.derivative (270 - argAngle a))
        else E ((D.w + D.h - 1) * 2 ^ (if up then 1 else 0))) := by
    rintro E rfl
    have hlt : ((x : Int) + 1) * Spec.derivative (270 - argAngle a) / 2 ^ (6 - (if up then 1 else 0)) + y * 2 ^ (if up then 1 else 0)
          < (D.w + D.h - 1) * 2 ^ (if up then 1 else 0) := by
      have h1 : ((x : Int) + 1) * Spec.derivative (270 - argAngle a) ≤ w * 40 :=
        mul_le_mul (by omega) h40 (by omega) (by omega)
      rw [hw, hh]
      cases up <;> norm_num <;> omega
    rw [if_pos hlt]
    unfold Spec.directional
    dsimp only
    rw [if_neg (by omega), if_neg (by omega), if_neg (by omega), if_neg (by omega), hUp]
  obtain ⟨s, E, hset, hEd, hup, hstep, hP, hE, hM, h0, hcon⟩ : ∃ s E, z3Setup d tl w h a = some s ∧ Spec.leftEdge d A L D (argAngle a) = E ∧
      s.up = up ∧ s.step = (if s.up then 2 * Spec.derivative (270 - argAngle a) else Spec.derivative (270 - argAngle a)) ∧
      Px d E ∧ (∀ k, 0 ≤ k → k ≤ s.maxBase → s.edge k = some (E k)) ∧ s.maxBase ≤ (D.w + D.h - 1) * 2 ^ (if s.up then 1 else 0) ∧ 0 ≤ s.maxBase ∧
      (∀ i, s.maxBase ≤ i → i ≤ (D.w + D.h - 1) * 2 ^ (if s.up then 1 else 0) → E i = E s.maxBase) := by
    unfold z3Setup Spec.leftEdge
    rw [if_pos h180, if_pos (by omega), hdy]
    simp only [Option.bind_some]
    rw [sU, sS, hcor, hfi, hA, if_pos (by omega : (argAngle a : Int) > 180), if_pos rfl]
    rw [← hUp, hfi]
    have hplain : ∀ k, 0 ≤ k → k ≤ (h : Int) + min (w : Int) h - 1 → tl (-1 - k) = some (L k) := by
      intro k k0 k1; rw [show -1 - k = -(1 + k) by omega, ht _ (by omega) (by omega)]
    by_cases hfil : argFilter a
    swap
    · simp only [hfil, Bool.false_and, Bool.false_eq_true, if_false, ne_eq, not_true]
      refine ⟨_, _, rfl, rfl, rfl, rfl, hp, hplain, ?_, ?_, ?_⟩ <;> dsimp only
      · rw [hw, hh]; norm_num; omega
      · omega
      · intro i hi _; exact hcc.eq (by omega) hce
    simp only [hfil, Bool.true_and, if_true]
    by_cases hu : Spec.useUpsample (D.w + D.h) D.sm (argAngle a - 180) = true
    · have hwh := up_wh F hu
      simp only [hu, if_true, up_strength hu, edgeFilter_zero]
      unfold inArray
      rw [if_pos (by omega)]
      refine ⟨_, _, rfl, rfl, rfl, rfl, upsample_range hp _, ?_, ?_, ?_, ?_⟩ <;> dsimp only
      · intro k k0 k1
        rw [show 2 * ((w : Int) + h) - 2 - k = 2 * (w + h - 1) - k by omega]
        exact upsampleEdge_mirror hrd hcc hc1 hce (by rw [hw, hh]; omega) ⟨by omega, by omega⟩ (by omega)
      · rw [hw, hh]; norm_num; omega
      · omega
      · rw [hw, hh]; norm_num; intro i i0 i1
        rw [show i = 2 * ((w : Int) + h) - 2 by omega]
    · simp only [hu, Bool.false_eq_true, if_false]
      by_cases hs : Spec.strength (D.w + D.h) D.sm (argAngle a - 180) = 0
      · simp only [hs, ne_eq, not_true, if_false, edgeFilter_zero]
        refine ⟨_, _, rfl, rfl, rfl, rfl, hp, hplain, ?_, ?_, ?_⟩ <;> dsimp only
        · rw [hw, hh]; norm_num; omega
        · omega
        · intro i hi _; exact hcc.eq (by omega) hce
      · have hs3 := strength_le (D.w + D.h) D.sm (argAngle a - 180)
        rw [if_pos hs]
        unfold inArray
        rw [if_pos (by omega)]
        refine ⟨_, _, rfl, rfl, rfl, rfl, edgeFilter_range hp _ hs3, ?_, ?_, ?_, ?_⟩ <;> dsimp only
        · intro k k0 k1
          refine filterEdge_mirror (by omega) hp hrd hcc hc1 hce (by rw [hw, hh]; omega) ⟨by omega, by omega⟩ (by omega) (by omega) (by omega) ?_
          rw [hw, hh]
          by_cases hav : D.availY < h
          · have := hca hav; omega
          · omega
        · rw [hw, hh]; norm_num
        · omega
        · rw [hw, hh]; norm_num; intro i i0 i1
          rw [show i = (w : Int) + h - 1 by omega]
  rw [hspec E hEd, ← hup]
  unfold z3
  rw [hset, Option.bind_some]
  rw [hup] at hstep hM hcon ⊢
  rw [← hup] at hstep hM hcon ⊢
  exact loop_spec hE hP hM h0 hcon (by omega) hstep x y

end Dav1d.Ipred
