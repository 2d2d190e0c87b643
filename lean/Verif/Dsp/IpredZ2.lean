import Verif.Dsp.IpredZ
/-!
# Directional prediction between 90 and 180 degrees, C58
-/
namespace Dav1d.Ipred
open Lf

theorem edgeFilter_congr {sz : Int} {str : Nat} {B C : Int → Int} {k : Int} (hk : B k = C k) (hsz : 1 ≤ sz) (h : ∀ i, -1 ≤ i → i ≤ sz - 2 → B i = C i) :
    Spec.edgeFilter sz str B k = Spec.edgeFilter sz str C k := by
  rw [edgeFilter_eq, edgeFilter_eq]
  split
  · have hc : ∀ v, B (iclip v (-1) (sz - 2)) = C (iclip v (-1) (sz - 2)) := by
      intro v; refine h _ ?_ ?_ <;> unfold iclip <;> split_ifs <;> omega
    simp only [hc]
  · exact hk

theorem upsample_congr {d : Depth} {n : Int} {B C : Int → Int} {k : Int} (hk : -2 ≤ k ∧ k ≤ 2 * n - 2) (hn : 0 ≤ n) (h : ∀ i, -1 ≤ i → i ≤ n - 1 → B i = C i) :
    Spec.upsample d n B k = Spec.upsample d n C k := by
  rw [upsample_eq, upsample_eq]
  have hc : ∀ v, B (iclip v (-1) (n - 1)) = C (iclip v (-1) (n - 1)) := by
    intro v; refine h _ ?_ ?_ <;> unfold iclip <;> split_ifs <;> omega
  split
  · exact h _ (by omega) (by omega)
  · simp only [hc]

/-- The edge repeated from index `n` on. -/
def stop (n : Int) (B : Int → Int) : Int → Int := fun k => B (min k n)

theorem stop_const (n : Int) (B : Int → Int) : ConstFrom (stop n B) n := by
  intro i hi; unfold stop; congr 1; omega

theorem stop_eq {n : Int} {B : Int → Int} {k : Int} (h : k ≤ n) : stop n B k = B k := by unfold stop; congr 1; omega

theorem stop_px {d : Depth} {n : Int} {B : Int → Int} (h : Px d B) : Px d (stop n B) := fun _ => h _

/-- A pixel that differs by at most one, left of a constant edge, does not change the filtered edge. -/
theorem five_near (str : Nat) (h : 1 ≤ str ∧ str ≤ 3) {a b c : Int} (ha : c - 1 ≤ a ∧ a ≤ c + 1) (hb : c - 1 ≤ b ∧ b ≤ c + 1) : asr (five str a b c c c + 8) 4 = c := by
  obtain ⟨h1, h2⟩ := h
  have e16 : (2 : Int) ^ 4 = 16 := rfl
  rcases (by omega : str = 1 ∨ str = 2 ∨ str = 3) with rfl | rfl | rfl <;> simp only [five, Spec.kernel, asr, e16] <;> omega

/-- The edge is missing: a constant, which the corner may differ from by one. -/
def Flat (A : Int → Int) : Prop := ∃ c, (∀ k, 0 ≤ k → A k = c) ∧ c - 1 ≤ A (-1) ∧ A (-1) ≤ c + 1

theorem filterEdge_flat {d : Depth} {A : Int → Int} {sz limFrom limTo e i : Int} {inp : Edge} {fr tt : Int} {str : Nat} (hs : 1 ≤ str ∧ str ≤ 3) (hp : Px d A)
    (hr : ∀ v, rd inp fr tt v = some (A (iclip v (-1) e))) (hA : Flat A) (hi : 0 ≤ i ∧ i < sz) (he : 0 ≤ e) :
    filterEdge d sz limFrom limTo inp fr tt str i = some (A i) := by
  obtain ⟨c, hc, h0, h1⟩ := hA
  have hk : ∀ v, 0 ≤ v → A (iclip v (-1) e) = c := by
    intro v hv; refine hc _ ?_; unfold iclip; split_ifs <;> omega
  have hn : ∀ v, c - 1 ≤ A (iclip v (-1) e) ∧ A (iclip v (-1) e) ≤ c + 1 := by
    intro v
    by_cases h : 0 ≤ v
    · rw [hk v h]; omega
    · rw [show iclip v (-1) e = -1 by unfold iclip; split_ifs <;> omega]; exact ⟨h0, h1⟩
  unfold filterEdge
  rw [if_pos hi]
  split
  · rw [hr, hk _ hi.1, hc _ hi.1]
  · split
    · rw [kernel_get str hs]
      simp only [Option.bind_some]
      rw [tapSum5 hr, Option.map_some, hk i hi.1, hk (i + 1) (by omega), hk (i + 2) (by omega), five_near str hs (hn _) (hn _), ← hc i hi.1, toPixel_id (hp i)]
    · rw [hr, hk _ hi.1, hc _ hi.1]

theorem filterEdge_flat_mirror {d : Depth} {A : Int → Int} {sz limFrom limTo e i N : Int} {inp : Edge} {fr tt : Int} {str : Nat} (hs : 1 ≤ str ∧ str ≤ 3) (hp : Px d A)
    (hr : ∀ v, rd inp fr tt v = some (A (iclip (N - v) (-1) e))) (hA : Flat A) (hi : 0 ≤ N - i ∧ N - i < sz) (h0i : 0 ≤ i) (he : 0 ≤ e) :
    filterEdge d sz limFrom limTo inp fr tt str (N - i) = some (A i) := by
  obtain ⟨c, hc, h0, h1⟩ := hA
  have hk : ∀ v, 0 ≤ v → A (iclip v (-1) e) = c := by
    intro v hv; refine hc _ ?_; unfold iclip; split_ifs <;> omega
  have hn : ∀ v, c - 1 ≤ A (iclip v (-1) e) ∧ A (iclip v (-1) e) ≤ c + 1 := by
    intro v
    by_cases h : 0 ≤ v
    · rw [hk v h]; omega
    · rw [show iclip v (-1) e = -1 by unfold iclip; split_ifs <;> omega]; exact ⟨h0, h1⟩
  unfold filterEdge
  rw [if_pos hi]
  split
  · rw [hr, hk _ (by omega), hc _ h0i]
  · split
    · rw [kernel_get str hs]
      simp only [Option.bind_some]
      rw [tapSum5 hr, Option.map_some, five_comm str hs, hk (N - (N - i)) (by omega), hk (N - (N - i - 1)) (by omega), hk (N - (N - i - 2)) (by omega),
        five_near str hs (hn _) (hn _), ← hc i h0i, toPixel_id (hp i)]
    · rw [hr, hk _ (by omega), hc _ h0i]

/-- What ipred_z2_c has in `topleft[0]` and right of it is the edge above as specified. -/
theorem z2_above {d : Depth} {A L : Int → Int} {tl : Edge} {w h a : Nat} {D : Spec.Dir} (F : Fits D w h a) {B : Int → Int}
    (hB : B = Spec.withCorner (Spec.corner A L D (argAngle a)) A) (hp : Px d B)
    (ht : ∀ k : Int, 0 ≤ k → k ≤ w → tl k = some (B (k - 1))) (hc2 : D.availX < w → ConstFrom A (D.availX - 1)) (hflat : D.haveAbove = false → Flat B)
    (h90 : 90 < argAngle a) {up : Bool} (hup : up = (D.filter && Spec.useUpsample (D.w + D.h) D.sm (argAngle a - 90))) :
    (z2Above d tl w h a D.availX).2 ≤ 64 ∧ Px d (Spec.aboveEdge d A L D (argAngle a)) ∧
    Spec.aboveEdge d A L D (argAngle a) (0 - (if up then 2 else 1)) = B (-1) ∧
    ∀ k : Int, 1 ≤ k → k ≤ w * (if up then 2 else 1) →
      (z2Above d tl w h a D.availX).1 k = some (Spec.aboveEdge d A L D (argAngle a) (k - (if up then 2 else 1))) := by
  obtain ⟨hw, hh, hfi, hsm, w4, w64, h4, h64, ax, ay⟩ := id F
  obtain ⟨sU, sS⟩ := sel F (ang := argAngle a - 90) (delta := argAngle a - 90) (by omega) rfl
  unfold z2Above Spec.aboveEdge
  dsimp only
  rw [← hB, sU, sS, if_neg (by omega : ¬ (argAngle a : Int) < 90)]
  rw [hfi] at hup ⊢
  by_cases hfil : argFilter a
  swap
  · simp only [hfil, Bool.false_and, Bool.false_eq_true, if_false, ne_eq, not_true] at hup ⊢
    subst hup
    refine ⟨by omega, hp, rfl, fun k k0 k1 => ?_⟩
    simp only [Bool.false_eq_true, if_false] at k1 ⊢
    rw [if_pos ⟨k0, by omega⟩, ht k (by omega) (by omega)]
  simp only [hfil, Bool.true_and, if_true] at hup ⊢
  subst hup
  -- the edge as a constant one behind the last pixel read
  have hrd0 := rd_above (tl := tl) (A := stop (w - 1) B) (e := w - 1) (by omega)
    (fun k h0 h1 => by rw [ht k h0 (by omega), stop_eq (by omega)])
  by_cases hu : Spec.useUpsample (D.w + D.h) D.sm (argAngle a - 90) = true
  · have hwh := up_wh F hu
    simp only [hu, if_true, up_strength hu, edgeFilter_zero, ite_self]
    refine ⟨by omega, upsample_range hp _, ?_, fun k k0 k1 => ?_⟩
    · rw [upsample_eq]; norm_num
    · have hr2 : ∀ v, rd tl 0 (↑w + 1) v = some (stop (w - 1) B (iclip (v - 1) (-1) (w - 1))) := by
        intro v
        unfold rd
        rw [ht]
        · rw [show (iclip v 0 (↑w + 1 - 1) - 1 : Int) = iclip (v - 1) (-1) (w - 1) by unfold iclip; split_ifs <;> omega, stop_eq]
          unfold iclip; split_ifs <;> omega
        · unfold iclip; split_ifs <;> omega
        · unfold iclip; split_ifs <;> omega
      unfold upsampleEdge
      rw [if_pos (by omega)]
      have hcg := upsample_congr (d := d) (n := (D.w : Int) + ((0 : Nat) : Int)) (B := B) (C := stop (w - 1) B) (k := k - 2) (by rw [hw]; push_cast; omega) (by omega)
        (fun i h0 h1 => by rw [stop_eq (by rw [hw] at h1; push_cast at h1; omega)])
      push_cast at hcg ⊢
      rw [hcg, upsample_eq]
      by_cases h2 : k % 2 = 0
      · rw [if_pos h2, if_pos (by omega), hr2]
        congr 2
        unfold iclip; split_ifs <;> omega
      · rw [if_neg h2, if_neg (by omega), tapSum4 hr2, Option.map_some, hw]
        rw [show k / 2 - 1 - 1 = (k - 2) / 2 - 1 by omega, show k / 2 - 1 = (k - 2) / 2 by omega, show k / 2 + 1 - 1 = (k - 2) / 2 + 1 by omega,
          show k / 2 + 2 - 1 = (k - 2) / 2 + 2 by omega]
        simp
  · simp only [hu, Bool.false_eq_true, if_false]
    have hs3 := strength_le (D.w + D.h) D.sm (argAngle a - 90)
    have hPx : Px d (if D.haveAbove = true then Spec.edgeFilter (min (↑D.w) D.availX + ((0 : Nat) : Int) + 1) (Spec.strength (D.w + D.h) D.sm (↑(argAngle a) - 90)) B else B) := by
      split
      · exact edgeFilter_range hp _ hs3
      · exact hp
    refine ⟨by omega, hPx, ?_, fun k k0 k1 => ?_⟩
    · split
      · rw [edgeFilter_eq, if_neg (by omega)]; rfl
      · rfl
    by_cases hs : Spec.strength (D.w + D.h) D.sm (argAngle a - 90) = 0
    · simp only [hs, ne_eq, not_true, if_false, edgeFilter_zero, ite_self]
      rw [if_pos ⟨k0, by omega⟩, ht k (by omega) (by omega)]
    · simp only [ne_eq, hs, not_false_eq_true, if_true]
      rw [show (w : Int) - 1 + 1 = w by omega] at hrd0
      by_cases hH : D.haveAbove = true
      swap
      · rw [if_neg hH]
        have hfl := hflat (by simpa using hH)
        have hfl' : Flat (stop (w - 1) B) := by
          obtain ⟨c, c0, c1⟩ := hfl
          refine ⟨c, fun k hk => ?_, ?_⟩
          · unfold stop; exact c0 _ (by omega)
          · rw [stop_eq (by omega)]; exact c1
        rw [filterEdge_flat (by omega) (stop_px hp) hrd0 hfl' ⟨by omega, by omega⟩ (by omega), stop_eq (by omega)]
      · rw [if_pos hH]
        have hcg := edgeFilter_congr (sz := min (↑D.w) D.availX + ((0 : Nat) : Int) + 1) (str := Spec.strength (D.w + D.h) D.sm (↑(argAngle a) - 90)) (B := B) (C := stop (w - 1) B) (k := k - 1)
          (by rw [stop_eq (by omega)]) (by omega) (fun i _ h1 => by rw [stop_eq (by omega)])
        rw [hcg]
        obtain ⟨c, hcc, c1, c2, c3⟩ : ∃ c, ConstFrom (stop (w - 1) B) c ∧ -1 ≤ c ∧ c ≤ (w : Int) - 1 ∧ c ≤ min (↑D.w) D.availX + ((0 : Nat) : Int) + 1 - 2 := by
          by_cases hav : D.availX < w
          · refine ⟨D.availX - 1, fun i hi => ?_, by omega, by omega, by omega⟩
            unfold stop
            have e : ∀ j, D.availX - 1 ≤ j → B j = A (D.availX - 1) := by
              intro j hj; rw [hB]; unfold Spec.withCorner; rw [if_neg (by omega)]; exact hc2 hav j hj
            rw [e _ (by omega), e _ (by omega)]
          · exact ⟨w - 1, stop_const _ _, by omega, by omega, by omega⟩
        exact filterEdge_spec (by omega) (stop_px hp) hrd0 hcc c1 c2 c3 ⟨by omega, by omega⟩ (by omega) (by omega) (by omega)

/-- What ipred_z2_c has left of `topleft[0]` is the edge on the left as specified. -/
theorem z2_left {d : Depth} {A L : Int → Int} {tl : Edge} {w h a : Nat} {D : Spec.Dir} (F : Fits D w h a) {B : Int → Int}
    (hB : B = Spec.withCorner (Spec.corner A L D (argAngle a)) L) (hp : Px d B)
    (ht : ∀ j : Int, -1 ≤ j → j ≤ h - 1 → tl (-(1 + j)) = some (B j)) (hc2 : D.availY < h → ConstFrom L (D.availY - 1)) (hflat : D.haveLeft = false → Flat B)
    (h180 : argAngle a < 180) {up : Bool} (hup : up = (D.filter && Spec.useUpsample (D.w + D.h) D.sm (argAngle a - 180))) :
    (z2Left d tl w h a D.availY).2 ≤ 64 ∧ Px d (Spec.leftEdge d A L D (argAngle a)) ∧
    Spec.leftEdge d A L D (argAngle a) (0 - (if up then 2 else 1)) = B (-1) ∧
    ∀ j : Int, -(if up then 2 else 1) < j → j + (if up then 2 else 1) ≤ h * (if up then 2 else 1) →
      (z2Left d tl w h a D.availY).1 (-(j + (if up then 2 else 1))) = some (Spec.leftEdge d A L D (argAngle a) j) := by
  obtain ⟨hw, hh, hfi, hsm, w4, w64, h4, h64, ax, ay⟩ := id F
  obtain ⟨sU, sS⟩ := sel F (ang := 180 - argAngle a) (delta := argAngle a - 180) (by omega) (by omega)
  unfold z2Left Spec.leftEdge
  dsimp only
  rw [← hB, sU, sS, if_neg (by omega : ¬ (argAngle a : Int) > 180)]
  rw [hfi] at hup ⊢
  by_cases hfil : argFilter a
  swap
  · simp only [hfil, Bool.false_and, Bool.false_eq_true, if_false, ne_eq, not_true] at hup ⊢
    subst hup
    refine ⟨by omega, hp, rfl, fun k k0 k1 => ?_⟩
    simp only [Bool.false_eq_true, if_false] at k0 k1 ⊢
    rw [if_pos ⟨by omega, by omega⟩, show -(k + 1) = -(1 + k) by omega, ht k (by omega) (by omega)]
  simp only [hfil, Bool.true_and, if_true] at hup ⊢
  subst hup
  have hrd0 := rd_left (tl := tl) (L := stop (h - 1) B) (e := h - 1) (n := h) (fr := 0) (by omega) (by omega)
    (fun j h0 h1 => by rw [ht j h0 (by omega), stop_eq (by omega)])
  by_cases hu : Spec.useUpsample (D.w + D.h) D.sm (argAngle a - 180) = true
  · have hwh := up_wh F hu
    simp only [hu, if_true, up_strength hu, edgeFilter_zero, ite_self]
    refine ⟨by omega, upsample_range hp _, ?_, fun k k0 k1 => ?_⟩
    · rw [upsample_eq]; norm_num
    · have hcg := upsample_congr (d := d) (n := (D.h : Int) + ((0 : Nat) : Int)) (B := B) (C := stop (h - 1) B) (k := k) (by rw [hh]; push_cast; omega) (by omega)
        (fun i h0 h1 => by rw [stop_eq (by rw [hh] at h1; push_cast at h1; omega)])
      rw [hcg, show -(k + 2) + 2 * (h : Int) = 2 * (h - 1) - k by omega]
      exact upsampleEdge_mirror hrd0 (stop_const _ _) (by omega) (by omega) (by rw [hh]; push_cast; omega) ⟨by omega, by omega⟩ (by omega)
  · simp only [hu, Bool.false_eq_true, if_false]
    have hs3 := strength_le (D.w + D.h) D.sm (argAngle a - 180)
    have hPx : Px d (if D.haveLeft = true then Spec.edgeFilter (min (↑D.h) D.availY + ((0 : Nat) : Int) + 1) (Spec.strength (D.w + D.h) D.sm (↑(argAngle a) - 180)) B else B) := by
      split
      · exact edgeFilter_range hp _ hs3
      · exact hp
    refine ⟨by omega, hPx, ?_, fun k k0 k1 => ?_⟩
    · split
      · rw [edgeFilter_eq, if_neg (by omega)]; rfl
      · rfl
    by_cases hs : Spec.strength (D.w + D.h) D.sm (argAngle a - 180) = 0
    · simp only [hs, ne_eq, not_true, if_false, edgeFilter_zero, ite_self]
      rw [if_pos ⟨by omega, by omega⟩, show -(k + 1) = -(1 + k) by omega, ht k (by omega) (by omega)]
    · simp only [ne_eq, hs, not_false_eq_true, if_true]
      rw [show -(k + 1) + (h : Int) = h - 1 - k by omega]
      by_cases hH : D.haveLeft = true
      swap
      · rw [if_neg hH]
        have hfl := hflat (by simpa using hH)
        have hfl' : Flat (stop (h - 1) B) := by
          obtain ⟨c, c0, c1⟩ := hfl
          refine ⟨c, fun k hk => ?_, ?_⟩
          · unfold stop; exact c0 _ (by omega)
          · rw [stop_eq (by omega)]; exact c1
        rw [filterEdge_flat_mirror (by omega) (stop_px hp) hrd0 hfl' ⟨by omega, by omega⟩ (by omega) (by omega), stop_eq (by omega)]
      · rw [if_pos hH]
        have hcg := edgeFilter_congr (sz := min (↑D.h) D.availY + ((0 : Nat) : Int) + 1) (str := Spec.strength (D.w + D.h) D.sm (↑(argAngle a) - 180)) (B := B) (C := stop (h - 1) B) (k := k)
          (by rw [stop_eq (by omega)]) (by omega) (fun i _ h1 => by rw [stop_eq (by omega)])
        rw [hcg]
        obtain ⟨c, hcc, c1, c2, c3⟩ : ∃ c, ConstFrom (stop (h - 1) B) c ∧ -1 ≤ c ∧ c ≤ (h : Int) - 1 ∧ c ≤ min (↑D.h) D.availY + ((0 : Nat) : Int) + 1 - 2 := by
          by_cases hav : D.availY < h
          · refine ⟨D.availY - 1, fun i hi => ?_, by omega, by omega, by omega⟩
            unfold stop
            have e : ∀ j, D.availY - 1 ≤ j → B j = L (D.availY - 1) := by
              intro j hj; rw [hB]; unfold Spec.withCorner; rw [if_neg (by omega)]; exact hc2 hav j hj
            rw [e _ (by omega), e _ (by omega)]
          · exact ⟨h - 1, stop_const _ _, by omega, by omega, by omega⟩
        exact filterEdge_mirror (by omega) (stop_px hp) hrd0 hcc c1 c2 c3 ⟨by omega, by omega⟩ (by omega) (by omega) (by omega) (by omega)

/-- Angles between 90 and 180 degrees: ipred_z2_c reads the pixels above, left and in the corner, its assertion holds, and it computes what is specified. -/
theorem z2_spec {d : Depth} {A L : Int → Int} {tl : Edge} {w h a : Nat} {D : Spec.Dir} (F : Fits D w h a) (hpA : Px d A) (hpL : Px d L) (hAL : A (-1) = L (-1))
    (ht0 : tl 0 = some (Spec.corner A L D (argAngle a)))
    (htA : ∀ k : Int, 1 ≤ k → k ≤ w → tl k = some (A (k - 1))) (htL : ∀ j : Int, 0 ≤ j → j ≤ h - 1 → tl (-(1 + j)) = some (L j))
    (hcA : D.availX < w → ConstFrom A (D.availX - 1)) (hcL : D.availY < h → ConstFrom L (D.availY - 1))
    (hfA : D.haveAbove = false → Flat (Spec.withCorner (Spec.corner A L D (argAngle a)) A))
    (hfL : D.haveLeft = false → Flat (Spec.withCorner (Spec.corner A L D (argAngle a)) L))
    (ha : Spec.Angle (argAngle a)) (h90 : 90 < argAngle a) (h180 : argAngle a < 180) {x y : Nat} (hx : x < w) (hy : y < h) :
    z2 d tl w h a D.availX D.availY x y = some (Spec.directional d A L D (argAngle a) y x) := by
  obtain ⟨hw, hh, hfi, hsm, w4, w64, h4, h64, ax, ay⟩ := id F
  obtain ⟨g1, g2⟩ := angle_z2 ha h90 h180
  obtain ⟨hdy, hylo, hyhi⟩ := derivative_get _ g1
  obtain ⟨hdx, hxlo, hxhi⟩ := derivative_get _ g2
  have hmul := derivative_mul _ g1
  rw [show 90 - (argAngle a - 90) = 180 - argAngle a by omega] at hmul
  rw [show ((argAngle a - 90 : Nat) : Int) = (argAngle a : Int) - 90 by omega] at *
  rw [show ((180 - argAngle a : Nat) : Int) = 180 - (argAngle a : Int) by omega] at *
  obtain ⟨sUA, -⟩ := sel F (ang := argAngle a - 90) (delta := argAngle a - 90) (by omega) rfl
  obtain ⟨sUL, -⟩ := sel F (ang := 180 - argAngle a) (delta := argAngle a - 180) (by omega) (by omega)
  have hcr : 0 ≤ Spec.corner A L D (argAngle a) ∧ Spec.corner A L D (argAngle a) ≤ d.max := by
    unfold Spec.corner
    split
    · have h1 := hpA (-1); have h2 := hpA 0; have h3 := hpL 0
      unfold Spec.Round2; norm_num; omega
    · exact hpA _
  have hwc : ∀ B, Px d B → Px d (Spec.withCorner (Spec.corner A L D (argAngle a)) B) := by
    intro B hB k; unfold Spec.withCorner; split
    · exact hcr
    · exact hB k
  obtain ⟨nA, pA, cA, eA⟩ := z2_above (tl := tl) F rfl (hwc A hpA) (by
    intro k k0 k1
    by_cases hk : k = 0
    · subst hk; rw [ht0]; simp [Spec.withCorner]
    · rw [htA k (by omega) k1, Spec.withCorner, if_neg (by omega)]) hcA hfA h90 rfl
  obtain ⟨nL, pL, cL, eL⟩ := z2_left (tl := tl) F rfl (hwc L hpL) (by
    intro k k0 k1
    by_cases hk : k = -1
    · subst hk; rw [show -(1 + (-1 : Int)) = 0 by omega, ht0]; simp [Spec.withCorner]
    · rw [htL k (by omega) k1, Spec.withCorner, if_neg (by omega)]) hcL hfL h180 rfl
  have hc1 : ∀ B, Spec.withCorner (Spec.corner A L D (argAngle a)) B (-1) = Spec.corner A L D (argAngle a) := fun B => by simp [Spec.withCorner]
  rw [hc1] at cA cL
  unfold z2 Spec.directional
  rw [if_pos ⟨h90, h180⟩, hdy, hdx]
  simp only [Option.bind_some]
  rw [sUL, sUA, ← hfi, if_pos ⟨nA, nL⟩, if_neg (by omega : ¬ (argAngle a : Int) < 90), if_neg (by omega : ¬ (argAngle a : Int) = 90),
    if_pos (by omega : (argAngle a : Int) < 180)]
  clear sUL sUA nA nL hwc hdy hdx hmul
  have hmul := derivative_mul _ g1
  rw [show 90 - (argAngle a - 90) = 180 - argAngle a by omega, show ((argAngle a - 90 : Nat) : Int) = (argAngle a : Int) - 90 by omega,
    show ((180 - argAngle a : Nat) : Int) = 180 - (argAngle a : Int) by omega] at hmul
  generalize Spec.derivative (180 - argAngle a) = dx at *
  generalize Spec.derivative (argAngle a - 90) = dy at *
  generalize (D.filter && Spec.useUpsample (D.w + D.h) D.sm (argAngle a - 90)) = uA at *
  generalize (D.filter && Spec.useUpsample (D.w + D.h) D.sm (argAngle a - 180)) = uL at *
  generalize hEA : Spec.aboveEdge d A L D (argAngle a) = EA at *
  generalize hEL : Spec.leftEdge d A L D (argAngle a) = EL at *
  generalize htl : z2Topleft tl (z2Above d tl w h a D.availX).1 (z2Left d tl w h a D.availY).1 = topleft
  have tA : ∀ k : Int, -(if uA then 2 else 1) ≤ k → k + (if uA then 2 else 1) ≤ w * (if uA then 2 else 1) → topleft (k + (if uA then 2 else 1)) = some (EA k) := by
    intro k k0 k1
    subst htl
    unfold z2Topleft
    by_cases hk : k + (if uA then 2 else 1) = 0
    · simp only [hk, if_true]; rw [ht0, ← cA]; congr 2; omega
    · simp only [if_neg hk]
      rw [if_pos (by omega), eA _ (by omega) k1]; congr 2; omega
  have tL : ∀ k : Int, -(if uL then 2 else 1) ≤ k → k + (if uL then 2 else 1) ≤ h * (if uL then 2 else 1) → topleft (-(k + (if uL then 2 else 1))) = some (EL k) := by
    intro k k0 k1
    subst htl
    unfold z2Topleft
    by_cases hk : k + (if uL then 2 else 1) = 0
    · simp only [hk, neg_zero, if_true]; rw [ht0, ← cL]; congr 2; omega
    · simp only [if_neg (by omega : ¬ -(k + (if uL then 2 else 1)) = 0)]
      rw [if_neg (by omega), eL _ (by omega) k1]
  clear eA eL cA cL hEA hEL htl ht0 htA htL hcA hcL hfA hfL
  have hX : (y + 1 : Int) * dx = dx * (y + 1) := mul_comm _ _
  have hY : (x + 1 : Int) * dy = dy * (x + 1) := mul_comm _ _
  rw [hX, hY]
  have hXp : 3 * ((y : Int) + 1) ≤ dx * (y + 1) := mul_le_mul_of_nonneg_right hxlo (by omega)
  have hYp : 3 * ((x : Int) + 1) ≤ dy * (x + 1) := mul_le_mul_of_nonneg_right hylo (by omega)
  have hgeo : 64 * ((x : Int) + 1) < dx * (y + 1) → dy * (x + 1) < 64 * (y + 1) := by
    intro hlt
    by_contra hcon
    have h1 : (dx * (y + 1)) * dy ≤ 4096 * (y + 1) := by
      have : dy * dx * ((y : Int) + 1) ≤ 4096 * (y + 1) := mul_le_mul_of_nonneg_right hmul (by omega)
      nlinarith
    have h2 : 64 * ((x : Int) + 1) * dy < (dx * (y + 1)) * dy := mul_lt_mul_of_pos_right hlt (by omega)
    nlinarith
  generalize hXv : dx * ((y : Int) + 1) = X at *
  generalize hYv : dy * ((x : Int) + 1) = Y at *
  have eX : (if uA = true then 2 * dx else dx) * (↑y + 1) = X * (if uA then 2 else 1) := by
    rw [← hXv]; split <;> ring
  have eY : (if uL = true then 2 * dy else dy) * (↑x + 1) = Y * (if uL then 2 else 1) := by
    rw [← hYv]; split <;> ring
  rw [eX, eY]
  have bX : asr ((if uA then 2 else 1) * 64 - X * (if uA then 2 else 1)) 6 + ↑x * (if uA then 2 else 1) = (↑x * 2 ^ 6 - X) / 2 ^ (6 - (if uA then 1 else 0)) + (if uA then 2 else 1) := by
    unfold asr; cases uA <;> simp <;> omega
  have bY : asr (↑y * (64 * (if uL then 2 else 1)) - Y * (if uL then 2 else 1)) 6 = (↑y * 2 ^ 6 - Y) / 2 ^ (6 - (if uL then 1 else 0)) := by
    unfold asr; cases uL <;> simp <;> omega
  have fX : and3E ((if uA then 2 else 1) * 64 - X * (if uA then 2 else 1)) = 2 * ((if uA then ↑x * 2 ^ 6 - X else (↑x * 2 ^ 6 - X) / 2) % 32) := by
    unfold and3E; cases uA <;> simp <;> omega
  have fY : and3E (↑y * (64 * (if uL then 2 else 1)) - Y * (if uL then 2 else 1)) = 2 * ((if uL then ↑y * 2 ^ 6 - Y else (↑y * 2 ^ 6 - Y) / 2) % 32) := by
    unfold and3E; cases uL <;> simp <;> omega
  rw [bX, bY]
  have cX : ((↑x * 2 ^ 6 - X) / 2 ^ (6 - (if uA then 1 else 0)) + (if uA then 2 else 1) ≥ 0) ↔ (↑x * 2 ^ 6 - X) / 2 ^ (6 - (if uA then 1 else 0)) ≥ -(2 ^ (if uA then 1 else 0) : Int) := by
    cases uA <;> simp <;> omega
  by_cases hb : (↑x * 2 ^ 6 - X) / 2 ^ (6 - (if uA then 1 else 0)) ≥ -(2 ^ (if uA then 1 else 0) : Int)
  · rw [if_pos (cX.mpr hb), if_pos hb]
    have hub : (↑x * 2 ^ 6 - X) / 2 ^ (6 - (if uA then 1 else 0)) + 1 + (if uA then 2 else 1) ≤ (w : Int) * (if uA then 2 else 1) := by
      cases uA <;> simp at * <;> omega
    have hlb := cX.mpr hb
    have := lerp_spec (edge := fun k => topleft (k + (if uA then 2 else 1))) pA (tA _ (by omega) (by omega)) (tA _ (by omega) hub) fX
    rw [← this]
    have e1 : (↑x * 2 ^ 6 - X) / 2 ^ (6 - (if uA then 1 else 0)) + (if uA then 2 else 1) + 1 = (↑x * 2 ^ 6 - X) / 2 ^ (6 - (if uA then 1 else 0)) + 1 + (if uA then 2 else 1) := by omega
    rw [e1]
  · rw [if_neg (fun h => hb (cX.mp h)), if_neg hb]
    have hlt : 64 * ((x : Int) + 1) < X := by
      cases uA <;> simp at hb <;> omega
    have hg := hgeo hlt
    have hlb : (↑y * 2 ^ 6 - Y) / 2 ^ (6 - (if uL then 1 else 0)) ≥ -(if uL then 2 else 1) := by
      cases uL <;> simp <;> omega
    have hub : (↑y * 2 ^ 6 - Y) / 2 ^ (6 - (if uL then 1 else 0)) + 1 + (if uL then 2 else 1) ≤ (h : Int) * (if uL then 2 else 1) := by
      cases uL <;> simp <;> omega
    rw [if_pos hlb]
    have := lerp_spec (edge := fun k => topleft (-(k + (if uL then 2 else 1)))) pL (tL _ (by omega) (by omega)) (tL _ (by omega) hub) fY
    rw [← this]
    have e1 : -(if uL then 2 else 1) - (↑y * 2 ^ 6 - Y) / 2 ^ (6 - (if uL then 1 else 0)) = -((↑y * 2 ^ 6 - Y) / 2 ^ (6 - (if uL then 1 else 0)) + (if uL then 2 else 1)) := by omega
    have e2 : -(if uL then 2 else 1) - ((↑y * 2 ^ 6 - Y) / 2 ^ (6 - (if uL then 1 else 0)) + 1) = -((↑y * 2 ^ 6 - Y) / 2 ^ (6 - (if uL then 1 else 0)) + 1 + (if uL then 2 else 1)) := by omega
    rw [e1, e2]

end Dav1d.Ipred
