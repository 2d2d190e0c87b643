import Verif.Syn.SrModel
import Verif.Syn.SrSpec
import Verif.Syn.CdfProps
import Verif.Dsp.McLemmas
/-!
# C87: super-resolution gives the frame of the specification
-/
set_option linter.unusedVariables false
namespace Dav1d.Sres
open Dav1d.Syn.Lru (Cfg)
open Dav1d.Cdf (Pl Col Row y0 x0 first last)

/-- The frame is not empty, and not reduced by upscaling; sizes have 16 bits. -/
structure SizeOk (f : Cfg) : Prop where
  w : 0 < f.w ∧ f.w ≤ f.srw
  srw : f.srw ≤ 65536
  h : 0 < f.h

def envOf (f : Cfg) (d : Depth) (C : Nat → Nat → Nat → Int) : Av1.Env :=
  { FrameWidth := f.w, UpscaledWidth := f.srw, MiCols := f.bw, subsampling_x := if f.layout = 3 then 0 else 1, depth := d, CdefFrame := C }

section
variable {f : Cfg} {d : Depth} {C : Nat → Nat → Nat → Int}

theorem subX_eq (f : Cfg) (d C) (pl : Nat) : Av1.subX (envOf f d C) pl = f.ssH pl := by
  unfold Av1.subX envOf Cfg.ssH
  simp only
  split_ifs <;> simp_all

theorem ssH_cases (f : Cfg) (pl : Nat) : f.ssH pl = 0 ∨ f.ssH pl = 1 := by unfold Cfg.ssH; split_ifs <;> simp
theorem ssV_cases (f : Cfg) (pl : Nat) : f.ssV pl = 0 ∨ f.ssV pl = 1 := by unfold Cfg.ssV; split_ifs <;> simp

theorem round2_eq {n s : Nat} (hs : s = 0 ∨ s = 1) : Av1.Round2 n s = ((n + s) >>> s : Nat) := by
  unfold Av1.Round2
  rcases hs with rfl | rfl
  · simp
  · rw [Nat.shiftRight_eq_div_pow]; simp

theorem down_eq (f : Cfg) (d C) (pl : Nat) : Av1.downscaledPlaneW (envOf f d C) pl = inW f pl := by
  unfold Av1.downscaledPlaneW inW
  rw [subX_eq]
  exact round2_eq (ssH_cases f pl)

theorem up_eq (f : Cfg) (d C) (pl : Nat) : Av1.upscaledPlaneW (envOf f d C) pl = outW f pl := by
  unfold Av1.upscaledPlaneW outW
  rw [subX_eq]
  exact round2_eq (ssH_cases f pl)

theorem widths (h : SizeOk f) (pl : Nat) : 0 < inW f pl ∧ inW f pl ≤ outW f pl ∧ outW f pl ≤ 65536 := by
  have h1 := h.w
  have h2 := h.srw
  unfold inW outW
  rw [Nat.shiftRight_eq_div_pow, Nat.shiftRight_eq_div_pow]
  rcases ssH_cases f pl with e | e <;> rw [e] <;> simp only [Nat.pow_zero, Nat.pow_one] <;> omega

theorem i32_some {v : Int} (h : -2147483648 ≤ v ∧ v ≤ 2147483647) : i32 v = some v := if_pos h

theorem tdiv_abs (a b : Int) : -(a.natAbs : Int) ≤ a.tdiv b ∧ a.tdiv b ≤ a.natAbs := by
  have : (a.tdiv b).natAbs ≤ a.natAbs := by rw [Int.natAbs_tdiv]; exact Nat.div_le_self _ _
  omega

theorem pow13 : (2 : Int) ^ (Av1.SUPERRES_SCALE_BITS - 1) = 8192 := by unfold Av1.SUPERRES_SCALE_BITS; norm_num
theorem pow7 : (2 : Int) ^ (Av1.SUPERRES_EXTRA_BITS - 1) = 128 := by unfold Av1.SUPERRES_EXTRA_BITS; norm_num
theorem pow8 : (2 : Int) ^ Av1.SUPERRES_EXTRA_BITS = 256 := by unfold Av1.SUPERRES_EXTRA_BITS; norm_num
theorem pow14 : (2 : Int) ^ Av1.SUPERRES_SCALE_BITS = 16384 := by unfold Av1.SUPERRES_SCALE_BITS; norm_num

/-- No overflow, and the values of the specification. -/
theorem step_eq (h : SizeOk f) (d C) (pl : Nat) : resizeStep f pl = some (Av1.stepX (envOf f d C) pl) ∧ 0 ≤ Av1.stepX (envOf f d C) pl ∧
    resizeStart f pl = some (Av1.initialSubpelX (envOf f d C) pl) ∧ 0 ≤ Av1.initialSubpelX (envOf f d C) pl ∧ Av1.initialSubpelX (envOf f d C) pl < 16384 := by
  obtain ⟨w1, w2, w3⟩ := widths h pl
  have e2 : (outW f pl).tdiv 2 = outW f pl / 2 := Int.tdiv_eq_ediv_of_nonneg (by omega)
  have e1 : Av1.stepX (envOf f d C) pl = (inW f pl * 16384 + outW f pl / 2).tdiv (outW f pl) := by
    unfold Av1.stepX
    rw [down_eq, up_eq, e2, pow14]
  have hs : resizeStep f pl = some (Av1.stepX (envOf f d C) pl) := by
    rw [e1]
    unfold resizeStep scaleFac
    rw [i32_some (by omega)]
    simp only [Option.bind_eq_bind, Option.bind_some]
    rw [i32_some (by omega)]
    rfl
  have hd : (inW f pl * 16384 + outW f pl / 2).tdiv (outW f pl) = (inW f pl * 16384 + outW f pl / 2) / outW f pl := Int.tdiv_eq_ediv_of_nonneg (by omega)
  have h0 : 0 ≤ Av1.stepX (envOf f d C) pl := by
    rw [e1, hd]
    exact Int.ediv_nonneg (by omega) (by omega)
  have hp : inW f pl * 16384 - outW f pl ≤ outW f pl * Av1.stepX (envOf f d C) pl ∧ outW f pl * Av1.stepX (envOf f d C) pl ≤ inW f pl * 16384 + outW f pl / 2 := by
    rw [e1, hd]
    have := Int.mul_ediv_add_emod (inW f pl * 16384 + outW f pl / 2) (outW f pl)
    have := Int.emod_lt_of_pos (inW f pl * 16384 + outW f pl / 2) (show 0 < outW f pl by omega)
    have := Int.emod_nonneg (inW f pl * 16384 + outW f pl / 2) (show outW f pl ≠ 0 by omega)
    omega
  refine ⟨hs, h0, ?_, ?_, ?_⟩
  · unfold resizeStart
    rw [hs]
    simp only [Option.bind_eq_bind, Option.bind_some]
    unfold getUpscaleX0
    have t1 := tdiv_abs (-((outW f pl - inW f pl) * 8192) + outW f pl / 2) (outW f pl)
    have t2 := tdiv_abs (outW f pl * Av1.stepX (envOf f d C) pl - inW f pl * 16384) 2
    rw [i32_some (by omega), i32_some (by omega)]
    simp only [Option.bind_eq_bind, Option.bind_some]
    rw [i32_some (by omega)]
    simp only [Option.bind_eq_bind, Option.bind_some]
    rw [if_neg (by omega), i32_some (by omega)]
    simp only [Option.bind_eq_bind, Option.bind_some]
    rw [i32_some (by omega)]
    simp only [Option.bind_eq_bind, Option.bind_some]
    rw [i32_some (by omega)]
    simp only [Option.bind_eq_bind, Option.bind_some]
    rw [i32_some (by omega)]
    rw [Option.bind_some]
    unfold Av1.initialSubpelX Av1.err
    rw [down_eq, up_eq, e2, pow14, pow13, pow7]
  · unfold Av1.initialSubpelX
    rw [pow14]
    exact Int.emod_nonneg _ (by decide)
  · unfold Av1.initialSubpelX
    rw [pow14]
    exact Int.emod_lt_of_pos _ (by decide)

theorem clip3_eq (v lo hi : Int) (h : lo ≤ hi) : Av1.Clip3 lo hi v = iclip v lo hi := by
  unfold Av1.Clip3 iclip
  split_ifs <;> omega

/-- One pixel. -/
theorem pixel (h : SizeOk f) {pl : Nat} {src : Int → Int} {Y : Nat} (hsrc : ∀ X : Int, 0 ≤ X → X < x0 f pl f.bw → src X = C pl Y X.toNat) (x : Nat) :
    resizeRow f d pl src x = some (Av1.UpscaledCdefFrame (envOf f d C) pl Y x) := by
  obtain ⟨s1, s2, s3, s4, s5⟩ := step_eq h d C pl
  unfold resizeRow
  rw [s1, s3]
  simp only [Option.bind_eq_bind, Option.bind_some]
  unfold Av1.UpscaledCdefFrame
  generalize Av1.stepX (envOf f d C) pl = st at *
  generalize Av1.initialSubpelX (envOf f d C) pl = s0 at *
  obtain ⟨st, rfl⟩ := Int.eq_ofNat_of_zero_le s2
  obtain ⟨s0, rfl⟩ := Int.eq_ofNat_of_zero_le s4
  simp only [Int.toNat_natCast]
  have hm : s0 < 16384 := by omega
  unfold resizePx
  rw [resizePos_eq hm]
  obtain ⟨F, hF, hk⟩ := resizeFilter_get (m := (s0 + x * st) % 16384) (by omega)
  simp only [hF, Option.bind_eq_bind, Option.bind_some]
  have hbw : 0 < f.bw := by have := h.w; unfold Cfg.bw; omega
  have hw : (4 * f.bw + f.ssH pl) >>> f.ssH pl = x0 f pl f.bw ∧ 0 < x0 f pl f.bw ∧ Av1.maxX (envOf f d C) pl = (x0 f pl f.bw : Int) - 1 := by
    have hb2 := Cdf.bw_eq f
    unfold Av1.maxX x0
    rw [subX_eq, Nat.shiftRight_eq_div_pow]
    show _ ∧ _ ∧ ((f.bw / 2 ^ f.ssH pl : Nat) : Int) * 4 - 1 = _
    rcases ssH_cases f pl with e | e <;> rw [e] <;> simp only [Nat.pow_zero, Nat.pow_one] <;> omega
  obtain ⟨w1, w2, w3⟩ := hw
  rw [w1, w3, if_neg (by omega)]
  have eP : (-2 ^ Av1.SUPERRES_SCALE_BITS + (s0 : Int) + x * st) = ((s0 + x * st : Nat) : Int) - 16384 := by
    rw [pow14]
    push_cast
    omega
  rw [eP]
  generalize s0 + x * st = P at *
  have p1 : ((P : Int) - 16384) / 2 ^ Av1.SUPERRES_SCALE_BITS = ((P / 16384 : Nat) : Int) - 1 := by
    rw [pow14]
    omega
  have p2 : (((P : Int) - 16384) % 2 ^ Av1.SUPERRES_SCALE_BITS / 2 ^ Av1.SUPERRES_EXTRA_BITS).toNat = P % 16384 / 256 := by
    rw [pow14, pow8]
    omega
  rw [p1, p2]
  have hget : resizeFilters.getD (P % 16384 / 256) [] = F := by rw [List.getD_eq_getElem?_getD, hF]; rfl
  have hlen : F.length = 8 := by
    have := resize_kernel.2 F (List.mem_of_getElem? hF)
    exact this.1
  have hpx : ∀ k : Int, src (iclip (((P / 16384 : Nat) : Int) - 1 + k) 0 ((x0 f pl f.bw : Int) - 1)) =
      C pl Y (Av1.Clip3 0 ((x0 f pl f.bw : Int) - 1) (((P / 16384 : Nat) : Int) - 1 + k)).toNat := by
    intro k
    rw [clip3_eq _ _ _ (by omega)]
    refine hsrc _ ?_ ?_ <;> (unfold iclip; split_ifs <;> omega)
  have hbits : (0 : Int) ≤ 2 ^ d.bpc - 1 := by cases d <;> decide
  show some (d.clip _) = some (Av1.Clip3 0 (2 ^ d.bpc - 1) _)
  rw [clip3_eq _ _ _ hbits]
  show some (d.clip _) = some (d.clip _)
  congr 2
  have r2 : ∀ v : Int, Av1.Round2 v Av1.FILTER_BITS = (v + 64) / 128 := by
    intro v
    unfold Av1.Round2 Av1.FILTER_BITS
    norm_num
  have r3 : ∀ v : Int, asr v 7 = v / 128 := by intro v; unfold asr; norm_num
  rw [r2, r3]
  unfold fir
  simp only [hpx]
  obtain ⟨a0, a1, a2, a3, a4, a5, a6, a7, rfl⟩ : ∃ a0 a1 a2 a3 a4 a5 a6 a7, F = [a0, a1, a2, a3, a4, a5, a6, a7] := by
    match F, hlen with
    | [a0, a1, a2, a3, a4, a5, a6, a7], _ => exact ⟨_, _, _, _, _, _, _, _, rfl⟩
  unfold Av1.Upscale_Filter
  rw [hget]
  have e : ∀ g : Nat → Int, ((List.range Av1.SUPERRES_FILTER_TAPS).map g).sum = g 0 + (g 1 + (g 2 + (g 3 + (g 4 + (g 5 + (g 6 + (g 7 + 0))))))) := fun g => rfl
  rw [e]
  have o : (Av1.SUPERRES_FILTER_OFFSET : Int) = 3 := rfl
  simp only [o, taps, List.zipWith, List.sum_cons, List.sum_nil, List.getD_cons_zero, List.getD_cons_succ]
  norm_num
  generalize ((P : Int) / 16384) = Q
  show (_ : Int) / 128 = _ / 128
  congr 1
  have hC : (envOf f d C).CdefFrame = C := rfl
  rw [hC]
  ring

/-- The rows. -/
theorem rows (h : SizeOk f) {sby pl : Nat} (hs : sby < f.sbh) {Y : Int} :
    let y : Int := ((sby * f.step * 4) >>> f.ssV pl : Nat)
    let hStart : Int := ((8 * if sby ≠ 0 then 1 else 0) >>> f.ssV pl : Nat)
    let n : Int := min (((f.h : Int) - f.step * 4 * sby + f.ssV pl) / 2 ^ f.ssV pl) ((4 * (f.step - 2 * if sby + 1 < f.sbh then 1 else 0)) >>> f.ssV pl : Nat) + hStart
    0 < n ∧ (y - hStart ≤ Y ∧ Y < y - hStart + n ↔ Row f sby pl Y ∧ Y < Lrs.planeH f pl) := by
  intro y hStart n
  obtain ⟨b1, b2, b3⟩ := Cdf.sb_facts hs
  have hbh := Cdf.bh_eq f
  have hh := h.h
  have hY : Row f sby pl Y ↔ ((first f sby * Cdf.bkH f pl : Nat) : Int) ≤ Y ∧ Y < (last f sby * Cdf.bkH f pl : Nat) := by
    unfold Row
    rw [Cdf.y0_eq, Cdf.y0_eq]
  rw [hY]
  clear hY
  unfold first last Lrs.planeH
  simp only [y, hStart, n, Nat.shiftRight_eq_div_pow]
  rcases Cdf.half_cases f with ⟨_, g, g'⟩ | ⟨_, g, g'⟩ <;> rw [g] at b1 b2 b3 ⊢ <;> rw [g'] <;>
  rcases Cdf.bkH_cases f pl with ⟨k, k'⟩ | ⟨k, k'⟩ <;> rw [k, k'] <;> simp only [Nat.pow_zero, Nat.pow_one, pow_zero, pow_one] <;>
  by_cases c1 : sby + 1 < f.sbh <;> simp only [c1, if_true, if_false, forall_true_left, not_true_eq_false, not_false_eq_true, false_imp_iff] at b1 b2 b3 ⊢ <;>
  by_cases c0 : sby = 0 <;> simp only [c0, if_true, if_false, ne_eq, not_true_eq_false, not_false_eq_true] at b1 b2 b3 ⊢ <;> push_cast <;> refine ⟨?_, ?_⟩ <;> omega

theorem planes_iff (f : Cfg) (pl : Nat) : pl < 1 + 2 * (if f.layout ≠ 0 then 1 else 0) ↔ Pl f pl := by
  unfold Pl
  split_ifs with h <;> simp only [h, ne_eq, not_true_eq_false, not_false_eq_true, true_and, false_and, or_false] <;> omega

/-- A pixel of the upscaled frame is written with a row of superblocks. -/
def Out (f : Cfg) (sby pl : Nat) (Y X : Int) : Prop := Pl f pl ∧ (Row f sby pl Y ∧ Y < Lrs.planeH f pl) ∧ 0 ≤ X ∧ X < Lrs.planeW f pl

theorem outW_eq (f : Cfg) (pl : Nat) : outW f pl = Lrs.planeW f pl := by unfold outW Lrs.planeW; rw [Nat.shiftRight_eq_div_pow]

/-- **C87.** One row of superblocks: the pixels of its rows become those of the specification for a frame `C` that is there in the rows that CDEF filters with it, and nothing else is written. There is no
overflow, no read outside of the table or the row. -/
theorem C87_sbrow (h : SizeOk f) {sby : Nat} (hs : sby < f.sbh) {fr : Nat → Plane} (hfr : ∀ pl Y X, Col f pl X → Row f sby pl Y → fr pl Y X = C pl Y.toNat X.toNat)
    (sr : Nat → Int → Int → Option Int) (pl : Nat) (Y X : Int) :
    (Out f sby pl Y X → filterSbrowResize f d sby fr sr pl Y X = some (Av1.UpscaledCdefFrame (envOf f d C) pl Y.toNat X.toNat)) ∧
    (¬Out f sby pl Y X → filterSbrowResize f d sby fr sr pl Y X = sr pl Y X) := by
  obtain ⟨n0, hr⟩ := rows h hs (pl := pl) (Y := Y)
  unfold filterSbrowResize Out
  by_cases hp : Pl f pl
  · simp only [if_pos ((planes_iff f pl).2 hp)]
    rw [if_neg (by omega)]
    have key : ∀ {A B A' B' : Prop}, (A ∧ B ↔ A') → (A ∧ B ∧ B' ↔ A' ∧ B') := by intros; tauto
    refine ⟨fun ho => ?_, fun ho => ?_⟩
    · rw [if_pos ((key hr).2 ⟨ho.2.1, ho.2.2.1, by rw [outW_eq]; exact ho.2.2.2⟩)]
      refine pixel h (Y := Y.toNat) (fun X' h1 h2 => ?_) X.toNat
      exact hfr pl Y X' ⟨hp, h1, h2⟩ ho.2.1.1
    · rw [if_neg (fun g => ho ?_)]
      have g' := (key hr).1 g
      exact ⟨hp, g'.1, g'.2.1, by rw [← outW_eq]; exact g'.2.2⟩
  · rw [if_neg (fun g => hp ((planes_iff f pl).1 g))]
    exact ⟨fun g => absurd g.1 hp, fun _ => rfl⟩

/-- Rows of superblocks are upscaled in any order; `done k fr` says that row of superblocks `k` is through CDEF in the frame `fr`. Between these steps the frame may change. -/
inductive Up (f : Cfg) (d : Depth) (done : Nat → (Nat → Plane) → Prop) : List Nat → (Nat → Int → Int → Option Int) → Prop
  | start (sr : Nat → Int → Int → Option Int) : Up f d done [] sr
  | next {ups : List Nat} {sr : Nat → Int → Int → Option Int} (k : Nat) (fr : Nat → Plane) : Up f d done ups sr → k < f.sbh → done k fr → Up f d done (k :: ups) (filterSbrowResize f d k fr sr)

theorem up_inv (h : SizeOk f) {done : Nat → (Nat → Plane) → Prop} (hd : ∀ k fr, done k fr → ∀ pl Y X, Col f pl X → Row f k pl Y → fr pl Y X = C pl Y.toNat X.toNat)
    {ups : List Nat} {sr : Nat → Int → Int → Option Int} (hu : Up f d done ups sr) :
    ∀ k ∈ ups, ∀ pl Y X, Out f k pl Y X → sr pl Y X = some (Av1.UpscaledCdefFrame (envOf f d C) pl Y.toNat X.toNat) := by
  induction hu with
  | start sr => exact fun k hk => absurd hk List.not_mem_nil
  | @next ups sr j fr _ hj hdone ih =>
    intro k hk pl Y X ho
    obtain ⟨c1, c2⟩ := C87_sbrow (d := d) h hj (hd j fr hdone) sr pl Y X
    by_cases g : Out f j pl Y X
    · exact c1 g
    · rw [c2 g]
      rcases List.mem_cons.1 hk with rfl | hk
      · exact absurd ho g
      · exact ih k hk pl Y X ho

/-- Row of superblocks `k` is through CDEF, in a run of C85 with one thread or with more. -/
def CdefDone (f : Cfg) (d : Depth) (hdr : Cdf.Hdr) (mask : Nat → Cdf.Mask) (D : Nat → Plane) (k : Nat) (fr : Nat → Plane) : Prop :=
  (∃ lpf n s, Cdf.One f d hdr mask lpf D n s ∧ k < n ∧ fr = s.fr) ∨ ∃ n saved done lpf, Cdf.Many f d hdr mask D n saved done fr lpf ∧ k ∈ done

/-- **C87.** When all rows of superblocks went through CDEF and were upscaled, in any order, with one thread or with more, each sample of the upscaled frame is the one of the specification: 7.16 applied to the
frame that 7.15 gives for the frame `D` before CDEF. -/
theorem C87_frame (h : SizeOk f) {hdr : Cdf.Hdr} {mask : Nat → Cdf.Mask} {idx : Nat → Nat → Int} {skips : Nat → Nat → Bool} {D : Nat → Plane} (hh : Cdf.HdrOk hdr) (hlay : f.layout ≤ 3)
    (hD : Cdf.InRange f d D) (hM : Cdf.MaskOk f mask idx skips) {ups : List Nat} {sr : Nat → Int → Int → Option Int} (hu : Up f d (CdefDone f d hdr mask D) ups sr) (ha : ∀ k, k < f.sbh → k ∈ ups)
    {pl Y X : Nat} (hp : Pl f pl) (hY : Y < Lrs.planeH f pl) (hX : X < Lrs.planeW f pl) :
    sr pl Y X = some (Av1.UpscaledCdefFrame (envOf f d (Cdf.Av1.CdefFrame (Cdf.envOf f d hdr idx skips D))) pl Y X) := by
  have hbh : Y < y0 f pl f.bh := by
    rw [Cdf.bh_eq, Cdf.y0_eq]
    unfold Lrs.planeH at hY
    rcases Cdf.bkH_cases f pl with ⟨k, k'⟩ | ⟨k, k'⟩ <;> rw [k'] at hY <;> rw [k] <;> simp only [Nat.pow_zero, Nat.pow_one] at hY <;> omega
  obtain ⟨k, k1, k2⟩ := Cdf.row_exists f pl (Y := Y) (by omega) (by omega)
  refine up_inv h ?_ hu k (ha k k1) pl Y X ⟨hp, ⟨k2, by omega⟩, by omega, by omega⟩
  intro k fr hdone pl Y X hc hr
  rcases hdone with ⟨lpf, n, s, h1, h2, rfl⟩ | ⟨n, saved, done, lpf, h1, h2⟩
  · exact (Cdf.one_inv hh hlay hD hM h1).2.1 k h2 pl Y X hc hr
  · exact (Cdf.C85_many hh hlay hD hM h1).1 k h2 pl Y X hc hr

end

/-! ## Examples -/

/-- 100x136 upscaled to 200x136, 4:2:0. -/
def exS : Cfg := ⟨100, 136, 200, 16, 1, fun _ => 0, 6, 6, false⟩
/-- 178 columns (denominator 9), 4:2:0. -/
def exT : Cfg := ⟨178, 136, 200, 9, 1, fun _ => 0, 6, 6, true⟩
theorem exS_ok : SizeOk exS := ⟨by decide, by decide, by decide⟩
example : SizeOk exT := ⟨by decide, by decide, by decide⟩
example : resizeStep exS 0 = some 8192 ∧ resizeStart exS 0 = some 12417 ∧ resizeStep exT 1 = some 14582 ∧ resizeStart exT 1 = some 15600 := by decide +kernel
/-- A row with an edge before column 50: the filter rings. -/
example : (List.range 8).map (fun k => resizeRow exS .b8 0 (fun X => if X < 50 then 20 else 200) (96 + k)) = [some 26, some 7, some 2, some 61, some 159, some 218, some 213, some 194] := by decide +kernel

/-- One thread: each row of superblocks is upscaled after its CDEF and before the deblocking filter of the next one. -/
example (s0 : Cdf.St) (lpf : Nat → Plane) (sr0 : Nat → Int → Int → Option Int) : ∃ sr, Up exS .b8 (CdefDone exS .b8 Cdf.exHdr (fun _ => Cdf.exMask) Cdf.exD) [2, 1, 0] sr ∧
    ∀ pl Y X : Nat, pl ≤ 2 → Y < Lrs.planeH exS pl → X < Lrs.planeW exS pl →
      sr pl Y X = some (Av1.UpscaledCdefFrame (envOf exS .b8 (Cdf.Av1.CdefFrame (Cdf.envOf exS .b8 Cdf.exHdr Cdf.exIdx Cdf.exSkips Cdf.exD))) pl Y X) := by
  have h1 := Cdf.One.next (d := .b8) (hdr := Cdf.exHdr) (mask := fun _ => Cdf.exMask) (lpf := lpf) { s0 with fr := Cdf.exDeb exS 0 s0.fr } (Cdf.One.start s0) (by decide) (Cdf.exDeb_ok _ _ _) rfl rfl
  generalize Cdf.filterSbrowCdef exS .b8 Cdf.exHdr false (fun _ => Cdf.exMask) lpf 0 _ = s1 at h1
  have h2 := Cdf.One.next { s1 with fr := Cdf.exDeb exS 1 s1.fr } h1 (by decide) (Cdf.exDeb_ok _ _ _) rfl rfl
  generalize Cdf.filterSbrowCdef exS .b8 Cdf.exHdr false (fun _ => Cdf.exMask) lpf 1 _ = s2 at h2
  have h3 := Cdf.One.next { s2 with fr := Cdf.exDeb exS 2 s2.fr } h2 (by decide) (Cdf.exDeb_ok _ _ _) rfl rfl
  have u := Up.start (f := exS) (d := .b8) (done := CdefDone exS .b8 Cdf.exHdr (fun _ => Cdf.exMask) Cdf.exD) sr0
  have u := Up.next 0 s1.fr u (by decide) (Or.inl ⟨lpf, 1, s1, h1, by decide, rfl⟩)
  have u := Up.next 1 s2.fr u (by decide) (Or.inl ⟨lpf, 2, s2, h2, by decide, rfl⟩)
  have u := Up.next 2 _ u (by decide) (Or.inl ⟨lpf, 3, _, h3, by decide, rfl⟩)
  refine ⟨_, u, fun pl Y X hp hY hX => C87_frame exS_ok Cdf.exHdr_ok (by decide) (Cdf.exD_ok _) (Cdf.exMask_ok _) u ?_ (Or.inr ⟨by decide, hp⟩) hY hX⟩
  intro k hk
  have : exS.sbh = 3 := by decide
  have : k = 0 ∨ k = 1 ∨ k = 2 := by omega
  rcases this with rfl | rfl | rfl <;> decide

end Dav1d.Sres
