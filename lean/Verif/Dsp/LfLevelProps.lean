import Verif.Dsp.LfLevel
import Verif.Obu.FrameProps
import Mathlib.Tactic.IntervalCases
/-!
# Loop filter levels and limits are those of the specification (C48)
-/
namespace Dav1d.Lf

/-! ## Specification: AV1 specification 7.14.1, 7.14.4 and 7.14.5 -/

namespace LevelSpec

def Clip3 (lo hi x : Int) : Int := if x < lo then lo else if x > hi then hi else x

/-- Of `loop_filter_level`, entry `i`. -/
def loop_filter_level (lf : LoopFilter) : Nat → Nat
  | 0 => lf.levelY0 | 1 => lf.levelY1 | 2 => lf.levelU | _ => lf.levelV

/-- FeatureData of feature SEG_LVL_ALT_LF_Y_V + i of a segment, 0 if the feature is not enabled. -/
def featureData (s : SegData) : Nat → Int
  | 0 => s.deltaLfYV | 1 => s.deltaLfYH | 2 => s.deltaLfU | _ => s.deltaLfV

/-- Whether filter `i` is used in this frame, 7.14.1 and 7.4: 0 and 1 are the two passes over luma, 2 and 3 the chroma planes. -/
def used (lf : LoopFilter) (i : Nat) : Prop :=
  (lf.levelY0 ≠ 0 ∨ lf.levelY1 ≠ 0) ∧ (i < 2 ∨ loop_filter_level lf i ≠ 0)

instance (lf : LoopFilter) (i : Nat) : Decidable (used lf i) := by unfold used; infer_instance

/-- The filter level process: reference 0 is INTRA_FRAME. `seg` is the segment, if segmentation is enabled. -/
def lvlSeg (lf : LoopFilter) (seg : Option SegData) (deltaLF : Int) (i ref modeType : Nat) : Int :=
  let baseFilterLevel := Clip3 0 63 (deltaLF + loop_filter_level lf i)
  let lvlSeg := match seg with
    | none => baseFilterLevel
    | some s => Clip3 0 63 (featureData s i + baseFilterLevel)
  if lf.deltaEnabled then
    let nShift := (lvlSeg / 32).toNat
    if ref = 0 then Clip3 0 63 (lvlSeg + lf.deltas.refDelta.getD 0 0 * 2 ^ nShift)
    else Clip3 0 63 (lvlSeg + lf.deltas.refDelta.getD ref 0 * 2 ^ nShift + lf.deltas.modeDelta.getD modeType 0 * 2 ^ nShift)
  else lvlSeg

/-- The adaptive filter strength process 7.14.5: limit and blimit. -/
def limit (sharpness lvl : Nat) : Nat :=
  let shift := if sharpness > 4 then 2 else if sharpness > 0 then 1 else 0
  if sharpness > 0 then max 1 (min (9 - sharpness) (lvl / 2 ^ shift)) else max 1 (lvl / 2 ^ shift)

def blimit (sharpness lvl : Nat) : Nat := 2 * (lvl + 2) + limit sharpness lvl

end LevelSpec
open LevelSpec

theorem iclip_clip (v : Int) : iclip v 0 63 = Clip3 0 63 v := rfl

theorem clip_bounds (v : Int) : 0 ≤ Clip3 0 63 v ∧ Clip3 0 63 v ≤ 63 := by unfold Clip3; split_ifs <;> omega

theorem u8_id {v : Int} (h : 0 ≤ v ∧ v ≤ 255) : ((u8 v : Nat) : Int) = v := by unfold u8; omega

theorem clip_idem {v : Int} (h : 0 ≤ v ∧ v ≤ 63) : Clip3 0 63 v = v := by unfold Clip3; split_ifs <;> omega

theorem calc_eq (lf : LoopFilter) (hd : LfDeltasOk lf.deltas) (seg : Option SegData) (dl : Int) (i : Nat) {r m : Nat} (hr : r < 8) (hm : m < 2) :
    ∃ v : Nat, calcLfValue (loop_filter_level lf i) dl ((seg.map (featureData · i)).getD 0) (if lf.deltaEnabled then some lf.deltas else none) r m = some v ∧
      (v : Int) = lvlSeg lf seg dl i r m := by
  obtain ⟨⟨hc1, hc2⟩, _⟩ := hd
  have hb : Clip3 0 63 (Clip3 0 63 ((loop_filter_level lf i : Int) + dl) + (seg.map (featureData · i)).getD 0) = (match seg with
    | none => Clip3 0 63 (dl + loop_filter_level lf i)
    | some s => Clip3 0 63 (featureData s i + Clip3 0 63 (dl + loop_filter_level lf i))) := by
    cases seg with
    | none => simp only [Option.map_none, Option.getD_none, Int.add_zero]; rw [clip_idem (clip_bounds _), Int.add_comm]
    | some s => simp only [Option.map_some, Option.getD_some]; rw [Int.add_comm dl, Int.add_comm (featureData s i)]
  unfold calcLfValue lvlSeg
  simp only [iclip_clip, hb]
  generalize hB : (match seg with
    | none => Clip3 0 63 (dl + loop_filter_level lf i)
    | some s => Clip3 0 63 (featureData s i + Clip3 0 63 (dl + loop_filter_level lf i))) = B
  have hB' : 0 ≤ B ∧ B ≤ 63 := by rw [← hB, ← hb]; exact clip_bounds _
  have hsh : (if B ≥ 32 then 1 else 0) = (B / 32).toNat := by split_ifs <;> omega
  by_cases he : lf.deltaEnabled = true
  · simp only [if_pos he, hsh]
    by_cases h0 : r = 0
    · simp only [if_pos h0]
      have : lf.deltas.refDelta[0]? = some (lf.deltas.refDelta.getD 0 0) := by
        rw [List.getD_eq_getElem?_getD, List.getElem?_eq_getElem (by omega)]; rfl
      rw [this]
      exact ⟨_, rfl, u8_id ⟨(clip_bounds _).1, by have := (clip_bounds (B + lf.deltas.refDelta.getD 0 0 * 2 ^ (B / 32).toNat)).2; omega⟩⟩
    · simp only [if_neg h0]
      have e1 : lf.deltas.refDelta[r]? = some (lf.deltas.refDelta.getD r 0) := by
        rw [List.getD_eq_getElem?_getD, List.getElem?_eq_getElem (by omega)]; rfl
      have e2 : lf.deltas.modeDelta[m]? = some (lf.deltas.modeDelta.getD m 0) := by
        rw [List.getD_eq_getElem?_getD, List.getElem?_eq_getElem (by omega)]; rfl
      rw [e1, e2]
      refine ⟨_, rfl, ?_⟩
      have e3 : ∀ a b c : Int, B + (a + b) * c = B + b * c + a * c := fun a b c => by rw [Int.add_mul]; omega
      dsimp only
      rw [e3]
      exact u8_id ⟨(clip_bounds _).1, le_trans (clip_bounds _).2 (by decide)⟩
  · simp only [if_neg he]
    exact ⟨_, rfl, u8_id (by omega)⟩

/-- C48: for every accepted header, every segment, filter, reference and mode the level is in 0..63, and is the one of the
specification; it is 0, which means no filtering, if the specification does not use the filter. `deltas` are the current
values of delta_lf. -/
theorem C48_levels {h : FrameHdr} (ha : Accepted h) (deltas : List Int) (hl : deltas.length = 4) (s : Nat)
    (hs : if h.seg.enabled then s < 8 else s = 0) {p r m : Nat} (hp : p < 4) (hr : r < 8) (hm : m < 2) :
    ∃ v, calcLfValues h.lf h.seg h.delta.lfMulti deltas s p r m = some v ∧ v ≤ 63 ∧
      (v : Int) = if used h.lf p then
          lvlSeg h.lf (if h.seg.enabled then h.seg.data.d[s]? else none) (deltas.getD (if h.delta.lfMulti then p else 0) 0) p r m
        else 0 := by
  have ok : FrameOk h := by cases ha with | mk hc he => exact C52_ranges _ hc _ _ _ he
  have hv : ∀ seg dl, (0 : Int) ≤ lvlSeg h.lf seg dl p r m ∧ lvlSeg h.lf seg dl p r m ≤ 63 := by
    intro seg dl
    unfold lvlSeg
    dsimp only
    split_ifs
    · exact clip_bounds _
    · exact clip_bounds _
    · split <;> exact clip_bounds _
  unfold calcLfValues
  by_cases h0 : h.lf.levelY0 = 0 ∧ h.lf.levelY1 = 0
  · rw [if_pos h0]
    refine ⟨0, rfl, by decide, ?_⟩
    have hu : ¬ used h.lf p := fun hu => by have := hu.1; omega
    simp only [if_neg hu]; rfl
  · rw [if_neg h0]
    have hseg : (if h.seg.enabled then (h.seg.data.d[s]?).map some else some none) = some (if h.seg.enabled then h.seg.data.d[s]? else none) := by
      by_cases e : h.seg.enabled = true
      · simp only [if_pos e] at hs ⊢
        rw [List.getElem?_eq_getElem (by rw [ok.seg.count]; exact hs)]; rfl
      · simp only [if_neg e]
    simp only [hseg, Option.bind_some]
    generalize (if h.seg.enabled then h.seg.data.d[s]? else none) = sg at hv
    have hd : ∀ k, k < 4 → deltas[k]? = some (deltas.getD k 0) := fun k hk => by
      rw [List.getD_eq_getElem?_getD, List.getElem?_eq_getElem (by omega)]; rfl
    have fin : ∀ (i : Nat) (dl : Int), i = p → (i < 2 ∨ loop_filter_level h.lf i ≠ 0) →
        ∃ v, calcLfValue (loop_filter_level h.lf i) dl ((sg.map (featureData · i)).getD 0) (if h.lf.deltaEnabled then some h.lf.deltas else none) r m = some v ∧
          v ≤ 63 ∧ (v : Int) = if used h.lf p then lvlSeg h.lf sg dl p r m else 0 := by
      intro i dl e hu
      subst e
      obtain ⟨v, h1, h2⟩ := calc_eq h.lf ok.lfDeltas sg dl i hr hm
      have := hv sg dl
      refine ⟨v, h1, by omega, ?_⟩
      have hu' : used h.lf i := ⟨by omega, hu⟩
      simp only [if_pos hu']; exact h2
    have zero : ∀ i dl, i = p → 2 ≤ i → loop_filter_level h.lf i = 0 → ∃ v : Nat, some 0 = some v ∧ v ≤ 63 ∧
        (v : Int) = if used h.lf p then lvlSeg h.lf sg dl p r m else 0 := by
      intro i dl e h2 hz
      subst e
      have hu : ¬ used h.lf i := fun hu => by have := hu.2; omega
      exact ⟨0, rfl, by decide, by simp only [if_neg hu]; rfl⟩
    interval_cases p
    · have e : (if h.delta.lfMulti = true then 0 else 0) = 0 := by split_ifs <;> rfl
      simp only [e, hd 0 (by decide), Option.bind_some]
      exact fin 0 _ rfl (Or.inl (by decide))
    · rw [hd (if h.delta.lfMulti = true then 1 else 0) (by split_ifs <;> decide)]
      exact fin 1 _ rfl (Or.inl (by decide))
    · rw [hd (if h.delta.lfMulti = true then 2 else 0) (by split_ifs <;> decide)]
      simp only [Option.bind_some, calcLfValueChroma]
      by_cases hz : h.lf.levelU = 0
      · rw [if_pos (by omega)]; exact zero 2 _ rfl (by decide) hz
      · rw [if_neg (by omega)]; exact fin 2 _ rfl (Or.inr hz)
    · rw [hd (if h.delta.lfMulti = true then 3 else 0) (by split_ifs <;> decide)]
      simp only [Option.bind_some, calcLfValueChroma]
      by_cases hz : h.lf.levelV = 0
      · rw [if_pos (by omega)]; exact zero 3 _ rfl (by decide) hz
      · rw [if_neg (by omega)]; exact fin 3 _ rfl (Or.inr hz)

/-- C48: the limits derived from the level, for every sharpness and level. -/
theorem C48_limits {sharp level : Nat} (hs : sharp ≤ 7) (hl : level < 64) :
    (calcEih sharp).i level = limit sharp level ∧ (calcEih sharp).e level = blimit sharp level := by
  have : ∀ s < 8, ∀ l < 64, (calcEih s).i l = limit s l ∧ (calcEih s).e l = blimit s l := by decide +kernel
  exact this sharp (by omega) level hl

/-- C48: whatever happened before in the tile context, after the first superblock of a tile the level table in use is always
the one of the current deltas, which are in -63..63. -/
theorem C48_current (s : LvSt) (dss : List (List Int)) (res : Nat) (hne : dss ≠ []) :
    let e := dss.foldl (fun t ds => t.sb ds res) s.init
    e.used = some e.last ∧ ∀ v ∈ e.last, -63 ≤ v ∧ v ≤ 63 := by
  have key : ∀ (t : LvSt) (ds : List Int), (∀ v ∈ t.last, -63 ≤ v ∧ v ≤ 63) → (t.last = [0, 0, 0, 0] ∨ t.used = some t.last) →
      (t.sb ds res).used = some (t.sb ds res).last ∧ ∀ v ∈ (t.sb ds res).last, -63 ≤ v ∧ v ≤ 63 := by
    intro t ds hr ht
    have hn : ∀ v ∈ List.zipWith (fun l dl => addDelta l dl res) t.last ds ++ t.last.drop ds.length, -63 ≤ v ∧ v ≤ 63 := by
      intro v hv
      rcases List.mem_append.mp hv with hv | hv
      · obtain ⟨i, hi, rfl⟩ := List.getElem_of_mem hv
        rw [List.getElem_zipWith]
        unfold addDelta iclip; split_ifs <;> omega
      · exact hr v (List.mem_of_mem_drop hv)
    unfold LvSt.sb
    dsimp only
    generalize List.zipWith (fun l dl => addDelta l dl res) t.last ds ++ t.last.drop ds.length = new at hn
    by_cases h1 : new = [0, 0, 0, 0]
    · rw [if_pos h1]; exact ⟨by simp [LvSt.used, h1], hn⟩
    · rw [if_neg h1]
      by_cases h2 : new = t.last
      · rw [if_neg (not_not.mpr h2)]
        refine ⟨?_, hn⟩
        rcases ht with ht | ht
        · exact absurd (h2.trans ht) h1
        · rw [h2]; exact ht
      · rw [if_pos h2]; exact ⟨by simp [LvSt.used], hn⟩
  have main : ∀ (dss : List (List Int)) (t : LvSt), (∀ v ∈ t.last, -63 ≤ v ∧ v ≤ 63) → t.used = some t.last →
      (dss.foldl (fun t ds => t.sb ds res) t).used = some (dss.foldl (fun t ds => t.sb ds res) t).last ∧
      ∀ v ∈ (dss.foldl (fun t ds => t.sb ds res) t).last, -63 ≤ v ∧ v ≤ 63 := by
    intro dss
    induction dss with
    | nil => exact fun t h1 h2 => ⟨h2, h1⟩
    | cons ds rest ih =>
      intro t h1 h2
      obtain ⟨k1, k2⟩ := key t ds h1 (Or.inr h2)
      exact ih _ k2 k1
  cases dss with
  | nil => exact absurd rfl hne
  | cons ds rest =>
    obtain ⟨k1, k2⟩ := key s.init ds (by intro v hv; simp [LvSt.init] at hv; omega) (Or.inl rfl)
    exact main rest _ k2 k1

/-- Level 40 with a delta of 1 for the reference, doubled above 32. -/
example : calcLfValues ⟨40, 0, 0, 0, true, false, ⟨[0, 0], [1, 0, 0, 0, -1, 0, -1, -1]⟩, 0⟩ ⟨false, false, false, false, ⟨[], false, 0⟩⟩ false [0, 0, 0, 0] 0 0 0 0 = some 42 := by
  decide +kernel

/-- Deltas 5, then -5: back to the table of the frame; then the table of the tile is computed anew. -/
example : (([[5], [-5], [0], [3]] : List (List Int)).foldl (fun t ds => t.sb ds 1) (LvSt.init ⟨[], none, none⟩)).used = some [6, 0, 0, 0] := by
  decide +kernel

end Dav1d.Lf
