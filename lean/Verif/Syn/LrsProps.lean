import Verif.Syn.LrsUnit
import Verif.Syn.LruProps
/-!
# C84: loop restoration in place gives the frame of the specification
-/
set_option linter.unusedVariables false
set_option linter.unusedSimpArgs false
namespace Dav1d.Lrs
open Dav1d.Syn.Lru (Cfg RUnit Ptr CfgOk lrSbrow rowUnits E Enc loc C83_apply)
open Dav1d.Syn.Lru.Av1 (Round2 unitRow unitCol unitRows unitCols LrUnit)
open Dav1d.Lr (Args Buf Junk)

variable {f : Cfg} {p : Nat} {C D : Plane} {tt : Bool} {d : Depth} {mem : Ptr → RUnit} {units : Nat → Nat → LrUnit}

theorem units_mem (us shift w a b : Nat) (hU : 32 ≤ 2 ^ us) : ∀ n x, x < w → ∀ e ∈ rowUnits us shift w a b n x, e.1 < w ∧ 0 < e.2.1
  | 0, _, _, e, he => by simp [rowUnits] at he
  | n + 1, x, hx, e, he => by
    unfold rowUnits at he
    simp only at he
    split at he
    · rename_i h
      rcases List.mem_cons.1 he with rfl | he
      · exact ⟨hx, by show 0 < 2 ^ us; omega⟩
      · exact units_mem us shift w a b hU n (x + 2 ^ us) (by omega) e he
    · rw [List.mem_singleton.1 he]
      exact ⟨hx, by show 0 < w - x; omega⟩

theorem planeW_eq (hf : CfgOk f) (hp : f.type p ≠ 0) : Round2 (E f).UpscaledWidth ((E f).subX p) = planeW f p := by
  rw [(Syn.Lru.subs hf hp).1, Syn.Lru.round2 (Syn.Lru.sizes hf hp).sh]; rfl
theorem planeH_eq (hf : CfgOk f) (hp : f.type p ≠ 0) : Round2 (E f).FrameHeight ((E f).subY p) = planeH f p := by
  rw [(Syn.Lru.subs hf hp).2, Syn.Lru.round2 (Syn.Lru.sizes hf hp).sv]; rfl

theorem planeW_pos (hf : CfgOk f) : 0 < planeW f p := by
  have := Syn.Lru.srw_pos hf
  unfold planeW Cfg.ssH
  split <;> simp <;> omega

theorem in_units (f : Cfg) (p Y X : Nat) : unitRow (E f) p Y < unitRows (E f) p ∧ unitCol (E f) p X < unitCols (E f) p := by
  have h1 : 1 ≤ unitRows (E f) p := by unfold unitRows Syn.Lru.Av1.count_units_in_frame; omega
  have h2 : 1 ≤ unitCols (E f) p := by unfold unitCols Syn.Lru.Av1.count_units_in_frame; omega
  unfold unitRow unitCol
  simp only
  omega

/-- The filter of a unit is that of the specification. -/
theorem atPos_eq {u : RUnit} {v : LrUnit} (h : Enc u v) (Y X : Nat) :
    (if u.type = 0 then C Y X else atPos (E f) p C D d u Y X) = Av1.LrFrame (E f) d.bpc p C D v Y X := by
  unfold Av1.LrFrame
  cases v with
  | none => exact if_pos (show u.type = 0 from h)
  | wiener a b =>
    obtain ⟨h1, h2, h3⟩ := h
    subst h2
    subst h3
    rw [if_neg (by omega)]
    unfold atPos gFn
    rw [if_pos h1, Int.toNat_natCast]
    rfl
  | sgrproj set x =>
    obtain ⟨h1, h2, h3⟩ := h
    subst h3
    rw [if_neg (by omega)]
    unfold atPos gFn
    rw [if_neg (by omega), Int.toNat_natCast, h2, Nat.add_sub_cancel_left]

/-- Samples of the plane are in the range of pixels. -/
def InRange (f : Cfg) (p : Nat) (d : Depth) (A : Plane) : Prop := ∀ Y X : Int, 0 ≤ Y → Y < planeH f p → 0 ≤ X → X < planeW f p → 0 ≤ A Y X ∧ A Y X ≤ d.max

/-- The rows of superblocks that have to be saved before `sby` is restored: with one thread exactly those up to it, one after the other; otherwise itself and the one above. -/
def Ready (tt : Bool) (sby : Nat) (saved : List Nat) : Prop := if tt then sby ∈ saved ∧ (sby = 0 ∨ sby - 1 ∈ saved) else saved = List.range (sby + 1)
instance (tt : Bool) (sby : Nat) (saved : List Nat) : Decidable (Ready tt sby saved) := by unfold Ready; infer_instance

theorem ready_good {sby : Nat} {saved : List Nat} (h : Ready tt sby saved) (b : Plane) : Good f p tt D sby (copies f p tt D saved b) := by
  unfold Ready at h
  cases tt with
  | true =>
    rw [if_pos rfl] at h
    exact good_tt b h.1 fun k hk => by
      rcases h.2 with h2 | h2
      · omega
      · rw [hk] at h2; exact h2
  | false =>
    rw [if_neg (by decide)] at h
    rw [h]
    exact good_range f p b sby

/-- **C84.** A row of superblocks is restored in place. `C` is the frame after CDEF and super-resolution, `D` the one before CDEF (scaled as well), from which lines were saved; of the frame `fr`
that is changed nothing but the rows in question has to be right. Then each sample of these rows becomes the one of the specification, and nothing else is written. -/
theorem C84_sbrow (hf : CfgOk f) (hp : f.type p ≠ 0) (hC : InRange f p d C) (hD : InRange f p d D)
    (hu : ∀ row col, row < unitRows (E f) p → col < unitCols (E f) p → Enc (mem (loc f p row col)) (units row col))
    {sby : Nat} (hs : sby < f.sbh) {saved : List Nat} (hr : Ready tt sby saved) (b : Plane) (junk : Buf × Junk) (left : Nat → Nat → Int) {fr : Plane}
    (hfr : ∀ Y X : Nat, (lrSbrow f p sby).1 ≤ Y → Y < (lrSbrow f p sby).2.1 → X < planeW f p → fr Y X = C Y X) :
    (∀ Y X : Nat, (lrSbrow f p sby).1 ≤ Y → Y < (lrSbrow f p sby).2.1 → X < planeW f p →
      lrSbrowPlane f p tt d junk left (copies f p tt D saved b) mem sby fr Y X = Av1.LrFrame (E f) d.bpc p C D (units (unitRow (E f) p Y) (unitCol (E f) p X)) Y X) ∧
    (∀ Y X : Int, ¬((lrSbrow f p sby).1 ≤ Y ∧ Y < (lrSbrow f p sby).2.1 ∧ 0 ≤ X ∧ X < planeW f p) →
      lrSbrowPlane f p tt d junk left (copies f p tt D saved b) mem sby fr Y X = fr Y X) := by
  have S := Syn.Lru.sizes hf hp
  have hW := planeW_pos (p := p) hf
  have hR := rows (p := p) hf hs
  have hF : Fixed f p (E f) C D tt d (copies f p tt D saved b) sby :=
    ⟨hf, hs, (Syn.Lru.subs hf hp).2, by unfold Av1.PlaneEndX; rw [planeW_eq hf hp], by unfold Av1.PlaneEndY; rw [planeH_eq hf hp], hC, hD, ready_good hr b⟩
  have hU : 32 ≤ 2 ^ f.us p := by rcases S.u with h | h | h | h <;> omega
  have ptr : ∀ e ∈ (lrSbrow f p sby).2.2, ∀ Y X : Nat, (lrSbrow f p sby).1 ≤ Y → Y < (lrSbrow f p sby).2.1 → X < planeW f p → e.1 ≤ X → X < e.1 + e.2.1 →
      Enc (mem e.2.2) (units (unitRow (E f) p Y) (unitCol (E f) p X)) := by
    intro e he Y X h1 h2 h3 h4 h5
    obtain ⟨s', g1, g2, g3, e', g4, g5, g6, g7⟩ := C83_apply hf hp (X := X) (Y := Y) (by rw [planeW_eq hf hp]; exact h3) (by rw [planeH_eq hf hp]; omega)
    obtain rfl := g3 sby hs ⟨h1, h2⟩
    obtain rfl := g6 e he ⟨h4, h5⟩
    rw [g7]
    exact hu _ _ (in_units f p Y X).1 (in_units f p Y X).2
  obtain ⟨us, shift, a, b', n, e0⟩ : ∃ us shift a b' n, (lrSbrow f p sby).2.2 = rowUnits us shift (planeW f p) a b' n 0 ∧ us = f.us p ∧ n = planeW f p + 1 := ⟨_, _, _, _, _, rfl, rfl, rfl⟩
  obtain ⟨e0, rfl, rfl⟩ := e0
  have main := units_spec (junk := junk) hF (mem := mem) (shift := shift) (a := a) (b := b') hU (planeW f p + 1) 0 false left fr
    (by
      rw [← e0]
      intro e he
      have h1 := he
      rw [e0] at h1
      have h1 := units_mem _ _ _ _ _ hU _ _ hW e h1
      have := ptr e he (lrSbrow f p sby).1 e.1 (Nat.le_refl _) hR.2.1 h1.1 (Nat.le_refl _) (by omega)
      revert this
      cases units (unitRow (E f) p (lrSbrow f p sby).1) (unitCol (E f) p e.1) with
      | none => exact fun h => Or.inl h
      | wiener _ _ => exact fun h => Or.inr (Or.inl h.1)
      | sgrproj set _ => exact fun h => Or.inr (Or.inr (by have := h.1; have := h.2.1; omega)))
    hW (by omega) (by simp)
    (fun Y X h1 h2 h3 h4 => by
      have := hfr Y.toNat X.toNat (by omega) (by omega) (by omega)
      rw [Int.toNat_of_nonneg (by omega), Int.toNat_of_nonneg (by omega)] at this
      exact this)
    (fun h => absurd h (by decide))
  rw [← e0] at main
  constructor
  · intro Y X h1 h2 h3
    obtain ⟨e, he, h4, h5⟩ := (main Y X).1 (by omega)
    exact h5.trans (atPos_eq (ptr e he Y X h1 h2 h3 (by omega) (by omega)) Y X)
  · intro Y X h
    exact (main Y X).2 (by omega)

/-! ## The plane -/

/-- dav1d_copy_lpf or dav1d_lr_sbrow for a row of superblocks. -/
inductive Ev where
  | save (sby : Nat)
  | restore (sby : Nat)

/-- The lines and the frame after an event; `junk` and `left` are what is found on the stack. -/
def step (f : Cfg) (p : Nat) (tt : Bool) (d : Depth) (junk : Nat → Buf × Junk) (left : Nat → Nat → Nat → Int) (D : Plane) (mem : Ptr → RUnit) (s : Plane × Plane) : Ev → Plane × Plane
  | .save sby => (copyLpf f p tt D sby s.1, s.2)
  | .restore sby => (s.1, lrSbrowPlane f p tt d (junk sby) (left sby) s.1 mem sby s.2)

/-- An allowed order, after some rows were saved and some are done: each row is restored once, when it is ready. -/
def Sched (tt : Bool) (sbh : Nat) : List Ev → (saved done : List Nat) → Prop
  | [], _, done => ∀ sby, sby < sbh → sby ∈ done
  | .save sby :: es, saved, done => Sched tt sbh es (saved ++ [sby]) done
  | .restore sby :: es, saved, done => sby < sbh ∧ sby ∉ done ∧ Ready tt sby saved ∧ Sched tt sbh es saved (sby :: done)

/-- **C84.** The whole plane: if lines are saved and rows of superblocks are restored in an allowed order, in the end the plane is LrFrame of the specification, whatever the lines held before;
outside of the plane nothing is written. -/
theorem C84_plane (hf : CfgOk f) (hp : f.type p ≠ 0) (hC : InRange f p d C) (hD : InRange f p d D)
    (hu : ∀ row col, row < unitRows (E f) p → col < unitCols (E f) p → Enc (mem (loc f p row col)) (units row col)) (junk : Nat → Buf × Junk) (left : Nat → Nat → Nat → Int)
    (es : List Ev) (hes : Sched tt f.sbh es [] []) (b : Plane) :
    (∀ Y X : Nat, Y < planeH f p → X < planeW f p →
      (es.foldl (step f p tt d junk left D mem) (b, C)).2 Y X = Av1.LrFrame (E f) d.bpc p C D (units (unitRow (E f) p Y) (unitCol (E f) p X)) Y X) ∧
    (∀ Y X : Int, ¬(0 ≤ Y ∧ Y < planeH f p ∧ 0 ≤ X ∧ X < planeW f p) → (es.foldl (step f p tt d junk left D mem) (b, C)).2 Y X = C Y X) := by
  have key : ∀ (es : List Ev) (saved done : List Nat) (fr : Plane), Sched tt f.sbh es saved done →
      (∀ sby, sby < f.sbh → ∀ Y X : Nat, (lrSbrow f p sby).1 ≤ Y → Y < (lrSbrow f p sby).2.1 → X < planeW f p →
        fr Y X = if sby ∈ done then Av1.LrFrame (E f) d.bpc p C D (units (unitRow (E f) p Y) (unitCol (E f) p X)) Y X else C Y X) →
      (∀ Y X : Int, ¬(0 ≤ Y ∧ Y < planeH f p ∧ 0 ≤ X ∧ X < planeW f p) → fr Y X = C Y X) →
      (∀ sby, sby < f.sbh → ∀ Y X : Nat, (lrSbrow f p sby).1 ≤ Y → Y < (lrSbrow f p sby).2.1 → X < planeW f p →
        (es.foldl (step f p tt d junk left D mem) (copies f p tt D saved b, fr)).2 Y X = Av1.LrFrame (E f) d.bpc p C D (units (unitRow (E f) p Y) (unitCol (E f) p X)) Y X) ∧
      (∀ Y X : Int, ¬(0 ≤ Y ∧ Y < planeH f p ∧ 0 ≤ X ∧ X < planeW f p) → (es.foldl (step f p tt d junk left D mem) (copies f p tt D saved b, fr)).2 Y X = C Y X) := by
    intro es
    induction es with
    | nil =>
      intro saved done fr h h1 h2
      exact ⟨fun sby hs Y X g1 g2 g3 => (h1 sby hs Y X g1 g2 g3).trans (if_pos (h sby hs)), h2⟩
    | cons e es ih =>
      intro saved done fr h h1 h2
      cases e with
      | save sby =>
        have : copyLpf f p tt D sby (copies f p tt D saved b) = copies f p tt D (saved ++ [sby]) b := by unfold copies; rw [List.foldl_append]; rfl
        rw [List.foldl_cons]
        show (∀ sby, _ → ∀ Y X : Nat, _ → _ → _ → (es.foldl _ (copyLpf f p tt D _ (copies f p tt D saved b), fr)).2 Y X = _) ∧ ∀ Y X : Int, _ → (es.foldl _ (copyLpf f p tt D _ (copies f p tt D saved b), fr)).2 Y X = _
        rw [this]
        exact ih _ done fr h h1 h2
      | restore sby =>
        obtain ⟨g1, g2, g3, g4⟩ := h
        rw [List.foldl_cons]
        obtain ⟨m1, m2⟩ := C84_sbrow hf hp hC hD hu g1 g3 b (junk sby) (left sby) (fr := fr) (fun Y X k1 k2 k3 => by rw [h1 sby g1 Y X k1 k2 k3, if_neg g2])
        have hR := rows (p := p) hf g1
        refine ih saved (sby :: done) (lrSbrowPlane f p tt d (junk sby) (left sby) (copies f p tt D saved b) mem sby fr) g4 ?_ ?_
        · intro s hs Y X k1 k2 k3
          by_cases e : s = sby
          · subst e
            rw [if_pos List.mem_cons_self]
            exact m1 Y X k1 k2 k3
          · have hRs := rows (p := p) hf hs
            have hn : ¬((lrSbrow f p sby).1 ≤ Y ∧ Y < (lrSbrow f p sby).2.1) := by
              intro hh
              obtain ⟨s', _, _, w3, _⟩ := C83_apply hf hp (X := X) (Y := Y) (by rw [planeW_eq hf hp]; exact k3) (by rw [planeH_eq hf hp]; omega)
              exact e ((w3 s hs ⟨k1, k2⟩).trans (w3 sby g1 hh).symm)
            rw [m2 Y X (by omega), h1 s hs Y X k1 k2 k3]
            simp only [List.mem_cons, e, false_or]
        · intro Y X k
          rw [m2 Y X (by omega)]
          exact h2 Y X k
  have := key es [] [] C hes (fun sby _ Y X _ _ _ => by rw [if_neg (by simp)]) (fun _ _ _ => rfl)
  refine ⟨fun Y X h1 h2 => ?_, this.2⟩
  obtain ⟨s, g1, g2, _⟩ := C83_apply hf hp (X := X) (Y := Y) (by rw [planeW_eq hf hp]; exact h2) (by rw [planeH_eq hf hp]; exact h1)
  exact this.1 s g1 Y X g2.1 g2.2 h2

/-- **C84.** With one thread only the first 12 lines are written (8 with superblocks of 64). With more than one, only lines of the row of superblocks itself are. -/
theorem C84_lines (sby : Nat) (b : Plane) (j : Int) :
    (¬(0 ≤ j ∧ j < 4 + 4 * N f) → copyLpf f p false D sby b j = b j) ∧
    (¬((sby * (4 * N f) : Nat) ≤ j ∧ j < ((sby + 1) * (4 * N f) : Nat)) → copyLpf f p true D sby b j = b j) := by
  constructor
  · intro h
    rw [copyLpf_other (by show j < (0 : Int) + 4 ∨ (0 : Int) + 4 + 4 * N f ≤ j; omega)]
    unfold start0
    split
    · rfl
    · exact if_neg (by omega)
  · intro h
    have e0 : line0 f true sby = 4 * (sby * N f : Nat) - 4 := rfl
    rw [copyLpf_other (by rw [e0]; rcases (num f p).2.1 with h2 | h2 <;> rw [h2] at h ⊢ <;> omega)]
    rfl

/-! ## Examples -/

/-- Two orders for a frame with three rows of superblocks. -/
def exOne : List Ev := [.save 0, .restore 0, .save 1, .restore 1, .save 2, .restore 2]
def exMany : List Ev := [.save 1, .save 0, .restore 1, .save 2, .restore 2, .restore 0]
example : Syn.Lru.exA.sbh = 3 ∧ Sched false 3 exOne [] [] ∧ Sched true 3 exMany [] [] := by
  refine ⟨by decide, ?_, ?_⟩ <;> (simp only [Sched, exOne, exMany]; decide +kernel)

/-- A plane of 8 bits, and a Wiener filter for all units. -/
def exC : Plane := fun Y X => (Y + X) % 256
def exD : Plane := fun Y X => (Y + 2 * X) % 256
def exUnit : RUnit := ⟨2, 3, -7, 15, 2, -8, 16, -32, 31⟩

example (junk : Nat → Buf × Junk) (left : Nat → Nat → Nat → Int) (b : Plane) (tt : Bool) (Y X : Nat) (hY : Y < 136) (hX : X < 200) :
    ((if tt then exMany else exOne).foldl (step Syn.Lru.exA 0 tt .b8 junk left exD (fun _ => exUnit)) (b, exC)).2 Y X =
      Av1.LrFrame (E Syn.Lru.exA) 8 0 exC exD (.wiener (3, -7, 15) (2, -8, 16)) Y X := by
  refine (C84_plane (units := fun _ _ => .wiener (3, -7, 15) (2, -8, 16)) Syn.Lru.exA_ok (by decide) ?_ ?_ ?_ junk left _ ?_ b).1 Y X hY hX
  · intro Y X _ _ _ _
    show 0 ≤ (Y + X) % 256 ∧ (Y + X) % 256 ≤ 255
    omega
  · intro Y X _ _ _ _
    show 0 ≤ (Y + 2 * X) % 256 ∧ (Y + 2 * X) % 256 ≤ 255
    omega
  · intro _ _ _ _
    exact ⟨rfl, rfl, rfl⟩
  · show Sched tt 3 _ [] []
    cases tt <;> (simp only [Sched, exOne, exMany, if_true, if_false, Bool.false_eq_true]; decide +kernel)

/-- Row 60 is in the stripe 56..119; for it, the sample two rows above the stripe is one before CDEF, as is what stands for the one three rows above. -/
example : Av1.StripeStartY (E Syn.Lru.exA) 0 60 = 56 ∧ Av1.StripeEndY (E Syn.Lru.exA) 0 60 = 119 ∧
    [53, 54, 55, 56, 119, 120, 121, 122, 140].map (fun y => Av1.get_source_sample (E Syn.Lru.exA) 0 (fun Y _ => 1000 + Y) (fun Y _ => Y) 56 119 y 0) =
      [54, 54, 55, 1056, 1119, 120, 121, 121, 121] := by decide +kernel

end Dav1d.Lrs
