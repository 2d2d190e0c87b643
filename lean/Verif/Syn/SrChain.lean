import Verif.Syn.SrProps
import Verif.Syn.LrsProps
/-!
# C88: CDEF, super-resolution and loop restoration together give the frame of the specification
-/
set_option linter.unusedVariables false
namespace Dav1d.Sres
open Dav1d.Syn.Lru (Cfg CfgOk RUnit Ptr lrSbrow E Enc loc)
open Dav1d.Syn.Lru.Av1 (unitRow unitCol unitRows unitCols LrUnit)
open Dav1d.Cdf (Pl Col Row y0 x0 first last)
open Dav1d.Lr (Buf Junk)

/-- What stays the same for a frame: `tt` is more than one thread; `junk`, `left` and `lines0` are what buffers hold before; `mem` are the units that were read (C83). -/
structure Fr where
  f : Cfg
  d : Depth
  tt : Bool
  hdr : Cdf.Hdr
  mask : Nat → Cdf.Mask
  mem : Nat → Ptr → RUnit
  junk : Nat → Nat → Buf × Junk
  left : Nat → Nat → Nat → Nat → Int
  lines0 : Nat → Plane

/-- The rows that backup_lpf saves, src/lf_apply_tmpl.c:81-95: a row of the frame `D` before CDEF, scaled. `L` is defined for all rows and columns; those below 0, which are never saved, are as 0. -/
def Scaled (f : Cfg) (d : Depth) (D L : Nat → Plane) : Prop := ∀ (pl : Nat) (Y X : Int), resizeRow f d pl (D pl Y.toNat) X.toNat = some (L pl Y X)

/-- A run of the filters of a frame with super-resolution, for the frame `D` before CDEF. Rows of superblocks are saved, upscaled after CDEF (src/recon_tmpl.c:2056-2089) and then restored
(src/recon_tmpl.c:2091-2101) in any order in which CDEF of the row of superblocks comes first, and, before it is restored, lines of it and of the one above were saved (`Lrs.Ready`; with one thread these
are saved one after the other). The frame `sr` begins arbitrary. -/
inductive Run (c : Fr) (D L : Nat → Plane) : (saved ups lrs : List Nat) → (sr : Nat → Plane) → Prop
  | start (sr : Nat → Plane) : Run c D L [] [] [] sr
  | save {saved ups lrs : List Nat} {sr : Nat → Plane} (k : Nat) : Run c D L saved ups lrs sr → Run c D L (saved ++ [k]) ups lrs sr
  | up {saved ups lrs : List Nat} {sr : Nat → Plane} (k : Nat) (fr sr' : Nat → Plane) : Run c D L saved ups lrs sr → k < c.f.sbh → k ∉ ups → CdefDone c.f c.d c.hdr c.mask D k fr →
      (∀ pl Y X, filterSbrowResize c.f c.d k fr (fun pl Y X => some (sr pl Y X)) pl Y X = some (sr' pl Y X)) → Run c D L saved (k :: ups) lrs sr'
  | restore {saved ups lrs : List Nat} {sr : Nat → Plane} (k : Nat) : Run c D L saved ups lrs sr → k ∈ ups → k ∉ lrs → Lrs.Ready c.tt k saved →
      Run c D L saved ups (k :: lrs) (fun pl => if c.f.type pl ≠ 0 then
        Lrs.lrSbrowPlane c.f pl c.tt c.d (c.junk pl k) (c.left pl k) (Lrs.copies c.f pl c.tt (L pl) saved (c.lines0 pl)) (c.mem pl) k (sr pl) else sr pl)

/-- The assumptions: sizes and parameters as headers give them, pixels in range, and masks and units as C86 and C83 have them. -/
structure FrOk (c : Fr) (D : Nat → Plane) (idx : Nat → Nat → Int) (skips : Nat → Nat → Bool) (units : Nat → Nat → Nat → LrUnit) : Prop where
  cfg : CfgOk c.f
  srw : c.f.srw ≤ 65536
  hdr : Cdf.HdrOk c.hdr
  D : Cdf.InRange c.f c.d D
  mask : Cdf.MaskOk c.f c.mask idx skips
  units : ∀ pl, c.f.type pl ≠ 0 → ∀ row col, row < unitRows (E c.f) pl → col < unitCols (E c.f) pl → Enc (c.mem pl (loc c.f pl row col)) (units pl row col)

/-- UpscaledCdefFrame and UpscaledCurrFrame of the specification, for the frame `D` before CDEF. -/
def upscaledCdef (c : Fr) (D : Nat → Plane) (idx : Nat → Nat → Int) (skips : Nat → Nat → Bool) (pl : Nat) : Plane :=
  fun Y X => Av1.UpscaledCdefFrame (envOf c.f c.d (Cdf.Av1.CdefFrame (Cdf.envOf c.f c.d c.hdr idx skips D))) pl Y.toNat X.toNat
def upscaledCurr (c : Fr) (D : Nat → Plane) (pl : Nat) : Plane := fun Y X => Av1.UpscaledCdefFrame (envOf c.f c.d fun pl y x => D pl y x) pl Y.toNat X.toNat

/-- LrFrame of the specification, for the frame `D` before CDEF; a plane without restoration is UpscaledCdefFrame. -/
def finalFrame (c : Fr) (D : Nat → Plane) (idx : Nat → Nat → Int) (skips : Nat → Nat → Bool) (units : Nat → Nat → Nat → LrUnit) (pl Y X : Nat) : Int :=
  if c.f.type pl = 0 then upscaledCdef c D idx skips pl Y X
  else Lrs.Av1.LrFrame (E c.f) c.d.bpc pl (upscaledCdef c D idx skips pl) (upscaledCurr c D pl) (units pl (unitRow (E c.f) pl Y) (unitCol (E c.f) pl X)) Y X

theorem up_range (e : Av1.Env) (pl y x : Nat) : 0 ≤ Av1.UpscaledCdefFrame e pl y x ∧ Av1.UpscaledCdefFrame e pl y x ≤ e.depth.max := by
  unfold Av1.UpscaledCdefFrame
  simp only
  generalize Av1.Round2 _ _ = v
  have : (0 : Int) ≤ e.depth.max := by cases e.depth <;> decide
  unfold Av1.Clip3
  show 0 ≤ (if v < 0 then 0 else if v > e.depth.max then e.depth.max else v) ∧ (if v < 0 then 0 else if v > e.depth.max then e.depth.max else v) ≤ e.depth.max
  split_ifs <;> omega

variable {c : Fr} {D L : Nat → Plane} {idx : Nat → Nat → Int} {skips : Nat → Nat → Bool} {units : Nat → Nat → Nat → LrUnit}

theorem FrOk.size (h : FrOk c D idx skips units) : SizeOk c.f := by
  refine ⟨⟨h.cfg.w, ?_⟩, h.srw, h.cfg.h⟩
  rcases h.cfg.width with ⟨_, g⟩ | ⟨g1, g2, g3⟩
  · omega
  · rw [g3]
    apply Nat.max_le.2 ⟨?_, Nat.min_le_right _ _⟩
    apply Nat.le_of_lt_succ
    rw [Nat.div_lt_iff_lt_mul (by omega)]
    have := Nat.mul_le_mul_left (c.f.srw + 1) g1
    rw [Nat.succ_eq_add_one]
    by_cases hs : c.f.srw = 0
    · rw [hs]; omega
    · have := h.cfg.w
      have : 9 * c.f.srw ≤ c.f.d * c.f.srw := Nat.mul_le_mul_right _ g1
      rw [Nat.add_mul, Nat.mul_comm c.f.srw]
      omega

/-- Saved rows are those of the specification. -/
theorem scaled_eq (h : FrOk c D idx skips units) (hL : Scaled c.f c.d D L) (pl : Nat) : L pl = upscaledCurr c D pl := by
  funext Y X
  have := pixel (d := c.d) (C := fun pl y x => D pl y x) h.size (pl := pl) (src := D pl Y.toNat) (Y := Y.toNat) (fun X h1 _ => by show _ = D pl _ (X.toNat : Int); rw [Int.toNat_of_nonneg h1]) X.toNat
  rw [hL pl Y X] at this
  exact Option.some.inj this

/-- There are such rows: scaling them has no undefined behaviour. -/
theorem C88_scaled (h : FrOk c D idx skips units) : Scaled c.f c.d D (upscaledCurr c D) := by
  intro pl Y X
  exact pixel (d := c.d) (C := fun pl y x => D pl y x) h.size (pl := pl) (src := D pl Y.toNat) (Y := Y.toNat) (fun X h1 _ => by show _ = D pl _ (X.toNat : Int); rw [Int.toNat_of_nonneg h1]) X.toNat

/-- The rows that are restored are those that are upscaled. -/
theorem lr_rows (h : SizeOk c.f) {k pl : Nat} (hs : k < c.f.sbh) (Y : Int) : ((lrSbrow c.f pl k).1 ≤ Y ∧ Y < (lrSbrow c.f pl k).2.1) ↔ Row c.f k pl Y ∧ Y < Lrs.planeH c.f pl := by
  obtain ⟨b1, b2, b3⟩ := Cdf.sb_facts hs
  have hbh := Cdf.bh_eq c.f
  have hh := h.h
  have hY : Row c.f k pl Y ↔ ((first c.f k * Cdf.bkH c.f pl : Nat) : Int) ≤ Y ∧ Y < (last c.f k * Cdf.bkH c.f pl : Nat) := by
    unfold Row
    rw [Cdf.y0_eq, Cdf.y0_eq]
  rw [hY]
  clear hY
  unfold first last Lrs.planeH lrSbrow
  simp only
  have hsb : (c.f.sb128 = true ∧ Cdf.half c.f = 16) ∨ c.f.sb128 = false ∧ Cdf.half c.f = 8 := by rcases Cdf.half_cases c.f with ⟨a, g, _⟩ | ⟨a, g, _⟩ <;> simp [a, g]
  rcases hsb with ⟨a, g⟩ | ⟨a, g⟩ <;> rw [g] at b1 b2 b3 ⊢ <;> rw [a] <;>
  rcases Cdf.bkH_cases c.f pl with ⟨j, j'⟩ | ⟨j, j'⟩ <;> rw [j, j'] <;>
  by_cases c1 : k + 1 < c.f.sbh <;> simp only [c1, if_true, if_false, forall_true_left, not_true_eq_false, not_false_eq_true, false_imp_iff] at b1 b2 b3 ⊢ <;>
  by_cases c0 : k = 0 <;> simp only [c0, if_true, if_false, ne_eq, not_true_eq_false, not_false_eq_true, Bool.false_eq_true] at b1 b2 b3 ⊢ <;> norm_num <;> omega

theorem row_unique {j k pl : Nat} (hj : j < c.f.sbh) (hk : k < c.f.sbh) {Y : Int} (h1 : Row c.f j pl Y) (h2 : Row c.f k pl Y) : j = k := by
  have key : ∀ {a b : Nat}, a < b → b < c.f.sbh → Row c.f a pl Y → Row c.f b pl Y → False := by
    intro a b hab hb g1 g2
    have h3 := Cdf.last_le_first hab hb
    have h4 : y0 c.f pl (2 * last c.f a) ≤ y0 c.f pl (2 * first c.f b) := by
      rw [Cdf.y0_eq, Cdf.y0_eq]
      exact Nat.mul_le_mul_right _ h3
    have := g1.2
    have := g2.1
    omega
  rcases Nat.lt_trichotomy j k with h | h | h
  · exact (key h hk h1 h2).elim
  · exact h
  · exact (key h hj h2 h1).elim

theorem cdefDone (h : FrOk c D idx skips units) {k : Nat} {fr : Nat → Plane} (hd : CdefDone c.f c.d c.hdr c.mask D k fr) (pl : Nat) (Y X : Int) (hc : Col c.f pl X) (hr : Row c.f k pl Y) :
    fr pl Y X = Cdf.Av1.CdefFrame (Cdf.envOf c.f c.d c.hdr idx skips D) pl Y.toNat X.toNat := by
  rcases hd with ⟨lpf, n, s, h1, h2, rfl⟩ | ⟨n, saved, done, lpf, h1, h2⟩
  · exact (Cdf.one_inv h.hdr h.cfg.layout h.D h.mask h1).2.1 k h2 pl Y X hc hr
  · exact (Cdf.C85_many h.hdr h.cfg.layout h.D h.mask h1).1 k h2 pl Y X hc hr

theorem run_inv (h : FrOk c D idx skips units) (hL : Scaled c.f c.d D L) {saved ups lrs : List Nat} {sr : Nat → Plane} (hr : Run c D L saved ups lrs sr) :
    (∀ k ∈ ups, k < c.f.sbh) ∧ (∀ k ∈ lrs, k ∈ ups) ∧
    ∀ k ∈ ups, ∀ pl Y X : Nat, Out c.f k pl Y X → sr pl Y X = if k ∈ lrs then finalFrame c D idx skips units pl Y X else upscaledCdef c D idx skips pl Y X := by
  induction hr with
  | start sr => exact ⟨fun k hk => absurd hk List.not_mem_nil, fun k hk => absurd hk List.not_mem_nil, fun k hk => absurd hk List.not_mem_nil⟩
  | save k _ ih => exact ih
  | @up saved ups lrs sr j fr sr' _ hj hn hd hsr ih =>
    obtain ⟨i1, i2, i3⟩ := ih
    refine ⟨fun k hk => ?_, fun k hk => List.mem_cons_of_mem _ (i2 k hk), fun k hk pl Y X ho => ?_⟩
    · rcases List.mem_cons.1 hk with rfl | hk
      · exact hj
      · exact i1 k hk
    · obtain ⟨c1, c2⟩ := C87_sbrow (d := c.d) h.size hj (cdefDone h hd) (fun pl Y X => some (sr pl Y X)) pl Y X
      by_cases g : k = j
      · subst g
        rw [if_neg fun hm => hn (i2 k hm)]
        have := c1 ho
        rw [hsr] at this
        exact Option.some.inj this
      · have hk' : k ∈ ups := by
          rcases List.mem_cons.1 hk with e | hk
          · exact absurd e g
          · exact hk
        have := c2 fun ho' => g (row_unique (i1 k hk') hj ho.2.1.1 ho'.2.1.1)
        rw [hsr] at this
        rw [Option.some.inj this]
        exact i3 k hk' pl Y X ho
  | @restore saved ups lrs sr j _ hu hn hready ih =>
    obtain ⟨i1, i2, i3⟩ := ih
    refine ⟨i1, fun k hk => ?_, fun k hk pl Y X ho => ?_⟩
    · rcases List.mem_cons.1 hk with rfl | hk
      · exact hu
      · exact i2 k hk
    · have hj := i1 j hu
      have base := i3 k hk pl Y X ho
      by_cases ht : c.f.type pl = 0
      · simp only [ht, ne_eq, not_true_eq_false, if_false]
        have e : finalFrame c D idx skips units pl Y X = upscaledCdef c D idx skips pl Y X := if_pos ht
        rw [base, e, ite_self, ite_self]
      · simp only [ne_eq, ht, not_false_eq_true, if_true]
        have hp : Pl c.f pl := ho.1
        obtain ⟨m1, m2⟩ := Lrs.C84_sbrow (tt := c.tt) (d := c.d) (C := upscaledCdef c D idx skips pl) (D := L pl) (mem := c.mem pl) (units := units pl) h.cfg ht (fun Y X _ _ _ _ => up_range _ _ _ _)
          (by rw [scaled_eq h hL]; exact fun Y X _ _ _ _ => up_range _ _ _ _) (h.units pl ht) hj hready (c.lines0 pl) (c.junk pl j) (c.left pl j) (fr := sr pl)
          (fun Y X g1 g2 g3 => by
            have g := (lr_rows (pl := pl) h.size hj Y).1 ⟨by omega, by omega⟩
            rw [i3 j hu pl Y X ⟨hp, g, by omega, by omega⟩, if_neg hn])
        by_cases g : k = j
        · subst g
          have hrow := (lr_rows (pl := pl) h.size hj Y).2 ho.2.1
          rw [if_pos List.mem_cons_self, m1 Y X (by omega) (by omega) (by have := ho.2.2.2; omega), scaled_eq h hL]
          exact (if_neg ht).symm
        · rw [m2 Y X fun hh => g (row_unique (i1 k hk) hj ho.2.1.1 ((lr_rows (pl := pl) h.size hj Y).1 ⟨hh.1, hh.2.1⟩).1), base]
          simp only [List.mem_cons, g, false_or]

/-- **C88.** When all rows of superblocks of a frame with super-resolution were restored, each sample of the frame is that of the specification. -/
theorem C88_frame (h : FrOk c D idx skips units) (hL : Scaled c.f c.d D L) {saved ups lrs : List Nat} {sr : Nat → Plane} (hr : Run c D L saved ups lrs sr) (ha : ∀ k, k < c.f.sbh → k ∈ lrs)
    {pl Y X : Nat} (hp : Pl c.f pl) (hY : Y < Lrs.planeH c.f pl) (hX : X < Lrs.planeW c.f pl) : sr pl Y X = finalFrame c D idx skips units pl Y X := by
  obtain ⟨i1, i2, i3⟩ := run_inv h hL hr
  have hbh : Y < y0 c.f pl c.f.bh := by
    rw [Cdf.bh_eq, Cdf.y0_eq]
    unfold Lrs.planeH at hY
    rcases Cdf.bkH_cases c.f pl with ⟨k, k'⟩ | ⟨k, k'⟩ <;> rw [k'] at hY <;> rw [k] <;> simp only [Nat.pow_zero, Nat.pow_one] at hY <;> omega
  obtain ⟨k, k1, k2⟩ := Cdf.row_exists c.f pl (Y := Y) (by omega) (by omega)
  rw [i3 k (i2 k (ha k k1)) pl Y X ⟨hp, ⟨k2, by omega⟩, by omega, by omega⟩, if_pos (ha k k1)]

/-- **C88.** A row of superblocks that is through CDEF can be upscaled without undefined behaviour. -/
theorem C88_up (h : FrOk c D idx skips units) {k : Nat} (hk : k < c.f.sbh) {fr : Nat → Plane} (hd : CdefDone c.f c.d c.hdr c.mask D k fr) (sr : Nat → Plane) :
    ∃ sr' : Nat → Plane, ∀ pl Y X, filterSbrowResize c.f c.d k fr (fun pl Y X => some (sr pl Y X)) pl Y X = some (sr' pl Y X) := by
  classical
  refine ⟨fun pl Y X => if Out c.f k pl Y X then upscaledCdef c D idx skips pl Y X else sr pl Y X, fun pl Y X => ?_⟩
  obtain ⟨c1, c2⟩ := C87_sbrow (d := c.d) h.size hk (cdefDone h hd) (fun pl Y X => some (sr pl Y X)) pl Y X
  by_cases g : Out c.f k pl Y X
  · exact (c1 g).trans (congrArg some (if_pos g).symm)
  · exact (c2 g).trans (congrArg some (if_neg g).symm)

/-! ## Example -/

/-- `exS` with Wiener filters for all planes. -/
def exU : Cfg := { exS with type := fun p => if p < 3 then 2 else 0 }
def exFr (junk : Nat → Nat → Buf × Junk) (left : Nat → Nat → Nat → Nat → Int) (lines0 : Nat → Plane) : Fr :=
  ⟨exU, .b8, false, Cdf.exHdr, fun _ => Cdf.exMask, fun _ _ => Lrs.exUnit, junk, left, lines0⟩

theorem exU_ok : CfgOk exU := by
  refine ⟨by decide, by decide, by decide, by decide, by decide, fun p => ?_, fun h => absurd h (by decide), by decide⟩
  show (if p < 3 then 2 else 0) ≤ 3 ∧ (3 ≤ p → (if p < 3 then 2 else 0) = 0)
  split_ifs <;> omega

theorem exFr_ok (junk : Nat → Nat → Buf × Junk) (left : Nat → Nat → Nat → Nat → Int) (lines0 : Nat → Plane) :
    FrOk (exFr junk left lines0) Cdf.exD Cdf.exIdx Cdf.exSkips (fun _ _ _ => .wiener (3, -7, 15) (2, -8, 16)) where
  cfg := exU_ok
  srw := show exU.srw ≤ 65536 by decide
  hdr := Cdf.exHdr_ok
  D := Cdf.exD_ok _
  mask := Cdf.exMask_ok _
  units := fun _ _ _ _ _ _ => ⟨rfl, rfl, rfl⟩

/-- One thread: each row of superblocks goes through all filters before the next one. -/
example (junk : Nat → Nat → Buf × Junk) (left : Nat → Nat → Nat → Nat → Int) (lines0 sr0 lpf : Nat → Plane) (s0 : Cdf.St) :
    ∃ sr, Run (exFr junk left lines0) Cdf.exD (upscaledCurr (exFr junk left lines0) Cdf.exD) [0, 1, 2] [2, 1, 0] [2, 1, 0] sr ∧
      ∀ pl Y X : Nat, pl ≤ 2 → Y < Lrs.planeH exU pl → X < Lrs.planeW exU pl →
        sr pl Y X = finalFrame (exFr junk left lines0) Cdf.exD Cdf.exIdx Cdf.exSkips (fun _ _ _ => .wiener (3, -7, 15) (2, -8, 16)) pl Y X := by
  have ok := exFr_ok junk left lines0
  have n3 : exU.sbh = 3 := by decide
  have h1 := Cdf.One.next (d := .b8) (hdr := Cdf.exHdr) (mask := fun _ => Cdf.exMask) (lpf := lpf) { s0 with fr := Cdf.exDeb exU 0 s0.fr } (Cdf.One.start s0) (by decide) (Cdf.exDeb_ok _ _ _) rfl rfl
  generalize Cdf.filterSbrowCdef exU .b8 Cdf.exHdr false (fun _ => Cdf.exMask) lpf 0 _ = s1 at h1
  have h2 := Cdf.One.next { s1 with fr := Cdf.exDeb exU 1 s1.fr } h1 (by decide) (Cdf.exDeb_ok _ _ _) rfl rfl
  generalize Cdf.filterSbrowCdef exU .b8 Cdf.exHdr false (fun _ => Cdf.exMask) lpf 1 _ = s2 at h2
  have h3 := Cdf.One.next { s2 with fr := Cdf.exDeb exU 2 s2.fr } h2 (by decide) (Cdf.exDeb_ok _ _ _) rfl rfl
  generalize Cdf.filterSbrowCdef exU .b8 Cdf.exHdr false (fun _ => Cdf.exMask) lpf 2 _ = s3 at h3
  have d1 : CdefDone exU .b8 Cdf.exHdr (fun _ => Cdf.exMask) Cdf.exD 0 s1.fr := Or.inl ⟨lpf, 1, s1, h1, by decide, rfl⟩
  have d2 : CdefDone exU .b8 Cdf.exHdr (fun _ => Cdf.exMask) Cdf.exD 1 s2.fr := Or.inl ⟨lpf, 2, s2, h2, by decide, rfl⟩
  have d3 : CdefDone exU .b8 Cdf.exHdr (fun _ => Cdf.exMask) Cdf.exD 2 s3.fr := Or.inl ⟨lpf, 3, s3, h3, by decide, rfl⟩
  have u := Run.save 0 (Run.start (c := exFr junk left lines0) (D := Cdf.exD) (L := upscaledCurr (exFr junk left lines0) Cdf.exD) sr0)
  obtain ⟨t1, e1⟩ := C88_up ok (k := 0) (by show 0 < exU.sbh; omega) d1 sr0
  have u := Run.restore 0 (Run.up 0 s1.fr t1 u (by show 0 < exU.sbh; omega) (by decide) d1 e1) (by decide) (by decide) (by show Lrs.Ready false 0 [0]; decide)
  have u := Run.save 1 u
  obtain ⟨t2, e2⟩ := C88_up ok (k := 1) (by show 1 < exU.sbh; omega) d2 _
  have u := Run.restore 1 (Run.up 1 s2.fr t2 u (by show 1 < exU.sbh; omega) (by decide) d2 e2) (by decide) (by decide) (by show Lrs.Ready false 1 [0, 1]; decide)
  have u := Run.save 2 u
  obtain ⟨t3, e3⟩ := C88_up ok (k := 2) (by show 2 < exU.sbh; omega) d3 _
  have u := Run.restore 2 (Run.up 2 s3.fr t3 u (by show 2 < exU.sbh; omega) (by decide) d3 e3) (by decide) (by decide) (by show Lrs.Ready false 2 [0, 1, 2]; decide)
  refine ⟨_, u, fun pl Y X hp hY hX => C88_frame ok (C88_scaled ok) u ?_ (Or.inr ⟨by show exU.layout ≠ 0; decide, hp⟩) hY hX⟩
  intro k hk
  have hk : k < 3 := n3 ▸ hk
  have : k = 0 ∨ k = 1 ∨ k = 2 := by omega
  rcases this with rfl | rfl | rfl <;> decide

end Dav1d.Sres
