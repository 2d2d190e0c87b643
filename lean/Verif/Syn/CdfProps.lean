import Verif.Syn.CdfLines
import Verif.Syn.LruProps
/-!
# C85: CDEF in place gives the frame of the specification
-/
set_option linter.unusedVariables false
namespace Dav1d.Cdf
open Dav1d.Syn.Lru (Cfg)
open Dav1d.Lrs (Plane)
open Dav1d.Cdef

variable {f : Cfg} {d : Depth} {hdr : Hdr} {tt : Bool} {mask : Nat → Mask} {idx : Nat → Nat → Int} {skips : Nat → Nat → Bool} {D lpf : Nat → Plane} {sby : Nat}

/-- The columns of a plane that are filtered: the frame, up to a multiple of 8 luma samples. -/
def Col (f : Cfg) (pl : Nat) (X : Int) : Prop := Pl f pl ∧ 0 ≤ X ∧ X < x0 f pl f.bw

/-- The rows of a plane that are filtered with a row of superblocks. -/
def Row (f : Cfg) (sby pl : Nat) (Y : Int) : Prop := y0 f pl (2 * first f sby) ≤ Y ∧ Y < y0 f pl (2 * last f sby)

/-- **C85.** One row of superblocks. `D` is the frame before CDEF. The frame has to be that in the rows that are filtered. Besides, with one thread the two rows above are expected in the line buffer
and the two rows below in the frame, with more threads both in the lines saved before. Then each sample of these rows becomes the one of the specification, nothing else is written, and with one
thread the two rows above the next row of superblocks are in the line buffer. -/
theorem C85_sbrow (hh : HdrOk hdr) (hlay : f.layout ≤ 3) (hD : InRange f d D) (hM : MaskOk f mask idx skips) (hs : sby < f.sbh) (s : St)
    (hF : ∀ pl Y X, Col f pl X → Row f sby pl Y → s.fr pl Y X = D pl Y X)
    (hOne : tt = false → ∀ pl X, Col f pl X → ∀ r : Int, 0 ≤ r → r < 2 → (sby ≠ 0 → s.line s.tf pl r X = D pl (y0 f pl (2 * first f sby) - 2 + r) X) ∧
      (sby + 1 < f.sbh → s.fr pl (y0 f pl (2 * last f sby) + r) X = D pl (y0 f pl (2 * last f sby) + r) X))
    (hTt : tt = true → Saved f D lpf sby ∧ (sby = 0 ∨ Saved f D lpf (sby - 1))) :
    (∀ pl Y X, Col f pl X → Row f sby pl Y → (filterSbrowCdef f d hdr tt mask lpf sby s).fr pl Y X = Av1.CdefFrame (envOf f d hdr idx skips D) pl Y.toNat X.toNat) ∧
    (∀ pl Y X, Pl f pl → ¬(Col f pl X ∧ Row f sby pl Y) → (filterSbrowCdef f d hdr tt mask lpf sby s).fr pl Y X = s.fr pl Y X) ∧
    (tt = false → sby + 1 < f.sbh → ∀ pl X, Col f pl X → ∀ r : Int, 0 ≤ r → r < 2 →
      (filterSbrowCdef f d hdr tt mask lpf sby s).line (filterSbrowCdef f d hdr tt mask lpf sby s).tf pl r X = D pl (y0 f pl (2 * last f sby) - 2 + r) X) := by
  have := sbrow_spec (tt := tt) (mask := mask) (lpf := lpf) hh hlay hD hM hs s (fun pl hp Y X h1 h2 h3 h4 => hF pl Y X ⟨hp, h3, h4⟩ ⟨h1, h2⟩)
    (fun h pl hp r X h1 h2 h3 h4 => hOne h pl X ⟨hp, h3, h4⟩ r h1 h2) (fun h => lpfOk_of hs (hTt h).1 (hTt h).2)
  refine ⟨fun pl Y X hc hr => ?_, fun pl Y X hp hn => ?_, fun h1 h2 pl X hc r h3 h4 => this.2 h1 h2 pl hc.1 r X h3 h4 hc.2.1 hc.2.2⟩
  · rw [this.1 pl hc.1, if_pos ⟨hr.1, hr.2, hc.2.1, hc.2.2⟩]
  · rw [this.1 pl hp, if_neg]
    rintro ⟨h1, h2, h3, h4⟩
    exact hn ⟨⟨hp, h3, h4⟩, h1, h2⟩

/-! ## The frame -/

/-- What the deblocking filter (and all that comes before it) does to the frame for a row of superblocks: rows that belong to the rows of superblocks before stay, the rows of this one are final then,
and two more. -/
def Deblock (f : Cfg) (D : Nat → Plane) (k : Nat) (fr fr' : Nat → Plane) : Prop :=
  (∀ pl (Y X : Int), Col f pl X → Y < y0 f pl (2 * first f k) → fr' pl Y X = fr pl Y X) ∧
  (∀ pl (Y X : Int), Col f pl X → y0 f pl (2 * first f k) ≤ Y → Y < y0 f pl (2 * last f k) + (if k + 1 < f.sbh then 2 else 0 : Nat) → fr' pl Y X = D pl Y X)

/-- One thread: rows of superblocks one after the other, `k` are done. Nothing is known of the state at the beginning, and only the line buffer has to be kept. -/
inductive One (f : Cfg) (d : Depth) (hdr : Hdr) (mask : Nat → Mask) (lpf D : Nat → Plane) : Nat → St → Prop
  | start (s : St) : One f d hdr mask lpf D 0 s
  | next {k : Nat} {s : St} (s' : St) : One f d hdr mask lpf D k s → k < f.sbh → Deblock f D k s.fr s'.fr → s'.line = s.line → s'.tf = s.tf →
      One f d hdr mask lpf D (k + 1) (filterSbrowCdef f d hdr false mask lpf k s')

/-- More than one thread: `n` rows of superblocks went through the deblocking filter, of some the lines were saved, some are done. A row of superblocks is filtered in any thread-local state,
after its lines and those of the one before were saved. -/
inductive Many (f : Cfg) (d : Depth) (hdr : Hdr) (mask : Nat → Mask) (D : Nat → Plane) : (n : Nat) → (saved done : List Nat) → (fr lpf : Nat → Plane) → Prop
  | start (fr lpf : Nat → Plane) : Many f d hdr mask D 0 [] [] fr lpf
  | deblock {n : Nat} {saved done : List Nat} {fr lpf : Nat → Plane} (fr' : Nat → Plane) : Many f d hdr mask D n saved done fr lpf → n < f.sbh → Deblock f D n fr fr' →
      Many f d hdr mask D (n + 1) saved done fr' lpf
  | save {n : Nat} {saved done : List Nat} {fr lpf : Nat → Plane} (k : Nat) : Many f d hdr mask D n saved done fr lpf → k < n → k ∉ saved →
      Many f d hdr mask D n (k :: saved) done fr (saveLines f k fr lpf)
  | cdef {n : Nat} {saved done : List Nat} {lpf : Nat → Plane} (k : Nat) (s : St) : Many f d hdr mask D n saved done s.fr lpf → k ∉ done → k ∈ saved → (k = 0 ∨ k - 1 ∈ saved) →
      Many f d hdr mask D n saved (k :: done) (filterSbrowCdef f d hdr true mask lpf k s).fr lpf

theorem first_zero (f : Cfg) : first f 0 = 0 := by unfold first; simp

theorem first_le_last {k : Nat} (hk : k < f.sbh) : first f k < last f k ∧ 2 * last f k ≤ f.bh := by
  obtain ⟨b1, b2, b3⟩ := sb_facts hk
  have hbh := bh_eq f
  unfold first last
  generalize (f.h + 7) / 8 = NR at hbh
  split_ifs with h0 h1 h1
  all_goals rcases half_cases f with ⟨_, g, _⟩ | ⟨_, g, _⟩ <;> rw [g] at b1 b2 b3 ⊢ <;> first | (have := b2 h1; omega) | (have := b3 h1; omega)

/-- A row of superblocks ends where, or before, a later one begins. -/
theorem last_le_first {j k : Nat} (hjk : j < k) (hk : k < f.sbh) : last f j ≤ first f k := by
  rw [last_first (by omega)]
  unfold first
  rw [if_neg (by omega), if_neg (by omega)]
  have := Nat.mul_le_mul_right (half f) (show j + 1 ≤ k by omega)
  omega

/-- Each row belongs to a row of superblocks. -/
theorem row_exists (f : Cfg) (pl : Nat) {Y : Int} (h0 : 0 ≤ Y) (h1 : Y < y0 f pl f.bh) : ∃ k, k < f.sbh ∧ Row f k pl Y := by
  have key : ∀ n, n < f.sbh → Y < y0 f pl (2 * last f n) → ∃ k, k < f.sbh ∧ Row f k pl Y := by
    intro n
    induction n with
    | zero =>
      intro hn h
      refine ⟨0, hn, ?_, h⟩
      rw [first_zero, y0_eq, Nat.zero_mul]
      exact h0
    | succ n ih =>
      intro hn h
      by_cases hy : (y0 f pl (2 * first f (n + 1)) : Int) ≤ Y
      · exact ⟨n + 1, hn, hy, h⟩
      · exact ih (by omega) (by rw [last_first hn]; omega)
  have hbh : 0 < f.bh := by
    rcases Nat.eq_zero_or_pos f.bh with h | h
    · rw [h] at h1
      unfold y0 at h1
      simp at h1
      omega
    · exact h
  have hsb : 0 < f.sbh := by
    show 0 < (f.bh + f.step - 1) / f.step
    rcases half_cases f with ⟨_, _, g⟩ | ⟨_, _, g⟩ <;> rw [g] <;> omega
  refine key (f.sbh - 1) (by omega) ?_
  unfold last
  rw [if_neg (by omega), show 2 * (f.bh / 2) = f.bh by have := bh_eq f; omega]
  exact h1

theorem one_inv (hh : HdrOk hdr) (hlay : f.layout ≤ 3) (hD : InRange f d D) (hM : MaskOk f mask idx skips) {k : Nat} {s : St} (h : One f d hdr mask lpf D k s) : k ≤ f.sbh ∧
    (∀ j, j < k → ∀ pl Y X, Col f pl X → Row f j pl Y → s.fr pl Y X = Av1.CdefFrame (envOf f d hdr idx skips D) pl Y.toNat X.toNat) ∧
    (k ≠ 0 → k < f.sbh → ∀ pl X, Col f pl X → ∀ r : Int, 0 ≤ r → r < 2 → s.line s.tf pl r X = D pl (y0 f pl (2 * first f k) - 2 + r) X) := by
  induction h with
  | start s => exact ⟨Nat.zero_le _, fun j hj => absurd hj (by omega), fun h => absurd rfl h⟩
  | @next k s s' _ hk hd hl ht ih =>
    obtain ⟨i1, i2, i3⟩ := ih
    obtain ⟨c1, c2, c3⟩ := C85_sbrow (tt := false) (lpf := lpf) hh hlay hD hM hk s' (fun pl Y X hc hr => hd.2 pl Y X hc hr.1 (by have := hr.2; omega))
      (fun _ pl X hc r h1 h2 => ⟨fun h0 => by rw [hl, ht]; exact i3 h0 hk pl X hc r h1 h2, fun h3 =>
        hd.2 pl _ X hc (by have := y0_mono f pl (a := first f k) (b := last f k) (by have := first_le_last hk; omega); omega) (by rw [if_pos h3]; omega)⟩) (fun h => by cases h)
    refine ⟨hk, ?_, ?_⟩
    · intro j hj pl Y X hc hr
      rcases (show j = k ∨ j < k by omega) with rfl | hj
      · exact c1 pl Y X hc hr
      · have := y0_mono f pl (last_le_first hj hk)
        have hY := hr.2
        rw [c2 pl Y X hc.1 (fun h => by have := h.2.1; omega), hd.1 pl Y X hc (by omega)]
        exact i2 j hj pl Y X hc hr
    · intro _ h pl X hc r h1 h2
      rw [← last_first h]
      exact c3 rfl h pl X hc r h1 h2

/-- **C85.** One thread: when all rows of superblocks are done, the frame is CdefFrame of the specification. -/
theorem C85_one (hh : HdrOk hdr) (hlay : f.layout ≤ 3) (hD : InRange f d D) (hM : MaskOk f mask idx skips) {s : St} (h : One f d hdr mask lpf D f.sbh s) {pl Y X : Nat} (hp : Pl f pl)
    (hY : Y < y0 f pl f.bh) (hX : X < x0 f pl f.bw) : s.fr pl Y X = Av1.CdefFrame (envOf f d hdr idx skips D) pl Y X := by
  obtain ⟨k, h1, h2⟩ := row_exists f pl (Y := Y) (by omega) (by omega)
  exact (one_inv hh hlay hD hM h).2.1 k h1 pl Y X ⟨hp, by omega, by omega⟩ h2

theorem many_inv (hh : HdrOk hdr) (hlay : f.layout ≤ 3) (hD : InRange f d D) (hM : MaskOk f mask idx skips) {n : Nat} {saved done : List Nat} {fr lpf : Nat → Plane}
    (h : Many f d hdr mask D n saved done fr lpf) : n ≤ f.sbh ∧ (∀ k ∈ saved, k < n) ∧ (∀ k ∈ done, k ∈ saved ∧ (k = 0 ∨ k - 1 ∈ saved)) ∧
    (∀ k, k < n → ∀ pl Y X, Col f pl X → Row f k pl Y → fr pl Y X = if k ∈ done then Av1.CdefFrame (envOf f d hdr idx skips D) pl Y.toNat X.toNat else D pl Y X) ∧
    (∀ k, n = k + 1 → n < f.sbh → ∀ pl X, Col f pl X → ∀ r : Int, 0 ≤ r → r < 2 → fr pl (y0 f pl (2 * last f k) + r) X = D pl (y0 f pl (2 * last f k) + r) X) ∧
    (∀ k ∈ saved, Saved f D lpf k) := by
  induction h with
  | start fr lpf => exact ⟨Nat.zero_le _, by simp, by simp, fun k h => absurd h (by omega), fun k h => absurd h (by omega), by simp⟩
  | @deblock n saved done fr lpf fr' _ hn hd ih =>
    obtain ⟨i1, i2, i3, i4, i5, i6⟩ := ih
    refine ⟨hn, fun k hk => by have := i2 k hk; omega, i3, ?_, ?_, i6⟩
    · intro k hk pl Y X hc hr
      rcases (show k = n ∨ k < n by omega) with rfl | hk
      · rw [if_neg (fun h => by have := i2 k (i3 k h).1; omega)]
        exact hd.2 pl Y X hc hr.1 (by have := hr.2; omega)
      · have := y0_mono f pl (last_le_first hk hn)
        have hY := hr.2
        rw [hd.1 pl Y X hc (by omega)]
        exact i4 k hk pl Y X hc hr
    · intro k hk hlt pl X hc r h1 h2
      obtain rfl : n = k := by omega
      exact hd.2 pl _ X hc (by have := y0_mono f pl (a := first f n) (b := last f n) (by have := first_le_last hn; omega); omega) (by rw [if_pos hlt]; omega)
  | @save n saved done fr lpf k _ hk hns ih =>
    obtain ⟨i1, i2, i3, i4, i5, i6⟩ := ih
    refine ⟨i1, fun j hj => ?_, fun j hj => ⟨List.mem_cons_of_mem _ (i3 j hj).1, (i3 j hj).2.imp id (List.mem_cons_of_mem _)⟩, i4, i5, ?_⟩
    · rcases List.mem_cons.1 hj with rfl | hj
      · exact hk
      · exact i2 j hj
    · intro j hj hlt pl hp r X hr hX0 hX1
      by_cases e : j = k
      · subst e
        rw [saveLines_at fr lpf pl hlt r hr X]
        have hc : Col f pl X := ⟨hp, hX0, hX1⟩
        have hfl := first_le_last (f := f) (k := j) (by omega)
        have m1 := y0_mono f pl (a := first f j + 1) (b := last f j) (by omega)
        have m2 := y0_succ f pl (first f j)
        have m3 := bkH_ge f pl
        rcases (show r < 2 ∨ 2 ≤ r by omega) with h2 | h2
        · rw [i4 j hk pl _ X hc ⟨by omega, by omega⟩, if_neg (fun h => hns (i3 j h).1)]
        · by_cases hn : n = j + 1
          · have := i5 j hn (by omega) pl X hc ((r : Int) - 2) (by omega) (by omega)
            rw [show (y0 f pl (2 * last f j) : Int) - 2 + r = y0 f pl (2 * last f j) + (r - 2) by omega]
            exact this
          · have e := last_first hlt
            have hfl := first_le_last (f := f) (k := j + 1) hlt
            have m1 := y0_mono f pl (a := first f (j + 1) + 1) (b := last f (j + 1)) (by omega)
            have m2 := y0_succ f pl (first f (j + 1))
            rw [i4 (j + 1) (by omega) pl _ X hc ⟨by rw [e]; omega, by rw [e]; omega⟩, if_neg (fun h => hns ((i3 (j + 1) h).2.resolve_left (by omega)))]
      · rw [saveLines_other fr lpf pl e r hr X]
        rcases List.mem_cons.1 hj with h | hj
        · exact absurd h e
        · exact i6 j hj hlt pl hp r X hr hX0 hX1
  | @cdef n saved done lpf k s _ hnd hks hkp ih =>
    obtain ⟨i1, i2, i3, i4, i5, i6⟩ := ih
    have hkn := i2 k hks
    obtain ⟨c1, c2, _⟩ := C85_sbrow (tt := true) (lpf := lpf) hh hlay hD hM (sby := k) (by omega) s (fun pl Y X hc hr => by rw [i4 k hkn pl Y X hc hr, if_neg hnd])
      (fun h => by cases h) (fun _ => ⟨i6 k hks, hkp.imp id (i6 (k - 1))⟩)
    refine ⟨i1, i2, fun j hj => ?_, fun j hj pl Y X hc hr => ?_, fun j hj hlt pl X hc r h1 h2 => ?_, i6⟩
    · rcases List.mem_cons.1 hj with rfl | hj
      · exact ⟨hks, hkp⟩
      · exact i3 j hj
    · by_cases e : j = k
      · subst e
        rw [if_pos List.mem_cons_self]
        exact c1 pl Y X hc hr
      · rw [c2 pl Y X hc.1 ?_, i4 j hj pl Y X hc hr]
        · simp only [List.mem_cons, e, false_or]
        · rintro ⟨_, h⟩
          have r1 := hr.1
          have r2 := hr.2
          have r3 := h.1
          have r4 := h.2
          rcases (show j < k ∨ k < j by omega) with h | h
          · have := y0_mono f pl (last_le_first (f := f) h (by omega)); omega
          · have := y0_mono f pl (last_le_first (f := f) h (by omega)); omega
    · rw [c2 pl _ X hc.1 ?_]
      · exact i5 j hj hlt pl X hc r h1 h2
      · rintro ⟨_, h⟩
        have r4 := h.2
        rcases (show k = j ∨ k < j by omega) with rfl | h
        · omega
        · have h1 := y0_mono f pl (last_le_first (f := f) h (by omega))
          have h2 := y0_mono f pl (a := first f j) (b := last f j) (by have := first_le_last (f := f) (k := j) (by omega); omega)
          omega

/-- **C85.** More than one thread: in whatever order lines are saved and rows of superblocks are filtered, those that are done are as in the specification; once all are, the frame is CdefFrame. -/
theorem C85_many (hh : HdrOk hdr) (hlay : f.layout ≤ 3) (hD : InRange f d D) (hM : MaskOk f mask idx skips) {n : Nat} {saved done : List Nat} {fr lpf : Nat → Plane}
    (h : Many f d hdr mask D n saved done fr lpf) :
    (∀ k ∈ done, ∀ pl Y X, Col f pl X → Row f k pl Y → fr pl Y X = Av1.CdefFrame (envOf f d hdr idx skips D) pl Y.toNat X.toNat) ∧
    ((∀ k, k < f.sbh → k ∈ done) → ∀ pl Y X : Nat, Pl f pl → Y < y0 f pl f.bh → X < x0 f pl f.bw → fr pl Y X = Av1.CdefFrame (envOf f d hdr idx skips D) pl Y X) := by
  obtain ⟨i1, i2, i3, i4, _, _⟩ := many_inv hh hlay hD hM h
  have key : ∀ k ∈ done, ∀ pl Y X, Col f pl X → Row f k pl Y → fr pl Y X = Av1.CdefFrame (envOf f d hdr idx skips D) pl Y.toNat X.toNat := fun k hk pl Y X hc hr => by
    rw [i4 k (i2 k (i3 k hk).1) pl Y X hc hr, if_pos hk]
  refine ⟨key, fun ha pl Y X hp hY hX => ?_⟩
  obtain ⟨k, h1, h2⟩ := row_exists f pl (Y := Y) (by omega) (by omega)
  exact key k (ha k h1) pl Y X ⟨hp, by omega, by omega⟩ h2

/-! ## The line buffer -/

/-- Lines of the buffer f->lf.cdef_line other than two for each plane stay. -/
def Kept (tt : Bool) (sby : Nat) (a b : Bool → Nat → Plane) : Prop := ∀ t pl (j : Int), ¬(lineOff tt sby pl ≤ j ∧ j < lineOff tt sby pl + 2) → a t pl j = b t pl j

theorem blocks_line (c : Ctx) (b y u ns : Nat) : ∀ n bx s, (blocks c b y u ns n bx s).line = s.line
  | 0, _, _ => rfl
  | n + 1, bx, s => by
    unfold blocks
    rw [blocks_line]
    unfold block
    split <;> rfl

theorem sbs_line (c : Ctx) (b : Nat) : ∀ n sbx s, (sbs c b n sbx s).line = s.line
  | 0, _, _ => rfl
  | n + 1, sbx, s => by
    unfold sbs
    rw [sbs_line]
    unfold sb64
    simp only []
    split
    · rfl
    · exact blocks_line ..

theorem strips_line (c : Ctx) : ∀ n b s, Kept c.tt c.sby (strips c n b s).line s.line
  | 0, _, _ => fun _ _ _ _ => rfl
  | n + 1, b, s => by
    intro t pl j hj
    unfold strips
    rw [strips_line c n _ _ t pl j hj]
    unfold strip
    simp only [sbs_line]
    split
    · beta_reduce
      split
      · funext x
        exact if_neg (fun h => hj h.2)
      · rfl
    · rfl

/-- **C85.** Of the line buffer, which threads share, only two lines per plane are written, and these are of the row of superblocks alone if there is more than one thread. -/
theorem C85_lines (s : St) : (∀ t pl (j : Int), ¬(lineOff tt sby pl ≤ j ∧ j < lineOff tt sby pl + 2) → (filterSbrowCdef f d hdr tt mask lpf sby s).line t pl j = s.line t pl j) ∧
    ∀ sby' pl (j : Int), sby' ≠ sby → lineOff true sby pl ≤ j → j < lineOff true sby pl + 2 → ¬(lineOff true sby' pl ≤ j ∧ j < lineOff true sby' pl + 2) := by
  refine ⟨fun t pl j hj => ?_, fun sby' pl j hn h1 h2 h3 => ?_⟩
  · unfold filterSbrowCdef
    simp only []
    rw [cdefBrow, strips_line _ _ _ _ t pl j hj]
    split
    · rw [cdefBrow, strips_line _ _ _ _ t pl j hj]
    · rfl
  · unfold lineOff at h1 h2 h3
    simp only [if_true] at h1 h2 h3
    split at h1 <;> simp only [*, if_true, if_false] at h2 h3 <;> omega

/-! ## Examples -/

/-- 200x136, 4:2:0, superblocks of 64x64: three rows. Blocks in columns 16 to 31 are skipped, the second 64x64 of each 128x128 has no index. -/
def exMask : Mask := ⟨fun k => if k % 2 = 1 then -1 else 1, fun r => (0xffff, if r % 2 = 0 then 0xff00 else 0)⟩
def exHdr : Hdr := ⟨fun i => [0, 37].getD i 0, fun i => [0, 18].getD i 0, 5⟩
def exIdx (r c : Nat) : Int := if c % 32 / 16 = 1 then -1 else 1
def exSkips (r c : Nat) : Bool := decide (16 ≤ c % 32) && !(decide (r % 4 < 2) && decide (24 ≤ c % 32))
def exD : Nat → Plane := fun pl Y X => (Y * X + pl) % 256

theorem exHdr_ok : HdrOk exHdr := by
  refine ⟨fun i => ?_, fun i => ?_, by decide⟩
  all_goals
    show List.getD _ i 0 < 64
    rcases i with _ | _ | i <;> simp

theorem exMask_ok (f : Cfg) : MaskOk f (fun _ => exMask) exIdx exSkips := by
  refine ⟨fun a r => by show 0xffff < 2 ^ 16; decide, fun r c _ _ => ?_, fun r c _ _ hr => ?_⟩
  · show (if c % 32 / 16 = 1 then (-1 : Int) else 1) = if (r % 32 / 16 * 2 + c % 32 / 16) % 2 = 1 then -1 else 1
    have : c % 32 / 16 < 2 := by omega
    have : (r % 32 / 16 * 2 + c % 32 / 16) % 2 = c % 32 / 16 := by omega
    rw [this]
  · have e : exSkips (r + 1) c = exSkips r c := by
      unfold exSkips
      have : (r + 1) % 4 < 2 ↔ r % 4 < 2 := by omega
      simp only [this]
    rw [e, Bool.and_self]
    unfold exSkips
    show bitOf (0xffff, if r % 32 / 2 % 2 = 0 then 0xff00 else 0) (c % 32) = _
    have h1 : c % 32 < 32 := by omega
    have h2 : (r % 32 / 2 % 2 = 0) ↔ r % 4 < 2 := by omega
    simp only [h2]
    generalize c % 32 = k at h1
    by_cases h : r % 4 < 2
    · simp only [h, if_true, decide_true]
      revert k
      decide +kernel
    · simp only [h, if_false, decide_false]
      revert k
      decide +kernel

theorem exD_ok (f : Cfg) : InRange f .b8 exD := by
  intro pl _ Y X _ _ _ _
  show 0 ≤ (Y * X + pl) % 256 ∧ (Y * X + pl) % 256 ≤ 255
  omega

/-- A deblocking filter that only makes the rows final that it has to. -/
def exDeb (f : Cfg) (k : Nat) (fr : Nat → Plane) : Nat → Plane := fun pl Y X => if Y < y0 f pl (2 * first f k) then fr pl Y X else if Y < y0 f pl (2 * last f k) + (if k + 1 < f.sbh then 2 else 0 : Nat) then exD pl Y X else -7
theorem exDeb_ok (f : Cfg) (k : Nat) (fr : Nat → Plane) : Deblock f exD k fr (exDeb f k fr) := by
  refine ⟨fun pl Y X _ h => if_pos h, fun pl Y X _ h1 h2 => ?_⟩
  unfold exDeb
  rw [if_neg (by omega), if_pos h2]

/-- One thread, and the frame in the end. -/
example (s0 : St) (lpf : Nat → Plane) : ∃ s, One Syn.Lru.exA .b8 exHdr (fun _ => exMask) lpf exD 3 s ∧
    ∀ pl Y X : Nat, pl ≤ 2 → Y < y0 Syn.Lru.exA pl 34 → X < x0 Syn.Lru.exA pl 50 → s.fr pl Y X = Av1.CdefFrame (envOf Syn.Lru.exA .b8 exHdr exIdx exSkips exD) pl Y X := by
  have h1 := One.next (d := .b8) (hdr := exHdr) (mask := fun _ => exMask) (lpf := lpf) { s0 with fr := exDeb Syn.Lru.exA 0 s0.fr } (One.start s0) (by decide) (exDeb_ok _ _ _) rfl rfl
  generalize filterSbrowCdef Syn.Lru.exA .b8 exHdr false (fun _ => exMask) lpf 0 _ = s1 at h1
  have h2 := One.next { s1 with fr := exDeb Syn.Lru.exA 1 s1.fr } h1 (by decide) (exDeb_ok _ _ _) rfl rfl
  generalize filterSbrowCdef Syn.Lru.exA .b8 exHdr false (fun _ => exMask) lpf 1 _ = s2 at h2
  have h3 := One.next { s2 with fr := exDeb Syn.Lru.exA 2 s2.fr } h2 (by decide) (exDeb_ok _ _ _) rfl rfl
  exact ⟨_, h3, fun pl Y X hp hY hX => C85_one (f := Syn.Lru.exA) exHdr_ok (by decide) (exD_ok _) (exMask_ok _) h3 (Or.inr ⟨by decide, hp⟩) hY hX⟩

/-- More threads: the second row of superblocks is filtered before the first one, and before the third one is deblocked. -/
example (fr0 lpf0 : Nat → Plane) (loc : Nat → St) : ∃ fr lpf, Many Syn.Lru.exA .b8 exHdr (fun _ => exMask) exD 3 [2, 0, 1] [0, 2, 1] fr lpf ∧
    ∀ pl Y X : Nat, pl ≤ 2 → Y < y0 Syn.Lru.exA pl 34 → X < x0 Syn.Lru.exA pl 50 → fr pl Y X = Av1.CdefFrame (envOf Syn.Lru.exA .b8 exHdr exIdx exSkips exD) pl Y X := by
  have h := Many.start (f := Syn.Lru.exA) (d := .b8) (hdr := exHdr) (mask := fun _ => exMask) (D := exD) fr0 lpf0
  have h := Many.deblock _ h (by decide) (exDeb_ok _ _ _)
  have h := Many.deblock _ h (by decide) (exDeb_ok _ _ _)
  have h := Many.save 1 h (by decide) (by decide)
  have h := Many.save 0 h (by decide) (by decide)
  generalize saveLines Syn.Lru.exA 0 _ _ = lpf2 at h
  generalize exDeb Syn.Lru.exA 1 _ = fr2 at h
  have h := Many.cdef 1 { loc 1 with fr := fr2 } h (by decide) (by decide) (by decide)
  have h := Many.deblock _ h (by decide) (exDeb_ok _ _ _)
  have h := Many.save 2 h (by decide) (by decide)
  generalize saveLines Syn.Lru.exA 2 _ _ = lpf3 at h
  generalize exDeb Syn.Lru.exA 2 _ = fr3 at h
  have h := Many.cdef 2 { loc 2 with fr := fr3 } h (by decide) (by decide) (by decide)
  generalize (filterSbrowCdef Syn.Lru.exA .b8 exHdr true (fun _ => exMask) lpf3 2 _).fr = fr4 at h
  have h := Many.cdef 0 { loc 0 with fr := fr4 } h (by decide) (by decide) (by decide)
  exact ⟨_, _, h, fun pl Y X hp hY hX => (C85_many (f := Syn.Lru.exA) exHdr_ok (by decide) (exD_ok _) (exMask_ok _) h).2 (by decide) pl Y X (Or.inr ⟨by decide, hp⟩) hY hX⟩

/-- CDEF changes this frame, in luma and chroma. -/
example : (exD 0 4 8, Av1.CdefFrame (envOf Syn.Lru.exA .b8 exHdr exIdx exSkips exD) 0 4 8) = (32, 31) ∧ (exD 1 4 8, Av1.CdefFrame (envOf Syn.Lru.exA .b8 exHdr exIdx exSkips exD) 1 4 8) = (33, 32) := by decide +kernel

end Dav1d.Cdf
