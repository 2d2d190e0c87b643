import Verif.Obu.FrameRange
/-!
# C07, C08, C11-C14, C52: frame headers

`(parseNewFrameHdr c).exec s = (some h, s')` says: in decoder state `c`, on the bits of `s`, the header `h` is
accepted. `ReachableCtx c` says that the state can occur: its sequence header and all its reference frame
headers were themselves accepted by the parser.
-/
namespace Dav1d
open HProg

/-! ## C52 -/

/-- C52: parsing any frame header in any reachable state on any bytes is free of undefined behaviour (the
byte-level bit reader never reads outside its buffer, never is asked for an illegal field width) and its result
is the one of the bit-level description. -/
theorem C52_defined (c : FhCtx) (hc : ReachableCtx c) (g : GetBits) (s : BitSt) (hrel : Rel g s) :
    ∃ g', (OptionT.run (parseFrameHdr c)).runC g = some (((parseFrameHdr c).exec s).1, g') ∧
      Rel g' ((parseFrameHdr c).exec s).2 := by
  have hq := hc.ok.1
  have : Legal (parseFrameHdr c) := by
    unfold parseFrameHdr
    refine Legal.bind (Legal.opt post_flag) (fun _ => ?_)
    refine Post.ite (fun _ => ?_) (fun _ => Legal.bind (Legal.of hc.hdr) (fun _ => Legal.pure))
    unfold parseShowExisting
    refine Legal.bind (Legal.f (by omega) (by omega)) (fun idx => Legal.bind (legal_presentationDelay hq) (fun _ => ?_))
    refine Post.ite (fun h => ?_) (fun _ => Legal.pure)
    have := hq.ids h
    refine Legal.bind (Legal.f (by omega) (by omega)) (fun _ => ?_)
    split
    · exact Post.fail
    · exact Legal.bind Legal.reject (fun _ => Legal.pure)
  exact Prog.runC_spec _ this.wf hrel

/-- C52: all fields of an accepted header are in range. -/
theorem C52_ranges (c : FhCtx) (hc : ReachableCtx c) (s s' : BitSt) (h : FrameHdr)
    (he : (parseNewFrameHdr c).exec s = (some h, s')) : FrameOk h := (hc.hdr.exec he).ok

/-! ## C07 -/

/-- C07, first half: the size of every accepted frame. (The frame_size_limit is in the OBU loop.) -/
theorem C07_size (c : FhCtx) (hc : ReachableCtx c) (s s' : BitSt) (h : FrameHdr)
    (he : (parseNewFrameHdr c).exec s = (some h, s')) :
    1 ≤ h.refs.size.width1 ∧ h.refs.size.width1 ≤ 65536 ∧ 1 ≤ h.refs.size.height ∧ h.refs.size.height ≤ 65536 ∧
    min 16 h.refs.size.width1 ≤ h.refs.size.width0 ∧ h.refs.size.width0 ≤ h.refs.size.width1 := by
  have := (hc.hdr.exec he).ok.size
  exact ⟨this.width.1, this.width.2, this.height.1, this.height.2, this.coded.1, this.coded.2⟩

/-! ## C08 -/

/-- C08: the tile layout of every accepted frame. -/
theorem C08_layout (c : FhCtx) (hc : ReachableCtx c) (s s' : BitSt) (h : FrameHdr)
    (he : (parseNewFrameHdr c).exec s = (some h, s')) :
    TilingOk (if c.seq.tools.sb128 then 128 else 64) h.refs.size.width0 h.refs.size.height h.tiling :=
  (hc.hdr.exec he).tiling

/-- C08: every superblock lies in exactly one tile column and exactly one tile row. -/
theorem C08_partition (c : FhCtx) (hc : ReachableCtx c) (s s' : BitSt) (h : FrameHdr)
    (he : (parseNewFrameHdr c).exec s = (some h, s')) (x y : Nat)
    (hx : x < ceilDiv h.refs.size.width0 (if c.seq.tools.sb128 then 128 else 64))
    (hy : y < ceilDiv h.refs.size.height (if c.seq.tools.sb128 then 128 else 64)) :
    (∃ i, i < h.tiling.cols ∧ InInterval h.tiling.colStart i x ∧ ∀ j, InInterval h.tiling.colStart j x → j = i) ∧
    ∃ i, i < h.tiling.rows ∧ InInterval h.tiling.rowStart i y ∧ ∀ j, InInterval h.tiling.rowStart j y → j = i := by
  have ht := C08_layout c hc s s' h he
  exact ⟨ht.cols.partition hx, ht.rows.partition hy⟩

/-! ## C12 -/

/-- C12: the distance is congruent to the difference and in `[-2^(n-1), 2^(n-1))`; there is only one such
number. -/
theorem C12_cyclic (n : Nat) (h1 : 1 ≤ n) (h8 : n ≤ 8) (a b : Int) :
    (2 ^ n : Int) ∣ getPocDiff n a b - (a - b) ∧ -(2 ^ (n - 1)) ≤ getPocDiff n a b ∧ getPocDiff n a b < 2 ^ (n - 1) := by
  obtain ⟨x, y, z⟩ := getPocDiff_spec h1 (by omega) a b
  exact ⟨Int.ModEq.dvd (show (a - b) % 2 ^ n = getPocDiff n a b % 2 ^ n from x.symm), y, z⟩

theorem C12_unique (n : Nat) (h1 : 1 ≤ n) (h8 : n ≤ 8) (a b d : Int) (hd : (2 ^ n : Int) ∣ d - (a - b))
    (hl : -(2 ^ (n - 1)) ≤ d) (hu : d < 2 ^ (n - 1)) : getPocDiff n a b = d := by
  rw [getPocDiff_relDist h1 (by omega)]
  exact (relDist_unique h1 (Int.emod_eq_emod_iff_emod_sub_eq_zero.2 (Int.emod_eq_zero_of_dvd hd)) hl hu).symm

/-- C12: zero iff the hints agree. -/
theorem C12_zero (n : Nat) (h1 : 1 ≤ n) (h8 : n ≤ 8) (a b : Int) (ha : 0 ≤ a ∧ a < 2 ^ n) (hb : 0 ≤ b ∧ b < 2 ^ n) :
    getPocDiff n a b = 0 ↔ a = b := by
  have hp : (0:Int) < 2 ^ (n - 1) := by positivity
  constructor
  · intro h
    obtain ⟨hd, _, _⟩ := C12_cyclic n h1 h8 a b
    rw [h] at hd
    obtain ⟨k, hk⟩ := hd
    have hk0 : k = 0 := by
      rcases lt_trichotomy k 0 with h' | h' | h'
      · nlinarith
      · exact h'
      · nlinarith
    rw [hk0, mul_zero] at hk; omega
  · rintro rfl
    exact C12_unique n h1 h8 a a 0 (by simp) (by omega) hp

/-- C12: antisymmetric, except at the half-range point, where both distances are `-2^(n-1)`. -/
theorem C12_antisymm (n : Nat) (h1 : 1 ≤ n) (h8 : n ≤ 8) (a b : Int) :
    (getPocDiff n a b ≠ -(2 ^ (n - 1)) → getPocDiff n b a = -getPocDiff n a b) ∧
    (getPocDiff n a b = -(2 ^ (n - 1)) → getPocDiff n b a = -(2 ^ (n - 1))) := by
  obtain ⟨⟨k, hk⟩, h2, h3⟩ := C12_cyclic n h1 h8 a b
  have e := two_pow_pred h1
  have hp : (0:Int) < 2 ^ (n - 1) := by positivity
  constructor
  · intro h
    exact C12_unique n h1 h8 b a _ ⟨-k, by rw [mul_neg, ← hk]; ring⟩ (by omega) (by omega)
  · intro h
    refine C12_unique n h1 h8 b a _ ⟨-k - 1, ?_⟩ (le_refl _) (by omega)
    rw [h] at hk
    linear_combination -hk + e

/-- C12: invariant under wrap-around of either hint. -/
theorem C12_wrap (n : Nat) (h1 : 1 ≤ n) (h8 : n ≤ 8) (a b i j : Int) :
    getPocDiff n (a + 2 ^ n * i) (b + 2 ^ n * j) = getPocDiff n a b := by
  obtain ⟨⟨k, hk⟩, h2, h3⟩ := C12_cyclic n h1 h8 a b
  exact C12_unique n h1 h8 _ _ _ ⟨k - i + j, by linear_combination hk⟩ h2 h3

example : getPocDiff 4 1 15 = 2 ∧ getPocDiff 4 15 1 = -2 ∧ getPocDiff 4 0 8 = -8 ∧ getPocDiff 4 8 0 = -8 := by decide

/-! ## C11 -/

/-- C11: whenever an accepted header uses short signalling, its seven indices are the outcome of the
specification's set_frame_refs process (which has exactly one outcome) for the order hints of the reference
slots, all of which hold a frame; all are in 0..7. -/
theorem C11_header (c : FhCtx) (hc : ReachableCtx c) (s s' : BitSt) (h : FrameHdr)
    (he : (parseNewFrameHdr c).exec s = (some h, s')) (hs : h.refs.shortSignaling = true) :
    (∀ i, i < 8 → (c.refs i).isSome) ∧ ∃ last gold r, last < 8 ∧ gold < 8 ∧
      SetFrameRefs (shiftedHint c h.base.frameOffset) (2 ^ (c.seq.tools.orderHintNBits - 1)) last gold r ∧
      (∀ r', SetFrameRefs (shiftedHint c h.base.frameOffset) (2 ^ (c.seq.tools.orderHintNBits - 1)) last gold r' →
        ∀ k, k < 7 → r' k = r k) ∧
      h.refs.refidx = (List.range 7).map r ∧ ∀ i ∈ h.refs.refidx, i < 8 := by
  obtain ⟨_, hall, last, gold, r, h1, h2, h3, h4⟩ := (hc.hdr.exec he).refs.short hs
  exact ⟨hall, last, gold, r, h1, h2, h3, fun r' hr' k hk => hr'.unique h3 k hk, h4, (hc.hdr.exec he).refs.refidx⟩

/-- C11: the two signalled indices are the ones in the bitstream: on the bits of `last` and `gold` exactly the
set_frame_refs process for these two is performed, LAST and GOLDEN being as signalled, provided all eight
slots hold a frame; otherwise the header is rejected. -/
theorem C11_signalled (c : FhCtx) (hc : ReachableCtx c) (ho : c.seq.tools.orderHint = true) (off last gold : Nat)
    (hl : last < 8) (hg : gold < 8) (s : BitSt) (rest : List Bool) (hs : s.rem = natBits 3 last ++ natBits 3 gold ++ rest) :
    ((∀ i, i < 8 → (c.refs i).isSome) → ∃ r,
      (parseShortRefs c off).exec s = (some ((List.range 7).map r), { s with rem := rest }) ∧
      SetFrameRefs (shiftedHint c off) (2 ^ (c.seq.tools.orderHintNBits - 1)) last gold r ∧
      r 0 = last ∧ r 3 = gold ∧ ∀ k, k < 7 → r k < 8) ∧
    (¬ (∀ i, i < 8 → (c.refs i).isSome) → ((parseShortRefs c off).exec s).1 = none) := by
  have hq := hc.ok.1.oh ho
  have e1 : (f 3).exec s = (some last, { s with rem := natBits 3 gold ++ rest }) :=
    reads_f (n := 3) (by omega) s _ (by rw [hs, List.append_assoc])
  have e2 : (f 3).exec { s with rem := natBits 3 gold ++ rest } = (some gold, { s with rem := rest }) :=
    reads_f (n := 3) (by omega) { s with rem := natBits 3 gold ++ rest } rest rfl
  have hany : (∀ i, i < 8 → (c.refs i).isSome) ↔ ¬ (List.range 8).any (fun i => (c.refs i).isNone) = true := by
    simp only [List.any_eq_true, List.mem_range, not_exists, not_and]
    refine forall_congr' (fun i => forall_congr' (fun _ => ?_))
    cases c.refs i <;> simp
  unfold parseShortRefs
  rw [exec_bind, e1]
  simp only
  rw [exec_bind, e2]
  simp only
  rw [exec_bind]
  constructor
  · intro hall
    have e3 : (rejectIf ((List.range 8).any (fun i => (c.refs i).isNone) = true)).exec { s with rem := rest } = (some (), { s with rem := rest }) := by
      unfold rejectIf; rw [if_neg (hany.1 hall)]; rfl
    rw [e3]
    simp only [getPocDiff_relDist hq.1 (by omega : c.seq.tools.orderHintNBits ≤ 31)]
    have hb := shiftedHint_bounds (c := c) hq.1 hq.2 off
    obtain ⟨r, hr, her⟩ := shortRefs_spec (shiftedHint c off) (2 ^ (c.seq.tools.orderHintNBits - 1)) last gold
      (fun i => (hb i).1) (fun i => (hb i).2)
    refine ⟨r, ?_, hr, hr.props hl hg⟩
    have : (List.range 7).map (fun i => (shortRefs (shiftedHint c off) (2 ^ (c.seq.tools.orderHintNBits - 1)) last gold i).toNat) = (List.range 7).map r := by
      apply List.map_congr_left
      intro i hi
      rw [her i (List.mem_range.1 hi)]; rfl
    rw [← this]; rfl
  · intro hall
    have e3 : (rejectIf ((List.range 8).any (fun i => (c.refs i).isNone) = true)).exec { s with rem := rest } = (none, { s with rem := rest }) := by
      unfold rejectIf; rw [if_pos (not_not.1 (fun h => hall (hany.2 h)))]; rfl
    rw [e3]

/-! ## C13 -/

/-- C13: skip mode is allowed exactly when references can select compound prediction, the frame is an inter
frame, order hints are in use and the specification's pair of references exists; the pair is then this one. -/
theorem C13_allowed (c : FhCtx) (hc : ReachableCtx c) (s s' : BitSt) (h : FrameHdr)
    (he : (parseNewFrameHdr c).exec s = (some h, s')) :
    (∀ x y, h.skipModeRefs = some (x, y) ↔
      (h.switchableCompRefs = true ∧ h.base.frameType % 2 = 1 ∧ c.seq.tools.orderHint = true ∧
       ∃ i j, IsSkipPair c.seq.tools.orderHintNBits h.base.frameOffset (refHint c h.refs.refidx) i j ∧
        x = min i j ∧ y = max i j)) ∧
    h.skipModeAllowed = h.skipModeRefs.isSome ∧ (h.skipModeEnabled = true → h.skipModeAllowed = true) := by
  have hh := hc.hdr.exec he
  refine ⟨hh.skip.refs, hh.skipAllowed, fun h' => ?_⟩
  rw [hh.skipAllowed]; exact hh.skipEnabled h'

/-- C13: the two references are distinct, valid and in increasing order, and the frames exist. -/
theorem C13_refs (c : FhCtx) (hc : ReachableCtx c) (s s' : BitSt) (h : FrameHdr)
    (he : (parseNewFrameHdr c).exec s = (some h, s')) (x y : Nat) (hs : h.skipModeRefs = some (x, y)) :
    x < y ∧ y < 7 ∧ (c.refs (h.refs.refidx.getD x 0)).isSome ∧ (c.refs (h.refs.refidx.getD y 0)).isSome := by
  obtain ⟨h1, h2, h3, i, j, hp, rfl, rfl⟩ := ((C13_allowed c hc s s' h he).1 x y).1 hs
  have hpr := (hc.hdr.exec he).skip.present h1 h2 h3
  obtain ⟨hi, hj⟩ := hp
  have hne : i ≠ j := by
    rintro rfl
    rcases hj with hj | ⟨_, hj⟩
    · have := hi.2.1; have := hj.2.1; omega
    · have := hj.2.1
      have e : relDist c.seq.tools.orderHintNBits (refHint c h.refs.refidx i) (refHint c h.refs.refidx i) = 0 := by
        have hq := hc.ok.1.oh h3
        exact (relDist_unique hq.1 (by simp) (by have : (0:Int) < 2 ^ (c.seq.tools.orderHintNBits - 1) := by positivity
                                                 omega) (by positivity)).symm
      omega
  have hi7 := hi.1
  have hj7 : j < 7 := by rcases hj with hj | ⟨_, hj⟩ <;> exact hj.1
  exact ⟨by omega, by omega, hpr _ (by omega), hpr _ (by omega)⟩

/-- C13 in terms of distances to the current frame. `d k < 0` is the past. The smaller-or-larger ordering of
the pair aside, one of the two is the closest past reference; the other is the closest future one or, if there
is no future reference and the closest past one is not at the half-range point, the closest among the
references strictly before it. -/
theorem C13_nearest (n : Nat) (h1 : 1 ≤ n) (h8 : n ≤ 8) (cur : Int) (ref : Nat → Int) (i j : Nat)
    (h : IsSkipPair n cur ref i j) (hhalf : relDist n (ref i) cur ≠ -(2 ^ (n - 1))) :
    let d := fun k => relDist n (ref k) cur
    (d i < 0 ∧ ∀ k, k < 7 → d k < 0 → d k ≤ d i) ∧
    ((0 < d j ∧ ∀ k, k < 7 → 0 < d k → d j ≤ d k) ∨
     ((∀ k, k < 7 → d k ≤ 0) ∧ d j < d i ∧ ∀ k, k < 7 → d k < d i → d k ≤ d j)) := by
  intro d
  obtain ⟨hi, hj⟩ := h
  have h1' : d i < 0 ∧ ∀ k, k < 7 → d k < 0 → d k ≤ d i :=
    ⟨hi.2.1, fun k hk hd => by rcases hi.2.2 k hk hd with h | h
                               · exact le_of_lt h
                               · exact le_of_eq h.1⟩
  refine ⟨h1', ?_⟩
  rcases hj with hj | ⟨hno, hj⟩
  · left
    refine ⟨hj.2.1, fun k hk hd => ?_⟩
    rcases hj.2.2 k hk hd with h | h
    · simp only at h; exact le_of_lt (by simpa using h)
    · simp only at h; exact le_of_eq (by have := h.1; simp only [neg_inj] at this; exact this.symm)
  · right
    have hd0 : ∀ k, k < 7 → d k ≤ 0 := fun k hk => not_lt.1 (hno k hk)
    have hp : (0:Int) < 2 ^ (n - 1) := by positivity
    have hrange : ∀ k, -(2 ^ (n - 1)) ≤ d k := fun k => (relDist_spec h1 (ref k) cur).2.1
    -- the distance of two past references is the difference of their distances, unless one is the
    -- current frame seen from the half-range point
    have hsub : ∀ k, k < 7 → relDist n (ref k) (ref i) = d k - d i := by
      intro k hk
      have a := hd0 k hk
      have b := hrange k
      have e := hrange i
      have f := h1'.1
      have hh : d i ≠ -(2 ^ (n - 1)) := hhalf
      refine (relDist_unique h1 ?_ (by omega) (by omega)).symm
      have x := (relDist_spec h1 (ref k) cur).1
      have y := (relDist_spec h1 (ref i) cur).1
      have : (d k - d i) % 2 ^ n = ((ref k - cur) - (ref i - cur)) % 2 ^ n := Int.ModEq.sub x y
      rw [this]; congr 1; ring
    refine ⟨hd0, ?_, fun k hk hd => ?_⟩
    · have : relDist n (ref j) (ref i) < 0 := hj.2.1
      rw [hsub j hj.1] at this; omega
    · have hb := hj.2.2 k hk (show relDist n (ref k) (ref i) < 0 by rw [hsub k hk]; omega)
      simp only [hsub k hk, hsub j hj.1] at hb
      omega

/-- The exception of `C13_nearest` is real, in the specification as well as in the code: with 4-bit order
hints, the current frame at 8, reference 0 at 0 (exactly half the range away) and the others at 8 like the current
frame, skip mode is allowed with references 0 and 1 although reference 1 is not in the past. -/
theorem C13_half_range_corner :
    skipModeRefs 4 8 (fun k => if k = 0 then 0 else 8) = some (0, 1) := by decide +kernel

/-! ## C14 -/

/-- C14: film grain parameters of every accepted header: new ones are in range; taken-over ones are those of a
frame referenced by this frame, with another seed. In either case they are in range or, when taken over from a
frame without film grain, all zero apart from the seed. -/
theorem C14_ranges (c : FhCtx) (hc : ReachableCtx c) (s s' : BitSt) (h : FrameHdr)
    (he : (parseNewFrameHdr c).exec s = (some h, s')) :
    h.filmGrain.seed < 65536 ∧ (FgOk h.filmGrain ∨ h.filmGrain = { seed := h.filmGrain.seed }) ∧
    (h.filmGrainUpdate = true → FgOk h.filmGrain) ∧
    (h.filmGrainPresent = true → h.filmGrainUpdate = false → ∃ r ∈ h.refs.refidx, ∃ p, c.refs r = some p ∧
      { h.filmGrain with seed := p.filmGrain.seed } = p.filmGrain) := by
  have := (hc.hdr.exec he).grain
  exact ⟨this.held.1, this.held.2, this.fresh, this.copied⟩

/-- C14: without new parameters: the bits are the present flag, the seed, a zero flag and the index; the index
must be one of this frame's references; the parameters are those of that frame with the seed just read. -/
theorem C14_copy (c : FhCtx) (b : FhBase) (refidx : List Nat) (hfg : c.seq.filmGrainPresent = true)
    (hshow : b.showFrame = true ∨ b.showableFrame = true) (ht : b.frameType = 1) (seed r : Nat) (hseed : seed < 65536)
    (hr : r < 8) (s : BitSt) (rest : List Bool)
    (hs : s.rem = [true] ++ natBits 16 seed ++ [false] ++ natBits 3 r ++ rest) :
    ((parseFilmGrain c b refidx).exec s).1 =
      if r ∈ refidx then (c.refs r).map (fun p => (true, false, { p.filmGrain with seed := seed })) else none := by
  unfold parseFilmGrain
  have e1 : (opt (c.seq.filmGrainPresent = true ∧ (b.showFrame = true ∨ b.showableFrame = true)) flag false).exec s =
      (some true, { s with rem := natBits 16 seed ++ [false] ++ natBits 3 r ++ rest }) := by
    unfold opt; rw [if_pos ⟨hfg, hshow⟩]
    exact reads_flag true s _ (by rw [hs]; simp)
  rw [exec_bind, e1]
  simp only [if_true]
  have e2 : (f 16).exec { s with rem := natBits 16 seed ++ [false] ++ natBits 3 r ++ rest } =
      (some seed, { s with rem := [false] ++ natBits 3 r ++ rest }) :=
    reads_f (n := 16) (by omega) { s with rem := natBits 16 seed ++ [false] ++ natBits 3 r ++ rest } _ (by simp)
  rw [exec_bind, e2]
  simp only
  have e3 : (opt (b.frameType = 1) flag true).exec { s with rem := [false] ++ natBits 3 r ++ rest } =
      (some false, { s with rem := natBits 3 r ++ rest }) := by
    unfold opt; rw [if_pos ht]
    exact reads_flag false { s with rem := [false] ++ natBits 3 r ++ rest } _ (by simp)
  rw [exec_bind, e3]
  simp only [Bool.false_eq_true, if_false]
  have e4 : (f 3).exec { s with rem := natBits 3 r ++ rest } = (some r, { s with rem := rest }) :=
    reads_f (n := 3) (by omega) { s with rem := natBits 3 r ++ rest } _ rfl
  rw [exec_bind, e4]
  simp only
  rw [exec_bind]
  by_cases hm : r ∈ refidx
  · rw [if_pos hm]
    have : (rejectIf (¬ r ∈ refidx)).exec { s with rem := rest } = (some (), { s with rem := rest }) := by
      unfold rejectIf; rw [if_neg (not_not.2 hm)]; rfl
    rw [this]
    cases c.refs r <;> rfl
  · rw [if_neg hm]
    have : (rejectIf (¬ r ∈ refidx)).exec { s with rem := rest } = (none, { s with rem := rest }) := by
      unfold rejectIf; rw [if_pos hm]; rfl
    rw [this]

/-! ## A concrete stream of headers meeting the hypotheses -/

section Demo

/-- Reader on a bit list. -/
def demoSt (l : List Bool) : BitSt := ⟨l.length, l, 0, false⟩

/-- 352x288, 4:2:0, order hints of 4 bits, all tools, film grain. -/
def demoSeqBits : List Bool :=
  natBits 3 0 ++ [false, false, false, false] ++ natBits 5 0 ++ natBits 12 0 ++ natBits 5 4 ++
  natBits 4 8 ++ natBits 4 8 ++ natBits 9 351 ++ natBits 9 287 ++ [false] ++
  [false, true, true, true, true, true, true, true, true, true, true, true] ++ natBits 3 3 ++
  [true, true, true] ++ [false, false, false, false] ++ natBits 2 0 ++ [false] ++ [true] ++ [true]

theorem demoSeq_some : ((parseSeqHdr false).exec (demoSt demoSeqBits)).1.isSome = true := by decide +kernel
/-- The demo sequence header. -/
def demoSeq : SeqHdr := ((parseSeqHdr false).exec (demoSt demoSeqBits)).1.get demoSeq_some

/-- A decoder state with the demo sequence header. -/
def demoCtx (refs : Nat → Option FrameHdr) : FhCtx := ⟨demoSeq, refs, 0, 0, false⟩

theorem exec_get {α : Type} {p : HProg α} {s : BitSt} (h : (p.exec s).1.isSome = true) :
    p.exec s = (some ((p.exec s).1.get h), (p.exec s).2) := by
  rw [Option.some_get]

/-- Quantizer to CDEF and restoration, common to the demo frames. -/
def demoTail : List Bool :=
  -- refresh context, uniform tiles, two columns, one row, update tile, bytes
  [false, true, true, false, false] ++ natBits 1 1 ++ natBits 2 1 ++
  natBits 8 100 ++ [false, false, false, false] ++ [false] ++ [false] ++
  natBits 6 5 ++ natBits 6 6 ++ natBits 6 7 ++ natBits 6 8 ++ natBits 3 1 ++ [false] ++
  natBits 2 1 ++ natBits 2 0 ++ natBits 6 9 ++ natBits 6 10 ++ natBits 6 0 ++ [true]

/-- A shown key frame. -/
def demoKeyBits : List Bool :=
  natBits 2 0 ++ [true, false, false, false] ++ natBits 4 0 ++ [false, false] ++ demoTail ++ [false] ++ [false]

theorem demoKey_some : ((parseNewFrameHdr (demoCtx (fun _ => none))).exec (demoSt demoKeyBits)).1.isSome = true := by
  decide +kernel
/-- The demo key frame. -/
def demoKey : FrameHdr := ((parseNewFrameHdr (demoCtx (fun _ => none))).exec (demoSt demoKeyBits)).1.get demoKey_some

/-- An inter frame at order hint `off` with explicit references `rs` or short signalling `sh`, and the bits `x`
from the compound reference selection on. -/
def demoInterBits (off : Nat) (rs : List Nat) (sh : Bool) (x : List Bool) : List Bool :=
  natBits 2 1 ++ [true, false, false, false, false] ++ natBits 4 off ++ natBits 3 0 ++ natBits 8 1 ++ [sh] ++
  (rs.map (natBits 3)).flatten ++ [false, false] ++ [true] ++ [true] ++ [false] ++ [false] ++ demoTail ++ x

/-- State after the key frame. -/
def demoCtx1 : FhCtx := demoCtx (fun _ => some demoKey)
/-- Inter frame at 1 with film grain of its own. -/
def demoBits1 : List Bool := demoInterBits 1 [0, 1, 2, 3, 4, 5, 6] false
  ([true, true, false] ++ List.replicate 7 false ++ [true] ++ natBits 16 1234 ++ [true] ++
   natBits 4 2 ++ natBits 8 10 ++ natBits 8 20 ++ natBits 8 30 ++ natBits 8 40 ++ [false] ++ natBits 4 0 ++ natBits 4 0 ++
   natBits 2 3 ++ natBits 2 1 ++ (List.replicate 4 (natBits 8 130)).flatten ++ natBits 2 1 ++ natBits 2 0 ++ [true, false])
theorem demo1_some : ((parseNewFrameHdr demoCtx1).exec (demoSt demoBits1)).1.isSome = true := by decide +kernel
/-- The demo inter frame. -/
def demo1 : FrameHdr := ((parseNewFrameHdr demoCtx1).exec (demoSt demoBits1)).1.get demo1_some

/-- State with the key frame in slots 0..3 and the inter frame in slots 4..7. -/
def demoCtx2 : FhCtx := demoCtx (fun i => some (if i < 4 then demoKey else demo1))
/-- Inter frame at 2 with short signalling (LAST is slot 5, GOLDEN is slot 0), skip mode, and film grain taken over from
slot 5. -/
def demoBits2 : List Bool := demoInterBits 2 [5, 0] true
  ([true, true, false, true] ++ List.replicate 7 false ++ [true] ++ natBits 16 77 ++ [false] ++ natBits 3 5)
theorem demo2_some : ((parseNewFrameHdr demoCtx2).exec (demoSt demoBits2)).1.isSome = true := by decide +kernel
/-- The second demo inter frame. -/
def demo2 : FrameHdr := ((parseNewFrameHdr demoCtx2).exec (demoSt demoBits2)).1.get demo2_some

theorem demoSeq_accepted : SeqAccepted demoSeq := ⟨false, _, _, exec_get demoSeq_some⟩
theorem ctx_reachable {q : SeqHdr} (hq : SeqAccepted q) (refs : Nat → Option FrameHdr)
    (h : ∀ i x, refs i = some x → Accepted x) : ReachableCtx ⟨q, refs, 0, 0, false⟩ := .mk hq h
theorem demo_reachable (refs : Nat → Option FrameHdr) (h : ∀ i x, refs i = some x → Accepted x) :
    ReachableCtx (demoCtx refs) := by
  unfold demoCtx
  exact ctx_reachable demoSeq_accepted refs h
theorem demoKey_accepted : Accepted demoKey := by
  unfold demoKey
  exact .mk (demo_reachable _ (fun i x h => by simp at h)) (exec_get demoKey_some)
theorem demoCtx1_reachable : ReachableCtx demoCtx1 :=
  demo_reachable _ (fun i x h => by rw [← Option.some.inj h]; exact demoKey_accepted)
theorem demo1_accepted : Accepted demo1 := by
  unfold demo1
  exact .mk demoCtx1_reachable (exec_get demo1_some)
theorem demoCtx2_reachable : ReachableCtx demoCtx2 :=
  demo_reachable _ (fun i x h => by
    rw [← Option.some.inj h]; split
    · exact demoKey_accepted
    · exact demo1_accepted)

-- the hypotheses of the theorems above are met with interesting values
example : ReachableCtx demoCtx2 ∧ (parseNewFrameHdr demoCtx2).exec (demoSt demoBits2) = (some demo2, ((parseNewFrameHdr demoCtx2).exec (demoSt demoBits2)).2) := by
  unfold demo2
  exact ⟨demoCtx2_reachable, exec_get demo2_some⟩
example : demo2.refs.size.width1 = 352 ∧ demo2.refs.size.height = 288 ∧ demo2.tiling.colStart = [0, 3, 6] ∧
    demo2.tiling.rowStart = [0, 5] ∧ demo2.tiling.update = 1 ∧ demo2.tiling.nBytes = 2 := by decide +kernel
example : demo2.refs.shortSignaling = true ∧ demo2.refs.refidx = [5, 7, 6, 0, 4, 3, 2] := by decide +kernel
example : demo2.skipModeRefs = some (0, 3) ∧ demo2.skipModeEnabled = true := by decide +kernel
example : demo1.filmGrain.yPoints = [(10, 20), (30, 40)] ∧ demo1.filmGrainUpdate = true := by decide +kernel
example : demo2.filmGrainPresent = true ∧ demo2.filmGrainUpdate = false ∧
    demo2.filmGrain = { demo1.filmGrain with seed := 77 } := by decide +kernel

end Demo

end Dav1d
