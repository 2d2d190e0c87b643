import Verif.Msac.Codes
/-!
# Properties C32-C35: entropy decoding

A tile decoder is an arbitrary adaptive program `prog : SProg α` over the symbol decoder calls of
src/msac.h; `prog.runC W` runs it with the `W`-bit window of src/msac.c (`none` = access outside a CDF array),
`prog.run` runs it with the symbol decoder of the AV1 specification, section 8.2 (`Spec.lean`). dav1d reports
a tile as broken iff `cnt <= -15` after decoding it (src/decode.c:2745).
-/
namespace Dav1d

/-- src/decode.c:2745: `if (ts->msac.cnt <= -15) return 1;` -/
def Msac.overread (s : Msac) : Bool := decide (s.cnt ≤ -15)

/-- The specification's conformance requirement on the end of a tile (8.2.4): SymbolMaxBits >= -14. -/
def SymDec.inBounds (t : SymDec) : Prop := -14 ≤ t.maxBits

/-- C32. For every window size of at least 32 bits, every tile, every adaptive sequence of decoder calls and
every set of CDFs: the C decoder stays inside its arrays, and if it does not report an overread, the symbols
(observed through the program's result) and the adapted CDFs are those of the AV1 specification. -/
theorem C32_entropy_exact {α : Type} (W : Nat) (hW : 32 ≤ W) (len : Nat → Nat) (prog : SProg α) (wf : prog.WF len)
    (st : Nat → List Nat) (hst : StoreOK len st) (data : List UInt8) (disableUpdate : Bool) :
    ∃ a st' s', prog.runC W st (Msac.init W data disableUpdate) = some (a, st', s') ∧
      (s'.overread = false →
        (prog.run (!disableUpdate) (fun j => toSpec (st j)) (SymDec.init data)).1 = a ∧
        (prog.run (!disableUpdate) (fun j => toSpec (st j)) (SymDec.init data)).2.1 = fun j => toSpec (st' j)) := by
  obtain ⟨h1, h2, h3⟩ := init_spec hW data disableUpdate
  obtain ⟨a, st', s', e1, e2, e3, e4⟩ := SProg.runC_spec hW prog st _ _ wf hst h1
  rw [h3] at e4
  refine ⟨a, st', s', e1, ?_⟩
  intro ho
  simp only [Msac.overread, decide_eq_false_iff_not] at ho
  rcases e4 with e4 | e4
  · exact ⟨e4.2.2.1, e4.2.2.2.1⟩
  · exact absurd e4.1 ho

theorem toSpec_inj {d e : List Nat} (hd : CdfOK d) (he : CdfOK e) (h : toSpec d = toSpec e) : d = e := by
  obtain ⟨ps, c, rfl, _, _, h3, _⟩ := hd
  obtain ⟨qs, c', rfl, _, _, h3', _⟩ := he
  rw [toSpec_append, toSpec_append] at h
  simp only [SpecCdf.mk.injEq] at h
  obtain ⟨h1, rfl⟩ := h
  have h1 := (List.append_inj' h1 rfl).1
  congr 1
  have hl : ps.length = qs.length := by simpa using congrArg List.length h1
  apply List.ext_getElem hl
  intro i hi hj
  have := congrArg (fun l => l[i]?) h1
  simp only [List.getElem?_map, List.getElem?_eq_getElem hi, List.getElem?_eq_getElem hj, Option.map_some,
    Option.some.injEq] at this
  have := h3 _ (List.getElem_mem hi)
  have := h3' _ (List.getElem_mem hj)
  omega

/-- C33. The overread check of dav1d fires exactly when the tile violates the specification's requirement
SymbolMaxBits >= -14; it does not depend on the window size. -/
theorem C33_overread_iff {α : Type} (W : Nat) (hW : 32 ≤ W) (len : Nat → Nat) (prog : SProg α) (wf : prog.WF len)
    (st : Nat → List Nat) (hst : StoreOK len st) (data : List UInt8) (disableUpdate : Bool) :
    ∃ a st' s', prog.runC W st (Msac.init W data disableUpdate) = some (a, st', s') ∧
      (s'.overread = false ↔ (prog.run (!disableUpdate) (fun j => toSpec (st j)) (SymDec.init data)).2.2.inBounds) := by
  obtain ⟨h1, h2, h3⟩ := init_spec hW data disableUpdate
  obtain ⟨a, st', s', e1, e2, e3, e4⟩ := SProg.runC_spec hW prog st _ _ wf hst h1
  rw [h3] at e4
  refine ⟨a, st', s', e1, ?_⟩
  simp only [Msac.overread, decide_eq_false_iff_not, SymDec.inBounds]
  simp only at e4
  rcases e4 with e4 | e4 <;> omega

/-- C32, 32-bit and 64-bit builds: for any two window sizes the decoders agree on whether the tile is
overread, and if it is not, on the program's result and on all adapted CDFs. -/
theorem C32_window_independent {α : Type} (W V : Nat) (hW : 32 ≤ W) (hV : 32 ≤ V) (len : Nat → Nat) (prog : SProg α)
    (wf : prog.WF len) (st : Nat → List Nat) (hst : StoreOK len st) (data : List UInt8) (disableUpdate : Bool) :
    ∃ a st' s' b su t', prog.runC W st (Msac.init W data disableUpdate) = some (a, st', s') ∧
      prog.runC V st (Msac.init V data disableUpdate) = some (b, su, t') ∧
      s'.overread = t'.overread ∧ (s'.overread = false → a = b ∧ st' = su) := by
  obtain ⟨h1, h2, h3⟩ := init_spec hW data disableUpdate
  obtain ⟨a, st', s', e1, e2, e3, e4⟩ := SProg.runC_spec hW prog st _ _ wf hst h1
  obtain ⟨g1, g2, g3⟩ := init_spec hV data disableUpdate
  obtain ⟨b, su, t', f1, f2, f3, f4⟩ := SProg.runC_spec hV prog st _ _ wf hst g1
  rw [h3] at e4
  rw [g3] at f4
  refine ⟨a, st', s', b, su, t', e1, f1, ?_, ?_⟩
  · simp only [Msac.overread]
    rw [decide_eq_decide]
    rcases e4 with e4 | e4 <;> rcases f4 with f4 | f4 <;> omega
  · intro ho
    simp only [Msac.overread, decide_eq_false_iff_not] at ho
    rcases e4 with e4 | e4
    · rcases f4 with f4 | f4
      · refine ⟨e4.2.2.1.symm.trans f4.2.2.1, ?_⟩
        have := e4.2.2.2.1.symm.trans f4.2.2.2.1
        funext j
        exact toSpec_inj (e2 j).1 (f2 j).1 (congrFun this j)
      · omega
    · omega

theorem norm_buf (W : Nat) (s : Msac) (d r : Nat) : (s.norm W d r).buf = s.buf := by
  unfold Msac.norm Msac.refill; simp only; split <;> rfl

theorem decodeBool_buf (W : Nat) (s : Msac) (f : Nat) : (s.decodeBool W f).2.buf = s.buf := by
  unfold Msac.decodeBool; simp only; split <;> exact norm_buf _ _ _ _

theorem SProg.runC_buf {α : Type} {W : Nat} (prog : SProg α) : ∀ st s a st' s',
    prog.runC W st s = some (a, st', s') → s'.buf = s.buf := by
  induction prog with
  | ret a => intro st s a' st' s' h; simp only [SProg.runC, Option.some.injEq, Prod.mk.injEq] at h; rw [h.2.2]
  | sym id k ih =>
    intro st s a' st' s' h
    simp only [SProg.runC] at h
    split at h
    · simp at h
    · rename_i v cdf s1 hd
      rw [ih _ _ _ _ _ _ h]
      unfold Msac.decodeSymbol at hd
      simp only at hd
      split at hd
      · simp at hd
      · simp only [Option.some.injEq, Prod.mk.injEq] at hd
        rw [← hd.2.2]; exact norm_buf _ _ _ _
  | boolAdapt id k ih =>
    intro st s a' st' s' h
    rw [ih _ _ _ _ _ _ h]; exact decodeBool_buf _ _ _
  | bool f k ih =>
    intro st s a' st' s' h
    rw [ih _ _ _ _ _ _ h]; exact decodeBool_buf _ _ _
  | equi k ih =>
    intro st s a' st' s' h
    rw [ih _ _ _ _ _ _ h, decodeBoolEqui_eq]; exact decodeBool_buf _ _ _

/-- C33, strict mode: when the tile was not overread, the trailing bits check reads only bytes of the tile, and
accepts exactly the tiles whose unread part is a one bit followed by zero bits. -/
theorem C33_trailing_bits {α : Type} (W : Nat) (hW : 32 ≤ W) (len : Nat → Nat) (prog : SProg α) (wf : prog.WF len)
    (st : Nat → List Nat) (hst : StoreOK len st) (data : List UInt8) (disableUpdate : Bool) :
    ∃ a st' s', prog.runC W st (Msac.init W data disableUpdate) = some (a, st', s') ∧
      (s'.overread = false → ∃ bad, s'.checkTrailing = some bad ∧ (bad = false ↔
        TrailingOK data (prog.run (!disableUpdate) (fun j => toSpec (st j)) (SymDec.init data)).2.2)) := by
  obtain ⟨h1, h2, h3⟩ := init_spec hW data disableUpdate
  obtain ⟨a, st', s', e1, e2, e3, e4⟩ := SProg.runC_spec hW prog st _ _ wf hst h1
  have hbuf := SProg.runC_buf prog _ _ _ _ _ e1
  rw [h3] at e4
  refine ⟨a, st', s', e1, ?_⟩
  intro ho
  simp only [Msac.overread, decide_eq_false_iff_not] at ho
  rcases e4 with e4 | e4
  · obtain ⟨p, hp⟩ := e4.2.2.2.2
    have := checkTrailing_spec hp
    rw [hbuf, h2] at this
    exact this
  · exact absurd e4.1 ho

/-- C34, one table: starting from a valid distribution (inverse cumulative probabilities non-increasing and
below 2^15, counter at most 32), any sequence of adaptations leaves a valid distribution of the same size. -/
theorem C34_adaptation_valid (d : List Nat) (h : CdfValid d) (syms : List Nat) (hs : ∀ x ∈ syms, x ≤ d.length - 1) :
    CdfValid (syms.foldl (fun d x => Msac.adaptCdf d (d.length - 1) x) d) ∧
    (syms.foldl (fun d x => Msac.adaptCdf d (d.length - 1) x) d).length = d.length := by
  induction syms generalizing d with
  | nil => exact ⟨h, rfl⟩
  | cons x xs ih =>
    obtain ⟨v1, v2⟩ := cdfValid_adapt h (hs x (by simp))
    have := ih _ v1 (fun y hy => by rw [v2]; exact hs y (by simp [hy]))
    rw [v2] at this
    exact this

/-- C34: with a valid distribution every symbol is decodable for every decoder range, and nothing but the
symbols `0..n` is ever decoded: for every window content below the range there is a result, and for every
symbol there is a window content that decodes to it. -/
theorem C34_all_symbols_decodable (d : List Nat) (h : CdfValid d) (rng : Nat) (lo : 2 ^ 15 ≤ rng) :
    (∀ x ≤ d.length - 1, ∃ c < rng, ∃ u v, Msac.symLoop d (d.length - 1) (rng >>> 8) c (d.length - 1 + 1) 0 rng = some (x, u, v)) ∧
    (∀ c < rng, ∃ x u v, Msac.symLoop d (d.length - 1) (rng >>> 8) c (d.length - 1 + 1) 0 rng = some (x, u, v) ∧
      x ≤ d.length - 1 ∧ v ≤ c ∧ c < u ∧ u ≤ rng) := by
  have hv := (cdfValid_iff h.ok).1 h
  obtain ⟨ps, count, rfl, h1, h2, h3, h4, h5⟩ := h
  have hn : (ps ++ [count]).length - 1 = ps.length := by simp
  rw [hn]
  rw [toSpec_append] at hv
  obtain ⟨v1, v2, v3, v4, _⟩ := hv
  simp only at v1 v2 v3 v4
  constructor
  · intro x hx
    have hx' : x < (ps.map (fun p => 32768 - p) ++ [32768]).length := by simp; omega
    obtain ⟨b1, b2⟩ := bounds_ok lo v3 v4 v2 hx'
    refine ⟨(EncIv.bounds rng (ps.map (fun p => 32768 - p) ++ [32768]) x).2, by omega, ?_⟩
    obtain ⟨val, u, v, e1, e2, _⟩ := symLoop_spec ps count rng (EncIv.bounds rng (ps.map (fun p => 32768 - p) ++ [32768]) x).2
      h3 h2 h5 lo ps.length 0 rng (by omega) (by omega) (by omega) (le_refl _)
    have := pick_eq (R := rng) (c := (EncIv.bounds rng (ps.map (fun p => 32768 - p) ++ [32768]) x).2)
      (ps.map (fun p => 32768 - p) ++ [32768]) rng 0 x v3 hx' (le_refl _) (by
        intro h0
        have : (EncIv.bounds rng (ps.map (fun p => 32768 - p) ++ [32768]) x).2 <
          (EncIv.bounds rng (ps.map (fun p => 32768 - p) ++ [32768]) x).1 := by omega
        conv at this => rhs; unfold EncIv.bounds
        simp only [if_neg h0] at this
        exact this)
    rw [List.drop_zero, this, Nat.zero_add] at e2
    refine ⟨u, v, ?_⟩
    rw [e1]
    simp only [Prod.mk.injEq] at e2
    rw [e2.1]
  · intro c hc
    obtain ⟨val, u, v, e1, e2, e3, e4, e5, e6⟩ := symLoop_spec ps count rng c h3 h2 h5 lo ps.length 0 rng (by omega) (by omega) hc (le_refl _)
    exact ⟨val, u, v, e1, e6, e3, e4, e5⟩

/-- C34, whole tile: whatever the data and the program do (even past the end of the tile), all tables keep
entries below 2^15 and counters at most 32, and the range register stays in [32768, 65535]. -/
theorem C34_tile_invariant {α : Type} (W : Nat) (hW : 32 ≤ W) (len : Nat → Nat) (prog : SProg α) (wf : prog.WF len)
    (st : Nat → List Nat) (hst : StoreOK len st) (data : List UInt8) (disableUpdate : Bool) :
    ∃ a st' s', prog.runC W st (Msac.init W data disableUpdate) = some (a, st', s') ∧
      StoreOK len st' ∧ 32768 ≤ s'.rng ∧ s'.rng ≤ 65535 := by
  obtain ⟨h1, h2, h3⟩ := init_spec hW data disableUpdate
  obtain ⟨a, st', s', e1, e2, e3, e4⟩ := SProg.runC_spec hW prog st _ _ wf hst h1
  have := e3.lo
  have := e3.hi
  exact ⟨a, st', s', e1, e2, by omega, by omega⟩

/-- C35. Let `prog` be any adaptive symbol program, and let the AV1 range coder, with valid CDFs, encode the
symbols `syms` (result `a`, adapted CDFs `spec'`, final interval `e'`). Every byte string in the final
interval, long enough not to count as overread, is decoded by dav1d to the same result and CDFs. -/
theorem C35_decode_encoded {α : Type} (W : Nat) (hW : 32 ≤ W) (len : Nat → Nat) (prog : SProg α) (wf : prog.WF len)
    (st : Nat → List Nat) (hst : ∀ id, CdfValid (st id) ∧ (st id).length = len id) (disableUpdate : Bool)
    (syms : List Nat) (a : α) (spec' : Nat → SpecCdf) (e' : EncIv)
    (henc : prog.encode (!disableUpdate) syms (fun j => toSpec (st j)) EncIv.init = some (a, spec', e'))
    (data : List UInt8) (hc : e'.Contains data) (hlen : e'.shift < 8 * data.length) :
    ∃ st' s', prog.runC W st (Msac.init W data disableUpdate) = some (a, st', s') ∧
      s'.overread = false ∧ (fun j => toSpec (st' j)) = spec' := by
  obtain ⟨h1, h2, h3⟩ := init_spec hW data disableUpdate
  have hok : StoreOK len st := fun id => ⟨(hst id).1.ok, (hst id).2⟩
  obtain ⟨a', st', s', e1, e2, e3, e4⟩ := SProg.runC_spec hW prog st _ _ wf hok h1
  rw [h3] at e4
  obtain ⟨_, hrun⟩ := SProg.encode_run (data := data) prog syms _ EncIv.init a spec' e' wf
    (fun i => (cdfValid_iff (hst i).1.ok).1 (hst i).1) (fun i => by
      obtain ⟨ps, c, hd, hl, _⟩ := (hst i).1
      have := (hst i).2
      simp only [hd, toSpec_append, List.length_append, List.length_map] at this ⊢
      simpa using this) henc hc (le_refl _) (by decide)
  obtain ⟨r1, r2, r3⟩ := hrun _ (encInv_init data)
  have hmb := r3.maxBits
  rcases e4 with e4 | e4
  · refine ⟨st', s', ?_, ?_, ?_⟩
    · rw [e1, ← e4.2.2.1, r1]
    · simp only [Msac.overread, decide_eq_false_iff_not]; omega
    · rw [← e4.2.2.2.1, r2]
  · rw [hmb] at e4
    push_cast at e4
    omega

/-- Cut a bit string into bytes (the last one zero padded). -/
def packBytes : List Bool → List UInt8
  | [] => []
  | b :: l => UInt8.ofNat (bitsVal (((b :: l) ++ List.replicate 7 false).take 8)) :: packBytes ((b :: l).drop 8)
termination_by l => l.length
decreasing_by simp; omega

theorem packBytes_bits : ∀ (n : Nat) (l : List Bool), l.length ≤ n →
    ∃ pad, pad < 8 ∧ bytesBits (packBytes l) = l ++ List.replicate pad false := by
  intro n
  induction n with
  | zero =>
    intro l hl
    have : l = [] := List.length_eq_zero_iff.1 (by omega)
    subst this
    exact ⟨0, by omega, by simp [packBytes, bytesBits]⟩
  | succ n ih =>
    intro l hl
    cases l with
    | nil => exact ⟨0, by omega, by simp [packBytes, bytesBits]⟩
    | cons b l =>
      rw [packBytes]
      set x := ((b :: l) ++ List.replicate 7 false).take 8 with hx
      have hxl : x.length = 8 := by rw [hx]; simp
      have hlt : bitsVal x < 256 := by have := bitsVal_lt x; rw [hxl] at this; simpa using this
      have hbyte : natBits 8 (UInt8.ofNat (bitsVal x)).toNat = x := by
        rw [UInt8.toNat_ofNat_of_lt' (by simpa using hlt)]
        have := natBits_bitsVal x
        rwa [hxl] at this
      have hc : bytesBits (UInt8.ofNat (bitsVal x) :: packBytes ((b :: l).drop 8)) = x ++ bytesBits (packBytes ((b :: l).drop 8)) := by
        have : bytesBits (UInt8.ofNat (bitsVal x) :: packBytes ((b :: l).drop 8)) =
          natBits 8 (UInt8.ofNat (bitsVal x)).toNat ++ bytesBits (packBytes ((b :: l).drop 8)) := rfl
        rw [this, hbyte]
      rw [hc]
      by_cases h8 : (b :: l).length < 8
      · have hd : (b :: l).drop 8 = [] := List.drop_eq_nil_of_le (by omega)
        refine ⟨8 - (b :: l).length, by simp only [List.length_cons]; omega, ?_⟩
        rw [hd, hx]
        simp only [packBytes, bytesBits, List.flatMap_nil, List.append_nil]
        rw [List.take_append, List.take_of_length_le (by omega), List.take_replicate, Nat.min_eq_left (by simp only [List.length_cons] at h8 ⊢; omega)]
      · obtain ⟨pad, hp, he⟩ := ih ((b :: l).drop 8) (by simp at hl ⊢; omega)
        refine ⟨pad, hp, ?_⟩
        rw [he, hx, List.take_append_of_le_length (by omega), ← List.append_assoc, List.take_append_drop]

/-- C35, existence: every symbol sequence that the range coder encodes has such a byte string, of the length
an encoder would write: the smallest whole number of bytes holding `15 + shift` bits. -/
theorem C35_output_exists {α : Type} (len : Nat → Nat) (prog : SProg α) (wf : prog.WF len)
    (st : Nat → SpecCdf) (hst : ∀ id, (st id).Valid ∧ (st id).probs.length = len id) (adapt : Bool)
    (syms : List Nat) (a : α) (spec' : Nat → SpecCdf) (e : EncIv)
    (henc : prog.encode adapt syms st EncIv.init = some (a, spec', e)) :
    ∃ data : List UInt8, e.Contains data ∧ e.shift < 8 * data.length ∧ 8 * data.length < 15 + e.shift + 8 := by
  obtain ⟨h, hr⟩ := SProg.encode_bound prog syms st EncIv.init a spec' e wf (fun i => (hst i).1) (fun i => (hst i).2) henc
    (le_refl _) (by decide) (by decide)
  obtain ⟨pad, hp, hb⟩ := packBytes_bits _ (natBits (15 + e.shift) e.low) (le_refl _)
  have hl := congrArg List.length hb
  rw [bytesBits_length, List.length_append, natBits_length', List.length_replicate] at hl
  refine ⟨packBytes (natBits (15 + e.shift) e.low), ?_, by omega, by omega⟩
  have : firstBits (packBytes (natBits (15 + e.shift) e.low)) (15 + e.shift) = e.low := by
    unfold firstBits
    rw [hb, List.append_assoc, List.take_append_of_le_length (by rw [natBits_length']),
      List.take_of_length_le (by rw [natBits_length']), bitsVal_natBits_of_lt (by omega)]
  unfold EncIv.Contains
  rw [this]
  omega

/-- C35, values coded with several symbols: for each value in the coder's domain, the bits written by the
specification's encoder make the C helper return that value and consume exactly those bits. -/
theorem C35_literal (n v : Nat) (h : v < 2 ^ n) (rest : List Nat) :
    (SProg.bools n).replay (bitSyms (natBits n v) ++ rest) = some (v, rest) := replay_bools n v h rest

/-- NS(n), AV1 spec 4.10.10. -/
theorem C35_uniform (n v : Nat) (hv : v < n) (rest : List Nat) :
    (SProg.uniform n).replay (bitSyms (nsBits n v) ++ rest) = some (v, rest) := replay_uniform n v (by omega) hv rest

/-- read_golomb, AV1 spec 5.11.39 (as long as the value fits into 32 bits). -/
theorem C35_golomb (v : Nat) (hv : v + 1 < 2 ^ 32) (rest : List Nat) :
    SProg.golomb.replay (bitSyms (uvlcBits v) ++ rest) = some (v, rest) := replay_golomb v hv rest

/-- decode_signed_subexp_with_ref_bool, AV1 spec 5.11.58, for the ranges dav1d uses it with (`n >> k == 8`). -/
theorem C35_subexp (k r x : Nat) (hr : r < 8 * 2 ^ k) (hx : x < 8 * 2 ^ k) (rest : List Nat) :
    (SProg.subexp r (8 * 2 ^ k) k).replay (bitSyms (subexpBoolRefBits (8 * 2 ^ k) k r x) ++ rest) = some (x, rest) :=
  replay_subexp k r x hr hx rest

/-- `replay` is what encoding means for the program's result, so C35_decode_encoded applies to these codes. -/
theorem C35_encode_replay {α : Type} (adapt : Bool) (prog : SProg α) (syms : List Nat) (st : Nat → SpecCdf) (e : EncIv)
    (a : α) (st' : Nat → SpecCdf) (e' : EncIv) (h : prog.encode adapt syms st e = some (a, st', e')) :
    prog.replay syms = some (a, []) := encode_replay prog syms st e a st' e' h

/-! ### Non-vacuity -/

/-- A program mixing all calls: a 3-symbol CDF, an adaptive boolean chosen by it, a literal and a fixed
probability. -/
def sampleProg : SProg (List Nat) :=
  .sym 0 fun a => .boolAdapt (if a = 2 then 1 else 2) fun b => (SProg.bools 3).bind fun l => .bool 20000 fun c => .sym 0 fun d =>
    .ret [a, b, l, c, d]

/-- Store used with `sampleProg`. -/
def sampleStore : Nat → List Nat
  | 0 => [20000, 9000, 0]
  | _ => [16384, 31]

theorem sampleStore_valid : ∀ id, CdfValid (sampleStore id) ∧ (sampleStore id).length = (if id = 0 then 3 else 2) := by
  intro id
  cases id with
  | zero => exact ⟨⟨[20000, 9000], 0, rfl, by decide, by decide, by decide, by decide, by decide⟩, rfl⟩
  | succ n => exact ⟨⟨[16384], 31, rfl, by decide, by decide, by decide, by decide, by decide⟩, rfl⟩

theorem sampleProg_wf : sampleProg.WF (fun id => if id = 0 then 3 else 2) := by
  simp only [sampleProg, SProg.WF, SProg.bools, SProg.boolsAcc, SProg.bind]
  intro a _
  refine ⟨by split <;> simp, ?_⟩
  intro b _ _ _ _ _ _ _
  exact ⟨by decide, fun _ _ _ _ => trivial⟩

-- hypotheses of C32-C34 hold for the sample, and decoding a real byte string with it is not trivial
example : StoreOK (fun id => if id = 0 then 3 else 2) sampleStore :=
  fun id => ⟨(sampleStore_valid id).1.ok, (sampleStore_valid id).2⟩
example : (sampleProg.runC 64 sampleStore (Msac.init 64 [0x9d, 0x31, 0x80] false)).map (fun r => (r.1, r.2.1 0, r.2.2.overread))
    = some ([1, 1, 2, 1, 1], [21546, 7911, 2], false) := by decide +kernel
example : (sampleProg.runC 32 sampleStore (Msac.init 32 [0x9d, 0x31, 0x80] false)).map (fun r => (r.1, r.2.1 0, r.2.2.overread))
    = some ([1, 1, 2, 1, 1], [21546, 7911, 2], false) := by decide +kernel
-- an overread is possible and detected
example : (sampleProg.runC 64 sampleStore (Msac.init 64 [0x9d] false)).map (fun r => r.2.2.overread) = some true := by
  decide +kernel
-- both outcomes of the trailing bits check occur
example : (Msac.init 64 [0x80, 0, 0] false).checkTrailing = some false := by decide +kernel
example : (Msac.init 64 [0x80, 0, 1] false).checkTrailing = some true := by decide +kernel
-- hypotheses of C35: symbols [2,1,(1,0,1),0,1] are encodable
example : (sampleProg.encode true [2, 1, 1, 0, 1, 0, 1] (fun j => toSpec (sampleStore j)) EncIv.init).map (fun r => (r.1, r.2.2))
    = some ([2, 1, 5, 0, 1], ⟨0xf380e8, 35106, 9⟩) := by decide +kernel
-- ... and these bytes lie in the interval
example : EncIv.Contains ⟨0xf380e8, 35106, 9⟩ [0xf3, 0x81, 0x00] := by
  unfold EncIv.Contains; decide +kernel
example : (sampleProg.runC 64 sampleStore (Msac.init 64 [0xf3, 0x81, 0x00] false)).map (fun r => r.1) = some [2, 1, 5, 0, 1] := by
  decide +kernel

end Dav1d
