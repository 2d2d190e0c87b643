import Verif.Msac.EncLemmas
/-! Validity of CDFs under adaptation, and encoding followed by decoding of whole programs. -/
namespace Dav1d

theorem div_mono_sub {f g m : Nat} (hm : 1 ≤ m) (h : f ≤ g) : f - f / m ≤ g - g / m := by
  obtain ⟨k, rfl⟩ := Nat.exists_eq_add_of_le h
  have h1 : (f + k) / m ≤ (f + k * m) / m := Nat.div_le_div_right (by nlinarith)
  rw [Nat.add_mul_div_right _ _ (by omega)] at h1
  have := Nat.div_le_self f m
  have := Nat.div_le_self (f + k) m
  omega

theorem div_mono_add {f g m : Nat} (hm : 1 ≤ m) (h : f ≤ g) (hg : g ≤ 32768) :
    f + (32768 - f) / m ≤ g + (32768 - g) / m := by
  have := div_mono_sub hm (show 32768 - g ≤ 32768 - f by omega)
  have := Nat.div_le_self (32768 - g) m
  have := Nat.div_le_self (32768 - f) m
  omega

theorem SpecCdf.Valid.le {c : SpecCdf} (h : c.Valid) {i : Nat} (hi : i < c.probs.length) : c.probs[i] ≤ 32768 := by
  obtain ⟨h1, h2, h3, h4, h5, h6⟩ := h
  rw [List.getLast?_eq_getElem?] at h5
  have hl : c.probs[c.probs.length - 1]'(by omega) = 32768 := by
    rw [List.getElem?_eq_getElem (by omega)] at h5; exact Option.some.inj h5
  by_cases he : i = c.probs.length - 1
  · subst he; omega
  · have := List.pairwise_iff_getElem.1 h3 i (c.probs.length - 1) hi (by omega) (by omega)
    omega

theorem SpecCdf.Valid.last {c : SpecCdf} (h : c.Valid) (hi : c.probs.length - 1 < c.probs.length) :
    c.probs[c.probs.length - 1] = 32768 := by
  obtain ⟨h1, h2, h3, h4, h5, h6⟩ := h
  rw [List.getLast?_eq_getElem?] at h5
  rw [List.getElem?_eq_getElem (by omega)] at h5; exact Option.some.inj h5

theorem valid_adapt {c : SpecCdf} (h : c.Valid) (x : Nat) : (c.adapt x).Valid := by
  have hle := fun i hi => h.le (i := i) hi
  have hlast := h.last
  obtain ⟨h1, h2, h3, h4, h5, h6⟩ := h
  unfold SpecCdf.adapt
  simp only
  generalize hr : 3 + (if c.count > 15 then 1 else 0) + (if c.count > 31 then 1 else 0) + min (Nat.log2 c.probs.length) 2 = rate
  have hrate : 3 ≤ rate := by omega
  have hm : 1 ≤ 2 ^ rate := Nat.one_le_two_pow
  -- value of each entry
  have hval : ∀ i (hi : i < c.probs.length),
      (if i < c.probs.length - 1 then
        if (if x ≤ i then 32768 else 0) < c.probs[i] then c.probs[i] - ((c.probs[i] - (if x ≤ i then 32768 else 0)) >>> rate)
        else c.probs[i] + (((if x ≤ i then 32768 else 0) - c.probs[i]) >>> rate)
      else c.probs[i]) =
      (if i < c.probs.length - 1 then
        if x ≤ i then c.probs[i] + (32768 - c.probs[i]) / 2 ^ rate else c.probs[i] - c.probs[i] / 2 ^ rate
      else 32768) := by
    intro i hi
    have hp := h4 _ (List.getElem_mem hi)
    have hl := hle i hi
    simp only [Nat.shiftRight_eq_div_pow]
    split
    · by_cases hxi : x ≤ i
      · simp only [if_pos hxi, if_neg (show ¬ 32768 < c.probs[i] by omega)]
      · simp only [if_neg hxi, if_pos hp, Nat.sub_zero]
    · have : i = c.probs.length - 1 := by omega
      subst this
      exact hlast hi
  refine ⟨by simpa using h1, by simpa using h2, ?_, ?_, ?_, ?_⟩
  · rw [List.pairwise_iff_getElem]
    intro i j hi hj hij
    rw [List.getElem_mapIdx, List.getElem_mapIdx]
    have hi' : i < c.probs.length := by simpa using hi
    have hj' : j < c.probs.length := by simpa using hj
    rw [hval i hi', hval j hj']
    have hmono := List.pairwise_iff_getElem.1 h3 i j hi' hj' hij
    have li := hle i hi'
    have lj := hle j hj'
    have d1 := Nat.div_le_self (32768 - c.probs[i]) (2 ^ rate)
    have d2 := div_mono_sub hm hmono
    have d3 := div_mono_add hm hmono lj
    rw [if_pos (show i < c.probs.length - 1 by omega)]
    have e1 : c.probs[i] - c.probs[i] / 2 ^ rate ≤ c.probs[i] := Nat.sub_le _ _
    by_cases hjl : j < c.probs.length - 1
    · rw [if_pos hjl]
      by_cases hxi : x ≤ i
      · rw [if_pos hxi, if_pos (by omega)]; exact d3
      · rw [if_neg hxi]
        split
        · exact le_trans e1 (le_trans hmono (Nat.le_add_right _ _))
        · exact d2
    · rw [if_neg hjl]
      split
      · omega
      · exact le_trans e1 li
  · intro f hf
    obtain ⟨i, hi, rfl⟩ := List.mem_iff_getElem.1 hf
    rw [List.getElem_mapIdx]
    have hi' : i < c.probs.length := by simpa using hi
    rw [hval i hi']
    have hp := h4 _ (List.getElem_mem hi')
    split
    · split
      · exact Nat.lt_of_lt_of_le hp (Nat.le_add_right _ _)
      · have := Nat.div_lt_self hp (show 1 < 2 ^ rate from Nat.one_lt_two_pow (by omega))
        omega
    · omega
  · rw [List.getLast?_eq_getElem?, List.length_mapIdx, List.getElem?_mapIdx, List.getElem?_eq_getElem (by omega)]
    simp only [Option.map_some]
    rw [hval _ (by omega), if_neg (by omega)]
  · simp only
    split <;> omega

theorem valid_half : (⟨halfCdf, 0⟩ : SpecCdf).Valid := by
  refine ⟨by decide, by decide, by decide, by decide, by decide, by decide⟩

theorem valid_bool {f : Nat} (hf : f < 32768) : (⟨[32768 - f, 32768], 0⟩ : SpecCdf).Valid := by
  refine ⟨by simp, by simp, by simp, ?_, by simp, by simp⟩
  intro g hg
  simp at hg
  omega

/-- A C array that is a valid distribution. -/
def CdfValid (d : List Nat) : Prop :=
  ∃ ps count, d = ps ++ [count] ∧ 1 ≤ ps.length ∧ ps.length ≤ 15 ∧ (∀ p ∈ ps, p < 32768) ∧ ps.Pairwise (· ≥ ·) ∧ count ≤ 32

theorem CdfValid.ok {d : List Nat} (h : CdfValid d) : CdfOK d := by
  obtain ⟨ps, count, h0, h1, h2, h3, _, h4⟩ := h
  exact ⟨ps, count, h0, h1, h2, h3, h4⟩

theorem cdfValid_iff {d : List Nat} (h : CdfOK d) : CdfValid d ↔ (toSpec d).Valid := by
  obtain ⟨ps, count, rfl, h1, h2, h3, h4⟩ := h
  rw [toSpec_append]
  constructor
  · rintro ⟨ps', count', e, _, _, _, hp, _⟩
    obtain ⟨rfl, rfl⟩ : ps = ps' ∧ count = count' := by
      have := List.append_inj' e rfl
      simpa using this
    refine ⟨by simp; omega, by simp; omega, ?_, ?_, by simp, h4⟩
    · rw [List.pairwise_append]
      refine ⟨?_, by simp, ?_⟩
      · rw [List.pairwise_map]
        exact hp.imp (fun hab => by omega)
      · intro a ha b hb
        simp at ha hb
        omega
    · intro f hf
      simp at hf
      rcases hf with ⟨a, ha, rfl⟩ | rfl
      · have := h3 a ha; omega
      · omega
  · rintro ⟨_, _, hp, _, _, _⟩
    refine ⟨ps, count, rfl, h1, h2, h3, ?_, h4⟩
    rw [List.pairwise_append] at hp
    have := hp.1
    rw [List.pairwise_map] at this
    refine List.Pairwise.imp_of_mem ?_ this
    intro a b ha hb hab
    have := h3 a ha
    have := h3 b hb
    omega

theorem cdfValid_adapt {d : List Nat} (h : CdfValid d) {x : Nat} (hx : x ≤ d.length - 1) :
    CdfValid (Msac.adaptCdf d (d.length - 1) x) ∧ (Msac.adaptCdf d (d.length - 1) x).length = d.length := by
  obtain ⟨a1, a2, a3⟩ := adapt_ok h.ok x hx
  refine ⟨?_, a2⟩
  rw [cdfValid_iff a1, a3]
  exact valid_adapt ((cdfValid_iff h.ok).1 h) x

theorem valid_storeSet {st : Nat → SpecCdf} (h : ∀ i, (st i).Valid) (id x : Nat) (b : Bool) :
    ∀ i, ((if b then storeSet st id ((st id).adapt x) else st) i).Valid := by
  intro i
  cases b
  · exact h i
  · simp only [if_true, storeSet]
    split
    · exact valid_adapt (h id) x
    · exact h i

theorem storeLen {st : Nat → SpecCdf} {len : Nat → Nat} (h : ∀ i, (st i).probs.length = len i) (id x : Nat) (b : Bool) :
    ∀ i, ((if b then storeSet st id ((st id).adapt x) else st) i).probs.length = len i := by
  intro i
  cases b
  · exact h i
  · simp only [if_true, storeSet]
    split
    · rename_i e; subst e; simp [SpecCdf.adapt, h]
    · exact h i

/-- Decoding data that lies in the final interval of the encoder gives back the encoded symbols. -/
theorem SProg.encode_run {α : Type} {adapt : Bool} {len : Nat → Nat} {data : List UInt8} (prog : SProg α) :
    ∀ syms st e a st' e', prog.WF len → (∀ i, (st i).Valid) → (∀ i, (st i).probs.length = len i) →
    prog.encode adapt syms st e = some (a, st', e') → e'.Contains data → 2 ^ 15 ≤ e.range → e.range < 2 ^ 16 →
    e.Contains data ∧
    ∀ t, EncInv data t e → (prog.run adapt st t).1 = a ∧ (prog.run adapt st t).2.1 = st' ∧ EncInv data (prog.run adapt st t).2.2 e' := by
  have step : ∀ (fs : List Nat), (∃ n, (⟨fs, n⟩ : SpecCdf).Valid) → ∀ (e : EncIv) (x : Nat), x < fs.length →
      2 ^ 15 ≤ e.range → e.range < 2 ^ 16 →
      ((2 ^ 15 ≤ (e.encode fs x).range ∧ (e.encode fs x).range < 2 ^ 16) ∧
      ((e.encode fs x).Contains data → e.Contains data ∧ ∀ t, EncInv data t e →
        (t.decode fs).1 = x ∧ EncInv data (t.decode fs).2 (e.encode fs x))) := by
    rintro fs ⟨n, h1, h2, h3, h4, h5, h6⟩ e x hx lo hi
    obtain ⟨b1, b2⟩ := bounds_ok lo h3 h4 h2 hx
    simp only at b1 b2
    exact ⟨encode_range hi (by omega) b1, fun hc => ⟨contains_before (by omega) b1 hc, fun t ht => encode_step ht h3 h4 h2 hx hc⟩⟩
  induction prog with
  | ret a =>
    intro syms st e a' st' e' _ _ _ h hc _ _
    cases syms with
    | nil =>
      simp only [SProg.encode, Option.some.injEq, Prod.mk.injEq] at h
      obtain ⟨rfl, rfl, rfl⟩ := h
      exact ⟨hc, fun t ht => ⟨rfl, rfl, ht⟩⟩
    | cons x xs => simp [SProg.encode] at h
  | sym id k ih =>
    intro syms st e a' st' e' hwf hval hlen h hc lo hi
    cases syms with
    | nil => simp [SProg.encode] at h
    | cons x xs =>
      simp only [SProg.encode] at h
      split at h
      · rename_i hx
        obtain ⟨⟨r1, r2⟩, hs⟩ := step _ ⟨_, hval id⟩ e x hx lo hi
        obtain ⟨i1, i2⟩ := ih x xs _ _ _ _ _ (hwf x (hlen id ▸ hx)) (valid_storeSet hval id x adapt) (storeLen hlen id x adapt) h hc r1 r2
        obtain ⟨c1, c2⟩ := hs i1
        refine ⟨c1, fun t ht => ?_⟩
        obtain ⟨d1, d2⟩ := c2 t ht
        simp only [SProg.run, d1]
        exact i2 _ d2
      · simp at h
  | boolAdapt id k ih =>
    intro syms st e a' st' e' hwf hval hlen h hc lo hi
    cases syms with
    | nil => simp [SProg.encode] at h
    | cons x xs =>
      simp only [SProg.encode] at h
      split at h
      · rename_i hx
        obtain ⟨⟨r1, r2⟩, hs⟩ := step _ ⟨_, hval id⟩ e x (by rw [hlen id, hwf.1]; exact hx) lo hi
        obtain ⟨i1, i2⟩ := ih x xs _ _ _ _ _ (hwf.2 x hx) (valid_storeSet hval id x adapt) (storeLen hlen id x adapt) h hc r1 r2
        obtain ⟨c1, c2⟩ := hs i1
        refine ⟨c1, fun t ht => ?_⟩
        obtain ⟨d1, d2⟩ := c2 t ht
        simp only [SProg.run, d1]
        exact i2 _ d2
      · simp at h
  | bool f k ih =>
    intro syms st e a' st' e' hwf hval hlen h hc lo hi
    cases syms with
    | nil => simp [SProg.encode] at h
    | cons x xs =>
      simp only [SProg.encode] at h
      split at h
      · rename_i hx
        obtain ⟨⟨r1, r2⟩, hs⟩ := step _ ⟨_, valid_bool hwf.1⟩ e x hx lo hi
        obtain ⟨i1, i2⟩ := ih x xs _ _ _ _ _ (hwf.2 x hx) hval hlen h hc r1 r2
        obtain ⟨c1, c2⟩ := hs i1
        refine ⟨c1, fun t ht => ?_⟩
        obtain ⟨d1, d2⟩ := c2 t ht
        simp only [SProg.run, d1]
        exact i2 _ d2
      · simp at h
  | equi k ih =>
    intro syms st e a' st' e' hwf hval hlen h hc lo hi
    cases syms with
    | nil => simp [SProg.encode] at h
    | cons x xs =>
      simp only [SProg.encode] at h
      split at h
      · rename_i hx
        obtain ⟨⟨r1, r2⟩, hs⟩ := step _ ⟨_, valid_half⟩ e x hx lo hi
        obtain ⟨i1, i2⟩ := ih x xs _ _ _ _ _ (hwf x hx) hval hlen h hc r1 r2
        obtain ⟨c1, c2⟩ := hs i1
        refine ⟨c1, fun t ht => ?_⟩
        obtain ⟨d1, d2⟩ := c2 t ht
        simp only [SProg.run, d1]
        exact i2 _ d2
      · simp at h

/-- The encoder's interval stays inside the bit strings of its length. -/
theorem SProg.encode_bound {α : Type} {adapt : Bool} {len : Nat → Nat} (prog : SProg α) :
    ∀ syms st e a st' e', prog.WF len → (∀ i, (st i).Valid) → (∀ i, (st i).probs.length = len i) →
    prog.encode adapt syms st e = some (a, st', e') → 2 ^ 15 ≤ e.range → e.range < 2 ^ 16 →
    e.low + e.range ≤ 2 ^ (15 + e.shift) → e'.low + e'.range ≤ 2 ^ (15 + e'.shift) ∧ 0 < e'.range := by
  have step : ∀ (fs : List Nat), (∃ n, (⟨fs, n⟩ : SpecCdf).Valid) → ∀ (e : EncIv) (x : Nat), x < fs.length →
      2 ^ 15 ≤ e.range → e.range < 2 ^ 16 → e.low + e.range ≤ 2 ^ (15 + e.shift) →
      2 ^ 15 ≤ (e.encode fs x).range ∧ (e.encode fs x).range < 2 ^ 16 ∧
      (e.encode fs x).low + (e.encode fs x).range ≤ 2 ^ (15 + (e.encode fs x).shift) := by
    rintro fs ⟨n, h1, h2, h3, h4, h5, h6⟩ e x hx lo hi hb
    obtain ⟨b1, b2⟩ := bounds_ok lo h3 h4 h2 hx
    simp only at b1 b2
    obtain ⟨r1, r2⟩ := encode_range hi (by omega) b1
    refine ⟨r1, r2, ?_⟩
    unfold EncIv.encode
    simp only
    rw [← Nat.add_mul, ← Nat.add_assoc, Nat.pow_add]
    exact Nat.mul_le_mul_right _ (by omega)
  induction prog with
  | ret a =>
    intro syms st e a' st' e' _ _ _ h lo _ hb
    cases syms with
    | nil =>
      simp only [SProg.encode, Option.some.injEq, Prod.mk.injEq] at h
      obtain ⟨rfl, rfl, rfl⟩ := h
      exact ⟨hb, by omega⟩
    | cons x xs => simp [SProg.encode] at h
  | sym id k ih =>
    intro syms st e a' st' e' hwf hval hlen h lo hi hb
    cases syms with
    | nil => simp [SProg.encode] at h
    | cons x xs =>
      simp only [SProg.encode] at h
      split at h
      · rename_i hx
        obtain ⟨r1, r2, r3⟩ := step _ ⟨_, hval id⟩ e x hx lo hi hb
        exact ih x xs _ _ _ _ _ (hwf x (hlen id ▸ hx)) (valid_storeSet hval id x adapt) (storeLen hlen id x adapt) h r1 r2 r3
      · simp at h
  | boolAdapt id k ih =>
    intro syms st e a' st' e' hwf hval hlen h lo hi hb
    cases syms with
    | nil => simp [SProg.encode] at h
    | cons x xs =>
      simp only [SProg.encode] at h
      split at h
      · rename_i hx
        obtain ⟨r1, r2, r3⟩ := step _ ⟨_, hval id⟩ e x (by rw [hlen id, hwf.1]; exact hx) lo hi hb
        exact ih x xs _ _ _ _ _ (hwf.2 x hx) (valid_storeSet hval id x adapt) (storeLen hlen id x adapt) h r1 r2 r3
      · simp at h
  | bool f k ih =>
    intro syms st e a' st' e' hwf hval hlen h lo hi hb
    cases syms with
    | nil => simp [SProg.encode] at h
    | cons x xs =>
      simp only [SProg.encode] at h
      split at h
      · rename_i hx
        obtain ⟨r1, r2, r3⟩ := step _ ⟨_, valid_bool hwf.1⟩ e x hx lo hi hb
        exact ih x xs _ _ _ _ _ (hwf.2 x hx) hval hlen h r1 r2 r3
      · simp at h
  | equi k ih =>
    intro syms st e a' st' e' hwf hval hlen h lo hi hb
    cases syms with
    | nil => simp [SProg.encode] at h
    | cons x xs =>
      simp only [SProg.encode] at h
      split at h
      · rename_i hx
        obtain ⟨r1, r2, r3⟩ := step _ ⟨_, valid_half⟩ e x hx lo hi hb
        exact ih x xs _ _ _ _ _ (hwf x hx) hval hlen h r1 r2 r3
      · simp at h

theorem natBits_bitsVal_aux (n : Nat) : ∀ l : List Bool, l.length = n → natBits l.length (bitsVal l) = l := by
  induction n with
  | zero => intro l h; rw [List.length_eq_zero_iff.1 h]; rfl
  | succ n ih' =>
    intro l h
    rcases List.eq_nil_or_concat l with rfl | ⟨l, b, rfl⟩
    · simp at h
    have ih := ih' l (by simpa using h)
    rw [List.concat_eq_append, List.length_append, bitsVal_append]
    have h1 : ([b] : List Bool).length = 1 := rfl
    have h2 : bitsVal [b] = b.toNat := by simp [bitsVal]
    rw [h1, h2]
    have h3 : natBits (l.length + 1) (bitsVal l * 2 ^ 1 + b.toNat) =
      natBits l.length ((bitsVal l * 2 ^ 1 + b.toNat) / 2) ++ [(bitsVal l * 2 ^ 1 + b.toNat) % 2 == 1] := rfl
    have hb : b.toNat < 2 := by cases b <;> decide
    rw [h3, show (bitsVal l * 2 ^ 1 + b.toNat) / 2 = bitsVal l by omega, ih,
      show (bitsVal l * 2 ^ 1 + b.toNat) % 2 = b.toNat by omega]
    cases b <;> rfl

theorem natBits_bitsVal (l : List Bool) : natBits l.length (bitsVal l) = l := natBits_bitsVal_aux _ l rfl

end Dav1d
