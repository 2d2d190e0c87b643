import Verif.Msac.Lemmas
/-! Refinement for whole symbol programs. -/
namespace Dav1d

/-- A CDF array as stored by dav1d: 1..15 inverse cumulative probabilities below 2^15 and a counter of at
most 32. -/
def CdfOK (d : List Nat) : Prop :=
  ∃ ps count, d = ps ++ [count] ∧ 1 ≤ ps.length ∧ ps.length ≤ 15 ∧ (∀ p ∈ ps, p < 32768) ∧ count ≤ 32

/-- The specification's array for a dav1d array: dav1d stores `32768 - cdf[i]` and omits the final 32768. -/
def toSpec (d : List Nat) : SpecCdf :=
  { probs := d.dropLast.map (fun p => 32768 - p) ++ [32768], count := d.getLastD 0 }

theorem boundary_le {R p left : Nat} (hR : 2 ^ 15 ≤ R) (hp : p < 32768) (hl : left ≤ 16) :
    ((R >>> 8) * (p >>> 6)) >>> 1 + 4 * left ≤ R := by
  simp only [Nat.shiftRight_eq_div_pow]
  have h1 : p / 2 ^ 6 ≤ 511 := by omega
  have h2 : R / 2 ^ 8 * (p / 2 ^ 6) ≤ R / 2 ^ 8 * 511 := Nat.mul_le_mul_left _ h1
  omega

theorem symLoop_spec (ps : List Nat) (count R c : Nat) (hps : ∀ p ∈ ps, p < 32768) (hlen : ps.length ≤ 15)
    (hcount : count ≤ 32) (hR : 2 ^ 15 ≤ R) (m : Nat) : ∀ val u, ps.length - val = m → val ≤ ps.length → c < u → u ≤ R →
    ∃ val' u' v', Msac.symLoop (ps ++ [count]) ps.length (R >>> 8) c (m + 1) val u = some (val', u', v') ∧
      SymDec.pick R c ((ps.drop val).map (fun p => 32768 - p) ++ [32768]) u val = (val', u', v') ∧
      v' ≤ c ∧ c < u' ∧ u' ≤ R ∧ val' ≤ ps.length := by
  induction m with
  | zero =>
    intro val u hm hle hcu huR
    have hv : val = ps.length := by omega
    subst hv
    refine ⟨ps.length, u, 0, ?_, ?_, Nat.zero_le _, hcu, huR, le_refl _⟩
    · have : (ps ++ [count])[ps.length]? = some count := by simp
      unfold Msac.symLoop
      rw [this]
      have hz : count >>> 6 = 0 := by rw [Nat.shiftRight_eq_div_pow]; omega
      simp [hz]
    · simp [SymDec.pick, SymDec.boundary]
  | succ m ih =>
    intro val u hm hle hcu huR
    have hlt : val < ps.length := by omega
    have hp := hps ps[val] (List.getElem_mem hlt)
    have hget : (ps ++ [count])[val]? = some ps[val] := by
      rw [List.getElem?_append_left hlt, List.getElem?_eq_getElem hlt]
    have hb := boundary_le (R := R) (p := ps[val]) (left := ps.length - val) hR hp (by omega)
    unfold Msac.symLoop
    rw [hget, List.drop_eq_getElem_cons hlt]
    simp only [List.map_cons, List.cons_append, SymDec.pick]
    have hbd : SymDec.boundary R (32768 - ps[val]) ((ps.drop (val + 1)).map (fun p => 32768 - p) ++ [32768]).length
        = ((R >>> 8) * (ps[val] >>> 6)) >>> 1 + 4 * (ps.length - val) := by
      unfold SymDec.boundary
      rw [show 32768 - (32768 - ps[val]) = ps[val] by omega]
      congr 2
      simp; omega
    rw [hbd]
    by_cases hc : c < ((R >>> 8) * (ps[val] >>> 6)) >>> 1 + 4 * (ps.length - val)
    · rw [if_pos hc, if_pos hc]
      exact ih (val + 1) _ (by omega) (by omega) hc hb
    · rw [if_neg hc, if_neg hc]
      exact ⟨val, u, _, rfl, rfl, by omega, hcu, huR, by omega⟩

theorem toSpec_append (ps : List Nat) (count : Nat) :
    toSpec (ps ++ [count]) = { probs := ps.map (fun p => 32768 - p) ++ [32768], count := count } := by
  simp [toSpec]

theorem log_rate (n : Nat) (h1 : 1 ≤ n) (h2 : n ≤ 15) :
    min (Nat.log2 (n + 1)) 2 = 1 + (if n > 2 then 1 else 0) := by
  interval_cases n <;> decide

theorem adapt_ok {d : List Nat} (h : CdfOK d) (val : Nat) (hv : val ≤ d.length - 1) :
    CdfOK (Msac.adaptCdf d (d.length - 1) val) ∧ (Msac.adaptCdf d (d.length - 1) val).length = d.length ∧
    toSpec (Msac.adaptCdf d (d.length - 1) val) = (toSpec d).adapt val := by
  obtain ⟨ps, count, rfl, h1, h2, h3, h4⟩ := h
  have hn : (ps ++ [count]).length - 1 = ps.length := by simp
  rw [hn] at hv ⊢
  have hcount : (ps ++ [count]).getD ps.length 0 = count := by simp
  unfold Msac.adaptCdf
  rw [hcount]
  simp only
  set rate := 4 + count >>> 4 + (if ps.length > 2 then 1 else 0) with hrate
  set g : Nat → Nat → Nat := fun i p => if i < val then p + ((32768 - p) >>> rate)
    else if i < ps.length then p - (p >>> rate) else count + (if count < 32 then 1 else 0) with hg
  have hmap : (ps ++ [count]).mapIdx g = ps.mapIdx g ++ [count + (if count < 32 then 1 else 0)] := by
    rw [List.mapIdx_append]
    simp [hg, show ¬ ps.length < val by omega]
  rw [hmap]
  refine ⟨⟨ps.mapIdx g, _, rfl, by simpa using h1, by simpa using h2, ?_, ?_⟩, by simp, ?_⟩
  · intro p hp
    obtain ⟨i, hi, rfl⟩ := List.mem_iff_getElem.1 hp
    rw [List.getElem_mapIdx]
    have hi' : i < ps.length := by simpa using hi
    have hpi := h3 ps[i] (List.getElem_mem hi')
    simp only [hg]
    split
    · rw [Nat.shiftRight_eq_div_pow]
      have : (32768 - ps[i]) / 2 ^ rate < 32768 - ps[i] :=
        Nat.div_lt_self (by omega) (Nat.one_lt_two_pow (by omega))
      omega
    · exact lt_of_le_of_lt (Nat.sub_le _ _) hpi
  · split <;> omega
  · rw [toSpec_append, toSpec_append]
    unfold SpecCdf.adapt
    simp only [List.length_append, List.length_map, List.length_cons, List.length_nil, Nat.zero_add, Nat.add_sub_cancel]
    congr 1
    · rw [List.mapIdx_append]
      congr 1
      · apply List.ext_getElem
        · simp
        · intro i hi1 hi2
          simp only [List.getElem_map, List.getElem_mapIdx]
          have hi' : i < ps.length := by simpa using hi1
          have hpi := h3 ps[i] (List.getElem_mem hi')
          have hr : 3 + (if count > 15 then 1 else 0) + (if count > 31 then 1 else 0) + min (Nat.log2 (ps.length + 1)) 2 = rate := by
            have hlog : min (Nat.log2 (ps.length + 1)) 2 = 1 + (if ps.length > 2 then 1 else 0) := by
              exact log_rate _ h1 h2
            have hcnt : (if count > 15 then 1 else 0) + (if count > 31 then 1 else 0) = count >>> 4 := by
              interval_cases count <;> rfl
            rw [hrate, hlog, ← hcnt]; ring
          simp only [hr, if_pos hi']
          simp only [hg]
          by_cases hiv : i < val
          · have hle : (32768 - ps[i]) >>> rate ≤ 32768 - ps[i] := by
              rw [Nat.shiftRight_eq_div_pow]; exact Nat.div_le_self _ _
            rw [if_pos hiv, if_neg (show ¬ val ≤ i by omega), if_pos (by omega), Nat.sub_zero]
            omega
          · have hle : ps[i] >>> rate ≤ ps[i] := by
              rw [Nat.shiftRight_eq_div_pow]; exact Nat.div_le_self _ _
            rw [if_neg hiv, if_pos hi', if_pos (show val ≤ i by omega), if_neg (by omega),
              show 32768 - (32768 - ps[i]) = ps[i] by omega]
            generalize ps[i] >>> rate = z at *
            omega
      · simp
    · split <;> rfl

/-- Both decoders have run too far past the end of the tile. -/
def Overrun (W : Nat) (s : Msac) (t : SymDec) : Prop := s.cnt ≤ -15 ∧ t.maxBits ≤ -15 ∧ MSafe W s

/-- One decoding step of C and specification stays related. -/
def StepRel (W : Nat) (s s' : Msac) (t' : SymDec) : Prop :=
  ((∃ p, MInv W s' t' p) ∨ Overrun W s' t') ∧ s'.buf = s.buf ∧ s'.allowUpdate = s.allowUpdate

theorem stepRel_norm {W : Nat} (hW : 32 ≤ W) {s : Msac} {t : SymDec} {p : Nat} (h : MInv W s t p) {u v : Nat}
    (hv : v ≤ t.value) (hu : t.value < u) (hur : u ≤ s.rng) :
    StepRel W s (s.norm W (s.dif - v * 2 ^ (W - 16)) (u - v)) (t.renorm (u - v) (t.value - v)) := by
  obtain ⟨h1, h2, h3⟩ := norm_spec hW h hv hu hur
  refine ⟨?_, h2, h3⟩
  rcases h1 with h1 | h1
  · exact Or.inl ⟨_, h1⟩
  · exact Or.inr h1

theorem decodeSymbol_spec {W : Nat} (hW : 32 ≤ W) {s : Msac} {t : SymDec} {p : Nat} (h : MInv W s t p)
    {d : List Nat} (hd : CdfOK d) :
    ∃ s', s.decodeSymbol W d = some ((t.decode (toSpec d).probs).1,
        if s.allowUpdate then Msac.adaptCdf d (d.length - 1) (t.decode (toSpec d).probs).1 else d, s') ∧
      StepRel W s s' (t.decode (toSpec d).probs).2 ∧ (t.decode (toSpec d).probs).1 ≤ d.length - 1 := by
  obtain ⟨ps, count, rfl, h1, h2, h3, h4⟩ := hd
  have hn : (ps ++ [count]).length - 1 = ps.length := by simp
  have htop : s.dif >>> (W - 16) = t.value := by rw [Nat.shiftRight_eq_div_pow]; exact h.top
  have hval := h.val
  rw [h.range] at hval
  obtain ⟨val, u, v, e1, e2, e3, e4, e5, e6⟩ :=
    symLoop_spec ps count s.rng t.value h3 h2 h4 h.lo ps.length 0 s.rng (by omega) (by omega) hval (le_refl _)
  rw [List.drop_zero] at e2
  have hdec : t.decode (toSpec (ps ++ [count])).probs = (val, t.renorm (u - v) (t.value - v)) := by
    unfold SymDec.decode
    rw [toSpec_append, h.range]
    simp only
    rw [e2]
  rw [hdec]
  unfold Msac.decodeSymbol
  simp only [hn]
  rw [htop, e1]
  refine ⟨_, rfl, ?_, e6⟩
  rw [Nat.shiftLeft_eq]
  exact stepRel_norm hW h e3 e4 e5

theorem decodeBool_spec {W : Nat} (hW : 32 ≤ W) {s : Msac} {t : SymDec} {p : Nat} (h : MInv W s t p)
    {f : Nat} (hf : f < 32768) :
    (s.decodeBool W f).1 = (t.decode [32768 - f, 32768]).1 ∧
      StepRel W s (s.decodeBool W f).2 (t.decode [32768 - f, 32768]).2 ∧ (s.decodeBool W f).1 ≤ 1 := by
  have hval := h.val
  rw [h.range] at hval
  have hb := boundary_le (R := s.rng) (p := f) (left := 1) h.lo hf (by omega)
  rw [Nat.mul_one] at hb
  have htop := h.top
  unfold Msac.decodeBool SymDec.decode SymDec.pick SymDec.boundary
  rw [h.range]
  simp only [List.length_cons, List.length_nil, Nat.zero_add, Nat.mul_one]
  rw [show 32768 - (32768 - f) = f by omega]
  set v := ((s.rng >>> 8) * (f >>> 6)) >>> 1 + 4 with hv
  have hcmp : s.dif ≥ v <<< (W - 16) ↔ ¬ t.value < v := by
    rw [Nat.shiftLeft_eq, ← htop, Nat.not_lt, Nat.le_div_iff_mul_le (Nat.two_pow_pos _)]
  by_cases hc : t.value < v
  · rw [if_neg (by rw [hcmp]; simpa using hc), if_pos hc]
    unfold SymDec.pick SymDec.boundary
    simp only [List.length_nil, Nat.sub_self, Nat.zero_shiftRight, Nat.mul_zero, Nat.add_zero, Nat.not_lt_zero,
      if_false, Nat.sub_zero]
    refine ⟨by trivial, ?_, by omega⟩
    have := stepRel_norm hW h (u := v) (v := 0) (Nat.zero_le _) hc hb
    simpa using this
  · rw [if_pos (hcmp.2 hc), if_neg hc]
    refine ⟨rfl, ?_, by simp⟩
    simp only
    rw [Nat.shiftLeft_eq]
    exact stepRel_norm hW h (by omega) hval (le_refl _)

theorem decodeBoolEqui_eq (W : Nat) (s : Msac) : s.decodeBoolEqui W = s.decodeBool W 16384 := by
  unfold Msac.decodeBoolEqui Msac.decodeBool
  have : ((s.rng >>> 8) * (16384 >>> 6)) >>> 1 = (s.rng >>> 8) <<< 7 := by
    rw [Nat.shiftRight_eq_div_pow _ 1, Nat.shiftLeft_eq, show (16384 >>> 6 : Nat) = 256 from rfl]
    omega
  simp only [this]

theorem boolAdapt_cdf {p count : Nat} (bit : Nat) (hb : bit ≤ 1) :
    ([if bit = 1 then p + ((32768 - p) >>> (4 + (count >>> 4))) else p - (p >>> (4 + (count >>> 4))),
      count + (if count < 32 then 1 else 0)] : List Nat) = Msac.adaptCdf [p, count] 1 bit := by
  have : bit = 0 ∨ bit = 1 := by omega
  rcases this with rfl | rfl <;> simp [Msac.adaptCdf, List.mapIdx_cons]

theorem decodeBoolAdapt_spec {W : Nat} (hW : 32 ≤ W) {s : Msac} {t : SymDec} {p : Nat} (h : MInv W s t p)
    {d : List Nat} (hd : CdfOK d) (h2 : d.length = 2) :
    (s.decodeBoolAdapt W d).1 = (t.decode (toSpec d).probs).1 ∧
    (s.decodeBoolAdapt W d).2.1 = (if s.allowUpdate then Msac.adaptCdf d (d.length - 1) (t.decode (toSpec d).probs).1 else d) ∧
      StepRel W s (s.decodeBoolAdapt W d).2.2 (t.decode (toSpec d).probs).2 ∧ (s.decodeBoolAdapt W d).1 ≤ 1 := by
  obtain ⟨ps, count, rfl, h1, _, h3, h4⟩ := hd
  obtain ⟨q, rfl⟩ : ∃ q, ps = [q] := by
    rcases ps with _ | ⟨q, _ | ⟨r, ps⟩⟩
    · simp at h1
    · exact ⟨q, rfl⟩
    · simp at h2
  have hq : q < 32768 := h3 q (by simp)
  obtain ⟨b1, b2, b3⟩ := decodeBool_spec hW h hq
  have hsp : (toSpec ([q] ++ [count])).probs = [32768 - q, 32768] := by rw [toSpec_append]; rfl
  rw [hsp]
  refine ⟨b1, ?_, b2, b3⟩
  unfold Msac.decodeBoolAdapt
  simp only [List.cons_append, List.nil_append, List.getD_cons_zero, List.getD_cons_succ]
  rw [← b1]
  split
  · exact boolAdapt_cdf _ b3
  · rfl

theorem init_spec {W : Nat} (hW : 32 ≤ W) (data : List UInt8) (dis : Bool) :
    StepRel W { buf := data, pos := 0, dif := 0, rng := 0, cnt := 0, allowUpdate := !dis } (Msac.init W data dis)
      (SymDec.init data) := by
  have hbuf : (Msac.init W data dis).buf = data := by simp [Msac.init, Msac.refill]
  have hau : (Msac.init W data dis).allowUpdate = !dis := by simp [Msac.init, Msac.refill]
  refine ⟨?_, hbuf, hau⟩
  -- specification side
  have hsv : (SymDec.init data).value = sv (bytesBits data) 0 15 := by
    have hr := renorm_value (bytesBits data) ⟨bytesBits data, 0, 0, 8 * (data.length : Int)⟩ 0 0 1 (by simp)
      (by rw [bytesBits_length]; push_cast; ring)
    have e15 : 15 - Nat.log2 1 = 15 := by decide
    rw [e15, Nat.zero_mul, Nat.zero_add] at hr
    rw [← hr.1]
    unfold SymDec.renorm SymDec.init
    simp only [e15]
    have e : (max 0 (8 * (data.length : Int))).toNat = data.length * 8 := by omega
    rw [e, Nat.min_comm, Nat.xor_comm]
    congr 1
  have hrem : (SymDec.init data).rem = (bytesBits data).drop 15 := by
    unfold SymDec.init
    simp only
    by_cases h : data.length * 8 ≤ 15
    · rw [min_eq_left h, List.drop_eq_nil_of_le (by simp; omega), List.drop_eq_nil_of_le (by simp; omega)]
    · rw [min_eq_right (by omega)]
  -- C side
  have hcv : (W : Int) - (-15) - 24 = ((W - 9 : Nat) : Int) := by omega
  obtain ⟨k, low', pos', c', g1, g2, g3, g4, g5, g6, g7⟩ :=
    refillLoop_spec' data _ 0 0 0 (W - 9) rfl (Nat.two_pow_pos _) (fun _ => rfl) (by omega)
  simp only [Nat.zero_mul, Nat.zero_add, Nat.mul_zero, Nat.add_zero] at g1
  have hi : Msac.init W data dis = (⟨data, pos', sv (bytesBits data) 0 k * 2 ^ (W - 9 + 8 - k) + low', 0x8000, W - c' - 24, !dis⟩ : Msac) := by
    unfold Msac.init Msac.refill
    simp only [hcv, g1]
  rw [hi]
  have hk15 : 15 ≤ k := by omega
  have hsplit : sv (bytesBits data) 0 k = sv (bytesBits data) 0 15 * 2 ^ (k - 15) + sv (bytesBits data) 15 (k - 15) := by
    have := sv_add (bytesBits data) 0 15 (k - 15)
    rw [Nat.zero_add] at this
    rw [← this]; congr 1; omega
  have hvlt : sv (bytesBits data) 0 15 < 2 ^ 15 := sv_lt _ _ _
  have mk : ∀ L low, L ≤ W - 16 →
      sv (bytesBits data) 0 k * 2 ^ (W - 9 + 8 - k) + low' = (sv (bytesBits data) 0 15 * 2 ^ L + sv (bytesBits data) 15 L) * 2 ^ (W - 16 - L) + low →
      low < 2 ^ (W - 16 - L) →
      (((W : Int) - c' - 24 = (L : Int) ∧ 15 + L = 8 * pos' ∧ (pos' < data.length → low = 0)) ∨
       ((W : Int) - c' - 24 < 0 ∧ -15 < (W : Int) - c' - 24 ∧ pos' = data.length ∧ (15 : Int) + ((W : Int) - c' - 24) = 8 * data.length ∧ (W : Int) - 15 + ((W : Int) - c' - 24) ≤ L)) →
      ∃ p, MInv W (⟨data, pos', sv (bytesBits data) 0 k * 2 ^ (W - 9 + 8 - k) + low', 0x8000, W - c' - 24, !dis⟩ : Msac) (SymDec.init data) p := by
    intro L low q1 q2 q3 q4
    refine ⟨15, le_refl _, g5, hrem, by simp [SymDec.init], rfl, by norm_num, by norm_num, ?_, L, low, q1, ?_, q3, ?_⟩
    · rw [hsv]; exact hvlt
    · rw [hsv]; exact q2
    · exact q4
  rcases g7 with ⟨a1, a2, a3, a4⟩ | ⟨a1, a2, a3⟩
  · left
    refine mk (k - 15) low' (by omega) ?_ ?_ (Or.inl ⟨by omega, by omega, fun _ => a4⟩)
    · rw [hsplit]; congr 3; omega
    · rw [show W - 16 - (k - 15) = W - 9 + 8 - k by omega]; exact g2
  · by_cases hneg : (W : Int) - c' - 24 < 0
    · by_cases h15 : (W : Int) - c' - 24 ≤ -15
      · right
        refine ⟨h15, ?_, by norm_num, by norm_num, ?_⟩
        · simp only [SymDec.init]; omega
        · have hk : k = W - 1 := by omega
          have hl0 : low' = 0 := by
            rw [show W - 9 + 8 - k = 0 by omega] at g2; simpa using g2
          have := sv_lt (bytesBits data) 0 k
          simp only
          rw [show W - 9 + 8 - k = 0 by omega, hl0, Nat.pow_zero, Nat.mul_one, Nat.add_zero]
          calc _ < 2 ^ k := this
            _ = 0x8000 * 2 ^ (W - 16) := by
              rw [show (0x8000 : Nat) = 2 ^ 15 from rfl, ← Nat.pow_add]; congr 1; omega
      · left
        refine mk (k - 15) low' (by omega) ?_ ?_ (Or.inr ⟨hneg, by omega, a2, by omega, by omega⟩)
        · rw [hsplit]; congr 3; omega
        · rw [show W - 16 - (k - 15) = W - 9 + 8 - k by omega]; exact g2
    · left
      set L' := ((W : Int) - c' - 24).toNat with hL'
      have hle : L' ≤ k - 15 := by omega
      refine mk L' (sv (bytesBits data) (15 + L') (k - 15 - L') * 2 ^ (W - 9 + 8 - k) + low') (by omega) ?_ ?_
        (Or.inl ⟨by omega, by omega, fun hh => by omega⟩)
      · rw [hsplit]
        have e1 : sv (bytesBits data) 15 (k - 15) = sv (bytesBits data) 15 L' * 2 ^ (k - 15 - L') + sv (bytesBits data) (15 + L') (k - 15 - L') := by
          rw [← sv_add]; congr 1; omega
        have e2 : 2 ^ (k - 15) = 2 ^ L' * 2 ^ (k - 15 - L') := by rw [← Nat.pow_add]; congr 1; omega
        have e3 : 2 ^ (W - 16 - L') = 2 ^ (k - 15 - L') * 2 ^ (W - 9 + 8 - k) := by rw [← Nat.pow_add]; congr 1; omega
        rw [e1, e2, e3]; ring
      · have e3 : 2 ^ (W - 16 - L') = 2 ^ (k - 15 - L') * 2 ^ (W - 9 + 8 - k) := by rw [← Nat.pow_add]; congr 1; omega
        have q := sv_lt (bytesBits data) (15 + L') (k - 15 - L')
        rw [e3]
        calc _ < sv (bytesBits data) (15 + L') (k - 15 - L') * 2 ^ (W - 9 + 8 - k) + 2 ^ (W - 9 + 8 - k) := by omega
          _ = (sv (bytesBits data) (15 + L') (k - 15 - L') + 1) * 2 ^ (W - 9 + 8 - k) := by ring
          _ ≤ _ := Nat.mul_le_mul_right _ q


/-! ### Behaviour after running past the end of the tile -/

theorem top_lt {W : Nat} {s : Msac} (h : MSafe W s) : s.dif >>> (W - 16) < s.rng := by
  rw [Nat.shiftRight_eq_div_pow, Nat.div_lt_iff_lt_mul (Nat.two_pow_pos _)]
  exact h.top

theorem decodeSymbol_safe {W : Nat} {s : Msac} (h : MSafe W s) (hc : s.cnt < 0) {d : List Nat} (hd : CdfOK d) :
    ∃ val s', s.decodeSymbol W d = some (val, if s.allowUpdate then Msac.adaptCdf d (d.length - 1) val else d, s') ∧
      val ≤ d.length - 1 ∧ MSafe W s' ∧ s'.cnt ≤ s.cnt ∧ s'.allowUpdate = s.allowUpdate := by
  obtain ⟨ps, count, rfl, h1, h2, h3, h4⟩ := hd
  have hn : (ps ++ [count]).length - 1 = ps.length := by simp
  obtain ⟨val, u, v, e1, e2, e3, e4, e5, e6⟩ :=
    symLoop_spec ps count s.rng (s.dif >>> (W - 16)) h3 h2 h4 h.lo ps.length 0 s.rng (by omega) (by omega) (top_lt h) (le_refl _)
  rw [Nat.shiftRight_eq_div_pow] at e3 e4
  rw [Nat.le_div_iff_mul_le (Nat.two_pow_pos _)] at e3
  rw [Nat.div_lt_iff_lt_mul (Nat.two_pow_pos _)] at e4
  have key := norm_safe h e3 e4 e5 hc
  unfold Msac.decodeSymbol
  simp only [hn]
  rw [e1]
  refine ⟨_, _, rfl, e6, ?_⟩
  rw [Nat.shiftLeft_eq]
  exact key

theorem decodeBool_safe {W : Nat} {s : Msac} (h : MSafe W s) (hc : s.cnt < 0) {f : Nat} (hf : f < 32768) :
    (s.decodeBool W f).1 ≤ 1 ∧ MSafe W (s.decodeBool W f).2 ∧ (s.decodeBool W f).2.cnt ≤ s.cnt ∧
      (s.decodeBool W f).2.allowUpdate = s.allowUpdate := by
  have hb := boundary_le (R := s.rng) (p := f) (left := 1) h.lo hf (by omega)
  rw [Nat.mul_one] at hb
  unfold Msac.decodeBool
  simp only [Nat.shiftLeft_eq]
  split
  · rename_i hge
    exact ⟨by simp, norm_safe h hge h.top (le_refl _) hc⟩
  · rename_i hge
    have := norm_safe (u := ((s.rng >>> 8) * (f >>> 6)) >>> 1 + 4) (v := 0) h (by simp) (by omega) hb hc
    simpa using this

theorem renorm_maxBits (t : SymDec) (r v : Nat) : (t.renorm r v).maxBits ≤ t.maxBits := by
  simp only [SymDec.renorm]; omega

theorem decode_maxBits (t : SymDec) (c : List Nat) : (t.decode c).2.maxBits ≤ t.maxBits := renorm_maxBits _ _ _

/-- Running the specification never increases SymbolMaxBits. -/
theorem SProg.run_maxBits {α : Type} (adapt : Bool) (p : SProg α) : ∀ st t,
    (p.run adapt st t).2.2.maxBits ≤ t.maxBits := by
  induction p with
  | ret a => intro st t; simp [SProg.run]
  | sym id k ih => intro st t; exact le_trans (ih _ _ _) (decode_maxBits _ _)
  | boolAdapt id k ih => intro st t; exact le_trans (ih _ _ _) (decode_maxBits _ _)
  | bool f k ih => intro st t; exact le_trans (ih _ _ _) (decode_maxBits _ _)
  | equi k ih => intro st t; exact le_trans (ih _ _ _) (decode_maxBits _ _)

/-! ### Whole programs -/

/-- Programs that call the decoder as dav1d does: fixed probabilities below 2^15, `decode_bool_adapt` only on
two-symbol CDFs. `len id` is the size of CDF array `id`. -/
def SProg.WF {α : Type} (len : Nat → Nat) : SProg α → Prop
  | .ret _ => True
  | .sym id k => ∀ v, v < len id → (k v).WF len
  | .boolAdapt id k => len id = 2 ∧ ∀ v, v < 2 → (k v).WF len
  | .bool f k => f < 32768 ∧ ∀ v, v < 2 → (k v).WF len
  | .equi k => ∀ v, v < 2 → (k v).WF len

/-- All CDFs of a store are valid and have the given sizes. -/
def StoreOK (len : Nat → Nat) (st : Nat → List Nat) : Prop := ∀ id, CdfOK (st id) ∧ (st id).length = len id

theorem storeOK_set {len : Nat → Nat} {st : Nat → List Nat} (h : StoreOK len st) (id : Nat) {d : List Nat}
    (hd : CdfOK d) (hl : d.length = len id) : StoreOK len (storeSet st id d) := by
  intro j
  unfold storeSet
  split
  · rename_i e; subst e; exact ⟨hd, hl⟩
  · exact h j

theorem storeSet_self {β : Type} (st : Nat → β) (id : Nat) : storeSet st id (st id) = st := by
  funext j; unfold storeSet; split
  · rename_i e; rw [e]
  · rfl

theorem toSpec_storeSet (st : Nat → List Nat) (id : Nat) (d : List Nat) :
    (fun j => toSpec (storeSet st id d j)) = storeSet (fun j => toSpec (st j)) id (toSpec d) := by
  funext j; unfold storeSet; split <;> rfl

theorem CdfOK.len2 {d : List Nat} (h : CdfOK d) (h2 : d.length = 2) : ∃ q count, d = [q, count] ∧ q < 32768 := by
  obtain ⟨ps, count, rfl, h1, _, h3, _⟩ := h
  rcases ps with _ | ⟨q, _ | ⟨r, ps⟩⟩
  · simp at h1
  · exact ⟨q, count, rfl, h3 q (by simp)⟩
  · simp at h2

theorem CdfOK.pos {d : List Nat} (h : CdfOK d) : 2 ≤ d.length := by
  obtain ⟨ps, count, rfl, h1, _, h3, _⟩ := h
  simp; omega

theorem adapt_store {len : Nat → Nat} {st : Nat → List Nat} (h : StoreOK len st) (id val : Nat) (b : Bool)
    (hv : val ≤ (st id).length - 1) :
    StoreOK len (storeSet st id (if b then Msac.adaptCdf (st id) ((st id).length - 1) val else st id)) ∧
    (fun j => toSpec (storeSet st id (if b then Msac.adaptCdf (st id) ((st id).length - 1) val else st id) j)) =
      (if b then storeSet (fun j => toSpec (st j)) id ((toSpec (st id)).adapt val) else fun j => toSpec (st j)) := by
  obtain ⟨a1, a2, a3⟩ := adapt_ok (h id).1 val hv
  cases b
  · simp only [Bool.false_eq_true, if_false]
    rw [storeSet_self]
    exact ⟨h, rfl⟩
  · simp only [if_true]
    refine ⟨storeOK_set h id a1 (a2.trans (h id).2), ?_⟩
    rw [toSpec_storeSet, a3]

theorem SProg.runC_over {α : Type} {W : Nat} {len : Nat → Nat} (p : SProg α) : ∀ st s, p.WF len → StoreOK len st →
    MSafe W s → s.cnt ≤ -15 → ∃ a st' s', p.runC W st s = some (a, st', s') ∧ StoreOK len st' ∧ s'.cnt ≤ -15 ∧ MSafe W s' := by
  induction p with
  | ret a => intro st s _ hst hs hc; exact ⟨a, st, s, rfl, hst, hc, hs⟩
  | sym id k ih =>
    intro st s hwf hst hs hc
    obtain ⟨val, s', e1, e2, e3, e4, e5⟩ := decodeSymbol_safe hs (by omega) (hst id).1
    have hpos := (hst id).1.pos
    have hl := (hst id).2
    obtain ⟨b1, _⟩ := adapt_store hst id val s.allowUpdate e2
    simp only [SProg.runC, e1]
    exact ih val _ _ (hwf val (by omega)) b1 e3 (by omega)
  | boolAdapt id k ih =>
    intro st s hwf hst hs hc
    obtain ⟨h2, hwf⟩ := hwf
    obtain ⟨q, count, hq, hq'⟩ := (hst id).1.len2 ((hst id).2.trans h2)
    obtain ⟨b1, b2, b3, b4⟩ := decodeBool_safe hs (by omega) hq'
    simp only [SProg.runC]
    have e1 : (s.decodeBoolAdapt W (st id)).1 = (s.decodeBool W q).1 := by rw [hq]; rfl
    have e3 : (s.decodeBoolAdapt W (st id)).2.2 = (s.decodeBool W q).2 := by rw [hq]; rfl
    have e2 : (s.decodeBoolAdapt W (st id)).2.1 =
        if s.allowUpdate then Msac.adaptCdf (st id) ((st id).length - 1) (s.decodeBool W q).1 else st id := by
      rw [hq]
      unfold Msac.decodeBoolAdapt
      simp only [List.getD_cons_zero, List.getD_cons_succ]
      split
      · exact boolAdapt_cdf _ b1
      · rfl
    rw [e1, e2, e3]
    refine ih _ _ _ (hwf _ (by omega)) (adapt_store hst id _ s.allowUpdate ?_).1 b2 (by omega)
    rw [hq]; simpa using b1
  | bool f k ih =>
    intro st s hwf hst hs hc
    obtain ⟨b1, b2, b3, b4⟩ := decodeBool_safe hs (by omega) hwf.1
    simp only [SProg.runC]
    exact ih _ _ _ (hwf.2 _ (by omega)) hst b2 (by omega)
  | equi k ih =>
    intro st s hwf hst hs hc
    obtain ⟨b1, b2, b3, b4⟩ := decodeBool_safe (f := 16384) hs (by omega) (by omega)
    simp only [SProg.runC, decodeBoolEqui_eq]
    exact ih _ _ _ (hwf _ (by omega)) hst b2 (by omega)

theorem MInv.ok {W s t p} (h : MInv W s t p) : -15 < s.cnt ∧ -15 < t.maxBits := by
  obtain ⟨L, low, h1, h2, h3, h4⟩ := h.win
  have := h.maxBits
  have := h.hpos
  rcases h4 with h4 | h4 <;> omega

/-- Main refinement theorem. -/
theorem SProg.runC_spec {α : Type} {W : Nat} (hW : 32 ≤ W) {len : Nat → Nat} (prog : SProg α) : ∀ st s t,
    prog.WF len → StoreOK len st → ((∃ p, MInv W s t p) ∨ Overrun W s t) →
    ∃ a st' s', prog.runC W st s = some (a, st', s') ∧ StoreOK len st' ∧ MSafe W s' ∧
      ((-15 < s'.cnt ∧ -15 < (prog.run s.allowUpdate (fun j => toSpec (st j)) t).2.2.maxBits ∧
        (prog.run s.allowUpdate (fun j => toSpec (st j)) t).1 = a ∧
        (prog.run s.allowUpdate (fun j => toSpec (st j)) t).2.1 = (fun j => toSpec (st' j)) ∧
        ∃ p, MInv W s' (prog.run s.allowUpdate (fun j => toSpec (st j)) t).2.2 p) ∨
       (s'.cnt ≤ -15 ∧ (prog.run s.allowUpdate (fun j => toSpec (st j)) t).2.2.maxBits ≤ -15)) := by
  induction prog with
  | ret a =>
    intro st s t hwf hst h
    rcases h with ⟨p, h⟩ | h
    · exact ⟨a, st, s, rfl, hst, h.safe, Or.inl ⟨h.ok.1, h.ok.2, rfl, rfl, p, h⟩⟩
    · exact ⟨a, st, s, rfl, hst, h.2.2, Or.inr ⟨h.1, h.2.1⟩⟩
  | sym id k ih =>
    intro st s t hwf hst h
    rcases h with ⟨p, h⟩ | h
    · obtain ⟨s', e1, ⟨r1, r2, r3⟩, e3⟩ := decodeSymbol_spec hW h (hst id).1
      have hpos := (hst id).1.pos
      have hl := (hst id).2
      obtain ⟨b1, b2⟩ := adapt_store hst id _ s.allowUpdate e3
      simp only [SProg.runC, e1, SProg.run]
      have := ih _ _ s' _ (hwf (t.decode (toSpec (st id)).probs).1 (by omega)) b1 r1
      rw [b2, r3] at this
      exact this
    · obtain ⟨a, st', s', c1, c2, c3, c4⟩ := SProg.runC_over (SProg.sym id k) st s hwf hst h.2.2 h.1
      exact ⟨a, st', s', c1, c2, c4, Or.inr ⟨c3, le_trans (SProg.run_maxBits _ _ _ _) h.2.1⟩⟩
  | boolAdapt id k ih =>
    intro st s t hwf hst h
    rcases h with ⟨p, h⟩ | h
    · obtain ⟨e1, e2, ⟨r1, r2, r3⟩, e3⟩ := decodeBoolAdapt_spec hW h (hst id).1 ((hst id).2.trans hwf.1)
      have hpos := (hst id).1.pos
      have hl := (hst id).2
      obtain ⟨b1, b2⟩ := adapt_store hst id (t.decode (toSpec (st id)).probs).1 s.allowUpdate (by omega)
      simp only [SProg.runC, SProg.run]
      rw [e2, e1]
      have := ih _ _ (s.decodeBoolAdapt W (st id)).2.2 _ (hwf.2 (t.decode (toSpec (st id)).probs).1 (by omega)) b1 r1
      rw [b2, r3] at this
      exact this
    · obtain ⟨a, st', s', c1, c2, c3, c4⟩ := SProg.runC_over (SProg.boolAdapt id k) st s hwf hst h.2.2 h.1
      exact ⟨a, st', s', c1, c2, c4, Or.inr ⟨c3, le_trans (SProg.run_maxBits _ _ _ _) h.2.1⟩⟩
  | bool f k ih =>
    intro st s t hwf hst h
    rcases h with ⟨p, h⟩ | h
    · obtain ⟨e1, ⟨r1, r2, r3⟩, e3⟩ := decodeBool_spec hW h hwf.1
      simp only [SProg.runC, SProg.run]
      have := ih _ st (s.decodeBool W f).2 _ (hwf.2 (s.decodeBool W f).1 (by omega)) hst r1
      rw [r3] at this
      rw [← e1]
      exact this
    · obtain ⟨a, st', s', c1, c2, c3, c4⟩ := SProg.runC_over (SProg.bool f k) st s hwf hst h.2.2 h.1
      exact ⟨a, st', s', c1, c2, c4, Or.inr ⟨c3, le_trans (SProg.run_maxBits _ _ _ _) h.2.1⟩⟩
  | equi k ih =>
    intro st s t hwf hst h
    rcases h with ⟨p, h⟩ | h
    · obtain ⟨e1, ⟨r1, r2, r3⟩, e3⟩ := decodeBool_spec (f := 16384) hW h (by omega)
      simp only [SProg.runC, SProg.run, decodeBoolEqui_eq, halfCdf]
      have := ih _ st (s.decodeBool W 16384).2 _ (hwf (s.decodeBool W 16384).1 (by omega)) hst r1
      rw [r3] at this
      rw [e1] at this ⊢
      exact this
    · obtain ⟨a, st', s', c1, c2, c3, c4⟩ := SProg.runC_over (SProg.equi k) st s hwf hst h.2.2 h.1
      exact ⟨a, st', s', c1, c2, c4, Or.inr ⟨c3, le_trans (SProg.run_maxBits _ _ _ _) h.2.1⟩⟩

end Dav1d
