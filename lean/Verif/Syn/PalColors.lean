import Verif.Syn.PalSpec
/-!
# Palettes: reading of the colours
-/
set_option linter.unusedVariables false
namespace Dav1d.Syn.Pal

variable {ok : Req → Nat → Prop}

/-! ## The cache -/

theorem push_put (cache : List Nat) (v : Nat) : push cache v = Av1.put cache v := by
  unfold push Av1.put
  rcases List.eq_nil_or_concat cache with rfl | ⟨xs, x, rfl⟩
  · simp
  · rw [List.concat_eq_append]
    simp only [List.getLast?_append, List.getLast?_singleton, Option.some_or, Option.some.injEq, List.length_append, List.length_singleton, Nat.add_sub_cancel,
      List.getD_eq_getElem?_getD]
    rw [List.getElem?_append_right (Nat.le_refl _)]
    simp only [Nat.sub_self, List.getElem?_cons_zero, Option.getD_some]
    by_cases h : x = v
    · rw [if_pos h, if_neg (by rintro (h1 | h1); omega; exact h1 h.symm)]
    · rw [if_neg h, if_pos (Or.inr fun h1 => h h1.symm)]

/-- The colours from `i` on. -/
def restFrom (A : Av1.Around) (i : Nat) : List Nat := (List.range' i (A.n - i)).map A.color

theorem rest_cons (A : Av1.Around) {i : Nat} (h : i < A.n) : restFrom A i = A.color i :: restFrom A (i + 1) := by
  unfold restFrom
  rw [show A.n - i = (A.n - (i + 1)) + 1 by omega, List.range'_succ]; rfl

theorem rest_nil (A : Av1.Around) {i : Nat} (h : ¬ i < A.n) : restFrom A i = [] := by
  unfold restFrom
  rw [show A.n - i = 0 by omega]; rfl

theorem fill_merge (A L : Av1.Around) : ∀ (k ai li : Nat) (cache : List Nat), (A.n - ai) + (L.n - li) ≤ k →
    fillCache (restFrom L li) (restFrom A ai) cache = Av1.mergeCache A L ai li cache
  | k, ai, li, cache, hk => by
    rw [Av1.mergeCache]
    by_cases ha : ai < A.n
    · by_cases hl : li < L.n
      · rw [if_pos ⟨ha, hl⟩, rest_cons A ha, rest_cons L hl, fillCache]
        match k, hk with
        | 0, hk => omega
        | k + 1, hk =>
        by_cases hlt : L.color li < A.color ai
        · rw [if_pos hlt, if_pos hlt, push_put, ← rest_cons A ha]
          exact fill_merge A L k _ _ _ (by omega)
        · rw [if_neg hlt, if_neg hlt, push_put]
          by_cases he : A.color ai = L.color li
          · rw [if_pos he, if_pos he.symm]
            exact fill_merge A L k _ _ _ (by omega)
          · rw [if_neg he, if_neg (fun h => he h.symm), ← rest_cons L hl]
            exact fill_merge A L k _ _ _ (by omega)
      · rw [if_neg (fun h => hl h.2), if_pos ha, rest_cons A ha, rest_nil L hl, fillCache, push_put, ← rest_nil L hl]
        match k, hk with
        | 0, hk => omega
        | k + 1, hk => exact fill_merge A L k _ _ _ (by omega)
    · by_cases hl : li < L.n
      · rw [if_neg (fun h => ha h.1), if_neg ha, if_pos hl, rest_cons L hl, rest_nil A ha, fillCache, push_put, ← rest_nil A ha]
        match k, hk with
        | 0, hk => omega
        | k + 1, hk => exact fill_merge A L k _ _ _ (by omega)
      · rw [if_neg (fun h => ha h.1), if_neg ha, if_neg hl, rest_nil A ha, rest_nil L hl, fillCache]

/-- In increasing order. -/
abbrev Up (l : List Nat) : Prop := l.Pairwise (· ≤ ·)

theorem push_up {cache : List Nat} {v : Nat} (h : Up cache) (hv : ∀ x ∈ cache, x ≤ v) : Up (push cache v) := by
  unfold push
  split
  · exact h
  · exact List.pairwise_append.2 ⟨h, List.pairwise_singleton _ _, fun x hx y hy => by rw [List.mem_singleton.1 hy]; exact hv x hx⟩

theorem push_mem {cache : List Nat} {v x : Nat} (h : x ∈ push cache v) : x ∈ cache ∨ x = v := by
  unfold push at h
  split at h
  · exact .inl h
  · rcases List.mem_append.1 h with h | h
    · exact .inl h
    · exact .inr (List.mem_singleton.1 h)

/-- The entries of the cache are in increasing order. -/
theorem fill_up : ∀ (l a cache : List Nat), Up l → Up a → Up cache → (∀ x ∈ cache, ∀ y ∈ l ++ a, x ≤ y) → Up (fillCache l a cache)
  | [], [], cache, _, _, h3, _ => by rw [fillCache]; exact h3
  | l :: ls, [], cache, h1, h2, h3, h4 => by
    rw [fillCache]
    obtain ⟨h5, h6⟩ := List.pairwise_cons.1 h1
    refine fill_up ls [] _ h6 h2 (push_up h3 fun x hx => h4 x hx l (by simp)) fun x hx y hy => ?_
    rcases push_mem hx with hx | rfl
    · exact h4 x hx y (by simp at hy ⊢; exact .inr hy)
    · exact h5 y (by simpa using hy)
  | [], a :: as, cache, h1, h2, h3, h4 => by
    rw [fillCache]
    obtain ⟨h5, h6⟩ := List.pairwise_cons.1 h2
    refine fill_up [] as _ h1 h6 (push_up h3 fun x hx => h4 x hx a (by simp)) fun x hx y hy => ?_
    rcases push_mem hx with hx | rfl
    · exact h4 x hx y (by simp at hy ⊢; exact .inr hy)
    · exact h5 y (by simpa using hy)
  | l :: ls, a :: as, cache, h1, h2, h3, h4 => by
    rw [fillCache]
    obtain ⟨p1, p2⟩ := List.pairwise_cons.1 h1
    obtain ⟨q1, q2⟩ := List.pairwise_cons.1 h2
    by_cases hlt : l < a
    · rw [if_pos hlt]
      refine fill_up ls (a :: as) _ p2 h2 (push_up h3 fun x hx => h4 x hx l (by simp)) fun x hx y hy => ?_
      rcases push_mem hx with hx | rfl
      · exact h4 x hx y (by simp only [List.mem_append, List.mem_cons] at hy ⊢; rcases hy with h | h | h <;> simp [h])
      · simp only [List.mem_append, List.mem_cons] at hy
        rcases hy with hy | rfl | hy
        · exact p1 y hy
        · omega
        · have := q1 y hy; omega
    · rw [if_neg hlt]
      have hup : Up (if a = l then ls else l :: ls) := by split <;> assumption
      refine fill_up _ as _ hup q2 (push_up h3 fun x hx => h4 x hx a (by simp)) fun x hx y hy => ?_
      have hy' : y = l ∨ y ∈ ls ∨ y ∈ as := by
        rcases List.mem_append.1 hy with hy | hy
        · split at hy
          · exact .inr (.inl hy)
          · rcases List.mem_cons.1 hy with hy | hy
            · exact .inl hy
            · exact .inr (.inl hy)
        · exact .inr (.inr hy)
      rcases push_mem hx with hx | rfl
      · exact h4 x hx y (by simp only [List.mem_append, List.mem_cons]; rcases hy' with h | h | h <;> simp [h])
      · rcases hy' with rfl | h | h
        · omega
        · have := p1 y h; omega
        · exact q1 y h
termination_by l a => l.length + a.length
decreasing_by all_goals (try simp only [List.length_cons, List.length_nil]) <;> (try split) <;> (try simp only [List.length_cons]) <;> omega

theorem used_same (sz : Nat) (cache : List Nat) (hc : Up cache) : ∀ (cs : List Nat) (i : Nat) (used : List Nat), cs = cache.drop i → i ≤ cache.length → used.length ≤ sz →
    Up used → (∀ x ∈ used, ∀ y ∈ cs, x ≤ y) →
    Same ok (fun a b => a = b ∧ Up a ∧ a.length ≤ sz) (readUsed sz cs used) (Av1.use_cache cache sz (cache.length - i) i used)
  | [], i, used, h1, h2, h3, h4, h5 => by
    have : cache.length - i = 0 := by have := congrArg List.length h1; simp at this; omega
    rw [this]; exact ⟨rfl, h4, h3⟩
  | c :: cs, i, used, h1, h2, h3, h4, h5 => by
    have hlt : i < cache.length := by have := congrArg List.length h1; simp at this; omega
    have hd : cache.drop i = cache[i] :: cache.drop (i + 1) := List.drop_eq_getElem_cons hlt
    rw [hd] at h1
    obtain ⟨rfl, rfl⟩ := List.cons.inj h1
    rw [show cache.length - i = (cache.length - (i + 1)) + 1 by omega]
    have hup : Up (cache[i] :: cache.drop (i + 1)) := by rw [← hd]; exact hc.drop
    have hup' := (List.pairwise_cons.1 hup).1
    unfold readUsed Av1.use_cache
    refine Same.ite Iff.rfl (fun h => ?_) (fun h => ⟨rfl, h4, h3⟩)
    refine Same.bind bit_same fun a b hab => ?_
    subst hab
    have hget : cache.getD i 0 = cache[i] := by rw [List.getD_eq_getElem?_getD, List.getElem?_eq_getElem hlt]; rfl
    rw [hget]
    cases a
    · exact used_same sz cache hc _ (i + 1) used rfl hlt h3 h4 (fun x hx y hy => h5 x hx y (List.mem_cons_of_mem _ hy))
    · refine used_same sz cache hc _ (i + 1) _ rfl hlt (by simp; omega) ?_ ?_
      · exact List.pairwise_append.2 ⟨h4, List.pairwise_singleton _ _, fun x hx y hy => by rw [List.mem_singleton.1 hy]; exact h5 x hx _ List.mem_cons_self⟩
      · intro x hx y hy
        rcases List.mem_append.1 hx with hx | hx
        · exact h5 x hx y (List.mem_cons_of_mem _ hy)
        · rw [List.mem_singleton.1 hx]; exact hup' y hy

/-! ## New colours -/

theorem ceil_go (x : Nat) : ∀ (k i : Nat), x ≤ 2 ^ (i + k) → (∀ j < i, 2 ^ j < x) →
    x ≤ 2 ^ Av1.CeilLog2.go x k i ∧ ∀ j < Av1.CeilLog2.go x k i, 2 ^ j < x
  | 0, i, h1, h2 => ⟨h1, h2⟩
  | k + 1, i, h1, h2 => by
    unfold Av1.CeilLog2.go
    by_cases h : 2 ^ i < x
    · rw [if_pos h]
      refine ceil_go x k (i + 1) (by rw [show i + 1 + k = i + (k + 1) by omega]; exact h1) fun j hj => ?_
      rcases Nat.lt_succ_iff_lt_or_eq.1 hj with hj | rfl
      · exact h2 j hj
      · exact h
    · rw [if_neg h]; exact ⟨by omega, h2⟩

theorem ceil_spec (x : Nat) : x ≤ 2 ^ Av1.CeilLog2 x ∧ ∀ j < Av1.CeilLog2 x, 2 ^ j < x :=
  ceil_go x x 0 (by rw [Nat.zero_add]; exact Nat.le_of_lt Nat.lt_two_pow_self) (fun j hj => by omega)

theorem ceil_small {x : Nat} (h : x ≤ 1) : Av1.CeilLog2 x = 0 := by
  have := (ceil_spec x).2
  rcases Nat.eq_zero_or_pos (Av1.CeilLog2 x) with h0 | h0
  · exact h0
  · have := this 0 h0; omega

theorem ceil_ulog2 {x : Nat} (h : 2 ≤ x) : Av1.CeilLog2 x = 1 + ulog2 (x - 1) := by
  obtain ⟨h1, h2⟩ := ceil_spec x
  generalize Av1.CeilLog2 x = r at *
  have hr : r ≠ 0 := by rintro rfl; simp at h1; omega
  obtain ⟨t, rfl⟩ : ∃ t, r = t + 1 := ⟨r - 1, by omega⟩
  have h3 := h2 t (by omega)
  unfold ulog2
  rw [(Nat.log2_eq_iff (n := x - 1) (k := t) (by omega)).2 ⟨by omega, by omega⟩, Nat.add_comm]

theorem clip_nat (bpc v : Nat) : Av1.Clip1 bpc (v : Int) = min v (2 ^ bpc - 1) := by
  unfold Av1.Clip1
  have h := Nat.two_pow_pos bpc
  have : ((2 : Int) ^ bpc - 1) = ((2 ^ bpc - 1 : Nat) : Int) := by
    rw [Int.ofNat_sub (by omega)]; push_cast; rfl
  rw [this]
  omega

theorem last_snoc (cs : List Nat) (c : Nat) : (cs ++ [c]).getD ((cs ++ [c]).length - 1) 0 = c := by
  rw [List.getD_eq_getElem?_getD, List.length_append, List.length_singleton, Nat.add_sub_cancel, List.getElem?_append_right (Nat.le_refl _)]
  simp

/-- At the largest value nothing more is read. -/
theorem deltas_stop (bpc : Nat) (luma : Bool) : ∀ (n : Nat) (colors : List Nat), 2 ^ bpc - 1 ≤ colors.getD (colors.length - 1) 0 + (if luma then 1 else 0) →
    colors.getD (colors.length - 1) 0 ≤ 2 ^ bpc - 1 → Av1.deltas bpc luma n 0 colors = pure (colors ++ List.replicate n (2 ^ bpc - 1))
  | 0, colors, _, _ => by simp [Av1.deltas]
  | n + 1, colors, h, h' => by
    unfold Av1.deltas
    have hb : bits 0 = pure 0 := rfl
    rw [hb, pure_bind']
    dsimp only
    have hc : Av1.Clip1 bpc ((colors.getD (colors.length - 1) 0 + (if luma = true then 0 + 1 else 0) : Nat) : Int) = 2 ^ bpc - 1 := by
      rw [clip_nat]; cases luma <;> simp at h ⊢ <;> omega
    rw [hc, Nat.zero_min, deltas_stop bpc luma n _ (by rw [last_snoc]; omega) (by rw [last_snoc]; omega), List.append_assoc]
    rfl

theorem new_same (bpc : Nat) (luma : Bool) : ∀ (n nbits prev : Nat) (colors : List Nat), colors.getD (colors.length - 1) 0 = prev → prev ≤ 2 ^ bpc - 1 →
    Same ok (fun r cs => cs = colors ++ r ∧ Up (prev :: r) ∧ r.length = n) (readNew bpc (if luma then 1 else 0) n nbits prev) (Av1.deltas bpc luma n nbits colors)
  | 0, nbits, prev, colors, h1, h2 => ⟨by simp, List.pairwise_singleton _ _, rfl⟩
  | n + 1, nbits, prev, colors, h1, h2 => by
    unfold readNew Av1.deltas
    dsimp only
    refine Same.bind (bits_same nbits) fun d d' hd => ?_
    obtain ⟨rfl, -⟩ := hd
    have hc : Av1.Clip1 bpc ((colors.getD (colors.length - 1) 0 + (if luma = true then d + 1 else d) : Nat) : Int) = min (prev + d + if luma = true then 1 else 0) (2 ^ bpc - 1) := by
      rw [clip_nat, h1]; cases luma <;> simp <;> omega
    rw [hc]
    generalize hv : min (prev + d + if luma = true then 1 else 0) (2 ^ bpc - 1) = v
    have hpv : prev ≤ v := by omega
    have hvm : v ≤ 2 ^ bpc - 1 := by omega
    have hp := Nat.two_pow_pos bpc
    by_cases hs : v + (if luma then 1 else 0) ≥ 2 ^ bpc - 1
    · rw [if_pos hs, ceil_small (by cases luma <;> simp at hs ⊢ <;> omega), Nat.min_zero,
        deltas_stop bpc luma n _ (by rw [last_snoc]; exact hs) (by rw [last_snoc]; omega)]
      refine ⟨by simp, ?_, by simp⟩
      refine List.pairwise_cons.2 ⟨fun x hx => ?_, List.pairwise_cons.2 ⟨fun x hx => ?_, ?_⟩⟩
      · rcases List.mem_cons.1 hx with rfl | hx
        · exact hpv
        · have := (List.mem_replicate.1 hx).2; omega
      · have := (List.mem_replicate.1 hx).2; omega
      · exact List.pairwise_replicate.2 (.inr (Nat.le_refl _))
    · rw [if_neg hs]
      have hbits : 1 + ulog2 (2 ^ bpc - 1 - v - if luma = true then 1 else 0) = Av1.CeilLog2 (2 ^ bpc - v - if luma = true then 1 else 0) := by
        rw [ceil_ulog2 (by cases luma <;> simp at hs ⊢ <;> omega)]
        congr 2; cases luma <;> simp <;> omega
      rw [hbits]
      have key := new_same bpc luma n (min nbits (Av1.CeilLog2 (2 ^ bpc - v - if luma = true then 1 else 0))) v (colors ++ [v]) (last_snoc _ _) hvm
      rw [← bind_pure' (Av1.deltas bpc luma n _ _)]
      refine Same.bind key fun r cs hr => ?_
      obtain ⟨rfl, h3, h4⟩ := hr
      refine ⟨by simp, ?_, by simp [h4]⟩
      refine List.pairwise_cons.2 ⟨fun x hx => ?_, h3⟩
      rcases List.mem_cons.1 hx with rfl | hx
      · exact hpv
      · have := (List.pairwise_cons.1 h3).1 x hx; omega

theorem news_same {bpc : Nat} (luma : Bool) (sz : Nat) (used : List Nat) (h : used.length < sz) :
    Same ok (fun r cs => cs = used ++ r ∧ Up r ∧ r.length = sz - used.length) (readNews bpc (if luma then 1 else 0) (sz - used.length))
      ((if used.length < sz then bits bpc >>= fun c => pure (used ++ [c]) else pure used) >>= fun colors =>
       (if colors.length < sz then bits 2 >>= fun extra => pure (bpc - 3 + extra) else pure 0) >>= fun pb =>
       Av1.deltas bpc luma (sz - colors.length) pb colors) := by
  rw [if_pos h, bind_assoc']
  unfold readNews
  refine Same.bind (bits_same bpc) fun prev prev' hp => ?_
  obtain ⟨rfl, hp⟩ := hp
  rw [pure_bind']
  have hlen : (used ++ [prev]).length = used.length + 1 := by simp
  have h0 := Nat.two_pow_pos bpc
  by_cases h2 : sz - used.length > 1
  · rw [if_pos h2, if_pos (show (used ++ [prev]).length < sz by rw [hlen]; omega), bind_assoc', bind_assoc']
    refine Same.bind (bits_same 2) fun e e' he => ?_
    obtain ⟨rfl, -⟩ := he
    rw [pure_bind', hlen, show sz - (used.length + 1) = sz - used.length - 1 by omega]
    rw [← bind_pure' (Av1.deltas bpc luma _ _ _)]
    refine Same.bind (new_same bpc luma _ _ prev _ (last_snoc _ _) (by omega)) fun r cs hr => ?_
    obtain ⟨rfl, h3, h4⟩ := hr
    exact ⟨by simp, h3, by simp only [List.length_cons]; omega⟩
  · rw [if_neg h2, if_neg (show ¬ (used ++ [prev]).length < sz by rw [hlen]; omega), pure_bind', pure_bind', hlen, show sz - (used.length + 1) = 0 by omega]
    exact ⟨rfl, List.pairwise_singleton _ _, by simp only [List.length_cons, List.length_nil]; omega⟩

/-! ## The merge in place -/

theorem merge_range (used : List Nat) (sz : Nat) : ∀ (k i n m : Nat) (pal : Nat → Nat), i + k = sz → m + n = used.length + i → n ≤ used.length → m ≤ sz → used.length ≤ sz →
    (∀ j, j < i ∨ sz ≤ j → mergeLoop used sz k i n m pal j = pal j) ∧
    (List.range' i k).map (mergeLoop used sz k i n m pal) = (used.drop n).merge ((List.range' m (sz - m)).map pal) (fun a b => decide (a ≤ b))
  | 0, i, n, m, pal, h1, h2, h3, h4, h5 => by
    have hn : n = used.length := by omega
    have hm : m = sz := by omega
    subst hn hm
    refine ⟨fun _ _ => rfl, ?_⟩
    simp
  | k + 1, i, n, m, pal, h1, h2, h3, h4, h5 => by
    unfold mergeLoop
    rw [List.range'_succ, List.map_cons]
    by_cases hc : n < used.length ∧ (m ≥ sz ∨ used.getD n 0 ≤ pal m)
    · rw [if_pos hc]
      obtain ⟨hn, hc⟩ := hc
      have hget : used.getD n 0 = used[n] := by rw [List.getD_eq_getElem?_getD, List.getElem?_eq_getElem hn]; rfl
      rw [hget] at hc ⊢
      obtain ⟨q1, q2⟩ := merge_range used sz k (i + 1) (n + 1) m (fun j => if j = i then used[n] else pal j) (by omega) (by omega) hn h4 h5
      refine ⟨fun j hj => ?_, ?_⟩
      · rw [q1 j (by omega), if_neg (by omega)]
      · rw [q1 i (by omega), if_pos rfl, q2, List.drop_eq_getElem_cons hn]
        have hmap : (List.range' m (sz - m)).map (fun j => if j = i then used[n] else pal j) = (List.range' m (sz - m)).map pal := by
          refine List.map_congr_left fun x hx => ?_
          obtain ⟨hx1, hx2⟩ := List.mem_range'_1.1 hx
          rw [if_neg (by omega)]
        rw [hmap]
        by_cases hm : m < sz
        · rw [show sz - m = (sz - (m + 1)) + 1 by omega, List.range'_succ, List.map_cons, List.cons_merge_cons_pos]
          have : used[n] ≤ pal m := by omega
          exact decide_eq_true this
        · rw [show sz - m = 0 by omega]; simp
    · rw [if_neg hc]
      have hm : m < sz := by
        rcases Nat.lt_or_ge n used.length with h | h
        · rcases Nat.lt_or_ge m sz with h' | h'
          · exact h'
          · exact absurd ⟨h, .inl h'⟩ hc
        · omega
      obtain ⟨q1, q2⟩ := merge_range used sz k (i + 1) n (m + 1) (fun j => if j = i then pal m else pal j) (by omega) (by omega) h3 hm h5
      refine ⟨fun j hj => ?_, ?_⟩
      · rw [q1 j (by omega), if_neg (by omega)]
      · rw [q1 i (by omega), if_pos rfl, q2]
        have hmap : (List.range' (m + 1) (sz - (m + 1))).map (fun j => if j = i then pal m else pal j) = (List.range' (m + 1) (sz - (m + 1))).map pal := by
          refine List.map_congr_left fun x hx => ?_
          obtain ⟨hx1, hx2⟩ := List.mem_range'_1.1 hx
          rw [if_neg (by omega)]
        rw [hmap, show sz - m = (sz - (m + 1)) + 1 by omega, List.range'_succ, List.map_cons]
        by_cases hn : n < used.length
        · rw [List.drop_eq_getElem_cons hn, List.cons_merge_cons_neg]
          have hget : used.getD n 0 = used[n] := by rw [List.getD_eq_getElem?_getD, List.getElem?_eq_getElem hn]; rfl
          have : ¬ used[n] ≤ pal m := fun h => hc ⟨hn, .inr (by rw [hget]; exact h)⟩
          simpa using this
        · rw [List.drop_eq_nil_of_le (by omega)]; simp

theorem sort_eq {l l' : List Nat} (h : Up l) (hp : l.Perm l') : l = l'.mergeSort (fun a b => decide (a ≤ b)) := by
  refine List.Perm.eq_of_pairwise (le := fun a b : Nat => a ≤ b) (fun a b _ _ h1 h2 => Nat.le_antisymm h1 h2) h ?_ (hp.trans (List.mergeSort_perm l' _).symm)
  have := List.pairwise_mergeSort (le := fun a b : Nat => decide (a ≤ b)) (fun a b c h1 h2 => by simp at *; omega) (fun a b => by simp; omega) l'
  exact this.imp fun h => by simpa using h

/-- The result of dav1d_read_pal_plane is the palette `cs`. -/
def Holds (r : Nat × (Nat → Nat)) (cs : List Nat) : Prop := (List.range r.1).map r.2 = cs ∧ Up cs ∧ 2 ≤ cs.length ∧ cs.length ≤ 8

theorem map_range_getD (l : List Nat) (n : Nat) (h : l.length = n) : (List.range n).map (fun j => l.getD j 0) = l := by
  subst h
  apply List.ext_getElem
  · simp
  · intro i h1 h2
    simp only [List.getElem_map, List.getElem_range, List.getD_eq_getElem?_getD]
    rw [List.getElem?_eq_getElem h2]; rfl

theorem colors_same (bpc : Nat) (luma : Bool) {s : Nat} (hs : s ≤ 6) {l a : List Nat} (hl : Up l) (ha : Up a) (old : Nat → Nat) {cache : List Nat} (hcache : fillCache l a [] = cache) :
    Same ok (fun r cs => Holds (s + 2, r) cs) (readPalColors bpc (if luma then 0 else 1) (s + 2) l a old) (Av1.palette_colors bpc luma (s + 2) cache) := by
  have hup : Up cache := by rw [← hcache]; exact fill_up l a [] hl ha List.Pairwise.nil (fun x hx => by cases hx)
  unfold readPalColors
  rw [hcache]
  unfold Av1.palette_colors
  refine Same.bind (used_same (s + 2) cache hup cache 0 [] rfl (Nat.zero_le _) (Nat.zero_le _) List.Pairwise.nil (fun x hx => by cases hx)) fun used used' hu => ?_
  obtain ⟨rfl, hu, hlen⟩ := hu
  have hif : (if (if luma = true then 0 else 1) = 0 then 1 else 0) = (if luma = true then 1 else 0) := by cases luma <;> rfl
  rw [hif]
  by_cases h : used.length < s + 2
  · rw [if_pos h]
    have key := news_same (ok := ok) (bpc := bpc) luma (s + 2) used h
    have hassoc : ((if used.length < s + 2 then bits bpc >>= fun c => pure (used ++ [c]) else pure used) >>= fun colors =>
        (if colors.length < s + 2 then bits 2 >>= fun extra => pure (bpc - 3 + extra) else pure 0) >>= fun paletteBits =>
        Av1.deltas bpc luma (s + 2 - colors.length) paletteBits colors >>= fun colors =>
        pure (colors.mergeSort (fun a b => decide (a ≤ b)))) =
      (((if used.length < s + 2 then bits bpc >>= fun c => pure (used ++ [c]) else pure used) >>= fun colors =>
        (if colors.length < s + 2 then bits 2 >>= fun extra => pure (bpc - 3 + extra) else pure 0) >>= fun pb =>
        Av1.deltas bpc luma (s + 2 - colors.length) pb colors) >>= fun colors => pure (colors.mergeSort (fun a b => decide (a ≤ b)))) := by
      rw [bind_assoc']; congr 1; funext colors; rw [bind_assoc']
    rw [hassoc]
    refine Same.bind key fun r cs hr => ?_
    obtain ⟨rfl, h1, h2⟩ := hr
    obtain ⟨-, q⟩ := merge_range used (s + 2) (s + 2) 0 0 used.length
      (fun j => if used.length ≤ j ∧ j < s + 2 then r.getD (j - used.length) 0 else old j) (by omega) (by omega) (by omega) hlen hlen
    have hnews : (List.range' used.length (s + 2 - used.length)).map (fun j => if used.length ≤ j ∧ j < s + 2 then r.getD (j - used.length) 0 else old j) = r := by
      rw [List.range'_eq_map_range, List.map_map]
      conv => rhs; rw [← map_range_getD r _ h2]
      refine List.map_congr_left fun x hx => ?_
      have := List.mem_range.1 hx
      show (if used.length ≤ used.length + x ∧ used.length + x < s + 2 then _ else _) = _
      rw [if_pos (by omega), Nat.add_sub_cancel_left]
    rw [hnews, List.drop_zero] at q
    have hmu : Up (used.merge r (fun a b => decide (a ≤ b))) := by
      have := List.pairwise_merge (le := fun a b : Nat => decide (a ≤ b)) (fun a b c h1 h2 => by simp at *; omega) (fun a b => by simp; omega) used r
        (hu.imp fun h => by simpa using h) (h1.imp fun h => by simpa using h)
      exact this.imp fun h => by simpa using h
    have he := sort_eq hmu (List.merge_perm_append _)
    have hl := (List.mergeSort_perm (used ++ r) (fun a b => decide (a ≤ b))).length_eq
    rw [List.length_append] at hl
    refine ⟨?_, by rw [← he]; exact hmu, by omega, by omega⟩
    show (List.range (s + 2)).map _ = _
    rw [List.range_eq_range', q, he]
  · rw [if_neg h, if_neg h, pure_bind', if_neg h, pure_bind', show s + 2 - used.length = 0 by omega]
    unfold Av1.deltas
    rw [pure_bind']
    have hlen' : used.length = s + 2 := by omega
    have he : used = used.mergeSort (fun a b => decide (a ≤ b)) := sort_eq hu (List.Perm.refl _)
    refine ⟨?_, by rw [← he]; exact hu, by rw [← he]; omega, by rw [← he]; omega⟩
    rw [← he]
    show (List.range (s + 2)).map _ = _
    conv => rhs; rw [← map_range_getD used _ hlen']
    refine List.map_congr_left fun x hx => ?_
    have := List.mem_range.1 hx
    show (if _ then _ else _) = _
    rw [if_pos (by omega)]

theorem plane_same (bpc : Nat) (luma : Bool) (szCtx : Nat) {l a : List Nat} (hl : Up l) (ha : Up a) (old : Nat → Nat) {cache : List Nat} (hcache : fillCache l a [] = cache) :
    Same ok Holds (readPalPlane bpc (if luma then 0 else 1) szCtx l a old)
      (mode .palSz [if luma then 0 else 1, szCtx] 6 >>= fun s => Av1.palette_colors bpc luma (s + 2) cache) := by
  unfold readPalPlane
  refine Same.bind (mode_same rfl) fun s s' hs => ?_
  obtain ⟨rfl, hs, -⟩ := hs
  rw [← bind_pure' (Av1.palette_colors bpc luma _ _)]
  exact Same.bind (colors_same bpc luma hs hl ha old hcache) fun r cs h => h

/-! ## V -/

theorem v_same {bpc nbits : Nat} (hb : nbits + 1 ≤ bpc) : ∀ (n : Nat) (prev : Int) (colors : List Nat), 0 ≤ prev → prev < 2 ^ bpc →
    ((colors.getD (colors.length - 1) 0 : Nat) : Int) = prev →
    Same ok (fun r cs => cs = colors ++ r ∧ r.length = n) (readV bpc nbits n prev) (Av1.deltas_v bpc nbits n colors)
  | 0, prev, colors, h0, h1, h2 => ⟨by simp, rfl⟩
  | n + 1, prev, colors, h0, h1, h2 => by
    unfold readV Av1.deltas_v
    refine Same.bind (bits_same nbits) fun d d' hd => ?_
    obtain ⟨rfl, hd⟩ := hd
    have hd' : (d : Int) < 2 ^ nbits := by exact_mod_cast hd
    have hpow : (2 : Int) ^ nbits ≤ 2 ^ bpc := by
      have : (2 : Nat) ^ nbits ≤ 2 ^ bpc := Nat.pow_le_pow_right (by omega) (by omega)
      exact_mod_cast this
    have hpos : (0 : Int) < 2 ^ bpc := by exact_mod_cast Nat.two_pow_pos bpc
    have hsub : Same ok (fun a b : Int => a = b ∧ (a = d ∨ a = -(d : Int)))
        (if d ≠ 0 then bit >>= fun neg => pure (if neg then -(d : Int) else d) else pure (0 : Int))
        (if d ≠ 0 then bit >>= fun s => pure (if s then -(d : Int) else d) else pure (d : Int)) := by
      refine Same.ite Iff.rfl (fun h => ?_) (fun h => ⟨by omega, by omega⟩)
      refine Same.bind bit_same fun a b hab => ?_
      subst hab
      refine ⟨rfl, ?_⟩
      cases a <;> simp
    refine Same.bind hsub fun e e' he => ?_
    obtain ⟨rfl, he⟩ := he
    dsimp only
    rw [h2]
    have hv : Av1.Clip1 bpc (if (if prev + e < 0 then prev + e + 2 ^ bpc else prev + e) ≥ 2 ^ bpc then (if prev + e < 0 then prev + e + 2 ^ bpc else prev + e) - 2 ^ bpc
        else (if prev + e < 0 then prev + e + 2 ^ bpc else prev + e)) = ((prev + e) % 2 ^ bpc).toNat := by
      have hmod : (prev + e) % 2 ^ bpc = if prev + e < 0 then prev + e + 2 ^ bpc else if prev + e ≥ 2 ^ bpc then prev + e - 2 ^ bpc else prev + e := by
        split
        · rw [← Int.add_emod_right, Int.emod_eq_of_lt (by omega) (by omega)]
        · split
          · rw [← Int.sub_emod_right, Int.emod_eq_of_lt (by omega) (by omega)]
          · rw [Int.emod_eq_of_lt (by omega) (by omega)]
      rw [hmod]
      unfold Av1.Clip1
      generalize (2 : Int) ^ bpc = M at *
      by_cases q1 : prev + e < 0
      · rw [if_pos q1, if_pos q1]
        rw [if_neg (by omega)]; omega
      · rw [if_neg q1, if_neg q1]
        by_cases q2 : prev + e ≥ M
        · rw [if_pos q2]; omega
        · rw [if_neg q2]; omega
    rw [hv]
    have hm0 := Int.emod_nonneg (prev + e) (b := 2 ^ bpc) (by omega)
    have hm1 := Int.emod_lt_of_pos (prev + e) hpos
    have key := v_same hb n ((prev + e) % 2 ^ bpc) (colors ++ [((prev + e) % 2 ^ bpc).toNat]) hm0 hm1 (by rw [last_snoc]; omega)
    rw [← bind_pure' (Av1.deltas_v bpc nbits n _)]
    refine Same.bind key fun r cs hr => ?_
    obtain ⟨rfl, h4⟩ := hr
    exact ⟨by simp, by simp [h4]⟩

theorem lits_same (bpc : Nat) : ∀ (n : Nat) (colors : List Nat),
    Same ok (fun r cs => cs = colors ++ r ∧ r.length = n) (readLits bpc n) (Av1.palette_colors_v.plain bpc n colors)
  | 0, colors => ⟨by simp, rfl⟩
  | n + 1, colors => by
    unfold readLits Av1.palette_colors_v.plain
    refine Same.bind (bits_same bpc) fun d d' hd => ?_
    obtain ⟨rfl, -⟩ := hd
    rw [← bind_pure' (Av1.palette_colors_v.plain bpc n _)]
    refine Same.bind (lits_same bpc n (colors ++ [d])) fun r cs hr => ?_
    obtain ⟨rfl, h4⟩ := hr
    exact ⟨by simp, by simp [h4]⟩

/-- The result of dav1d_read_pal_uv are the palettes of U and V. -/
def HoldsUv (r : Nat × (Nat → Nat) × (Nat → Nat)) (cs : List Nat × List Nat) : Prop := Holds (r.1, r.2.1) cs.1 ∧ (List.range r.1).map r.2.2 = cs.2

theorem uv_same {bpc : Nat} (hbpc : 8 ≤ bpc) (szCtx : Nat) {l a : List Nat} (hl : Up l) (ha : Up a) (old1 old2 : Nat → Nat) {cache : List Nat} (hcache : fillCache l a [] = cache) :
    Same ok HoldsUv (readPalUv bpc szCtx l a old1 old2)
      (mode .palSz [1, szCtx] 6 >>= fun s => Av1.palette_colors bpc false (s + 2) cache >>= fun u => Av1.palette_colors_v bpc (s + 2) >>= fun v => pure (u, v)) := by
  unfold readPalUv readPalPlane
  rw [bind_assoc']
  refine Same.bind (mode_same rfl) fun s s' hs => ?_
  obtain ⟨rfl, hs, -⟩ := hs
  rw [bind_assoc']
  refine Same.bind (colors_same bpc false hs hl ha old1 hcache) fun pal u hr => ?_
  rw [pure_bind']
  dsimp only
  unfold Av1.palette_colors_v
  rw [bind_assoc']
  refine Same.bind bit_same fun b b' hb => ?_
  subst hb
  have hcol : Same ok (fun v cs => v = cs ∧ v.length = s + 2)
      (if b = true then bits 2 >>= fun e => bits bpc >>= fun first => readV bpc (bpc - 4 + e) (s + 2 - 1) first >>= fun r => pure (first :: r) else readLits bpc (s + 2))
      (if b = true then bits 2 >>= fun extra => bits bpc >>= fun c' => Av1.deltas_v bpc (bpc - 4 + extra) (s + 2 - 1) [c'] else Av1.palette_colors_v.plain bpc (s + 2) []) := by
    cases b
    · simp only [Bool.false_eq_true, if_false]
      refine (lits_same bpc (s + 2) []).mono fun v cs h => ⟨by rw [h.1]; simp, h.2⟩
    · simp only [if_true]
      refine Same.bind (bits_same 2) fun e e' he => ?_
      obtain ⟨rfl, he⟩ := he
      refine Same.bind (bits_same bpc) fun p p' hp => ?_
      obtain ⟨rfl, hp⟩ := hp
      have he' : e < 4 := he
      rw [← bind_pure' (Av1.deltas_v bpc _ _ _)]
      refine Same.bind (v_same (by omega) (s + 2 - 1) (p : Int) [p] (by omega) (by exact_mod_cast hp) (by rfl)) fun v cs h => ?_
      obtain ⟨rfl, h3⟩ := h
      exact ⟨rfl, by simp only [List.length_cons]; omega⟩
  refine Same.bind hcol fun v cs h => ?_
  obtain ⟨rfl, hv⟩ := h
  refine ⟨hr, ?_⟩
  show (List.range (s + 2)).map _ = v
  conv => rhs; rw [← map_range_getD v _ hv]
  refine List.map_congr_left fun x hx => ?_
  have := List.mem_range.1 hx
  show (if _ then _ else _) = _
  rw [if_pos (by omega)]

end Dav1d.Syn.Pal
