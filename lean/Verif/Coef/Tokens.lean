import Verif.Coef.Levels
/-!
# First pass: levels and the chain of coefficients
-/
namespace Dav1d.Coef
open Itx (Tx TxClass)

variable {σ α : Type}

/-- The buffer of coefficients links the coefficients of `l` that are not zero, beginning with the one at `rc`. -/
def Chain (b : Arg) (q : Nat → Nat → Nat) (cf : Nat → Int) : List (Nat × Nat) → Nat → Prop
  | [], rc => rc = 0
  | p :: ps, rc => (q p.1 p.2 = 0 ∧ cf (rcOf b p) = 0 ∧ Chain b q cf ps rc) ∨
      (q p.1 p.2 ≠ 0 ∧ rc = rcOf b p ∧ ∃ nx, nx < 1024 ∧ cf (rcOf b p) = ((q p.1 p.2 * 2048 + nx : Nat) : Int) ∧
        Chain b q cf ps nx)

theorem Chain.congr {b : Arg} {q q' : Nat → Nat → Nat} {cf cf' : Nat → Int} : ∀ {l : List (Nat × Nat)} {rc : Nat},
    (∀ p ∈ l, q' p.1 p.2 = q p.1 p.2 ∧ cf' (rcOf b p) = cf (rcOf b p)) → Chain b q cf l rc → Chain b q' cf' l rc
  | [], _, _, h => h
  | p :: ps, rc, hl, h => by
    have hp := hl p (List.mem_cons_self ..)
    have ht : ∀ p ∈ ps, q' p.1 p.2 = q p.1 p.2 ∧ cf' (rcOf b p) = cf (rcOf b p) :=
      fun p h => hl p (List.mem_cons_of_mem _ h)
    rcases h with ⟨h1, h2, h3⟩ | ⟨h1, h2, nx, h3, h4, h5⟩
    · exact Or.inl ⟨by rw [hp.1]; exact h1, by rw [hp.2]; exact h2, Chain.congr ht h3⟩
    · exact Or.inr ⟨by rw [hp.1]; exact h1, h2, nx, h3, by rw [hp.1, hp.2]; exact h4, Chain.congr ht h5⟩

theorem rcOf_inj {b : Arg} {p p' : Nat × Nat} (h : p.1 < b.spec.H) (h' : p'.1 < b.spec.H) (e : rcOf b p = rcOf b p') :
    p = p' := by
  simp only [rcOf] at e
  have h0 := (pos_hw b).1
  have e1 : (p.2 * b.spec.H + p.1) / b.spec.H = (p'.2 * b.spec.H + p'.1) / b.spec.H := by rw [e]
  have e2 : (p.2 * b.spec.H + p.1) % b.spec.H = (p'.2 * b.spec.H + p'.1) % b.spec.H := by rw [e]
  rw [Nat.mul_comm p.2, Nat.mul_comm p'.2, Nat.mul_add_div h0, Nat.mul_add_div h0, Nat.div_eq_of_lt h, Nat.div_eq_of_lt h'] at e1
  rw [Nat.mul_comm p.2, Nat.mul_comm p'.2, Nat.mul_add_mod, Nat.mul_add_mod, Nat.mod_eq_of_lt h, Nat.mod_eq_of_lt h'] at e2
  exact Prod.ext e2 (by omega)

theorem cfSize_eq (b : Arg) : cfSize b = b.spec.W * b.spec.H ∧ b.spec.W * b.spec.H ≤ 1024 := by
  have : ∀ tx : Tx, min (dim tx 0) 8 * min (dim tx 1) 8 * 16 = min 32 tx.w * min 32 tx.h ∧
      min 32 tx.w * min 32 tx.h ≤ 1024 := by intro tx; cases tx <;> decide
  exact this b.tx

theorem rcOf_lt {b : Arg} {p : Nat × Nat} (h : p.1 < b.spec.H ∧ p.2 < b.spec.W) : rcOf b p < cfSize b ∧ rcOf b p < 1024 := by
  have := cfSize_eq b
  have h1 : (p.2 + 1) * b.spec.H ≤ b.spec.W * b.spec.H := Nat.mul_le_mul_right _ h.2
  rw [Nat.add_mul] at h1
  simp only [rcOf]; omega

/-- What holds after the coefficients from `n` on. -/
structure PInv (b : Arg) (cls : TxClass) (sc : List (Nat × Nat)) (eob n : Nat) (q : Nat → Nat → Nat) (st : St) : Prop where
  lev : LevInv b cls q st.L
  read : ∀ r c, q r c ≠ 0 → ∃ i, n ≤ i ∧ i ≤ eob ∧ sc[i]? = some (r, c)
  le : ∀ r c, q r c ≤ 15
  chain : Chain b q st.cf ((sc.take (eob + 1)).drop n) st.rc
  rest : ∀ p : Nat × Nat, p.1 < b.spec.H → p ∉ (sc.take (eob + 1)).drop n → st.cf (rcOf b p) = 0
  rc : st.rc < 1024

theorem drop_take_cons {β : Type} {sc : List β} {eob n : Nat} {p : β} (hp : sc[n]? = some p) (hn : n ≤ eob) :
    (sc.take (eob + 1)).drop n = p :: (sc.take (eob + 1)).drop (n + 1) := by
  have h : (sc.take (eob + 1))[n]? = some p := by rw [List.getElem?_take_of_lt (by omega)]; exact hp
  obtain ⟨hlt, e⟩ := List.getElem?_eq_some_iff.1 h
  rw [List.drop_eq_getElem_cons hlt, e]

theorem not_mem_rest {sc : List (Nat × Nat)} {eob n : Nat} {p : Nat × Nat} (hd : sc.Nodup) (hp : sc[n]? = some p)
    (hn : n ≤ eob) : p ∉ (sc.take (eob + 1)).drop (n + 1) := by
  have h : ((sc.take (eob + 1)).drop n).Nodup := (hd.sublist (List.take_sublist ..)).sublist (List.drop_sublist ..)
  rw [drop_take_cons hp hn] at h
  exact (List.nodup_cons.1 h).1

theorem mem_rest {sc : List (Nat × Nat)} {eob n : Nat} {p : Nat × Nat} (h : p ∈ (sc.take (eob + 1)).drop n) : p ∈ sc :=
  List.mem_of_mem_take (List.mem_of_mem_drop h)

theorem PInv.qok {b : Arg} {cls : TxClass} {sc : List (Nat × Nat)} {eob n : Nat} {q : Nat → Nat → Nat} {st : St}
    (hsc : ScanOk b cls sc) (h : PInv b cls sc eob (n + 1) q st) {p : Nat × Nat} (hp : sc[n]? = some p) : QOk b cls q p where
  inside := fun r c hq => by
    obtain ⟨i, _, _, hi⟩ := h.read r c hq
    exact hsc.inside _ (List.mem_of_getElem? hi)
  key := fun r c hq => by
    obtain ⟨i, h1, _, hi⟩ := h.read r c hq
    obtain ⟨l1, e1⟩ := List.getElem?_eq_some_iff.1 hp
    obtain ⟨l2, e2⟩ := List.getElem?_eq_some_iff.1 hi
    have := List.pairwise_iff_getElem.1 hsc.mono n i l1 l2 (by omega)
    rw [e1, e2] at this
    exact this
  le := h.le

theorem qx_set2 (cls : TxClass) (q : Nat → Nat → Nat) (p : Nat × Nat) (t x y : Nat) :
    qx cls (Spec.set2 q p t) x y = if x = (xy cls p).1 ∧ y = (xy cls p).2 then t else qx cls q x y := by
  cases cls
  · show (if y = p.1 ∧ x = p.2 then t else q y x) = if x = p.2 ∧ y = p.1 then t else q y x
    by_cases h : x = p.2 ∧ y = p.1
    · rw [if_pos ⟨h.2, h.1⟩, if_pos h]
    · rw [if_neg (fun e => h ⟨e.2, e.1⟩), if_neg h]
  · rfl
  · show (if y = p.1 ∧ x = p.2 then t else q y x) = if x = p.2 ∧ y = p.1 then t else q y x
    by_cases h : x = p.2 ∧ y = p.1
    · rw [if_pos ⟨h.2, h.1⟩, if_pos h]
    · rw [if_neg (fun e => h ⟨e.2, e.1⟩), if_neg h]

theorem LevInv.set {b : Arg} {cls : TxClass} {q : Nat → Nat → Nat} {L : Lev} (hs : SizeOk b cls) (hL : LevInv b cls q L)
    {p : Nat × Nat} (hp : p.1 < b.spec.H ∧ p.2 < b.spec.W) (t : Nat) :
    LevInv b cls (Spec.set2 q p t)
      (fun j => if j = (xy cls p).1 * (clsOf b cls).stride + (xy cls p).2 then some (enc t) else L j) := by
  obtain ⟨hx, hy⟩ := xy_inside (cls := cls) hp
  obtain ⟨h1, h2⟩ := ys_le_stride hs
  intro j hj
  have hj' := hL j hj
  rw [qx_set2]
  generalize (clsOf b cls).stride = st at *
  have e : j = (xy cls p).1 * st + (xy cls p).2 ↔ (j / st = (xy cls p).1 ∧ j % st = (xy cls p).2) := by
    constructor
    · intro h
      rw [h, Nat.mul_comm, Nat.mul_add_div (by omega), Nat.mul_add_mod, Nat.div_eq_of_lt (by omega),
        Nat.mod_eq_of_lt (by omega)]
      exact ⟨rfl, rfl⟩
    · rintro ⟨h1, h2⟩
      rw [← h1, ← h2, Nat.mul_comm, Nat.div_add_mod]
  by_cases h : j = (xy cls p).1 * st + (xy cls p).2
  · dsimp only; rw [if_pos h, if_pos (e.1 h)]
  · dsimp only; rw [if_neg h, if_neg (fun h' => h (e.2 h'))]; exact hj'

/-- One more coefficient. -/
theorem PInv.step {b : Arg} {cls : TxClass} {sc : List (Nat × Nat)} {eob n : Nat} {q : Nat → Nat → Nat} {st : St}
    (hs : SizeOk b cls) (hsc : ScanOk b cls sc) (h : PInv b cls sc eob (n + 1) q st) {p : Nat × Nat} (hp : sc[n]? = some p)
    (hn : n ≤ eob) {t : Nat} (ht : t ≤ 15) :
    PInv b cls sc eob n (Spec.set2 q p t)
      ⟨if t ≠ 0 then rcOf b p else st.rc,
       fun j => if j = (xy cls p).1 * (clsOf b cls).stride + (xy cls p).2 then some (enc t) else st.L j,
       fun j => if j = rcOf b p then (if t ≠ 0 then ((t * 2048 + st.rc : Nat) : Int) else 0) else st.cf j⟩ := by
  have hin := hsc.inside p (List.mem_of_getElem? hp)
  have hnm := not_mem_rest hsc.nodup hp hn
  have hne : ∀ p' ∈ (sc.take (eob + 1)).drop (n + 1), Spec.set2 q p t p'.1 p'.2 = q p'.1 p'.2 ∧
      (if rcOf b p' = rcOf b p then (if t ≠ 0 then ((t * 2048 + st.rc : Nat) : Int) else 0) else st.cf (rcOf b p')) =
        st.cf (rcOf b p') := by
    intro p' hp'
    have hne : p' ≠ p := fun e => hnm (e ▸ hp')
    refine ⟨if_neg (fun e => hne (Prod.ext e.1 e.2)), if_neg (fun e => hne ?_)⟩
    exact rcOf_inj (hsc.inside p' (mem_rest hp')).1 hin.1 e
  refine ⟨h.lev.set hs hin t, ?_, ?_, ?_, ?_, ?_⟩
  · intro r c hq
    by_cases e : r = p.1 ∧ c = p.2
    · exact ⟨n, Nat.le_refl _, hn, by rw [hp, e.1, e.2]⟩
    · rw [Spec.set2, if_neg e] at hq
      obtain ⟨i, h1, h2, h3⟩ := h.read r c hq
      exact ⟨i, by omega, h2, h3⟩
  · intro r c
    rw [Spec.set2]
    split
    · exact ht
    · exact h.le r c
  · rw [drop_take_cons hp hn]
    have hq : Spec.set2 q p t p.1 p.2 = t := if_pos ⟨rfl, rfl⟩
    by_cases h0 : t = 0
    · refine Or.inl ⟨by rw [hq]; exact h0, ?_, ?_⟩
      · dsimp only; rw [if_pos rfl, if_neg (by simpa using h0)]
      · have e : (if t ≠ 0 then rcOf b p else st.rc) = st.rc := if_neg (by simpa using h0)
        dsimp only
        rw [e]
        exact h.chain.congr hne
    · refine Or.inr ⟨by rw [hq]; exact h0, ?_, st.rc, h.rc, ?_, ?_⟩
      · dsimp only; rw [if_pos h0]
      · dsimp only; rw [if_pos rfl, if_pos h0, hq]
      · exact h.chain.congr hne
  · intro p' hp' hm
    rw [drop_take_cons hp hn, List.mem_cons, not_or] at hm
    dsimp only
    rw [if_neg (fun e => hm.1 (rcOf_inj hp' hin.1 e))]
    exact h.rest p' hp' hm.2
  · dsimp only
    split
    · exact (rcOf_lt hin).2
    · exact h.rc

/-- The arithmetic by which a small token is stored. -/
theorem small_tok {rc tok : Nat} (hr : rc < 1024) (ht : tok < 3) :
    ((tok * 0x17ff41) >>> 9) &&& ((rc + (2 ^ 32 - 1 - 0x7ff)) % 2 ^ 32) = (if tok ≠ 0 then tok * 2048 + rc else 0) ∧
    (tok * 0x17ff41) % 256 = enc tok := by
  have h : ∀ t ∈ List.range 3, (List.range 1024).all (fun rc =>
      Nat.beq (((t * 0x17ff41) >>> 9) &&& ((rc + (2 ^ 32 - 1 - 0x7ff)) % 2 ^ 32)) (if t ≠ 0 then t * 2048 + rc else 0)) = true := by
    decide +kernel
  have h2 : ∀ t ∈ List.range 3, (t * 0x17ff41) % 256 = enc t := by decide +kernel
  exact ⟨Nat.eq_of_beq_eq_true (List.all_eq_true.1 (h tok (List.mem_range.2 ht)) rc (List.mem_range.2 hr)),
    h2 tok (List.mem_range.2 ht)⟩

theorem big_tok {rc tok : Nat} (hr : rc < 1024) (h3 : 3 ≤ tok) (ht : tok ≤ 15) :
    (tok <<< 11) ||| rc = tok * 2048 + rc ∧ (tok + (3 <<< 6)) % 256 = enc tok := by
  constructor
  · rw [Nat.shiftLeft_eq, Nat.mul_comm, ← Nat.two_pow_add_eq_or_of_lt (i := 11) (by omega)]
  · simp only [enc]; rw [Nat.min_eq_left h3]; omega

theorem levSet_eq {b : Arg} {cls : TxClass} (hs : SizeOk b cls) {p : Nat × Nat} (hp : p.1 < b.spec.H ∧ p.2 < b.spec.W)
    (L : Lev) {v t : Nat} (hv : v % 256 = enc t) :
    levSet L ((xy cls p).1 * (clsOf b cls).stride + (xy cls p).2) v = some
      (fun j => if j = (xy cls p).1 * (clsOf b cls).stride + (xy cls p).2 then some (enc t) else L j) := by
  obtain ⟨hx, hy⟩ := xy_inside (cls := cls) hp
  obtain ⟨h1, h2⟩ := ys_le_stride hs
  obtain ⟨h3, h4, h5, h6⟩ := hw4 b
  have hb : ((xy cls p).1 + 1) * (clsOf b cls).stride ≤ 32 * 34 := by
    have e : (clsOf b cls).stride ≤ 32 ∧ xs b cls ≤ 32 := by
      rw [stride_eq]; cases cls <;> simp only [xs] <;> refine ⟨?_, by omega⟩ <;> split <;> omega
    exact Nat.mul_le_mul (by omega) (by omega)
  rw [Nat.add_mul] at hb
  rw [levSet, if_pos (by omega), hv]

theorem cfSet_ok {n bpc : Nat} {cf : Nat → Int} {i : Nat} {v : Int} (hi : i < n) (h1 : -32768 ≤ v) (h2 : v < 32768) :
    cfSet n bpc cf i v = some (fun j => if j = i then v else cf j) := by
  rw [cfSet, if_pos]
  refine ⟨hi, ?_⟩
  split <;> omega

/-- The token at `p`: what is common to the loop and to the last coefficient. -/
theorem or_gt (x y : Nat) : (y ||| x) > 1 ↔ ¬(y < 2 ∧ x < 2) := by
  constructor
  · intro h e
    have : y ||| x < 2 ^ 1 := Nat.or_lt_two_pow e.1 e.2
    omega
  · intro h
    have h1 : y ≤ y ||| x := Nat.left_le_or
    have h2 : x ≤ y ||| x := Nat.right_le_or
    omega

theorem hiCtx_eq {b : Arg} {cls : TxClass} {q : Nat → Nat → Nat} {p : Nat × Nat} (hp : p ≠ (0, 0)) {mag : Nat}
    (hm : mag &&& 63 = Spec.nbrSum b.spec q 15 (Spec.brNbrs cls) p.1 p.2) :
    (if (if cls = .d2 then (xy cls p).2 ||| (xy cls p).1 else (xy cls p).2) > (if cls = .d2 then 1 else 0) then 14 else 7) +
      (if (mag &&& 63) > 12 then 6 else ((mag &&& 63) + 1) >>> 1) = Spec.brCtx b.spec cls q p.1 p.2 := by
  have hne : ¬(p.1 = 0 ∧ p.2 = 0) := fun h => hp (Prod.ext h.1 h.2)
  rw [hm, hi_half]
  simp only [Spec.brCtx]
  rw [if_neg hne]
  cases cls
  · simp only [xy, if_true, or_gt]
    by_cases h : p.1 < 2 ∧ p.2 < 2
    · rw [if_neg (by simpa using h), if_pos h]; omega
    · rw [if_pos h, if_neg h]; omega
  · simp only [xy, reduceCtorEq, if_false]
    by_cases h : p.2 = 0
    · rw [if_neg (by omega), if_pos h]; omega
    · rw [if_pos (by omega), if_neg h]; omega
  · simp only [xy, reduceCtorEq, if_false]
    by_cases h : p.1 = 0
    · rw [if_neg (by omega), if_pos h]; omega
    · rw [if_pos (by omega), if_neg h]; omega

theorem baseCtx_lt (b : Spec.Blk) (cls : TxClass) (q : Nat → Nat → Nat) (r c : Nat) : Spec.baseCtx b cls q r c < 41 := by
  simp only [Spec.baseCtx]
  cases cls <;> dsimp only
  · split
    · omega
    · split
      · omega
      · split
        · omega
        · split
          · omega
          · split <;> omega
  · omega
  · omega

theorem brCtx_lt (b : Spec.Blk) (cls : TxClass) (q : Nat → Nat → Nat) (r c : Nat) : Spec.brCtx b cls q r c < 21 := by
  simp only [Spec.brCtx]
  split
  · omega
  · cases cls <;> dsimp only <;> split <;> omega

theorem ok_lo (b : Arg) (cls : TxClass) (q : Nat → Nat → Nat) (r c : Nat) :
    (loCdf b (Spec.baseCtx b.spec cls q r c)).ok 3 = true := ok_base (dim7 b.tx) (chroma_lt b) (baseCtx_lt ..)

theorem ok_hi (b : Arg) (cls : TxClass) (q : Nat → Nat → Nat) (r c : Nat) :
    (hiCdf b (Spec.brCtx b.spec cls q r c)).ok 3 = true := ok_br (by omega) (chroma_lt b) (brCtx_lt ..)

/-- A level that is not the last one, in the terms of the code. -/
theorem readLevel_base (src : Source σ) (b : Arg) (cls : TxClass) {eob c : Nat} (hc : c ≠ eob) (p : Nat × Nat)
    (q : Nat → Nat → Nat) (s : σ) : Spec.readLevel src b.spec cls (eob + 1) c p q s =
      let r := src.sym (loCdf b (Spec.baseCtx b.spec cls q p.1 p.2)) 3 s
      if r.1 = 3 then Spec.readBr src (hiCdf b (Spec.brCtx b.spec cls q p.1 p.2)) 4 3 r.2 else r := by
  have hle := src.sym_le (loCdf b (Spec.baseCtx b.spec cls q p.1 p.2)) 3 s
  simp only [Spec.readLevel, Nat.add_sub_cancel, hc, if_false, szCtx_eq, ptype_eq]
  show (if (src.sym (loCdf b (Spec.baseCtx b.spec cls q p.1 p.2)) 3 s).1 > 2 then
    Spec.readBr src (hiCdf b (Spec.brCtx b.spec cls q p.1 p.2)) 4 (src.sym (loCdf b (Spec.baseCtx b.spec cls q p.1 p.2)) 3 s).1
      (src.sym (loCdf b (Spec.baseCtx b.spec cls q p.1 p.2)) 3 s).2 else
      src.sym (loCdf b (Spec.baseCtx b.spec cls q p.1 p.2)) 3 s) = _
  by_cases h : (src.sym (loCdf b (Spec.baseCtx b.spec cls q p.1 p.2)) 3 s).1 = 3
  · rw [if_pos (by omega), if_pos h, h]
  · rw [if_neg (by omega), if_neg h]

theorem readLevel_le (src : Source σ) (b : Spec.Blk) (cls : TxClass) (eob c : Nat) (p : Nat × Nat)
    (q : Nat → Nat → Nat) (s : σ) : (Spec.readLevel src b cls eob c p q s).1 ≤ 15 := by
  simp only [Spec.readLevel]
  generalize hr : (if c = eob - 1 then _ else _ : Nat × σ) = r
  have hle : r.1 ≤ 3 := by
    rw [← hr]
    split
    · have := src.sym_le ⟨.coef .eobBaseTok, [b.szCtx, b.ptype, Spec.eobCtx b c]⟩ 2 s
      dsimp only; omega
    · exact src.sym_le _ 3 s
  split
  · have := (readBr_range (src := src) (c := ⟨.coef .brTok, [min b.szCtx 3, b.ptype, Spec.brCtx b cls q p.1 p.2]⟩) 4 r.1 r.2).2
    omega
  · omega

theorem nodup_idx {β : Type} {l : List β} (h : l.Nodup) {i j : Nat} {p : β} (hi : l[i]? = some p) (hj : l[j]? = some p) :
    i = j := by
  obtain ⟨l1, e1⟩ := List.getElem?_eq_some_iff.1 hi
  obtain ⟨l2, e2⟩ := List.getElem?_eq_some_iff.1 hj
  rcases Nat.lt_trichotomy i j with h' | h' | h'
  · exact absurd (e1.trans e2.symm) (List.pairwise_iff_getElem.1 h i j l1 l2 h')
  · exact h'
  · exact absurd (e2.trans e1.symm) (List.pairwise_iff_getElem.1 h j i l2 l1 h')

theorem rcOf_ne {b : Arg} {cls : TxClass} {sc : List (Nat × Nat)} (hsc : ScanOk b cls sc) {i : Nat} {p : Nat × Nat}
    (hp : sc[i + 1]? = some p) : p ≠ (0, 0) := by
  intro e
  have := nodup_idx hsc.nodup (e ▸ hp) hsc.first
  omega

theorem getD_of {β : Type} {l : List β} {i : Nat} {p d : β} (h : l[i]? = some p) : l.getD i d = p := by
  rw [List.getD_eq_getElem?_getD, h]; rfl

/-- One round of the AC loop. -/
theorem acStep (src : Source σ) {b : Arg} {cls : TxClass} {sc : List (Nat × Nat)} {eob i : Nat} {q : Nat → Nat → Nat} {st : St}
    (hs : SizeOk b cls) (hsc : ScanOk b cls sc) (hi : i + 1 < eob) (h : PInv b cls sc eob (i + 2) q st)
    {p : Nat × Nat} (hp : sc[i + 1]? = some p) (s : σ) (k : St → σ → Option α) :
    ∃ st', PInv b cls sc eob (i + 1) (Spec.set2 q p (Spec.readLevel src b.spec cls (eob + 1) (i + 1) p q s).1) st' ∧
      acLoop src b (clsOf b cls) (i + 1) st s k = acLoop src b (clsOf b cls) i st'
        (Spec.readLevel src b.spec cls (eob + 1) (i + 1) p q s).2 k := by
  have hin := hsc.inside p (List.mem_of_getElem? hp)
  have h0 := rcOf_ne hsc hp
  obtain ⟨hx, hy⟩ := xy_inside (cls := cls) hin
  obtain ⟨mag, hg, hm⟩ := getLoCtx_eq hs (h.qok hsc hp) h.lev hin (fun _ => h0)
  have hxy : (xy cls p).1 < 32 ∧ (xy cls p).2 < 32 := by
    have := hw4 b
    cases cls <;> simp only [xs, ys] at hx hy <;> omega
  obtain ⟨hrc, hrc'⟩ := rcOf_lt hin
  have hle := readLevel_le src b.spec cls (eob + 1) (i + 1) p q s
  refine ⟨_, h.step hs hsc hp (by omega) hle, ?_⟩
  rw [readLevel_base src b cls (by omega)] at hle ⊢
  rw [acLoop, hsc.pos _ _ hp]
  dsimp only
  rw [if_neg (by simpa using hxy), hg]
  dsimp only
  rw [rd_ok (ok_lo ..)]
  by_cases h3 : (src.sym (loCdf b (Spec.baseCtx b.spec cls q p.1 p.2)) 3 s).1 = 3
  · simp only [h3, if_true] at hle ⊢
    rw [cls_eq, hiCtx_eq h0 hm, hiTok_eq (ok_hi ..)]
    have hge := (readBr_range (src := src) (c := hiCdf b (Spec.brCtx b.spec cls q p.1 p.2)) 4 3
      (src.sym (loCdf b (Spec.baseCtx b.spec cls q p.1 p.2)) 3 s).2).1
    generalize Spec.readBr src (hiCdf b (Spec.brCtx b.spec cls q p.1 p.2)) 4 3
      (src.sym (loCdf b (Spec.baseCtx b.spec cls q p.1 p.2)) 3 s).2 = t at hle hge ⊢
    obtain ⟨e1, e2⟩ := big_tok h.rc hge hle
    have hr := h.rc
    rw [levSet_eq hs hin st.L e2, e1, cfSet_ok hrc (by omega) (by omega)]
    dsimp only
    have ht : t.1 ≠ 0 := by omega
    simp only [ht, ne_eq, not_false_eq_true, if_true]
  · have hle3 := src.sym_le (loCdf b (Spec.baseCtx b.spec cls q p.1 p.2)) 3 s
    rw [if_neg h3] at hle
    rw [if_neg h3, if_neg h3]
    generalize src.sym (loCdf b (Spec.baseCtx b.spec cls q p.1 p.2)) 3 s = t at hle hle3 h3 ⊢
    obtain ⟨e1, e2⟩ := small_tok h.rc (show t.1 < 3 by omega)
    have hr := h.rc
    rw [levSet_eq hs hin st.L e2, e1, cfSet_ok hrc (by split <;> omega) (by split <;> omega)]
    dsimp only
    by_cases ht : t.1 = 0
    · simp only [ht, ne_eq, not_true_eq_false, if_false]; rfl
    · have : t.1 * 2048 + st.rc ≠ 0 := by omega
      simp only [ht, ne_eq, not_false_eq_true, if_true, this]

/-- The AC loop. -/
theorem acLoop_eq (src : Source σ) {b : Arg} {cls : TxClass} {sc : List (Nat × Nat)} {eob : Nat}
    (hs : SizeOk b cls) (hsc : ScanOk b cls sc) (he : eob < sc.length) (k : St → σ → Option α) :
    ∀ (i : Nat), i < eob → ∀ {q : Nat → Nat → Nat} {st : St} (s : σ), PInv b cls sc eob (i + 1) q st →
      ∃ q' st' s', PInv b cls sc eob 1 q' st' ∧ acLoop src b (clsOf b cls) i st s k = k st' s' ∧
        Spec.readLevels src b.spec cls sc (eob + 1) (i + 1) q s = Spec.readLevels src b.spec cls sc (eob + 1) 1 q' s' ∧
        (∀ r c, q r c ≠ 0 → q' r c ≠ 0)
  | 0, _, q, st, s, h => ⟨q, st, s, h, rfl, rfl, fun _ _ h => h⟩
  | i + 1, hi, q, st, s, h => by
    have hp : sc[i + 1]? = some (sc[i + 1]'(by omega)) := List.getElem?_eq_getElem _
    obtain ⟨st', h', e⟩ := acStep src hs hsc hi h hp s k
    obtain ⟨q'', st'', s'', h1, h2, h3, h4⟩ := acLoop_eq src hs hsc he k i (by omega) _ h'
    refine ⟨q'', st'', s'', h1, e.trans h2, ?_, ?_⟩
    · rw [← h3]
      rw [show i + 1 + 1 = (i + 1) + 1 from rfl, Spec.readLevels, getD_of hp]
    · intro r c hq
      apply h4
      rw [Spec.set2]
      split
      · rename_i hrc
        exfalso
        obtain ⟨j, h5, h6, h7⟩ := h.read r c hq
        have := nodup_idx hsc.nodup h7 (show sc[i + 1]? = some (r, c) by rw [hp, hrc.1, hrc.2])
        omega
      · exact hq

theorem nbrSum_zero (b : Spec.Blk) (m : Nat) (l : List (Nat × Nat)) (r c : Nat) : Spec.nbrSum b (fun _ _ => 0) m l r c = 0 := by
  rw [Spec.nbrSum]
  induction l with
  | nil => rfl
  | cons o l ih =>
    rw [List.map_cons, List.sum_cons, ih]
    split <;> simp

/-- Context of the last coefficient. -/
theorem eobCtx_eq (b : Arg) {eob : Nat} (h : eob ≠ 0) :
    1 + (if eob > 2 <<< (slw b + slh b) then 1 else 0) + (if eob > 4 <<< (slw b + slh b) then 1 else 0) =
      Spec.eobCtx b.spec eob := by
  obtain ⟨pH, pW, sH, sW⟩ := hw_pow b
  have e : b.spec.W * b.spec.H = 16 * 2 ^ (slw b + slh b) := by
    have := wh_log b
    rw [Nat.pow_add]
    rw [pH, pW, ← sH, ← sW, Nat.shiftLeft_eq, Nat.shiftLeft_eq]
    generalize 2 ^ slw b = x; generalize 2 ^ slh b = y
    rw [Nat.mul_mul_mul_comm]
  rw [Spec.eobCtx, if_neg h, e, Nat.shiftLeft_eq, Nat.shiftLeft_eq]
  generalize 2 ^ (slw b + slh b) = n
  rw [show 16 * n / 8 = 2 * n by omega, show 16 * n / 4 = 4 * n by omega]
  by_cases h1 : eob ≤ 2 * n
  · rw [if_neg (by omega), if_neg (by omega), if_pos h1]
  · rw [if_pos (by omega), if_neg h1]
    by_cases h2 : eob ≤ 4 * n
    · rw [if_neg (by omega), if_pos h2]
    · rw [if_pos (by omega), if_neg h2]

theorem eobCtx_lt (b : Spec.Blk) (c : Nat) : Spec.eobCtx b c < 4 := by
  rw [Spec.eobCtx]
  split
  · omega
  · split
    · omega
    · split <;> omega

theorem ok_eob (b : Arg) (c : Nat) : (eobCdf b (Spec.eobCtx b.spec c)).ok 2 = true :=
  ok_eobBase (dim7 b.tx) (chroma_lt b) (eobCtx_lt ..)

/-- The last level, in the terms of the code. -/
theorem readLevel_eob (src : Source σ) (b : Arg) (cls : TxClass) (eob : Nat) (p : Nat × Nat)
    (q : Nat → Nat → Nat) (s : σ) : Spec.readLevel src b.spec cls (eob + 1) eob p q s =
      let r := src.sym (eobCdf b (Spec.eobCtx b.spec eob)) 2 s
      if r.1 = 2 then Spec.readBr src (hiCdf b (Spec.brCtx b.spec cls q p.1 p.2)) 4 3 r.2 else (r.1 + 1, r.2) := by
  have hle := src.sym_le (eobCdf b (Spec.eobCtx b.spec eob)) 2 s
  simp only [Spec.readLevel, Nat.add_sub_cancel, if_true, szCtx_eq, ptype_eq]
  show (if (src.sym (eobCdf b (Spec.eobCtx b.spec eob)) 2 s).1 + 1 > 2 then
    Spec.readBr src (hiCdf b (Spec.brCtx b.spec cls q p.1 p.2)) 4 ((src.sym (eobCdf b (Spec.eobCtx b.spec eob)) 2 s).1 + 1)
      (src.sym (eobCdf b (Spec.eobCtx b.spec eob)) 2 s).2 else
      ((src.sym (eobCdf b (Spec.eobCtx b.spec eob)) 2 s).1 + 1, (src.sym (eobCdf b (Spec.eobCtx b.spec eob)) 2 s).2)) = _
  by_cases h : (src.sym (eobCdf b (Spec.eobCtx b.spec eob)) 2 s).1 = 2
  · rw [if_pos (by omega), if_pos h, h]
  · rw [if_neg (by omega), if_neg h]

theorem readLevel_eob_pos (src : Source σ) (b : Arg) (cls : TxClass) (eob : Nat) (p : Nat × Nat)
    (q : Nat → Nat → Nat) (s : σ) : 1 ≤ (Spec.readLevel src b.spec cls (eob + 1) eob p q s).1 := by
  rw [readLevel_eob]
  dsimp only
  split
  · have := (readBr_range (src := src) (c := hiCdf b (Spec.brCtx b.spec cls q p.1 p.2)) 4 3
      (src.sym (eobCdf b (Spec.eobCtx b.spec eob)) 2 s).2).1
    omega
  · omega

/-- Nothing read yet. -/
theorem PInv.init {b : Arg} {cls : TxClass} (hs : SizeOk b cls) (sc : List (Nat × Nat)) (eob : Nat) :
    ∃ L, levInit (clsOf b cls).clear = some L ∧
      PInv b cls sc eob (eob + 1) (fun _ _ => 0) ⟨0, L, fun _ => 0⟩ := by
  have hc : (clsOf b cls).clear ≤ 32 * 34 := by
    have := hw4 b
    rw [clear_eq, stride_eq]
    cases cls
    · exact Nat.mul_le_mul (by rw [if_pos rfl]; omega) (by simp only [xs]; omega)
    · have := hs (by decide)
      exact Nat.mul_le_mul (by rw [if_neg (by decide)]; omega) (by simp only [xs]; omega)
    · have := hs (by decide)
      exact Nat.mul_le_mul (by rw [if_neg (by decide)]; omega) (by simp only [xs]; omega)
  refine ⟨_, if_pos hc, ?_, ?_, fun _ _ => Nat.zero_le _, ?_, fun _ _ _ => rfl, Nat.zero_lt_succ _⟩
  · intro j hj
    rw [← clear_eq] at hj
    dsimp only
    rw [if_pos hj]
    cases cls <;> rfl
  · intro r c h; exact absurd rfl h
  · rw [List.drop_eq_nil_of_le (by rw [List.length_take]; omega)]; rfl

/-- The last coefficient. -/
theorem eobTok_eq (src : Source σ) {b : Arg} {cls : TxClass} {sc : List (Nat × Nat)} {eob : Nat}
    (hs : SizeOk b cls) (hsc : ScanOk b cls sc) (h0 : eob ≠ 0) {p : Nat × Nat} (hp : sc[eob]? = some p) (s : σ)
    (k : St → σ → Option α) :
    ∃ st', PInv b cls sc eob eob (Spec.set2 (fun _ _ => 0) p (Spec.readLevel src b.spec cls (eob + 1) eob p (fun _ _ => 0) s).1) st' ∧
      eobTok src b (clsOf b cls) eob (fun _ => 0) s k =
        k st' (Spec.readLevel src b.spec cls (eob + 1) eob p (fun _ _ => 0) s).2 := by
  have hin := hsc.inside p (List.mem_of_getElem? hp)
  obtain ⟨L, hL, h⟩ := PInv.init hs sc eob
  have hle := readLevel_le src b.spec cls (eob + 1) eob p (fun _ _ => 0) s
  have hge := readLevel_eob_pos src b cls eob p (fun _ _ => 0) s
  have hp0 : p ≠ (0, 0) := by
    obtain ⟨e, rfl⟩ := Nat.exists_eq_succ_of_ne_zero h0
    exact rcOf_ne hsc hp
  obtain ⟨hrc, hrc'⟩ := rcOf_lt hin
  refine ⟨_, h.step hs hsc hp (Nat.le_refl _) hle, ?_⟩
  rw [eobTok]
  dsimp only
  rw [eobCtx_eq b h0, rd_ok (ok_eob ..), hL, hsc.pos _ _ hp]
  dsimp only
  rw [readLevel_eob] at hle hge ⊢
  by_cases h3 : (src.sym (eobCdf b (Spec.eobCtx b.spec eob)) 2 s).1 = 2
  · simp only [h3, if_true] at hle hge ⊢
    have hc : (if (if (clsOf b cls).cls = .d2 then ((xy cls p).1 ||| (xy cls p).2) > 1 else (xy cls p).2 ≠ 0) then 14 else 7) =
        Spec.brCtx b.spec cls (fun _ _ => 0) p.1 p.2 := by
      rw [← hiCtx_eq (mag := 0) hp0 (by rw [nbrSum_zero]; rfl), cls_eq, Nat.or_comm]
      by_cases hd : cls = .d2
      · simp only [hd, if_true]; rfl
      · simp only [hd, if_false, Nat.pos_iff_ne_zero]; rfl
    rw [hc, hiTok_eq (ok_hi ..)]
    have hge := (readBr_range (src := src) (c := hiCdf b (Spec.brCtx b.spec cls (fun _ _ => 0) p.1 p.2)) 4 3
      (src.sym (eobCdf b (Spec.eobCtx b.spec eob)) 2 s).2).1
    generalize Spec.readBr src (hiCdf b (Spec.brCtx b.spec cls (fun _ _ => 0) p.1 p.2)) 4 3
      (src.sym (eobCdf b (Spec.eobCtx b.spec eob)) 2 s).2 = t at hle hge ⊢
    obtain ⟨e1, e2⟩ := big_tok (show 0 < 1024 by decide) hge hle
    rw [Nat.or_zero] at e1
    rw [levSet_eq hs hin L e2, e1, cfSet_ok hrc (by omega) (by omega)]
    dsimp only
    have ht : t.1 ≠ 0 := by omega
    simp only [ht, ne_eq, not_false_eq_true, if_true]
  · have hle3 := src.sym_le (eobCdf b (Spec.eobCtx b.spec eob)) 2 s
    rw [if_neg h3] at hle hge
    rw [if_neg h3, if_neg h3]
    generalize src.sym (eobCdf b (Spec.eobCtx b.spec eob)) 2 s = t at hle hge hle3 h3 ⊢
    have e2 : ((t.1 + 1) * 0x41) % 256 = enc (t.1 + 1) := by simp only [enc]; omega
    have e1 : (t.1 + 1) <<< 11 = (t.1 + 1) * 2048 + 0 := by
      rw [Nat.shiftLeft_eq]; omega
    rw [levSet_eq hs hin L e2, e1, cfSet_ok hrc (by omega) (by omega)]
    dsimp only
    have ht : t.1 + 1 ≠ 0 := by omega
    simp only [ht, ne_eq, not_false_eq_true, if_true]

/-- The token at the first position after the others. -/
theorem dcTok_eq (src : Source σ) {b : Arg} {cls : TxClass} {sc : List (Nat × Nat)} {eob : Nat} {q : Nat → Nat → Nat} {st : St}
    (hs : SizeOk b cls) (hsc : ScanOk b cls sc) (h0 : eob ≠ 0) (h : PInv b cls sc eob 1 q st) (s : σ)
    (k : Nat → σ → Option α) :
    dcTok src b (clsOf b cls) st.L s k =
      k (Spec.readLevel src b.spec cls (eob + 1) 0 (0, 0) q s).1 (Spec.readLevel src b.spec cls (eob + 1) 0 (0, 0) q s).2 := by
  have hin := hsc.inside (0, 0) (List.mem_of_getElem? hsc.first)
  have hq := h.qok hsc hsc.first
  have h4 := hw4 b
  rw [readLevel_base src b cls (Ne.symm h0)]
  have hbr : ∀ m, m &&& 63 = Spec.nbrSum b.spec q 15 (Spec.brNbrs cls) 0 0 →
      (if (m &&& 63) > 12 then 6 else ((m &&& 63) + 1) >>> 1) = Spec.brCtx b.spec cls q 0 0 := by
    intro m hm
    rw [hi_half, hm]
    simp only [Spec.brCtx, and_self, if_true]
  by_cases hd : cls = .d2
  · subst hd
    obtain ⟨hx, hy⟩ := xy_inside (cls := .d2) hin
    have rdL := @lev_read b .d2 q (0, 0) st.L hs hq h.lev
    have r1 := @rdL 0 1 hx hy (Or.inl ⟨rfl, by simp only [xy]; omega⟩) (by simp only [xy]; omega)
      (by decide) (by simp only [xy]; omega)
    have r2 := @rdL 1 0 hx hy (Or.inl ⟨rfl, by simp only [xy]; omega⟩) (by simp only [xy]; omega)
      (by decide) (by simp only [xy]; omega)
    have r3 := @rdL 1 1 hx hy (Or.inl ⟨rfl, by simp only [xy]; omega⟩) (by simp only [xy]; omega)
      (by decide) (by simp only [xy]; omega)
    rw [Nat.zero_mul, Nat.zero_add] at r1
    rw [Nat.one_mul, Nat.add_zero] at r2
    rw [Nat.one_mul] at r3
    rw [dcTok, cls_eq, if_pos rfl]
    dsimp only
    have hc : Spec.baseCtx b.spec .d2 q 0 0 = 0 := by simp only [Spec.baseCtx, and_self, if_true]
    have hok := ok_lo b .d2 q 0 0
    rw [hc] at hok ⊢
    rw [rd_ok hok]
    by_cases h3 : (src.sym (loCdf b 0) 3 s).1 = 3
    · rw [if_pos h3, if_pos h3, if_pos rfl, r1, r2, r3]
      dsimp only
      rw [hbr, hiTok_eq (ok_hi ..)]
      have le : ∀ x y, qx .d2 q x y ≤ 15 := fun x y => hq.le y x
      rw [hi_arith (le _ _) (le _ _) (le _ _), nbrSum_eq hq]
      simp only [qx, Spec.brNbrs, List.map_cons, List.map_nil, List.sum_cons, List.sum_nil, Nat.add_zero, Nat.zero_add]
      omega
    · rw [if_neg h3, if_neg h3]
  · obtain ⟨mag, hg, hm⟩ := getLoCtx_eq hs hq h.lev hin (fun e => absurd e hd)
    have e : (xy cls (0, 0)).1 = 0 ∧ (xy cls (0, 0)).2 = 0 := by cases cls <;> exact ⟨rfl, rfl⟩
    rw [e.1, e.2, Nat.zero_mul] at hg
    rw [dcTok, cls_eq, if_neg hd, hg]
    dsimp only
    rw [rd_ok (ok_lo ..)]
    by_cases h3 : (src.sym (loCdf b (Spec.baseCtx b.spec cls q 0 0)) 3 s).1 = 3
    · rw [if_pos h3, if_pos h3, if_neg hd]
      dsimp only
      rw [hbr mag hm, hiTok_eq (ok_hi ..)]
    · rw [if_neg h3, if_neg h3]

theorem set2_app {β : Type} (q : Nat → Nat → β) (p : Nat × Nat) (v : β) (r c : Nat) :
    Spec.set2 q p v r c = if r = p.1 ∧ c = p.2 then v else q r c := rfl

/-- What the second pass finds: levels `q` as the syntax has them; the buffer links the AC coefficients. -/
structure Tokens (b : Arg) (sc : List (Nat × Nat)) (eob : Nat) (q : Nat → Nat → Nat) (rc dc : Nat) (cf : Nat → Int) : Prop where
  dc : dc = q 0 0
  le : ∀ r c, q r c ≤ 15
  chain : Chain b q cf ((sc.take (eob + 1)).drop 1) rc
  rest : ∀ p : Nat × Nat, p.1 < b.spec.H → p ∉ (sc.take (eob + 1)).drop 1 → cf (rcOf b p) = 0
  last : ∃ p, sc[eob]? = some p ∧ q p.1 p.2 ≠ 0

/-- The first pass. -/
theorem tokens_eq (src : Source σ) {b : Arg} {cls : TxClass} {sc : List (Nat × Nat)} {eob : Nat}
    (hs : SizeOk b cls) (hsc : ScanOk b cls sc) (he : eob < sc.length) (s : σ)
    (k : Nat → Nat → (Nat → Int) → σ → Option α) :
    ∃ rc dc cf, Tokens b sc eob (Spec.readLevels src b.spec cls sc (eob + 1) (eob + 1) (fun _ _ => 0) s).1 rc dc cf ∧
      tokens src b cls eob (fun _ => 0) s k =
        k rc dc cf (Spec.readLevels src b.spec cls sc (eob + 1) (eob + 1) (fun _ _ => 0) s).2 := by
  rw [tokens]
  by_cases h0 : eob = 0
  · subst h0
    rw [if_neg (by simp)]
    have hctx : Spec.eobCtx b.spec 0 = 0 := rfl
    have hbr : Spec.brCtx b.spec cls (fun _ _ => 0) 0 0 = 0 := by
      simp only [Spec.brCtx, nbrSum_zero]; rfl
    have hok := ok_eob b 0
    have hokh := ok_hi b cls (fun _ _ => 0) 0 0
    rw [hctx] at hok
    rw [hbr] at hokh
    have hl : Spec.readLevels src b.spec cls sc (0 + 1) (0 + 1) (fun _ _ => 0) s =
        (Spec.set2 (fun _ _ => 0) (0, 0) (Spec.readLevel src b.spec cls (0 + 1) 0 (0, 0) (fun _ _ => 0) s).1,
          (Spec.readLevel src b.spec cls (0 + 1) 0 (0, 0) (fun _ _ => 0) s).2) := by
      rw [Spec.readLevels, getD_of hsc.first, Spec.readLevels]
    have hle := readLevel_le src b.spec cls (0 + 1) 0 (0, 0) (fun _ _ => 0) s
    have hge := readLevel_eob_pos src b cls 0 (0, 0) (fun _ _ => 0) s
    have hnil : (sc.take (0 + 1)).drop 1 = [] := List.drop_eq_nil_of_le (by rw [List.length_take]; omega)
    rw [hl]
    dsimp only
    refine ⟨0, (Spec.readLevel src b.spec cls (0 + 1) 0 (0, 0) (fun _ _ => 0) s).1, fun _ => 0,
      ⟨rfl, ?_, ?_, fun _ _ _ => rfl, (0, 0), hsc.first, ?_⟩, ?_⟩
    · intro r c
      rw [set2_app]
      split
      · exact hle
      · exact Nat.zero_le _
    · rw [hnil]; rfl
    · show (if 0 = 0 ∧ 0 = 0 then (Spec.readLevel src b.spec cls (0 + 1) 0 (0, 0) (fun _ _ => 0) s).1 else 0) ≠ 0
      rw [if_pos ⟨rfl, rfl⟩]; omega
    · rw [readLevel_eob, hctx, hbr, rd_ok hok]
      dsimp only
      by_cases h3 : (src.sym (eobCdf b 0) 2 s).1 = 2
      · rw [if_pos h3, if_pos h3, hiTok_eq hokh]
      · rw [if_neg h3, if_neg h3, Nat.add_comm]
  · rw [if_pos h0]
    have hp : sc[eob]? = some (sc[eob]'he) := List.getElem?_eq_getElem _
    dsimp only
    obtain ⟨st, h1, e1⟩ := eobTok_eq src hs hsc h0 hp s fun st s =>
      acLoop src b (clsOf b cls) (eob - 1) st s fun st s => dcTok src b (clsOf b cls) st.L s fun dc s => k st.rc dc st.cf s
    have hpos : eob - 1 + 1 = eob := by omega
    obtain ⟨q', st', s', h2, e2, e3, e4⟩ := acLoop_eq src hs hsc he
      (fun st s => dcTok src b (clsOf b cls) st.L s fun dc s => k st.rc dc st.cf s) (eob - 1) (by omega)
      (Spec.readLevel src b.spec cls (eob + 1) eob sc[eob] (fun _ _ => 0) s).2 (by rw [hpos]; exact h1)
    rw [hpos] at e3
    have e5 : Spec.readLevels src b.spec cls sc (eob + 1) (eob + 1) (fun _ _ => 0) s =
        (Spec.set2 q' (0, 0) (Spec.readLevel src b.spec cls (eob + 1) 0 (0, 0) q' s').1,
          (Spec.readLevel src b.spec cls (eob + 1) 0 (0, 0) q' s').2) := by
      rw [Spec.readLevels, getD_of hp, e3, Spec.readLevels, getD_of hsc.first, Spec.readLevels]
    have hle := readLevel_le src b.spec cls (eob + 1) 0 (0, 0) q' s'
    rw [e1, e2, dcTok_eq src hs hsc h0 h2, e5]
    dsimp only
    have hnm := not_mem_rest hsc.nodup hsc.first (Nat.zero_le eob)
    refine ⟨st'.rc, _, st'.cf, ⟨?_, ?_, ?_, h2.rest, sc[eob], hp, ?_⟩, rfl⟩
    · rw [set2_app, if_pos ⟨rfl, rfl⟩]
    · intro r c
      rw [set2_app]
      split
      · exact hle
      · exact h2.le r c
    · refine h2.chain.congr (fun p hp => ⟨if_neg (fun e => hnm ?_), rfl⟩)
      have : p = (0, 0) := Prod.ext e.1 e.2
      exact this ▸ hp
    · have hne : sc[eob] ≠ (0, 0) := by
        intro e
        exact h0 (nodup_idx hsc.nodup hp (e ▸ hsc.first))
      rw [set2_app, if_neg (fun e => hne (Prod.ext e.1 e.2))]
      apply e4
      rw [set2_app, if_pos ⟨rfl, rfl⟩]
      have := readLevel_eob_pos src b cls eob sc[eob] (fun _ _ => 0) s
      omega

end Dav1d.Coef
