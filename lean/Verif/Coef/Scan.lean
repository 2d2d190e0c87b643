import Verif.Coef.Reads
import Verif.Dsp.ScanProps
/-!
# Positions of the coefficients
-/
namespace Dav1d.Coef
open Itx (Tx TxClass)

/-- Place of the coefficient at row `p.1` and column `p.2` in the buffer. -/
def rcOf (b : Arg) (p : Nat × Nat) : Nat := p.2 * b.spec.H + p.1

/-- The coordinates that the code calls `x` and `y`. -/
def xy (cls : TxClass) (p : Nat × Nat) : Nat × Nat :=
  match cls with
  | .h => (p.1, p.2)
  | _ => (p.2, p.1)

/-- The number that does not decrease along a scan. -/
def key (cls : TxClass) (p : Nat × Nat) : Nat :=
  match cls with
  | .d2 => p.1 + p.2
  | .h => p.2
  | .v => p.1

/-- What is needed to know about a scan. -/
structure ScanOk (b : Arg) (cls : TxClass) (sc : List (Nat × Nat)) : Prop where
  len : sc.length = b.spec.W * b.spec.H
  inside : ∀ p ∈ sc, p.1 < b.spec.H ∧ p.2 < b.spec.W
  nodup : sc.Nodup
  pos : ∀ i p, sc[i]? = some p → posXY (clsOf b cls) i = some (rcOf b p, (xy cls p).1, (xy cls p).2)
  mono : sc.Pairwise (fun p q => key cls p ≤ key cls q)
  first : sc[0]? = some (0, 0)

/-- The anti-diagonals do not decrease. -/
def monoB : Nat → List (Nat × Nat) → Bool
  | _, [] => true
  | m, p :: l => Nat.ble m (p.1 + p.2) && monoB (p.1 + p.2) l

theorem monoB_pairwise : ∀ (l : List (Nat × Nat)) (m : Nat), monoB m l = true →
    (∀ p ∈ l, m ≤ p.1 + p.2) ∧ l.Pairwise (fun p q => p.1 + p.2 ≤ q.1 + q.2)
  | [], _, _ => ⟨by simp, List.Pairwise.nil⟩
  | p :: l, m, h => by
    rw [monoB, Bool.and_eq_true] at h
    have ih := monoB_pairwise l _ h.2
    have h1 := Nat.le_of_ble_eq_true h.1
    refine ⟨?_, List.Pairwise.cons ih.1 ih.2⟩
    intro q hq
    rcases List.mem_cons.1 hq with e | e
    · rw [e]; exact h1
    · exact Nat.le_trans h1 (ih.1 q e)

/-- Equality of lists of numbers. -/
def eqL : List Nat → List Nat → Bool
  | [], [] => true
  | a :: l, c :: m => Nat.beq a c && eqL l m
  | _, _ => false

theorem eqL_eq : ∀ (l m : List Nat), eqL l m = true → l = m
  | [], [], _ => rfl
  | a :: l, c :: m, h => by
    rw [eqL, Bool.and_eq_true] at h
    rw [Nat.eq_of_beq_eq_true h.1, eqL_eq l m h.2]
  | [], _ :: _, h => by simp [eqL] at h
  | _ :: _, [], h => by simp [eqL] at h

/-- Table and rule agree, and what else is checked of the tables. -/
def scanChk (tx : Tx) : Bool :=
  let W := min 32 tx.w
  let H := min 32 tx.h
  let sc := Spec.scan W H .d2
  eqL (Itx.scans tx) (sc.map (fun p => p.2 * H + p.1)) && monoB 0 sc && sc.all (fun p => Nat.blt p.1 H && Nat.blt p.2 W)

set_option maxRecDepth 100000 in
theorem scanChk_ok (tx : Tx) : scanChk tx = true := by cases tx <;> decide +kernel

theorem hw_pow (b : Arg) : b.spec.H = 2 ^ (slh b + 2) ∧ b.spec.W = 2 ^ (slw b + 2) ∧ 4 <<< slh b = 2 ^ (slh b + 2) ∧
    4 <<< slw b = 2 ^ (slw b + 2) := by
  obtain ⟨hW, hH, _, _, _⟩ := wh_log b
  rw [hW, hH, Nat.shiftLeft_eq, Nat.shiftLeft_eq, Nat.pow_add, Nat.pow_add]
  omega

theorem pos_hw (b : Arg) : 0 < b.spec.H ∧ 0 < b.spec.W := by
  obtain ⟨h1, h2, _⟩ := hw_pow b
  rw [h1, h2]
  exact ⟨Nat.two_pow_pos _, Nat.two_pow_pos _⟩

theorem getElem?_map_range {α : Type} (f : Nat → α) {n i : Nat} {p : α} (h : ((List.range n).map f)[i]? = some p) :
    i < n ∧ p = f i := by
  rw [List.getElem?_map] at h
  rcases Nat.lt_or_ge i n with hi | hi
  · rw [List.getElem?_range hi] at h
    exact ⟨hi, (Option.some.inj h).symm⟩
  · rw [List.getElem?_eq_none (by rw [List.length_range]; exact hi)] at h
    exact absurd h (by simp)

theorem tx_size (tx : Tx) : tx.sw * tx.sh = min 32 tx.w * min 32 tx.h := by cases tx <;> decide

theorem scanOk_d2 (b : Arg) : ScanOk b .d2 (Spec.scan b.spec.W b.spec.H .d2) := by
  have h := scanChk_ok b.tx
  rw [scanChk, Bool.and_eq_true, Bool.and_eq_true] at h
  have e1 : Itx.scans b.tx = (Spec.scan b.spec.W b.spec.H .d2).map (fun p => p.2 * b.spec.H + p.1) := eqL_eq _ _ h.1.1
  have e2 := monoB_pairwise (Spec.scan b.spec.W b.spec.H .d2) 0 h.1.2
  have e3 : ∀ p ∈ Spec.scan b.spec.W b.spec.H .d2, p.1 < b.spec.H ∧ p.2 < b.spec.W := by
    intro p hp
    have := List.all_eq_true.1 h.2 p hp
    rw [Bool.and_eq_true] at this
    exact ⟨Nat.le_of_ble_eq_true this.1, Nat.le_of_ble_eq_true this.2⟩
  obtain ⟨pH, pW, sH, sW⟩ := hw_pow b
  have perm := Itx.isScan_perm (Itx.scans_ok b.tx)
  have first : ∀ W H, 0 < W → 0 < H → (Spec.scan W H .d2)[0]? = some (0, 0) := by
    intro W H hW hH
    obtain ⟨n, hn⟩ : ∃ n, W + H - 1 = n + 1 := ⟨W + H - 2, by omega⟩
    obtain ⟨m, rfl⟩ : ∃ m, H = m + 1 := ⟨H - 1, by omega⟩
    have d : Spec.diag W (m + 1) 0 = [(0, 0)] := by
      rw [Spec.diag, List.range_succ_eq_map, List.filter_cons, List.filter_map]
      have : (List.range m).filter ((fun r => decide (r ≤ 0) && decide (0 - r < W)) ∘ Nat.succ) = [] := by
        rw [List.filter_eq_nil_iff]; intro a _; simp
      rw [this]; simp [hW]
    rw [Spec.scan, hn, List.range_succ_eq_map, List.map_cons, List.flatten_cons, d]
    simp
  refine ⟨?_, e3, ?_, ?_, e2.2, first _ _ (pos_hw b).2 (pos_hw b).1⟩
  · have := perm.length_eq
    rw [List.length_range, e1, List.length_map, tx_size] at this
    exact this.symm
  · have := perm.nodup_iff.1 List.nodup_range
    rw [e1] at this
    have h2 := List.pairwise_map.1 this
    exact h2.imp (fun {a c} hne e => hne (by rw [e]))
  · intro i p hp
    have hin := e3 p (List.mem_of_getElem? hp)
    have hs : (Itx.scans b.tx)[i]? = some (rcOf b p) := by rw [e1, List.getElem?_map, hp]; rfl
    simp only [posXY, clsOf, hs, sH]
    rw [Nat.shiftRight_eq_div_pow, Nat.and_two_pow_sub_one_eq_mod, ← pH]
    simp only [rcOf, xy]
    rw [Nat.mul_comm, Nat.mul_add_div (pos_hw b).1, Nat.div_eq_of_lt hin.1, Nat.mul_add_mod, Nat.mod_eq_of_lt hin.1, Nat.add_zero]

theorem scanOk_h (b : Arg) : ScanOk b .h (Spec.scan b.spec.W b.spec.H .h) := by
  obtain ⟨pH, pW, sH, sW⟩ := hw_pow b
  obtain ⟨h0, w0⟩ := pos_hw b
  refine ⟨by simp [Spec.scan], ?_, ?_, ?_, ?_, ?_⟩
  · intro p hp
    obtain ⟨i, hi, rfl⟩ := List.mem_map.1 hp
    have := List.mem_range.1 hi
    exact ⟨Nat.mod_lt _ h0, Nat.div_lt_of_lt_mul (by rw [Nat.mul_comm]; exact this)⟩
  · refine List.pairwise_map.2 (List.nodup_range.imp (fun {a c} hne e => hne ?_))
    rw [← Nat.div_add_mod a b.spec.H, ← Nat.div_add_mod c b.spec.H, (Prod.mk.inj e).1, (Prod.mk.inj e).2]
  · intro i p hp
    obtain ⟨hi, rfl⟩ := getElem?_map_range _ hp
    simp only [posXY, clsOf, sH, rcOf, xy]
    rw [Nat.shiftRight_eq_div_pow, Nat.and_two_pow_sub_one_eq_mod, ← pH, Nat.mul_comm, Nat.div_add_mod]
  · refine List.pairwise_map.2 (List.pairwise_lt_range.imp (fun {a c} hlt => ?_))
    exact Nat.div_le_div_right (Nat.le_of_lt hlt)
  · rw [Spec.scan, List.getElem?_map, List.getElem?_range (Nat.mul_pos w0 h0)]
    simp

theorem scanOk_v (b : Arg) : ScanOk b .v (Spec.scan b.spec.W b.spec.H .v) := by
  obtain ⟨pH, pW, sH, sW⟩ := hw_pow b
  obtain ⟨h0, w0⟩ := pos_hw b
  refine ⟨by simp [Spec.scan], ?_, ?_, ?_, ?_, ?_⟩
  · intro p hp
    obtain ⟨i, hi, rfl⟩ := List.mem_map.1 hp
    have := List.mem_range.1 hi
    exact ⟨Nat.div_lt_of_lt_mul this, Nat.mod_lt _ w0⟩
  · refine List.pairwise_map.2 (List.nodup_range.imp (fun {a c} hne e => hne ?_))
    rw [← Nat.div_add_mod a b.spec.W, ← Nat.div_add_mod c b.spec.W, (Prod.mk.inj e).1, (Prod.mk.inj e).2]
  · intro i p hp
    obtain ⟨hi, rfl⟩ := getElem?_map_range _ hp
    simp only [posXY, clsOf, sW, rcOf, xy]
    have hd : i / b.spec.W < 2 ^ (slh b + 2) := by rw [← pH]; exact Nat.div_lt_of_lt_mul hi
    rw [Nat.shiftRight_eq_div_pow, Nat.and_two_pow_sub_one_eq_mod, ← pW, Nat.shiftLeft_eq, Nat.mul_comm,
      ← Nat.two_pow_add_eq_or_of_lt hd, ← pH, Nat.mul_comm b.spec.H]
  · refine List.pairwise_map.2 (List.pairwise_lt_range.imp (fun {a c} hlt => ?_))
    exact Nat.div_le_div_right (Nat.le_of_lt hlt)
  · rw [Spec.scan, List.getElem?_map, List.getElem?_range (Nat.mul_pos w0 h0)]
    simp

theorem scanOk (b : Arg) (cls : TxClass) : ScanOk b cls (Spec.scan b.spec.W b.spec.H cls) := by
  cases cls
  · exact scanOk_d2 b
  · exact scanOk_h b
  · exact scanOk_v b

/-! ### One-dimensional types are for small blocks -/

theorem cls_of_types : ∀ t : Spec.TxType, t.cls ≠ .d2 → t ∉ Spec.TxSet.dctOnly.types ∧ t ∉ Spec.TxSet.intra2.types ∧
    t ∉ Spec.TxSet.inter3.types ∧ t ≠ .dctDct ∧ t ≠ .wht := by
  intro t; cases t <;> decide

theorem set_small (b : Arg) : Spec.txSet b.spec = .dctOnly ∨ Spec.txSet b.spec = .intra2 ∨ Spec.txSet b.spec = .inter3 ∨
    dim b.tx 5 ≤ 2 := by
  rw [Spec.txSet, sqrUp_eq]
  by_cases h : dim b.tx 5 > 3
  · rw [if_pos h]; exact Or.inl rfl
  · rw [if_neg h]
    split
    · split
      · exact Or.inr (Or.inr (Or.inl rfl))
      · next h' => exact Or.inr (Or.inr (Or.inr (by have : dim b.tx 5 ≠ 3 := fun e => h' (Or.inr e); omega)))
    · split
      · exact Or.inl rfl
      · next h' => exact Or.inr (Or.inr (Or.inr (by omega)))

variable {σ : Type}

theorem type_mem (src : Source σ) (b : Arg) (s : σ) : (Spec.readType src b.spec s).1 = .wht ∨
    (Spec.readType src b.spec s).1 = .dctDct ∨ (Spec.readType src b.spec s).1 ∈ (Spec.txSet b.spec).types := by
  rw [Spec.readType]
  split
  · exact Or.inl rfl
  · split
    · split
      · refine Or.inr (Or.inr ?_)
        have hle := src.sym_le (Spec.typeCdf b.spec (Spec.txSet b.spec)) ((Spec.txSet b.spec).types.length - 1) s
        have hpos : 0 < (Spec.txSet b.spec).types.length := by cases Spec.txSet b.spec <;> decide
        dsimp only
        rw [List.getD_eq_getElem?_getD, List.getElem?_eq_getElem (by omega)]
        exact List.getElem_mem _
      · exact Or.inr (Or.inl rfl)
    · dsimp only
      generalize (if b.spec.isInter = true then b.spec.lumaType else b.spec.uvType) = t
      split
      · next h => exact Or.inr (Or.inr h)
      · exact Or.inr (Or.inl rfl)

theorem small_of_1d (src : Source σ) (b : Arg) (s : σ) (h : (Spec.readType src b.spec s).1.cls ≠ .d2) :
    b.spec.W ≤ 16 ∧ b.spec.H ≤ 16 := by
  obtain ⟨n1, n2, n3, n4, n5⟩ := cls_of_types _ h
  have hd : dim b.tx 5 ≤ 2 := by
    rcases type_mem src b s with e | e | e
    · exact absurd e n5
    · exact absurd e n4
    · rcases set_small b with q | q | q | q
      · rw [q] at e; exact absurd e n1
      · rw [q] at e; exact absurd e n2
      · rw [q] at e; exact absurd e n3
      · exact q
  have : ∀ tx : Tx, dim tx 5 ≤ 2 → min 32 tx.w ≤ 16 ∧ min 32 tx.h ≤ 16 := by intro tx; cases tx <;> decide
  exact this b.tx hd

end Dav1d.Coef
