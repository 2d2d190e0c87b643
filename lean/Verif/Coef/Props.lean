import Verif.Coef.Signs
/-!
# C65: coefficients of a transform block

`Spec.coeffs` is the syntax of AV1 (`Verif/Coef/Spec.lean`), `decodeCoefs` the decoder (`Verif/Coef/Model.lean`),
`Arg.spec` what its arguments mean and `Arg.Ok` when it is called (`Verif/Coef/Rel.lean`).
-/
namespace Dav1d.Coef
open Itx (Tx TxClass)

variable {σ : Type}

theorem allZeroCtx_lt (b : Spec.Blk) : Spec.allZeroCtx b < 13 := by
  simp only [Spec.allZeroCtx]
  split
  · split
    · omega
    · split
      · omega
      · split
        · split <;> omega
        · split
          · omega
          · split <;> omega
  · have : ∀ x y z : Bool, 7 + (if x = true then 1 else 0) + (if y = true then 1 else 0) + (if z = true then 3 else 0) < 13 := by decide
    have := this ((List.range (b.tx.w / 4)).any fun k => (b.above k).level != 0 || (b.above k).cat != 0)
      ((List.range (b.tx.h / 4)).any fun k => (b.left k).level != 0 || (b.left k).cat != 0)
      (decide (b.bw * b.bh > b.tx.w * b.tx.h))
    simpa using this

/-! ### The steps, whatever comes after them -/

theorem bind_type {src : Source σ} {b : Arg} (hb : b.Ok) {s : σ} {k : Nat → σ → Option (Out × σ)} {S : σ} {A : Out → Prop}
    (h : ∀ t, typeOf t = (Spec.readType src b.spec s).1 → t < 17 →
      ∃ o, k t (Spec.readType src b.spec s).2 = some (o, S) ∧ A o) :
    ∃ o, readTxtp src b s k = some (o, S) ∧ A o := by
  obtain ⟨t, e1, e2, e3⟩ := readTxtp_eq hb s k
  rw [e1]; exact h t e2 e3

theorem bind_eob {src : Source σ} {b : Arg} {cls : TxClass} {s : σ} {k : Nat → σ → Option (Out × σ)} {S : σ} {A : Out → Prop}
    (h : ∀ e, (Spec.readEob src b.spec cls s).1 = e + 1 → e < b.spec.W * b.spec.H →
      ∃ o, k e (Spec.readEob src b.spec cls s).2 = some (o, S) ∧ A o) :
    ∃ o, readEob src b cls s k = some (o, S) ∧ A o := by
  obtain ⟨e, e1, e2, e3⟩ := readEob_eq src b cls s k
  rw [e1]; exact h e e2 e3

theorem bind_tokens {src : Source σ} {b : Arg} {cls : TxClass} {sc : List (Nat × Nat)} {eob : Nat}
    (hs : SizeOk b cls) (hsc : ScanOk b cls sc) (he : eob < sc.length) {s : σ}
    {k : Nat → Nat → (Nat → Int) → σ → Option (Out × σ)} {S : σ} {A : Out → Prop}
    (h : ∀ rc dc cf, Tokens b sc eob (Spec.readLevels src b.spec cls sc (eob + 1) (eob + 1) (fun _ _ => 0) s).1 rc dc cf →
      ∃ o, k rc dc cf (Spec.readLevels src b.spec cls sc (eob + 1) (eob + 1) (fun _ _ => 0) s).2 = some (o, S) ∧ A o) :
    ∃ o, tokens src b cls eob (fun _ => 0) s k = some (o, S) ∧ A o := by
  obtain ⟨rc, dc, cf, h1, e1⟩ := tokens_eq src hs hsc he s k
  rw [e1]; exact h rc dc cf h1

/-- **C65**: for every block and every source of symbols, decode_coefs runs without fault on a cleared buffer, asks the
source for exactly the symbols that the syntax asks for (the source ends in the same state, whatever it makes of the
requests), and returns the transform type, the number of coefficients, the coefficients and the context of the syntax. -/
theorem C65_coefficients (src : Source σ) (b : Arg) (hb : b.Ok) (s : σ) :
    ∃ o, decodeCoefs src b (fun _ => 0) s = some (o, (Spec.coeffs src b.spec s).2) ∧
      typeOf o.txtp = (Spec.coeffs src b.spec s).1.type ∧
      o.ret + 1 = (Spec.coeffs src b.spec s).1.eob ∧
      (∀ row < b.spec.H, ∀ col < b.spec.W, o.cf (col * b.spec.H + row) = (Spec.coeffs src b.spec s).1.coef row col) ∧
      o.resCtx = ctxByte (Spec.coeffs src b.spec s).1.ctx := by
  have hok : (Cdf.mk (.coef .skip) [dim b.tx 7, Spec.allZeroCtx b.spec]).ok 1 = true := ok_skip (dim7 b.tx) (allZeroCtx_lt _)
  rw [decodeCoefs, skipCtx_eq hb]
  dsimp only
  rw [rd_ok hok]
  simp only [Spec.coeffs, szCtx_eq]
  have hz := src.sym_le ⟨.coef .skip, [dim b.tx 7, Spec.allZeroCtx b.spec]⟩ 1 s
  generalize src.sym ⟨.coef .skip, [dim b.tx 7, Spec.allZeroCtx b.spec]⟩ 1 s = z at *
  by_cases h1 : z.1 = 1
  · rw [if_pos (by omega), if_pos h1]
    refine ⟨_, rfl, ?_, rfl, fun _ _ _ _ => rfl, rfl⟩
    show typeOf ((if b.lossless = true then 1 else 0) * WHT_WHT) = if b.lossless = true then .wht else .dctDct
    cases b.lossless <;> rfl
  · rw [if_neg (by omega), if_neg h1]
    dsimp only
    refine bind_type hb (fun t e2 e3 => ?_)
    have hsmall : SizeOk b (Spec.readType src b.spec z.2).1.cls := small_of_1d src b z.2
    rw [typeClass_eq e3]
    dsimp only
    rw [← e2] at hsmall ⊢
    have hsc := scanOk b (typeOf t).cls
    refine bind_eob (fun e e4 e5 => ?_)
    rw [e4]
    refine bind_tokens hsmall hsc (by rw [hsc.len]; exact e5) (fun rc dc cf h => ?_)
    obtain ⟨cf', e6, e7⟩ := residual_eq (α := Out × σ) src hb e3 hsc h
      (Spec.readLevels src b.spec (typeOf t).cls (Spec.scan b.spec.W b.spec.H (typeOf t).cls) (e + 1) (e + 1) (fun _ _ => 0)
        (Spec.readEob src b.spec (typeOf t).cls (Spec.readType src b.spec z.2).2).2).2
      (fun cf ctx s => some (⟨(e : Int), t, cf, ctx⟩, s))
    refine ⟨_, e6, rfl, ?_, ?_, rfl⟩
    · show (e : Int) + 1 = ((e + 1 : Nat) : Int)
      omega
    · intro row hr col _
      exact e7 (row, col) hr

theorem dequant_range (b : Spec.Blk) (t : Spec.TxType) (p : Nat × Nat) (level : Nat) (neg : Bool) :
    -(2 ^ (7 + b.bitDepth) : Nat) ≤ Spec.dequant b t p level neg ∧ Spec.dequant b t p level neg < (2 ^ (7 + b.bitDepth) : Nat) := by
  rw [dequant_eq]
  have : 1 ≤ 2 ^ (7 + b.bitDepth) := Nat.one_le_two_pow
  generalize 2 ^ (7 + b.bitDepth) = n at *
  generalize level * effQ b t p _ % 2 ^ 24 / _ = x
  split <;> omega

theorem readSigns_range (src : Source σ) (b : Spec.Blk) (t : Spec.TxType) (q : Nat → Nat → Nat) :
    ∀ (l : List (Nat × Nat)) (first : Bool) (a : Spec.Acc) (s : σ),
      (∀ r c, -(2 ^ (7 + b.bitDepth) : Nat) ≤ a.coef r c ∧ a.coef r c < (2 ^ (7 + b.bitDepth) : Nat)) → a.cat ≤ 2 →
      (∀ r c, -(2 ^ (7 + b.bitDepth) : Nat) ≤ (Spec.readSigns src b t q first l a s).1.coef r c ∧
        (Spec.readSigns src b t q first l a s).1.coef r c < (2 ^ (7 + b.bitDepth) : Nat)) ∧
      (Spec.readSigns src b t q first l a s).1.cat ≤ 2
  | [], _, _, _, h, h' => ⟨h, h'⟩
  | p :: l, first, a, s, h, h' => by
    by_cases h0 : q p.1 p.2 = 0
    · rw [Spec.readSigns, if_pos h0]
      exact readSigns_range src b t q l false a s h h'
    · rw [readSigns_cons _ _ _ _ _ _ _ _ _ h0]
      dsimp only
      refine readSigns_range src b t q l false _ _ ?_ ?_
      · intro r c
        dsimp only
        rw [set2_app]
        split
        · exact dequant_range ..
        · exact h r c
      · dsimp only
        by_cases hp : p = (0, 0)
        · rw [if_pos hp]
          generalize (if first then src.sym ⟨.coef .dcSign, [b.ptype, Spec.dcSignCtx b]⟩ 1 s else src.bit s).1 = x
          by_cases hx : x = 1
          · rw [if_pos hx]; omega
          · rw [if_neg hx]; omega
        · rw [if_neg hp]; exact h'

/-- **C65**: at most as many coefficients as the block has positions, and every one fits in the bit depth plus 8 bits; the
contexts of all blocks stay such as the next call requires (`Arg.Ok`), and the context that the syntax attaches to a
later block is the one that this block left behind. -/
theorem C65_bounds (src : Source σ) (b : Arg) (hb : b.Ok) (s : σ) :
    ∃ o s', decodeCoefs src b (fun _ => 0) s = some (o, s') ∧ -1 ≤ o.ret ∧ o.ret < b.spec.W * b.spec.H ∧
      (∀ row < b.spec.H, ∀ col < b.spec.W, -(2 ^ (7 + b.bpc) : Nat) ≤ o.cf (col * b.spec.H + row) ∧
        o.cf (col * b.spec.H + row) < (2 ^ (7 + b.bpc) : Nat)) ∧
      o.resCtx < 192 ∧ ctxOf o.resCtx = (Spec.coeffs src b.spec s).1.ctx := by
  obtain ⟨o, h1, h2, h3, h4, h5⟩ := C65_coefficients src b hb s
  have he : (Spec.coeffs src b.spec s).1.eob ≤ b.spec.W * b.spec.H ∧
      (∀ r c, -(2 ^ (7 + b.bpc) : Nat) ≤ (Spec.coeffs src b.spec s).1.coef r c ∧
        (Spec.coeffs src b.spec s).1.coef r c < (2 ^ (7 + b.bpc) : Nat)) ∧
      (Spec.coeffs src b.spec s).1.ctx.level ≤ 63 ∧ (Spec.coeffs src b.spec s).1.ctx.cat ≤ 2 := by
    have hp : 1 ≤ 2 ^ (7 + b.bpc) := Nat.one_le_two_pow
    simp only [Spec.coeffs]
    split
    · exact ⟨Nat.zero_le _, fun _ _ => by dsimp only; omega, Nat.zero_le _, Nat.zero_le _⟩
    · dsimp only
      refine ⟨?_, ?_⟩
      · obtain ⟨e, _, e2, e3⟩ := readEob_eq (α := Nat) src b
          (Spec.readType src b.spec (src.sym ⟨.coef .skip, [b.spec.szCtx, Spec.allZeroCtx b.spec]⟩ 1 s).2).1.cls
          (Spec.readType src b.spec (src.sym ⟨.coef .skip, [b.spec.szCtx, Spec.allZeroCtx b.spec]⟩ 1 s).2).2 (fun _ _ => none)
        omega
      · have hr := fun (l : List (Nat × Nat)) (q : Nat → Nat → Nat) (t : Spec.TxType) (s : σ) =>
          readSigns_range src b.spec t q l true {} s
            (fun _ _ => by have : b.spec.bitDepth = b.bpc := rfl; rw [this]; dsimp only; omega) (Nat.zero_le _)
        exact ⟨(hr _ _ _ _).1, Nat.min_le_left _ _, (hr _ _ _ _).2⟩
  obtain ⟨he1, he2, he3, he4⟩ := he
  refine ⟨o, _, h1, by omega, by rw [← Int.natCast_mul]; omega, ?_, ?_, ?_⟩
  · intro row hr col hc
    rw [h4 row hr col hc]; exact he2 row col
  · rw [h5, ctxByte]
    split
    · omega
    · split <;> omega
  · rw [h5]
    generalize (Spec.coeffs src b.spec s).1.ctx = c at *
    obtain ⟨lv, cat⟩ := c
    dsimp only at he3 he4
    have h4 : ∀ lv ∈ List.range 64, ∀ cat ∈ List.range 3, ctxOf (ctxByte ⟨lv, cat⟩) = ⟨lv, cat⟩ := by decide +kernel
    exact h4 lv (List.mem_range.2 (by omega)) cat (List.mem_range.2 (by omega))

/-! ### The hypotheses are met -/

/-- A source that answers from a list of numbers. -/
def listSource : Source (List Nat) where
  sym := fun _ n s => (min n (s.headD 0), s.tail)
  bit := fun s => (min 1 (s.headD 0), s.tail)
  sym_le := fun _ _ _ => Nat.min_le_left ..
  bit_le := fun _ => Nat.min_le_left ..

/-- A luma block of 8x16 pixels in a 16x16 intra block of 10 bits with a quantizer matrix and neighbours. -/
def exBlock : Arg where
  tx := .x8x16
  bs := 12
  layout := 1
  plane := 0
  intra := true
  lossless := false
  qidx := 100
  reduced := false
  yMode := 9
  yAngle := 0
  uvMode := 0
  txtp := 0
  a := fun k => (66 + k) % 192
  l := fun k => 5 * k % 192
  dq := fun j => ((Tables.dqTbl.getD 1 []).getD 100 []).getD j 0
  qm := some (fun i => (32 + i) % 256)
  bpc := 10

theorem exBlock_ok : exBlock.Ok where
  bs := by decide
  layout := by decide
  plane := by decide
  mono := by decide
  fitW := by decide
  fitH := by decide
  uvMax := by decide
  lossless := by decide
  yMode := Or.inl (by decide)
  uvMode := by decide
  txtp := by decide
  txtpReduced := by decide
  a := fun _ => Nat.mod_lt _ (by decide)
  l := fun _ => Nat.mod_lt _ (by decide)
  bpc := by decide
  dq := ⟨100, 100, by decide, by decide, rfl, rfl⟩
  qm := by
    rintro m ⟨⟩ i
    exact Nat.mod_lt _ (by decide)

/-- Six coefficients with a matrix, one of them with remainder, signs of both kinds; six symbols remain. -/
example : (decodeCoefs listSource exBlock (fun _ => 0)
      [0, 1, 3, 0, 2, 3, 3, 3, 3, 1, 2, 3, 0, 1, 2, 3, 1, 0, 1, 1, 1, 1, 1, 1, 0, 1, 0, 1, 1]).map
        (fun r => ([r.1.ret, r.1.txtp, r.1.resCtx, r.1.cf 0, r.1.cf 1, r.1.cf 2, r.1.cf 3], r.2)) =
    some ([5, 0, 153, 1476, -455, -6097, 0], [1, 0, 1, 0, 1, 1]) := by decide +kernel

end Dav1d.Coef
