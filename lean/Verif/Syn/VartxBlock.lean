import Verif.Syn.VartxNode
/-!
# The transforms of a block
-/
set_option linter.unusedVariables false
set_option linter.unusedSimpArgs false
namespace Dav1d.Syn.Vartx
open Dav1d.Part (Frame Call bsW bsH sbStep forList)
open Dav1d.Part.Lpf (txW txH txLw txLh txMax txSub tx_facts tx_pos)
open Dav1d.Part.Ctx (bsLog)

variable {ok : Req → Nat → Prop}

/-! ## Tables -/

theorem max_facts : ∀ b < 22, maxTx b 0 < 19 ∧ txW (maxTx b 0) = min 16 (bsW b) ∧ txH (maxTx b 0) = min 16 (bsH b) ∧ (maxTx b 0 = 0 ↔ Intra.miSize b = 0) := by decide +kernel
theorem max_log : ∀ b < 22, txMax (maxTx b 0) = Nat.log2 (min 64 (max (bsW b * 4) (bsH b * 4))) - 2 ∧ txMax (maxTx b 0) ≤ 4 ∧
    Intra.Av1.Max_Tx_Size_Rect (bsW b * 4, bsH b * 4) = szOf (maxTx b 0) := by decide +kernel
theorem bs_logs : ∀ b < 22, 2 ^ bsLog b 0 = bsW b ∧ 2 ^ bsLog b 1 = bsH b := by decide
theorem loopW : ∀ b < 22, (forList (txW (maxTx b 0)) (bsW b) (bsW b) 0 = [0] ∧ txW (maxTx b 0) = bsW b) ∨
    (forList (txW (maxTx b 0)) (bsW b) (bsW b) 0 = [0, 16] ∧ txW (maxTx b 0) = 16 ∧ bsW b = 32) := by decide +kernel
theorem loopH : ∀ b < 22, (forList (txH (maxTx b 0)) (bsH b) (bsH b) 0 = [0] ∧ txH (maxTx b 0) = bsH b) ∨
    (forList (txH (maxTx b 0)) (bsH b) (bsH b) 0 = [0, 16] ∧ txH (maxTx b 0) = 16 ∧ bsH b = 32) := by decide +kernel

/-! ## Bits -/

theorem own2 {xo yo d b : Nat} (h : Own 2 0 xo yo d b) : (d = 0 ∧ b = yo * 4 + xo) ∨ (d = 1 ∧ ∃ j i, j < 2 ∧ i < 2 ∧ b = (yo * 2 + j) * 4 + (xo * 2 + i)) := by
  rcases h with ⟨h1, h2⟩ | ⟨j, i, hj, hi, h⟩
  · exact .inl ⟨h1, h2⟩
  · rcases h with ⟨h1, h2⟩ | ⟨_, _, _, _, h⟩
    · exact .inr ⟨h1, j, i, hj, hi, h2⟩
    · exact h.elim

theorem own2_dis {xo yo xo' yo' d b : Nat} (hx : xo < 2) (hx' : xo' < 2) (hne : yo ≠ yo' ∨ xo ≠ xo') (h1 : Own 2 0 xo yo d b) : ¬ Own 2 0 xo' yo' d b := by
  intro h2
  rcases own2 h1 with ⟨a, e⟩ | ⟨a, j, i, hj, hi, e⟩ <;> rcases own2 h2 with ⟨a', e'⟩ | ⟨a', j', i', hj', hi', e'⟩ <;> omega

def MRow (yo d b : Nat) : Prop := ∃ xo, xo < 2 ∧ Own 2 0 xo yo d b
/-- The bits of a block. -/
def MB (d b : Nat) : Prop := ∃ yo, yo < 2 ∧ MRow yo d b

theorem mb_bits {d b : Nat} (h : MB d b) : (d = 0 ∧ (b = 0 ∨ b = 1 ∨ b = 4 ∨ b = 5)) ∨ (d = 1 ∧ b < 16) := by
  obtain ⟨yo, hy, xo, hx, h⟩ := h
  rcases own2 h with ⟨a, e⟩ | ⟨a, j, i, hj, hi, e⟩ <;> omega

/-- The transform of the unit in row `r` and column `k`, for the masks `ms` and the largest transform `tx`. -/
def unitTx (ms : Nat × Nat) (tx x y r k : Nat) : Nat :=
  coefTx ms 2 0 tx ((k - x) / txW tx) ((r - y) / txH tx) (x + (k - x) / txW tx * txW tx) (y + (r - y) / txH tx * txH tx) r k

theorem unit_at {ms : Nat × Nat} {tx x y r k i j : Nat} (ht : tx < 19) (h : InReg (y + j * txH tx) (x + i * txW tx) (txH tx) (txW tx) r k) :
    unitTx ms tx x y r k = coefTx ms 2 0 tx i j (x + i * txW tx) (y + j * txH tx) r k := by
  have hp := tx_pos ht
  unfold InReg at h
  have e1 : (k - x) / txW tx = i := by
    rw [Nat.div_eq_iff (by omega), Nat.mul_comm]
    rw [Nat.mul_comm i] at h
    omega
  have e2 : (r - y) / txH tx = j := by
    rw [Nat.div_eq_iff (by omega), Nat.mul_comm]
    rw [Nat.mul_comm j] at h
    omega
  unfold unitTx
  rw [e1, e2]

section
variable {E : Av1.Env} {tx W H : Nat} {LW LH : List Nat}

/-- The transforms of one row of units. -/
theorem row_ok (ht : tx < 19) (hmax : txMax tx = Nat.log2 (min 64 (max (Av1.Block_Width E.MiSize) (Av1.Block_Height E.MiSize))) - 2) (h4 : txMax tx ≤ 4)
    (hW : (LW = [0] ∧ txW tx = W) ∨ (LW = [0, 16] ∧ txW tx = 16 ∧ W = 32 ∧ E.MiCol + 16 < E.MiCols)) (hx : E.MiCol < E.MiCols) {y yo : Nat} (hyo : y = E.MiRow + yo * txH tx)
    (h32 : y % 32 + txH tx ≤ 32) (hy : y < E.MiRows) :
    RegionOk ok E y E.MiCol (txH tx) W (MRow yo) (fun ms r k => unitTx ms tx E.MiCol E.MiRow r k)
      (fun s => LW.foldlM (fun s x => readTxTree E.MiCols E.MiRows 2 0 tx (x / txW tx) yo (E.MiCol + x) y s) s)
      (fun t => (Av1.steps W (txW tx)).foldlM (fun t j => Av1.read_var_tx_size E 2 y (E.MiCol + j) (szOf tx) t) t) ∧
    Dep y E.MiCol (txH tx) W (MRow yo) (fun ms r k => unitTx ms tx E.MiCol E.MiRow r k) := by
  have hp := tx_pos ht
  rcases hW with ⟨rfl, rfl⟩ | ⟨rfl, h16, rfl, hin⟩
  · have D0 : ∀ ms r k, InReg y E.MiCol (txH tx) (txW tx) r k → unitTx ms tx E.MiCol E.MiRow r k = coefTx ms 2 0 tx 0 yo E.MiCol y r k := by
      intro ms r k hi
      rw [unit_at (i := 0) (j := yo) ht (by rw [← hyo]; simpa using hi), ← hyo]; simp
    constructor
    · intro s t hpre
      have := tree_ok (ok := ok) E 2 0 tx 0 yo E.MiCol y rfl ht (by omega) (by subst hyo; omega) (by omega) h32 hy hx (by omega) (by omega) s t
        ⟨hpre.a, hpre.l, fun d b hm => hpre.clear d b ⟨0, by omega, hm⟩⟩
      rw [steps1 hp.1]
      have e1 : ([0].foldlM (fun s x => readTxTree E.MiCols E.MiRows 2 0 tx (x / txW tx) yo (E.MiCol + x) y s) s : Prog St) = readTxTree E.MiCols E.MiRows 2 0 tx 0 yo E.MiCol y s := by
        simp only [List.foldlM_cons, List.foldlM_nil, bind_pure', Nat.zero_div, Nat.add_zero]
      have e2 : ([0].foldlM (fun t j => Av1.read_var_tx_size E 2 y (E.MiCol + j) (szOf tx) t) t : Prog Av1.TxSizes) = Av1.read_var_tx_size E 2 y E.MiCol (szOf tx) t := by
        simp only [List.foldlM_cons, List.foldlM_nil, bind_pure', Nat.add_zero]
      show Same ok _ ([0].foldlM _ s) ([0].foldlM _ t)
      rw [e1, e2]
      refine Same.mono (fun s' t' o => ⟨o.fa, o.fl, o.ft, fun d b hm => o.fm d b fun hh => hm ⟨0, by omega, hh⟩, o.oa, o.ol, fun r k a b c => ?_⟩) this
      rw [D0 _ _ _ a]; exact o.dec r k a b c
    · intro ms ms' hb r k hr
      dsimp only
      rw [D0 _ _ _ hr, D0 _ _ _ hr]
      exact coef_dep 2 0 tx 0 yo E.MiCol y ht ms ms' (fun d b hm => hb d b ⟨0, by omega, hm⟩) r k hr
  · have D0 : ∀ ms r k, InReg y E.MiCol (txH tx) 16 r k → unitTx ms tx E.MiCol E.MiRow r k = coefTx ms 2 0 tx 0 yo E.MiCol y r k := by
      intro ms r k hi
      rw [unit_at (i := 0) (j := yo) ht (by rw [← hyo, h16]; simpa using hi), ← hyo]; simp
    have D1 : ∀ ms r k, InReg y (E.MiCol + 16) (txH tx) 16 r k → unitTx ms tx E.MiCol E.MiRow r k = coefTx ms 2 0 tx 1 yo (E.MiCol + 16) y r k := by
      intro ms r k hi
      rw [unit_at (i := 1) (j := yo) ht (by rw [← hyo, h16]; simpa using hi), ← hyo, h16]
    have T0 := tree_ok (ok := ok) E 2 0 tx 0 yo E.MiCol y rfl ht (by omega) (by subst hyo; omega) (by omega) h32 hy hx (by omega) (by omega)
    have T1 := tree_ok (ok := ok) E 2 0 tx 1 yo (E.MiCol + 16) y rfl ht (by omega) (by subst hyo; omega) (by omega) h32 hy hin (by omega) (by omega)
    have P0 := coef_dep 2 0 tx 0 yo E.MiCol y ht
    have P1 := coef_dep 2 0 tx 1 yo (E.MiCol + 16) y ht
    rw [h16] at T0 T1 P0 P1
    have hM : ∀ d b, Own 2 0 0 yo d b ∨ Own 2 0 1 yo d b → MRow yo d b := by
      rintro d b (h | h)
      · exact ⟨0, by omega, h⟩
      · exact ⟨1, by omega, h⟩
    constructor
    · have := hcomp (ok := ok) (M := MRow yo) (D := fun ms r k => unitTx ms tx E.MiCol E.MiRow r k) (by omega) (Nat.le_refl _) T0 (fun _ => T1) (fun h => absurd hin h)
        (fun d b h => own2_dis (by omega) (by omega) (.inr (by omega)) h) hM P0 D0 D1
      intro s t hpre
      have := this s t hpre
      dsimp only at this ⊢
      rw [h16, show Av1.steps 32 16 = [0, 16] from by decide]
      simp only [if_pos hin] at this
      simp only [List.foldlM_cons, List.foldlM_nil, bind_pure', Nat.zero_div, Nat.add_zero, show 16 / 16 = 1 from rfl]
      exact this
    · exact hdep P0 P1 hM D0 D1

/-- The transforms of a block. -/
theorem grid_ok (ht : tx < 19) (hmax : txMax tx = Nat.log2 (min 64 (max (Av1.Block_Width E.MiSize) (Av1.Block_Height E.MiSize))) - 2) (h4 : txMax tx ≤ 4)
    (hW : (LW = [0] ∧ txW tx = W) ∨ (LW = [0, 16] ∧ txW tx = 16 ∧ W = 32 ∧ E.MiCol + 16 < E.MiCols)) (hx : E.MiCol < E.MiCols)
    (hH : (LH = [0] ∧ txH tx = H) ∨ (LH = [0, 16] ∧ txH tx = 16 ∧ H = 32 ∧ E.MiRow + 16 < E.MiRows)) (hy : E.MiRow < E.MiRows) (h32 : E.MiRow % 32 + H ≤ 32) :
    RegionOk ok E E.MiRow E.MiCol H W MB (fun ms r k => unitTx ms tx E.MiCol E.MiRow r k)
      (fun s => LH.foldlM (fun s y => LW.foldlM (fun s x => readTxTree E.MiCols E.MiRows 2 0 tx (x / txW tx) (y / txH tx) (E.MiCol + x) (E.MiRow + y) s) s) s)
      (fun t => (Av1.steps H (txH tx)).foldlM (fun t i => (Av1.steps W (txW tx)).foldlM (fun t j => Av1.read_var_tx_size E 2 (E.MiRow + i) (E.MiCol + j) (szOf tx) t) t) t) := by
  have hp := tx_pos ht
  rcases hH with ⟨rfl, rfl⟩ | ⟨rfl, h16, rfl, hin⟩
  · obtain ⟨R, -⟩ := row_ok (ok := ok) ht hmax h4 hW hx (y := E.MiRow) (yo := 0) (by omega) h32 hy
    intro s t hpre
    have := R s t ⟨hpre.a, hpre.l, fun d b hm => hpre.clear d b ⟨0, by omega, hm⟩⟩
    dsimp only at this ⊢
    rw [steps1 hp.2]
    simp only [List.foldlM_cons (b := s), List.foldlM_cons (b := t), List.foldlM_nil, bind_pure', Nat.zero_div, Nat.add_zero]
    refine Same.mono (fun s' t' o => ⟨o.fa, o.fl, o.ft, fun d b hm => o.fm d b fun hh => hm ⟨0, by omega, hh⟩, o.oa, o.ol, o.dec⟩) this
  · obtain ⟨R0, P0⟩ := row_ok (ok := ok) ht hmax h4 hW hx (y := E.MiRow) (yo := 0) (by omega) (by omega) hy
    obtain ⟨R1, P1⟩ := row_ok (ok := ok) ht hmax h4 hW hx (y := E.MiRow + 16) (yo := 1) (by omega) (by omega) hin
    rw [h16] at R0 R1 P0 P1
    have := vcomp (ok := ok) (M := MB) (D := fun ms r k => unitTx ms tx E.MiCol E.MiRow r k) (by omega) (Nat.le_refl _) h32 R0 (fun _ => R1) (fun h => absurd hin h)
      (by
        rintro d b ⟨x, hx, o⟩ ⟨x', hx', o'⟩
        exact own2_dis hx hx' (.inl (by omega)) o o')
      (by
        rintro d b (h | h)
        · exact ⟨0, by omega, h⟩
        · exact ⟨1, by omega, h⟩) P0 (fun _ _ _ _ => rfl) (fun _ _ _ _ => rfl)
    intro s t hpre
    have := this s t hpre
    dsimp only at this ⊢
    rw [h16, show Av1.steps 32 16 = [0, 16] from by decide]
    simp only [if_pos hin] at this
    simp only [List.foldlM_cons, List.foldlM_nil, bind_pure', Nat.zero_div, Nat.add_zero, show 16 / 16 = 1 from rfl]
    exact this
end

end Dav1d.Syn.Vartx
