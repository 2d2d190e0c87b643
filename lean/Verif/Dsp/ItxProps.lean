import Verif.Dsp.ItxLemmas
import Mathlib.Tactic.IntervalCases
/-!
# Properties of the inverse transforms: C38, C39, C53, C54
-/
namespace Dav1d.Itx

/-! ## C53: no undefined behaviour, results in range, coefficient buffer cleared -/

theorem fold_max (h : Nat) : ∀ (l : List Nat) (m : Nat), m ≤ l.foldl (fun m rc => max m (rc &&& h)) m ∧
    (∀ rc ∈ l, rc &&& h ≤ l.foldl (fun m rc => max m (rc &&& h)) m) ∧
    (m ≤ h → l.foldl (fun m rc => max m (rc &&& h)) m ≤ h)
  | [], m => ⟨Nat.le_refl _, fun rc hrc => by (cases hrc), fun h => h⟩
  | x :: l, m => by
    obtain ⟨h1, h2, h3⟩ := fold_max h l (max m (x &&& h))
    rw [List.foldl_cons]
    refine ⟨by omega, fun rc hrc => ?_, fun hm => h3 ?_⟩
    · rcases List.mem_cons.1 hrc with rfl | hrc
      · omega
      · exact h2 rc hrc
    · have : x &&& h ≤ h := Nat.and_le_right
      omega

theorem kinds_cls (ty : TxType) : (ty.cls = .h ↔ ty.impl.kinds.2 = .identity ∧ ty.impl.kinds.1 ≠ .identity) ∧
    (ty.cls = .v ↔ ty.impl.kinds.1 = .identity ∧ ty.impl.kinds.2 ≠ .identity) := by
  cases ty <;> decide

theorem has_v {tx : Tx} {ty : TxType} (h : tx.has ty = true) (hv : ty.cls = .v) : 2 ^ (tx.lw + 2) = tx.sw := by
  cases tx <;> first | rfl | (cases ty <;> first | (cases h; done) | cases hv)

theorem and_sh (tx : Tx) (p : Nat) : p &&& (tx.sh - 1) = p % tx.sh := by
  have : tx.sh = 2 ^ (min tx.lh 3 + 2) := by cases tx <;> rfl
  rw [this, Nat.and_two_pow_sub_one_eq_mod]

/-- The row limit is inside the block, and the first `eob + 1` coefficients are in rows up to it. -/
theorem lastNonzero_spec {tx : Tx} {ty : TxType} (h : tx.has ty = true) {eob : Nat} (he : eob < tx.sw * tx.sh) :
    ∃ last, lastNonzero tx ty.impl eob = some last ∧ last < tx.sh ∧
      ∀ i ≤ eob, ∀ p, pos tx ty.cls i = some p → p % tx.sh ≤ last := by
  obtain ⟨kh, kv⟩ := kinds_cls ty
  have hsh := sh_pos tx
  have hsw := sw_pos tx
  rw [lastNonzero]
  by_cases h1 : ty.cls = .h
  · rw [if_pos (kh.1 h1)]
    refine ⟨_, rfl, by omega, fun i hi p hp => ?_⟩
    rw [h1] at hp
    obtain rfl : i = p := Option.some.inj hp
    have := Nat.mod_lt i hsh
    have := Nat.mod_le i tx.sh
    omega
  · rw [if_neg (fun hh => h1 (kh.2 hh))]
    by_cases h2 : ty.cls = .v
    · rw [if_pos (kv.1 h2), Nat.shiftRight_eq_div_pow, has_v h h2]
      have hd := Nat.div_lt_of_lt_mul he
      refine ⟨_, rfl, hd, fun i hi p hp => ?_⟩
      rw [h2, pos_v tx (Nat.lt_of_le_of_lt hi he)] at hp
      obtain rfl := Option.some.inj hp
      have hle : i / tx.sw ≤ eob / tx.sw := Nat.div_le_div_right hi
      rw [Nat.mul_comm, Nat.mul_add_mod, Nat.mod_eq_of_lt (by omega)]
      exact hle
    · rw [if_neg (fun hh => h2 (kv.2 hh))]
      have h3 : ty.cls = .d2 := by cases hc : ty.cls <;> simp_all
      have hlen : (scans tx).length = tx.sw * tx.sh := by
        have := (isScan_perm (scans_ok tx)).length_eq
        simpa using this.symm
      obtain ⟨_, g2, g3⟩ := fold_max (tx.sh - 1) ((scans tx).take (eob + 1)) 0
      rw [lastCol, if_pos (by omega)]
      refine ⟨_, rfl, ?_, fun i hi p hp => ?_⟩
      · have := g3 (Nat.zero_le _)
        omega
      · rw [h3] at hp
        have hp : (scans tx)[i]? = some p := hp
        rw [← and_sh]
        refine g2 p ?_
        rw [List.mem_iff_getElem?]
        exact ⟨i, by rw [List.getElem?_take, if_pos (by omega)]; exact hp⟩

theorem scale_bounded {d : Depth} {tx : Tx} {v : Int} (h : CoefIn d v) :
    ∃ w, (if tx.rect2 then mul181 v else some v) = some w ∧ w.natAbs ≤ 524288 := by
  have := h.abs
  split
  · refine ⟨_, mul181_eq (by omega), ?_⟩
    rw [asr8]; omega
  · exact ⟨v, rfl, this⟩

theorem pass1_bounded {d : Depth} {tx : Tx} {k : Kind} {p : Prog} (hp : fn tx.w k = some p) (last : Nat) {coeff : Nat → Int}
    (hc : ∀ i < tx.sw * tx.sh, CoefIn d (coeff i)) :
    ∃ tmp, pass1 d tx p last coeff = some tmp ∧ tmp.length = tx.sh ∧
      ∀ row ∈ tmp, row.length = tx.w ∧ ∀ v ∈ row, v.natAbs ≤ 524288 := by
  have hrow : ∀ y < tx.sh, ∃ row, (if y ≤ last then firstRow d tx p coeff y else some (List.replicate tx.w 0)) = some row ∧
      row.length = tx.w ∧ ∀ v ∈ row, v.natAbs ≤ 2097152 := by
    intro y hy
    by_cases hl : y ≤ last
    · rw [if_pos hl, firstRow]
      obtain ⟨c, hc1, hc2, hc3⟩ := collect_ex (n := tx.sw) (P := fun v : Int => v.natAbs ≤ 524288)
        (f := fun x => if tx.rect2 then mul181 (coeff (y + x * tx.sh)) else some (coeff (y + x * tx.sh)))
        (fun x hx => scale_bounded (hc _ (by
          calc y + x * tx.sh < tx.sh + x * tx.sh := by omega
            _ = (x + 1) * tx.sh := by rw [Nat.add_mul, Nat.one_mul, Nat.add_comm]
            _ ≤ tx.sw * tx.sh := Nat.mul_le_mul_right _ hx)))
      rw [hc1, Option.bind_some]
      exact call_bounded hp (row_lim d) (by rw [hc2, min_w]) hc3
    · rw [if_neg hl]
      refine ⟨_, rfl, List.length_replicate .., fun v hv => ?_⟩
      rw [List.eq_of_mem_replicate hv]; decide
  refine collect_ex (P := fun row : List Int => row.length = tx.w ∧ ∀ v ∈ row, v.natAbs ≤ 524288) fun y hy => ?_
  obtain ⟨row, hr1, hr2, hr3⟩ := hrow y hy
  rw [hr1, Option.bind_some]
  refine collect_ex (P := fun v : Int => v.natAbs ≤ 524288) fun x hx => ?_
  have hm : row[x]'(by omega) ∈ row := List.getElem_mem _
  have hv := hr3 _ hm
  have := half_abs tx
  rw [List.getElem?_eq_getElem (by omega), Option.bind_some, fit_of (by omega), Option.map_some]
  have hl := col_lim d
  exact ⟨_, rfl, iclip_abs hl.lo1 (by have := hl.lo0; rw [compl]; omega) (by have := hl.lo1; rw [compl]; omega)⟩

theorem pass2_bounded {d : Depth} {tx : Tx} {k : Kind} {p : Prog} (hp : fn tx.h k = some p) {tmp : List (List Int)}
    (hl : tmp.length = tx.sh) (ht : ∀ row ∈ tmp, row.length = tx.w ∧ ∀ v ∈ row, v.natAbs ≤ 524288) :
    ∃ cols, pass2 d tx p tmp = some cols ∧ cols.length = tx.w ∧
      ∀ col ∈ cols, col.length = tx.h ∧ ∀ v ∈ col, v.natAbs ≤ 2097152 := by
  refine collect_ex (P := fun col : List Int => col.length = tx.h ∧ ∀ v ∈ col, v.natAbs ≤ 2097152) fun x hx => ?_
  obtain ⟨c, hc1, hc2, hc3⟩ := collect_ex (n := tx.sh) (P := fun v : Int => v.natAbs ≤ 524288)
    (f := fun y => (tmp[y]?).bind fun row => row[x]?) (fun y hy => by
      have hm : tmp[y]'(by omega) ∈ tmp := List.getElem_mem _
      obtain ⟨h1, h2⟩ := ht _ hm
      rw [List.getElem?_eq_getElem (by omega), Option.bind_some, List.getElem?_eq_getElem (by omega)]
      exact ⟨_, rfl, h2 _ (List.getElem_mem _)⟩)
  rw [hc1, Option.bind_some]
  exact call_bounded hp (col_lim d) (by rw [hc2, min_h]) hc3

/-- Rows of `h` times `w` pixels in range. -/
def BlockOk (d : Depth) (w h : Nat) (out : List (List Int)) : Prop :=
  out.length = h ∧ ∀ row ∈ out, row.length = w ∧ ∀ v ∈ row, PixelIn d v

theorem addPx_ok {d : Depth} {p v : Int} (hp : PixelIn d p) (hv : v.natAbs ≤ 2097152) :
    addPx d p v = some (d.clip (p + v)) := by
  have := pixel_abs hp
  rw [addPx, fit_of (by omega), Option.map_some]

theorem output_ok {d : Depth} {tx : Tx} {cols : List (List Int)} {dst : Nat → Nat → Int} (hl : cols.length = tx.w)
    (hc : ∀ col ∈ cols, col.length = tx.h ∧ ∀ v ∈ col, v.natAbs ≤ 2097152)
    (hd : ∀ y < tx.h, ∀ x < tx.w, PixelIn d (dst y x)) :
    ∃ out, output d tx cols dst = some out ∧ BlockOk d tx.w tx.h out := by
  refine collect_ex (P := fun row : List Int => row.length = tx.w ∧ ∀ v ∈ row, PixelIn d v) fun y hy => ?_
  refine collect_ex (P := PixelIn d) fun x hx => ?_
  have hm : cols[x]'(by omega) ∈ cols := List.getElem_mem _
  obtain ⟨h1, h2⟩ := hc _ hm
  have hv := h2 _ (List.getElem_mem (show y < _ by omega))
  rw [List.getElem?_eq_getElem (by omega), Option.bind_some, List.getElem?_eq_getElem (by omega), Option.bind_some,
    fit_of (by omega), Option.bind_some, addPx_ok (hd y hy x hx) (by rw [asr4]; omega)]
  exact ⟨_, rfl, clip_pixel ..⟩

theorem invTxfmFull_ok {d : Depth} {tx : Tx} {ty : TxType} (h : tx.has ty = true) {eob : Nat} (he : eob < tx.sw * tx.sh)
    {coeff : Nat → Int} (hc : ∀ i < tx.sw * tx.sh, CoefIn d (coeff i)) {dst : Nat → Nat → Int}
    (hd : ∀ y < tx.h, ∀ x < tx.w, PixelIn d (dst y x)) :
    ∃ out, invTxfmFull d tx ty.impl eob coeff dst = some (out, fun i => if i < tx.sw * tx.sh then 0 else coeff i) ∧
      BlockOk d tx.w tx.h out := by
  obtain ⟨p1, p2, hp1, hp2⟩ := has_fn h
  obtain ⟨last, hl1, hl2, _⟩ := lastNonzero_spec h he
  obtain ⟨tmp, ht1, ht2, ht3⟩ := pass1_bounded hp1 last hc
  obtain ⟨cols, hc1, hc2, hc3⟩ := pass2_bounded (d := d) hp2 ht2 ht3
  obtain ⟨out, ho1, ho2⟩ := output_ok hc2 hc3 hd
  refine ⟨out, ?_, ho2⟩
  rw [invTxfmFull, hp1, Option.bind_some, hp2, Option.bind_some, hl1, Option.bind_some, if_pos hl2, ht1, Option.bind_some,
    hc1, Option.bind_some, ho1, Option.map_some]

/-! ## C54: `eob` only saves work -/

theorem firstRow_zero {d : Depth} {tx : Tx} {k : Kind} {p : Prog} (hp : fn tx.w k = some p) {coeff : Nat → Int} {y : Nat}
    (hz : ∀ x < tx.sw, coeff (y + x * tx.sh) = 0) : firstRow d tx p coeff y = some (List.replicate tx.w 0) := by
  rw [firstRow, collect_eq (g := fun _ => 0) (fun x hx => by rw [hz x hx]; split <;> rfl), Option.bind_some, List.map_const',
    List.length_range, ← min_w]
  exact call_zero hp (row_lim d)

theorem pass1_last {d : Depth} {tx : Tx} {k : Kind} {p : Prog} (hp : fn tx.w k = some p) {coeff : Nat → Int} {last : Nat}
    (hz : ∀ y < tx.sh, last < y → ∀ x < tx.sw, coeff (y + x * tx.sh) = 0) :
    pass1 d tx p last coeff = pass1 d tx p tx.sh coeff := by
  rw [pass1, pass1]
  refine collect_congr fun y hy => ?_
  rw [if_pos (show y ≤ tx.sh by omega)]
  by_cases hl : y ≤ last
  · rw [if_pos hl]
  · rw [if_neg hl, firstRow_zero hp (hz y hy (by omega))]

/-- Coefficients after number `eob` in coding order are zero. -/
def ZeroAfter (tx : Tx) (cls : TxClass) (eob : Nat) (coeff : Nat → Int) : Prop :=
  ∀ i, eob < i → i < tx.sw * tx.sh → ∀ p, pos tx cls i = some p → coeff p = 0

theorem invTxfmFull_eob {d : Depth} {tx : Tx} {ty : TxType} (h : tx.has ty = true) {eob : Nat} (he : eob < tx.sw * tx.sh)
    {coeff : Nat → Int} (hz : ZeroAfter tx ty.cls eob coeff) {dst : Nat → Nat → Int} :
    ∃ p1 p2, fn tx.w ty.impl.kinds.1 = some p1 ∧ fn tx.h ty.impl.kinds.2 = some p2 ∧
    invTxfmFull d tx ty.impl eob coeff dst =
    (pass1 d tx p1 tx.sh coeff).bind fun tmp => (pass2 d tx p2 tmp).bind fun cols =>
    (output d tx cols dst).map fun out => (out, fun i => if i < tx.sw * tx.sh then 0 else coeff i) := by
  obtain ⟨p1, p2, hp1, hp2⟩ := has_fn h
  obtain ⟨last, hl1, hl2, hl3⟩ := lastNonzero_spec h he
  refine ⟨p1, p2, hp1, hp2, ?_⟩
  rw [invTxfmFull, hp1, Option.bind_some, hp2, Option.bind_some, hl1, Option.bind_some, if_pos hl2, pass1_last hp1]
  intro y hy hly x hx
  have hb : y + x * tx.sh < tx.sw * tx.sh := by
    calc y + x * tx.sh < tx.sh + x * tx.sh := by omega
      _ = (x + 1) * tx.sh := by rw [Nat.add_mul, Nat.one_mul, Nat.add_comm]
      _ ≤ tx.sw * tx.sh := Nat.mul_le_mul_right _ hx
  obtain ⟨i, ⟨hi1, hi2⟩, _⟩ := (C44_scan tx ty.cls).2 _ hb
  by_cases hie : i ≤ eob
  · have := hl3 i hie _ hi2
    rw [Nat.add_mul_mod_self_right, Nat.mod_eq_of_lt hy] at this
    omega
  · exact hz i (by omega) hi1 _ hi2

/-! ## C39: the DC shortcut -/

/-- The value in the transforms after the scaling of rectangular blocks. -/
def dcIn (tx : Tx) (v : Int) : Int := if tx.rect2 then asr (v * 181 + 128) 8 else v

theorem dcIn_eq {d : Depth} {tx : Tx} {v : Int} (h : CoefIn d v) :
    (if tx.rect2 then mul181 v else some v) = some (dcIn tx v) := by
  have := h.abs
  rw [dcIn]
  split
  · exact mul181_eq (by omega)
  · rfl

theorem dcIn_in {d : Depth} {tx : Tx} {v : Int} (h : CoefIn d v) : CoefIn d (dcIn tx v) := by
  rw [dcIn]
  split
  · rw [asr8]
    rw [CoefIn] at h ⊢
    cases d <;> norm_num [Depth.bpc] at h ⊢ <;> omega
  · exact h

theorem range_dc (v : Int) {n : Nat} (hn : 0 < n) : (List.range n).map (fun x => if x = 0 then v else 0) =
    v :: List.replicate (n - 1) 0 := by
  refine List.ext_getElem (by simp; omega) fun i h1 h2 => ?_
  cases i with
  | zero => simp
  | succ i => simp

/-- The element of the first row after the first pass. -/
def dcRow (d : Depth) (tx : Tx) (v : Int) : Int :=
  iclip (asr (iclip (asr (v * 181 + 128) 8) (rowMin d) (compl (rowMin d)) + half tx.shift) tx.shift) (colMin d) (compl (colMin d))

/-- The elements after the second pass. -/
def dcCol (d : Depth) (tx : Tx) (v : Int) : Int :=
  iclip (asr (dcRow d tx v * 181 + 128) 8) (colMin d) (compl (colMin d))

theorem half_shift (tx : Tx) : asr (half tx.shift) tx.shift = 0 := by cases tx <;> decide

theorem col_abs (d : Depth) (v : Int) : (iclip v (colMin d) (compl (colMin d))).natAbs ≤ 524288 := by
  have hl := col_lim d
  exact iclip_abs hl.lo1 (by have := hl.lo0; rw [compl]; omega) (by have := hl.lo1; rw [compl]; omega)

theorem row_abs (d : Depth) (v : Int) : (iclip v (rowMin d) (compl (rowMin d))).natAbs ≤ 524288 := by
  have hl := row_lim d
  exact iclip_abs hl.lo1 (by have := hl.lo0; rw [compl]; omega) (by have := hl.lo1; rw [compl]; omega)

theorem col_zero (d : Depth) : iclip 0 (colMin d) (compl (colMin d)) = 0 := by
  have hl := col_lim d
  exact iclip_zero (by have := hl.lo0; omega) (by have := hl.lo0; rw [compl]; omega)

theorem pass1_dc {d : Depth} {tx : Tx} {p : Prog} (hp : fn tx.w .dct = some p) {coeff : Nat → Int} (h0 : CoefIn d (coeff 0))
    (hz : ∀ i, 0 < i → i < tx.sw * tx.sh → coeff i = 0) :
    pass1 d tx p tx.sh coeff = some ((List.range tx.sh).map fun y => (List.range tx.w).map fun _ =>
      if y = 0 then dcRow d tx (dcIn tx (coeff 0)) else 0) := by
  have hab := (dcIn_in (tx := tx) h0).abs
  refine collect_eq fun y hy => ?_
  rw [if_pos (show y ≤ tx.sh by omega)]
  have hlt : ∀ x < tx.sw, y + x * tx.sh < tx.sw * tx.sh := fun x hx => by
    calc y + x * tx.sh < tx.sh + x * tx.sh := by omega
      _ = (x + 1) * tx.sh := by rw [Nat.add_mul, Nat.one_mul, Nat.add_comm]
      _ ≤ tx.sw * tx.sh := Nat.mul_le_mul_right _ hx
  have hh := half_abs tx
  by_cases hy0 : y = 0
  · subst hy0
    have hrow : firstRow d tx p coeff 0 = some (List.replicate tx.w
        (iclip (asr (dcIn tx (coeff 0) * 181 + 128) 8) (rowMin d) (compl (rowMin d)))) := by
      rw [firstRow, collect_eq (g := fun x => if x = 0 then dcIn tx (coeff 0) else 0), Option.bind_some,
        range_dc _ (sw_pos tx), ← min_w]
      · exact call_dc hp (row_lim d) (by omega) (by omega)
      · intro x hx
        by_cases hx0 : x = 0
        · subst hx0
          rw [if_pos rfl, show 0 + 0 * tx.sh = 0 by omega]
          exact dcIn_eq h0
        · rw [if_neg hx0, hz _ (by have := Nat.mul_pos (Nat.pos_of_ne_zero hx0) (sh_pos tx); omega) (hlt x hx)]
          split <;> rfl
    rw [hrow, Option.bind_some]
    refine collect_eq fun x hx => ?_
    have hr := row_abs d (asr (dcIn tx (coeff 0) * 181 + 128) 8)
    rw [List.getElem?_replicate, if_pos hx, Option.bind_some, fit_of (by omega), Option.map_some, if_pos rfl, dcRow]
  · rw [firstRow_zero hp (fun x hx => hz _ (by omega) (hlt x hx)), Option.bind_some]
    refine collect_eq fun x hx => ?_
    rw [List.getElem?_replicate, if_pos hx, Option.bind_some, fit_of (by omega), Option.map_some, if_neg hy0, Int.zero_add,
      half_shift, col_zero]

theorem pass2_dc {d : Depth} {tx : Tx} {p : Prog} (hp : fn tx.h .dct = some p) (v : Int) :
    pass2 d tx p ((List.range tx.sh).map fun y => (List.range tx.w).map fun _ => if y = 0 then dcRow d tx v else 0) =
      some ((List.range tx.w).map fun _ => List.replicate tx.h (dcCol d tx v)) := by
  refine collect_eq fun x hx => ?_
  rw [collect_eq (g := fun y => if y = 0 then dcRow d tx v else 0), Option.bind_some, range_dc _ (sh_pos tx), ← min_h]
  · have := col_abs d (asr (iclip (asr (v * 181 + 128) 8) (rowMin d) (compl (rowMin d)) + half tx.shift) tx.shift)
    exact call_dc hp (col_lim d) (by rw [dcRow]; omega) (by rw [dcRow]; omega)
  · intro y hy
    rw [List.getElem?_map, List.getElem?_range hy, Option.map_some, Option.bind_some, List.getElem?_map,
      List.getElem?_range hx, Option.map_some]

/-- The shortcut's value. -/
def dcShort (tx : Tx) (v : Int) : Int :=
  asr (asr (asr (v * 181 + 128) 8 + half tx.shift) tx.shift * 181 + 128 + 2048) 12

/-- Clipping to `C` before the second pass has no effect on the clipped pixel. -/
theorem dc_agree_aux {C m q p : Int} (hC : (C = 32768 ∧ (m = 255 ∨ m = 1023)) ∨ (C = 131072 ∧ m = 4095)) (hp0 : 0 ≤ p) (hp1 : p ≤ m) :
    iclip (p + (iclip ((iclip q (-C) (C - 1) * 181 + 128) / 256) (-C) (C - 1) + 8) / 16) 0 m =
    iclip (p + (q * 181 + 128 + 2048) / 4096) 0 m := by
  by_cases h1 : q < -C
  · rw [iclip.eq_1 q, if_pos h1, iclip.eq_1 ((-C * 181 + 128) / 256), if_neg (by omega), if_neg (by omega)]
    rw [iclip, if_pos (by omega), iclip, if_pos (by omega)]
  · by_cases h2 : q > C - 1
    · rw [iclip.eq_1 q, if_neg h1, if_pos h2, iclip.eq_1 (((C - 1) * 181 + 128) / 256), if_neg (by omega), if_neg (by omega)]
      rw [iclip, if_neg (by omega), if_pos (by omega), iclip, if_neg (by omega), if_pos (by omega)]
    · rw [iclip.eq_1 q, if_neg h1, if_neg h2, iclip.eq_1 ((q * 181 + 128) / 256), if_neg (by omega), if_neg (by omega)]
      congr 2
      omega

theorem dc_agree (d : Depth) (tx : Tx) {v p : Int} (hv : CoefIn d v) (hp : PixelIn d p) :
    d.clip (p + asr (dcCol d tx v + 8) 4) = d.clip (p + dcShort tx v) := by
  have hr : iclip (asr (v * 181 + 128) 8) (rowMin d) (compl (rowMin d)) = asr (v * 181 + 128) 8 := by
    rw [asr8, iclip]
    rw [CoefIn] at hv
    cases d <;> norm_num [Depth.bpc, rowMin, compl, Depth.max] at hv ⊢ <;> omega
  have hc : compl (colMin d) = -colMin d - 1 := rfl
  rw [dcCol, dcRow, dcShort, hr, hc]
  generalize asr (asr (v * 181 + 128) 8 + half tx.shift) tx.shift = q
  have hC : (-colMin d = 32768 ∧ (d.max = 255 ∨ d.max = 1023)) ∨ (-colMin d = 131072 ∧ d.max = 4095) := by
    cases d <;> decide
  have := dc_agree_aux (q := q) hC hp.1 hp.2
  rw [Int.neg_neg] at this
  rw [asr4, asr8, asr12]
  exact this

theorem invTxfmDc_eq {d : Depth} {tx : Tx} {coeff : Nat → Int} (h0 : CoefIn d (coeff 0)) {dst : Nat → Nat → Int}
    (hd : ∀ y < tx.h, ∀ x < tx.w, PixelIn d (dst y x)) :
    invTxfmDc d tx coeff dst = some ((List.range tx.h).map fun y => (List.range tx.w).map fun x =>
      d.clip (dst y x + dcShort tx (dcIn tx (coeff 0))), fun i => if i = 0 then 0 else coeff i) := by
  have hab := (dcIn_in (tx := tx) h0).abs
  have hh := half_abs tx
  rw [invTxfmDc, dcIn_eq h0, Option.bind_some, mul181_eq (by omega), Option.bind_some]
  have hs : (asr (dcIn tx (coeff 0) * 181 + 128) 8).natAbs ≤ 524288 := by rw [asr8]; omega
  rw [fit_of (by omega), Option.bind_some]
  dsimp only
  have hq : (asr (asr (dcIn tx (coeff 0) * 181 + 128) 8 + half tx.shift) tx.shift).natAbs ≤ 524290 :=
    Nat.le_trans asr_abs (by omega)
  rw [fit_of (by omega), Option.bind_some, fit_of (by omega), Option.bind_some, fit_of (by omega), Option.bind_some]
  rw [collect_eq (g := fun y => (List.range tx.w).map fun x => d.clip (dst y x + dcShort tx (dcIn tx (coeff 0)))), Option.map_some]
  intro y hy
  refine collect_eq fun x hx => ?_
  rw [addPx_ok (hd y hy x hx) (by rw [asr12]; omega)]
  rfl

theorem invTxfmFull_dc {d : Depth} {tx : Tx} {coeff : Nat → Int} (h0 : CoefIn d (coeff 0))
    (hz : ∀ i, 0 < i → i < tx.sw * tx.sh → coeff i = 0) {dst : Nat → Nat → Int}
    (hd : ∀ y < tx.h, ∀ x < tx.w, PixelIn d (dst y x)) {eob : Nat} (he : eob < tx.sw * tx.sh) :
    invTxfmFull d tx .dctDct eob coeff dst = invTxfmDc d tx coeff dst := by
  have hhas : tx.has .dctDct = true := by cases tx <;> rfl
  have hza : ZeroAfter tx (TxType.dctDct).cls eob coeff := by
    intro i hi hi2 p hp
    obtain ⟨q, hq1, hq2⟩ := (C44_scan tx .d2).1 i hi2
    have hpq : p = q := Option.some.inj (hp.symm.trans hq2)
    refine hz p ?_ (by omega)
    rcases Nat.eq_zero_or_pos p with h | h
    · exfalso
      have hpos : 0 < tx.sw * tx.sh := by omega
      have h00 : pos tx .d2 0 = some 0 := by cases tx <;> rfl
      have := ((C44_scan tx .d2).2 0 hpos).unique ⟨hi2, by rw [hq2, ← hpq, h]⟩ ⟨hpos, h00⟩
      omega
    · exact h
  obtain ⟨p1, p2, hp1, hp2, hf⟩ := invTxfmFull_eob (d := d) hhas he hza (dst := dst)
  rw [show (TxType.dctDct).impl = .dctDct from rfl] at hf
  rw [hf, pass1_dc hp1 h0 hz, Option.bind_some, pass2_dc hp2, Option.bind_some, invTxfmDc_eq h0 hd, output]
  have hb : (dcCol d tx (dcIn tx (coeff 0))).natAbs ≤ 524288 := col_abs ..
  rw [collect_eq (g := fun y => (List.range tx.w).map fun x => d.clip (dst y x + dcShort tx (dcIn tx (coeff 0)))), Option.map_some]
  · congr 2
    funext i
    by_cases hi : i = 0
    · subst hi; rw [if_pos rfl, if_pos (by omega)]
    · rw [if_neg hi]
      by_cases hi2 : i < tx.sw * tx.sh
      · rw [if_pos hi2, hz i (by omega) hi2]
      · rw [if_neg hi2]
  · intro y hy
    refine collect_eq fun x hx => ?_
    rw [List.getElem?_map, List.getElem?_range hx, Option.map_some, Option.bind_some, List.getElem?_replicate, if_pos hy,
      Option.bind_some, fit_of (by omega), Option.bind_some, addPx_ok (hd y hy x hx) (by rw [asr4]; omega),
      dc_agree d tx (dcIn_in h0) (hd y hy x hx)]

/-! ## C39: the shortcut for blocks with only a DC coefficient -/

/-- **C39**: when all coefficients but the first are zero, the shortcut, taken for `eob = 0`, gives the same pixels and the
same coefficient buffer as the general transform, whatever `eob` this is given, for every size and bit depth. -/
theorem C39_dc (d : Depth) (tx : Tx) (coeff : Nat → Int) (h0 : CoefIn d (coeff 0))
    (hz : ∀ i, 0 < i → i < tx.sw * tx.sh → coeff i = 0) (dst : Nat → Nat → Int)
    (hd : ∀ y < tx.h, ∀ x < tx.w, PixelIn d (dst y x)) (eob : Nat) (he : eob < tx.sw * tx.sh) :
    invTxfmDc d tx coeff dst = invTxfmFull d tx .dctDct eob coeff dst ∧
    ∃ r, invTxfmDc d tx coeff dst = some r :=
  ⟨(invTxfmFull_dc h0 hz hd he).symm, _, invTxfmDc_eq h0 hd⟩

/-- **C53**: with coefficients as decode_coefs stores them, pixels in range and a transform type that exists for the size, a
transform has no undefined behaviour (no `int` overflow, no uninitialised or out-of-bounds read), all pixels of the
result are in range, and if the coefficients after `eob` are zero, the whole buffer is zero afterwards and nothing
outside of it is changed. -/
theorem C53_safe (d : Depth) (tx : Tx) (ty : TxType) (h : tx.has ty = true) (eob : Nat) (he : eob < tx.sw * tx.sh)
    (coeff : Nat → Int) (hc : ∀ i < tx.sw * tx.sh, CoefIn d (coeff i)) (dst : Nat → Nat → Int)
    (hd : ∀ y < tx.h, ∀ x < tx.w, PixelIn d (dst y x)) :
    ∃ out coeff', itxfmAdd d tx ty eob coeff dst = some (out, coeff') ∧ BlockOk d tx.w tx.h out ∧
      (ZeroAfter tx ty.cls eob coeff → ∀ i < tx.sw * tx.sh, coeff' i = 0) ∧ ∀ i, tx.sw * tx.sh ≤ i → coeff' i = coeff i := by
  have hpos : 0 < tx.sw * tx.sh := by omega
  rw [itxfmAdd, if_pos h, invTxfmAdd]
  by_cases hdc : eob < (if ty.impl = .dctDct then 1 else 0)
  · rw [if_pos hdc, invTxfmDc_eq (hc 0 hpos) hd]
    have hty : ty = .dctDct := by
      by_contra hne
      have : ty.impl ≠ .dctDct := by cases ty <;> first | (exact absurd rfl hne) | decide
      rw [if_neg this] at hdc
      omega
    subst hty
    have he0 : eob = 0 := by rw [if_pos (show TxType.dctDct.impl = .dctDct from rfl)] at hdc; omega
    refine ⟨_, _, rfl, ⟨by simp, fun row hrow => ?_⟩, fun hz i hi => ?_, fun i hi => if_neg (by omega)⟩
    · obtain ⟨y, _, rfl⟩ := List.mem_map.1 hrow
      refine ⟨by simp, fun v hv => ?_⟩
      obtain ⟨x, _, rfl⟩ := List.mem_map.1 hv
      exact clip_pixel ..
    · by_cases hi0 : i = 0
      · rw [if_pos hi0]
      · rw [if_neg hi0]
        obtain ⟨j, ⟨hj1, hj2⟩, _⟩ := (C44_scan tx .d2).2 i hi
        refine hz j ?_ hj1 i hj2
        rcases Nat.eq_zero_or_pos j with h' | h'
        · exfalso
          have h00 : pos tx .d2 0 = some 0 := by cases tx <;> rfl
          rw [h', h00] at hj2
          exact hi0 (Option.some.inj hj2).symm
        · omega
  · rw [if_neg hdc]
    obtain ⟨out, ho1, ho2⟩ := invTxfmFull_ok (d := d) h he hc hd
    exact ⟨out, _, ho1, ho2, fun _ i hi => if_pos hi, fun i hi => if_neg (by omega)⟩

/-- **C54**: `eob` only saves work: if the coefficients after number `eob` in coding order are zero, the result is the same
as for the largest `eob`, for which no coefficient is skipped. -/
theorem C54_eob (d : Depth) (tx : Tx) (ty : TxType) (h : tx.has ty = true) (eob : Nat) (he : eob < tx.sw * tx.sh)
    (coeff : Nat → Int) (hc : ∀ i < tx.sw * tx.sh, CoefIn d (coeff i)) (hz : ZeroAfter tx ty.cls eob coeff)
    (dst : Nat → Nat → Int) (hd : ∀ y < tx.h, ∀ x < tx.w, PixelIn d (dst y x)) :
    itxfmAdd d tx ty eob coeff dst = itxfmAdd d tx ty (tx.sw * tx.sh - 1) coeff dst := by
  have hbig : 16 ≤ tx.sw * tx.sh := by cases tx <;> decide
  have hzl : ZeroAfter tx ty.cls (tx.sw * tx.sh - 1) coeff := fun i hi1 hi2 => by omega
  have key : invTxfmFull d tx ty.impl eob coeff dst = invTxfmFull d tx ty.impl (tx.sw * tx.sh - 1) coeff dst := by
    obtain ⟨p1, p2, a1, a2, a3⟩ := invTxfmFull_eob (d := d) h he hz (dst := dst)
    obtain ⟨q1, q2, b1, b2, b3⟩ := invTxfmFull_eob (d := d) h (show tx.sw * tx.sh - 1 < tx.sw * tx.sh by omega) hzl (dst := dst)
    obtain rfl := Option.some.inj (a1.symm.trans b1)
    obtain rfl := Option.some.inj (a2.symm.trans b2)
    rw [a3, b3]
  rw [itxfmAdd, itxfmAdd, if_pos h, if_pos h, invTxfmAdd, invTxfmAdd,
    if_neg (show ¬tx.sw * tx.sh - 1 < (if ty.impl = .dctDct then 1 else 0) by split <;> omega)]
  by_cases hdc : eob < (if ty.impl = .dctDct then 1 else 0)
  · rw [if_pos hdc]
    have hty : ty = .dctDct := by
      by_contra hne
      have : ty.impl ≠ .dctDct := by cases ty <;> first | (exact absurd rfl hne) | decide
      rw [if_neg this] at hdc
      omega
    subst hty
    have he0 : eob = 0 := by rw [if_pos (show TxType.dctDct.impl = .dctDct from rfl)] at hdc; omega
    refine (C39_dc d tx coeff (hc 0 (by omega)) (fun i hi hi2 => ?_) dst hd _ (by omega)).1
    obtain ⟨j, ⟨hj1, hj2⟩, _⟩ := (C44_scan tx .d2).2 i hi2
    refine hz j ?_ hj1 i hj2
    rcases Nat.eq_zero_or_pos j with h' | h'
    · exfalso
      have h00 : pos tx .d2 0 = some 0 := by cases tx <;> rfl
      rw [h', h00] at hj2
      have := Option.some.inj hj2
      omega
    · omega
  · rw [if_neg hdc, key]

/-! ## C38: lossless blocks -/

/-- The forward transform of the specification's encoder side, applied to a column or row. -/
def fwht4 (a b c d : Int) (k : Nat) : Int :=
  let a1 := a + b
  let d1 := d - c
  let e1 := (a1 - d1) / 2
  let b1 := e1 - b
  let c1 := e1 - c
  match k with
  | 0 => a1 - c1
  | 1 => c1
  | 2 => d1 + b1
  | _ => b1

/-- The forward transform of a block: columns first, then rows. -/
def fwht (r : Nat → Nat → Int) (y x : Nat) : Int :=
  fwht4 (fwht4 (r 0 0) (r 1 0) (r 2 0) (r 3 0) y) (fwht4 (r 0 1) (r 1 1) (r 2 1) (r 3 1) y)
    (fwht4 (r 0 2) (r 1 2) (r 2 2) (r 3 2) y) (fwht4 (r 0 3) (r 1 3) (r 2 3) (r 3 3) y) x

theorem fwht4_abs {a b c d : Int} {R : Nat} (ha : a.natAbs ≤ R) (hb : b.natAbs ≤ R) (hc : c.natAbs ≤ R) (hd : d.natAbs ≤ R)
    (k : Nat) : (fwht4 a b c d k).natAbs ≤ 5 * R := by
  unfold fwht4
  dsimp only
  split <;> omega

theorem wht4_inv {a b c d : Int} {R : Nat} (hR : R ≤ 2 ^ 24) (ha : a.natAbs ≤ R) (hb : b.natAbs ≤ R) (hc : c.natAbs ≤ R)
    (hd : d.natAbs ≤ R) :
    wht4 (fwht4 a b c d 0) (fwht4 a b c d 1) (fwht4 a b c d 2) (fwht4 a b c d 3) = some [a, b, c, d] := by
  have asr1 : ∀ v : Int, asr v 1 = v / 2 := fun v => rfl
  simp only [fwht4]
  rw [wht4, fit_of (by omega), Option.bind_some, fit_of (by omega), Option.bind_some, fit_of (by omega), Option.bind_some]
  simp only [asr1]
  rw [fit_of (by omega), Option.bind_some, fit_of (by omega), Option.bind_some, fit_of (by omega), Option.bind_some,
    fit_of (by omega), Option.map_some]
  congr 2
  · omega
  · congr 1
    · omega
    · congr 1
      · omega
      · congr 1
        omega

theorem wht4_safe {a b c d : Int} {R : Nat} (hR : R ≤ 2 ^ 24) (ha : a.natAbs ≤ R) (hb : b.natAbs ≤ R) (hc : c.natAbs ≤ R)
    (hd : d.natAbs ≤ R) : ∃ l, wht4 a b c d = some l ∧ l.length = 4 ∧ ∀ v ∈ l, v.natAbs ≤ 5 * R := by
  have asr1 : ∀ v : Int, asr v 1 = v / 2 := fun v => rfl
  rw [wht4, fit_of (by omega), Option.bind_some, fit_of (by omega), Option.bind_some, fit_of (by omega), Option.bind_some]
  simp only [asr1]
  rw [fit_of (by omega), Option.bind_some, fit_of (by omega), Option.bind_some, fit_of (by omega), Option.bind_some,
    fit_of (by omega), Option.map_some]
  refine ⟨_, rfl, rfl, fun v hv => ?_⟩
  simp only [List.mem_cons, List.not_mem_nil, or_false] at hv
  rcases hv with rfl | rfl | rfl | rfl <;> omega

theorem addPx_ok' {d : Depth} {p v : Int} (hp : PixelIn d p) (hv : v.natAbs ≤ 2 ^ 29) :
    addPx d p v = some (d.clip (p + v)) := by
  have := pixel_abs hp
  rw [addPx, fit_of (by omega), Option.map_some]

/-- **C38**, first part: for every residual block, the inverse transform of its (four times scaled) forward transform adds
exactly that residual to the prediction, clipped to the range of pixels; the coefficients are cleared. -/
theorem C38_inverse (d : Depth) (r : Nat → Nat → Int) (hr : ∀ y < 4, ∀ x < 4, (r y x).natAbs ≤ 2 ^ 20) (coeff : Nat → Int)
    (hc : ∀ y < 4, ∀ x < 4, coeff (y + x * 4) = 4 * fwht r y x) (dst : Nat → Nat → Int)
    (hd : ∀ y < 4, ∀ x < 4, PixelIn d (dst y x)) :
    invWht d coeff dst = some ((List.range 4).map fun y => (List.range 4).map fun x => d.clip (dst y x + r y x),
      fun i => if i < 16 then 0 else coeff i) := by
  have asr2 : ∀ v : Int, asr (4 * v) 2 = v := fun v => Int.mul_ediv_cancel_left _ (by decide)
  have hcol : ∀ x < 4, ∀ y, (fwht4 (r 0 x) (r 1 x) (r 2 x) (r 3 x) y).natAbs ≤ 5 * 2 ^ 20 := fun x hx y =>
    fwht4_abs (hr 0 (by omega) x hx) (hr 1 (by omega) x hx) (hr 2 (by omega) x hx) (hr 3 (by omega) x hx) y
  rw [invWht, collect_eq (n := 4) (g := fun y => [fwht4 (r 0 0) (r 1 0) (r 2 0) (r 3 0) y, fwht4 (r 0 1) (r 1 1) (r 2 1) (r 3 1) y,
    fwht4 (r 0 2) (r 1 2) (r 2 2) (r 3 2) y, fwht4 (r 0 3) (r 1 3) (r 2 3) (r 3 3) y]), Option.bind_some]
  · rw [collect_eq (n := 4) (g := fun x => [r 0 x, r 1 x, r 2 x, r 3 x]), Option.bind_some]
    · rw [collect_eq (n := 4) (g := fun y => (List.range 4).map fun x => d.clip (dst y x + r y x)), Option.map_some]
      intro y hy
      refine collect_eq fun x hx => ?_
      rw [List.getElem?_map, List.getElem?_range hx, Option.map_some, Option.bind_some,
        show [r 0 x, r 1 x, r 2 x, r 3 x][y]? = some (r y x) by interval_cases y <;> rfl, Option.bind_some,
        addPx_ok' (hd y hy x hx) (by have := hr y hy x hx; omega)]
    · intro x hx
      rw [collect_eq (n := 4) (g := fun y => fwht4 (r 0 x) (r 1 x) (r 2 x) (r 3 x) y), Option.bind_some]
      · exact wht4_inv (by decide) (hr 0 (by omega) x hx) (hr 1 (by omega) x hx) (hr 2 (by omega) x hx) (hr 3 (by omega) x hx)
      · intro y hy
        rw [List.getElem?_map, List.getElem?_range hy, Option.map_some, Option.bind_some]
        interval_cases x <;> rfl
  · intro y hy
    have h0 := hc y hy 0 (by omega)
    have h1 := hc y hy 1 (by omega)
    have h2 := hc y hy 2 (by omega)
    have h3 := hc y hy 3 (by omega)
    rw [show y + 0 * 4 = y by omega] at h0
    rw [show y + 1 * 4 = y + 4 by omega] at h1
    rw [show y + 2 * 4 = y + 8 by omega] at h2
    rw [show y + 3 * 4 = y + 12 by omega] at h3
    rw [h0, h1, h2, h3, asr2, asr2, asr2, asr2]
    exact wht4_inv (by decide) (hcol 0 (by omega) y) (hcol 1 (by omega) y) (hcol 2 (by omega) y) (hcol 3 (by omega) y)

/-- **C38**, lossless: a residual between two pictures comes back exactly, and its coefficients are ones the decoder can store. -/
theorem C38_lossless (d : Depth) (src dst : Nat → Nat → Int) (hs : ∀ y < 4, ∀ x < 4, PixelIn d (src y x))
    (hd : ∀ y < 4, ∀ x < 4, PixelIn d (dst y x)) (coeff : Nat → Int)
    (hc : ∀ y < 4, ∀ x < 4, coeff (y + x * 4) = 4 * fwht (fun y x => src y x - dst y x) y x) :
    (∃ coeff', invWht d coeff dst = some ((List.range 4).map fun y => (List.range 4).map fun x => src y x, coeff')) ∧
    ∀ i < 16, CoefIn d (coeff i) := by
  have hr : ∀ y < 4, ∀ x < 4, (src y x - dst y x).natAbs ≤ d.max.toNat := by
    intro y hy x hx
    have h1 := hs y hy x hx
    have h2 := hd y hy x hx
    rw [PixelIn] at h1 h2
    omega
  have hm : d.max.toNat ≤ 2 ^ 20 := by cases d <;> decide
  refine ⟨⟨fun i => if i < 16 then 0 else coeff i, ?_⟩, fun i hi => ?_⟩
  · rw [C38_inverse d (fun y x => src y x - dst y x) (fun y hy x hx => Nat.le_trans (hr y hy x hx) hm) coeff hc dst hd]
    congr 2
    refine List.map_congr_left fun y hy => List.map_congr_left fun x hx => ?_
    have h1 := hs y (List.mem_range.1 hy) x (List.mem_range.1 hx)
    rw [show dst y x + (src y x - dst y x) = src y x by omega, Depth.clip, iclip, if_neg (by have := h1.1; omega),
      if_neg (by have := h1.2; omega)]
  · have h := hc (i % 4) (by omega) (i / 4) (by omega)
    rw [show i % 4 + i / 4 * 4 = i by omega] at h
    have hcol : ∀ x < 4, ∀ y, (fwht4 (src 0 x - dst 0 x) (src 1 x - dst 1 x) (src 2 x - dst 2 x) (src 3 x - dst 3 x) y).natAbs ≤
        5 * d.max.toNat := fun x hx y =>
      fwht4_abs (hr 0 (by omega) x hx) (hr 1 (by omega) x hx) (hr 2 (by omega) x hx) (hr 3 (by omega) x hx) y
    have := fwht4_abs (hcol 0 (by omega) (i % 4)) (hcol 1 (by omega) (i % 4)) (hcol 2 (by omega) (i % 4)) (hcol 3 (by omega) (i % 4)) (i / 4)
    rw [fwht] at h
    rw [h, CoefIn]
    cases d <;> norm_num [Depth.max, Depth.bpc] at this ⊢ <;> omega

/-- **C38**, second part: any coefficients the decoder can store give a defined result, with pixels in range, and are cleared. -/
theorem C38_range (d : Depth) (coeff : Nat → Int) (hc : ∀ i < 16, CoefIn d (coeff i)) (dst : Nat → Nat → Int)
    (hd : ∀ y < 4, ∀ x < 4, PixelIn d (dst y x)) :
    ∃ out, invWht d coeff dst = some (out, fun i => if i < 16 then 0 else coeff i) ∧ BlockOk d 4 4 out := by
  have asr2 : ∀ i < 16, (asr (coeff i) 2).natAbs ≤ 131072 := by
    intro i hi
    have := (hc i hi).abs
    rw [show asr (coeff i) 2 = coeff i / 4 from rfl]
    omega
  obtain ⟨tmp, t1, t2, t3⟩ := collect_ex (n := 4) (f := fun y => wht4 (asr (coeff y) 2) (asr (coeff (y + 4)) 2) (asr (coeff (y + 8)) 2)
    (asr (coeff (y + 12)) 2)) (P := fun l => l.length = 4 ∧ ∀ v ∈ l, v.natAbs ≤ 5 * 131072) fun y hy =>
    wht4_safe (by decide) (asr2 _ (by omega)) (asr2 _ (by omega)) (asr2 _ (by omega)) (asr2 _ (by omega))
  obtain ⟨cols, c1, c2, c3⟩ := collect_ex (n := 4) (f := fun x => (collect 4 fun y => (tmp[y]?).bind fun row => row[x]?).bind fun col =>
    match col with
    | [a, b, c, d] => wht4 a b c d
    | _ => none) (P := fun l => l.length = 4 ∧ ∀ v ∈ l, v.natAbs ≤ 5 * (5 * 131072)) fun x hx => by
      obtain ⟨col, k1, k2, k3⟩ := collect_ex (n := 4) (f := fun y => (tmp[y]?).bind fun row => row[x]?)
        (P := fun v => v.natAbs ≤ 5 * 131072) fun y hy => by
          have hy' : y < tmp.length := by omega
          obtain ⟨m1, m2⟩ := t3 _ (List.getElem_mem hy')
          have hx' : x < tmp[y].length := by omega
          exact ⟨tmp[y][x], by rw [List.getElem?_eq_getElem hy', Option.bind_some, List.getElem?_eq_getElem hx'],
            m2 _ (List.getElem_mem hx')⟩
      rw [k1, Option.bind_some]
      match col, k2, k3 with
      | [a, b, c, e], _, k3 =>
        exact wht4_safe (by decide) (k3 a (by simp)) (k3 b (by simp)) (k3 c (by simp)) (k3 e (by simp))
  obtain ⟨out, o1, o2, o3⟩ := collect_ex (n := 4) (f := fun y => collect 4 fun x => (cols[x]?).bind fun col => (col[y]?).bind fun v =>
    addPx d (dst y x) v) (P := fun row => row.length = 4 ∧ ∀ v ∈ row, PixelIn d v) fun y hy => by
      refine collect_ex fun x hx => ?_
      have hx' : x < cols.length := by omega
      obtain ⟨m1, m2⟩ := c3 _ (List.getElem_mem hx')
      have hy' : y < cols[x].length := by omega
      refine ⟨d.clip (dst y x + cols[x][y]), ?_, clip_pixel ..⟩
      rw [List.getElem?_eq_getElem hx', Option.bind_some, List.getElem?_eq_getElem hy', Option.bind_some,
        addPx_ok' (hd y hy x hx) (by have := m2 _ (List.getElem_mem hy'); omega)]
  refine ⟨out, ?_, o2, o3⟩
  rw [invWht]
  erw [t1, Option.bind_some, c1, Option.bind_some, o1, Option.map_some]

/-! ## The hypotheses can be met -/

/-- A block with three coefficients, numbers 0, 1 and 8 in the coding order of a 16x8 block. -/
def demoCoeff : Nat → Int := fun i => if i = 0 then -1300 else if i = 1 then 700 else if i = 17 then 32767 else 0

/-- The premises of C53 and C54 hold for it with `eob = 8`, and with them the result is not trivial. -/
example : Tx.has .x16x8 .flipadstDct = true ∧ (∀ i, CoefIn .b8 (demoCoeff i)) ∧
    ZeroAfter .x16x8 (TxType.flipadstDct).cls 8 demoCoeff ∧
    ((itxfmAdd .b8 .x16x8 .flipadstDct 8 demoCoeff fun _ _ => 100).map fun o => o.1[2]?) =
      some (some [11, 22, 42, 67, 95, 121, 140, 151, 151, 140, 121, 95, 67, 42, 22, 11]) := by
  refine ⟨rfl, fun i => ?_, ?_, by decide +kernel⟩
  · rw [CoefIn, demoCoeff]
    norm_num [Depth.bpc]
    split_ifs <;> omega
  · have h : ∀ i < Tx.sw .x16x8 * Tx.sh .x16x8, 8 < i → (pos .x16x8 (TxType.flipadstDct).cls i).all (fun p => demoCoeff p = 0) := by
      decide +kernel
    intro i h1 h2 p hp
    have := h i h2 h1
    rw [hp] at this
    simpa using this

/-- C39: a block with only a DC coefficient. -/
example : (invTxfmDc .b8 .x8x8 (fun i => if i = 0 then -1300 else 0) fun _ _ => 100).map (fun o => o.1[3]?) =
      some (some [80, 80, 80, 80, 80, 80, 80, 80]) := by decide +kernel

/-- C38: a block of pixels `7 * y * x` predicted as `50 * x`, with the coefficients of the difference. -/
example : (∀ y < 4, ∀ x < 4, PixelIn .b8 ((7 * y * x : Nat) : Int) ∧ PixelIn .b8 ((50 * x : Nat) : Int)) ∧
    (invWht .b8 (fun i => 4 * fwht (fun y x => 7 * y * x - 50 * x) (i % 4) (i / 4)) fun _ x => 50 * x).map (·.1) =
      some [[0, 0, 0, 0], [0, 7, 14, 21], [0, 14, 28, 42], [0, 21, 42, 63]] := by
  unfold PixelIn
  decide +kernel

/-- The transform of the rows (the horizontal one) that the name of a type stands for, AV1 specification 7.13.3; the second part of
the name, or the one of `H_`. -/
def rowKernel : TxType → Kind
  | .dctDct | .adstDct | .flipadstDct | .hDct => .dct
  | .dctAdst | .adstAdst | .flipadstAdst | .hAdst => .adst
  | .dctFlipadst | .adstFlipadst | .flipadstFlipadst | .hFlipadst => .flipadst
  | .idtx | .vDct | .vAdst | .vFlipadst => .identity

/-- The transform of the columns: the first part of the name, or the one of `V_`. -/
def colKernel : TxType → Kind
  | .dctDct | .dctAdst | .dctFlipadst | .vDct => .dct
  | .adstDct | .adstAdst | .adstFlipadst | .vAdst => .adst
  | .flipadstDct | .flipadstAdst | .flipadstFlipadst | .vFlipadst => .flipadst
  | .idtx | .hDct | .hAdst | .hFlipadst => .identity

/-- **C54**: whatever the position of the last coefficient, the block gets the row transform of the coded type applied to all its rows
and then the column transform of the coded type applied to all its columns; the types are not mixed up by the transposed storage. -/
theorem C54_kernels {d : Depth} {tx : Tx} {ty : TxType} (h : tx.has ty = true) {eob : Nat} (he : eob < tx.sw * tx.sh)
    {coeff : Nat → Int} (hz : ZeroAfter tx ty.cls eob coeff) {dst : Nat → Nat → Int} :
    ∃ row col, fn tx.w (rowKernel ty) = some row ∧ fn tx.h (colKernel ty) = some col ∧
    invTxfmFull d tx ty.impl eob coeff dst =
    (pass1 d tx row tx.sh coeff).bind fun tmp => (pass2 d tx col tmp).bind fun cols =>
    (output d tx cols dst).map fun out => (out, fun i => if i < tx.sw * tx.sh then 0 else coeff i) := by
  have e : ty.impl.kinds = (rowKernel ty, colKernel ty) := by cases ty <;> rfl
  have := invTxfmFull_eob (d := d) h he hz (dst := dst)
  rw [e] at this
  exact this

end Dav1d.Itx
