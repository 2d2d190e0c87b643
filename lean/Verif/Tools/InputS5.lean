import Verif.Tools.InputIvf

/-
The Section 5 demuxer.
-/

namespace Dav1d.Input

open Spec

theorem stream_ext {s t : Stream} (h1 : s.data = t.data) (h2 : s.pos = t.pos) : s = t := by
  cases s; cases t; simp only at h1 h2; rw [h1, h2]

/-- A skip within the file passes over bytes. -/
theorem skip_take {w : Stream} {len : Nat} (h : w.pos + len ≤ w.data.length) :
    ∃ pay : List UInt8, pay.length = len ∧ w.rest = pay ++ (skip len w).rest := by
  refine ⟨w.rest.take len, ?_, ?_⟩
  · rw [List.length_take]; unfold Stream.rest; rw [List.length_drop]; omega
  · have : (skip len w).rest = w.rest.drop len := by
      unfold skip Stream.rest; simp only [List.drop_drop]
    rw [this, List.take_append_drop]

theorem obuType_eq (b : UInt8) : obuType b = b.toNat / 8 % 16 := by
  unfold obuType
  rw [Nat.shiftRight_eq_div_pow]
  exact Nat.and_two_pow_sub_one_eq_mod _ 4

theorem and2 (b : UInt8) : b.toNat &&& 2 = 0 ↔ b.toNat / 2 % 2 = 0 := by
  have : ∀ n ∈ List.range 256, n &&& 2 = 0 ↔ n / 2 % 2 = 0 := by decide +kernel
  exact this _ (List.mem_range.2 b.toNat_lt)

theorem and4 (b : UInt8) : b.toNat &&& 4 = 0 ↔ b.toNat / 4 % 2 = 0 := by
  have : ∀ n ∈ List.range 256, n &&& 4 = 0 ↔ n / 4 % 2 = 0 := by decide +kernel
  exact this _ (List.mem_range.2 b.toNat_lt)

theorem Spec.Obu.bytes_length (o : Obu) :
    o.bytes.length = 1 + o.ext.length + o.size.length + o.payload.length := by
  unfold Obu.bytes; simp only [List.length_cons, List.length_append]; omega

theorem s5Header_ok {s : Stream} {o : Obu} {b : List UInt8} (ho : o.Valid)
    (h : s.rest = o.ext ++ (o.size ++ b)) :
    s5Header o.head s = (some (o.bytes.length, o.payload.length),
      skip (o.ext.length + o.size.length) s) := by
  obtain ⟨h1, h2, h3⟩ := ho
  unfold s5Header
  rw [if_neg (fun hc => by have := (and2 _).1 hc; omega), o.bytes_length]
  by_cases h4 : o.head.toNat &&& 4 = 0
  · have := (and4 _).1 h4
    have he : o.ext = [] := List.length_eq_zero_iff.1 (by omega)
    rw [he] at h ⊢
    simp only [h4, ne_eq, not_true_eq_false, if_false]
    rw [leb128_ok h3 h]
    simp
  · have : o.ext.length = 1 := by
      have : ¬ o.head.toNat / 4 % 2 = 0 := fun hc => h4 ((and4 _).2 hc)
      omega
    match he : o.ext, this with
    | [e], _ =>
      rw [he] at h
      simp only [h4, ne_eq, not_false_eq_true, if_true]
      rw [fread_one_ok h]
      dsimp only
      rw [leb128_ok h3 (rest_skip_one h), skip_skip]
      simp

theorem s5Header_some {b : UInt8} {s t : Stream} {n len : Nat}
    (h : s5Header b s = (some (n, len), t)) :
    ∃ ext size : List UInt8, b.toNat / 2 % 2 = 1 ∧ ext.length = b.toNat / 4 % 2 ∧ IsLeb size len ∧
      s.rest = ext ++ (size ++ t.rest) ∧ t = skip (ext.length + size.length) s ∧
      n = 1 + ext.length + size.length + len := by
  unfold s5Header at h
  by_cases h2 : b.toNat &&& 2 = 0
  · simp [h2] at h
  · rw [if_neg h2] at h
    have h2' : b.toNat / 2 % 2 = 1 := by
      have : ¬ b.toNat / 2 % 2 = 0 := fun hc => h2 ((and2 _).2 hc)
      omega
    by_cases h4 : b.toNat &&& 4 = 0
    · simp only [h4, ne_eq, not_true_eq_false, if_false] at h
      cases hl : leb128 s with
      | mk o u =>
        rw [hl] at h
        match o with
        | none => simp at h
        | some (res, v) =>
          simp only [Prod.mk.injEq, Option.some.injEq] at h
          obtain ⟨⟨h5, h6⟩, rfl⟩ := h
          obtain ⟨l, k1, k2, k3, k4, -⟩ := leb128_some hl
          refine ⟨[], l, h2', by rw [(and4 _).1 h4]; rfl, h6 ▸ k1, k3, ?_, ?_⟩
          · rw [k4, ← k2]; simp
          · rw [← h5, ← h6, ← k2]; simp
    · have h4' : b.toNat / 4 % 2 = 1 := by
        have : ¬ b.toNat / 4 % 2 = 0 := fun hc => h4 ((and4 _).2 hc)
        omega
      simp only [h4, ne_eq, not_false_eq_true, if_true] at h
      cases hf : fread 1 s with
      | mk o u =>
        rw [hf] at h
        match o with
        | none => simp at h
        | some a =>
          obtain ⟨e, rfl, hr, hu, -⟩ := fread_one hf
          dsimp only at h
          cases hl : leb128 u with
          | mk o w =>
            rw [hl] at h
            match o with
            | none => simp at h
            | some (res, v) =>
              simp only [Prod.mk.injEq, Option.some.injEq] at h
              obtain ⟨⟨h5, h6⟩, rfl⟩ := h
              obtain ⟨l, k1, k2, k3, k4, -⟩ := leb128_some hl
              refine ⟨[e], l, h2', by rw [h4']; rfl, h6 ▸ k1, by rw [hr, k3]; rfl, ?_, ?_⟩
              · rw [k4, hu, skip_skip, ← k2]; rfl
              · rw [← h5, ← h6, ← k2]; simp

theorem s5Scan_end (fuel total : Nat) (s : Stream) (h : s.rest = []) :
    s5Scan (fuel + 1) false total s = (some total, { s with pos := max s.pos s.data.length }) := by
  rw [s5Scan, fread_short (by omega) (by rw [h]; simp)]
  simp

/-- The OBUs behind the temporal delimiter are passed over up to a boundary. -/
theorem s5Scan_rest : ∀ (obus : List Obu) (fuel total : Nat) (s : Stream) (tail : List UInt8),
    (∀ o ∈ obus, o.Valid ∧ o.type ≠ 2) → s.rest = tuBytes obus ++ tail → AtBoundary tail →
    obus.length < fuel → s.pos ≤ s.data.length →
    s5Scan fuel false total s
      = (some (total + (tuBytes obus).length), skip (tuBytes obus).length s)
  | [], 0, _, _, _, _, _, _, hf, _ => by simp at hf
  | [], fuel + 1, total, s, tail, _, hr, hb, _, hp => by
    have hr : s.rest = tail := hr
    cases tail with
    | nil =>
      rw [s5Scan_end _ _ _ hr]
      have : s.data.length ≤ s.pos := by
        unfold Stream.rest at hr
        exact List.drop_eq_nil_iff.1 hr
      have e : s.pos = s.data.length := by omega
      simp only [tuBytes, List.flatMap_nil, List.length_nil, Nat.add_zero]
      unfold skip
      rw [← e, Nat.max_self, Nat.add_zero]
    | cons b tail =>
      have hb : b.toNat / 8 % 16 = 2 := hb
      rw [s5Scan, fread_one_ok hr]
      simp only [obuType_eq, hb, obuTd]
      simp only [Bool.false_eq_true, false_and, if_false, not_false_eq_true, true_and, if_true,
        tuBytes, List.flatMap_nil, List.length_nil, Nat.add_zero]
      unfold back skip
      simp
  | o :: obus, 0, _, _, _, _, _, _, hf, _ => by simp at hf
  | o :: obus, fuel + 1, total, s, tail, hv, hr, hb, hf, hp => by
    have ho := hv o List.mem_cons_self
    have hr1 : s.rest = o.bytes ++ (tuBytes obus ++ tail) := by
      rw [hr]; simp [tuBytes]
    have hr2 : s.rest = o.head :: (o.ext ++ (o.size ++ (o.payload ++ (tuBytes obus ++ tail)))) := by
      rw [hr1]; simp [Obu.bytes]
    have hne : ¬ (o.head.toNat / 8 % 16 = 2) := ho.2
    have hpos := rest_pos s hr1 (by unfold Obu.bytes; simp)
    rw [s5Scan, fread_one_ok hr2]
    dsimp only
    rw [if_neg (by simp), if_neg (by rw [obuType_eq]; exact fun hc => hne hc.2),
      s5Header_ok ho.1 (rest_skip_one hr2)]
    dsimp only
    have e : skip o.payload.length (skip (o.ext.length + o.size.length) (skip 1 s))
        = skip o.bytes.length s := by
      rw [skip_skip, skip_skip, o.bytes_length]; congr 1; omega
    rw [e, s5Scan_rest obus fuel (total + o.bytes.length) (skip o.bytes.length s) tail
      (fun p hp => hv p (List.mem_cons_of_mem _ hp)) (skip_rest s hr1) hb (by simpa using hf)
      (by show s.pos + o.bytes.length ≤ s.data.length; omega), skip_skip]
    have e2 : (tuBytes (o :: obus)).length = o.bytes.length + (tuBytes obus).length := by
      simp [tuBytes]
    rw [e2, Nat.add_assoc]

theorem tuBytes_ge : ∀ l : List Obu, l.length ≤ (tuBytes l).length
  | [] => by simp
  | o :: l => by
    have := tuBytes_ge l
    have e2 : (tuBytes (o :: l)).length = o.bytes.length + (tuBytes l).length := by
      simp [tuBytes]
    rw [e2, o.bytes_length, List.length_cons]; omega

/-- A temporal unit followed by a boundary is returned as a packet. -/
theorem s5Read_ok {s : Stream} {tu : List Obu} {tail : List UInt8} (ht : IsTu tu)
    (hr : s.rest = tuBytes tu ++ tail) (hb : AtBoundary tail) :
    s5Read s = (some (tuBytes tu), skip (tuBytes tu).length s) := by
  match tu, ht with
  | o :: obus, ⟨hv, hty, hl⟩ =>
    have hr1 : s.rest = o.bytes ++ (tuBytes obus ++ tail) := by
      rw [hr]; simp [tuBytes]
    have hr2 : s.rest = o.head :: (o.ext ++ (o.size ++ (o.payload ++ (tuBytes obus ++ tail)))) := by
      rw [hr1]; simp [Obu.bytes]
    have hpos := rest_pos s hr1 (by unfold Obu.bytes; simp)
    rw [List.length_append] at hpos
    have hge := tuBytes_ge obus
    have e2 : (tuBytes (o :: obus)).length = o.bytes.length + (tuBytes obus).length := by
      simp [tuBytes]
    have hscan : s5Scan (s.data.length + 2) true 0 s
        = (some (tuBytes (o :: obus)).length, skip (tuBytes (o :: obus)).length s) := by
      rw [s5Scan, fread_one_ok hr2]
      dsimp only
      have hty' : obuType o.head = obuTd := by rw [obuType_eq]; exact hty
      rw [if_neg (fun hc => hc.2 hty'), if_neg (by simp), s5Header_ok hv (rest_skip_one hr2)]
      dsimp only
      have e : skip o.payload.length (skip (o.ext.length + o.size.length) (skip 1 s))
          = skip o.bytes.length s := by
        rw [skip_skip, skip_skip, o.bytes_length]; congr 1; omega
      rw [e, s5Scan_rest obus _ (0 + o.bytes.length) (skip o.bytes.length s) tail hl
        (skip_rest s hr1) hb (by omega) (by show s.pos + o.bytes.length ≤ s.data.length; omega),
        skip_skip, e2, Nat.zero_add]
    unfold s5Read
    rw [hscan]
    dsimp only
    have eb : back (tuBytes (o :: obus)).length (skip (tuBytes (o :: obus)).length s) = s := by
      unfold back skip; simp
    rw [eb]
    exact fread_ok s hr (by intro hc; rw [hc] at e2; simp [o.bytes_length] at e2; omega)

/-- What the loop has passed over: OBUs up to a boundary, unless it ran beyond the end. -/
theorem s5Scan_some : ∀ (fuel total T : Nat) (s t : Stream),
    s5Scan fuel false total s = (some T, t) → s.pos ≤ s.data.length →
    total ≤ T ∧ t.data = s.data ∧ t.pos = s.pos + (T - total) ∧
    (t.pos ≤ s.data.length → ∃ obus : List Obu, (∀ o ∈ obus, o.Valid ∧ o.type ≠ 2) ∧
      s.rest = tuBytes obus ++ t.rest ∧ AtBoundary t.rest)
  | 0, _, _, _, _, h, _ => by simp [s5Scan] at h
  | fuel + 1, total, T, s, t, h, hp => by
    rw [s5Scan] at h
    cases hf : fread 1 s with
    | mk o u =>
      rw [hf] at h
      match o with
      | none =>
        simp only [Bool.false_eq_true, if_false, Prod.mk.injEq, Option.some.injEq] at h
        obtain ⟨rfl, rfl⟩ := h
        obtain ⟨hd, hn | ⟨hn, hpos⟩⟩ := fread_none hf
        · omega
        · have hr : s.rest = [] := List.length_eq_zero_iff.1 (by omega)
          have : s.data.length ≤ s.pos := List.drop_eq_nil_iff.1 hr
          have hu : u.rest = [] := by
            unfold Stream.rest; rw [hd, hpos]; exact List.drop_eq_nil_iff.2 (by omega)
          refine ⟨Nat.le_refl _, hd, by rw [hpos]; omega, fun _ => ⟨[], by simp, ?_, ?_⟩⟩
          · rw [hr, hu]; rfl
          · rw [hu]; trivial
      | some a =>
        obtain ⟨b, rfl, hr, hu, hup⟩ := fread_one hf
        dsimp only at h
        rw [if_neg (by simp)] at h
        by_cases hty : obuType b = obuTd
        · rw [if_pos ⟨by simp, hty⟩] at h
          simp only [Prod.mk.injEq, Option.some.injEq] at h
          obtain ⟨rfl, rfl⟩ := h
          have eb : back 1 u = s := by rw [hu]; unfold back skip; simp
          rw [eb]
          refine ⟨Nat.le_refl _, rfl, by omega, fun _ => ⟨[], by simp, rfl, ?_⟩⟩
          rw [hr]
          rw [obuType_eq] at hty; exact hty
        · rw [if_neg (fun hc => hty hc.2)] at h
          cases hh : s5Header b u with
          | mk o w =>
            rw [hh] at h
            match o with
            | none => simp at h
            | some (n, len) =>
              obtain ⟨ext, size, k1, k2, k3, k4, k5, k6⟩ := s5Header_some hh
              dsimp only at h
              have hwd : w.data = s.data := by rw [k5, hu]; rfl
              have hwp : w.pos = s.pos + 1 + (ext.length + size.length) := by rw [k5, hu]; rfl
              by_cases hin : w.pos + len ≤ w.data.length
              · obtain ⟨j1, j2, j3, j4⟩ := s5Scan_some fuel (total + n) T (skip len w) t h hin
                have j2 : t.data = w.data := j2
                have j3 : t.pos = w.pos + len + (T - (total + n)) := j3
                refine ⟨by omega, j2.trans hwd, by omega, fun hle => ?_⟩
                obtain ⟨obus, i1, i2, i3⟩ := j4 (by show t.pos ≤ w.data.length; rw [hwd]; exact hle)
                obtain ⟨pay, hlen, hwr⟩ := skip_take hin
                refine ⟨⟨b, ext, size, pay⟩ :: obus, ?_, ?_, i3⟩
                · intro q hq
                  rcases List.mem_cons.1 hq with rfl | hq
                  · refine ⟨⟨k1, k2, by dsimp only; rw [hlen]; exact k3⟩, ?_⟩
                    rw [obuType_eq] at hty; exact hty
                  · exact i1 q hq
                · rw [hr, k4, hwr, i2]
                  simp only [tuBytes, List.flatMap_cons, Obu.bytes, List.cons_append,
                    List.append_assoc]
              · -- the payload is cut short
                have hw : (skip len w).rest = [] := by
                  unfold Stream.rest skip
                  exact List.drop_eq_nil_iff.2 (by dsimp only; omega)
                match fuel with
                | 0 => simp [s5Scan] at h
                | fuel + 1 =>
                  rw [s5Scan_end _ _ _ hw] at h
                  simp only [Prod.mk.injEq, Option.some.injEq] at h
                  obtain ⟨rfl, rfl⟩ := h
                  have hmax : max (w.pos + len) w.data.length = w.pos + len := by omega
                  refine ⟨by omega, hwd, ?_, ?_⟩
                  · show max (w.pos + len) w.data.length = _
                    omega
                  · intro hc
                    have hc : max (w.pos + len) w.data.length ≤ s.data.length := hc
                    rw [hwd] at hin hmax hc
                    omega

/-- A packet is only returned where a temporal unit is stored. -/
theorem s5Read_some {s t : Stream} {p : List UInt8} (h : s5Read s = (some p, t)) :
    ∃ (tu : List Obu), IsTu tu ∧ p = tuBytes tu ∧ s.rest = tuBytes tu ++ t.rest ∧
      AtBoundary t.rest := by
  unfold s5Read at h
  cases hs : s5Scan (s.data.length + 2) true 0 s with
  | mk o u =>
    rw [hs] at h
    match o with
    | none => simp at h
    | some total =>
      dsimp only at h
      rw [s5Scan] at hs
      cases hf : fread 1 s with
      | mk o v =>
        rw [hf] at hs
        match o with
        | none => simp at hs
        | some a =>
          obtain ⟨b, rfl, hr, hv, hvp⟩ := fread_one hf
          dsimp only at hs
          by_cases hty : obuType b = obuTd
          · rw [if_neg (fun hc => hc.2 hty), if_neg (by simp)] at hs
            cases hh : s5Header b v with
            | mk o w =>
              rw [hh] at hs
              match o with
              | none => simp at hs
              | some (n, len) =>
                obtain ⟨ext, size, k1, k2, k3, k4, k5, k6⟩ := s5Header_some hh
                dsimp only at hs
                obtain ⟨pl, pn, pr, pt, pp⟩ := fread_some h
                have hwd : w.data = s.data := by rw [k5, hv]; rfl
                have hwp : w.pos = s.pos + 1 + (ext.length + size.length) := by rw [k5, hv]; rfl
                by_cases hin : w.pos + len ≤ w.data.length
                · obtain ⟨j1, j2, j3, j4⟩ := s5Scan_some _ _ _ _ _ hs hin
                  have j2 : u.data = w.data := j2
                  have j3 : u.pos = w.pos + len + (total - (0 + n)) := j3
                  have hup : u.pos = s.pos + total := by omega
                  have eb : back total u = s := by
                    apply stream_ext
                    · exact j2.trans hwd
                    · show u.pos - total = s.pos; omega
                  rw [eb] at pr pt
                  have hu : t = u := by
                    rw [pt]; apply stream_ext
                    · exact (j2.trans hwd).symm
                    · exact hup.symm
                  have hle : t.pos ≤ t.data.length := pp
                  obtain ⟨obus, i1, i2, i3⟩ := j4 (by
                    show u.pos ≤ w.data.length; rw [← j2, ← hu]; exact hle)
                  obtain ⟨pay, hlen, hwr⟩ := skip_take hin
                  have hall : s.rest = tuBytes (⟨b, ext, size, pay⟩ :: obus) ++ t.rest := by
                    rw [hr, k4, hu, hwr, i2]
                    simp only [tuBytes, List.flatMap_cons, Obu.bytes, List.cons_append,
                      List.append_assoc]
                  refine ⟨⟨b, ext, size, pay⟩ :: obus, ⟨⟨k1, k2, ?_⟩, ?_, i1⟩, ?_, hall, ?_⟩
                  · dsimp only; rw [hlen]; exact k3
                  · rw [obuType_eq] at hty; exact hty
                  · rw [hall] at pr; exact (List.append_cancel_right pr).symm
                  · rw [hu]; exact i3
                · exfalso
                  have hw : (skip len w).rest = [] := by
                    unfold Stream.rest skip
                    exact List.drop_eq_nil_iff.2 (by dsimp only; omega)
                  rw [s5Scan_end _ _ _ hw] at hs
                  simp only [Prod.mk.injEq, Option.some.injEq] at hs
                  obtain ⟨rfl, rfl⟩ := hs
                  have e1 : t.pos = (max (w.pos + len) w.data.length - (0 + n)) + (0 + n) := by
                    rw [pt]; rfl
                  have e2 : t.data = w.data := by rw [pt]; rfl
                  rw [e2] at pp
                  omega
          · rw [if_pos ⟨by simp, hty⟩] at hs
            simp at hs

/-- A temporal unit can be returned here. -/
def StartsTu (rest : List UInt8) : Prop :=
  ∃ (tu : List Obu) (tail : List UInt8), IsTu tu ∧ rest = tuBytes tu ++ tail ∧ AtBoundary tail

theorem s5Read_none {s : Stream} (h : ¬ StartsTu s.rest) : (s5Read s).1 = none := by
  cases hh : s5Read s with
  | mk o t =>
    match o with
    | none => rfl
    | some p =>
      obtain ⟨tu, h1, -, h3, h4⟩ := s5Read_some hh
      exact absurd ⟨tu, _, h1, h3, h4⟩ h

theorem IsTu_pos {tu : List Obu} (h : IsTu tu) : 0 < (tuBytes tu).length := by
  have := tuBytes_ge tu
  match tu, h with
  | _ :: _, _ => simp only [List.length_cons] at this; omega

theorem s5_run : ∀ (n : Nat) (s : Stream), s.rest.length ≤ n →
    ∃ (tus : List (List Obu)) (tail : List UInt8) (t : Stream), (∀ tu ∈ tus, IsTu tu) ∧
      s.rest = tus.flatMap tuBytes ++ tail ∧ ¬ StartsTu tail ∧ Run s5Read s (tus.map tuBytes) t
  | n, s, hn => by
    by_cases h : StartsTu s.rest
    · obtain ⟨tu, tail, h1, h2, h3⟩ := h
      have hp := IsTu_pos h1
      have hl := congrArg List.length h2
      rw [List.length_append] at hl
      have hr := s5Read_ok h1 h2 h3
      match n with
      | 0 => omega
      | n + 1 =>
        have hrest := skip_rest s h2
        obtain ⟨tus, tail', t, k1, k2, k3, k4⟩ := s5_run n (skip (tuBytes tu).length s)
          (by rw [hrest]; omega)
        refine ⟨tu :: tus, tail', t, ?_, ?_, k3, ?_⟩
        · intro x hx
          rcases List.mem_cons.1 hx with rfl | hx
          · exact h1
          · exact k1 x hx
        · rw [List.flatMap_cons, List.append_assoc, ← k2, hrest]; exact h2
        · exact Run.more hr k4
    · exact ⟨[], s.rest, _, by simp, by simp, h, Run.stop (s5Read_none h)⟩

theorem boundary_tus : ∀ (tus : List (List Obu)), (∀ tu ∈ tus, IsTu tu) →
    AtBoundary (tus.flatMap tuBytes)
  | [], _ => trivial
  | tu :: tus, h => by
    match tu, h tu List.mem_cons_self with
    | o :: obus, ⟨_, hty, _⟩ =>
      rw [List.flatMap_cons]
      unfold tuBytes
      rw [List.flatMap_cons]
      exact hty

theorem not_startsTu_nil : ¬ StartsTu [] := by
  rintro ⟨tu, tail, h1, h2, -⟩
  have := IsTu_pos h1
  have := congrArg List.length h2
  rw [List.length_append, List.length_nil] at this; omega

theorem s5_run_exact : ∀ (tus : List (List Obu)) (s : Stream), (∀ tu ∈ tus, IsTu tu) →
    s.rest = tus.flatMap tuBytes → ∃ t, Run s5Read s (tus.map tuBytes) t
  | [], s, _, hr => ⟨_, Run.stop (s5Read_none (by
      have hr : s.rest = [] := hr
      rw [hr]; exact not_startsTu_nil))⟩
  | tu :: tus, s, h, hr => by
    rw [List.flatMap_cons] at hr
    obtain ⟨t, ht⟩ := s5_run_exact tus (skip (tuBytes tu).length s)
      (fun x hx => h x (List.mem_cons_of_mem _ hx)) (skip_rest s hr)
    exact ⟨t, Run.more (s5Read_ok (h tu List.mem_cons_self) hr
      (boundary_tus tus fun x hx => h x (List.mem_cons_of_mem _ hx))) ht⟩

/-! ### Counting -/

/-- The number of temporal delimiters among some OBUs. -/
def tdCount (obus : List Obu) : Nat := (obus.filter fun o => decide (o.type = 2)).length

theorem s5Count_obus : ∀ (obus : List Obu) (fuel n : Nat) (s : Stream),
    (∀ o ∈ obus, o.Valid) → s.rest = tuBytes obus → obus.length < fuel →
    n + tdCount obus < 2 ^ 32 → s5Count fuel n s = some (n + tdCount obus)
  | [], 0, _, _, _, _, hf, _ => by simp at hf
  | [], fuel + 1, n, s, _, hr, _, _ => by
    have hr : s.rest = [] := hr
    rw [s5Count, fread_short (by omega) (by rw [hr]; simp)]
    rfl
  | o :: obus, 0, _, _, _, _, hf, _ => by simp at hf
  | o :: obus, fuel + 1, n, s, hv, hr, hf, hn => by
    have hr1 : s.rest = o.bytes ++ tuBytes obus := by rw [hr]; simp [tuBytes]
    have hr2 : s.rest = o.head :: (o.ext ++ (o.size ++ (o.payload ++ tuBytes obus))) := by
      rw [hr1]; simp [Obu.bytes]
    rw [s5Count, fread_one_ok hr2]
    dsimp only
    rw [s5Header_ok (hv o List.mem_cons_self) (rest_skip_one hr2)]
    dsimp only
    have e : skip o.payload.length (skip (o.ext.length + o.size.length) (skip 1 s))
        = skip o.bytes.length s := by
      rw [skip_skip, skip_skip, o.bytes_length]; congr 1; omega
    have hc : tdCount (o :: obus) = (if obuType o.head = obuTd then 1 else 0) + tdCount obus := by
      unfold tdCount
      have : obuType o.head = o.type := obuType_eq _
      rw [this, show obuTd = 2 from rfl]
      by_cases ht : o.type = 2
      · rw [List.filter_cons_of_pos (by simpa using ht), if_pos ht, List.length_cons]; omega
      · rw [List.filter_cons_of_neg (by simpa using ht), if_neg ht]; omega
    rw [hc] at hn ⊢
    have e2 : (if obuType o.head = obuTd then (n + 1) % 2 ^ 32 else n)
        = n + (if obuType o.head = obuTd then 1 else 0) := by
      split_ifs with ht
      · rw [if_pos ht] at hn
        exact Nat.mod_eq_of_lt (by omega)
      · rfl
    rw [e, e2, s5Count_obus obus fuel _ _ (fun x hx => hv x (List.mem_cons_of_mem _ hx))
      (skip_rest s hr1) (by simpa using hf) (by omega)]
    congr 1; omega

end Dav1d.Input
