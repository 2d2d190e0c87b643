import Verif.Tools.InputS5

/-
The Annex B demuxer.
-/

namespace Dav1d.Input

open Spec

theorem Spec.Stored.le {b : List UInt8} {t f : Nat} {ps : List (List UInt8)} (h : Stored b t f ps) :
    f ≤ t := by
  induction h with
  | start => exact Nat.le_refl _
  | tu _ _ _ _ => exact Nat.zero_le _
  | fu _ _ _ h1 _ => omega
  | obu _ _ _ h1 ih => omega

/-- What one call does: sizes are read where needed, then an OBU. -/
theorem abRead_tu {c : Annexb} {l b : List UInt8} {v : Nat} (h0 : c.tu = 0) (hl : IsLeb l v)
    (hv : v ≠ 0) (hr : c.s.rest = l ++ b) :
    abRead c = abRead { c with s := skip l.length c.s, tu := v } := by
  have e1 : abTu c = (true, { c with s := skip l.length c.s, tu := v }) := by
    unfold abTu; rw [if_pos h0, leb128_ok hl hr]
  have e2 : abTu { c with s := skip l.length c.s, tu := v }
      = (true, { c with s := skip l.length c.s, tu := v }) := by
    unfold abTu; exact if_neg hv
  unfold abRead
  rw [e1, e2]

theorem abRead_fu {c : Annexb} {l b : List UInt8} {v : Nat} (ht : c.tu ≠ 0) (h0 : c.fu = 0)
    (hl : IsLeb l v) (hv : v ≠ 0) (hr : c.s.rest = l ++ b) (hfit : l.length + v ≤ c.tu) :
    abRead c = abRead { s := skip l.length c.s, fu := v, tu := c.tu - l.length } := by
  have e0 : abTu c = (true, c) := if_neg ht
  have e1 : abFu c = (true, { s := skip l.length c.s, fu := v, tu := c.tu - l.length }) := by
    unfold abFu; rw [if_pos h0, leb128_ok hl hr]
    exact if_neg (by omega)
  have e2 : abTu { s := skip l.length c.s, fu := v, tu := c.tu - l.length }
      = (true, { s := skip l.length c.s, fu := v, tu := c.tu - l.length }) := by
    unfold abTu; exact if_neg (by dsimp only; omega)
  have e3 : abFu { s := skip l.length c.s, fu := v, tu := c.tu - l.length }
      = (true, { s := skip l.length c.s, fu := v, tu := c.tu - l.length }) := by
    unfold abFu; exact if_neg hv
  unfold abRead
  rw [e0, e2]
  dsimp only
  rw [e1, e3]

theorem abRead_obu {c : Annexb} {l p b : List UInt8} (ht : c.tu ≠ 0) (hf : c.fu ≠ 0)
    (hl : IsLeb l p.length) (hp : p ≠ []) (hr : c.s.rest = l ++ (p ++ b))
    (hfit : l.length + p.length ≤ c.fu) :
    abRead c = (some p, ⟨skip (l.length + p.length) c.s, c.tu - (l.length + p.length),
      c.fu - (l.length + p.length)⟩) := by
  have e0 : abTu c = (true, c) := if_neg ht
  have e1 : abFu c = (true, c) := if_neg hf
  unfold abRead
  rw [e0]; dsimp only
  rw [e1]; dsimp only
  rw [leb128_ok hl hr]; dsimp only
  rw [if_neg (by omega), fread_ok _ (skip_rest _ hr) hp, skip_skip, Nat.add_comm p.length]

/-! ### Whatever is returned is stored in the file -/

theorem abRead_some {c c' : Annexb} {b p : List UInt8} {ps : List (List UInt8)}
    (h : abRead c = (some p, c')) (hs : Stored b c.tu c.fu ps) (hd : c.s.data = b ++ c.s.rest) :
    ∃ b', Stored b' c'.tu c'.fu (ps ++ [p]) ∧ c'.s.data = b' ++ c'.s.rest ∧ c'.s.data = c.s.data := by
  -- the OBU, once the sizes of the units are known
  have obu : ∀ (c : Annexb) (b : List UInt8), Stored b c.tu c.fu ps → c.s.data = b ++ c.s.rest →
      (match leb128 c.s with
        | (none, s) => (none, { c with s := s })
        | (some (res, len), s) =>
          if len + res > c.fu then (none, { c with s := s })
          else
            match fread len s with
            | (none, s) => (none, { s := s, tu := c.tu - (len + res), fu := c.fu - (len + res) })
            | (some p, s) =>
              (some p, ({ s := s, tu := c.tu - (len + res), fu := c.fu - (len + res) } : Annexb)))
        = (some p, c') →
      0 < c.fu ∧
      ∃ b', Stored b' c'.tu c'.fu (ps ++ [p]) ∧ c'.s.data = b' ++ c'.s.rest ∧
        c'.s.data = c.s.data := by
    intro c b hs hd h
    cases hl : leb128 c.s with
    | mk o u =>
      rw [hl] at h
      match o with
      | none => simp at h
      | some (res, len) =>
        obtain ⟨l, k1, k2, k3, k4, -⟩ := leb128_some hl
        dsimp only at h
        by_cases hc : len + res > c.fu
        · simp [hc] at h
        · rw [if_neg hc] at h
          cases hf : fread len u with
          | mk o w =>
            rw [hf] at h
            match o with
            | none => simp at h
            | some q =>
              simp only [Prod.mk.injEq, Option.some.injEq] at h
              obtain ⟨rfl, rfl⟩ := h
              obtain ⟨j1, j2, j3, j4, -⟩ := fread_some hf
              have := k1.pos
              refine ⟨by omega, b ++ (l ++ q), ?_, ?_, ?_⟩
              · have e : len + res = l.length + q.length := by omega
                rw [e]
                exact Stored.obu hs (by rw [j1]; exact k1) j2 (by omega)
              · show w.data = b ++ (l ++ q) ++ w.rest
                rw [j4, k4]
                show c.s.data = _
                rw [hd, k3, j3, j4, k4]; simp
              · show w.data = c.s.data
                rw [j4, k4]; rfl
  -- the frame unit
  have fu : ∀ (c : Annexb) (b : List UInt8),
      (Stored b c.tu c.fu ps ∨ c.tu = 0 ∧ c.fu = 0) → c.s.data = b ++ c.s.rest →
      (match abFu c with
        | (false, c) => (none, c)
        | (true, c) =>
          match leb128 c.s with
          | (none, s) => (none, { c with s := s })
          | (some (res, len), s) =>
            if len + res > c.fu then (none, { c with s := s })
            else
              match fread len s with
              | (none, s) => (none, { s := s, tu := c.tu - (len + res), fu := c.fu - (len + res) })
              | (some p, s) =>
                (some p, ({ s := s, tu := c.tu - (len + res), fu := c.fu - (len + res) } : Annexb)))
        = (some p, c') →
      0 < c.tu ∧
      ∃ b', Stored b' c'.tu c'.fu (ps ++ [p]) ∧ c'.s.data = b' ++ c'.s.rest ∧
        c'.s.data = c.s.data := by
    intro c b hs hd h
    by_cases h0 : c.fu = 0
    · have e : abFu c = (match leb128 c.s with
        | (none, s) => (false, { c with s := s })
        | (some (res, v), s) =>
          if v + res > c.tu then (false, { c with s := s, fu := v })
          else (true, { s := s, fu := v, tu := c.tu - res })) := if_pos h0
      rw [e] at h
      cases hl : leb128 c.s with
      | mk o u =>
        rw [hl] at h
        match o with
        | none => simp at h
        | some (res, v) =>
          obtain ⟨l, k1, k2, k3, k4, -⟩ := leb128_some hl
          have hlp := k1.pos
          dsimp only at h
          by_cases hc : v + res > c.tu
          · simp [hc] at h
          · rw [if_neg hc] at h
            have htu : 0 < c.tu := by omega
            have hs : Stored b c.tu c.fu ps := by
              rcases hs with hs | hs
              · exact hs
              · omega
            dsimp only at h
            by_cases hv : 0 < v
            · have hst : Stored (b ++ l) (c.tu - res) v ps := by
                rw [h0] at hs
                rw [← k2]
                exact Stored.fu hs k1 hv (by omega)
              have hud : u.data = b ++ l ++ u.rest := by
                rw [k4]; show c.s.data = _; rw [hd, k3, k4]; simp
              obtain ⟨-, b', i1, i2, i3⟩ := obu ⟨u, c.tu - res, v⟩ (b ++ l) hst hud h
              refine ⟨htu, b', i1, i2, i3.trans ?_⟩
              show u.data = c.s.data
              rw [k4]; rfl
            · -- an empty frame unit holds no OBU
              exfalso
              cases hl2 : leb128 u with
              | mk o w =>
                rw [hl2] at h
                match o with
                | none => simp at h
                | some (res2, len) =>
                  obtain ⟨l2, m1, m2, -⟩ := leb128_some hl2
                  have := m1.pos
                  dsimp only at h
                  rw [if_pos (by omega)] at h
                  simp at h
    · have e : abFu c = (true, c) := if_neg h0
      rw [e] at h
      dsimp only at h
      have hs : Stored b c.tu c.fu ps := by
        rcases hs with hs | hs
        · exact hs
        · exact absurd hs.2 h0
      have := hs.le
      exact ⟨by omega, (obu c b hs hd h).2⟩
  -- the temporal unit
  unfold abRead at h
  by_cases h0 : c.tu = 0
  · have hf0 : c.fu = 0 := by have := hs.le; omega
    have e : abTu c = (match leb128 c.s with
      | (none, s) => (false, { c with s := s })
      | (some (_, v), s) => (true, { c with s := s, tu := v })) := if_pos h0
    rw [e] at h
    cases hl : leb128 c.s with
    | mk o u =>
      rw [hl] at h
      match o with
      | none => simp at h
      | some (res, v) =>
        obtain ⟨l, k1, k2, k3, k4, -⟩ := leb128_some hl
        dsimp only at h
        have hud : u.data = b ++ l ++ u.rest := by
          rw [k4]; show c.s.data = _; rw [hd, k3, k4]; simp
        have hst : Stored (b ++ l) v c.fu ps ∨ v = 0 ∧ c.fu = 0 := by
          by_cases hv : 0 < v
          · rw [h0, hf0] at hs
            rw [hf0]
            exact .inl (Stored.tu hs k1 hv)
          · exact .inr ⟨by omega, hf0⟩
        obtain ⟨-, b', i1, i2, i3⟩ := fu { c with s := u, tu := v } (b ++ l) hst hud h
        refine ⟨b', i1, i2, i3.trans ?_⟩
        show u.data = c.s.data
        rw [k4]; rfl
  · have e : abTu c = (true, c) := if_neg h0
    rw [e] at h
    dsimp only at h
    exact (fu c b (.inl hs) hd h).2

theorem abRead_shorter {c c' : Annexb} {p : List UInt8} (h : abRead c = (some p, c')) :
    c'.s.rest.length < c.s.rest.length := by
  have hle : ∀ {s t : Stream} {n v : Nat}, leb128 s = (some (n, v), t) →
      t.rest.length ≤ s.rest.length := by
    intro s t n v h
    obtain ⟨l, -, -, k3, -⟩ := leb128_some h
    rw [k3, List.length_append]; omega
  unfold abRead at h
  have h1 : ∀ {c c1 : Annexb}, abTu c = (true, c1) → c1.s.rest.length ≤ c.s.rest.length := by
    intro c c1 h
    unfold abTu at h
    split_ifs at h
    · cases hl : leb128 c.s with
      | mk o u =>
        rw [hl] at h
        match o with
        | none => simp at h
        | some (res, v) =>
          simp only [Prod.mk.injEq, true_and] at h
          rw [← h]; exact hle hl
    · simp only [Prod.mk.injEq, true_and] at h
      subst h; exact Nat.le_refl _
  have h2 : ∀ {c c1 : Annexb}, abFu c = (true, c1) → c1.s.rest.length ≤ c.s.rest.length := by
    intro c c1 h
    unfold abFu at h
    by_cases h0 : c.fu = 0
    · rw [if_pos h0] at h
      cases hl : leb128 c.s with
      | mk o u =>
        rw [hl] at h
        match o with
        | none => simp at h
        | some (res, v) =>
          dsimp only at h
          by_cases hc : v + res > c.tu
          · simp [hc] at h
          · rw [if_neg hc] at h
            simp only [Prod.mk.injEq, true_and] at h
            rw [← h]; exact hle hl
    · rw [if_neg h0] at h
      simp only [Prod.mk.injEq, true_and] at h
      subst h; exact Nat.le_refl _
  cases e1 : abTu c with
  | mk r1 c1 =>
    rw [e1] at h
    cases r1 with
    | false => simp at h
    | true =>
      dsimp only at h
      cases e2 : abFu c1 with
      | mk r2 c2 =>
        rw [e2] at h
        cases r2 with
        | false => simp at h
        | true =>
          dsimp only at h
          cases hl : leb128 c2.s with
          | mk o u =>
            rw [hl] at h
            match o with
            | none => simp at h
            | some (res, len) =>
              dsimp only at h
              by_cases hc : len + res > c2.fu
              · simp [hc] at h
              · rw [if_neg hc] at h
                cases hf : fread len u with
                | mk o w =>
                  rw [hf] at h
                  match o with
                  | none => simp at h
                  | some q =>
                    simp only [Prod.mk.injEq, Option.some.injEq] at h
                    obtain ⟨-, rfl⟩ := h
                    obtain ⟨-, j2, j3, -, -⟩ := fread_some hf
                    have a1 := h1 e1
                    have a2 := h2 e2
                    have a3 := hle hl
                    rw [j3, List.length_append] at a3
                    have : 0 < q.length := List.length_pos_iff.2 j2
                    show w.rest.length < _
                    omega

theorem ab_run : ∀ (n : Nat) (c : Annexb) (b : List UInt8) (ps : List (List UInt8)),
    c.s.rest.length ≤ n → Stored b c.tu c.fu ps → c.s.data = b ++ c.s.rest →
    ∃ qs c' b' t f rest, Run abRead c qs c' ∧ Stored b' t f (ps ++ qs) ∧ c.s.data = b' ++ rest
  | n, c, b, ps, hn, hs, hd => by
    cases h : abRead c with
    | mk o c1 =>
      match o with
      | none =>
        exact ⟨[], _, b, _, _, _, Run.stop (by rw [h]), by rw [List.append_nil]; exact hs, hd⟩
      | some p =>
        have hsh := abRead_shorter h
        obtain ⟨b1, i1, i2, i3⟩ := abRead_some h hs hd
        match n with
        | 0 => omega
        | n + 1 =>
          obtain ⟨qs, c', b', t, f, rest, j1, j2, j3⟩ := ab_run n c1 b1 (ps ++ [p]) (by omega) i1 i2
          refine ⟨p :: qs, c', b', t, f, rest, Run.more h j1, ?_, i3 ▸ j3⟩
          rw [List.append_assoc] at j2; exact j2

/-! ### Whatever is stored is returned -/

theorem Spec.AObu.bytes_length (o : AObu) : o.bytes.length = o.size.length + o.payload.length := by
  unfold AObu.bytes; rw [List.length_append]

theorem ab_obus : ∀ (obus : List AObu) (c : Annexb) (R : List UInt8) (M : Nat)
    (ps : List (List UInt8)), (∀ o ∈ obus, o.Valid) →
    c.s.rest = obus.flatMap AObu.bytes ++ R → c.fu = (obus.flatMap AObu.bytes).length →
    c.tu = c.fu + M →
    (∀ c1 : Annexb, c1.s.rest = R → c1.fu = 0 → c1.tu = M → ∃ c2, Run abRead c1 ps c2) →
    ∃ c2, Run abRead c (obus.map AObu.payload ++ ps) c2
  | [], c, R, M, ps, _, hr, hf, ht, k => k c hr (by simpa using hf) (by simp at hf; omega)
  | o :: obus, c, R, M, ps, hv, hr, hf, ht, k => by
    obtain ⟨hp, hl⟩ := hv o List.mem_cons_self
    have hlp := hl.pos
    rw [List.flatMap_cons, List.length_append, o.bytes_length] at hf
    have hr' : c.s.rest = o.size ++ (o.payload ++ (obus.flatMap AObu.bytes ++ R)) := by
      rw [hr]; simp [AObu.bytes]
    have hread := abRead_obu (by omega) (by omega) hl hp hr' (by omega)
    have hr2 : c.s.rest = o.bytes ++ (obus.flatMap AObu.bytes ++ R) := by
      rw [hr]; simp
    have hsk := skip_rest _ hr2
    rw [o.bytes_length] at hsk
    obtain ⟨c2, hc2⟩ := ab_obus obus
      { s := skip (o.size.length + o.payload.length) c.s,
        tu := c.tu - (o.size.length + o.payload.length),
        fu := c.fu - (o.size.length + o.payload.length) } R M ps
      (fun x hx => hv x (List.mem_cons_of_mem _ hx)) hsk (by dsimp only; omega)
      (by dsimp only; omega) k
    exact ⟨c2, Run.more hread hc2⟩

theorem run_congr {σ α : Type} {read : σ → Option α × σ} {c c1 : σ} {ps : List α}
    (h : read c = read c1) (hr : ∃ c2, Run read c1 ps c2) : ∃ c2, Run read c ps c2 := by
  obtain ⟨c2, hr⟩ := hr
  cases hr with
  | stop hn => exact ⟨_, Run.stop (by rw [h]; exact hn)⟩
  | more h1 h2 => exact ⟨_, Run.more (by rw [h]; exact h1) h2⟩

theorem flat_pos {o : AObu} (h : o.Valid) : 0 < o.bytes.length := by
  rw [o.bytes_length]; have := h.2.pos; omega

theorem body_pos {f : AFrame} (h : f.Valid) : 0 < f.body.length := by
  obtain ⟨h1, h2, h3⟩ := h
  unfold AFrame.body
  match hf : f.obus, h1 with
  | o :: l, _ =>
    have := flat_pos (h2 o (by rw [hf]; exact List.mem_cons_self))
    rw [List.flatMap_cons, List.length_append]; omega

theorem ab_frames : ∀ (frames : List AFrame) (c : Annexb) (R : List UInt8)
    (ps : List (List UInt8)), (∀ f ∈ frames, f.Valid) →
    c.s.rest = frames.flatMap AFrame.bytes ++ R → c.fu = 0 →
    c.tu = (frames.flatMap AFrame.bytes).length →
    (∀ c1 : Annexb, c1.s.rest = R → c1.fu = 0 → c1.tu = 0 → ∃ c2, Run abRead c1 ps c2) →
    ∃ c2, Run abRead c ((frames.flatMap fun f => f.obus.map AObu.payload) ++ ps) c2
  | [], c, R, ps, _, hr, hf, ht, k => k c hr hf (by simpa using ht)
  | f :: frames, c, R, ps, hv, hr, hf, ht, k => by
    have hfv := hv f List.mem_cons_self
    have hbp := body_pos hfv
    obtain ⟨hn, ho, hl⟩ := hfv
    have hlp := hl.pos
    have hfl : f.bytes.length = f.size.length + f.body.length := by
      unfold AFrame.bytes; rw [List.length_append]
    rw [List.flatMap_cons, List.length_append, hfl] at ht
    have hr' : c.s.rest = f.size ++ (f.body ++ (frames.flatMap AFrame.bytes ++ R)) := by
      rw [hr]; simp [AFrame.bytes]
    rw [List.flatMap_cons, List.append_assoc]
    refine run_congr (abRead_fu (by omega) hf hl (by omega) hr' (by omega)) ?_
    refine ab_obus f.obus _ (frames.flatMap AFrame.bytes ++ R) (frames.flatMap AFrame.bytes).length _ ho
      (skip_rest _ hr') rfl (by dsimp only; omega) ?_
    intro c1 h1 h2 h3
    exact ab_frames frames c1 R ps (fun x hx => hv x (List.mem_cons_of_mem _ hx)) h1 h2 h3 k

theorem ab_tus : ∀ (tus : List ATu) (c : Annexb), (∀ t ∈ tus, t.Valid) →
    c.s.rest = tus.flatMap ATu.bytes → c.fu = 0 → c.tu = 0 →
    ∃ c2, Run abRead c (tus.flatMap ATu.payloads) c2
  | [], c, _, hr, _, ht => by
    have hr : c.s.rest = [] := hr
    refine ⟨_, Run.stop ?_⟩
    have hl : (leb128 c.s).1 = none := by
      cases h : leb128 c.s with
      | mk o u =>
        match o with
        | none => rfl
        | some (n, v) =>
          obtain ⟨l, k1, -, k3, -⟩ := leb128_some h
          rw [hr] at k3
          exact absurd (List.append_eq_nil_iff.1 k3.symm).1 k1.1.ne_nil
    have e : (abTu c).1 = false := by
      unfold abTu
      rw [if_pos ht]
      cases h : leb128 c.s with
      | mk o u =>
        rw [h] at hl
        dsimp only at hl
        rw [hl]
    unfold abRead
    cases h : abTu c with
    | mk r c1 =>
      rw [h] at e
      dsimp only at e
      rw [e]
  | t :: tus, c, hv, hr, hf, ht => by
    have htv := hv t List.mem_cons_self
    obtain ⟨hn, ho, hl⟩ := htv
    have hbp : 0 < t.body.length := by
      unfold ATu.body
      match hfr : t.frames, hn with
      | f :: l, _ =>
        have := body_pos (ho f (by rw [hfr]; exact List.mem_cons_self))
        rw [List.flatMap_cons, List.length_append]
        unfold AFrame.bytes
        rw [List.length_append]; omega
    have hr' : c.s.rest = t.size ++ (t.body ++ tus.flatMap ATu.bytes) := by
      rw [hr]; simp [ATu.bytes]
    rw [List.flatMap_cons]
    refine run_congr (abRead_tu ht hl (by omega) hr') ?_
    refine ab_frames t.frames _ (tus.flatMap ATu.bytes) _ ho (skip_rest _ hr') hf rfl ?_
    intro c1 h1 h2 h3
    exact ab_tus tus c1 (fun x hx => hv x (List.mem_cons_of_mem _ hx)) h1 h2 h3

theorem abCount_tus : ∀ (tus : List ATu) (fuel n : Nat) (s : Stream), (∀ t ∈ tus, t.Valid) →
    s.rest = tus.flatMap ATu.bytes → tus.length ≤ fuel → n + tus.length < 2 ^ 32 →
    abCount fuel n s = n + tus.length
  | [], 0, n, s, _, _, _, _ => rfl
  | [], fuel + 1, n, s, _, hr, _, _ => by
    have hr : s.rest = [] := hr
    rw [abCount]
    cases h : leb128 s with
    | mk o u =>
      match o with
      | none => rfl
      | some (n, v) =>
        obtain ⟨l, k1, -, k3, -⟩ := leb128_some h
        rw [hr] at k3
        exact absurd (List.append_eq_nil_iff.1 k3.symm).1 k1.1.ne_nil
  | t :: tus, 0, _, _, _, _, hf, _ => by simp at hf
  | t :: tus, fuel + 1, n, s, hv, hr, hf, hn => by
    obtain ⟨-, -, hl⟩ := hv t List.mem_cons_self
    have hr' : s.rest = t.size ++ (t.body ++ tus.flatMap ATu.bytes) := by
      rw [hr]; simp [ATu.bytes]
    rw [List.length_cons] at hn
    rw [abCount, leb128_ok hl hr']
    dsimp only
    rw [Nat.mod_eq_of_lt (by omega), abCount_tus tus fuel (n + 1) _
      (fun x hx => hv x (List.mem_cons_of_mem _ hx)) (skip_rest _ (skip_rest _ hr'))
      (by simpa using hf) (by omega), List.length_cons]
    omega

theorem tus_length : ∀ tus : List ATu, (∀ t ∈ tus, t.Valid) →
    tus.length ≤ (tus.flatMap ATu.bytes).length
  | [], _ => by simp
  | t :: tus, h => by
    have := tus_length tus fun x hx => h x (List.mem_cons_of_mem _ hx)
    have := (h t List.mem_cons_self).2.2.pos
    have e : t.bytes.length = t.size.length + t.body.length := by
      unfold ATu.bytes; rw [List.length_append]
    rw [List.flatMap_cons, List.length_append, List.length_cons, e]
    omega

/-! ### Nothing that is stored is missed -/

/-- `ps` are the next packets read. -/
inductive Steps {σ α : Type} (read : σ → Option α × σ) : σ → List α → σ → Prop
  | nil {c} : Steps read c [] c
  | snoc {c ps c1 p c2} : Steps read c ps c1 → read c1 = (some p, c2) → Steps read c (ps ++ [p]) c2

theorem stored_steps {data : List UInt8} {b : List UInt8} {t f : Nat} {ps : List (List UInt8)}
    (h : Stored b t f ps) : ∀ rest, data = b ++ rest →
    ∃ c, Steps abRead ⟨⟨data, 0⟩, 0, 0⟩ ps c ∧ abRead c = abRead ⟨⟨data, b.length⟩, t, f⟩ := by
  induction h with
  | start => exact fun _ _ => ⟨_, Steps.nil, rfl⟩
  | @tu b ps l v hs hl hv ih =>
    intro rest hd
    obtain ⟨c, h1, h2⟩ := ih (l ++ rest) (by rw [hd, List.append_assoc])
    refine ⟨c, h1, ?_⟩
    have hr : (⟨data, b.length⟩ : Stream).rest = l ++ rest := by
      unfold Stream.rest; dsimp only; rw [hd, List.append_assoc, List.drop_left]
    rw [h2, abRead_tu (c := ⟨⟨data, b.length⟩, 0, 0⟩) rfl hl (by omega) hr, List.length_append]
    rfl
  | @fu b ps l v t hs hl hv hfit ih =>
    intro rest hd
    obtain ⟨c, h1, h2⟩ := ih (l ++ rest) (by rw [hd, List.append_assoc])
    refine ⟨c, h1, ?_⟩
    have hr : (⟨data, b.length⟩ : Stream).rest = l ++ rest := by
      unfold Stream.rest; dsimp only; rw [hd, List.append_assoc, List.drop_left]
    rw [h2, abRead_fu (c := ⟨⟨data, b.length⟩, t, 0⟩) (by dsimp only; omega) rfl hl (by omega) hr hfit,
      List.length_append]
    rfl
  | @obu b ps l p t f hs hl hp hfit ih =>
    intro rest hd
    obtain ⟨c, h1, h2⟩ := ih ((l ++ p) ++ rest) (by rw [hd, List.append_assoc])
    have hr : (⟨data, b.length⟩ : Stream).rest = l ++ (p ++ rest) := by
      unfold Stream.rest; dsimp only
      rw [hd, List.append_assoc, List.drop_left, List.append_assoc]
    have hle := hs.le
    have hlp := hl.pos
    rw [abRead_obu (c := ⟨⟨data, b.length⟩, t, f⟩) (by dsimp only; omega) (by dsimp only; omega)
      hl hp hr hfit] at h2
    refine ⟨_, Steps.snoc h1 h2, ?_⟩
    rw [List.length_append, List.length_append]
    rfl

theorem steps_nil {σ α : Type} {read : σ → Option α × σ} {c c1 : σ} (h : Steps read c [] c1) :
    c1 = c := by
  generalize hl : ([] : List α) = l at h
  cases h with
  | nil => rfl
  | snoc h1 h2 => simp at hl

theorem steps_cons {σ α : Type} {read : σ → Option α × σ} {c c2 : σ} {p : α} {ps : List α}
    (h : Steps read c (p :: ps) c2) : ∃ c1, read c = (some p, c1) ∧ Steps read c1 ps c2 := by
  generalize hl : p :: ps = l at h
  induction h generalizing p ps with
  | nil => cases hl
  | @snoc qs c1 q c2 h1 h2 ih =>
    cases qs with
    | nil =>
      simp only [List.nil_append, List.cons.injEq] at hl
      obtain ⟨rfl, rfl⟩ := hl
      rw [steps_nil h1] at h2
      exact ⟨c2, h2, Steps.nil⟩
    | cons q' qs =>
      rw [List.cons_append, List.cons.injEq] at hl
      obtain ⟨rfl, rfl⟩ := hl
      obtain ⟨c3, k1, k2⟩ := ih rfl
      exact ⟨c3, k1, Steps.snoc k2 h2⟩

theorem run_steps {σ α : Type} {read : σ → Option α × σ} {c c1 c2 : σ} {ps : List α} {p : α}
    (h : Run read c ps c1) : ¬ Steps read c (ps ++ [p]) c2 := by
  induction h with
  | stop hn =>
    intro hs
    obtain ⟨c1, k1, -⟩ := steps_cons hs
    rw [k1] at hn; cases hn
  | more h1 h2 ih =>
    intro hs
    obtain ⟨c1, k1, k2⟩ := steps_cons hs
    rw [h1] at k1
    simp only [Prod.mk.injEq, true_and] at k1
    subst k1
    exact ih k2

/-! ### A file read to its end is made of temporal units -/

/-- The parts of a file of which `b` is the beginning: complete temporal units, and the open ones. -/
theorem stored_parts {b : List UInt8} {t f : Nat} {ps : List (List UInt8)} (h : Stored b t f ps) :
    ∃ (tus : List ATu), (∀ x ∈ tus, x.Valid) ∧
      ((t = 0 ∧ f = 0 ∧ b = tus.flatMap ATu.bytes ∧ ps = tus.flatMap ATu.payloads) ∨
      ∃ (tl : List UInt8) (frames : List AFrame), (∀ x ∈ frames, x.Valid) ∧ 0 < t ∧
        ((f = 0 ∧ IsLeb tl ((frames.flatMap AFrame.bytes).length + t) ∧
          b = tus.flatMap ATu.bytes ++ (tl ++ frames.flatMap AFrame.bytes) ∧
          ps = tus.flatMap ATu.payloads ++ frames.flatMap (fun f => f.obus.map AObu.payload)) ∨
        ∃ (fl : List UInt8) (obus : List AObu), (∀ x ∈ obus, x.Valid) ∧ 0 < f ∧ f ≤ t ∧
          IsLeb fl ((obus.flatMap AObu.bytes).length + f) ∧
          IsLeb tl ((frames.flatMap AFrame.bytes).length + fl.length +
            (obus.flatMap AObu.bytes).length + t) ∧
          b = tus.flatMap ATu.bytes ++ (tl ++ (frames.flatMap AFrame.bytes ++
            (fl ++ obus.flatMap AObu.bytes))) ∧
          ps = tus.flatMap ATu.payloads ++ (frames.flatMap (fun f => f.obus.map AObu.payload) ++
            obus.map AObu.payload))) := by
  induction h with
  | start => exact ⟨[], by simp, .inl ⟨rfl, rfl, rfl, rfl⟩⟩
  | @tu b ps l v hs hl hv ih =>
    obtain ⟨tus, h1, ⟨-, -, h2, h3⟩ | ⟨tl, frames, -, h0, -⟩⟩ := ih
    · refine ⟨tus, h1, .inr ⟨l, [], by simp, hv, .inl ⟨rfl, ?_, ?_, ?_⟩⟩⟩
      · simpa using hl
      · rw [h2]; simp
      · rw [h3]; simp
    · omega
  | @fu b ps l v t hs hl hv hfit ih =>
    obtain ⟨tus, h1, ⟨h0, -, -, -⟩ | ⟨tl, frames, h2, h0, ⟨-, h3, h4, h5⟩ | ⟨fl, obus, -, hf, -⟩⟩⟩ := ih
    · have := hl.pos; omega
    · have := hl.pos
      refine ⟨tus, h1, .inr ⟨tl, frames, h2, by omega, .inr ⟨l, [], by simp, hv, by omega, ?_, ?_, ?_, ?_⟩⟩⟩
      · simpa using hl
      · have e : (frames.flatMap AFrame.bytes).length + l.length
            + (([] : List AObu).flatMap AObu.bytes).length + (t - l.length)
            = (frames.flatMap AFrame.bytes).length + t := by simp; omega
        rw [e]; exact h3
      · rw [h4]; simp
      · rw [h5]; simp
    · omega
  | @obu b ps l p t f hs hl hp hfit ih =>
    have hlp := hl.pos
    obtain ⟨tus, h1, ⟨-, h0, -, -⟩ | ⟨tl, frames, h2, h0, ⟨hf, -⟩ | ⟨fl, obus, h3, hf, hft, h4, h5, h6, h7⟩⟩⟩ := ih
    · omega
    · omega
    · -- the OBUs of the open frame unit with this one
      have hv : ∀ x ∈ obus ++ [AObu.mk l p], AObu.Valid x := by
        intro x hx
        rcases List.mem_append.1 hx with hx | hx
        · exact h3 x hx
        · rw [List.mem_singleton.1 hx]; exact ⟨hp, hl⟩
      have eb : (obus ++ [AObu.mk l p]).flatMap AObu.bytes = obus.flatMap AObu.bytes ++ (l ++ p) := by
        simp [AObu.bytes]
      have el : ((obus ++ [AObu.mk l p]).flatMap AObu.bytes).length
          = (obus.flatMap AObu.bytes).length + (l.length + p.length) := by
        rw [eb]; simp only [List.length_append]
      have ep : (obus ++ [AObu.mk l p]).map AObu.payload = obus.map AObu.payload ++ [p] := by simp
      by_cases hf0 : f = l.length + p.length
      · -- the frame unit is complete
        have hfr : ∀ x ∈ frames ++ [AFrame.mk fl (obus ++ [AObu.mk l p])], AFrame.Valid x := by
          intro x hx
          rcases List.mem_append.1 hx with hx | hx
          · exact h2 x hx
          · rw [List.mem_singleton.1 hx]
            refine ⟨by simp, hv, ?_⟩
            show IsLeb fl ((obus ++ [AObu.mk l p]).flatMap AObu.bytes).length
            rw [el, ← hf0]; exact h4
        have fb : (frames ++ [AFrame.mk fl (obus ++ [AObu.mk l p])]).flatMap AFrame.bytes
            = frames.flatMap AFrame.bytes ++ (fl ++ (obus.flatMap AObu.bytes ++ (l ++ p))) := by
          rw [List.flatMap_append, List.flatMap_cons, List.flatMap_nil, List.append_nil]
          unfold AFrame.bytes AFrame.body
          rw [eb]
        have fl' : ((frames ++ [AFrame.mk fl (obus ++ [AObu.mk l p])]).flatMap AFrame.bytes).length
            = (frames.flatMap AFrame.bytes).length + fl.length + (obus.flatMap AObu.bytes).length
              + (l.length + p.length) := by
          rw [fb]; simp only [List.length_append]; omega
        have fp : (frames ++ [AFrame.mk fl (obus ++ [AObu.mk l p])]).flatMap (fun f => f.obus.map AObu.payload)
            = frames.flatMap (fun f => f.obus.map AObu.payload) ++ (obus.map AObu.payload ++ [p]) := by
          rw [List.flatMap_append, List.flatMap_cons, List.flatMap_nil, List.append_nil]
          rw [ep]
        by_cases ht0 : t = l.length + p.length
        · -- and so is the temporal unit
          refine ⟨tus ++ [ATu.mk tl (frames ++ [AFrame.mk fl (obus ++ [AObu.mk l p])])], ?_, .inl ⟨by omega, by omega, ?_, ?_⟩⟩
          · intro x hx
            rcases List.mem_append.1 hx with hx | hx
            · exact h1 x hx
            · rw [List.mem_singleton.1 hx]
              refine ⟨by simp, hfr, ?_⟩
              show IsLeb tl ((frames ++ [AFrame.mk fl (obus ++ [AObu.mk l p])]).flatMap AFrame.bytes).length
              rw [fl', ← ht0]; exact h5
          · rw [List.flatMap_append, List.flatMap_cons, List.flatMap_nil, List.append_nil]
            unfold ATu.bytes ATu.body
            rw [fb, h6]
            simp only [List.append_assoc]
            rfl
          · rw [List.flatMap_append, List.flatMap_cons, List.flatMap_nil, List.append_nil]
            unfold ATu.payloads
            rw [fp, h7]
            simp only [List.append_assoc]
            rfl
        · refine ⟨tus, h1, .inr ⟨tl, _, hfr, by omega, .inl ⟨by omega, ?_, ?_, ?_⟩⟩⟩
          · rw [fl']
            have e : (frames.flatMap AFrame.bytes).length + fl.length
                + (obus.flatMap AObu.bytes).length + (l.length + p.length)
                + (t - (l.length + p.length))
                = (frames.flatMap AFrame.bytes).length + fl.length
                + (obus.flatMap AObu.bytes).length + t := by omega
            rw [e]; exact h5
          · rw [fb, h6]; simp only [List.append_assoc]
          · rw [fp, h7]; simp only [List.append_assoc]
      · refine ⟨tus, h1, .inr ⟨tl, frames, h2, by omega, .inr ⟨fl, obus ++ [AObu.mk l p], hv, by omega,
          by omega, ?_, ?_, ?_, ?_⟩⟩⟩
        · rw [el]
          have e : (obus.flatMap AObu.bytes).length + (l.length + p.length)
              + (f - (l.length + p.length)) = (obus.flatMap AObu.bytes).length + f := by omega
          rw [e]; exact h4
        · rw [el]
          have e : (frames.flatMap AFrame.bytes).length + fl.length
              + ((obus.flatMap AObu.bytes).length + (l.length + p.length))
              + (t - (l.length + p.length))
              = (frames.flatMap AFrame.bytes).length + fl.length
              + (obus.flatMap AObu.bytes).length + t := by omega
          rw [e]; exact h5
        · rw [eb, h6]; simp only [List.append_assoc]
        · rw [ep, h7]; simp only [List.append_assoc]

end Dav1d.Input
