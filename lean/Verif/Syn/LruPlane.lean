import Verif.Syn.LruRead
/-!
# Superblocks, tiles
-/
set_option linter.unusedVariables false
set_option linter.unusedSimpArgs false
namespace Dav1d.Syn.Lru
open Dav1d.Part (Tile)
variable {ok : Req → Nat → Prop} {f : Cfg} {T : Tile} {p : Nat}

/-- From one state to another with the units `W` read. -/
structure Step (f : Cfg) (T : Tile) (W : Nat → Nat → Nat → Prop) (s : St) (t : Av1.State) (s' : St) (t' : Av1.State) : Prop where
  rel : Rel f T s' t'
  mem : ∀ q a, (∀ row col, W q row col → a ≠ loc f q row col) → s'.mem q a = s.mem q a
  done : ∀ q r c, W q r c → t'.units q r c ≠ none
  old : ∀ q r c, ¬ W q r c → t'.units q r c = t.units q r c

theorem Step.trans {W1 W2 W : Nat → Nat → Nat → Prop} {s s' s'' : St} {t t' t'' : Av1.State} (h1 : Step f T W1 s t s' t') (h2 : Step f T W2 s' t' s'' t'') (h : ∀ q r c, W q r c ↔ W1 q r c ∨ W2 q r c) :
    Step f T W s t s'' t'' := by
  refine ⟨h2.rel, fun q a ha => ?_, fun q r c hw => ?_, fun q r c hw => ?_⟩
  · rw [h2.mem q a fun r c w => ha r c ((h q r c).2 (.inr w)), h1.mem q a fun r c w => ha r c ((h q r c).2 (.inl w))]
  · by_cases w2 : W2 q r c
    · exact h2.done q r c w2
    · rw [h2.old q r c w2]
      exact h1.done q r c (((h q r c).1 hw).resolve_right w2)
  · rw [h2.old q r c fun w => hw ((h q r c).2 (.inr w)), h1.old q r c fun w => hw ((h q r c).2 (.inl w))]

theorem Step.none {W : Nat → Nat → Nat → Prop} {s : St} {t : Av1.State} (h : Rel f T s t) (hW : ∀ q r c, ¬ W q r c) : Step f T W s t s t :=
  ⟨h, fun _ _ _ => rfl, fun q r c w => absurd w (hW q r c), fun _ _ _ _ => rfl⟩

theorem Step.congr {W W' : Nat → Nat → Nat → Prop} {s s' : St} {t t' : Av1.State} (h : Step f T W s t s' t') (hW : ∀ q r c, W q r c ↔ W' q r c) : Step f T W' s t s' t' :=
  ⟨h.rel, fun q a ha => h.mem q a fun r c w => ha r c ((hW q r c).1 w), fun q r c w => h.done q r c ((hW q r c).2 w), fun q r c w => h.old q r c fun w' => w ((hW q r c).1 w')⟩

theorem Post.step (hf : CfgOk f) (hp : f.type p ≠ 0) {row col : Nat} {s s' : St} {t t' : Av1.State} {u : Av1.LrUnit} (h : Rel f T s t) (ho : Own f T p row col) (hP : Post f p row col s t s' t' u) :
    Step f T (fun q r c => q = p ∧ r = row ∧ c = col) s t s' t' := by
  refine ⟨⟨?_, ?_, ?_⟩, ?_, ?_, ?_⟩
  · intro q hq hc
    by_cases e : q = p
    · subst e; exact hP.ref
    · obtain ⟨a, b, c⟩ := hP.other q e
      rw [a, hP.mem q _ fun h => e h.1]
      obtain ⟨k0, k1, k2, k3⟩ := h.ref q hq hc
      constructor
      · rw [b]; exact k0
      · rw [b]; exact k1
      · rw [b]; exact k2
      · rw [c]; exact k3
  · intro q hq hc
    by_cases e : q = p
    · subst e
      rcases hP.place with h1 | h1
      · rw [h1]; exact h.place q hq hc
      · exact .inr ⟨row, col, ho, h1⟩
    · rw [(hP.other q e).1]; exact h.place q hq hc
  · intro q r c v hq hw hv
    rw [hP.units] at hv
    dsimp only at hv
    by_cases e : q = p ∧ r = row ∧ c = col
    · rw [if_pos e] at hv
      obtain ⟨rfl, rfl, rfl⟩ := e
      cases hv
      exact hP.enc
    · rw [if_neg e] at hv
      rw [hP.mem q _ ?_]
      · exact h.units q r c v hq hw hv
      · rintro ⟨rfl, h2⟩
        exact e ⟨rfl, loc_inj hf hq hw.col ho.col h2⟩
  · intro q a ha
    exact hP.mem q a fun h => ha row col ⟨h.1, rfl, rfl⟩ (by rw [h.1]; exact h.2)
  · rintro q r c ⟨rfl, rfl, rfl⟩
    rw [hP.units]
    dsimp only
    rw [if_pos ⟨rfl, rfl, rfl⟩]; simp
  · intro q r c hw
    rw [hP.units]
    dsimp only
    rw [if_neg hw]

/-- A row of units. -/
theorem loop_same (hf : CfgOk f) (hp : f.type p ≠ 0) {row : Nat} : ∀ (n x : Nat) {s : St} {t : Av1.State}, Rel f T s t → (∀ c, x ≤ c → c < x + n → Own f T p row c) →
    Same ok (Step f T (fun q r c => q = p ∧ r = row ∧ x ≤ c ∧ c < x + n) s t)
      (upto (fun col s => readInfo p (loc f p row col) (f.type p) s) n x s) (Av1.forN (fun col t => Av1.read_lr_unit (E f) p row col t) n x t)
  | 0, x, s, t, h, _ => Same.ret (Step.none h (by intro q r c; omega))
  | n + 1, x, s, t, h, ho => by
    unfold upto Av1.forN
    have h0 := ho x (Nat.le_refl _) (by omega)
    refine Same.bind (info_same hp (hf.type p).1 (h.ref p hp h0.hasCol)) fun s1 t1 hP => ?_
    obtain ⟨u, hP⟩ := hP
    have h1 := hP.step hf hp h h0
    refine (loop_same hf hp n (x + 1) h1.rel fun c c1 c2 => ho c (by omega) (by omega)).mono fun s2 t2 h2 => h1.trans h2 ?_
    intro q r c
    omega

/-! ## A plane of a superblock -/

theorem place_eq {row by' : Nat} (hrow : row * 2 ^ (f.us p + f.ssV p) = by' * 4) (col : Nat) :
    loc f p row col = (by' / 32 * f.srSb128w + col * 2 ^ (f.us p + f.ssH p) / 128, by' % 32 / 16 * 2 + col * 2 ^ (f.us p + f.ssH p) % 128 / 64) := by
  unfold loc locPx
  rw [hrow, show by' * 4 / 128 = by' / 32 from by omega, show by' * 4 % 128 / 64 = by' % 32 / 16 from by omega]

theorem plane_eq (hf : CfgOk f) (hp : f.type p ≠ 0) {bx by' : Nat} (hx : bx % f.step = 0) (hb : bx < f.bw) (hy : by' % f.step = 0) (s : St) :
    readPlane f bx by' p s = if Av1.unitRowStart (E f) p by' < Av1.unitRowEnd (E f) p by' then
      upto (fun col s => readInfo p (loc f p (Av1.unitRowStart (E f) p by') col) (f.type p) s) (Av1.unitColEnd (E f) p bx - Av1.unitColStart (E f) p bx) (Av1.unitColStart (E f) p bx) s else pure s := by
  obtain ⟨r1, r2⟩ := rowRange (ibc := false) hf hp hy
  unfold readPlane
  rw [if_neg hp]
  dsimp only
  by_cases hc : by' * 4 / 2 ^ f.ssV p % 2 ^ f.us p = 0 ∧ ¬ (by' * 4 / 2 ^ f.ssV p ≠ 0 ∧ (f.h + f.ssV p) / 2 ^ f.ssV p < by' * 4 / 2 ^ f.ssV p + 2 ^ f.us p / 2)
  · obtain ⟨q1, q2⟩ := r1 hc
    rw [if_neg (Classical.not_not.2 hc.1), if_neg hc.2, if_pos (c := Av1.unitRowStart (E f) p by' < Av1.unitRowEnd (E f) p by') (by have q2' : Av1.unitRowEnd (E f) p by' = Av1.unitRowStart (E f) p by' + 1 := q2; omega)]
    by_cases hr : f.resized
    · rw [if_pos hr]
      have e0 := colRange_resized (ibc := false) hf hp hr bx
      have e1 := colRange_resized (ibc := false) hf hp hr (bx + f.step)
      have c0 : Av1.unitColStart (E f) p bx = (4 * bx * f.d / 2 ^ f.ssH p + (2 ^ f.us p * 8 - 1)) / 2 ^ (f.us p + 3) := e0.symm
      have c1 : Av1.unitColEnd (E f) p bx = min ((4 * (bx + f.step) * f.d / 2 ^ f.ssH p + (2 ^ f.us p * 8 - 1)) / 2 ^ (f.us p + 3)) (max 1 (((f.srw + f.ssH p) / 2 ^ f.ssH p + 2 ^ f.us p / 2) / 2 ^ f.us p)) := by
        unfold Av1.unitColEnd
        rw [cols_eq hf hp, Nat.max_comm, e1]; rfl
      rw [c0, c1]
      congr 1
      funext x s
      rw [place_eq q1]
    · rw [if_neg hr]
      obtain ⟨k1, k2⟩ := colRange (ibc := false) hf hp hr hx hb
      by_cases hd : 4 * bx / 2 ^ f.ssH p % 2 ^ f.us p = 0 ∧ ¬ (4 * bx / 2 ^ f.ssH p ≠ 0 ∧ (f.w + f.ssH p) / 2 ^ f.ssH p < 4 * bx / 2 ^ f.ssH p + 2 ^ f.us p / 2)
      · obtain ⟨j1, j2⟩ := k1 hd
        rw [if_neg (Classical.not_not.2 hd.1), if_neg hd.2, j2, show ∀ n, n + 1 - n = 1 from fun n => by omega]
        unfold upto
        rw [show ∀ g x, upto g 0 x = pure from fun g x => by funext s; rfl, bind_pure', place_eq q1, j1, show bx * 4 / 128 = bx / 32 from by omega, show bx * 4 % 128 / 64 = bx % 32 / 16 from by omega]
      · rw [show Av1.unitColEnd (E f) p bx - Av1.unitColStart (E f) p bx = 0 from by have q3 : Av1.unitColEnd (E f) p bx ≤ Av1.unitColStart (E f) p bx := k2 hd; omega]
        by_cases hd1 : 4 * bx / 2 ^ f.ssH p % 2 ^ f.us p = 0
        · rw [if_neg (Classical.not_not.2 hd1), if_pos (Classical.not_not.1 fun h => hd ⟨hd1, h⟩)]; rfl
        · rw [if_pos hd1]; rfl
  · rw [if_neg (c := Av1.unitRowStart (E f) p by' < Av1.unitRowEnd (E f) p by') (by have q3 : Av1.unitRowEnd (E f) p by' ≤ Av1.unitRowStart (E f) p by' := r2 hc; omega)]
    by_cases hd1 : by' * 4 / 2 ^ f.ssV p % 2 ^ f.us p = 0
    · rw [if_neg (Classical.not_not.2 hd1), if_pos (Classical.not_not.1 fun h => hc ⟨hd1, h⟩)]
    · rw [if_pos hd1]

theorem rtype_ne (h3 : f.type p ≤ 3) : rtype (f.type p) = .NONE ↔ f.type p = 0 := by
  have : f.type p = 0 ∨ f.type p = 1 ∨ f.type p = 2 ∨ f.type p = 3 := by omega
  rcases this with h | h | h | h <;> rw [h] <;> simp [rtype]

theorem rowEnd_le (hf : CfgOk f) (hp : f.type p ≠ 0) {by' : Nat} (hy : by' % f.step = 0) : Av1.unitRowEnd (E f) p by' ≤ Av1.unitRowStart (E f) p by' + 1 := by
  obtain ⟨r1, r2⟩ := rowRange (ibc := false) hf hp hy
  by_cases hc : by' * 4 / 2 ^ f.ssV p % 2 ^ f.us p = 0 ∧ ¬ (by' * 4 / 2 ^ f.ssV p ≠ 0 ∧ (f.h + f.ssV p) / 2 ^ f.ssV p < by' * 4 / 2 ^ f.ssV p + 2 ^ f.us p / 2)
  · exact Nat.le_of_eq (r1 hc).2
  · exact Nat.le_succ_of_le (r2 hc)

/-- The row of a unit that a superblock has begins where the superblock begins. -/
theorem Has.row (hf : CfgOk f) (hp : f.type p ≠ 0) {bx by' row col : Nat} (hy : by' % f.step = 0) (h : Has f p bx by' row col) :
    row = Av1.unitRowStart (E f) p by' ∧ row * 2 ^ (f.us p + f.ssV p) = by' * 4 := by
  obtain ⟨r1, r2⟩ := rowRange (ibc := false) hf hp hy
  obtain ⟨h1, h2, -⟩ := h
  by_cases hc : by' * 4 / 2 ^ f.ssV p % 2 ^ f.us p = 0 ∧ ¬ (by' * 4 / 2 ^ f.ssV p ≠ 0 ∧ (f.h + f.ssV p) / 2 ^ f.ssV p < by' * 4 / 2 ^ f.ssV p + 2 ^ f.us p / 2)
  · obtain ⟨q1, q2⟩ := r1 hc
    have e : row = Av1.unitRowStart (E f) p by' := by
      have q2' : Av1.unitRowEnd (E f) p by' = Av1.unitRowStart (E f) p by' + 1 := q2
      omega
    exact ⟨e, by rw [e]; exact q1⟩
  · have : Av1.unitRowEnd (E f) p by' ≤ Av1.unitRowStart (E f) p by' := r2 hc
    omega

theorem spec_eq (hf : CfgOk f) (hp : f.type p ≠ 0) {bx by' : Nat} (hy : by' % f.step = 0) (t : Av1.State) :
    Av1.read_lr_plane (E f) by' bx p t = if Av1.unitRowStart (E f) p by' < Av1.unitRowEnd (E f) p by' then
      Av1.forN (fun col t => Av1.read_lr_unit (E f) p (Av1.unitRowStart (E f) p by') col t) (Av1.unitColEnd (E f) p bx - Av1.unitColStart (E f) p bx) (Av1.unitColStart (E f) p bx) t else pure t := by
  have hle := rowEnd_le hf hp hy
  unfold Av1.read_lr_plane
  rw [if_neg (c := (E f).FrameRestorationType p = .NONE) (fun h => hp ((rtype_ne (hf.type p).1).1 h))]
  unfold Av1.forRange
  by_cases hlt : Av1.unitRowStart (E f) p by' < Av1.unitRowEnd (E f) p by'
  · rw [if_pos hlt, show Av1.unitRowEnd (E f) p by' - Av1.unitRowStart (E f) p by' = 1 from by omega]
    conv => lhs; unfold Av1.forN
    rw [show ∀ g x, Av1.forN g 0 x = pure from fun g x => by funext s; rfl, bind_pure']
  · rw [if_neg hlt, show Av1.unitRowEnd (E f) p by' - Av1.unitRowStart (E f) p by' = 0 from by omega]
    rfl

theorem plane_same (hf : CfgOk f) (hT : TileIn f T) {bx by' : Nat} (hi : InTile f T bx by') {s : St} {t : Av1.State} (h : Rel f T s t) :
    Same ok (Step f T (fun q r c => q = p ∧ f.type p ≠ 0 ∧ Has f p bx by' r c) s t) (readPlane f bx by' p s) (Av1.read_lr_plane (E f) by' bx p t) := by
  by_cases hp : f.type p = 0
  · have e1 : readPlane f bx by' p s = pure s := if_pos hp
    have e2 : Av1.read_lr_plane (E f) by' bx p t = pure t := if_pos ((rtype_ne (hf.type p).1).2 hp)
    rw [e1, e2]
    exact Same.ret (Step.none h fun q r c w => w.2.1 hp)
  · rw [plane_eq hf hp hi.x.1 (by have := hi.x.2.2; have := hT.x1; omega) hi.y.1, spec_eq hf hp hi.y.1]
    refine Same.ite Iff.rfl (fun hlt => ?_) (fun hlt => Same.ret (Step.none h fun q r c w => ?_))
    · have hown : ∀ c, Av1.unitColStart (E f) p bx ≤ c → c < Av1.unitColStart (E f) p bx + (Av1.unitColEnd (E f) p bx - Av1.unitColStart (E f) p bx) →
          Own f T p (Av1.unitRowStart (E f) p by') c := fun c c1 c2 => ⟨bx, by', hi, Nat.le_refl _, hlt, c1, by omega⟩
      refine (loop_same hf hp _ _ h hown).mono fun s' t' h' => h'.congr fun q r c => ?_
      constructor
      · rintro ⟨rfl, rfl, c1, c2⟩
        exact ⟨rfl, hp, Nat.le_refl _, hlt, c1, by omega⟩
      · rintro ⟨rfl, -, w⟩
        refine ⟨rfl, (w.row hf hp hi.y.1).1, w.2.2.1, ?_⟩
        have := w.2.2.2
        omega
    · have := w.2.2.1
      have := w.2.2.2.1
      omega

end Dav1d.Syn.Lru
