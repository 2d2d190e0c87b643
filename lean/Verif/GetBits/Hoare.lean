import Verif.GetBits.CodesLemmas
/-!
# Postconditions of header programs

`WFP p Q`: all field widths requested by `p` are legal and every result it can return satisfies `Q`.
`HProg` is a header program that may reject the header (`goto error`).
-/
namespace Dav1d
namespace Prog

variable {α β : Type}

/-- All widths are in 1..32 and every possible result satisfies `Q`. -/
def WFP : Prog α → (α → Prop) → Prop
  | ret a, Q => Q a
  | bit k, Q => ∀ v, v < 2 → WFP (k v) Q
  | bits n k, Q => 0 < n ∧ n ≤ 32 ∧ ∀ v, v < 2 ^ n → WFP (k v) Q
  | sbits n k, Q => 0 < n ∧ n ≤ 32 ∧ ∀ v : Int, -(2 ^ (n - 1)) ≤ v → v < 2 ^ (n - 1) → WFP (k v) Q
  | align k, Q => WFP k Q
  | err k, Q => ∀ v, WFP (k v) Q
  | setErr k, Q => WFP k Q
  | restZero k, Q => ∀ v, WFP (k v) Q
  | rest k, Q => ∀ v, WFP (k v) Q

theorem WFP.mono {p : Prog α} {P Q : α → Prop} (h : WFP p P) (hpq : ∀ a, P a → Q a) : WFP p Q := by
  induction p with
  | ret a => exact hpq a h
  | bit k ih => exact fun v hv => ih v (h v hv)
  | bits n k ih => exact ⟨h.1, h.2.1, fun v hv => ih v (h.2.2 v hv)⟩
  | sbits n k ih => exact ⟨h.1, h.2.1, fun v h1 h2 => ih v (h.2.2 v h1 h2)⟩
  | align k ih => exact ih h
  | err k ih => exact fun v => ih v (h v)
  | setErr k ih => exact ih h
  | restZero k ih => exact fun v => ih v (h v)
  | rest k ih => exact fun v => ih v (h v)

theorem WFP.bind {p : Prog α} {f : α → Prog β} {P : α → Prop} {Q : β → Prop} (h : WFP p P)
    (hf : ∀ a, P a → WFP (f a) Q) : WFP (p >>= f) Q := by
  show WFP (Prog.bind p f) Q
  induction p with
  | ret a => exact hf a h
  | bit k ih => exact fun v hv => ih v (h v hv)
  | bits n k ih => exact ⟨h.1, h.2.1, fun v hv => ih v (h.2.2 v hv)⟩
  | sbits n k ih => exact ⟨h.1, h.2.1, fun v h1 h2 => ih v (h.2.2 v h1 h2)⟩
  | align k ih => exact ih h
  | err k ih => exact fun v => ih v (h v)
  | setErr k ih => exact ih h
  | restZero k ih => exact fun v => ih v (h v)
  | rest k ih => exact fun v => ih v (h v)

theorem WFP.ret {a : α} {Q : α → Prop} (h : Q a) : WFP (Prog.ret a) Q := h
theorem WFP.pure {a : α} {Q : α → Prop} (h : Q a) : WFP (Pure.pure a : Prog α) Q := h

theorem WFP.wf {p : Prog α} {Q : α → Prop} (h : WFP p Q) : p.WF := by
  induction p with
  | ret a => trivial
  | bit k ih => exact fun v hv => ih v (h v hv)
  | bits n k ih => exact ⟨h.1, h.2.1, fun v hv => ih v (h.2.2 v hv)⟩
  | sbits n k ih => exact ⟨h.1, h.2.1, fun v h1 h2 => ih v (h.2.2 v h1 h2)⟩
  | align k ih => exact ih h
  | err k ih => exact fun v => ih v (h v)
  | setErr k ih => exact ih h
  | restZero k ih => exact fun v => ih v (h v)
  | rest k ih => exact fun v => ih v (h v)

theorem WF.wfp {p : Prog α} (h : p.WF) : WFP p (fun _ => True) := by
  induction p with
  | ret a => trivial
  | bit k ih => exact fun v hv => ih v (h v hv)
  | bits n k ih => exact ⟨h.1, h.2.1, fun v hv => ih v (h.2.2 v hv)⟩
  | sbits n k ih => exact ⟨h.1, h.2.1, fun v h1 h2 => ih v (h.2.2 v h1 h2)⟩
  | align k ih => exact ih h
  | err k ih => exact fun v => ih v (h v)
  | setErr k ih => exact ih h
  | restZero k ih => exact fun v => ih v (h v)
  | rest k ih => exact fun v => ih v (h v)

theorem bitsSVal_bounds {n : Nat} (h0 : 0 < n) (s : BitSt) :
    -(2 ^ (n - 1) : Int) ≤ bitsSVal (s.peek n) ∧ bitsSVal (s.peek n) < 2 ^ (n - 1) := by
  have hlt := bitsVal_lt (s.peek n)
  have hh := bitsVal_head (s.peek n)
  rw [peek_length] at hlt hh
  have en : (2:Nat) ^ n = 2 * 2 ^ (n - 1) := by
    conv_lhs => rw [show n = (n - 1) + 1 by omega, Nat.pow_succ]
    ring
  have en' : (2:Int) ^ n = 2 * 2 ^ (n - 1) := by exact_mod_cast en
  have ec : ((2:Nat) ^ (n - 1) : Int) = (2:Int) ^ (n - 1) := by norm_cast
  unfold bitsSVal
  rw [peek_length]
  constructor
  · split
    · rename_i h; have := hh.1 h; rw [en']; omega
    · have := Nat.two_pow_pos (n - 1); omega
  · split
    · rw [en']; omega
    · rename_i h
      have : ¬ 2 ^ (n - 1) ≤ bitsVal (s.peek n) := fun h' => h (hh.2 h')
      omega

theorem WFP.run {p : Prog α} {Q : α → Prop} (h : WFP p Q) : ∀ s, Q (p.run s).1 := by
  induction p with
  | ret a => intro s; exact h
  | bit k ih =>
    intro s
    exact ih _ (h _ (by simpa using bitsVal_lt (s.peek 1))) _
  | bits n k ih =>
    intro s
    exact ih _ (h.2.2 _ (by simpa using bitsVal_lt (s.peek n))) _
  | sbits n k ih =>
    intro s
    obtain ⟨h1, h2⟩ := bitsSVal_bounds h.1 s
    exact ih _ (h.2.2 _ h1 h2) _
  | align k ih => intro s; exact ih h _
  | err k ih => intro s; exact ih _ (h _) _
  | setErr k ih => intro s; exact ih h _
  | restZero k ih => intro s; exact ih _ (h _) _
  | rest k ih => intro s; exact ih _ (h _) _

theorem wfp_getBits {n : Nat} (h : 0 < n) (h32 : n ≤ 32) : WFP (getBits n) (fun v => v < 2 ^ n) :=
  ⟨h, h32, fun _ hv => hv⟩
theorem wfp_getSBits {n : Nat} (h : 0 < n) (h32 : n ≤ 32) :
    WFP (getSBits n) (fun v => -(2 ^ (n - 1)) ≤ v ∧ v < 2 ^ (n - 1)) :=
  ⟨h, h32, fun _ h1 h2 => ⟨h1, h2⟩⟩
theorem wfp_getBit : WFP getBit (fun v => v < 2) := fun _ hv => hv
theorem wfp_getFlag : WFP getFlag (fun _ => True) := fun _ _ => trivial

theorem wfp_getUniform {n : Nat} (hn : 1 < n) (h32 : n < 2 ^ 32) : WFP (getUniform n) (fun v => v < n) := by
  obtain ⟨h1, h2⟩ := log2_bounds (n := n) (by omega)
  unfold getUniform
  simp only [Nat.add_sub_cancel]
  have h3 : Nat.log2 n < 32 := (Nat.log2_lt (by omega)).2 h32
  have h4 : 1 ≤ Nat.log2 n := (Nat.le_log2 (by omega)).2 (by omega)
  refine (wfp_getBits (by omega) (by omega)).bind (fun v hv => ?_)
  rw [Nat.pow_succ] at h2 ⊢
  split
  · exact WFP.ret (by omega)
  · exact wfp_getBit.bind (fun b hb => WFP.ret (by omega))

/-- The program only reads bits and looks at the error flag: it does not look at the position, at the
rest of the buffer or at the alignment. -/
def Local : Prog α → Prop
  | ret _ => True
  | bit k => ∀ v, Local (k v)
  | bits _ k => ∀ v, Local (k v)
  | sbits _ k => ∀ v, Local (k v)
  | align _ => False
  | err k => ∀ v, Local (k v)
  | setErr _ => False
  | restZero _ => False
  | rest _ => False

theorem Local.bind {p : Prog α} {f : α → Prog β} (h : p.Local) (hf : ∀ a, (f a).Local) : (p >>= f).Local := by
  show (Prog.bind p f).Local
  induction p with
  | ret a => exact hf a
  | bit k ih => exact fun v => ih v (h v)
  | bits n k ih => exact fun v => ih v (h v)
  | sbits n k ih => exact fun v => ih v (h v)
  | err k ih => exact fun v => ih v (h v)
  | align k _ => exact h.elim
  | setErr k _ => exact h.elim
  | restZero k _ => exact h.elim
  | rest k _ => exact h.elim

theorem advance_err {s : BitSt} (n : Nat) (h : s.err = true) : (s.advance n).err = true := by
  simp [BitSt.advance, h]

theorem advance_rem_length (s : BitSt) (n : Nat) : (s.advance n).rem.length ≤ s.rem.length := by
  simp [BitSt.advance]

/-- The error flag of a local program is never cleared and the rest only shrinks. -/
theorem Local.mono {p : Prog α} (h : p.Local) : ∀ s, (s.err = true → (p.run s).2.err = true) ∧
    (p.run s).2.rem.length ≤ s.rem.length := by
  induction p with
  | ret a => intro s; exact ⟨id, Nat.le_refl _⟩
  | bit k ih => intro s; obtain ⟨h1, h2⟩ := ih _ (h (bitsVal (s.peek 1))) (s.advance 1)
                exact ⟨fun e => h1 (advance_err 1 e), h2.trans (advance_rem_length s 1)⟩
  | bits n k ih => intro s; obtain ⟨h1, h2⟩ := ih _ (h (bitsVal (s.peek n))) (s.advance n)
                   exact ⟨fun e => h1 (advance_err n e), h2.trans (advance_rem_length s n)⟩
  | sbits n k ih => intro s; obtain ⟨h1, h2⟩ := ih _ (h (bitsSVal (s.peek n))) (s.advance n)
                    exact ⟨fun e => h1 (advance_err n e), h2.trans (advance_rem_length s n)⟩
  | err k ih => intro s; exact ih _ (h s.err) s
  | align k _ => exact h.elim
  | setErr k _ => exact h.elim
  | restZero k _ => exact h.elim
  | rest k _ => exact h.elim

/-- Locality: running with more data behind. Either the run on the short data ends without error and the
run on the long data does the same, or both leave the short data. -/
theorem Local.extend {p : Prog α} (h : p.Local) (b : List Bool) : ∀ (s t : BitSt), s.err = false → t.err = false →
    t.rem = s.rem ++ b →
    ((p.run s).2.err = false ∧ (p.run t).1 = (p.run s).1 ∧ (p.run t).2.err = false ∧
      (p.run t).2.rem = (p.run s).2.rem ++ b ∧ (s.over = 0 → t.over = 0 → (p.run t).2.over = 0 ∧ (p.run s).2.over = 0)) ∨
    ((p.run s).2.err = true ∧ ((p.run t).2.err = true ∨ (p.run t).2.rem.length < b.length)) := by
  have step : ∀ (n : Nat) (s t : BitSt), s.err = false → t.err = false → t.rem = s.rem ++ b →
      (n ≤ s.rem.length ∧ (s.advance n).err = false ∧ (t.advance n).err = false ∧
        (t.advance n).rem = (s.advance n).rem ++ b ∧ t.peek n = s.peek n ∧ (s.advance n).over = s.over ∧
        (t.advance n).over = t.over) ∨
      ((s.advance n).err = true ∧ ((t.advance n).err = true ∨ (t.advance n).rem.length < b.length)) := by
    intro n s t hs ht hr
    by_cases hn : n ≤ s.rem.length
    · left
      have hn' : n ≤ t.rem.length := by rw [hr, List.length_append]; omega
      refine ⟨hn, ?_, ?_, ?_, ?_, ?_, ?_⟩
      · simp [BitSt.advance, hn, hs]
      · simp [BitSt.advance, hn', ht]
      · simp only [BitSt.advance]
        rw [hr, List.drop_append_of_le_length hn]
      · unfold BitSt.peek
        rw [hr, List.append_assoc, List.take_append_of_le_length hn, List.take_append_of_le_length hn]
      · simp [BitSt.advance, hn]
      · simp [BitSt.advance, hn']
    · right
      refine ⟨by simp [BitSt.advance]; omega, ?_⟩
      by_cases hn' : n ≤ t.rem.length
      · right
        simp only [BitSt.advance, List.length_drop]
        rw [hr, List.length_append] at hn' ⊢
        omega
      · left; simp [BitSt.advance]; omega
  have out : ∀ (q : Prog α) (s t : BitSt), q.Local → ∀ q' : Prog α, q'.Local → s.err = true →
      (t.err = true ∨ t.rem.length < b.length) →
      ((q.run s).2.err = true ∧ ((q'.run t).2.err = true ∨ (q'.run t).2.rem.length < b.length)) := by
    intro q s t hq q' hq' h1 h2
    refine ⟨(hq.mono s).1 h1, ?_⟩
    rcases h2 with h2 | h2
    · exact Or.inl ((hq'.mono t).1 h2)
    · exact Or.inr (lt_of_le_of_lt (hq'.mono t).2 h2)
  induction p with
  | ret a => intro s t hs ht hr; exact Or.inl ⟨hs, rfl, ht, hr, fun a b => ⟨b, a⟩⟩
  | bit k ih =>
    intro s t hs ht hr
    simp only [run]
    rcases step 1 s t hs ht hr with ⟨_, h1, h2, h3, h4, h5, h6⟩ | ⟨h1, h2⟩
    · have := ih _ (h (bitsVal (s.peek 1))) (s.advance 1) (t.advance 1) h1 h2 h3
      rw [h5, h6] at this; rw [h4]; exact this
    · exact Or.inr (out _ _ _ (h _) _ (h _) h1 h2)
  | bits n k ih =>
    intro s t hs ht hr
    simp only [run]
    rcases step n s t hs ht hr with ⟨_, h1, h2, h3, h4, h5, h6⟩ | ⟨h1, h2⟩
    · have := ih _ (h (bitsVal (s.peek n))) (s.advance n) (t.advance n) h1 h2 h3
      rw [h5, h6] at this; rw [h4]; exact this
    · exact Or.inr (out _ _ _ (h _) _ (h _) h1 h2)
  | sbits n k ih =>
    intro s t hs ht hr
    simp only [run]
    rcases step n s t hs ht hr with ⟨_, h1, h2, h3, h4, h5, h6⟩ | ⟨h1, h2⟩
    · have := ih _ (h (bitsSVal (s.peek n))) (s.advance n) (t.advance n) h1 h2 h3
      rw [h5, h6] at this; rw [h4]; exact this
    · exact Or.inr (out _ _ _ (h _) _ (h _) h1 h2)
  | err k ih =>
    intro s t hs ht hr
    have := ih _ (h s.err) s t hs ht hr
    simp only [run]
    rw [show t.err = s.err by rw [ht, hs]]
    exact this
  | align k _ => exact h.elim
  | setErr k _ => exact h.elim
  | restZero k _ => exact h.elim
  | rest k _ => exact h.elim

end Prog

/-- Header parser that may give up with `goto error`. -/
abbrev HProg (α : Type) := OptionT Prog α

namespace HProg
variable {α β : Type}

/-- Run a header parser on the abstract bits. -/
def exec (p : HProg α) (s : BitSt) : Option α × BitSt := (OptionT.run p).run s

/-- Read with a program that cannot fail. -/
def rd (p : Prog α) : HProg α := OptionT.mk (p >>= fun a => Prog.ret (some a))
/-- `goto error`. -/
def fail : HProg α := OptionT.mk (Prog.ret none)
/-- `if (cond) goto error`. -/
def rejectIf (c : Prop) [Decidable c] : HProg Unit := if c then fail else pure ()

/-- Read an unsigned field. -/
def f (n : Nat) : HProg Nat := rd (Prog.getBits n)
/-- Read a flag. -/
def flag : HProg Bool := rd Prog.getFlag
/-- Read a bit as a number. -/
def bit : HProg Nat := rd Prog.getBit
/-- `cond ? read : default`. -/
def opt (c : Prop) [Decidable c] (p : HProg α) (d : α) : HProg α := if c then p else pure d
/-- Read a signed field. -/
def su (n : Nat) : HProg Int := rd (Prog.getSBits n)

theorem exec_bind (p : HProg α) (g : α → HProg β) (s : BitSt) :
    (p >>= g).exec s = match p.exec s with
      | (none, s') => (none, s')
      | (some a, s') => (g a).exec s' := by
  unfold exec
  show (OptionT.bind p g).run.run s = _
  unfold OptionT.bind OptionT.mk
  show (Prog.run (_ >>= _) s) = _
  rw [Prog.run_bind]
  have e : Prog.run p s = (OptionT.run p).run s := rfl
  rw [e]
  generalize (OptionT.run p).run s = r
  obtain ⟨o, s'⟩ := r
  cases o <;> rfl

@[simp] theorem exec_pure (a : α) (s : BitSt) : (pure a : HProg α).exec s = (some a, s) := rfl
@[simp] theorem exec_fail (s : BitSt) : (fail : HProg α).exec s = (none, s) := rfl
@[simp] theorem exec_rd (p : Prog α) (s : BitSt) :
    (rd p).exec s = (some (p.run s).1, (p.run s).2) := by
  unfold exec rd
  show Prog.run (p >>= _) s = _
  rw [Prog.run_bind]; rfl

/-- On bits starting with `w` the parser accepts with `a`, consuming `w`. -/
def Reads (p : HProg α) (a : α) (w : List Bool) : Prop := Prog.Reads (OptionT.run p) (some a) w

theorem Reads.pure (a : α) : Reads (Pure.pure a : HProg α) a [] := Prog.Reads.ret _

theorem Reads.rd {p : Prog α} {a : α} {w} (h : Prog.Reads p a w) : Reads (HProg.rd p) a w := by
  have := h.bind (f := fun a => Prog.ret (some a)) (Prog.Reads.ret _)
  rw [List.append_nil] at this
  exact this

theorem Reads.bind {p : HProg α} {g : α → HProg β} {a b w w'} (h1 : Reads p a w) (h2 : Reads (g a) b w') :
    Reads (p >>= g) b (w ++ w') := by
  intro s rest h
  have := exec_bind p g s
  unfold exec at this
  rw [this, h1 s (w' ++ rest) (by simpa using h)]
  exact h2 _ rest rfl

/-- `Reads.bind` for a first part that reads nothing. -/
theorem Reads.bind0 {p : HProg α} {g : α → HProg β} {a b w'} (h1 : Reads p a []) (h2 : Reads (g a) b w') :
    Reads (p >>= g) b w' := by simpa using Reads.bind h1 h2

theorem Reads.reject {c : Prop} [Decidable c] (h : ¬ c) : Reads (rejectIf c) () [] := by
  unfold rejectIf; rw [if_neg h]; exact Reads.pure _

theorem Reads.opt_pos {c : Prop} [Decidable c] {p : HProg α} {d a : α} {w} (hc : c) (h : Reads p a w) :
    Reads (opt c p d) a w := by unfold opt; rw [if_pos hc]; exact h
theorem Reads.opt_neg {c : Prop} [Decidable c] {p : HProg α} {d : α} (hc : ¬ c) :
    Reads (opt c p d) d [] := by unfold opt; rw [if_neg hc]; exact Reads.pure _
theorem Reads.opt {c : Prop} [Decidable c] {p : HProg α} {d a : α} {w} (h1 : c → Reads p a w) :
    Reads (HProg.opt c p d) (if c then a else d) (if c then w else []) := by
  split
  · exact Reads.opt_pos (by assumption) (h1 (by assumption))
  · exact Reads.opt_neg (by assumption)

theorem reads_f {n v : Nat} (h : v < 2 ^ n) : Reads (f n) v (natBits n v) := Reads.rd (Prog.reads_getBits h)
theorem reads_flag (b : Bool) : Reads flag b [b] := Reads.rd (Prog.reads_getFlag b)
theorem reads_bit (b : Bool) : Reads bit b.toNat [b] := Reads.rd (Prog.reads_getBit b)

/-- All widths legal, every accepted result satisfies `Q`. -/
def Post (p : HProg α) (Q : α → Prop) : Prop := Prog.WFP (OptionT.run p) (fun o => ∀ a, o = some a → Q a)

theorem Post.pure {a : α} {Q : α → Prop} (h : Q a) : Post (Pure.pure a : HProg α) Q := by
  intro b hb; cases hb; exact h

theorem Post.fail {Q : α → Prop} : Post (HProg.fail : HProg α) Q := by intro b hb; cases hb

theorem Post.rd {p : Prog α} {Q : α → Prop} (h : Prog.WFP p Q) : Post (HProg.rd p) Q :=
  Prog.WFP.bind h (fun a ha => by intro b hb; cases hb; exact ha)

theorem Post.bind {p : HProg α} {g : α → HProg β} {P : α → Prop} {Q : β → Prop} (h : Post p P)
    (hg : ∀ a, P a → Post (g a) Q) : Post (p >>= g) Q := by
  show Prog.WFP (OptionT.run p >>= _) _
  refine Prog.WFP.bind h (fun o ho => ?_)
  cases o with
  | none => intro b hb; cases hb
  | some a => exact hg a (ho a rfl)

theorem Post.mono {p : HProg α} {P Q : α → Prop} (h : Post p P) (hpq : ∀ a, P a → Q a) : Post p Q :=
  Prog.WFP.mono h (fun _ ho a ha => hpq a (ho a ha))

theorem Post.reject {c : Prop} [Decidable c] : Post (rejectIf c) (fun _ => ¬ c) := by
  unfold rejectIf
  split
  · exact Post.fail
  · exact Post.pure (by assumption)

theorem Post.opt {c : Prop} [Decidable c] {p : HProg α} {d : α} {Q : α → Prop} (h1 : c → Post p Q)
    (h2 : ¬ c → Q d) : Post (HProg.opt c p d) Q := by
  unfold HProg.opt
  split
  · exact h1 (by assumption)
  · exact Post.pure (h2 (by assumption))

theorem Post.ite {c : Prop} [Decidable c] {p q : HProg α} {Q : α → Prop} (h1 : c → Post p Q)
    (h2 : ¬ c → Post q Q) : Post (if c then p else q) Q := by
  split
  · exact h1 (by assumption)
  · exact h2 (by assumption)

theorem post_f {n : Nat} (h : 0 < n) (h32 : n ≤ 32) : Post (f n) (fun v => v < 2 ^ n) :=
  Post.rd (Prog.wfp_getBits h h32)
theorem post_flag : Post flag (fun _ => True) := Post.rd Prog.wfp_getFlag
theorem post_bit : Post bit (fun v => v < 2) := Post.rd Prog.wfp_getBit
theorem post_su {n : Nat} (h : 0 < n) (h32 : n ≤ 32) :
    Post (su n) (fun v => -(2 ^ (n - 1)) ≤ v ∧ v < 2 ^ (n - 1)) := Post.rd (Prog.wfp_getSBits h h32)

theorem Post.wf {p : HProg α} {Q : α → Prop} (h : Post p Q) : (OptionT.run p).WF := Prog.WFP.wf h

theorem Post.exec {p : HProg α} {Q : α → Prop} (h : Post p Q) {s : BitSt} {a : α} {s' : BitSt}
    (he : p.exec s = (some a, s')) : Q a := by
  have := Prog.WFP.run h s
  exact this a (by unfold HProg.exec at he; rw [he])

/-- The header parser only reads bits and looks at the error flag. -/
def Loc (p : HProg α) : Prop := Prog.Local (OptionT.run p)

theorem Loc.pure {a : α} : Loc (Pure.pure a : HProg α) := trivial
theorem Loc.fail : Loc (HProg.fail : HProg α) := trivial
theorem Loc.rd {p : Prog α} (h : p.Local) : Loc (HProg.rd p) := Prog.Local.bind h (fun _ => trivial)
theorem Loc.bind {p : HProg α} {g : α → HProg β} (h : Loc p) (hg : ∀ a, Loc (g a)) : Loc (p >>= g) := by
  show Prog.Local (OptionT.run p >>= _)
  refine Prog.Local.bind h (fun o => ?_)
  cases o with
  | none => trivial
  | some a => exact hg a
theorem Loc.reject {c : Prop} [Decidable c] : Loc (rejectIf c) := by unfold rejectIf; split <;> trivial
theorem Loc.opt {c : Prop} [Decidable c] {p : HProg α} {d : α} (h : Loc p) : Loc (HProg.opt c p d) := by
  unfold HProg.opt; split
  · exact h
  · trivial
theorem Loc.f (n : Nat) : Loc (HProg.f n) := Loc.rd (fun _ => trivial)
theorem Loc.su (n : Nat) : Loc (HProg.su n) := Loc.rd (fun _ => trivial)
theorem Loc.flag : Loc HProg.flag := Loc.rd (fun _ => trivial)
theorem Loc.bit : Loc HProg.bit := Loc.rd (fun _ => trivial)

/-- Proves `Loc` of straight-line parsers. -/
macro "hloc" : tactic => `(tactic| repeat' (first
  | exact Loc.pure | exact Loc.fail | exact Loc.flag | exact Loc.bit | exact Loc.f _ | exact Loc.su _
  | exact Loc.reject | assumption | with_reducible apply Loc.opt | with_reducible apply Loc.bind
  | with_reducible intro _ | split))

/-- Weakest use of `Post`: only the widths matter. -/
abbrev Legal (p : HProg α) : Prop := Post p (fun _ => True)

theorem Legal.bind {p : HProg α} {g : α → HProg β} (h : Legal p) (hg : ∀ a, Legal (g a)) : Legal (p >>= g) :=
  Post.bind h (fun a _ => hg a)
theorem Legal.pure {a : α} : Legal (Pure.pure a : HProg α) := Post.pure trivial
theorem Legal.reject {c : Prop} [Decidable c] : Legal (rejectIf c) := Post.mono Post.reject (fun _ _ => trivial)
theorem Legal.opt {c : Prop} [Decidable c] {p : HProg α} {d : α} (h : Legal p) : Legal (HProg.opt c p d) :=
  Post.opt (fun _ => h) (fun _ => trivial)
theorem Legal.opt' {c : Prop} [Decidable c] {p : HProg α} {d : α} (h : c → Legal p) : Legal (HProg.opt c p d) :=
  Post.opt h (fun _ => trivial)
theorem Legal.f {n : Nat} (h : 0 < n) (h32 : n ≤ 32) : Legal (HProg.f n) := Post.mono (post_f h h32) (fun _ _ => trivial)
theorem Legal.su {n : Nat} (h : 0 < n) (h32 : n ≤ 32) : Legal (HProg.su n) := Post.mono (post_su h h32) (fun _ _ => trivial)
theorem Legal.bit : Legal HProg.bit := Post.mono post_bit (fun _ _ => trivial)
theorem Legal.of {p : HProg α} {Q : α → Prop} (h : Post p Q) : Legal p := Post.mono h (fun _ _ => trivial)

/-- Proves `Legal` of straight-line parsers whose widths are literals. -/
macro "hlegal" : tactic => `(tactic| repeat' (first
  | exact Legal.pure | exact Post.fail | exact post_flag | exact Legal.bit
  | exact Legal.f (by omega) (by omega) | exact Legal.su (by omega) (by omega)
  | exact Legal.reject | assumption | with_reducible apply Legal.opt | with_reducible apply Legal.bind
  | with_reducible intro _ | split))

end HProg
end Dav1d
