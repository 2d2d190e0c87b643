import Verif.Cdf.Layout
/-!
# Programs that read symbols

What decode_b reads of a block, and what the AV1 specification reads, are both given as trees of requests to the
arithmetic decoder. Two programs are the `Same` when they make the same requests in the same order, for all answers the
decoder can give, and end with related results.
-/
namespace Dav1d.Syn
open CdfTab (Field ModeF)

/-- A request to the arithmetic decoder. -/
inductive Req where
  /-- dav1d_msac_decode_symbol_adapt4/8/16 (and dav1d_msac_decode_bool_adapt with `n = 1`), src/msac.h:71-93, with the row `idx` of the member `f` of CdfContext:
  a number from 0 to `n`. -/
  | sym (f : Field) (idx : List Nat) (n : Nat)
  /-- dav1d_msac_decode_bools, src/msac.h:95-100: `n` bits with equal probabilities; and dav1d_msac_decode_bool_equi with `n = 1`. -/
  | lit (n : Nat)
  /-- dav1d_msac_decode_uniform, src/msac.h:102-109: a number below `n`. -/
  | uni (n : Nat)
  deriving DecidableEq, Repr

/-- The possible answers. (`uni 0` is never asked for; it is given an answer here so that there are decoders that answer
everything.) -/
def Req.Ok : Req → Nat → Prop
  | .sym _ _ n, v => v ≤ n
  | .lit n, v => v < 2 ^ n
  | .uni n, v => v < max n 1

/-- A program: it ends with a result, ends with an error, or makes a request and continues with the answer. -/
inductive Prog (α : Type) where
  | ret (a : α)
  | err
  | read (r : Req) (k : Nat → Prog α)

def Prog.bind {α β : Type} : Prog α → (α → Prog β) → Prog β
  | .ret a, f => f a
  | .err, _ => .err
  | .read r k, f => .read r fun v => (k v).bind f

instance : Monad Prog where
  pure := .ret
  bind := Prog.bind

/-- A symbol of CdfModeContext. -/
def mode (f : ModeF) (idx : List Nat) (n : Nat) : Prog Nat := .read (.sym (.mode f) idx n) .ret
/-- A bool of CdfModeContext. -/
def flag (f : ModeF) (idx : List Nat) : Prog Bool := .read (.sym (.mode f) idx 1) fun v => .ret (v ≠ 0)
/-- Bits: nothing is read for none, src/msac.h:95-100. -/
def bits (n : Nat) : Prog Nat := if n = 0 then .ret 0 else .read (.lit n) .ret
/-- One bit. -/
def bit : Prog Bool := .read (.lit 1) fun v => .ret (v ≠ 0)
def uniform (n : Nat) : Prog Nat := .read (.uni n) .ret

/-- The same requests for all answers that are `ok`, and related results. -/
def Same {α β : Type} (ok : Req → Nat → Prop) (R : α → β → Prop) : Prog α → Prog β → Prop
  | .ret a, .ret b => R a b
  | .err, .err => True
  | .read r k, .read r' k' => r = r' ∧ ∀ v, r.Ok v → ok r v → Same ok R (k v) (k' v)
  | _, _ => False

/-- Without a restriction of the answers. -/
def anything : Req → Nat → Prop := fun _ _ => True

/-- Running a program with an arithmetic decoder `S` that has the state `s`. -/
def Prog.run {α σ : Type} (S : σ → Req → Nat × σ) : Prog α → σ → Option α × σ
  | .ret a, s => (some a, s)
  | .err, s => (none, s)
  | .read r k, s => (k (S s r).1).run S (S s r).2

/-- Programs that are the same leave every arithmetic decoder in the same state, and have related results. -/
theorem Same.run {α β σ : Type} {ok : Req → Nat → Prop} {R : α → β → Prop} {S : σ → Req → Nat × σ} (hS : ∀ (s : σ) (r : Req), r.Ok (S s r).1 ∧ ok r (S s r).1) :
    ∀ {p : Prog α} {q : Prog β}, Same ok R p q → ∀ s,
      (p.run S s).2 = (q.run S s).2 ∧
      ((∃ a b, (p.run S s).1 = some a ∧ (q.run S s).1 = some b ∧ R a b) ∨ ((p.run S s).1 = none ∧ (q.run S s).1 = none))
  | .ret a, .ret b, h, s => ⟨rfl, .inl ⟨a, b, rfl, rfl, h⟩⟩
  | .err, .err, _, s => ⟨rfl, .inr ⟨rfl, rfl⟩⟩
  | .read r k, .read r' k', ⟨h1, h2⟩, s => by
    subst h1
    exact Same.run hS (h2 _ (hS s r).1 (hS s r).2) _
  | .ret _, .err, h, _ => h.elim
  | .ret _, .read _ _, h, _ => h.elim
  | .err, .ret _, h, _ => h.elim
  | .err, .read _ _, h, _ => h.elim
  | .read _ _, .ret _, h, _ => h.elim
  | .read _ _, .err, h, _ => h.elim

/-- There are such decoders: one that always answers 0. -/
example (s : Unit) (r : Req) : r.Ok ((fun (s : Unit) (_ : Req) => ((0 : Nat), s)) s r).1 := by
  cases r with
  | sym f idx n => exact Nat.zero_le n
  | lit n => exact Nat.two_pow_pos n
  | uni n => show 0 < max n 1; omega

theorem Prog.run_bind {α β σ : Type} (S : σ → Req → Nat × σ) (f : α → Prog β) : ∀ (p : Prog α) (s : σ),
    (p >>= f).run S s = match p.run S s with
      | (some a, s') => (f a).run S s'
      | (none, s') => (none, s')
  | .ret a, s => rfl
  | .err, s => rfl
  | .read r k, s => Prog.run_bind S f (k (S s r).1) (S s r).2

variable {ok : Req → Nat → Prop}

theorem Same.bind {α β α' β' : Type} {R : α → β → Prop} {Q : α' → β' → Prop} {f : α → Prog α'} {g : β → Prog β'} :
    ∀ {p : Prog α} {q : Prog β}, Same ok R p q → (∀ a b, R a b → Same ok Q (f a) (g b)) → Same ok Q (p >>= f) (q >>= g)
  | .ret a, .ret b, h, hk => hk a b h
  | .err, .err, _, _ => trivial
  | .read _ _, .read _ _, ⟨h1, h2⟩, hk => ⟨h1, fun v hv ho => Same.bind (h2 v hv ho) hk⟩
  | .ret _, .err, h, _ => h.elim
  | .ret _, .read _ _, h, _ => h.elim
  | .err, .ret _, h, _ => h.elim
  | .err, .read _ _, h, _ => h.elim
  | .read _ _, .ret _, h, _ => h.elim
  | .read _ _, .err, h, _ => h.elim

theorem Same.mono {α β : Type} {R Q : α → β → Prop} (hRQ : ∀ a b, R a b → Q a b) : ∀ {p : Prog α} {q : Prog β}, Same ok R p q → Same ok Q p q
  | .ret _, .ret _, h => hRQ _ _ h
  | .err, .err, _ => trivial
  | .read _ _, .read _ _, ⟨h1, h2⟩ => ⟨h1, fun v hv ho => Same.mono hRQ (h2 v hv ho)⟩
  | .ret _, .err, h => h.elim
  | .ret _, .read _ _, h => h.elim
  | .err, .ret _, h => h.elim
  | .err, .read _ _, h => h.elim
  | .read _ _, .ret _, h => h.elim
  | .read _ _, .err, h => h.elim

/-- Fewer answers. -/
theorem Same.restrict {α β : Type} {ok' : Req → Nat → Prop} (h : ∀ r v, ok' r v → ok r v) {R : α → β → Prop} : ∀ {p : Prog α} {q : Prog β}, Same ok R p q → Same ok' R p q
  | .ret _, .ret _, h => h
  | .err, .err, _ => trivial
  | .read _ _, .read _ _, ⟨h1, h2⟩ => ⟨h1, fun v hv ho => Same.restrict h (h2 v hv (h _ _ ho))⟩
  | .ret _, .err, h => h.elim
  | .ret _, .read _ _, h => h.elim
  | .err, .ret _, h => h.elim
  | .err, .read _ _, h => h.elim
  | .read _ _, .ret _, h => h.elim
  | .read _ _, .err, h => h.elim

theorem Same.refl {α : Type} {R : α → α → Prop} (hR : ∀ a, R a a) : ∀ p : Prog α, Same ok R p p
  | .ret a => hR a
  | .err => trivial
  | .read _ k => ⟨rfl, fun v _ _ => Same.refl hR (k v)⟩

theorem Same.ret {α β : Type} {R : α → β → Prop} {a : α} {b : β} (h : R a b) : Same ok R (pure a) (pure b) := h

theorem pure_bind' {α β : Type} (a : α) (f : α → Prog β) : (pure a : Prog α) >>= f = f a := rfl

theorem bind_assoc' {α β γ : Type} (f : α → Prog β) (g : β → Prog γ) : ∀ p : Prog α, (p >>= f) >>= g = p >>= fun a => f a >>= g
  | .ret _ => rfl
  | .err => rfl
  | .read r k => by
    show Prog.read r _ = Prog.read r _
    congr 1
    funext v
    exact bind_assoc' f g (k v)

theorem bind_pure' {α : Type} : ∀ p : Prog α, p >>= pure = p
  | .ret _ => rfl
  | .err => rfl
  | .read r k => by
    show Prog.read r _ = Prog.read r _
    congr 1
    funext v
    exact bind_pure' (k v)

/-- Answers are in range. -/
theorem mode_same {f : ModeF} {idx idx' : List Nat} {n : Nat} (h : idx = idx') : Same ok (fun a b => a = b ∧ a ≤ n ∧ ok (.sym (.mode f) idx n) a) (mode f idx n) (mode f idx' n) := by
  subst h; exact ⟨rfl, fun _ hv ho => ⟨rfl, hv, ho⟩⟩
theorem flag_same {f : ModeF} {idx idx' : List Nat} (h : idx = idx') : Same ok Eq (flag f idx) (flag f idx') := by
  subst h; exact Same.refl (fun _ => rfl) _
theorem bit_same : Same ok Eq bit bit := Same.refl (fun _ => rfl) _
theorem bits_same (n : Nat) : Same ok (fun a b => a = b ∧ a < 2 ^ n) (bits n) (bits n) := by
  unfold bits
  split
  · rename_i h; subst h; exact ⟨rfl, by decide⟩
  · exact ⟨rfl, fun v hv _ => ⟨rfl, hv⟩⟩
theorem uniform_same (n : Nat) (h : 0 < n) : Same ok (fun a b => a = b ∧ a < n) (uniform n) (uniform n) :=
  ⟨rfl, fun _ hv _ => ⟨rfl, by have : _ < max n 1 := hv; omega⟩⟩

/-- Both programs decide by the same condition. -/
theorem Same.ite {α β : Type} {R : α → β → Prop} {P Q : Prop} [Decidable P] [Decidable Q] (h : P ↔ Q) {p p' : Prog α} {q q' : Prog β}
    (h1 : P → Same ok R p q) (h2 : ¬P → Same ok R p' q') : Same ok R (if P then p else p') (if Q then q else q') := by
  by_cases hP : P
  · rw [if_pos hP, if_pos (h.1 hP)]; exact h1 hP
  · rw [if_neg hP, if_neg (fun hQ => hP (h.2 hQ))]; exact h2 hP

end Dav1d.Syn
