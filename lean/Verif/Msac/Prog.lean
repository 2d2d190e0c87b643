/-! Programs over a symbol decoder (src/msac.h:61-92), interpreted by the model of the C code and by the
specification. -/
namespace Dav1d

/-- Programs over the symbol decoder: which symbol is read next, and with which CDF, may depend on all
symbols read before. CDFs are kept in a numbered store. -/
inductive SProg (α : Type) : Type where
  | ret (a : α)
  /-- `dav1d_msac_decode_symbol_adapt*` on CDF `id` -/
  | sym (id : Nat) (k : Nat → SProg α)
  /-- `dav1d_msac_decode_bool_adapt` on CDF `id` -/
  | boolAdapt (id : Nat) (k : Nat → SProg α)
  /-- `dav1d_msac_decode_bool` with probability `f` -/
  | bool (f : Nat) (k : Nat → SProg α)
  /-- `dav1d_msac_decode_bool_equi` -/
  | equi (k : Nat → SProg α)

/-- Replace entry `id` of a store. -/
def storeSet {β : Type} (st : Nat → β) (id : Nat) (x : β) : Nat → β := fun j => if j = id then x else st j

namespace SProg

variable {α β : Type}

/-- Sequencing. -/
def bind : SProg α → (α → SProg β) → SProg β
  | ret a, f => f a
  | sym id k, f => sym id (fun v => bind (k v) f)
  | boolAdapt id k, f => boolAdapt id (fun v => bind (k v) f)
  | bool p k, f => bool p (fun v => bind (k v) f)
  | equi k, f => equi (fun v => bind (k v) f)

instance : Monad SProg where
  pure := ret
  bind := bind

end SProg
end Dav1d
