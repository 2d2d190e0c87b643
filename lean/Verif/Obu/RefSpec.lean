import Verif.Obu.FrameModel
/-!
# Reference signalling, stated from the AV1 specification

Independent of the loops of src/obu.c: a reference is described by what it is best at.
-/
namespace Dav1d

/-- get_relative_dist of the specification (5.9.3): the representative of `a - b` modulo `2 ^ n` in
`[-2^(n-1), 2^(n-1))`. -/
def relDist (n : Nat) (a b : Int) : Int := (a - b + 2 ^ (n - 1)) % 2 ^ n - 2 ^ (n - 1)

/-- `i` is the slot with the greatest hint among the candidates, the last one of those. -/
def IsLatest (hint : Nat → Int) (cand : Nat → Prop) (i : Nat) : Prop :=
  i < 8 ∧ cand i ∧ ∀ j, j < 8 → cand j → hint j < hint i ∨ (hint j = hint i ∧ j ≤ i)

/-- `i` is the slot with the least hint among the candidates, the first one of those. -/
def IsEarliest (hint : Nat → Int) (cand : Nat → Prop) (i : Nat) : Prop :=
  i < 8 ∧ cand i ∧ ∀ j, j < 8 → cand j → hint i < hint j ∨ (hint j = hint i ∧ i ≤ j)

/-- A partial assignment of slots to the seven references LAST, LAST2, LAST3, GOLDEN, BWDREF, ALTREF2,
ALTREF (numbered 0..6). -/
abbrev RefAssign := Nat → Option Nat

/-- A slot is used when it is already assigned to a reference. -/
def RefAssign.Used (a : RefAssign) (j : Nat) : Prop := ∃ k, a k = some j

/-- Fill reference `k`, unless it already has a slot, with the best unused slot in direction `dir`;
it stays empty when there is no such slot. -/
def Fill (best : (Nat → Prop) → Nat → Prop) (dir : Nat → Prop) (k : Nat) (a a' : RefAssign) : Prop :=
  (∀ k', k' ≠ k → a' k' = a k') ∧
  ((a k ≠ none ∧ a' k = a k) ∨
   (a k = none ∧ ∃ i, best (fun j => ¬ a.Used j ∧ dir j) i ∧ a' k = some i) ∨
   (a k = none ∧ (∀ j, j < 8 → ¬ (¬ a.Used j ∧ dir j)) ∧ a' k = none))

/-- set_frame_refs, AV1 specification 7.8. `hint` are the shifted order hints of the eight slots, `cur` that
of the current frame, `r` the resulting seven indices. -/
def SetFrameRefs (hint : Nat → Int) (cur : Int) (last gold : Nat) (r : Nat → Nat) : Prop :=
  ∃ a0 a1 a2 a3 a4 a5 a6 a7 a8 : RefAssign, ∃ e : Nat,
    a0 = (fun k => if k = 0 then some last else if k = 3 then some gold else none) ∧
    -- ALTREF is the latest backward reference
    Fill (IsLatest hint) (fun j => cur ≤ hint j) 6 a0 a1 ∧
    -- BWDREF is the closest backward reference, ALTREF2 the next closest
    Fill (IsEarliest hint) (fun j => cur ≤ hint j) 4 a1 a2 ∧
    Fill (IsEarliest hint) (fun j => cur ≤ hint j) 5 a2 a3 ∧
    -- the remaining references are forward references, closest first
    Fill (IsLatest hint) (fun j => hint j < cur) 1 a3 a4 ∧
    Fill (IsLatest hint) (fun j => hint j < cur) 2 a4 a5 ∧
    Fill (IsLatest hint) (fun j => hint j < cur) 4 a5 a6 ∧
    Fill (IsLatest hint) (fun j => hint j < cur) 5 a6 a7 ∧
    Fill (IsLatest hint) (fun j => hint j < cur) 6 a7 a8 ∧
    -- anything left is the earliest reference of all
    IsEarliest hint (fun _ => True) e ∧
    ∀ k, k < 7 → r k = (a8 k).getD e

/-- The nearest element of `{i < 7 | cand i}` by `d`: greatest `d`, the first one of those. -/
def IsFirstMax (d : Nat → Int) (cand : Nat → Prop) (i : Nat) : Prop :=
  i < 7 ∧ cand i ∧ ∀ j, j < 7 → cand j → d j < d i ∨ (d j = d i ∧ i ≤ j)

/-- skip_mode_params, AV1 specification 5.9.22, for order hints `ref i` of the seven references and `cur` of the
current frame: `i` is the closest past reference and `j` is the closest future reference; or, without a
future reference, `j` is the closest of the references before reference `i`. -/
def IsSkipPair (n : Nat) (cur : Int) (ref : Nat → Int) (i j : Nat) : Prop :=
  IsFirstMax (fun k => relDist n (ref k) cur) (fun k => relDist n (ref k) cur < 0) i ∧
  (IsFirstMax (fun k => -relDist n (ref k) cur) (fun k => 0 < relDist n (ref k) cur) j ∨
   ((∀ k, k < 7 → ¬ 0 < relDist n (ref k) cur) ∧
     IsFirstMax (fun k => relDist n (ref k) (ref i)) (fun k => relDist n (ref k) (ref i) < 0) j))

end Dav1d
