import Verif.Syn.CdmModel
/-!
# cdef_idx and Skips, sections 5.11.4 to 5.11.5 and 5.11.56 of the AV1 specification (from memory)

For frames with enable_cdef, without CodedLossless and allow_intrabc.
-/
namespace Dav1d.Cdm.Av1
open Dav1d.Cdm (Blk)

structure State where
  cdef_idx : Nat → Nat → Int
  Skips : Nat → Nat → Bool

/-- clear_cdef( r, c ). -/
def clear_cdef (use_128x128_superblock : Bool) (r c : Nat) (s : State) : State :=
  { s with cdef_idx := fun y x => if (y = r ∨ use_128x128_superblock = true ∧ y = r + 16) ∧ (x = c ∨ use_128x128_superblock = true ∧ x = c + 16) then -1 else s.cdef_idx y x }

/-- read_cdef( ): `b.v` is L( cdef_bits ); the loops over y and x have steps of 16. -/
def read_cdef (b : Blk) (s : State) : State :=
  let r := b.y / 16 * 16
  let c := b.x / 16 * 16
  if b.skip then s
  else if s.cdef_idx r c = -1 then
    { s with cdef_idx := fun y x => if (r ≤ y ∧ y < r + b.h ∧ (y - r) % 16 = 0) ∧ c ≤ x ∧ x < c + b.w ∧ (x - c) % 16 = 0 then b.v else s.cdef_idx y x }
  else s

/-- The unit of 4x4 at `r`, `c` is in the block. -/
def covers (b : Blk) (r c : Nat) : Prop := b.y ≤ r ∧ r < b.y + b.h ∧ b.x ≤ c ∧ c < b.x + b.w

/-- decode_block( ): the index, and the flag for all units of the block. -/
def decode_block (b : Blk) (s : State) : State :=
  { read_cdef b s with Skips := fun r c => if b.y ≤ r ∧ r < b.y + b.h ∧ b.x ≤ c ∧ c < b.x + b.w then b.skip else s.Skips r c }

instance (b : Blk) (r c : Nat) : Decidable (covers b r c) := inferInstanceAs (Decidable (_ ∧ _))

end Dav1d.Cdm.Av1
