import Verif.Obu.SeqParseModel
/-!
# What dav1d_parse_sequence_header has to do

Byte-level description of the OBU structure (AV1 specification sections 5.3.1-5.3.3) that does not
mention the bit reader.
-/
namespace Dav1d

/-- leb128() of at most `n` bytes at the front of a byte string: value and rest. -/
def lebSplit : Nat → List UInt8 → Option (Nat × List UInt8)
  | 0, _ => none
  | _ + 1, [] => none
  | n + 1, b :: d =>
    if b.toNat < 128 then some (b.toNat, d)
    else (lebSplit n d).map (fun p => (b.toNat - 128 + 128 * p.1, p.2))

/-- An OBU: its type and its payload. -/
structure Obu where
  type : Nat
  payload : List UInt8
  deriving DecidableEq, Repr

/-- `obu_type`, `obu_extension_flag`, `obu_has_size_field` of the first header byte. -/
def obuType (h : UInt8) : Nat := h.toNat / 8 % 16
def obuExt (h : UInt8) : Bool := h.toNat / 4 % 2 = 1
def obuHasSize (h : UInt8) : Bool := h.toNat / 2 % 2 = 1

/-- The size field and what it delimits: payload and rest. The size is at most 8 bytes, below 2^32 and
within the buffer. -/
def sizedSplit (d : List UInt8) : Option (List UInt8 × List UInt8) :=
  match lebSplit 8 d with
  | none => none
  | some (len, d) => if len < 2 ^ 32 ∧ len ≤ d.length then some (d.take len, d.drop len) else none

/-- Split the first OBU off a byte string; `none` if it is malformed. Without a size field the OBU
extends to the end. -/
def splitObu (data : List UInt8) : Option (Obu × List UInt8) :=
  match data with
  | [] => none
  | h :: d =>
    if obuExt h && d.isEmpty then none
    else
      let d := if obuExt h then d.tail else d
      if obuHasSize h then (sizedSplit d).map (fun p => (⟨obuType h, p.1⟩, p.2))
      else some (⟨obuType h, d⟩, [])

theorem lebSplit_length {n : Nat} : ∀ {d : List UInt8} {v r}, lebSplit n d = some (v, r) → r.length < d.length := by
  induction n with
  | zero => intro d v r h; simp [lebSplit] at h
  | succ n ih =>
    intro d v r h
    cases d with
    | nil => simp [lebSplit] at h
    | cons b d =>
      unfold lebSplit at h
      split at h
      · simp only [Option.some.injEq, Prod.mk.injEq] at h; rw [← h.2]; simp
      · rw [Option.map_eq_some_iff] at h
        obtain ⟨⟨v', r'⟩, h1, h2⟩ := h
        simp only [Prod.mk.injEq] at h2
        have := ih h1
        rw [← h2.2]; simp; omega

theorem splitObu_length {data o rest} (h : splitObu data = some (o, rest)) : rest.length < data.length := by
  unfold splitObu at h
  cases data with
  | nil => simp at h
  | cons b d =>
    simp only at h
    split at h
    · simp at h
    · split at h
      · rw [Option.map_eq_some_iff] at h
        obtain ⟨⟨p, r⟩, h1, h2⟩ := h
        simp only [Prod.mk.injEq] at h2
        unfold sizedSplit at h1
        split at h1
        · simp at h1
        · rename_i len d' hl
          have hl := lebSplit_length hl
          split at h1
          · simp only [Option.some.injEq, Prod.mk.injEq] at h1
            rw [← h2.2, ← h1.2]
            have : (if obuExt b = true then d.tail else d).length ≤ d.length := by split <;> simp
            simp; omega
          · simp at h1
      · simp only [Option.some.injEq, Prod.mk.injEq] at h
        rw [← h.2]; simp

/-- The OBUs of a byte string, `none` if it does not split into well formed OBUs. -/
def splitObus (data : List UInt8) : Option (List Obu) :=
  if data = [] then some []
  else match _h : splitObu data with
    | none => none
    | some (o, rest) => (splitObus rest).map (o :: ·)
termination_by data.length
decreasing_by exact splitObu_length _h

/-- The result of parsing one sequence header OBU on its own payload: the fields, or `none` if the
syntax is violated or the payload is too short. -/
def seqHdrOf (payload : List UInt8) : Option SeqHdr :=
  match (parseSeqHdr false).exec (BitSt.init payload) with
  | (some h, s) => if s.err then none else some h
  | (none, _) => none

/-- The sequence header OBUs (type 1) among a list of OBUs. -/
def seqHdrObus (os : List Obu) : List Obu := os.filter (fun o => o.type = 1)

end Dav1d
