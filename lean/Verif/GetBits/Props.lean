import Verif.GetBits.CodesLemmas
/-!
# Properties C01-C03: header bits, leb128, variable-length codes

A parser is an arbitrary adaptive program `p : Prog α` over the reader calls. `p.runC` runs it with the
64-bit window of src/getbits.c (`none` = out-of-bounds read, failed assertion or undefined shift), `p.run`
runs it on the plain bit list of `Spec.lean`.
-/
namespace Dav1d

/-- C01. For every payload and every adaptive sequence of field reads with widths 1..32, the C reader
never leaves the payload and returns exactly the next bits (zeros past the end); its error flag is set iff
more bits were requested than available (or the parser set it) and the reported position is the number
of bits consumed. -/
theorem C01_reader_exact {α : Type} (p : Prog α) (wf : p.WF) (data : List UInt8) :
    ∃ g, p.runC (GetBits.init data) = some ((p.run (BitSt.init data)).1, g) ∧
      g.error = (p.run (BitSt.init data)).2.err ∧ g.pos = (p.run (BitSt.init data)).2.pos := by
  obtain ⟨g, h1, h2⟩ := Prog.runC_spec p wf (rel_init data)
  exact ⟨g, h1, h2.err.symm, pos_spec h2⟩

/-- The programs that read a list of field widths one after the other. -/
def readFields : List Nat → Prog (List Nat)
  | [] => Prog.ret []
  | n :: ns => do
    let v ← Prog.getBits n
    let vs ← readFields ns
    Prog.ret (v :: vs)

/-- Cut a zero-extended bit string into fields. -/
def cutFields : List Nat → List Bool → List Nat
  | [], _ => []
  | n :: ns, l => bitsVal ((l ++ List.replicate n false).take n) :: cutFields ns (l.drop n)

theorem readFields_run (ns : List Nat) : ∀ s : BitSt,
    ((readFields ns).run s).1 = cutFields ns s.rem ∧
    ((readFields ns).run s).2.err = (s.err || decide (s.rem.length < ns.sum)) := by
  induction ns with
  | nil => intro s; simp [readFields, cutFields]
  | cons n ns ih =>
    intro s
    have e : ((Prog.getBits n).run s) = (bitsVal (s.peek n), s.advance n) := rfl
    simp only [readFields, Prog.run_bind, e, Prog.run_ret, cutFields]
    obtain ⟨h1, h2⟩ := ih (s.advance n)
    rw [h1, h2]
    refine ⟨rfl, ?_⟩
    have hb : (decide (s.rem.length < n) || decide ((s.rem.drop n).length < ns.sum))
        = decide (s.rem.length < (n :: ns).sum) := by
      rw [← Bool.decide_or, decide_eq_decide]
      simp only [List.length_drop, List.sum_cons]
      omega
    simp only [BitSt.advance, Bool.or_assoc]
    rw [← hb]; rfl

/-- C01, fixed field list: the C reader cuts the payload into consecutive big-endian fields; the error
flag says whether the fields are longer than the payload. -/
theorem C01_fields (ns : List Nat) (h : ∀ n ∈ ns, 1 ≤ n ∧ n ≤ 32) (data : List UInt8) :
    ∃ g, (readFields ns).runC (GetBits.init data) = some (cutFields ns (bytesBits data), g) ∧
      (g.error = true ↔ 8 * data.length < ns.sum) := by
  have wf : ∀ ns : List Nat, (∀ n ∈ ns, 1 ≤ n ∧ n ≤ 32) → (readFields ns).WF := by
    intro ns
    induction ns with
    | nil => intro _; trivial
    | cons n ns ih =>
      intro h
      have hn := h n (by simp)
      exact Prog.wf_bind (Prog.wf_getBits hn.1 hn.2)
        (fun _ => Prog.wf_bind (ih (fun m hm => h m (by simp [hm]))) (fun _ => trivial))
  obtain ⟨g, h1, h2, _⟩ := C01_reader_exact (readFields ns) (wf ns h) data
  obtain ⟨e1, e2⟩ := readFields_run ns (BitSt.init data)
  refine ⟨g, by rw [h1, e1]; rfl, ?_⟩
  rw [h2, e2]
  simp [BitSt.init]

example : ((readFields [3, 13, 32]).runC (GetBits.init [0xA5, 0x0F, 1, 2])).map
    (fun r => (r.1, r.2.error)) = some ([5, 0x50F, 0x01020000], true) := by decide +kernel

/-- C01, reading inside the payload: a signed `n`-bit field is the two's complement value. -/
theorem C01_signed (n : Nat) (h0 : 1 ≤ n) (h32 : n ≤ 32) (data : List UInt8) :
    ∃ g, (Prog.getSBits n).runC (GetBits.init data)
      = some (bitsSVal ((bytesBits data ++ List.replicate n false).take n), g) := by
  obtain ⟨g, h1, _⟩ := C01_reader_exact (Prog.getSBits n) (Prog.wf_getSBits h0 h32) data
  exact ⟨g, h1⟩

example : ((Prog.getSBits 7).runC (GetBits.init [0xFF, 0])).map (·.1) = some (-1) := by decide +kernel

/-- C01: after byte alignment the reader is at the next byte boundary of the payload. -/
theorem C01_align (n : Nat) (h0 : 1 ≤ n) (h32 : n ≤ 32) (data : List UInt8) (hn : n ≤ 8 * data.length) :
    ∃ g, (do let _ ← Prog.getBits n; Prog.byteAlign : Prog Unit).runC (GetBits.init data)
      = some ((), g) ∧ g.pos = 8 * ((n + 7) / 8) := by
  obtain ⟨g, h1, _, h2⟩ := C01_reader_exact (do let _ ← Prog.getBits n; Prog.byteAlign : Prog Unit)
    (Prog.wf_bind (Prog.wf_getBits h0 h32) (fun _ => trivial)) data
  refine ⟨g, h1, h2.trans ?_⟩
  simp only [Prog.run_bind]
  have e : ((Prog.getBits n).run (BitSt.init data)) = (bitsVal ((BitSt.init data).peek n), (BitSt.init data).advance n) := rfl
  rw [e]
  simp only [Prog.byteAlign, Prog.run, BitSt.align, BitSt.advance, BitSt.init, BitSt.pos,
    List.length_drop, bytesBits_length]
  omega

example : ((do let _ ← Prog.getBits 11; Prog.byteAlign : Prog Unit).runC
    (GetBits.init [1, 2, 3])).map (·.2.pos) = some 16 := by decide +kernel

/-- C02, acceptance: every leb128 encoding in `k ≤ 8` bytes (minimal or padded) of a 32-bit value is
decoded to that value, whatever follows it, consuming exactly `k` bytes and raising no error. -/
theorem C02_leb128_roundtrip (k v : Nat) (hk : 1 ≤ k) (hk8 : k ≤ 8) (hfit : v < 2 ^ (7 * k))
    (h32 : v < 2 ^ 32) (rest : List UInt8) :
    ∃ g, Prog.getUleb128.runC (GetBits.init (lebBytes k v ++ rest)) = some (v, g) ∧
      g.error = false ∧ g.pos = 8 * k := by
  obtain ⟨g, h1, h2, h3⟩ := C01_reader_exact _ Prog.wf_getUleb128 (lebBytes k v ++ rest)
  have hr := Prog.reads_getUleb128 hk hk8 hfit h32 (BitSt.init (lebBytes k v ++ rest)) (bytesBits rest)
    (by simp [BitSt.init, bytesBits_append])
  rw [hr] at h1 h2 h3
  refine ⟨g, h1, h2, ?_⟩
  rw [h3]
  have hl : ∀ k v, (lebBytes k v).length = k := by
    intro k
    induction k with
    | zero => intro v; rfl
    | succ k ih => intro v; rcases k with _ | k
                   · rfl
                   · simp [lebBytes, ih]
  simp [BitSt.pos, BitSt.init, hl]
  omega

example : (Prog.getUleb128.runC (GetBits.init (lebBytes 3 300 ++ [7]))).map (·.1) = some 300 := by
  decide +kernel

/-- C02, rejection: whenever no error is raised, the buffer does start with a leb128 encoding in at most
8 bytes of a 32-bit value, and this value is returned. So over-long, too large and truncated fields are
rejected. -/
theorem C02_leb128_sound (data : List UInt8) :
    ∃ v g, Prog.getUleb128.runC (GetBits.init data) = some (v, g) ∧
      (g.error = false → ∃ k, 1 ≤ k ∧ k ≤ 8 ∧ v < 2 ^ 32 ∧ v < 2 ^ (7 * k) ∧ lebBytes k v <+: data) := by
  obtain ⟨g, h1, h2, _⟩ := C01_reader_exact _ Prog.wf_getUleb128 data
  refine ⟨_, g, h1, fun he => ?_⟩
  obtain ⟨k, v, a, b, c, d, e, f⟩ := Prog.getUleb128_sound (BitSt.init data) data rfl (by rw [← h2, he])
  exact ⟨k, a, b, by rw [f]; exact c, by rw [f]; exact d, by rw [f]; exact e⟩

-- both outcomes occur: a value of 2^32 is rejected, an unterminated field is rejected
example : (Prog.getUleb128.runC (GetBits.init [0x80, 0x80, 0x80, 0x80, 0x10])).map (·.2.error) = some true := by
  decide +kernel
example : (Prog.getUleb128.runC (GetBits.init [0xFF, 0xFF])).map (·.2.error) = some true := by
  decide +kernel

/-- Running a program on a payload whose bits start with `w`: value, and number of bits consumed. -/
theorem C_runC_of_reads {α : Type} {p : Prog α} {a : α} {w : List Bool} (wf : p.WF) (h : Prog.Reads p a w)
    (data : List UInt8) (rest : List Bool) (hd : bytesBits data = w ++ rest) :
    ∃ g, p.runC (GetBits.init data) = some (a, g) ∧ g.error = false ∧ g.pos = w.length := by
  obtain ⟨g, h1, h2, h3⟩ := C01_reader_exact _ wf data
  have hr := h (BitSt.init data) rest hd
  rw [hr] at h1 h2 h3
  refine ⟨g, h1, h2, ?_⟩
  rw [h3]
  have := congrArg List.length hd
  simp only [bytesBits_length, List.length_append] at this
  simp only [BitSt.pos, BitSt.init]
  omega

/-- C03, ns(n): decoding the bits of `v < n` gives `v` and stops right after them. -/
theorem C03_ns_roundtrip (n v : Nat) (hn : 1 < n) (hn31 : n < 2 ^ 31) (hv : v < n)
    (data : List UInt8) (rest : List Bool) (hd : bytesBits data = nsBits n v ++ rest) :
    ∃ g, (Prog.getUniform n).runC (GetBits.init data) = some (v, g) ∧ g.error = false ∧
      g.pos = (nsBits n v).length :=
  C_runC_of_reads (Prog.wf_getUniform hn (by omega)) (Prog.reads_getUniform hn hv) data rest hd

example : bytesBits [0xC0] = nsBits 5 3 ++ [false, false, false, false, false] := by decide

/-- C03, ns(n): on any payload the value is below `n`. -/
theorem C03_ns_range (n : Nat) (hn : 1 < n) (hn31 : n < 2 ^ 31) (data : List UInt8) :
    ∃ v g, (Prog.getUniform n).runC (GetBits.init data) = some (v, g) ∧ v < n := by
  obtain ⟨g, h1, _⟩ := C01_reader_exact _ (Prog.wf_getUniform hn (by omega)) data
  exact ⟨_, g, h1, Prog.getUniform_lt hn _⟩

/-- C03, uvlc(): every value below 2^32 - 1 round-trips. -/
theorem C03_uvlc_roundtrip (v : Nat) (hv : v < 2 ^ 32 - 1)
    (data : List UInt8) (rest : List Bool) (hd : bytesBits data = uvlcBits v ++ rest) :
    ∃ g, Prog.getVlc.runC (GetBits.init data) = some (v, g) ∧ g.error = false ∧
      g.pos = (uvlcBits v).length :=
  C_runC_of_reads Prog.wf_getVlc (Prog.reads_getVlc hv) data rest hd

example : bytesBits [0x28] = uvlcBits 4 ++ [false, false, false] := by decide

/-- C03, signed sub-exponential code with reference (global motion parameters): every value in
`[-2^n, 2^n]` round-trips for every reference in that range. -/
theorem C03_subexp_roundtrip (n : Nat) (hn : n < 30) (ref x : Int) (hr : -2 ^ n ≤ ref ∧ ref ≤ 2 ^ n)
    (hx : -2 ^ n ≤ x ∧ x ≤ 2 ^ n) (data : List UInt8) (rest : List Bool)
    (hd : bytesBits data = signedSubexpBits (-2 ^ n) (2 ^ n + 1) ref x ++ rest) :
    ∃ g, (Prog.getSubexp ref n).runC (GetBits.init data) = some (x, g) ∧ g.error = false ∧
      g.pos = (signedSubexpBits (-2 ^ n) (2 ^ n + 1) ref x).length := by
  refine C_runC_of_reads (Prog.wf_getSubexp ref hn) ?_ data rest hd
  have hp : (0 : Int) < 2 ^ n := by positivity
  have e2 : ((2 ^ n : Nat) : Int) = (2 : Int) ^ n := by norm_cast
  unfold Prog.getSubexp signedSubexpBits
  have h1 : ((2 : Int) ^ n + 1 - -2 ^ n).toNat = 2 * 2 ^ n + 1 := by omega
  have h2 : (ref - -2 ^ n).toNat = (ref + 2 ^ n).toNat := by omega
  rw [h1, h2, ← List.append_nil (subexpRefBits _ _ _)]
  refine (Prog.reads_getSubexpU (by omega) (by omega) (by omega) (by omega)).bind ?_
  have : (((x - -2 ^ n).toNat : Nat) : Int) - 2 ^ n = x := by omega
  rw [this]
  exact Prog.Reads.ret _

example : bytesBits [0x30] = signedSubexpBits (-2 ^ 3) (2 ^ 3 + 1) 2 4 ++ [false, false, false, false] := by decide

/-- C03, signed sub-exponential code: on any payload the value is in `[-2^n, 2^n]` (the
reference has to be in that range, else the unsigned C subtraction `n - ref` would wrap). -/
theorem C03_subexp_range (n : Nat) (hn : n < 30) (ref : Int) (_hr : -2 ^ n ≤ ref ∧ ref ≤ 2 ^ n)
    (data : List UInt8) :
    ∃ v g, (Prog.getSubexp ref n).runC (GetBits.init data) = some (v, g) ∧ -2 ^ n ≤ v ∧ v ≤ 2 ^ n := by
  obtain ⟨g, h1, _⟩ := C01_reader_exact _ (Prog.wf_getSubexp ref hn) data
  refine ⟨_, g, h1, ?_⟩
  unfold Prog.getSubexp
  rw [Prog.run_bind]
  have hp : (0 : Int) < 2 ^ n := by positivity
  have e2 : ((2 ^ n : Nat) : Int) = (2 : Int) ^ n := by norm_cast
  have := Prog.getSubexpU_le (n := 2 * 2 ^ n) (ref := (ref + 2 ^ n).toNat) (by omega) (BitSt.init data)
  simp only [Prog.run_ret]
  omega

end Dav1d
