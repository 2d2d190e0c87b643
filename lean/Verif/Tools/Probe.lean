import Verif.Tools.InputLemmas
import Mathlib.Tactic.SplitIfs

/-
The probes of the demuxers (tools/input/annexb.c:48-120, tools/input/section5.c:46-83) and the
helpers of tools/input/parse.h that work on a buffer.

The buffer holds `PROBE_SIZE` = 2048 bytes.  `none` is undefined behaviour: a read outside the buffer
or an overflow of `int`.
-/

namespace Dav1d.Input.Probe

/-- `PROBE_SIZE` (annexb.c:46, section5.c:44). -/
def size : Int := 2048

/-- A byte of the buffer. -/
def rd (d : List UInt8) (i : Int) : Option UInt8 := if 0 ≤ i then d[i.toNat]? else none

/-- The conversion of a number of 32 bits to `int`. -/
def toInt (v : Nat) : Int := if v < 2 ^ 31 then (v : Int) else (v : Int) - 2 ^ 32

/-- A value of type `int`, or an overflow. -/
def int (v : Int) : Option Int := if -2 ^ 31 ≤ v ∧ v < 2 ^ 31 then some v else none

/-- The loop of `leb` (parse.h:56-70) after `i` bytes; `fuel` is `8 - i`. -/
def lebLoop (d : List UInt8) : (fuel : Nat) → (i val : Nat) → (ptr sz : Int) → Option (Option (Nat × Nat))
  | 0, _, _, _, _ => some none
  | fuel + 1, i, val, ptr, sz =>
    if sz = 0 then some none
    else
      match rd d ptr with
      | none => none
      | some v =>
        let val := val ||| ((v.toNat &&& 0x7F) <<< (i * 7))
        if v.toNat &&& 0x80 = 0 then
          if val > 0xFFFFFFFF then some none else some (some (i + 1, val))
        else lebLoop d fuel (i + 1) val (ptr + 1) (sz - 1)

/-- `leb` (parse.h:56-70): the number of bytes and the value; the inner `none` is the result -1. -/
def leb (d : List UInt8) (ptr sz : Int) : Option (Option (Nat × Nat)) := lebLoop d 8 0 0 ptr sz

/-- What `parse_obu_header` returns. -/
structure Hdr where
  ret : Int
  size : Nat
  type : Nat

/-- `parse_obu_header` (parse.h:72-109); the inner `none` is a negative result. -/
def parseObuHeader (d : List UInt8) (ptr sz : Int) (implicit : Bool) : Option (Option Hdr) :=
  if sz = 0 then some none
  else
    match rd d ptr with
    | none => none
    | some b =>
      if b.toNat &&& 0x80 ≠ 0 then some none
      else
        let type := (b.toNat &&& 0x78) >>> 3
        let ext := (b.toNat &&& 4) >>> 2
        if ext ≠ 0 ∧ sz - 1 = 0 then some none
        else
          let ptr := ptr + 1 + ext
          let sz := sz - 1 - ext
          if b.toNat &&& 2 ≠ 0 then
            match leb d ptr sz with
            | none => none
            | some none => some none
            | some (some (n, v)) =>
              match int (toInt v + n + 1 + ext) with
              | none => none
              | some ret => if ret < 0 then some none else some (some ⟨ret, v, type⟩)
          else if implicit then
            if sz + 1 + ext < 0 then some none else some (some ⟨sz + 1 + ext, (sz % 2 ^ 64).toNat, type⟩)
          else some none

/-- The loop of `section5_probe` (section5.c:60-80).  Every turn advances by at least one byte, so a
`fuel` of 2048 is enough. -/
def s5Loop (d : List UInt8) : (fuel : Nat) → (cnt : Int) → (seq : Bool) → Option Bool
  | 0, _, seq => some seq
  | fuel + 1, cnt, seq =>
    if cnt < size then
      match parseObuHeader d cnt (size - cnt) false with
      | none => none
      | some none => some false
      | some (some h) =>
        match int (cnt + h.ret) with
        | none => none
        | some cnt =>
          if h.type = 1 then s5Loop d fuel cnt true
          else if h.type = 6 ∨ h.type = 3 then some seq
          else if h.type = 2 ∨ h.type = 4 then some false
          else s5Loop d fuel cnt seq
    else some seq

/-- `section5_probe` (section5.c:46-83). -/
def section5 (d : List UInt8) : Option Bool :=
  match parseObuHeader d 0 size false with
  | none => none
  | some none => some false
  | some (some h) =>
    if h.type ≠ 2 ∨ h.size > 0 then some false
    else s5Loop d 2048 h.ret false

/-- The loop of `annexb_probe` (annexb.c:85-117), without `temporal_unit_size`, which is not used.
`frame_unit_size` shrinks in every turn; a turn either advances, or takes at least `2 ^ 31` from
`frame_unit_size` (which has 32 bits), so a `fuel` of 8192 is enough. -/
def abLoop (d : List UInt8) : (fuel : Nat) → (cnt : Int) → (fu : Nat) → (seq : Bool) → Option Bool
  | 0, _, _, seq => some seq
  | fuel + 1, cnt, fu, seq =>
    if cnt < size then
      match leb d cnt (size - cnt) with
      | none => none
      | some none => some false
      | some (some (n, v)) =>
        if v + n > fu then some false
        else
          let cnt := cnt + n
          match parseObuHeader d cnt (min (size - cnt) (toInt v)) true with
          | none => none
          | some none => some false
          | some (some h) =>
            match int (cnt + toInt v) with
            | none => none
            | some cnt =>
              if h.type = 6 ∨ h.type = 3 then some seq
              else if h.type = 2 ∨ h.type = 4 then some false
              else
                let seq := if h.type = 1 then true else seq
                if fu - n - v = 0 then some false
                else abLoop d fuel cnt (fu - n - v) seq
    else some seq

/-- `annexb_probe` (annexb.c:48-120). -/
def annexb (d : List UInt8) : Option Bool :=
  match leb d 0 size with
  | none => none
  | some none => some false
  | some (some (n1, tu)) =>
    match leb d n1 (size - n1) with
    | none => none
    | some none => some false
    | some (some (n2, fu)) =>
      if fu + n2 > tu then some false
      else
        match leb d (n1 + n2) (size - (n1 + n2)) with
        | none => none
        | some none => some false
        | some (some (n3, v)) =>
          if v + n3 ≥ fu then some false
          else
            let cnt : Int := n1 + n2 + n3
            match parseObuHeader d cnt (min (size - cnt) (toInt v)) true with
            | none => none
            | some none => some false
            | some (some h) =>
              if h.type ≠ 2 ∨ h.size > 0 then some false
              else
                match int (cnt + toInt v) with
                | none => none
                | some cnt => abLoop d 8192 cnt (fu - (v + n3)) false

/-! ### No undefined behaviour, as long as no number is huge -/

/-- Four bytes in a row with the top bit set: without them there is no leb128 number of `2 ^ 28` or
more. -/
def LongRun (d : List UInt8) : Prop :=
  ∃ i : Nat, ∀ j, j < 4 → ∃ b, d[i + j]? = some b ∧ 128 ≤ b.toNat

theorem rd_in {d : List UInt8} (hd : d.length = 2048) {i : Int} (h0 : 0 ≤ i) (h1 : i < 2048) :
    ∃ b, rd d i = some b ∧ d[i.toNat]? = some b := by
  unfold rd
  rw [if_pos h0]
  have : i.toNat < d.length := by omega
  exact ⟨d[i.toNat], List.getElem?_eq_getElem this, List.getElem?_eq_getElem this⟩

theorem lebLoop_safe {d : List UInt8} (hd : d.length = 2048) (hr : ¬ LongRun d) (p0 : Nat) :
    ∀ (fuel i val : Nat) (ptr sz : Int), ptr = p0 + i → 0 ≤ sz → ptr + sz ≤ 2048 →
    (∀ j, j < i → ∃ b, d[p0 + j]? = some b ∧ 128 ≤ b.toNat) → val < 2 ^ (7 * i) →
    ∃ r, lebLoop d fuel i val ptr sz = some r ∧
      ∀ n v, r = some (n, v) → i + 1 ≤ n ∧ (n : Int) ≤ i + sz ∧ n ≤ 4 ∧ v < 2 ^ 28
  | 0, i, val, ptr, sz, _, _, _, _, _ => ⟨none, rfl, by simp⟩
  | fuel + 1, i, val, ptr, sz, hp, h0, h1, hb, hv => by
    rw [lebLoop]
    by_cases hz : sz = 0
    · rw [if_pos hz]; exact ⟨none, rfl, by simp⟩
    · rw [if_neg hz]
      have hi : i < 4 := Nat.lt_of_not_le fun hc => hr ⟨p0, fun j hj => hb j (by omega)⟩
      obtain ⟨b, e1, e2⟩ := rd_in hd (i := ptr) (by omega) (by omega)
      rw [e1]
      simp only [and127, or_shift hv]
      have hlt := step_lt b hv
      by_cases hc : b.toNat < 128
      · simp only [(and128 b).2 hc, if_true]
        split_ifs
        · exact ⟨none, rfl, by simp⟩
        · refine ⟨_, rfl, ?_⟩
          intro n v h
          simp only [Option.some.injEq, Prod.mk.injEq] at h
          obtain ⟨rfl, rfl⟩ := h
          refine ⟨by omega, by omega, by omega, ?_⟩
          have : 2 ^ (7 * (i + 1)) ≤ 2 ^ 28 := Nat.pow_le_pow_right (by omega) (by omega)
          omega
      · have hn : ¬ (b.toNat &&& 0x80 = 0) := fun hh => hc ((and128 b).1 hh)
        simp only [hn, if_false]
        obtain ⟨r, r1, r2⟩ := lebLoop_safe hd hr p0 fuel (i + 1)
          (val + 2 ^ (7 * i) * (b.toNat % 128)) (ptr + 1) (sz - 1) (by omega) (by omega) (by omega)
          (fun j hj => by
            by_cases hji : j < i
            · exact hb j hji
            · have : p0 + j = ptr.toNat := by omega
              exact ⟨b, by rw [this]; exact e2, by omega⟩) hlt
        refine ⟨r, r1, fun n v h => ?_⟩
        have := r2 n v h
        omega

theorem leb_safe {d : List UInt8} (hd : d.length = 2048) (hr : ¬ LongRun d) {ptr sz : Int}
    (h0 : 0 ≤ ptr) (h1 : 0 ≤ sz) (h2 : ptr + sz ≤ 2048) :
    ∃ r, leb d ptr sz = some r ∧
      ∀ n v, r = some (n, v) → 1 ≤ n ∧ (n : Int) ≤ sz ∧ n ≤ 4 ∧ v < 2 ^ 28 := by
  obtain ⟨p, rfl⟩ : ∃ p : Nat, ptr = p := ⟨ptr.toNat, by omega⟩
  obtain ⟨r, r1, r2⟩ := lebLoop_safe hd hr p 8 0 0 p sz (by simp) h1 h2 (by simp) (by simp)
  exact ⟨r, r1, fun n v h => by have := r2 n v h; simpa using this⟩

theorem ext_cases (b : UInt8) : (b.toNat &&& 4) >>> 2 = 0 ∨ (b.toNat &&& 4) >>> 2 = 1 := by
  have : ∀ n ∈ List.range 256, (n &&& 4) >>> 2 = 0 ∨ (n &&& 4) >>> 2 = 1 := by decide +kernel
  exact this _ (List.mem_range.2 b.toNat_lt)

theorem int_ok {v : Int} (h0 : -2 ^ 31 ≤ v) (h1 : v < 2 ^ 31) : int v = some v := if_pos ⟨h0, h1⟩

theorem parse_safe {d : List UInt8} (hd : d.length = 2048) (hr : ¬ LongRun d) {ptr sz : Int}
    {imp : Bool} (h0 : 0 ≤ ptr) (h1 : 0 ≤ sz) (h2 : ptr + sz ≤ 2048) :
    ∃ r, parseObuHeader d ptr sz imp = some r ∧
      ∀ h, r = some h → 0 ≤ h.ret ∧ h.ret < 2 ^ 28 + 4096 := by
  unfold parseObuHeader
  by_cases hz : sz = 0
  · rw [if_pos hz]; exact ⟨none, rfl, by simp⟩
  · rw [if_neg hz]
    obtain ⟨b, e1, -⟩ := rd_in hd (i := ptr) h0 (by omega)
    rw [e1]
    dsimp only
    by_cases hf : b.toNat &&& 0x80 ≠ 0
    · rw [if_pos hf]; exact ⟨none, rfl, by simp⟩
    · rw [if_neg hf]
      generalize hx : (b.toNat &&& 4) >>> 2 = ext
      have hext : ext = 0 ∨ ext = 1 := by rw [← hx]; exact ext_cases b
      by_cases hs : ext ≠ 0 ∧ sz - 1 = 0
      · rw [if_pos hs]; exact ⟨none, rfl, by simp⟩
      · rw [if_neg hs]
        have hse : 0 ≤ sz - 1 - ext := by omega
        by_cases hsz : b.toNat &&& 2 ≠ 0
        · rw [if_pos hsz]
          obtain ⟨r, r1, r2⟩ := leb_safe hd hr (ptr := ptr + 1 + ext) (sz := sz - 1 - ext)
            (by omega) hse (by omega)
          rw [r1]
          match r with
          | none => exact ⟨none, rfl, by simp⟩
          | some (n, v) =>
            obtain ⟨k1, k2, k3, k4⟩ := r2 n v rfl
            dsimp only
            have ht : toInt v = v := if_pos (by omega)
            rw [ht, int_ok (by omega) (by omega)]
            dsimp only
            rw [if_neg (by omega)]
            refine ⟨_, rfl, fun h hh => ?_⟩
            simp only [Option.some.injEq] at hh
            subst hh
            dsimp only
            omega
        · rw [if_neg hsz]
          split_ifs
          · exact ⟨none, rfl, by simp⟩
          · refine ⟨_, rfl, fun h hh => ?_⟩
            simp only [Option.some.injEq] at hh
            subst hh
            dsimp only
            omega
          · exact ⟨none, rfl, by simp⟩

theorem s5Loop_safe {d : List UInt8} (hd : d.length = 2048) (hr : ¬ LongRun d) :
    ∀ (fuel : Nat) (cnt : Int) (seq : Bool), 0 ≤ cnt → s5Loop d fuel cnt seq ≠ none
  | 0, _, _, _ => by simp [s5Loop]
  | fuel + 1, cnt, seq, h0 => by
    rw [s5Loop]
    by_cases hc : cnt < size
    · rw [if_pos hc]
      unfold size at *
      obtain ⟨r, r1, r2⟩ := parse_safe hd hr (ptr := cnt) (sz := 2048 - cnt) (imp := false) h0
        (by omega) (by omega)
      rw [r1]
      match r with
      | none => simp
      | some h =>
        obtain ⟨k1, k2⟩ := r2 h rfl
        dsimp only
        rw [int_ok (by omega) (by omega)]
        dsimp only
        split_ifs
        · exact s5Loop_safe hd hr fuel _ _ (by omega)
        · simp
        · simp
        · exact s5Loop_safe hd hr fuel _ _ (by omega)
    · rw [if_neg hc]; simp

theorem section5_safe {d : List UInt8} (hd : d.length = 2048) (hr : ¬ LongRun d) :
    section5 d ≠ none := by
  unfold section5
  obtain ⟨r, r1, r2⟩ := parse_safe hd hr (ptr := 0) (sz := size) (imp := false) (by omega)
    (by decide) (by decide)
  rw [r1]
  match r with
  | none => simp
  | some h =>
    dsimp only
    split_ifs
    · simp
    · exact s5Loop_safe hd hr _ _ _ (r2 h rfl).1

theorem abLoop_safe {d : List UInt8} (hd : d.length = 2048) (hr : ¬ LongRun d) :
    ∀ (fuel : Nat) (cnt : Int) (fu : Nat) (seq : Bool), 0 ≤ cnt → abLoop d fuel cnt fu seq ≠ none
  | 0, _, _, _, _ => by simp [abLoop]
  | fuel + 1, cnt, fu, seq, h0 => by
    rw [abLoop]
    by_cases hc : cnt < size
    · rw [if_pos hc]
      unfold size at *
      obtain ⟨r, r1, r2⟩ := leb_safe hd hr (ptr := cnt) (sz := 2048 - cnt) h0 (by omega) (by omega)
      rw [r1]
      match r with
      | none => simp
      | some (n, v) =>
        obtain ⟨k1, k2, k3, k4⟩ := r2 n v rfl
        dsimp only
        have ht : toInt v = v := if_pos (by omega)
        by_cases hf : v + n > fu
        · rw [if_pos hf]; simp
        · rw [if_neg hf, ht]
          obtain ⟨q, q1, q2⟩ := parse_safe hd hr (ptr := cnt + n)
            (sz := min (2048 - (cnt + n)) (v : Int)) (imp := true) (by omega) (by omega) (by omega)
          rw [q1]
          match q with
          | none => simp
          | some h =>
            dsimp only
            rw [int_ok (by omega) (by omega)]
            dsimp only
            by_cases t1 : h.type = 6 ∨ h.type = 3
            · rw [if_pos t1]; simp
            · rw [if_neg t1]
              by_cases t2 : h.type = 2 ∨ h.type = 4
              · rw [if_pos t2]; simp
              · rw [if_neg t2]
                by_cases t3 : fu - n - v = 0
                · rw [if_pos t3]; simp
                · rw [if_neg t3]
                  exact abLoop_safe hd hr fuel _ _ _ (by omega)
    · rw [if_neg hc]; simp

theorem annexb_safe {d : List UInt8} (hd : d.length = 2048) (hr : ¬ LongRun d) :
    annexb d ≠ none := by
  unfold annexb size
  obtain ⟨r, r1, r2⟩ := leb_safe hd hr (ptr := 0) (sz := 2048) (by omega) (by omega) (by omega)
  rw [r1]
  match r with
  | none => simp
  | some (n1, tu) =>
    obtain ⟨a1, a2, a3, a4⟩ := r2 n1 tu rfl
    dsimp only
    obtain ⟨r, r1, r2⟩ := leb_safe hd hr (ptr := n1) (sz := 2048 - n1) (by omega) (by omega) (by omega)
    rw [r1]
    match r with
    | none => simp
    | some (n2, fu) =>
      obtain ⟨b1, b2, b3, b4⟩ := r2 n2 fu rfl
      dsimp only
      by_cases hf : fu + n2 > tu
      · rw [if_pos hf]; simp
      · rw [if_neg hf]
        obtain ⟨r, r1, r2⟩ := leb_safe hd hr (ptr := n1 + n2) (sz := 2048 - (n1 + n2))
          (by omega) (by omega) (by omega)
        rw [r1]
        match r with
        | none => simp
        | some (n3, v) =>
          obtain ⟨c1, c2, c3, c4⟩ := r2 n3 v rfl
          dsimp only
          have ht : toInt v = v := if_pos (by omega)
          by_cases hg : v + n3 ≥ fu
          · rw [if_pos hg]; simp
          · rw [if_neg hg, ht]
            obtain ⟨q, q1, q2⟩ := parse_safe hd hr (ptr := n1 + n2 + n3)
              (sz := min (2048 - (n1 + n2 + n3)) (v : Int)) (imp := true)
              (by omega) (by omega) (by omega)
            rw [q1]
            match q with
            | none => simp
            | some h =>
              dsimp only
              by_cases t1 : h.type ≠ 2 ∨ h.size > 0
              · rw [if_pos t1]; simp
              · rw [if_neg t1, int_ok (by omega) (by omega)]
                exact abLoop_safe hd hr _ _ _ _ (by omega)

end Dav1d.Input.Probe
