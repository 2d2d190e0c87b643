import Verif.Tools.InputSeek
import Verif.Tools.InputAb
import Verif.Tools.Probe

/-
C50: the demuxers of the command line tool return what the file stores.
-/

namespace Dav1d.Input

open Spec

/-! ### ivf -/

/-- Every file that `ivf_open` accepts starts with a header of 32 bytes carrying the signatures.
Whatever follows, the packets returned one after the other are exactly the complete, non-empty frames
stored behind the header, in order and with their offsets; reading fails at the first thing that is
not a complete frame, in particular at the end of the file.  If the demuxer uses the time stamps of
the file, these are strictly increasing; otherwise it makes them up from the duration. -/
theorem C50_ivf_packets {data : List UInt8} {c : Ivf} {n : Nat} (h : ivfOpen data = .ok c n) :
    ∃ (hdr : List UInt8) (frames : List Frame) (rest : List UInt8),
      data = hdr ++ (frames.flatMap Frame.bytes ++ rest) ∧ hdr.length = 32 ∧
      hdr.take 4 = [0x44, 0x4B, 0x49, 0x46] ∧ (hdr.drop 8).take 4 = [0x41, 0x56, 0x30, 0x31] ∧
      (∀ f ∈ frames, f.Valid) ∧
      (¬ ∃ (f : Frame) (tail : List UInt8), f.Valid ∧ rest = f.bytes ++ tail) ∧
      (∃ c', Run ivfRead c (packets (if c.broken then some c.step else none) frames) c') ∧
      c.step = le ((hdr.drop 24).take 4) / n ∧
      (c.broken = false → frames.length < 2 ^ 32 → (frames.map Frame.ts).Pairwise (· < ·)) := by
  obtain ⟨hdr, b, hh, rfl⟩ := ivfOpen_ok h
  obtain ⟨frames, tail, hv, rfl, ht⟩ := frames_exist b.length b (Nat.le_refl _)
  rw [ivfOpen_eq hh] at h
  dsimp only at h
  have hlen := hh.1
  split_ifs at h with h0
  simp only [Opened.ok.injEq] at h
  obtain ⟨hc, hn⟩ := h
  have hrest : c.s.rest = frames.flatMap Frame.bytes ++ tail := by
    rw [← hc]; unfold Stream.rest; dsimp only; rw [← hlen, List.drop_left]
  have hpos : c.s.pos = 32 := by rw [← hc]
  refine ⟨hdr, frames, tail, rfl, hlen, hh.2.1, hh.2.2, hv, ht, ?_, ?_, ?_⟩
  · obtain ⟨c', hc'⟩ := ivf_run frames c 0 tail hv hrest ht (by omega) (fun _ => .inl ⟨rfl, hpos⟩)
    refine ⟨c', ?_⟩
    rw [hpos] at hc'
    exact hc'
  · rw [← hc, ← hn]
  · intro hb hl
    have hge := flatMap_length_ge frames
    obtain ⟨s', -, hcount⟩ := ivfCount_frames frames (hdr ++ (frames.flatMap Frame.bytes ++ tail)).length
      ⟨0, false, 0⟩ ⟨hdr ++ (frames.flatMap Frame.bytes ++ tail), 32⟩ tail hv
      (by unfold Stream.rest; dsimp only; rw [← hlen, List.drop_left])
      (by rw [List.length_append, List.length_append]; omega)
    have hb' : (countAfter frames ⟨0, false, 0⟩).broken = false := by
      cases hx : (countAfter frames ⟨0, false, 0⟩).broken with
      | false => rfl
      | true =>
        have hc2 := ivfCount_broken ((hdr ++ (frames.flatMap Frame.bytes ++ tail)).length - frames.length)
          (countAfter frames ⟨0, false, 0⟩) s' hx
        rw [← hcount] at hc2
        rw [← hc] at hb
        rw [hc2] at hb
        cases hb
    exact ((countAfter_broken frames _ (by simpa using hl)).1 hb').2.2

/-- A well-formed ivf file with at least one frame: it is opened, the number of frames is reported,
and the time stamps of the file are used exactly if they are strictly increasing. -/
theorem C50_ivf_open {hdr : List UInt8} {frames : List Frame} (h32 : hdr.length = 32)
    (h0 : hdr.take 4 = [0x44, 0x4B, 0x49, 0x46]) (h8 : (hdr.drop 8).take 4 = [0x41, 0x56, 0x30, 0x31])
    (hv : ∀ f ∈ frames, f.Valid) (hne : frames ≠ []) (hl : frames.length < 2 ^ 32) :
    ∃ c, ivfOpen (hdr ++ frames.flatMap Frame.bytes) = .ok c frames.length ∧
      c.step = le ((hdr.drop 24).take 4) / frames.length ∧
      (c.broken = false ↔ (frames.map Frame.ts).Pairwise (· < ·)) := by
  have hge := flatMap_length_ge frames
  obtain ⟨s', hs', hcount⟩ := ivfCount_frames frames (hdr ++ frames.flatMap Frame.bytes).length
    ⟨0, false, 0⟩ ⟨hdr ++ frames.flatMap Frame.bytes, 32⟩ [] hv
    (by unfold Stream.rest; dsimp only; rw [← h32, List.drop_left, List.append_nil])
    (by rw [List.length_append]; omega)
  rw [ivfCount_nil _ _ _ hs'] at hcount
  have hn := countAfter_n frames ⟨0, false, 0⟩ (by simpa using hl)
  simp only [Nat.zero_add] at hn
  have hp : 0 < frames.length := List.length_pos_iff.2 hne
  rw [ivfOpen_eq ⟨h32, h0, h8⟩]
  dsimp only
  rw [hcount, hn, if_neg (by omega)]
  refine ⟨_, rfl, rfl, ?_⟩
  have := countAfter_broken frames ⟨0, false, 0⟩ (by simpa using hl)
  dsimp only
  rw [this]
  simp

/-- Seeking in a well-formed ivf file, whatever was read or sought before: it succeeds exactly if
some packet has a time stamp at or behind the target, and then reading continues with the first such
packet. -/
theorem C50_ivf_seek {hdr : List UInt8} {frames : List Frame} {c0 c : Ivf} {n : Nat}
    (h32 : hdr.length = 32) (hv : ∀ f ∈ frames, f.Valid) (hl : frames.length < 2 ^ 32)
    (ho : ivfOpen (hdr ++ frames.flatMap Frame.bytes) = .ok c0 n) (hr : IvfReach c0 c)
    (target : Nat) :
    let all := packets (if c0.broken then some c0.step else none) frames
    ((ivfSeek target c).1 = true ↔ ∃ p ∈ all, target ≤ p.ts) ∧
    ((ivfSeek target c).1 = true →
      ∃ c', Run ivfRead (ivfSeek target c).2 (all.dropWhile fun p => decide (p.ts < target)) c') := by
  intro all
  obtain ⟨hdr', b, hh, hb⟩ := ivfOpen_ok ho
  obtain ⟨rfl, rfl⟩ : hdr = hdr' ∧ frames.flatMap Frame.bytes = b :=
    List.append_inj hb (by rw [h32, hh.1])
  have hne : frames ≠ [] := by
    rintro rfl
    rw [ivfOpen_eq hh, ivfCount_nil] at ho
    · simp at ho
    · unfold Stream.rest; dsimp only; rw [← h32, List.drop_left]; rfl
  obtain ⟨c1, e1, e2, e3⟩ := C50_ivf_open h32 hh.2.1 hh.2.2 hv hne hl
  rw [e1] at ho
  simp only [Opened.ok.injEq] at ho
  obtain ⟨rfl, rfl⟩ := ho
  have hpos : c1.s = ⟨hdr ++ frames.flatMap Frame.bytes, 32⟩ := by
    rw [ivfOpen_eq hh] at e1
    dsimp only at e1
    split_ifs at e1
    simp only [Opened.ok.injEq] at e1
    rw [← e1.1]
  have hat : At ⟨hdr, frames, h32, hv⟩ c1.synth c1 [] frames :=
    ⟨rfl, by rw [hpos]; rfl, by rw [hpos]; rfl, fun _ => .inl ⟨rfl, by rw [hpos]⟩,
      fun p hp => by simp [packets, packetsFrom] at hp, rfl⟩
  have hord : Ordered c1.synth ⟨hdr, frames, h32, hv⟩ := by
    unfold Ordered Ivf.synth packets
    cases hbr : c1.broken with
    | false => exact ordered_stored _ _ _ (e3.1 hbr)
    | true =>
      refine ordered_synth _ ?_ _ _ _ (by dsimp only; omega)
      rw [e2]
      exact Nat.lt_of_le_of_lt (Nat.div_le_self _ _) (le4_lt _)
  obtain ⟨d, t, hct⟩ := reach_at hord hat hr
  exact found_result (hct.seek hord target)

/-- `ivf_open` divides by zero when the file holds a header and nothing else. -/
theorem C50_ivf_empty_fails {hdr : List UInt8} (h32 : hdr.length = 32)
    (h0 : hdr.take 4 = [0x44, 0x4B, 0x49, 0x46])
    (h8 : (hdr.drop 8).take 4 = [0x41, 0x56, 0x30, 0x31]) : ivfOpen hdr = .divByZero := by
  have := ivfOpen_eq (b := []) ⟨h32, h0, h8⟩
  rw [List.append_nil] at this
  rw [this, ivfCount_nil]
  · rfl
  · unfold Stream.rest; exact List.drop_eq_nil_iff.2 (by dsimp only; omega)

/-! ### Section 5 -/

/-- Every file: the packets returned one after the other are exactly the temporal units at the start
of the file, each as a whole; reading fails at the first place where no complete temporal unit is
stored, in particular at the end of the file. -/
theorem C50_section5_packets (data : List UInt8) :
    ∃ (tus : List (List Obu)) (rest : List UInt8) (t : Stream),
      data = tus.flatMap tuBytes ++ rest ∧ (∀ tu ∈ tus, IsTu tu) ∧
      (¬ ∃ (tu : List Obu) (tail : List UInt8), IsTu tu ∧ rest = tuBytes tu ++ tail ∧ AtBoundary tail) ∧
      Run s5Read ⟨data, 0⟩ (tus.map tuBytes) t := by
  obtain ⟨tus, tail, t, h1, h2, h3, h4⟩ := s5_run data.length ⟨data, 0⟩ (Nat.le_refl _)
  exact ⟨tus, tail, t, h2, h1, h3, h4⟩

/-- A file made of temporal units: opening it counts them, and exactly these are returned. -/
theorem C50_section5_wellformed {tus : List (List Obu)} (h : ∀ tu ∈ tus, IsTu tu)
    (hl : tus.length < 2 ^ 32) :
    s5Open (tus.flatMap tuBytes) = .ok ⟨tus.flatMap tuBytes, 0⟩ tus.length ∧
    ∃ t, Run s5Read ⟨tus.flatMap tuBytes, 0⟩ (tus.map tuBytes) t := by
  refine ⟨?_, s5_run_exact tus _ h rfl⟩
  have e : ∀ l : List (List Obu), l.flatMap tuBytes = tuBytes l.flatten := by
    intro l
    induction l with
    | nil => rfl
    | cons a l ih => rw [List.flatMap_cons, ih, List.flatten_cons]; simp [tuBytes]
  have hc : ∀ l : List (List Obu), (∀ tu ∈ l, IsTu tu) → tdCount l.flatten = l.length ∧
      ∀ o ∈ l.flatten, o.Valid := by
    intro l
    induction l with
    | nil => intro _; exact ⟨rfl, by simp⟩
    | cons a l ih =>
      intro hl
      obtain ⟨h1, h2⟩ := ih fun x hx => hl x (List.mem_cons_of_mem _ hx)
      match a, hl a List.mem_cons_self with
      | td :: obus, ⟨v1, v2, v3⟩ =>
        have hz : (obus.filter fun o => decide (o.type = 2)) = [] := by
          rw [List.filter_eq_nil_iff]
          intro o ho; simpa using (v3 o ho).2
        constructor
        · unfold tdCount at h1 ⊢
          rw [List.flatten_cons, List.filter_append, List.length_append, h1,
            List.filter_cons_of_pos (by simpa using v2), hz, List.length_cons]
          simp only [List.length_nil, List.length_cons]; omega
        · intro o ho
          rw [List.flatten_cons] at ho
          rcases List.mem_append.1 ho with ho | ho
          · rcases List.mem_cons.1 ho with rfl | ho
            · exact v1
            · exact (v3 o ho).1
          · exact h2 o ho
  obtain ⟨h1, h2⟩ := hc tus h
  unfold s5Open
  rw [e]
  have hge := tuBytes_ge tus.flatten
  rw [s5Count_obus tus.flatten _ 0 ⟨tuBytes tus.flatten, 0⟩ h2 rfl
    (by omega) (by rw [h1]; omega), h1, Nat.zero_add]

/-! ### Annex B -/

/-- Every file: the packets returned one after the other are OBUs stored in the file one behind the
other from its start, inside temporal units and frame units whose sizes hold them; reading only fails
where no further OBU is stored. -/
theorem C50_annexb_packets (data : List UInt8) :
    ∃ (ps : List (List UInt8)) (c : Annexb) (b : List UInt8) (tu fu : Nat) (rest : List UInt8),
      data = b ++ rest ∧ Stored b tu fu ps ∧ Run abRead ⟨⟨data, 0⟩, 0, 0⟩ ps c ∧
      ¬ ∃ (p b' : List UInt8) (tu' fu' : Nat) (rest' : List UInt8),
        data = b' ++ rest' ∧ Stored b' tu' fu' (ps ++ [p]) := by
  obtain ⟨qs, c', b', t, f, rest, h1, h2, h3⟩ :=
    ab_run data.length ⟨⟨data, 0⟩, 0, 0⟩ [] [] (Nat.le_refl _) Stored.start rfl
  refine ⟨qs, c', b', t, f, rest, h3, h2, h1, ?_⟩
  rintro ⟨p, b2, t2, f2, rest2, k1, k2⟩
  obtain ⟨c, k3, -⟩ := stored_steps k2 rest2 k1
  exact run_steps h1 k3

/-- What `Stored` means when no unit is left open: the bytes are temporal units, and the packets are
their OBUs. -/
theorem C50_annexb_stored {b : List UInt8} {ps : List (List UInt8)} (h : Stored b 0 0 ps) :
    ∃ tus : List ATu, (∀ t ∈ tus, t.Valid) ∧ b = tus.flatMap ATu.bytes ∧
      ps = tus.flatMap ATu.payloads := by
  obtain ⟨tus, h1, ⟨-, -, h2, h3⟩ | ⟨_, _, -, h0, -⟩⟩ := stored_parts h
  · exact ⟨tus, h1, h2, h3⟩
  · omega

/-- A file made of temporal units: opening it counts them, and exactly their OBUs are returned.  (A
packet is an OBU, not a temporal unit.) -/
theorem C50_annexb_wellformed {tus : List ATu} (h : ∀ t ∈ tus, t.Valid) (hl : tus.length < 2 ^ 32) :
    abOpen (tus.flatMap ATu.bytes) = .ok ⟨⟨tus.flatMap ATu.bytes, 0⟩, 0, 0⟩ tus.length ∧
    ∃ c, Run abRead ⟨⟨tus.flatMap ATu.bytes, 0⟩, 0, 0⟩ (tus.flatMap ATu.payloads) c := by
  refine ⟨?_, ab_tus tus _ h rfl rfl rfl⟩
  unfold abOpen
  have := tus_length tus h
  rw [abCount_tus tus _ 0 _ h rfl (by omega) (by omega), Nat.zero_add]

/-! ### The bytes are read within the file -/

/-- What is read is always part of the file. -/
theorem C50_read_inside {n : Nat} {s t : Stream} {a : List UInt8} (h : fread n s = (some a, t)) :
    s.pos + n ≤ s.data.length ∧ a = (s.data.drop s.pos).take n := by
  obtain ⟨h1, -, h3, h4, h5⟩ := fread_some h
  rw [h4] at h5
  refine ⟨h5, ?_⟩
  unfold Stream.rest at h3
  rw [h3, ← h1, List.take_left]

/-! ### Probing -/

/-- Without four bytes in a row that have the top bit set, the probes read the probe buffer only, and
do not overflow. -/
theorem C50_probe_partial {d : List UInt8} (hd : d.length = 2048)
    (hr : ¬ ∃ i : Nat, ∀ j, j < 4 → ∃ b, d[i + j]? = some b ∧ 128 ≤ b.toNat) :
    Probe.section5 d ≠ none ∧ Probe.annexb d ≠ none :=
  ⟨Probe.section5_safe hd hr, Probe.annexb_safe hd hr⟩

/-- A file for which `annexb_probe` reads in front of its buffer: the size of the first OBU, converted
to `int`, is negative. -/
theorem C50_annexb_probe_fails :
    Probe.annexb ([0xFF, 0xFF, 0xFF, 0xFF, 0x0F, 0xF0, 0xFF, 0xFF, 0xFF, 0x0F,
      0x80, 0xFE, 0xFF, 0xFF, 0x0F, 0x12, 0x00] ++ List.replicate 2031 0) = none := by
  decide +kernel

/-- A file for which `section5_probe` overflows its position. -/
theorem C50_section5_probe_fails :
    Probe.section5 ([0x12, 0x00, 0x7A, 8, 0, 0, 0, 0, 0, 0, 0, 0, 0x0A, 0xF0, 0xFF, 0xFF, 0xFF, 0x07]
      ++ List.replicate 2030 0) = none := by
  decide +kernel

/-- The probes look at all 2048 bytes of the buffer, even if the file is shorter (input.c:90): whether
this file of four bytes is recognised depends on what the memory held before. -/
theorem C50_short_file_fails :
    Probe.section5 ([0x12, 0x00, 0x0A, 0x00] ++ List.replicate 2044 0) = some false ∧
    Probe.section5 ([0x12, 0x00, 0x0A, 0x00] ++ [0x32, 0x00] ++ List.replicate 2042 0) = some true := by
  decide +kernel

/-! ### Instances -/

/-- A header for a duration of 100. -/
def demoHdr : List UInt8 :=
  [0x44, 0x4B, 0x49, 0x46, 0, 0, 32, 0, 0x41, 0x56, 0x30, 0x31, 64, 0, 64, 0,
   25, 0, 0, 0, 1, 0, 0, 0, 100, 0, 0, 0, 0, 0, 0, 0]

def demoFrames : List Frame := [⟨[1, 2, 3], 5⟩, ⟨[4], 7⟩, ⟨[5, 6], 20⟩]

theorem demoFrames_valid : ∀ f ∈ demoFrames, f.Valid := by
  simp [demoFrames, Frame.Valid]

/-- A file with three frames is opened, and a seek to 6 finds the second one. -/
example : ∃ c, ivfOpen (demoHdr ++ demoFrames.flatMap Frame.bytes) = .ok c 3 ∧ c.broken = false := by
  obtain ⟨c, h1, -, h3⟩ := C50_ivf_open (hdr := demoHdr) (frames := demoFrames) rfl (by decide)
    (by decide) demoFrames_valid (by simp [demoFrames]) (by decide)
  exact ⟨c, h1, h3.2 (by decide)⟩

example : ∃ c, ivfOpen (demoHdr ++ demoFrames.flatMap Frame.bytes) = .ok c 3 ∧
    (ivfSeek 6 (ivfRead c).2).1 = true := by
  obtain ⟨c, h1, -, h3⟩ := C50_ivf_open (hdr := demoHdr) (frames := demoFrames) rfl (by decide)
    (by decide) demoFrames_valid (by simp [demoFrames]) (by decide)
  have hb := h3.2 (by decide)
  refine ⟨c, h1, ?_⟩
  have := C50_ivf_seek rfl demoFrames_valid (by decide) h1 (.read .start) 6
  refine this.1.2 ⟨⟨[4], 47, 7⟩, ?_, by decide⟩
  rw [hb]
  show _ ∈ packets none demoFrames
  decide

/-- A temporal delimiter and a padding OBU, twice. -/
def demoTus : List (List Obu) :=
  [[⟨0x12, [], [0], []⟩, ⟨0x7A, [], [2], [9, 9]⟩], [⟨0x12, [], [0x80, 0], []⟩, ⟨0x7E, [8], [1], [7]⟩]]

theorem demoTus_ok : ∀ tu ∈ demoTus, IsTu tu := by
  simp [demoTus, IsTu, Obu.Valid, Obu.type, IsLeb, Terminated, lebValue]

example : ∃ t, Run s5Read ⟨demoTus.flatMap tuBytes, 0⟩ (demoTus.map tuBytes) t :=
  (C50_section5_wellformed demoTus_ok (by decide)).2

/-- Two temporal units, the first with two frames. -/
def demoAtus : List ATu :=
  [⟨[8], [⟨[3], [⟨[2], [0x10, 0]⟩]⟩, ⟨[3], [⟨[2], [0x30, 5]⟩]⟩]⟩, ⟨[3], [⟨[2], [⟨[1], [0x10]⟩]⟩]⟩]

theorem demoAtus_ok : ∀ t ∈ demoAtus, t.Valid := by
  simp [demoAtus, ATu.Valid, ATu.body, AFrame.Valid, AFrame.body, AFrame.bytes, AObu.Valid,
    AObu.bytes, IsLeb, Terminated, lebValue]

example : ∃ c, Run abRead ⟨⟨demoAtus.flatMap ATu.bytes, 0⟩, 0, 0⟩ [[0x10, 0], [0x30, 5], [0x10]] c :=
  (C50_annexb_wellformed demoAtus_ok (by decide)).2

/-- A probe buffer without huge numbers. -/
example : Probe.annexb (List.replicate 2048 0) ≠ none :=
  (C50_probe_partial List.length_replicate (by
    rintro ⟨i, h⟩
    obtain ⟨b, h1, h2⟩ := h 0 (by omega)
    rw [List.getElem?_replicate] at h1
    split_ifs at h1
    simp only [Option.some.injEq] at h1
    subst h1
    simp at h2)).2

end Dav1d.Input
