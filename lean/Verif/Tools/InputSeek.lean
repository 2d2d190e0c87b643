import Verif.Tools.InputIvf
import Mathlib.Tactic.NormNum

/-
Seeking in an ivf file.
-/

namespace Dav1d.Input

open Spec

theorem packetsFrom_append (sy : Option Nat) : ∀ (a b : List Frame) (off k : Nat),
    packetsFrom sy off k (a ++ b) = packetsFrom sy off k a ++
      packetsFrom sy (off + (a.flatMap Frame.bytes).length) (k + a.length) b
  | [], b, off, k => by simp [packetsFrom]
  | f :: a, b, off, k => by
    have e1 : off + ((f :: a).flatMap Frame.bytes).length
        = off + 12 + f.payload.length + (a.flatMap Frame.bytes).length := by
      rw [List.flatMap_cons, List.length_append, f.bytes_length]; omega
    have e2 : k + (f :: a).length = k + 1 + a.length := by simp only [List.length_cons]; omega
    rw [e1, e2]
    show _ :: packetsFrom sy _ (k + 1) (a ++ b) = _
    rw [packetsFrom_append sy a b]
    rfl

/-- A well-formed file: a header of 32 bytes, and frames. -/
structure File where
  hdr : List UInt8
  frames : List Frame
  len : hdr.length = 32
  valid : ∀ f ∈ frames, f.Valid

def File.bytes (F : File) : List UInt8 := F.hdr ++ F.frames.flatMap Frame.bytes

/-- The state of the demuxer between two calls: in front of the frames `todo`. -/
structure At (F : File) (sy : Option Nat) (c : Ivf) (done todo : List Frame) : Prop where
  split : F.frames = done ++ todo
  data : c.s.data = F.bytes
  pos : c.s.pos = 32 + (done.flatMap Frame.bytes).length
  frame : c.AtFrame done.length
  passed : ∀ p ∈ packets sy done, p.ts ≤ c.lastTs
  synth : c.synth = sy

/-- The packets are in order. -/
def Ordered (sy : Option Nat) (F : File) : Prop :=
  (packets sy F.frames).Pairwise (fun p q => p.ts ≤ q.ts)

theorem At.rest {F : File} {sy : Option Nat} {c : Ivf} {done todo : List Frame}
    (h : At F sy c done todo) : c.s.rest = todo.flatMap Frame.bytes := by
  unfold Stream.rest
  rw [h.data, h.pos, File.bytes, h.split, List.flatMap_append, ← List.append_assoc, ← F.len,
    ← List.length_append, List.drop_left]

theorem packets_split {F : File} {sy : Option Nat} {c : Ivf} {done todo : List Frame}
    (h : At F sy c done todo) :
    packets sy F.frames = packets sy done ++ packetsFrom sy c.s.pos done.length todo := by
  unfold packets
  rw [h.split, packetsFrom_append, h.pos, Nat.zero_add]

/-- The state behind the next frame. -/
def Ivf.past (c : Ivf) (f : Frame) : Ivf :=
  { c with s := skip (12 + f.payload.length) c.s, lastTs := c.nextTs f }

theorem At.past {F : File} {sy : Option Nat} {c : Ivf} {done todo : List Frame} {f : Frame}
    (ho : Ordered sy F) (h : At F sy c done (f :: todo)) : At F sy (c.past f) (done ++ [f]) todo := by
  have hs := packets_split h
  have ho : (packets sy F.frames).Pairwise _ := ho
  rw [hs] at ho
  have hn : c.nextTs f = stamp sy done.length f := by rw [nextTs_eq f h.frame, h.synth]
  have hlt := (List.pairwise_append.1 ho).2.2
  refine ⟨by rw [h.split]; simp, h.data, ?_, ?_, ?_, h.synth⟩
  · show c.s.pos + (12 + f.payload.length) = _
    rw [h.pos, List.flatMap_append, List.length_append, List.flatMap_cons, List.flatMap_nil,
      List.append_nil, f.bytes_length]
    omega
  · rw [List.length_append, List.length_singleton]
    exact atFrame_next h.frame (by rw [h.pos]; omega)
  · intro p hp
    show p.ts ≤ c.nextTs f
    unfold packets at hp
    rw [packetsFrom_append, List.mem_append] at hp
    rcases hp with hp | hp
    · have := hlt p hp ⟨f.payload, c.s.pos, stamp sy done.length f⟩
        (by show _ ∈ _ :: _; exact List.mem_cons_self)
      rw [hn]; exact this
    · simp only [packetsFrom, List.mem_singleton] at hp
      rw [hp, hn]
      show stamp sy (0 + done.length) f ≤ _
      rw [Nat.zero_add]

theorem At.valid {F : File} {sy : Option Nat} {c : Ivf} {done todo : List Frame}
    (h : At F sy c done todo) : ∀ f ∈ todo, f.Valid := fun f hf =>
  F.valid f (by rw [h.split]; exact List.mem_append_right _ hf)

theorem not_starts_nil : ¬ StartsFrame [] := by
  rintro ⟨f, tail, -, h⟩
  have := congrArg List.length h
  rw [List.length_append, f.bytes_length, List.length_nil] at this
  omega

/-- Reading keeps the demuxer in front of a frame. -/
theorem At.read {F : File} {sy : Option Nat} {c : Ivf} {done todo : List Frame}
    (ho : Ordered sy F) (h : At F sy c done todo) :
    ∃ done' todo', At F sy (ivfRead c).2 done' todo' := by
  cases todo with
  | nil =>
    have hr : c.s.rest = [] := h.rest
    have hp : c.s.pos = c.s.data.length := by
      rw [h.pos, h.data, File.bytes, List.length_append, F.len, h.split, List.append_nil]
    have he : ivfReadHeader c = (none, c) := by
      unfold ivfReadHeader
      rw [fread_short (by omega) (by rw [hr]; simp)]
      dsimp only
      rw [← hp, Nat.max_self]
    refine ⟨done, [], ?_⟩
    have : (ivfRead c).2 = c := by unfold ivfRead; rw [he]
    rw [this]; exact h
  | cons f todo =>
    have hr : c.s.rest = f.bytes ++ todo.flatMap Frame.bytes := by rw [h.rest]; simp
    rw [ivfRead_ok (h.valid f List.mem_cons_self) hr]
    exact ⟨_, _, h.past ho⟩

/-- The outcome of the search. -/
def Found (F : File) (sy : Option Nat) (target : Nat) (r : Bool) (c : Ivf) : Prop :=
  ∃ done todo, At F sy c done todo ∧ (∀ p ∈ packets sy done, p.ts < target) ∧
    (r = true → ∃ f l, todo = f :: l ∧ target ≤ stamp sy done.length f) ∧ (r = false → todo = [])

theorem seekLoop_found {F : File} {sy : Option Nat} (ho : Ordered sy F) (target : Nat) :
    ∀ (fuel : Nat) (todo : List Frame) (c : Ivf) (done : List Frame), At F sy c done todo →
    todo.length < fuel → (∀ p ∈ packets sy done, p.ts < target) →
    Found F sy target (ivfSeekLoop fuel target c).1 (ivfSeekLoop fuel target c).2
  | 0, _, _, _, _, hf, _ => by omega
  | fuel + 1, [], c, done, h, _, hd => by
    have hr : c.s.rest = [] := h.rest
    have hp : c.s.pos = c.s.data.length := by
      rw [h.pos, h.data, File.bytes, List.length_append, F.len, h.split, List.append_nil]
    have he : ivfReadHeader c = (none, c) := by
      unfold ivfReadHeader
      rw [fread_short (by omega) (by rw [hr]; simp)]
      dsimp only
      rw [← hp, Nat.max_self]
    rw [ivfSeekLoop, he]
    exact ⟨done, [], h, hd, by simp, fun _ => rfl⟩
  | fuel + 1, f :: todo, c, done, h, hf, hd => by
    have hr : c.s.rest = f.bytes ++ todo.flatMap Frame.bytes := by rw [h.rest]; simp
    have hn : c.nextTs f = stamp sy done.length f := by rw [nextTs_eq f h.frame, h.synth]
    rw [ivfSeekLoop, ivfReadHeader_ok (h.valid f List.mem_cons_self) hr]
    dsimp only
    by_cases hc : c.nextTs f ≥ target
    · rw [if_pos hc]
      refine ⟨done, f :: todo, ?_, hd, fun _ => ⟨f, todo, rfl, by rw [← hn]; exact hc⟩, by simp⟩
      have e : back 12 (skip 12 c.s) = c.s := by unfold back skip; simp
      dsimp only
      rw [e]; exact h
    · rw [if_neg hc, skip_skip]
      refine seekLoop_found ho target fuel todo (c.past f) (done ++ [f]) (h.past ho)
        (by simpa using hf) ?_
      intro p hp
      have := (h.past ho).passed p hp
      have : p.ts ≤ c.nextTs f := this
      omega

theorem At.rewind {F : File} {sy : Option Nat} {c : Ivf} {done todo : List Frame}
    (h : At F sy c done todo) : At F sy { c with s := seekTo 32 c.s } [] F.frames where
  split := rfl
  data := h.data
  pos := rfl
  frame := fun _ => .inl ⟨rfl, rfl⟩
  passed := fun p hp => by simp [packets, packetsFrom] at hp
  synth := h.synth

theorem At.seek {F : File} {sy : Option Nat} {c : Ivf} {done todo : List Frame}
    (ho : Ordered sy F) (h : At F sy c done todo) (target : Nat) :
    Found F sy target (ivfSeek target c).1 (ivfSeek target c).2 := by
  have hlen : ∀ l : List Frame, (∀ f ∈ l, f ∈ F.frames) → l.length ≤ F.frames.length →
      l.length < c.s.data.length + 1 := by
    intro l _ hl
    have := flatMap_length_ge F.frames
    rw [h.data, File.bytes, List.length_append]; omega
  unfold ivfSeek
  by_cases hc : target ≤ c.lastTs
  · simp only [if_pos hc]
    exact seekLoop_found ho target _ _ _ _ h.rewind (hlen _ (fun _ h => h) (Nat.le_refl _))
      (fun p hp => by simp [packets, packetsFrom] at hp)
  · simp only [if_neg hc]
    refine seekLoop_found ho target _ _ _ _ h (hlen todo ?_ ?_) ?_
    · intro f hf; rw [h.split]; exact List.mem_append_right _ hf
    · rw [h.split, List.length_append]; omega
    · intro p hp; have := h.passed p hp; omega

theorem dropWhile_split {α : Type} {P : α → Bool} : ∀ (a b : List α), (∀ x ∈ a, P x = true) →
    (∀ x ∈ b.head?, P x = false) → (a ++ b).dropWhile P = b
  | [], [], _, _ => rfl
  | [], x :: b, _, h => by simp [h x (by simp)]
  | x :: a, b, ha, hb => by
    rw [List.cons_append, List.dropWhile_cons_of_pos (ha x List.mem_cons_self)]
    exact dropWhile_split a b (fun y hy => ha y (List.mem_cons_of_mem _ hy)) hb

theorem found_result {F : File} {sy : Option Nat} {target : Nat} {r : Bool} {c : Ivf}
    (h : Found F sy target r c) :
    (r = true ↔ ∃ p ∈ packets sy F.frames, target ≤ p.ts) ∧
    (r = true → ∃ c', Run ivfRead c
      ((packets sy F.frames).dropWhile (fun p => decide (p.ts < target))) c') := by
  obtain ⟨done, todo, hat, hd, ht, hfalse⟩ := h
  have hs := packets_split hat
  constructor
  · constructor
    · intro hr
      obtain ⟨f, l, rfl, hf⟩ := ht hr
      refine ⟨⟨f.payload, c.s.pos, stamp sy done.length f⟩, ?_, hf⟩
      rw [hs]
      exact List.mem_append_right _ (by show _ ∈ _ :: _; exact List.mem_cons_self)
    · rintro ⟨p, hp, hpt⟩
      cases hr : r with
      | true => rfl
      | false =>
        have := hfalse hr
        subst this
        rw [hs] at hp
        simp only [packetsFrom, List.append_nil] at hp
        have := hd p hp; omega
  · intro hr
    obtain ⟨f, l, rfl, hf⟩ := ht hr
    have hrest : c.s.rest = (f :: l).flatMap Frame.bytes ++ [] := by rw [List.append_nil]; exact hat.rest
    obtain ⟨c', hc'⟩ := ivf_run (f :: l) c done.length [] hat.valid hrest not_starts_nil
      (by rw [hat.pos]; omega) hat.frame
    refine ⟨c', ?_⟩
    rw [hs, dropWhile_split]
    · rw [hat.synth] at hc'; exact hc'
    · intro p hp; simpa using hd p hp
    · intro p hp
      have : p = ⟨f.payload, c.s.pos, stamp sy done.length f⟩ := by
        have hp : some (Packet.mk f.payload c.s.pos (stamp sy done.length f)) = some p := hp
        exact (Option.some.inj hp).symm
      subst this
      simpa using hf

/-- The states that calls of `ivf_read` and `ivf_seek` lead to. -/
inductive IvfReach (c0 : Ivf) : Ivf → Prop
  | start : IvfReach c0 c0
  | read {c} : IvfReach c0 c → IvfReach c0 (ivfRead c).2
  | seek {c} (target : Nat) : IvfReach c0 c → IvfReach c0 (ivfSeek target c).2

theorem reach_at {F : File} {sy : Option Nat} {c0 c : Ivf} (ho : Ordered sy F)
    (h0 : At F sy c0 [] F.frames) (h : IvfReach c0 c) : ∃ done todo, At F sy c done todo := by
  induction h with
  | start => exact ⟨_, _, h0⟩
  | read _ ih => obtain ⟨d, t, h⟩ := ih; exact h.read ho
  | seek target _ ih =>
    obtain ⟨d, t, h⟩ := ih
    obtain ⟨d', t', h', -⟩ := h.seek ho target
    exact ⟨d', t', h'⟩

/-! ### Opening -/

theorem packetsFrom_ts (sy : Option Nat) : ∀ (l : List Frame) (off k : Nat),
    ∀ p ∈ packetsFrom sy off k l, ∃ i f, l[i]? = some f ∧ p.ts = stamp sy (k + i) f
  | [], _, _, p, hp => by simp [packetsFrom] at hp
  | f :: l, off, k, p, hp => by
    rcases List.mem_cons.1 (show p ∈ _ :: packetsFrom sy _ (k + 1) l from hp) with rfl | hp
    · exact ⟨0, f, rfl, rfl⟩
    · obtain ⟨i, g, h1, h2⟩ := packetsFrom_ts sy l _ _ p hp
      exact ⟨i + 1, g, by simpa using h1, by rw [h2]; congr 1; omega⟩

theorem ordered_stored : ∀ (l : List Frame) (off k : Nat), (l.map Frame.ts).Pairwise (· < ·) →
    (packetsFrom none off k l).Pairwise (fun p q => p.ts ≤ q.ts)
  | [], _, _, _ => List.Pairwise.nil
  | f :: l, off, k, h => by
    rw [List.map_cons, List.pairwise_cons] at h
    refine List.pairwise_cons.2 ⟨?_, ordered_stored l _ _ h.2⟩
    intro p hp
    obtain ⟨i, g, h1, h2⟩ := packetsFrom_ts none l _ _ p hp
    have := h.1 g.ts (List.mem_map_of_mem (List.mem_of_getElem? h1))
    rw [h2]; exact Nat.le_of_lt this

theorem ordered_synth (step : Nat) (hs : step < 2 ^ 32) : ∀ (l : List Frame) (off k : Nat),
    k + l.length ≤ 2 ^ 32 →
    (packetsFrom (some step) off k l).Pairwise (fun p q => p.ts ≤ q.ts)
  | [], _, _, _ => List.Pairwise.nil
  | f :: l, off, k, h => by
    rw [List.length_cons] at h
    refine List.pairwise_cons.2 ⟨?_, ordered_synth step hs l _ _ (by omega)⟩
    intro p hp
    obtain ⟨i, g, h1, h2⟩ := packetsFrom_ts (some step) l _ _ p hp
    have hi : i < l.length := by
      by_contra hc
      rw [List.getElem?_eq_none (by omega)] at h1
      cases h1
    rw [h2]
    have wrap : ∀ m, m < 2 ^ 32 → m * step % 2 ^ 64 = m * step := fun m hm => by
      apply Nat.mod_eq_of_lt
      calc m * step < 2 ^ 32 * 2 ^ 32 := Nat.mul_lt_mul'' hm hs
        _ = 2 ^ 64 := by norm_num
    show k * step % 2 ^ 64 ≤ (k + 1 + i) * step % 2 ^ 64
    rw [wrap k (by omega), wrap (k + 1 + i) (by omega)]
    exact Nat.mul_le_mul_right _ (by omega)

/-- The signature at the start of the file and the codec at byte 8. -/
def HeaderOk (hdr : List UInt8) : Prop :=
  hdr.length = 32 ∧ hdr.take 4 = [0x44, 0x4B, 0x49, 0x46] ∧
    (hdr.drop 8).take 4 = [0x41, 0x56, 0x30, 0x31]

theorem ivfOpen_eq {hdr b : List UInt8} (h : HeaderOk hdr) :
    ivfOpen (hdr ++ b) =
      (let c := ivfCount (hdr ++ b).length ⟨0, false, 0⟩ ⟨hdr ++ b, 32⟩
      if c.n = 0 then .divByZero
      else .ok ⟨⟨hdr ++ b, 32⟩, c.broken, 0, le ((hdr.drop 24).take 4) / c.n⟩ c.n) := by
  obtain ⟨h1, h2, h3⟩ := h
  have hr : fread 32 ⟨hdr ++ b, 0⟩ = (some hdr, ⟨hdr ++ b, 32⟩) := by
    have := fread_ok ⟨hdr ++ b, 0⟩ (a := hdr) (b := b) rfl (by rintro rfl; simp at h1)
    rw [h1] at this
    exact this
  unfold ivfOpen
  rw [hr]
  simp only [h2, h3, ne_eq, not_true_eq_false, if_false]
  rfl

theorem ivfOpen_ok {data : List UInt8} {c : Ivf} {n : Nat} (h : ivfOpen data = .ok c n) :
    ∃ hdr b, HeaderOk hdr ∧ data = hdr ++ b := by
  unfold ivfOpen at h
  cases hf : fread 32 ⟨data, 0⟩ with
  | mk o s =>
    rw [hf] at h
    match o with
    | none => simp at h
    | some hdr =>
      obtain ⟨hl, -, hr, -, -⟩ := fread_some hf
      dsimp only at h
      split_ifs at h with h1 h2 h3
      exact ⟨hdr, s.rest, ⟨hl, not_not.1 h1, not_not.1 h2⟩, hr⟩

theorem le4_lt (l : List UInt8) : le (l.take 4) < 2 ^ 32 := by
  have h1 := le_lt (l.take 4)
  have h2 : (l.take 4).length ≤ 4 := List.length_take_le ..
  calc le (l.take 4) < 256 ^ (l.take 4).length := h1
    _ ≤ 256 ^ 4 := Nat.pow_le_pow_right (by norm_num) h2
    _ = 2 ^ 32 := by norm_num

end Dav1d.Input
