import Verif.Tools.InputLemmas
import Mathlib.Tactic.SplitIfs

/-
The ivf demuxer: packets, counting and seeking.
-/

namespace Dav1d.Input

open Spec

/-- `rest` begins with a complete frame. -/
def StartsFrame (rest : List UInt8) : Prop := ∃ (f : Frame) (tail : List UInt8), f.Valid ∧ rest = f.bytes ++ tail

/-- How the time stamps are made. -/
def Ivf.synth (c : Ivf) : Option Nat := if c.broken then some c.step else none

/-- The time stamp given to the next frame. -/
def Ivf.nextTs (c : Ivf) (f : Frame) : Nat :=
  if c.broken then (if c.s.pos > 32 then (c.lastTs + c.step) % 2 ^ 64 else 0) else f.ts

theorem Spec.Frame.bytes_length (f : Frame) : f.bytes.length = 12 + f.payload.length := by
  unfold Frame.bytes
  rw [List.length_append, List.length_append, leBytes_length, leBytes_length]

theorem leBytes_ne {n v : Nat} : leBytes (n + 1) v ≠ [] := by simp [leBytes]

theorem skip_skip (s : Stream) (a b : Nat) : skip b (skip a s) = skip (a + b) s := by
  unfold skip; simp only [Nat.add_assoc]

theorem ivfReadHeader_ok {c : Ivf} {f : Frame} {b : List UInt8} (hf : f.Valid)
    (h : c.s.rest = f.bytes ++ b) :
    ivfReadHeader c
      = (some (f.payload.length, c.s.pos, c.nextTs f), { c with s := skip 12 c.s }) := by
  have h4 : c.s.rest = leBytes 4 f.payload.length ++ (leBytes 8 f.ts ++ (f.payload ++ b)) := by
    rw [h]; simp [Frame.bytes]
  have r4 := fread_ok c.s h4 leBytes_ne
  have s4 := skip_rest c.s h4
  rw [leBytes_length] at r4 s4
  have r8 := fread_ok _ s4 leBytes_ne
  rw [leBytes_length] at r8
  have e4 : le (leBytes 4 f.payload.length) = f.payload.length := le_leBytes 4 _ hf.2.1
  have e8 : le (leBytes 8 f.ts) = f.ts := le_leBytes 8 _ hf.2.2
  unfold ivfReadHeader Ivf.nextTs
  simp only [r4, r8, e4, e8, skip_skip]
  split_ifs <;> rfl

theorem ivfRead_ok {c : Ivf} {f : Frame} {b : List UInt8} (hf : f.Valid)
    (h : c.s.rest = f.bytes ++ b) :
    ivfRead c = (some ⟨f.payload, c.s.pos, c.nextTs f⟩,
      { c with s := skip (12 + f.payload.length) c.s, lastTs := c.nextTs f }) := by
  have h12 : c.s.rest = (leBytes 4 f.payload.length ++ leBytes 8 f.ts) ++ (f.payload ++ b) := by
    rw [h]; simp [Frame.bytes]
  have s12 := skip_rest c.s h12
  rw [List.length_append, leBytes_length, leBytes_length] at s12
  have r := fread_ok (skip 12 c.s) s12 hf.1
  unfold ivfRead
  rw [ivfReadHeader_ok hf h]
  simp only [r, skip_skip]

theorem ivfRead_rest {c : Ivf} {f : Frame} {b : List UInt8} (h : c.s.rest = f.bytes ++ b) :
    (skip (12 + f.payload.length) c.s).rest = b := by
  have := skip_rest c.s h
  rwa [f.bytes_length] at this

/-- A packet is only returned where a complete frame is stored. -/
theorem ivfRead_some {c c' : Ivf} {p : Packet} (h : ivfRead c = (some p, c')) :
    StartsFrame c.s.rest := by
  unfold ivfRead at h
  cases hh : ivfReadHeader c with
  | mk o c1 =>
    rw [hh] at h
    match o with
    | none => simp at h
    | some (sz, off, ts) =>
      dsimp only at h
      cases hp : fread sz c1.s with
      | mk o s2 =>
        rw [hp] at h
        match o with
        | none => simp at h
        | some pl =>
          obtain ⟨hl, hn, hr, -, hpos⟩ := fread_some hp
          -- the header
          have key : ∃ a t : List UInt8, a.length = 4 ∧ t.length = 8 ∧ le a = sz ∧
              c.s.rest = a ++ t ++ c1.s.rest := by
            unfold ivfReadHeader at hh
            cases h4 : fread 4 c.s with
            | mk o s4 =>
              rw [h4] at hh
              match o with
              | none => simp at hh
              | some a =>
                obtain ⟨al, -, ar, as, -⟩ := fread_some h4
                dsimp only at hh
                by_cases hb : c.broken = true
                · rw [if_pos hb] at hh
                  simp only [Prod.mk.injEq, Option.some.injEq] at hh
                  obtain ⟨⟨h1, -, -⟩, rfl⟩ := hh
                  have hr' : s4.rest.drop 8 = pl ++ s2.rest := by
                    have : (skip 8 s4).rest = s4.rest.drop 8 := by
                      unfold skip Stream.rest; simp only [List.drop_drop]
                    rw [← this]; exact hr
                  have hlen : s4.rest.length = 8 + pl.length + s2.rest.length := by
                    have := congrArg List.length hr'
                    rw [List.length_drop, List.length_append] at this
                    have : 0 < pl.length := List.length_pos_iff.2 hn
                    omega
                  refine ⟨a, s4.rest.take 8, al, by rw [List.length_take]; omega, h1, ?_⟩
                  have : (skip 8 s4).rest = s4.rest.drop 8 := by
                    unfold skip Stream.rest; simp only [List.drop_drop]
                  show _ = a ++ s4.rest.take 8 ++ (skip 8 s4).rest
                  rw [this, List.append_assoc, List.take_append_drop]; exact ar
                · rw [if_neg hb] at hh
                  cases h8 : fread 8 s4 with
                  | mk o s8 =>
                    rw [h8] at hh
                    match o with
                    | none => simp at hh
                    | some t =>
                      obtain ⟨tl, -, tr, -, -⟩ := fread_some h8
                      simp only [Prod.mk.injEq, Option.some.injEq] at hh
                      obtain ⟨⟨h1, -, -⟩, rfl⟩ := hh
                      refine ⟨a, t, al, tl, h1, ?_⟩
                      show _ = a ++ t ++ s8.rest
                      rw [ar, tr, List.append_assoc]
          obtain ⟨a, t, al, tl, ae, hrest⟩ := key
          have ha := le_lt a; have ht := le_lt t
          rw [al] at ha; rw [tl] at ht
          refine ⟨⟨pl, le t⟩, s2.rest, ⟨hn, ?_, ht⟩, ?_⟩
          · show pl.length < 2 ^ 32
            rw [hl, ← ae]; exact ha
          · rw [hrest, hr]
            unfold Frame.bytes
            have e4 : leBytes 4 pl.length = a := by rw [hl, ← ae, ← al]; exact leBytes_le a
            have e8 : leBytes 8 (le t) = t := by rw [← tl]; exact leBytes_le t
            simp only [e4, e8, List.append_assoc]

theorem ivfRead_none {c : Ivf} (h : ¬ StartsFrame c.s.rest) : (ivfRead c).1 = none := by
  cases hh : ivfRead c with
  | mk o c' =>
    match o with
    | none => rfl
    | some p => exact absurd (ivfRead_some hh) h

/-- The state is where frame number `k` begins, as far as made-up time stamps are concerned. -/
def Ivf.AtFrame (c : Ivf) (k : Nat) : Prop :=
  c.broken = true → (k = 0 ∧ c.s.pos = 32) ∨
    (0 < k ∧ 32 < c.s.pos ∧ c.lastTs = (k - 1) * c.step % 2 ^ 64)

theorem nextTs_eq {c : Ivf} {k : Nat} (f : Frame) (h : c.AtFrame k) :
    c.nextTs f = stamp c.synth k f := by
  unfold Ivf.nextTs Ivf.synth stamp
  cases hb : c.broken with
  | false => simp
  | true =>
    simp only [if_true]
    rcases h hb with ⟨rfl, hp⟩ | ⟨hk, hp, hl⟩
    · rw [if_neg (by omega)]; simp
    · rw [if_pos (by omega), hl, Nat.mod_add_mod]
      congr 1
      obtain ⟨j, rfl⟩ : ∃ j, k = j + 1 := ⟨k - 1, by omega⟩
      rw [Nat.add_sub_cancel, Nat.succ_mul]

theorem atFrame_next {c : Ivf} {k : Nat} {f : Frame} (h : c.AtFrame k) (h32 : 32 ≤ c.s.pos) :
    Ivf.AtFrame { c with s := skip (12 + f.payload.length) c.s, lastTs := c.nextTs f } (k + 1) := by
  intro hb
  have hb : c.broken = true := hb
  refine .inr ⟨by omega, ?_, ?_⟩
  · show 32 < c.s.pos + (12 + f.payload.length); omega
  · show c.nextTs f = (k + 1 - 1) * c.step % 2 ^ 64
    rw [nextTs_eq f h]
    unfold Ivf.synth stamp; simp only [hb, if_true, Nat.add_sub_cancel]

/-- Complete frames are returned one after the other. -/
theorem ivf_run : ∀ (frames : List Frame) (c : Ivf) (k : Nat) (tail : List UInt8),
    (∀ f ∈ frames, f.Valid) → c.s.rest = frames.flatMap Frame.bytes ++ tail → ¬ StartsFrame tail →
    32 ≤ c.s.pos → c.AtFrame k → ∃ c', Run ivfRead c (packetsFrom c.synth c.s.pos k frames) c'
  | [], c, k, tail, _, hr, ht, _, _ => by
    refine ⟨_, Run.stop (ivfRead_none ?_)⟩
    rw [hr]; exact ht
  | f :: frames, c, k, tail, hv, hr, ht, h32, hk => by
    have hf := hv f List.mem_cons_self
    have hr' : c.s.rest = f.bytes ++ (frames.flatMap Frame.bytes ++ tail) := by
      rw [hr]; simp
    obtain ⟨c', hc'⟩ := ivf_run frames
      { c with s := skip (12 + f.payload.length) c.s, lastTs := c.nextTs f } (k + 1) tail
      (fun g hg => hv g (List.mem_cons_of_mem _ hg)) (ivfRead_rest hr') ht
      (by show 32 ≤ c.s.pos + _; omega) (atFrame_next hk h32)
    refine ⟨c', ?_⟩
    show Run ivfRead c (⟨f.payload, c.s.pos, _⟩ :: packetsFrom c.synth _ (k + 1) frames) c'
    rw [← nextTs_eq f hk]
    refine Run.more (ivfRead_ok hf hr') ?_
    have e : c.s.pos + 12 + f.payload.length = c.s.pos + (12 + f.payload.length) := by omega
    rw [e]; exact hc'

/-- Every sequence of bytes is a sequence of complete frames and something that is not a complete
frame. -/
theorem frames_exist : ∀ (n : Nat) (b : List UInt8), b.length ≤ n →
    ∃ (frames : List Frame) (tail : List UInt8), (∀ f ∈ frames, f.Valid) ∧
      b = frames.flatMap Frame.bytes ++ tail ∧ ¬ StartsFrame tail
  | n, b, hn => by
    by_cases h : StartsFrame b
    · obtain ⟨f, tail, hf, rfl⟩ := h
      rw [List.length_append, f.bytes_length] at hn
      match n with
      | 0 => omega
      | n + 1 =>
        obtain ⟨frames, tail', h1, h2, h3⟩ := frames_exist n tail (by omega)
        refine ⟨f :: frames, tail', ?_, ?_, h3⟩
        · intro g hg
          rcases List.mem_cons.1 hg with rfl | hg
          · exact hf
          · exact h1 g hg
        · rw [List.flatMap_cons, List.append_assoc, ← h2]
    · exact ⟨[], b, by simp, by simp, h⟩

/-! ### Counting -/

/-- What the counting loop has found after some frames. -/
def countAfter : List Frame → IvfCount → IvfCount
  | [], c => c
  | f :: l, c => countAfter l
      { n := (c.n + 1) % 2 ^ 32, broken := c.broken || (c.n != 0 && f.ts <= c.lastTs), lastTs := f.ts }

theorem ivfCount_frames : ∀ (frames : List Frame) (fuel : Nat) (c : IvfCount) (s : Stream)
    (tail : List UInt8), (∀ f ∈ frames, f.Valid) → s.rest = frames.flatMap Frame.bytes ++ tail →
    frames.length ≤ fuel →
    ∃ s', s'.rest = tail ∧ ivfCount fuel c s = ivfCount (fuel - frames.length) (countAfter frames c) s'
  | [], fuel, c, s, tail, _, hr, _ => ⟨s, by simpa using hr, by simp [countAfter]⟩
  | f :: frames, 0, c, s, tail, _, _, hl => by simp at hl
  | f :: frames, fuel + 1, c, s, tail, hv, hr, hl => by
    have hf := hv f List.mem_cons_self
    have h4 : s.rest = leBytes 4 f.payload.length ++
        (leBytes 8 f.ts ++ (f.payload ++ (frames.flatMap Frame.bytes ++ tail))) := by
      rw [hr]; simp [Frame.bytes]
    have r4 := fread_ok s h4 leBytes_ne
    have s4 := skip_rest s h4
    rw [leBytes_length] at r4 s4
    have r8 := fread_ok _ s4 leBytes_ne
    have s8 := skip_rest _ s4
    rw [leBytes_length] at r8 s8
    have e4 : le (leBytes 4 f.payload.length) = f.payload.length := le_leBytes 4 _ hf.2.1
    have e8 : le (leBytes 8 f.ts) = f.ts := le_leBytes 8 _ hf.2.2
    rw [ivfCount]
    simp only [r4, r8, e4, e8]
    obtain ⟨s', h1, h2⟩ := ivfCount_frames frames fuel
      { n := (c.n + 1) % 2 ^ 32, broken := c.broken || (c.n != 0 && f.ts <= c.lastTs), lastTs := f.ts }
      _ tail (fun g hg => hv g (List.mem_cons_of_mem _ hg)) (skip_rest _ s8) (by simpa using hl)
    refine ⟨s', h1, ?_⟩
    rw [h2]
    have : fuel + 1 - (f :: frames).length = fuel - frames.length := by simp
    rw [this, countAfter]

theorem ivfCount_broken : ∀ (fuel : Nat) (c : IvfCount) (s : Stream), c.broken = true →
    (ivfCount fuel c s).broken = true
  | 0, _, _, h => h
  | fuel + 1, c, s, h => by
    rw [ivfCount]
    split
    · exact h
    · split
      · exact h
      · exact ivfCount_broken fuel _ _ (by simp [h])

theorem ivfCount_nil (fuel : Nat) (c : IvfCount) (s : Stream) (h : s.rest = []) :
    ivfCount fuel c s = c := by
  cases fuel with
  | zero => rfl
  | succ n => rw [ivfCount, fread_short (by omega) (by rw [h]; simp)]

theorem countAfter_n : ∀ (frames : List Frame) (c : IvfCount),
    c.n + frames.length < 2 ^ 32 → (countAfter frames c).n = c.n + frames.length
  | [], _, _ => rfl
  | f :: l, c, h => by
    simp only [List.length_cons] at h ⊢
    have e : (c.n + 1) % 2 ^ 32 = c.n + 1 := Nat.mod_eq_of_lt (by omega)
    rw [countAfter, countAfter_n l _ (by dsimp only; rw [e]; omega)]
    dsimp only; rw [e]; omega

/-- The order is only found to be intact if the time stamps are strictly increasing. -/
theorem countAfter_broken : ∀ (frames : List Frame) (c : IvfCount),
    c.n + frames.length < 2 ^ 32 →
    ((countAfter frames c).broken = false ↔ c.broken = false ∧
      (0 < c.n → ∀ f ∈ frames.head?, c.lastTs < f.ts) ∧
      (frames.map Frame.ts).Pairwise (· < ·))
  | [], c, _ => by simp [countAfter]
  | f :: l, c, h => by
    simp only [List.length_cons] at h
    have e : (c.n + 1) % 2 ^ 32 = c.n + 1 := Nat.mod_eq_of_lt (by omega)
    rw [countAfter, countAfter_broken l _ (by dsimp only; rw [e]; omega)]
    dsimp only
    rw [e]
    have hch : ((f :: l).map Frame.ts).Pairwise (· < ·) ↔
        (∀ g ∈ l.head?, f.ts < g.ts) ∧ (l.map Frame.ts).Pairwise (· < ·) := by
      cases l with
      | nil => simp
      | cons g l =>
        simp only [List.map_cons, List.pairwise_cons, List.mem_cons, List.head?_cons, Option.mem_def,
          Option.some.injEq, forall_eq_or_imp, List.mem_map, forall_exists_index, and_imp,
          forall_apply_eq_imp_iff₂]
        constructor
        · rintro ⟨⟨h1, -⟩, h2, h3⟩
          exact ⟨fun g' hg => by subst hg; exact h1, h2, h3⟩
        · rintro ⟨h1, h2, h3⟩
          have := h1 g rfl
          exact ⟨⟨this, fun a ha => by have := h2 a ha; omega⟩, h2, h3⟩
    rw [hch]
    simp only [Bool.or_eq_false_iff, Bool.and_eq_false_iff, bne_eq_false_iff_eq, decide_eq_false_iff_not,
      List.head?_cons, Option.mem_def, Option.some.injEq]
    constructor
    · rintro ⟨⟨h1, h2⟩, h3, h4⟩
      refine ⟨h1, fun hn g hg => ?_, h3 (by omega), h4⟩
      subst hg; rcases h2 with h2 | h2 <;> omega
    · rintro ⟨h1, h2, h3, h4⟩
      refine ⟨⟨h1, ?_⟩, fun _ => h3, h4⟩
      by_cases hn : c.n = 0
      · exact .inl hn
      · exact .inr (by have := h2 (by omega) f rfl; omega)

theorem flatMap_length_ge : ∀ frames : List Frame, frames.length ≤ (frames.flatMap Frame.bytes).length
  | [] => by simp
  | f :: l => by
    have := flatMap_length_ge l
    rw [List.flatMap_cons, List.length_append, f.bytes_length, List.length_cons]; omega

end Dav1d.Input
