import Verif.Api.Inv
import Verif.Api.Demo
/-!
# C06, C07, C09, C15, C29, C30: OBUs

`parseObus` is dav1d_parse_obus on the 64-bit bit reader, `none` being undefined behaviour, an access outside the
packet, a failed assertion, or a loop that makes no progress. `Reachable s env c`: the context can be reached from
dav1d_open by API calls, for the settings `s` and an arbitrary pixel decoder and arbitrary allocation failures `env`.
-/
namespace Dav1d
open HProg
variable {κ : Type}

/-! ## C06 -/

/-- Every sequence of API calls with arbitrary bytes runs to completion. -/
theorem C06_returns (s : Settings) (env : Env κ) (l : List Call) :
    ∃ x, session s env (Dec.init : Dec κ) l = some x := by
  obtain ⟨x, h, _⟩ := Inv.session l (Inv.init (κ := κ) s env)
  exact ⟨x, h⟩

/-- Parsing an OBU of any non-empty packet is well-defined and consumes at least one byte and at most the bytes there
are, or fails. -/
theorem C06_step {s : Settings} {env : Env κ} {c : Dec κ} (hr : Reachable s env c) (hout : c.out = none) (pkt : Packet)
    (hp : pkt.data ≠ []) : ∃ c' r, parseObus s env c pkt = some (c', r) ∧ ∀ n, r = .ok n → 0 < n ∧ n ≤ pkt.data.length := by
  obtain ⟨⟨c', r⟩, h1, _, h2⟩ := hr.inv.parseObus hout hp
  exact ⟨c', r, h1, h2⟩

theorem sizedSplit_suffix {d p r} (h : sizedSplit d = some (p, r)) : ∃ pre, pre ++ r = d := by
  unfold sizedSplit at h
  split at h
  · cases h
  · rename_i len r' hl
    obtain ⟨k, _, _, _, e⟩ := lebSplit_spec hl
    split at h
    · cases h
      exact ⟨lebBytes k len ++ r'.take len, by rw [e, List.append_assoc, List.take_append_drop]⟩
    · cases h

theorem splitObu_suffix {data o rest} (h : splitObu data = some (o, rest)) : ∃ pre, pre ++ rest = data := by
  unfold splitObu at h
  cases data with
  | nil => simp at h
  | cons b d =>
    simp only at h
    split at h
    · cases h
    · have hd : ∃ pre, pre ++ (if obuExt b = true then d.tail else d) = b :: d := by
        split
        · cases d with
          | nil => exact ⟨[b], rfl⟩
          | cons x d => exact ⟨[b, x], rfl⟩
        · exact ⟨[b], rfl⟩
      obtain ⟨pre, hd⟩ := hd
      generalize (if obuExt b = true then d.tail else d) = d' at hd h
      split at h
      · rw [Option.map_eq_some_iff] at h
        obtain ⟨⟨p, r⟩, h1, h2⟩ := h
        cases h2
        obtain ⟨pre2, h3⟩ := sizedSplit_suffix h1
        exact ⟨pre ++ pre2, by rw [List.append_assoc, h3, hd]⟩
      · cases h
        exact ⟨b :: d, by simp⟩

/-- The number of bytes consumed is the length of the first OBU as delimited by its header and size field. -/
theorem C06_consumed {s : Settings} {env : Env κ} {c : Dec κ} (hr : Reachable s env c) (pkt : Packet)
    (hp : pkt.data ≠ []) {c' n} (h : parseObus s env c pkt = some (c', .ok n)) :
    ∃ o, splitObu pkt.data = some (o, pkt.data.drop n) := by
  rw [parseObus_eq s env hr.inv.ok pkt hp] at h
  unfold stepObu at h
  split at h
  · simp [caseError] at h
  · rename_i o rest hsp
    refine ⟨o, ?_⟩
    have hn : n = pkt.data.length - rest.length := by
      split at h
      · simp [caseError] at h
      split at h
      · simp at h; exact h.2.symm
      split at h
      · cases h
      · simp [caseError] at h
      · split at h
        · cases h
        · simp at h
        · simp at h; exact h.2.symm
    rw [hsp, hn]
    congr 2
    obtain ⟨pre, hpre⟩ := splitObu_suffix hsp
    rw [← hpre]
    simp

theorem outputReady_input (s : Settings) (c : Dec κ) (d : Bool) : (outputReady s c d).2.input = c.input := by
  unfold outputReady
  split
  · rfl
  · split
    · split
      · split <;> rfl
      all_goals rfl
    · rfl

theorem genLoop_input {s : Settings} {env : Env κ} (k : Nat) : ∀ {c : Dec κ} {pkt : Packet}, pkt.data.length = k → ∀ {c' r},
    genLoop s env c pkt = some (c', r) → (r ≠ none → c'.input = none) ∧
    ∀ p, c'.input = some p → ∃ n, 0 < n ∧ p = { pkt with data := pkt.data.drop n } := by
  induction k using Nat.strong_induction_on with
  | _ k ih =>
    intro c pkt hk c' r h
    rw [genLoop] at h
    split at h
    · cases h
    · rename_i c1 e _
      have := outputReady_input s { c1 with input := none } false
      split at h <;> rename_i c2 he <;> rw [he] at this <;> cases h <;>
        exact ⟨fun _ => this, fun p hp => by rw [this] at hp; cases hp⟩
    · rename_i c1 n _
      split at h
      · rename_i hn
        have := outputReady_input s { c1 with input := pkt.advance n } false
        have hadv : ∀ p, pkt.advance n = some p → ∃ n, 0 < n ∧ p = { pkt with data := pkt.data.drop n } := by
          intro p hp
          unfold Packet.advance at hp
          split at hp
          · cases hp
          · cases hp; exact ⟨n, hn.1, rfl⟩
        split at h
        · rename_i c2 he
          rw [he] at this; cases h
          exact ⟨fun h => absurd rfl h, fun p hp => hadv p (by rw [this] at hp; exact hp)⟩
        · rename_i c2 he
          rw [he] at this
          split at h
          · cases h
            exact ⟨fun h => absurd rfl h, fun p hp => hadv p (by rw [this] at hp; exact hp)⟩
          · obtain ⟨h1, h2⟩ := ih (pkt.data.drop n).length (by simp; omega) rfl h
            refine ⟨h1, fun p hp => ?_⟩
            obtain ⟨m, hm, e⟩ := h2 p hp
            exact ⟨n + m, by omega, by rw [e]; simp [List.drop_drop]⟩
      · cases h

theorem genPicture_input {s : Settings} {env : Env κ} {c : Dec κ} {c' r} (h : genPicture s env c = some (c', r)) :
    (r ≠ none → c'.input = none) ∧
    ∀ p, c'.input = some p → ∃ pkt n, c.input = some pkt ∧ p = { pkt with data := pkt.data.drop n } := by
  unfold genPicture at h
  have := outputReady_input s c false
  split at h
  · rename_i c1 he
    rw [he] at this
    cases h
    exact ⟨fun h => absurd rfl h, fun p hp => ⟨p, 0, by rw [← this]; exact hp, rfl⟩⟩
  · rename_i c1 he
    rw [he] at this
    split at h
    · rename_i hn
      cases h
      exact ⟨fun h => absurd rfl h, fun p hp => by rw [hn] at hp; cases hp⟩
    · rename_i pkt hpk
      obtain ⟨h1, h2⟩ := genLoop_input _ rfl h
      refine ⟨h1, fun p hp => ?_⟩
      obtain ⟨n, _, e⟩ := h2 p hp
      exact ⟨pkt, n, by rw [← this]; exact hpk, e⟩

/-- What the library keeps of a packet is an end of it, with its properties; on an error it keeps nothing. -/
theorem C06_kept {s : Settings} {env : Env κ} {c : Dec κ} (hin : c.input = none) {p : Packet} {r : SendResult κ}
    (h : sendData s env c (some p) = some r) :
    (r.res ≠ none → r.ctx.input = none) ∧
    ∀ q, r.ctx.input = some q → ∃ n, q = { p with data := p.data.drop n } := by
  unfold sendData at h
  split at h
  · cases h
    exact ⟨fun _ => hin, fun q hq => by rw [hin] at hq; cases hq⟩
  dsimp only [Option.isSome, if_true] at h
  rw [hin, if_neg (by simp)] at h
  split at h
  · cases h
  all_goals
    rename_i hg
    obtain ⟨h1, h2⟩ := genPicture_input hg
    cases h
    refine ⟨fun h => h1 h, fun q hq => ?_⟩
    obtain ⟨pkt, n, e1, e2⟩ := h2 q hq
    cases e1
    exact ⟨n, e2⟩

/-- An error of dav1d_get_picture leaves no packet behind. -/
theorem C06_get_error {s : Settings} {env : Env κ} {c c' : Dec κ} {e : Err} (h : genPicture s env c = some (c', some e)) :
    c'.input = none := (genPicture_input h).1 (by simp)

/-! ## C07 -/

/-- No picture of more than `frame_size_limit` pixels is ever allocated. -/
theorem C07_limit {s : Settings} {env : Env κ} {c : Dec κ} (hr : Reachable s env c) (hl : s.frameSizeLimit ≠ 0) :
    ∀ f ∈ c.decoded, f.hdr.refs.size.width1 * f.hdr.refs.size.height ≤ s.frameSizeLimit := by
  intro f hf
  rcases (hr.inv.decoded f hf).limit with h | h
  · exact absurd h hl
  · exact h

/-! ## C09 -/

/-- The tiles of a group, in order. -/
def TileGroup.tiles (g : TileGroup) : List Nat := List.range' g.first (g.last + 1 - g.first)

theorem Covers.range {l : List TileGroup} : ∀ {a b : Nat}, Covers l a b → a ≤ b ∧ l.flatMap TileGroup.tiles = List.range' a (b - a) := by
  induction l with
  | nil => intro a b h; cases h; simp
  | cons g l ih =>
    intro a b h
    obtain ⟨h1, h2, h3⟩ := h
    obtain ⟨h4, h5⟩ := ih h3
    refine ⟨by omega, ?_⟩
    rw [List.flatMap_cons, h5, TileGroup.tiles, h1]
    have : b - a = (g.last + 1 - a) + (b - (g.last + 1)) := by omega
    rw [this, ← List.range'_append_1]
    congr 2
    omega

/-- The tile groups of every frame submitted for decoding cover the tiles `0 .. n-1` exactly once and in order. -/
theorem C09_submitted {s : Settings} {env : Env κ} {c : Dec κ} (hr : Reachable s env c) :
    ∀ f ∈ c.decoded, f.tiles.flatMap TileGroup.tiles = List.range (f.hdr.tiling.cols * f.hdr.tiling.rows) := by
  intro f hf
  rw [((hr.inv.decoded f hf).tiles).range.2, List.range_eq_range']
  rfl

/-- The tile groups buffered so far cover `0 .. n-1` exactly once and in order. -/
theorem C09_buffered {s : Settings} {env : Env κ} {c : Dec κ} (hr : Reachable s env c) {h : FrameHdr}
    (hh : c.frameHdr = some (.frame h)) :
    c.tiles.flatMap TileGroup.tiles = List.range c.nTiles := by
  rw [(hr.inv.cover h hh).1.range.2, List.range_eq_range']
  rfl

theorem Covers.length {l : List TileGroup} : ∀ {a b : Nat}, Covers l a b → l.length ≤ b - a := by
  induction l with
  | nil => intro a b h; exact Nat.zero_le _
  | cons g l ih =>
    intro a b h
    obtain ⟨h1, h2, h3⟩ := h
    have := ih h3
    have := h3.range.1
    simp only [List.length_cons]
    omega

/-- The number of buffered tile groups is bounded by the number of tile indices that can be written down (missing: by
the number of tiles, see `C09_count_fails`). -/
theorem C09_count_partial {s : Settings} {env : Env κ} {c : Dec κ} (hr : Reachable s env c) {h : FrameHdr}
    (hh : c.frameHdr = some (.frame h)) : c.tiles.length ≤ 2 ^ (h.tiling.log2Cols + h.tiling.log2Rows) := by
  obtain ⟨h1, h2⟩ := hr.inv.cover h hh
  have := h1.length
  omega

/-- Six tile columns, but seven tile groups: the end of a tile group is not compared with the number of tiles. -/
def manyGroups : List UInt8 :=
  tdObu ++ seqObu ++ hdrObu keyBits6 ++ groupObu 3 0 0 [1] ++ groupObu 3 1 1 [1] ++ groupObu 3 2 2 [1] ++
  groupObu 3 3 3 [1] ++ groupObu 3 4 4 [1] ++ groupObu 3 5 6 [1] ++ groupObu 3 7 7 [1]

theorem manyGroups_run : ((session {} demoEnv Dec.init [send 1 manyGroups]).map (fun x =>
    (x.1.tiles.length, x.1.frameHdr.any (fun r => match r with
      | .frame h => h.tiling.cols * h.tiling.rows == 6
      | _ => false), x.2.map seen))) = some (7, true, [.sent none false]) := by decide +kernel

/-- The number of buffered tile groups can exceed the number of tiles. -/
theorem C09_count_fails : ¬ ∀ (s : Settings) (env : Env UInt8) (c : Dec UInt8), Reachable s env c → ∀ h,
    c.frameHdr = some (.frame h) → c.tiles.length ≤ h.tiling.cols * h.tiling.rows := by
  intro hall
  have hrun := manyGroups_run
  rw [Option.map_eq_some_iff] at hrun
  obtain ⟨⟨c, r⟩, h1, h2⟩ := hrun
  simp only [Prod.mk.injEq] at h2
  obtain ⟨h2, h3, _⟩ := h2
  have := hall {} demoEnv c ⟨_, _, h1⟩
  cases hf : c.frameHdr with
  | none => rw [hf] at h3; simp at h3
  | some x =>
    rw [hf] at h3
    simp only [Option.any_some] at h3
    split at h3
    · rename_i h
      have := this h hf
      simp at h3
      omega
    · cases h3

/-- Accepting a tile group with the bounds `first` and `last` and the bytes `d`. -/
def addGroup (c : Dec κ) (first last : Nat) (d : List UInt8) (props : Props) : Dec κ × Option Err :=
  if first ≤ last ∧ first = c.nTiles then
    ({ c with tiles := c.tiles ++ [⟨first, last, d, props⟩], nTiles := last + 1 }, none)
  else ({ c with tiles := [], nTiles := 0 }, some .EINVAL)

theorem tileGroup_run {c : Dec κ} {h : FrameHdr} (hh : c.frameHdr = some (.frame h)) {first last : Nat} {payload d : List UInt8}
    {pad : List Bool} (hpad : pad.length < 8) (props : Props)
    (hrun : (parseTileHdr h.tiling).run (BitSt.init payload) =
      ((first, last), { BitSt.init payload with rem := pad ++ bytesBits d })) :
    ((tileGroupCase c props).run (BitSt.init payload)).1 = some (addGroup c first last d props) := by
  have hg : tileGroupCase c props = tileGroup c h props := by unfold tileGroupCase; rw [hh]
  rw [hg]
  unfold tileGroup
  rw [Prog.run_bind, hrun]
  simp only [Prog.run_bind]
  have hal : Prog.byteAlign.run { BitSt.init payload with rem := pad ++ bytesBits d } = ((), { BitSt.init payload with rem := bytesBits d }) := by
    have hl : (pad ++ bytesBits d).length % 8 = pad.length := by
      rw [List.length_append, bytesBits_length]; omega
    show ((), { BitSt.init payload with rem := (pad ++ bytesBits d).drop ((pad ++ bytesBits d).length % 8) }) = _
    rw [hl, List.drop_left]
  rw [hal]
  have herr : ∀ b : BitSt, Prog.getErr.run b = (b.err, b) := fun b => rfl
  have hrest : Prog.getRest.run { BitSt.init payload with rem := bytesBits d } = (d, { BitSt.init payload with rem := bytesBits d }) := by
    show (BitSt.restBytes _, _) = _; rw [restBytes_bytes rfl]
  simp only [herr]
  rw [if_neg (by simp [BitSt.init]), Prog.run_bind, hrest]
  simp only
  unfold addGroup
  by_cases hc : first ≤ last ∧ first = c.nTiles
  · rw [if_neg (by omega), if_pos hc, Prog.run_pure]
    have : c.nTiles + (1 + last - first) = last + 1 := by omega
    rw [this]
  · rw [if_pos (by omega), if_neg hc]; rfl

/-- A tile group with explicit bounds, in the payload of a tile group OBU: accepted exactly if it begins where the
previous one ended and is not empty; otherwise the buffered groups are discarded. `d` are the bytes after the tile
group header. -/
theorem C09_group {c : Dec κ} {h : FrameHdr} (hh : c.frameHdr = some (.frame h)) (hn : 1 < h.tiling.cols * h.tiling.rows)
    {first last : Nat} (h1 : first < 2 ^ (h.tiling.log2Cols + h.tiling.log2Rows))
    (h2 : last < 2 ^ (h.tiling.log2Cols + h.tiling.log2Rows)) {payload d : List UInt8} {pad : List Bool} (hpad : pad.length < 8)
    (hb : bytesBits payload = [true] ++ natBits (h.tiling.log2Cols + h.tiling.log2Rows) first ++
      natBits (h.tiling.log2Cols + h.tiling.log2Rows) last ++ pad ++ bytesBits d) (props : Props) :
    ((tileGroupCase c props).run (BitSt.init payload)).1 = some (addGroup c first last d props) := by
  refine tileGroup_run hh hpad props ?_
  unfold parseTileHdr
  dsimp only
  rw [if_pos hn, Prog.run_bind]
  rw [Prog.reads_getFlag true (BitSt.init payload) (natBits (h.tiling.log2Cols + h.tiling.log2Rows) first ++
    (natBits (h.tiling.log2Cols + h.tiling.log2Rows) last ++ (pad ++ bytesBits d))) (by
      show bytesBits payload = _; rw [hb]; simp)]
  simp only [if_true, Prog.run_bind, Prog.run_pure]
  rw [Prog.reads_getBits h1 _ (natBits (h.tiling.log2Cols + h.tiling.log2Rows) last ++ (pad ++ bytesBits d)) rfl]
  simp only
  rw [Prog.reads_getBits h2 _ (pad ++ bytesBits d) rfl]

/-- A tile group without bounds holds all tiles. -/
theorem C09_group_all {c : Dec κ} {h : FrameHdr} (hh : c.frameHdr = some (.frame h)) (hn : 1 < h.tiling.cols * h.tiling.rows)
    {payload d : List UInt8} {pad : List Bool} (hpad : pad.length < 8)
    (hb : bytesBits payload = [false] ++ pad ++ bytesBits d) (props : Props) :
    ((tileGroupCase c props).run (BitSt.init payload)).1 = some (addGroup c 0 (h.tiling.cols * h.tiling.rows - 1) d props) := by
  refine tileGroup_run hh hpad props ?_
  unfold parseTileHdr
  dsimp only
  rw [if_pos hn, Prog.run_bind]
  rw [Prog.reads_getFlag false (BitSt.init payload) (pad ++ bytesBits d) (by
      show bytesBits payload = _; rw [hb]; simp)]
  simp only [Bool.false_eq_true, if_false, Prog.run_pure]

/-- With one tile there is no tile group header. -/
theorem C09_group_one {c : Dec κ} {h : FrameHdr} (hh : c.frameHdr = some (.frame h)) (hn : h.tiling.cols * h.tiling.rows = 1)
    {d : List UInt8} (props : Props) :
    ((tileGroupCase c props).run (BitSt.init d)).1 = some (addGroup c 0 0 d props) := by
  refine tileGroup_run (pad := []) hh (by simp) props ?_
  unfold parseTileHdr
  dsimp only
  rw [if_neg (by omega), Prog.run_bind, hn]
  simp only [Bool.false_eq_true, if_false, Prog.run_pure]
  rfl

/-- Without a frame header, tile groups are rejected. -/
theorem C09_no_header {c : Dec κ} (hh : c.frameHdr = none) (payload : List UInt8) (props : Props) :
    ((tileGroupCase c props).run (BitSt.init payload)).1 = some (c, some .EINVAL) := by
  unfold tileGroupCase
  rw [hh]
  rfl

/-- A new frame header discards the tile groups buffered before. -/
theorem C09_new_header {s : Settings} {c c' : Dec κ} {type t sp : Nat} {props : Props} {b : BitSt}
    (h : ((frameHdrCase s c type t sp props).run b).1 = some (c', none)) :
    (type ≠ 6 → c'.tiles = [] ∧ c'.nTiles = 0) ∧ (type = 6 → ∃ last d, c'.tiles = [⟨0, last, d, props⟩] ∧ c'.nTiles = last + 1) := by
  unfold frameHdrCase at h
  split at h
  · simp at h
  · unfold frameHdrBody at h
    simp only [Prog.run_bind] at h
    split at h
    · simp at h
    · simp only [Prog.run_bind] at h
      split at h
      · simp at h
      · split at h
        · simp at h
        · by_cases ht : type = 6
          · refine ⟨fun hx => absurd ht hx, fun _ => ?_⟩
            rw [if_neg (by simp [ht])] at h
            split at h
            · simp at h
            · unfold tileGroup at h
              simp only [Prog.run_bind] at h
              split at h
              · simp at h
              · simp only [Prog.run_bind] at h
                split at h
                · simp at h
                · rename_i hx
                  rw [Prog.run_pure] at h
                  simp only [Option.some.injEq, Prod.mk.injEq, and_true] at h
                  subst h
                  generalize ((parseTileHdr _).run _).1 = fl at hx ⊢
                  obtain ⟨first, last⟩ := fl
                  simp only [not_or, not_lt, not_not] at hx
                  obtain ⟨h1, rfl⟩ := hx
                  exact ⟨last, _, rfl, by simp; omega⟩
          · rw [if_pos (by simpa using ht)] at h
            cases h
            exact ⟨fun _ => ⟨rfl, rfl⟩, fun hx => absurd hx ht⟩

theorem usable_iff {q : SeqHdr} {h : FrameHdr} {r : RefPic κ} :
    refUnusable q h r = false ↔ ∃ p, r = .pic p ∧ RefFits q h p := by
  refine ⟨refFits_of_usable, ?_⟩
  rintro ⟨p, rfl, h1, h2, h3, h4, h5, h6⟩
  unfold refUnusable
  simp only [Bool.or_eq_false_iff, decide_eq_false_iff_not, bne_eq_false_iff_eq]
  exact ⟨⟨⟨⟨⟨by omega, by omega⟩, by omega⟩, by omega⟩, h5.symm⟩, h6.symm⟩

/-- All references of an inter frame exist and fit. -/
def RefsFit (q : SeqHdr) (h : FrameHdr) (refs : Nat → RefSlot κ) : Prop :=
  h.base.frameType % 2 = 1 → ∀ r ∈ h.refs.refidx, ∃ p, (refs r).p = .pic p ∧ RefFits q h p

theorem refsUsable_iff {q : SeqHdr} {h : FrameHdr} {refs : Nat → RefSlot κ} :
    refsUnusable q h refs = false ↔ RefsFit q h refs := by
  unfold refsUnusable RefsFit isInterOrSwitch
  by_cases hty : h.base.frameType % 2 = 1
  · simp only [hty, decide_true, Bool.true_and, List.any_eq_false, Bool.not_eq_true]
    exact ⟨fun hx _ r hr => usable_iff.1 (hx r hr), fun hx r hr => usable_iff.2 (hx trivial r hr)⟩
  · simp [hty]

theorem skip_iff {s : Settings} {h : FrameHdr} (hs : s.decodeFrameType ≤ 3) (h3 : h.base.frameType ≤ 3) :
    skipFrame s h = false ↔ Selected s.decodeFrameType h := by
  refine ⟨selected_of_not_skip h3, ?_⟩
  intro hsel
  unfold Selected at hsel
  unfold skipFrame
  split
  · simp only [Bool.or_eq_false_iff, decide_eq_false_iff_not, Bool.and_eq_false_imp, beq_iff_eq, beq_eq_false_iff_ne]
    omega
  · split
    · simp only [Bool.or_eq_false_iff, decide_eq_false_iff_not, Bool.and_eq_false_imp, beq_iff_eq, beq_eq_false_iff_ne]
      omega
    · rfl

theorem submitFrame_decoded {s : Settings} {env : Env κ} {c : Dec κ} {q : SeqHdr} {h : FrameHdr} {props : Props} {x}
    (hx : submitFrame s env c q h props = some x) : x.1.decoded =
      if refsUnusable q h c.refs = false ∧ env.oom c.submitted ≠ .early ∧ env.oom c.submitted ≠ .pic then
        c.decoded ++ [⟨q, h, c.tiles, c.refs⟩] else c.decoded := by
  unfold submitFrame at hx
  dsimp only at hx
  generalize hpop : (if s.nFc = 1 then some c else ringPop s c) = o at hx
  have hsame : ∀ c1, o = some c1 → c1.decoded = c.decoded ∧ c1.refs = c.refs ∧ c1.tiles = c.tiles := by
    intro c1 h1
    rw [h1] at hpop
    split at hpop
    · cases hpop; exact ⟨rfl, rfl, rfl⟩
    · unfold ringPop at hpop
      dsimp only at hpop
      split at hpop
      · cases hpop; exact ⟨rfl, rfl, rfl⟩
      · split at hpop
        · cases hpop; exact ⟨rfl, rfl, rfl⟩
        · unfold showDelayed at hpop
          split at hpop
          · unfold setOut at hpop
            split at hpop
            · cases hpop
            · cases hpop; exact ⟨rfl, rfl, rfl⟩
          · cases hpop; exact ⟨rfl, rfl, rfl⟩
  have herr : ∀ (c' : Dec κ) (i : Nat) (e : Err), (submitError s c' i props e).1.decoded = c'.decoded := by
    intro c' i e
    unfold submitError
    dsimp only
    split <;> rfl
  cases o with
  | none => cases hx
  | some c1 =>
    obtain ⟨e1, e2, e3⟩ := hsame c1 rfl
    simp only at hx
    rw [e2] at hx
    split at hx
    · rename_i hu
      cases hx
      rw [herr, if_neg (by simp [hu])]; exact e1
    rename_i hu
    split at hx
    · rename_i ho
      cases hx
      rw [herr, if_neg (by simp [ho])]; exact e1
    rename_i ho
    split at hx
    · rename_i ho2
      cases hx
      rw [herr, if_neg (by simp [ho2])]; exact e1
    rename_i ho2
    rw [if_pos ⟨by simpa using hu, ho, ho2⟩]
    rw [e1, e3] at hx
    generalize newPic _ q h _ (env.dec _) = p at hx
    generalize afterAlloc s _ h = c2 at hx
    split at hx
    · cases hx; rw [herr]
    split at hx
    · unfold submitSync at hx
      split at hx
      · cases hx
      · rename_i c3 h3
        have : c3.decoded = c.decoded ++ [⟨q, h, c.tiles, c.refs⟩] := by
          split at h3
          · unfold setOut at h3
            split at h3
            · cases h3
            · cases h3; rfl
          · cases h3; rfl
        split at hx
        · cases hx; rw [herr]; exact this
        · split at hx
          · cases hx; rw [herr]; exact this
          · cases hx; exact this
    · unfold submitAsync at hx
      split at hx
      · cases hx; rw [herr]
      · cases hx; rfl

open Classical in
/-- A frame is submitted for decoding exactly when the buffered groups cover all its tiles (and it is of a selected
type, its references fit and memory suffices), with exactly these groups. -/
theorem C09_exactly {s : Settings} {env : Env κ} {c : Dec κ} (hs : s.decodeFrameType ≤ 3) {q h} (hq : c.seq = some q)
    (hh : c.frameHdr = some (.frame h)) (ha : Accepted h) {props x} (hx : finishObu s env c props = some x) :
    x.1.decoded =
      if c.nTiles = h.tiling.cols * h.tiling.rows ∧ c.tiles ≠ [] ∧ Selected s.decodeFrameType h ∧ RefsFit q h c.refs ∧
          env.oom c.submitted ≠ .early ∧ env.oom c.submitted ≠ .pic then
        c.decoded ++ [⟨q, h, c.tiles, c.refs⟩] else c.decoded := by
  unfold finishObu at hx
  rw [hq, hh] at hx
  simp only at hx
  split at hx
  · rename_i hn
    unfold frameComplete at hx
    split at hx
    · rename_i hsk
      cases hx
      rw [if_neg]
      rintro ⟨_, _, h3, _⟩
      rw [← skip_iff hs ha.ok.frameType] at h3
      rw [h3] at hsk; cases hsk
    rename_i hsk
    split at hx
    · rename_i ht
      cases hx
      rw [if_neg (by simp [ht])]
    rename_i ht
    have hsel := (skip_iff hs ha.ok.frameType).1 (by simpa using hsk)
    split at hx
    · cases hx
    · rename_i c' e he
      cases hx
      rw [submitFrame_decoded he]
      simp only [refsUsable_iff, hn, ht, hsel, ne_eq, not_false_eq_true, true_and]
    · rename_i c' he
      split at hx
      · cases hx
        have := submitFrame_decoded he
        simp only [refsUsable_iff] at this
        simp only [this, hn, ht, hsel, ne_eq, not_false_eq_true, true_and]
      · cases hx
  · rename_i hn
    cases hx
    rw [if_neg (fun h => hn h.1)]

/-! ## C15 -/

/-- A well-formed ITU-T T.35 message: country code, extension byte if the country code is 255, a non-empty payload, and
trailing bits (a byte 0x80 and zero bytes). -/
def T35Msg (d : List UInt8) (t : T35) : Prop :=
  ∃ z, t.payload ≠ [] ∧
    ((∃ cc : UInt8, cc ≠ 255 ∧ t.countryCode = cc.toNat ∧ t.countryCodeExt = 0 ∧ d = cc :: (t.payload ++ 0x80 :: List.replicate z 0)) ∨
     (∃ x : UInt8, t.countryCode = 255 ∧ t.countryCodeExt = x.toNat ∧ d = 255 :: x :: (t.payload ++ 0x80 :: List.replicate z 0)))

theorem t35Trim_append (l : List UInt8) (z : Nat) : t35Trim (l ++ 0x80 :: List.replicate z 0) = l.length + 1 := by
  unfold t35Trim
  have h : ∀ (z : Nat) (m : List UInt8), (List.replicate z (0 : UInt8) ++ 0x80 :: m).dropWhile (· == 0) = 0x80 :: m := by
    intro z m
    induction z with
    | zero => rfl
    | succ z ih => rw [List.replicate_succ, List.cons_append, List.dropWhile_cons_of_pos (by decide)]; exact ih
  rw [List.reverse_append, List.reverse_cons, List.reverse_replicate, List.append_assoc, List.singleton_append, h]
  simp

theorem dropWhile_zero (m : List UInt8) : ∃ z, m = List.replicate z 0 ++ m.dropWhile (· == 0) := by
  induction m with
  | nil => exact ⟨0, rfl⟩
  | cons a m ih =>
    by_cases ha : a = 0
    · obtain ⟨z, hz⟩ := ih
      subst ha
      rw [List.dropWhile_cons_of_pos (by decide)]
      exact ⟨z + 1, by rw [List.replicate_succ, List.cons_append, ← hz]⟩
    · rw [List.dropWhile_cons_of_neg (by simpa using ha)]
      exact ⟨0, rfl⟩

theorem t35_split (d : List UInt8) : ∃ z, d = d.take (t35Trim d) ++ List.replicate z 0 := by
  obtain ⟨z, hz⟩ := dropWhile_zero d.reverse
  have hl : t35Trim d = (d.reverse.dropWhile (· == 0)).length := rfl
  rw [hl]
  generalize d.reverse.dropWhile (· == 0) = e at hz ⊢
  have : d = e.reverse ++ List.replicate z 0 := by
    have := congrArg List.reverse hz
    rw [List.reverse_reverse, List.reverse_append, List.reverse_replicate] at this
    exact this
  refine ⟨z, ?_⟩
  rw [this, ← List.length_reverse, List.take_left' rfl]

theorem take_trailer {l : List UInt8} {n : Nat} {b : UInt8} (h : l[n]? = some b) : l.take (n + 1) = l.take n ++ [b] := by
  rw [List.take_add_one, h]; rfl

/-- The T.35 messages recognised are exactly the well-formed ones. -/
theorem t35Of_iff (d : List UInt8) (t : T35) : t35Of d = some t ↔ T35Msg d t := by
  constructor
  · intro h
    unfold t35Of at h
    split at h
    · cases h
    · rename_i cc d1
      obtain ⟨z, hz⟩ := t35_split (cc :: d1)
      have hle := t35Trim_le (cc :: d1)
      generalize t35Trim (cc :: d1) = n at h hz hle
      split at h
      · rename_i hcc
        split at h
        · cases h
        · rename_i x d2
          split at h
          · cases h
          · split at h
            · rename_i hn hb
              cases h
              refine ⟨z, ?_, Or.inr ⟨x, rfl, rfl, ?_⟩⟩
              · simp only [List.length_cons] at hle
                intro h0
                have := congrArg List.length h0
                simp only [List.length_take, List.length_nil] at this
                omega
              · obtain ⟨m, rfl⟩ : ∃ m, n = m + 1 + 1 + 1 := ⟨n - 3, by omega⟩
                rw [List.take_succ_cons, List.take_succ_cons] at hz
                simp only [Nat.add_sub_cancel, show m + 1 + 1 + 1 - 3 = m by omega] at hb ⊢
                rw [take_trailer hb] at hz
                rw [← hcc]
                simpa using hz
            · cases h
      · rename_i hcc
        split at h
        · cases h
        · split at h
          · rename_i hn hb
            cases h
            refine ⟨z, ?_, Or.inl ⟨cc, hcc, rfl, rfl, ?_⟩⟩
            · simp only [List.length_cons] at hle
              intro h0
              have := congrArg List.length h0
              simp only [List.length_take, List.length_nil] at this
              omega
            · obtain ⟨m, rfl⟩ : ∃ m, n = m + 1 + 1 := ⟨n - 2, by omega⟩
              rw [List.take_succ_cons] at hz
              simp only [show m + 1 + 1 - 2 = m by omega] at hb ⊢
              rw [take_trailer hb] at hz
              simpa using hz
          · cases h
  · rintro ⟨z, hne, ⟨cc, hcc, h1, h2, rfl⟩ | ⟨x, h1, h2, rfl⟩⟩
    · have hlen : 0 < t.payload.length := List.length_pos_iff.2 hne
      have htr : t35Trim (cc :: (t.payload ++ 0x80 :: List.replicate z 0)) = t.payload.length + 2 := t35Trim_append (cc :: t.payload) z
      unfold t35Of
      simp only [hcc, if_false, htr]
      rw [if_neg (by omega), show t.payload.length + 2 - 2 = t.payload.length by omega]
      rw [List.getElem?_append_right (by omega)]
      simp only [Nat.sub_self, List.getElem?_cons_zero, if_true, List.take_left' rfl, Option.some.injEq]
      rw [← h1, ← h2]
    · have hlen : 0 < t.payload.length := List.length_pos_iff.2 hne
      have htr : t35Trim (255 :: x :: (t.payload ++ 0x80 :: List.replicate z 0)) = t.payload.length + 3 := t35Trim_append (255 :: x :: t.payload) z
      unfold t35Of
      simp only [if_true, htr]
      rw [if_neg (by omega), show t.payload.length + 3 - 3 = t.payload.length by omega]
      rw [List.getElem?_append_right (by omega)]
      simp only [Nat.sub_self, List.getElem?_cons_zero, if_true, List.take_left' rfl, Option.some.injEq]
      rw [← h1, ← h2]

/-- The switch of dav1d_parse_obus on a metadata OBU whose type is `n`, followed by the bytes `d`. -/
theorem meta_run (s : Settings) (c : Dec κ) {payload d : List UInt8} {n : Nat} (hl : lebSplit 8 payload = some (n, d)) (hn : n < 2 ^ 32)
    (t sp : Nat) (props : Props) :
    ((obuCase s c 5 t sp props).run (BitSt.init payload)).1 =
      ((if n = 1 then cllCase s c else if n = 2 then mdcvCase s c else if n = 4 then t35Case c else pure (some (c, none)) :
        Prog (CaseRes κ)).run { BitSt.init payload with rem := bytesBits d }).1 := by
  have ho : obuCase s c 5 t sp props = metaCase s c := rfl
  rw [ho]
  unfold metaCase
  simp only [Prog.run_bind]
  have herr : ∀ b : BitSt, Prog.getErr.run b = (b.err, b) := fun b => rfl
  rcases uleb_run (BitSt.init payload) payload rfl with ⟨len, r, u1, u2, u3⟩ | ⟨u1, u2⟩ | u
  · rw [hl] at u1; cases u1
    rw [u3]
    simp only [herr]
    have : (BitSt.init payload).err = false := rfl
    simp only [this, Bool.false_eq_true, if_false]
  · have := u2 _ _ hl; omega
  · simp [BitSt.init] at u

/-- A T.35 metadata OBU adds exactly its message to the pending ones: the payload between the country code and the
trailing bits. -/
theorem C15_t35 (s : Settings) (c : Dec κ) {payload d : List UInt8} (hl : lebSplit 8 payload = some (4, d)) {m : T35} (hm : T35Msg d m)
    (t sp : Nat) (props : Props) : ((obuCase s c 5 t sp props).run (BitSt.init payload)).1 =
      some ({ c with info := { c.info with t35 := c.info.t35 ++ [m] } }, none) := by
  rw [meta_run s c hl (by omega)]
  simp only [show ¬ (4 = 1) by omega, show ¬ (4 = 2) by omega, if_false, if_true]
  rw [t35Case_run c rfl, (t35Of_iff d m).2 hm]
  rfl

/-- The payload is never longer than the OBU. -/
theorem C15_t35_length {d : List UInt8} {m : T35} (h : T35Msg d m) : m.payload.length + 2 ≤ d.length := by
  obtain ⟨z, _, ⟨cc, _, _, _, rfl⟩ | ⟨x, _, _, rfl⟩⟩ := h <;> simp <;> omega

/-- A T.35 metadata OBU that is not well-formed is ignored. -/
theorem C15_t35_bad (s : Settings) (c : Dec κ) {payload d : List UInt8} (hl : lebSplit 8 payload = some (4, d)) (hm : ¬ ∃ m, T35Msg d m)
    (t sp : Nat) (props : Props) : ((obuCase s c 5 t sp props).run (BitSt.init payload)).1 = some (c, none) := by
  rw [meta_run s c hl (by omega)]
  simp only [show ¬ (4 = 1) by omega, show ¬ (4 = 2) by omega, if_false, if_true]
  rw [t35Case_run c rfl]
  cases ho : t35Of d with
  | none => rfl
  | some m => exact absurd ⟨m, (t35Of_iff d m).1 ho⟩ hm

/-- Metadata of other types is ignored. -/
theorem C15_other (s : Settings) (c : Dec κ) {payload d : List UInt8} {n : Nat} (hl : lebSplit 8 payload = some (n, d)) (hn : n < 2 ^ 32)
    (h : n ≠ 1 ∧ n ≠ 2 ∧ n ≠ 4) (t sp : Nat) (props : Props) :
    ((obuCase s c 5 t sp props).run (BitSt.init payload)).1 = some (c, none) := by
  rw [meta_run s c hl hn]
  simp [h]

theorem trailing_run (strict : Bool) {b : BitSt} {z : Nat} (hb : b.rem = true :: List.replicate z false) (he : b.err = false) :
    ((OptionT.run (checkTrailingBits strict)).run b).1 = some () := by
  have hf := Prog.reads_getFlag true b (List.replicate z false) (by rw [hb]; rfl)
  have : (checkTrailingBits strict).exec b = (some (), { b with rem := List.replicate z false }) := by
    unfold checkTrailingBits
    cases strict
    · simp only [exec_bind, flag, exec_rd, Bool.false_eq_true, if_false]
      rw [hf]
      simp [Prog.getErr, Prog.run, rejectIf, he]
    · simp only [exec_bind, flag, exec_rd, if_true]
      rw [hf]
      simp [Prog.getErr, Prog.isRestZero, Prog.run, rejectIf, he]
  have h2 : (OptionT.run (checkTrailingBits strict)).run b = _ := this
  rw [h2]

theorem getBits_step {w v : Nat} (hv : v < 2 ^ w) (n o : Nat) (e : Bool) (r : List Bool) :
    (Prog.getBits w).run ⟨n, natBits w v ++ r, o, e⟩ = (v, ⟨n, r, o, e⟩) := Prog.reads_getBits hv _ r rfl

/-- A content light level OBU (followed by trailing bits) replaces the pending value by the transmitted one. -/
theorem C15_cll (s : Settings) (c : Dec κ) {payload d : List UInt8} (hl : lebSplit 8 payload = some (1, d)) {a b z : Nat}
    (ha : a < 2 ^ 16) (hb : b < 2 ^ 16) (hd : bytesBits d = natBits 16 a ++ natBits 16 b ++ true :: List.replicate z false)
    (t sp : Nat) (props : Props) : ((obuCase s c 5 t sp props).run (BitSt.init payload)).1 =
      some ({ c with info := { c.info with cll := some ⟨a, b⟩ } }, none) := by
  rw [meta_run s c hl (by omega)]
  simp only [if_true]
  unfold cllCase
  simp only [Prog.run_bind]
  rw [List.append_assoc] at hd
  rw [hd, getBits_step ha]; simp only
  rw [getBits_step hb]; simp only
  rw [trailing_run s.strict (z := z) rfl rfl]
  rfl

/-- A mastering display OBU (followed by trailing bits) replaces the pending value by the transmitted one. -/
theorem C15_mdcv (s : Settings) (c : Dec κ) {payload d : List UInt8} (hl : lebSplit 8 payload = some (2, d))
    {x0 y0 x1 y1 x2 y2 wx wy mx mn z : Nat} (h : ∀ v ∈ [x0, y0, x1, y1, x2, y2, wx, wy], v < 2 ^ 16) (hx : mx < 2 ^ 32) (hn : mn < 2 ^ 32)
    (hd : bytesBits d = [x0, y0, x1, y1, x2, y2, wx, wy].flatMap (natBits 16) ++ natBits 32 mx ++ natBits 32 mn ++
      true :: List.replicate z false) (t sp : Nat) (props : Props) :
    ((obuCase s c 5 t sp props).run (BitSt.init payload)).1 =
      some ({ c with info := { c.info with mdcv := some (⟨[(x0, y0), (x1, y1), (x2, y2)], (wx, wy), mx, mn⟩ : MasteringDisplay) } }, none) := by
  rw [meta_run s c hl (by omega)]
  simp only [show ¬ (2 = 1) by omega, if_false, if_true]
  unfold mdcvCase
  simp only [List.mem_cons, List.not_mem_nil, or_false, forall_eq_or_imp, forall_eq] at h
  obtain ⟨g0, g1, g2, g3, g4, g5, g6, g7⟩ := h
  simp only [Prog.run_bind]
  simp only [List.flatMap_cons, List.flatMap_nil, List.append_nil, List.append_assoc] at hd
  rw [hd, getBits_step g0]; simp only
  rw [getBits_step g1]; simp only
  rw [getBits_step g2]; simp only
  rw [getBits_step g3]; simp only
  rw [getBits_step g4]; simp only
  rw [getBits_step g5]; simp only
  rw [getBits_step g6]; simp only
  rw [getBits_step g7]; simp only
  rw [getBits_step hx]; simp only
  rw [getBits_step hn]; simp only
  rw [trailing_run s.strict (z := z) rfl rfl]
  rfl

/-- Whatever a metadata OBU contains, it changes nothing but the pending metadata; if it is rejected, nothing. -/
theorem C15_isolated (s : Settings) (c : Dec κ) (payload : List UInt8) (t sp : Nat) (props : Props) :
    ∃ x, ((obuCase s c 5 t sp props).run (BitSt.init payload)).1 = some x ∧
      (x = (c, some .EINVAL) ∨ ∃ i, x = ({ c with info := i }, none)) := by
  have ho : obuCase s c 5 t sp props = metaCase s c := rfl
  rw [ho]
  unfold metaCase
  simp only [Prog.run_bind]
  have herr : ∀ b : BitSt, Prog.getErr.run b = (b.err, b) := fun b => rfl
  rcases uleb_run (BitSt.init payload) payload rfl with ⟨len, r, u1, u2, u3⟩ | ⟨u1, u2⟩ | u
  · rw [u3]
    simp only [herr]
    have : (BitSt.init payload).err = false := rfl
    simp only [this, Bool.false_eq_true, if_false]
    split
    · unfold cllCase
      simp only [Prog.run_bind]
      split
      · exact ⟨_, rfl, Or.inl rfl⟩
      · exact ⟨_, rfl, Or.inr ⟨_, rfl⟩⟩
    split
    · unfold mdcvCase
      simp only [Prog.run_bind]
      split
      · exact ⟨_, rfl, Or.inl rfl⟩
      · exact ⟨_, rfl, Or.inr ⟨_, rfl⟩⟩
    split
    · rw [t35Case_run c rfl]
      refine ⟨_, rfl, Or.inr ?_⟩
      unfold addT35
      split
      · exact ⟨c.info, rfl⟩
      · exact ⟨_, rfl⟩
    · exact ⟨_, rfl, Or.inr ⟨c.info, rfl⟩⟩
  · simp only [herr, u1, if_true]
    exact ⟨_, rfl, Or.inl rfl⟩
  · simp [BitSt.init] at u

/-- With one frame context, a picture put out by an OBU carries exactly the metadata pending then, and the T.35 messages
are used up. -/
theorem C15_attached {s : Settings} {env : Env κ} {c : Dec κ} (h1 : s.nFc = 1) (hi : s.outputInvisible = false) (hout : c.out = none)
    {props x p} (hx : finishObu s env c props = some x) (hp : x.1.out = some p) :
    p.info = c.info ∧ x.1.info = { c.info with t35 := [] } := by
  have herr : ∀ (c' : Dec κ) (i : Nat) (e : Err), (submitError s c' i props e).1.out = none := by
    intro c' i e
    unfold submitError
    dsimp only
    rw [if_pos h1]
  unfold finishObu at hx
  split at hx
  · unfold showExisting at hx
    split at hx
    · cases hx; rw [show _ = c.out from rfl, hout] at hp; cases hp
    split at hx
    · cases hx; rw [show _ = c.out from rfl, hout] at hp; cases hp
    split at hx
    · split at hx
      · cases hx; rw [show _ = c.out from rfl, hout] at hp; cases hp
      · unfold showPic at hx
        simp only [h1, if_true, setOut, hout] at hx
        split at hx <;> (cases hx; cases hp; exact ⟨rfl, rfl⟩)
    · cases hx; rw [show _ = c.out from rfl, hout] at hp; cases hp
  · rename_i q hd _ _
    split at hx
    · unfold frameComplete at hx
      split at hx
      · cases hx; rw [show _ = c.out from rfl, hout] at hp; cases hp
      split at hx
      · cases hx; rw [show _ = c.out from rfl, hout] at hp; cases hp
      have hsub : ∀ y, submitFrame s env c q hd props = some y → y.1.out = some p → p.info = c.info ∧ y.1.info = { c.info with t35 := [] } := by
        intro y hy hyp
        unfold submitFrame at hy
        dsimp only at hy
        rw [if_pos h1] at hy
        simp only at hy
        split at hy
        · cases hy; rw [herr] at hyp; cases hyp
        split at hy
        · cases hy; rw [herr] at hyp; cases hyp
        split at hy
        · cases hy; rw [herr] at hyp; cases hyp
        split at hy
        · cases hy; rw [herr] at hyp; cases hyp
        unfold submitSync afterAlloc at hy
        dsimp only at hy
        rw [hi, Bool.or_false] at hy
        by_cases hs : hd.base.showFrame = true
        · simp only [hs, if_true, setOut, hout] at hy
          split at hy
          · cases hy; rw [herr] at hyp; cases hyp
          split at hy
          · cases hy; rw [herr] at hyp; cases hyp
          · cases hy; cases hyp
            exact ⟨by simp [newPic, hs], rfl⟩
        · simp only [hs, Bool.false_eq_true, if_false] at hy
          split at hy
          · cases hy; rw [herr] at hyp; cases hyp
          split at hy
          · cases hy; rw [herr] at hyp; cases hyp
          · cases hy; rw [show _ = c.out from rfl, hout] at hyp; cases hyp
      split at hx
      · cases hx
      · rename_i he
        cases hx
        exact hsub _ he hp
      · rename_i he
        split at hx
        · cases hx
          have := hsub _ he hp
          exact this
        · cases hx
    · cases hx; rw [hout] at hp; cases hp
  · cases hx; rw [hout] at hp; cases hp

/-! ## C29 -/

/-- Only frames of a selected type are decoded. -/
theorem C29_decoded {s : Settings} {env : Env κ} {c : Dec κ} (hr : Reachable s env c) :
    ∀ f ∈ c.decoded, Selected s.decodeFrameType f.hdr := fun f hf => (hr.inv.decoded f hf).selected

/-- Only frames of a selected type are returned. -/
theorem C29_returned {s : Settings} {env : Env κ} {c c' : Dec κ} (hr : Reachable s env c) {p : Pic κ}
    (h : getPicture s env c = some (c', .ok p)) : Selected s.decodeFrameType p.hdr := by
  obtain ⟨x, e, hi, hp⟩ := hr.inv.getPicture
  rw [h] at e; cases e
  obtain ⟨p', ⟨_, f, hf, _, h2, _⟩, hfin⟩ := hp p rfl
  have : p.hdr = p'.hdr := by
    unfold finishPic at hfin
    split at hfin
    · cases hfin; rfl
    · split at hfin
      · cases hfin
      · split at hfin
        · cases hfin
        · cases hfin; rfl
  rw [this, h2]
  exact (hi.decoded f hf).selected

/-- A complete frame of a selected type whose references fit is decoded. -/
theorem C29_complete {s : Settings} {env : Env κ} {c : Dec κ} (hs : s.decodeFrameType ≤ 3) {q h} (hq : c.seq = some q)
    (hh : c.frameHdr = some (.frame h)) (ha : Accepted h) (hn : c.nTiles = h.tiling.cols * h.tiling.rows) (ht : c.tiles ≠ [])
    (hsel : Selected s.decodeFrameType h) (hfit : RefsFit q h c.refs) (ho : env.oom c.submitted = .no) {props x}
    (hx : finishObu s env c props = some x) : (⟨q, h, c.tiles, c.refs⟩ : FrameIn κ) ∈ x.1.decoded := by
  rw [C09_exactly hs hq hh ha hx, if_pos ⟨hn, ht, hsel, hfit, by simp [ho], by simp [ho]⟩]
  simp

/-- A complete frame of another type is not decoded and nothing is put out, but the reference slots it refreshes hold
its header. -/
theorem C29_skipped {s : Settings} {env : Env κ} {c : Dec κ} (hs : s.decodeFrameType ≤ 3) {q h} (hq : c.seq = some q)
    (hh : c.frameHdr = some (.frame h)) (ha : Accepted h) (hn : c.nTiles = h.tiling.cols * h.tiling.rows)
    (hsel : ¬ Selected s.decodeFrameType h) {props x} (hx : finishObu s env c props = some x) :
    x.2 = none ∧ x.1.decoded = c.decoded ∧ x.1.out = c.out ∧ x.1.ring = c.ring ∧ x.1.frameHdr = none ∧
    ∀ i, (x.1.refs i).p.hdr = if i < 8 ∧ h.refs.refreshFrameFlags.testBit i then some h else (c.refs i).p.hdr := by
  unfold finishObu at hx
  rw [hq, hh] at hx
  simp only at hx
  rw [if_pos hn] at hx
  unfold frameComplete at hx
  have : skipFrame s h = true := by
    by_contra hc
    exact hsel ((skip_iff hs ha.ok.frameType).1 (by simpa using hc))
  rw [if_pos this] at hx
  cases hx
  refine ⟨rfl, rfl, rfl, rfl, rfl, ?_⟩
  intro i
  simp only [skipRefs, refreshed, Bool.and_eq_true, decide_eq_true_eq]
  split <;> rfl

/-- Showing a frame again that was skipped does nothing. -/
theorem C29_show {s : Settings} {env : Env κ} {c : Dec κ} (hr : Reachable s env c) {q idx a b h} (hq : c.seq = some q)
    {c0 : Dec κ} (hc0 : c0 = { c with frameHdr := some (.showExisting idx a b), tiles := [], nTiles := 0 })
    (hsl : (c.refs idx).p = .hdrOnly h) (props : Props) :
    finishObu s env c0 props = some ({ c0 with frameHdr := none, nTiles := 0 }, none) := by
  have hsk := hr.inv.skipped idx h hsl
  have e1 : c0.seq = some q := by rw [hc0]; exact hq
  have e2 : c0.frameHdr = some (.showExisting idx a b) := by rw [hc0]
  have e3 : (c0.refs idx).p = .hdrOnly h := by rw [hc0]; exact hsl
  have e4 : finishObu s env c0 props = showExisting s c0 idx props := by
    unfold finishObu; rw [e1, e2]
  rw [e4]
  unfold showExisting
  rw [e3]
  simp only [RefPic.hdr]
  rw [if_pos hsk]

/-! ## C30 -/

/-- An OBU that does not belong to the operating point: neither a sequence header nor a temporal delimiter, with an
extension, and the scalability information `idc` (non-zero) lacks its temporal or spatial layer. -/
def OutsideOp (idc : Nat) (h : ObuHdr) : Prop :=
  h.type ≠ 1 ∧ h.type ≠ 2 ∧ h.ext = true ∧ idc ≠ 0 ∧ ¬ (idc.testBit h.temporalId = true ∧ idc.testBit (h.spatialId + 8) = true)

theorem dropObu_iff (idc : Nat) (h : ObuHdr) : dropObu idc h = true ↔ OutsideOp idc h := by
  unfold dropObu OutsideOp
  simp only [Nat.testBit_eq_decide_div_mod_eq, Bool.and_eq_true, bne_iff_ne, Bool.or_eq_true, beq_iff_eq, decide_eq_true_eq, ne_eq]
  have e1 := Nat.mod_two_eq_zero_or_one (idc / 2 ^ h.temporalId)
  have e2 := Nat.mod_two_eq_zero_or_one (idc / 2 ^ (h.spatialId + 8))
  constructor
  · rintro ⟨⟨⟨⟨h1, h2⟩, h3⟩, h4⟩, h5⟩
    exact ⟨h1, h2, h3, h4, by omega⟩
  · rintro ⟨h1, h2, h3, h4, h5⟩
    exact ⟨⟨⟨⟨h1, h2⟩, h3⟩, h4⟩, by omega⟩

/-- The scalability information used is that of the operating point asked for (the first one if there are not that
many). -/
theorem C30_idc {s : Settings} {env : Env κ} {c : Dec κ} (hr : Reachable s env c) {q} (hq : c.seq = some q) :
    c.opIdc = ((if s.operatingPoint < q.ops.length then q.ops[s.operatingPoint]? else q.ops[0]?).map (·.idc)).getD 0 :=
  (hr.inv.op q hq).1

/-- An OBU outside the operating point is dropped without any effect. -/
theorem C30_dropped {s : Settings} {env : Env κ} {c : Dec κ} (hr : Reachable s env c) {pkt : Packet} {o rest}
    (hsp : splitObu pkt.data = some (o, rest)) (hf : s.strict = true → obuForbidden pkt.data = false)
    (h : OutsideOp c.opIdc (obuHdrOf pkt.data)) :
    parseObus s env c pkt = some (c, .ok (pkt.data.length - rest.length)) := by
  have hp : pkt.data ≠ [] := by intro h0; rw [h0] at hsp; cases hsp
  rw [parseObus_eq s env hr.inv.ok pkt hp]
  unfold stepObu
  rw [hsp]
  simp only
  rw [if_neg (by intro hx; simp at hx; rw [hf hx.1] at hx; simp at hx), if_pos ((dropObu_iff _ _).2 h)]

/-- Any other OBU is interpreted: the outcome is that of the switch on its payload. -/
theorem C30_kept {s : Settings} {env : Env κ} {c : Dec κ} (hr : Reachable s env c) {pkt : Packet} {o rest}
    (hsp : splitObu pkt.data = some (o, rest)) (hf : s.strict = true → obuForbidden pkt.data = false)
    (h : ¬ OutsideOp c.opIdc (obuHdrOf pkt.data)) {c' e} (hc : ((obuCase s c o.type (obuHdrOf pkt.data).temporalId
      (obuHdrOf pkt.data).spatialId pkt.props).run (BitSt.init o.payload)).1 = some (c', e)) :
    parseObus s env c pkt = match (generalizing := false) e with
      | some e => some (if e = .ERANGE then c' else { c' with errProps := some pkt.props }, .error e)
      | none => (finishObu s env c' pkt.props).map (fun x => (x.1, match x.2 with
          | some e => .error e
          | none => .ok (pkt.data.length - rest.length))) := by
  have hp : pkt.data ≠ [] := by intro h0; rw [h0] at hsp; cases hsp
  rw [parseObus_eq s env hr.inv.ok pkt hp]
  unfold stepObu
  rw [hsp]
  simp only
  rw [if_neg (by intro hx; simp at hx; rw [hf hx.1] at hx; simp at hx),
    if_neg (fun hx => h ((dropObu_iff _ _).1 hx)), hc]
  cases e with
  | some e => rfl
  | none =>
    simp only
    cases finishObu s env c' pkt.props with
    | none => rfl
    | some x =>
      obtain ⟨x, e⟩ := x
      cases e <;> rfl

/-- The highest spatial layer is the position of the highest spatial bit of the scalability information, and zero if
there is none. -/
theorem C30_max_spatial {s : Settings} {env : Env κ} {c : Dec κ} (hr : Reachable s env c) (hq : c.seq.isSome = true) :
    (∀ m, c.opIdc.testBit (m + 8) = true → m ≤ c.maxSpatialId) ∧
    (c.opIdc.testBit (c.maxSpatialId + 8) = true ∨ (c.maxSpatialId = 0 ∧ ∀ m, c.opIdc.testBit (m + 8) = false)) := by
  obtain ⟨q, hq⟩ := Option.isSome_iff_exists.1 hq
  have := (hr.inv.op q hq).2
  rw [this]
  unfold maxSpatialOf
  have hsh : ∀ m, c.opIdc.testBit (m + 8) = (c.opIdc / 256).testBit m := by
    intro m
    rw [show 256 = 2 ^ 8 from rfl, Nat.testBit_div_two_pow]
  split
  · rename_i h0
    refine ⟨fun m hm => ?_, Or.inr ⟨rfl, fun m => ?_⟩⟩
    · rw [hsh, h0] at hm; simp at hm
    · rw [hsh, h0]; simp
  · rename_i h0
    refine ⟨fun m hm => ?_, Or.inl ?_⟩
    · rw [hsh] at hm
      exact (Nat.le_log2 h0).2 (Nat.ge_two_pow_of_testBit hm)
    · rw [hsh]
      exact Nat.testBit_log2 h0

/-! ## The hypotheses can be met -/

/-- The context after some calls. -/
def after (s : Settings) (l : List Call) : Option (Dec UInt8) := (session s demoEnv Dec.init l).map (·.1)

theorem after_reachable {s : Settings} {l : List Call} {c : Dec UInt8} (h : after s l = some c) : Reachable s demoEnv c := by
  unfold after at h
  rw [Option.map_eq_some_iff] at h
  obtain ⟨⟨c', r⟩, h1, h2⟩ := h
  cases h2
  exact ⟨l, r, h1⟩

/-- A packet with a key frame; one with a second frame of two tile groups. -/
def keyPkt : List UInt8 := tdObu ++ seqObu ++ frameObu demoKeyBits [7, 8]
def interPkt : List UInt8 := tdObu ++ hdrObu (interBits 1 1 true) ++ groupObu 1 0 0 [9] ++ groupObu 1 1 1 [10]

-- C06: a good packet, a packet with bytes left after the first picture, a truncated one, garbage
example : run {} [send 1 keyPkt, .get, send 2 interPkt, .get] = some [.sent none false, .pic 7, .sent none false, .pic 9] := by
  decide +kernel
example : (after {} [send 1 (keyPkt ++ interPkt)]).map (fun c => (c.out.isSome, c.input.map (·.data))) = some (true, some interPkt) := by
  decide +kernel
example : run {} [send 1 (keyPkt.take 12)] = some [.sent (some .EINVAL) true] := by decide +kernel
example : run {} [send 1 [0xFF, 0xFF, 0xFF, 0xFF]] = some [.sent (some .EINVAL) true] := by decide +kernel
-- C06_step, C06_consumed, C30: the context after the key frame was taken
theorem demo_taken : (after {} [send 1 keyPkt, .get]).isSome = true := by decide +kernel
example : Reachable {} demoEnv ((after {} [send 1 keyPkt, .get]).get demo_taken) ∧
    ((after {} [send 1 keyPkt, .get]).get demo_taken).out.isNone = true ∧
    ((parseObus {} demoEnv ((after {} [send 1 keyPkt, .get]).get demo_taken) ⟨interPkt, 2⟩).map (fun x => x.2.toOption)) = some (some 2) :=
  ⟨after_reachable (Option.some_get _).symm, by decide +kernel, by decide +kernel⟩
-- C07: 352x288 is decoded with a limit of 101376 pixels, and rejected with one less
example : (after { frameSizeLimit := 101376 } [send 1 keyPkt]).map (fun c => c.decoded.map (fun f =>
    f.hdr.refs.size.width1 * f.hdr.refs.size.height)) = some [101376] := by decide +kernel
example : run { frameSizeLimit := 101375 } [send 1 keyPkt] = some [.sent (some .ERANGE) true] := by decide +kernel
-- C09: groups of a submitted frame and of an unfinished one; a group out of order; a group in the wrong order
example : (after {} [send 1 keyPkt, .get, send 2 interPkt]).map (fun c => c.decoded.map (fun f => f.tiles.map (fun g => (g.first, g.last)))) =
    some [[(0, 1)], [(0, 0), (1, 1)]] := by decide +kernel
example : (after {} [send 1 keyPkt, .get, send 2 (tdObu ++ hdrObu (interBits 1 1 true) ++ groupObu 1 0 0 [9])]).map (fun c =>
    (c.nTiles, c.tiles.map (fun g => (g.first, g.last)), c.decoded.length)) = some (1, [(0, 0)], 1) := by decide +kernel
example : run {} [send 1 keyPkt, .get, send 2 (tdObu ++ hdrObu (interBits 1 1 true) ++ groupObu 1 1 1 [9])] =
    some [.sent none false, .pic 7, .sent (some .EINVAL) true] := by decide +kernel
example : bytesBits (toBytes ([true] ++ natBits 3 2 ++ natBits 3 5) ++ [9, 9]) =
    [true] ++ natBits 3 2 ++ natBits 3 5 ++ [false] ++ bytesBits [9, 9] := by decide +kernel
-- C15: a T.35 message with and without extension byte, an empty one, light levels, mastering display
example : T35Msg [0xB5, 1, 2, 3, 0x80, 0, 0] ⟨0xB5, 0, [1, 2, 3]⟩ := ⟨2, by simp, Or.inl ⟨0xB5, by decide, rfl, rfl, rfl⟩⟩
example : T35Msg [0xFF, 7, 1, 0x80, 0x80] ⟨0xFF, 7, [1, 0x80]⟩ := ⟨0, by simp, Or.inr ⟨7, rfl, rfl, rfl⟩⟩
example : ¬ ∃ m, T35Msg [0xB5, 0x80] m := by
  rintro ⟨m, h⟩
  have h1 := C15_t35_length h
  obtain ⟨z, hne, _⟩ := h
  have h2 := List.length_pos_iff.2 hne
  simp only [List.length_cons, List.length_nil] at h1
  omega
example : bytesBits [3, 0xE8, 1, 0x90, 0x80] = natBits 16 1000 ++ natBits 16 400 ++ true :: List.replicate 7 false := by decide +kernel
example : ((after {} [send 1 (tdObu ++ seqObu ++ obu 5 [4, 0xB5, 1, 2, 0x80] ++ obu 5 [1, 3, 0xE8, 1, 0x90, 0x80] ++
      obu 5 ([2] ++ List.replicate 24 1 ++ [0x80]) ++ frameObu demoKeyBits [7, 8])]).bind (·.out)).map (fun p => p.info) =
    some { cll := some ⟨1000, 400⟩
           mdcv := some ⟨[(257, 257), (257, 257), (257, 257)], (257, 257), 16843009, 16843009⟩
           t35 := [⟨0xB5, 0, [1, 2]⟩] } := by decide +kernel
-- C29: only key frames; a skipped hidden frame that is shown later
example : run { decodeFrameType := 3 } [send 1 keyPkt, .get, send 2 interPkt, .get] = some [.sent none false, .pic 7, .sent none false, .err .EAGAIN] := by
  decide +kernel
example : run {} [send 1 keyPkt, .get, send 2 (tdObu ++ frameObu (interBits 1 4 false) [9]), .get, send 3 (tdObu ++ showObu 2), .get] =
    some [.sent none false, .pic 7, .sent none false, .err .EAGAIN, .sent none false, .pic 9] := by decide +kernel
example : run { decodeFrameType := 3 } [send 1 keyPkt, .get, send 2 (tdObu ++ frameObu (interBits 1 4 false) [9]), .get, send 3 (tdObu ++ showObu 2), .get] =
    some [.sent none false, .pic 7, .sent none false, .err .EAGAIN, .sent none false, .err .EAGAIN] := by decide +kernel
-- C30: two operating points; a frame of spatial layer 1 is dropped for the second one
example : OutsideOp 0x103 ⟨6, true, true, 0, 1⟩ := ⟨by decide, by decide, rfl, by decide, by decide⟩
example : ¬ OutsideOp 0x303 ⟨6, true, true, 0, 1⟩ := fun h => h.2.2.2.2 (by decide)
example : obuHdrOf (obuX 6 0 1 [1, 2]) = ⟨6, true, true, 0, 1⟩ ∧ (splitObu (obuX 6 0 1 [1, 2])).isSome = true := by decide +kernel

end Dav1d
