import Verif.Decode.TileData
import Verif.Api.OrderProps
/-!
# C10: splitting tile groups into tiles
-/
namespace Dav1d
variable {κ : Type}

/-- The number written with the least significant byte first. -/
def leVal : List UInt8 → Nat
  | [] => 0
  | b :: l => b.toNat + 256 * leVal l

/-- The payload of a tile group consists of these tiles: all but the last one are preceded by their size minus one,
in `nb` bytes (AV1 specification 5.11.1). -/
inductive Split (nb : Nat) : List UInt8 → List (List UInt8) → Prop
  | last (t) : Split nb t [t]
  | cons (s t rest : List UInt8) (ts) : s.length = nb → t.length = leVal s + 1 → Split nb rest ts → Split nb (s ++ t ++ rest) (t :: ts)

/-- The byte ranges of consecutive tiles from position `off` of a payload of `len` bytes: in order, disjoint with
exactly the size field between them, and the last one reaches to the end. -/
def Ranges (nb len : Nat) : Nat → List TileSetup → Prop
  | _, [] => False
  | off, [t] => t.off = off ∧ off + t.size = len
  | off, t :: l => t.off = off + nb ∧ 0 < t.size ∧ Ranges nb len (off + nb + t.size) l

/-- The bytes of a tile. -/
def TileSetup.bytes (data : List UInt8) (t : TileSetup) : List UInt8 := (data.drop t.off).take t.size

/-- The tiles are numbered from `j` on and lie in the rows and columns in raster order. -/
def Numbered (cols : Nat) : Nat → List TileSetup → Prop
  | _, [] => True
  | j, t :: l => t.index = j ∧ t.row = j / cols ∧ t.col = j % cols ∧ Numbered cols (j + 1) l

theorem leVal_lt (l : List UInt8) : leVal l < 256 ^ l.length := by
  induction l with
  | nil => simp [leVal]
  | cons b l ih =>
    have := b.toNat_lt
    simp only [leVal, List.length_cons, Nat.pow_succ]
    omega

theorem readTileSize_eq (data : List UInt8) (off n : Nat) : ∀ k, k + n ≤ 4 → off + k + n ≤ data.length →
    readTileSize data off k n = some (256 ^ k * leVal ((data.drop (off + k)).take n)) := by
  induction n with
  | zero => intro k _ _; simp [readTileSize, leVal]
  | succ n ih =>
    intro k hk hl
    have hlt : off + k < data.length := by omega
    rw [readTileSize, List.getElem?_eq_getElem hlt]
    dsimp only
    rw [ih (k + 1) (by omega) (by omega), Option.map_some, List.drop_eq_getElem_cons hlt, List.take_succ_cons, leVal]
    have hb := (data[off + k]).toNat_lt
    have h1 : (data[off + k]).toNat <<< (k * 8) = 256 ^ k * (data[off + k]).toNat := by
      rw [Nat.shiftLeft_eq, Nat.mul_comm k 8, Nat.pow_mul, Nat.mul_comm]
    have h2 : 256 ^ k * (data[off + k]).toNat < 2 ^ (8 * (k + 1)) := by
      rw [Nat.pow_mul, Nat.pow_succ]
      exact Nat.mul_lt_mul_of_pos_left hb (Nat.pow_pos (by omega))
    have h3 : (2 : Nat) ^ (8 * (k + 1)) ≤ 2 ^ 32 := Nat.pow_le_pow_right (by omega) (by omega)
    rw [h1, Nat.mod_eq_of_lt (Nat.lt_of_lt_of_le h2 h3)]
    have h4 : 256 ^ (k + 1) * leVal ((data.drop (off + (k + 1))).take n) = leVal ((data.drop (off + (k + 1))).take n) <<< (8 * (k + 1)) := by
      rw [Nat.shiftLeft_eq, Nat.pow_mul, Nat.mul_comm]
    rw [Nat.or_comm, h4, ← Nat.shiftLeft_add_eq_or_of_lt h2, ← h4]
    congr 1
    rw [Nat.pow_succ, Nat.mul_add, show off + (k + 1) = off + k + 1 by omega]
    ring

/-- The position before tile `j`. -/
def posAt (h : FrameHdr) (j : Nat) (u : Bool) : TilePos := ⟨j / h.tiling.cols, j % h.tiling.cols, u⟩

theorem posAt_next (h : FrameHdr) (hc : 0 < h.tiling.cols) (j : Nat) (u : Bool) :
    (posAt h j u).next h j = posAt h (j + 1) (u || (j == h.tiling.update && h.refreshContext)) := by
  unfold posAt TilePos.next
  have hm := Nat.mod_lt j hc
  dsimp only
  by_cases he : j % h.tiling.cols + 1 = h.tiling.cols
  · rw [if_pos he, if_pos he]
    have h1 : j + 1 = h.tiling.cols * (j / h.tiling.cols + 1) := by
      have := Nat.div_add_mod j h.tiling.cols
      rw [Nat.mul_add]; omega
    have h2 : (j + 1) / h.tiling.cols = j / h.tiling.cols + 1 := by rw [h1]; exact Nat.mul_div_cancel_left _ hc
    have h3 : (j + 1) % h.tiling.cols = 0 := by rw [h1]; exact Nat.mul_mod_right _ _
    rw [h2, h3]
  · rw [if_neg he, if_neg he]
    have h1 : j + 1 = h.tiling.cols * (j / h.tiling.cols) + (j % h.tiling.cols + 1) := by
      have := Nat.div_add_mod j h.tiling.cols
      omega
    have h2 : (j + 1) / h.tiling.cols = j / h.tiling.cols := by
      rw [h1, Nat.mul_add_div hc, Nat.div_eq_of_lt (show j % h.tiling.cols + 1 < h.tiling.cols by omega), Nat.add_zero]
    have h3 : (j + 1) % h.tiling.cols = j % h.tiling.cols + 1 := by
      rw [h1, Nat.mul_add_mod, Nat.mod_eq_of_lt (show j % h.tiling.cols + 1 < h.tiling.cols by omega)]
    rw [h2, h3]

/-- Tables as long as needed. -/
structure TablesOk (h : FrameHdr) : Prop where
  cols : 0 < h.tiling.cols
  colStart : h.tiling.colStart.length = h.tiling.cols + 1
  rowStart : h.tiling.rowStart.length = h.tiling.rows + 1
  nBytes : 1 < h.tiling.cols * h.tiling.rows → h.tiling.nBytes ≤ 4

theorem posAt_inRange {h : FrameHdr} (ht : TablesOk h) {j : Nat} (hj : j < h.tiling.cols * h.tiling.rows) (u : Bool) :
    setupInRange h (posAt h j u) j = true := by
  have h1 := Nat.mod_lt j ht.cols
  have h2 : j / h.tiling.cols < h.tiling.rows := Nat.div_lt_of_lt_mul hj
  unfold setupInRange posAt
  simp only [Bool.and_eq_true, decide_eq_true_eq, List.getElem?_eq_getElem (show j % h.tiling.cols + 1 < h.tiling.colStart.length by rw [ht.colStart]; omega),
    List.getElem?_eq_getElem (show j / h.tiling.cols + 1 < h.tiling.rowStart.length by rw [ht.rowStart]; omega), Option.isSome_some, and_self, and_true]
  exact hj

/-- Whether the tile to keep the CDFs of is among the tiles from `j` to before `j + n`. -/
def sawUpdate (h : FrameHdr) (j n : Nat) : Bool := decide (j ≤ h.tiling.update ∧ h.tiling.update < j + n) && h.refreshContext

theorem sawUpdate_succ (h : FrameHdr) (j n : Nat) (u : Bool) :
    (u || (j == h.tiling.update && h.refreshContext) || sawUpdate h (j + 1) n) = (u || sawUpdate h j (n + 1)) := by
  unfold sawUpdate
  rw [Bool.or_assoc]
  congr 1
  cases h.refreshContext with
  | false => simp
  | true =>
    simp only [Bool.and_true]
    by_cases h1 : j = h.tiling.update
    · simp [h1]
    · rw [show (j == h.tiling.update) = false by simpa using h1, Bool.false_or, decide_eq_decide]
      omega

theorem Split.ne_nil {nb : Nat} {d ts} (h : Split nb d ts) : ts ≠ [] := by cases h <;> simp

theorem splitGroup_spec {h : FrameHdr} (ht : TablesOk h) (i : Nat) (data : List UInt8) (n : Nat) : ∀ (j off size : Nat) (u : Bool),
    j + (n + 1) ≤ h.tiling.cols * h.tiling.rows → off + size = data.length →
    (∃ l, splitGroup h i data (n + 1) j off size (posAt h j u) = some (.ok (l, posAt h (j + (n + 1)) (u || sawUpdate h j (n + 1)))) ∧ l.length = n + 1 ∧
      Numbered h.tiling.cols j l ∧ (∀ t ∈ l, t.group = i) ∧ Ranges h.tiling.nBytes data.length off l ∧ Split h.tiling.nBytes (data.drop off) (l.map (TileSetup.bytes data))) ∨
    (splitGroup h i data (n + 1) j off size (posAt h j u) = some (.error ()) ∧ ¬∃ ts, ts.length = n + 1 ∧ Split h.tiling.nBytes (data.drop off) ts) := by
  induction n with
  | zero =>
    intro j off size u hj hsz
    refine Or.inl ⟨[⟨j, j / h.tiling.cols, j % h.tiling.cols, i, off, size⟩], ?_, rfl, ⟨rfl, rfl, rfl, trivial⟩, fun t ht => (by rw [List.mem_singleton.1 ht]), ⟨rfl, hsz⟩, ?_⟩
    · rw [splitGroup, if_pos (posAt_inRange ht (by omega) u), posAt_next h ht.cols]
      rw [show (u || sawUpdate h j (0 + 1)) = (u || (j == h.tiling.update && h.refreshContext)) by
        rw [← sawUpdate_succ]; unfold sawUpdate
        rw [decide_eq_false (by omega)]; simp]
      rfl
    · have : (data.drop off).take size = data.drop off := List.take_of_length_le (by rw [List.length_drop]; omega)
      simp only [List.map_cons, List.map_nil, TileSetup.bytes, this]
      exact Split.last _
  | succ n ih =>
    intro j off size u hj hsz
    have hnb := ht.nBytes (by omega)
    rw [splitGroup]
    have hlen : (data.drop off).length = size := by rw [List.length_drop]; omega
    by_cases h1 : h.tiling.nBytes > size
    · rw [if_pos h1]
      refine Or.inr ⟨rfl, ?_⟩
      rintro ⟨ts, hl, hs⟩
      generalize hdd : data.drop off = dd at hs
      cases hs with
      | last => simp at hl
      | cons s t rest ts a b c =>
        have := congrArg List.length hdd
        simp only [List.length_append] at this
        omega
    · rw [if_neg h1, readTileSize_eq data off h.tiling.nBytes 0 (by omega) (by omega)]
      dsimp only
      simp only [Nat.pow_zero, Nat.one_mul, Nat.add_zero]
      generalize hz : leVal ((data.drop off).take h.tiling.nBytes) = z
      by_cases h2 : z + 1 > size - h.tiling.nBytes
      · rw [if_pos h2]
        refine Or.inr ⟨rfl, ?_⟩
        rintro ⟨ts, hl, hs⟩
        generalize hdd : data.drop off = dd at hs
        cases hs with
        | last => simp at hl
        | cons s t rest ts a b c =>
          have e1 : leVal s = z := by
            rw [← hz, hdd, List.append_assoc, List.take_append_of_le_length (by omega), List.take_of_length_le (by omega)]
          have := congrArg List.length hdd
          simp only [List.length_append] at this
          omega
      · rw [if_neg h2, posAt_inRange ht (by omega) u]
        simp only [Bool.not_true, Bool.false_eq_true, if_false]
        rw [posAt_next h ht.cols]
        have hdrop : ∀ {s t rest : List UInt8}, data.drop off = s ++ t ++ rest → s.length = h.tiling.nBytes → t.length = leVal s + 1 →
            leVal s = z ∧ data.drop (off + h.tiling.nBytes + (z + 1)) = rest := by
          intro s t rest hdd a b
          have e1 : leVal s = z := by
            rw [← hz, hdd, List.append_assoc, List.take_append_of_le_length (by omega), List.take_of_length_le (by omega)]
          refine ⟨e1, ?_⟩
          rw [Nat.add_assoc, ← List.drop_drop, hdd, List.drop_append_of_le_length (by simp; omega), List.drop_of_length_le (by simp; omega)]
          rfl
        rcases ih (j + 1) (off + h.tiling.nBytes + (z + 1)) (size - h.tiling.nBytes - (z + 1)) (u || (j == h.tiling.update && h.refreshContext)) (by omega) (by omega) with
          ⟨l, e, l1, l2, l3, l4, l5⟩ | ⟨e, hne⟩
        · rw [e]
          refine Or.inl ⟨⟨j, j / h.tiling.cols, j % h.tiling.cols, i, off + h.tiling.nBytes, z + 1⟩ :: l, ?_, by rw [List.length_cons, l1], ⟨rfl, rfl, rfl, l2⟩,
            fun t ht => by rcases List.mem_cons.1 ht with rfl | ht; exacts [rfl, l3 t ht], ?_, ?_⟩
          · dsimp only
            rw [sawUpdate_succ, show j + 1 + (n + 1) = j + (n + 1 + 1) by omega]
            rfl
          · cases l with
            | nil => cases l1
            | cons t l => exact ⟨rfl, Nat.succ_pos _, l4⟩
          · have : data.drop off = (data.drop off).take h.tiling.nBytes ++ (data.drop (off + h.tiling.nBytes)).take (z + 1) ++ data.drop (off + h.tiling.nBytes + (z + 1)) := by
              rw [← List.drop_drop (i := z + 1), List.append_assoc, List.take_append_drop, ← List.drop_drop, List.take_append_drop]
            rw [this]
            refine Split.cons _ _ _ _ (by rw [List.length_take, hlen]; omega) ?_ l5
            rw [hz, List.length_take, List.length_drop]; omega
        · rw [e]
          refine Or.inr ⟨rfl, ?_⟩
          rintro ⟨ts, hl, hs⟩
          generalize hdd : data.drop off = dd at hs
          cases hs with
          | last => simp at hl
          | cons s t rest ts a b c =>
            obtain ⟨_, e2⟩ := hdrop hdd a b
            exact hne ⟨ts, by simpa using hl, by rw [e2]; exact c⟩

/-- The tiles of each group, in order. -/
inductive GroupsSplit (nb : Nat) : Nat → List TileGroup → List TileSetup → Prop
  | nil (i) : GroupsSplit nb i [] []
  | cons (i g gs l ls) : l.length = g.last + 1 - g.first → (∀ t ∈ l, t.group = i) → Ranges nb g.data.length 0 l →
      Split nb g.data (l.map (TileSetup.bytes g.data)) → GroupsSplit nb (i + 1) gs ls → GroupsSplit nb i (g :: gs) (l ++ ls)

theorem Numbered.append {cols : Nat} {l m : List TileSetup} : ∀ {j : Nat}, Numbered cols j l → Numbered cols (j + l.length) m → Numbered cols j (l ++ m) := by
  induction l with
  | nil => intro j _ h; exact h
  | cons t l ih =>
    intro j h1 h2
    exact ⟨h1.1, h1.2.1, h1.2.2.1, ih h1.2.2.2 (by rw [List.length_cons, ← Nat.add_assoc] at h2; rw [Nat.add_right_comm]; exact h2)⟩

theorem Covers.le {l : List TileGroup} : ∀ {a b : Nat}, Covers l a b → a ≤ b := by
  induction l with
  | nil => intro a b h; exact Nat.le_of_eq h
  | cons g l ih => intro a b h; have := ih h.2.2; have := h.1; have := h.2.1; omega

theorem splitGroups_spec {h : FrameHdr} (ht : TablesOk h) (gs : List TileGroup) : ∀ (i a : Nat) (u : Bool), Covers gs a (h.tiling.cols * h.tiling.rows) →
    (∃ l, splitGroups h i gs (posAt h a u) = some (.ok (l, posAt h (h.tiling.cols * h.tiling.rows) (u || sawUpdate h a (h.tiling.cols * h.tiling.rows - a)))) ∧
      a + l.length = h.tiling.cols * h.tiling.rows ∧ Numbered h.tiling.cols a l ∧ GroupsSplit h.tiling.nBytes i gs l) ∨
    (splitGroups h i gs (posAt h a u) = some (.error ()) ∧ ∃ g ∈ gs, ¬∃ ts, ts.length = g.last + 1 - g.first ∧ Split h.tiling.nBytes g.data ts) := by
  induction gs with
  | nil =>
    intro i a u hc
    have hc : a = _ := hc
    refine Or.inl ⟨[], ?_, by simpa using hc, trivial, .nil _⟩
    rw [hc, Nat.sub_self]
    unfold sawUpdate
    rw [decide_eq_false (by omega)]
    simp [splitGroups]
  | cons g gs ih =>
    intro i a u hc
    obtain ⟨h1, h2, h3⟩ := hc
    have hle := h3.le
    have hn : g.last + 1 - g.first = (g.last - g.first) + 1 := by omega
    unfold splitGroups
    rw [hn, h1]
    rcases splitGroup_spec ht i g.data (g.last - a) a 0 g.data.length u (by omega) (by omega) with ⟨l, e, l1, l2, l3, l4, l5⟩ | ⟨e, hne⟩
    · rw [← h1] at e ⊢
      rw [e]
      dsimp only
      rw [show g.first + (g.last - g.first + 1) = g.last + 1 by omega]
      rcases ih (i + 1) (g.last + 1) (u || sawUpdate h g.first (g.last - g.first + 1)) h3 with ⟨m, e2, m1, m2, m3⟩ | ⟨e2, g', hg', hne⟩
      · rw [e2]
        refine Or.inl ⟨l ++ m, ?_, by rw [List.length_append]; omega, Numbered.append (by rw [h1]; exact l2) (by rw [l1, ← h1, show g.first + (g.last - g.first + 1) = g.last + 1 by omega]; exact m2),
          .cons i g gs l m (by rw [l1]; omega) l3 (by simpa using l4) (by simpa using l5) m3⟩
        dsimp only
        have hu : (u || sawUpdate h g.first (g.last - g.first + 1) || sawUpdate h (g.last + 1) (h.tiling.cols * h.tiling.rows - (g.last + 1))) =
            (u || sawUpdate h g.first (h.tiling.cols * h.tiling.rows - g.first)) := by
          rw [Bool.or_assoc]
          congr 1
          unfold sawUpdate
          cases h.refreshContext
          · simp
          · simp only [Bool.and_true, ← Bool.decide_or, decide_eq_decide]
            omega
        rw [hu]
      · rw [e2]
        exact Or.inr ⟨rfl, g', List.mem_cons_of_mem _ hg', hne⟩
    · rw [e]
      refine Or.inr ⟨rfl, g, List.mem_cons_self, ?_⟩
      rw [hn, h1]
      exact hne

theorem submittable_tables {s : Settings} {f : FrameIn κ} (hf : Submittable s f) :
    TablesOk f.hdr ∧ f.hdr.tiling.update < f.hdr.tiling.cols * f.hdr.tiling.rows := by
  obtain ⟨c, b, b', hc, _, he⟩ := hf.hdr
  have ht := C08_layout c hc b b' f.hdr he
  have hu := ht.update
  exact ⟨⟨Nat.pos_of_ne_zero (fun h => by rw [h, Nat.zero_mul] at hu; omega), ht.cols.length, ht.rows.length, fun h => (ht.nBytes h).2⟩, hu⟩

/-- C10 except that the last tile of a group may be empty: setting up the tiles of a submitted frame touches no byte
outside the tile groups. Either every tile of the frame is set up exactly once, in raster order, tile groups one after
the other, each group's payload being its tiles with size fields before all but the last (`Split`, `Ranges`), and
the CDFs of the tile named in the header are kept if the header asks for it; or some group is not made up that way, and
the frame fails. -/
theorem C10_tiles_partial {s : Settings} {env : Env κ} {c : Dec κ} (hr : Reachable s env c) {f : FrameIn κ} (hf : f ∈ c.decoded) :
    (∃ l, initTiles f = some (.ok (l, f.hdr.refreshContext)) ∧ l.length = f.hdr.tiling.cols * f.hdr.tiling.rows ∧
      Numbered f.hdr.tiling.cols 0 l ∧ GroupsSplit f.hdr.tiling.nBytes 0 f.tiles l) ∨
    (initTiles f = some (.error ()) ∧ ∃ g ∈ f.tiles, ¬∃ ts, ts.length = g.last + 1 - g.first ∧ Split f.hdr.tiling.nBytes g.data ts) := by
  have hs := hr.inv.decoded f hf
  obtain ⟨ht, hu⟩ := submittable_tables hs
  have h0 : ({} : TilePos) = posAt f.hdr 0 false := by
    unfold posAt; rw [Nat.zero_div, Nat.zero_mod]
  unfold initTiles
  rw [h0]
  rcases splitGroups_spec ht f.tiles 0 0 false hs.tiles with ⟨l, e, h1, h2, h3⟩ | ⟨e, h⟩
  · rw [e]
    refine Or.inl ⟨l, ?_, by omega, h2, h3⟩
    have : sawUpdate f.hdr 0 (f.hdr.tiling.cols * f.hdr.tiling.rows - 0) = f.hdr.refreshContext := by
      unfold sawUpdate
      rw [decide_eq_true (by omega), Bool.true_and]
    rw [Bool.false_or, this]
    rfl
  · rw [e]
    exact Or.inr ⟨rfl, h⟩

/-- What `Ranges` says about two tiles and about each tile: in order and disjoint, and inside the payload. -/
theorem Ranges.bounds {nb len : Nat} {l : List TileSetup} : ∀ {off : Nat}, Ranges nb len off l → ∀ t ∈ l, off ≤ t.off ∧ t.off + t.size ≤ len := by
  induction l with
  | nil => intro off h; cases h
  | cons a l ih =>
    intro off h t ht
    cases l with
    | nil =>
      rw [List.mem_singleton] at ht
      subst ht
      have h1 : t.off = off := h.1
      have h2 : off + t.size = len := h.2
      omega
    | cons b l =>
      have h1 : a.off = off + nb := h.1
      have h3 : Ranges nb len (off + nb + a.size) (b :: l) := h.2.2
      have hb := ih h3 b List.mem_cons_self
      rcases List.mem_cons.1 ht with rfl | ht
      · omega
      · have := ih h3 t ht
        omega

theorem Ranges.disjoint {nb len : Nat} {l : List TileSetup} : ∀ {off : Nat}, Ranges nb len off l → l.Pairwise (fun a b => a.off + a.size ≤ b.off) := by
  induction l with
  | nil => intro off h; cases h
  | cons a l ih =>
    intro off h
    cases l with
    | nil => exact List.pairwise_singleton _ _
    | cons b l =>
      have h1 : a.off = off + nb := h.1
      have h3 : Ranges nb len (off + nb + a.size) (b :: l) := h.2.2
      refine List.pairwise_cons.2 ⟨fun t ht => ?_, ih h3⟩
      have := h3.bounds t ht
      omega

/-- Only one way of splitting a payload into a given number of tiles exists. -/
theorem Split.unique {nb : Nat} {d : List UInt8} {ts : List (List UInt8)} (h : Split nb d ts) : ∀ {us}, Split nb d us → us.length = ts.length → us = ts := by
  induction h with
  | last t =>
    intro us hu hl
    cases hu with
    | last => rfl
    | cons s t rest us _ _ hu => have := hu.ne_nil; cases us with | nil => exact absurd rfl this | cons => simp at hl
  | cons s t rest ts a b c ih =>
    intro us hu hl
    generalize hd : s ++ t ++ rest = d at hu
    cases hu with
    | last => have := c.ne_nil; cases ts with | nil => exact absurd rfl this | cons => simp at hl
    | cons s' t' rest' us a' b' hu =>
      rw [List.append_assoc, List.append_assoc] at hd
      obtain ⟨e1, e2⟩ := List.append_inj hd (by omega)
      subst e1
      obtain ⟨e3, e4⟩ := List.append_inj e2 (by omega)
      subst e3 e4
      rw [ih hu (by simpa using hl)]

/-- A packet with a key frame of two tiles in one tile group. -/
def tilesPkt (d : List UInt8) : List UInt8 := tdObu ++ seqObu ++ frameObu demoKeyBits d

/-- The tiles of the frames decoded so far. -/
def tilesAfter (l : List Call) : Option (List (Option (Option (List TileSetup × Bool)))) :=
  (after {} l).map (fun c => c.decoded.map (fun f => (initTiles f).map Except.toOption))

/-- C10 does not hold as stated: the last tile of a group may be empty, and setting it up is no error. -/
theorem C10_last_empty : ∃ c f t, Reachable {} demoEnv c ∧ f ∈ c.decoded ∧ (∃ l b, initTiles f = some (.ok (l, b)) ∧ t ∈ l) ∧ t.size = 0 := by
  have h : (after {} [send 1 (tilesPkt [1, 0, 8, 9])]).isSome = true := by decide +kernel
  obtain ⟨c, hc⟩ := Option.isSome_iff_exists.1 h
  have h2 : (after {} [send 1 (tilesPkt [1, 0, 8, 9])]).any (fun c => match c.decoded with
      | [f] => (match initTiles f with | some (.ok (l, _)) => decide (⟨1, 0, 1, 0, 4, 0⟩ ∈ l) | _ => false)
      | _ => false) = true := by decide +kernel
  rw [hc, Option.any_some] at h2
  split at h2
  · rename_i f hd
    split at h2
    · rename_i l b hi
      exact ⟨c, f, ⟨1, 0, 1, 0, 4, 0⟩, after_reachable hc, by rw [hd]; exact List.mem_cons_self, ⟨l, b, hi, of_decide_eq_true h2⟩, rfl⟩
    · cases h2
  · cases h2

-- a group of two tiles of two bytes, a group whose first tile would be longer than the group, two groups of one tile each
example : tilesAfter [send 1 (tilesPkt [1, 0, 8, 9, 10, 11])] = some [some (some ([⟨0, 0, 0, 0, 2, 2⟩, ⟨1, 0, 1, 0, 4, 2⟩], true))] := by decide +kernel
example : tilesAfter [send 1 (tilesPkt [4, 0, 8, 9, 10, 11])] = some [some none] := by decide +kernel
example : (tilesAfter [send 1 keyPkt, .get, send 2 interPkt]).map (·.drop 1) = some [some (some ([⟨0, 0, 0, 0, 0, 1⟩, ⟨1, 0, 1, 1, 0, 1⟩], true))] := by decide +kernel
example : Split 2 [1, 0, 8, 9, 10, 11] [[8, 9], [10, 11]] := Split.cons [1, 0] [8, 9] _ _ rfl rfl (Split.last _)

end Dav1d
