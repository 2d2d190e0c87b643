import Verif.Dsp.Tables
/-!
# The partitioning of a tile into blocks

src/decode.c:2119-2389 (decode_sb), the loop over the superblocks of src/decode.c:2596-2737
(dav1d_decode_tile_sbrow), src/intra_edge.c, src/intra_edge.h and src/env.h:83-118.

Positions and sizes are in units of 4x4 luma samples. `enum BlockLevel` is 0 for 128x128 to 4 for 8x8,
`enum BlockPartition` is 0 none, 1 H, 2 V, 3 split, 4 T_TOP_SPLIT, 5 T_BOTTOM_SPLIT, 6 T_LEFT_SPLIT,
7 T_RIGHT_SPLIT, 8 H4, 9 V4; src/levels.h:53-60, 143-156.
-/
namespace Dav1d.Part

/-! ## Tables -/

/-- dav1d_block_sizes[bl][bp][i], src/tables.c:55-102. -/
def bsOf (bl bp i : Nat) : Nat := (((Tables.blockSizes.getD bl []).getD bp []).getD i 0)

/-- Width and height of a block size: dav1d_block_dimensions[bs][0..1], src/tables.c:104-127. -/
def bsW (bs : Nat) : Nat := (Tables.blockDims.getD bs []).getD 0 0
def bsH (bs : Nat) : Nat := (Tables.blockDims.getD bs []).getD 1 0

/-- BS_4x4, src/levels.h:180. -/
def bs4x4 : Nat := 21

/-- dav1d_al_part_ctx[dir][bl][bp], src/tables.c:37-53. -/
def alPart (dir bl bp : Nat) : Nat := (((Tables.alPartCtx.getD dir []).getD bl []).getD bp 0)

/-- dav1d_partition_type_count[bl], src/tables.c:228-234: the largest partition symbol. -/
def typeCount (bl : Nat) : Nat := [7, 9, 9, 9, 3].getD bl 0

/-! ## The tree of edge flags, src/intra_edge.c -/

/-- `enum EdgeFlags`, src/intra_edge.h:33-48. -/
def I444_TR : Nat := 1
def I422_TR : Nat := 2
def I420_TR : Nat := 4
def I444_BL : Nat := 8
def I422_BL : Nat := 16
def I420_BL : Nat := 32
def ALL_TR : Nat := I444_TR ||| I422_TR ||| I420_TR
def ALL_BL : Nat := I444_BL ||| I422_BL ||| I420_BL
def ALL_TR_BL : Nat := ALL_TR ||| ALL_BL

/-- `EdgeNode`, src/intra_edge.h:53-55. -/
structure Node where
  o : Nat
  h0 : Nat
  h1 : Nat
  v0 : Nat
  v1 : Nat

/-- A node of the tree: `EdgeTip` with its `split[3]` or `EdgeBranch` with `h4`, `v4` and its four children,
src/intra_edge.h:57-66. The children are found by byte offsets in C. -/
inductive Tree where
  | tip (n : Node) (s0 s1 s2 : Nat)
  | branch (n : Node) (h4 v4 : Nat) (c0 c1 c2 c3 : Tree)

def Tree.node : Tree → Node
  | tip n _ _ _ => n
  | branch n _ _ _ _ _ _ => n

/-- init_edges for a tip, src/intra_edge.c:55-77. -/
def initTip (e : Nat) : Tree :=
  .tip { o := e, h0 := e ||| ALL_BL, v0 := e ||| ALL_TR, h1 := e &&& (ALL_BL ||| I420_TR),
         v1 := e &&& (ALL_TR ||| I420_BL ||| I422_BL) }
    ((e &&& ALL_TR) ||| I422_BL) (e ||| I444_TR) (e &&& (I420_TR ||| I420_BL ||| I422_BL))

/-- init_edges for a branch at level 4 - k, src/intra_edge.c:55-61, 78-91. BL_16X16 is `k = 1`. -/
def initBranch (k e : Nat) (c0 c1 c2 c3 : Tree) : Tree :=
  .branch { o := e, h0 := e ||| ALL_BL, v0 := e ||| ALL_TR, h1 := e &&& ALL_BL, v1 := e &&& ALL_TR }
    (if k = 1 then ALL_BL ||| (e &&& I420_TR) else ALL_BL)
    (if k = 1 then ALL_TR ||| (e &&& (I420_BL ||| I422_BL)) else ALL_TR) c0 c1 c2 c3

/-- The argument of init_edges, src/intra_edge.c:102-104, 109-113. -/
def edgeArg (tr bl : Bool) : Nat := (if tr then ALL_TR else 0) ||| (if bl then ALL_BL else 0)

/-- init_mode_node, src/intra_edge.c:96-124, for the level 4 - k; a tip for `k = 0` (src/intra_edge.c:105-114,
the flags of its four tips are those of src/intra_edge.c:119-121). -/
def initNode : Nat → Bool → Bool → Tree
  | 0, tr, bl => initTip (edgeArg tr bl)
  | k + 1, tr, bl => initBranch (k + 1) (edgeArg tr bl)
      (initNode k true true) (initNode k tr false) (initNode k true bl) (initNode k false false)

/-- dav1d_init_intra_edge_tree, src/intra_edge.c:126-148: the two roots. -/
def root (sb128 : Bool) : Tree := initNode (if sb128 then 4 else 3) true false

/-! ## decode_sb -/

/-- A call of decode_b. -/
structure Call where
  bl : Nat
  bs : Nat
  bp : Nat
  flags : Nat
  x : Nat
  y : Nat
  deriving DecidableEq, Repr

/-- What is recorded of a run: a partition symbol (or split flag) read with a context, or a call of decode_b. -/
inductive Ev where
  | read (bl ctx x y : Nat)
  | call (c : Call)
  deriving DecidableEq, Repr

/-- The arithmetic decoder and decode_b: a partition symbol, the split flags at the bottom and at the right edge of
the frame (all with level and context), and decode_b, which may fail. -/
structure Src (σ : Type) where
  part : σ → Nat → Nat → Nat × σ
  top : σ → Nat → Nat → Bool × σ
  left : σ → Nat → Nat → Bool × σ
  block : σ → Call → Option σ

/-- The frame: `f->bw`, `f->bh`, whether the layout is 4:2:2, `t->frame_thread.pass`, and for pass 2 the level and
partition stored at a position, `f->frame_thread.b[y * b4_stride + x]`. -/
structure Frame where
  bw : Nat
  bh : Nat
  i422 : Bool
  pass : Nat
  saved : Nat → Nat → Nat × Nat

/-- The state: `t->a->partition` and `t->l.partition`, the source, and the record. The entries of `t->a`, an array of
contexts of 16 entries each, are numbered through: `t->a` is advanced with each 128 columns, src/decode.c:2732-2735, so
that entry (bx & 31) >> 1 is the entry bx >> 1. -/
structure St (σ : Type) where
  a : Nat → Nat
  l : Nat → Nat
  src : σ
  log : List Ev

/-- The outcome: a failed assertion or an access to the wrong kind of node, an error, or the new state. -/
inductive Res (σ : Type) where
  | ub
  | err
  | ok (s : St σ)

def Res.bind {σ : Type} (r : Res σ) (f : St σ → Res σ) : Res σ :=
  match r with
  | .ub => .ub
  | .err => .err
  | .ok s => f s

variable {σ : Type}

/-- Calls of decode_b one after the other, with a return on the first failure. -/
def blks (S : Src σ) : List Call → St σ → Res σ
  | [], st => .ok st
  | c :: cs, st =>
    match S.block st.src c with
    | none => .err
    | some s => blks S cs { st with src := s, log := st.log ++ [.call c] }

/-- get_partition_ctx, src/env.h:83-90, with src/decode.c:2141-2143. -/
def partCtx (st : St σ) (bl x y : Nat) : Nat :=
  (st.a (x / 2) >>> (4 - bl)) % 2 + 2 * ((st.l (y % 32 / 2) >>> (4 - bl)) % 2)

/-- The end of decode_sb, src/decode.c:2377-2386: `hsz` entries are set. -/
def setCtx (f : Frame) (bl bp hsz x y : Nat) (st : St σ) : Res σ :=
  if f.pass ≠ 2 ∧ (bp ≠ 3 ∨ bl = 4) then
    .ok { st with a := fun i => if x / 2 ≤ i ∧ i < x / 2 + hsz then alPart 0 bl bp else st.a i
                  l := fun i => if y % 32 / 2 ≤ i ∧ i < y % 32 / 2 + hsz then alPart 1 bl bp else st.l i }
  else .ok st

/-- The partition at a node inside the frame, src/decode.c:2147-2158: `none` for an error. -/
def readPart (S : Src σ) (f : Frame) (bl x y : Nat) (st : St σ) : Option (Nat × St σ) :=
  if f.pass = 2 then some (if (f.saved x y).1 = bl then (f.saved x y).2 else 3, st)
  else
    let ctx := partCtx st bl x y
    let r := S.part st.src bl ctx
    if f.i422 ∧ (r.1 = 2 ∨ r.1 = 9 ∨ r.1 = 6 ∨ r.1 = 7) then none
    else some (r.1, { st with src := r.2, log := st.log ++ [.read bl ctx x y] })

/-- The split flag at the bottom edge, src/decode.c:2324-2336. -/
def readTop (S : Src σ) (f : Frame) (bl x y : Nat) (st : St σ) : Bool × St σ :=
  if f.pass = 2 then (decide ((f.saved x y).1 ≠ bl), st)
  else
    let ctx := partCtx st bl x y
    let r := S.top st.src bl ctx
    (r.1, { st with src := r.2, log := st.log ++ [.read bl ctx x y] })

/-- The split flag at the right edge, src/decode.c:2352-2366. -/
def readLeft (S : Src σ) (f : Frame) (bl x y : Nat) (st : St σ) : Option (Bool × St σ) :=
  if f.pass = 2 then some (decide ((f.saved x y).1 ≠ bl), st)
  else
    let ctx := partCtx st bl x y
    let r := S.left st.src bl ctx
    if f.i422 ∧ r.1 = false then none
    else some (r.1, { st with src := r.2, log := st.log ++ [.read bl ctx x y] })

/-- The blocks of a partition other than a split into nodes, in the order of the calls, src/decode.c:2161-2319;
`none` where the node is of the wrong kind or the partition unknown. `q` is `hsz >> 1`. -/
def leafCalls (f : Frame) (t : Tree) (bl bp hsz x y : Nat) : Option (List Call) :=
  let n := t.node
  let b := bsOf bl bp
  let q := hsz / 2
  match bp, t with
  | 0, _ => some [⟨bl, b 0, 0, n.o, x, y⟩]
  | 1, _ => some [⟨bl, b 0, 1, n.h0, x, y⟩, ⟨bl, b 0, 1, n.h1, x, y + hsz⟩]
  | 2, _ => some [⟨bl, b 0, 2, n.v0, x, y⟩, ⟨bl, b 0, 2, n.v1, x + hsz, y⟩]
  | 3, .tip _ s0 s1 s2 =>
    some [⟨bl, bs4x4, 3, ALL_TR_BL, x, y⟩, ⟨bl, bs4x4, 3, s0, x + 1, y⟩, ⟨bl, bs4x4, 3, s1, x, y + 1⟩,
          ⟨bl, bs4x4, 3, s2, x + 1, y + 1⟩]
  | 4, _ => some [⟨bl, b 0, 4, ALL_TR_BL, x, y⟩, ⟨bl, b 0, 4, n.v1, x + hsz, y⟩, ⟨bl, b 1, 4, n.h1, x, y + hsz⟩]
  | 5, _ => some [⟨bl, b 0, 5, n.h0, x, y⟩, ⟨bl, b 1, 5, n.v0, x, y + hsz⟩, ⟨bl, b 1, 5, 0, x + hsz, y + hsz⟩]
  | 6, _ => some [⟨bl, b 0, 6, ALL_TR_BL, x, y⟩, ⟨bl, b 0, 6, n.h1, x, y + hsz⟩, ⟨bl, b 1, 6, n.v1, x + hsz, y⟩]
  | 7, _ => some [⟨bl, b 0, 7, n.v0, x, y⟩, ⟨bl, b 1, 7, n.h0, x + hsz, y⟩, ⟨bl, b 1, 7, 0, x + hsz, y + hsz⟩]
  | 8, .branch _ h4 _ _ _ _ _ =>
    some ([⟨bl, b 0, 8, n.h0, x, y⟩, ⟨bl, b 0, 8, h4, x, y + q⟩, ⟨bl, b 0, 8, ALL_BL, x, y + q + q⟩] ++
      if y + q + q + q < f.bh then [⟨bl, b 0, 8, n.h1, x, y + q + q + q⟩] else [])
  | 9, .branch _ _ v4 _ _ _ _ =>
    some ([⟨bl, b 0, 9, n.v0, x, y⟩, ⟨bl, b 0, 9, v4, x + q, y⟩, ⟨bl, b 0, 9, ALL_TR, x + q + q, y⟩] ++
      if x + q + q + q < f.bw then [⟨bl, b 0, 9, n.v1, x + q + q + q, y⟩] else [])
  | _, _ => none

/-- decode_sb, src/decode.c:2119-2389, at the level `bl = 4 - k`, where `hsz = 16 >> bl` is `2 ^ k`. The tile state and
the debugging output are left out; the temporary changes of t->bx and t->by are arguments here. The child of the wrong
kind of node (`tip` with `k > 0`, `branch` with `k = 0`) is undefined. -/
def decodeSb (S : Src σ) (f : Frame) : (k : Nat) → Tree → (x y : Nat) → St σ → Res σ
  | 0, t, x, y, st =>
    -- BL_8X8: src/decode.c:2129, 2343 and 2368 are asserted not to be reached
    if f.bw > x + 1 ∧ f.bh > y + 1 then
      match readPart S f 4 x y st with
      | none => .err
      | some (bp, st) =>
        match leafCalls f t 4 bp 1 x y with
        | none => .ub
        | some cs => (blks S cs st).bind (setCtx f 4 bp 1 x y)
    else .ub
  | k + 1, t, x, y, st =>
    let bl := 4 - (k + 1)
    let hsz := 2 ^ (k + 1)
    match t with
    | .tip _ _ _ _ => .ub
    | .branch n h4 v4 c0 c1 c2 c3 =>
      if f.bw > x + hsz then
        if f.bh > y + hsz then
          match readPart S f bl x y st with
          | none => .err
          | some (bp, st) =>
            if bp = 3 then
              (decodeSb S f k c0 x y st).bind fun st =>
              (decodeSb S f k c1 (x + hsz) y st).bind fun st =>
              (decodeSb S f k c2 x (y + hsz) st).bind fun st =>
              (decodeSb S f k c3 (x + hsz) (y + hsz) st).bind (setCtx f bl 3 hsz x y)
            else
              match leafCalls f (.branch n h4 v4 c0 c1 c2 c3) bl bp hsz x y with
              | none => .ub
              | some cs => (blks S cs st).bind (setCtx f bl bp hsz x y)
        else
          let r := readTop S f bl x y st
          if r.1 then
            (decodeSb S f k c0 x y r.2).bind fun st =>
            (decodeSb S f k c1 (x + hsz) y st).bind (setCtx f bl 3 hsz x y)
          else
            (blks S [⟨bl, bsOf bl 1 0, 1, n.h0, x, y⟩] r.2).bind (setCtx f bl 1 hsz x y)
      else if f.bh > y + hsz then
        match readLeft S f bl x y st with
        | none => .err
        | some (split, st) =>
          if split then
            (decodeSb S f k c0 x y st).bind fun st =>
            (decodeSb S f k c2 x (y + hsz) st).bind (setCtx f bl 3 hsz x y)
          else
            (blks S [⟨bl, bsOf bl 2 0, 2, n.v0, x, y⟩] st).bind (setCtx f bl 2 hsz x y)
      else decodeSb S f k c0 x y st

/-! ## The superblocks of a tile -/

/-- `f->sb_step`, and the level of the superblocks. -/
def sbK (sb128 : Bool) : Nat := if sb128 then 4 else 3
def sbStep (sb128 : Bool) : Nat := if sb128 then 32 else 16

/-- The loop over the superblocks of a row, src/decode.c:2616-2626 and 2640-2737, from column `x` on for `n`
superblocks. Stopping because of a flush is an error here as any other. -/
def rowLoop (S : Src σ) (f : Frame) (sb128 : Bool) : (n x y : Nat) → St σ → Res σ
  | 0, _, _, st => .ok st
  | n + 1, x, y, st =>
    (decodeSb S f (sbK sb128) (root sb128) x y st).bind (rowLoop S f sb128 n (x + sbStep sb128) y)

/-- dav1d_decode_tile_sbrow, src/decode.c:2596-2737, as far as the blocks go: the left context is cleared (2614) and
the superblocks follow with `t->bx < ts->tiling.col_end`. -/
def tileSbrow (S : Src σ) (f : Frame) (sb128 : Bool) (x0 x1 y : Nat) (st : St σ) : Res σ :=
  rowLoop S f sb128 ((x1 - x0 + sbStep sb128 - 1) / sbStep sb128) x0 y
    (if f.pass = 2 then st else { st with l := fun _ => 0 })

/-- All superblock rows of a tile, one after the other: `n` of them from row `y` on. -/
def tileLoop (S : Src σ) (f : Frame) (sb128 : Bool) (x0 x1 : Nat) : (n y : Nat) → St σ → Res σ
  | 0, _, st => .ok st
  | n + 1, y, st => (tileSbrow S f sb128 x0 x1 y st).bind (tileLoop S f sb128 x0 x1 n (y + sbStep sb128))

/-- A tile from (x0, y0) to (x1, y1), beginning with cleared contexts (reset_context,
src/decode.c:2391-2399, called at 3189 and 3209 before the rows of the tiles). -/
def decodeTile (S : Src σ) (f : Frame) (sb128 : Bool) (x0 x1 y0 y1 : Nat) (s : σ) : Res σ :=
  tileLoop S f sb128 x0 x1 ((y1 - y0 + sbStep sb128 - 1) / sbStep sb128) y0 ⟨fun _ => 0, fun _ => 0, s, []⟩

/-! ## Split flags at the edges of the frame -/

/-- gather_left_partition_prob, src/env.h:92-102, on the inverse CDF `c`. -/
def gatherLeft (c : Nat → Int) (bl : Nat) : Int :=
  (c 0 - c 1) + (c 2 - c 6) + (if bl ≠ 0 then c 7 - c 8 else 0)

/-- gather_top_partition_prob, src/env.h:104-118. -/
def gatherTop (c : Nat → Int) (bl : Nat) : Int :=
  (c 1 - c 4) + c 5 + (if bl ≠ 0 then c 8 - c 7 else 0)

end Dav1d.Part
