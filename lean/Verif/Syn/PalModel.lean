import Verif.Syn.Base
import Verif.Part.CtxModel
import Verif.Syn.CopyModel
/-!
# Palettes: src/recon_tmpl.c:2140-2305, src/decode.c:339-443, src/pal.c:37-61
-/
namespace Dav1d.Syn.Pal
open CdfTab (ModeF)
open Dav1d.Part (Call bsW bsH sbStep)
open Dav1d.Part.Ctx (Blk Edge setN)

/-! ## The palettes of the blocks around -/

/-- What decode_b found out about the palettes of a block: `b->pal_sz[1]`, and the colours of the three planes. (`b->pal_sz[0]` is in `Blk`.) 8 entries are
copied whatever the size is; those after the last colour can be anything. -/
structure PalBlk where
  uv : Nat
  col : Nat → Nat → Nat

/-- `b->pal_sz[0]`, 0 for blocks without intra prediction (src/decode.c:1239, 1368, 1916). -/
def palY (b : Blk) : Nat := match b.kind with | .intra _ p _ _ => p | _ => 0
/-- `b->intra` -/
def isIntra (b : Blk) : Bool := match b.kind with | .intra _ _ _ _ => true | _ => false

/-- One entry of `t->pal_sz_uv[i]` and of `t->al_pal[i]`, src/internal.h:400-404. -/
structure PalE where
  uv : Nat
  pal : Nat → Nat → Nat

/-- The update of an entry: src/decode.c:1245, 1256-1264, 1370 and 1918, dav1d_copy_pal_block_y and dav1d_copy_pal_block_uv (src/recon_tmpl.c:2140-2173). -/
def PalE.set (b : Blk) (hasChroma : Bool) (p : PalBlk) (e : PalE) : PalE :=
  { uv := if isIntra b && hasChroma then p.uv else 0
    pal := fun pl =>
      if pl = 0 then (if palY b > 0 then p.col 0 else e.pal 0)
      else if isIntra b && hasChroma && decide (p.uv > 0) then p.col pl else e.pal pl }

/-- The state: `t->pal_sz_uv` and `t->al_pal`, 32 entries above and on the left, and the superblock row that is decoded. -/
structure PalSt where
  a : Nat → PalE
  l : Nat → PalE
  row : Option Nat

/-- These arrays belong to the thread, which may decode other tiles between two superblock rows of a tile: at the start of a row they hold whatever is
left, `junk`. Then the sizes on the left are cleared, src/decode.c:2644. -/
def PalSt.enter (step : Nat) (junk : Nat → PalSt) (s : PalSt) (c : Call) : PalSt :=
  if s.row = some (c.y / step) then s
  else { a := (junk (c.y / step)).a, l := fun i => { (junk (c.y / step)).l i with uv := 0 }, row := some (c.y / step) }

/-- The updates of decode_b: the first entries are `bx4 = t->bx & 31` and `by4 = t->by & 31`, for chroma too. -/
def PalSt.update (b : Blk) (hasChroma : Bool) (p : PalBlk) (s : PalSt) (c : Call) : PalSt :=
  { s with a := setN (c.x % 32) (bsW c.bs) (PalE.set b hasChroma p) s.a, l := setN (c.y % 32) (bsH c.bs) (PalE.set b hasChroma p) s.l }

/-- The state after some blocks of a tile. -/
def PalSt.after (step : Nat) (junk : Nat → PalSt) (info : Call → Blk) (chroma : Call → Bool) (pals : Call → PalBlk) (old : PalSt) (cs : List Call) : PalSt :=
  cs.foldl (fun s c => (s.enter step junk c).update (info c) (chroma c) (pals c) c) { old with row := none }

/-- `l_cache` and `l`, src/recon_tmpl.c:2184 and 2188: the colours on the left. -/
def leftPal (s : PalSt) (l : Edge) (pl : Nat) (c : Call) : List Nat :=
  (List.range (if pl ≠ 0 then (s.l (c.y % 32)).uv else l.palSz)).map ((s.l (c.y % 32)).pal pl)

/-- `a_cache` and `a`, src/recon_tmpl.c:2187 and 2189: the colours above. -/
def abovePal (s : PalSt) (a : Edge) (pl : Nat) (c : Call) : List Nat :=
  (List.range (if c.y % 32 % 16 ≠ 0 then (if pl ≠ 0 then (s.a (c.x % 32)).uv else a.palSz) else 0)).map ((s.a (c.x % 32)).pal pl)

/-! ## Reading of the colours -/

/-- `if (!n_cache || cache[n_cache - 1] != v) cache[n_cache++] = v`. -/
def push (cache : List Nat) (v : Nat) : List Nat := if cache.getLast? = some v then cache else cache ++ [v]

/-- The merge of the two palettes, src/recon_tmpl.c:2191-2221: the entries that `l` and `a` point to, from there on. -/
def fillCache : (l a cache : List Nat) → List Nat
  | [], [], cache => cache
  | l :: ls, [], cache => fillCache ls [] (push cache l)
  | [], a :: as, cache => fillCache [] as (push cache a)
  | l :: ls, a :: as, cache =>
    if l < a then fillCache ls (a :: as) (push cache l)
    else fillCache (if a = l then ls else l :: ls) as (push cache a)
termination_by l a => l.length + a.length
decreasing_by all_goals (try simp only [List.length_cons, List.length_nil]) <;> (try split) <;> (try simp only [List.length_cons]) <;> omega

/-- Which entries are used again, src/recon_tmpl.c:2224-2228. -/
def readUsed (sz : Nat) : (cache used : List Nat) → Prog (List Nat)
  | [], used => pure used
  | c :: cs, used => if used.length < sz then bit >>= fun b => readUsed sz cs (if b then used ++ [c] else used) else pure used

/-- ulog2, include/common/intops.h. -/
def ulog2 (v : Nat) : Nat := Nat.log2 v

/-- The loop for new entries, src/recon_tmpl.c:2243-2252, with `n + 1` entries to come; `inc` is `!pl`. The list of the new entries. -/
def readNew (bpc inc : Nat) : (n bits : Nat) → (prev : Nat) → Prog (List Nat)
  | 0, _, _ => pure []
  | n + 1, nbits, prev =>
    let max := 2 ^ bpc - 1
    bits nbits >>= fun delta =>
    let prev := min (prev + delta + inc) max
    if prev + inc ≥ max then pure (prev :: List.replicate n max)
    else readNew bpc inc n (min nbits (1 + ulog2 (max - prev - inc))) prev >>= fun r => pure (prev :: r)

/-- New entries, src/recon_tmpl.c:2236-2254, when there is one at least. -/
def readNews (bpc inc n : Nat) : Prog (List Nat) :=
  bits bpc >>= fun prev =>
  (if n > 1 then bits 2 >>= fun e => readNew bpc inc (n - 1) (bpc - 3 + e) prev else pure []) >>= fun r => pure (prev :: r)

/-- The loop that merges the entries in place, src/recon_tmpl.c:2257-2265: `k` steps from `i` on. -/
def mergeLoop (used : List Nat) (sz : Nat) : (k i n m : Nat) → (pal : Nat → Nat) → (Nat → Nat)
  | 0, _, _, _, pal => pal
  | k + 1, i, n, m, pal =>
    if n < used.length ∧ (m ≥ sz ∨ used.getD n 0 ≤ pal m) then
      mergeLoop used sz k (i + 1) (n + 1) m (fun j => if j = i then used.getD n 0 else pal j)
    else mergeLoop used sz k (i + 1) n (m + 1) (fun j => if j = i then pal m else pal j)

/-- dav1d_read_pal_plane after the size, src/recon_tmpl.c:2183-2271: the array with the colours. -/
def readPalColors (bpc pl sz : Nat) (l a : List Nat) (old : Nat → Nat) : Prog (Nat → Nat) :=
  readUsed sz (fillCache l a []) [] >>= fun used =>
  if used.length < sz then
    readNews bpc (if pl = 0 then 1 else 0) (sz - used.length) >>= fun news =>
    let pal : Nat → Nat := fun j => if used.length ≤ j ∧ j < sz then news.getD (j - used.length) 0 else old j
    pure (mergeLoop used sz sz 0 0 used.length pal)
  else pure (fun j => if j < used.length then used.getD j 0 else old j)

/-- dav1d_read_pal_plane for plane `pl` (0 or 1), src/recon_tmpl.c:2175-2271: the size and the array with the colours; `l` and `a` are the palettes
around, `old` is what was in the array before. -/
def readPalPlane (bpc pl szCtx : Nat) (l a : List Nat) (old : Nat → Nat) : Prog (Nat × (Nat → Nat)) :=
  mode .palSz [pl, szCtx] 6 >>= fun s => readPalColors bpc pl (s + 2) l a old >>= fun pal => pure (s + 2, pal)

/-- The colours of V coded as differences, src/recon_tmpl.c:2296-2300: `n` more. -/
def readV (bpc nbits : Nat) : (n : Nat) → (prev : Int) → Prog (List Nat)
  | 0, _ => pure []
  | n + 1, prev =>
    bits nbits >>= fun d =>
    (if d ≠ 0 then bit >>= fun neg => pure (if neg then -(d : Int) else d) else pure (0 : Int)) >>= fun delta =>
    let prev := (prev + delta) % 2 ^ bpc
    readV bpc nbits n prev >>= fun r => pure (prev.toNat :: r)

/-- src/recon_tmpl.c:2302-2305: `n` colours. -/
def readLits (bpc : Nat) : (n : Nat) → Prog (List Nat)
  | 0 => pure []
  | n + 1 => bits bpc >>= fun v => readLits bpc n >>= fun r => pure (v :: r)

/-- dav1d_read_pal_uv, src/recon_tmpl.c:2281-2305: the size and the arrays of U and V. -/
def readPalUv (bpc szCtx : Nat) (l a : List Nat) (old1 old2 : Nat → Nat) : Prog (Nat × (Nat → Nat) × (Nat → Nat)) :=
  readPalPlane bpc 1 szCtx l a old1 >>= fun u =>
  bit >>= fun delta =>
  (if delta then
    bits 2 >>= fun e =>
    bits bpc >>= fun first =>
    readV bpc (bpc - 4 + e) (u.1 - 1) first >>= fun r => pure (first :: r)
  else readLits bpc u.1) >>= fun v =>
  pure (u.1, u.2, fun j => if j < u.1 then v.getD j 0 else old2 j)

/-! ## Reading of the indices -/

/-- The numbers from 0 to 7 that are not among those before, src/decode.c:405-407. -/
def restOf (head : List Nat) : List Nat := (List.range 8).filter fun v => !head.contains v

/-- Context and order for one sample, the body of the loop of order_palette, src/decode.c:361-408: `l`, `t` and `tl` are the indices on the left,
above, and above on the left. -/
def orderOf (haveLeft haveTop : Bool) (l t tl : Nat) : Nat × List Nat :=
  if !haveLeft then (0, t :: restOf [t])
  else if !haveTop then (0, l :: restOf [l])
  else if t = l ∧ t = tl ∧ l = tl then (4, t :: restOf [t])
  else if t = l then (3, t :: tl :: restOf [t, tl])
  else if t = tl ∨ l = tl then (2, tl :: (if t = tl then l else t) :: restOf [tl, if t = tl then l else t])
  else (1, min t l :: max t l :: tl :: restOf [min t l, max t l, tl])

/-- order_palette, src/decode.c:353-411, for the sample in row `i - j` and column `j` of diagonal `i`: `tmp` is `pal_tmp` before the diagonal is read. (The
pointer is at `(i - j) * stride + j` then.) -/
def orderAt (tmp : Nat → Nat) (stride i j : Nat) : Nat × List Nat :=
  let p := (i - j) * stride + j
  orderOf (decide (j > 0)) (decide (i - j > 0)) (tmp (p - 1)) (tmp (p - stride)) (tmp (p - (stride + 1)))

/-- The inner loop of read_pal_indices, src/decode.c:434-438: `k` samples from column `j` down; `tmp0` is `pal_tmp` when order_palette was
called. -/
def readDiag (pl sz stride i : Nat) (tmp0 : Nat → Nat) : (k j : Nat) → (tmp : Nat → Nat) → Prog (Nat → Nat)
  | 0, _, tmp => pure tmp
  | k + 1, j, tmp =>
    mode .colorMap [pl, sz - 2, (orderAt tmp0 stride i j).1] (sz - 1) >>= fun v =>
    readDiag pl sz stride i tmp0 k (j - 1) (fun q => if q = (i - j) * stride + j then (orderAt tmp0 stride i j).2.getD v 0 else tmp q)

/-- The outer loop, src/decode.c:428-439: `n` diagonals from `i` on; the block has `w` times `h` samples inside the frame. -/
def readDiags (pl sz stride w h : Nat) : (n i : Nat) → (tmp : Nat → Nat) → Prog (Nat → Nat)
  | 0, _, tmp => pure tmp
  | n + 1, i, tmp =>
    let first := min i (w - 1)
    let last := i + 1 - h
    readDiag pl sz stride i tmp (first + 1 - last) first tmp >>= readDiags pl sz stride w h n (i + 1)

/-- pal_idx_finish_c, src/pal.c:49-54, one row: `mem` is the memory, `d` and `s` are the addresses `dst` and `src`. `k` pairs from `x` on, then the
memset. -/
def finishPairs (d s : Nat) : (k x : Nat) → (mem : Nat → Nat) → (Nat → Nat)
  | 0, _, mem => mem
  | k + 1, x, mem => finishPairs d s k (x + 1) (fun q => if q = d + x then (mem (s + x * 2) ||| (mem (s + x * 2 + 1) <<< 4)) % 256 else mem q)

def finishRow (d s w bw : Nat) (mem : Nat → Nat) : Nat → Nat :=
  let mem := finishPairs d s (w / 2) 0 mem
  fun q => if d + w / 2 ≤ q ∧ q < d + bw / 2 then mem (s + w - 1) * 17 % 256 else mem q

/-- The rows inside the frame, src/pal.c:49: `k` rows. -/
def finishRows (w bw : Nat) : (k d s : Nat) → (mem : Nat → Nat) → (Nat → Nat)
  | 0, _, _, mem => mem
  | k + 1, d, s, mem => finishRows w bw k (d + bw / 2) (s + bw) (finishRow d s w bw mem)

/-- The rows outside, src/pal.c:56-60: `k` copies of the row at `last`. -/
def finishCopies (bw last : Nat) : (k d : Nat) → (mem : Nat → Nat) → (Nat → Nat)
  | 0, _, mem => mem
  | k + 1, d, mem => finishCopies bw last k (d + bw / 2) (fun q => if d ≤ q ∧ q < d + bw / 2 then mem (last + (q - d)) else mem q)

/-- pal_idx_finish_c, src/pal.c:37-61. -/
def idxFinish (d s bw bh w h : Nat) (mem : Nat → Nat) : Nat → Nat :=
  let mem := finishRows w bw h d s mem
  if h < bh then finishCopies bw (d + h * (bw / 2) - bw / 2) (bh - h) (d + h * (bw / 2)) mem else mem

/-- read_pal_indices, src/decode.c:413-443: `mem` is the memory, in which `pal_tmp` is at the address `tmp` and `pal_idx` at the address `dst`; they are the same for chroma without frame
threads (src/decode.c:1181). The memory afterwards. -/
def readPalIndices (pl sz w4 h4 bw4 bh4 dst tmp : Nat) (mem : Nat → Nat) : Prog (Nat → Nat) :=
  uniform sz >>= fun v =>
  readDiags pl sz (bw4 * 4) (w4 * 4) (h4 * 4) (4 * (w4 + h4) - 2) 1 (fun q => if q = 0 then v else mem (tmp + q)) >>= fun t =>
  pure (idxFinish dst tmp (bw4 * 4) (bh4 * 4) (w4 * 4) (h4 * 4) (fun q => if tmp ≤ q ∧ q < tmp + 64 * 64 then t (q - tmp) else mem q))

end Dav1d.Syn.Pal
