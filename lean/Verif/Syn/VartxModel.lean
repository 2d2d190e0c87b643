import Verif.Syn.InterProps
import Verif.Part.LpfTx
import Verif.Part.Halves
/-!
# The transform tree of inter blocks: read_tx_tree and read_vartx_tree (src/decode.c:119-166 and 445-491), read_coef_tree (src/recon_tmpl.c:734-777)

Transforms are numbered as in dav1d_txfm_dimensions (TX_4X4 is 0, TX_8X8 1, TX_64X64 4); `txW`, `txH`, `txLw`, `txLh`, `txMax` and `txSub` are its members.
-/
namespace Dav1d.Syn.Vartx
open Dav1d.Part (Frame Call bsW bsH sbStep forList)
open Dav1d.Part.Ctx (bsLog)
open Dav1d.Part.Lpf (txW txH txLw txLh txMax txSub)

/-- What read_tx_tree changes: `tx_split[2]`, `t->a->tx` numbered through the columns of the frame, and `t->l.tx` with its 32 entries (see `Ctxs`). The words of `tx_split` have 16
bits; `C82_block` has that they never need more. -/
structure St where
  ms : Nat × Nat
  a : Nat → Nat
  l : Nat → Nat

/-- dav1d_memset_pow2: `n` entries from `off` on. -/
def setR (off n v : Nat) (arr : Nat → Nat) : Nat → Nat := fun i => if off ≤ i ∧ i < off + n then v else arr i

/-- `masks[depth] |= 1 << k`, src/decode.c:137-138. -/
def St.mark (s : St) (depth k : Nat) : St := { s with ms := if depth = 0 then (s.ms.1 ||| 1 <<< k, s.ms.2) else (s.ms.1, s.ms.2 ||| 1 <<< k) }

/-- src/decode.c:163-164. -/
def St.fill (s : St) (tx x y : Nat) (split : Bool) : St :=
  { s with a := setR x (txW tx) (if split then 0 else txLw tx) s.a, l := setR (y % 32) (txH tx) (if split then 0 else txLh tx) s.l }

/-- read_tx_tree, src/decode.c:119-166: `n` is `2 - depth`, `x` and `y` are `t->bx` and `t->by`. -/
def readTxTree (bw bh : Nat) : (n depth tx xo yo x y : Nat) → St → Prog St
  | 0, _, tx, _, _, x, y, s => pure (s.fill tx x y false)
  | n + 1, depth, tx, xo, yo, x, y, s =>
    (if tx > 0 then
      flag .txpart [2 * (4 - txMax tx) - depth, (if s.a x < txLw tx then 1 else 0) + (if s.l (y % 32) < txLh tx then 1 else 0)]
    else pure false) >>= fun isSplit =>
    let s := if isSplit then s.mark depth (yo * 4 + xo) else s
    if isSplit = true ∧ txMax tx > 1 then
      let sub := txSub tx
      readTxTree bw bh n (depth + 1) sub (xo * 2) (yo * 2) x y s >>= fun s =>
      (if txLw tx ≥ txLh tx ∧ x + txW sub < bw then readTxTree bw bh n (depth + 1) sub (xo * 2 + 1) (yo * 2) (x + txW sub) y s else pure s) >>= fun s =>
      if txLh tx ≥ txLw tx ∧ y + txH sub < bh then
        readTxTree bw bh n (depth + 1) sub (xo * 2) (yo * 2 + 1) x (y + txH sub) s >>= fun s =>
        if txLw tx ≥ txLh tx ∧ x + txW sub < bw then readTxTree bw bh n (depth + 1) sub (xo * 2 + 1) (yo * 2 + 1) (x + txW sub) (y + txH sub) s else pure s
      else pure s
    else pure (s.fill tx x y isSplit)

/-- What it depends on: `txfm_mode == DAV1D_TX_SWITCHABLE`, `segmentation.lossless[b->seg_id]` and `f->cur.p.layout`. -/
structure Cfg where
  switchable : Bool
  lossless : Bool
  layout : Nat

/-- `b->max_ytx`, `b->uvtx`, `b->tx_split0`, `b->tx_split1`, and the contexts. -/
structure Out where
  maxYtx : Nat
  uvtx : Nat
  split0 : Nat
  split1 : Nat
  a : Nat → Nat
  l : Nat → Nat

/-- dav1d_max_txfm_size_for_bs, src/tables.c:171-. -/
def maxTx (bs layout : Nat) : Nat := (Tables.maxTx.getD bs []).getD layout 0

/-- The loops of read_vartx_tree, src/decode.c:472-483. -/
def unitLoop (f : Frame) (c : Call) (tx : Nat) (s : St) : Prog St :=
  (forList (txH tx) (bsH c.bs) (bsH c.bs) 0).foldlM (fun s y =>
    (forList (txW tx) (bsW c.bs) (bsW c.bs) 0).foldlM (fun s x =>
      readTxTree f.bw f.bh 2 0 tx (x / txW tx) (y / txH tx) (c.x + x) (c.y + y) s) s) s

/-- read_vartx_tree, src/decode.c:445-491. -/
def readVartxTree (H : Cfg) (f : Frame) (c : Call) (skip : Bool) (a l : Nat → Nat) : Prog Out :=
  let tx := maxTx c.bs 0
  if skip = false ∧ (H.lossless = true ∨ tx = 0) then
    pure { maxYtx := 0, uvtx := 0, split0 := 0, split1 := 0
           a := if H.switchable then setR c.x (2 ^ bsLog c.bs 0) 0 a else a
           l := if H.switchable then setR (c.y % 32) (2 ^ bsLog c.bs 1) 0 l else l }
  else if H.switchable = false ∨ skip = true then
    pure { maxYtx := tx, uvtx := maxTx c.bs H.layout, split0 := 0, split1 := 0
           a := if H.switchable then setR c.x (2 ^ bsLog c.bs 0) (bsLog c.bs 0) a else a
           l := if H.switchable then setR (c.y % 32) (2 ^ bsLog c.bs 1) (bsLog c.bs 1) l else l }
  else
    unitLoop f c tx ⟨(0, 0), a, l⟩ >>= fun s =>
    pure { maxYtx := tx, uvtx := maxTx c.bs H.layout, split0 := s.ms.1 % 256, split1 := s.ms.2, a := s.a, l := s.l }

/-! ## The contexts of a tile -/

/-- What a block leaves: `skip`, inter prediction (or intra block copy), the entries of `t->a->tx` and `t->l.tx`, and the transform of each unit (width and height in samples). -/
structure Left where
  skip : Bool
  inter : Bool
  a : Nat → Nat
  l : Nat → Nat
  tx : Nat → Nat → Nat × Nat

/-- What an intra block leaves, src/decode.c:1234-1237 and 1249-1252, with the transform `tx`. -/
def Left.intra (skip : Bool) (tx : Nat) : Left := ⟨skip, false, fun _ => txLw tx, fun _ => txLh tx, fun _ _ => (4 * txW tx, 4 * txH tx)⟩

/-- `t->a->tx`, `t->l.tx`, and the superblock row in which `t->l` was reset last. -/
structure Ctxs where
  a : Nat → Nat
  l : Nat → Nat
  row : Option Nat

/-- reset_context, src/decode.c:2406, for `t->l` at the first block of a superblock row (see `Part.Ctx.Ctxs.enter`); TX_64X64 is 4. -/
def Ctxs.enter (step : Nat) (s : Ctxs) (c : Call) : Ctxs := if s.row = some (c.y / step) then s else { s with l := fun _ => 4, row := some (c.y / step) }

/-- A block changes the entries of its columns and rows only (`C82_frame` for the transform tree). -/
def Ctxs.update (i : Left) (s : Ctxs) (c : Call) : Ctxs :=
  { s with a := fun X => if c.x ≤ X ∧ X < c.x + bsW c.bs then i.a X else s.a X
           l := fun Y => if c.y % 32 ≤ Y ∧ Y < c.y % 32 + bsH c.bs then i.l Y else s.l Y }

/-- The contexts for block `c` after the blocks `cs` of the tile. -/
def Ctxs.before (step : Nat) (left : Call → Left) (l : Nat → Nat) (cs : List Call) (c : Call) : Ctxs :=
  (cs.foldl (fun (s : Ctxs) d => (s.enter step d).update (left d) d) (Ctxs.mk (fun _ => 4) l none)).enter step c

/-! ## Reading the coefficients -/

/-- `tx_split[depth] & (1 << k)`, where `depth` is less than 2. -/
def bitOf (ms : Nat × Nat) (depth k : Nat) : Bool :=
  match depth with
  | 0 => ms.1.testBit k
  | 1 => ms.2.testBit k
  | _ => false

/-- read_coef_tree, src/recon_tmpl.c:734-777, as far as the calls of decode_coefs go: transform, `t->bx` and `t->by` of each, in order. `n` is `2 - depth`. -/
def coefTree (bw bh : Nat) (ms : Nat × Nat) : (n depth tx xo yo x y : Nat) → List (Nat × Nat × Nat)
  | 0, _, tx, _, _, x, y => [(tx, x, y)]
  | n + 1, depth, tx, xo, yo, x, y =>
    if bitOf ms depth (yo * 4 + xo) then
      let sub := txSub tx
      coefTree bw bh ms n (depth + 1) sub (xo * 2) (yo * 2) x y ++
      (if txW tx ≥ txH tx ∧ x + txW sub < bw then coefTree bw bh ms n (depth + 1) sub (xo * 2 + 1) (yo * 2) (x + txW sub) y else []) ++
      (if txH tx ≥ txW tx ∧ y + txH sub < bh then
        coefTree bw bh ms n (depth + 1) sub (xo * 2) (yo * 2 + 1) x (y + txH sub) ++
        (if txW tx ≥ txH tx ∧ x + txW sub < bw then coefTree bw bh ms n (depth + 1) sub (xo * 2 + 1) (yo * 2 + 1) (x + txW sub) (y + txH sub) else [])
      else [])
    else [(tx, x, y)]

/-- The loops of dav1d_read_coef_blocks for luma, src/recon_tmpl.c:862-877, for a block with `intra == 0` and without `skip` (those of recon_b_inter, src/recon_tmpl.c:1905-1930, go on to
`bh4` and `bw4`, but the inner ones are empty there): `x_off` is `!!init_x` and goes up with each step. -/
def coefBlocks (f : Frame) (c : Call) (tx : Nat) (ms : Nat × Nat) : List (Nat × Nat × Nat) :=
  let w4 := min (bsW c.bs) (f.bw - c.x)
  let h4 := min (bsH c.bs) (f.bh - c.y)
  (forList 16 h4 h4 0).flatMap fun iy => (forList 16 w4 w4 0).flatMap fun ix =>
    (forList (txH tx) (min h4 (16 + iy)) h4 iy).flatMap fun y => (forList (txW tx) (min w4 (ix + 16)) w4 ix).flatMap fun x =>
      coefTree f.bw f.bh ms 2 0 tx ((if ix ≠ 0 then 1 else 0) + (x - ix) / txW tx) ((if iy ≠ 0 then 1 else 0) + (y - iy) / txH tx) (c.x + x) (c.y + y)

end Dav1d.Syn.Vartx
