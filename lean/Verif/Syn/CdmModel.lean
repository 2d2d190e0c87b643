import Verif.Syn.CdfModel
/-!
# The masks that CDEF uses are written: `noskip_mask` and `cdef_idx`, src/decode.c:943-958, 1948-1957 and 2645-2663

A block is where it is, what size it has, and its flag; `v` is what dav1d_msac_decode_bools gives if it is called for the index. t->lf_mask, which moves with the superblocks (src/decode.c:2647 and
2718-2721), is replaced by the mask of the 128x128 that the superblock or block is in.
-/
namespace Dav1d.Cdm
open Dav1d.Syn.Lru (Cfg)
open Dav1d.Cdf (Mask)

/-- A block: t->by, t->bx, bh4, bw4, b->skip, and the index if it is read. -/
structure Blk where
  y : Nat
  x : Nat
  h : Nat
  w : Nat
  skip : Bool
  v : Nat

/-- An entry of f->lf.mask is changed. -/
def onMask (f : Cfg) (y x : Nat) (g : Mask → Mask) (mem : Nat → Mask) : Nat → Mask := fun a => if a = (y >>> 5) * f.sb128w + (x >>> 5) then g (mem a) else mem a

/-- The start of a superblock, src/decode.c:2652-2663. -/
def sbStart (f : Cfg) (y x : Nat) : (Nat → Mask) → Nat → Mask := onMask f y x fun m =>
  if f.sb128 then { m with cdefIdx := fun q => if q = 0 ∨ q = 1 ∨ q = 2 ∨ q = 3 then -1 else m.cdefIdx q }
  else { m with cdefIdx := fun q => if q = ((x &&& 16) >>> 4) + ((y &&& 16) >>> 3) then -1 else m.cdefIdx q }

/-- The index of a block, src/decode.c:943-952; `q` is the place t->cur_sb_cdef_idx_ptr[idx], where the pointer is that of the superblock (with superblocks of 64, that of the 64x64 the block is in). -/
def cdefIndex (f : Cfg) (b : Blk) (m : Mask) : Mask :=
  let ptr := if f.sb128 then 0 else ((b.x &&& 16) >>> 4) + ((b.y &&& 16) >>> 3)
  let q := ptr + if f.sb128 then ((b.x &&& 16) >>> 4) + ((b.y &&& 16) >>> 3) else 0
  if b.skip = false ∧ m.cdefIdx q = -1 then
    { m with cdefIdx := fun k => if k = q ∨ b.w > 16 ∧ k = q + 1 ∨ b.h > 16 ∧ k = q + 2 ∨ b.w = 32 ∧ b.h = 32 ∧ k = q + 3 then b.v else m.cdefIdx k }
  else m

/-- `mask`, 32 bits, src/decode.c:1950. -/
def maskOf (w x : Nat) : Nat := (((2 ^ 32 - 1) >>> (32 - w)) <<< (x &&& 15)) % 2 ^ 32

/-- The loop of src/decode.c:1952-1956, `n` more rows; entries have 16 bits. -/
def orRows (w x : Nat) : (n r : Nat) → (Nat → Nat × Nat) → Nat → Nat × Nat
  | 0, _, m => m
  | n + 1, r, m => orRows w x n (r + 1) fun k =>
    if k = r then
      let i := (x &&& 16) >>> 4
      (if i = 0 then ((m k).1 ||| maskOf w x) % 2 ^ 16 else (m k).1, if i = 1 ∨ w = 32 then ((m k).2 ||| maskOf w x) % 2 ^ 16 else (m k).2)
    else m k

/-- The flags of a block, src/decode.c:1948-1957; `by4`, `bx4` are t->by & 31, t->bx & 31. -/
def noskip (b : Blk) (m : Mask) : Mask := if b.skip then m else { m with noskip := orRows b.w (b.x &&& 31) ((b.h + 1) / 2) ((b.y &&& 31) >>> 1) m.noskip }

/-- What decode_b does with the mask. -/
def block (f : Cfg) (b : Blk) : (Nat → Mask) → Nat → Mask := onMask f b.y b.x fun m => noskip b (cdefIndex f b m)

end Dav1d.Cdm
