import Verif.Part.TxProps
import Verif.Dsp.IpredRec
/-!
# The samples that intra prediction reads

How dav1d_recon_b_intra calls dav1d_prepare_intra_edges (src/recon_tmpl.c:1258-1276 and 1465-1487) and where the samples above
a superblock row come from: the loop filters run while later superblock rows are decoded, so the last row of each superblock row
is copied before (dav1d_backup_ipred_edge, src/recon_tmpl.c:2114-2138).
-/
namespace Dav1d.Part

/-- The memory of one plane: the samples `px row column` and `edge`, f->ipred_edge of the plane; `none` is memory that was never
written. -/
structure Mem where
  px : Int → Int → Option Int
  edge : Int → Option Int

/-- f->sb_shift, src/decode.c:3560. -/
def sbShift (sb128 : Bool) : Nat := if sb128 then 5 else 4

/-- dav1d_backup_ipred_edge, src/recon_tmpl.c:2114-2138, for one plane. `by'` is t->by, the first row of the superblock row;
`sb128w` is f->sb128w. -/
def backupEdge (sb128w : Nat) (sb128 : Bool) (p : Plane) (T : Tile) (by' : Nat) (m : Mem) : Mem :=
  let off : Int := (sb128w * 128 * (by' >>> sbShift sb128) : Nat)
  let xo : Int := ((T.x0 * 4) >>> p.ssH : Nat)
  let n : Int := ((4 * (T.x1 - T.x0)) >>> p.ssH : Nat)
  let row : Int := (((by' + sbStep sb128) * 4) >>> p.ssV : Nat) - 1
  { m with edge := fun k => if off + xo ≤ k ∧ k < off + xo + n then m.px row (k - off) else m.edge k }

/-- The call of dav1d_prepare_intra_edges for a transform block, src/recon_tmpl.c:1258-1276 for luma and 1465-1487 for chroma.
For chroma the code looks at `t->by & ~ss_ver`, which is the row of the transform block times two, and at `t->by >> sb_shift`,
for which the last bit of t->by does not matter. -/
def prepOf (sb128w : Nat) (sb128 : Bool) (p : Plane) (T : Tile) (filterEdge : Bool) (m : Mem) (t : Tb) : Ipred.Prep where
  x := t.x
  haveLeft := t.left
  y := t.y
  haveTop := t.top
  w := T.x1 >>> p.ssH
  h := T.y1 >>> p.ssV
  hasRight := t.tr
  hasBottom := t.bl
  dst := fun r c => m.px (4 * t.y + r) (4 * t.x + c)
  sbEdge := if (t.y <<< p.ssV) % sbStep sb128 = 0 then
      some fun k => m.edge (sb128w * 128 * ((((t.y <<< p.ssV) >>> sbShift sb128 : Nat) : Int) - 1) + k)
    else none
  tw := t.w
  th := t.h
  filterEdge := filterEdge

/-- The sample in row `r` and column `c` of the plane belongs to a unit that was reconstructed. -/
def MadePx (ts : List Tb) (r c : Int) : Prop := ∃ a b : Nat, Made ts a b ∧ 4 * (a : Int) ≤ c ∧ c < 4 * a + 4 ∧ 4 * (b : Int) ≤ r ∧ r < 4 * b + 4

/-- The memory while a tile is decoded: `F` is the content of the plane before the loop filters, `done` what was reconstructed so
far and `y` the first row (in units of luma) of the superblock row that is decoded. -/
inductive Reach (sb128w : Nat) (sb128 : Bool) (p : Plane) (T : Tile) (F : Int → Int → Int) : List Tb → Nat → Mem → Prop
  /-- at the beginning there is anything in memory -/
  | start (m : Mem) : Reach sb128w sb128 p T F [] T.y0 m
  /-- a transform block is reconstructed: its samples are written, those of no other unit of the superblock rows from here on -/
  | recon {done : List Tb} {y : Nat} {m m' : Mem} {t : Tb} (h : Reach sb128w sb128 p T F done y m)
      (hin : ∀ r c, MadePx [t] r c → m'.px r c = some (F r c))
      (hout : ∀ r c, ¬ MadePx [t] r c → m'.px r c = m.px r c) (hedge : m'.edge = m.edge) : Reach sb128w sb128 p T F (done ++ [t]) y m'
  /-- a superblock row is complete and its last row is copied, src/decode.c:2634-2635 and 2731-2733 -/
  | row {done : List Tb} {y : Nat} {m : Mem} (h : Reach sb128w sb128 p T F done y m)
      (hdone : ∀ a b, (T.inPlane p).has a b → b < (y + sbStep sb128) / 2 ^ p.ssV → Made done a b) :
      Reach sb128w sb128 p T F done (y + sbStep sb128) (backupEdge sb128w sb128 p T y m)
  /-- anything else that goes on (loop filters, other tiles) changes samples only above this superblock row or outside of the
  tile, and not what was copied for this tile; for the copies of other tiles see `C72_other_tiles` -/
  | other {done : List Tb} {y : Nat} {m m' : Mem} (h : Reach sb128w sb128 p T F done y m)
      (hpx : ∀ a b r c, (T.inPlane p).has a b → y / 2 ^ p.ssV ≤ b → 4 * (a : Int) ≤ c → c < 4 * a + 4 → 4 * (b : Int) ≤ r → r < 4 * b + 4 → m'.px r c = m.px r c)
      (hedge : ∀ (n : Nat) (c : Int), 4 * ((T.inPlane p).x0 : Int) ≤ c → c < 4 * ((T.inPlane p).x1 : Int) → n < y / sbStep sb128 →
        m'.edge (sb128w * 128 * n + c) = m.edge (sb128w * 128 * n + c)) : Reach sb128w sb128 p T F done y m'

/-- The block as the AV1 specification describes it in 7.11.2: neighbours are available if they are in the tile; above and to
the right of the block and below on the left it matters whether the next unit was already decoded. The last row and column are
those of the frame. -/
def specBlock (f : Frame) (p : Plane) (P : Tile) (aboveRt belowLft : Bool) (t : Tb) : Ipred.Spec.Block where
  x := 4 * t.x
  y := 4 * t.y
  w := 4 * t.w
  h := 4 * t.h
  haveLeft := decide (P.x0 < t.x)
  haveAbove := decide (P.y0 < t.y)
  haveAboveRt := aboveRt
  haveBelowLft := belowLft
  maxX := ((4 * f.bw) >>> p.ssH : Nat) - 1
  maxY := ((4 * f.bh) >>> p.ssV : Nat) - 1

/-- `aboveRt` and `belowLft` tell whether the unit above and to the right of the block and the one below on the left have been
decoded and are in the tile. -/
structure Avail (P : Tile) (before : List Tb) (t : Tb) (aboveRt belowLft : Bool) : Prop where
  aboveRt : aboveRt = true ↔ 0 < t.y ∧ P.has (t.x + t.w) (t.y - 1) ∧ Made before (t.x + t.w) (t.y - 1)
  belowLft : belowLft = true ↔ 0 < t.x ∧ P.has (t.x - 1) (t.y + t.h) ∧ Made before (t.x - 1) (t.y + t.h)

/-- What directional prediction depends on, from the specification's block. -/
def specDirOf (B : Ipred.Spec.Block) (filter sm : Bool) : Ipred.Spec.Dir where
  w := B.w
  h := B.h
  filter := filter
  sm := sm
  haveAbove := B.haveAbove
  haveLeft := B.haveLeft
  availX := B.maxX - B.x + 1
  availY := B.maxY - B.y + 1

/-- The arguments max_width and max_height of the predictors, src/recon_tmpl.c:1281-1282 and 1493-1496: the samples up to the end
of the frame. -/
def maxWidth (f : Frame) (p : Plane) (t : Tb) : Int := ((4 * f.bw + p.ssH : Nat) - 4 * ((t.x <<< p.ssH : Nat) : Int)) / 2 ^ p.ssH
def maxHeight (f : Frame) (p : Plane) (t : Tb) : Int := ((4 * f.bh + p.ssV : Nat) - 4 * ((t.y <<< p.ssV : Nat) : Int)) / 2 ^ p.ssV

/-- The transform block `t` of an intra block is about to be predicted: in a run of decode_tile with any symbols, in any
channel and layout, with any modes and transform depths, after `before` was reconstructed; `m` is the memory and `y` the begin
of the superblock row. -/
structure Now {σ : Type} (S : Src σ) (f : Frame) (sb128 : Bool) (T : Tile) (layout : Nat) (ch : Chan) (sb128w : Nat) (F : Int → Int → Int)
    (before : List Tb) (t : Tb) (y : Nat) (m : Mem) : Prop where
  symbols : ∀ s bl ctx, (S.part s bl ctx).1 ≤ typeCount bl
  pass : f.pass ≠ 2
  tile : TileOk f sb128 T
  layouts : 1 ≤ layout ∧ layout ≤ 3
  i422 : f.i422 = decide (layout = 2)
  run : ∃ s st info after, decodeTile S f sb128 T.x0 T.x1 T.y0 T.y1 s = .ok st ∧
    planeTbs f T (ch.plane layout) (txOf layout ch info) (blocks st.log) = before ++ t :: after
  intra : t.intra = true
  reach : Reach sb128w sb128 (ch.plane layout) T F before y m
  row : y ≤ t.y <<< (ch.plane layout).ssV ∧ t.y <<< (ch.plane layout).ssV < y + sbStep sb128

end Dav1d.Part
