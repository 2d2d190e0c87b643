import Verif.Obu.FrameModel
/-!
# What a tile layout is
-/
namespace Dav1d

/-- Division rounding up. -/
def ceilDiv (a b : Nat) : Nat := (a + b - 1) / b

/-- The boundaries of `count` consecutive non-empty intervals covering `0 .. total`. -/
structure Boundaries (starts : List Nat) (count total : Nat) : Prop where
  length : starts.length = count + 1
  first : starts.head? = some 0
  last : starts.getLast? = some total
  increasing : starts.Pairwise (· < ·)
  atMost : count ≤ 64

/-- Position `x` lies in interval number `i`. -/
def InInterval (starts : List Nat) (i x : Nat) : Prop :=
  ∃ a b, starts[i]? = some a ∧ starts[i + 1]? = some b ∧ a ≤ x ∧ x < b

/-- Uniform spacing: the interval size is the total divided into `2 ^ log2` parts, rounded up; the number of
intervals is the total over that size, rounded up; boundaries are the multiples. -/
def UniformSpacing (starts : List Nat) (count total log2 : Nat) : Prop :=
  let size := ceilDiv total (2 ^ log2)
  count = ceilDiv total size ∧ ∀ i, i < count → starts[i]? = some (i * size)

/-- A legal tile layout for a coded frame of `w` by `h` pixels with superblocks of size `sb`. -/
structure TilingOk (sb w h : Nat) (t : Tiling) : Prop where
  cols : Boundaries t.colStart t.cols (ceilDiv w sb)
  rows : Boundaries t.rowStart t.rows (ceilDiv h sb)
  log2 : t.cols ≤ 2 ^ t.log2Cols ∧ t.log2Cols ≤ 6 ∧ t.rows ≤ 2 ^ t.log2Rows ∧ t.log2Rows ≤ 6
  update : t.update < t.cols * t.rows
  nBytes : 1 < t.cols * t.rows → 1 ≤ t.nBytes ∧ t.nBytes ≤ 4
  uniform : t.uniform = true → UniformSpacing t.colStart t.cols (ceilDiv w sb) t.log2Cols ∧
    UniformSpacing t.rowStart t.rows (ceilDiv h sb) t.log2Rows

end Dav1d
