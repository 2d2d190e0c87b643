/-!
# Wedge and inter-intra masks of the AV1 specification, 7.11.3.11, 7.11.3.13 and 7.11.3.15

From memory of the specification.
-/
namespace Dav1d.Wedge.Spec

/-- Wedge_Master_Oblique_Odd, Wedge_Master_Oblique_Even and Wedge_Master_Vertical: 64 entries each. -/
def obliqueOdd : List Nat := List.replicate 28 0 ++ [1, 2, 6, 18, 37, 53, 60, 63] ++ List.replicate 28 64
def obliqueEven : List Nat := List.replicate 28 0 ++ [1, 4, 11, 27, 46, 58, 62, 63] ++ List.replicate 28 64
def vertical : List Nat := List.replicate 28 0 ++ [0, 2, 7, 21, 43, 57, 62, 64] ++ List.replicate 28 64

def clip3 (lo hi v : Int) : Nat := (max lo (min hi v)).toNat

/-- `MasterMask[ WEDGE_OBLIQUE63 ][ i ][ j ]`: the columns of the border move by one to the left every row. -/
def oblique63 (i j : Nat) : Nat :=
  if i % 2 = 0 then obliqueEven.getD (clip3 0 63 (j - (16 - i / 2 : Int))) 0
  else obliqueOdd.getD (clip3 0 63 (j - (16 - i / 2 - 1 : Int))) 0

/-- `MasterMask[ dir ][ i ][ j ]`; the directions are numbered WEDGE_HORIZONTAL 0, WEDGE_VERTICAL 1, WEDGE_OBLIQUE27 2,
WEDGE_OBLIQUE63 3, WEDGE_OBLIQUE117 4 and WEDGE_OBLIQUE153 5. -/
def masterMask (dir i j : Nat) : Nat :=
  match dir with
  | 0 => vertical.getD i 0
  | 1 => vertical.getD j 0
  | 2 => oblique63 j i
  | 3 => oblique63 i j
  | 4 => 64 - oblique63 i (63 - j)
  | _ => 64 - oblique63 j (63 - i)

/-- Wedge_Codebook: direction, horizontal and vertical position. -/
def codebook : List (List (Nat × Nat × Nat)) := [
  [(2, 4, 4), (3, 4, 4), (4, 4, 4), (5, 4, 4), (0, 4, 2), (0, 4, 4), (0, 4, 6), (1, 4, 4),
   (2, 4, 2), (2, 4, 6), (5, 4, 2), (5, 4, 6), (3, 2, 4), (3, 6, 4), (4, 2, 4), (4, 6, 4)],
  [(2, 4, 4), (3, 4, 4), (4, 4, 4), (5, 4, 4), (1, 2, 4), (1, 4, 4), (1, 6, 4), (0, 4, 4),
   (2, 4, 2), (2, 4, 6), (5, 4, 2), (5, 4, 6), (3, 2, 4), (3, 6, 4), (4, 2, 4), (4, 6, 4)],
  [(2, 4, 4), (3, 4, 4), (4, 4, 4), (5, 4, 4), (0, 4, 2), (0, 4, 6), (1, 2, 4), (1, 6, 4),
   (2, 4, 2), (2, 4, 6), (5, 4, 2), (5, 4, 6), (3, 2, 4), (3, 6, 4), (4, 2, 4), (4, 6, 4)]]

/-- The entry for a block size: tall, wide and square blocks have their own. -/
def code (w h idx : Nat) : Nat × Nat × Nat :=
  (codebook.getD (if h > w then 0 else if w > h then 1 else 2) []).getD idx (0, 0, 0)

/-- The mask before its sign is chosen: the master mask around the position, in eighths of the block. -/
def cut (w h idx i j : Nat) : Nat :=
  masterMask (code w h idx).1 (32 - (code w h idx).2.2 * h / 8 + i) (32 - (code w h idx).2.1 * w / 8 + j)

/-- get_wedge_flipsign: whether the average of the first row and the first column is below 32. -/
def flipSign (w h idx : Nat) : Bool :=
  let total := ((List.range w).map fun j => cut w h idx 0 j).sum + ((List.range (h - 1)).map fun i => cut w h idx (i + 1) 0).sum
  (total + (w + h - 1) / 2) / (w + h - 1) < 32

/-- `WedgeMasks[ bsize ][ sign ][ idx ][ i ][ j ]`, the weight in 1/64 of the first prediction when wedge_sign is `sign`. -/
def wedgeMask (w h : Nat) (sign : Bool) (idx i j : Nat) : Nat :=
  if sign = flipSign w h idx then cut w h idx i j else 64 - cut w h idx i j

/-- The mask of a plane with subsampling, 7.11.3.14: the rounded average of the mask of the luma pixels covered. -/
def planeMask (m : Nat → Nat → Nat) (subX subY : Bool) (i j : Nat) : Nat :=
  match subX, subY with
  | false, _ => m i j
  | true, false => (m i (2 * j) + m i (2 * j + 1) + 1) / 2
  | true, true => (m (2 * i) (2 * j) + m (2 * i) (2 * j + 1) + m (2 * i + 1) (2 * j) + m (2 * i + 1) (2 * j + 1) + 2) / 4

/-- Ii_Weights_1d has 128 entries; these are every fourth of them. No block that has inter-intra prediction uses others. -/
def iiWeights1d4 : List Nat :=
  [60, 52, 45, 39, 34, 30, 26, 22, 19, 17, 15, 13, 11, 10, 8, 7, 6, 6, 5, 4, 4, 3, 3, 2, 2, 2, 2, 1, 1, 1, 1, 1]

/-- 7.11.3.13, the weight in 1/64 of the intra prediction in a plane where the block has `w` by `h` pixels; mode 0 is II_DC_PRED, 1 II_V_PRED,
2 II_H_PRED and 3 II_SMOOTH_PRED. The index `… * sizeScale` of the specification, where sizeScale is 128 / max(w, h), is divided by 4. -/
def iiMask (w h mode i j : Nat) : Nat :=
  let scale := 32 / max w h
  match mode with
  | 0 => 32
  | 1 => iiWeights1d4.getD (i * scale) 0
  | 2 => iiWeights1d4.getD (j * scale) 0
  | _ => iiWeights1d4.getD (min i j * scale) 0

end Dav1d.Wedge.Spec
