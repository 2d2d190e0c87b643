import Verif.Syn.PalModel
import Verif.Syn.CopySpec
import Verif.Part.CtxSpec
/-!
# Palettes of the AV1 specification: palette_mode_info, get_palette_cache, palette_tokens and get_palette_color_context (section 5.11)
-/
namespace Dav1d.Syn.Pal.Av1
open CdfTab (ModeF)

/-! ## Colours -/

/-- PaletteSizes and PaletteColors of the block above or on the left in a plane. -/
structure Around where
  n : Nat
  color : Nat → Nat

/-- `if ( n == 0 || c != PaletteCache[ n - 1 ] ) PaletteCache[ n++ ] = c` -/
def put (cache : List Nat) (c : Nat) : List Nat := if cache.length = 0 ∨ c ≠ cache.getD (cache.length - 1) 0 then cache ++ [c] else cache

/-- The loops of get_palette_cache. -/
def mergeCache (above left : Around) (aboveIdx leftIdx : Nat) (cache : List Nat) : List Nat :=
  if aboveIdx < above.n ∧ leftIdx < left.n then
    if left.color leftIdx < above.color aboveIdx then mergeCache above left aboveIdx (leftIdx + 1) (put cache (left.color leftIdx))
    else mergeCache above left (aboveIdx + 1) (if left.color leftIdx = above.color aboveIdx then leftIdx + 1 else leftIdx) (put cache (above.color aboveIdx))
  else if aboveIdx < above.n then mergeCache above left (aboveIdx + 1) leftIdx (put cache (above.color aboveIdx))
  else if leftIdx < left.n then mergeCache above left aboveIdx (leftIdx + 1) (put cache (left.color leftIdx))
  else cache
termination_by (above.n - aboveIdx) + (left.n - leftIdx)
decreasing_by all_goals (try split) <;> omega

/-- get_palette_cache: nothing is taken from above the 64x64 area. -/
def get_palette_cache (MiRow : Nat) (above left : Around) : List Nat :=
  mergeCache { above with n := if MiRow * 4 % 64 ≠ 0 then above.n else 0 } left 0 0 []

/-- use_palette_color_cache_y and use_palette_color_cache_u; `k` is the number of entries of the cache from `i` on. -/
def use_cache (cache : List Nat) (size : Nat) : (k i : Nat) → (colors : List Nat) → Prog (List Nat)
  | 0, _, colors => pure colors
  | k + 1, i, colors =>
    if colors.length < size then bit >>= fun u => use_cache cache size k (i + 1) (if u then colors ++ [cache.getD i 0] else colors)
    else pure colors

/-- CeilLog2 (section 4.7): the smallest i with 1 << i at least x, 0 for x less than 2. -/
def CeilLog2 (x : Nat) : Nat := go x 0
where
  go (k i : Nat) : Nat := match k with
    | 0 => i
    | k + 1 => if 2 ^ i < x then go k (i + 1) else i

def Clip1 (BitDepth : Nat) (x : Int) : Nat := (max 0 (min x (2 ^ BitDepth - 1))).toNat

/-- palette_delta_y and palette_delta_u: `k` more colours. -/
def deltas (BitDepth : Nat) (luma : Bool) : (k paletteBits : Nat) → (colors : List Nat) → Prog (List Nat)
  | 0, _, colors => pure colors
  | k + 1, paletteBits, colors =>
    bits paletteBits >>= fun d =>
    let d := if luma then d + 1 else d
    let c := Clip1 BitDepth ((colors.getD (colors.length - 1) 0 + d : Nat) : Int)
    let range := 2 ^ BitDepth - c - (if luma then 1 else 0)
    deltas BitDepth luma k (min paletteBits (CeilLog2 range)) (colors ++ [c])

/-- The colours of Y (`luma`) and of U in palette_mode_info, with the sort in increasing order. -/
def palette_colors (BitDepth : Nat) (luma : Bool) (size : Nat) (cache : List Nat) : Prog (List Nat) :=
  use_cache cache size cache.length 0 [] >>= fun colors =>
  (if colors.length < size then bits BitDepth >>= fun c => pure (colors ++ [c]) else pure colors) >>= fun colors =>
  (if colors.length < size then bits 2 >>= fun extra => pure (BitDepth - 3 + extra) else pure 0) >>= fun paletteBits =>
  deltas BitDepth luma (size - colors.length) paletteBits colors >>= fun colors =>
  pure (colors.mergeSort (fun a b => decide (a ≤ b)))

/-- palette_delta_v: `k` more colours. -/
def deltas_v (BitDepth paletteBits : Nat) : (k : Nat) → (colors : List Nat) → Prog (List Nat)
  | 0, colors => pure colors
  | k + 1, colors =>
    bits paletteBits >>= fun d =>
    (if d ≠ 0 then bit >>= fun s => pure (if s then -(d : Int) else d) else pure (d : Int)) >>= fun delta =>
    let maxVal : Int := 2 ^ BitDepth
    let val : Int := colors.getD (colors.length - 1) 0 + delta
    let val := if val < 0 then val + maxVal else val
    let val := if val ≥ maxVal then val - maxVal else val
    deltas_v BitDepth paletteBits k (colors ++ [Clip1 BitDepth val])

/-- The colours of V. -/
def palette_colors_v (BitDepth size : Nat) : Prog (List Nat) :=
  bit >>= fun delta_encode =>
  if delta_encode then
    bits 2 >>= fun extra =>
    bits BitDepth >>= fun c =>
    deltas_v BitDepth (BitDepth - 4 + extra) (size - 1) [c]
  else plain size []
where
  plain : (k : Nat) → (colors : List Nat) → Prog (List Nat)
    | 0, colors => pure colors
    | k + 1, colors => bits BitDepth >>= fun c => plain k (colors ++ [c])

/-- palette_size_y_minus_2 and palette_colors_y … -/
def palette_y (BitDepth bsizeCtx MiRow : Nat) (above left : Around) : Prog (List Nat) :=
  mode .palSz [0, bsizeCtx] 6 >>= fun s => palette_colors BitDepth true (s + 2) (get_palette_cache MiRow above left)

/-- … and palette_size_uv_minus_2, palette_colors_u and palette_colors_v. -/
def palette_uv (BitDepth bsizeCtx MiRow : Nat) (above left : Around) : Prog (List Nat × List Nat) :=
  mode .palSz [1, bsizeCtx] 6 >>= fun s =>
  palette_colors BitDepth false (s + 2) (get_palette_cache MiRow above left) >>= fun u =>
  palette_colors_v BitDepth (s + 2) >>= fun v => pure (u, v)

/-! ## Indices -/

/-- scores and ColorOrder of get_palette_color_context. -/
structure Scores where
  score : List Nat
  order : List Nat
  deriving DecidableEq, Repr

/-- The search for the largest of the scores from i + 1 on; only a larger one is taken. -/
def findMax (s : List Nat) (n i : Nat) : Nat :=
  (List.range' (i + 1) (n - (i + 1))).foldl (fun m j => if s.getD j 0 > s.getD m 0 then j else m) i

/-- The entry `m` goes to `i`, those between move by one. -/
def moveUp (l : List Nat) (i m : Nat) : List Nat := l.take i ++ [l.getD m 0] ++ (l.take m).drop i ++ l.drop (m + 1)

def sortStep (n i : Nat) (s : Scores) : Scores :=
  let m := findMax s.score n i
  if m ≠ i then ⟨moveUp s.score i m, moveUp s.order i m⟩ else s

def addScore (l : List Nat) (v k : Nat) : List Nat := l.set v (l.getD v 0 + k)

/-- Palette_Color_Context; the hash is never one of those with -1. -/
def Palette_Color_Context : Nat → Int
  | 2 => 0 | 5 => 4 | 6 => 3 | 7 => 2 | 8 => 1 | _ => -1

/-- get_palette_color_context: the context of palette_color_idx_y or palette_color_idx_uv (`Palette_Color_Context[ ColorContextHash ]`) and
ColorOrder. -/
def get_palette_color_context (colorMap : Nat → Nat → Nat) (r c n : Nat) : Int × List Nat :=
  let s := List.replicate 8 0
  let s := if c > 0 then addScore s (colorMap r (c - 1)) 2 else s
  let s := if r > 0 ∧ c > 0 then addScore s (colorMap (r - 1) (c - 1)) 1 else s
  let s := if r > 0 then addScore s (colorMap (r - 1) c) 2 else s
  let t := sortStep n 2 (sortStep n 1 (sortStep n 0 ⟨s, List.range 8⟩))
  (Palette_Color_Context (t.score.getD 0 0 * 1 + t.score.getD 1 0 * 2 + t.score.getD 2 0 * 2), t.order)

/-- One sample. -/
def token (plane n : Nat) (colorMap : Nat → Nat → Nat) (r c : Nat) : Prog (Nat → Nat → Nat) :=
  mode .colorMap [plane, n - 2, (get_palette_color_context colorMap r c n).1.toNat] (n - 1) >>= fun idx =>
  pure fun r' c' => if r' = r ∧ c' = c then (get_palette_color_context colorMap r c n).2.getD idx 0 else colorMap r' c'

/-- The loop over j for diagonal i: `k` samples from column `j` down. -/
def diagonal (plane n i : Nat) : (k j : Nat) → (colorMap : Nat → Nat → Nat) → Prog (Nat → Nat → Nat)
  | 0, _, m => pure m
  | k + 1, j, m => token plane n m (i - j) j >>= diagonal plane n i k (j - 1)

/-- The loop over i: `k` diagonals. The columns go from Min( i, onscreenWidth - 1 ) down to Max( 0, i - onscreenHeight + 1 ). -/
def diagonals (plane n onscreenWidth onscreenHeight : Nat) : (k i : Nat) → (colorMap : Nat → Nat → Nat) → Prog (Nat → Nat → Nat)
  | 0, _, m => pure m
  | k + 1, i, m =>
    diagonal plane n i (min i (onscreenWidth - 1) + 1 - (i + 1 - onscreenHeight)) (min i (onscreenWidth - 1)) m >>=
      diagonals plane n onscreenWidth onscreenHeight k (i + 1)

/-- palette_tokens for one of ColorMapY and ColorMapUV with `n` colours: rows and columns outside of the frame repeat the last ones. The first index has
the descriptor NS( n ). -/
def palette_tokens (plane n onscreenWidth onscreenHeight : Nat) : Prog (Nat → Nat → Nat) :=
  uniform n >>= fun v =>
  diagonals plane n onscreenWidth onscreenHeight (onscreenHeight + onscreenWidth - 2) 1 (fun _ _ => v) >>= fun m =>
  pure fun r c => m (min r (onscreenHeight - 1)) (min c (onscreenWidth - 1))

/-- The width of a block of chroma and the part of it in the frame, as palette_tokens computes them for ColorMapUV (or the height; `size` is Block_Width
or Block_Height, `mi` the position and `mis` MiCols or MiRows). -/
def onscreen (subsampling : Bool) (size mis mi : Nat) : Nat × Nat :=
  let s := if subsampling then 2 else 1
  let blockSize := size / s
  let onscreenSize := min size ((mis - mi) * 4) / s
  if blockSize < 4 then (blockSize + 2, onscreenSize + 2) else (blockSize, onscreenSize)

end Dav1d.Syn.Pal.Av1
