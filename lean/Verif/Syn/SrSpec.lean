import Verif.Dsp.McTables
import Verif.Dsp.Mc
/-!
# Upscaling process, section 7.16 of the AV1 specification (from memory)
-/
namespace Dav1d.Sres.Av1

structure Env where
  FrameWidth : Nat
  UpscaledWidth : Nat
  MiCols : Nat
  subsampling_x : Nat
  depth : Depth
  /-- inputFrame: plane, row, column. -/
  CdefFrame : Nat → Nat → Nat → Int

variable (e : Env)

def SUPERRES_SCALE_BITS : Nat := 14
def SUPERRES_EXTRA_BITS : Nat := 8
def SUPERRES_FILTER_TAPS : Nat := 8
def SUPERRES_FILTER_OFFSET : Nat := 3
def FILTER_BITS : Nat := 7

def Round2 (x : Int) (n : Nat) : Int := if n = 0 then x else (x + 2 ^ (n - 1)) / 2 ^ n
def Clip3 (lo hi x : Int) : Int := if x < lo then lo else if x > hi then hi else x

/-- Upscale_Filter: the table of the decoder with the other sign; the numbers are not from another source. -/
def Upscale_Filter (i k : Nat) : Int := -((resizeFilters.getD i []).getD k 0)

def subX (plane : Nat) : Nat := if plane = 0 then 0 else e.subsampling_x
def downscaledPlaneW (plane : Nat) : Int := Round2 e.FrameWidth (subX e plane)
def upscaledPlaneW (plane : Nat) : Int := Round2 e.UpscaledWidth (subX e plane)
/-- Divisions round towards zero. -/
def stepX (plane : Nat) : Int := (downscaledPlaneW e plane * 2 ^ SUPERRES_SCALE_BITS + (upscaledPlaneW e plane).tdiv 2).tdiv (upscaledPlaneW e plane)
def err (plane : Nat) : Int := upscaledPlaneW e plane * stepX e plane - downscaledPlaneW e plane * 2 ^ SUPERRES_SCALE_BITS
def initialSubpelX (plane : Nat) : Int :=
  ((-((upscaledPlaneW e plane - downscaledPlaneW e plane) * 2 ^ (SUPERRES_SCALE_BITS - 1)) + (upscaledPlaneW e plane).tdiv 2).tdiv (upscaledPlaneW e plane)
    + 2 ^ (SUPERRES_EXTRA_BITS - 1) - (err e plane).tdiv 2) % 2 ^ SUPERRES_SCALE_BITS
def maxX (plane : Nat) : Int := (e.MiCols / 2 ^ subX e plane : Nat) * 4 - 1

/-- UpscaledCdefFrame. -/
def UpscaledCdefFrame (plane y x : Nat) : Int :=
  let srcX := -2 ^ SUPERRES_SCALE_BITS + initialSubpelX e plane + x * stepX e plane
  let srcXPx := srcX / 2 ^ SUPERRES_SCALE_BITS
  let srcXSubpel := (srcX % 2 ^ SUPERRES_SCALE_BITS / 2 ^ SUPERRES_EXTRA_BITS).toNat
  let sum := ((List.range SUPERRES_FILTER_TAPS).map fun (k : Nat) =>
    e.CdefFrame plane y (Clip3 0 (maxX e plane) (srcXPx + ((k : Int) - SUPERRES_FILTER_OFFSET))).toNat * Upscale_Filter srcXSubpel k).sum
  Clip3 0 (2 ^ e.depth.bpc - 1) (Round2 sum FILTER_BITS)

end Dav1d.Sres.Av1
