import Verif.Obu.SeqModel
/-!
# Model of dav1d_default_picture_alloc, src/picture.c:46-83

Machines differ in the size of pointers: `bits` is 32 or 64, `ptrdiff_t` and `size_t` have that many bits, `int` has 32.
-/
namespace Dav1d

/-- A value that has to fit a signed type; overflow would be undefined behaviour. -/
def signedFits (bits v : Nat) : Option Nat := if v < 2 ^ (bits - 1) then some v else none
/-- A value that has to fit `size_t`; the C code would continue with the wrapped value. -/
def unsignedFits (bits v : Nat) : Option Nat := if v < 2 ^ bits then some v else none

/-- The padding of a stride against cache conflicts, src/picture.c:61-64. -/
def padStride (bits : Nat) (present : Bool) (x : Nat) : Option Nat :=
  if x % 1024 = 0 ∧ present = true then signedFits bits (x + 64) else some x

/-- What is put into the picture: positions of the planes in the buffer (`none` is NULL), strides, and the size of the
memory allocated by the pool, src/mem.c:260-261: what is asked for plus the `Dav1dMemPoolBuffer` of two pointers. -/
structure PicGeometry where
  strideY : Nat
  strideUV : Nat
  y : Nat
  u : Option Nat
  v : Option Nat
  /-- the argument of dav1d_mem_pool_pop -/
  asked : Nat
  alloc : Nat
  deriving DecidableEq

/-- dav1d_default_picture_alloc up to the result of the allocation. -/
def defaultAlloc (bits : Nat) (layout : Layout) (bpc w h : Nat) : Option PicGeometry := do
  let hbd := if bpc > 8 then 1 else 0
  let alignedW := ((← signedFits 32 (w + 127)) / 128) * 128
  let alignedH := ((← signedFits 32 (h + 127)) / 128) * 128
  let hasChroma := layout != .I400
  let ssVer := if layout = .I420 then 1 else 0
  let ssHor := if layout != .I444 then 1 else 0
  let yStride ← signedFits 32 (alignedW <<< hbd)
  let uvStride := if hasChroma then yStride >>> ssHor else 0
  let yStride ← padStride bits true yStride
  let uvStride ← padStride bits hasChroma uvStride
  let ySz ← signedFits bits (yStride * alignedH)
  let uvSz ← signedFits bits (uvStride * (alignedH >>> ssVer))
  let picSize ← unsignedFits bits (ySz + 2 * uvSz)
  let buffer := 2 * (bits / 8)
  let asked ← unsignedFits bits (picSize + 64 - buffer)
  let alloc ← unsignedFits bits (asked + buffer)
  some { strideY := yStride, strideUV := uvStride, y := 0
         u := if hasChroma then some ySz else none
         v := if hasChroma then some (ySz + uvSz) else none
         asked := asked, alloc := alloc }

end Dav1d
