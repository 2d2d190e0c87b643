import Verif.Dsp.Mc
/-!
# Model of emu_edge_c, src/mc_tmpl.c:827-875, and of its use in mc(), src/recon_tmpl.c:941-993
-/
namespace Dav1d

/-- Conversion to `int`. -/
def cint (v : Int) : Int := (v + 2 ^ 31) % 2 ^ 32 - 2 ^ 31

/-- Writing `n` pixels of row `r` from column `c` on (pixel_copy and pixel_set, include/common/bitdepth.h:47-48 and
66-70); `f k` is the value for the pixel in column `k`. -/
def putRow (buf : Plane) (r c n : Int) (f : Int → Int) : Plane := fun i k => if i = r ∧ c ≤ k ∧ k < c + n then f k else buf i k

/-- Reading `n` pixels of row `r` of a picture from column `c` on; `none` if not all of them are pixels of the picture. -/
def readRow (pic : Plane) (iw ih r c n : Int) : Option (Int → Int) :=
  if 0 ≤ r ∧ r < ih ∧ 0 ≤ c ∧ c + n ≤ iw then some (fun k => pic r (c + k)) else none

/-- The loop over the visible rows, src/mc_tmpl.c:848-859: `n` rows beginning with row `blk` of the buffer and row `r` of
the picture. -/
def emuCentre (pic : Plane) (iw ih c leftExt rightExt centerW : Int) : Nat → Int → Int → Plane → Option Plane
  | 0, _, _, buf => some buf
  | n + 1, blk, r, buf => do
    let row ← readRow pic iw ih r c centerW
    let buf := putRow buf blk leftExt centerW (fun k => row (k - leftExt))
    let buf := if leftExt ≠ 0 then putRow buf blk 0 leftExt (fun _ => buf blk leftExt) else buf
    let buf := if rightExt ≠ 0 then putRow buf blk (leftExt + centerW) rightExt (fun _ => buf blk (leftExt + centerW - 1)) else buf
    emuCentre pic iw ih c leftExt rightExt centerW n (blk + 1) (r + 1) buf

/-- The loop of lines 863-866: rows `d`, `d + 1`, … are copies of row `blk`. -/
def emuTop (bw blk : Int) : Nat → Int → Plane → Plane
  | 0, _, buf => buf
  | n + 1, d, buf => emuTop bw blk n (d + 1) (putRow buf d 0 bw (buf blk))

/-- The loop of lines 870-874: every row is a copy of the one above it. -/
def emuBottom (bw : Int) : Nat → Int → Plane → Plane
  | 0, _, buf => buf
  | n + 1, d, buf => emuBottom bw n (d + 1) (putRow buf d 0 bw (buf (d - 1)))

/-- emu_edge_c. `none`: an assertion fails or a pixel outside of the picture is read. -/
def emuEdge (bw bh iw ih x y : Int) (buf : Plane) (pic : Plane) : Option Plane :=
  let r := iclip (cint y) 0 (cint ih - 1)
  let c := iclip (cint x) 0 (cint iw - 1)
  let leftExt := iclip (cint (-x)) 0 (cint bw - 1)
  let rightExt := iclip (cint (x + bw - iw)) 0 (cint bw - 1)
  let topExt := iclip (cint (-y)) 0 (cint bh - 1)
  let bottomExt := iclip (cint (y + bh - ih)) 0 (cint bh - 1)
  if leftExt + rightExt < bw ∧ topExt + bottomExt < bh then
    let centerW := cint (bw - leftExt - rightExt)
    let centerH := cint (bh - topExt - bottomExt)
    (emuCentre pic iw ih c leftExt rightExt centerW centerH.toNat topExt r buf).map (fun buf =>
      emuBottom bw bottomExt.toNat (topExt + centerH) (emuTop bw topExt topExt.toNat 0 buf))
  else none

/-- The source that mc() gives to the prediction functions for a reference of the same size, src/recon_tmpl.c:958-983:
`dx`, `dy` is the position of the block of `bw` times `bh` pixels in the reference of `w` times `h` pixels. `buf` is what was in
the scratch buffer before. Reads of the prediction functions from the picture are not checked here: theorems about the
result show that pixels outside have no influence. -/
def mcSource (pic : Plane) (w h dx dy bw bh : Int) (mx my : Nat) (buf : Plane) : Option Plane :=
  let ex : Int := if mx ≠ 0 then 1 else 0
  let ey : Int := if my ≠ 0 then 1 else 0
  if dx < ex * 3 ∨ dy < ey * 3 ∨ dx + bw + ex * 4 > w ∨ dy + bh + ey * 4 > h then
    (emuEdge (bw + ex * 7) (bh + ey * 7) w h (dx - ex * 3) (dy - ey * 3) buf pic).map (fun b r c => b (r + ey * 3) (c + ex * 3))
  else some (fun r c => pic (dy + r) (dx + c))

end Dav1d
