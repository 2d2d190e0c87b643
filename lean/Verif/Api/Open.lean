import Verif.Api.Model
/-!
# Model of dav1d_open and dav1d_get_frame_delay: settings and thread counts

Threads, memory pools and CPU dispatch are not modelled; what is allocated is only represented by whether some
allocation or thread creation fails.
-/
namespace Dav1d

/-- One of the two picture callbacks: missing, the default one of src/picture.c, or the user's. -/
inductive Callback where
  | null | default | user
  deriving DecidableEq

/-- `Dav1dSettings`, include/dav1d/dav1d.h:70-93, with C `int` fields as integers. -/
structure OpenSettings where
  nThreads : Int := 0
  maxFrameDelay : Int := 0
  applyGrain : Int := 1
  operatingPoint : Int := 0
  allLayers : Int := 1
  frameSizeLimit : Nat := 0
  alloc : Callback := .default
  release : Callback := .default
  /-- `allocator.cookie != NULL` -/
  cookie : Bool := false
  strict : Int := 0
  outputInvisible : Int := 0
  decodeFrameType : Int := 0

/-- `fc_lut`, src/lib.c:111-119. -/
def fcLut : List Nat :=
  [1, 2, 2, 2, 3, 3, 3, 3, 3, 4, 4, 4, 4, 4, 4, 4, 5, 5, 5, 5, 5, 5, 5, 5, 5,
   6, 6, 6, 6, 6, 6, 6, 6, 6, 6, 6, 7, 7, 7, 7, 7, 7, 7, 7, 7, 7, 7, 7, 7]

/-- `iclip`, include/common/intops.h:51-53. -/
def iclipInt (v lo hi : Int) : Int := if v < lo then lo else if v > hi then hi else v

/-- `get_num_threads`, src/lib.c:107-124: number of threads and frame contexts; `none` would be an access outside
the table. `cores` is the result of dav1d_num_logical_processors. -/
def getNumThreads (s : OpenSettings) (cores : Int) : Option (Nat × Nat) :=
  let nTc := (if s.nThreads ≠ 0 then s.nThreads else iclipInt cores 1 256).toNat
  if s.maxFrameDelay ≠ 0 then some (nTc, min s.maxFrameDelay.toNat nTc)
  else if nTc < 50 then (fcLut[nTc - 1]?).map (fun k => (nTc, k))
  else some (nTc, 8)

/-- The checks of src/lib.c:129-132 and 144-147. -/
def threadSettingsOk (s : OpenSettings) : Bool :=
  decide (0 ≤ s.nThreads) && decide (s.nThreads ≤ 256) && decide (0 ≤ s.maxFrameDelay) && decide (s.maxFrameDelay ≤ 256)

/-- `dav1d_get_frame_delay`, src/lib.c:126-136 (for a non-null argument). -/
def getFrameDelay (s : OpenSettings) (cores : Int) : Option (Except Err Nat) :=
  if threadSettingsOk s then (getNumThreads s cores).map (fun x => .ok x.2) else some (.error .EINVAL)

/-- What the opened decoder works with. -/
structure Opened where
  nTc : Nat
  settings : Settings

/-- `dav1d_open`, src/lib.c:138-299 (for non-null arguments). `wide` is `sizeof(size_t) >= 8`; `allocs` says whether
all allocations and thread creations succeed. `close_internal` on the error path is not modelled. -/
def openDec (s : OpenSettings) (cores : Int) (wide allocs : Bool) : Option (Except Err Opened) :=
  if !threadSettingsOk s then some (.error .EINVAL)
  else if s.alloc = .null then some (.error .EINVAL)
  else if s.release = .null then some (.error .EINVAL)
  else if !(decide (0 ≤ s.operatingPoint) && decide (s.operatingPoint ≤ 31)) then some (.error .EINVAL)
  else if !(decide (0 ≤ s.decodeFrameType) && decide (s.decodeFrameType ≤ 3)) then some (.error .EINVAL)
  else if !allocs then some (.error .ENOMEM)
  else if s.alloc = .default ∧ s.release = .default ∧ s.cookie then some (.error .ENOMEM)
  else if ¬(s.alloc = .default ∧ s.release = .default) ∧ (s.alloc = .default ∨ s.release = .default) then some (.error .ENOMEM)
  else
    let limit := if !wide && decide (8192 * 8192 ≤ (s.frameSizeLimit + 2 ^ 32 - 1) % 2 ^ 32) then 8192 * 8192 else s.frameSizeLimit
    (getNumThreads s cores).map (fun x => .ok
      { nTc := x.1
        settings := { strict := s.strict != 0, operatingPoint := s.operatingPoint.toNat, allLayers := s.allLayers != 0
                      frameSizeLimit := limit, decodeFrameType := s.decodeFrameType.toNat
                      outputInvisible := s.outputInvisible != 0, applyGrain := s.applyGrain != 0, nFc := x.2 } })

end Dav1d
