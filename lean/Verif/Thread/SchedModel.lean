/-!
# The tasks of one frame, src/thread_task.c

The workers share, per frame, a list of queued tasks and a number of atomic counters. This is a transition system: one
step is one atomic access (or one critical section) by the worker that runs a task, or the removal of a runnable task
from the queue. The steps of different tasks interleave arbitrarily.

Simplifications:
* A worker takes any runnable task from the queue (the queue and the pending list are not distinguished and not ordered,
  and the workers have no identity). This allows more executions than the code: `ttd->cur`, `reset_task_cur` and the
  condition variable only restrict which worker looks at which task when.
* When a task is found runnable, the counters are read in one step. In the code they are read one after the other; all of
  them only grow (an error value is larger than all others and stays), so what was read before still holds at the last read.
  A scan that finds a task not runnable changes nothing: lines 396, 401, 619 and 625 set the error flag only if a progress
  is `TILE_ERROR`, which is stored only when the flag is set already. Line 429 is the step `refError`.
* dav1d_flush, memory allocation failures (src/thread_task.c:722-739), abort_frame (453-463) and the frame's INIT tasks are left out: the tasks
  exist from dav1d_task_create_tile_sbrow on.
* `ttd->lock` is not modelled: of what happens inside it only the atomic accesses matter.
-/
namespace Dav1d.Sched

/-- Array update. -/
def upd {α : Type} (f : Nat → α) (i : Nat) (v : α) : Nat → α := fun j => if j = i then v else f j
/-- Update of an array indexed by pass (`true`: entropy decoding) and tile. -/
def upd2 {α : Type} (f : Bool → Nat → α) (p : Bool) (i : Nat) (v : α) : Bool → Nat → α :=
  fun q j => if q = p ∧ j = i then v else f q j

/-- `TILE_ERROR`, src/thread_task.h:36. -/
def TILE_ERROR : Nat := 2147483646
/-- `FRAME_ERROR`, src/thread_task.h:35, and `UINT_MAX`. -/
def FRAME_ERROR : Nat := 4294967294
def UINT_MAX : Nat := 4294967295

/-- What the scheduling of a frame depends on. -/
structure Cfg where
  /-- `tiling.cols` and `tiling.rows`. -/
  cols : Nat
  rows : Nat
  /-- `tiling.row_start_sb`. -/
  start : Nat → Nat
  /-- `f->sbh`, src/decode.c:3562. -/
  sbh : Nat
  /-- `f->sb_step * 4`, the height of a superblock in pixels (a power of two). -/
  sbsz : Nat
  /-- `c->n_fc > 1`. -/
  twoPass : Bool
  /-- `level_y[0] || level_y[1]`, `seq_hdr->cdef`, `width[0] != width[1]`, `lf.restore_planes`; src/thread_task.c:217-221. -/
  deblock : Bool
  cdef : Bool
  resize : Bool
  lr : Bool

namespace Cfg
variable (k : Cfg)
/-- Number of tiles. -/
def tiles : Nat := k.cols * k.rows
/-- First superblock row of tile `i`, and the one after its last. `((sby + 1) << sb_shift) < row_end`
(src/thread_task.c:766) is `sby + 1 < last`, as `row_end` is the smaller of `row_start_sb[row + 1] << sb_shift` and `bh`
(src/decode.c:2465) and `row_start_sb[rows] = sbh`. -/
def first (i : Nat) : Nat := k.start (i / k.cols)
def last (i : Nat) : Nat := k.start (i / k.cols + 1)
/-- `prog_sz`, src/thread_task.c:238. -/
def progSz : Nat := (k.sbh + 31) / 32
end Cfg

/-- The post filters. -/
inductive Stage where
  | cols | rows | cdef | resize | lr
  deriving DecidableEq

/-- The work that a task does for a superblock row: decode a tile (`true`: entropy decoding pass), or filter. -/
inductive Work where
  | tile (p : Bool) (i y : Nat)
  | filt (g : Stage) (y : Nat)
  deriving DecidableEq

/-- What can be observed: the start and end of a piece of work, and the call of dav1d_decode_frame_exit that announces the
frame, with the error. -/
inductive Ev where
  | start (w : Work)
  | fin (w : Work)
  | exit (error : Bool)
  deriving DecidableEq

/-- The type of a filter task, src/internal.h:83-88: what it begins with. -/
inductive Ty where
  | stage (g : Stage)
  | progress
  deriving DecidableEq

/-- State of the task of a tile, working on superblock row `y`, with the local `error`. -/
inductive TileSt where
  /-- not created yet -/
  | absent
  /-- in the queue -/
  | queued (y : Nat)
  /-- src/thread_task.c:688, about to read `error` -/
  | taken (y : Nat)
  /-- in dav1d_decode_tile_sbrow -/
  | run (y : Nat)
  /-- src/thread_task.c:765, about to update `error` -/
  | ran (y : Nat) (e : Bool)
  /-- src/thread_task.c:769, about to check the next row -/
  | more (y : Nat) (e : Bool)
  /-- src/thread_task.c:770 or 776, about to store the progress and go on or back to the queue -/
  | next (y : Nat) (e now : Bool)
  /-- src/thread_task.c:781 -/
  | last (e : Bool)
  /-- src/thread_task.c:794, about to decrement `task_counter` -/
  | stored
  /-- the counter was decremented to `n` -/
  | subbed (n : Int)
  | gone
  deriving DecidableEq

/-- Position of a filter task in src/thread_task.c:810-870 and 904-931. `n` is the result of get_frame_progress plus 1. -/
inductive Pc where
  /-- about to check `error` before the filter -/
  | st (g : Stage)
  /-- in the filter -/
  | run (g : Stage)
  /-- ensure_progress, 813 -/
  | colsChk
  /-- 824 and 825 -/
  | rowsLoad
  | rowsStore (e : Bool)
  /-- 831 and 836 -/
  | rowsOr
  | rowsChk
  /-- 905, 907 -/
  | bit
  | lock
  /-- in get_frame_progress, at word `i` -/
  | scan (i : Nat)
  /-- 909, 912, 913, 915, 917 -/
  | load (n : Nat)
  | store (n : Nat) (e : Bool)
  | unlock (n : Nat)
  | done (n : Nat)
  | sub
  deriving DecidableEq

/-- State of the filter task of a superblock row; in the queue with the fields `type`, `recon_progress` and
`deblock_progress`. -/
inductive FiltSt where
  | absent
  | queued (ty : Ty) (recon db : Nat)
  | at (pc : Pc)
  | subbed (n : Int)
  | gone
  deriving DecidableEq

/-- State of the ENTROPY_PROGRESS task of a superblock row, src/thread_task.c:876-903. -/
inductive EntSt where
  | absent
  | queued
  | load
  | pub (e : Bool)
  | ent (e : Bool)
  | done
  | sub
  | subbed (n : Int)
  | gone
  deriving DecidableEq

/-- The state of a frame. -/
structure St where
  /-- passes created so far -/
  phase : Nat
  tile : Bool → Nat → TileSt
  filt : Nat → FiltSt
  ent : Nat → EntSt
  /-- `ts->progress[p]` -/
  tprog : Bool → Nat → Nat
  /-- `next_tile_row` -/
  ntr : Bool → Nat
  /-- `entropy_progress` and `deblock_progress` -/
  entp : Nat
  dbp : Nat
  /-- the bits of `copy_lpf_progress` and `frame_progress`: row `y` has bit `y & 31` of word `y >> 5` -/
  lpf : Nat → Bool
  bits : Nat → Bool
  /-- `sr_cur.progress` -/
  pub0 : Nat
  pub1 : Nat
  /-- `task_thread.error`, `task_counter`, `done` -/
  error : Bool
  counter : Int
  done0 : Bool
  done1 : Bool
  /-- whether `f->task_thread.lock` is held -/
  flock : Bool
  /-- what happened so far, the latest first -/
  log : List Ev

/-- The state when the frame has been submitted, src/decode.c:3565-3570, 2508-2509, src/picture.c:231-232. -/
def St.init (k : Cfg) : St where
  phase := 0
  tile := fun _ _ => .absent
  filt := fun _ => .absent
  ent := fun _ => .absent
  tprog := fun _ i => k.first i
  ntr := fun _ => 0
  entp := 0
  dbp := 0
  lpf := fun _ => false
  bits := fun _ => false
  pub0 := 0
  pub1 := 0
  error := false
  counter := if k.twoPass then 2 * (k.tiles + k.sbh) else k.tiles + k.sbh
  done0 := false
  done1 := false
  flock := false
  log := []

variable (k : Cfg)

/-- The type of the filter tasks of a frame, src/thread_task.c:257-261. -/
def firstTy : Ty :=
  if k.deblock then .stage .cols
  else if k.cdef || k.lr then .stage .rows
  else if k.resize then .stage .resize
  else .progress

/-- dav1d_task_create_tile_sbrow for the entropy decoding pass, src/thread_task.c:268-334 and 214-266. -/
def create1 (s : St) : St :=
  { s with phase := 1, tile := fun p i => if p = true ∧ i < k.tiles then .queued (k.first i) else s.tile p i,
           ent := upd s.ent 0 .queued, entp := 0, ntr := fun p => if p then 0 else s.ntr p, done1 := false }

/-- dav1d_task_create_tile_sbrow for reconstruction. -/
def create2 (s : St) : St :=
  { s with phase := 2, tile := fun p i => if p = false ∧ i < k.tiles then .queued (k.first i) else s.tile p i,
           filt := upd s.filt 0 (.queued (firstTy k) 1 0), dbp := 0, lpf := fun _ => false, bits := fun _ => false,
           ntr := fun p => if p then s.ntr p else 0, done0 := false }

/-! ## Tile tasks -/

/-- check_tile, src/thread_task.c:387-433: the error flag after it, if tile `i` may go on with row `y`. `rd` says whether
the reference frames have got far enough (403-431). -/
def checkTile (rd : Bool → Nat → Nat → Prop) (s : St) (p : Bool) (i y : Nat) (e : Bool) : Prop :=
  y ≤ s.tprog p i ∧
  let e1 := s.error || decide (s.tprog p i = TILE_ERROR)
  (e1 = false ∧ k.twoPass = true ∧ p = false → y < s.tprog true i) ∧
  let e2 := e1 || (k.twoPass && !p && decide (s.tprog true i = TILE_ERROR))
  (e2 = false ∧ k.twoPass = true → rd p i y) ∧ e = e2

/-- `progress` stored for the row, src/thread_task.c:762. -/
def progress (y : Nat) (e : Bool) : Nat := if e then TILE_ERROR else y + 1

/-- The frame is announced, src/thread_task.c:794-803, 892-900 and 922-930, if `n` tasks are left. -/
def announce (s : St) (n : Int) : List Ev :=
  if n = 0 ∧ s.done0 = true ∧ (k.twoPass = true → s.done1 = true) then .exit s.error :: s.log else s.log

/-- One step of the task of tile `i`; src/thread_task.c:750-809. -/
inductive TileStep (rd : Bool → Nat → Nat → Prop) (s : St) (p : Bool) (i : Nat) : St → Prop
  /-- 602-608 and 672-685: runnable, taken from the queue -/
  | find {y e} : s.tile p i = .queued y → checkTile k rd s p i y e →
      TileStep rd s p i { s with tile := upd2 s.tile p i (.taken y), error := e }
  /-- 687-688, 761 -/
  | skip {y} : s.tile p i = .taken y → s.error = true →
      TileStep rd s p i { s with tile := upd2 s.tile p i (.ran y true) }
  | start {y} : s.tile p i = .taken y → s.error = false →
      TileStep rd s p i { s with tile := upd2 s.tile p i (.run y), log := .start (.tile p i y) :: s.log }
  /-- 761, with the result `e` -/
  | fin {y} (e : Bool) : s.tile p i = .run y →
      TileStep rd s p i { s with tile := upd2 s.tile p i (.ran y e), log := .fin (.tile p i y) :: s.log }
  /-- 765, 766 -/
  | or {y e} : s.tile p i = .ran y e →
      TileStep rd s p i { s with tile := upd2 s.tile p i (if y + 1 < k.last i then .more y e else .last e), error := s.error || e }
  /-- 769 -/
  | again {y e e'} : s.tile p i = .more y e → checkTile k rd s p i (y + 1) e' →
      TileStep rd s p i { s with tile := upd2 s.tile p i (.next y e true), error := e' }
  | wait {y e} : s.tile p i = .more y e → TileStep rd s p i { s with tile := upd2 s.tile p i (.next y e false) }
  /-- 770-774, 776-777 -/
  | next {y e now} : s.tile p i = .next y e now →
      TileStep rd s p i { s with tile := upd2 s.tile p i (if now then .taken (y + 1) else .queued (y + 1)),
                                 tprog := upd2 s.tprog p i (progress y e) }
  /-- 781 -/
  | last {e} : s.tile p i = .last e →
      TileStep rd s p i { s with tile := upd2 s.tile p i .stored, tprog := upd2 s.tprog p i (progress (k.last i - 1) e) }
  /-- 794 -/
  | sub : s.tile p i = .stored →
      TileStep rd s p i { s with tile := upd2 s.tile p i (.subbed (s.counter - 1)), counter := s.counter - 1 }
  /-- 794-803 -/
  | exit {n} : s.tile p i = .subbed n →
      TileStep rd s p i { s with tile := upd2 s.tile p i .gone, log := announce k s n }

/-! ## Filter tasks -/

/-- Whether a filter is used; src/thread_task.c:811, 818, 848, 857, 862. -/
def enabled : Stage → Bool
  | .cols => true
  | .rows => true
  | .cdef => k.cdef
  | .resize => k.resize
  | .lr => k.lr

/-- Where the task continues after a filter; src/thread_task.c:813, 821-844, 851-865. -/
def after : Stage → Pc
  | .cols => .colsChk
  | .rows => if k.deblock then .rowsLoad else if k.cdef || k.lr then .rowsOr else .st .cdef
  | .cdef => .st .resize
  | .resize => .st .lr
  | .lr => .bit

/-- Where a task of some type begins, the switch at src/thread_task.c:693. -/
def entry : Ty → Pc
  | .stage g => .st g
  | .progress => .bit

/-- First zero bit of word `i` of `frame_progress`, if any; src/thread_task.c:444-447. -/
def firstZero (s : St) (i : Nat) : Option Nat := (List.range 32).find? fun j => !s.bits (32 * i + j)

/-- The value published by src/thread_task.c:910-912 and 878-881. -/
def published (n : Nat) (e : Bool) : Nat := if e then FRAME_ERROR else if n = k.sbh then UINT_MAX else n * k.sbsz

/-- The next step of the filter task of row `y` at `pc`, with what it does next. None if it has to wait for the lock. -/
def filtRun (s : St) (y : Nat) : Pc → Option St
  | .st g =>
    if enabled k g = true ∧ s.error = false then
      some { s with filt := upd s.filt y (.at (.run g)), log := .start (.filt g y) :: s.log }
    else some { s with filt := upd s.filt y (.at (after k g)) }
  | .run g => some { s with filt := upd s.filt y (.at (after k g)), log := .fin (.filt g y) :: s.log }
  -- ensure_progress, 368-385
  | .colsChk =>
    if s.dbp < y then some { s with filt := upd s.filt y (.queued (.stage .rows) 0 y) }
    else some { s with filt := upd s.filt y (.at (.st .rows)) }
  -- 824-826
  | .rowsLoad => some { s with filt := upd s.filt y (.at (.rowsStore s.error)) }
  | .rowsStore e => some { s with filt := upd s.filt y (.at (.st .cdef)), dbp := progress y e }
  -- 831-843
  | .rowsOr => some { s with filt := upd s.filt y (.at .rowsChk), lpf := upd s.lpf y true }
  | .rowsChk =>
    if y ≠ 0 ∧ s.lpf (y - 1) = false then some { s with filt := upd s.filt y (.queued (.stage .cdef) 0 0) }
    else some { s with filt := upd s.filt y (.at (.st .cdef)) }
  -- 905-907
  | .bit => some { s with filt := upd s.filt y (.at .lock), bits := upd s.bits y true }
  -- 907-908, 438-441
  | .lock =>
    if s.flock then none
    else
      let prog := if k.twoPass then s.pub1 else 0
      some { s with flock := true,
                    filt := upd s.filt y (.at (if FRAME_ERROR ≤ prog then .load k.sbh else .scan (prog / (32 * k.sbsz)))) }
  -- 443-450
  | .scan i =>
    match firstZero s i with
    | some j => some { s with filt := upd s.filt y (.at (.load (32 * i + j))) }
    | none =>
      if i + 1 < k.progSz then some { s with filt := upd s.filt y (.at (.scan (i + 1))) }
      else some { s with filt := upd s.filt y (.at (.load (32 * (i + 1)))) }
  -- 909-913
  | .load n => some { s with filt := upd s.filt y (.at (.store n s.error)) }
  | .store n e =>
    some { s with filt := upd s.filt y (.at (.unlock n)), pub1 := if k.twoPass then published k n e else s.pub1 }
  | .unlock n => some { s with filt := upd s.filt y (.at (.done n)), flock := false }
  -- 914-915
  | .done n => some { s with filt := upd s.filt y (.at .sub), done0 := s.done0 || decide (n = k.sbh) }
  -- 917
  | .sub => some { s with filt := upd s.filt y (.subbed (s.counter - 1)), counter := s.counter - 1 }

/-- All tiles of the row of tiles have decoded the superblock rows before `recon`; src/thread_task.c:621-626. -/
def tilesDone (s : St) (p : Bool) (recon : Nat) : Prop := ∀ c < k.cols, recon ≤ s.tprog p (k.cols * s.ntr p + c)

/-- The error flag after it. -/
def tilesError (s : St) (p : Bool) : Bool :=
  s.error || (List.range k.cols).any fun c => decide (s.tprog p (k.cols * s.ntr p + c) = TILE_ERROR)

/-- `next_tile_row` when the task of row `y` is added, src/thread_task.c:632-635. -/
def nextRow (s : St) (p : Bool) (y : Nat) : Bool → Nat :=
  fun q => if q = p ∧ y = k.start (s.ntr p + 1) then s.ntr p + 1 else s.ntr q

/-- One step of the filter task of row `y`. -/
inductive FiltStep (s : St) (y : Nat) : St → Prop
  /-- 609-639: the tiles are decoded; the task is taken from the queue, the task of the next row put there -/
  | find {ty recon db} : s.filt y = .queued ty recon db → recon ≠ 0 → tilesDone k s false recon →
      FiltStep s y
        { s with filt := upd (if y + 1 < k.sbh then upd s.filt (y + 1) (.queued ty (y + 2) db) else s.filt) y (.at (entry ty)),
                 ntr := if y + 1 < k.sbh then nextRow k s false (y + 1) else s.ntr, error := tilesError k s false }
  /-- 640-644 -/
  | findCdef {db} : s.filt y = .queued (.stage .cdef) 0 db → s.lpf (y - 1) = true →
      FiltStep s y { s with filt := upd s.filt y (.at (entry (.stage .cdef))) }
  /-- 645-652 -/
  | findRows {ty db} : s.filt y = .queued ty 0 db → ty ≠ .stage .cdef → db ≤ s.dbp →
      FiltStep s y { s with filt := upd s.filt y (.at (entry ty)), error := s.error || decide (s.dbp = TILE_ERROR) }
  | run {pc s'} : s.filt y = .at pc → filtRun k s y pc = some s' → FiltStep s y s'
  /-- 918-930 -/
  | exit {n} : s.filt y = .subbed n → FiltStep s y { s with filt := upd s.filt y .gone, log := announce k s n }

/-! ## Entropy progress tasks -/

/-- One step of the ENTROPY_PROGRESS task of row `y`. -/
inductive EntStep (s : St) (y : Nat) : St → Prop
  /-- 609-639 -/
  | find : s.ent y = .queued → y ≤ s.entp → tilesDone k s true (y + 1) →
      EntStep s y { s with ent := upd (if y + 1 < k.sbh then upd s.ent (y + 1) .queued else s.ent) y .load,
                           ntr := if y + 1 < k.sbh then nextRow k s true (y + 1) else s.ntr,
                           error := tilesError k s true || decide (s.entp = TILE_ERROR) }
  /-- 877-885 -/
  | load : s.ent y = .load → EntStep s y { s with ent := upd s.ent y (.pub s.error) }
  | pub {e} : s.ent y = .pub e → EntStep s y { s with ent := upd s.ent y (.ent e), pub0 := published k (y + 1) e }
  | ent {e} : s.ent y = .ent e → EntStep s y { s with ent := upd s.ent y .done, entp := progress y e }
  | done : s.ent y = .done → EntStep s y { s with ent := upd s.ent y .sub, done1 := s.done1 || decide (y + 1 = k.sbh) }
  /-- 887 -/
  | sub : s.ent y = .sub → EntStep s y { s with ent := upd s.ent y (.subbed (s.counter - 1)), counter := s.counter - 1 }
  /-- 888-902 -/
  | exit {n} : s.ent y = .subbed n → EntStep s y { s with ent := upd s.ent y .gone, log := announce k s n }

/-! ## The frame -/

/-- One step of a frame. `rd`: whether the reference frames have got far enough for a row of a tile; `bad`: whether one of
those it needs has an error. -/
inductive Step (rd bad : Bool → Nat → Nat → Prop) (s : St) : St → Prop
  /-- src/decode.c:3296 or src/thread_task.c:720-721 -/
  | create0 : k.twoPass = false → s.phase = 0 → Step rd bad s (create2 k s)
  | create1 : k.twoPass = true → s.phase = 0 → Step rd bad s (create1 k s)
  | create2 : k.twoPass = true → s.phase = 1 → Step rd bad s (create2 k s)
  /-- check_tile reads the error of a reference frame (src/thread_task.c:429), when a tile task is looked at -/
  | refError {p i y} : bad p i y → k.twoPass = true → i < k.tiles →
      (s.tile p i = .queued y ∨ ∃ z e, y = z + 1 ∧ s.tile p i = .more z e) →
      s.error = false → Step rd bad s { s with error := true }
  | tile {p i s'} : i < k.tiles → TileStep k rd s p i s' → Step rd bad s s'
  | filt {y s'} : y < k.sbh → FiltStep k s y s' → Step rd bad s s'
  | ent {y s'} : y < k.sbh → EntStep k s y s' → Step rd bad s s'

/-- The states that can be reached, whatever the reference frames do. -/
inductive Reach : St → Prop
  | init : Reach (.init k)
  | step {s s' rd bad} : Reach s → Step k rd bad s s' → Reach s'

/-- What the code assures about the tiling (src/obu.c:655-700; the tiles of `C08`) and the frame size. -/
structure Cfg.Ok : Prop where
  cols : 0 < k.cols
  rows : 0 < k.rows
  zero : k.start 0 = 0
  mono : ∀ r < k.rows, k.start r < k.start (r + 1)
  end_ : k.start k.rows = k.sbh
  size : 0 < k.sbsz
  limit : k.sbh * k.sbsz < TILE_ERROR

end Dav1d.Sched
