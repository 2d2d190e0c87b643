/-!
# Model of the memory pools, src/mem.c:219-314

Any number of threads are inside the pool functions at the same time. What a thread does between two lock operations
(or between a lock operation and the end of the call) is one step; these steps interleave in any order. Buffers are
numbered in the order of their allocation; `dav1d_alloc_aligned` may fail at any time.
-/
namespace Dav1d

/-- What a thread inside one of the functions does next. -/
inductive PoolTask where
  /-- dav1d_mem_pool_pop before it takes the lock, src/mem.c:241 -/
  | popLock (size : Nat)
  /-- ... after it has released the lock, with the buffer taken from the list, src/mem.c:245-261 -/
  | popGot (size : Nat) (buf : Option Nat)
  /-- ... after a failed allocation, src/mem.c:262-268 -/
  | popFailed
  /-- dav1d_mem_pool_push before it takes the lock, src/mem.c:225 -/
  | pushLock (buf : Nat)
  /-- ... after it found the pool ended, src/mem.c:233-235; `last` is `!ref_cnt` -/
  | pushFree (buf : Nat) (last : Bool)
  /-- dav1d_mem_pool_end before it takes the lock, src/mem.c:300 -/
  | endLock
  /-- ... freeing the list, src/mem.c:307-312 -/
  | endFree (bufs : List Nat) (last : Bool)
  /-- mem_pool_destroy, src/mem.c:219-222 -/
  | destroy

/-- The pool, src/mem.h:72-80, the buffers, and the threads inside the functions. -/
structure PoolSt where
  /-- `ref_cnt` -/
  refCnt : Int := 1
  /-- `end` -/
  ended : Bool := false
  /-- the list `buf` -/
  list : List Nat := []
  /-- how often the pool itself was freed -/
  destroyed : Nat := 0
  /-- number of buffers allocated so far -/
  next : Nat := 0
  /-- the size each buffer was allocated with -/
  size : Nat → Nat := fun _ => 0
  /-- the buffers freed so far, in order -/
  freed : List Nat := []
  /-- the buffers returned by dav1d_mem_pool_pop and not given to dav1d_mem_pool_push yet -/
  owned : List Nat := []
  /-- requested size and buffer of all successful calls of dav1d_mem_pool_pop -/
  got : List (Nat × Nat) := []
  /-- dav1d_mem_pool_end was called -/
  endCalled : Bool := false
  /-- threads inside the functions -/
  tasks : List PoolTask := []

/-- dav1d_free_aligned of a buffer: `none` if it is not allocated (any more). -/
def PoolSt.freeBuf (s : PoolSt) (b : Nat) : Option PoolSt :=
  if b < s.next ∧ b ∉ s.freed then some { s with freed := b :: s.freed } else none

/-- dav1d_alloc_aligned and the return of the buffer to the caller, src/mem.c:260-273. -/
def PoolSt.allocBuf (s : PoolSt) (size : Nat) (ok : Bool) : PoolSt × Option PoolTask :=
  if ok then
    ({ s with next := s.next + 1, size := fun b => if b = s.next then size else s.size b, owned := s.next :: s.owned, got := (size, s.next) :: s.got }, none)
  else (s, some .popFailed)

/-- One step of a thread and what it does afterwards. `none` is undefined behaviour: the pool or a buffer is used after
it was freed, a buffer is freed twice, or an assertion fails. `ok` is whether an allocation succeeds. -/
def PoolSt.run (s : PoolSt) (ok : Bool) : PoolTask → Option (PoolSt × Option PoolTask)
  | .popLock size =>
    if s.destroyed ≠ 0 then none
    else
      match s.list with
      | [] => some ({ s with refCnt := s.refCnt + 1 }, some (.popGot size none))
      | b :: l => some ({ s with refCnt := s.refCnt + 1, list := l }, some (.popGot size (some b)))
  | .popGot size none => some (s.allocBuf size ok)
  | .popGot size (some b) =>
    if ¬(b < s.next ∧ b ∉ s.freed) then none
    else if s.size b ≠ size then (s.freeBuf b).map (fun s => s.allocBuf size ok)
    else some ({ s with owned := b :: s.owned, got := (size, b) :: s.got }, none)
  | .popFailed =>
    if s.destroyed ≠ 0 then none
    else some ({ s with refCnt := s.refCnt - 1 }, if s.refCnt - 1 = 0 then some .destroy else none)
  | .pushLock b =>
    if s.destroyed ≠ 0 ∨ ¬(b < s.next ∧ b ∉ s.freed) then none
    else if ¬s.ended then
      if s.refCnt - 1 > 0 then some ({ s with refCnt := s.refCnt - 1, list := b :: s.list }, none) else none
    else some ({ s with refCnt := s.refCnt - 1 }, some (.pushFree b (s.refCnt - 1 = 0)))
  | .pushFree b last => (s.freeBuf b).map (fun s => (s, if last then some .destroy else none))
  | .endLock =>
    if s.destroyed ≠ 0 then none
    else some ({ s with refCnt := s.refCnt - 1, list := [], ended := true }, some (.endFree s.list (s.refCnt - 1 = 0)))
  | .endFree [] last => some (s, if last then some .destroy else none)
  | .endFree (b :: l) last => (s.freeBuf b).map (fun s => (s, some (.endFree l last)))
  | .destroy => if s.destroyed ≠ 0 then none else some ({ s with destroyed := s.destroyed + 1 }, none)

/-- The calls of the pool functions. -/
inductive PoolCall where
  | pop (size : Nat)
  | push (buf : Nat)
  | fin

/-- A call begins. The caller of dav1d_mem_pool_push gives the buffer up. -/
def PoolSt.call (s : PoolSt) : PoolCall → PoolSt
  | .pop size => { s with tasks := .popLock size :: s.tasks }
  | .push b => { s with owned := s.owned.erase b, tasks := .pushLock b :: s.tasks }
  | .fin => { s with endCalled := true, tasks := .endLock :: s.tasks }

/-- The rules of use: buffers are given back by whoever got them; the pool is ended once, and by then nobody calls or
has begun to call dav1d_mem_pool_pop (dav1d_close has joined all worker threads, src/lib.c:616-627). -/
def PoolSt.MayCall (s : PoolSt) : PoolCall → Prop
  | .pop _ => s.endCalled = false
  | .push b => b ∈ s.owned
  | .fin => s.endCalled = false ∧ ∀ size, PoolTask.popLock size ∉ s.tasks

/-- The states reached from a new pool, src/mem.c:276-296. -/
inductive PoolReach : PoolSt → Prop
  | init : PoolReach {}
  | call {s} (k : PoolCall) : PoolReach s → s.MayCall k → PoolReach (s.call k)
  | run {s s' : PoolSt} {ok : Bool} {t : PoolTask} {o : Option PoolTask} (a b : List PoolTask) :
      PoolReach s → s.tasks = a ++ t :: b → s.run ok t = some (s', o) → PoolReach { s' with tasks := a ++ o.toList ++ b }

end Dav1d
