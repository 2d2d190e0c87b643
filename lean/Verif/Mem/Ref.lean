/-!
# Model of reference counting, src/ref.c, src/ref.h, and of its users in src/data.c and src/picture.c

Threads take atomic steps in any order. What the C code does is `RefSt.act`; the rules a caller keeps are `Allowed`. A
*reference* is a pointer to a `Dav1dRef` somebody may still use; `held` lists all of them with the thread that has it.
Memory is sequentially consistent: that the increment is `memory_order_relaxed` makes no difference in the model.
-/
namespace Dav1d

/-- A `Dav1dRef`, src/ref.h:39-46: the counter (`atomic_int`), whether `data` is set, and what became of the object. -/
structure RefObj where
  cnt : BitVec 32
  /-- `ref->data != NULL` (not for wrapped data, src/ref.h:60) -/
  data : Bool
  /-- how often the free callback was called -/
  frees : Nat := 0

/-- One atomic step of a thread. -/
inductive RefAct (T O : Type) where
  /-- dav1d_ref_create, dav1d_ref_create_using_pool, dav1d_ref_init: a new object, with or without `data` -/
  | create (t : T) (o : O) (data : Bool)
  /-- dav1d_ref_inc -/
  | inc (t : T) (o : O)
  /-- the `atomic_fetch_sub` of dav1d_ref_dec -/
  | dec (t : T) (o : O)
  /-- the call of the free callback in dav1d_ref_dec -/
  | free (t : T) (o : O)
  /-- dav1d_ref_is_writable -/
  | writable (t : T) (o : O)
  /-- a reference is given to another thread by assignment, as in dav1d_picture_move_ref, src/picture.c:255-267 -/
  | pass (t u : T) (o : O)

variable {T O : Type} [DecidableEq T] [DecidableEq O]

/-- The objects, the references to them, and which threads have seen the counter reach 0 and not called the callback yet. -/
structure RefSt (T O : Type) where
  objs : O → Option RefObj := fun _ => none
  held : List (T × O) := []
  freeing : List (T × O) := []

/-- The object if it can be used: it exists and is not freed. -/
def RefSt.get (s : RefSt T O) (o : O) : Option RefObj := (s.objs o).bind (fun x => if x.frees = 0 then some x else none)

def RefSt.set (s : RefSt T O) (o : O) (x : RefObj) : RefSt T O := { s with objs := fun p => if p = o then some x else s.objs p }

/-- dav1d_ref_is_writable, src/ref.h:77-79. -/
def RefObj.isWritable (x : RefObj) : Bool := x.cnt == 1#32 && x.data

/-- What the step does; `none` is a use of an object that does not exist (any more), undefined behaviour.
src/ref.c:38-84 and src/ref.h:57-79. -/
def RefSt.act (s : RefSt T O) : RefAct T O → Option (RefSt T O)
  | .create t o data => some { s.set o { cnt := 1, data := data } with held := (t, o) :: s.held }
  | .inc t o => (s.get o).map (fun x => { s.set o { x with cnt := x.cnt + 1 } with held := (t, o) :: s.held })
  | .dec t o => (s.get o).map (fun x =>
      { s.set o { x with cnt := x.cnt - 1 } with
        held := s.held.erase (t, o)
        freeing := if x.cnt == 1#32 then (t, o) :: s.freeing else s.freeing })
  | .free t o => (s.get o).map (fun x => { s.set o { x with frees := x.frees + 1 } with freeing := s.freeing.erase (t, o) })
  | .writable _ o => (s.get o).map (fun _ => s)
  | .pass t u o => some { s with held := (u, o) :: s.held.erase (t, o) }

/-- The number of references to an object. -/
def RefSt.refs (s : RefSt T O) (o : O) : Nat := (s.held.filter (fun x => x.2 = o)).length

/-- The rules of use: a thread works only with references it has, an object is created once, the callback is called by
the thread that took the counter to 0, and there are fewer than 2^32 references to an object. -/
def RefSt.Allowed (s : RefSt T O) : RefAct T O → Prop
  | .create _ o _ => s.objs o = none
  | .inc t o => (t, o) ∈ s.held ∧ s.refs o + 1 < 2 ^ 32
  | .dec t o => (t, o) ∈ s.held
  | .free t o => (t, o) ∈ s.freeing
  | .writable t o => (t, o) ∈ s.held
  | .pass t _ o => (t, o) ∈ s.held

/-- The states reached when everybody keeps to the rules. -/
inductive RefReach : RefSt T O → Prop
  | init : RefReach {}
  | step {s s' a} : RefReach s → s.Allowed a → s.act a = some s' → RefReach s'

/-- Several steps of one thread without steps of others in between. -/
def RefSt.acts (s : RefSt T O) : List (RefAct T O) → Option (RefSt T O)
  | [] => some s
  | a :: l => (s.act a).bind (·.acts l)

/-- The rules are kept at each of several steps. -/
def RefSt.AllAllowed (s : RefSt T O) : List (RefAct T O) → Prop
  | [] => True
  | a :: l => s.Allowed a ∧ ∀ s', s.act a = some s' → s'.AllAllowed l

/-- The references of a `Dav1dData`, include/dav1d/data.h:39-45 and common.h. -/
structure DataRefs (O : Type) where
  ref : Option O
  userData : Option O

/-- The references of a `Dav1dPicture`, include/dav1d/picture.h. -/
structure PicRefs (O : Type) where
  ref : Option O
  frameHdr : Option O
  seqHdr : Option O
  userData : Option O
  contentLight : Option O
  mastering : Option O
  t35 : Option O

/-- The fields of a `Dav1dData` that are set. -/
def DataRefs.objs (d : DataRefs O) : List O := [d.ref, d.userData].filterMap id
def PicRefs.objs (p : PicRefs O) : List O :=
  [p.ref, p.frameHdr, p.seqHdr, p.userData, p.contentLight, p.mastering, p.t35].filterMap id

/-- dav1d_data_ref, src/data.c:95-106, and dav1d_picture_ref, src/picture.c:236-253: the counters of all fields. -/
def dataRef (t : T) (d : DataRefs O) : List (RefAct T O) := d.objs.map (.inc t)
def picRef (t : T) (p : PicRefs O) : List (RefAct T O) := p.objs.map (.inc t)

/-- What happens to a picture buffer. -/
inductive PicEvent where
  /-- alloc_picture_callback was called and succeeded or failed -/
  | alloc (ok : Bool)
  /-- release_picture_callback was called -/
  | release
  /-- the memory of the `pic_ctx_context` was taken from and given back to its pool -/
  | pop | push
  deriving DecidableEq

/-- picture_alloc, src/picture.c:118-166: what happens, and whether there is a new object afterwards. `present` is
`p->data[0] != NULL`, `popOk` whether the pool has memory, `res` the result of the callback. -/
def pictureAlloc (present popOk : Bool) (res : Int) : List PicEvent × Bool :=
  if present then ([], false)
  else if !popOk then ([], false)
  else if res < 0 then ([.pop, .alloc false, .push], false)
  else ([.pop, .alloc true], true)

/-- free_buffer, src/picture.c:96-103, the free callback of pictures. -/
def freeBuffer : List PicEvent := [.release, .push]

/-- The life of a picture after picture_alloc made it: its free callback ran `x.frees` times. -/
def PicEvent.history (made : List PicEvent) (x : RefObj) : List PicEvent := made ++ (List.replicate x.frees freeBuffer).flatten

end Dav1d
