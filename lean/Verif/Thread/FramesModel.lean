import Verif.Thread.SchedSpec
/-!
# Several frames decoded at once, src/thread_task.c:387-433

With `n_fc > 1` the frames are decoded in two passes and a frame waits, tile by tile and row by row, for the rows of its
reference frames (`progress[0]` and `progress[1]` of `f->refp[n]`). Every frame is a transition system of
`SchedModel.lean`; here they run together.

Simplifications: `need` stands for the motion vectors of a tile (`lowest_pixel`), which are arbitrary, and `start` for what
the first tasks of a frame (DAV1D_TASK_TYPE_INIT and INIT_CDF, and dav1d_submit_frame waiting for a free frame context)
wait for. The values of all references are looked at in one step; they are read one after the other, but only grow.
-/
namespace Dav1d.Sched

/-- A sequence of frames in decoding order. -/
structure Video where
  cfg : Nat → Cfg
  /-- the frames that `f->refp[n]` of a frame hold; none for intra frames, src/thread_task.c:403 -/
  refs : Nat → List Nat
  /-- `lowest` of src/thread_task.c:410-425: the number of lines of reference `r` that frame `f` needs for row `y` of tile
  `i` in pass `p`. None if the reference is not used (424). -/
  need : (f r : Nat) → (p : Bool) → (i y : Nat) → Option Nat
  /-- whether the tasks of a frame may be created -/
  start : Nat → (Nat → St) → Prop

/-- `f->refp[n].progress[!tp]`, src/thread_task.c:427. -/
def pubOf (s : St) (p : Bool) : Nat := if p then s.pub0 else s.pub1

namespace Video
variable (V : Video)

/-- The references are far enough, src/thread_task.c:428, and have no error. -/
def rd (S : Nat → St) (f : Nat) (p : Bool) (i y : Nat) : Prop :=
  ∀ r ∈ V.refs f, ∀ n, V.need f r p i y = some n → n ≤ pubOf (S r) p ∧ pubOf (S r) p ≠ FRAME_ERROR

/-- A reference has an error, src/thread_task.c:429. -/
def bad (S : Nat → St) (f : Nat) (p : Bool) (i y : Nat) : Prop :=
  ∃ r ∈ V.refs f, ∃ n, V.need f r p i y = some n ∧ pubOf (S r) p = FRAME_ERROR

/-- A step of frame `f`. -/
inductive Step (frames : Nat) (S : Nat → St) : (Nat → St) → Prop
  | frame {f s'} : f < frames → ((S f).phase = 0 → V.start f S) → Sched.Step (V.cfg f) (V.rd S f) (V.bad S f) (S f) s' →
      Step frames S (upd S f s')

inductive Reach (frames : Nat) : (Nat → St) → Prop
  | init : Reach frames fun f => .init (V.cfg f)
  | step {S S'} : Reach frames S → V.Step frames S S' → Reach frames S'

/-- An execution with `n` steps. -/
inductive Run (frames : Nat) : Nat → (Nat → St) → (Nat → St) → Prop
  | here (S) : Run frames 0 S S
  | step {n S S1 S2} : Run frames n S S1 → V.Step frames S1 S2 → Run frames (n + 1) S S2

/-- What the code assures: references are earlier frames (`c->refs` holds submitted frames), the numbers of lines are
`unsigned`, and a frame can start when all frames before are complete. -/
structure Ok : Prop where
  cfg : ∀ f, (V.cfg f).Ok
  two : ∀ f, (V.cfg f).twoPass = true
  refs : ∀ f, ∀ r ∈ V.refs f, r < f
  need : ∀ f r p i y n, V.need f r p i y = some n → n ≤ UINT_MAX
  start : ∀ f S, (∀ r < f, (S r).Announced) → V.start f S

end Video
end Dav1d.Sched
