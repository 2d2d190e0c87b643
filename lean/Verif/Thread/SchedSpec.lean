import Verif.Thread.SchedModel
/-!
# C49: what the scheduling of a frame has to do
-/
namespace Dav1d.Sched

/-- The stages in order. -/
def Stage.no : Stage → Nat
  | .cols => 0 | .rows => 1 | .cdef => 2 | .resize => 3 | .lr => 4

/-- The post filters of a frame. The deblocking of the rows also saves the lines that CDEF and loop restoration need. -/
def Cfg.uses (k : Cfg) : Stage → Prop
  | .cols => k.deblock = true
  | .rows => k.deblock = true ∨ k.cdef = true ∨ k.lr = true
  | .cdef => k.cdef = true
  | .resize => k.resize = true
  | .lr => k.lr = true

/-- The work to do for a frame: every superblock row of every tile, once per pass, and every filter for every superblock
row. -/
def Cfg.Has (k : Cfg) : Work → Prop
  | .tile p i y => i < k.tiles ∧ k.first i ≤ y ∧ y < k.last i ∧ (p = true → k.twoPass = true)
  | .filt g y => y < k.sbh ∧ k.uses g

/-- What has to be complete before a piece of work begins. -/
inductive Needs (k : Cfg) : Work → Work → Prop
  /-- a tile is decoded from top to bottom -/
  | above (p i y) : Needs k (.tile p i (y + 1)) (.tile p i y)
  /-- reconstruction follows entropy decoding -/
  | entropy (i y) : Needs k (.tile false i y) (.tile true i y)
  /-- a row is filtered when all its tiles are reconstructed -/
  | recon (g i y) : Needs k (.filt g y) (.tile false i y)
  /-- the filters come in order -/
  | stage {g g'} (y) : g'.no < g.no → Needs k (.filt g y) (.filt g' y)
  /-- deblocking goes from top to bottom -/
  | deblock (y) : k.deblock = true → Needs k (.filt .rows (y + 1)) (.filt .rows y)
  /-- CDEF and loop restoration need the lines saved for the row above -/
  | cdef (y) : Needs k (.filt .cdef (y + 1)) (.filt .rows y)
  | lr (y) : Needs k (.filt .lr (y + 1)) (.filt .rows y)

/-- Number of times that something happened. -/
def St.times (s : St) (e : Ev) : Nat := s.log.count e

/-- The frame was announced. -/
def St.Announced (s : St) : Prop := ∃ e, .exit e ∈ s.log

/-- Nothing can happen. -/
def Stuck (k : Cfg) (rd bad : Bool → Nat → Nat → Prop) (s : St) : Prop := ∀ s', ¬ Step k rd bad s s'

/-- An execution with `n` steps. -/
inductive Run (k : Cfg) : Nat → St → St → Prop
  | here (s) : Run k 0 s s
  | step {n s s1 s2 rd bad} : Run k n s s1 → Step k rd bad s1 s2 → Run k (n + 1) s s2

end Dav1d.Sched
