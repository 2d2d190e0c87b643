import Verif.Mem.Pool
import Mathlib.Data.List.Count
/-!
# C17: memory pools
-/
namespace Dav1d

/-- Tasks for which `ref_cnt` has one more. -/
def PoolTask.counted : PoolTask → Bool
  | .popGot _ _ | .popFailed | .pushLock _ => true
  | _ => false

/-- Tasks that will free the pool. -/
def PoolTask.destroys : PoolTask → Bool
  | .pushFree _ last | .endFree _ last => last
  | .destroy => true
  | _ => false

def PoolTask.isEnd : PoolTask → Bool
  | .endLock => true
  | _ => false

def PoolTask.isPop : PoolTask → Bool
  | .popLock _ => true
  | _ => false

/-- The buffers a task will use. -/
def PoolTask.bufs : PoolTask → List Nat
  | .popGot _ (some b) | .pushLock b | .pushFree b _ => [b]
  | .endFree l _ => l
  | _ => []

structure PoolInv (s : PoolSt) : Prop where
  cnt : s.refCnt = (if s.ended then 0 else 1) + s.owned.length + s.tasks.countP PoolTask.counted
  bufs : ∀ x, s.list.count x + s.owned.count x + (s.tasks.flatMap PoolTask.bufs).count x + s.freed.count x = if x < s.next then 1 else 0
  list : s.ended = true → s.list = []
  endTask : s.tasks.countP PoolTask.isEnd = if s.endCalled && !s.ended then 1 else 0
  ended : s.ended = true → s.endCalled = true
  pops : s.endCalled = true → s.tasks.countP PoolTask.isPop = 0
  destroy : (s.refCnt = 0 → s.destroyed + s.tasks.countP PoolTask.destroys = 1) ∧ (s.refCnt ≠ 0 → s.destroyed + s.tasks.countP PoolTask.destroys = 0)
  sizes : ∀ a b, (a, b) ∈ s.got → b < s.next ∧ s.size b = a

theorem countP_split (p : PoolTask → Bool) (a b : List PoolTask) (t : PoolTask) :
    (a ++ t :: b).countP p = (a ++ b).countP p + if p t then 1 else 0 := by
  rw [List.countP_append, List.countP_append, List.countP_cons]; omega

theorem countP_join (p : PoolTask → Bool) (a b : List PoolTask) (o : Option PoolTask) :
    (a ++ o.toList ++ b).countP p = (a ++ b).countP p + if o.any p then 1 else 0 := by
  cases o with
  | none => simp
  | some t => rw [Option.toList_some, List.append_assoc, List.singleton_append, countP_split]; rfl

theorem bufs_split (x : Nat) (a b : List PoolTask) (t : PoolTask) :
    ((a ++ t :: b).flatMap PoolTask.bufs).count x = ((a ++ b).flatMap PoolTask.bufs).count x + t.bufs.count x := by
  simp only [List.flatMap_append, List.flatMap_cons, List.count_append]; omega

theorem bufs_join (x : Nat) (a b : List PoolTask) (o : Option PoolTask) :
    ((a ++ o.toList ++ b).flatMap PoolTask.bufs).count x = ((a ++ b).flatMap PoolTask.bufs).count x + ((o.map PoolTask.bufs).getD []).count x := by
  cases o with
  | none => simp
  | some t => rw [Option.toList_some, List.append_assoc, List.singleton_append, bufs_split]; rfl

/-- What a step makes of the quantities of the invariant, the other tasks being `a ++ b`. -/
structure StepInv (s : PoolSt) (r : List PoolTask) (o : Option PoolTask) : Prop where
  cnt : s.refCnt = (if s.ended then 0 else 1) + s.owned.length + (r.countP PoolTask.counted + if o.any PoolTask.counted then 1 else 0 : Nat)
  bufs : ∀ x, s.list.count x + s.owned.count x + ((r.flatMap PoolTask.bufs).count x + ((o.map PoolTask.bufs).getD []).count x) + s.freed.count x = if x < s.next then 1 else 0
  list : s.ended = true → s.list = []
  endTask : (r.countP PoolTask.isEnd + if o.any PoolTask.isEnd then 1 else 0) = if s.endCalled && !s.ended then 1 else 0
  ended : s.ended = true → s.endCalled = true
  pops : s.endCalled = true → (r.countP PoolTask.isPop + if o.any PoolTask.isPop then 1 else 0) = 0
  destroy : (s.refCnt = 0 → s.destroyed + (r.countP PoolTask.destroys + if o.any PoolTask.destroys then 1 else 0) = 1) ∧
    (s.refCnt ≠ 0 → s.destroyed + (r.countP PoolTask.destroys + if o.any PoolTask.destroys then 1 else 0) = 0)
  sizes : ∀ a b, (a, b) ∈ s.got → b < s.next ∧ s.size b = a

theorem StepInv.of {s : PoolSt} (hi : PoolInv s) {a b : List PoolTask} {t : PoolTask} (ht : s.tasks = a ++ t :: b) : StepInv s (a ++ b) (some t) := by
  have h1 := hi.cnt; have h2 := hi.bufs; have h4 := hi.endTask; have h6 := hi.pops; have h7 := hi.destroy
  rw [ht, countP_split] at h1 h4 h7
  refine ⟨h1, fun x => ?_, hi.list, h4, hi.ended, fun h => ?_, h7, hi.sizes⟩
  · have := h2 x; rw [ht, bufs_split] at this; exact this
  · have := h6 h; rw [ht, countP_split] at this; exact this

theorem StepInv.to {s : PoolSt} {a b : List PoolTask} {o : Option PoolTask} (h : StepInv s (a ++ b) o) : PoolInv { s with tasks := a ++ o.toList ++ b } := by
  refine ⟨?_, fun x => ?_, h.list, ?_, h.ended, fun he => ?_, ?_, h.sizes⟩
  · show s.refCnt = _ + (a ++ o.toList ++ b).countP _; rw [countP_join]; exact h.cnt
  · show _ + ((a ++ o.toList ++ b).flatMap _).count x + _ = _; rw [bufs_join]; exact h.bufs x
  · show (a ++ o.toList ++ b).countP _ = _; rw [countP_join]; exact h.endTask
  · show (a ++ o.toList ++ b).countP _ = _; rw [countP_join]; exact h.pops he
  · show (_ → _ + (a ++ o.toList ++ b).countP _ = _) ∧ (_ → _ + (a ++ o.toList ++ b).countP _ = _); rw [countP_join]; exact h.destroy

/-- Buffers in use by a task are allocated. -/
theorem StepInv.allocated {s : PoolSt} {r : List PoolTask} {t : PoolTask} (h : StepInv s r (some t)) {b : Nat} (hb : 0 < t.bufs.count b) : b < s.next ∧ b ∉ s.freed := by
  have := h.bufs b
  simp only [Option.map_some, Option.getD_some] at this
  by_cases hn : b < s.next
  · rw [if_pos hn] at this
    exact ⟨hn, List.count_eq_zero.1 (by omega)⟩
  · rw [if_neg hn] at this; omega

theorem StepInv.allocBuf {s : PoolSt} {r : List PoolTask} {size : Nat} {ok : Bool} (h : StepInv s r (some (.popGot size none))) :
    StepInv (s.allocBuf size ok).1 r (s.allocBuf size ok).2 := by
  obtain ⟨h1, h2, h3, h4, h5, h6, h7, h8⟩ := h
  simp [PoolTask.counted, PoolTask.isEnd, PoolTask.isPop, PoolTask.destroys, PoolTask.bufs] at h1 h2 h4 h6 h7
  unfold PoolSt.allocBuf
  cases ok with
  | false => constructor <;> simp [PoolTask.counted, PoolTask.isEnd, PoolTask.isPop, PoolTask.destroys, PoolTask.bufs] <;> assumption
  | true =>
    constructor <;> simp [PoolTask.counted, PoolTask.isEnd, PoolTask.isPop, PoolTask.destroys, PoolTask.bufs]
    · omega
    · intro x
      have := h2 x
      rw [List.count_cons]
      by_cases hx : x = s.next
      · subst hx; simp at this ⊢; omega
      · rw [if_neg (by simpa using fun h => hx h.symm)]
        by_cases hlt : x < s.next
        · rw [if_pos hlt] at this; rw [if_pos (by omega)]; omega
        · rw [if_neg hlt] at this; rw [if_neg (by omega)]; omega
    · exact h3
    · exact h4
    · exact h5
    · exact h6
    · exact h7
    · intro a b hab
      rcases hab with ⟨rfl, rfl⟩ | hab
      · simp
      · have := h8 _ _ hab
        rw [if_neg (by omega)]
        exact ⟨by omega, this.2⟩

/-- Unfold what the invariant says of a task. -/
local macro "task_simp" : tactic => `(tactic| try simp only [PoolTask.counted, PoolTask.isEnd, PoolTask.isPop, PoolTask.destroys, PoolTask.bufs, Option.any_some,
  Option.any_none, Bool.false_eq_true, if_false, if_true, Option.map_some, Option.map_none, Option.getD_some, Option.getD_none, List.count_cons, List.count_nil,
  Nat.add_zero, beq_iff_eq, List.length_cons, Int.natCast_add] at *)

theorem freeBuf_some {s s' : PoolSt} {b : Nat} (h : s.freeBuf b = some s') : (b < s.next ∧ b ∉ s.freed) ∧ s' = { s with freed := b :: s.freed } := by
  unfold PoolSt.freeBuf at h
  split at h
  · rename_i hc; cases h; exact ⟨hc, rfl⟩
  · cases h

theorem StepInv.run {s s' : PoolSt} {r : List PoolTask} {t : PoolTask} {o : Option PoolTask} {ok : Bool} (h : StepInv s r (some t)) (hs : s.run ok t = some (s', o)) :
    StepInv s' r o := by
  have hinv := h
  obtain ⟨h1, h2, h3, h4, h5, h6, h7, h8⟩ := h
  cases t with
  | popLock size =>
    rw [PoolSt.run] at hs
    split at hs
    · cases hs
    · have he : s.endCalled = false := by
        by_contra hc; have := h6 (by simpa using hc); task_simp; omega
      have he' : s.ended = false := by
        by_contra hc; have := h5 (by simpa using hc); rw [he] at this; cases this
      rw [he'] at h1
      task_simp
      have hd := h7.2 (by omega)
      split at hs
      · cases hs
        rename_i hl
        refine ⟨?_, fun x => ?_, h3, ?_, h5, ?_, ⟨fun h => ?_, fun h => ?_⟩, h8⟩
        · rw [he']; task_simp; omega
        · have := h2 x; task_simp; omega
        · task_simp; exact h4
        · rw [he]; intro h; cases h
        · task_simp; omega
        · task_simp; omega
      · cases hs
        rename_i b l hl
        rw [hl] at h2
        refine ⟨?_, fun x => ?_, ?_, ?_, h5, ?_, ⟨fun h => ?_, fun h => ?_⟩, h8⟩
        · rw [he']; task_simp; omega
        · have := h2 x; task_simp; omega
        · rw [he']; intro h; cases h
        · task_simp; exact h4
        · rw [he]; intro h; cases h
        · task_simp; omega
        · task_simp; omega
  | popGot size buf =>
    cases buf with
    | none =>
      rw [PoolSt.run] at hs
      have := hinv.allocBuf (ok := ok)
      rw [Option.some.inj hs] at this
      exact this
    | some b =>
      rw [PoolSt.run] at hs
      split at hs
      · cases hs
      split at hs
      · obtain ⟨s1, h1, h2⟩ := Option.map_eq_some_iff.1 hs
        obtain ⟨hb, rfl⟩ := freeBuf_some h1
        have := StepInv.allocBuf (s := { s with freed := b :: s.freed }) (r := r) (size := size) (ok := ok) ⟨hinv.cnt, fun x => by
          have := hinv.bufs x; task_simp; omega, h3, h4, h5, h6, h7, h8⟩
        rw [h2] at this
        exact this
      · rename_i hb hz
        cases hs
        refine ⟨?_, fun x => ?_, h3, ?_, h5, ?_, h7, ?_⟩
        · task_simp; omega
        · have := h2 x; task_simp; omega
        · task_simp; exact h4
        · task_simp; exact h6
        · intro a b' hab
          rcases List.mem_cons.1 hab with hab | hab
          · cases hab
            have hb := Classical.not_not.1 hb
            exact ⟨hb.1, Classical.not_not.1 hz⟩
          · exact h8 _ _ hab
  | popFailed =>
    rw [PoolSt.run] at hs
    split at hs
    · cases hs
    · rename_i hd
      cases hs
      have hn : s.refCnt ≠ 0 := by
        task_simp; split at h1 <;> omega
      have h9 := h7.2 hn
      by_cases hz : s.refCnt - 1 = 0
      · rw [if_pos hz]
        refine ⟨?_, fun x => ?_, h3, ?_, h5, ?_, ⟨fun h => ?_, fun h => ?_⟩, h8⟩ <;> task_simp
        · omega
        · exact h2 x
        · exact h4
        · exact h6
        · omega
        · exact absurd hz h
      · rw [if_neg hz]
        refine ⟨?_, fun x => ?_, h3, ?_, h5, ?_, ⟨fun h => ?_, fun h => ?_⟩, h8⟩ <;> task_simp
        · omega
        · exact h2 x
        · exact h4
        · exact h6
        · exact absurd h hz
        · omega
  | pushLock b =>
    rw [PoolSt.run] at hs
    have hn : s.refCnt ≠ 0 := by
      task_simp; split at h1 <;> omega
    have h9 := h7.2 hn
    split at hs
    · cases hs
    split at hs
    · rename_i he
      split at hs
      · rename_i hz
        cases hs
        refine ⟨?_, fun x => ?_, ?_, ?_, h5, ?_, ⟨fun h => ?_, fun h => ?_⟩, h8⟩
        · task_simp; omega
        · have := h2 x; task_simp; omega
        · intro h; exact absurd h he
        · task_simp; exact h4
        · task_simp; exact h6
        · task_simp; omega
        · task_simp; omega
      · cases hs
    · cases hs
      refine ⟨?_, fun x => ?_, h3, ?_, h5, ?_, ⟨fun h => ?_, fun h => ?_⟩, h8⟩
      · task_simp; omega
      · have := h2 x; task_simp; omega
      · task_simp; exact h4
      · task_simp; exact h6
      · have h : s.refCnt - 1 = 0 := h
        rw [decide_eq_true h]
        task_simp; omega
      · have h : s.refCnt - 1 ≠ 0 := h
        rw [decide_eq_false h]
        task_simp; omega
  | pushFree b last =>
    obtain ⟨s1, e1, e2⟩ := Option.map_eq_some_iff.1 hs
    obtain ⟨hb, rfl⟩ := freeBuf_some e1
    cases e2
    cases last <;> refine ⟨?_, fun x => ?_, h3, ?_, h5, ?_, ?_, h8⟩
    · task_simp; exact h1
    · have := h2 x; task_simp; omega
    · task_simp; exact h4
    · task_simp; exact h6
    · task_simp; exact h7
    · task_simp; exact h1
    · have := h2 x; task_simp; omega
    · task_simp; exact h4
    · task_simp; exact h6
    · task_simp; exact h7
  | endLock =>
    rw [PoolSt.run] at hs
    split at hs
    · cases hs
    · cases hs
      have he : s.ended = false ∧ s.endCalled = true := by
        task_simp
        cases h10 : s.ended <;> cases h11 : s.endCalled <;> rw [h10, h11] at h4 <;> simp at h4 ⊢
      rw [he.1, he.2] at h4
      rw [he.1] at h1
      task_simp
      have h9 := h7.2 (by omega)
      refine ⟨?_, fun x => ?_, fun _ => rfl, ?_, fun _ => he.2, ?_, ⟨fun h => ?_, fun h => ?_⟩, h8⟩
      · task_simp; omega
      · have := h2 x; task_simp; omega
      · rw [he.2]; simp only [Bool.true_and, Bool.not_true, Bool.not_false] at *; task_simp; omega
      · task_simp; exact h6
      · have h : s.refCnt - 1 = 0 := h
        rw [decide_eq_true h]
        task_simp; omega
      · have h : s.refCnt - 1 ≠ 0 := h
        rw [decide_eq_false h]
        task_simp; omega
  | endFree l last =>
    cases l with
    | nil =>
      cases hs
      cases last <;> exact ⟨h1, h2, h3, h4, h5, h6, h7, h8⟩
    | cons b l =>
      obtain ⟨s1, e1, e2⟩ := Option.map_eq_some_iff.1 hs
      obtain ⟨hb, rfl⟩ := freeBuf_some e1
      cases e2
      refine ⟨h1, fun x => ?_, h3, h4, h5, h6, h7, h8⟩
      have := h2 x; task_simp; omega
  | destroy =>
    rw [PoolSt.run] at hs
    split at hs
    · cases hs
    · cases hs
      refine ⟨h1, h2, h3, h4, h5, h6, ?_, h8⟩
      task_simp
      exact ⟨fun h => by have := h7.1 h; omega, fun h => by have := h7.2 h; omega⟩

theorem PoolReach.inv {s : PoolSt} (h : PoolReach s) : PoolInv s := by
  induction h with
  | init => exact ⟨rfl, fun x => by simp, fun _ => rfl, rfl, fun h => h, fun _ => rfl, ⟨(fun h => by cases h), fun _ => rfl⟩, (fun _ _ h => by cases h)⟩
  | @call s k _ hk hi =>
    obtain ⟨h1, h2, h3, h4, h5, h6, h7, h8⟩ := hi
    cases k with
    | pop size =>
      have hk : s.endCalled = false := hk
      refine ⟨h1, h2, h3, h4, h5, fun h => ?_, h7, h8⟩
      rw [show (s.call (.pop size)).endCalled = s.endCalled from rfl, hk] at h
      cases h
    | push b =>
      have hk : b ∈ s.owned := hk
      have hl := List.length_pos_of_mem hk
      refine ⟨?_, fun x => ?_, h3, h4, h5, h6, h7, h8⟩
      · show s.refCnt = (if s.ended then 0 else 1) + ((s.owned.erase b).length : Int) + ((.pushLock b :: s.tasks : List PoolTask).countP PoolTask.counted : Nat)
        rw [List.countP_cons, List.length_erase_of_mem hk]
        task_simp; omega
      · show s.list.count x + (s.owned.erase b).count x + ([b] ++ s.tasks.flatMap PoolTask.bufs).count x + s.freed.count x = if x < s.next then 1 else 0
        have := h2 x
        have h9 : s.owned.count x = (s.owned.erase b).count x + if b = x then 1 else 0 := by
          rw [(List.perm_cons_erase hk).count_eq, List.count_cons]; task_simp
        rw [List.count_append]
        task_simp; omega
    | fin =>
      obtain ⟨hk1, hk2⟩ := hk
      have he : s.ended = false := by
        by_contra hc; have := h5 (by simpa using hc); rw [hk1] at this; cases this
      refine ⟨h1, h2, h3, ?_, fun _ => rfl, fun _ => ?_, h7, h8⟩
      · show (PoolTask.endLock :: s.tasks).countP _ = if true && !s.ended then 1 else 0
        rw [List.countP_cons, h4, hk1, he]; rfl
      · show (PoolTask.endLock :: s.tasks).countP _ = 0
        rw [List.countP_cons]
        task_simp
        rw [List.countP_eq_zero]
        intro t ht hp
        cases t <;> simp only [PoolTask.isPop] at hp <;> try cases hp
        exact hk2 _ ht
  | @run s s' ok t o a b _ ht hs hi => exact (StepInv.run (StepInv.of hi ht) hs).to

/-- C17: whatever the interleaving, every task can go on: the pool and the buffers are never used after they were freed,
nothing is freed twice, and the assertions hold. -/
theorem C17_defined {s : PoolSt} (hr : PoolReach s) {t : PoolTask} (ht : t ∈ s.tasks) (ok : Bool) : ∃ x, s.run ok t = some x := by
  obtain ⟨a, b, hab⟩ := List.append_of_mem ht
  have h := StepInv.of hr.inv hab
  have halloc := fun b hb => h.allocated (b := b) hb
  obtain ⟨h1, h2, h3, h4, h5, h6, h7, h8⟩ := h
  have hlive : s.refCnt ≠ 0 → s.destroyed = 0 := fun hn => by have := h7.2 hn; omega
  have hfree : ∀ b, 0 < t.bufs.count b → ∃ s', s.freeBuf b = some s' := fun b hb => ⟨_, if_pos (halloc b hb)⟩
  cases t with
  | popLock size =>
    have he : s.endCalled = false := by
      by_contra hc; have := h6 (by simpa using hc); task_simp; omega
    have he' : s.ended = false := by
      by_contra hc; have := h5 (by simpa using hc); rw [he] at this; cases this
    rw [he'] at h1
    task_simp
    rw [PoolSt.run, if_neg (by rw [hlive (by omega)]; omega)]
    split <;> exact ⟨_, rfl⟩
  | popGot size buf =>
    cases buf with
    | none => exact ⟨_, rfl⟩
    | some b =>
      have hb : 0 < (PoolTask.popGot size (some b)).bufs.count b := by simp [PoolTask.bufs]
      rw [PoolSt.run, if_neg (Classical.not_not.2 (halloc b hb))]
      split
      · obtain ⟨s', hs'⟩ := hfree b hb
        rw [hs']; exact ⟨_, rfl⟩
      · exact ⟨_, rfl⟩
  | popFailed =>
    rw [PoolSt.run, if_neg (by rw [hlive (by task_simp; split at h1 <;> omega)]; omega)]
    exact ⟨_, rfl⟩
  | pushLock b =>
    have hb : 0 < (PoolTask.pushLock b).bufs.count b := by simp [PoolTask.bufs]
    rw [PoolSt.run, if_neg]
    swap
    · rw [not_or]
      exact ⟨by rw [hlive (by task_simp; split at h1 <;> omega)]; omega, Classical.not_not.2 (halloc b hb)⟩
    by_cases he : s.ended = true
    · rw [if_neg (Classical.not_not.2 he)]; exact ⟨_, rfl⟩
    · rw [if_pos he, if_pos (by rw [if_neg he] at h1; task_simp; omega)]
      exact ⟨_, rfl⟩
  | pushFree b last =>
    obtain ⟨s', hs'⟩ := hfree b (by simp [PoolTask.bufs])
    rw [PoolSt.run, hs']; exact ⟨_, rfl⟩
  | endLock =>
    have he : s.ended = false := by
      task_simp
      cases h10 : s.ended with
      | false => rfl
      | true => rw [h10] at h4; simp at h4
    rw [he] at h1
    task_simp
    rw [PoolSt.run, if_neg (by rw [hlive (by omega)]; omega)]
    exact ⟨_, rfl⟩
  | endFree l last =>
    cases l with
    | nil => exact ⟨_, rfl⟩
    | cons b l =>
      obtain ⟨s', hs'⟩ := hfree b (by simp [PoolTask.bufs])
      rw [PoolSt.run, hs']; exact ⟨_, rfl⟩
  | destroy =>
    task_simp
    have : s.destroyed = 0 := by
      by_cases hz : s.refCnt = 0
      · have := h7.1 hz; omega
      · exact hlive hz
    rw [PoolSt.run, if_neg (by omega)]
    exact ⟨_, rfl⟩

/-- C17: no buffer is handed out while somebody has it, nor after it was freed or while it is in the list: the buffers in
use, those in the list and those freed are all different. -/
theorem C17_exclusive {s : PoolSt} (hr : PoolReach s) : (s.owned ++ s.list ++ s.freed).Nodup := by
  rw [List.nodup_iff_count]
  intro x
  have := hr.inv.bufs x
  rw [List.count_append, List.count_append]
  split at this <;> omega

/-- C17: every buffer handed out was allocated with exactly the size asked for. -/
theorem C17_size {s : PoolSt} (hr : PoolReach s) {size b : Nat} (h : (size, b) ∈ s.got) : s.size b = size := (hr.inv.sizes _ _ h).2

/-- C17: when the pool was ended, all buffers are given back and nobody is inside a pool function, the pool was freed
exactly once, and every buffer ever allocated was freed exactly once. -/
theorem C17_released {s : PoolSt} (hr : PoolReach s) (he : s.endCalled = true) (ho : s.owned = []) (ht : s.tasks = []) :
    s.destroyed = 1 ∧ s.freed.Perm (List.range s.next) := by
  obtain ⟨h1, h2, h3, h4, h5, h6, h7, h8⟩ := hr.inv
  rw [ht, he] at h4
  have hend : s.ended = true := by
    cases h : s.ended with
    | true => rfl
    | false => rw [h] at h4; cases h4
  rw [hend, ho, ht] at h1
  have h7 := h7.1 h1
  rw [ht] at h7
  refine ⟨h7, List.perm_iff_count.2 fun x => ?_⟩
  have := h2 x
  rw [ht, ho, h3 hend] at this
  simp only [List.count_nil, List.flatMap_nil] at this
  rw [List.count_range]
  omega

/-- C17: before the pool was ended it exists, and it exists as long as somebody has a buffer of it. -/
theorem C17_alive {s : PoolSt} (hr : PoolReach s) (h : s.endCalled = false ∨ s.owned ≠ []) : s.destroyed = 0 := by
  obtain ⟨h1, h2, h3, h4, h5, h6, h7, h8⟩ := hr.inv
  have : s.refCnt ≠ 0 := by
    rcases h with h | h
    · have : s.ended = false := by
        by_contra hc; have := h5 (by simpa using hc); rw [h] at this; cases this
      rw [this] at h1
      simp only [Bool.false_eq_true, if_false] at h1
      omega
    · have := List.length_pos_iff.2 h
      split at h1 <;> omega
  have := h7.2 this
  omega

/-- Run a schedule: a call, or a step of task number `i`. -/
def PoolSt.exec (s : PoolSt) : List (PoolCall ⊕ (Nat × Bool)) → Option PoolSt
  | [] => some s
  | .inl k :: l => (s.call k).exec l
  | .inr (i, ok) :: l =>
    match s.tasks[i]? with
    | none => none
    | some t => (s.run ok t).bind (fun x => { x.1 with tasks := s.tasks.take i ++ x.2.toList ++ s.tasks.drop (i + 1) }.exec l)

-- two threads: one pops a buffer of 64 bytes and gives it back, one pops 128 bytes and so replaces it, keeps it over the
-- end of the pool and then gives it back, which frees the pool
example : (({} : PoolSt).exec [.inl (.pop 64), .inr (0, true), .inr (0, true), .inl (.push 0), .inr (0, true), .inl (.pop 128), .inr (0, true), .inr (0, true),
    .inl .fin, .inr (0, true), .inr (0, true), .inl (.push 1), .inr (0, true), .inr (0, true), .inr (0, true)]).map
      (fun s => (s.destroyed, s.freed, s.owned, s.tasks.length, s.got)) = some (1, [1, 0], [], 0, [(128, 1), (64, 0)]) := rfl
example : PoolReach ((({} : PoolSt).call (.pop 64)).call (.pop 128)) := .call _ (.call _ .init rfl) rfl

end Dav1d
