import Verif.Mem.Ref
import Mathlib.Data.List.Count
/-!
# C16: reference counting
-/
namespace Dav1d
variable {T O : Type} [DecidableEq T] [DecidableEq O]

/-- Threads about to call the free callback of an object. -/
def RefSt.freers (s : RefSt T O) (o : O) : Nat := (s.freeing.filter (fun x => x.2 = o)).length

def refsIn (l : List (T × O)) (o : O) : Nat := (l.filter (fun x => x.2 = o)).length

theorem refsIn_cons (l : List (T × O)) (t : T) (o p : O) : refsIn ((t, o) :: l) p = refsIn l p + if o = p then 1 else 0 := by
  unfold refsIn
  by_cases h : o = p <;> simp [h]

theorem refsIn_erase {l : List (T × O)} {t : T} {o : O} (h : (t, o) ∈ l) (p : O) :
    refsIn l p = refsIn (l.erase (t, o)) p + if o = p then 1 else 0 := by
  rw [← refsIn_cons _ t]
  unfold refsIn
  exact ((List.perm_cons_erase h).filter _).length_eq

theorem refsIn_pos {l : List (T × O)} {t : T} {o : O} (h : (t, o) ∈ l) : 0 < refsIn l o := by
  rw [refsIn_erase h, if_pos rfl]; omega

theorem refsIn_zero {l : List (T × O)} {o : O} (h : refsIn l o = 0) (t : T) : (t, o) ∉ l := fun hm => by
  have := refsIn_pos hm; omega

/-- What holds of one object. -/
def ObjInv (x : Option RefObj) (refs freers : Nat) : Prop :=
  match x with
  | none => refs = 0 ∧ freers = 0
  | some x => x.cnt.toNat = refs ∧ x.frees + freers = if refs = 0 then 1 else 0

def RefInv (s : RefSt T O) : Prop := ∀ o, ObjInv (s.objs o) (refsIn s.held o) (refsIn s.freeing o)

theorem get_of_held {s : RefSt T O} (hi : RefInv s) {t : T} {o : O} (h : (t, o) ∈ s.held) : ∃ x, s.objs o = some x ∧ s.get o = some x ∧
    x.cnt.toNat = refsIn s.held o ∧ x.frees = 0 ∧ refsIn s.freeing o = 0 := by
  have hp := refsIn_pos h
  have := hi o
  cases hx : s.objs o with
  | none => rw [hx] at this; have := this.1; omega
  | some x =>
    rw [hx] at this
    have h2 := this.2
    rw [if_neg (by omega)] at h2
    refine ⟨x, rfl, ?_, this.1, by omega, by omega⟩
    unfold RefSt.get
    rw [hx, Option.bind_some, if_pos (by omega)]

theorem get_of_freeing {s : RefSt T O} (hi : RefInv s) {t : T} {o : O} (h : (t, o) ∈ s.freeing) : ∃ x, s.objs o = some x ∧ s.get o = some x ∧
    x.cnt.toNat = 0 ∧ refsIn s.held o = 0 ∧ x.frees = 0 ∧ refsIn s.freeing o = 1 := by
  have hp := refsIn_pos h
  have := hi o
  cases hx : s.objs o with
  | none => rw [hx] at this; have := this.2; omega
  | some x =>
    rw [hx] at this
    have h2 := this.2
    have h1 := this.1
    by_cases h0 : refsIn s.held o = 0
    · rw [if_pos h0] at h2
      refine ⟨x, rfl, ?_, by omega, h0, by omega, by omega⟩
      unfold RefSt.get
      rw [hx, Option.bind_some, if_pos (by omega)]
    · rw [if_neg h0] at h2; omega

theorem RefInv.act {s s' : RefSt T O} {a : RefAct T O} (hi : RefInv s) (ha : s.Allowed a) (h : s.act a = some s') : RefInv s' := by
  intro p
  cases a with
  | create t o data =>
    cases h
    have ha : s.objs o = none := ha
    have hp := hi p
    show ObjInv (if p = o then _ else s.objs p) (refsIn ((t, o) :: s.held) p) (refsIn s.freeing p)
    rw [refsIn_cons]
    by_cases he : p = o
    · subst he
      rw [ha] at hp
      rw [if_pos rfl, if_pos rfl]
      have h1 := hp.1
      have h2 := hp.2
      refine ⟨?_, ?_⟩
      · show (1#32).toNat = _; simp [h1]
      · rw [if_neg (by omega), h2]
    · rw [if_neg he, if_neg (fun h => he h.symm)]; exact hp
  | inc t o =>
    obtain ⟨hm, hlim⟩ := ha
    obtain ⟨x, h1, h2, h3, h4, h5⟩ := get_of_held hi hm
    simp only [RefSt.act, h2, Option.map_some] at h
    cases h
    have hp := hi p
    show ObjInv (if p = o then _ else s.objs p) (refsIn ((t, o) :: s.held) p) (refsIn s.freeing p)
    rw [refsIn_cons]
    by_cases he : p = o
    · subst he
      rw [if_pos rfl, if_pos rfl]
      refine ⟨?_, ?_⟩
      · show (x.cnt + 1).toNat = _
        rw [BitVec.toNat_add, h3]
        exact Nat.mod_eq_of_lt hlim
      · rw [if_neg (by omega), h5]; show x.frees + 0 = 0; omega
    · rw [if_neg he, if_neg (fun h => he h.symm)]; exact hp
  | dec t o =>
    have hm : (t, o) ∈ s.held := ha
    obtain ⟨x, h1, h2, h3, h4, h5⟩ := get_of_held hi hm
    simp only [RefSt.act, h2, Option.map_some] at h
    cases h
    have hp := hi p
    have hpos := refsIn_pos hm
    have her := refsIn_erase hm p
    show ObjInv (if p = o then _ else s.objs p) (refsIn (s.held.erase (t, o)) p) (refsIn (if (x.cnt == 1#32) = true then (t, o) :: s.freeing else s.freeing) p)
    by_cases he : p = o
    · subst he
      rw [if_pos rfl]
      rw [if_pos rfl] at her
      refine ⟨?_, ?_⟩
      · show (x.cnt - 1).toNat = _
        have := x.cnt.isLt
        rw [BitVec.toNat_sub, h3]
        show (2 ^ 32 - 1 + refsIn s.held p) % 2 ^ 32 = _
        omega
      · show x.frees + _ = _
        by_cases hc : x.cnt = 1#32
        · have : refsIn s.held p = 1 := by rw [← h3, hc]; rfl
          rw [if_pos (by rw [hc]; rfl), refsIn_cons, if_pos rfl, if_pos (by omega)]
          omega
        · have : refsIn s.held p ≠ 1 := fun h => hc (BitVec.eq_of_toNat_eq (by rw [h3, h]; rfl))
          rw [if_neg (by simpa using hc), if_neg (by omega)]
          omega
    · rw [if_neg (fun h => he h.symm)] at her
      rw [if_neg he]
      have : refsIn (if (x.cnt == 1#32) = true then (t, o) :: s.freeing else s.freeing) p = refsIn s.freeing p := by
        split
        · rw [refsIn_cons, if_neg (fun h => he h.symm)]; rfl
        · rfl
      rw [this, show refsIn (s.held.erase (t, o)) p = refsIn s.held p by omega]
      exact hp
  | free t o =>
    have hm : (t, o) ∈ s.freeing := ha
    obtain ⟨x, h1, h2, h3, h4, h5, h6⟩ := get_of_freeing hi hm
    simp only [RefSt.act, h2, Option.map_some] at h
    cases h
    have hp := hi p
    have her := refsIn_erase hm p
    show ObjInv (if p = o then _ else s.objs p) (refsIn s.held p) (refsIn (s.freeing.erase (t, o)) p)
    by_cases he : p = o
    · subst he
      rw [if_pos rfl]
      rw [if_pos rfl] at her
      refine ⟨?_, ?_⟩
      · show x.cnt.toNat = _; omega
      · rw [if_pos h4]; show x.frees + 1 + _ = 1; omega
    · rw [if_neg (fun h => he h.symm)] at her
      rw [if_neg he, show refsIn (s.freeing.erase (t, o)) p = refsIn s.freeing p by omega]
      exact hp
  | writable t o =>
    have hm : (t, o) ∈ s.held := ha
    obtain ⟨x, h1, h2, h3, h4, h5⟩ := get_of_held hi hm
    simp only [RefSt.act, h2, Option.map_some] at h
    cases h
    exact hi p
  | pass t u o =>
    have hm : (t, o) ∈ s.held := ha
    cases h
    show ObjInv (s.objs p) (refsIn ((u, o) :: s.held.erase (t, o)) p) (refsIn s.freeing p)
    rw [refsIn_cons, ← refsIn_erase hm]
    exact hi p

theorem RefReach.inv {s : RefSt T O} (h : RefReach s) : RefInv s := by
  induction h with
  | init => exact fun o => ⟨rfl, rfl⟩
  | step _ ha h ih => exact ih.act ha h

/-- C16: whatever the interleaving, no step within the rules uses an object that is freed or never existed. -/
theorem C16_defined {s : RefSt T O} (hr : RefReach s) {a : RefAct T O} (ha : s.Allowed a) : ∃ s', s.act a = some s' := by
  have hi := hr.inv
  cases a with
  | create t o data => exact ⟨_, rfl⟩
  | inc t o => obtain ⟨x, _, h, _⟩ := get_of_held hi ha.1; exact ⟨_, by simp only [RefSt.act, h, Option.map_some]; rfl⟩
  | dec t o => obtain ⟨x, _, h, _⟩ := get_of_held hi ha; exact ⟨_, by simp only [RefSt.act, h, Option.map_some]; rfl⟩
  | free t o => obtain ⟨x, _, h, _⟩ := get_of_freeing hi ha; exact ⟨_, by simp only [RefSt.act, h, Option.map_some]; rfl⟩
  | writable t o => obtain ⟨x, _, h, _⟩ := get_of_held hi ha; exact ⟨_, by simp only [RefSt.act, h, Option.map_some]; rfl⟩
  | pass t u o => exact ⟨_, rfl⟩

/-- C16: the free callback of an object has been called at most once, and not as long as there are references; and once
it has been called, no thread is about to call it again. -/
theorem C16_once {s : RefSt T O} (hr : RefReach s) {o : O} {x : RefObj} (hx : s.objs o = some x) :
    x.frees ≤ 1 ∧ (∀ t, (t, o) ∈ s.held → x.frees = 0 ∧ ∀ u, (u, o) ∉ s.freeing) ∧ (x.frees = 1 → ∀ t, (t, o) ∉ s.held ∧ (t, o) ∉ s.freeing) := by
  have h := hr.inv o
  rw [hx] at h
  obtain ⟨h1, h2⟩ := h
  refine ⟨by split at h2 <;> omega, fun t ht => ?_, fun hf t => ?_⟩
  · have := refsIn_pos ht
    rw [if_neg (by omega)] at h2
    exact ⟨by omega, refsIn_zero (by omega)⟩
  · by_cases h0 : refsIn s.held o = 0
    · rw [if_pos h0] at h2
      exact ⟨refsIn_zero h0 t, refsIn_zero (by omega) t⟩
    · rw [if_neg h0] at h2; omega

/-- C16: when the last reference is gone the callback has been called, or exactly one thread is about to. -/
theorem C16_last {s : RefSt T O} (hr : RefReach s) {o : O} {x : RefObj} (hx : s.objs o = some x) (hh : ∀ t, (t, o) ∉ s.held) :
    (x.frees = 1 ∧ ∀ t, (t, o) ∉ s.freeing) ∨ (x.frees = 0 ∧ ∃ t, s.freeing.filter (fun y => y.2 = o) = [(t, o)]) := by
  have h := hr.inv o
  rw [hx] at h
  obtain ⟨h1, h2⟩ := h
  have h0 : refsIn s.held o = 0 := by
    unfold refsIn
    rw [List.length_eq_zero_iff, List.filter_eq_nil_iff]
    rintro ⟨t, p⟩ hm
    simp only [decide_eq_true_eq]
    rintro rfl
    exact hh t hm
  rw [if_pos h0] at h2
  by_cases hf : x.frees = 1
  · exact Or.inl ⟨hf, refsIn_zero (by omega)⟩
  · refine Or.inr ⟨by omega, ?_⟩
    have hl : (s.freeing.filter (fun y => y.2 = o)).length = 1 := by unfold refsIn at h2; omega
    obtain ⟨⟨t, p⟩, ha⟩ := List.length_eq_one_iff.1 hl
    have hm : (t, p) ∈ s.freeing.filter (fun y => y.2 = o) := by rw [ha]; exact List.mem_cons_self
    have hp : p = o := by simpa using (List.mem_filter.1 hm).2
    subst hp
    exact ⟨t, ha⟩

/-- The counter is the number of references. -/
theorem C16_count {s : RefSt T O} (hr : RefReach s) {o : O} {x : RefObj} (hx : s.objs o = some x) :
    x.cnt.toNat = (s.held.filter (fun y => y.2 = o)).length := by
  have h := hr.inv o
  rw [hx] at h
  exact h.1

/-- C16: dav1d_ref_is_writable, called by a thread with a reference, is true exactly if this is the only reference to the
object (and the object was not made from memory of the application). -/
theorem C16_writable {s : RefSt T O} (hr : RefReach s) {t : T} {o : O} {x : RefObj} (hx : s.objs o = some x) (hh : (t, o) ∈ s.held) :
    x.isWritable = true ↔ s.held.filter (fun y => y.2 = o) = [(t, o)] ∧ x.data = true := by
  have hc := C16_count hr hx
  unfold RefObj.isWritable
  rw [Bool.and_eq_true]
  refine and_congr_left fun _ => ?_
  rw [beq_iff_eq]
  have hm : (t, o) ∈ s.held.filter (fun y => y.2 = o) := List.mem_filter.2 ⟨hh, by simp⟩
  constructor
  · intro h1
    rw [h1] at hc
    obtain ⟨a, ha⟩ := List.length_eq_one_iff.1 hc.symm
    rw [ha, List.mem_singleton] at hm
    rw [ha, hm]
  · intro h1
    rw [h1] at hc
    exact BitVec.eq_of_toNat_eq hc

/-- dav1d_data_ref and dav1d_picture_ref by a thread that has the references of the source: the rules are kept, and
afterwards the thread has each of them once more. -/
theorem incs_run (t : T) (l : List O) : ∀ {s : RefSt T O}, RefReach s → (∀ o ∈ l, (t, o) ∈ s.held) → (∀ o, s.refs o + l.length < 2 ^ 32) →
    s.AllAllowed (l.map (.inc t)) ∧ ∃ s', s.acts (l.map (.inc t)) = some s' ∧ RefReach s' ∧ s'.held = (l.map (fun o => (t, o))).reverse ++ s.held := by
  induction l with
  | nil => intro s hr _ _; exact ⟨trivial, s, rfl, hr, rfl⟩
  | cons o l ih =>
    intro s hr hh hlim
    have ha : s.Allowed (.inc t o) := ⟨hh o List.mem_cons_self, by have := hlim o; rw [List.length_cons] at this; omega⟩
    obtain ⟨s1, h1⟩ := C16_defined hr ha
    have hr1 := hr.step ha h1
    have hheld : s1.held = (t, o) :: s.held := by
      obtain ⟨x, _, hg, _⟩ := get_of_held hr.inv ha.1
      simp only [RefSt.act, hg, Option.map_some] at h1
      cases h1; rfl
    have := ih hr1 (fun p hp => by rw [hheld]; exact List.mem_cons_of_mem _ (hh p (List.mem_cons_of_mem _ hp))) (fun p => by
      have h2 := hlim p
      have h3 : s1.refs p = s.refs p + if o = p then 1 else 0 := by
        unfold RefSt.refs; rw [hheld]; exact refsIn_cons _ _ _ _
      rw [List.length_cons] at h2
      split at h3 <;> omega)
    refine ⟨⟨ha, fun s' h => ?_⟩, ?_⟩
    · rw [h1] at h; cases h; exact this.1
    · obtain ⟨_, s', h2, h3, h4⟩ := this
      refine ⟨s', ?_, h3, ?_⟩
      · rw [List.map_cons, RefSt.acts, h1]; exact h2
      · rw [h4, hheld]; simp

theorem C16_picture_ref (t : T) (p : PicRefs O) {s : RefSt T O} (hr : RefReach s) (hh : ∀ o ∈ p.objs, (t, o) ∈ s.held) (hlim : ∀ o, s.refs o + 7 < 2 ^ 32) :
    s.AllAllowed (picRef t p) ∧ ∃ s', s.acts (picRef t p) = some s' ∧ RefReach s' ∧ s'.held = (p.objs.map (fun o => (t, o))).reverse ++ s.held :=
  incs_run t p.objs hr hh (fun o => by
    have h1 := hlim o
    have h2 : p.objs.length ≤ 7 := List.length_filterMap_le id _
    omega)

theorem C16_data_ref (t : T) (d : DataRefs O) {s : RefSt T O} (hr : RefReach s) (hh : ∀ o ∈ d.objs, (t, o) ∈ s.held) (hlim : ∀ o, s.refs o + 2 < 2 ^ 32) :
    s.AllAllowed (dataRef t d) ∧ ∃ s', s.acts (dataRef t d) = some s' ∧ RefReach s' ∧ s'.held = (d.objs.map (fun o => (t, o))).reverse ++ s.held :=
  incs_run t d.objs hr hh (fun o => by
    have h1 := hlim o
    have h2 : d.objs.length ≤ 2 := List.length_filterMap_le id _
    omega)

theorem incs_cnt (n : Nat) : ∀ (s : RefSt Unit Unit) (x : RefObj), s.objs () = some x → x.frees = 0 → ((), ()) ∈ s.held →
    ∃ s' x', s.acts (List.replicate n (.inc () ())) = some s' ∧ s'.objs () = some x' ∧ x'.frees = 0 ∧ x'.cnt = x.cnt + BitVec.ofNat 32 n ∧
      s'.held.length = s.held.length + n := by
  induction n with
  | zero => intro s x hx hf hh; exact ⟨s, x, rfl, hx, hf, by simp, rfl⟩
  | succ n ih =>
    intro s x hx hf hh
    have hg : s.get () = some x := by unfold RefSt.get; rw [hx, Option.bind_some, if_pos hf]
    have ha : s.act (.inc () ()) = some { s.set () { x with cnt := x.cnt + 1 } with held := ((), ()) :: s.held } := by
      simp only [RefSt.act, hg, Option.map_some]
    obtain ⟨s', x', h1, h2, h3, h4, h5⟩ := ih { s.set () { x with cnt := x.cnt + 1 } with held := ((), ()) :: s.held } { x with cnt := x.cnt + 1 }
      (by simp [RefSt.set]) hf List.mem_cons_self
    refine ⟨s', x', ?_, h2, h3, ?_, ?_⟩
    · rw [List.replicate_succ, RefSt.acts, ha]; exact h1
    · rw [h4]
      show x.cnt + 1 + _ = _
      rw [show (BitVec.ofNat 32 (n + 1)) = 1 + BitVec.ofNat 32 n by rw [Nat.add_comm, BitVec.ofNat_add]; rfl, BitVec.add_assoc]
    · rw [h5]
      show s.held.length + 1 + n = _
      omega

/-- Without the limit on their number C16 would not hold: the counter has 32 bits, and with 2^32 + 1 references dropping
one of them frees the object. -/
theorem C16_overflow : ∃ (l : List (RefAct Unit Unit)) (s : RefSt Unit Unit) (x : RefObj),
    ({} : RefSt Unit Unit).acts (.create () () true :: l) = some s ∧ (∀ a ∈ l.dropLast.dropLast, a = .inc () ()) ∧ ((), ()) ∈ s.held ∧ s.objs () = some x ∧ x.frees = 1 := by
  obtain ⟨N, hN, h0⟩ : ∃ N : Nat, 0 < N ∧ BitVec.ofNat 32 N = 0 := ⟨4294967296, by omega, by decide⟩
  obtain ⟨s1, x1, h1, h2, h3, h4, h5⟩ := incs_cnt N { ({} : RefSt Unit Unit).set () { cnt := 1, data := true } with held := [((), ())] } { cnt := 1, data := true }
    (by simp [RefSt.set]) rfl List.mem_cons_self
  have hc : x1.cnt = 1#32 := by
    rw [h4, h0]; rfl
  have h5 : s1.held.length = 1 + N := h5
  have hg : s1.get () = some x1 := by unfold RefSt.get; rw [h2, Option.bind_some, if_pos h3]
  refine ⟨List.replicate N (.inc () ()) ++ [.dec () (), .free () ()], ?_⟩
  have happ : ∀ (l m : List (RefAct Unit Unit)) (s : RefSt Unit Unit), s.acts (l ++ m) = (s.acts l).bind (·.acts m) := by
    intro l m
    induction l with
    | nil => intro s; rfl
    | cons a l ih =>
      intro s
      rw [List.cons_append, RefSt.acts, RefSt.acts]
      cases s.act a with
      | none => rfl
      | some s => exact ih s
  let s2 : RefSt Unit Unit := { s1.set () { x1 with cnt := x1.cnt - 1 } with held := s1.held.erase ((), ()), freeing := ((), ()) :: s1.freeing }
  have hd : s1.act (.dec () ()) = some s2 := by
    simp only [RefSt.act, hg, Option.map_some]
    rw [if_pos (by rw [hc]; rfl)]
  have hg2 : s2.get () = some { x1 with cnt := x1.cnt - 1 } := by
    simp [RefSt.get, s2, RefSt.set, h3]
  have hf : s2.act (.free () ()) = some { s2.set () { x1 with cnt := x1.cnt - 1, frees := x1.frees + 1 } with freeing := s2.freeing.erase ((), ()) } := by
    simp only [RefSt.act, hg2, Option.map_some]
  refine ⟨{ s2.set () { x1 with cnt := x1.cnt - 1, frees := x1.frees + 1 } with freeing := s2.freeing.erase ((), ()) },
    { x1 with cnt := x1.cnt - 1, frees := x1.frees + 1 }, ?_, ?_, ?_, by simp [RefSt.set], by show x1.frees + 1 = 1; omega⟩
  rotate_left
  · intro a ha
    have : (List.replicate N (RefAct.inc () ()) ++ [RefAct.dec () (), .free () ()]).dropLast.dropLast = List.replicate N (.inc () ()) := by
      rw [show List.replicate N (RefAct.inc () ()) ++ [RefAct.dec () (), .free () ()] = (List.replicate N (.inc () ()) ++ [.dec () ()]) ++ [.free () ()] by simp,
        List.dropLast_concat, List.dropLast_concat]
    rw [this] at ha
    exact (List.mem_replicate.1 ha).2
  rotate_left
  · rw [RefSt.acts]
    show RefSt.acts _ _ = _
    rw [happ]
    rw [show RefSt.acts _ (List.replicate N (RefAct.inc () ())) = some s1 from h1]
    show s1.acts _ = _
    rw [RefSt.acts, hd]
    show s2.acts _ = _
    rw [RefSt.acts, hf]
    rfl
  · show ((), ()) ∈ s1.held.erase ((), ())
    have hl : 0 < (s1.held.erase ((), ())).length := by
      have h6 := List.length_erase (a := ((), ())) (l := s1.held)
      split at h6 <;> omega
    obtain ⟨a, ha⟩ := List.exists_mem_of_length_pos hl
    exact ha

/-- C20 for a single picture: when picture_alloc has made it, and whatever threads then do with the references to it, its
buffer was allocated exactly once; it was not released as long as there are references; and when there are none left and no
thread is about to call the free callback it was released exactly once, and the memory from the pool was given back. Missing: that
the decoder drops all references it has when it is closed. -/
theorem C20_single_partial {s : RefSt T O} (hr : RefReach s) {o : O} {x : RefObj} (hx : s.objs o = some x) {present popOk : Bool} {res : Int} {ev : List PicEvent}
    (ha : pictureAlloc present popOk res = (ev, true)) :
    (PicEvent.history ev x).count (.alloc true) = 1 ∧
    ((∃ t, (t, o) ∈ s.held) → PicEvent.release ∉ PicEvent.history ev x) ∧
    ((∀ t, (t, o) ∉ s.held ∧ (t, o) ∉ s.freeing) → PicEvent.history ev x = [.pop, .alloc true, .release, .push]) := by
  have hev : ev = [.pop, .alloc true] := by
    unfold pictureAlloc at ha
    split at ha
    · cases ha
    split at ha
    · cases ha
    split at ha
    · cases ha
    · cases ha; rfl
  subst hev
  have h1 := C16_once hr hx
  have hf : x.frees = 0 ∨ x.frees = 1 := by omega
  refine ⟨?_, ?_, ?_⟩
  · rcases hf with h | h <;> (unfold PicEvent.history; rw [h]; decide)
  · rintro ⟨t, ht⟩
    unfold PicEvent.history; rw [(h1.2.1 t ht).1]; decide
  · intro hn
    rcases C16_last hr hx (fun t => (hn t).1) with h | ⟨_, t, h⟩
    · unfold PicEvent.history; rw [h.1]; rfl
    · have hm : (t, o) ∈ s.freeing.filter (fun y => y.2 = o) := by rw [h]; exact List.mem_cons_self
      exact absurd (List.mem_filter.1 hm).1 (hn t).2

/-- A picture that could not be allocated leaves nothing to release, and memory from the pool was given back. -/
theorem C20_failed {present popOk : Bool} {res : Int} {ev : List PicEvent} (ha : pictureAlloc present popOk res = (ev, false)) :
    PicEvent.alloc true ∉ ev ∧ PicEvent.release ∉ ev ∧ ev.count .pop = ev.count .push := by
  unfold pictureAlloc at ha
  split at ha
  · cases ha; decide
  split at ha
  · cases ha; decide
  split at ha <;> cases ha
  decide

-- two threads: one makes an object and hands a second reference over; both drop theirs at the same time
example : ∃ s, ({} : RefSt Nat Nat).acts [.create 0 7 true, .inc 0 7, .pass 0 1 7, .dec 1 7, .dec 0 7, .free 0 7] = some s ∧ s.held = [] ∧ s.freeing = [] ∧
    (s.objs 7).map (·.frees) = some 1 := ⟨_, rfl, by decide, by decide, by decide⟩
example : ({} : RefSt Nat Nat).AllAllowed [.create 0 7 true, .inc 0 7, .pass 0 1 7] := by
  refine ⟨rfl, fun s h => ?_⟩
  cases h
  refine ⟨⟨List.mem_cons_self, by decide⟩, fun s h => ?_⟩
  cases h
  exact ⟨List.mem_cons_self, fun _ _ => trivial⟩

end Dav1d
