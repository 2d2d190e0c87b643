import Verif.Thread.FramesModel
import Verif.Thread.SchedPub
import Verif.Thread.SchedProps
/-!
# C62, C63: frames that refer to each other
-/
namespace Dav1d.Sched
variable {k : Cfg}

/-! ## C62: what is published is complete -/

/-- Every line below `progress[1]` belongs to a superblock row that is reconstructed and filtered. -/
theorem C62_pixels (hk : k.Ok) {s : St} (h : Reach k s) (he : s.pub1 ≠ FRAME_ERROR) {y : Nat} (hy : y < k.sbh) (hp : y * k.sbsz < s.pub1) :
    (∀ i, k.Has (.tile false i y) → .fin (.tile false i y) ∈ s.log) ∧ ∀ g, k.Has (.filt g y) → .fin (.filt g y) ∈ s.log :=
  (reach_pub hk h).rows he y hy hp

/-- Every line below `progress[0]` belongs to a superblock row whose symbols are decoded. -/
theorem C62_symbols (hk : k.Ok) {s : St} (h : Reach k s) (he : s.pub0 ≠ FRAME_ERROR) {y : Nat} (hy : y < k.sbh) (hp : y * k.sbsz < s.pub0)
    (i : Nat) : k.Has (.tile true i y) → .fin (.tile true i y) ∈ s.log :=
  (reach_pub hk h).ents he y hy hp i

/-- When the frame has been announced, both values say that everything is complete or that there is an error. -/
theorem C62_final (hk : k.Ok) (h2 : k.twoPass = true) {s : St} (h : Reach k s) (ha : s.Announced) (p : Bool) :
    pubOf s p = UINT_MAX ∨ pubOf s p = FRAME_ERROR := by
  have hi := reach_inv hk h
  have hp := reach_pub hk h
  obtain ⟨hc, _⟩ := exit_state hk h ha
  have hd := done_of_zero hk hi.bit hi.ent hi.count hc
  have hl := live_of_total (k := k) (s := s) (by have := hi.count; unfold CountInv at this; omega)
  have hsm := hk.limit
  have h0 := sbh_pos hk
  have hlt : ∀ n < k.sbh, n * k.sbsz < FRAME_ERROR := by
    intro n hn
    have := Nat.mul_le_mul_right k.sbsz (Nat.le_of_lt hn)
    unfold TILE_ERROR at hsm
    unfold FRAME_ERROR
    omega
  cases p with
  | false =>
    have h1 := hp.done h2 hd.1
    show s.pub1 = _ ∨ s.pub1 = _
    rcases hi.bit.pub with h3 | h3 | ⟨n, h3, h4, _⟩
    · exact Or.inr h3.1
    · exact Or.inl h3.1
    · have := hlt n h3; omega
  | true =>
    have h5 := hl (.ent (k.sbh - 1)) ⟨by omega, h2⟩
    have h1 := hp.last (by
      simp only [lv] at h5
      cases h : s.ent (k.sbh - 1) <;> rw [h] at h5 <;> simp [le, epos] at h5 ⊢)
    show s.pub0 = _ ∨ s.pub0 = _
    rcases hi.ent.pub with h3 | h3 | ⟨n, h3, h4, _⟩
    · exact Or.inr h3.1
    · exact Or.inl h3.1
    · have := hlt n h3; omega

/-! ## A frame uses only complete rows of its references -/

/-- `X` holds for the rows of tiles that are or were decoded. -/
structure RefInv (X : Bool → Nat → Nat → Prop) (s : St) : Prop where
  held : ∀ p i y, (s.tile p i = .taken y ∨ ∃ z e, y = z + 1 ∧ s.tile p i = .next z e true) → s.error = false → X p i y
  log : ∀ p i y, .start (.tile p i y) ∈ s.log → X p i y

theorem announce_start {s : St} {n : Int} {w : Work} (h : .start w ∈ announce k s n) : .start w ∈ s.log := by
  unfold announce at h
  split at h
  · simpa using h
  · exact h

theorem RefInv.tile {X : Bool → Nat → Nat → Prop} {rd} {s s' : St} {p : Bool} {i : Nat} (h2 : k.twoPass = true) (h : RefInv X s) (hr : ∀ p i y, rd p i y → X p i y)
    (hs : TileStep k rd s p i s') : RefInv X s' := by
  have herr := (tileStep_same hs).2.2.2.2.2.2.2.2.2.2.2.2.2
  have hee : s'.error = false → s.error = false := by
    intro h
    cases h' : s.error
    · rfl
    · rw [herr h'] at h; cases h
  have key : ∀ {v : TileSt}, s'.tile = upd2 s.tile p i v → (∀ w, .start w ∈ s'.log → .start w ∈ s.log) →
      (∀ y, (v = .taken y ∨ ∃ z e, y = z + 1 ∧ v = .next z e true) → s'.error = false → X p i y) → RefInv X s' := by
    intro v a b c
    refine ⟨fun q j y hq he => ?_, fun q j y hq => h.log q j y (b _ hq)⟩
    rw [a] at hq
    by_cases hx : q = p ∧ j = i
    · obtain ⟨rfl, rfl⟩ := hx
      rw [upd2_same] at hq
      exact c y hq he
    · rw [upd2_ne _ _ hx] at hq
      exact h.held q j y hq (hee he)
  have chk : ∀ {y e}, checkTile k rd s p i y e → e = false → X p i y := by
    intro y e hc he
    obtain ⟨_, _, h3, h4⟩ := hc
    exact hr _ _ _ (h3 ⟨by rw [← h4]; exact he, h2⟩)
  cases hs with
  | find hq hc =>
    refine key rfl (fun _ h => h) fun z hz he => ?_
    rcases hz with hz | ⟨_, _, _, hz⟩
    · cases hz; exact chk hc he
    · cases hz
  | skip hq he =>
    refine key rfl (fun _ h => h) fun z hz _ => ?_
    rcases hz with hz | ⟨_, _, _, hz⟩ <;> cases hz
  | @start y hq he =>
    have hx := h.held p i y (Or.inl hq) he
    refine ⟨fun q j z hz he' => ?_, fun q j z hz => ?_⟩
    · dsimp only at hz
      by_cases hx : q = p ∧ j = i
      · obtain ⟨rfl, rfl⟩ := hx
        rw [upd2_same] at hz
        rcases hz with hz | ⟨_, _, _, hz⟩ <;> cases hz
      · rw [upd2_ne _ _ hx] at hz
        exact h.held q j z hz he
    · simp only [List.mem_cons] at hz
      rcases hz with hz | hz
      · cases hz; exact hx
      · exact h.log q j z hz
  | fin e hq =>
    refine key rfl (fun w h => by simpa using h) fun z hz _ => ?_
    rcases hz with hz | ⟨_, _, _, hz⟩ <;> cases hz
  | or hq =>
    refine key rfl (fun _ h => h) fun z hz _ => ?_
    rcases hz with hz | ⟨_, _, _, hz⟩ <;> split at hz <;> cases hz
  | @again y e e' hq hc =>
    refine key rfl (fun _ h => h) fun z hz he => ?_
    rcases hz with hz | ⟨_, _, h1, hz⟩
    · cases hz
    · cases hz; subst h1; exact chk hc he
  | wait hq =>
    refine key rfl (fun _ h => h) fun z hz _ => ?_
    rcases hz with hz | ⟨_, _, _, hz⟩ <;> cases hz
  | @next y e now hq =>
    refine key rfl (fun _ h => h) fun z hz he => ?_
    cases now with
    | true =>
      simp only [if_true] at hz
      rcases hz with hz | ⟨_, _, _, hz⟩
      · cases hz; exact h.held p i (y + 1) (Or.inr ⟨y, e, rfl, hq⟩) he
      · cases hz
    | false =>
      simp only [Bool.false_eq_true, if_false] at hz
      rcases hz with hz | ⟨_, _, _, hz⟩ <;> cases hz
  | last hq =>
    refine key rfl (fun _ h => h) fun z hz _ => ?_
    rcases hz with hz | ⟨_, _, _, hz⟩ <;> cases hz
  | sub hq =>
    refine key rfl (fun _ h => h) fun z hz _ => ?_
    rcases hz with hz | ⟨_, _, _, hz⟩ <;> cases hz
  | exit hq =>
    refine key rfl (fun _ h => announce_start h) fun z hz _ => ?_
    rcases hz with hz | ⟨_, _, _, hz⟩ <;> cases hz

theorem RefInv.step {X : Bool → Nat → Nat → Prop} {rd bad} {s s' : St} (hk : k.Ok) (h2 : k.twoPass = true) (h : RefInv X s) (hr : ∀ p i y, rd p i y → X p i y)
    (hs : Step k rd bad s s') : RefInv X s' := by
  have herr := step_error hk hs
  have hee : s'.error = false → s.error = false := by
    intro h
    cases h' : s.error
    · rfl
    · rw [herr h'] at h; cases h
  have same : s'.tile = s.tile → (∀ p i y, .start (.tile p i y) ∈ s'.log → .start (.tile p i y) ∈ s.log) → RefInv X s' := by
    intro a b
    exact ⟨fun p i y hq he => h.held p i y (by rw [a] at hq; exact hq) (hee he), fun p i y hq => h.log p i y (b p i y hq)⟩
  have hcr : RefInv X (create2 k s) := by
    refine ⟨fun p i y hq he => ?_, h.log⟩
    simp only [create2] at hq he
    split at hq
    · rcases hq with hz | ⟨_, _, _, hz⟩ <;> cases hz
    · exact h.held p i y hq he
  cases hs with
  | create0 => exact hcr
  | create1 =>
    refine ⟨fun p i y hq he => ?_, h.log⟩
    simp only [create1] at hq he
    split at hq
    · rcases hq with hz | ⟨_, _, _, hz⟩ <;> cases hz
    · exact h.held p i y hq he
  | create2 => exact hcr
  | refError => exact same rfl fun _ _ _ h => h
  | tile _ hs => exact h.tile h2 hr hs
  | filt _ hs =>
    refine same (filtStep_same hs).2.1 fun p i y hy => ?_
    cases hs with
    | exit => exact announce_start hy
    | @run pc _ hq h2 =>
      cases pc with
      | st g =>
        simp only [filtRun] at h2
        split at h2 <;> cases h2
        · simpa using hy
        · exact hy
      | run g => cases h2; simpa using hy
      | _ =>
        simp only [filtRun] at h2
        (repeat' split at h2) <;> cases h2 <;> exact hy
    | _ => exact hy
  | ent _ hs =>
    refine same (entStep_same hs).2.1 fun p i y hy => ?_
    cases hs with
    | exit => exact announce_start hy
    | _ => exact hy

/-- The rows of the references that frame `f` needs for row `y` of tile `i` are complete. -/
def Video.RefsDone (V : Video) (S : Nat → St) (f : Nat) (p : Bool) (i y : Nat) : Prop :=
  ∀ r ∈ V.refs f, ∀ n, V.need f r p i y = some n → ∀ z < (V.cfg r).sbh, z * (V.cfg r).sbsz < n →
    if p then EntDone (V.cfg r) (S r).log z else RowDone (V.cfg r) (S r).log z

namespace Video
variable {V : Video} {frames : Nat}

theorem RefsDone.mono {S S' : Nat → St} {f p i y} (h : V.RefsDone S f p i y) (hm : ∀ r, ∀ e ∈ (S r).log, e ∈ (S' r).log) : V.RefsDone S' f p i y := by
  intro r hr n hn z hz hlt
  have := h r hr n hn z hz hlt
  cases p with
  | true => exact EntDone.mono this (hm r)
  | false => exact RowDone.mono this (hm r)

structure VInv (V : Video) (S : Nat → St) : Prop where
  reach : ∀ f, Sched.Reach (V.cfg f) (S f)
  ref : ∀ f, RefInv (V.RefsDone S f) (S f)

theorem step_vinv (hv : V.Ok) {S S' : Nat → St} (hi : VInv V S) (h : V.Step frames S S') : VInv V S' := by
  cases h with
  | @frame f s' hf h0 hs =>
    have hlog : ∀ r, ∀ e ∈ (S r).log, e ∈ (upd S f s' r).log := by
      intro r e he
      by_cases h1 : r = f
      · subst h1
        rw [upd_same]
        have hi' := reach_inv (hv.cfg r) (hi.reach r)
        exact (step_kind (hv.cfg r) hi'.tile hi'.front hi'.ent hs).log_mono e he
      · rw [upd_ne _ _ h1]; exact he
    refine ⟨fun g => ?_, fun g => ?_⟩
    · by_cases h1 : g = f
      · subst h1; rw [upd_same]; exact .step (hi.reach g) hs
      · rw [upd_ne _ _ h1]; exact hi.reach g
    · have hmono : ∀ p i y, V.RefsDone S g p i y → V.RefsDone (upd S f s') g p i y := fun p i y h => h.mono hlog
      by_cases h1 : g = f
      · subst h1
        rw [upd_same]
        have hrd : ∀ p i y, V.rd S g p i y → V.RefsDone S g p i y := by
          intro p i y hrd r hr n hn z hz hlt
          obtain ⟨h3, h4⟩ := hrd r hr n hn
          have hp := reach_pub (hv.cfg r) (hi.reach r)
          cases p with
          | true => exact hp.ents h4 z hz (Nat.lt_of_lt_of_le hlt h3)
          | false => exact hp.rows h4 z hz (Nat.lt_of_lt_of_le hlt h3)
        have := (hi.ref g).step (hv.cfg g) (hv.two g) hrd hs
        exact ⟨fun p i y hq he => hmono _ _ _ (this.held p i y hq he), fun p i y hq => hmono _ _ _ (this.log p i y hq)⟩
      · rw [upd_ne _ _ h1]
        exact ⟨fun p i y hq he => hmono _ _ _ ((hi.ref g).held p i y hq he), fun p i y hq => hmono _ _ _ ((hi.ref g).log p i y hq)⟩

theorem reach_vinv (hv : V.Ok) {S : Nat → St} (h : V.Reach frames S) : VInv V S := by
  induction h with
  | init => exact ⟨fun f => .init, fun f => ⟨fun p i y h => (by rcases h with h | ⟨_, _, _, h⟩ <;> cases h), fun p i y h => (by cases h)⟩⟩
  | step _ h ih => exact step_vinv hv ih h

end Video

/-- When the reconstruction of a row of a tile begins, the lines of the references that it needs have been reconstructed
and filtered. -/
theorem C62_references {V : Video} {frames : Nat} (hv : V.Ok) {S : Nat → St} (h : V.Reach frames S) {f i y : Nat}
    (hs : .start (.tile false i y) ∈ (S f).log) {r n : Nat} (hr : r ∈ V.refs f) (hn : V.need f r false i y = some n)
    {z : Nat} (hz : z < (V.cfg r).sbh) (hl : z * (V.cfg r).sbsz < n) :
    (∀ j, (V.cfg r).Has (.tile false j z) → .fin (.tile false j z) ∈ (S r).log) ∧
      ∀ g, (V.cfg r).Has (.filt g z) → .fin (.filt g z) ∈ (S r).log :=
  ((Video.reach_vinv hv h).ref f).log false i y hs r hr n hn z hz hl

/-- When the entropy decoding of a row of a tile begins, that of the needed lines of the references is complete. -/
theorem C62_symbol_references {V : Video} {frames : Nat} (hv : V.Ok) {S : Nat → St} (h : V.Reach frames S) {f i y : Nat}
    (hs : .start (.tile true i y) ∈ (S f).log) {r n : Nat} (hr : r ∈ V.refs f) (hn : V.need f r true i y = some n)
    {z : Nat} (hz : z < (V.cfg r).sbh) (hl : z * (V.cfg r).sbsz < n) (j : Nat) :
    (V.cfg r).Has (.tile true j z) → .fin (.tile true j z) ∈ (S r).log :=
  ((Video.reach_vinv hv h).ref f).log true i y hs r hr n hn z hz hl j

/-! ## C63: no deadlock -/

/-- If no frame can make a step, all frames have been announced. -/
theorem C63_no_deadlock {V : Video} {frames : Nat} (hv : V.Ok) {S : Nat → St} (h : V.Reach frames S) (hs : ∀ S', ¬ V.Step frames S S') :
    ∀ f < frames, (S f).Announced := by
  have hi := Video.reach_vinv hv h
  intro f
  induction f using Nat.strongRecOn with
  | ind f ih =>
    intro hf
    have ha : ∀ r < f, (S r).Announced := fun r hr => ih r hr (by omega)
    refine C49_announced (hv.cfg f) (rd := V.rd S f) (bad := V.bad S f) ?_ (hi.reach f) ?_
    · intro p i y
      by_cases hb : V.bad S f p i y
      · exact Or.inr hb
      · refine Or.inl fun r hr n hn => ?_
        have hrf := hv.refs f r hr
        have hne : pubOf (S r) p ≠ FRAME_ERROR := fun he => hb ⟨r, hr, n, hn, he⟩
        refine ⟨?_, hne⟩
        rcases C62_final (hv.cfg r) (hv.two r) (hi.reach r) (ha r hrf) p with h1 | h1
        · rw [h1]; exact hv.need f r p i y n hn
        · exact absurd h1 hne
    · intro s' hst
      exact hs _ (.frame hf (fun _ => hv.start f S ha) hst)

/-- The steps that the frames can still make. -/
def workLeft (V : Video) (S : Nat → St) (frames : Nat) : Nat := sum (fun f => measure (V.cfg f) (S f)) frames

theorem Video.step_total {V : Video} {frames : Nat} (hv : V.Ok) {S S' : Nat → St} (hi : Video.VInv V S) (h : V.Step frames S S') :
    workLeft V S' frames < workLeft V S frames := by
  cases h with
  | @frame f s' hf h0 hs =>
    have h1 := step_measure (hv.cfg f) (reach_inv (hv.cfg f) (hi.reach f)) hs
    have h2 := sum_upd (fun f => measure (V.cfg f)) S s' hf
    unfold workLeft
    omega

/-- Every execution ends. -/
theorem C63_ends {V : Video} (hv : V.Ok) (frames : Nat) : ∃ bound, ∀ {n S}, V.Run frames n (fun f => .init (V.cfg f)) S → n ≤ bound := by
  refine ⟨workLeft V (fun f => .init (V.cfg f)) frames, fun {n S} h => ?_⟩
  suffices V.Reach frames S ∧ n + workLeft V S frames ≤ workLeft V (fun f => .init (V.cfg f)) frames by omega
  generalize hS : (fun f => St.init (V.cfg f)) = S0 at h
  have hr0 : V.Reach frames S0 := by rw [← hS]; exact .init
  clear hS
  induction h with
  | here => exact ⟨hr0, by omega⟩
  | step _ hs ih =>
    obtain ⟨h1, h2⟩ := ih hr0
    have := Video.step_total hv (Video.reach_vinv hv h1) hs
    exact ⟨.step h1 hs, by omega⟩

/-! ## Examples -/

/-- Two frames, the second refers to the first and needs as many lines as it has itself. -/
def demoVideo : Video where
  cfg := fun _ => demoCfg
  refs := fun f => if f = 1 then [0] else []
  need := fun _ _ _ _ y => if y < 3 then some ((y + 1) * 64) else none
  start := fun _ _ => True

theorem demoVideoOk : demoVideo.Ok where
  cfg := fun _ => demoOk
  two := fun _ => rfl
  refs := fun f r h => by
    simp only [demoVideo] at h
    split at h
    · simp only [List.mem_singleton] at h; omega
    · cases h
  need := fun f r p i y n h => by
    simp only [demoVideo] at h
    split at h
    · cases h; unfold UINT_MAX; omega
    · cases h
  start := fun _ _ _ => trivial

/-- The first frame is complete and the second one is in progress. -/
def demoFrames (n : Nat) : Nat → St := upd (upd (fun _ => .init demoCfg) 0 (sweeps demoCfg 40)) 1 (sweeps demoCfg n)

theorem demoFrames_reach (n : Nat) : demoVideo.Reach 2 (demoFrames n) := by
  have h0 : demoVideo.Reach 2 (upd (fun _ => .init demoCfg) 0 (sweeps demoCfg 40)) := by
    refine sweeps_kept (P := fun s => demoVideo.Reach 2 (upd (fun _ => .init demoCfg) 0 s)) (fun s s' h hs => ?_) ?_ rfl 40
    · have h1 : demoVideo.rd (upd (fun _ => .init demoCfg) 0 s) 0 = fun _ _ _ => True := by
        funext p i y; simp [Video.rd, demoVideo]
      have h2 : demoVideo.bad (upd (fun _ => .init demoCfg) 0 s) 0 = fun _ _ _ => False := by
        funext p i y; simp [Video.bad, demoVideo]
      have h3 := Video.Reach.step h (.frame (f := 0) (s' := s') (by omega) (fun _ => trivial) (by rw [h1, h2, upd_same]; exact hs))
      have h4 : upd (upd (fun _ => St.init demoCfg) 0 s) 0 s' = upd (fun _ => .init demoCfg) 0 s' := by
        funext j; unfold upd; split <;> rfl
      rwa [h4] at h3
    · have h4 : upd (fun _ => St.init demoCfg) 0 (.init demoCfg) = fun _ => .init demoCfg := by
        funext j; unfold upd; split <;> rfl
      rw [h4]; exact .init
  have hp0 : (sweeps demoCfg 40).pub0 = UINT_MAX := by decide +kernel
  have hp1 : (sweeps demoCfg 40).pub1 = UINT_MAX := by decide +kernel
  have hp : ∀ p, pubOf (sweeps demoCfg 40) p = UINT_MAX := by intro p; cases p <;> simp [pubOf, hp0, hp1]
  unfold demoFrames
  generalize sweeps demoCfg 40 = t at *
  refine sweeps_kept (P := fun s => demoVideo.Reach 2 (upd (upd (fun _ => .init demoCfg) 0 t) 1 s)) (fun s s' h hs => ?_) ?_ rfl n
  · have h1 : demoVideo.rd (upd (upd (fun _ => .init demoCfg) 0 t) 1 s) 1 = fun _ _ _ => True := by
      funext p i y
      simp only [eq_iff_iff, iff_true]
      intro r hr m hm
      have : r = 0 := by have := demoVideoOk.refs 1 r hr; omega
      subst this
      rw [upd_ne _ _ (by omega), upd_same, hp]
      exact ⟨demoVideoOk.need _ _ _ _ _ _ hm, by unfold UINT_MAX FRAME_ERROR; omega⟩
    have h2 : demoVideo.bad (upd (upd (fun _ => .init demoCfg) 0 t) 1 s) 1 = fun _ _ _ => False := by
      funext p i y
      simp only [eq_iff_iff, iff_false]
      rintro ⟨r, hr, m, hm, he⟩
      have : r = 0 := by have := demoVideoOk.refs 1 r hr; omega
      subst this
      rw [upd_ne _ _ (by omega), upd_same, hp] at he
      revert he; unfold UINT_MAX FRAME_ERROR; omega
    have h3 := Video.Reach.step h (.frame (f := 1) (s' := s') (by omega) (fun _ => trivial) (by rw [h1, h2, upd_same]; exact hs))
    have h4 : upd (upd (upd (fun _ => St.init demoCfg) 0 t) 1 s) 1 s' = upd (upd (fun _ => .init demoCfg) 0 t) 1 s' := by
      funext j; unfold upd; repeat' split <;> first | rfl | contradiction
    rwa [h4] at h3
  · have h4 : upd (upd (fun _ => St.init demoCfg) 0 t) 1 (.init demoCfg) = upd (fun _ => .init demoCfg) 0 t := by
      funext j
      by_cases h : j = 1
      · subst h; rfl
      · rw [upd_ne _ _ h]
    rw [h4]; exact h0

/-- The second frame reconstructs its last row, which needs the last row of the first frame. -/
example : ∃ S, demoVideo.Reach 2 S ∧ .start (.tile false 3 2) ∈ (S 1).log ∧ .start (.filt .cdef 2) ∉ (S 1).log ∧ demoVideo.need 1 0 false 3 2 = some 192 ∧ 0 ∈ demoVideo.refs 1 :=
  ⟨demoFrames 14, demoFrames_reach 14, by decide +kernel, by decide +kernel, rfl, by decide⟩

/-- There are executions of both frames to the end. -/
example : demoVideo.Reach 2 (demoFrames 40) ∧ (demoFrames 40 0).log.head? = some (.exit false) ∧ (demoFrames 40 1).log.head? = some (.exit false) :=
  ⟨demoFrames_reach 40, by decide +kernel, by decide +kernel⟩

end Dav1d.Sched
