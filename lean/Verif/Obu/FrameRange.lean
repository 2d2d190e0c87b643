import Verif.Obu.FrameLemmas
/-!
# Ranges of the remaining header parts
-/
namespace Dav1d

namespace Prog

theorem wfp_subexpLoop (n : Nat) (h32 : n < 2 ^ 31) (k : Nat) : ∀ mk i, n - mk = k → mk < n →
    WFP (subexpLoop n mk i) (fun v => v ≤ n) := by
  induction k using Nat.strong_induction_on with
  | _ k ih =>
    intro mk i hk h
    have hp := Nat.two_pow_pos (subexpB i)
    rw [subexpLoop]
    split
    · exact (wfp_getUniform (by omega) (by omega)).bind (fun u hu => WFP.ret (by omega))
    · rename_i hc
      refine wfp_getBit.bind (fun v _ => ?_)
      split
      · have : subexpB i < 31 := by
          by_contra hcc
          have : 2 ^ 31 ≤ 2 ^ subexpB i := Nat.pow_le_pow_right (by omega) (by omega)
          omega
        have : 0 < subexpB i := by unfold subexpB; split <;> omega
        exact (wfp_getBits (by omega) (by omega)).bind (fun u hu => WFP.ret (by omega))
      · exact ih (n - (mk + 2 ^ subexpB i)) (by omega) _ _ rfl (by omega)

theorem wfp_getSubexp (ref : Int) {n : Nat} (hn : n < 30) :
    WFP (getSubexp ref n) (fun v => -(2 ^ n) ≤ v ∧ v ≤ 2 ^ n) := by
  unfold getSubexp getSubexpU
  have h1 : 2 ^ n ≤ 2 ^ 29 := Nat.pow_le_pow_right (by omega) (by omega)
  have h2 := Nat.two_pow_pos n
  refine WFP.bind (P := fun v => v ≤ 2 * 2 ^ n) (WFP.bind (wfp_subexpLoop _ (by omega) _ _ _ rfl (by omega)) (fun v hv => WFP.ret ?_))
    (fun v hv => WFP.ret ?_)
  · split
    · exact invRecenter_le hv (by assumption)
    · omega
  · have : ((2 ^ n : Nat) : Int) = (2:Int) ^ n := by norm_cast
    omega

end Prog
open HProg

theorem post_replicateM {α : Type} {p : HProg α} {Q : α → Prop} (h : Post p Q) : ∀ n,
    Post (replicateM' p n) (fun l => l.length = n ∧ ∀ a ∈ l, Q a)
  | 0 => Post.pure ⟨rfl, fun _ h => by cases h⟩
  | n + 1 => by
    unfold replicateM'
    refine Post.bind h (fun a ha => Post.bind (post_replicateM h n) (fun l hl => Post.pure ?_))
    refine ⟨by simp [hl.1], fun b hb => ?_⟩
    rcases List.mem_cons.1 hb with rfl | hb
    · exact ha
    · exact hl.2 b hb

/-! ## First part -/

theorem legal_bufferRemoval {c : FhCtx} (h : 1 ≤ c.seq.timing.bufferRemovalDelayLength ∧
    c.seq.timing.bufferRemovalDelayLength ≤ 32) : ∀ l, Legal (readBufferRemoval c l)
  | [] => Legal.pure
  | op :: l => by
    unfold readBufferRemoval
    exact Legal.bind (Legal.opt (Legal.f (by omega) h.2)) (fun _ => Legal.bind (legal_bufferRemoval h l) (fun _ => Legal.pure))

theorem legal_presentationDelay {c : FhCtx} (hq : SeqOk c.seq) : Legal (readPresentationDelay c) := by
  unfold readPresentationDelay
  exact Legal.opt' (fun h => Legal.f (by have := hq.dm h.1; omega) (by have := hq.dm h.1; omega))

/-- Facts about the first part of the header. -/
structure BaseOk (c : FhCtx) (b : FhBase) : Prop where
  frameType : b.frameType ≤ 3
  offset : b.frameOffset ≤ 255
  offset0 : c.seq.tools.orderHint = false → b.frameOffset = 0
  offsetN : c.seq.tools.orderHint = true → b.frameOffset < 2 ^ c.seq.tools.orderHintNBits
  primary : b.primaryRefFrame ≤ 7
  primaryNone : b.primaryRefFrame ≠ PRIMARY_REF_NONE → isInterOrSwitch b.frameType = true
  frameId : b.frameId < 2 ^ 25

theorem post_base {c : FhCtx} (hq : SeqOk c.seq) : Post (parseFhBase c) (BaseOk c) := by
  unfold parseFhBase
  refine Post.bind (P := fun t => t ≤ 3) (Post.opt (fun _ => (post_f (by omega) (by omega)).mono (fun a h => by omega)) (fun _ => by omega)) (fun t ht => ?_)
  refine Post.bind (Legal.opt post_flag) (fun sf _ => ?_)
  refine Post.bind (Legal.opt (legal_presentationDelay hq)) (fun _ _ => ?_)
  refine Post.bind (Legal.opt post_flag) (fun _ _ => ?_)
  refine Post.bind (Legal.opt post_flag) (fun err _ => ?_)
  refine Post.bind post_flag (fun _ _ => ?_)
  refine Post.bind (Legal.opt post_flag) (fun _ _ => ?_)
  refine Post.bind (Legal.opt post_flag) (fun _ _ => ?_)
  refine Post.bind (P := fun v => v < 2 ^ 25) (Post.opt (fun h => ?_) (fun _ => by omega)) (fun id hid => ?_)
  · have := hq.ids h
    refine (post_f (by omega) (by omega)).mono (fun a ha => lt_of_lt_of_le ha ?_)
    exact Nat.pow_le_pow_right (by omega) (by omega)
  refine Post.bind (Legal.opt post_flag) (fun _ _ => ?_)
  refine Post.bind (P := fun v => v ≤ 255 ∧ (c.seq.tools.orderHint = false → v = 0) ∧
    (c.seq.tools.orderHint = true → v < 2 ^ c.seq.tools.orderHintNBits)) (Post.opt (fun h => ?_) (fun h => ⟨by omega, fun _ => rfl, fun h' => absurd h' h⟩)) (fun off hoff => ?_)
  · have := hq.oh h
    refine (post_f (by omega) (by omega)).mono (fun a ha => ⟨?_, fun h' => by simp [h] at h', fun _ => ha⟩)
    have : 2 ^ c.seq.tools.orderHintNBits ≤ 2 ^ 8 := Nat.pow_le_pow_right (by omega) (by omega)
    omega
  refine Post.bind (P := fun v => v ≤ 7 ∧ (v ≠ PRIMARY_REF_NONE → isInterOrSwitch t = true))
    (Post.opt (fun h => (post_f (by omega) (by omega)).mono (fun a ha => ⟨by omega, fun _ => h.2⟩))
      (fun _ => ⟨le_refl _, fun h => absurd rfl h⟩)) (fun prim hprim => ?_)
  refine Post.bind (P := fun v => v = true → c.seq.timing.decoderModelInfoPresent = true)
    (Post.opt (fun h => post_flag.mono (fun _ _ _ => h)) (fun _ h => by cases h)) (fun brp hbrp => ?_)
  refine Post.bind (Legal.opt' (fun h => legal_bufferRemoval ⟨(hq.dm (hbrp h)).1, (hq.dm (hbrp h)).2.1⟩ _)) (fun _ _ => ?_)
  exact Post.pure ⟨ht, hoff.1, hoff.2.1, hoff.2.2, hprim.1, hprim.2, hid⟩

/-! ## References -/

theorem legal_skipHints {c : FhCtx} (hq : SeqOk c.seq) (b : Bool) (hb : b = true → c.seq.tools.orderHint = true) :
    Legal (skipOrderHints c b) := by
  unfold skipOrderHints
  refine Legal.bind (Legal.opt' (fun h => ?_)) (fun _ => Legal.pure)
  have := hq.oh (hb h)
  exact Legal.of (post_replicateM (post_f (by omega) (by omega)) 8)

/-- Order hint of slot `i` shifted so that the current frame is at `2 ^ (n - 1)`. -/
def shiftedHint (c : FhCtx) (frameOffset : Nat) (i : Nat) : Int :=
  2 ^ (c.seq.tools.orderHintNBits - 1) + relDist c.seq.tools.orderHintNBits
    (((c.refs i).map (fun h => (h.base.frameOffset : Int))).getD 0) frameOffset

theorem shiftedHint_bounds {c : FhCtx} (h1 : 1 ≤ c.seq.tools.orderHintNBits) (h8 : c.seq.tools.orderHintNBits ≤ 8)
    (off : Nat) (i : Nat) : 0 ≤ shiftedHint c off i ∧ shiftedHint c off i < INT_MAX := by
  have hp : (2:Int) ^ (c.seq.tools.orderHintNBits - 1) ≤ 2 ^ 7 :=
    pow_le_pow_right₀ (by norm_num) (by omega)
  obtain ⟨_, a, b⟩ := relDist_spec h1 (((c.refs i).map (fun h => (h.base.frameOffset : Int))).getD 0) off
  unfold shiftedHint INT_MAX
  generalize relDist _ _ _ = z at a b ⊢
  generalize (2:Int) ^ (c.seq.tools.orderHintNBits - 1) = y at *
  omega

theorem post_shortRefs {c : FhCtx} (h1 : 1 ≤ c.seq.tools.orderHintNBits) (h8 : c.seq.tools.orderHintNBits ≤ 8)
    (off : Nat) : Post (parseShortRefs c off) (fun l => (∀ i, i < 8 → (c.refs i).isSome) ∧ ∃ last gold r, last < 8 ∧ gold < 8 ∧
      SetFrameRefs (shiftedHint c off) (2 ^ (c.seq.tools.orderHintNBits - 1)) last gold r ∧
      l = (List.range 7).map r) := by
  unfold parseShortRefs
  refine Post.bind (post_f (by omega) (by omega)) (fun last hl => ?_)
  refine Post.bind (post_f (by omega) (by omega)) (fun gold hg => ?_)
  refine Post.bind Post.reject (fun _ hrej => Post.pure ⟨?_, ?_⟩)
  · intro i hi
    simp only [List.any_eq_true, List.mem_range, not_exists, not_and] at hrej
    have := hrej i hi
    cases hc : c.refs i with
    | none => simp [hc] at this
    | some _ => rfl
  simp only [getPocDiff_relDist h1 (by omega : c.seq.tools.orderHintNBits ≤ 31)]
  have hb := shiftedHint_bounds (c := c) h1 h8 off
  obtain ⟨r, hr, he⟩ := shortRefs_spec (shiftedHint c off) (2 ^ (c.seq.tools.orderHintNBits - 1)) last gold
    (fun i => (hb i).1) (fun i => (hb i).2)
  refine ⟨last, gold, r, by omega, by omega, hr, ?_⟩
  apply List.map_congr_left
  intro i hi
  have := he i (List.mem_range.1 hi)
  show (shortRefs (shiftedHint c off) _ last gold i).toNat = r i
  rw [this]; rfl

theorem post_readRef {c : FhCtx} (hq : SeqOk c.seq) (id : Nat) (s : Option Nat) (hs : ∀ r, s = some r → r < 8) :
    Post (readRef c id s) (fun r => r < 8 ∧ ∀ x, s = some x → r = x) := by
  unfold readRef
  refine Post.bind (P := fun r => r < 8 ∧ ∀ x, s = some x → r = x) ?_ (fun r hr => ?_)
  · cases s with
    | none => exact (post_f (by omega) (by omega)).mono (fun a h => ⟨by omega, fun _ h => by cases h⟩)
    | some x => exact Post.pure ⟨hs x rfl, fun y h => by cases h; rfl⟩
  refine Post.ite (fun h => ?_) (fun _ => Post.pure hr)
  have := hq.ids h
  refine Post.bind (post_f (by omega) (by omega)) (fun d _ => ?_)
  dsimp only
  split
  · exact Post.fail
  · exact Post.bind Post.reject (fun _ _ => Post.pure hr)

theorem post_readRefs {c : FhCtx} (hq : SeqOk c.seq) (id : Nat) : ∀ (l : List (Option Nat)), (∀ s ∈ l, ∀ r, s = some r → r < 8) →
    Post (readRefs c id l) (fun rs => rs.length = l.length ∧ (∀ r ∈ rs, r < 8) ∧ ∀ xs : List Nat, l = xs.map some → rs = xs)
  | [], _ => Post.pure ⟨rfl, fun _ h => (by cases h), fun xs h => by cases xs with | nil => rfl | cons _ _ => cases h⟩
  | s :: l, hs => by
    unfold readRefs
    refine Post.bind (post_readRef hq id s (hs s (by simp))) (fun r hr => ?_)
    refine Post.bind (post_readRefs hq id l (fun s' h => hs s' (List.mem_cons_of_mem _ h))) (fun rs hrs => Post.pure ?_)
    refine ⟨by simp [hrs.1], fun x hx => ?_, fun xs h => ?_⟩
    · rcases List.mem_cons.1 hx with rfl | hx
      · exact hr.1
      · exact hrs.2.1 x hx
    · cases xs with
      | nil => cases h
      | cons x xs =>
        rw [List.map_cons] at h
        injection h with h1 h2
        rw [hr.2 x h1, hrs.2.2 xs h2]

/-- What is known after the frame type dependent part. -/
structure RefsOk (c : FhCtx) (b : FhBase) (r : FhRefs) : Prop where
  size : SizeOk r.size
  refresh : r.refreshFrameFlags ≤ 255
  refidx : ∀ i ∈ r.refidx, i < 8
  count : r.refidx.length = if b.frameType % 2 = 1 then 7 else 0
  filter : r.subpelFilterMode ≤ 4
  short : r.shortSignaling = true → c.seq.tools.orderHint = true ∧ (∀ i, i < 8 → (c.refs i).isSome) ∧ ∃ last gold rr, last < 8 ∧ gold < 8 ∧
      SetFrameRefs (shiftedHint c b.frameOffset) (2 ^ (c.seq.tools.orderHintNBits - 1)) last gold rr ∧
      r.refidx = (List.range 7).map rr

theorem post_intraRefs {c : FhCtx} {b : FhBase} (hq : SeqOk c.seq) (hr : ∀ i h, c.refs i = some h → SizeOk h.refs.size)
    (ht : isKeyOrIntra b.frameType = true) : Post (parseIntraRefs c b) (RefsOk c b) := by
  unfold parseIntraRefs
  refine Post.bind (P := fun v => v ≤ 255) (Post.opt (fun _ => (post_f (by omega) (by omega)).mono (fun a h => by omega)) (fun _ => by omega)) (fun fl hfl => ?_)
  refine Post.bind (legal_skipHints hq _ (fun h => by simp only [Bool.and_eq_true] at h; exact h.2)) (fun _ _ => ?_)
  refine Post.bind Legal.reject (fun _ _ => ?_)
  refine Post.bind (post_frameSize hq hr _ _ _) (fun z hz => ?_)
  refine Post.bind (Legal.opt post_flag) (fun ibc _ => Post.pure ?_)
  refine ⟨hz, hfl, fun _ h => by simp at h, ?_, by simp, fun h => by simp at h⟩
  unfold isKeyOrIntra isInterOrSwitch at ht
  simp at ht
  simp [ht]

theorem post_interRefs {c : FhCtx} {b : FhBase} (hq : SeqOk c.seq) (hr : ∀ i h, c.refs i = some h → SizeOk h.refs.size)
    (ht : isInterOrSwitch b.frameType = true) : Post (parseInterRefs c b) (RefsOk c b) := by
  unfold parseInterRefs
  refine Post.bind (P := fun v => v ≤ 255) (Post.opt (fun _ => (post_f (by omega) (by omega)).mono (fun a h => by omega)) (fun _ => by omega)) (fun fl hfl => ?_)
  refine Post.bind (legal_skipHints hq _ (fun h => by simp only [Bool.and_eq_true] at h; exact h.2)) (fun _ _ => ?_)
  refine Post.bind (P := fun v => v = true → c.seq.tools.orderHint = true)
    (Post.opt (fun h => post_flag.mono (fun _ _ _ => h)) (fun _ h => by cases h)) (fun short hshort => ?_)
  refine Post.bind (P := fun l : List (Option Nat) => l.length = 7 ∧ (∀ s ∈ l, ∀ r, s = some r → r < 8) ∧ (short = true → (∀ i, i < 8 → (c.refs i).isSome) ∧
      ∃ last gold rr, last < 8 ∧ gold < 8 ∧
      SetFrameRefs (shiftedHint c b.frameOffset) (2 ^ (c.seq.tools.orderHintNBits - 1)) last gold rr ∧
      l = ((List.range 7).map rr).map some)) (Post.opt (fun h => ?_) (fun h => ?_)) (fun sr hsr => ?_)
  · have := hq.oh (hshort h)
    refine Post.bind (post_shortRefs this.1 this.2 _) (fun l hl => Post.pure ?_)
    obtain ⟨hall, last, gold, rr, h1, h2, h3, rfl⟩ := hl
    refine ⟨by simp, fun s hs r hsr => ?_, fun _ => ⟨hall, last, gold, rr, h1, h2, h3, rfl⟩⟩
    subst hsr
    simp only [List.map_map, List.mem_map, List.mem_range, Function.comp, Option.some.injEq] at hs
    obtain ⟨k, hk, rfl⟩ := hs
    exact (h3.props h1 h2).2.2 k hk
  · exact ⟨by simp, fun s hs r e => (by rw [List.mem_replicate] at hs; rw [hs.2] at e; cases e), fun h' => absurd h' h⟩
  refine Post.bind (post_readRefs hq b.frameId sr hsr.2.1) (fun rs hrs => ?_)
  refine Post.bind (post_frameSize hq hr _ _ _) (fun z hz => ?_)
  refine Post.bind (Legal.opt post_flag) (fun _ _ => ?_)
  refine Post.bind post_flag (fun _ _ => ?_)
  refine Post.bind (P := fun v => v ≤ 4) (Post.opt (fun _ => (post_f (by omega) (by omega)).mono (fun a h => by omega)) (fun _ => le_refl _)) (fun fi hfi => ?_)
  refine Post.bind post_flag (fun _ _ => ?_)
  refine Post.bind (Legal.opt post_flag) (fun _ _ => Post.pure ?_)
  refine ⟨hz, hfl, hrs.2.1, ?_, hfi, fun h => ?_⟩
  · unfold isInterOrSwitch at ht
    simp only [decide_eq_true_eq] at ht
    simp only [ht, if_true, hrs.1, hsr.1]
  · obtain ⟨hall, last, gold, rr, h1, h2, h3, h4⟩ := hsr.2.2 h
    exact ⟨hshort h, hall, last, gold, rr, h1, h2, h3, hrs.2.2 _ h4⟩

/-! ## Quantizer, segmentation, deltas -/

theorem post_delta7 {d : Int} (hd : InSigned 6 d) : Post (readDelta 7 d) (InSigned 6) := by
  unfold readDelta
  exact Post.bind post_flag (fun _ _ => Post.opt (fun _ => post_su (by omega) (by omega)) (fun _ => hd))

theorem inSigned_zero (n : Nat) : InSigned n 0 := by
  have : (0:Int) < 2 ^ n := by positivity
  unfold InSigned; omega

theorem post_quant (c : FhCtx) : Post (parseQuant c) (fun q => q.yac ≤ 255 ∧ InSigned 6 q.ydcDelta ∧ InSigned 6 q.udcDelta ∧
    InSigned 6 q.uacDelta ∧ InSigned 6 q.vdcDelta ∧ InSigned 6 q.vacDelta ∧
    q.qmY ≤ 15 ∧ q.qmU ≤ 15 ∧ q.qmV ≤ 15) := by
  unfold parseQuant
  have f4 : ∀ (cnd : Prop) [Decidable cnd] (d : Nat), d ≤ 15 → Post (opt cnd (f 4) d) (fun v => v ≤ 15) := fun _ _ d hd =>
    Post.opt (fun _ => (post_f (by omega) (by omega)).mono (fun a h => by omega)) (fun _ => hd)
  have dl : ∀ (cnd : Prop) [Decidable cnd] (d : Int), InSigned 6 d → Post (opt cnd (readDelta 7 0) d) (InSigned 6) := fun _ _ d hd =>
    Post.opt (fun _ => post_delta7 (inSigned_zero 6)) (fun _ => hd)
  refine Post.bind (post_f (by omega) (by omega)) (fun yac hyac => ?_)
  refine Post.bind (post_delta7 (inSigned_zero 6)) (fun ydc hydc => ?_)
  refine Post.bind (Legal.opt post_flag) (fun _ _ => ?_)
  refine Post.bind (dl _ _ (inSigned_zero 6)) (fun a ha => ?_)
  refine Post.bind (dl _ _ (inSigned_zero 6)) (fun b hb => ?_)
  refine Post.bind (dl _ _ ha) (fun a' ha' => ?_)
  refine Post.bind (dl _ _ hb) (fun b' hb' => ?_)
  refine Post.bind post_flag (fun _ _ => ?_)
  refine Post.bind (f4 _ _ (by omega)) (fun y hy => ?_)
  refine Post.bind (f4 _ _ (by omega)) (fun u hu => ?_)
  refine Post.bind (f4 _ _ hu) (fun v hv => ?_)
  exact Post.pure ⟨by simp only; omega, hydc, ha, hb, ha', hb', hy, hu, hv⟩

/-- Ranges of one segment. -/
def SegDataOk (d : SegData) : Prop := InSigned 8 d.deltaQ ∧ InSigned 6 d.deltaLfYV ∧ InSigned 6 d.deltaLfYH ∧
    InSigned 6 d.deltaLfU ∧ InSigned 6 d.deltaLfV ∧ -1 ≤ d.ref ∧ d.ref ≤ 7

theorem post_segment : Post readSegmentA (fun s => SegDataOk s.1) := by
  unfold readSegmentA
  have su' : ∀ (n m : Nat) (cnd : Prop) [Decidable cnd], m = n + 1 → n < 32 → Post (opt cnd (su m) 0) (InSigned n) := fun n m _ _ e h =>
    Post.opt (fun _ => by subst e; exact post_su (by omega) (by omega)) (fun _ => inSigned_zero n)
  refine Post.bind post_flag (fun _ _ => Post.bind (su' 8 9 _ rfl (by omega)) (fun _ h1 => ?_))
  refine Post.bind post_flag (fun _ _ => Post.bind (su' 6 7 _ rfl (by omega)) (fun _ h2 => ?_))
  refine Post.bind post_flag (fun _ _ => Post.bind (su' 6 7 _ rfl (by omega)) (fun _ h3 => ?_))
  refine Post.bind post_flag (fun _ _ => Post.bind (su' 6 7 _ rfl (by omega)) (fun _ h4 => ?_))
  refine Post.bind post_flag (fun _ _ => Post.bind (su' 6 7 _ rfl (by omega)) (fun _ h5 => ?_))
  refine Post.bind post_flag (fun _ _ => Post.bind (P := fun r : Int => -1 ≤ r ∧ r ≤ 7) (Post.opt (fun _ => ?_) (fun _ => by omega)) (fun _ h6 => ?_))
  · exact Post.bind (post_f (by omega) (by omega)) (fun _ _ => Post.pure (by omega))
  refine Post.bind post_flag (fun _ _ => Post.bind post_flag (fun _ _ => Post.pure ?_))
  exact ⟨h1, h2, h3, h4, h5, h6⟩

theorem lastActive_range : ∀ (l : List Bool) (i : Nat) (d : Int), -1 ≤ d → d < i →
    -1 ≤ lastActive l i d ∧ lastActive l i d < i + l.length
  | [], i, d, h1, h2 => by simp [lastActive]; omega
  | b :: l, i, d, h1, h2 => by
    unfold lastActive
    have := lastActive_range l (i + 1) (if b then (i : Int) else d) (by split <;> omega) (by split <;> push_cast <;> omega)
    rw [List.length_cons]
    push_cast at this ⊢
    omega

theorem post_segData : Post parseSegData SegOk := by
  unfold parseSegData
  refine Post.bind (post_replicateM post_segment 8) (fun l hl => Post.pure ⟨by simp [hl.1], fun d hd => ?_, ?_⟩)
  · obtain ⟨x, hx, rfl⟩ := List.mem_map.1 hd
    exact hl.2 x hx
  · have := lastActive_range (l.map (·.2)) 0 (-1) (by omega) (by omega)
    rw [List.length_map, hl.1] at this
    simp only
    push_cast at this
    omega

theorem post_primaryRef {c : FhCtx} {Q : FrameHdr → Prop} (hr : ∀ i h, c.refs i = some h → Q h) (b : FhBase) (l : List Nat) :
    Post (primaryRef c b l) Q := by
  unfold primaryRef
  split
  · exact Post.fail
  · rename_i h he; exact Post.pure (hr _ _ he)

theorem post_segmentation {c : FhCtx} (hr : ∀ i h, c.refs i = some h → FrameOk h) (b : FhBase) (l : List Nat) :
    Post (parseSegmentation c b l) (fun s => SegOk s.data) := by
  unfold parseSegmentation
  refine Post.bind post_flag (fun en _ => Post.ite (fun _ => ?_) (fun _ => Post.pure ?_))
  · refine Post.bind (Legal.opt post_flag) (fun _ _ => ?_)
    refine Post.bind (Legal.opt post_flag) (fun _ _ => ?_)
    refine Post.bind (Legal.opt post_flag) (fun u _ => ?_)
    refine Post.bind (P := SegOk) (Post.ite (fun _ => post_segData) (fun _ => ?_)) (fun d hd => Post.pure hd)
    exact Post.bind (post_primaryRef hr b l) (fun h hh => Post.pure hh.seg)
  · refine ⟨by simp, fun d hd => ?_, by simp⟩
    rw [List.mem_replicate] at hd
    rw [hd.2]
    exact ⟨inSigned_zero _, inSigned_zero _, inSigned_zero _, inSigned_zero _, inSigned_zero _, by simp, by simp⟩

theorem post_parseDelta (y : Nat) (i : Bool) : Post (parseDelta y i) (fun d => d.qResLog2 ≤ 3 ∧ d.lfResLog2 ≤ 3) := by
  unfold parseDelta
  have f2 : ∀ (cnd : Prop) [Decidable cnd], Post (opt cnd (f 2) 0) (fun v => v ≤ 3) := fun _ _ =>
    Post.opt (fun _ => (post_f (by omega) (by omega)).mono (fun a h => by omega)) (fun _ => by omega)
  refine Post.bind (Legal.opt post_flag) (fun _ _ => Post.bind (f2 _) (fun _ h1 => ?_))
  refine Post.bind (Legal.opt post_flag) (fun _ _ => Post.bind (f2 _) (fun _ h2 => ?_))
  exact Post.bind (Legal.opt post_flag) (fun _ _ => Post.pure ⟨h1, h2⟩)

theorem iclipU8_le (v : Int) : iclipU8 v ≤ 255 := by
  unfold iclipU8; split
  · simp
  · split <;> omega

theorem deriveQidx_ok {q : Quant} {s : Segmentation} (hq : q.yac ≤ 255) (hs : SegOk s.data) :
    (deriveQidx q s).length = 8 ∧ ∀ x ∈ deriveQidx q s, x ≤ 255 := by
  unfold deriveQidx
  refine ⟨by simp [hs.count], fun x hx => ?_⟩
  obtain ⟨d, _, rfl⟩ := List.mem_map.1 hx
  split
  · exact iclipU8_le _
  · exact hq

/-! ## Filters -/

theorem post_readDeltas : ∀ l : List Int, (∀ d ∈ l, InSigned 6 d) →
    Post (readDeltas l) (fun r => r.length = l.length ∧ ∀ d ∈ r, InSigned 6 d)
  | [], _ => Post.pure ⟨rfl, fun _ h => by cases h⟩
  | d :: l, h => by
    unfold readDeltas
    refine Post.bind (post_delta7 (h d (by simp))) (fun x hx => ?_)
    refine Post.bind (post_readDeltas l (fun y hy => h y (List.mem_cons_of_mem _ hy))) (fun r hr => Post.pure ⟨by simp [hr.1], fun y hy => ?_⟩)
    rcases List.mem_cons.1 hy with rfl | hy
    · exact hx
    · exact hr.2 y hy

theorem defaultLfDeltas_ok : LfDeltasOk defaultLfDeltas :=
  ⟨by decide, by unfold InSigned; decide, by unfold InSigned; decide⟩

theorem post_loopFilter {c : FhCtx} (hr : ∀ i h, c.refs i = some h → FrameOk h) (b : FhBase) (l : List Nat) (al ibc : Bool) :
    Post (parseLoopFilter c b l al ibc) (fun lf => (lf.levelY0 ≤ 63 ∧ lf.levelY1 ≤ 63 ∧ lf.levelU ≤ 63 ∧ lf.levelV ≤ 63 ∧
      lf.sharpness ≤ 7) ∧ LfDeltasOk lf.deltas) := by
  unfold parseLoopFilter
  refine Post.ite (fun _ => Post.pure ⟨by simp, defaultLfDeltas_ok⟩) (fun _ => ?_)
  have f6 : ∀ (cnd : Prop) [Decidable cnd], Post (opt cnd (f 6) 0) (fun v => v ≤ 63) := fun _ _ =>
    Post.opt (fun _ => (post_f (by omega) (by omega)).mono (fun a h => by omega)) (fun _ => by omega)
  refine Post.bind (post_f (by omega) (by omega)) (fun y0 h0 => ?_)
  refine Post.bind (post_f (by omega) (by omega)) (fun y1 h1 => ?_)
  refine Post.bind (f6 _) (fun u hu => Post.bind (f6 _) (fun v hv => ?_))
  refine Post.bind (post_f (by omega) (by omega)) (fun sh hsh => ?_)
  refine Post.bind (P := LfDeltasOk) (Post.opt (fun _ => ?_) (fun _ => defaultLfDeltas_ok)) (fun d hd => ?_)
  · exact Post.bind (post_primaryRef hr b l) (fun h hh => Post.pure hh.lfDeltas)
  refine Post.bind post_flag (fun _ _ => Post.bind (Legal.opt post_flag) (fun _ _ => ?_))
  refine Post.bind (P := fun r : List Int => r.length = 8 ∧ ∀ x ∈ r, InSigned 6 x) (Post.opt (fun _ => ?_) (fun _ => ⟨hd.counts.2, hd.ranges.2⟩)) (fun r hr' => ?_)
  · exact (post_readDeltas _ hd.ranges.2).mono (fun r h => ⟨h.1.trans hd.counts.2, h.2⟩)
  refine Post.bind (P := fun r : List Int => r.length = 2 ∧ ∀ x ∈ r, InSigned 6 x) (Post.opt (fun _ => ?_) (fun _ => ⟨hd.counts.1, hd.ranges.1⟩)) (fun m hm => ?_)
  · exact (post_readDeltas _ hd.ranges.1).mono (fun r h => ⟨h.1.trans hd.counts.1, h.2⟩)
  exact Post.pure ⟨by simp only; omega, ⟨⟨hm.1, hr'.1⟩, hm.2, hr'.2⟩⟩

theorem post_cdef (c : FhCtx) (al ibc : Bool) : Post (parseCdef c al ibc) (fun h => h.damping ≤ 6 ∧ h.nBits ≤ 3 ∧
    h.yStrength.length = 2 ^ h.nBits ∧ h.uvStrength.length = 2 ^ h.nBits ∧ (∀ v ∈ h.yStrength, v ≤ 63) ∧
    ∀ v ∈ h.uvStrength, v ≤ 63) := by
  unfold parseCdef
  refine Post.ite (fun _ => ?_) (fun _ => Post.pure (by simp))
  refine Post.bind (post_f (by omega) (by omega)) (fun d hd => ?_)
  refine Post.bind (post_f (by omega) (by omega)) (fun n hn => ?_)
  have hs : Post (readCdefStrength c.seq.color.monochrome) (fun p => p.1 ≤ 63 ∧ p.2 ≤ 63) := by
    unfold readCdefStrength
    refine Post.bind (post_f (by omega) (by omega)) (fun y hy => ?_)
    refine Post.bind (P := fun v => v ≤ 63) (Post.opt (fun _ => (post_f (by omega) (by omega)).mono (fun a h => by omega)) (fun _ => by omega)) (fun u hu => Post.pure ⟨by simp only; omega, hu⟩)
  refine Post.bind (post_replicateM hs _) (fun l hl => Post.pure ?_)
  refine ⟨by simp only; omega, by simp only; omega, by simp [hl.1], by simp [hl.1], fun v hv => ?_, fun v hv => ?_⟩
  · obtain ⟨x, hx, rfl⟩ := List.mem_map.1 hv; exact (hl.2 x hx).1
  · obtain ⟨x, hx, rfl⟩ := List.mem_map.1 hv; exact (hl.2 x hx).2

theorem post_restoration (c : FhCtx) (al sr ibc : Bool) : Post (parseRestoration c al sr ibc) (fun h => h.type0 ≤ 3 ∧ h.type1 ≤ 3 ∧ h.type2 ≤ 3 ∧
    (h.type0 ≠ 0 ∨ h.type1 ≠ 0 ∨ h.type2 ≠ 0 →
      6 ≤ h.unitSize0 ∧ h.unitSize0 ≤ 8 ∧ 5 ≤ h.unitSize1 ∧ h.unitSize1 ≤ h.unitSize0)) := by
  unfold parseRestoration
  refine Post.ite (fun _ => ?_) (fun _ => Post.pure (by simp))
  have f2 : ∀ (cnd : Prop) [Decidable cnd], Post (opt cnd (f 2) 0) (fun v => v ≤ 3) := fun _ _ =>
    Post.opt (fun _ => (post_f (by omega) (by omega)).mono (fun a h => by omega)) (fun _ => by omega)
  refine Post.bind (post_f (by omega) (by omega)) (fun t0 h0 => ?_)
  refine Post.bind (f2 _) (fun t1 h1 => Post.bind (f2 _) (fun t2 h2 => ?_))
  refine Post.ite (fun _ => ?_) (fun hn => Post.pure ⟨by simp only; omega, h1, h2, fun h => absurd h hn⟩)
  refine Post.bind post_bit (fun b1 hb1 => ?_)
  refine Post.bind (P := fun v => v < 2 ∧ (v ≠ 0 → c.seq.tools.sb128 = false)) (Post.opt (fun h => post_bit.mono (fun a ha => ⟨ha, fun _ => by simpa using h.2⟩)) (fun _ => by simp)) (fun b2 hb2 => ?_)
  refine Post.bind (P := fun v => v < 2) (Post.opt (fun _ => post_bit) (fun _ => by omega)) (fun b3 hb3 => ?_)
  have : c.seq.tools.sb128.toNat + b2 ≤ 1 := by
    cases hb : c.seq.tools.sb128
    · simp; omega
    · have : b2 = 0 := by
        by_contra h; have := hb2.2 h; rw [hb] at this; cases this
      simp [this]
  exact Post.pure ⟨by simp only; omega, h1, h2, fun _ => by simp only; omega⟩

/-! ## Skip mode -/

/-- Order hint of the frame used as reference `i`. -/
def refHint (c : FhCtx) (refidx : List Nat) (i : Nat) : Int :=
  ((c.refs (refidx.getD i 0)).map (fun h => (h.base.frameOffset : Int))).getD 0

/-- The outcome of skip mode signalling. -/
structure SkipOk (c : FhCtx) (b : FhBase) (refidx : List Nat) (scr : Bool) (o : Option (Nat × Nat)) : Prop where
  refs : ∀ x y, o = some (x, y) ↔ (scr = true ∧ b.frameType % 2 = 1 ∧ c.seq.tools.orderHint = true ∧
    ∃ i j, IsSkipPair c.seq.tools.orderHintNBits b.frameOffset (refHint c refidx) i j ∧ x = min i j ∧ y = max i j)
  present : scr = true → b.frameType % 2 = 1 → c.seq.tools.orderHint = true → ∀ i, i < 7 → (c.refs (refidx.getD i 0)).isSome

theorem post_skipMode {c : FhCtx} (hq : SeqOk c.seq) (b : FhBase) (l : List Nat) (scr : Bool) :
    Post (parseSkipMode c b l scr) (fun r => SkipOk c b l scr r.1 ∧ (r.2 = true → r.1.isSome)) := by
  unfold parseSkipMode
  refine Post.bind Post.reject (fun _ hrej => ?_)
  refine Post.bind (P := fun en => en = true → _) (Post.opt (fun h => post_flag.mono (fun _ _ _ => h)) (fun _ h => by cases h)) (fun en hen => ?_)
  refine Post.pure ⟨⟨fun x y => ?_, fun h1 h2 h3 i hi => ?_⟩, hen⟩
  · by_cases hc : (scr && isInterOrSwitch b.frameType && c.seq.tools.orderHint) = true
    · simp only [hc, if_true]
      simp only [Bool.and_eq_true, isInterOrSwitch, decide_eq_true_eq] at hc
      have := hq.oh hc.2
      rw [skipModeRefs_spec this.1 (by omega)]
      simp only [hc.1.1, hc.1.2, hc.2, true_and]
      rfl
    · simp only [hc]
      simp only [Bool.and_eq_true, isInterOrSwitch, decide_eq_true_eq] at hc
      constructor
      · intro h; cases h
      · rintro ⟨a, b, d, _⟩; exact absurd ⟨⟨a, b⟩, d⟩ hc
  · simp only [isInterOrSwitch, h1, h2, h3, decide_true, Bool.and_self, true_and, List.any_eq_true, List.mem_range, not_exists, not_and] at hrej
    have := hrej i hi
    cases hx : c.refs (l.getD i 0) with
    | none => rw [hx] at this; simp at this
    | some _ => rfl

/-! ## Global motion -/

theorem post_subexp (r : Int) {n : Nat} (hn : n < 30) : Post (subexp r n) (fun v => -(2 ^ n) ≤ v ∧ v ≤ 2 ^ n) :=
  Post.rd (Prog.wfp_getSubexp r hn)

theorem defaultWm_ok : WmOk defaultWm := by
  constructor <;> simp [defaultWm]

theorem post_wmMatrix (t : Nat) (ht : t ≤ 3) (hp : Bool) (r : WmParams) : Post (readWmMatrix t hp r) WmOk := by
  unfold readWmMatrix
  refine Post.bind (P := fun v : Int => -(2 ^ 13) ≤ v - 2 ^ 16 ∧ v - 2 ^ 16 ≤ 2 ^ 13) (Post.opt (fun _ => ?_) (fun _ => by norm_num)) (fun m2 h2 => ?_)
  · exact Post.bind (post_subexp _ (by omega)) (fun v hv => Post.pure (by norm_num at hv ⊢; omega))
  refine Post.bind (P := fun v : Int => -(2 ^ 13) ≤ v ∧ v ≤ 2 ^ 13) (Post.opt (fun _ => ?_) (fun _ => by norm_num)) (fun m3 h3 => ?_)
  · exact Post.bind (post_subexp _ (by omega)) (fun v hv => Post.pure (by norm_num at hv ⊢; omega))
  refine Post.bind (P := fun v : Int => -(2 ^ 13) ≤ v ∧ v ≤ 2 ^ 13) (Post.opt (fun _ => ?_) (fun _ => by norm_num at h3 ⊢; omega)) (fun m4 h4 => ?_)
  · exact Post.bind (post_subexp _ (by omega)) (fun v hv => Post.pure (by norm_num at hv ⊢; omega))
  refine Post.bind (P := fun v : Int => -(2 ^ 13) ≤ v - 2 ^ 16 ∧ v - 2 ^ 16 ≤ 2 ^ 13) (Post.opt (fun _ => ?_) (fun _ => h2)) (fun m5 h5 => ?_)
  · exact Post.bind (post_subexp _ (by omega)) (fun v hv => Post.pure (by norm_num at hv ⊢; omega))
  dsimp only
  have key : ∀ bits shift : Nat, bits + shift = 22 → bits < 30 → ∀ v : Int, -(2 ^ bits) ≤ v ∧ v ≤ 2 ^ bits → -(2 ^ 22) ≤ v * 2 ^ shift ∧ v * 2 ^ shift ≤ 2 ^ 22 := by
    intro bits shift e _ v hv
    have hp : (0:Int) < 2 ^ shift := by positivity
    have e' : (2:Int) ^ 22 = 2 ^ bits * 2 ^ shift := by rw [← pow_add, e]
    rw [e']
    constructor <;> nlinarith
  have hbs : (if 2 ≤ t then 12 else 9 - (!hp).toNat) + (if 2 ≤ t then 10 else 13 + (!hp).toNat) = 22 := by
    cases hp <;> split <;> simp
  have hb : (if 2 ≤ t then 12 else 9 - (!hp).toNat) < 30 := by split <;> omega
  generalize (if 2 ≤ t then 12 else 9 - (!hp).toNat) = bits at hbs hb ⊢
  generalize (if 2 ≤ t then 10 else 13 + (!hp).toNat) = shift at hbs ⊢
  refine Post.bind (post_subexp _ hb) (fun m0 h0 => Post.bind (post_subexp _ hb) (fun m1 h1 => Post.pure ?_))
  exact ⟨ht, key _ _ hbs hb _ h0, key _ _ hbs hb _ h1, h2, h3, h4, h5⟩

theorem post_wmType : Post readWmType (fun t => t ≤ 3) := by
  unfold readWmType
  refine Post.bind post_flag (fun a _ => Post.ite (fun _ => ?_) (fun _ => Post.pure (by omega)))
  refine Post.bind post_flag (fun b _ => Post.ite (fun _ => Post.pure (by omega)) (fun _ => ?_))
  exact Post.bind post_flag (fun t _ => Post.pure (by split <;> omega))

theorem post_gmv {c : FhCtx} (b : FhBase) (l : List Nat) (hp : Bool) (i : Nat) (hleg : Legal (primaryRef c b l)) :
    Post (readGmv c b l hp i) WmOk := by
  unfold readGmv
  refine Post.bind post_wmType (fun t ht => Post.ite (fun _ => Post.pure defaultWm_ok) (fun _ => ?_))
  refine Post.bind (P := fun _ => True) (Legal.opt (Legal.bind hleg (fun _ => Legal.pure))) (fun r _ => post_wmMatrix t ht hp r)

theorem legal_primaryRef (c : FhCtx) (b : FhBase) (l : List Nat) : Legal (primaryRef c b l) := by
  unfold primaryRef; split
  · exact Post.fail
  · exact Legal.pure

theorem post_gmvs {c : FhCtx} (b : FhBase) (l : List Nat) (hp : Bool) : ∀ is : List Nat,
    Post (readGmvs c b l hp is) (fun r => r.length = is.length ∧ ∀ w ∈ r, WmOk w)
  | [] => Post.pure ⟨rfl, fun _ h => by cases h⟩
  | i :: is => by
    unfold readGmvs
    refine Post.bind (post_gmv b l hp i (legal_primaryRef c b l)) (fun g hg => Post.bind (post_gmvs b l hp is) (fun gs hgs => Post.pure ⟨by simp [hgs.1], fun w hw => ?_⟩))
    rcases List.mem_cons.1 hw with rfl | hw
    · exact hg
    · exact hgs.2 w hw

/-! ## Film grain -/

theorem post_points : ∀ (n : Nat) (prev : Option Nat),
    Post (readPoints n prev) (fun l => l.length = n ∧ (∀ p ∈ l, p.1 ≤ 255 ∧ p.2 ≤ 255) ∧
      l.Pairwise (fun p q => p.1 < q.1) ∧ ∀ v, prev = some v → ∀ p ∈ l, v < p.1)
  | 0, _ => Post.pure ⟨rfl, fun _ h => (by cases h), List.Pairwise.nil, fun _ _ _ h => by cases h⟩
  | n + 1, prev => by
    unfold readPoints
    refine Post.bind (post_f (by omega) (by omega)) (fun x hx => ?_)
    refine Post.bind Post.reject (fun _ hrej => ?_)
    refine Post.bind (post_f (by omega) (by omega)) (fun y hy => ?_)
    refine Post.bind (post_points n (some x)) (fun l hl => Post.pure ?_)
    obtain ⟨h1, h2, h3, h4⟩ := hl
    refine ⟨by simp [h1], fun p hp => ?_, List.Pairwise.cons (fun q hq => h4 x rfl q hq) h3, fun v hv p hp => ?_⟩
    · rcases List.mem_cons.1 hp with rfl | hp
      · simp only; omega
      · exact h2 p hp
    · have hvx : v < x := by
        by_contra h; exact hrej ⟨v, hv, by omega⟩
      rcases List.mem_cons.1 hp with rfl | hp
      · exact hvx
      · exact lt_trans hvx (h4 x rfl p hp)

theorem post_pointList (m : Nat) : Post (readPointList m) (PointsOk m) := by
  unfold readPointList
  refine Post.bind (post_f (by omega) (by omega)) (fun n hn => Post.bind Post.reject (fun _ hrej => ?_))
  exact (post_points n none).mono (fun l hl => ⟨by omega, hl.2.1, hl.2.2.1⟩)

theorem pointsOk_nil (n : Nat) : PointsOk n [] := ⟨by simp, fun _ h => (by cases h), List.Pairwise.nil⟩

theorem post_coeff : Post readCoeff (InSigned 7) := by
  unfold readCoeff
  exact Post.bind (post_f (by omega) (by omega)) (fun v hv => Post.pure (by unfold InSigned; norm_num at hv ⊢; omega))

theorem post_arUv (p : Bool) (n : Nat) (hy : Bool) (hn : n ≤ 24) : Post (readArUv p n hy) (fun l => l.length ≤ 25 ∧ ∀ v ∈ l, InSigned 7 v) := by
  unfold readArUv
  refine Post.opt (fun _ => ?_) (fun _ => by simp)
  refine Post.bind (post_replicateM post_coeff _) (fun l hl => Post.pure ?_)
  cases hy
  · simp only [Bool.false_eq_true, if_false]
    refine ⟨by simp [hl.1]; omega, fun v hv => ?_⟩
    rcases List.mem_append.1 hv with hv | hv
    · exact hl.2 v hv
    · rw [List.mem_singleton.1 hv]; exact inSigned_zero 7
  · simp only [if_true]
    exact ⟨by simp [hl.1]; omega, hl.2⟩

theorem post_uvMult (p : Bool) : Post (readUvMult p) (fun m => InSigned 7 m.1 ∧ InSigned 7 m.2.1 ∧ InSigned 8 m.2.2) := by
  unfold readUvMult
  refine Post.opt (fun _ => ?_) (fun _ => ⟨inSigned_zero _, inSigned_zero _, inSigned_zero _⟩)
  refine Post.bind post_coeff (fun a ha => Post.bind post_coeff (fun b hb => ?_))
  exact Post.bind (post_f (by omega) (by omega)) (fun o ho => Post.pure ⟨ha, hb, by unfold InSigned; norm_num at ho ⊢; omega⟩)

theorem post_readFilmGrain (c : FhCtx) (seed : Nat) : Post (readFilmGrain c seed) (fun g => g.seed = seed ∧ FgOk g) := by
  unfold readFilmGrain
  refine Post.bind (post_pointList 14) (fun y hy => ?_)
  refine Post.bind (Legal.opt post_flag) (fun cfl _ => ?_)
  dsimp only
  refine Post.bind (Post.opt (fun _ => post_pointList 10) (fun _ => pointsOk_nil 10)) (fun u hu => ?_)
  refine Post.bind (Post.opt (fun _ => post_pointList 10) (fun _ => pointsOk_nil 10)) (fun v hv => ?_)
  refine Post.bind Legal.reject (fun _ _ => ?_)
  refine Post.bind (post_f (by omega) (by omega)) (fun ss hss => ?_)
  refine Post.bind (post_f (by omega) (by omega)) (fun lag hlag => ?_)
  have hn : 2 * lag * (lag + 1) ≤ 24 := by
    have : lag = 0 ∨ lag = 1 ∨ lag = 2 ∨ lag = 3 := by omega
    rcases this with rfl | rfl | rfl | rfl <;> norm_num
  refine Post.bind (P := fun l : List Int => l.length ≤ 24 ∧ ∀ v ∈ l, InSigned 7 v)
    (Post.opt (fun _ => (post_replicateM post_coeff _).mono (fun l h => ⟨by omega, h.2⟩)) (fun _ => by simp)) (fun ay hay => ?_)
  refine Post.bind (post_arUv _ _ _ hn) (fun a0 ha0 => ?_)
  refine Post.bind (post_arUv _ _ _ hn) (fun a1 ha1 => ?_)
  refine Post.bind (post_f (by omega) (by omega)) (fun as has => ?_)
  refine Post.bind (post_f (by omega) (by omega)) (fun gs hgs => ?_)
  refine Post.bind (post_uvMult _) (fun m0 hm0 => ?_)
  refine Post.bind (post_uvMult _) (fun m1 hm1 => ?_)
  refine Post.bind post_flag (fun _ _ => Post.bind post_flag (fun _ _ => Post.pure ⟨rfl, ?_⟩))
  exact ⟨hy, hu, hv, by simp only; omega, by simp only; omega, ⟨hay.1, ha0.1, ha1.1⟩,
    fun v h => by rcases h with h | h | h <;> [exact hay.2 v h; exact ha0.2 v h; exact ha1.2 v h],
    by simp only; omega, by simp only; omega, hm0, hm1⟩

/-- The outcome of film grain signalling: legal parameters, and without new parameters those of a frame
used as reference, with the new seed. -/
structure GrainOk (c : FhCtx) (refidx : List Nat) (present update : Bool) (g : FilmGrainData) : Prop where
  held : FgHeld g
  fresh : update = true → FgOk g
  copied : present = true → update = false → ∃ r ∈ refidx, ∃ h, c.refs r = some h ∧
    ({ g with seed := h.filmGrain.seed } : FilmGrainData) = h.filmGrain

theorem FgOk.seed {g : FilmGrainData} (h : FgOk g) (s : Nat) : FgOk { g with seed := s } :=
  ⟨h.y, h.uv0, h.uv1, h.scalingShift, h.lag, h.counts, h.coeffs, h.arShift, h.grainShift, h.mult0, h.mult1⟩

theorem post_filmGrain {c : FhCtx} (hr : ∀ i h, c.refs i = some h → FrameOk h) (b : FhBase) (l : List Nat) :
    Post (parseFilmGrain c b l) (fun r => GrainOk c l r.1 r.2.1 r.2.2) := by
  unfold parseFilmGrain
  refine Post.bind (Legal.opt post_flag) (fun p _ => Post.ite (fun _ => ?_) (fun _ => Post.pure ⟨⟨by simp, Or.inr rfl⟩, fun h => by simp at h, fun h => by simp at h⟩))
  refine Post.bind (post_f (by omega) (by omega)) (fun seed hs => ?_)
  refine Post.bind (Legal.opt post_flag) (fun u _ => Post.ite (fun _ => ?_) (fun _ => ?_))
  · refine Post.bind (post_readFilmGrain c seed) (fun g hg => Post.pure ⟨⟨by rw [hg.1]; omega, Or.inl hg.2⟩, fun _ => hg.2, fun _ h => by simp at h⟩)
  · refine Post.bind (post_f (by omega) (by omega)) (fun r _ => Post.bind Post.reject (fun _ hmem => ?_))
    split
    · exact Post.fail
    · rename_i h he
      refine Post.pure ⟨⟨by simp only; omega, ?_⟩, fun h => by simp at h, fun _ _ => ⟨r, not_not.1 hmem, h, he, rfl⟩⟩
      rcases (hr _ _ he).grain.2 with hg | hg
      · exact Or.inl (hg.seed seed)
      · right; rw [hg]

/-! ## The whole header -/

/-- What the header parser guarantees. -/
structure HdrOk (c : FhCtx) (h : FrameHdr) : Prop where
  ok : FrameOk h
  base : BaseOk c h.base
  refs : RefsOk c h.base h.refs
  tiling : TilingOk (if c.seq.tools.sb128 then 128 else 64) h.refs.size.width0 h.refs.size.height h.tiling
  skip : SkipOk c h.base h.refs.refidx h.switchableCompRefs h.skipModeRefs
  skipAllowed : h.skipModeAllowed = h.skipModeRefs.isSome
  skipEnabled : h.skipModeEnabled = true → h.skipModeRefs.isSome
  grain : GrainOk c h.refs.refidx h.filmGrainPresent h.filmGrainUpdate h.filmGrain

theorem post_frameHdr {c : FhCtx} (hq : SeqOk c.seq) (hr : ∀ i h, c.refs i = some h → FrameOk h) :
    Post (parseNewFrameHdr c) (HdrOk c) := by
  have hrs : ∀ i h, c.refs i = some h → SizeOk h.refs.size := fun i h e => (hr i h e).size
  unfold parseNewFrameHdr
  refine Post.bind (post_base hq) (fun b hb => ?_)
  refine Post.bind (P := RefsOk c b) (Post.ite (fun h => post_intraRefs hq hrs h) (fun h => post_interRefs hq hrs (by unfold isKeyOrIntra at h; simpa using h))) (fun r hrr => ?_)
  refine Post.bind (Legal.opt post_flag) (fun _ _ => ?_)
  have hz := hrr.size
  refine Post.bind (post_tiling (by have := hz.coded; have := hz.width; omega) (by have := hz.coded; have := hz.width; omega) hz.height.1 hz.height.2) (fun t ht => ?_)
  refine Post.bind (post_quant c) (fun q hquant => ?_)
  refine Post.bind (post_segmentation hr b _) (fun s hs => ?_)
  refine Post.bind (post_parseDelta _ _) (fun d hd => ?_)
  dsimp only
  refine Post.bind (post_loopFilter hr b _ _ _) (fun lf hlf => ?_)
  refine Post.bind (post_cdef c _ _) (fun cd hcd => ?_)
  refine Post.bind (post_restoration c _ _ _) (fun lr hlr => ?_)
  refine Post.bind (P := fun v => v < 2) (Post.opt (fun _ => post_bit) (fun _ => by omega)) (fun tx htx => ?_)
  refine Post.bind (Legal.opt post_flag) (fun scr _ => ?_)
  refine Post.bind (post_skipMode hq b _ scr) (fun sk hsk => ?_)
  obtain ⟨skr, ske⟩ := sk
  dsimp only at hsk ⊢
  refine Post.bind (Legal.opt post_flag) (fun _ _ => ?_)
  refine Post.bind post_flag (fun _ _ => ?_)
  refine Post.bind (P := fun g : List WmParams => g.length = 7 ∧ ∀ w ∈ g, WmOk w) (Post.opt (fun _ => post_gmvs _ _ _ _)
    (fun _ => ⟨by simp, fun w hw => by rw [List.mem_replicate] at hw; rw [hw.2]; exact defaultWm_ok⟩)) (fun g hg => ?_)
  refine Post.bind (post_filmGrain hr b _) (fun fg hfg => ?_)
  obtain ⟨fgp, fgu, fgd⟩ := fg
  dsimp only at hfg ⊢
  refine Post.pure ⟨?_, hb, hrr, ht, hsk.1, rfl, hsk.2, hfg⟩
  exact ⟨hz, hb.frameType, hb.offset, hb.primary, hrr.refresh, hrr.refidx, hrr.count, hrr.filter, hquant, hs,
    deriveQidx_ok hquant.1 hs, hd, hlf.1, hlf.2, hcd, hlr, by simp only; split <;> omega, hg.1, hg.2, hfg.held⟩

theorem Accepted.ok {h : FrameHdr} (ha : Accepted h) : FrameOk h :=
  Accepted.rec (motive_1 := fun h _ => FrameOk h)
    (motive_2 := fun c _ => SeqOk c.seq ∧ ∀ i h, c.refs i = some h → FrameOk h)
    (fun _ he ih => ((post_frameHdr ih.1 ih.2).exec he).ok)
    (fun hs _ ih => ⟨hs.ok, ih⟩) ha

theorem ReachableCtx.ok {c : FhCtx} (h : ReachableCtx c) : SeqOk c.seq ∧ ∀ i h, c.refs i = some h → FrameOk h := by
  cases h with
  | mk hs hr => exact ⟨hs.ok, fun i h e => (hr i h e).ok⟩

theorem ReachableCtx.hdr {c : FhCtx} (h : ReachableCtx c) : Post (parseNewFrameHdr c) (HdrOk c) :=
  post_frameHdr h.ok.1 h.ok.2

end Dav1d
