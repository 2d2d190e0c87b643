import Verif.Api.RecoverLemmas
/-!
# After an error: the next temporal unit
-/
namespace Dav1d.Recover
open Dav1d HProg
variable {κ : Type}

/-! ## Key frames refresh all slots -/

theorem intra_gives (c : FhCtx) (b : FhBase) : Gives (parseIntraRefs c b) (fun r => b.frameType = 0 → b.showFrame = true → r.refreshFrameFlags = 0xff) := by
  unfold parseIntraRefs
  refine .bind (P := fun v => b.frameType = 0 → b.showFrame = true → v = 0xff) ?_ fun _ hf => .bind .any fun _ _ => .bind .any fun _ _ => .bind .any fun _ _ =>
    .bind .any fun _ _ => .pure hf
  unfold opt
  split
  · rename_i h
    intro _ _ _ _ h1 h2
    exact absurd ⟨h1, h2⟩ h
  · exact .pure fun _ _ => rfl

theorem tail_refresh (c : FhCtx) (b : FhBase) : Gives (tailHdr c b) (fun h => b.frameType = 0 → b.showFrame = true → h.refs.refreshFrameFlags = 0xff) := by
  unfold tailHdr
  refine .bind (P := fun r => b.frameType = 0 → b.showFrame = true → r.refreshFrameFlags = 0xff) ?_ fun _ hr =>
    .bind .any fun _ _ => .bind .any fun _ _ => .bind .any fun _ _ => .bind .any fun _ _ => .bind .any fun _ _ => ?_
  · split
    · exact intra_gives c b
    · rename_i hk
      intro _ _ _ _ h0
      rw [h0] at hk
      exact absurd rfl hk
  · dsimp only
    refine .bind .any fun _ _ => .bind .any fun _ _ => .bind .any fun _ _ => .bind .any fun _ _ => .bind .any fun _ _ => .bind .any fun _ _ =>
      .bind .any fun _ _ => .bind .any fun _ _ => .bind .any fun _ _ => .bind .any fun _ _ => .pure hr

theorem key_refresh (c : FhCtx) : Gives (parseFrameHdr c) (fun r => ∀ h, r = .frame h → h.base.frameType = 0 → h.base.showFrame = true → h.refs.refreshFrameFlags = 0xff) := by
  unfold parseFrameHdr
  refine .bind .any fun se _ => ?_
  split
  · intro s a s' he h hx
    exact absurd hx (showExisting_gives c _ _ _ he h)
  · refine .bind (P := fun h => h.base.frameType = 0 → h.base.showFrame = true → h.refs.refreshFrameFlags = 0xff) ?_ fun h hh => .pure ?_
    · rw [new_eq]
      refine .bind .any fun b _ => ?_
      intro s a s' he
      have h1 := tail_gives c b _ _ _ he
      have h2 := tail_refresh c b _ _ _ he
      rw [h1]
      exact h2
    · intro h' e; cases e; exact hh

/-! ## One OBU -/

/-- The frame header held does not belong to a frame to be shown. -/
def NotStuck (c : Dec κ) : Prop := ∀ i d n, c.frameHdr ≠ some (.showExisting i d n)

theorem finish_open {s : Settings} {env : Env κ} {c : Dec κ} (h : Open s c) (hn : NotStuck c) (props : Props) : finishObu s env c props = some (c, none) := by
  unfold finishObu
  unfold Open at h
  split
  · rename_i hh; exact absurd hh (hn _ _ _)
  · rename_i hh
    rw [hh] at h
    rw [if_neg h]
  · rfl

theorem td_step {s : Settings} {env : Env κ} {c : Dec κ} (hc : DecOk c) (ho : Open s c) (hn : NotStuck c) {pkt : Packet} {o rest} (h : splitObu pkt.data = some (o, rest)) (ht : o.type = 2)
    (hb : (s.strict && obuForbidden pkt.data) = false) :
    parseObus s env c pkt = some ({ c with frameFlags := { c.frameFlags with newTu := true } }, .ok (pkt.data.length - rest.length)) := by
  have hp : pkt.data ≠ [] := by intro h0; rw [h0] at h; cases h
  rw [parseObus_eq s env hc pkt hp]
  have hd : dropObu c.opIdc (obuHdrOf pkt.data) = false := by
    unfold dropObu
    rw [hdrOf_type h, ht]; simp
  unfold stepObu
  rw [h]
  dsimp only
  rw [hb, hd, ht]
  have : obuCase s c 2 (obuHdrOf pkt.data).temporalId (obuHdrOf pkt.data).spatialId pkt.props =
      pure (some ({ c with frameFlags := { c.frameFlags with newTu := true } }, none)) := by
    unfold obuCase; simp
  rw [this]
  simp only [Bool.false_eq_true, if_false, Prog.run_pure]
  have hf := finish_open (env := env) (c := { c with frameFlags := { c.frameFlags with newTu := true } }) (s := s) (by exact ho.congr rfl rfl rfl) hn pkt.props
  rw [hf]

theorem showExisting_fails {s : Settings} {c : Dec κ} {i : Nat} (h : Fails s c i) (props : Props) :
    showExisting s c i props = some ({ c with errProps := some props }, some .EINVAL) := by
  unfold Fails at h
  unfold showExisting
  generalize (c.refs i).p = r at h
  cases r with
  | empty => rfl
  | hdrOnly hd =>
    dsimp only [RefPic.hdr]
    rw [if_neg (by rw [h]; simp)]
  | pic p =>
    dsimp only [RefPic.hdr]
    rw [if_neg (by rw [h.1]; simp), if_pos ⟨h.2.1, by rw [h.2.2]; simp⟩]

theorem td_stuck {s : Settings} {env : Env κ} {c : Dec κ} (hc : DecOk c) (hs : c.seq ≠ none) {i d n} (hh : c.frameHdr = some (.showExisting i d n)) (hf : Fails s c i)
    {pkt : Packet} {o rest} (h : splitObu pkt.data = some (o, rest)) (ht : o.type = 2) :
    ∃ f, parseObus s env c pkt = some ({ c with frameFlags := f, errProps := some pkt.props }, .error .EINVAL) := by
  have hp : pkt.data ≠ [] := by intro h0; rw [h0] at h; cases h
  rw [parseObus_eq s env hc pkt hp]
  have hd : dropObu c.opIdc (obuHdrOf pkt.data) = false := by
    unfold dropObu
    rw [hdrOf_type h, ht]; simp
  unfold stepObu
  rw [h]
  dsimp only
  split
  · exact ⟨c.frameFlags, rfl⟩
  rw [hd, ht]
  have : obuCase s c 2 (obuHdrOf pkt.data).temporalId (obuHdrOf pkt.data).spatialId pkt.props =
      pure (some ({ c with frameFlags := { c.frameFlags with newTu := true } }, none)) := by
    unfold obuCase; simp
  rw [this]
  simp only [Bool.false_eq_true, if_false, Prog.run_pure]
  have hfin : finishObu s env { c with frameFlags := { c.frameFlags with newTu := true } } pkt.props =
      some ({ c with frameFlags := { c.frameFlags with newTu := true }, errProps := some pkt.props }, some .EINVAL) := by
    unfold finishObu
    dsimp only
    rw [hh]
    cases hq : c.seq with
    | none => exact absurd hq hs
    | some q =>
      have h2 := showExisting_fails (c := { c with frameFlags := { c.frameFlags with newTu := true } }) (s := s) hf pkt.props
      dsimp only at h2
      rw [hh, hq] at h2
      exact h2
  rw [hfin]
  exact ⟨_, rfl⟩

theorem seq_step {s : Settings} {env : Env κ} {c : Dec κ} (hc : DecOk c) {pkt : Packet} {o rest q} (h : splitObu pkt.data = some (o, rest)) (ht : o.type = 1)
    (ho : Open s (activateSeq s c q)) (hn : NotStuck (activateSeq s c q))
    (hb : (s.strict && obuForbidden pkt.data) = false) (hq : ((OptionT.run (parseSeqHdr s.strict)).run (BitSt.init o.payload)).1 = some q) :
    parseObus s env c pkt = some (activateSeq s c q, .ok (pkt.data.length - rest.length)) := by
  have hp : pkt.data ≠ [] := by intro h0; rw [h0] at h; cases h
  rw [parseObus_eq s env hc pkt hp]
  have hd : dropObu c.opIdc (obuHdrOf pkt.data) = false := by
    unfold dropObu
    rw [hdrOf_type h, ht]; simp
  unfold stepObu
  rw [h]
  dsimp only
  rw [hb, hd, ht]
  have : ((obuCase s c 1 (obuHdrOf pkt.data).temporalId (obuHdrOf pkt.data).spatialId pkt.props).run (BitSt.init o.payload)).1 =
      some (activateSeq s c q, none) := by
    unfold obuCase
    rw [if_pos rfl]
    unfold seqCase
    rw [Prog.run_bind, hq]
    rfl
  rw [this]
  simp only [Bool.false_eq_true, if_false]
  rw [finish_open ho hn]

theorem activate_open {s : Settings} {c : Dec κ} (ho : Open s c) (hn : NotStuck c) (q : SeqHdr) : Open s (activateSeq s c q) ∧ NotStuck (activateSeq s c q) := by
  unfold activateSeq
  dsimp only
  split
  · exact ⟨.none rfl, fun _ _ _ h => by cases h⟩
  · split
    · exact ⟨.none rfl, fun _ _ _ h => by cases h⟩
    · split
      · exact ⟨ho.congr rfl rfl rfl, hn⟩
      · exact ⟨ho.congr rfl rfl rfl, hn⟩

/-- Nothing to be output. -/
theorem ready_false {s : Settings} {c : Dec κ} (h1 : c.cachedError = none) (h2 : c.out = none) (h3 : c.cache = none) (d : Bool) : outputReady s c d = (false, c) := by
  unfold outputReady
  rw [h1, h2, h3]
  simp

theorem gen_step {s : Settings} {env : Env κ} {c d : Dec κ} {pkt : Packet} {o rest} (h1 : splitObu pkt.data = some (o, rest)) (hr : rest ≠ [])
    (e : parseObus s env c pkt = some (d, .ok (pkt.data.length - rest.length))) (hd1 : d.cachedError = none) (hd2 : d.out = none) (hd3 : d.cache = none) :
    genLoop s env c pkt = genLoop s env { d with input := some { pkt with data := rest } } { pkt with data := rest } := by
  have hlen := splitObu_length h1
  obtain ⟨pre, hpre⟩ := splitObu_suffix h1
  have hdrop : pkt.data.drop (pkt.data.length - rest.length) = rest := by
    have : pkt.data.length - rest.length = pre.length := by rw [← hpre]; simp
    rw [this, ← hpre]; simp
  have hadv : pkt.advance (pkt.data.length - rest.length) = some { pkt with data := rest } := by
    unfold Packet.advance
    rw [hdrop, if_neg hr]
  rw [genLoop, e]
  dsimp only
  have h0 : 0 < rest.length := List.length_pos_iff.2 hr
  rw [dif_pos ⟨by omega, by omega⟩]
  have h3 := ready_false (s := s) (c := { d with input := pkt.advance (pkt.data.length - rest.length) }) hd1 hd2 hd3 false
  rw [h3]
  dsimp only
  rw [if_neg (by omega), hdrop, hadv]

/-! ## The key frame -/

/-- Contexts that agree except for the reference slots, the frame in progress, and what no reply depends on. -/
structure Near (k : Nat) (c' c : Dec κ) : Prop where
  seq : c'.seq = c.seq
  opIdc : c'.opIdc = c.opIdc
  maxSpatialId : c'.maxSpatialId = c.maxSpatialId
  info : c'.info = c.info
  newTu : c'.frameFlags.newTu = c.frameFlags.newTu
  errProps : c'.errProps = c.errProps
  cachedError : c'.cachedError = c.cachedError
  out : c'.out = none ∧ c.out = none
  cache : c'.cache = none ∧ c.cache = none
  ring : c'.ring = c.ring
  next : c'.next = c.next
  input : c'.input = c.input
  drain : c'.drain = c.drain
  submitted : c'.submitted = c.submitted + k
  refs : ∀ i, 8 ≤ i → c'.refs i = {} ∧ c.refs i = {}

/-- Decoding a key frame does not use the reference slots. -/
def KeyBlind (env : Env κ) : Prop := ∀ (f : FrameIn κ) (r : Nat → RefSlot κ), f.hdr.base.frameType = 0 → env.dec { f with refs := r } = env.dec f

theorem tileGroup_near (c c' : Dec κ) (h : FrameHdr) (props : Props) (b : BitSt) (h1 : c'.tiles = c.tiles) (h2 : c'.nTiles = c.nTiles) {d : Dec κ} {e : Option Err}
    (hr : ((tileGroup c h props).run b).1 = some (d, e)) :
    ((tileGroup c' h props).run b).1 = some ({ c' with tiles := d.tiles, nTiles := d.nTiles }, e) ∧ d = { c with tiles := d.tiles, nTiles := d.nTiles } := by
  unfold tileGroup at hr ⊢
  rw [Prog.run_bind] at hr ⊢
  generalize (parseTileHdr h.tiling).run b = r at hr ⊢
  obtain ⟨⟨first, last⟩, b⟩ := r
  simp only [Prog.run_bind] at hr ⊢
  split at hr
  · rename_i he
    rw [if_pos he]
    cases hr
    refine ⟨?_, rfl⟩
    rw [← h1, ← h2]; rfl
  · rename_i he
    rw [if_neg he]
    simp only [Prog.run_bind] at hr ⊢
    rw [h2, h1]
    split at hr
    · rename_i hx
      rw [if_pos hx]
      cases hr
      exact ⟨rfl, rfl⟩
    · rename_i hx
      rw [if_neg hx]
      cases hr
      exact ⟨rfl, rfl⟩

/-- A key frame that is accepted without references is accepted with any. -/
theorem frameCase_near {s : Settings} {c c' : Dec κ} (hq : c'.seq = c.seq) (t sp : Nat) (props : Props) (b : BitSt) {d : Dec κ} {h : FrameHdr}
    (hr : ((obuCase s c 6 t sp props).run b).1 = some (d, none)) (hh : d.frameHdr = some (.frame h)) (hk : h.base.frameType = 0) (hsf : h.base.showFrame = true) :
    ((obuCase s c' 6 t sp props).run b).1 = some ({ c' with frameHdr := some (.frame h), tiles := d.tiles, nTiles := d.nTiles }, none) ∧
    d = { c with frameHdr := some (.frame h), tiles := d.tiles, nTiles := d.nTiles } ∧ h.refs.refreshFrameFlags = 0xff := by
  have ho : ∀ c : Dec κ, obuCase s c 6 t sp props = frameHdrCase s c 6 t sp props := by
    intro c; unfold obuCase; simp
  have hcase : ∀ (c : Dec κ) q, c.seq = some q → frameHdrCase s c 6 t sp props = frameHdrBody s c q 6 t sp props := by
    intro c q h; unfold frameHdrCase; rw [h]
  rw [ho] at hr ⊢
  obtain ⟨q, hs⟩ : ∃ q, c.seq = some q := by
    cases hs : c.seq with
    | none => unfold frameHdrCase at hr; rw [hs] at hr; cases hr
    | some q => exact ⟨q, rfl⟩
  rw [hcase c q hs] at hr
  rw [hcase c' q (hq.trans hs)]
  unfold frameHdrBody at hr ⊢
  rw [Prog.run_bind] at hr ⊢
  have hctx : fhCtx s c' q t sp = { fhCtx s c q t sp with refs := fun i => (c'.refs i).p.hdr } := rfl
  generalize hx : (OptionT.run (parseFrameHdr (fhCtx s c q t sp))).run b = x at hr
  obtain ⟨r, b1⟩ := x
  cases r with
  | none => cases hr
  | some r =>
    dsimp only at hr
    simp only [Prog.run_bind] at hr
    have hopt : (OptionT.run (opt ((6:Nat) ≠ 6) (checkTrailingBits s.strict) ())).run b1 = (some (), b1) := rfl
    rw [hopt] at hr
    dsimp only at hr
    split at hr
    · cases hr
    rename_i hlim
    rw [if_neg (by simp)] at hr
    cases r with
    | showExisting _ _ _ => cases hr
    | frame h' =>
      dsimp only at hr
      rw [Prog.run_bind] at hr
      obtain ⟨e1, e2⟩ := tileGroup_near { c with frameHdr := some (.frame h'), tiles := [], nTiles := 0 } { c' with frameHdr := some (.frame h'), tiles := [], nTiles := 0 } h' props _ rfl rfl hr
      have hh' : d.frameHdr = some (.frame h') := by rw [e2]
      rw [hh] at hh'
      cases hh'
      have hkey := key_same (fhCtx s c q t sp) (fun i => (c'.refs i).p.hdr) (b := b) (b' := b1) (h := h) hx (by rw [hk]; rfl)
      rw [← hctx] at hkey
      have hkey : (OptionT.run (parseFrameHdr (fhCtx s c' q t sp))).run b = (some (.frame h), b1) := hkey
      rw [hkey]
      dsimp only
      simp only [Prog.run_bind]
      rw [hopt]
      dsimp only
      rw [if_neg hlim, if_neg (by simp)]
      rw [Prog.run_bind]
      exact ⟨e1, e2, key_refresh _ _ _ _ (show (parseFrameHdr (fhCtx s c q t sp)).exec b = _ from hx) h rfl hk hsf⟩

theorem refreshed_all {i : Nat} (hi : i < 8) : refreshed 0xff i = true := by
  unfold refreshed
  have : ∀ n ∈ List.range 8, (decide (n < 8) && Nat.testBit 0xff n) = true := by decide +kernel
  exact this i (List.mem_range.2 hi)

/-- If all slots are overwritten it does not matter what they held. -/
theorem submitSync_refs {s : Settings} {c : Dec κ} {h : FrameHdr} (hfl : h.refs.refreshFrameFlags = 0xff) (p : Pic κ) (props : Props) {r : Nat → RefSlot κ}
    (hr : ∀ i, 8 ≤ i → r i = c.refs i) : submitSync s c .no h p props = submitSync s { c with refs := r } .no h p props := by
  have h1 : refreshRefs h p c.refs = refreshRefs h p r := by
    funext i
    unfold refreshRefs
    rw [hfl]
    by_cases hi : i < 8
    · rw [if_pos (refreshed_all hi), if_pos (refreshed_all hi)]
    · rw [hr i (by omega)]
  have h2 : dropRefs h c.refs = dropRefs h r := by
    funext i
    unfold dropRefs
    rw [hfl]
    by_cases hi : i < 8
    · rw [if_pos (refreshed_all hi), if_pos (refreshed_all hi)]
    · rw [hr i (by omega)]
  unfold submitSync
  by_cases hv : (h.base.showFrame || s.outputInvisible) = true
  · simp only [if_pos hv]
    unfold setOut
    dsimp only
    cases c.out with
    | some o => rfl
    | none =>
      cases p.content with
      | error e => simp only [reduceCtorEq, if_false, h2]
      | ok _ => simp only [reduceCtorEq, if_false, h1]
  · simp only [if_neg hv]
    cases p.content with
    | error e => simp only [reduceCtorEq, if_false, h2]
    | ok _ => simp only [reduceCtorEq, if_false, h1]

theorem key_submit {s : Settings} {env : Env κ} (h1 : s.nFc = 1) (hkb : KeyBlind env) {k : Nat} {c' c : Dec κ} (hn : Near k c' c) (q : SeqHdr) {h : FrameHdr} (hk : h.base.frameType = 0)
    (hsf : h.base.showFrame = true) (hfl : h.refs.refreshFrameFlags = 0xff) (hoom : env.oom c'.submitted = .no) (ht : c'.tiles = c.tiles) (hnt : c'.nTiles = c.nTiles) (props : Props) :
    erR 0 (submitFrame s env c' q h props) = erR k (submitFrame s (env.from k) c q h props) := by
  have hoom' : (env.from k).oom c.submitted = .no := by rw [← hoom, hn.submitted]; rfl
  have hu : ∀ r : Nat → RefSlot κ, refsUnusable q h r = false := by
    intro r; unfold refsUnusable; rw [hk]; rfl
  have hdec : env.dec { seq := q, hdr := h, tiles := c'.tiles, refs := c'.refs } = (env.from k).dec { seq := q, hdr := h, tiles := c.tiles, refs := c.refs } := by
    rw [ht]
    exact hkb { seq := q, hdr := h, tiles := c.tiles, refs := c.refs } c'.refs hk
  unfold submitFrame
  dsimp only
  rw [if_pos h1, if_pos h1, hoom, hoom']
  dsimp only
  rw [hu, hu]
  simp only [Bool.false_eq_true, if_false, reduceCtorEq, h1, if_true]
  have hkf : (keptFlags s { c' with frameHdr := none, submitted := c'.submitted + 1, tiles := [] } h).er = (keptFlags s { c with frameHdr := none, submitted := c.submitted + 1, tiles := [] } h).er := by
    unfold keptFlags
    dsimp only
    rw [hn.maxSpatialId]
    split <;> rfl
  have hp : (newPic { c' with frameHdr := none, submitted := c'.submitted + 1, tiles := [] } q h ((c'.tiles.head?.map (·.props)).getD 0)
      (env.dec { seq := q, hdr := h, tiles := c'.tiles, refs := c'.refs })).er =
      (newPic { c with frameHdr := none, submitted := c.submitted + 1, tiles := [] } q h ((c.tiles.head?.map (·.props)).getD 0)
      ((env.from k).dec { seq := q, hdr := h, tiles := c.tiles, refs := c.refs })).er := by
    rw [hdec, ht]
    simp only [newPic, Pic.er, PicFlags.er, hn.newTu, hn.info]
  rw [hdec] at hp
  rw [submitSync_refs (r := c.refs) hfl _ _ (by intro i hi; rw [(hn.refs i hi).2]; exact (hn.refs i hi).1.symm)]
  refine submitSync_er s k ?_ .no h (by rw [hdec]; exact hp) props
  show Dec.er _ _ = Dec.er _ _
  simp only [Dec.er, heldOr, afterAlloc]
  rw [hkf]
  generalize (keptFlags s { c with frameHdr := none, submitted := c.submitted + 1, tiles := [] } h).er = fl
  simp only [hn.seq, hn.opIdc, hn.maxSpatialId, hn.info, hn.errProps, hn.cachedError, hn.out.1, hn.out.2, hn.cache.1, hn.cache.2,
    hn.ring, hn.next, hn.input, hn.drain, hn.submitted, Nat.add_zero, Nat.add_right_comm]

/-! ## Packets -/

/-- The data begins with a temporal delimiter and the sequence header `q`, which is accepted; `rest` follows. -/
def Begins (s : Settings) (data : List UInt8) (q : SeqHdr) (rest : List UInt8) : Prop :=
  ∃ o1 r1 o2, splitObu data = some (o1, r1) ∧ o1.type = 2 ∧ (s.strict && obuForbidden data) = false ∧
    splitObu r1 = some (o2, rest) ∧ o2.type = 1 ∧ (s.strict && obuForbidden r1) = false ∧
    ((OptionT.run (parseSeqHdr s.strict)).run (BitSt.init o2.payload)).1 = some q

/-- The data begins with a frame OBU that belongs to the operating point and holds a complete key frame to be shown, which
a new decoder that has got the sequence header `q` accepts. -/
def HasKeyFrame (κ : Type) (s : Settings) (q : SeqHdr) (data : List UInt8) (props : Props) : Prop :=
  ∃ o rest h, ∃ d : Dec κ, splitObu data = some (o, rest) ∧ o.type = 6 ∧ (s.strict && obuForbidden data) = false ∧
    dropObu (chosenIdc s q) (obuHdrOf data) = false ∧
    ((obuCase s (activateSeq s Dec.init q) 6 (obuHdrOf data).temporalId (obuHdrOf data).spatialId props).run (BitSt.init o.payload)).1 = some (d, none) ∧
    d.frameHdr = some (.frame h) ∧ h.base.frameType = 0 ∧ h.base.showFrame = true ∧ d.nTiles = h.tiling.cols * h.tiling.rows

theorem activate_seq (s : Settings) (c : Dec κ) (q : SeqHdr) : (activateSeq s c q).seq = some q ∧ (activateSeq s c q).opIdc = chosenIdc s q ∧
    (activateSeq s c q).maxSpatialId = maxSpatialOf (chosenIdc s q) := by
  have : ((q.ops[if s.operatingPoint < q.ops.length then s.operatingPoint else 0]?).map (·.idc)).getD 0 = chosenIdc s q := by
    unfold chosenIdc
    split <;> rfl
  unfold activateSeq
  dsimp only
  rw [this]
  split
  · exact ⟨rfl, rfl, rfl⟩
  · split
    · exact ⟨rfl, rfl, rfl⟩
    · split <;> exact ⟨rfl, rfl, rfl⟩

/-- What follows the submission of a complete frame. -/
def afterSubmit : Option (Dec κ × Option Err) → Option (Dec κ × Option Err)
  | none => none
  | some (c, some e) => some (c, some e)
  | some (c, none) => if c.tiles = [] then some ({ c with frameHdr := none, nTiles := 0 }, none) else none

theorem key_step {s : Settings} {env : Env κ} (h1 : s.nFc = 1) (hkb : KeyBlind env) {k : Nat} {c' c : Dec κ} (hn : Near k c' c) (hi' : DecOk c') (hi : Inv s (env.from k) c) {q : SeqHdr}
    (hq : c.seq = some q) (hop : c.opIdc = chosenIdc s q) (hoom : env.oom c'.submitted = .no) {pkt : Packet} (hkf : HasKeyFrame κ s q pkt.data pkt.props) :
    erR 0 (parseObus s env c' pkt) = erR k (parseObus s (env.from k) c pkt) := by
  obtain ⟨o, rest, h, d, a1, a2, a3, a4, a5, a6, a7, a8, a9⟩ := hkf
  have hp : pkt.data ≠ [] := by intro h0; rw [h0] at a1; cases a1
  rw [parseObus_eq s env hi' pkt hp, parseObus_eq s (env.from k) hi.ok pkt hp]
  have hq0 := (activate_seq s (Dec.init : Dec κ) q).1
  obtain ⟨b1, b2, b3⟩ := frameCase_near (c' := c') (by rw [hn.seq, hq, hq0]) _ _ _ _ a5 a6 a7 a8
  obtain ⟨d1, d2, d3⟩ := frameCase_near (c' := c) (by rw [hq, hq0]) _ _ _ _ a5 a6 a7 a8
  unfold stepObu
  rw [a1]
  dsimp only
  rw [a3, hn.opIdc, hop, a4, a2, b1, d1]
  simp only [Bool.false_eq_true, if_false]
  -- the contexts with the frame
  obtain ⟨y, ey, hy⟩ := obuCase_step (s := s) hi.ok o.type (obuHdrOf pkt.data).temporalId (obuHdrOf pkt.data).spatialId pkt.props o.payload
  rw [a2, d1] at ey
  cases ey
  have hid := (hi.caseStep hy).1
  dsimp only at hid
  have htl : d.tiles ≠ [] := by
    have hc := (hid.cover h rfl).1
    intro h0
    dsimp only at hc
    rw [h0] at hc
    have : 0 = d.nTiles := hc
    have := tiles_pos (hid.hdr h rfl)
    omega
  have hsk : skipFrame s h = false := by unfold skipFrame; rw [a7]; rfl
  have hfin : ∀ (env : Env κ) (c : Dec κ), c.seq = some q → c.frameHdr = some (.frame h) → c.tiles = d.tiles → c.nTiles = d.nTiles → finishObu s env c pkt.props =
      afterSubmit (submitFrame s env c q h pkt.props) := by
    intro env c x1 x2 x3 x4
    unfold finishObu
    rw [x1, x2]
    dsimp only
    rw [if_pos (x4.trans a9)]
    unfold frameComplete
    rw [if_neg (by rw [hsk]; simp), if_neg (by rw [x3]; exact htl)]
    rfl
  have hsub := key_submit h1 hkb (k := k) (c' := { c' with frameHdr := some (.frame h), tiles := d.tiles, nTiles := d.nTiles })
    (c := { c with frameHdr := some (.frame h), tiles := d.tiles, nTiles := d.nTiles })
    ⟨hn.seq, hn.opIdc, hn.maxSpatialId, hn.info, hn.newTu, hn.errProps, hn.cachedError, hn.out, hn.cache, hn.ring, hn.next, hn.input, hn.drain, hn.submitted, hn.refs⟩
    q a7 a8 b3 hoom rfl rfl pkt.props
  have f1 := hfin env { c' with frameHdr := some (.frame h), tiles := d.tiles, nTiles := d.nTiles } (hn.seq.trans hq) rfl rfl rfl
  have f2 := hfin (env.from k) { c with frameHdr := some (.frame h), tiles := d.tiles, nTiles := d.nTiles } hq rfl rfl rfl
  rw [f1, f2]
  have ht : ∀ {x : Dec κ} {env : Env κ} {c : Dec κ}, submitFrame s env c q h pkt.props = some (x, none) → x.tiles = [] := fun e => submitFrame_tiles e
  have ht1 := fun x => ht (x := x) (env := env) (c := { c' with frameHdr := some (.frame h), tiles := d.tiles, nTiles := d.nTiles })
  have ht2 := fun x => ht (x := x) (env := env.from k) (c := { c with frameHdr := some (.frame h), tiles := d.tiles, nTiles := d.nTiles })
  generalize submitFrame s env { c' with frameHdr := some (.frame h), tiles := d.tiles, nTiles := d.nTiles } q h pkt.props = x' at hsub ht1 ⊢
  generalize submitFrame s (env.from k) { c with frameHdr := some (.frame h), tiles := d.tiles, nTiles := d.nTiles } q h pkt.props = x at hsub ht2 ⊢
  cases x' with
  | none => cases x with
    | none => rfl
    | some x => cases hsub
  | some x' => cases x with
    | none => cases hsub
    | some x =>
      obtain ⟨f', e'⟩ := x'
      obtain ⟨f, e⟩ := x
      simp only [erR, Option.map_some, Option.some.injEq, Prod.mk.injEq] at hsub
      obtain ⟨h7, rfl⟩ := hsub
      cases e' with
      | some e => simp only [afterSubmit, erR, Option.map_some, h7]
      | none =>
        have t1 := ht1 _ rfl
        have t2 := ht2 _ rfl
        simp only [afterSubmit, t1, t2, if_true, erR, Option.map_some]
        congr 2
        have h8 : f'.er 0 = f.er k := h7
        have := congrArg (fun d : Dec κ => { d with frameHdr := none, tiles := [], nTiles := 0 }) h8
        exact this

/-! ## The first packet after the error -/

/-- Nothing is left to be handed out, and the properties of the last error were fetched. -/
structure Rest (c : Dec κ) : Prop where
  input : c.input = none
  out : c.out = none
  cache : c.cache = none
  errProps : c.errProps = none

theorem send_eq {s : Settings} {env : Env κ} {k : Nat} {c' c : Dec κ} {p : Packet} (hp : p.data ≠ [] ∧ p.data.length < 2 ^ 63) (hin' : c'.input = none) (hin : c.input = none)
    (key : erR 0 (genPicture s env { c' with drain := false, input := some p }) = erR k (genPicture s (env.from k) { c with drain := false, input := some p })) :
    (sendData s env c' (some p)).map (fun r => (r.ctx.er 0, r.res, r.left)) = (sendData s (env.from k) c (some p)).map (fun r => (r.ctx.er k, r.res, r.left)) := by
  have hv : ¬ (Option.any (fun p : Packet => p.data.isEmpty || decide (2 ^ 63 ≤ p.data.length)) (some p) = true) := by
    simp only [Option.any_some, Bool.or_eq_true, List.isEmpty_iff, decide_eq_true_eq]
    rintro (h | h)
    · exact hp.1 h
    · have := hp.2; omega
  unfold sendData
  rw [if_neg hv, if_neg hv]
  simp only [Option.isSome_some, if_true, hin, hin', Option.isSome_none, Bool.false_eq_true, if_false]
  generalize genPicture s env { c' with drain := false, input := some p } = y' at key ⊢
  generalize genPicture s (env.from k) { c with drain := false, input := some p } = y at key ⊢
  cases y' with
  | none => cases y with
    | none => rfl
    | some y => cases key
  | some y' => cases y with
    | none => cases key
    | some y =>
      obtain ⟨f', e'⟩ := y'
      obtain ⟨f, e⟩ := y
      simp only [erR, Option.map_some, Option.some.injEq, Prod.mk.injEq] at key
      obtain ⟨h7, rfl⟩ := key
      cases e' <;> simp only [Option.map_some, h7]

theorem genPicture_eq {s : Settings} {env : Env κ} {c : Dec κ} {p : Packet} (h1 : c.cachedError = none) (h2 : c.out = none) (h3 : c.cache = none) (h4 : c.input = some p) :
    genPicture s env c = genLoop s env c p := by
  unfold genPicture
  rw [ready_false h1 h2 h3]
  dsimp only
  rw [h4]

/-- What a decoder has to hold for a temporal unit to be decoded as by a new one: no picture and no packet, no error
that was not asked for, no metadata that would go with the next picture, and no frame to be shown. -/
structure Ready (c : Dec κ) (q : SeqHdr) : Prop extends Rest c where
  notStuck : NotStuck c
  t35 : c.info.t35 = []
  hdr10 : (c.info.cll = none ∧ c.info.mdcv = none) ∨ ∃ q', c.seq = some q' ∧ q.core ≠ q'.core

/-- The sequence header starts a new coded video sequence for this decoder. -/
def NewCore (c : Dec κ) (q : SeqHdr) : Prop := ∀ q', c.seq = some q' → q.core ≠ q'.core

/-- After the temporal delimiter and the sequence header. -/
def afterSeq (s : Settings) (c : Dec κ) (q : SeqHdr) (p : Packet) (r1 : List UInt8) : Dec κ :=
  activateSeq s { c with drain := false, frameFlags := { c.frameFlags with newTu := true }, input := some { p with data := r1 } } q

theorem activate_simple (s : Settings) (c : Dec κ) (q : SeqHdr) :
    (activateSeq s c q).errProps = c.errProps ∧ (activateSeq s c q).cachedError = c.cachedError ∧ (activateSeq s c q).out = c.out ∧
    (activateSeq s c q).cache = c.cache ∧ (activateSeq s c q).ring = c.ring ∧ (activateSeq s c q).next = c.next ∧ (activateSeq s c q).input = c.input ∧
    (activateSeq s c q).drain = c.drain ∧ (activateSeq s c q).submitted = c.submitted ∧ (activateSeq s c q).frameFlags.newTu = c.frameFlags.newTu ∧
    (activateSeq s c q).info.t35 = c.info.t35 ∧ (∀ i, 8 ≤ i → (activateSeq s c q).refs i = c.refs i) := by
  unfold activateSeq
  dsimp only
  split
  · exact ⟨rfl, rfl, rfl, rfl, rfl, rfl, rfl, rfl, rfl, rfl, rfl, fun _ _ => rfl⟩
  · split
    · refine ⟨rfl, rfl, rfl, rfl, rfl, rfl, rfl, rfl, rfl, rfl, rfl, fun i hi => ?_⟩
      dsimp only
      rw [if_neg (by omega)]
    · split <;> exact ⟨rfl, rfl, rfl, rfl, rfl, rfl, rfl, rfl, rfl, rfl, rfl, fun _ _ => rfl⟩

theorem activate_info {s : Settings} {c : Dec κ} {q : SeqHdr} (h1 : c.info.t35 = []) (h2 : (c.info.cll = none ∧ c.info.mdcv = none) ∨ ∃ q', c.seq = some q' ∧ q.core ≠ q'.core) :
    (activateSeq s c q).info = {} := by
  have h0 : c.info.cll = none → c.info.mdcv = none → c.info = {} := by
    intro a b
    generalize c.info = i at h1 a b
    cases i
    dsimp only at h1 a b
    rw [h1, a, b]
  unfold activateSeq
  dsimp only
  split
  · rename_i hs
    rcases h2 with h2 | ⟨q', h3, _⟩
    · exact h0 h2.1 h2.2
    · rw [hs] at h3; cases h3
  · rename_i q' hs
    split
    · dsimp only; rw [h1]
    · rename_i hq
      have : c.info = {} := by
        rcases h2 with h2 | ⟨q', h3, h4⟩
        · exact h0 h2.1 h2.2
        · rw [hs] at h3; cases h3; exact absurd h4 hq
      split <;> exact this

theorem activate_new {s : Settings} {c : Dec κ} {q : SeqHdr} (hn : NewCore c q) (hr : c.seq = none → ∀ i, c.refs i = {}) (ht : ∀ i, 8 ≤ i → c.refs i = {}) :
    (activateSeq s c q).frameHdr = none ∧ ∀ i, (activateSeq s c q).refs i = {} := by
  unfold activateSeq
  dsimp only
  split
  · rename_i hs; exact ⟨rfl, hr hs⟩
  · rename_i q' hs
    rw [if_pos (hn q' hs)]
    refine ⟨rfl, fun i => ?_⟩
    dsimp only
    split
    · rfl
    · exact ht i (by omega)

theorem inv_flags {s : Settings} {env : Env κ} {c : Dec κ} (hi : Inv s env c) (f : PicFlags) (x : Option Packet) (hx : ∀ y, x = some y → y.data ≠ []) :
    Inv s env { c with drain := false, frameFlags := f, input := x } :=
  ⟨hi.seq, hi.op, hi.refs, hi.hdr, hi.limit, hi.hdrFor, hi.cover, hi.decoded, hi.out, hi.cache, hi.sync, hi.pics, hi.skipped, hi.slots, hx⟩

/-- The temporal delimiter. -/
theorem gen_td {s : Settings} {env : Env κ} {c : Dec κ} (hi : Inv s env c) (hh : Half s c) {q : SeqHdr} (hr : Ready c q) {p : Packet} {o r1} (h : splitObu p.data = some (o, r1)) (ht : o.type = 2)
    (hb : (s.strict && obuForbidden p.data) = false) (hr1 : r1 ≠ []) :
    genPicture s env { c with drain := false, input := some p } =
      genLoop s env { c with drain := false, frameFlags := { c.frameFlags with newTu := true }, input := some { p with data := r1 } } { p with data := r1 } := by
  have hp : p.data ≠ [] := by intro h0; rw [h0] at h; cases h
  rw [genPicture_eq (p := p) (by exact hh.cachedError) (by exact hr.out) (by exact hr.cache) rfl]
  have hi2 := inv_flags hi c.frameFlags (some p) (fun y hy => by cases hy; exact hp)
  have := td_step (env := env) (c := { c with drain := false, input := some p }) (s := s) (pkt := p) hi2.ok (hh.part.congr rfl rfl rfl) hr.notStuck h ht hb
  exact gen_step h hr1 this hh.cachedError hr.out hr.cache

/-- The sequence header. -/
theorem parse_sh {s : Settings} {env : Env κ} {c : Dec κ} (hi : Inv s env c) (hh : Half s c) {q : SeqHdr} (hr : Ready c q) {p : Packet} {o r1 rest} (h : splitObu r1 = some (o, rest)) (ht : o.type = 1)
    (hb : (s.strict && obuForbidden r1) = false) (hq : ((OptionT.run (parseSeqHdr s.strict)).run (BitSt.init o.payload)).1 = some q) :
    parseObus s env { c with drain := false, frameFlags := { c.frameFlags with newTu := true }, input := some { p with data := r1 } } { p with data := r1 } =
      some (afterSeq s c q p r1, .ok (r1.length - rest.length)) := by
  have hp : r1 ≠ [] := by intro h0; rw [h0] at h; cases h
  have hi2 := inv_flags hi { c.frameFlags with newTu := true } (some { p with data := r1 }) (fun y hy => by cases hy; exact hp)
  have ho := activate_open (s := s) (c := { c with drain := false, frameFlags := { c.frameFlags with newTu := true }, input := some { p with data := r1 } }) (hh.part.congr rfl rfl rfl) hr.notStuck q
  exact seq_step (pkt := { p with data := r1 }) hi2.ok h ht ho.1 ho.2 hb hq

theorem seq_sim {s : Settings} {env : Env κ} (h1 : s.nFc = 1) {c : Dec κ} (ht : Tidy s c) (hh : Half s c) {q : SeqHdr} (hr : Ready c q) (hn : NewCore c q) (p : Packet) (r1 : List UInt8) :
    Sim c.submitted (afterSeq s c q p r1) (afterSeq s (Dec.init : Dec κ) q p r1) := by
  unfold afterSeq
  obtain ⟨a1, a2, a3, a4, a5, a6, a7, a8, a9, a10, a11, a12⟩ := activate_simple s { c with drain := false, frameFlags := { c.frameFlags with newTu := true }, input := some { p with data := r1 } } q
  obtain ⟨b1, b2, b3, b4, b5, b6, b7, b8, b9, b10, b11, b12⟩ := activate_simple s { (Dec.init : Dec κ) with drain := false, frameFlags := { (Dec.init : Dec κ).frameFlags with newTu := true }, input := some { p with data := r1 } } q
  have d1 := activate_seq s { c with drain := false, frameFlags := { c.frameFlags with newTu := true }, input := some { p with data := r1 } } q
  have d2 := activate_seq s { (Dec.init : Dec κ) with drain := false, frameFlags := { (Dec.init : Dec κ).frameFlags with newTu := true }, input := some { p with data := r1 } } q
  have e1 := activate_new (s := s) (c := { c with drain := false, frameFlags := { c.frameFlags with newTu := true }, input := some { p with data := r1 } }) (q := q) hn (fun hs => (hh.seq hs).2) ht.refs
  have e2 := activate_new (s := s) (c := { (Dec.init : Dec κ) with drain := false, frameFlags := { (Dec.init : Dec κ).frameFlags with newTu := true }, input := some { p with data := r1 } }) (q := q)
    (fun _ hx => by cases hx) (fun _ _ => rfl) (fun _ _ => rfl)
  have f1 := activate_info (s := s) (c := { c with drain := false, frameFlags := { c.frameFlags with newTu := true }, input := some { p with data := r1 } }) (q := q) hr.t35 hr.hdr10
  have f2 := activate_info (s := s) (c := { (Dec.init : Dec κ) with drain := false, frameFlags := { (Dec.init : Dec κ).frameFlags with newTu := true }, input := some { p with data := r1 } }) (q := q) rfl (Or.inl ⟨rfl, rfl⟩)
  generalize activateSeq s { c with drain := false, frameFlags := { c.frameFlags with newTu := true }, input := some { p with data := r1 } } q = x at *
  generalize activateSeq s { (Dec.init : Dec κ) with drain := false, frameFlags := { (Dec.init : Dec κ).frameFlags with newTu := true }, input := some { p with data := r1 } } q = y at *
  have hring : ∀ i, c.ring i = {} := fun i => ht.ring i (Or.inr h1)
  have hnext : c.next = 0 := by have := ht.next; omega
  have hfe : x.frameFlags.er = y.frameFlags.er := by
    simp only [PicFlags.er]
    generalize x.frameFlags = g at a10 ⊢
    generalize y.frameFlags = g' at b10 ⊢
    cases g; cases g'
    dsimp only at *
    rw [a10, b10]
  unfold Sim Dec.er
  dsimp only at *
  rw [hfe, d1.1, d1.2.1, d1.2.2, d2.1, d2.2.1, d2.2.2, e1.1, e2.1, f1, f2, a1, a2, a3, a4, a5, a6, a7, a8, a9, b1, b2, b3, b4, b5, b6, b7, b8, b9, hnext, hr.out, hr.cache, hr.errProps, hh.cachedError]
  simp only [e1.2, e2.2, hring, heldOr]
  simp [Dec.init]

theorem seq_near {s : Settings} {env : Env κ} (h1 : s.nFc = 1) {c : Dec κ} (ht : Tidy s c) (hh : Half s c) {q : SeqHdr} (hr : Ready c q) (p : Packet) (r1 rest : List UInt8) :
    Near c.submitted { afterSeq s c q p r1 with input := some { p with data := rest } } { afterSeq s (Dec.init : Dec κ) q p r1 with input := some { p with data := rest } } := by
  unfold afterSeq
  obtain ⟨a1, a2, a3, a4, a5, a6, a7, a8, a9, a10, a11, a12⟩ := activate_simple s { c with drain := false, frameFlags := { c.frameFlags with newTu := true }, input := some { p with data := r1 } } q
  obtain ⟨b1, b2, b3, b4, b5, b6, b7, b8, b9, b10, b11, b12⟩ := activate_simple s { (Dec.init : Dec κ) with drain := false, frameFlags := { (Dec.init : Dec κ).frameFlags with newTu := true }, input := some { p with data := r1 } } q
  have d1 := activate_seq s { c with drain := false, frameFlags := { c.frameFlags with newTu := true }, input := some { p with data := r1 } } q
  have d2 := activate_seq s { (Dec.init : Dec κ) with drain := false, frameFlags := { (Dec.init : Dec κ).frameFlags with newTu := true }, input := some { p with data := r1 } } q
  have f1 := activate_info (s := s) (c := { c with drain := false, frameFlags := { c.frameFlags with newTu := true }, input := some { p with data := r1 } }) (q := q) hr.t35 hr.hdr10
  have f2 := activate_info (s := s) (c := { (Dec.init : Dec κ) with drain := false, frameFlags := { (Dec.init : Dec κ).frameFlags with newTu := true }, input := some { p with data := r1 } }) (q := q) rfl (Or.inl ⟨rfl, rfl⟩)
  generalize activateSeq s { c with drain := false, frameFlags := { c.frameFlags with newTu := true }, input := some { p with data := r1 } } q = x at *
  generalize activateSeq s { (Dec.init : Dec κ) with drain := false, frameFlags := { (Dec.init : Dec κ).frameFlags with newTu := true }, input := some { p with data := r1 } } q = y at *
  have hring : c.ring = fun _ => {} := funext fun i => ht.ring i (Or.inr h1)
  have hnext : c.next = 0 := by have := ht.next; omega
  dsimp only at *
  exact {
    seq := by dsimp only; rw [d1.1, d2.1]
    opIdc := by dsimp only; rw [d1.2.1, d2.2.1]
    maxSpatialId := by dsimp only; rw [d1.2.2, d2.2.2]
    info := by dsimp only; rw [f1, f2]
    newTu := by dsimp only; rw [a10, b10]
    errProps := by dsimp only; rw [a1, b1, hr.errProps]; rfl
    cachedError := by dsimp only; rw [a2, b2, hh.cachedError]; rfl
    out := ⟨a3.trans hr.out, b3.trans rfl⟩
    cache := ⟨a4.trans hr.cache, b4.trans rfl⟩
    ring := by dsimp only; rw [a5, b5, hring]; rfl
    next := by dsimp only; rw [a6, b6, hnext]; rfl
    input := rfl
    drain := by dsimp only; rw [a8, b8]
    submitted := by dsimp only; rw [a9, b9]; simp [Dec.init]
    refs := fun i hi => ⟨(a12 i hi).trans (ht.refs i hi), (b12 i hi).trans rfl⟩ }

/-- The first packet: it begins with a temporal delimiter and a sequence header, and either a new coded video sequence
starts there or a key frame follows. -/
theorem first_packet {s : Settings} {env : Env κ} (h1 : s.nFc = 1) (hb : FlagBlind env) {c : Dec κ} (hi : Inv s env c) (ht : Tidy s c) (hh : Half s c) {q : SeqHdr} (hr : Ready c q) {p : Packet} {rest : List UInt8}
    (hp : Begins s p.data q rest) (hrest : NewCore c q ∨ HasKeyFrame κ s q rest p.props ∧ KeyBlind env ∧ env.oom c.submitted = .no) :
    erR 0 (genPicture s env { c with drain := false, input := some p }) =
      erR c.submitted (genPicture s (env.from c.submitted) { (Dec.init : Dec κ) with drain := false, input := some p }) := by
  obtain ⟨o1, r1, o2, x1, x2, x3, x4, x5, x6, x7⟩ := hp
  have hr1 : r1 ≠ [] := by intro h0; rw [h0] at x4; cases x4
  have hi0 : Inv s (env.from c.submitted) (Dec.init : Dec κ) := Inv.init _ _
  have hh0 : Half s (Dec.init : Dec κ) := ⟨⟨rfl, fun _ => rfl, fun _ => ⟨rfl, fun _ => rfl⟩⟩, .none rfl⟩
  have hr0 : Ready (Dec.init : Dec κ) q := ⟨⟨rfl, rfl, rfl, rfl⟩, (fun _ _ _ h => by cases h), rfl, Or.inl ⟨rfl, rfl⟩⟩
  rw [gen_td hi hh hr x1 x2 x3 hr1, gen_td hi0 hh0 hr0 x1 x2 x3 hr1]
  have g1 := parse_sh hi hh hr (p := p) x4 x5 x6 x7
  have g2 := parse_sh hi0 hh0 hr0 (p := p) x4 x5 x6 x7
  have hi2 := inv_flags hi0 { (Dec.init : Dec κ).frameFlags with newTu := true } (some { p with data := r1 }) (fun y hy => by cases hy; exact hr1)
  have hi2' := inv_flags hi { c.frameFlags with newTu := true } (some { p with data := r1 }) (fun y hy => by cases hy; exact hr1)
  rcases hrest with hn | ⟨hk, hkb, hoom⟩
  · refine genLoop_of hr1 hi2 rfl ?_ ?_
    · rw [g1, g2]
      have := seq_sim (env := env) h1 ht hh hr hn p r1
      have : _ = _ := this
      simp only [erR, Option.map_some, this]
    · intro m hm h0 d' d h4 a2 a3
      refine Sim.genLoop hb _ h4 a2 a3 rfl ?_
      intro h0
      have := congrArg List.length h0
      simp at this hm; omega
  · have hrest : rest ≠ [] := by
      obtain ⟨_, _, _, _, h, _⟩ := hk
      intro h0; rw [h0] at h; cases h
    have s1 := activate_simple s { c with drain := false, frameFlags := { c.frameFlags with newTu := true }, input := some { p with data := r1 } } q
    have s2 := activate_simple s { (Dec.init : Dec κ) with drain := false, frameFlags := { (Dec.init : Dec κ).frameFlags with newTu := true }, input := some { p with data := r1 } } q
    rw [gen_step x4 hrest g1 (s1.2.1.trans hh.cachedError) (s1.2.2.1.trans hr.out) (s1.2.2.2.1.trans hr.cache), gen_step x4 hrest g2 (s2.2.1.trans rfl) (s2.2.2.1.trans rfl) (s2.2.2.2.1.trans rfl)]
    obtain ⟨⟨d, rr⟩, ge, gi, _⟩ := hi2.parseObus (pkt := { p with data := r1 }) rfl hr1
    rw [g2] at ge
    cases ge
    obtain ⟨⟨d, rr⟩, ge, gi', _⟩ := hi2'.parseObus (pkt := { p with data := r1 }) hr.out hr1
    rw [g1] at ge
    cases ge
    have hiN := Inv.setInput gi (some { p with data := rest }) (fun y hy => by cases hy; exact hrest)
    have hiN' := Inv.setInput gi' (some { p with data := rest }) (fun y hy => by cases hy; exact hrest)
    have hnear := seq_near (env := env) h1 ht hh hr p r1 rest
    refine genLoop_of hrest hiN hnear.out.2 ?_ ?_
    · have hs := activate_seq s { (Dec.init : Dec κ) with drain := false, frameFlags := { (Dec.init : Dec κ).frameFlags with newTu := true }, input := some { p with data := r1 } } q
      refine key_step h1 hkb hnear hiN'.ok hiN hs.1 hs.2.1 ?_ hk
      rw [hnear.submitted]
      have : (afterSeq s (Dec.init : Dec κ) q p r1).submitted = 0 := s2.2.2.2.2.2.2.2.2.1
      dsimp only
      rw [this, Nat.zero_add]; exact hoom
    · intro m hm h0 d' d h4 a2 a3
      refine Sim.genLoop hb _ h4 a2 a3 rfl ?_
      intro h0
      have := congrArg List.length h0
      simp at this hm; omega

/-- And all replies from then on. -/
theorem recovered {s : Settings} {env : Env κ} (h1 : s.nFc = 1) (hb : FlagBlind env) {c : Dec κ} (hi : Inv s env c) (ht : Tidy s c) (hh : Half s c) {q : SeqHdr} (hr : Ready c q) {p : Packet} {rest : List UInt8}
    (hp : Begins s p.data q rest) (hrest : NewCore c q ∨ HasKeyFrame κ s q rest p.props ∧ KeyBlind env ∧ env.oom c.submitted = .no) (hlen : p.data.length < 2 ^ 63) (l : List Call) :
    ∃ d' d rs' rs, session s env c (.send (some p) :: l) = some (d', rs') ∧ session s (env.from c.submitted) Dec.init (.send (some p) :: l) = some (d, rs) ∧ rs'.map Reply.er = rs.map Reply.er := by
  have hpne : p.data ≠ [] := by
    obtain ⟨_, _, _, h, _⟩ := hp
    intro h0; rw [h0] at h; cases h
  have hi0 : Inv s (env.from c.submitted) (Dec.init : Dec κ) := Inv.init _ _
  have key := send_eq (k := c.submitted) ⟨hpne, hlen⟩ hr.input (c := Dec.init) rfl (first_packet h1 hb hi ht hh hr hp hrest)
  obtain ⟨y, e1, hi2⟩ := hi0.call (.send (some p))
  obtain ⟨x, e2, _⟩ := hi0.sendData (some p)
  simp only [Dav1d.call, e2, Option.map_some] at e1
  cases e1
  rw [e2] at key
  cases e3 : Dav1d.sendData s env c (some p) with
  | none => rw [e3] at key; cases key
  | some x' =>
    rw [e3] at key
    simp only [Option.map_some, Option.some.injEq, Prod.mk.injEq] at key
    obtain ⟨f', f, rs', rs, g1, g2, _, g4⟩ := Sim.session hb l (show Sim c.submitted x'.ctx x.ctx from key.1) hi2
    refine ⟨f', f, .sent x'.res x'.left :: rs', .sent x.res x.left :: rs, ?_, ?_, ?_⟩
    · simp only [Dav1d.session, Dav1d.call, e3, g1, Option.map_some]
    · simp only [Dav1d.session, Dav1d.call, e2, g2, Option.map_some]
    · simp only [List.map_cons, key.2.1, key.2.2, g4]

/-! ## The frame that can not be shown -/

/-- A frame to be shown that can not be is held, and nothing else. -/
structure Stuck (s : Settings) (env : Env κ) (c : Dec κ) : Prop where
  inv : Inv s env c
  half : Half s c
  hdr : ∃ i d n, c.frameHdr = some (.showExisting i d n)
  input : c.input = none
  out : c.out = none
  cache : c.cache = none

theorem Stuck.send {s : Settings} {env : Env κ} {c : Dec κ} (h : Stuck s env c) {p : Packet} {o rest} (h1 : splitObu p.data = some (o, rest)) (ht : o.type = 2) (hl : p.data.length < 2 ^ 63) :
    ∃ d, call s env c (.send (some p)) = some (d, .sent (some .EINVAL) (some p)) ∧ Stuck s env d := by
  obtain ⟨i, dd, n, hd⟩ := h.hdr
  have hp : p.data ≠ [] := by intro h0; rw [h0] at h1; cases h1
  have hi2 := inv_flags h.inv c.frameFlags (some p) (fun y hy => by cases hy; exact hp)
  have hf : Fails s { c with drain := false, input := some p } i := by
    have := h.half.part
    unfold Open at this
    rw [hd] at this
    exact this
  have hs : c.seq ≠ none := by
    intro h0
    have := (h.half.seq h0).1
    rw [hd] at this; cases this
  obtain ⟨f, hf⟩ := td_stuck (env := env) (c := { c with drain := false, input := some p }) (pkt := p) hi2.ok hs hd hf h1 ht
  have hgen : genPicture s env { c with drain := false, input := some p } = some ({ c with drain := false, input := none, frameFlags := f, errProps := some p.props }, some .EINVAL) := by
    rw [genPicture_eq (p := p) (by exact h.half.cachedError) (by exact h.out) (by exact h.cache) rfl, genLoop, hf]
    dsimp only
    rw [ready_false (by exact h.half.cachedError) (by exact h.out) (by exact h.cache)]
  have hv : ¬ (Option.any (fun p : Packet => p.data.isEmpty || decide (2 ^ 63 ≤ p.data.length)) (some p) = true) := by
    simp only [Option.any_some, Bool.or_eq_true, List.isEmpty_iff, decide_eq_true_eq]
    rintro (h | h)
    · exact hp h
    · omega
  refine ⟨{ c with drain := false, input := none, frameFlags := f, errProps := some p.props }, ?_, ?_⟩
  · unfold call
    dsimp only
    unfold sendData
    rw [if_neg hv]
    simp only [Option.isSome_some, if_true, h.input, Option.isSome_none, Bool.false_eq_true, if_false, hgen, Option.map_some]
  · have hi := h.inv
    exact ⟨⟨hi.seq, hi.op, hi.refs, hi.hdr, hi.limit, hi.hdrFor, hi.cover, hi.decoded, hi.out, hi.cache, hi.sync, hi.pics, hi.skipped, hi.slots, fun _ hy => by cases hy⟩,
      h.half.congr rfl rfl rfl rfl rfl rfl, ⟨i, dd, n, hd⟩, rfl, h.out, h.cache⟩

theorem Stuck.get {s : Settings} {env : Env κ} {c : Dec κ} (h1 : s.nFc = 1) (h : Stuck s env c) :
    ∃ d, call s env c .get = some (d, .got (.error .EAGAIN)) ∧ Stuck s env d := by
  refine ⟨{ c with drain := true }, ?_, ?_⟩
  · have hr : ∀ b, outputReady s { c with drain := true } b = (false, { c with drain := true }) := fun b =>
      ready_false (by exact h.half.cachedError) (by exact h.out) (by exact h.cache) b
    unfold call getPicture genPicture
    dsimp only
    rw [hr]
    dsimp only
    rw [h.input]
    dsimp only
    rw [h.half.cachedError]
    dsimp only
    have hr2 := hr (s.nFc == 1)
    have hin := h.input
    have hce := h.half.cachedError
    simp only [hin, hce] at hr2
    rw [hr2]
    dsimp only
    rw [if_neg (by omega)]
    rw [← hin, ← hce]; rfl
  · have hi := h.inv
    exact ⟨⟨hi.seq, hi.op, hi.refs, hi.hdr, hi.limit, hi.hdrFor, hi.cover, hi.decoded, hi.out, hi.cache, hi.sync, hi.pics, hi.skipped, hi.slots, hi.input⟩,
      h.half.congr rfl rfl rfl rfl rfl rfl, h.hdr, h.input, h.out, h.cache⟩

end Dav1d.Recover
