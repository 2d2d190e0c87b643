import Verif.Cdf.Main
import Verif.Obu.FrameProps
/-!
# C64: the probability tables a tile starts with

`session junk slots l` runs the code's handling of the tables (src/cdf.c:3955-4110, src/decode.c:3493-3501, 3676-3683) over
the events `l` and lists what the tiles of each frame see when they start; `Spec.session` does the same with the rules
of the specification. `junk` are the contents of memory that is not yet initialised.
-/
namespace Dav1d.CdfTab

/-- C64: for every sequence of frames, shown key frames and dropped slots, with tiles that decode anything, the tiles of
each frame start with exactly the tables of the specification, although the code saves neither `kfym` nor `intrabc`,
saves the tables for inter prediction only in inter frames and has no separate tables for block vectors. -/
theorem C64_tables_follow_spec (junk : Mem) (l : List Ev) (hw : ∀ e ∈ l, e.WF) :
    session junk (fun _ => none) l = Spec.session (fun _ => none) l :=
  (session_rel l _ _ (fun _ => trivial) hw).1

/-- C64: in particular no tile ever sees uninitialised memory. -/
theorem C64_no_junk (junk junk' : Mem) (l : List Ev) (hw : ∀ e ∈ l, e.WF) :
    session junk (fun _ => none) l = session junk' (fun _ => none) l := by
  rw [C64_tables_follow_spec junk l hw, C64_tables_follow_spec junk' l hw]

/-- C64: all tables that a tile can read are valid distributions with as many symbols as the reader expects, and start
with the counter 0. -/
theorem C64_tables_valid (junk : Mem) (l : List Ev) (hw : ∀ e ∈ l, e.WF) (o : List (Σ k, View k))
    (h : session junk (fun _ => none) l = some o) :
    ∀ x ∈ o, ∀ t : RTab x.1, (x.2 t).Valid ∧ (x.2 t).count = 0 ∧ (x.2 t).probs.length = t.1.n + 1 :=
  fun x hx => (session_rel l (fun _ => none) (fun _ => none) (fun _ => trivial) hw).2 o h x hx

/-- C64: the condition on the events is guaranteed by the header parser: an accepted header of a key or intra only frame
has no primary reference frame. -/
theorem C64_intra_no_primary (c : FhCtx) (hc : ReachableCtx c) (s s' : BitSt) (h : FrameHdr)
    (he : (parseNewFrameHdr c).exec s = (some h, s')) (hk : isKeyOrIntra h.base.frameType = true) :
    h.base.primaryRefFrame = PRIMARY_REF_NONE := by
  have hb := (hc.hdr.exec he).base
  by_cases hp : h.base.primaryRefFrame = PRIMARY_REF_NONE
  · exact hp
  · have := hb.primaryNone hp
    unfold isKeyOrIntra at hk
    rw [this] at hk
    cases hk

/-- C64: the copy of the static tables, although done with two overlapping copies of memory ranges, gives every table
of every member its default values and a zero counter. -/
theorem C64_default_tables (q : Nat) (hq : q < 4) (junk : Mem) (t : Tab) (ht : rowUsed t.field t.row = true) :
    (copyStatic q junk).row t = ((initRows q t.field).getD t.row []).map (fun x => 32768 - x) ++ [0] ∧
    CdfValid ((copyStatic q junk).row t) :=
  ⟨static_row q hq junk t ht, (static_valid q hq junk t ht).1⟩

/-- C64: saving after an inter frame takes all tables of the tile that an inter frame can read, with cleared counters. -/
theorem C64_update_inter (dst src : Mem) (t : Tab) (ht : t.readBy .inter = true) :
    (threadUpdate .inter dst src).row t = (src.row t).dropLast ++ [0] := by
  have hu := read_used ht
  rw [saved_read hu] at ht
  rw [update_row _ _ _ _ hu, if_pos ht]
  rfl

/-- C64: saving after an intra frame takes the tables that both kinds of frames can read, except for motion vectors, with
cleared counters, and leaves the others. -/
theorem C64_update_intra (dst src : Mem) (t : Tab) (ht : rowUsed t.field t.row = true) :
    (threadUpdate .intra dst src).row t =
      if t.readBy .intra = true ∧ t.readBy .inter = true ∧ Spec.isMv t.field = false then (src.row t).dropLast ++ [0]
      else dst.row t := by
  rw [update_row _ _ _ _ ht]
  have e : saved .intra t.field = true ↔ (t.readBy .intra = true ∧ t.readBy .inter = true ∧ Spec.isMv t.field = false) := by
    unfold Tab.readBy
    rw [ht, Bool.true_and, Bool.true_and]
    obtain ⟨f, r⟩ := t
    cases f with
    | mode c => cases c <;> exact ⟨fun h => by first | exact ⟨rfl, rfl, rfl⟩ | exact Bool.noConfusion (show false = true from h),
        fun h => by first | rfl | exact Bool.noConfusion (show false = true from h.1) | exact Bool.noConfusion (show false = true from h.2.1)⟩
    | coef c => exact ⟨fun _ => ⟨rfl, rfl, rfl⟩, fun _ => rfl⟩
    | mv b c => exact ⟨fun h => Bool.noConfusion (show false = true from h), fun h => Bool.noConfusion (show true = false from h.2.2)⟩
    | joint => exact ⟨fun h => Bool.noConfusion (show false = true from h), fun h => Bool.noConfusion (show true = false from h.2.2)⟩
    | kfym => exact ⟨fun h => Bool.noConfusion (show false = true from h), fun h => Bool.noConfusion (show false = true from h.2.1)⟩
  by_cases h : saved .intra t.field = true
  · rw [if_pos h, if_pos (e.1 h)]; rfl
  · rw [if_neg h, if_neg (fun hc => h (e.2 hc))]

/-- C64: every store of the update lies inside its member. -/
theorem C64_update_inside (f : Field) :
    (∀ i ∈ storesTo commonStores f, i < f.size) ∧ ∀ i ∈ storesTo interStores f, i < f.size := by
  have key : ∀ N, N ≤ f.rows → ∀ i ∈ (List.range N).map (fun r => r * f.width + nsym f r), i < f.size := by
    intro N hN i hi
    obtain ⟨r, hr, rfl⟩ := List.mem_map.1 hi
    rw [List.mem_range] at hr
    exact index_lt (t := ⟨f, r⟩) (by show r < f.rows; omega) (Nat.le_refl _)
  cases place_of f with
  | common _ _ _ h3 h4 _ =>
    rw [h3, h4]
    exact ⟨key _ (Nat.le_refl _), by simp⟩
  | inter N hN _ _ _ _ h3 h4 _ =>
    rw [h3, h4]
    exact ⟨by simp, key _ hN⟩
  | never _ _ _ h3 h4 _ =>
    rw [h3, h4]
    exact ⟨by simp, by simp⟩

/-! ## Examples -/

/-- Uninitialised memory for the examples. -/
def junk0 : Mem := fun _ i => 77 + i

/-- A tile that decodes `skip = 1` in the first context, reads `kfym` and a block vector. -/
def tileI : Tile .intra where
  run _ := [(⟨⟨.mode .skip, 0⟩, by decide⟩, 1), (⟨⟨.kfym, 0⟩, by decide⟩, 3), (⟨⟨.joint, 0⟩, by decide⟩, 2)]
  ok _ := by decide

/-- A tile of an inter frame that decodes `skip = 0` or `skip = 1`, depending on the table, and a motion vector. -/
def tileP : Tile .inter where
  run v := [(⟨⟨.mode .skip, 0⟩, by decide⟩, if (v ⟨⟨.mode .skip, 0⟩, by decide⟩).probs.getD 0 0 < 31000 then 0 else 1),
    (⟨⟨.joint, 0⟩, by decide⟩, 3)]
  ok v := by
    intro e he
    simp only [List.mem_cons, List.not_mem_nil, or_false] at he
    rcases he with rfl | rfl
    · show (if _ then 0 else 1) ≤ 1
      split <;> omega
    · exact Nat.le_refl 3

/-- A key frame, two inter frames that refer to it and to each other, with saved tables. -/
def sample : List Ev := [
  .frame ⟨.intra, none, 100, true, [tileI], 0, fun _ => true⟩,
  .frame ⟨.inter, some 3, 100, true, [tileP, tileP], 1, fun i => i == 2⟩,
  .showKey 2,
  .frame ⟨.inter, some 5, 7, false, [tileP], 0, fun i => i == 1⟩]

theorem sample_wf : ∀ e ∈ sample, e.WF := by
  intro e he
  simp only [sample, List.mem_cons, List.not_mem_nil, or_false] at he
  rcases he with rfl | rfl | rfl | rfl <;> simp [Ev.WF]

/-- The hypothesis of the theorems is met by `sample`. -/
example : session junk0 (fun _ => none) sample = Spec.session (fun _ => none) sample :=
  C64_tables_follow_spec junk0 sample sample_wf

/-- What the frames of `sample` see of a table, as numbers. -/
def look (l : List Ev) (f : Field) (r : Nat) : Option (List (List Nat × Nat)) :=
  (session junk0 (fun _ => none) l).map (fun o => o.map (fun x =>
    if h : (⟨f, r⟩ : Tab).readBy x.1 = true then ((x.2 ⟨⟨f, r⟩, h⟩).probs, (x.2 ⟨⟨f, r⟩, h⟩).count) else ([], 0)))

/-- The table of `skip` is adapted by the key frame (symbol 1) and by the second tile of the inter frame, and the third
frame, which uses the slot filled with the shown frame, sees both changes. -/
example : look sample (.mode .skip) 0 = some [([31671, 32768], 0), ([29692, 32768], 0), ([29884, 32768], 0)] := by
  decide +kernel

/-- The block vector of the key frame does not change the tables for motion vectors; the motion vector of the inter
frame does. -/
example : look sample .joint 0 =
    some [([4096, 11264, 19328, 32768], 0), ([4096, 11264, 19328, 32768], 0), ([3968, 10912, 18724, 32768], 0)] := by
  decide +kernel

/-- The condition on the events is needed: an intra frame with a primary reference frame would see the default
`kfym`, not the adapted one. -/
example : ∃ l, session junk0 (fun _ => none) l ≠ Spec.session (fun _ => none) l := by
  refine ⟨[.frame ⟨.intra, none, 100, true, [tileI], 0, fun _ => true⟩,
    .frame ⟨.intra, some 0, 100, true, [tileI], 0, fun _ => true⟩], ?_⟩
  intro h
  have h2 := congrArg (fun o => o.map (fun l : List (Σ k, View k) => l.map (fun x =>
    if h : (⟨.kfym, 0⟩ : Tab).readBy x.1 = true then (x.2 ⟨⟨.kfym, 0⟩, h⟩).probs else []))) h
  revert h2
  decide +kernel

end Dav1d.CdfTab
