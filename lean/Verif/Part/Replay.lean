import Verif.Part.Tile
/-!
# The second pass repeats the blocks of the first
-/
set_option linter.unusedVariables false
namespace Dav1d.Part
variable {σ τ : Type}

theorem blocks_append (a b : List Ev) : blocks (a ++ b) = blocks a ++ blocks b := by
  unfold blocks; exact List.filterMap_append

theorem blocks_map (cs : List Call) : blocks (cs.map .call) = cs := by
  induction cs with
  | nil => rfl
  | cons c cs ih => rw [List.map_cons, show Ev.call c :: cs.map .call = [.call c] ++ cs.map .call from rfl, blocks_append, ih]; rfl

theorem bind_ok {r : Res σ} {g : St σ → Res σ} {s : St σ} (h : r.bind g = .ok s) : ∃ s', r = .ok s' ∧ g s' = .ok s := by
  cases r with
  | ub => cases h
  | err => cases h
  | ok s' => exact ⟨s', rfl, h⟩

theorem setCtx_log {f : Frame} {bl bp hsz x y : Nat} {st s : St σ} (h : setCtx f bl bp hsz x y st = .ok s) : s.log = st.log := by
  unfold setCtx at h
  split at h <;> cases h <;> rfl

/-- The frame in the second pass. -/
def second (f : Frame) (saved : Nat → Nat → Nat × Nat) : Frame := { f with pass := 2, saved := saved }

theorem leafCalls_second (f : Frame) (sv : Nat → Nat → Nat × Nat) (t : Tree) (bl bp hsz x y : Nat) :
    leafCalls (second f sv) t bl bp hsz x y = leafCalls f t bl bp hsz x y := by
  unfold leafCalls second; rfl

theorem setCtx_second (f : Frame) (sv : Nat → Nat → Nat × Nat) (bl bp hsz x y : Nat) (st : St σ) :
    setCtx (second f sv) bl bp hsz x y st = .ok st := by
  unfold setCtx second
  rw [if_neg (fun h => h.1 rfl)]

/-- The run of a part of the tile: `new` is what it records, and a second pass that finds the level and partition of
each of its blocks repeats them. -/
structure Repeats (sv : Nat → Nat → Nat × Nat) (st st' : St σ) (run2 : St τ → Res τ) (Q : List Call → Prop) : Prop where
  ex : ∃ new, st'.log = st.log ++ new ∧ Q (blocks new) ∧
    ((∀ c ∈ blocks new, sv c.x c.y = (c.bl, c.bp)) → ∀ st2, Fine (run2 st2) (fun s => s.log = st2.log ++ (blocks new).map .call))

theorem Repeats.seq {sv : Nat → Nat → Nat × Nat} {st s1 s2 : St σ} {r1 r2 : St τ → Res τ} {Q : List Call → Prop} {Q' : List Call → Prop}
    (h1 : Repeats sv st s1 r1 Q) (h2 : Repeats sv s1 s2 r2 Q') : Repeats sv st s2 (fun st => (r1 st).bind r2) (fun l => ∃ l1 l2, l = l1 ++ l2 ∧ Q l1) := by
  obtain ⟨n1, e1, q1, p1⟩ := h1.ex
  obtain ⟨n2, e2, q2, p2⟩ := h2.ex
  refine ⟨n1 ++ n2, by rw [e2, e1]; simp, ⟨blocks n1, blocks n2, blocks_append _ _, q1⟩, fun h st2 => ?_⟩
  rw [blocks_append] at h
  refine (p1 (fun c hc => h c (List.mem_append_left _ hc)) st2).bind fun s hs => ?_
  refine (p2 (fun c hc => h c (List.mem_append_right _ hc)) s).mono fun s' hs' => ?_
  rw [hs', hs, blocks_append]; simp

theorem Repeats.mono {sv : Nat → Nat → Nat × Nat} {st st' : St σ} {r : St τ → Res τ} {Q Q' : List Call → Prop}
    (h : Repeats sv st st' r Q) (hq : ∀ l, Q l → Q' l) : Repeats sv st st' r Q' := by
  obtain ⟨n, e, q, p⟩ := h.ex
  exact ⟨n, e, hq _ q, p⟩

/-- One of the blocks begins at (x, y), and its level is at least `l`. -/
def First (x y l : Nat) (cs : List Call) : Prop := ∃ c ∈ cs, c.x = x ∧ c.y = y ∧ l ≤ c.bl

theorem First.app {x y l : Nat} {cs : List Call} (h : ∃ l1 l2, cs = l1 ++ l2 ∧ First x y l l1) : First x y l cs := by
  obtain ⟨l1, l2, rfl, c, h1, h2⟩ := h
  exact ⟨c, List.mem_append_left _ h1, h2⟩

theorem blks_log (S : Src σ) {cs : List Call} {st s : St σ} (h : blks S cs st = .ok s) : s.log = st.log ++ cs.map .call := by
  rcases blks_ok S cs st with h1 | ⟨s', h1⟩
  · rw [h1] at h; cases h
  · rw [h1] at h; cases h; rfl

theorem blks_fine (S : Src τ) (cs : List Call) (st : St τ) : Fine (blks S cs st) (fun s => s.log = st.log ++ cs.map .call) := by
  rcases blks_ok S cs st with h1 | ⟨s', h1⟩
  · exact .inl h1
  · exact .inr ⟨_, h1, rfl⟩

/-- The blocks of a partition. -/
theorem leafCalls_first {f : Frame} {t : Tree} {bl bp hsz x y : Nat} {cs : List Call} (h : leafCalls f t bl bp hsz x y = some cs) :
    ∃ c cs', cs = c :: cs' ∧ c.x = x ∧ c.y = y ∧ c.bl = bl ∧ c.bp = bp := by
  unfold leafCalls at h
  dsimp only at h
  split at h <;> first | (cases h; exact ⟨_, _, rfl, rfl, rfl, rfl, rfl⟩) | cases h

/-- The blocks of an undivided node in both passes. -/
theorem leaf_repeats (S1 : Src σ) (S2 : Src τ) {f : Frame} {sv : Nat → Nat → Nat × Nat} {cs : List Call} {bl bp hsz x y : Nat} {st st0 s : St σ}
    (h : (blks S1 cs st).bind (setCtx f bl bp hsz x y) = .ok s) {e : List Ev} (he : blocks e = []) (hl : st.log = st0.log ++ e) (r2 : St τ → Res τ)
    (h2 : (∀ c ∈ cs, sv c.x c.y = (c.bl, c.bp)) → ∀ st2, r2 st2 = (blks S2 cs st2).bind (setCtx (second f sv) bl bp hsz x y))
    {l : Nat} (hf : First x y l cs) : Repeats sv st0 s r2 (First x y l) := by
  obtain ⟨s1, h3, h4⟩ := bind_ok h
  have h5 := blks_log S1 h3
  have hb : blocks (e ++ cs.map .call) = cs := by rw [blocks_append, blocks_map, he]; rfl
  refine ⟨e ++ cs.map .call, by rw [setCtx_log h4, h5, hl]; simp, by rw [hb]; exact hf, fun hc st2 => ?_⟩
  rw [hb] at hc ⊢
  rw [h2 hc st2]
  refine (blks_fine S2 cs st2).bind fun s hs => ?_
  rw [setCtx_second]
  exact .inr ⟨s, rfl, hs⟩

theorem Repeats.before {sv : Nat → Nat → Nat × Nat} {st0 st s : St σ} {r r' : St τ → Res τ} {x y l l' : Nat} {e : List Ev}
    (h : Repeats sv st s r (First x y l)) (hl : st.log = st0.log ++ e) (he : blocks e = []) (hle : l' < l)
    (hr : (sv x y).1 ≠ l' → ∀ st2, r' st2 = r st2) : Repeats sv st0 s r' (First x y l') := by
  obtain ⟨n, e1, q, p⟩ := h.ex
  have hb : blocks (e ++ n) = blocks n := by rw [blocks_append, he]; rfl
  obtain ⟨c, hc, hx, hy, hcl⟩ := q
  refine ⟨e ++ n, by rw [e1, hl]; simp, by rw [hb]; exact ⟨c, hc, hx, hy, by omega⟩, fun hsv st2 => ?_⟩
  rw [hb] at hsv ⊢
  rw [hr ?_ st2]
  · exact p hsv st2
  · have := hsv c hc
    rw [hx, hy] at this
    rw [this]
    dsimp only
    omega

theorem readPart_some (S : Src σ) {f : Frame} (hpass : f.pass ≠ 2) {bl x y bp : Nat} {st st1 : St σ}
    (h : readPart S f bl x y st = some (bp, st1)) : ∃ e, blocks e = [] ∧ st1.log = st.log ++ e := by
  unfold readPart at h
  rw [if_neg hpass] at h
  dsimp only at h
  split at h
  · cases h
  · simp only [Option.some.injEq, Prod.mk.injEq] at h
    rw [← h.2]
    exact ⟨_, rfl, rfl⟩

theorem readTop_log (S : Src σ) {f : Frame} (hpass : f.pass ≠ 2) (bl x y : Nat) (st : St σ) :
    ∃ e, blocks e = [] ∧ (readTop S f bl x y st).2.log = st.log ++ e := by
  unfold readTop
  rw [if_neg hpass]
  exact ⟨_, rfl, rfl⟩

theorem readLeft_some (S : Src σ) {f : Frame} (hpass : f.pass ≠ 2) {bl x y : Nat} {b : Bool} {st st1 : St σ}
    (h : readLeft S f bl x y st = some (b, st1)) : ∃ e, blocks e = [] ∧ st1.log = st.log ++ e := by
  unfold readLeft at h
  rw [if_neg hpass] at h
  dsimp only at h
  split at h
  · cases h
  · simp only [Option.some.injEq, Prod.mk.injEq] at h
    rw [← h.2]
    exact ⟨_, rfl, rfl⟩

theorem readPart_second (S : Src τ) (f : Frame) (sv : Nat → Nat → Nat × Nat) (bl x y : Nat) (st : St τ) :
    readPart S (second f sv) bl x y st = some (if (sv x y).1 = bl then (sv x y).2 else 3, st) := by
  unfold readPart second; rfl

theorem readTop_second (S : Src τ) (f : Frame) (sv : Nat → Nat → Nat × Nat) (bl x y : Nat) (st : St τ) :
    readTop S (second f sv) bl x y st = (decide ((sv x y).1 ≠ bl), st) := by
  unfold readTop second; rfl

theorem readLeft_second (S : Src τ) (f : Frame) (sv : Nat → Nat → Nat × Nat) (bl x y : Nat) (st : St τ) :
    readLeft S (second f sv) bl x y st = some (decide ((sv x y).1 ≠ bl), st) := by
  unfold readLeft second; rfl

theorem sb_repeats (S1 : Src σ) (S2 : Src τ) {f : Frame} (hpass : f.pass ≠ 2) (sv : Nat → Nat → Nat × Nat) :
    ∀ k, k ≤ 4 → ∀ (t : Tree) (x y : Nat) (st s : St σ), decodeSb S1 f k t x y st = .ok s →
      Repeats sv st s (decodeSb S2 (second f sv) k t x y) (First x y (4 - k))
  | 0, hk, t, x, y, st, s, h => by
    unfold decodeSb at h
    split at h
    · rename_i hin
      split at h
      · cases h
      · rename_i bp st1 hrd
        obtain ⟨e, he, hl⟩ := readPart_some S1 hpass hrd
        split at h
        · cases h
        · rename_i cs hcs
          obtain ⟨c, cs', rfl, hx, hy, hbl, hbp⟩ := leafCalls_first hcs
          refine leaf_repeats S1 S2 h he hl _ (fun hc st2 => ?_) ⟨c, List.mem_cons_self, hx, hy, by omega⟩
          have := hc c List.mem_cons_self
          rw [hx, hy, hbl, hbp] at this
          unfold decodeSb
          rw [if_pos (show (second f sv).bw > x + 1 ∧ (second f sv).bh > y + 1 from hin), readPart_second, this]
          simp only [if_true, leafCalls_second, hcs]
    · cases h
  | k + 1, hk, .tip _ _ _ _, x, y, st, s, h => by
    unfold decodeSb at h; cases h
  | k + 1, hk, .branch n h4 v4 c0 c1 c2 c3, x, y, st, s, h => by
    have ih := sb_repeats S1 S2 hpass sv k (by omega)
    have hlt : 4 - (k + 1) < 4 - k := by omega
    unfold decodeSb at h
    dsimp only at h
    split at h
    · rename_i hx
      split at h
      · rename_i hy
        split at h
        · cases h
        · rename_i bp st1 hrd
          obtain ⟨e, he, hl⟩ := readPart_some S1 hpass hrd
          split at h
          · obtain ⟨s0, h0, h⟩ := bind_ok h
            obtain ⟨s1, h1, h⟩ := bind_ok h
            obtain ⟨s2, h2, h⟩ := bind_ok h
            obtain ⟨s3, h3, h⟩ := bind_ok h
            rw [setCtx3] at h
            cases h
            have r := ((ih _ _ _ _ _ h0).seq ((ih _ _ _ _ _ h1).seq ((ih _ _ _ _ _ h2).seq (ih _ _ _ _ _ h3)))).mono fun _ => First.app
            refine r.before hl he hlt fun hsv st2 => ?_
            rw [decodeSb]
            dsimp only
            rw [if_pos (show (second f sv).bw > x + 2 ^ (k + 1) from hx), if_pos (show (second f sv).bh > y + 2 ^ (k + 1) from hy), readPart_second]
            dsimp only
            rw [if_neg hsv, if_pos rfl]
            have : (setCtx (second f sv) (4 - (k + 1)) 3 (2 ^ (k + 1)) x y : St τ → Res τ) = Res.ok := funext fun s => setCtx_second _ _ _ _ _ _ _ s
            rw [this]
            have hok : ∀ r : Res τ, r.bind Res.ok = r := by intro r; cases r <;> rfl
            simp only [hok]
          · split at h
            · cases h
            · rename_i hb3 _ cs hcs
              obtain ⟨c, cs', rfl, hcx, hcy, hbl, hbp⟩ := leafCalls_first hcs
              refine leaf_repeats S1 S2 h he hl _ (fun hc st2 => ?_) ⟨c, List.mem_cons_self, hcx, hcy, by omega⟩
              have := hc c List.mem_cons_self
              rw [hcx, hcy, hbl, hbp] at this
              rw [decodeSb]
              dsimp only
              rw [if_pos (show (second f sv).bw > x + 2 ^ (k + 1) from hx), if_pos (show (second f sv).bh > y + 2 ^ (k + 1) from hy), readPart_second, this]
              simp only [if_true, if_neg hb3, leafCalls_second, hcs]
      · rename_i hy
        obtain ⟨e, he, hl⟩ := readTop_log S1 hpass (4 - (k + 1)) x y st
        split at h
        · obtain ⟨s0, h0, h⟩ := bind_ok h
          obtain ⟨s1, h1, h⟩ := bind_ok h
          rw [setCtx3] at h
          cases h
          have r := ((ih _ _ _ _ _ h0).seq (ih _ _ _ _ _ h1)).mono fun _ => First.app
          refine r.before hl he hlt fun hsv st2 => ?_
          rw [decodeSb]
          dsimp only
          rw [if_pos (show (second f sv).bw > x + 2 ^ (k + 1) from hx), if_neg (show ¬ (second f sv).bh > y + 2 ^ (k + 1) from hy), readTop_second]
          dsimp only
          rw [if_pos (decide_eq_true hsv)]
          have : (setCtx (second f sv) (4 - (k + 1)) 3 (2 ^ (k + 1)) x y : St τ → Res τ) = Res.ok := funext fun s => setCtx_second _ _ _ _ _ _ _ s
          rw [this]
          have hok : ∀ r : Res τ, r.bind Res.ok = r := by intro r; cases r <;> rfl
          simp only [hok]
        · refine leaf_repeats S1 S2 h he hl _ (fun hc st2 => ?_) ⟨_, List.mem_cons_self, rfl, rfl, Nat.le_refl _⟩
          have := hc _ List.mem_cons_self
          dsimp only at this
          rw [decodeSb]
          dsimp only
          rw [if_pos (show (second f sv).bw > x + 2 ^ (k + 1) from hx), if_neg (show ¬ (second f sv).bh > y + 2 ^ (k + 1) from hy), readTop_second, this]
          simp only [ne_eq, not_true_eq_false, decide_false, Bool.false_eq_true, if_false]
    · rename_i hx
      split at h
      · rename_i hy
        split at h
        · cases h
        · rename_i b st1 hrd
          obtain ⟨e, he, hl⟩ := readLeft_some S1 hpass hrd
          split at h
          · obtain ⟨s0, h0, h⟩ := bind_ok h
            obtain ⟨s1, h1, h⟩ := bind_ok h
            rw [setCtx3] at h
            cases h
            have r := ((ih _ _ _ _ _ h0).seq (ih _ _ _ _ _ h1)).mono fun _ => First.app
            refine r.before hl he hlt fun hsv st2 => ?_
            rw [decodeSb]
            dsimp only
            rw [if_neg (show ¬ (second f sv).bw > x + 2 ^ (k + 1) from hx), if_pos (show (second f sv).bh > y + 2 ^ (k + 1) from hy), readLeft_second]
            dsimp only
            rw [if_pos (decide_eq_true hsv)]
            have : (setCtx (second f sv) (4 - (k + 1)) 3 (2 ^ (k + 1)) x y : St τ → Res τ) = Res.ok := funext fun s => setCtx_second _ _ _ _ _ _ _ s
            rw [this]
            have hok : ∀ r : Res τ, r.bind Res.ok = r := by intro r; cases r <;> rfl
            simp only [hok]
          · refine leaf_repeats S1 S2 h he hl _ (fun hc st2 => ?_) ⟨_, List.mem_cons_self, rfl, rfl, Nat.le_refl _⟩
            have := hc _ List.mem_cons_self
            dsimp only at this
            rw [decodeSb]
            dsimp only
            rw [if_neg (show ¬ (second f sv).bw > x + 2 ^ (k + 1) from hx), if_pos (show (second f sv).bh > y + 2 ^ (k + 1) from hy), readLeft_second, this]
            simp only [ne_eq, not_true_eq_false, decide_false, Bool.false_eq_true, if_false]
      · rename_i hy
        have r := ih _ _ _ _ _ h
        refine r.before (e := []) (by simp) rfl hlt fun hsv st2 => ?_
        rw [decodeSb]
        dsimp only
        rw [if_neg (show ¬ (second f sv).bw > x + 2 ^ (k + 1) from hx), if_neg (show ¬ (second f sv).bh > y + 2 ^ (k + 1) from hy)]

/-- Nothing done. -/
theorem Repeats.nil (sv : Nat → Nat → Nat × Nat) (st : St σ) : Repeats sv st st (Res.ok : St τ → Res τ) (fun _ => True) :=
  ⟨[], by simp, trivial, fun _ st2 => .inr ⟨st2, rfl, by simp [blocks]⟩⟩

theorem row_repeats (S1 : Src σ) (S2 : Src τ) {f : Frame} (hpass : f.pass ≠ 2) (sv : Nat → Nat → Nat × Nat) (sb128 : Bool) (y : Nat) :
    ∀ (n x : Nat) (st s : St σ), rowLoop S1 f sb128 n x y st = .ok s →
      Repeats sv st s (rowLoop S2 (second f sv) sb128 n x y) (fun _ => True)
  | 0, x, st, s, h => by
    cases h; exact Repeats.nil sv st
  | n + 1, x, st, s, h => by
    obtain ⟨s1, h1, h2⟩ := bind_ok h
    exact ((sb_repeats S1 S2 hpass sv _ (sb_le sb128) _ _ _ _ _ h1).seq (row_repeats S1 S2 hpass sv sb128 y n _ _ _ h2)).mono fun _ _ => trivial

theorem tile_repeats (S1 : Src σ) (S2 : Src τ) {f : Frame} (hpass : f.pass ≠ 2) (sv : Nat → Nat → Nat × Nat) (sb128 : Bool) (x0 x1 : Nat) :
    ∀ (n y : Nat) (st s : St σ), tileLoop S1 f sb128 x0 x1 n y st = .ok s →
      Repeats sv st s (tileLoop S2 (second f sv) sb128 x0 x1 n y) (fun _ => True)
  | 0, x, st, s, h => by
    cases h; exact Repeats.nil sv st
  | n + 1, y, st, s, h => by
    obtain ⟨s1, h1, h2⟩ := bind_ok h
    unfold tileSbrow at h1
    rw [if_neg hpass] at h1
    obtain ⟨nw, e1, -, p1⟩ := (row_repeats S1 S2 hpass sv sb128 y _ _ _ _ h1).ex
    have r1 : Repeats sv st s1 (tileSbrow S2 (second f sv) sb128 x0 x1 y) (fun _ => True) := ⟨nw, e1, trivial, p1⟩
    exact (r1.seq (tile_repeats S1 S2 hpass sv sb128 x0 x1 n _ _ _ h2)).mono fun _ _ => trivial

end Dav1d.Part
