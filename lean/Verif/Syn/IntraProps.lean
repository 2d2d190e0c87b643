import Verif.Syn.IntraModel
import Verif.Syn.IntraSpec
/-!
# Intra blocks: the properties
-/
set_option linter.unusedVariables false
namespace Dav1d.Syn
variable {ok : Req → Nat → Prop}

/-- All results have the property. -/
def Prog.All {α : Type} (P : α → Prop) : Prog α → Prop
  | .ret a => P a
  | .err => True
  | .read _ k => ∀ v, (k v).All P

theorem Prog.All.bind {α β : Type} {P : α → Prop} {Q : β → Prop} {f : α → Prog β} : ∀ {p : Prog α}, p.All P → (∀ a, P a → (f a).All Q) → (p >>= f).All Q
  | .ret a, h, hf => hf a h
  | .err, _, _ => trivial
  | .read _ k, h, hf => fun v => Prog.All.bind (h v) hf

theorem Prog.All.true {α : Type} : ∀ p : Prog α, p.All (fun _ => True)
  | .ret _ => trivial
  | .err => trivial
  | .read _ k => fun v => Prog.All.true (k v)

theorem Same.all {α β : Type} {R : α → β → Prop} {P : α → Prop} : ∀ {p : Prog α} {q : Prog β}, Same ok R p q → p.All P → Same ok (fun a b => R a b ∧ P a) p q
  | .ret _, .ret _, h, g => ⟨h, g⟩
  | .err, .err, _, _ => trivial
  | .read _ _, .read _ _, ⟨h1, h2⟩, g => ⟨h1, fun v hv ho => Same.all (h2 v hv ho) (g v)⟩
  | .ret _, .err, h, _ => h.elim
  | .ret _, .read _ _, h, _ => h.elim
  | .err, .ret _, h, _ => h.elim
  | .err, .read _ _, h, _ => h.elim
  | .read _ _, .ret _, h, _ => h.elim
  | .read _ _, .err, h, _ => h.elim

end Dav1d.Syn

namespace Dav1d.Syn.Pal

/-! ## Where the indices are written -/

theorem pairs_out {d s q : Nat} : ∀ (k x : Nat) (mem : Nat → Nat), (q < d + x ∨ d + x + k ≤ q) → finishPairs d s k x mem q = mem q
  | 0, _, _, _ => rfl
  | k + 1, x, mem, h => by
    unfold finishPairs
    rw [pairs_out k (x + 1) _ (by omega), if_neg (by omega)]

theorem row_out {d s w bw q : Nat} (hw : w ≤ bw) (mem : Nat → Nat) (h : q < d ∨ d + bw / 2 ≤ q) : finishRow d s w bw mem q = mem q := by
  unfold finishRow
  rw [if_neg (by omega), pairs_out _ _ _ (by omega)]

theorem rows_out {w bw q : Nat} (hw : w ≤ bw) : ∀ (k d s : Nat) (mem : Nat → Nat), (q < d ∨ d + k * (bw / 2) ≤ q) → finishRows w bw k d s mem q = mem q
  | 0, _, _, _, _ => rfl
  | k + 1, d, s, mem, h => by
    have e : (k + 1) * (bw / 2) = k * (bw / 2) + bw / 2 := Nat.succ_mul _ _
    unfold finishRows
    rw [rows_out hw k _ _ _ (by omega), row_out hw _ (by omega)]

theorem copies_out {bw last q : Nat} : ∀ (k d : Nat) (mem : Nat → Nat), (q < d ∨ d + k * (bw / 2) ≤ q) → finishCopies bw last k d mem q = mem q
  | 0, _, _, _ => rfl
  | k + 1, d, mem, h => by
    have e : (k + 1) * (bw / 2) = k * (bw / 2) + bw / 2 := Nat.succ_mul _ _
    unfold finishCopies
    rw [copies_out k _ _ (by omega), if_neg (by omega)]

theorem finish_out {d s bw bh w h q : Nat} (hw : w ≤ bw) (hh : h ≤ bh) (mem : Nat → Nat) (ho : q < d ∨ d + bh * (bw / 2) ≤ q) : idxFinish d s bw bh w h mem q = mem q := by
  have e : bh * (bw / 2) = (bh - h) * (bw / 2) + h * (bw / 2) := by rw [← Nat.add_mul, Nat.sub_add_cancel hh]
  unfold idxFinish
  split
  · rw [copies_out _ _ _ (by omega), rows_out hw _ _ _ _ (by omega)]
  · rw [rows_out hw _ _ _ _ (by omega)]

theorem indices_out {pl n w4 h4 bw4 bh4 dst tmp : Nat} (hw : w4 ≤ bw4) (hh : h4 ≤ bh4) (mem : Nat → Nat) :
    (readPalIndices pl n w4 h4 bw4 bh4 dst tmp mem).All fun r => ∀ q, (q < tmp ∨ tmp + 64 * 64 ≤ q) → (q < dst ∨ dst + bh4 * 4 * (bw4 * 4 / 2) ≤ q) → r q = mem q := by
  unfold readPalIndices
  refine Prog.All.bind (Prog.All.true _) fun v _ => Prog.All.bind (Prog.All.true _) fun t _ => ?_
  intro q h1 h2
  show idxFinish _ _ _ _ _ _ _ q = _
  rw [finish_out (by omega) (by omega) _ h2, if_neg (by omega)]

end Dav1d.Syn.Pal

namespace Dav1d.Syn.Intra
open Dav1d.Part (Call Tile Ev Frame bsW bsH subTx txSize)
open Dav1d.Part.Ctx
open Dav1d.Syn.Pal (PalSt PalBlk PalsOk Holds HoldsUv Packed palsAt aroundOf chromaAt)

variable {f : Frame} {sb128 : Bool} {T : Tile} {before after : List Ev} {c : Call} {ok : Req → Nat → Prop}

/-- MiSize: the number of the block size in the specification. -/
def miSize (bs : Nat) : Nat := Av1.blockSizes.idxOf (bsW bs * 4, bsH bs * 4)

/-- The block `c` for the specification. -/
def envAt (H : Cfg) (F : Copy.Av1.Fmt) (f : Frame) (sb128 : Bool) (T : Tile) (info : Call → Blk) (pals : Call → PalBlk) (before : List Ev) (c : Call) : Av1.Env :=
  let A := (nbAbove T before c).map info
  let L := (nbLeft T before c).map info
  { MiSize := miSize c.bs, MiRow := c.y, MiCol := c.x, MiRows := f.bh, MiCols := f.bw, bsRow := c.bs, HasChroma := chromaAt F sb128 T c,
    Lossless := H.lossless, FrameIsIntra := !H.inter, allow_screen_content_tools := H.screen, enable_filter_intra := H.filterIntra,
    TX_MODE_SELECT := H.switchable, BitDepth := H.bpc, subX := F.subX, subY := F.subY,
    aboveModeCtx := Part.Ctx.Av1.intraModeContext (Part.Ctx.Av1.modeOf A), leftModeCtx := Part.Ctx.Av1.intraModeContext (Part.Ctx.Av1.modeOf L),
    palCtx := Part.Ctx.Av1.hasPaletteYCtx A L,
    txCtx := Part.Ctx.Av1.txDepthCtx (withSize info (nbAbove T before c)) (withSize info (nbLeft T before c)),
    above := fun pl => aroundOf info pals pl (nbAbove T before c), left := fun pl => aroundOf info pals pl (nbLeft T before c) }

/-- The layouts with chroma. -/
def LayoutOk (F : Copy.Av1.Fmt) (layout : Nat) : Prop :=
  (F.subX, F.subY, layout) = (true, true, 1) ∨ (F.subX, F.subY, layout) = (true, false, 2) ∨ (F.subX, F.subY, layout) = (false, false, 3)

/-- The block size in the chroma planes exists in the specification: Subsampled_Size is BLOCK_INVALID for the blocks in 4:2:2 that are higher than wide, and it is a requirement that it is not. -/
def uvSizeOk (E : Av1.Env) : Prop := E.subX = true → E.subY = false → E.h ≤ E.w

/-- The block in the decoder `o` is that of the specification `r`: FILTER_PRED (13) is a mode of its own. The maps are packed. -/
structure Rel (E : Av1.Env) (layout : Nat) (F : Copy.Av1.Fmt) (dy du : Nat) (o : Out) (r : Av1.Res) : Prop where
  yMode : o.yMode = if r.use_filter_intra then 13 else r.YMode
  yAngle : o.yAngle = if r.use_filter_intra then (r.filter_intra_mode : Int) else r.AngleDeltaY
  yRange : r.YMode ≤ 12 ∧ (r.use_filter_intra = true → r.YMode = 0 ∧ r.filter_intra_mode ≤ 4)
  uv : E.HasChroma = true → o.uvMode = r.UVMode ∧ o.uvAngle = r.AngleDeltaUV ∧ (r.UVMode = 13 → o.cfl = (r.CflAlphaU, r.CflAlphaV))
  palY : o.palY.1 = r.palette_colors_y.length ∧ (o.palY.1 > 0 → Holds o.palY r.palette_colors_y)
  palUv : o.palUv.1 = r.palette_colors_u.length ∧ (o.palUv.1 > 0 → E.HasChroma = true ∧ HoldsUv o.palUv (r.palette_colors_u, r.palette_colors_v))
  mapY : o.palY.1 > 0 → Packed dy E.w E.h o.mem r.ColorMapY ∧ ∀ i j, r.ColorMapY i j < o.palY.1
  mapUv : o.palUv.1 > 0 → Packed du (Pal.Av1.onscreen E.subX E.w E.MiCols E.MiCol).1 (Pal.Av1.onscreen E.subY E.h E.MiRows E.MiRow).1 o.mem r.ColorMapUV ∧ ∀ i j, r.ColorMapUV i j < o.palUv.1
  tx : (4 * (txSize o.tx).1, 4 * (txSize o.tx).2) = r.TxSize
  uvtx : E.HasChroma = true → uvSizeOk E → LayoutOk F layout → (4 * (txSize o.uvtx).1, 4 * (txSize o.uvtx).2) = Av1.uvTxSize E

/-! ## Tables -/

theorem size_eq : ∀ b < 22, Av1.blockSizes.getD (miSize b) (0, 0) = (bsW b * 4, bsH b * 4) := by decide
theorem small_iff : ∀ b < 22, (bsLog b 0 + bsLog b 1 ≥ 2 ↔ miSize b ≥ 3) := by decide
theorem group_eq : ∀ b < 22, ymodeSizeCtx b = Av1.Size_Group.getD (miSize b) 0 := by decide
theorem mask_iff : ∀ b < 22, cflMask b = decide (max (bsW b * 4) (bsH b * 4) ≤ 32) := by decide
theorem pal_iff : ∀ b < 22, ((max (bsW b) (bsH b) ≤ 16 ∧ bsW b + bsH b ≥ 4) ↔ (miSize b ≥ 3 ∧ bsW b * 4 ≤ 64 ∧ bsH b * 4 ≤ 64)) := by decide
theorem log_eq : ∀ b < 22, Nat.log2 (bsW b * 4 / 4) = bsLog b 0 ∧ Nat.log2 (bsH b * 4 / 4) = bsLog b 1 := by decide +kernel
theorem filter_iff : ∀ b < 22, (max (bsLog b 0) (bsLog b 1) ≤ 3 ↔ max (bsW b * 4) (bsH b * 4) ≤ 32) := by decide
theorem maxtx_eq : ∀ b < 22, let tx := (Tables.maxTx.getD b []).getD 0 0
    tx < 19 ∧ 4 * 2 ^ txLw tx = min 64 (bsW b * 4) ∧ 4 * 2 ^ txLh tx = min 64 (bsH b * 4) ∧ txMax tx = Av1.Max_Tx_Depth.getD (miSize b) 0 ∧ (txMax tx > 0 ↔ miSize b > 0) ∧
    (4 * (txSize tx).1, 4 * (txSize tx).2) = (min 64 (bsW b * 4), min 64 (bsH b * 4)) := by decide
theorem split_eq : ∀ tx < 19, (Tables.txDims.getD tx []).getD 6 0 < 19 ∧
    (4 * (txSize ((Tables.txDims.getD tx []).getD 6 0)).1, 4 * (txSize ((Tables.txDims.getD tx []).getD 6 0)).2) = Av1.Split_Tx_Size (4 * (txSize tx).1, 4 * (txSize tx).2) := by decide
theorem cfl_sign : ∀ v ≤ 7, ((v + 1) * 0x56) >>> 8 = (v + 1) / 3 ∧ v + 1 - (v + 1) / 3 * 3 = (v + 1) % 3 ∧ (v + 1) / 3 < 3 ∧ (v + 1) % 3 < 3 := by decide

theorem repeat_succ' {α : Type} (g : α → α) : ∀ (n : Nat) (a : α), Nat.repeat g (n + 1) a = Nat.repeat g n (g a)
  | 0, _ => rfl
  | n + 1, a => congrArg g (repeat_succ' g n a)

theorem subTx_eq : ∀ (n tx : Nat), tx < 19 → (4 * (txSize (subTx n tx)).1, 4 * (txSize (subTx n tx)).2) = Nat.repeat Av1.Split_Tx_Size n (4 * (txSize tx).1, 4 * (txSize tx).2)
  | 0, tx, h => rfl
  | n + 1, tx, h => by
    rw [repeat_succ', subTx, subTx_eq n _ (split_eq tx h).1, (split_eq tx h).2]

/-! ## The steps -/

theorem env_w {H : Cfg} {F : Copy.Av1.Fmt} {info : Call → Blk} {pals : Call → PalBlk} (hb : c.bs < 22) : (envAt H F f sb128 T info pals before c).w = bsW c.bs * 4 := by
  unfold Av1.Env.w envAt; dsimp only; rw [size_eq _ hb]
theorem env_h {H : Cfg} {F : Copy.Av1.Fmt} {info : Call → Blk} {pals : Call → PalBlk} (hb : c.bs < 22) : (envAt H F f sb128 T info pals before c).h = bsH c.bs * 4 := by
  unfold Av1.Env.h envAt; dsimp only; rw [size_eq _ hb]

theorem angle_same {H : Cfg} {F : Copy.Av1.Fmt} {info : Call → Blk} {pals : Call → PalBlk} (hb : c.bs < 22) (m : Nat) :
    Same ok Eq (readAngle c m) (Av1.intra_angle_info (envAt H F f sb128 T info pals before c) m) := by
  have hs := small_iff _ hb
  have hm : (envAt H F f sb128 T info pals before c).MiSize = miSize c.bs := rfl
  unfold readAngle Av1.intra_angle_info
  rw [hm]
  by_cases h1 : miSize c.bs ≥ 3
  · by_cases h2 : Av1.is_directional_mode m
    · rw [if_pos ⟨hs.2 h1, h2.1, h2.2⟩, if_pos h1, if_pos h2]
      exact Same.refl (fun _ => rfl) _
    · rw [if_neg (fun h => h2 h.2), if_pos h1, if_neg h2]; rfl
  · rw [if_neg (fun h => h1 (hs.1 h.1)), if_neg h1]; rfl

theorem alpha_same {s o : Nat} (hs : s < 3) :
    Same ok Eq (readAlpha s o) (if s ≠ 0 then mode .cflAlpha [(s - 1) * 3 + o] 15 >>= fun v => pure (if s = 1 then -(1 + (v : Int)) else 1 + (v : Int)) else pure 0) := by
  unfold readAlpha
  refine Same.ite Iff.rfl (fun h => ?_) (fun _ => rfl)
  refine Same.bind (mode_same ?_) fun v v' hv => ?_
  · have : s = 1 ∨ s = 2 := by omega
    rcases this with rfl | rfl <;> rfl
  · obtain ⟨rfl, -, -⟩ := hv
    show (_ : Int) = _
    split <;> omega

theorem cfl_same : Same ok Eq readCfl Av1.read_cfl_alphas := by
  unfold readCfl Av1.read_cfl_alphas
  refine Same.bind (mode_same rfl) fun v v' hv => ?_
  obtain ⟨rfl, hv, -⟩ := hv
  obtain ⟨e1, e2, e3, e4⟩ := cfl_sign v hv
  dsimp only
  rw [e1, e2]
  refine Same.bind (alpha_same e3) fun a b h => ?_
  subst h
  refine Same.bind (alpha_same e4) fun a b h => ?_
  subst h
  rfl

theorem uv_info_same {H : Cfg} {F : Copy.Av1.Fmt} {info : Call → Blk} {pals : Call → PalBlk} (hb : c.bs < 22) (y : Nat) (cfl0 : Int × Int) :
    Same ok (fun (a : Nat × Int × (Int × Int)) (b : Nat × (Int × Int) × Int) => a.1 = b.1 ∧ a.2.1 = b.2.2 ∧ (b.1 = 13 → a.2.2 = b.2.1))
      (readUv H F c y cfl0) (Av1.uv_info (envAt H F f sb128 T info pals before c) y) := by
  have hal : (if H.lossless then decide ((bsW c.bs + F.subX.toNat) >>> F.subX.toNat = 1 ∧ (bsH c.bs + F.subY.toNat) >>> F.subY.toNat = 1) else cflMask c.bs) =
      Av1.cflAllowed (envAt H F f sb128 T info pals before c) := by
    have hp := Copy.bs_pow c.bs hb
    unfold Av1.cflAllowed Av1.residualSize
    rw [env_w hb, env_h hb]
    show _ = (if H.lossless && _ then true else if !H.lossless && _ then true else false)
    cases H.lossless with
    | false => simp [mask_iff _ hb]
    | true =>
      have k : ∀ s : Bool, ∀ n : Nat, (n = 1 ∨ n = 2 ∨ n = 4 ∨ n = 8 ∨ n = 16 ∨ n = 32) → ((n + s.toNat) >>> s.toNat = 1 ↔ max 4 (if s then n * 4 / 2 else n * 4) = 4) := by
        intro s n hn; rcases hn with rfl | rfl | rfl | rfl | rfl | rfl <;> cases s <;> decide
      have k1 := k F.subX _ hp.1
      have k2 := k F.subY _ hp.2
      show decide _ = _
      simp only [Bool.true_and, Bool.not_true, Bool.false_and, Bool.false_eq_true, if_false]
      show _ = if decide ((max 4 (if F.subX then bsW c.bs * 4 / 2 else bsW c.bs * 4), max 4 (if F.subY then bsH c.bs * 4 / 2 else bsH c.bs * 4)) = (4, 4)) = true then true else false
      rw [Bool.eq_iff_iff, decide_eq_true_eq, k1, k2]
      simp [Prod.mk.injEq]
  unfold readUv Av1.uv_info
  dsimp only
  rw [hal]
  refine Same.bind (mode_same (by cases Av1.cflAllowed _ <;> rfl)) fun m m' hm => ?_
  obtain ⟨rfl, -, -⟩ := hm
  by_cases h13 : m = 13
  · rw [if_pos h13, if_pos h13]
    refine Same.bind cfl_same fun a b h => ?_
    subst h
    have : Av1.intra_angle_info (envAt H F f sb128 T info pals before c) m = pure 0 := by
      unfold Av1.intra_angle_info
      rw [if_neg (show ¬ Av1.is_directional_mode m from fun h => by have := h.2; omega)]
      split <;> rfl
    rw [this]
    exact ⟨rfl, rfl, fun _ => rfl⟩
  · rw [if_neg h13, if_neg h13, pure_bind']
    refine Same.bind (angle_same hb m) fun a b h => ?_
    subst h
    exact ⟨rfl, rfl, fun h => absurd h h13⟩

theorem ymode_same (h : Run f sb128 T before after c) {H : Cfg} {F : Copy.Av1.Fmt} {info : Call → Blk} {pals : Call → PalBlk} (hb : c.bs < 22) (hv : ∀ d, (info d).Valid H.inter)
    (old : Ctxs Edge) {a l : Edge} (he : (a, l) = (ctxsAt H.inter sb128 info old before c).at c) :
    Same ok (fun a b => a = b ∧ a ≤ 12) (readYMode H c a l) (Av1.y_mode (envAt H F f sb128 T info pals before c)) := by
  unfold readYMode Av1.y_mode
  show Same ok _ _ (if (!H.inter) = true then _ else _)
  cases hi : H.inter with
  | true =>
    simp only [Bool.not_true, Bool.false_eq_true, if_false, if_true]
    refine Same.mono ?_ (mode_same (by rw [group_eq _ hb]; rfl))
    exact fun a b h => ⟨h.1, h.2.1⟩
  | false =>
    simp only [Bool.not_false, Bool.false_eq_true, if_false, if_true]
    rw [hi] at hv he
    have := C74_mode h hv old rfl rfl he
    rw [this]
    exact ⟨rfl, fun v hv _ => ⟨rfl, hv⟩⟩

theorem filter_same {H : Cfg} {F : Copy.Av1.Fmt} {info : Call → Blk} {pals : Call → PalBlk} (hb : c.bs < 22) {y : Nat} (g : Int) {sz sz' : Nat} (hsz : sz = sz') (hy : y ≤ 12) :
    Same ok (fun (a : Nat × Int) (b : Bool × Nat) => a.1 = (if b.1 then 13 else y) ∧ a.2 = (if b.1 then (b.2 : Int) else g) ∧ (b.1 = true → y = 0 ∧ b.2 ≤ 4))
      (readFilter H c y g sz) (Av1.filter_intra_mode_info (envAt H F f sb128 T info pals before c) y sz') := by
  subst hsz
  unfold readFilter Av1.filter_intra_mode_info
  rw [env_w hb, env_h hb]
  have hf := filter_iff _ hb
  refine Same.ite ⟨fun h => ⟨h.2.2.2, h.1, h.2.1, hf.1 h.2.2.1⟩, fun h => ⟨h.2.1, h.2.2.1, hf.2 h.2.2.2, h.1⟩⟩ (fun h => ?_) (fun _ => ⟨rfl, rfl, fun h => nomatch h⟩)
  refine Same.bind (flag_same rfl) fun u u' hu => ?_
  subst hu
  cases u with
  | false => exact ⟨rfl, rfl, fun h => nomatch h⟩
  | true =>
    simp only [if_true]
    refine Same.bind (mode_same rfl) fun m m' hm => ?_
    obtain ⟨rfl, hm, -⟩ := hm
    exact ⟨rfl, rfl, fun _ => ⟨h.1, hm⟩⟩

theorem tx_same (h : Run f sb128 T before after c) {H : Cfg} {F : Copy.Av1.Fmt} {info : Call → Blk} {pals : Call → PalBlk} (hb : c.bs < 22) (hv : ∀ d, (info d).Valid H.inter)
    (old : Ctxs Edge) {a l : Edge} (he : (a, l) = (ctxsAt H.inter sb128 info old before c).at c) :
    Same ok (fun (o : Nat × Nat) (t : Nat × Nat) => (4 * (txSize o.1).1, 4 * (txSize o.1).2) = t ∧ o.2 = if H.lossless then 0 else (Tables.maxTx.getD c.bs []).getD H.layout 0)
      (readTx H c a l) (Av1.read_tx_size (envAt H F f sb128 T info pals before c)) := by
  unfold readTx Av1.read_tx_size
  rw [env_w hb, env_h hb]
  show Same ok _ _ (if H.lossless then _ else _)
  cases hl : H.lossless with
  | true => exact ⟨by decide, rfl⟩
  | false =>
    simp only [Bool.false_eq_true, if_false]
    obtain ⟨e1, e2, e3, e4, e5, e6⟩ := maxtx_eq _ hb
    generalize (Tables.maxTx.getD c.bs []).getD 0 0 = tx at *
    unfold Av1.Max_Tx_Size_Rect
    show Same ok _ _ (if miSize c.bs > 0 ∧ H.switchable = true then mode .txsz [Av1.Max_Tx_Depth.getD (miSize c.bs) 0 - 1,
      Part.Ctx.Av1.txDepthCtx (withSize info (nbAbove T before c)) (withSize info (nbLeft T before c)) (min 64 (bsW c.bs * 4)) (min 64 (bsH c.bs * 4))]
      (if Av1.Max_Tx_Depth.getD (miSize c.bs) 0 = 1 then 1 else 2) >>= _ else _)
    refine Same.ite ⟨fun h => ⟨e5.1 h.2, h.1⟩, fun h => ⟨h.2, e5.2 h.1⟩⟩ (fun _ => ?_) (fun _ => ⟨e6, rfl⟩)
    rw [← e4, ← e2, ← e3, ← C74_tx h hv old he]
    rw [show (if txMax tx = 1 then 1 else 2) = min (txMax tx) 2 by split <;> omega]
    refine Same.bind (mode_same rfl) fun d d' hd => ?_
    obtain ⟨rfl, -, -⟩ := hd
    exact ⟨by rw [subTx_eq _ _ e1, e6, e2, e3], rfl⟩

theorem pals_same (h : Run f sb128 T before after c) {H : Cfg} {F : Copy.Av1.Fmt} {info : Call → Blk} {pals : Call → PalBlk} (hb : c.bs < 22) (hv : ∀ d, (info d).Valid H.inter)
    (old : Ctxs Edge) (hp : PalsOk info (chromaAt F sb128 T) pals) (junk : Nat → PalSt) (oldP : PalSt) (hbpc : 8 ≤ H.bpc) {a l : Edge} (he : (a, l) = (ctxsAt H.inter sb128 info old before c).at c)
    (y : Nat) {u u' : Nat} (hu : chromaAt F sb128 T c = true → u = u') (o : Out) :
    Same ok (fun a b => (a.1.1 = b.1.length ∧ (a.1.1 > 0 → Holds a.1 b.1)) ∧ (a.2.1 = b.2.1.length ∧ (a.2.1 > 0 → chromaAt F sb128 T c = true ∧ HoldsUv a.2 b.2)) ∧
        (a.1.1 > 0 ∨ a.2.1 > 0 → Pal.palAllowed c))
      (readPals H (chromaAt F sb128 T c) c a l (palsAt sb128 junk info (chromaAt F sb128 T) pals oldP before c) y u o)
      (if Av1.paletteAllowed (envAt H F f sb128 T info pals before c) then Av1.palette_mode_info (envAt H F f sb128 T info pals before c) y u' else pure ([], ([], []))) := by
  have hpi := pal_iff _ hb
  have hlog := log_eq _ hb
  have hctx := (C74_flags h hv old rfl rfl he).2.2.2
  have e1 : ((ctxsAt H.inter sb128 info old before c).at c).1 = a := by rw [← he]
  have e2 : ((ctxsAt H.inter sb128 info old before c).at c).2 = l := by rw [← he]
  have hiff : (H.screen = true ∧ max (bsW c.bs) (bsH c.bs) ≤ 16 ∧ bsW c.bs + bsH c.bs ≥ 4) ↔ Av1.paletteAllowed (envAt H F f sb128 T info pals before c) := by
    unfold Av1.paletteAllowed
    rw [env_w hb, env_h hb]
    exact ⟨fun h => have := hpi.1 h.2; ⟨this.1, this.2.1, this.2.2, h.1⟩, fun h => ⟨h.2.2.2, hpi.2 ⟨h.1, h.2.1, h.2.2.1⟩⟩⟩
  unfold readPals
  refine Same.ite hiff (fun hal => ?_) (fun _ => ⟨⟨rfl, fun h => absurd h (by simp)⟩, ⟨rfl, fun h => absurd h (by simp)⟩, fun h => absurd h (by simp)⟩)
  unfold Av1.palette_mode_info
  rw [env_w hb, env_h hb, hlog.1, hlog.2]
  dsimp only
  have hl := Pal.C79_luma h hv old hp junk oldP H.bpc (bsLog c.bs 0 + bsLog c.bs 1 - 2) o.palY.2 (ok := ok)
  have hc := Pal.C79_chroma h hv old hp junk oldP hbpc (bsLog c.bs 0 + bsLog c.bs 1 - 2) o.palUv.2.1 o.palUv.2.2 (ok := ok)
  rw [e1, e2] at hl hc
  have hlen : ∀ (r : Nat × (Nat → Nat)) cs, Holds r cs → r.1 = cs.length := fun r cs h => by rw [← h.1]; simp
  refine Same.bind (R := fun (a : Nat × (Nat → Nat)) (b : List Nat) => a.1 = b.length ∧ (a.1 > 0 → Holds a b)) ?_ fun ya yb hy => ?_
  · refine Same.ite Iff.rfl (fun _ => ?_) (fun _ => ⟨rfl, fun h => absurd h (by simp)⟩)
    rw [hctx]
    refine Same.bind (flag_same rfl) fun u u' hu => ?_
    subst hu
    refine Same.ite Iff.rfl (fun _ => ?_) (fun _ => ⟨rfl, fun h => absurd h (by simp)⟩)
    exact Same.mono (fun a b h => ⟨hlen a b h, fun _ => h⟩) hl
  refine Same.bind (R := fun (a : Nat × (Nat → Nat) × (Nat → Nat)) (b : List Nat × List Nat) => a.1 = b.1.length ∧ (a.1 > 0 → chromaAt F sb128 T c = true ∧ HoldsUv a b)) ?_
    fun ua ub hu => ⟨hy, hu, fun _ => hal.2⟩
  have hch : (envAt H F f sb128 T info pals before c).HasChroma = chromaAt F sb128 T c := rfl
  refine Same.ite (by rw [hch]; exact ⟨fun h => ⟨h.1, by rw [← hu h.1]; exact h.2⟩, fun h => ⟨h.1, by rw [hu h.1]; exact h.2⟩⟩) (fun hhc => ?_) (fun _ => ⟨rfl, fun h => absurd h (by simp)⟩)
  rw [hy.1]
  refine Same.bind (flag_same rfl) fun u u' hu => ?_
  subst hu
  refine Same.ite Iff.rfl (fun _ => ?_) (fun _ => ⟨rfl, fun h => absurd h (by simp)⟩)
  exact Same.mono (fun a b h => ⟨hlen _ _ h.1, fun _ => ⟨hhc.1, h⟩⟩) hc

/-- Where the indices go: those of luma have 2 · bw4 · 4 · bh4 bytes, and do not overlap the buffer `tmp` nor those of chroma. Without frame threads `dy` is `pal_idx_y`, which has 2048 bytes and is
just before `pal_idx_uv`, and `du` and `tmp` are `pal_idx_uv` (src/internal.h:433-434); otherwise the indices of chroma are behind those of luma in `f->frame_thread.pal_idx`. -/
structure Places (c : Call) (dy du tmp : Nat) : Prop where
  y : dy + 8 * (bsW c.bs * bsH c.bs) ≤ tmp ∨ tmp + 64 * 64 ≤ dy
  uv : du ≤ tmp ∨ tmp + 64 * 64 ≤ du
  sep : dy + 8 * (bsW c.bs * bsH c.bs) ≤ du ∨ du + 32 * 64 ≤ dy

theorem map_out (f : Frame) (F : Copy.Av1.Fmt) {n du tmp : Nat} (hal : Pal.palAllowed c) (mem : Nat → Nat) :
    (Pal.readMap f F c true n du tmp mem).All fun r => ∀ q, (q < tmp ∨ tmp + 64 * 64 ≤ q) → (q < du ∨ du + 32 * 64 ≤ q) → r q = mem q := by
  obtain ⟨m1, m2⟩ := hal
  have k : ∀ s : Bool, ∀ w k : Nat, k ≤ w → w ≤ 16 → (k + s.toNat) / 2 ^ s.toNat ≤ (w + s.toNat) / 2 ^ s.toNat ∧ (w + s.toNat) / 2 ^ s.toNat ≤ 16 := by
    intro s w k h1 h2; cases s <;> simp only [Bool.toNat_true, Bool.toNat_false, Nat.pow_one, Nat.pow_zero] <;> omega
  obtain ⟨e1, e2⟩ := k F.subX (bsW c.bs) (min (bsW c.bs) (f.bw - c.x)) (by omega) (by omega)
  obtain ⟨e3, e4⟩ := k F.subY (bsH c.bs) (min (bsH c.bs) (f.bh - c.y)) (by omega) (by omega)
  unfold Pal.readMap
  dsimp only
  rw [if_pos rfl]
  have hb : (bsH c.bs + F.subY.toNat) / 2 ^ F.subY.toNat * 4 * ((bsW c.bs + F.subX.toNat) / 2 ^ F.subX.toNat * 4 / 2) ≤ 64 * 32 := Nat.mul_le_mul (by omega) (by omega)
  have := Pal.indices_out (pl := 1) (n := n) (dst := du) (tmp := tmp) e1 e3 mem
  rw [← bind_pure' (Pal.readPalIndices _ _ _ _ _ _ _ _ _)]
  exact Prog.All.bind this fun r hr q h1 h2 => hr q h1 (by omega)

theorem maps_same (h : Run f sb128 T before after c) {H : Cfg} {F : Copy.Av1.Fmt} {info : Call → Blk} {pals : Call → PalBlk} (hb : c.bs < 22) {dy du tmp : Nat} (hpl : Places c dy du tmp)
    {szY szY' szUv szUv' : Nat} (h1 : szY = szY') (h2 : szUv = szUv') (hy : szY > 0 → 2 ≤ szY ∧ szY ≤ 8) (hu : szUv > 0 → 2 ≤ szUv ∧ szUv ≤ 8) (hc : szUv > 0 → chromaAt F sb128 T c = true)
    (hal : szY > 0 ∨ szUv > 0 → Pal.palAllowed c) (mem : Nat → Nat) :
    Same ok (fun m p => (szY > 0 → Packed dy (bsW c.bs * 4) (bsH c.bs * 4) m p.1 ∧ ∀ i j, p.1 i j < szY) ∧
        (szUv > 0 → Packed du (Pal.Av1.onscreen F.subX (bsW c.bs * 4) f.bw c.x).1 (Pal.Av1.onscreen F.subY (bsH c.bs * 4) f.bh c.y).1 m p.2 ∧ ∀ i j, p.2 i j < szUv))
      (readMaps f F (chromaAt F sb128 T c) c szY szUv dy du tmp mem) (Av1.palette_maps (envAt H F f sb128 T info pals before c) szY' szUv') := by
  subst h1 h2
  unfold readMaps Av1.palette_maps
  rw [env_w hb, env_h hb]
  refine Same.bind (R := fun m p => szY > 0 → Packed dy (bsW c.bs * 4) (bsH c.bs * 4) m p ∧ ∀ i j, p i j < szY) ?_ fun m p hmp => ?_
  · refine Same.ite Iff.rfl (fun hne => ?_) (fun he h => absurd h (by omega))
    have hs : szY > 0 := by omega
    have := hpl.y
    exact Same.mono (fun a b h _ => h) (Pal.C79_map h (hal (.inl hs)) F (hy hs).1 (hy hs).2 (by omega) mem).1
  · rw [← bind_pure' (if chromaAt F sb128 T c = true ∧ szUv ≠ 0 then Pal.readMap f F c true szUv du tmp m else pure m)]
    refine Same.bind (R := fun m' q => (szUv > 0 → Packed du (Pal.Av1.onscreen F.subX (bsW c.bs * 4) f.bw c.x).1 (Pal.Av1.onscreen F.subY (bsH c.bs * 4) f.bh c.y).1 m' q ∧ ∀ i j, q i j < szUv) ∧
      (szY > 0 → ∀ q, dy ≤ q → q < dy + 8 * (bsW c.bs * bsH c.bs) → m' q = m q)) ?_ fun m' q hq => ?_
    · refine Same.ite Iff.rfl (fun hne => ?_) (fun he => ⟨fun h => absurd ⟨hc h, by omega⟩ he, fun _ _ _ _ => rfl⟩)
      have hs : szUv > 0 := by omega
      have ha := hal (.inr hs)
      refine Same.mono ?_ (Same.all (Pal.C79_map h ha F (hu hs).1 (hu hs).2 hpl.uv m).2 (map_out f F ha m))
      intro a b hab
      refine ⟨fun _ => hab.1, fun _ q g1 g2 => hab.2 q ?_ ?_⟩
      · have := hpl.y; omega
      · have := hpl.sep; omega
    · refine ⟨fun hs => ⟨?_, (hmp hs).2⟩, hq.1⟩
      intro y hyy b hbb
      have hmul : y * (bsW c.bs * 4 / 2) + bsW c.bs * 4 / 2 ≤ 8 * (bsW c.bs * bsH c.bs) := by
        have : (y + 1) * (bsW c.bs * 4 / 2) ≤ bsH c.bs * 4 * (bsW c.bs * 4 / 2) := Nat.mul_le_mul_right _ hyy
        rw [Nat.succ_mul] at this
        rw [show bsW c.bs * 4 / 2 = 2 * bsW c.bs by omega] at this ⊢
        have e : bsH c.bs * 4 * (2 * bsW c.bs) = 8 * (bsW c.bs * bsH c.bs) := by rw [Nat.mul_comm (bsH c.bs) 4, Nat.mul_mul_mul_comm, Nat.mul_comm (bsH c.bs)]
        omega
      rw [hq.2 hs _ (by omega) (by omega)]
      exact (hmp hs).1 y hyy b hbb

/-- The transform of chroma. -/
theorem uvtx_table : ∀ l ∈ [1, 2, 3], ∀ b < 22, (l = 2 → bsH b * 4 ≤ bsW b * 4) →
    let r := (max 4 (if decide (l ≤ 2) then bsW b * 4 / 2 else bsW b * 4), max 4 (if decide (l = 1) then bsH b * 4 / 2 else bsH b * 4))
    let uvTx := Av1.Max_Tx_Size_Rect r
    (4 * (txSize ((Tables.maxTx.getD b []).getD l 0)).1, 4 * (txSize ((Tables.maxTx.getD b []).getD l 0)).2) =
      if uvTx.1 = 64 ∨ uvTx.2 = 64 then (if uvTx.1 = 16 then (16, 32) else if uvTx.2 = 16 then (32, 16) else (32, 32)) else uvTx := by decide +kernel

theorem uvtx_eq {H : Cfg} {F : Copy.Av1.Fmt} {info : Call → Blk} {pals : Call → PalBlk} (hb : c.bs < 22) (hs : uvSizeOk (envAt H F f sb128 T info pals before c)) (hl : LayoutOk F H.layout) :
    (4 * (txSize (if H.lossless then 0 else (Tables.maxTx.getD c.bs []).getD H.layout 0)).1, 4 * (txSize (if H.lossless then 0 else (Tables.maxTx.getD c.bs []).getD H.layout 0)).2) =
      Av1.uvTxSize (envAt H F f sb128 T info pals before c) := by
  have hX : (envAt H F f sb128 T info pals before c).subX = F.subX := rfl
  have hY : (envAt H F f sb128 T info pals before c).subY = F.subY := rfl
  have hL : (envAt H F f sb128 T info pals before c).Lossless = H.lossless := rfl
  unfold uvSizeOk at hs
  unfold Av1.uvTxSize Av1.residualSize
  rw [env_w hb, env_h hb, hX, hY] at hs
  rw [env_w hb, env_h hb, hX, hY, hL]
  cases H.lossless with
  | true => rfl
  | false =>
    unfold LayoutOk at hl
    simp only [Prod.mk.injEq] at hl
    rcases hl with ⟨l1, l2, l3⟩ | ⟨l1, l2, l3⟩ | ⟨l1, l2, l3⟩ <;> rw [l1, l2] at hs ⊢ <;> rw [l3]
    · exact uvtx_table 1 (by simp) c.bs hb (fun h => absurd h (by decide))
    · exact uvtx_table 2 (by simp) c.bs hb (fun _ => hs rfl rfl)
    · exact uvtx_table 3 (by simp) c.bs hb (fun h => absurd h (by decide))

/-- **C80.** For an intra block decode_b reads the same symbols with the same contexts as the specification, and ends with the same modes, angles, factors of CFL, palettes, maps and transform sizes. -/
theorem C80_block (h : Run f sb128 T before after c) {H : Cfg} {F : Copy.Av1.Fmt} {info : Call → Blk} {pals : Call → PalBlk} (hv : ∀ d, (info d).Valid H.inter)
    (old : Ctxs Edge) (hp : PalsOk info (chromaAt F sb128 T) pals) (junk : Nat → PalSt) (oldP : PalSt) (hbpc : 8 ≤ H.bpc) {a l : Edge} (he : (a, l) = (ctxsAt H.inter sb128 info old before c).at c)
    {dy du tmp : Nat} (hpl : Places c dy du tmp) (o : Out) :
    Same ok (Rel (envAt H F f sb128 T info pals before c) H.layout F dy du)
      (readIntraBlk H f F (chromaAt F sb128 T c) c a l (palsAt sb128 junk info (chromaAt F sb128 T) pals oldP before c) dy du tmp o)
      (Av1.intra_block (envAt H F f sb128 T info pals before c)) := by
  have hb : c.bs < 22 := by
    obtain ⟨ok, r, hpw, hin⟩ := h.facts
    exact (hin c (by rw [Dav1d.Part.blocks_append]; simp [Dav1d.Part.blocks])).2.bs
  unfold readIntraBlk Av1.intra_block
  refine Same.bind (ymode_same h hb hv old he) fun y y' hy => ?_
  obtain ⟨rfl, hy⟩ := hy
  refine Same.bind (angle_same hb y) fun g g' hg => ?_
  subst hg
  refine Same.bind (R := fun (a : Nat × Int × (Int × Int)) (b : Nat × (Int × Int) × Int) => chromaAt F sb128 T c = true → a.1 = b.1 ∧ a.2.1 = b.2.2 ∧ (b.1 = 13 → a.2.2 = b.2.1)) ?_ fun u u' hu => ?_
  · refine Same.ite Iff.rfl (fun _ => ?_) (fun hc h => absurd h hc)
    exact Same.mono (fun a b h _ => h) (uv_info_same hb y o.cfl)
  refine Same.bind (pals_same h hb hv old hp junk oldP hbpc he y (fun hc => (hu hc).1) o) fun p p' hpp => ?_
  obtain ⟨p1, p2, p3⟩ := hpp
  refine Same.bind (filter_same hb g p1.1 hy) fun q q' hq => ?_
  have hlen : ∀ (r : Nat × (Nat → Nat)) cs, Holds r cs → 2 ≤ r.1 ∧ r.1 ≤ 8 := fun r cs h => by
    have := h.1; have := congrArg List.length this; simp at this; have := h.2.2; omega
  refine Same.bind (maps_same h hb hpl p1.1 p2.1 (fun h => hlen _ _ (p1.2 h)) (fun h => hlen _ _ (p2.2 h).2.1) (fun h => (p2.2 h).1) p3 o.mem) fun m m' hm => ?_
  refine Same.bind (tx_same h hb hv old he) fun t t' ht => ?_
  refine ⟨?_, ?_, ⟨hy, hq.2.2⟩, hu, p1, p2, ?_, ?_, ht.1, fun hc hs hl => ?_⟩
  · exact hq.1
  · exact hq.2.1
  · rw [env_w hb, env_h hb]; exact hm.1
  · rw [env_w hb, env_h hb]; exact hm.2
  · dsimp only; rw [ht.2]; exact uvtx_eq hb hs hl

/-- **C80.** What is found for the block is again as assumed for the blocks before: a mode that exists, and palettes in order, that for chroma only with chroma. -/
theorem C80_next {E : Av1.Env} {layout : Nat} {F : Copy.Av1.Fmt} {dy du : Nat} {o : Out} {r : Av1.Res} (h : Rel E layout F dy du o r) (inter skip segPred : Bool) :
    (⟨skip, segPred, .intra o.yMode o.palY.1 (txLw o.tx) (txLh o.tx)⟩ : Blk).Valid inter ∧
    ((List.range o.palY.1).map o.palY.2).Pairwise (· ≤ ·) ∧ ((List.range o.palUv.1).map o.palUv.2.1).Pairwise (· ≤ ·) ∧ (o.palUv.1 > 0 → E.HasChroma = true) := by
  refine ⟨?_, ?_, ?_, fun h' => (h.palUv.2 h').1⟩
  · show o.yMode ≤ 13
    rw [h.yMode]
    split
    · exact Nat.le_refl _
    · have := h.yRange.1; omega
  · rcases Nat.eq_zero_or_pos o.palY.1 with e | e
    · rw [e]; exact List.Pairwise.nil
    · have := h.palY.2 e; rw [this.1]; exact this.2.1
  · rcases Nat.eq_zero_or_pos o.palUv.1 with e | e
    · rw [e]; exact List.Pairwise.nil
    · have := (h.palUv.2 e).2.1; rw [this.1]; exact this.2.1

/-! ## Examples -/

def exCfg : Cfg := ⟨false, true, true, true, false, 1, 8⟩
def exOut : Out := ⟨0, 0, 0, 0, (0, 0), (0, fun _ => 0), (0, fun _ => 0, fun _ => 0), fun _ => 0, 0, 0⟩

def exPalSt : PalSt := ⟨fun _ => ⟨0, fun _ _ => 0⟩, fun _ => ⟨0, fun _ _ => 0⟩, none⟩

/-- The 16x4 block of the run in Part/Props, without frame threads. -/
example := C80_block (ok := anything) smallRun_at (H := exCfg) (F := Copy.yuv420) (info := Pal.palInfo) (fun _ => (by decide : 0 ≤ 13)) ⟨fun _ => .zero, fun _ => .zero, none⟩
  (Pal.exPals_ok Copy.yuv420) (fun _ => exPalSt) exPalSt (by decide) rfl (dy := 0) (du := 2048) (tmp := 2048) ⟨by decide, by decide, by decide⟩ exOut

/-- That block with a directional mode, CFL, and the transform split once. -/
def exEnv : Av1.Env :=
  envAt exCfg Copy.yuv420 Dav1d.Part.smallFrame false Dav1d.Part.smallTile Pal.palInfo (Pal.exPals Copy.yuv420) ((Dav1d.Part.logOf Dav1d.Part.smallRun).take 8) ⟨3, 14, 8, 60, 8, 1⟩
example : ((Av1.intra_block exEnv).run Copy.listed [3, 5, 13, 4, 2, 7, 1, 99]).1.map (fun r => [(r.YMode : Int), r.AngleDeltaY, r.UVMode, r.CflAlphaU, r.CflAlphaV, r.TxSize.1, r.TxSize.2]) = some [3, 2, 13, -3, 8, 8, 4] := by decide +kernel
example : ((Av1.intra_block exEnv).run Copy.listed [3, 5, 13, 4, 2, 7, 1, 99]).2 = [99] := by decide +kernel
example : exEnv.HasChroma = true ∧ Av1.uvTxSize exEnv = (8, 4) := by decide +kernel

end Dav1d.Syn.Intra
