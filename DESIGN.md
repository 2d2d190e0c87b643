# Formal model of dav1d

The model lives in `lean/Verif`. Each area has `Model.lean` (definitions that transcribe the C code,
each with a file/line citation), `Spec.lean` (independent statement of what is wanted), lemma files and
`Props.lean` (the property theorems, each followed by an `example` showing a concrete case that meets its
hypotheses).

## Trusted base

* Lean 4.33 kernel; axioms `propext`, `Classical.choice`, `Quot.sound` only. No own axioms, no `sorry`,
  no `native_decide`, no `bv_decide`.
* The transcription of C to Lean: the model is written by reading /repo as text (it is not extracted).
* The C semantics of the integer types is modelled explicitly where wrap-around matters (`BitVec`,
  `Nat` with `% 2^w`), otherwise by unbounded `Int`/`Nat` with a theorem that the C value does not overflow.
* SIMD assembly is not modelled; the C reference implementation is.

## Plan per property

| id | modelled | proof |
|----|----------|-------|
| C01 | `GetBits` struct, refill with 64-bit state, all readers | refinement to a list-of-bits reader, per op, by invariant over all op sequences |
| C02 | `dav1d_get_uleb128` | inverse of leb128 encoder for every padding; rejection lemma |
| C03 | uniform/vlc/subexp | inverse of spec encoders + range |
| C04 | `parse_seq_hdr` | parse (serialize h) = h by syntactic composition |
| C05 | `dav1d_parse_sequence_header` | induction on buffer, relation to OBU splitting spec |
| C06 | `dav1d_parse_obus` header part, `gen_picture` | measure argument, bounds |
| C07 | `read_frame_size`, size limit check | case analysis over all bit strings |
| C08 | `tile_log2`, tiling section | induction over loops |
| C09 | tile group bookkeeping | invariant over OBU sequences |
| C10 | tile splitting loop in `dav1d_decode_frame_init_cdf` | induction over groups and tiles |
| C11 | short signalling | refinement to spec process |
| C12 | `get_poc_diff` | modular arithmetic |
| C13 | skip mode search | argmax characterization |
| C14 | `parse_film_grain_data` | invariants of loops |
| C15 | metadata OBU parsing | list lemmas |
| C16 | `ref.c` as atomic-step transition system | invariant over all interleavings |
| C17 | `mem.c` pools as transition system | invariant over all interleavings |
| C18 | `dav1d_send_data`, `gen_picture` | state machine, invariant of reachable states |
| C19 | `dav1d_default_picture_alloc` | arithmetic with explicit overflow |
| C20 | allocation callbacks as users of `ref.c` | invariant over all interleavings, for one picture |
| C21–C23 | `lib.c`/`obu.c` API state machine with parametric frame decoder | simulation by a sequential decoder without queues |
| C25 | same; `Dec.er` forgets what only concerns event flags | every call commutes with it; a flushed decoder and a new one agree until the sequence header and are related after it |
| C26 | same; `failures`: the errors of all frames decoded, `owed`: those not yet reported | ledger: every call keeps failures = reported ++ owed, and draining empties `owed` |
| C24 | same; `UnitStream`: packets each holding one temporal unit whose frames climb the spatial layers | simulation of one unit by the sequential decoder; witnesses where the claim is false |
| C27 | same | ledger of the flags of pictures entering and leaving the output; the pending flag stays until the first picture shown; witnesses where the claim is false |
| C28 | same; without frame threading | the parsing of a key frame header does not look at the references; contexts that agree except for references and the partial frame agree completely after the key frame (`Near` → `Sim`); converse for a refused show_existing_frame; witnesses where the claim is false |
| C29, C30 | same, decode_frame_type and operating point | equivalence with the stream filtered before |
| C31 | `get_num_threads`, `dav1d_open` checks | arithmetic over all settings |
| C32–C35 | `msac.c` with window parameter W | refinement to the AV1 spec decoder; CDF invariants; encoder |
| C36, C37 | `mc_tmpl.c`, `emu_edge` | range lemmas over all pixels, filters, positions |
| C38, C39, C53, C54 | `itx_1d.c`, `itx_tmpl.c` | straight-line programs with a verified interval analysis |
| C40, C55–C57 | `cdef_tmpl.c`, `loopfilter_tmpl.c` | pixelwise equality with a transcription of the specification |
| C41, C60 | `looprestoration_tmpl.c` | loop invariants of the row ring buffers, equality with the specification |
| C42, C58, C59 | `ipred_tmpl.c`, `ipred_prepare_tmpl.c` | equality with a transcription of the specification |
| C43, C61 | `filmgrain_tmpl.c`, `fg_apply_tmpl.c` | equality with a transcription of the specification |
| C44–C46 | constant tables, `scan.c`, `wedge.c` | kernel `decide` over whole tables, lifted |
| C47 | `warpmv.c` and its callers | interval arithmetic, equality with the specification |
| C48 | `lf_mask.c` levels | case analysis |
| C49 | `thread_task.c` | transition system invariants |
| C62, C63 | `thread_task.c` | several frames, each the system of C49; invariants, measure, induction over the frames |
| C64 | `cdf.c` and the frame flow of its tables | flat word layout, kernel `decide` over all default tables, simulation by induction over frames |
| C65 | `decode_coefs` with its contexts, `read_golomb`, the scans and the transform type tables | any symbol source; invariant for the level buffer from the diagonal order of the scans, invariant for the chain of coefficients; word arithmetic by bits |
| C66 | the slot updates of `dav1d_submit_frame` and `dav1d_parse_obus` (model of C06…C30) | case analysis of one OBU in any reachable state, against a relation that lists the permitted updates slot by slot |
| C67–C69 | `decode_sb` with the tree of edge flags, its contexts and the superblock loop | any source of symbols; the blocks and contexts are recorded; invariant of a node (what is decoded around it, what the contexts encode) by induction over the levels, then over superblocks |
| C70 | the same in the second pass | relation of two runs by induction over the levels |
| C71 | the loops of `dav1d_recon_b_intra` over transform blocks, choice of the transform | invariant of the loops on top of C67 and C68; kernel `decide` over the tables of block and transform sizes |
| C72 | calls of `dav1d_prepare_intra_edges`, `dav1d_backup_ipred_edge` | invariant of an inductive relation for the memory; C58 and C59 for the prediction itself |
| C73 | `BlockContext` with its resets and updates in `decode_b` | order of the blocks in a column and in a row from C67 and C68, then induction over the record of a run |
| C74 | the context functions of `src/env.h`, `sm_flag`, `get_cur_frame_segid` | C73; kernel `decide` over all pairs of neighbours (36 x 36 cases of references), lifted by a lemma |
| C75 | reading of reference frames in `decode_b` | case analysis of both trees |
| C76 | `dav1d_create_lf_mask_intra`, `_inter`, `dav1d_loopfilter_sbrow_cols`, `_rows` and what they call down to loop_filter | invariant of masks and contexts over the blocks in any interleaving of tiles, then correction at tile edges |
| C77 | decode_b up to the choice of intra or inter, start of tiles and superblocks | simulation between programs of requests to the arithmetic decoder; relation of the states between blocks |
| C78 | read_mv_residual, the vector of intra block copy and its correction, mc() from the picture itself | order of superblocks gives what is decoded; box arithmetic of each correction step; non-interference of undecoded samples; simulation of the reading |
| C79 | read_pal_plane, read_pal_uv, read_pal_indices with order_palette and pal_idx_finish, al_pal and pal_sz_uv of the thread | folds over the blocks in decoding order for the palettes around; simulation of the reading; in-place merge is a sort; colour contexts by a check of all cases of the finite table; in-place packing by induction over rows |
| C80 | decode_b for intra blocks, up to the reconstruction | simulation step by step against the syntax of the specification, with C74 and C79 for the contexts and palettes; tables by `decide` over all block sizes; a frame lemma for what reading a map leaves alone |
| C81 | decode_b for inter blocks, up to the transform tree, get_gmv_2d, fix_mv_precision | simulation step by step against the syntax of the specification with C74 for the contexts; what refmvs finds is related by hypothesis; parity of the grid and C73 for the blocks around |
| C82 | read_tx_tree, read_vartx_tree, read_coef_tree, loops of read_coef_blocks | induction over the tree against read_var_tx_size; bits of the masks by path; last block above and to the left for the contexts; order of the transforms by induction over transform_tree |
| C83 | tile_init (restoration part), read_restoration_info, the restoration part of dav1d_decode_tile_sbrow, dav1d_msac_decode_subexp, lr_sbrow and dav1d_lr_sbrow without filtering | simulation of read_lr; places are injective, so memory with the reference inside of it is a refinement of the arrays of the specification; arithmetic over all sizes for the lookup |
| C84 | backup_lpf with lr_backup, dav1d_copy_lpf (for restoration), lr_stripe, backup4xU, lr_sbrow and dav1d_lr_sbrow | invariant over stripes, units and rows of superblocks: what is still to be filtered is the frame after CDEF, saved lines are the rows around ends of stripes; C60 for the filters and C83 for the units; the filters depend on a window only and move with the picture |
| C85 | backup2lines, backup2x8, dav1d_cdef_brow, dav1d_filter_sbrow_cdef, backup_lpf without lr_backup and dav1d_copy_lpf (for CDEF) | invariant over blocks, 64 columns, strips and rows of superblocks: samples not yet filtered are those before CDEF, saved columns and lines are those that were overwritten; C55 and C56 for the filter and the direction of a block; then induction over runs with deblocking, saving and filtering as events |
| C86 | the CDEF parts of decode_b (cdef index, noskip_mask) and of dav1d_decode_tile_sbrow (cdef_idx of a superblock) | decoder and specification in lockstep over arbitrary runs: entries of masks are injective in 64x64s, a bit is set iff a block that covers one of its two units is not skipped; with C85 for the frame |
| C87 | scale_fac and get_upscale_x0 for super-resolution, `dav1d_filter_sbrow_resize` | int arithmetic with overflow as an outcome equals the formulas of the specification by bounds; the accumulated position of resize_c (model of C36) equals the product; rows of calls are the rows that CDEF filters, cut at the frame; induction over upscaled rows of superblocks, with C85 for the frame that is read |
| C88 | the filters of C84, C85 and C87 for a frame with super-resolution | induction over runs (`Run`) of saving, upscaling and restoring rows of superblocks: rows that are restored are those that were upscaled and those that CDEF filtered; saved lines are scaled rows of the frame before CDEF |
| C89 | the filters of C84 and C85 in one frame (dav1d_filter_sbrow, and the same filters as tasks) | induction over runs: a row of superblocks that is restored keeps its rows, rows that CDEF still needs are in lines saved before; samples after CDEF are in range |
| C50 | `tools/input/*` | induction over files |
| C51 | `tools/output/md5.c` | invariant of the buffer; equality with RFC 1321 |
| C52 | `parse_frame_hdr` whole | postcondition calculus over all bit strings, induction over header chains |

## What is modelled

* `src/getbits.c`, `src/getbits.h`: everything, byte level (`GetBits/Model.lean`).
* `src/msac.c`: everything, with the window size as parameter (`Msac/Model.lean`).
* `src/obu.c:48-339`: sequence headers and `dav1d_parse_sequence_header` (`Obu/SeqModel.lean`, `Obu/SeqParseModel.lean`).
* `src/obu.c:341-1196`: frame headers (`Obu/FrameModel.lean`). Logging (`DEBUG_FRAME_HDR`) and `skip` of the
  operating point's parameters are left out.
* `src/obu.c:1198-1760` (`dav1d_parse_obus`, tile groups, metadata, show_existing_frame) and `dav1d_submit_frame`
  (`src/decode.c:3448-3748`) as a state machine (`Obu/ObuModel.lean`); the reconstruction of a frame is an arbitrary
  function of sequence header, frame header, tile data and the reference slots (`Env.dec`), allocation failures are an
  arbitrary oracle (`Env.oom`). `Obu/ObuStep.lean` proves it equal to a description on bytes.
* `src/lib.c:240-560`: send_data, get_picture, flush, event flags, error properties (`Api/Model.lean`). With several
  frame contexts a frame's result is taken when its ring slot is waited for (the code's only synchronisation point
  visible to the caller); intermediate states of the worker threads are not visible in this model.
* `Api/Inv.lean`: the invariant of every context reachable by API calls. `Api/Demo.lean`: byte streams for examples.
* `Api/SeqSpec.lean`: a sequential decoder, the specification for C21 and C23; `Api/SeqSim`, `SeqRun`, `Drain` prove that
  the state machine simulates it, `Api/OrderProps` has the theorems.
* `Api/ErrorLemmas.lean`, `ErrorProps`: C26.
* `Api/LayerProps.lean`: C24.
* `Api/EventLemmas.lean`, `FlagLemmas.lean`, `EventProps.lean`: C27.
* `Api/Erase.lean`: what no reply but event flags depends on; `Api/FlushLemmas`, `FlushProps`: C25.
* `Api/RecoverKey`, `RecoverLemmas`, `RecoverMain`, `RecoverProps`: C28.
* `Api/SlotProps`: C66.
* `src/lib.c:60-310` settings, thread counts and frame delay (`Api/Open.lean`).
* `src/decode.c:3144-3196` tile data (`Decode/TileData.lean`); not the CDF copy in `setup_tile`.
* `src/ref.c`, users in `src/data.c`, `src/picture.c` (`Mem/Ref.lean`); `src/mem.c:219-314` (`Mem/Pool.lean`);
  `src/picture.c:46-83` (`Mem/PicAlloc.lean`). Memory is sequentially consistent in these models.
* `src/mc_tmpl.c` put/prep/avg/w_avg/mask/blend/w_mask/warp (`Dsp/Mc.lean`), emu_edge and its caller (`Dsp/Emu.lean`).
* `src/itx_1d.c`, `src/itx_tmpl.c` (`Dsp/Itx1d.lean`, `Dsp/Itx.lean`), `src/scan.c` (`Dsp/Scan.lean`).
* `src/cdef_tmpl.c` (`Dsp/Cdef.lean`), `src/loopfilter_tmpl.c` (`Dsp/Lf.lean`), levels of `src/lf_mask.c:385-468`
  (`Dsp/LfLevel.lean`). `cdef_apply_tmpl.c` is in `Verif/Syn/Cdf*.lean`; the deblocking loops of `lf_apply_tmpl.c` and the mask creation of `lf_mask.c` are in `Verif/Part/Lpf*.lean` (C76).
* `src/ipred_tmpl.c`, `src/ipred_prepare_tmpl.c` (`Dsp/Ipred.lean`); availability flags are inputs there, C71 and C72 are about
  their values.
* `src/warpmv.c` and its callers (`Dsp/Warp.lean`); `find_matching_ref` is not modelled.
* `src/wedge.c` (`Dsp/Wedge.lean`), `src/tables.c`, `src/dequant_tables.c` (`Dsp/Tables.lean`, `Dsp/McTables.lean`).
* `src/looprestoration_tmpl.c` (`Dsp/Lr.lean`); `lr_apply_tmpl.c` is not modelled.
* `src/filmgrain_tmpl.c`, `src/fg_apply_tmpl.c` (`Dsp/Fg.lean`).
* `tools/input/*.c` (`Tools/Input.lean`, `Tools/Probe.lean`), `tools/output/md5.c` (`Tools/Md5.lean`).
* `src/thread_task.c:214-451, 602-931`: the tasks of a frame as a transition system (`Thread/SchedModel.lean`), one step
  per atomic access; `Thread/SchedSpec.lean` has the work of a frame and what it depends on, `SchedTile` to `SchedEnd` the
  invariants, `SchedProps` the theorems. Any worker may take any runnable task: `insert_tasks`, `ttd->cur`,
  `reset_task_cur` and the condition variables (lines 40-205) are not modelled, nor flushing and failed allocations.
  `SchedPub` has the published progress values, `FramesModel` and `FramesProps` several frames at once.
* `src/cdf.c`, `src/cdf.h`: layout, default tables (copied by a script), copy, update, and which tables a frame starts with
  and saves (`Cdf/Layout.lean`, `Default`, `Coef0` to `Coef3`, `Model`); `Cdf/Spec.lean` has the same with separate,
  completely saved tables. The default values themselves are compared with nothing; they are shown to be valid
  distributions of the sizes that the readers use. Which tables the readers use is written down in `Cdf/Spec.lean`.
* `src/recon_tmpl.c:49-740` (`decode_coefs` and what it calls), `src/scan.c`: `Coef/Model.lean`. `Coef/Spec.lean` is the
  syntax of AV1 for a transform block, `Coef/Rel.lean` relates the arguments to it and says when the function is called
  (the conditions of `Arg.Ok` are those that the callers establish; the callers are not modelled). Symbols come from an
  arbitrary state machine (`Source`); the arithmetic decoder itself is the subject of C32 to C35. `if (TX_CLASS_2D)` in the
  macro of the AC loop tests a constant that is zero; the branch it guards is not needed.
* `src/decode.c:2119-2389, 2596-2737` (`decode_sb` and the order of superblocks), `src/intra_edge.c`, `src/env.h:83-118`:
  `Part/Model.lean`; `Part/Spec.lean` has what is asked of the record of a run, `Leaf` the blocks of each partition, `Split`
  the induction over the levels, `Tile` over the superblocks, `Replay` the second pass. decode_b is an arbitrary function
  that may fail; that it stores level and partition at the position of the block (decode.c:809-810) is the hypothesis of
  C70. The trees are inductive values instead of byte offsets in one array.
* `src/recon_tmpl.c:1179-1558` (`Part/TxModel.lean`): positions, sizes and flags of the transform blocks of intra blocks, one
  plane at a time; a block that is predicted as a whole (inter, intra block copy, palette) is one unit. The order of the
  planes within a chunk is left out, as they do not depend on each other (but for chroma from luma, C59). Prediction of
  inter-intra blocks is not covered. `Part/EdgeModel.lean`: where prediction reads, and `src/recon_tmpl.c:2114-2138`. What loop
  filters and other threads do is limited there only by what they must not touch (`Reach.other`).
* `src/env.h:39-81, 135-461`, the updates of `BlockContext` in `src/decode.c` (lines in the comments) and the reading of
  reference frames: `Part/CtxModel.lean`. What decode_b finds out about each block is an arbitrary function of the block
  with the restrictions of `Blk.Valid`. `Part/CtxSpec.lean` has the contexts of the AV1 specification. Not covered: contexts of
  transform trees, chroma modes, motion vectors and inter modes (the last two come from `src/refmvs.c`), and the conditions
  for reading most elements. `t->a` is numbered through the columns of the frame instead of blocks of 32 entries.
* `src/lf_mask.c:39-384`, `src/lf_apply_tmpl.c:176-466`, `src/loopfilter_tmpl.c:163-248`, the masks of read_tx_tree and the saved
  contexts at tile edges: `Part/LpfModel.lean`. The result is the list of calls of loop_filter (position, level, number of
  samples). Intra or inter, skip, transforms, values of txfm_split and levels of each block are arbitrary within
  `LBlk.Valid`. Not covered: whether the planes are filtered at all (`level_y`, `level_u`, `level_v`, src/recon_tmpl.c:1990-2021), the calculation of
  the levels (C37), the filter itself, when each superblock row is filtered (C55), and the order of the calls.
* `src/decode.c:812-1049` with `neg_deinterleave`, `get_prev_frame_segid`, `init_quant_tables`, and the resets at the start of tiles and
  superblocks: `Syn/HeadModel.lean`. A program is a tree of requests to the arithmetic decoder (`Syn/Base.lean`); what was
  decoded for earlier blocks is arbitrary and reaches the block through the contexts of C73 and C74. The calculation of loop
  filter levels is a parameter. Not covered: pass 2, in which these values are read back.
* Intra block copy (`Verif/Syn/Copy*.lean`): read_mv_component_diff and read_mv_residual with all precisions, the default vector, the five steps of
  the correction and its error, and the prediction in luma and chroma with the models of emu_edge and put_bilin (C36, C37). The candidate vectors that
  dav1d_refmvs_find leaves in `mvstack` are arbitrary 16-bit pairs, the same for the code and the specification. That intra frames have tables of their own
  for these symbols is part of C64.
* Palettes (`Verif/Syn/Pal*.lean`): the arrays of the thread with palettes and chroma sizes around (arbitrary contents at the start of each row of superblocks, since they are not
  cleared and another thread may have written others), reading of sizes, colours and indices, packing. Not modelled: where pass 1 keeps palettes and indices for pass 2.
* Intra blocks (`Verif/Syn/Intra*.lean`): the reading in decode_b from the mode of luma to the transform sizes, as one program with the memory for the indices; the specification is written in its own terms
  (Block_Width, Size_Group, Max_Tx_Depth, Split_Tx_Size). The places of the maps are any that do not overlap as those of both passes.
* Inter blocks (`Verif/Syn/Inter*.lean`): the reading in decode_b from the number of references to the filters. What dav1d_refmvs_find leaves is an arbitrary list related to the one of the specification
  by `CandsOk` (the same candidates, listed ones already in the precision of the frame); whether find_matching_ref finds something is an arbitrary function of the reference. Deriving warp parameters and writing the
  vectors for later blocks (splat) are not part of it.
* Transforms of inter blocks (`Verif/Syn/Vartx*.lean`): read_tx_tree, read_vartx_tree, the contexts `tx` of all blocks, read_coef_tree and the loops of dav1d_read_coef_blocks around it for luma
  (which transforms at which places; the reading of one transform is a leaf here).
* Restoration units (`Verif/Syn/Lru*.lean`): `LruModel.lean` has the memory lr_mask as a function of plane and pointer, and lr_ref as a pointer into it, so that a unit may be written over its own reference. `LruSpec.lean` is read_lr, read_lr_unit and the choice of the unit in 7.17, from memory. `Rel` (`LruRead.lean`) says that the memory of a tile has the units and references of the specification; `C83_read` keeps it, `C83_init` and `C83_start` begin with it, `C83_other` keeps it when other tiles write. `C83_cover` and `C83_once`: units and superblocks. `C83_apply`: samples and units. The filtering of a stripe (lr_stripe: rows of 64, borders saved before filtering) is not part of it; the filters themselves are C41 and C60. `CfgOk` is what the headers guarantee.
* Loop restoration in place (`Verif/Syn/Lrs*.lean`): `LrsModel.lean` has a plane as a function of row and column that is changed in place, and f->lf.lr_lpf_line as a function of line and column. Of the two buffers pre_lr_border only what was saved last is kept. `LrsSpec.lean` is 7.17 with the get source sample process, from memory. `LrsShift.lean`: the specified filters move with the picture. `LrsLines.lean`: which rows are saved where (`Good`). `LrsStripe.lean`: what a filter is given is what the specification names (`source_eq`), then the loop over stripes. `LrsUnit.lean`: the loop over units. `C84_sbrow` is one row of superblocks, `C84_plane` the plane in all orders `Sched` allows, `C84_lines` what is written to the lines. Not modelled: when a row of superblocks is deblocked, CDEF'd and scaled (both frames are given as wholes; the frame that is filtered has to be right in the rows in question only), the scaling of saved rows (`D` is the scaled frame), cdef_lpf_line, lengths of lines, and the choice between 5 and 7 taps, which is for assembly only.
* CDEF in place (`Verif/Syn/Cdf*.lean`): `CdfModel.lean` has planes as functions of row and column that are changed in place, the two buffers of columns, the two of lines (f->lf.cdef_line) and the flags of the loops as a state that begins arbitrary. A call of the filter of a block is the model of C55, one of the search for the direction that of C56; the position of a pointer is the row and column, strides (and their sign) are not modelled, and copies of lines take whole rows. `CdfSpec.lean` is 7.15 to 7.15.2 from memory, with the specified filter and costs of C55 and C56. `CdfBlock.lean`: what a block is filtered from is what the specification names. `CdfStrip.lean`: blocks, 64 columns, a strip. `CdfRows.lean`: strips and a row of superblocks (two calls). `CdfLines.lean`: saved lines. `C85_sbrow` is one row of superblocks, `C85_one` and `C85_many` the frame for all runs with one and with more threads, `C85_lines` what is written to the lines that threads share. The deblocking filter is a relation (`Deblock`: it leaves the rows of rows of superblocks before, and the rows of this one and two more are final afterwards). `MaskOk`: the masks hold the skip flags and indices of the frame; how blocks write them is C86. The switch DAV1D_INLOOPFILTER_CDEF and frames without CDEF are not part of it.
* Masks for CDEF (`Verif/Syn/Cdm*.lean`): `CdmModel.lean` has f->lf.mask as a function and t->lf_mask as the entry for the place of the block; the value of an index is part of the block (`v`), its reading with n_bits is not modelled. `CdmSpec.lean` is clear_cdef, read_cdef and the Skips of decode_block from memory, for frames with enable_cdef, without CodedLossless and allow_intrabc (in those dav1d stores index 0 with strengths 0 where the specification leaves -1; nothing is filtered either way). `Run` is all orders of superblocks and blocks in which a superblock is begun before its blocks and no unit is decoded twice (`BlkOk`: sizes of AV1, aligned to themselves, not larger than a superblock). `CdmPart.lean`: the blocks that decodeTile of C67 gives in the tiles of a frame are such blocks, whatever is read and in whatever order tiles proceed (`C86_tiles`); that a superblock is begun before its blocks is part of `Exec`.
* Super-resolution (`Verif/Syn/Sr*.lean`): `SrModel.lean` has the steps and first positions with int overflow and shifts of negative numbers as `none`; a row of pixels is the model of resize_c of C36, whose own arithmetic is unbounded. Planes are functions of row and column, strides are not modelled. `SrSpec.lean` is the upscaling process 7.16 from memory; its Upscale_Filter is the decoder's table with the other sign, so that the numbers of the table are not checked against another source. In `C87_frame` the order is given by the relation `Up`: a row of superblocks may be upscaled in any frame of a run of C85 in which it is through CDEF; that the tasks are run in such an order is not part of it. The reference frame and the lines saved for loop restoration are not part of it.
* The filters together (`Verif/Syn/SrChain.lean`): `Run` has the events for the upscaled frame, whose source is any state of a run of C85. The saved lines are rows of the given frame `D` after the deblocking filter (the deblocking filter itself is C57 and C76), scaled by the same function. `PostChain.lean` has the same for frames without super-resolution, where all filters work in one frame. The lines for loop restoration are taken from `D`, those for CDEF from the frame as it is when they are saved (with more than one thread both are one buffer in the code). Sequences without CDEF are not covered by C88 and C89.
* Not modelled at all: block syntax and reconstruction in `src/decode.c` and `src/recon_tmpl.c` other than listed,
  `src/refmvs.c`, assembly, CPU detection, logging.

The AV1 specification was not available in the sandbox. The transcriptions of its processes (`*Spec.lean`) were written from
knowledge of it; they are kept separate from the model, so that a reader can compare them with the text.

## Disagreements between code and description

* C04: for a reduced still picture header the major level is stored without the offset 2 (src/obu.c:100);
  `C04_reduced_level` proves it.
* Super resolution: the coded width is the specification's value but at least min(16, width) (src/obu.c:361);
  the specification has no such lower bound.
* Film grain: update_grain = 0 pointing to a reference without film grain leaves apply_grain set with all-zero
  parameters (scaling shift 0, outside 8..11); harmless because there are no scaling points.
* Skip mode: see `C13_half_range_corner`.
* Tile groups: the end of a tile group is not compared with the number of tiles (src/obu.c, `parse_tile_hdr` and the
  check after it), so more groups than tiles can be buffered (`C09_count_fails`); such a frame is never decoded.
* T.35 metadata with an empty payload is ignored as malformed.
* C10: the last tile of a group may be empty (`C10_last_empty`).
* C16: more than 2^32 references wrap the counter (`C16_overflow`).
* C18: tile groups of a rejected packet stay referenced (`C18_tiles_kept`).
* C19: the 64 bytes of padding behind the planes partly hold the `Dav1dMemPoolBuffer`. With TRACK_HEAP_ALLOCATIONS
  `dav1d_alloc_aligned` passes its arguments in the wrong order (src/mem.c).
* C21: the first EAGAIN while draining with several frame contexts is not always the end (`C21_first_again`).
* C23: with all_layers=0 and spatial layers, one frame context outputs the layer cached at each get call.
* C26: the error of a packet is lost, though dav1d_send_data accepted it, if an earlier frame's error is found by the same
  call, and the earlier error then comes with the properties of the later packet (`C26_wrong_props`, lib.c:427-431,
  decode.c:3355-3364); ERANGE does not update the properties (`C26_limit_props`, obu.c:1344-1350).
* C24: the claim needs a temporal unit to be sent in one packet (`C24_split`), no show_existing_frame of a picture that
  already started a unit (`C24_shown_again`), a following unit with layers (`C24_lost`: the cached picture is never
  returned once a sequence without layers starts, lib.c:362-371) and one frame context (`C24_twice`).
* C27: the event flags are set when a picture enters the output of the decoder, not when it is returned (`C27_early`).
  The flag of a key frame that fails to decode is reported without a picture and the following pictures do not carry it
  (`C27_lost`). A frame decoded before a change of the operating parameters and shown after it does not carry the flag
  (`C27_shown_again`), and a frame shown twice carries its flags twice (`C27_repeated`).
* C25: event flags pending before dav1d_flush are reported after it (`C25_events_kept`).
* C81: for GLOBAL_GLOBALMV needs_interp_filter of the specification looks at the second reference only; src/decode.c:1543-1557 reads the filters when any of the two has a translation
  (`C81_filter_differs`). The theorem therefore asks that the second is one if the first is.
* C82: a lossless block with skip keeps its largest transform in src/decode.c:457-462, where the specification has TX_4X4. Nothing depends on it: there are no coefficients, and the loop
  filter uses TX_4X4 for lossless segments by a rule of its own. The theorem leaves the size of these blocks out. The loops of recon_b_inter over the luma transforms are those of
  dav1d_read_coef_blocks up to empty iterations.
* C83: for sets without the second pass dav1d stores the weight 95, where the specification has Clip3(-32, 95, 128 - v0); as v0 is at most 31 this is the same number, which is proved. A frame with use_superres and the same width before and after exists only up to 16 samples wide (the minimum of src/obu.c:361 and 382); dav1d then takes the branch without superres, with the same result (`small`, `colRange`). A tile without any unit in its columns keeps an old lr_ref, which is never used: all statements about it are under `HasCol`.
* C84: the index of the row of superblocks in lr_stripe adds `8 << ss_ver` to y where `8 >> ss_ver` rows were subtracted; as this is less than a superblock it makes no difference, which is part of the proof (`rows`).
* C85: the two columns are saved for both kinds of planes only if needed; a block with no strength for luma after one with strength does not save them for luma, and the next one with strength does. No disagreement was found. The filter also reads and writes samples right of and below the frame, up to a multiple of 8 luma samples, as the specification does with MiCols and MiRows.
* C28: after show_existing_frame of an empty (or not showable) slot was refused, src/obu.c:1571-1580 is reached again after
  the temporal delimiter of every later packet, because `frame_hdr` is kept, so all of them are refused (`C28_stuck`).
  T.35 metadata of a rejected packet goes with the next picture (`C28_metadata_kept`), and HDR10 metadata stays while
  the sequence header is the same (`C28_hdr10_kept`).
* C31: a cookie without callbacks, or only one of the two callbacks, is reported as ENOMEM.
* C41: the self-guided filter does not keep constant areas at 10 and 12 bits. The 3x3 and 5x5 filters ignore
  LR_HAVE_BOTTOM for very low or odd heights, which lr_apply does not use.
* C43: the luma padding column of the input picture is written.
* C45: DC quantizers at 8 bits do not strictly increase. Warp filter rows 0 and 192 are not mirror images.
* C46: in 4:2:2 ties are rounded up for both signs.
* C49: when the allocation for the second pass fails after the first pass has ended (thread_task.c:722-739), `ttd->lock`
  stays locked and is locked again at line 741. The fast path of a tile (769-774) looks at the tile's progress before it is
  stored, so it can be taken only after an error.
* C50: `ivf_open` divides by zero on a file without frames; `annexb_probe` reads outside its buffer and `section5_probe`
  overflows `int` for huge sizes; probes read uninitialised memory for files shorter than 2048 bytes; Annex B packets are
  OBUs instead of temporal units; frame counts wrap at 2^32; `section5_open` leaks the file on failure.
* C51: `md5_verify` accepts blanks and signs in place of digits.
* C77: a coded segment id out of range becomes 0 instead of being clipped to LastActiveSegId (`C77_out_of_range`); `last_active_segid`
  is -1 where the specification has 0 when no feature is used. `ts->dq` and `ts->lflvl` are not set at the start of a
  tile, but always before the first use.
* recon_tmpl.c: `if (TX_CLASS_2D)` inside DECODE_COEFS_CLASS tests a constant, so its other branch is dead.
