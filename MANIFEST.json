{
 "claims": [
  {
   "property": "C01",
   "status": "proved",
   "theorems": [
    "Dav1d.C01_reader_exact",
    "Dav1d.C01_fields",
    "Dav1d.C01_signed",
    "Dav1d.C01_align"
   ],
   "note": "every adaptive reader program, every payload"
  },
  {
   "property": "C02",
   "status": "proved",
   "theorems": [
    "Dav1d.C02_leb128_roundtrip",
    "Dav1d.C02_leb128_sound"
   ],
   "note": ""
  },
  {
   "property": "C03",
   "status": "proved",
   "theorems": [
    "Dav1d.C03_ns_roundtrip",
    "Dav1d.C03_ns_range",
    "Dav1d.C03_uvlc_roundtrip",
    "Dav1d.C03_subexp_roundtrip",
    "Dav1d.C03_subexp_range"
   ],
   "note": "uvlc: dav1d stops after 32 zero bits without reading the terminating one; the value is then 2^32-1 as in the specification"
  },
  {
   "property": "C04",
   "status": "partial",
   "theorems": [
    "Dav1d.C04_roundtrip_partial",
    "Dav1d.C04_roundtrip_full_header",
    "Dav1d.C04_reduced_level",
    "Dav1d.C04_parse_seq_hdr_partial"
   ],
   "note": "Full round trip through dav1d_parse_sequence_header for every header; exact for all but reduced still picture headers, where the code reports the major level 2 too low (src/obu.c:100), proved as C04_reduced_level."
  },
  {
   "property": "C05",
   "status": "proved",
   "theorems": [
    "Dav1d.C05_result",
    "Dav1d.C05_total",
    "Dav1d.C05_enoent",
    "Dav1d.C05_ok",
    "Dav1d.C05_otherwise"
   ],
   "note": "The walk over OBUs equals a byte-level description for every buffer."
  },
  {
   "property": "C06",
   "status": "proved",
   "theorems": [
    "Dav1d.C06_returns",
    "Dav1d.C06_step",
    "Dav1d.C06_consumed",
    "Dav1d.C06_kept",
    "Dav1d.C06_get_error"
   ],
   "note": "Every call sequence with arbitrary bytes terminates; every step is delimited by header and size field. The model has no memory addresses: reads beyond the packet are excluded because the reader works on the packet bytes (C01)."
  },
  {
   "property": "C07",
   "status": "proved",
   "theorems": [
    "Dav1d.C07_size",
    "Dav1d.C07_limit"
   ],
   "note": "Sizes for every accepted header; limit for every frame ever submitted for decoding."
  },
  {
   "property": "C08",
   "status": "proved",
   "theorems": [
    "Dav1d.C08_layout",
    "Dav1d.C08_partition"
   ],
   "note": "All superblock sizes, frame sizes and header bits."
  },
  {
   "property": "C09",
   "status": "partial",
   "theorems": [
    "Dav1d.C09_submitted",
    "Dav1d.C09_buffered",
    "Dav1d.C09_exactly",
    "Dav1d.C09_group",
    "Dav1d.C09_group_all",
    "Dav1d.C09_group_one",
    "Dav1d.C09_no_header",
    "Dav1d.C09_new_header",
    "Dav1d.C09_count_partial",
    "Dav1d.C09_count_fails"
   ],
   "note": "False of the code: the number of buffered groups can exceed the number of tiles (C09_count_fails), bounded by the number of codable tile indices instead."
  },
  {
   "property": "C10",
   "status": "partial",
   "theorems": [
    "Dav1d.C10_tiles_partial",
    "Dav1d.C10_last_empty",
    "Dav1d.Ranges.bounds",
    "Dav1d.Ranges.disjoint",
    "Dav1d.Split.unique"
   ],
   "note": "Everything except that the last tile of a group may be empty, for which C10_last_empty is a witness; that the frame then fails or decodes is up to the entropy decoder."
  },
  {
   "property": "C11",
   "status": "proved",
   "theorems": [
    "Dav1d.C11_header",
    "Dav1d.C11_signalled"
   ],
   "note": "Equality with set_frame_refs of the specification, which is shown to have exactly one outcome."
  },
  {
   "property": "C12",
   "status": "proved",
   "theorems": [
    "Dav1d.C12_cyclic",
    "Dav1d.C12_unique",
    "Dav1d.C12_zero",
    "Dav1d.C12_antisymm",
    "Dav1d.C12_wrap"
   ],
   "note": ""
  },
  {
   "property": "C13",
   "status": "proved",
   "theorems": [
    "Dav1d.C13_allowed",
    "Dav1d.C13_refs",
    "Dav1d.C13_nearest",
    "Dav1d.C13_half_range_corner"
   ],
   "note": "Equivalence with the specification for all order hints. The reading \"two closest past references\" needs the closest one not to be exactly half the order hint range away; C13_half_range_corner shows the exception, which the specification shares."
  },
  {
   "property": "C14",
   "status": "proved",
   "theorems": [
    "Dav1d.C14_ranges",
    "Dav1d.C14_copy"
   ],
   "note": "Taking over parameters from a reference without film grain gives the all-zero structure with the new seed (no scaling points, so no grain is applied)."
  },
  {
   "property": "C15",
   "status": "proved",
   "theorems": [
    "Dav1d.C15_t35",
    "Dav1d.C15_t35_length",
    "Dav1d.C15_t35_bad",
    "Dav1d.C15_other",
    "Dav1d.C15_cll",
    "Dav1d.C15_mdcv",
    "Dav1d.C15_isolated",
    "Dav1d.C15_attached"
   ],
   "note": "An empty T.35 payload counts as malformed in the code and is ignored."
  },
  {
   "property": "C16",
   "status": "proved",
   "theorems": [
    "Dav1d.C16_defined",
    "Dav1d.C16_once",
    "Dav1d.C16_last",
    "Dav1d.C16_count",
    "Dav1d.C16_writable",
    "Dav1d.C16_picture_ref",
    "Dav1d.C16_data_ref",
    "Dav1d.C16_overflow"
   ],
   "note": "Sequentially consistent memory; threads use only references they have; fewer than 2^32 references to one object (C16_overflow shows that this is needed)."
  },
  {
   "property": "C17",
   "status": "proved",
   "theorems": [
    "Dav1d.C17_defined",
    "Dav1d.C17_exclusive",
    "Dav1d.C17_size",
    "Dav1d.C17_released",
    "Dav1d.C17_alive"
   ],
   "note": "Steps between lock operations are atomic; nobody pops once dav1d_mem_pool_end was called."
  },
  {
   "property": "C18",
   "status": "partial",
   "theorems": [
    "Dav1d.C18_accepted",
    "Dav1d.C18_refused",
    "Dav1d.C18_rejected_partial",
    "Dav1d.C18_invalid",
    "Dav1d.C18_tiles_kept"
   ],
   "note": "All parts proved for every reachable state, except that after a rejected packet the tile groups already taken from it keep a reference to it until the frame is complete or discarded (C18_tiles_kept is a concrete run); C18_rejected_partial says that no undecoded data is kept. EAGAIN changes nothing but the internal drain flag."
  },
  {
   "property": "C19",
   "status": "proved",
   "theorems": [
    "Dav1d.C19_geometry"
   ],
   "note": "For 64-bit pointers, and for 32-bit pointers up to 8192*8192 pixels, the limit dav1d_open sets there."
  },
  {
   "property": "C20",
   "status": "partial",
   "theorems": [
    "Dav1d.C20_single_partial",
    "Dav1d.C20_failed"
   ],
   "note": "For one picture and any interleaving of reference operations. That dav1d_close drops all references of the decoder is not proved."
  },
  {
   "property": "C21",
   "status": "partial",
   "theorems": [
    "Dav1d.C21_order_partial",
    "Dav1d.C21_complete_partial",
    "Dav1d.C21_drain_partial",
    "Dav1d.C21_finished",
    "Dav1d.C21_first_again"
   ],
   "note": "Against a sequential reference decoder, for every interleaving of calls without flush, all_layers=1: with one frame context for every stream including errors, with several for streams without error. Missing: streams with errors on several frame contexts, all_layers=0 with spatial layers (C24). C21_first_again: the first EAGAIN while draining is not always the end."
  },
  {
   "property": "C22",
   "status": "proved",
   "theorems": [
    "Dav1d.C22_send",
    "Dav1d.C22_get",
    "Dav1d.C22_drain",
    "Dav1d.C22_idle"
   ],
   "note": "For every reachable state of the API model, every stream and every allocation failure pattern; the decoding stage itself is assumed not to fail with EAGAIN."
  },
  {
   "property": "C23",
   "status": "partial",
   "theorems": [
    "Dav1d.C23_same_order_partial",
    "Dav1d.C23_same_pictures_partial",
    "Dav1d.C23_delay_partial"
   ],
   "note": "For all numbers of frame contexts, all interleavings, all error-free streams with all_layers=1. Missing: all_layers=0 with several spatial layers, where the claim does not hold (a single frame context outputs the layer cached at each get call). The pixel decoder is a parameter (same function for all settings)."
  },
  {
   "property": "C24",
   "status": "partial",
   "theorems": [
    "Dav1d.C24_one_per_unit_partial",
    "Dav1d.C24_highest",
    "Dav1d.C24_all_layers",
    "Dav1d.C24_split",
    "Dav1d.C24_shown_again",
    "Dav1d.C24_lost",
    "Dav1d.C24_twice"
   ],
   "note": "Proved for one frame context and temporal units sent in one packet each and read until EAGAIN (and without restriction for all_layers=1 via the order theorem). False otherwise: witnesses for a unit split over two packets with a read in between, a shown frame repeated by show_existing_frame, a following sequence without layers, and two frame contexts."
  },
  {
   "property": "C25",
   "status": "partial",
   "theorems": [
    "Dav1d.C25_flush_partial",
    "Dav1d.C25_pictures",
    "Dav1d.C25_nothing_buffered",
    "Dav1d.C25_events_kept"
   ],
   "note": "All replies after a flush are those of a newly opened decoder for every call sequence whose first packet begins with a temporal delimiter and a sequence header, except event flags: those pending before the flush survive it (C25_events_kept)."
  },
  {
   "property": "C26",
   "status": "partial",
   "theorems": [
    "Dav1d.C26_get",
    "Dav1d.C26_send",
    "Dav1d.C26_reported",
    "Dav1d.C26_none_lost",
    "Dav1d.C26_send_props",
    "Dav1d.C26_get_props_one",
    "Dav1d.C26_get_props_partial",
    "Dav1d.C26_wrong_props",
    "Dav1d.C26_limit_props"
   ],
   "note": "Errors of frames decoded asynchronously are reported in order, each once, none lost (no flush). Partial: it is false for an error found at submission in the same call as an older frame's error (lost, and the older one gets its properties: C26_wrong_props) and for the properties of ERANGE (C26_limit_props)."
  },
  {
   "property": "C27",
   "status": "partial",
   "theorems": [
    "Dav1d.C27_union_partial",
    "Dav1d.C27_never_missed",
    "Dav1d.C27_cleared",
    "Dav1d.C27_new_sequence_partial",
    "Dav1d.C27_new_op_partial",
    "Dav1d.C27_early",
    "Dav1d.C27_lost",
    "Dav1d.C27_shown_again",
    "Dav1d.C27_repeated"
   ],
   "note": "The equality with the union is shown for queries made when dav1d_get_picture has just answered EAGAIN, with all layers returned and no error in between (otherwise the flags can be seen before the picture, C27_early, or without one, C27_lost); that no flag of a returned picture is missed holds in general up to the first query. First picture after a change: for streams whose errors are reported in order, all layers returned, any number of frame contexts; for operating parameters the picture may instead be an older one shown again (C27_shown_again). Missing: all_layers = 0 and sessions with flushes."
  },
  {
   "property": "C28",
   "status": "partial",
   "theorems": [
    "Dav1d.Recover.C28_recovers_partial",
    "Dav1d.Recover.C28_error_leaves_nothing",
    "Dav1d.Recover.C28_after_error_partial",
    "Dav1d.Recover.C28_stuck",
    "Dav1d.Recover.C28_metadata_kept",
    "Dav1d.Recover.C28_hdr10_kept"
   ],
   "note": "False as stated: a refused show_existing_frame header is kept and makes the decoder refuse all later packets that start with a temporal delimiter (C28_stuck, for all such sessions), and metadata of the rejected packet is attached to later pictures (witnesses). Proved for every other state reachable without frame threading, including states with partially received frames: all replies from the key frame on are those of a new decoder. Missing: frame threading (errors of frames in flight, see C26), spatial layer selection with a cached picture."
  },
  {
   "property": "C29",
   "status": "proved",
   "theorems": [
    "Dav1d.C29_decoded",
    "Dav1d.C29_returned",
    "Dav1d.C29_complete",
    "Dav1d.C29_skipped",
    "Dav1d.C29_show"
   ],
   "note": ""
  },
  {
   "property": "C30",
   "status": "proved",
   "theorems": [
    "Dav1d.C30_idc",
    "Dav1d.C30_dropped",
    "Dav1d.C30_kept",
    "Dav1d.C30_max_spatial"
   ],
   "note": ""
  },
  {
   "property": "C31",
   "status": "proved",
   "theorems": [
    "Dav1d.C31_delay",
    "Dav1d.C31_delay_invalid",
    "Dav1d.C31_monotone",
    "Dav1d.C31_open",
    "Dav1d.C31_opened"
   ],
   "note": "For every settings value and core count. That at most this many frames are buffered is C23_delay_partial; allocation and thread creation are a success/failure parameter."
  },
  {
   "property": "C32",
   "status": "proved",
   "theorems": [
    "Dav1d.C32_entropy_exact",
    "Dav1d.C32_window_independent"
   ],
   "note": "C code of src/msac.c for every window size >= 32 bits; SIMD versions not modelled"
  },
  {
   "property": "C33",
   "status": "proved",
   "theorems": [
    "Dav1d.C33_overread_iff",
    "Dav1d.C33_trailing_bits"
   ],
   "note": "the check is dav1d's cnt <= -15 test at the end of each superblock row; also the trailing bits check of strict mode"
  },
  {
   "property": "C34",
   "status": "proved",
   "theorems": [
    "Dav1d.C34_adaptation_valid",
    "Dav1d.C34_all_symbols_decodable",
    "Dav1d.C34_tile_invariant"
   ],
   "note": ""
  },
  {
   "property": "C35",
   "status": "proved",
   "theorems": [
    "Dav1d.C35_decode_encoded",
    "Dav1d.C35_output_exists",
    "Dav1d.C35_literal",
    "Dav1d.C35_uniform",
    "Dav1d.C35_golomb",
    "Dav1d.C35_subexp",
    "Dav1d.C35_encode_replay"
   ],
   "note": ""
  },
  {
   "property": "C36",
   "status": "proved",
   "theorems": [
    "Dav1d.C36_range",
    "Dav1d.C36_flat",
    "Dav1d.C36_copy",
    "Dav1d.C36_compound_range",
    "Dav1d.C36_compound_exact",
    "Dav1d.C36_compound_flat",
    "Dav1d.C36_blend",
    "Dav1d.C36_wmask",
    "Dav1d.C36_resize"
   ],
   "note": "C versions of the functions; every intermediate value also fits the 16 bits it is stored in."
  },
  {
   "property": "C37",
   "status": "proved",
   "theorems": [
    "Dav1d.C37_extend",
    "Dav1d.C37_block"
   ],
   "note": "Positions and sizes that fit int."
  },
  {
   "property": "C38",
   "status": "proved",
   "theorems": [
    "Dav1d.Itx.C38_inverse",
    "Dav1d.Itx.C38_lossless",
    "Dav1d.Itx.C38_range"
   ],
   "note": "The forward transform is written out beside the theorems; it is not part of the decoder. Residuals up to 2^20 in absolute value, which includes all differences of pixels."
  },
  {
   "property": "C39",
   "status": "proved",
   "theorems": [
    "Dav1d.Itx.C39_dc"
   ],
   "note": "Also shows that the coefficient buffer is the same afterwards; the result is the same for every eob given to the general transform."
  },
  {
   "property": "C40",
   "status": "proved",
   "theorems": [
    "Dav1d.Cdef.C40_cdef",
    "Dav1d.Cdef.C40_cdef_flat",
    "Dav1d.Lf.C40_deblock_flat",
    "Dav1d.Lf.C40_deblock_range",
    "Dav1d.Lf.C40_deblock_reach"
   ],
   "note": "The reach proved is 6 luma and 2 chroma pixels at each side, which is tighter than stated."
  },
  {
   "property": "C41",
   "status": "proved",
   "theorems": [
    "Dav1d.Lr.C41_wiener_range",
    "Dav1d.Lr.C41_sgr_range",
    "Dav1d.Lr.C41_wiener_flat",
    "Dav1d.Lr.C41_sgr_flat",
    "Dav1d.Lr.C41_sgr_flat10",
    "Dav1d.Lr.C41_sgr_flat12",
    "Dav1d.Lr.C41_sgr_not_flat"
   ],
   "note": "Filter functions of looprestoration_tmpl.c; what lr_apply_tmpl.c passes to them is a hypothesis (stripes with rows below have an even height of at least 6)."
  },
  {
   "property": "C42",
   "status": "proved",
   "theorems": [
    "Dav1d.Ipred.C42_dc",
    "Dav1d.Ipred.C58_dc",
    "Dav1d.Ipred.C42_vert",
    "Dav1d.Ipred.C42_hor",
    "Dav1d.Ipred.C42_paeth",
    "Dav1d.Ipred.C42_smooth",
    "Dav1d.Ipred.C42_smoothV",
    "Dav1d.Ipred.C42_smoothH",
    "Dav1d.Ipred.C42_palette",
    "Dav1d.Ipred.C42_palette_index"
   ],
   "note": "From the plane to the predicted pixel, for all 19 transform sizes; DC is the rounded mean (C58_dc)."
  },
  {
   "property": "C43",
   "status": "proved",
   "theorems": [
    "Dav1d.Fg.C43_luma_range",
    "Dav1d.Fg.C43_chroma_range",
    "Dav1d.Fg.C43_unchanged",
    "Dav1d.Fg.C43_deterministic",
    "Dav1d.Fg.C43_input",
    "Dav1d.Fg.C43_hasGrain"
   ],
   "note": "Range, restricted range, identity without points, independence of row order and of uninitialised memory; the input picture keeps its visible samples (only the luma padding column is written); skipping by has_grain is an identity. Row functions are atomic in the model: rows may come in any order, and touch disjoint parts."
  },
  {
   "property": "C44",
   "status": "proved",
   "theorems": [
    "Dav1d.Itx.C44_scan"
   ],
   "note": "For all 19 transform sizes and the three transform classes, including the arithmetic order used for one-dimensional classes."
  },
  {
   "property": "C45",
   "status": "proved",
   "theorems": [
    "Dav1d.Tables.C45_quantizers",
    "Dav1d.Tables.C45_dc_not_strict",
    "Dav1d.Tables.C45_quantizer_range",
    "Dav1d.Tables.C45_subpel",
    "Dav1d.Tables.C45_warp",
    "Dav1d.Tables.C45_resize",
    "Dav1d.Tables.C45_smooth",
    "Dav1d.Tables.C45_obmc",
    "Dav1d.Tables.C45_division",
    "Dav1d.Tables.C45_block",
    "Dav1d.Tables.C45_transform",
    "Dav1d.Tables.C45_max_transform",
    "Dav1d.Tables.C45_filters",
    "Dav1d.Tables.C45_distance",
    "Dav1d.Tables.C45_distance_sum"
   ],
   "note": "Whole tables, checked by the kernel. The first version of the property said that all quantizers strictly increase; that is false of DC at 8 bits (C45_dc_not_strict), as in the AV1 specification."
  },
  {
   "property": "C46",
   "status": "proved",
   "theorems": [
    "Dav1d.Wedge.C46_spec",
    "Dav1d.Wedge.C46_weights",
    "Dav1d.Wedge.C46_flip",
    "Dav1d.Wedge.C46_flip_422",
    "Dav1d.Wedge.C46_interintra_wedge",
    "Dav1d.Wedge.C46_interintra",
    "Dav1d.Wedge.C46_offsets"
   ],
   "note": "All nine sizes, 16 indices, both signs, all layouts and pixels. In 4:2:2, ties of the average are rounded up for the first prediction with both signs, as in the specification, so there flipping swaps the weights up to one (C46_flip_422)."
  },
  {
   "property": "C47",
   "status": "proved",
   "theorems": [
    "Dav1d.Warp.C47_divisor",
    "Dav1d.Warp.C47_reciprocal",
    "Dav1d.Warp.C47_shear",
    "Dav1d.Warp.C47_global",
    "Dav1d.Warp.C47_usable",
    "Dav1d.Warp.C47_local",
    "Dav1d.Warp.C47_local_valid",
    "Dav1d.Warp.C47_second_pass"
   ],
   "note": "Both sources of warp parameters (frame header, derive_warpmv from the samples on) are free of overflow and out-of-range table reads for all codable values and compute what the specification says; accepted ones satisfy the bounds the warp filter needs; the second pass of a two-pass decoder restores the same parameters. find_matching_ref (which neighbours are looked at) is not modelled."
  },
  {
   "property": "C48",
   "status": "proved",
   "theorems": [
    "Dav1d.Lf.C48_levels",
    "Dav1d.Lf.C48_limits",
    "Dav1d.Lf.C48_current"
   ],
   "note": ""
  },
  {
   "property": "C49",
   "status": "proved",
   "theorems": [
    "Dav1d.Sched.C49_once",
    "Dav1d.Sched.C49_order",
    "Dav1d.Sched.C49_exit",
    "Dav1d.Sched.C49_announced",
    "Dav1d.Sched.C49_ends",
    "Dav1d.Sched.C49_reachable"
   ],
   "note": "Transition system of the tasks of one frame (tile, filter and entropy progress tasks), one step per atomic access, any interleaving, any tiling, one and two passes, any combination of post filters, decoding errors at any point. A frame with an error skips the remaining work, so its rows are processed at most once. The order of the queue and the condition variables are abstracted: a worker may take any runnable task. dav1d_flush, failed allocations and abort_frame are not part of the model."
  },
  {
   "property": "C50",
   "status": "partial",
   "theorems": [
    "Dav1d.Input.C50_ivf_packets",
    "Dav1d.Input.C50_ivf_open",
    "Dav1d.Input.C50_ivf_seek",
    "Dav1d.Input.C50_ivf_empty_fails",
    "Dav1d.Input.C50_section5_packets",
    "Dav1d.Input.C50_section5_wellformed",
    "Dav1d.Input.C50_annexb_packets",
    "Dav1d.Input.C50_annexb_stored",
    "Dav1d.Input.C50_annexb_wellformed",
    "Dav1d.Input.C50_read_inside",
    "Dav1d.Input.C50_probe_partial",
    "Dav1d.Input.C50_annexb_probe_fails",
    "Dav1d.Input.C50_section5_probe_fails",
    "Dav1d.Input.C50_short_file_fails"
   ],
   "note": "Reading is proved for every file: the packets are exactly the complete frames / temporal units / OBUs stored from the start of the file, and reading fails at the first thing that is not complete. The full claim is false in four places, each proved with a witness: an Annex B packet is an OBU and not a temporal unit (C50_annexb_wellformed); ivf_open divides by zero on a file without frames; annexb_probe reads in front of its buffer and section5_probe overflows int for huge sizes (C50_probe_partial proves the probes safe without four bytes in a row that have the top bit set); the probes read uninitialised memory for files shorter than 2048 bytes."
  },
  {
   "property": "C51",
   "status": "proved",
   "theorems": [
    "Dav1d.Md5.C51_digest",
    "Dav1d.Md5.C51_chunks",
    "Dav1d.Md5.C51_samples_only",
    "Dav1d.Md5.C51_verify",
    "Dav1d.Md5.C51_verify_short",
    "Dav1d.Md5.k_eq"
   ],
   "note": "tools/output/md5.c on a little endian machine. MD5 is specified after RFC 1321, its table as floor(2^32 |sin|) over the reals; the message is stated in samples. Verification is stated for strings of hexadecimal digits; the code also accepts some other strings (example)."
  },
  {
   "property": "C52",
   "status": "proved",
   "theorems": [
    "Dav1d.C52_defined",
    "Dav1d.C52_ranges"
   ],
   "note": ""
  },
  {
   "property": "C53",
   "status": "proved",
   "theorems": [
    "Dav1d.Itx.C53_safe"
   ],
   "note": "1-D transforms are transcribed as straight-line programs and bounded by a verified interval analysis run in the kernel."
  },
  {
   "property": "C54",
   "status": "proved",
   "theorems": [
    "Dav1d.Itx.C54_eob",
    "Dav1d.Itx.C54_kernels"
   ],
   "note": ""
  },
  {
   "property": "C55",
   "status": "proved",
   "theorems": [
    "Dav1d.Cdef.C55_cdef",
    "Dav1d.Cdef.C55_params"
   ],
   "note": "C code of cdef_filter_block with its padding equals the specification's filter."
  },
  {
   "property": "C56",
   "status": "proved",
   "theorems": [
    "Dav1d.Cdef.C56_direction",
    "Dav1d.Cdef.C56_flat"
   ],
   "note": ""
  },
  {
   "property": "C57",
   "status": "proved",
   "theorems": [
    "Dav1d.Lf.C57_line",
    "Dav1d.Lf.C57_luma_columns",
    "Dav1d.Lf.C57_luma_rows",
    "Dav1d.Lf.C57_chroma_columns",
    "Dav1d.Lf.C57_chroma_rows"
   ],
   "note": ""
  },
  {
   "property": "C58",
   "status": "proved",
   "theorems": [
    "Dav1d.Ipred.C58_directional",
    "Dav1d.Ipred.C58_dc",
    "Dav1d.Ipred.C58_paeth",
    "Dav1d.Ipred.C58_smooth",
    "Dav1d.Ipred.C58_smoothV",
    "Dav1d.Ipred.C58_smoothH"
   ],
   "note": "Edge preparation and predictors composed (Prep.predict) against Verif/Dsp/IpredSpec.lean; the neighbour flags (has_right and so on) are inputs."
  },
  {
   "property": "C59",
   "status": "proved",
   "theorems": [
    "Dav1d.Ipred.C59_filter",
    "Dav1d.Ipred.C59_cfl_ac",
    "Dav1d.Ipred.C59_cfl",
    "Dav1d.Ipred.C59_cfl_flat"
   ],
   "note": "Filter prediction is stated as satisfying the equations of the specification; taps are those of tables.c."
  },
  {
   "property": "C60",
   "status": "proved",
   "theorems": [
    "Dav1d.Lr.C60_wiener",
    "Dav1d.Lr.C60_sgr"
   ],
   "note": "Specification transcribed in LrSpec.lean. The integer types are modelled, so agreement includes absence of overflow. For the self-guided filters the source pixels are in range."
  },
  {
   "property": "C61",
   "status": "proved",
   "theorems": [
    "Dav1d.Fg.C61_luma",
    "Dav1d.Fg.C61_cb",
    "Dav1d.Fg.C61_cr",
    "Dav1d.Fg.C61_templates"
   ],
   "note": "Equality with a transcription of 7.18.3 for all three planes; templates given by their equations, shown to exist and to be unique. C code only, not the assembly."
  },
  {
   "property": "C62",
   "status": "proved",
   "theorems": [
    "Dav1d.Sched.C62_pixels",
    "Dav1d.Sched.C62_symbols",
    "Dav1d.Sched.C62_final",
    "Dav1d.Sched.C62_references",
    "Dav1d.Sched.C62_symbol_references"
   ],
   "note": "A line count published by a frame is compared with superblock rows; which lines of a row the filters of the next row still change (the +8 lines of thread_task.c:417) is not part of the model. Lines needed by a tile row are arbitrary. Aborted frames, failed allocations and flushing are not modelled."
  },
  {
   "property": "C63",
   "status": "proved",
   "theorems": [
    "Dav1d.Sched.C63_no_deadlock",
    "Dav1d.Sched.C63_ends"
   ],
   "note": "Any number of frames, each the transition system of C49, waiting for the progress of earlier frames. What the first tasks of a frame wait for is abstract, assumed to be met at the latest when all frames before are complete. The order of the queue and the condition variables are abstracted: a worker may take any runnable task. Aborted frames, failed allocations and flushing are not modelled."
  },
  {
   "property": "C64",
   "status": "proved",
   "theorems": [
    "Dav1d.CdfTab.C64_tables_follow_spec",
    "Dav1d.CdfTab.C64_no_junk",
    "Dav1d.CdfTab.C64_tables_valid",
    "Dav1d.CdfTab.C64_intra_no_primary",
    "Dav1d.CdfTab.C64_default_tables",
    "Dav1d.CdfTab.C64_update_inter",
    "Dav1d.CdfTab.C64_update_intra",
    "Dav1d.CdfTab.C64_update_inside"
   ],
   "note": "Frames that fail only drop their slots; tiles are arbitrary functions of the tables they may read, see Cdf/Spec.lean. The numbers of the default tables are those of cdf.c."
  },
  {
   "property": "C65",
   "status": "proved",
   "theorems": [
    "Dav1d.Coef.C65_coefficients",
    "Dav1d.Coef.C65_bounds"
   ],
   "note": "Any source of symbols; the syntax of AV1 is written down in Coef/Spec.lean, the meaning of the arguments and the conditions of the call in Coef/Rel.lean."
  },
  {
   "property": "C66",
   "status": "proved",
   "theorems": [
    "Dav1d.C66_slots",
    "Dav1d.C66_new_sequence",
    "Dav1d.C66_shown_key",
    "Dav1d.C66_shown_other"
   ],
   "note": "For settings with decode_frame_type at most 3 (others are rejected by dav1d_open, C31). Contents are abstract: what decoding a frame yields is a parameter."
  },
  {
   "property": "C67",
   "status": "proved",
   "theorems": [
    "Dav1d.Part.C67_blocks"
   ],
   "note": ""
  },
  {
   "property": "C68",
   "status": "proved",
   "theorems": [
    "Dav1d.Part.C68_edges"
   ],
   "note": ""
  },
  {
   "property": "C69",
   "status": "proved",
   "theorems": [
    "Dav1d.Part.C69_contexts",
    "Dav1d.Part.C69_split_bottom",
    "Dav1d.Part.C69_split_right"
   ],
   "note": ""
  },
  {
   "property": "C70",
   "status": "proved",
   "theorems": [
    "Dav1d.Part.C70_second_pass"
   ],
   "note": ""
  },
  {
   "property": "C71",
   "status": "proved",
   "theorems": [
    "Dav1d.Part.C71_sizes",
    "Dav1d.Part.C71_edges",
    "Dav1d.Part.C71_once"
   ],
   "note": "Blocks that are not intra count as one unit; palette and intrabc blocks are among them."
  },
  {
   "property": "C72",
   "status": "proved",
   "theorems": [
    "Dav1d.Part.C72_reads",
    "Dav1d.Part.C72_rows",
    "Dav1d.Part.C72_directional",
    "Dav1d.Part.C72_dc",
    "Dav1d.Part.C72_smooth",
    "Dav1d.Part.C72_paeth",
    "Dav1d.Part.C72_filter",
    "Dav1d.Part.C72_other_tiles",
    "Dav1d.Part.C72_buffer"
   ],
   "note": "The memory is an inductive relation: reconstruction of transform blocks, the copy of the last row of a superblock row, and anything that changes only samples above the superblock row or outside of the tile."
  },
  {
   "property": "C73",
   "status": "proved",
   "theorems": [
    "Dav1d.Part.Ctx.C73_above",
    "Dav1d.Part.Ctx.C73_left",
    "Dav1d.Part.Ctx.C73_inside"
   ],
   "note": "On top of C67: order of the blocks within a tile, then the arrays entry by entry. Arrays for coefficients, the loop filter, transform trees and chroma modes are not covered."
  },
  {
   "property": "C74",
   "status": "proved",
   "theorems": [
    "Dav1d.Part.Ctx.C74_refs",
    "Dav1d.Part.Ctx.C74_filter",
    "Dav1d.Part.Ctx.C74_flags",
    "Dav1d.Part.Ctx.C74_segment",
    "Dav1d.Part.Ctx.C74_tx",
    "Dav1d.Part.Ctx.C74_mode",
    "Dav1d.Part.Ctx.C74_smooth",
    "Dav1d.Part.Ctx.C74_smooth2"
   ],
   "note": "Reference contexts by kernel decide over all pairs of neighbours, lifted to all blocks; distances of order hints and sums by reasoning. Conditions under which an element is read are not part of this (those for references are in C75)."
  },
  {
   "property": "C75",
   "status": "proved",
   "theorems": [
    "Dav1d.Part.Ctx.C75_references",
    "Dav1d.Part.Ctx.C75_range"
   ],
   "note": "The reader of one bool is an arbitrary function of state, CDF and context."
  },
  {
   "property": "C76",
   "status": "proved",
   "theorems": [
    "Dav1d.Part.Lpf.C76_deblock",
    "Dav1d.Part.Lpf.C76_once",
    "Dav1d.Part.Lpf.C76_any_order"
   ],
   "note": "Invariant of the masks and contexts over the blocks of a frame in any interleaving of tiles; correction at tile edges; then the loops over bits. Levels, transforms and split flags of blocks are arbitrary. Which planes are filtered at all is not part of this."
  },
  {
   "property": "C77",
   "status": "proved",
   "theorems": [
    "Dav1d.Syn.C77_tile",
    "Dav1d.Syn.C77_superblock",
    "Dav1d.Syn.C77_first",
    "Dav1d.Syn.C77_block",
    "Dav1d.Syn.C77_out_of_range"
   ],
   "note": "Programs are trees of requests to the arithmetic decoder; Same says that both make the same requests for all answers and end related. segOk restricts answers to segment ids in range; C77_out_of_range shows what happens outside. The frame header fields agree with the specification by hypothesis (Agrees)."
  },
  {
   "property": "C78",
   "status": "proved",
   "theorems": [
    "Dav1d.Syn.Copy.C78_source",
    "Dav1d.Syn.Copy.C78_copy",
    "Dav1d.Syn.Copy.C78_residual",
    "Dav1d.Syn.Copy.C78_vector"
   ],
   "note": "For all data the prediction depends only on decoded samples of the tile; conforming vectors are used unchanged. The candidates found by dav1d_refmvs_find are parameters."
  },
  {
   "property": "C79",
   "status": "proved",
   "theorems": [
    "Dav1d.Syn.Pal.C79_left",
    "Dav1d.Syn.Pal.C79_above",
    "Dav1d.Syn.Pal.C79_luma",
    "Dav1d.Syn.Pal.C79_chroma",
    "Dav1d.Syn.Pal.C79_map",
    "Dav1d.Syn.Pal.C79_pixels"
   ],
   "note": "The palettes of earlier blocks are in increasing order and only intra blocks with chroma have one for chroma (PalsOk); C79_luma and C79_chroma show this for the current block. use_palette_y and use_palette_uv themselves are not part of it."
  },
  {
   "property": "C80",
   "status": "proved",
   "theorems": [
    "Dav1d.Syn.Intra.C80_block",
    "Dav1d.Syn.Intra.C80_next"
   ],
   "note": "Simulation of the reading of an intra block against the syntax of the specification; the contexts are those of the blocks decoded before in any run of the partition model. The transform size of chroma is for block sizes that are allowed in 4:2:2 (not higher than wide)."
  },
  {
   "property": "C81",
   "status": "proved",
   "theorems": [
    "Dav1d.Syn.Inter.C81_block",
    "Dav1d.Syn.Inter.C81_overlap",
    "Dav1d.Syn.Inter.C81_block_around",
    "Dav1d.Syn.Inter.C81_next",
    "Dav1d.Syn.Inter.C81_filter_differs",
    "Dav1d.Syn.Inter.gmv_eq",
    "Dav1d.Syn.Inter.fixMv_eq"
   ],
   "note": "For frames where a translation of the first of two references comes with one of the second; otherwise the code differs from the specification (C81_filter_differs). The candidates found by refmvs are related by hypothesis (CandsOk)."
  },
  {
   "property": "C82",
   "status": "proved",
   "theorems": [
    "Dav1d.Syn.Vartx.C82_block",
    "Dav1d.Syn.Vartx.C82_frame",
    "Dav1d.Syn.Vartx.C82_intra",
    "Dav1d.Syn.Vartx.C82_coefs"
   ],
   "note": "Transform tree of inter blocks; intra blocks around leave contexts as in C82_intra. Which coefficients are in a transform is C53 and others."
  },
  {
   "property": "C83",
   "status": "proved",
   "theorems": [
    "Dav1d.Syn.Lru.C83_read",
    "Dav1d.Syn.Lru.C83_init",
    "Dav1d.Syn.Lru.C83_start",
    "Dav1d.Syn.Lru.C83_other",
    "Dav1d.Syn.Lru.C83_once",
    "Dav1d.Syn.Lru.C83_cover",
    "Dav1d.Syn.Lru.C83_bounds",
    "Dav1d.Syn.Lru.C83_bounds_start",
    "Dav1d.Syn.Lru.C83_apply",
    "Dav1d.Syn.Lru.C83_sample"
   ],
   "note": "Against read_lr and the choice of units in 7.17 of the specification, from memory. Reference out of range in subexp is an error outcome in the model and does not happen. Filtering of stripes is not part of it."
  },
  {
   "property": "C84",
   "status": "proved",
   "theorems": [
    "Dav1d.Lrs.C84_sbrow",
    "Dav1d.Lrs.C84_plane",
    "Dav1d.Lrs.C84_lines"
   ],
   "note": "Against 7.17 of the specification, from memory. The frames before and after CDEF are given; when their rows become final is not part of it, and scaling of saved lines is by rows."
  },
  {
   "property": "C85",
   "status": "proved",
   "theorems": [
    "Dav1d.Cdf.C85_sbrow",
    "Dav1d.Cdf.C85_one",
    "Dav1d.Cdf.C85_many",
    "Dav1d.Cdf.C85_lines"
   ],
   "note": "CDEF of a frame in place, by one thread and by several in every order; deblocking is a relation, the filter of a block and the direction are those of the models of the DSP functions."
  },
  {
   "property": "C86",
   "status": "proved",
   "theorems": [
    "Dav1d.Cdm.C86_masks",
    "Dav1d.Cdm.C86_frame",
    "Dav1d.Cdm.C86_tiles",
    "Dav1d.Cdm.C86_own"
   ],
   "note": "C86_tiles is for the blocks of all tiles as C67 divides them, C86_masks for any blocks that cover the frame once. The flag and value of a block are inputs; specification from memory. Deblocking is a relation as in C85."
  },
  {
   "property": "C87",
   "status": "proved",
   "theorems": [
    "Dav1d.Sres.C87_sbrow",
    "Dav1d.Sres.C87_frame",
    "Dav1d.Sres.step_eq"
   ],
   "note": "One row of superblocks (values and what is written), the whole frame together with C85, and the steps without overflow. Specification from memory; the filter table is the decoder's."
  },
  {
   "property": "C88",
   "status": "proved",
   "theorems": [
    "Dav1d.Sres.C88_frame",
    "Dav1d.Sres.C88_up",
    "Dav1d.Sres.C88_scaled"
   ],
   "note": "Composition of C84, C85 and C87. The frame after deblocking is given."
  },
  {
   "property": "C89",
   "status": "proved",
   "theorems": [
    "Dav1d.Post.C89_one",
    "Dav1d.Post.C89_many"
   ],
   "note": "Composition of C84 and C85 in one frame, one thread and several. The frame after deblocking is given by what Deblock says of each row of superblocks."
  }
 ]
}