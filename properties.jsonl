{"id": "C01", "title": "Header fields are read bit-exactly and never past the packet", "statement": "While dav1d_send_data / dav1d_parse_sequence_header parse an OBU, every n-bit field (1..32 bits) they obtain is the next n bits of the payload, most significant bit first, whatever sequence of field widths preceded it; bits past the end of the payload read as 0 and from then on the OBU is flagged as truncated; no byte outside the payload is ever read; signed fields are the two's-complement value of the same bits; byte alignment skips to the next byte boundary.", "quantifier": "every payload (any length, any bytes) and every finite sequence of field widths, signed/unsigned reads, single-bit reads and byte alignments", "why_tests_cant": "A test exercises a handful of width sequences; the 64-bit refill window, the end-of-data edge and the sticky error interact for every offset mod 8 and every width.", "anchors": ["src/getbits.c: dav1d_init_get_bits, dav1d_get_bit, refill, dav1d_get_bits, dav1d_get_sbits, dav1d_bytealign_get_bits", "src/getbits.h"]}
{"id": "C02", "title": "leb128 OBU sizes decode correctly or are rejected", "statement": "An OBU size written as leb128 (minimal or padded, at most 8 bytes) with value at most 2^32-1 is decoded to exactly that value and consumes exactly its bytes; a field whose value exceeds 2^32-1 or that has not terminated after 8 bytes is rejected; a field that runs off the end of the packet is rejected.", "quantifier": "every 32-bit value, every padding length, every following byte string, every malformed byte string", "why_tests_cant": "The set of encodings is infinite up to suffix and the rejection has to hold for all malformed ones, including those whose low bits look valid.", "anchors": ["src/getbits.c: dav1d_get_uleb128", "src/obu.c: dav1d_parse_obus"]}
{"id": "C03", "title": "Variable-length header codes decode what the AV1 encoder wrote", "statement": "For the non-symmetric code ns(n), the exp-Golomb code uvlc() and the sub-exponential code with reference, decoding the bits produced by the AV1 specification's encoder for a value v gives back v and leaves the reader right after the code; whatever the bits are, ns(n) yields a value below n and the sub-exponential code yields a value inside its declared range.", "quantifier": "every n, every value in range, every reference value, every trailing bit string; and every arbitrary bit string for the range part", "why_tests_cant": "Range and inverse property concern all values and all bit strings; tests check a few.", "anchors": ["src/getbits.c: dav1d_get_uniform, dav1d_get_vlc, get_bits_subexp_u, dav1d_get_bits_subexp", "include/common/intops.h: inv_recenter"]}
{"id": "C04", "title": "Sequence header parse is the inverse of the AV1 syntax", "statement": "Feeding dav1d_parse_sequence_header an OBU carrying any sequence header that the AV1 syntax can express (profile, level, operating points, timing and decoder model info, tool flags, colour description, film grain flag) returns 0 and exactly the fields that were written, with the values the specification infers for the absent ones.", "quantifier": "every sequence header value satisfying the syntax constraints", "why_tests_cant": "The header has dozens of conditional fields; round trip over all combinations cannot be enumerated.", "anchors": ["src/obu.c: parse_seq_hdr, dav1d_parse_sequence_header", "include/dav1d/headers.h: Dav1dSequenceHeader"]}
{"id": "C05", "title": "dav1d_parse_sequence_header finds the last sequence header and stays in bounds", "statement": "On any buffer dav1d_parse_sequence_header terminates and never reads outside the buffer; it returns ENOENT exactly when the buffer splits into well formed OBUs none of which is a sequence header; when it returns 0 the output is the parse of the last sequence header OBU of the buffer; other OBUs are ignored.", "quantifier": "every byte buffer of non-zero length", "why_tests_cant": "Any nesting of sizes, missing size fields and truncations must be covered.", "anchors": ["src/obu.c: dav1d_parse_sequence_header"]}
{"id": "C06", "title": "Packet data is consumed monotonically: send_data/get_picture always terminate and never overrun", "statement": "For every packet accepted by dav1d_send_data, each OBU parsing step consumes at least one and at most the remaining number of bytes or reports an error upon which the packet is released; hence the library terminates on every packet and never touches memory beyond it.", "quantifier": "every packet content, every decoder state", "why_tests_cant": "Termination and bounds for all byte strings and all states.", "anchors": ["src/obu.c: dav1d_parse_obus", "src/lib.c: gen_picture, dav1d_send_data"]}
{"id": "C07", "title": "frame_size_limit and dimension limits are enforced on every decoded frame", "statement": "Every frame header that dav1d accepts has 1 <= width,height <= 65536 with coded (superres-downscaled) width at most the upscaled width and at least min(16, upscaled width); if frame_size_limit is non-zero then a picture of more than frame_size_limit pixels is never allocated, whether the size is explicit or inherited from a reference frame.", "quantifier": "every header bit string, every decoder state (reference frame sizes), every limit", "why_tests_cant": "All header bit patterns and size-inheritance chains.", "anchors": ["src/obu.c: read_frame_size, parse_frame_hdr", "src/picture.c: dav1d_thread_picture_alloc", "src/decode.c: dav1d_submit_frame"]}
{"id": "C08", "title": "Tile layout partitions the frame", "statement": "For every accepted frame header the tile column and row start positions are strictly increasing, start at 0, end at the frame's superblock count, number at most 64 each; every superblock lies in exactly one tile; for uniform spacing the number of tiles is exactly the ceiling of the frame size over the tile size; the context-update tile is an existing tile and tile size byte count is 1..4.", "quantifier": "every frame size, superblock size and every header bit string", "why_tests_cant": "Non-uniform spacing is driven by arbitrary bits; covering is a property of all of them.", "anchors": ["src/obu.c: tile_log2, parse_frame_hdr (tiling section)"]}
{"id": "C09", "title": "A frame is decoded only when its tile groups cover every tile exactly once", "statement": "Tile group OBUs are accepted only in order and without gaps or overlaps; a frame is submitted for decoding exactly when the accepted tile groups cover tiles 0..n-1, each tile exactly once and in order; the number of buffered tile groups never exceeds the number of tiles and a new frame header discards previously buffered groups.", "quantifier": "every sequence of OBUs", "why_tests_cant": "All orders/overlaps of tile groups over unbounded histories.", "anchors": ["src/obu.c: parse_tile_hdr, dav1d_parse_obus"]}
{"id": "C10", "title": "Tile data splitting stays inside the tile group payload", "statement": "When a frame's tile groups are split into tiles, each tile's data is a contiguous non-empty byte range within its tile group payload, ranges of consecutive tiles are disjoint and in order, the last tile of a group takes all remaining bytes; otherwise decoding the frame fails with an error.", "quantifier": "every tile group payload, every tile size byte count, every number of tiles", "why_tests_cant": "Sizes are arbitrary attacker-controlled integers.", "anchors": ["src/decode.c: dav1d_decode_frame_init_cdf"]}
{"id": "C11", "title": "Short reference signalling always yields seven valid references", "statement": "With frame_refs_short_signaling the seven reference indices derived are all in 0..7, LAST and GOLDEN are the ones signalled, and the assignment equals the AV1 specification's set_frame_refs process.", "quantifier": "every reference order hints, every signalled index pair, every order-hint bit width", "why_tests_cant": "8 references with up to 8-bit order hints: 2^64 tables.", "anchors": ["src/obu.c: parse_frame_hdr (frame_refs_short_signaling)", "src/env.h: get_poc_diff"]}
{"id": "C12", "title": "Order hint distance is the signed cyclic distance", "statement": "The relative distance between order hints is the two's-complement difference modulo 2^order_hint_n_bits: it is antisymmetric except at the half-range point, zero iff the hints agree, invariant under wrap-around, and in [-2^(n-1), 2^(n-1)).", "quantifier": "every bit width 1..8 and every pair of order hints", "why_tests_cant": "Wrap-around arithmetic for every width.", "anchors": ["src/env.h: get_poc_diff"]}
{"id": "C13", "title": "Skip mode references are the nearest forward/backward frames", "statement": "Skip mode is allowed exactly when the specification's conditions hold, and the two references it uses are distinct valid reference indices in increasing order: the closest past and the closest future reference, or the two closest past references when there is no future one.", "quantifier": "every reference set and order hints", "why_tests_cant": "All combinations of 7 order hints.", "anchors": ["src/obu.c: parse_frame_hdr (skip_mode)"]}
{"id": "C14", "title": "Film grain parameters handed to the user satisfy the documented ranges", "statement": "For every accepted frame header with film grain, there are at most 14 luma and 10 chroma scaling points with strictly increasing positions, all coefficients and shifts are within the ranges of the AV1 specification; update_grain=0 copies the parameters from a reference used by this frame and keeps the new random seed.", "quantifier": "every header bit string and decoder state", "why_tests_cant": "All bit strings.", "anchors": ["src/obu.c: parse_film_grain_data"]}
{"id": "C15", "title": "Metadata OBUs: values delivered are exactly those transmitted, in bounds", "statement": "ITU-T T.35 payloads delivered with a picture are exactly the payload bytes between the country code and the trailing bits, never longer than the OBU; content light level and mastering display fields are the transmitted ones; malformed metadata is rejected or ignored without affecting decoding.", "quantifier": "every metadata OBU payload", "why_tests_cant": "All payload strings incl. trailing zero bytes.", "anchors": ["src/obu.c: dav1d_parse_obus (DAV1D_OBU_METADATA)"]}
{"id": "C16", "title": "Buffers are freed exactly once, only after the last reference is gone", "statement": "For data, pictures, headers and metadata handed out by dav1d: whatever the interleaving of reference and unreference operations issued by the application and the decoder threads, the free callback runs exactly once, after the last reference was dropped and never while a reference exists; dav1d_ref_is_writable is true only for a sole owner.", "quantifier": "every finite interleaving of operations by any number of threads", "why_tests_cant": "Races over reference counts need all interleavings.", "anchors": ["src/ref.c: dav1d_ref_inc, dav1d_ref_dec, dav1d_ref_is_writable", "src/ref.h", "src/data.c", "src/picture.c"]}
{"id": "C17", "title": "Memory pools never hand out a buffer twice and release all memory", "statement": "A pool buffer is owned by at most one user at a time; buffers returned with another size are not reused; after the pool is ended and all outstanding buffers are returned every buffer and the pool itself have been freed exactly once, and nothing is used after that.", "quantifier": "every interleaving of pop, push and end by any number of threads", "why_tests_cant": "Interleavings and lifetimes are unbounded.", "anchors": ["src/mem.c: dav1d_mem_pool_push, dav1d_mem_pool_pop, dav1d_mem_pool_init, dav1d_mem_pool_end"]}
{"id": "C18", "title": "dav1d_send_data: ownership of the packet is unambiguous", "statement": "When dav1d_send_data returns 0 the whole packet is owned by the library and the caller's structure is emptied; when it returns EAGAIN nothing changed and the caller still owns all of it; on other errors the packet is not retained by the library. A second packet is never accepted while undecoded data of an earlier one is held.", "quantifier": "every decoder state and every packet", "why_tests_cant": "All states reachable by call sequences.", "anchors": ["src/lib.c: dav1d_send_data, gen_picture"]}
{"id": "C19", "title": "Default picture allocation geometry", "statement": "For every accepted size, layout and bit depth the default allocator returns planes that are 64-byte aligned, disjoint, inside one allocation, have strides covering the width rounded up to 128 pixels and room for the height rounded up to 128 rows (halved for subsampled chroma), no arithmetic overflow occurs for sizes up to 65536x65536, and strides are not multiples of 1024.", "quantifier": "every width, height 1..65536, layout, bit depth", "why_tests_cant": "2^32 sizes.", "anchors": ["src/picture.c: dav1d_default_picture_alloc", "include/dav1d/picture.h"]}
{"id": "C20", "title": "Every picture allocated through the callbacks is released exactly once", "statement": "For every call history ending in dav1d_close with all output pictures unreferenced by the application, release_picture_callback is called exactly once for each successful alloc_picture_callback, and never earlier than the last use.", "quantifier": "every sequence of API calls, packets, errors", "why_tests_cant": "Unbounded histories, error paths.", "anchors": ["src/picture.c: picture_alloc_with_edges, free_buffer", "src/lib.c: dav1d_close, dav1d_flush", "src/decode.c: dav1d_submit_frame"]}
{"id": "C21", "title": "Pictures come out complete, once and in decode order", "statement": "With the documented send/get loop, the sequence of pictures returned over the whole session is exactly the sequence of frames to be shown in bitstream order: no picture is lost, duplicated, overwritten or reordered, however calls to dav1d_send_data and dav1d_get_picture are interleaved.", "quantifier": "every packet sequence, every interleaving of calls", "why_tests_cant": "Unbounded histories.", "anchors": ["src/lib.c: dav1d_send_data, dav1d_get_picture, gen_picture, output_picture_ready, output_image, drain_picture", "src/obu.c: dav1d_parse_obus"]}
{"id": "C22", "title": "The send/get loop never deadlocks: EAGAIN from one call means the other makes progress", "statement": "If dav1d_send_data returns EAGAIN then some pending data or picture exists and repeated dav1d_get_picture calls make send_data acceptable again after finitely many calls; dav1d_get_picture with nothing buffered returns EAGAIN; draining ends with EAGAIN after finitely many calls.", "quantifier": "every reachable state", "why_tests_cant": "Liveness over all states.", "anchors": ["src/lib.c: dav1d_send_data, dav1d_get_picture, drain_picture"]}
{"id": "C23", "title": "Frame threading is invisible in the output", "statement": "For a stream that decodes without error the sequence of output pictures is the same for every max_frame_delay / n_threads setting; at most the declared frame delay of pictures is buffered.", "quantifier": "every error-free stream, every number of frame contexts", "why_tests_cant": "All streams times all settings.", "anchors": ["src/lib.c: drain_picture, output_picture_ready", "src/decode.c: dav1d_submit_frame", "src/obu.c: dav1d_parse_obus (show_existing_frame)"]}
{"id": "C24", "title": "Spatial layer selection returns the highest requested layer of each temporal unit", "statement": "With all_layers=0 and an operating point having several spatial layers, exactly one picture is returned per temporal unit: the highest spatial layer available up to the operating point's maximum; with all_layers=1 every shown frame is returned.", "quantifier": "every sequence of temporal units with any subset of layers", "why_tests_cant": "All histories.", "anchors": ["src/lib.c: output_picture_ready, output_image", "src/obu.c: dav1d_parse_obus"]}
{"id": "C25", "title": "dav1d_flush returns the decoder to its initial state", "statement": "After dav1d_flush no buffered input, picture, reference or error of the earlier stream influences later results: any following packet sequence starting with a sequence header gives the same results as on a newly opened decoder.", "quantifier": "every state in which flush is called and every subsequent call sequence", "why_tests_cant": "Both state and future are unbounded.", "anchors": ["src/lib.c: dav1d_flush"]}
{"id": "C26", "title": "A decoding error detected late is reported once, with the right metadata", "statement": "An error in a frame decoded asynchronously is returned by a later call exactly once, errors are not silently dropped unless the stream is flushed, and dav1d_get_decode_error_data_props returns the properties of the packet which caused the most recently reported error.", "quantifier": "every sequence of calls and error positions", "why_tests_cant": "Asynchronous errors over all histories.", "anchors": ["src/lib.c: dav1d_get_picture, drain_picture, dav1d_get_decode_error_data_props", "src/decode.c: dav1d_submit_frame"]}
{"id": "C27", "title": "Event flags announce every new sequence header exactly once", "statement": "dav1d_get_event_flags returns the union of the flags of the pictures returned since the last query and clears it; the first picture returned after a changed sequence header carries NEW_SEQUENCE, and a change only in operating parameters carries NEW_OP_PARAMS_INFO.", "quantifier": "every history", "why_tests_cant": "All histories.", "anchors": ["src/lib.c: dav1d_get_event_flags, output_image", "src/picture.c: dav1d_thread_picture_alloc, picture_get_event_flags", "src/obu.c: dav1d_parse_obus"]}
{"id": "C28", "title": "A rejected packet does not prevent later packets from decoding", "statement": "After dav1d reports an error for a packet, a following packet starting with a temporal delimiter, a sequence header and a key frame decodes as it would on a fresh decoder.", "quantifier": "every state after any error", "why_tests_cant": "All error states.", "anchors": ["src/obu.c: dav1d_parse_obus", "src/lib.c: gen_picture"]}
{"id": "C29", "title": "decode_frame_type skips exactly the frames it promises to skip", "statement": "With decode_frame_type set, frames of non-selected type are neither decoded nor returned, every selected frame is decoded, and skipped frames still update the reference state so that later show_existing_frame of a skipped frame returns nothing.", "quantifier": "every stream and setting", "why_tests_cant": "All streams.", "anchors": ["src/obu.c: dav1d_parse_obus (decode_frame_type)"]}
{"id": "C30", "title": "Only OBUs of the selected operating point are decoded", "statement": "An OBU with an extension header is dropped exactly when the selected operating point's idc is non-zero and its temporal or spatial layer bit is not set in it; sequence headers and temporal delimiters are never dropped; the maximum spatial layer is the highest set spatial bit.", "quantifier": "every OBU header, every operating point idc", "why_tests_cant": "All combinations with histories.", "anchors": ["src/obu.c: dav1d_parse_obus"]}
{"id": "C31", "title": "Settings are validated and the frame delay reported is the one used", "statement": "dav1d_open succeeds only for settings in the documented ranges; dav1d_get_frame_delay returns a value between 1 and 256, at most max_frame_delay if given and at most the thread count, equal to the number of frames the opened decoder buffers, and monotone in n_threads.", "quantifier": "every settings value and core count", "why_tests_cant": "All integers.", "anchors": ["src/lib.c: get_num_threads, dav1d_get_frame_delay, dav1d_open"]}
{"id": "C32", "title": "Entropy decoding equals the AV1 specification for every window size", "statement": "For every tile whose decoding does not run past its data, the sequence of symbols, booleans and literals decoded, and the adapted probabilities, are those of the AV1 specification's arithmetic decoder; in particular 32-bit and 64-bit builds decode identically.", "quantifier": "every tile byte string, every sequence of symbol/bool/literal decode operations and CDFs", "why_tests_cant": "Refill timing and carry handling interact for all data.", "anchors": ["src/msac.c", "src/msac.h"]}
{"id": "C33", "title": "Overreading a tile is always detected", "statement": "If entropy decoding consumes more than the padding the specification allows beyond the tile data, the frame is reported as an error; a tile that stays inside its data is never reported for that reason.", "quantifier": "every tile byte string and every symbol sequence", "why_tests_cant": "All data.", "anchors": ["src/decode.c: check_trailing_bits_after_symbol_coder, dav1d_decode_tile_sbrow", "src/msac.c"]}
{"id": "C34", "title": "Probability tables stay valid under adaptation", "statement": "Starting from any valid cumulative distribution, after any sequence of decoded symbols the distribution is still valid (monotone, within 15 bits), every symbol stays decodable, the adaptation counter is bounded by 32, and the decoder's range stays in [32768, 65535].", "quantifier": "every valid CDF, every symbol sequence", "why_tests_cant": "Unbounded sequences.", "anchors": ["src/msac.c: dav1d_msac_decode_symbol_adapt_c, dav1d_msac_decode_bool_adapt_c"]}
{"id": "C35", "title": "Symbols written by the AV1 arithmetic encoder are decoded back", "statement": "Decoding the bytes produced by encoding any symbol sequence with any valid CDFs by the AV1 range coder gives back the same symbols.", "quantifier": "every symbol sequence, every valid CDF sequence", "why_tests_cant": "Unbounded sequences.", "anchors": ["src/msac.c"]}
{"id": "C36", "title": "Integer-position motion compensation copies, flat areas stay flat and pixels stay in range", "statement": "Inter prediction with zero fractional motion returns the reference pixels unchanged; on a constant reference it returns that constant for every filter and fraction; every predicted pixel lies in [0, 2^bpc-1] for single, averaged, weighted, masked and blended predictions.", "quantifier": "every reference content, fractional position, filter type, block size, bit depth 8/10/12", "why_tests_cant": "All pixel contents.", "anchors": ["src/mc_tmpl.c", "src/tables.c: dav1d_mc_subpel_filters"]}
{"id": "C37", "title": "References outside the picture read the nearest edge pixel", "statement": "A prediction block reaching outside the reference picture sees exactly the picture extended by replicating its border pixels, for any position and size, and only pixels inside the picture are read.", "quantifier": "every block position (any integers), block size and picture size", "why_tests_cant": "All positions.", "anchors": ["src/mc_tmpl.c: emu_edge_c"]}
{"id": "C38", "title": "Inverse Walsh-Hadamard transform is lossless", "statement": "For lossless blocks, the reconstruction equals prediction plus the residual that was forward transformed: the inverse transform inverts the specification's forward WHT on all residuals and pixel output is clipped to range.", "quantifier": "every 4x4 residual in range", "why_tests_cant": "All residuals.", "anchors": ["src/itx_1d.c: inv_wht4_1d", "src/itx_tmpl.c: inv_txfm_add_wht_wht_4x4_c"]}
{"id": "C39", "title": "The DC-only transform shortcut equals the full transform", "statement": "When only the DC coefficient of a DCT_DCT block is non-zero the shortcut produces exactly the same pixels as the general inverse transform.", "quantifier": "every DC value, every block size and bit depth", "why_tests_cant": "All DC values x sizes.", "anchors": ["src/itx_tmpl.c: inv_txfm_add_c", "src/itx_1d.c"]}
{"id": "C40", "title": "CDEF and deblocking leave flat areas unchanged and stay in range", "statement": "On a constant area with any strengths and levels CDEF and the deblocking filters return the same pixels; filtered pixels always lie in [0,2^bpc-1]; CDEF output lies between the minimum and the maximum of the pixel and its taps; deblocking modifies at most 6 (luma 7) pixels each side and only if the filter mask holds.", "quantifier": "every pixel content, strength, damping, level, bit depth", "why_tests_cant": "All contents.", "anchors": ["src/cdef_tmpl.c", "src/loopfilter_tmpl.c"]}
{"id": "C41", "title": "Loop restoration preserves flat areas and stays in range", "statement": "All pixels written by the Wiener and the self-guided filters are in [0,2^bpc-1], for every coefficients and content. The Wiener filter keeps constant areas unchanged at every bit depth; the self-guided filters keep them unchanged with 8 bits per pixel for all parameters and weights that can be coded, and change them by at most one (10 bits, darker) or by -5 to +1 (12 bits) otherwise, which does happen.", "quantifier": "every content and coefficients", "why_tests_cant": "All contents.", "anchors": ["src/looprestoration_tmpl.c"]}
{"id": "C42", "title": "Intra predictors stay inside the range spanned by their edge pixels", "statement": "DC, horizontal, vertical, smooth, Paeth and palette predictions lie between minimum and maximum of the neighbouring pixels (or palette) used; DC prediction is the rounded mean.", "quantifier": "every edge content and block size", "why_tests_cant": "All contents.", "anchors": ["src/ipred_tmpl.c", "src/tables.c: dav1d_sm_weights"]}
{"id": "C43", "title": "Film grain output stays in legal range and zero scaling is the identity", "statement": "Applying film grain never produces a sample outside [0,2^bpc-1], nor outside the restricted range when clipping is requested; with no scaling points the plane is returned unchanged; the result only depends on the picture, the parameters and the seed, not on how rows are distributed over threads.", "quantifier": "every picture, all parameters and row split", "why_tests_cant": "All contents, seeds.", "anchors": ["src/filmgrain_tmpl.c", "src/fg_apply_tmpl.c"]}
{"id": "C44", "title": "Coefficient scans visit every coefficient exactly once", "statement": "For every transform size each coefficient position is visited exactly once by the scan order used to place decoded coefficients.", "quantifier": "every scan table, every position", "why_tests_cant": "Completeness of tables as bijections; holds for all indices.", "anchors": ["src/scan.c: dav1d_scans"]}
{"id": "C45", "title": "Constant tables satisfy the algebraic laws decoding depends on", "statement": "AC quantizers strictly increase with the index and DC quantizers never decrease; interpolation, resize and warp filters sum to unity gain; smooth weights, OBMC masks and compound weights are complementary and the distance weights of compound prediction are those specified; the division table gives the rounded reciprocal; block and transform dimension tables are consistent.", "quantifier": "every table entry", "why_tests_cant": "Whole-table facts (checked exhaustively by the kernel) that parameterised proofs use.", "anchors": ["src/tables.c", "src/dequant_tables.c", "src/wedge.c", "src/decode.c"]}
{"id": "C46", "title": "Wedge masks are complementary and sign-symmetric", "statement": "For every wedge shape and position the two predictors' weights sum to 64, lie in 0..64, and flipping the sign swaps them; chroma masks are the rounded averages of luma masks.", "quantifier": "every block size, wedge index, sign, subsampling and pixel", "why_tests_cant": "All masks and all pixels.", "anchors": ["src/wedge.c"]}
{"id": "C47", "title": "Global/local warp parameters accepted are safe to use", "statement": "A warp model accepted by the decoder has shear parameters that satisfy the specification's validity bounds, division by the table never indexes out of range, and no 64-bit intermediate overflows for the values the bitstream can code.", "quantifier": "every affine parameter tuple", "why_tests_cant": "All parameter values.", "anchors": ["src/warpmv.c", "src/tables.c: dav1d_div_lut"]}
{"id": "C48", "title": "Loop filter levels are in 0..63 and derived as specified", "statement": "For every frame header each block's filter level is in 0..63 and equals the specification's formula of base level, segment, reference and mode deltas.", "quantifier": "every header, segment, reference, mode", "why_tests_cant": "All combos.", "anchors": ["src/lf_mask.c: dav1d_calc_lf_values, calc_lf_value"]}
{"id": "C49", "title": "Row tasks of a frame run once each, after their dependencies, under every schedule", "statement": "With worker threads, for every interleaving of the workers, each superblock row of each filter stage is processed exactly once per frame, never before the rows it depends on, and the frame is announced complete exactly once, after all of its tasks ended.", "quantifier": "every number of threads, tile layout, schedule", "why_tests_cant": "Exponential number of schedules.", "anchors": ["src/thread_task.c"]}
{"id": "C50", "title": "Demuxed packets are the ones stored in the file", "statement": "The ivf, Annex B and Section 5 readers return, packet by packet, exactly the temporal units stored in the file and stop at the end or report an error at malformed input, never reading beyond.", "quantifier": "every file content", "why_tests_cant": "All files.", "anchors": ["tools/input/ivf.c", "tools/input/annexb.c", "tools/input/section5.c"]}
{"id": "C51", "title": "The md5 output is the MD5 of the visible picture samples, independent of buffering", "statement": "The digest printed by the md5 muxer is RFC 1321's MD5 of the concatenation of all rows of visible samples of all planes of all frames, independent of strides and how the data is chunked into update calls.", "quantifier": "every sequence of pictures", "why_tests_cant": "All inputs and chunkings.", "anchors": ["tools/output/md5.c"]}
{"id": "C52", "title": "Frame header parsing is well defined and yields in-range fields", "statement": "Parsing any bytes as a frame header, in any decoder state reachable by parsing headers, never reads outside the buffer and never asks the bit reader for an illegal width; every accepted header has all fields in the ranges later stages rely on (frame type, reference indices, quantizer and segment indices, filter levels, CDEF strengths and counts, restoration unit sizes, global motion parameters).", "quantifier": "every byte string, every sequence header accepted before, every set of reference frame headers accepted before", "why_tests_cant": "Headers inherit values from reference headers, so ranges are an invariant of unbounded header chains.", "anchors": ["src/obu.c: parse_frame_hdr"]}
{"id": "C53", "title": "Inverse transforms are well defined, in range and clear their coefficients", "statement": "For every transform size and every transform type that exists for it, any coefficients in the range the coefficient decoder clips to, and any pixels in range, the inverse transform never overflows a signed int, never reads an intermediate that was not written, writes only pixels in range, and leaves the coefficient buffer all zero for the next block.", "quantifier": "every transform size, type, bit depth, eob, coefficient block and prediction", "why_tests_cant": "Overflow depends on combinations of 1024 coefficients; the space cannot be enumerated, and random tests rarely reach the extremes of each intermediate.", "anchors": ["src/itx_1d.c", "src/itx_tmpl.c: inv_txfm_add_c", "src/recon_tmpl.c: decode_coefs"]}
{"id": "C54", "title": "The end-of-block position only saves work in the inverse transform", "statement": "If all coefficients after position eob in coding order are zero, the rows skipped by the inverse transform because of eob do not change the result: it equals the one computed with the largest possible eob.", "quantifier": "every transform size, type, bit depth, eob and coefficient block with zeros after eob", "why_tests_cant": "The skipped rows are derived from scan tables and eob for each of 19 sizes and three scan classes; must hold for all blocks.", "anchors": ["src/itx_tmpl.c: inv_txfm_add_c", "src/scan.c: dav1d_last_nonzero_col_from_eob"]}
{"id": "C55", "title": "CDEF computes the specified filter", "statement": "For every block the CDEF filter returns exactly the pixels the specification's CDEF filter process (7.15.2) defines from the unfiltered pixels of the block and its available neighbours; unavailable neighbours have no influence; the strength and damping passed to it are the specified functions of the coded ones and the measured variance.", "quantifier": "every block size, bit depth, direction, primary and secondary strength, damping, set of available edges and pixel content", "why_tests_cant": "The C code reaches the filter through a padded buffer with a huge sentinel, unsigned minima and special cases for zero strengths; equality for all contents is not testable.", "anchors": ["src/cdef_tmpl.c: cdef_filter_block_c, padding", "src/cdef_apply_tmpl.c: adjust_strength"]}
{"id": "C56", "title": "CDEF direction search", "statement": "The direction found for an 8x8 block is the first of the eight directions with the largest specified energy, the variance is the difference to the energy of the orthogonal direction divided by 1024, no intermediate value overflows its C type, and a flat block has variance 0.", "quantifier": "every 8x8 block and bit depth", "why_tests_cant": "Energies of all 2^512 blocks; overflow only at extremes.", "anchors": ["src/cdef_tmpl.c: cdef_find_dir_c"]}
{"id": "C57", "title": "Deblocking computes the specified filter", "statement": "For every edge of up to 32 four-pixel units the loop filter functions leave exactly the samples the specification's edge loop filter (7.14.6: mask, flatness, narrow and wide filters, with limits of 7.14.5) gives where a transform edge is marked and its level is not 0, and change nothing else.", "quantifier": "every plane content, bit depth, mask, level, sharpness, edge orientation, luma and chroma", "why_tests_cant": "The C code unrolls the wide filters and reorders the narrow one; equality holds over all sample values, 2^112 lines for 8 bits.", "anchors": ["src/loopfilter_tmpl.c: loop_filter, loop_filter_{h,v}_sb128{y,uv}_c", "src/lf_mask.c: dav1d_calc_eih"]}
{"id": "C58", "title": "Intra prediction, including the preparation of the edge, is as specified", "statement": "For every block with the size of a transform, every content of the plane, every combination of available neighbours and every position of the picture's end, the pixels predicted from DC, smooth, Paeth and all directional modes with all angle deltas, with and without edge filter and upsampling, equal the ones of section 7.11.2 of the AV1 specification; no pixel that is not available is read and no internal array is exceeded.", "quantifier": "every plane content, block position and size, neighbour availability, mode, angle delta, bit depth", "why_tests_cant": "56 angles, 19 sizes, partial availability and all pixel values; the implementation uses reversed arrays, clamped reads and combined kernels that differ from the text of the specification.", "anchors": ["src/ipred_tmpl.c", "src/ipred_prepare_tmpl.c", "src/tables.c: dav1d_dr_intra_derivative, dav1d_sm_weights"]}
{"id": "C59", "title": "Recursive filter intra and chroma from luma prediction are as specified", "statement": "For each of the five filters the predicted block satisfies the recursive equations of section 7.11.2.3; chroma predicted from luma equals section 7.11.5, the stored luma differences fit 16 bits, and without luma detail the prediction is the DC prediction.", "quantifier": "every neighbour and luma content, block size, subsampling, padding, alpha, bit depth", "why_tests_cant": "Recursion over the whole block and all pixel contents.", "anchors": ["src/ipred_tmpl.c: ipred_filter_c, cfl_ac_c, cfl_pred", "src/tables.c: dav1d_filter_intra_taps"]}
{"id": "C60", "title": "Loop restoration filters compute what is specified", "statement": "The Wiener filter function and the three self-guided filter functions write, for every position of the block, the value of sections 7.17.4 to 7.17.6 of the specification computed from the block, its left columns and the stored rows above and below, whatever the uninitialised parts of their ring buffers hold, and write nothing else; all intermediate values fit the integer types they are kept in.", "quantifier": "every block size, edge flags, contents, coefficients, parameter set, weights, bit depth", "why_tests_cant": "The C code keeps sliding windows of rows with special cases for the first and last rows; equality with the two-dimensional definition has to hold for every height, content and combination of edges.", "anchors": ["src/looprestoration_tmpl.c"]}
{"id": "C61", "title": "Film grain synthesis computes what is specified", "statement": "For every picture and every film grain parameter set accepted in a frame header, the samples written by dav1d_apply_grain are those of section 7.18.3 of the AV1 specification: templates made from the shift register and the auto-regressive filter, scaling functions interpolated from the points (also between 8-bit values at 10 and 12 bits), blocks taken at pseudo-random offsets and blended where they overlap, chroma scaled by luma where asked for, then clipped. The decoded picture itself, which may be a reference, is not changed in its visible part.", "quantifier": "for all picture sizes, layouts, bit depths, parameters, seeds, sample values, contents of uninitialised memory and orders of the rows", "why_tests_cant": "the parameter space (seed, up to 14 points, 24 coefficients, shifts, overlap, clipping) times picture contents cannot be enumerated; tests compare a few streams by checksum", "anchors": ["src/filmgrain_tmpl.c", "src/fg_apply_tmpl.c", "src/lib.c:301-345"]}
{"id": "C62", "title": "Frames refer only to finished rows", "statement": "With frame threading, the two progress values that a frame publishes to the frames referring to it never count a superblock row before it is complete: rows below the first value have their symbols decoded, rows below the second are reconstructed and filtered. A row of a tile of another frame is decoded only after the rows of its reference frames that it needs have reached that state; when a frame has been finished both values say so or report an error.", "quantifier": "for all interleavings of any number of worker threads, tilings, sets of post filters, reference structures, motion vectors and decoding errors", "why_tests_cant": "A reference row used too early shows up as a wrong pixel in a rare interleaving only; no test can enumerate the interleavings of several frames.", "anchors": ["src/thread_task.c:387-433", "src/thread_task.c:790-931"]}
{"id": "C63", "title": "Frame threading does not deadlock", "statement": "With several frames being decoded at once and waiting for rows of each other, some task can always make progress until every frame has been finished, and decoding ends after a bounded number of steps in every order of execution, with or without errors.", "quantifier": "for all interleavings, numbers of frames, reference structures, motion vectors, tilings and decoding errors", "why_tests_cant": "Absence of deadlock is a statement about all schedules; a hang that needs a certain order of four frames and an error will not be met by a test.", "anchors": ["src/thread_task.c"]}
{"id": "C64", "title": "Every tile starts with the right probability tables", "statement": "For every sequence of frames, each tile starts with exactly the probability tables the AV1 specification prescribes: the default tables for its quantizer, or the tables saved with the primary reference frame, i.e. those at the end of the designated tile of that frame with cleared counters, or that frame's own initial tables if it does not save. All of them are valid distributions of the size the reader expects, and no tile sees uninitialised memory, although the decoder saves some tables never, some only in inter frames, and shares the motion vector tables between motion and block vectors.", "quantifier": "for all sequences of frames, reference structures, quantizers, tile contents and contents of fresh memory", "why_tests_cant": "There are thousands of tables in a hand written memory layout; a test stream exercises a few contexts of some of them in a few reference structures, and a missing counter reset or a table copied in the wrong frame type only shows as a mismatch many frames later.", "anchors": ["src/cdf.c", "src/cdf.h", "src/decode.c"]}
{"id": "C65", "title": "Coefficients of a transform block are parsed as the AV1 syntax says", "statement": "For every transform block, decode_coefs reads exactly the symbols the AV1 residual syntax prescribes, in that order and each with the prescribed probability table, derives the prescribed transform type, and leaves exactly the prescribed dequantised coefficients and contexts. This holds although the decoder keeps levels of neighbours in a buffer without room for neighbours outside the block, packs two counters into a byte, chains the coefficients to be signed through the coefficient buffer itself, and merges contexts of several blocks with word arithmetic. No buffer is accessed outside its bounds, no read meets uninitialised memory and no assertion fails.", "quantifier": "for all transform sizes and types, planes, block sizes, chroma formats, bit depths, quantizers, quantizer matrices, neighbouring contexts and sequences of symbols", "why_tests_cant": "The neighbour trick is right only because of the order of the scans, the chaining only because every position fits into 10 bits; a wrong context in one of 19 transform sizes and 3 classes changes the table used for one symbol in a rare block, and a test stream cannot cover all combinations of neighbours.", "anchors": ["src/recon_tmpl.c:49-615", "src/recon_tmpl.c:616-740", "src/scan.c", "src/tables.c:129-323", "src/env.h:120-133"]}
{"id": "C66", "title": "The reference slots hold what the stream last put there", "statement": "After each OBU the eight reference slots are exactly what the AV1 reference frame update process says: a decoded frame (its picture, probability tables, segmentation map and motion vectors) is in exactly the slots named by refresh_frame_flags and the other slots are unchanged; the frame was decoded from the slots as they were before; a shown existing key frame is in all eight slots and cannot be shown again; showing another frame changes no slot; a skipped frame leaves its header, a failed frame leaves nothing, a new sequence empties all slots.", "quantifier": "all settings, all API histories, all bytes, all outcomes of decoding frames and all allocation failures", "why_tests_cant": "a slot that wrongly keeps or loses a frame is only noticed when a later frame refers to just that slot; the histories of eight slots over a stream are unbounded", "anchors": ["src/decode.c:dav1d_submit_frame", "src/obu.c:dav1d_parse_obus"]}
{"id": "C67", "title": "Blocks cover a tile exactly once", "statement": "Whatever partition symbols and split flags are read, the blocks decoded in a tile cover every 4x4 unit of the tile exactly once, never overlap, and each begins inside the tile. Frame sizes that are no multiple of the superblock size are handled at the right and bottom edge, and no partition reaches an assertion or an invalid node of the tree of edge flags.", "quantifier": "for all frame and tile sizes, superblock sizes, chroma formats and all sequences of partition symbols", "why_tests_cant": "The number of partition trees of one 64x64 superblock already exceeds anything a test can enumerate, and the frame edges add cases for each size; an uncovered unit shows up as a stale area in a rare picture.", "anchors": ["src/decode.c:2119-2389", "src/decode.c:2596-2737", "src/tables.c:55-127"]}
{"id": "C68", "title": "Edge flags tell what has been decoded", "statement": "For every block, the precomputed flags for the samples above and to the right of it (as many as the block is wide) and below and to the left of it (as many as the block is high), which steer intra prediction, are set exactly if these samples (inside the tile) have already been decoded, for luma and for chroma in 4:4:4, 4:2:0 and 4:2:2, including blocks of 4 samples that share their chroma.", "quantifier": "for all tiles, all partition trees and all blocks", "why_tests_cant": "A flag that is wrong for one shape at one position in the tree makes prediction read samples not yet written, or ignore available ones, only for directional modes in such a block; the flags of all trees cannot be enumerated.", "anchors": ["src/intra_edge.c", "src/intra_edge.h", "src/decode.c:2119-2389"]}
{"id": "C69", "title": "Partition symbols are read with the right context and probability", "statement": "Each partition symbol is read with the context of the AV1 specification, which depends on the width of the block above and the height of the block on the left of the node among the blocks of the tile; the byte per 8 samples that the decoder keeps is an encoding of these sizes. At the bottom and right edges of the frame the probability of a split is the sum of the probabilities of the partitions that the specification lists.", "quantifier": "for all tiles, all partition trees and all nodes; for all probability tables", "why_tests_cant": "A wrong context desynchronises the arithmetic decoder only in streams where just this neighbourhood occurs.", "anchors": ["src/env.h:83-118", "src/decode.c:2119-2389", "src/tables.c:37-53"]}
{"id": "C70", "title": "The second pass repeats the blocks of the first", "statement": "With frame threads, reconstruction goes through each tile a second time without reading symbols. It visits exactly the blocks of the first pass, in the same order and with the same flags, given only what the first pass stored for each block at its own position; what is stored at other positions (left from earlier frames) does not matter.", "quantifier": "for all tiles, all partition trees and all stale contents of the block array", "why_tests_cant": "Stale contents depend on earlier frames; a wrong look-up would need just the wrong stale value.", "anchors": ["src/decode.c:2147-2150", "src/decode.c:2324-2366", "src/decode.c:806-810"]}
{"id": "C71", "title": "Transform blocks know their surroundings", "statement": "When an intra block is reconstructed transform by transform, each sample of a tile is reconstructed exactly once in every plane, and each transform block is told correctly which samples on the left, above, above on the right and below on the left exist in the tile and have been reconstructed before; the chosen transform always fits into its block.", "quantifier": "for all tiles, partition trees, chroma layouts, block modes (intra or not, lossless or not) and transform depths", "why_tests_cant": "The flags of a transform block follow from the position in a chunk of 64x64 samples, the block's flags and the tile; a wrong one for one combination of sizes matters only for some directional modes there.", "anchors": ["src/recon_tmpl.c:1179-1558", "src/decode.c:1187-1206"]}
{"id": "C72", "title": "Intra prediction uses the right samples", "statement": "While a tile is decoded, everything that intra prediction reads was written before in this tile and is the sample before loop filtering, no matter how far the loop filters have come in earlier superblock rows and what other tiles do: at the top of a superblock row the samples come from a copy made before filtering, which tiles and rows do not overwrite for each other. The predicted samples are those of the AV1 specification, where availability is a matter of the order of decoding and only the frame, not the tile, limits the samples used.", "quantifier": "for all tiles, partition trees, layouts, transform sizes, modes, contents of the plane and interleavings with filtering and other tiles", "why_tests_cant": "A read of a filtered or unwritten sample depends on thread timing and on memory left over from earlier frames.", "anchors": ["src/recon_tmpl.c:1258-1283", "src/recon_tmpl.c:1465-1500", "src/recon_tmpl.c:2114-2138", "src/ipred_prepare_tmpl.c", "src/decode.c:2634-2635", "src/decode.c:2731-2733"]}
{"id": "C73", "title": "The block contexts hold what was decoded next to the block", "statement": "When a block is decoded, the 32-entry context arrays hold, for each of its columns, what was decoded for the block right above, and for each of its rows what was decoded for the block right on the left: flags, mode, references, compound type, filters, palette and transform size; at the top and left side of the tile they hold the values for no neighbour. What earlier tiles, superblock rows and frames left in the arrays does not matter, and updates never leave the arrays.", "quantifier": "for all tiles, superblock sizes, partition trees, blocks, and contents of the arrays before", "why_tests_cant": "A stale entry is found only where the right one was not written, in one particular partitioning after one particular earlier content.", "anchors": ["src/decode.c:1229-1253", "src/decode.c:1365-1379", "src/decode.c:1909-1926", "src/decode.c:2392-2416", "src/env.h:39-57", "src/ctx.h:69-78"]}
{"id": "C74", "title": "Contexts of block syntax are those of the specification", "statement": "The contexts for is_inter, comp_mode, comp_ref_type, all reference bits, comp_group_idx, compound_idx, interpolation filters, skip, skip_mode, segment ids and their prediction, luma palettes, transform depth and (without inter prediction) luma modes, and the choice of the filter for luma edges, are those that the AV1 specification derives from the blocks above and on the left in the tile, in the first and, where used, in the second pass.", "quantifier": "for all tiles, partition trees and contents of the blocks", "why_tests_cant": "There are thousands of combinations of two neighbours for each element; a wrong context for one of them desynchronises the decoder in streams where just it occurs.", "anchors": ["src/env.h:59-81", "src/env.h:135-461", "src/decode.c:832-903", "src/decode.c:1055-1056", "src/decode.c:1124", "src/ipred_prepare.h:95-100"]}
{"id": "C75", "title": "Reference frames are read as the specification says", "statement": "For an inter block the decoder reads the syntax elements for reference frames in the order of the AV1 specification, each with its own probabilities and context, and obtains the same reference frames; these are one of seven, or two of them in increasing order.", "quantifier": "for all data, neighbours, block sizes, segment features and frame settings", "why_tests_cant": "The tree has sixteen leaves and every branch depends on contexts of two neighbours; unit tests reach neither.", "anchors": ["src/decode.c:1386-1407", "src/decode.c:1427-1501", "src/decode.c:1614-1658"]}
{"id": "C76", "title": "Deblocking filters exactly the edges of the specification", "statement": "The calls of the deblocking filter for a plane are one for each edge of 4 samples that the AV1 specification filters, with the level and the number of samples it gives: at edges of transforms (also those of split transform trees), except inside skipped inter blocks, at block, superblock and tile edges, up to the borders of the picture, with the smaller of the two transforms on both sides and the level of the block after the edge or, if that is 0, before it. The order in which tiles are decoded makes no difference.", "quantifier": "for all frame sizes, tiles, partition trees, transform trees, levels, chroma subsamplings and orders of decoding", "why_tests_cant": "The edges are kept as bits of masks of 128x128 samples, written by blocks in several threads and corrected at tile edges afterwards; unit tests call only the filter itself with given masks.", "anchors": ["src/lf_mask.c:39-384", "src/lf_apply_tmpl.c:176-466", "src/loopfilter_tmpl.c:163-248", "src/decode.c:119-166", "src/decode.c:444-486", "src/decode.c:2734-2742"]}
{"id": "C77", "title": "Segment, skip, CDEF and quantizer syntax of blocks follows the specification", "statement": "For every block the decoder reads segment id, skip mode, skip, CDEF index, differences of quantizer index and loop filter levels, and whether the block is intra, inter or copied, in the order and with the contexts of the AV1 specification, and obtains the same values; after each block the CDEF index of each 64x64 area, the quantizers of all segments and planes and the loop filter levels are those of the specification. This holds for all answers of the arithmetic decoder for which the coded segment ids are in range; outside, segment 0 is used instead of clipping.", "quantifier": "for all tiles, partition trees, frame headers, neighbours and data", "why_tests_cant": "Half of the syntax depends on state from earlier blocks and superblocks (first block of a superblock, pointers to tables that are reused, CDEF indices of larger blocks); a unit test would need whole coded tiles for every combination.", "anchors": ["src/decode.c:49-73", "src/decode.c:169-189", "src/decode.c:494-512", "src/decode.c:812-1049", "src/decode.c:2455-2456", "src/decode.c:2652-2663"]}
{"id": "C78", "title": "Intra block copy copies only what has been decoded", "statement": "Whatever data a stream contains, a block that is predicted by intra block copy is either refused with an error, or its luma and chroma prediction depends only on samples of the same tile whose blocks were decoded before it; the luma prediction is an unfiltered copy. When the block vector meets the conditions of the AV1 specification, the decoder reads the same symbols as the specification and uses exactly this vector. Motion vector differences are read as specified in all precisions.", "quantifier": "for all tiles, partition trees, layouts, block positions and sizes, predicted vectors and answers of the arithmetic decoder", "why_tests_cant": "The vector is moved in five steps that depend on tile borders, superblock position, block size and chroma subsampling; a source that overlaps undecoded samples by one row gives output that depends on old memory contents and on thread timing, which a test of single streams does not show.", "anchors": ["src/decode.c:76-117", "src/decode.c:1268-1346", "src/recon_tmpl.c:941-991", "src/recon_tmpl.c:1586-1598"]}
{"id": "C79", "title": "Palettes are read and predicted as specified", "statement": "For every block with a palette, in luma and in chroma, the decoder reads the same symbols as the AV1 specification and gets the same colours, whatever the palettes of the blocks above and on the left are: those of the block on the left in the tile, and of the block above if it is in the same 64 rows. The colours of Y and U are in increasing order. The map of the colours is read with the contexts of the specification, and the predicted pixel is the colour with the index of the map at its position, also in the part of the block outside of the frame.", "quantifier": "for all tiles, partition trees, palettes of other blocks, bit depths, block sizes, frame sizes, layouts and answers of the arithmetic decoder", "why_tests_cant": "The palettes around are kept in arrays of the thread that are never cleared and overwritten by every block, the merge with the cache works in place, and the map is packed in place to two indices in a byte; tests of the prediction function use given indices.", "anchors": ["src/decode.c:387-442", "src/decode.c:1118-1185", "src/recon_tmpl.c:2171-2320", "src/ipred_tmpl.c:717-730"]}
{"id": "C80", "title": "The syntax of intra blocks is that of the specification", "statement": "For every block that is predicted from its own frame without a block vector, the decoder reads the same symbols in the same order and with the same contexts as intra_frame_mode_info or intra_block_mode_info, palette_tokens and read_tx_size of the AV1 specification, and ends with the same luma and chroma mode, angles, CFL factors, palettes, colour maps, filter intra mode and transform sizes of luma and chroma. Reading the map for chroma does not damage that of luma, whether the maps are kept for a second pass or not.", "quantifier": "for all tiles, partition trees, blocks decoded before, block sizes, positions, layouts, bit depths, header flags and answers of the arithmetic decoder", "why_tests_cant": "Which symbols are present depends on modes, sizes, headers and neighbours together; one symbol read with another context changes everything after it, and streams in tests come from encoders that use few of the combinations.", "anchors": ["src/decode.c:1052-1207", "src/tables.c:57-104", "src/tables.c:250-273", "src/tables.h:70-84"]}
{"id": "C81", "title": "The syntax of inter blocks is that of the specification", "statement": "For every block predicted from other frames the decoder reads the same symbols in the same order and with the same contexts as inter_block_mode_info of the AV1 specification, and ends with the same reference frames, prediction mode, candidate index, motion vectors (including global motion and rounding to the precision of the frame), inter-intra mode, wedge, motion mode, compound type and filters. The blocks around that allow overlapped prediction are those of the specification.", "quantifier": "for all tiles, partition trees, blocks decoded before, block sizes, positions, segments, global motion parameters, header flags, candidate lists and answers of the arithmetic decoder", "why_tests_cant": "Whether a symbol is present depends on sizes, references, modes, segments, headers and neighbours together, and one symbol too much or with another context changes everything after it; encoders used for test streams produce few of the combinations, for example global motion with different kinds for the two references.", "anchors": ["src/decode.c:1383-1872", "src/env.h:431-519", "src/tables.c:215-226", "src/tables.c:376-386", "src/tables.h:86-104"]}
{"id": "C82", "title": "The transforms of inter blocks are those of the specification", "statement": "For every block predicted from other frames the decoder reads the same symbols in the same order and with the same contexts as read_block_tx_size and read_var_tx_size of the AV1 specification, and every 4x4 unit of the block gets the same size of luma transform; the size of the chroma transforms is that of get_tx_size_uv. The coefficients are read for the same transforms at the same places in the order of transform_block in residual. The contexts of later blocks are those that the specification derives from the sizes of the transforms and blocks around, over the whole tile.", "quantifier": "for all tiles, partition trees, blocks decoded before, block sizes, positions at the frame's edges, layouts, header flags and answers of the arithmetic decoder", "why_tests_cant": "The splits are packed into two bit masks while they are read and unpacked again, with different code, for coefficients and for reconstruction; which bit is used depends on the whole path in the tree, and parts of it outside the frame are left out. A wrong bit changes all that follows, and only for shapes encoders rarely use.", "anchors": ["src/decode.c:129-190", "src/decode.c:444-492", "src/recon_tmpl.c:734-800", "src/recon_tmpl.c:845-885", "src/recon_tmpl.c:1890-1935"]}
{"id": "C83", "title": "Restoration units are read as specified, and every sample is filtered with its unit", "statement": "At every superblock the decoder reads the same symbols, in the same order, for the loop restoration units as read_lr of the AV1 specification, with and without superres; the type, the filter coefficients and the weights that it stores for a unit are those of the specification, as is the unit the next one is coded against. Every unit of the frame is read at exactly one superblock and has a place of its own inside the memory. When the frame is filtered, every sample of every plane belongs to exactly one row of superblocks and one unit there, and that is the unit which the specification gives it. Tiles decoded at the same time do not change each other's units.", "quantifier": "for all frame sizes, layouts, superres denominators, unit sizes, superblock sizes, tiles and answers of the arithmetic decoder", "why_tests_cant": "Units are stored by the 64x64 block of their first sample after upscaling, are read where the specification finds a rounded fraction of the coded position, and are looked up again with other arithmetic, eight rows above the superblocks. A wrong unit at the last row or column, or in a tile which begins without units, needs a certain size of frame together with superres and several tiles.", "anchors": ["src/decode.c:2467-2505", "src/decode.c:2513-2574", "src/decode.c:2664-2715", "src/lr_apply_tmpl.c:104-205", "src/msac.c:60-74"]}
{"id": "C84", "title": "Loop restoration in place gives the frame of the specification", "statement": "After loop restoration every sample of a plane has the value that the AV1 specification computes for it from the frame after CDEF (and super-resolution) and, for the rows outside of its stripe of 64 luma rows, from the frame before CDEF, although the decoder filters in place, row of superblocks by row of superblocks and unit by unit, and keeps only four lines for the end of each stripe and four columns at the border of a unit. This holds with one thread, where the lines of the last stripe are carried over in a buffer of 12 lines, and with several threads, for every order in which rows of superblocks are restored once they and the rows above were saved. Nothing outside of the plane is written, and what the buffers held before does not matter.", "quantifier": "for all frames, frame sizes, layouts, bit depths, unit sizes, superblock sizes, units and their filters, and all allowed orders of saving and restoring", "why_tests_cant": "Wrong lines or columns change samples at the borders of stripes and units only, by little, and in frames whose height leaves one row after the last stripe or less than half a unit, or in one of the orders threads may run in.", "anchors": ["src/lf_apply_tmpl.c:36-172", "src/lr_apply_tmpl.c:36-205"]}
{"id": "C85", "title": "CDEF in place gives the frame of the specification", "statement": "After the constrained directional enhancement filter every sample of every plane has the value that the AV1 specification computes for it from the frame before the filter, with the direction, variance, strengths and damping of its 8x8 block, although the decoder filters in place, strip of 8 rows by strip and block by block, and keeps only two lines above a strip and two columns left of a block of what it has overwritten. Blocks that are skipped or have no index are left as they are. This holds with one thread, where the next row of superblocks is deblocked after the last one was filtered, and with several threads, for every order in which rows of superblocks are deblocked, have their lines saved and are filtered, with and without super-resolution. Nothing outside of the rows of a row of superblocks is written, and what the buffers held before does not matter.", "quantifier": "for all frames, frame sizes, layouts, bit depths, superblock sizes, strengths, indices, skip flags and all allowed orders of deblocking, saving and filtering", "why_tests_cant": "A line or column that was already filtered, or was not saved because the block before was skipped or had no strength for luma or chroma, changes few samples by little, in certain successions of blocks, at the borders of rows of superblocks, or in one of the orders threads may run in.", "anchors": ["src/cdef_apply_tmpl.c:41-309", "src/recon_tmpl.c:2028-2054", "src/lf_apply_tmpl.c:36-172"]}
{"id": "C86", "title": "CDEF indices and skip flags of blocks reach the filter", "statement": "When all blocks of a frame are decoded, the masks that the constrained directional enhancement filter uses hold, for each 64x64, the index that the AV1 specification has for it (the one read with the first block that is not skipped, which a block of more than 64 columns or rows gives to all 64x64 it lies in; no index if all blocks are skipped), and for each 8 luma rows and 4 columns whether a block there is not skipped, also for blocks with one row of 4x4. Together with C85, the frame after the filter is the one of the specification for the flags and indices of the blocks. A block changes only entries of 64x64s that it lies in, so threads that decode different tiles do not write to the same entry.", "quantifier": "for all frame sizes, superblock sizes, divisions into blocks, skip flags and values of indices, and all orders in which superblocks and blocks are decoded", "why_tests_cant": "A flag for 8 rows is shared by blocks above each other, and a mask of 128x128 by up to four superblocks, which may be in different tiles; a wrong flag or index shows only for certain blocks next to each other, sizes and orders of threads.", "anchors": ["src/decode.c:943-958", "src/decode.c:1948-1957", "src/decode.c:2645-2663", "src/decode.c:3041"]}
{"id": "C87", "title": "Super-resolution gives the frame of the specification", "statement": "For a frame with super-resolution, when all rows of superblocks went through the constrained directional enhancement filter and were upscaled, in any order and with any number of threads, each sample of the upscaled frame is the one that the AV1 specification gives: its upscaling process (7.16) applied to the frame after its CDEF process (7.15). The steps and first positions computed for the luma and chroma planes are those of the specification, without signed overflow. Upscaling one row of superblocks writes only the samples of its rows inside of the frame.", "quantifier": "for all frame sizes up to 65536 columns after upscaling, all widths before it, layouts, bit depths, superblock sizes, CDEF parameters and contents, and all orders of the rows of superblocks", "why_tests_cant": "The step, the first position and its rounding depend on both widths and the layout; a wrong rounding shows only for certain pairs of widths, and a wrong order or count of rows only with certain heights and threads.", "anchors": ["src/decode.c:3323-3327", "src/decode.c:3533-3542", "src/recon_tmpl.c:2056-2089", "src/mc_tmpl.c:877-903"]}
{"id": "C88", "title": "CDEF, super-resolution and loop restoration together give the frame of the specification", "statement": "For a frame with super-resolution, after all rows of superblocks went through the constrained directional enhancement filter, upscaling and loop restoration, each sample of each plane is the one that the AV1 specification gives for the frame after the deblocking filter: loop restoration (7.17) of the upscaled (7.16) frame after CDEF (7.15), where the samples outside of a stripe are those of the upscaled frame before CDEF. This holds with one thread, where each row of superblocks goes through all filters before the next, and with several, for all orders in which rows of superblocks are saved, upscaled and restored that keep the dependencies. Upscaling has no undefined behaviour.", "quantifier": "for all frame sizes, layouts, bit depths, superres denominators, superblock and unit sizes, CDEF indices, skip flags, units and contents, and all allowed orders", "why_tests_cant": "The filters work in place on overlapping rows with an offset of eight, and read lines saved before other filters changed them; a wrong row at one of the borders needs a certain order of threads and shows in few samples.", "anchors": ["src/lf_apply_tmpl.c:40-172", "src/recon_tmpl.c:2056-2113", "src/cdef_apply_tmpl.c:96-309", "src/lr_apply_tmpl.c:36-205"]}
{"id": "C89", "title": "CDEF and loop restoration in one frame give the frame of the specification", "statement": "For a frame without super-resolution, where the deblocking filter, CDEF and loop restoration all change the same frame in place, each sample after all rows of superblocks are done is the one that the AV1 specification gives for the frame after the deblocking filter: loop restoration (7.17) of the frame after CDEF (7.15), with the frame before CDEF outside of a stripe. With one thread a row of superblocks goes through all three filters before the next one is deblocked; with several, the filters of different rows of superblocks may run in any order that keeps the dependencies (lines of a row of superblocks and of the one above are saved before its CDEF, which comes before its loop restoration). No filter destroys what another one still needs.", "quantifier": "for all frame sizes, layouts, bit depths, superblock and unit sizes, CDEF indices, skip flags, units and contents, and all allowed orders", "why_tests_cant": "A filter that reads a row too late or too early gets values changed by another one; this needs a certain order of threads, shows in few samples at the borders of superblocks, and depends on the contents.", "anchors": ["src/recon_tmpl.c:2091-2113", "src/lf_apply_tmpl.c:40-172", "src/cdef_apply_tmpl.c:96-309", "src/lr_apply_tmpl.c:36-205"]}
