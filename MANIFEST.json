{
 "claims": [
  {
   "property": "C01",
   "status": "proved",
   "theorems": [
    "Rqrr.C01_rs_corrects",
    "Rqrr.C01_every_symbol"
   ],
   "note": ""
  },
  {
   "property": "C02",
   "status": "proved",
   "theorems": [
    "Rqrr.C02_rs_sound",
    "Rqrr.C02_rs_codeword_unchanged"
   ],
   "note": ""
  },
  {
   "property": "C03",
   "status": "proved",
   "theorems": [
    "Rqrr.C03_format_corrects",
    "Rqrr.C03_format_sound",
    "Rqrr.C03_grid_first_copy"
   ],
   "note": ""
  },
  {
   "property": "C04",
   "status": "proved",
   "theorems": [
    "Rqrr.C04_grid_second_copy",
    "Rqrr.C04_format_outcome"
   ],
   "note": ""
  },
  {
   "property": "C05",
   "status": "proved",
   "theorems": [
    "Rqrr.C05_format_nearest",
    "Rqrr.C05_accepts_distance_4_5",
    "Rqrr.C05_format_min_distance"
   ],
   "note": "Includes witnesses that distance 4 and 5 are sometimes accepted."
  },
  {
   "property": "C06",
   "status": "proved",
   "theorems": [
    "Rqrr.C06_metadata_range"
   ],
   "note": ""
  },
  {
   "property": "C07",
   "status": "proved",
   "theorems": [
    "Rqrr.C07_from_to",
    "Rqrr.C07_from_size_iff"
   ],
   "note": ""
  },
  {
   "property": "C08",
   "status": "proved",
   "theorems": [
    "Rqrr.C08_path_complete",
    "Rqrr.C08_stream_is_path"
   ],
   "note": ""
  },
  {
   "property": "C09",
   "status": "proved",
   "theorems": [
    "Rqrr.C09_reserved_iff_function",
    "Rqrr.C09_fails_for_version_21",
    "Rqrr.C09_version_21"
   ],
   "note": "Holds for every version except 21; the failure for version 21 is proved too."
  },
  {
   "property": "C10",
   "status": "proved",
   "theorems": [
    "Rqrr.C10_capacity"
   ],
   "note": ""
  },
  {
   "property": "C11",
   "status": "proved",
   "theorems": [
    "Rqrr.C11_unmasking"
   ],
   "note": ""
  },
  {
   "property": "C12",
   "status": "proved",
   "theorems": [
    "Rqrr.C12_push",
    "Rqrr.C12_take_bits"
   ],
   "note": ""
  },
  {
   "property": "C13",
   "status": "proved",
   "theorems": [
    "Rqrr.C13_deinterleave",
    "Rqrr.C13_outcomes"
   ],
   "note": ""
  },
  {
   "property": "C14",
   "status": "proved",
   "theorems": [
    "Rqrr.C14_numeric"
   ],
   "note": ""
  },
  {
   "property": "C15",
   "status": "proved",
   "theorems": [
    "Rqrr.C15_alphanumeric"
   ],
   "note": ""
  },
  {
   "property": "C16",
   "status": "proved",
   "theorems": [
    "Rqrr.C16_bytes"
   ],
   "note": ""
  },
  {
   "property": "C17",
   "status": "proved",
   "theorems": [
    "Rqrr.C17_kanji"
   ],
   "note": ""
  },
  {
   "property": "C18",
   "status": "proved",
   "theorems": [
    "Rqrr.C18_eci"
   ],
   "note": ""
  },
  {
   "property": "C19",
   "status": "proved",
   "theorems": [
    "Rqrr.C19_segments"
   ],
   "note": ""
  },
  {
   "property": "C20",
   "status": "proved",
   "theorems": [
    "Rqrr.C20_unknown_mode",
    "Rqrr.C20_byte_underflow",
    "Rqrr.C20_kanji_underflow",
    "Rqrr.C20_numeric_underflow",
    "Rqrr.C20_alpha_underflow",
    "Rqrr.C20_outcomes"
   ],
   "note": ""
  },
  {
   "property": "C21",
   "status": "proved",
   "theorems": [
    "Rqrr.C21_writer",
    "Rqrr.C21_vector",
    "Rqrr.C21_no_io_error"
   ],
   "note": ""
  },
  {
   "property": "C22",
   "status": "proved",
   "theorems": [
    "Rqrr.C22_decode_ok",
    "Rqrr.C22_encoding_error",
    "Rqrr.C22_errors"
   ],
   "note": ""
  },
  {
   "property": "C23",
   "status": "proved",
   "theorems": [
    "Rqrr.C23_direct",
    "Rqrr.C23_mirrored",
    "Rqrr.C23_neither",
    "Rqrr.C23_transpose"
   ],
   "note": ""
  },
  {
   "property": "C24",
   "status": "proved",
   "theorems": [
    "Rqrr.C24_decode_total",
    "Rqrr.C24_decode_string_total",
    "Rqrr.C24_raw_total",
    "Rqrr.C24_small_grids_panic"
   ],
   "note": ""
  },
  {
   "property": "C25",
   "status": "proved",
   "theorems": [
    "Rqrr.C25_only_inside",
    "Rqrr.C25_no_outside_reads"
   ],
   "note": ""
  },
  {
   "property": "C26",
   "status": "proved",
   "theorems": [
    "Rqrr.C26_end_to_end",
    "Rqrr.C26_second_format_copy",
    "Rqrr.C26_mirrored"
   ],
   "note": ""
  },
  {
   "property": "C27",
   "status": "proved",
   "theorems": [
    "Rqrr.C27_version_table",
    "Rqrr.C27_alignment",
    "Rqrr.C27_alignment_21_wrong"
   ],
   "note": "Finite table; alignment coordinates wrong for version 21 (proved)."
  },
  {
   "property": "C28",
   "status": "proved",
   "theorems": [
    "Rqrr.C28_only_data_and_format"
   ],
   "note": ""
  },
  {
   "property": "C29",
   "status": "proved",
   "theorems": [
    "Rqrr.C29_simple_grid",
    "Rqrr.C29_shows"
   ],
   "note": ""
  },
  {
   "property": "C30",
   "status": "proved",
   "theorems": [
    "Rqrr.C30_mirror"
   ],
   "note": ""
  },
  {
   "property": "C31",
   "status": "proved",
   "theorems": [
    "Rqrr.C31_prepare",
    "Rqrr.C31_fresh"
   ],
   "note": ""
  },
  {
   "property": "C32",
   "status": "proved",
   "theorems": [
    "Rqrr.C32_bright_pixels_stay_white",
    "Rqrr.C32_242_is_white",
    "Rqrr.C32_uniform"
   ],
   "note": ""
  },
  {
   "property": "C33",
   "status": "proved",
   "theorems": [
    "Rqrr.C33_causal"
   ],
   "note": ""
  },
  {
   "property": "C34",
   "status": "proved",
   "theorems": [
    "Rqrr.C34_from_bitmap",
    "Rqrr.C34_from_pure_bitmap",
    "Rqrr.C34_from_greyscale"
   ],
   "note": ""
  },
  {
   "property": "C35",
   "status": "proved",
   "theorems": [
    "Rqrr.C35_repaint",
    "Rqrr.C35_repaint_panics"
   ],
   "note": ""
  },
  {
   "property": "C36",
   "status": "proved",
   "theorems": [
    "Rqrr.C36_rows",
    "Rqrr.C36_area"
   ],
   "note": ""
  },
  {
   "property": "C37",
   "status": "proved",
   "theorems": [
    "Rqrr.C37_region_query",
    "Rqrr.C37_region_claim"
   ],
   "note": ""
  },
  {
   "property": "C38",
   "status": "proved",
   "theorems": [
    "Rqrr.C38_white",
    "Rqrr.C38_grid"
   ],
   "note": ""
  },
  {
   "property": "C39",
   "status": "proved",
   "theorems": [
    "Rqrr.C39_clone",
    "Rqrr.C39_same_answer"
   ],
   "note": ""
  },
  {
   "property": "C40",
   "status": "proved",
   "theorems": [
    "Rqrr.C40_candidates",
    "Rqrr.C40_ratio"
   ],
   "note": ""
  },
  {
   "property": "C41",
   "status": "proved",
   "theorems": [
    "Rqrr.C41_confirm"
   ],
   "note": ""
  },
  {
   "property": "C42",
   "status": "proved",
   "theorems": [
    "Rqrr.C42_first",
    "Rqrr.C42_corners",
    "Rqrr.C42_convex",
    "Rqrr.C42_leftmost"
   ],
   "note": ""
  },
  {
   "property": "C43",
   "status": "proved",
   "theorems": [
    "Rqrr.C43_line_scan"
   ],
   "note": ""
  },
  {
   "property": "C44",
   "status": "proved",
   "theorems": [
    "Rqrr.C44_intersection",
    "Rqrr.C44_overflow"
   ],
   "note": ""
  },
  {
   "property": "C45",
   "status": "proved",
   "theorems": [
    "Rqrr.C45_create",
    "Rqrr.C45_corners",
    "Rqrr.C45_corner_pixels",
    "Rqrr.C45_unmap_map",
    "Rqrr.C45_map_unmap",
    "Rqrr.C45_inside",
    "Rqrr.C45_center",
    "Rqrr.C45_degenerate_accepted"
   ],
   "note": ""
  },
  {
   "property": "C46",
   "status": "proved",
   "theorems": [
    "Rqrr.C46_size",
    "Rqrr.C46_version",
    "Rqrr.C46_version_zero",
    "Rqrr.C46_timing_scan",
    "Rqrr.C46_detected"
   ],
   "note": ""
  },
  {
   "property": "C47",
   "status": "proved",
   "theorems": [
    "Rqrr.C47_search",
    "Rqrr.C47_found",
    "Rqrr.C47_complete",
    "Rqrr.C47_stuck",
    "Rqrr.C47_estimate"
   ],
   "note": ""
  },
  {
   "property": "C48",
   "status": "proved",
   "theorems": [
    "Rqrr.C48_groups",
    "Rqrr.C48_neighbors",
    "Rqrr.C48_distinct"
   ],
   "note": ""
  },
  {
   "property": "C49",
   "status": "proved",
   "theorems": [
    "Rqrr.C49_never_worse",
    "Rqrr.C49_total",
    "Rqrr.C49_close",
    "Rqrr.C49_perspective",
    "Rqrr.C49_close_rounded",
    "Rqrr.C49_close_perspective"
   ],
   "note": ""
  },
  {
   "property": "C50",
   "status": "proved",
   "theorems": [
    "Rqrr.C50_clamped_sampling",
    "Rqrr.C50_never_out_of_bounds"
   ],
   "note": ""
  },
  {
   "property": "C51",
   "status": "proved",
   "theorems": [
    "Rqrr.C51_search",
    "Rqrr.C51_exact",
    "Rqrr.C51_centre",
    "Rqrr.C51_centres",
    "Rqrr.C51_zero_width"
   ],
   "note": ""
  },
  {
   "property": "C52",
   "status": "proved",
   "theorems": [
    "Rqrr.C52_rs_nearest"
   ],
   "note": ""
  },
  {
   "property": "C53",
   "status": "proved",
   "theorems": [
    "Rqrr.C53_long_blocks_lose_an_error"
   ],
   "note": "Existential statement: a defect witness."
  },
  {
   "property": "C54",
   "status": "proved",
   "theorems": [
    "Rqrr.C54_every_message_has_a_symbol",
    "Rqrr.C54_every_string"
   ],
   "note": ""
  },
  {
   "property": "C55",
   "status": "proved",
   "theorems": [
    "Rqrr.C55_narrow_images"
   ],
   "note": ""
  },
  {
   "property": "C56",
   "status": "proved",
   "theorems": [
    "Rqrr.C56_fitness"
   ],
   "note": ""
  },
  {
   "property": "C57",
   "status": "proved",
   "theorems": [
    "Rqrr.C57_detected",
    "Rqrr.C57_decoded",
    "Rqrr.C57_message"
   ],
   "note": "For every correctly rounded arithmetic, binary64 included; the condition that nothing else looks like a finder pattern is a hypothesis (C60 turns it into one on the matrix), checked by computation in the example."
  },
  {
   "property": "C58",
   "status": "proved",
   "theorems": [
    "Rqrr.C58_dark_pixels_become_black",
    "Rqrr.C58_bilevel",
    "Rqrr.C58_message"
   ],
   "note": "A sufficient condition; C32 and C55 give conditions for white."
  },
  {
   "property": "C59",
   "status": "proved",
   "theorems": [
    "Rqrr.C59_overflow",
    "Rqrr.C59_iff"
   ],
   "note": "Checked builds (debug, tests); unchecked builds wrap around."
  },
  {
   "property": "C60",
   "status": "proved",
   "theorems": [
    "Rqrr.C60_nothing_mistaken",
    "Rqrr.C60_message"
   ],
   "note": "For every correctly rounded arithmetic, binary64 included."
  },
  {
   "property": "C61",
   "status": "proved",
   "theorems": [
    "Rqrr.C61_nearest",
    "Rqrr.C61_transform"
   ],
   "note": "About the model of binary64 in Model/Binary64 and Model/Double."
  },
  {
   "property": "C62",
   "status": "proved",
   "theorems": [
    "Rqrr.C62_ranking",
    "Rqrr.C62_distinct",
    "Rqrr.C62_laws"
   ],
   "note": "About the model of binary64 in Model/Binary64 and Model/Double."
  },
  {
   "property": "C63",
   "status": "proved",
   "theorems": [
    "Rqrr.C63_decode",
    "Rqrr.C63_detection",
    "Rqrr.C63_read",
    "Rqrr.C63_pipeline"
   ],
   "note": "Panics are allowed by the statement (integer overflow, failed assertions: C44, C46, C59); divergence is not."
  },
  {
   "property": "C64",
   "status": "proved",
   "theorems": [
    "Rqrr.C64_damaged",
    "Rqrr.C64_mirrored",
    "Rqrr.C64_mirrored_format",
    "Rqrr.C64_two_readings"
   ],
   "note": "Finder, timing and alignment patterns and separators are assumed intact, as in C57."
  },
  {
   "property": "C65",
   "status": "proved",
   "theorems": [
    "Rqrr.C65_detected",
    "Rqrr.C65_count",
    "Rqrr.C65_decoded",
    "Rqrr.C65_nothing_mistaken",
    "Rqrr.C65_bitmap",
    "Rqrr.C65_messages",
    "Rqrr.C65_row"
   ],
   "note": "The condition on false corners is a hypothesis on the places of the finder patterns, decidable for given places and proved for symbols side by side."
  },
  {
   "property": "C66",
   "status": "proved",
   "theorems": [
    "Rqrr.C66_grid_picture",
    "Rqrr.C66_round_trip",
    "Rqrr.C66_state_picture",
    "Rqrr.C66_messages"
   ],
   "note": "Up to the call of save; encoding and writing the file are not modelled."
  },
  {
   "property": "C67",
   "status": "proved",
   "theorems": [
    "Rqrr.C67_nothing_mistaken",
    "Rqrr.C67_detected",
    "Rqrr.C67_bitmap",
    "Rqrr.C67_message",
    "Rqrr.C67_messages"
   ],
   "note": "No condition on the message or the matrix beyond the function patterns; for several symbols the condition on false corners of C65 remains."
  },
  {
   "property": "C68",
   "status": "proved",
   "theorems": [
    "Rqrr.C68_cut_off",
    "Rqrr.C68_rotation",
    "Rqrr.C68_proper",
    "Rqrr.C68_found"
   ],
   "note": "C68_cut_off is an existence statement about one image (a counterexample to \"detect_grids does not panic\"), by kernel evaluation."
  },
  {
   "property": "C69",
   "status": "proved",
   "theorems": [
    "Rqrr.C69_capstones",
    "Rqrr.C69_grids",
    "Rqrr.C69_none",
    "Rqrr.C69_narrow",
    "Rqrr.C69_two"
   ],
   "note": "Unconditional for n at most two. Sides up to 32768, at least one column (C51_zero_width shows the latter is needed)."
  },
  {
   "property": "C70",
   "status": "proved",
   "theorems": [
    "Rqrr.C70_no_changes",
    "Rqrr.C70_measure",
    "Rqrr.C70_group",
    "Rqrr.C70_detected"
   ],
   "note": "C70_measure and C70_group for every correctly rounded arithmetic, C70_detected for double precision. C70_no_changes is an existence statement: the image is evaluated in the kernel."
  },
  {
   "property": "C71",
   "status": "proved",
   "theorems": [
    "Rqrr.C71_prepare",
    "Rqrr.C71_detection",
    "Rqrr.C71_pipeline"
   ],
   "note": "Simulation of the model with one buffer by the model with another (Proofs/Simulation.lean). Termination and absence of out-of-range accesses (C63, C50) make the outcome independent of what the buffers do outside."
  },
  {
   "property": "C72",
   "status": "proved",
   "theorems": [
    "Rqrr.C72_detected",
    "Rqrr.C72_overflow",
    "Rqrr.C72_decoded",
    "Rqrr.C72_message"
   ],
   "note": "For every correctly rounded arithmetic, binary64 included. That nothing else looks like a finder pattern is a hypothesis, checked by computation in the example. At least seven pixels per module in each direction are assumed."
  },
  {
   "property": "C73",
   "status": "proved",
   "theorems": [
    "Rqrr.C73_threshold",
    "Rqrr.C73_contrast",
    "Rqrr.C73_two_tones",
    "Rqrr.C73_margins",
    "Rqrr.C73_message"
   ],
   "note": "The gap of two levels covers the rounding of the running sums. C58 gives an older, cruder condition for black on white drawings."
  },
  {
   "property": "C74",
   "status": "proved",
   "theorems": [
    "Rqrr.C74_decodes_nearest",
    "Rqrr.C74_undamaged_exists",
    "Rqrr.C74_string"
   ],
   "note": "Converse of C26. Version 21 is left out because its alignment positions in the code are not those of ISO 18004 (see C09, C76)."
  },
  {
   "property": "C75",
   "status": "proved",
   "theorems": [
    "Rqrr.C75_meaning",
    "Rqrr.C75_unique",
    "Rqrr.C75_grid",
    "Rqrr.C75_large_group",
    "Rqrr.C75_cut_count"
   ],
   "note": "Converse of C14 to C20. Stated for the writer that appends to a vector; C21 relates other writers to it."
  },
  {
   "property": "C76",
   "status": "proved",
   "theorems": [
    "Rqrr.C76_modules",
    "Rqrr.C76_decodes",
    "Rqrr.C76_spare",
    "Rqrr.C76_every_message",
    "Rqrr.C76_nothing_to_spare"
   ],
   "note": "Complements C09, C26 and C54 for the version they leave out. C76_nothing_to_spare is also an instance of the hypotheses of C76_spare; it runs the modelled block correction once in the kernel."
  },
  {
   "property": "C77",
   "status": "proved",
   "theorems": [
    "Rqrr.C77_again",
    "Rqrr.C77_grids",
    "Rqrr.C77_clone_before",
    "Rqrr.C77_message"
   ],
   "note": "detect_grids that panics the first time is not covered: what is left of the image after a caught panic is not modelled"
  },
  {
   "property": "C78",
   "status": "proved",
   "theorems": [
    "Rqrr.C78_horizon",
    "Rqrr.C78_condition"
   ],
   "note": ""
  },
  {
   "property": "C79",
   "status": "proved",
   "theorems": [
    "Rqrr.C79_bounds",
    "Rqrr.C79_inside",
    "Rqrr.C79_modules",
    "Rqrr.C79_visible"
   ],
   "note": ""
  }
 ]
}