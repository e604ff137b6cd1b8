{
 "claims": [
  {
   "property": "C01",
   "status": "proved",
   "theorems": [
    "Pdfer.Props.C01_asciihex_roundtrip",
    "Pdfer.Props.C01_asciihex_length"
   ],
   "note": "round trip, length and terminator for every byte string"
  },
  {
   "property": "C02",
   "status": "proved",
   "theorems": [
    "Pdfer.Props.C02_ascii85_roundtrip"
   ],
   "note": "for every byte string, with uint32 wrap-around modelled"
  },
  {
   "property": "C03",
   "status": "proved",
   "theorems": [
    "Pdfer.Props.C03_runlength_roundtrip"
   ],
   "note": "for every byte string"
  },
  {
   "property": "C04",
   "status": "proved",
   "theorems": [
    "Pdfer.Props.C04_asciihex_exact",
    "Pdfer.Props.C04_asciihex_rejects",
    "Pdfer.Props.C04_asciihex_blind_after_end"
   ],
   "note": "decoder = independent specification, exact rejection set, blind after '>'"
  },
  {
   "property": "C05",
   "status": "proved",
   "theorems": [
    "Pdfer.Props.C05_runlength_exact",
    "Pdfer.Props.C05_runlength_rejects",
    "Pdfer.Props.C05_runlength_bounded",
    "Pdfer.Props.C05_runlength_blind_after_eod"
   ],
   "note": "decoder = ISO run relation, exact failure set, bound, blind after EOD"
  },
  {
   "property": "C06",
   "status": "proved",
   "theorems": [
    "Pdfer.Props.C06_ascii85_exact",
    "Pdfer.Props.C06_ascii85_bounded",
    "Pdfer.Props.C06_ascii85_rejects",
    "Pdfer.Props.C06_ascii85_blind_after_end"
   ],
   "note": "decoder = group relation (groups above 2^32-1 wrap, as in the code); blindness needs the text before ~> not to be the single byte '<', since the code takes '<~>' for an opening marker"
  },
  {
   "property": "C07",
   "status": "proved",
   "theorems": [
    "Pdfer.Props.C07_fresh_numbers",
    "Pdfer.Props.C07_add_never_overwrites",
    "Pdfer.Props.C07_handed_out_distinct"
   ],
   "note": "invariant over all histories of API calls, including Write"
  },
  {
   "property": "C08",
   "status": "proved",
   "theorems": [
    "Pdfer.Props.C08_reads_last_write",
    "Pdfer.Props.C08_unknown_number_is_error"
   ],
   "note": "for every number in play; for all numbers when object streams are never enabled"
  },
  {
   "property": "C09",
   "status": "proved",
   "theorems": [
    "Pdfer.Props.C09_offsets_exact"
   ],
   "note": "table mode, byte for byte; entry width 20 needs the file below 10^10 bytes"
  },
  {
   "property": "C10",
   "status": "proved",
   "theorems": [
    "Pdfer.Props.C10_free_entries",
    "Pdfer.Props.C10_size_is_max_plus_one",
    "Pdfer.Props.C10_object_zero_violated"
   ],
   "note": "table mode; a user object stored under number 0 is not referenced (C10_object_zero_violated)"
  },
  {
   "property": "C11",
   "status": "partial",
   "theorems": [
    "Pdfer.Props.C11_stream_length_partial",
    "Pdfer.Props.C11_shared_dictionary_violated",
    "Pdfer.Props.C11_slash_length_violated"
   ],
   "note": "holds when dictionaries are not shared and have no literal /Length key; both exceptions are proved to break it"
  },
  {
   "property": "C12",
   "status": "partial",
   "theorems": [
    "Pdfer.Props.C12_table_readback_partial",
    "Pdfer.Props.C12_window_violated",
    "Pdfer.Props.C12_large_document_violated"
   ],
   "note": "holds while the table plus trailer fits in the reader's 10000-byte window; violated for large documents"
  },
  {
   "property": "C13",
   "status": "partial",
   "theorems": [
    "Pdfer.Props.C13_dictionary_deterministic",
    "Pdfer.Props.C13_dictionary_map_order",
    "Pdfer.Props.C13_write_deterministic",
    "Pdfer.Props.C13_object_streams_violated"
   ],
   "note": "dictionaries and writes without object streams are deterministic; object streams follow the map order (violated)"
  },
  {
   "property": "C14",
   "status": "partial",
   "theorems": [
    "Pdfer.Props.C14_write_twice_partial",
    "Pdfer.Props.C14_xref_stream_violated"
   ],
   "note": "table mode without encryption; violated in cross-reference-stream mode"
  },
  {
   "property": "C15",
   "status": "proved",
   "theorems": [
    "Pdfer.Props.C15_xref_stream_readback",
    "Pdfer.Props.C15_compressed_entries"
   ],
   "note": "for every history; assumes the compressed bytes do not contain the words the reader searches for textually (endstream, /Index, /DecodeParms), and a zlib-like codec"
  },
  {
   "property": "C16",
   "status": "partial",
   "theorems": [
    "Pdfer.Props.C16_read_back_violated",
    "Pdfer.Props.C16_last_object_lost_violated",
    "Pdfer.Props.C16_conforming_read_back_partial",
    "Pdfer.Props.C16_table_mode_loses_objects_violated"
   ],
   "note": "violated for every object stream this library writes (offsets too large by the header); holds for ISO-conforming object streams"
  },
  {
   "property": "C17",
   "status": "partial",
   "theorems": [
    "Pdfer.Props.C17_first_too_large_violated",
    "Pdfer.Props.C17_decreasing_offsets_violated",
    "Pdfer.Props.C17_panic_iff",
    "Pdfer.Props.C17_no_panic_partial"
   ],
   "note": "violated (panic); exact panic condition proved; no panic for well-formed headers"
  },
  {
   "property": "C18",
   "status": "proved",
   "theorems": [
    "Pdfer.Props.C18_escape_faithful",
    "Pdfer.Props.C18_metadata_escape_faithful",
    "Pdfer.Props.C18_escapers_agree",
    "Pdfer.Props.C18_not_utf8_violated"
   ],
   "note": "every text (valid UTF-8) and, for metadata, every byte string, against an ISO 32000 literal-string reader; bytes that are not UTF-8 are replaced (violated)"
  },
  {
   "property": "C19",
   "status": "partial",
   "theorems": [
    "Pdfer.Props.C19_unescape_escape",
    "Pdfer.Props.C19_survives_iff",
    "Pdfer.Props.C19_text_survives_partial",
    "Pdfer.Props.C19_backslash_violated",
    "Pdfer.Props.C19_octal_violated"
   ],
   "note": "exact effect and exact survival condition proved; violated for backslash followed by n/r/t"
  },
  {
   "property": "C20",
   "status": "partial",
   "theorems": [
    "Pdfer.Props.C20_metadata_readback_partial",
    "Pdfer.Props.C20_values_violated",
    "Pdfer.Props.C20_injection_violated"
   ],
   "note": "text fields read back whatever the other fields hold; violated for '/', ' R', ')'"
  },
  {
   "property": "C21",
   "status": "partial",
   "theorems": [
    "Pdfer.Props.C21_field_value_partial",
    "Pdfer.Props.C21_wraps_violated",
    "Pdfer.Props.C21_euro_violated"
   ],
   "note": "characters up to U+00FF; violated above"
  },
  {
   "property": "C22",
   "status": "partial",
   "theorems": [
    "Pdfer.Props.C22_name_partial",
    "Pdfer.Props.C22_collision_violated",
    "Pdfer.Props.C22_whitespace_violated"
   ],
   "note": "characters up to U+00FF except control white space; violated otherwise"
  },
  {
   "property": "C23",
   "status": "proved",
   "theorems": [
    "Pdfer.Props.C23_markers_are_occurrences",
    "Pdfer.Props.C23_range",
    "Pdfer.Props.C23_revision_is_prefix",
    "Pdfer.Props.C23_revision_of_revision",
    "Pdfer.Props.C23_revisions_grow",
    "Pdfer.Props.C23_last_revision_is_file"
   ],
   "note": "markers = occurrences of %%EOF; revisions are nested strictly growing prefixes with exactly k markers; range exact; last revision is the file when only EOLs follow"
  },
  {
   "property": "C24",
   "status": "partial",
   "theorems": [
    "Pdfer.Props.C24_trailer_dictionary",
    "Pdfer.Props.C24_newest_trailer_partial",
    "Pdfer.Props.C24_newest_update_wins_partial",
    "Pdfer.Props.C24_sections",
    "Pdfer.Props.C24_stream_shadows_update_violated"
   ],
   "note": "proved end to end (Open/HasObject/GetObject) for every table-mode writer history followed by any list of table-style updates, under the reader's window and startxref side conditions; violated in general: an object stream entry of an older section shadows a newer direct object"
  },
  {
   "property": "C25",
   "status": "partial",
   "theorems": [
    "Pdfer.Props.C25_never_deleted_violated",
    "Pdfer.Props.C25_freed_object_violated"
   ],
   "note": "violated by the code: free entries never delete; concrete file and universal negation proved"
  },
  {
   "property": "C26",
   "status": "partial",
   "theorems": [
    "Pdfer.Props.C26_walk_terminates",
    "Pdfer.Props.C26_walk_follows_links_partial",
    "Pdfer.Props.C26_cycle_visited_twice_violated"
   ],
   "note": "termination, link order, stop condition proved for every file; 'no section twice' is violated for the section closing a cycle (witness), proved for all others"
  },
  {
   "property": "C27",
   "status": "partial",
   "theorems": [
    "Pdfer.Props.C27_document_bytes",
    "Pdfer.Props.C27_raw_object_exact",
    "Pdfer.Props.C27_revision_bytes",
    "Pdfer.Props.C27_revision_bytes_violated",
    "Pdfer.Props.C27_content"
   ],
   "note": "Every parsed document: Bytes is the input; every raw object is the slice of the input between its offsets, ends with the only endobj; dictionary and stream slices inside it; Content is the body without surrounding white space; RevisionBytes, when it returns, is the slice from the first object or the cross-reference data to the end of the revision; violated: RevisionBytes panics for a revision whose startxref points past its own end."
  },
  {
   "property": "C28",
   "status": "partial",
   "theorems": [
    "Pdfer.Props.C28_newest_revision",
    "Pdfer.Props.C28_queries_agree",
    "Pdfer.Props.C28_perfect_pdf_agrees",
    "Pdfer.Props.C28_revision_number_violated",
    "Pdfer.Props.C28_revision_lookup_partial"
   ],
   "note": "GetObject/AllObjects/ObjectCount/HasObject agree for every parsed document (proved). GetObjectInRevision indexes by position, so it is wrong after an unreadable revision (violated, witness); correct when none was skipped."
  },
  {
   "property": "C29",
   "status": "partial",
   "theorems": [
    "Pdfer.Props.C29_search_is_first_text",
    "Pdfer.Props.C29_suffix_number_violated",
    "Pdfer.Props.C29_wrong_object_violated",
    "Pdfer.Props.C29_ascending_file_partial",
    "Pdfer.Props.C29_linearized_violated",
    "Pdfer.Props.C29_window_violated",
    "Pdfer.Props.C29_written_partial"
   ],
   "note": "Proved: every object of a written file is returned whole by the stand-alone reader (after any history; table mode, one startxref, windows, delimitable bodies). Violated: '5 0 obj' found inside '15 0 obj' (universal and concrete); first startxref 0 makes every stand-alone lookup fail; 10000-byte window. Also proved for files with ascending objects whose contents do not contain ' 0 obj'."
  },
  {
   "property": "C30",
   "status": "partial",
   "theorems": [
    "Pdfer.Props.C30_whole_body_partial",
    "Pdfer.Props.C30_cut_at_endobj_violated",
    "Pdfer.Props.C30_stream_violated"
   ],
   "note": "Proved for bodies that keywords delimit; violated for bodies containing endobj (universal) and for streams (witnesses, including a panic)."
  },
  {
   "property": "C31",
   "status": "proved",
   "theorems": [
    "Pdfer.Props.C31_primitives",
    "Pdfer.Props.C31_user_password",
    "Pdfer.Props.C31_user_password_file"
   ],
   "note": "for every lawful choice of primitives; the real MD5/SHA-256/AES are shown lawful. Record level and file level."
  },
  {
   "property": "C32",
   "status": "partial",
   "theorems": [
    "Pdfer.Props.C32_owner_password_partial",
    "Pdfer.Props.C32_owner_password_file_partial"
   ],
   "note": "unless the owner password's check value collides with the user's (then the user branch is taken with the wrong key)."
  },
  {
   "property": "C33",
   "status": "partial",
   "theorems": [
    "Pdfer.Props.C33_wrong_password_violated",
    "Pdfer.Props.C33_accepts_iff_partial",
    "Pdfer.Props.C33_check_value_partial"
   ],
   "note": "violated at revision 5: concrete wrong password accepted (real primitives); exact acceptance condition proved; revisions 2-4 accept only on a matching check value."
  },
  {
   "property": "C34",
   "status": "partial",
   "theorems": [
    "Pdfer.Props.C34_stream_round_trip_partial",
    "Pdfer.Props.C34_setup_round_trip",
    "Pdfer.Props.C34_stream_object_partial",
    "Pdfer.Props.C34_rc4_not_encrypted_violated",
    "Pdfer.Props.C34_rc4_violated",
    "Pdfer.Props.C34_short_key_violated",
    "Pdfer.Props.C34_encrypted_file_partial"
   ],
   "note": "AES with keys of at least 11 bytes, also end to end for whole files written with a record and opened with it (C34_encrypted_file_partial); violated for V1/V2 (never encrypted, but RC4-decrypted) and for AES keys of 1-10 bytes."
  },
  {
   "property": "C35",
   "status": "partial",
   "theorems": [
    "Pdfer.Props.C35_doubled_password_violated",
    "Pdfer.Props.C35_same_files_violated",
    "Pdfer.Props.C35_distinct_partial",
    "Pdfer.Props.C35_revision5"
   ],
   "note": "violated: a password and its doubling are the same for revisions 2-4; equal-length passwords and revision 5 are distinguished."
  },
  {
   "property": "C36",
   "status": "partial",
   "theorems": [
    "Pdfer.Props.C36_rotations_partial",
    "Pdfer.Props.C36_full_turn_partial",
    "Pdfer.Props.C36_other_angles",
    "Pdfer.Props.C36_compact_violated",
    "Pdfer.Props.C36_inherited_violated"
   ],
   "note": "any sequence of rotations, every starting value, for pages that state their rotation themselves in a recognisable way or not at all; violated for `/Rotate 270/Next` (number not recognised) and for inherited rotations"
  },
  {
   "property": "C37",
   "status": "proved",
   "theorems": [
    "Pdfer.Props.C37_ranges_cover",
    "Pdfer.Props.C37_range_sizes",
    "Pdfer.Props.C37_ranges_valid",
    "Pdfer.Props.C37_rejects"
   ],
   "note": "ranges of SplitPDFByPageCount for every total and page count; the documents made from the ranges are C63"
  },
  {
   "property": "C38",
   "status": "partial",
   "theorems": [
    "Pdfer.Props.C38_kids_left_partial",
    "Pdfer.Props.C38_delete_partial",
    "Pdfer.Props.C38_delete_count_first_partial",
    "Pdfer.Props.C38_count_violated",
    "Pdfer.Props.C38_suffix_violated",
    "Pdfer.Props.C38_spaced_violated",
    "Pdfer.Props.C38_next_key_violated",
    "Pdfer.Props.C38_ancestor_violated",
    "Pdfer.Props.C38_numbering_fixed"
   ],
   "note": "exact effect on the parent's text proved for `/Kids[` in both key orders; the property is violated: /Count goes down by two, numbers ending with the deleted digits go too, `/Kids [` leaves garbage, a key right after the count is destroyed, ancestors' counts are not adjusted"
  },
  {
   "property": "C39",
   "status": "partial",
   "theorems": [
    "Pdfer.Props.C39_numbers_distinct",
    "Pdfer.Props.C39_references_partial",
    "Pdfer.Props.C39_page_order_partial",
    "Pdfer.Props.C39_mutual_violated",
    "Pdfer.Props.C39_cross_file_violated",
    "Pdfer.Props.C39_order_violated"
   ],
   "note": "distinct numbering proved for all inputs and visit orders, exact reference map proved; violated: references to objects visited later keep their old number, hence for every order one of two mutually referring objects is wrong; page order follows Go's map order"
  },
  {
   "property": "C40",
   "status": "partial",
   "theorems": [
    "Pdfer.Props.C40_pages_in_order_partial",
    "Pdfer.Props.C40_extract_pages_in_order_partial",
    "Pdfer.Props.C40_spaced_kids_violated",
    "Pdfer.Props.C40_page_type_violated",
    "Pdfer.Props.C40_mixed_violated",
    "Pdfer.Props.C40_cycle_violated",
    "Pdfer.Props.C40_extract_cycle_violated"
   ],
   "note": "left-to-right leaves for every page tree whose texts are recognisable, both enumerations; violated for spaced kids (extraction), mixed /Type spellings, and cyclic trees (never terminates)"
  },
  {
   "property": "C41",
   "status": "proved",
   "theorems": [
    "Pdfer.Props.C41_longest_common_subsequence",
    "Pdfer.Props.C41_elements",
    "Pdfer.Props.C41_equal_lists"
   ],
   "note": "for every notion of equality, unbounded lists"
  },
  {
   "property": "C42",
   "status": "proved",
   "theorems": [
    "Pdfer.Props.C42_diff_explains_both",
    "Pdfer.Props.C42_order",
    "Pdfer.Props.C42_nothing_common_left"
   ],
   "note": "accounting with multiplicity (List.Perm), order of removed/added, nothing equal left on both sides"
  },
  {
   "property": "C43",
   "status": "proved",
   "theorems": [
    "Pdfer.Props.C43_accounts_for_everything",
    "Pdfer.Props.C43_counts"
   ],
   "note": "all granularities, sensitivities, tolerances and move settings"
  },
  {
   "property": "C44",
   "status": "partial",
   "theorems": [
    "Pdfer.Props.C44_text_partial",
    "Pdfer.Props.C44_tolerance_zero_violated",
    "Pdfer.Props.C44_keyed_iff",
    "Pdfer.Props.C44_duplicate_graphics_violated",
    "Pdfer.Props.C44_images",
    "Pdfer.Props.C44_metadata",
    "Pdfer.Props.C44_form",
    "Pdfer.Props.C44_page_iff",
    "Pdfer.Props.C44_document_iff"
   ],
   "note": "holds with positive tolerance and distinct graphics/annotations (iff); violated for tolerance <= 0 and for coinciding graphics or annotations"
  },
  {
   "property": "C45",
   "status": "partial",
   "theorems": [
    "Pdfer.Props.C45_exact_partial",
    "Pdfer.Props.C45_modified_exact",
    "Pdfer.Props.C45_printed_alike_violated",
    "Pdfer.Props.C45_other_types",
    "Pdfer.Props.C45_empty_form_violated"
   ],
   "note": "exact up to printed values; exact for values of the same simple kind; violated for values of different kinds printed alike, lists, and an empty form against none"
  },
  {
   "property": "C46",
   "status": "proved",
   "theorems": [
    "Pdfer.Props.C46_ratio_range",
    "Pdfer.Props.C46_ratio_zero_iff",
    "Pdfer.Props.C46_normalise",
    "Pdfer.Props.C46_word_bytes",
    "Pdfer.Props.C46_words"
   ],
   "note": "range, zero iff equal, normalisation meets its specification and is idempotent, words are the maximal runs"
  },
  {
   "property": "C47",
   "status": "partial",
   "theorems": [
    "Pdfer.Props.C47_history",
    "Pdfer.Props.C47_count",
    "Pdfer.Props.C47_filters",
    "Pdfer.Props.C47_returned_list_partial",
    "Pdfer.Props.C47_clear_overwrites_violated"
   ],
   "note": "exact contents, counts and filters for every history and every growth policy; the list Warnings() returned keeps its content only until Clear (C47_clear_overwrites_violated), so only the stability half is partial"
  },
  {
   "property": "C48",
   "status": "partial",
   "theorems": [
    "Pdfer.Props.C48_find_sound",
    "Pdfer.Props.C48_find_none",
    "Pdfer.Props.C48_lookup_partial",
    "Pdfer.Props.C48_validate",
    "Pdfer.Props.C48_validate_field",
    "Pdfer.Props.C48_depth_violated",
    "Pdfer.Props.C48_partial_name_violated",
    "Pdfer.Props.C48_required_partial_violated",
    "Pdfer.Props.C48_maxlen_bytes_violated",
    "Pdfer.Props.C48_nil_violated",
    "Pdfer.Props.C48_values",
    "Pdfer.Props.C48_values_depth_violated"
   ],
   "note": "Soundness and completeness of the lookup on two levels, of the validation rule and of GetFieldValues are proved; violated for fields below the second level, for partial names, required kids given by partial name, non-ASCII MaxLen and nil values."
  },
  {
   "property": "C49",
   "status": "partial",
   "theorems": [
    "Pdfer.Props.C49_value_replaced_partial",
    "Pdfer.Props.C49_value_added_partial",
    "Pdfer.Props.C49_replace_exact",
    "Pdfer.Props.C49_positions_partial",
    "Pdfer.Props.C49_offsets_violated",
    "Pdfer.Props.C49_nested_violated",
    "Pdfer.Props.C49_wrong_object_violated",
    "Pdfer.Props.C49_dollar_violated",
    "Pdfer.Props.C49_refill_violated",
    "Pdfer.Props.C49_name_violated",
    "Pdfer.Props.C49_second_entry_violated"
   ],
   "note": "Exact effect of SetFieldValue / ReplaceFieldObject proved; the claim itself is violated (offsets of later objects and startxref are not updated, object nested in itself, wrong object by suffix match, $ in values, hexadecimal and name values)."
  },
  {
   "property": "C50",
   "status": "partial",
   "theorems": [
    "Pdfer.Props.C50_pieces_partial",
    "Pdfer.Props.C50_header_lost_violated",
    "Pdfer.Props.C50_order_violated"
   ],
   "note": "The header and data computed are right for every conforming stream; violated for what is stored (header dropped) and for streams listing objects out of order."
  },
  {
   "property": "C51",
   "status": "partial",
   "theorems": [
    "Pdfer.Props.C51_char_unique",
    "Pdfer.Props.C51_decode_partial",
    "Pdfer.Props.C51_hex_brackets",
    "Pdfer.Props.C51_hex_partial",
    "Pdfer.Props.C51_hex2_partial",
    "Pdfer.Props.C51_base_bytes",
    "Pdfer.Props.C51_literal_two_bytes_violated",
    "Pdfer.Props.C51_small_codes_violated",
    "Pdfer.Props.C51_tab_violated"
   ],
   "note": "Decode proved for every decoder and byte string; hexadecimal strings agree with it for one-byte fonts, and give one character per two-byte code for two-byte fonts. Violated: literal strings of two-byte fonts are decoded byte by byte, two-byte fonts whose codes are all below 256 are taken for one-byte fonts, tabs inside hexadecimal strings shift the digits."
  },
  {
   "property": "C52",
   "status": "proved",
   "theorems": [
    "Pdfer.Props.C52_subset",
    "Pdfer.Props.C52_subset_grows",
    "Pdfer.Props.C52_glyphs",
    "Pdfer.Props.C52_glyphs_deterministic"
   ],
   "note": "Over all histories of AddRune/AddString, all fonts and all map visiting orders; unicode.IsPrint is a parameter."
  },
  {
   "property": "C53",
   "status": "partial",
   "theorems": [
    "Pdfer.Props.C53_width_missing",
    "Pdfer.Props.C53_format4_terminates",
    "Pdfer.Props.C53_format12_terminates_iff",
    "Pdfer.Props.C53_format12_terminates_partial",
    "Pdfer.Props.C53_terminates_violated",
    "Pdfer.Props.C53_width_partial",
    "Pdfer.Props.C53_width_wraps_violated",
    "Pdfer.Props.C53_width_short_hmtx_violated"
   ],
   "note": "Format 4 always terminates; format 12 terminates iff no group runs to 0xFFFFFFFF (a font that hangs GetSubsetGlyphs is given). Widths are right for glyphs < 16384 with an own hmtx entry; glyphs >= 16384 wrap around, glyphs behind numberOfHMetrics get side bearings (violations proved)."
  },
  {
   "property": "C54",
   "status": "partial",
   "theorems": [
    "Pdfer.Props.C54_inserted_partial",
    "Pdfer.Props.C54_catalog_rewritten_violated",
    "Pdfer.Props.C54_second_write_same_partial"
   ],
   "note": "Proved: for a catalog without /Type or /Pages the /Outlines entry is inserted and every other byte and object is kept; a second Write changes nothing. Violated (universal theorem): every ordinary catalog (/Type and a /Pages reference) is replaced by one with only /Outlines, /Pages and /Type, and /Pages becomes a string."
  },
  {
   "property": "C55",
   "status": "partial",
   "theorems": [
    "Pdfer.Props.C55_predictor_inverse_partial",
    "Pdfer.Props.C55_average_paeth_violated"
   ],
   "note": "filter types None/Sub/Up inverted for all rows; Average/Paeth passed through (violated)"
  },
  {
   "property": "C56",
   "status": "partial",
   "theorems": [
    "Pdfer.Props.C56_write_open_get_partial"
   ],
   "note": "table mode, table within the 10000-byte window, bodies delimitable by keyword search"
  },
  {
   "property": "C57",
   "status": "partial",
   "theorems": [
    "Pdfer.Props.C57_identical_means_partial",
    "Pdfer.Props.C57_identical_forms",
    "Pdfer.Props.C57_page_numbers",
    "Pdfer.Props.C57_contents_not_compared_violated",
    "Pdfer.Props.C57_keyed_exact",
    "Pdfer.Props.C57_image_data"
   ],
   "note": "what Identical guarantees is proved; violated for attributes of graphics/annotations that are not part of the key and for duplicates"
  },
  {
   "property": "C58",
   "status": "proved",
   "theorems": [
    "Pdfer.Props.C58_images_accounted"
   ],
   "note": "accounting with multiplicity"
  },
  {
   "property": "C59",
   "status": "partial",
   "theorems": [
    "Pdfer.Props.C59_padding_violated",
    "Pdfer.Props.C59_conforming_file_violated",
    "Pdfer.Props.C59_padding_partial"
   ],
   "note": "violated: padding differs for every password of 1-31 bytes not starting with '('; a conforming R2 file is rejected (real primitives). Right for empty and >=32-byte passwords."
  },
  {
   "property": "C60",
   "status": "partial",
   "theorems": [
    "Pdfer.Props.C60_crash_iff",
    "Pdfer.Props.C60_crash_violated",
    "Pdfer.Props.C60_no_crash_partial",
    "Pdfer.Props.C60_decrypt_crash_violated"
   ],
   "note": "crash condition characterised exactly; crashing file exhibited; no crash when the key length is within the derived key."
  },
  {
   "property": "C61",
   "status": "proved",
   "theorems": [
    "Pdfer.Props.C61_dictionary_round_trip"
   ],
   "note": "for records within the integer ranges and dictionaries of at most 2000 bytes (the parser's window)."
  },
  {
   "property": "C62",
   "status": "partial",
   "theorems": [
    "Pdfer.Props.C62_plain_object_partial",
    "Pdfer.Props.C62_fifteen_bytes_violated"
   ],
   "note": "violated for content of 15 bytes (comes back empty); proved when (length+1) is not a multiple of 16."
  },
  {
   "property": "C63",
   "status": "partial",
   "theorems": [
    "Pdfer.Props.C63_dependencies_violated",
    "Pdfer.Props.C63_old_parent_violated",
    "Pdfer.Props.C63_page_one_violated",
    "Pdfer.Props.C63_range_checked",
    "Pdfer.Props.C63_selection"
   ],
   "note": "range check and selection order proved; self-containedness violated for every page that refers to another object; old parent stays first; page object 1 overwritten"
  },
  {
   "property": "C64",
   "status": "partial",
   "theorems": [
    "Pdfer.Props.C64_objects_kept",
    "Pdfer.Props.C64_nested_header_violated"
   ],
   "note": "every object is handed over under its own number; violated: the text is wrapped in a second object header"
  },
  {
   "property": "C65",
   "status": "partial",
   "theorems": [
    "Pdfer.Props.C65_insert_partial",
    "Pdfer.Props.C65_spaced_violated",
    "Pdfer.Props.C65_nested_violated"
   ],
   "note": "position, order and count proved for `/Kids[` then `/Count`; violated for `/Kids [` and for nested page trees"
  },
  {
   "property": "C66",
   "status": "partial",
   "theorems": [
    "Pdfer.Props.C66_types",
    "Pdfer.Props.C66_buttons_violated",
    "Pdfer.Props.C66_own_fields"
   ],
   "note": "Tx/Ch/Sig and the library's own fields are right; every button field is misclassified for every flag word (bits off)."
  },
  {
   "property": "C67",
   "status": "partial",
   "theorems": [
    "Pdfer.Props.C67_field_partial",
    "Pdfer.Props.C67_form_partial",
    "Pdfer.Props.C67_escape_violated",
    "Pdfer.Props.C67_injection_violated",
    "Pdfer.Props.C67_option_violated",
    "Pdfer.Props.C67_document_partial"
   ],
   "note": "Proved for plain texts, from the builder through the written file to the parsed form; violated for escaped characters, texts that look like entries, ] in options."
  },
  {
   "property": "C68",
   "status": "partial",
   "theorems": [
    "Pdfer.Props.C68_added_partial",
    "Pdfer.Props.C68_form_once",
    "Pdfer.Props.C68_second_action_violated",
    "Pdfer.Props.C68_appearance_violated",
    "Pdfer.Props.C68_two_actions_violated",
    "Pdfer.Props.C68_dollar_violated"
   ],
   "note": "Proved for the first entry of each kind; violated for second actions, nested appearance dictionaries, $ in the URI."
  },
  {
   "property": "C69",
   "status": "partial",
   "theorems": [
    "Pdfer.Props.C69_terminates_iff",
    "Pdfer.Props.C69_deterministic",
    "Pdfer.Props.C69_tree",
    "Pdfer.Props.C69_error_iff",
    "Pdfer.Props.C69_cycle_violated",
    "Pdfer.Props.C69_self_violated"
   ],
   "note": "Parsing terminates exactly when no infinite chain of kids exists and then gives exactly the tree; violated (no termination) for cyclic fields."
  },
  {
   "property": "C71",
   "status": "partial",
   "theorems": [
    "Pdfer.Props.C71_subtable",
    "Pdfer.Props.C71_format4",
    "Pdfer.Props.C71_format12",
    "Pdfer.Props.C71_format12_overlap",
    "Pdfer.Props.C71_other_formats_violated",
    "Pdfer.Props.C71_reads_only_table_violated"
   ],
   "note": "Choice of the subtable, format 4 and format 12 proved for all conforming subtables. Violated: other formats are read as format 4; a format 4 table can read bytes outside the table."
  },
  {
   "property": "C72",
   "status": "partial",
   "theorems": [
    "Pdfer.Props.C72_widths",
    "Pdfer.Props.C72_parse_partial",
    "Pdfer.Props.C72_parse_small",
    "Pdfer.Props.C72_long_name_violated",
    "Pdfer.Props.C72_format12",
    "Pdfer.Props.C72_cmap_partial",
    "Pdfer.Props.C72_offset_violated",
    "Pdfer.Props.C72_format4_violated"
   ],
   "note": "ParseTTF does not panic when the name table is below 65536 bytes, format 12 never, parseCmap when the subtable and its arrays are inside the file; three crash witnesses proved, one a complete file for ParseTTF."
  },
  {
   "property": "C73",
   "status": "partial",
   "theorems": [
    "Pdfer.Props.C73_document_partial",
    "Pdfer.Props.C73_round_trip_partial",
    "Pdfer.Props.C73_no_character",
    "Pdfer.Props.C73_astral_violated",
    "Pdfer.Props.C73_order_violated",
    "Pdfer.Props.C73_shown_text_violated"
   ],
   "note": "Proved for injective character maps in the basic plane and every visiting order. Violated: characters outside the basic plane, two characters sharing a glyph (order dependent), text is shown with character bytes rather than glyph numbers."
  },
  {
   "property": "C74",
   "status": "partial",
   "theorems": [
    "Pdfer.Props.C74_map_partial",
    "Pdfer.Props.C74_array_violated",
    "Pdfer.Props.C74_surrogates_violated",
    "Pdfer.Props.C74_ligature_violated",
    "Pdfer.Props.C74_order_violated"
   ],
   "note": "Proved for every map of single codes, runs and arrays of one or two characters of the basic plane with any white space. Violated: arrays of three or more characters map extra codes, UTF-16 pairs, ligatures, order of sections."
  },
  {
   "property": "C75",
   "status": "partial",
   "theorems": [
    "Pdfer.Props.C75_differences_partial",
    "Pdfer.Props.C75_glyph_code",
    "Pdfer.Props.C75_no_spaces_violated",
    "Pdfer.Props.C75_inline_base_violated",
    "Pdfer.Props.C75_six_digits_violated"
   ],
   "note": "Proved for arrays with spaces between the elements and each code named once. Violated: names without spaces between them are lost, base encodings of inline encoding dictionaries are ignored, six-digit names."
  },
  {
   "property": "C76",
   "status": "partial",
   "theorems": [
    "Pdfer.Props.C76_texts_partial",
    "Pdfer.Props.C76_parenthesis_violated",
    "Pdfer.Props.C76_bracket_violated",
    "Pdfer.Props.C76_backslash_violated",
    "Pdfer.Props.C76_restore_violated",
    "Pdfer.Props.C76_name_violated"
   ],
   "note": "Proved for all call sequences whose shown texts have no ')' (no ']' in text arrays), no backslash before n, r, t, font names of word characters, and where restoring the state does not change text parameters; each of these limits is proved necessary by a violation theorem. Floating-point numbers are abstract; %.4f is instantiated with exact four-decimal numbers."
  },
  {
   "property": "C77",
   "status": "partial",
   "theorems": [
    "Pdfer.Props.C77_positions_partial",
    "Pdfer.Props.C77_two_objects_violated",
    "Pdfer.Props.C77_leading_violated",
    "Pdfer.Props.C77_next_line_violated",
    "Pdfer.Props.C77_scale_violated"
   ],
   "note": "Proved for calls that move by Td and translating Tm, with each text object starting at the origin or with Tm. Violations: second text object, T*, TD, ', scaled Tm."
  },
  {
   "property": "C78",
   "status": "partial",
   "theorems": [
    "Pdfer.Props.C78_shapes_partial",
    "Pdfer.Props.C78_gray_violated",
    "Pdfer.Props.C78_restore_violated"
   ],
   "note": "Proved without gray colours and where Q changes no colours or width; violations for both."
  },
  {
   "property": "C79",
   "status": "partial",
   "theorems": [
    "Pdfer.Props.C79_images_partial",
    "Pdfer.Props.C79_draw_image_at",
    "Pdfer.Props.C79_concat_violated"
   ],
   "note": "Proved where cm is only used on the unit matrix, and in full for any list of DrawImageAt; violation: cm replaces instead of multiplying."
  },
  {
   "property": "C83",
   "status": "partial",
   "theorems": [
    "Pdfer.Props.C83_aes_conforming",
    "Pdfer.Props.C83_rc4_conforming",
    "Pdfer.Props.C83_aes256_violated"
   ],
   "note": "RC4 (/V 1, 2) and AES-128 (/V 4) proved against an independent specification of Algorithm 1; violated for AES-256 (/V 5), where the code derives a key per object although the standard uses the file key itself (kernel-checked witness with the real MD5 and AES)."
  },
  {
   "property": "C80",
   "status": "partial",
   "theorems": [
    "Pdfer.Props.C80_builder_pages",
    "Pdfer.Props.C80_outline_tree_partial",
    "Pdfer.Props.C80_top_level_parent_violated",
    "Pdfer.Props.C80_destination_string_violated"
   ],
   "note": "Proved for every history and every bookmark forest: fresh distinct numbers, links, counts, frame; the page numbers a builder hands out are exactly its pages in order (C80_builder_pages). Violated: top-level items have no /Parent; page destinations are written as strings."
  },
  {
   "property": "C81",
   "status": "partial",
   "theorems": [
    "Pdfer.Props.C81_set_write_extract_partial",
    "Pdfer.Props.C81_shape",
    "Pdfer.Props.C81_bookmark_changed_violated"
   ],
   "note": "Proved end to end (SetBookmarks, Write, Open, ExtractBookmarks): exact result (readBackAll) and same nesting, for table mode, texts that cannot be taken for keys, delimitable objects. Violated: titles come back with a parenthesis in front, pages as 0, page destinations cut, links as /Type."
  },
  {
   "property": "C82",
   "status": "partial",
   "theorems": [
    "Pdfer.Props.C82_bound_irrelevant",
    "Pdfer.Props.C82_acyclic_terminates_partial",
    "Pdfer.Props.C82_cycle_never_finishes_violated",
    "Pdfer.Props.C82_written_title_never_finishes_violated"
   ],
   "note": "Proved: acyclic outlines terminate and the recursion bound in the model is irrelevant. Violated: any cycle never finishes; also for a file the library writes itself from a bookmark title."
  },
  {
   "property": "C70",
   "status": "partial",
   "theorems": [
    "Pdfer.Props.C70_nothing_reachable_violated",
    "Pdfer.Props.C70_pages_lost_violated",
    "Pdfer.Props.C70_compressed_lost_violated",
    "Pdfer.Props.C70_crash_violated",
    "Pdfer.Props.C70_table_found_partial",
    "Pdfer.Props.C70_offset_outside_violated",
    "Pdfer.Props.C70_stream_entries_partial",
    "Pdfer.Props.C70_free_entry_violated"
   ],
   "note": "Proved: a file that ends in a flat trailer dictionary, startxref and a readable table opens through the fall-back with exactly the table's entries. Violated by the code: for every file the /Root and /Info kept by the fall-back cannot be followed by the library, so no page, bookmark or metadata is reachable; compressed objects are never found; Open crashes on a file whose stream dictionary lies more than 500 bytes behind startxref."
  },
  {
   "property": "C84",
   "status": "proved",
   "theorems": [
    "Pdfer.Props.C84_built_document"
   ],
   "note": "For every history without the caller's own SetObject/SetStreamObject. Float formatting of the page size is a parameter (the printed text), map iteration order is a parameter."
  },
  {
   "property": "C85",
   "status": "partial",
   "theorems": [
    "Pdfer.Props.C85_built_document_reads_partial",
    "Pdfer.Props.C85_no_page_violated",
    "Pdfer.Props.C85_nothing_drawn_violated",
    "Pdfer.Props.C85_bookmarks_lose_pages_violated"
   ],
   "note": "Table mode, no encryption, resource names that are not keywords, at least one page, file fits the reader's windows. Violations proved: with no finalised page the tree is stored as object 0 and listing pages fails; a page with nothing drawn refers to an object that is no stream; setting bookmarks makes the page tree unreachable."
  },
  {
   "property": "C86",
   "status": "partial",
   "theorems": [
    "Pdfer.Props.C86_resource_names_partial",
    "Pdfer.Props.C86_right_after_call_partial",
    "Pdfer.Props.C86_font_named_like_resource_violated",
    "Pdfer.Props.C86_same_font_twice_violated",
    "Pdfer.Props.C86_names_reused_violated"
   ],
   "note": "Standard fonts not named F<n> and images without a name. Violations proved: a font named like a resource, the same font twice gives two names, names reused after a collision."
  },
  {
   "property": "C87",
   "status": "partial",
   "theorems": [
    "Pdfer.Props.C87_bytes_again_partial",
    "Pdfer.Props.C87_second_catalog_violated",
    "Pdfer.Props.C87_map_order_violated"
   ],
   "note": "The second Bytes has the same pages; violations proved: it adds a second catalog (different bytes), and map order changes the bytes."
  },
  {
   "property": "C88",
   "status": "partial",
   "theorems": [
    "Pdfer.Props.C88_jpeg_size_partial",
    "Pdfer.Props.C88_jpeg_terminates",
    "Pdfer.Props.C88_truncated_panics_violated",
    "Pdfer.Props.C88_fill_byte_violated",
    "Pdfer.Props.C88_other_frames_violated"
   ],
   "note": "SOF0-3, no fill bytes. Violations proved: truncated header panics, a fill byte hides the frame, other frame types are not recognised. Termination proved for every input."
  },
  {
   "property": "C89",
   "status": "partial",
   "theorems": [
    "Pdfer.Props.C89_opaque_pixels_partial",
    "Pdfer.Props.C89_gray_pixels_partial",
    "Pdfer.Props.C89_mask_stored",
    "Pdfer.Props.C89_translucent_darkened_violated",
    "Pdfer.Props.C89_transparency_dropped_violated"
   ],
   "note": "Opaque colour and gray images exact; mask stored. Violations proved: translucent pixels are stored premultiplied, 16-bit and paletted images lose their transparency. Image decoding (image/png) is not modelled."
  },
  {
   "property": "C90",
   "status": "partial",
   "theorems": [
    "Pdfer.Props.C90_watermark_balanced_partial",
    "Pdfer.Props.C90_text_place_partial",
    "Pdfer.Props.C90_image_place_partial",
    "Pdfer.Props.C90_default_options_violated",
    "Pdfer.Props.C90_failure_unbalanced_violated",
    "Pdfer.Props.C90_no_colour_panics_violated",
    "Pdfer.Props.C90_image_without_slash_violated",
    "Pdfer.Props.C90_image_name_with_slash_violated"
   ],
   "note": "On success balanced, one text or image. Violations proved: default options always fail, failure leaves the state saved, nil colour panics, image names with/without slash."
  },
  {
   "property": "C91",
   "status": "partial",
   "theorems": [
    "Pdfer.Props.C91_built_pages_partial",
    "Pdfer.Props.C91_apostrophe_violated",
    "Pdfer.Props.C91_utf8_violated",
    "Pdfer.Props.C91_rotate_name_violated"
   ],
   "note": "Standard fonts, free resource names, ASCII texts without quotation marks, table mode, the file fits the reader's windows. Violated: ' and ` come back as typographic quotes, non-ASCII texts come back as other characters, an image called Rotate rotates the page."
  },
  {
   "property": "C92",
   "status": "partial",
   "theorems": [
    "Pdfer.Props.C92_streams_in_order_partial",
    "Pdfer.Props.C92_spaced_array_violated",
    "Pdfer.Props.C92_state_not_carried_violated"
   ],
   "note": "Arrays directly behind /Contents. Violated for every page with white space before the array (nothing is found), and text state is not carried from stream to stream."
  },
  {
   "property": "C93",
   "status": "partial",
   "theorems": [
    "Pdfer.Props.C93_boxes_partial",
    "Pdfer.Props.C93_inherited_violated",
    "Pdfer.Props.C93_indirect_box_violated",
    "Pdfer.Props.C93_corners_violated"
   ],
   "note": "Own direct boxes and rotation. Violated: inherited attributes, indirect boxes, other corners."
  },
  {
   "property": "C94",
   "status": "partial",
   "theorems": [
    "Pdfer.Props.C94_annotations_partial",
    "Pdfer.Props.C94_no_crash_partial",
    "Pdfer.Props.C94_spaced_array_violated",
    "Pdfer.Props.C94_uri_crash_violated",
    "Pdfer.Props.C94_uri_action_violated",
    "Pdfer.Props.C94_contents_violated",
    "Pdfer.Props.C94_polyline_violated",
    "Pdfer.Props.C94_border_violated"
   ],
   "note": "Arrays directly behind /Annots, known kinds, rectangles and plain targets; no crash without /URI. Violated: white space before the array loses all annotations, crash on some targets, targets of standard actions lost, notes cut, PolyLine unknown."
  },
  {
   "property": "C95",
   "status": "partial",
   "theorems": [
    "Pdfer.Props.C95_image_data_partial",
    "Pdfer.Props.C95_jpeg_roundtrip",
    "Pdfer.Props.C95_same_name_violated",
    "Pdfer.Props.C95_indirect_length_violated",
    "Pdfer.Props.C95_length_crash_violated",
    "Pdfer.Props.C95_listed_partial",
    "Pdfer.Props.C95_only_images_partial"
   ],
   "note": "Image data exact when the length is direct; JPEG round trip for every accepted file. Violated: images with the same name on different pages, indirect lengths, crash on a huge length."
  },
  {
   "property": "C96",
   "status": "partial",
   "theorems": [
    "Pdfer.Props.C96_linked_partial",
    "Pdfer.Props.C96_length_violated",
    "Pdfer.Props.C96_cidsysteminfo_violated",
    "Pdfer.Props.C96_names_violated",
    "Pdfer.Props.C96_subset_violated"
   ],
   "note": "linking, freshness and frame proved for every history and font; false: two /Length entries (the first wrong), /CIDSystemInfo is a Go map's text, names are written unescaped, the whole font file is embedded without subsetting"
  },
  {
   "property": "C97",
   "status": "partial",
   "theorems": [
    "Pdfer.Props.C97_widths_partial",
    "Pdfer.Props.C97_letters_violated",
    "Pdfer.Props.C97_scale_violated",
    "Pdfer.Props.C97_codes_violated"
   ],
   "note": "widths are those of the listed glyphs, in list order; false as to codes: entries are by position in the glyph list, not by code, so letters get others' widths; division truncates"
  },
  {
   "property": "C98",
   "status": "partial",
   "theorems": [
    "Pdfer.Props.C98_named_encoding_partial",
    "Pdfer.Props.C98_default_encoding",
    "Pdfer.Props.C98_currency_violated",
    "Pdfer.Props.C98_symbol_violated"
   ],
   "note": "all codes of the three encodings with the exception of MacRoman 219; false: code 219 and fonts with built-in encodings (Symbol)"
  },
  {
   "property": "C99",
   "status": "partial",
   "theorems": [
    "Pdfer.Props.C99_names_partial",
    "Pdfer.Props.C99_unicode_platform_violated",
    "Pdfer.Props.C99_surrogates_violated",
    "Pdfer.Props.C99_macintosh_violated"
   ],
   "note": "Windows records, tables under 65536 bytes; false for Unicode-platform records, surrogate pairs and Macintosh-only fonts"
  },
  {
   "property": "C100",
   "status": "partial",
   "theorems": [
    "Pdfer.Props.C100_fields",
    "Pdfer.Props.C100_identifier",
    "Pdfer.Props.C100_unique_violated"
   ],
   "note": "Well-formed fields and identifiers for all inputs; the uniqueness half is false (C100_unique_violated: two names with the same letters share an identifier)."
  },
  {
   "property": "C101",
   "status": "partial",
   "theorems": [
    "Pdfer.Props.C101_template_partial",
    "Pdfer.Props.C101_caption_violated",
    "Pdfer.Props.C101_prefix_violated"
   ],
   "note": "Templates whose field elements are not nested and describe themselves by attributes and one value element; caption elements are ignored (C101_caption_violated) and a value begun before a field leaks (C101_prefix_violated)."
  },
  {
   "property": "C102",
   "status": "partial",
   "theorems": [
    "Pdfer.Props.C102_update_partial",
    "Pdfer.Props.C102_data_partial",
    "Pdfer.Props.C102_order_partial",
    "Pdfer.Props.C102_escape_violated",
    "Pdfer.Props.C102_nested_violated",
    "Pdfer.Props.C102_attribute_violated",
    "Pdfer.Props.C102_panic_violated"
   ],
   "note": "Flat fields whose name is their first attribute, values without markup, all map orders; escaping, nesting, other attribute orders and a crash are violated with witnesses."
  },
  {
   "property": "C103",
   "status": "partial",
   "theorems": [
    "Pdfer.Props.C103_replace_partial",
    "Pdfer.Props.C103_caller_violated",
    "Pdfer.Props.C103_tail_violated",
    "Pdfer.Props.C103_other_violated"
   ],
   "note": "New data that fits, or a slice without room; otherwise the tail is overwritten before it is copied (C103_tail_violated), the caller's bytes change (C103_caller_violated) and another object can be hit (C103_other_violated)."
  },
  {
   "property": "C104",
   "status": "partial",
   "theorems": [
    "Pdfer.Props.C104_extract_partial",
    "Pdfer.Props.C104_roundtrip_partial",
    "Pdfer.Props.C104_dropped_violated"
   ],
   "note": "Unencrypted, known names, data that does not itself decompress; signature and sourceSet are dropped (C104_dropped_violated)."
  },
  {
   "property": "C105",
   "status": "partial",
   "theorems": [
    "Pdfer.Props.C105_update_partial",
    "Pdfer.Props.C105_filter_violated",
    "Pdfer.Props.C105_offsets_violated",
    "Pdfer.Props.C105_longer_violated"
   ],
   "note": "Uncompressed datasets that fit; a compressed stream is replaced by plain XML under /FlateDecode, offsets go stale, a longer value destroys the file (violations with witnesses)."
  },
  {
   "property": "C106",
   "status": "partial",
   "theorems": [
    "Pdfer.Props.C106_stream_kept_partial",
    "Pdfer.Props.C106_kept_partial",
    "Pdfer.Props.C106_updated_partial",
    "Pdfer.Props.C106_root_partial",
    "Pdfer.Props.C106_crash_violated",
    "Pdfer.Props.C106_bracket_violated",
    "Pdfer.Props.C106_dictionary_violated",
    "Pdfer.Props.C106_ignored_violated"
   ],
   "note": "Non-stream objects outside object streams are kept, streams that are not updated keep their data and their numeric length, updated streams are written, the catalog is kept; dictionaries of streams are mangled, unknown streams dropped silently, two crashes (violations with witnesses)."
  },
  {
   "property": "C107",
   "status": "partial",
   "theorems": [
    "Pdfer.Props.C107_roundtrip_partial",
    "Pdfer.Props.C107_written",
    "Pdfer.Props.C107_nested_violated",
    "Pdfer.Props.C107_last_value",
    "Pdfer.Props.C107_values_violated",
    "Pdfer.Props.C107_reserved_violated"
   ],
   "note": "Proved for data of unambiguous values in groups without nested groups, for every order of the maps and every way the XML decoder delivers indentation (encoding/xml is a hypothesis on tokens). Violated: nested groups and all groups after them are lost, 0/1/numeric text/padded text change their kind, reserved group names."
  },
  {
   "property": "C108",
   "status": "proved",
   "theorems": [
    "Pdfer.Props.C108_agree"
   ],
   "note": "For every file, password and reader parameters: Extract returns a form exactly when Detect reports one, of that type."
  },
  {
   "property": "C109",
   "status": "partial",
   "theorems": [
    "Pdfer.Props.C109_built_partial",
    "Pdfer.Props.C109_acroform_partial",
    "Pdfer.Props.C109_xfa_violated",
    "Pdfer.Props.C109_groups_violated",
    "Pdfer.Props.C109_agrees"
   ],
   "note": "Built XFA files (conditions of C104 and C107) and built AcroForms (conditions of C67, first /AcroForm is the reference) are detected with their data; the unified form agrees with the form it wraps on every call (C109_agrees). Violated: Validate of an XFA form never reports anything; Fill ignores the wrapper; values in groups are not returned."
  },
  {
   "property": "C110",
   "status": "proved",
   "theorems": [
    "Pdfer.Props.C110_is",
    "Pdfer.Props.C110_wrap",
    "Pdfer.Props.C110_text"
   ],
   "note": "errors.Is is modelled on chains of any length; the context map is left out."
  },
  {
   "property": "C111",
   "status": "partial",
   "theorems": [
    "Pdfer.Props.C111_sound_partial",
    "Pdfer.Props.C111_wrapped_violated"
   ],
   "note": "Soundness proved; the converse is false for every wrapped error (proved)."
  },
  {
   "property": "C112",
   "status": "partial",
   "theorems": [
    "Pdfer.Props.C112_safe_partial",
    "Pdfer.Props.C112_read_partial",
    "Pdfer.Props.C112_seek",
    "Pdfer.Props.C112_origins",
    "Pdfer.Props.C112_peek_partial",
    "Pdfer.Props.C112_overflow_violated"
   ],
   "note": "Proved for all call sequences whose read/peek sizes do not overflow int64 with the data length; a read of MaxInt64 crashes (proved)."
  },
  {
   "property": "C113",
   "status": "partial",
   "theorems": [
    "Pdfer.Props.C113_offset_violated",
    "Pdfer.Props.C113_first_partial"
   ],
   "note": "The code fails on every right offset that follows white space (proved, with no condition on the object); proved positive only at offset 0. Parsing after the header is a parameter."
  },
  {
   "property": "C114",
   "status": "partial",
   "theorems": [
    "Pdfer.Props.C114_lost_violated",
    "Pdfer.Props.C114_tree_violated",
    "Pdfer.Props.C114_second_write_partial",
    "Pdfer.Props.C114_widgets_violated"
   ],
   "note": "False of the code: Bytes replaces the catalog that BuildForm wrote, so the form is lost in every history (C114_lost_violated); without Bytes the page tree is missing (C114_tree_violated); no page lists the widgets (C114_widgets_violated). Proved: the one order of calls that works for catalog, tree and fields."
  },
  {
   "property": "C115",
   "status": "partial",
   "theorems": [
    "Pdfer.Props.C115_written",
    "Pdfer.Props.C115_others",
    "Pdfer.Props.C115_rerun_violated",
    "Pdfer.Props.C115_counts",
    "Pdfer.Props.C115_count_violated"
   ],
   "note": "Proved: the files and content.json (C115_written), the counts as the code defines them, other files untouched. False: the image count is not that of the files written, and a second run into the same directory overwrites images under the earlier content.json."
  },
  {
   "property": "C116",
   "status": "proved",
   "theorems": [
    "Pdfer.Props.C116_crash"
   ],
   "note": "All crash points between and within writes; a write cut short leaves a prefix."
  },
  {
   "property": "C117",
   "status": "partial",
   "theorems": [
    "Pdfer.Props.C117_verdict",
    "Pdfer.Props.C117_listed_partial",
    "Pdfer.Props.C117_silent_violated"
   ],
   "note": "Proved: the verdict, and a line for each kind of difference that has one. False: eight metadata fields, object counts and modified or moved images are never reported (C117_silent_violated)."
  },
  {
   "property": "C118",
   "status": "partial",
   "theorems": [
    "Pdfer.Props.C118_success",
    "Pdfer.Props.C118_failure",
    "Pdfer.Props.C118_passwords_violated",
    "Pdfer.Props.C118_inplace_violated",
    "Pdfer.Props.C118_schema_violated"
   ],
   "note": "Proved: success means the update was written, failure leaves all files but the log alone. False: only four passwords are tried, filling in place is not crash safe, and -extract-schema reads the datasets stream, so its schema is empty for standard data."
  },
  {
   "property": "C119",
   "status": "partial",
   "theorems": [
    "Pdfer.Props.C119_roundtrip_partial",
    "Pdfer.Props.C119_rules_violated",
    "Pdfer.Props.C119_questions_violated"
   ],
   "note": "Proved: what SurvivesXFA lists, for every schema. False, for every schema: rules, description, version, option values, patterns and limits, page numbers, hidden on read-only fields, and the select type are lost."
  },
  {
   "property": "C120",
   "status": "partial",
   "theorems": [
    "Pdfer.Props.C120_no_crash",
    "Pdfer.Props.C120_ids",
    "Pdfer.Props.C120_ids_violated",
    "Pdfer.Props.C120_fields_partial",
    "Pdfer.Props.C120_nested_violated",
    "Pdfer.Props.C120_ui_violated",
    "Pdfer.Props.C120_caption_violated",
    "Pdfer.Props.C120_text_violated"
   ],
   "note": "Proved: no crash on any tokens, valid identifiers, all fields in order when subforms are not nested. False: nested subforms lose fields, ui types, captions, item texts and scripts are not read, identifiers are not unique."
  },
  {
   "property": "C121",
   "status": "partial",
   "theorems": [
    "Pdfer.Props.C121_exact_partial",
    "Pdfer.Props.C121_roundtrip_partial",
    "Pdfer.Props.C121_violated"
   ],
   "note": "exact effect for all sets with 64 bit precisions; equality without negative precisions and without holidays that are empty, padded or contain the word holiday; violated for a holiday named \"bank holiday\""
  },
  {
   "property": "C122",
   "status": "partial",
   "theorems": [
    "Pdfer.Props.C122_roundtrip_partial",
    "Pdfer.Props.C122_written",
    "Pdfer.Props.C122_violated"
   ],
   "note": "equality (up to map order) for properties with unpadded values and names outside the reader's own; writing fails exactly for nameless properties; violated for every data description with a property of a known name"
  },
  {
   "property": "C123",
   "status": "partial",
   "theorems": [
    "Pdfer.Props.C123_exact_partial",
    "Pdfer.Props.C123_roundtrip_partial",
    "Pdfer.Props.C123_violated",
    "Pdfer.Props.C123_submit",
    "Pdfer.Props.C123_setting"
   ],
   "note": "exact effect for all configurations whose properties are not named like sections; what each submit attribute and each setting is read as; equality for configurations with only what the reader knows; violated for every configuration with further properties or with validate, common or output settings"
  },
  {
   "property": "C124",
   "status": "partial",
   "theorems": [
    "Pdfer.Props.C124_exact_partial",
    "Pdfer.Props.C124_roundtrip_partial",
    "Pdfer.Props.C124_violated"
   ],
   "note": "exact effect for all stylesheets with distinct property names; equality for typed parts without negative numbers and values whose text says what they are; violated for every text that looks like a number"
  },
  {
   "property": "C125",
   "status": "proved",
   "theorems": [
    "Pdfer.Props.C125_config",
    "Pdfer.Props.C125_stylesheet"
   ],
   "note": "for every token list"
  },
  {
   "property": "C126",
   "status": "partial",
   "theorems": [
    "Pdfer.Props.C126_unknown",
    "Pdfer.Props.C126_success_partial",
    "Pdfer.Props.C126_built_partial",
    "Pdfer.Props.C126_two_fields_violated",
    "Pdfer.Props.C126_longer_table_violated",
    "Pdfer.Props.C126_reopen_violated",
    "Pdfer.Props.C126_invalid_data_violated",
    "Pdfer.Props.C126_stream_partial",
    "Pdfer.Props.C126_entries"
   ],
   "note": "success iff every known field could be read and replaced, for fields outside object streams; for fields in one object stream the rebuilt stream with every last text; the entry points agree (C126_entries); exact bytes for one field of a written file. Violated: a second field, or opening the result, crashes; invalid data is filled in"
  },
  {
   "property": "C127",
   "status": "partial",
   "theorems": [
    "Pdfer.Props.C127_questions_partial",
    "Pdfer.Props.C127_ids",
    "Pdfer.Props.C127_place",
    "Pdfer.Props.C127_kids_violated"
   ],
   "note": "top-level fields only: children have no questions (C127_kids_violated)"
  },
  {
   "property": "C128",
   "status": "proved",
   "theorems": [
    "Pdfer.Props.C128_value",
    "Pdfer.Props.C128_valid",
    "Pdfer.Props.C128_reported",
    "Pdfer.Props.C128_order"
   ],
   "note": "regexp and ParseFloat are parameters"
  },
  {
   "property": "C129",
   "status": "partial",
   "theorems": [
    "Pdfer.Props.C129_schema_accepts_partial",
    "Pdfer.Props.C129_weaker_violated"
   ],
   "note": "one direction, for flat forms with distinct names; the converse is violated"
  },
  {
   "property": "C130",
   "status": "partial",
   "theorems": [
    "Pdfer.Props.C130_delete_partial",
    "Pdfer.Props.C130_order_partial",
    "Pdfer.Props.C130_not_atomic_violated"
   ],
   "note": "trees of one node, under the conditions of C38; any order of the numbers. Violated: a failing call keeps what it deleted before"
  },
  {
   "property": "C131",
   "status": "partial",
   "theorems": [
    "Pdfer.Props.C131_rotate_all_partial",
    "Pdfer.Props.C131_listed_twice_violated"
   ],
   "note": "every tree; page texts under the conditions of C36, pages distinct. Violated for a page listed twice"
  },
  {
   "property": "C132",
   "status": "partial",
   "theorems": [
    "Pdfer.Props.C132_insert_partial",
    "Pdfer.Props.C132_range",
    "Pdfer.Props.C132_overwrites_violated",
    "Pdfer.Props.C132_second_insertion_violated"
   ],
   "note": "trees of one node, under the conditions of C65. Violated: numbers in use are overwritten; later calls do not count the new page"
  },
  {
   "property": "C133",
   "status": "proved",
   "theorems": [
    "Pdfer.Props.C133_record"
   ],
   "note": ""
  },
  {
   "property": "C134",
   "status": "proved",
   "theorems": [
    "Pdfer.Props.C134_queries"
   ],
   "note": ""
  },
  {
   "property": "C135",
   "status": "proved",
   "theorems": [
    "Pdfer.Props.C135_ends"
   ],
   "note": "The three loops named in the statement; other loops of the reader do not end on cyclic input (C40, C69, C82)."
  },
  {
   "property": "C136",
   "status": "proved",
   "theorems": [
    "Pdfer.Props.C136_numbers"
   ],
   "note": ""
  },
  {
   "property": "C137",
   "status": "proved",
   "theorems": [
    "Pdfer.Props.C137_selection"
   ],
   "note": ""
  },
  {
   "property": "C138",
   "status": "proved",
   "theorems": [
    "Pdfer.Props.C138_history"
   ],
   "note": ""
  },
  {
   "property": "C139",
   "status": "proved",
   "theorems": [
    "Pdfer.Props.C139_deterministic"
   ],
   "note": ""
  },
  {
   "property": "C140",
   "status": "proved",
   "theorems": [
    "Pdfer.Props.C140_setup"
   ],
   "note": "The primitives (AES, SHA-256, MD5) are parameters with their laws as hypotheses, instantiated by real implementations."
  },
  {
   "property": "C141",
   "status": "proved",
   "theorems": [
    "Pdfer.Props.C141_object_keys"
   ],
   "note": "AES-256 is the exception recorded in C83."
  },
  {
   "property": "C142",
   "status": "proved",
   "theorems": [
    "Pdfer.Props.C142_compare"
   ],
   "note": "Text, graphics and annotations are the subject of C44 and C57."
  },
  {
   "property": "C143",
   "status": "proved",
   "theorems": [
    "Pdfer.Props.C143_validate"
   ],
   "note": ""
  },
  {
   "property": "C144",
   "status": "proved",
   "theorems": [
    "Pdfer.Props.C144_replace"
   ],
   "note": "Offsets are not updated: see C49."
  },
  {
   "property": "C145",
   "status": "proved",
   "theorems": [
    "Pdfer.Props.C145_no_crash"
   ],
   "note": ""
  },
  {
   "property": "C146",
   "status": "proved",
   "theorems": [
    "Pdfer.Props.C146_no_crash"
   ],
   "note": ""
  },
  {
   "property": "C147",
   "status": "proved",
   "theorems": [
    "Pdfer.Props.C147_jpeg"
   ],
   "note": ""
  },
  {
   "property": "C148",
   "status": "proved",
   "theorems": [
    "Pdfer.Props.C148_status"
   ],
   "note": "Part of C118; the remaining parts of C118 are violated."
  },
  {
   "property": "C149",
   "status": "partial",
   "theorems": [
    "Pdfer.Props.C149_exact",
    "Pdfer.Props.C149_gone_partial",
    "Pdfer.Props.C149_nothing_drawn_violated",
    "Pdfer.Props.C149_offsets_violated",
    "Pdfer.Props.C149_again_violated"
   ],
   "note": "Exactly the references are left out (C149_exact, all files that open with a form); with one reference none remains (C149_gone_partial). Violated: nothing is drawn onto the pages, offsets of the xref table are not corrected, and taking one reference out can make another."
  },
  {
   "property": "C150",
   "status": "partial",
   "theorems": [
    "Pdfer.Props.C150_appearance_partial",
    "Pdfer.Props.C150_added_partial",
    "Pdfer.Props.C150_lines_violated",
    "Pdfer.Props.C150_states_violated"
   ],
   "note": "A content of one line is returned exactly, for every layout. Violated: contents of several lines come back as the whole object text, state dictionaries are never read."
  },
  {
   "property": "C151",
   "status": "partial",
   "theorems": [
    "Pdfer.Props.C151_checkbox",
    "Pdfer.Props.C151_text_partial",
    "Pdfer.Props.C151_button_partial",
    "Pdfer.Props.C151_font_violated",
    "Pdfer.Props.C151_size_violated",
    "Pdfer.Props.C151_characters_violated"
   ],
   "note": "Check boxes in full; text and labels for characters up to U+00FF. Violated: the font resource is object 0, the button ignores the font size, characters above U+00FF become others."
  },
  {
   "property": "C152",
   "status": "partial",
   "theorems": [
    "Pdfer.Props.C152_roundtrip_partial",
    "Pdfer.Props.C152_pages_violated",
    "Pdfer.Props.C152_custom_violated"
   ],
   "note": "Proved for every history before SetMetadata and every later history of adds, sets of other objects, root and version calls, for plain metadata (no closing parenthesis, custom names of letters, digits and underscores), in files with a cross-reference table. The page count is the number of objects (C152_pages_violated); other custom names are lost and texts cut at a parenthesis (C152_custom_violated)."
  },
  {
   "property": "C153",
   "status": "partial",
   "theorems": [
    "Pdfer.Props.C153_date_partial",
    "Pdfer.Props.C153_zone_violated",
    "Pdfer.Props.C153_now_violated"
   ],
   "note": "Proved for every valid date in every form, except zones less than an hour behind UTC, whose sign is lost (C153_zone_violated); a text that is no date becomes the current time (C153_now_violated). Fractions of seconds are dropped."
  },
  {
   "property": "C154",
   "status": "partial",
   "theorems": [
    "Pdfer.Props.C154_last",
    "Pdfer.Props.C154_order_partial",
    "Pdfer.Props.C154_order_violated",
    "Pdfer.Props.C154_written_partial"
   ],
   "note": "Proved: each field is the last entry for it in the order walked (C154_last), the fields set are those a written file states (C154_written_partial), and the order does not matter if no two keys name the same field (C154_order_partial); with Title and title the result is random (C154_order_violated). ASCII keys."
  },
  {
   "property": "C155",
   "status": "partial",
   "theorems": [
    "Pdfer.Props.C155_open_partial",
    "Pdfer.Props.C155_tables",
    "Pdfer.Props.C155_crash_violated",
    "Pdfer.Props.C155_get_partial",
    "Pdfer.Props.C155_get_violated"
   ],
   "note": "No crash on any file none of whose named offsets (startxref or /Prev, including a /Prev cut off by the 2000-byte window) is at a place where reading a cross-reference stream goes out of bounds; in particular none if all stated offsets are those of tables. C155_crash_violated: every file whose startxref points less than 500 bytes before the end, not at a table, at bytes with obj among the first hundred and no object header after it, makes Open crash (a startxref 7 bytes too small is enough). Objects: no crash if every endobj is followed by three bytes; C155_get_violated otherwise. Slices are taken to have capacity = length."
  },
  {
   "property": "C156",
   "status": "partial",
   "theorems": [
    "Pdfer.Props.C156_pages",
    "Pdfer.Props.C156_each_partial",
    "Pdfer.Props.C156_lost_violated"
   ],
   "note": "Pages and annotations in full; images and fonts one per name (C156_each_partial). Names belong to a page, so two pages that use one name for different images lose one (C156_lost_violated)."
  },
  {
   "property": "C157",
   "status": "proved",
   "theorems": [
    "Pdfer.Props.C157_roundtrip",
    "Pdfer.Props.C157_jpeg",
    "Pdfer.Props.C157_unknown"
   ],
   "note": "Inflate is a parameter of the model."
  },
  {
   "property": "C158",
   "status": "partial",
   "theorems": [
    "Pdfer.Props.C158_cut_partial",
    "Pdfer.Props.C158_lost_violated",
    "Pdfer.Props.C158_old_copy_violated"
   ],
   "note": "Proved for every cut between the last object and startxref, for streams as in C104 whose stored bytes hold neither `stream` nor `<<` and files in which each object header occurs once. Violated for streams that contain `<<`: the data is taken for an object once more and loses its beginning. Violated also for objects of an update: without tables, the old copy of an object is read although the new one is complete (C158_old_copy_violated)."
  },
  {
   "property": "C159",
   "status": "partial",
   "theorems": [
    "Pdfer.Props.C159_own",
    "Pdfer.Props.C159_kept",
    "Pdfer.Props.C159_shared_violated"
   ],
   "note": "Proved in full per error object (C159_own, C159_kept, every history). Violated as to what a user sees: WithContext on a predefined error (ErrObjectNotFound …) changes that error for everyone (C159_shared_violated)."
  },
  {
   "property": "C160",
   "status": "partial",
   "theorems": [
    "Pdfer.Props.C160_read_partial",
    "Pdfer.Props.C160_word_violated",
    "Pdfer.Props.C160_string_violated",
    "Pdfer.Props.C160_refused",
    "Pdfer.Props.C160_id"
   ],
   "note": "Proved for the compact layout of the dictionary with literals free of the texts the reader looks for: version, revision, key length and signed permission numbers are read as stated, /O, /U and the file identifier exactly if they contain no parenthesis and no backslash. Refuted for all others (C160_string_violated), for unsigned permission numbers (C160_word_violated); C160_refused: with an early closing parenthesis in /U no password opens the file."
  },
  {
   "property": "C161",
   "status": "partial",
   "theorems": [
    "Pdfer.Props.C161_roundtrip_partial"
   ],
   "note": "Both passwords open the file and give back every stream with its stored dictionary; table mode, reader windows, nothing else in the file looking like the encryption entries, separable streams; owner password: unless its check value equals the user's."
  },
  {
   "property": "C162",
   "status": "partial",
   "theorems": [
    "Pdfer.Props.C162_streams_partial",
    "Pdfer.Props.C162_objects_violated"
   ],
   "note": "Streams: the file depends on their data only through the cipher texts (table mode, literal dictionaries). Violated for all other objects: their content, strings included, is stored in plain text (C162_objects_violated)."
  },
  {
   "property": "C163",
   "status": "proved",
   "theorems": [
    "Pdfer.Props.C163_same_file",
    "Pdfer.Props.C163_same_file_schema",
    "Pdfer.Props.C163_warnings",
    "Pdfer.Props.C163_warnings_schema"
   ],
   "note": "result and warnings of both functions, for every input"
  },
  {
   "property": "C164",
   "status": "partial",
   "theorems": [
    "Pdfer.Props.C164_same_errors",
    "Pdfer.Props.C164_knows_all_partial",
    "Pdfer.Props.C164_written",
    "Pdfer.Props.C164_not_recognised_violated",
    "Pdfer.Props.C164_predictor_violated"
   ],
   "note": "same crashes; for written files the same places; for any file without predictor every object is known to both; the code breaks it for predictors (ParseXRefStream does not undo them), for free entries (C70_free_entry_violated) and in ParseCrossReferenceTable, which does not recognise the streams this library writes"
  },
  {
   "property": "C165",
   "status": "partial",
   "theorems": [
    "Pdfer.Props.C165_text_numbers",
    "Pdfer.Props.C165_text_partial",
    "Pdfer.Props.C165_which_violated",
    "Pdfer.Props.C165_images",
    "Pdfer.Props.C165_metadata",
    "Pdfer.Props.C165_forms",
    "Pdfer.Props.C165_graphics_partial",
    "Pdfer.Props.C165_graphics_violated",
    "Pdfer.Props.C165_document_partial"
   ],
   "note": "Same verdict, same number of differences per page, and additions and removals exchanged, for all options, if no page draws the same graphic or annotation twice (violated otherwise: a rectangle drawn twice); with comparison by elements which of two swapped texts is reported depends on the order (C165_which_violated); metadata, forms, images and word/character comparison exactly exchanged."
  },
  {
   "property": "C166",
   "status": "partial",
   "theorems": [
    "Pdfer.Props.C166_numbers_partial",
    "Pdfer.Props.C166_follow_violated",
    "Pdfer.Props.C166_rotations_partial",
    "Pdfer.Props.C166_turns_commute",
    "Pdfer.Props.C166_turn_delete_commute",
    "Pdfer.Props.C166_order_partial"
   ],
   "note": "Numbers (no conditions, for all histories), commutation of turns and deletions (no conditions) proved; the sum of the turns under the conditions of C36 on the page texts. C166_follow_violated: after DeletePage(1), page 1 is still the deleted page, although the comment of DeletePages speaks of index shifts."
  },
  {
   "property": "C167",
   "status": "partial",
   "theorems": [
    "Pdfer.Props.C167_span",
    "Pdfer.Props.C167_chunks",
    "Pdfer.Props.C167_looks",
    "Pdfer.Props.C167_content",
    "Pdfer.Props.C167_content_stream",
    "Pdfer.Props.C167_crash",
    "Pdfer.Props.C167_file_kept_partial",
    "Pdfer.Props.C167_file_changed_violated",
    "Pdfer.Props.C167_twice_violated",
    "Pdfer.Props.C167_crash_violated",
    "Pdfer.Props.C167_generation_partial",
    "Pdfer.Props.C167_generation_none",
    "Pdfer.Props.C167_generation_violated",
    "Pdfer.Props.C167_object_partial",
    "Pdfer.Props.C167_old_stream_partial",
    "Pdfer.Props.C167_shadow_violated",
    "Pdfer.Props.C167_standard_violated"
   ],
   "note": "Proved for every file and cipher: the offset search exactly (C167_chunks), the decrypted object and the array afterwards exactly (C167_content, C167_content_stream), the crash exactly (C167_crash), objects wholly encrypted on lines of their own (C167_object_partial), the generation of a header (C167_generation_partial), the file untouched when the regular reading of the AcroForm succeeds (C167_file_kept_partial). Violated otherwise: a damaged file is overwritten (C167_file_changed_violated) and cannot be read a second time (C167_twice_violated), objects on one line bring the program down (C167_crash_violated) or get another object's generation (C167_generation_violated), a dictionary in the clear is decrypted (C167_standard_violated)."
  },
  {
   "property": "C168",
   "status": "partial",
   "theorems": [
    "Pdfer.Props.C168_read_partial",
    "Pdfer.Props.C168_cut_off_hangs_violated",
    "Pdfer.Props.C168_ends",
    "Pdfer.Props.C168_names_violated",
    "Pdfer.Props.C168_hex_violated",
    "Pdfer.Props.C168_backslash_violated",
    "Pdfer.Props.C168_broken_key_violated",
    "Pdfer.Props.C168_plain",
    "Pdfer.Props.C168_encrypted_partial",
    "Pdfer.Props.C168_values_partial",
    "Pdfer.Props.C168_other",
    "Pdfer.Props.C168_hang_violated"
   ],
   "note": "Proved: unencrypted objects exactly (C168_plain), dictionaries of any number of entries with values of any nesting (C168_read_partial), objects encrypted as a whole and value by value (C168_encrypted_partial, C168_values_partial), other encrypted objects (C168_other), and reading ends for all data not ending with a slash (C168_ends). Conditions: brackets match, parentheses in strings are escaped and backslashes are not, names stand inside of brackets. Violated otherwise: names as values (C168_names_violated), hexadecimal strings before the end (C168_hex_violated), escaped backslashes (C168_backslash_violated), broken keys (C168_broken_key_violated); a dictionary cut off behind a slash is read for ever (C168_cut_off_hangs_violated, C168_hang_violated)."
  }
 ]
}