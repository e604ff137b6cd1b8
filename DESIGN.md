# Formal model of benedoc-inc/pdfer in Lean 4

## Layout

* `lean/Verif/Basic.lean` – byte strings (`Bytes = List UInt8`), `b!"..."` literals and models of the Go
  standard-library functions the code relies on (`bytes.Index`, `strconv.Itoa`, ...).
* `lean/Verif/Model/*.lean` – the model: one Lean function per Go function, each with a comment citing
  file and lines in /repo and the simplifications made.
* `lean/Verif/Spec/*.lean` – small specifications written without looking at the model (e.g. a PDF
  literal-string reader taken from ISO 32000, "is a longest common subsequence", ...).
* `lean/Verif/Proofs/*.lean` – lemmas.
* `lean/Verif/Props/*.lean` – one theorem (or a few) per property, each with `example`s showing that the
  hypotheses are met by concrete non-trivial cases.
* `MANIFEST.json` maps property ids to theorem names; `seeded/LOG.jsonl` records the mutation tests.

Conventions: Go `[]byte`/`string` = `List UInt8`; Go `int` = `Nat`/`Int` without 64-bit overflow unless the
overflow is the point (uint32/uint16 arithmetic in ASCII85 and fonts is modelled with wrap-around);
Go `map` = association list or function plus, where iteration order matters, a universally quantified
permutation; `(T, error)` = `Option T`/`Except`; a run-time panic is an explicit third outcome where a
property talks about it.  Where the code violates the property, the negation is proved with a concrete
witness (`..._violated`) and the part that does hold is proved as `..._partial`.

## Plan per property

| id | modelled | proof |
|----|----------|-------|
| C01 | DecodeASCIIHex, EncodeASCIIHex as byte-list functions | induction on the data |
| C02 | DecodeASCII85, EncodeASCII85, uint32 wrap-around | arithmetic lemma per group (0..4 bytes), induction on groups |
| C03 | Encode/DecodeRunLength | strong induction; each emitted run decodes to the consumed bytes |
| C04 | DecodeASCIIHex | comparison with an independent filter/pair specification |
| C05 | DecodeRunLength | independent run grammar; induction on length |
| C06 | DecodeASCII85 | induction |
| C07, C08 | PDFWriter as a state machine over a list of API calls | invariant over histories |
| C09-C12 | Write in table mode, byte for byte; reader ParseTraditionalXRefTable | offsets by append-length reasoning; parser run on the printed table. The 10000-byte window of the reader gives a counterexample for large tables |
| C13 | formatDictionary, Write with a permuted map order | sorting is permutation invariant |
| C14 | Write / writeXRefStream state update | computation; counterexample in stream mode |
| C15 | writeXRefStream entry bytes, ParseXRefStreamFull entry loop | big-endian lemma + induction over entries |
| C16, C17 | createObjectStreams, GetObjectFromStream on the decoded stream | counterexample + general mis-alignment theorem; panic witness |
| C18, C19, C20 | escapePDFString, formatValue, unescapePDFString | against an ISO 32000 literal-string reader; induction |
| C21, C22 | escapeFieldValue, escapeName | same, with violation for code points > 255 (511) |
| C23 | FindAllEOFMarkers, ExtractRevision | induction on the scan |
| C24, C25 | mergeSections, parseStandard merge | induction over sections; counterexamples |
| C26 | parseXRefChain with a visited set | termination by the number of distinct offsets |
| C27, C28 | PDFDocument | list reasoning |
| C29, C30 | FindObjectByNumber, GetDirectObject | counterexamples + partial theorems |
| C31-C35 | SetupAES256Encryption, V5 unwrap/verify, encryptStream/DecryptObject, password padding; AES/SHA/MD5/RC4 are abstract functions with the inverse law | algebra |
| C36-C40 | rotation, splitting, deletion, merging, page tree walk | arithmetic, list induction, counterexamples |
| C41-C46 | myers_diff, text_diff, compare | dynamic-programming invariant, accounting invariants |
| C47 | types/warnings.go with Go slices (window, length, capacity, any growth policy) | invariant over histories |
| C48, C66, C67, C69 | forms/acroform parser, validation, extract, writer | lookup induction over the field forest; termination iff no infinite chain of kids |
| C49, C50 | replace.go, fill_streams.go, stream_rebuild.go, stream_finder.go | exact effect on the bytes; universal negations |
| C51, C74, C75 | content/extract/encoding.go, ToUnicode maps, Differences | token-by-token run of the CMap reader on any printed map |
| C52, C53, C71, C72, C73 | resources/font: table directory, cmap 4/12, hmtx, name, subset, ToUnicode writer; slices carry their capacity, so a read behind the length but within the file is seen | case analysis, induction on segments/groups, crash witnesses |
| C54, C80, C81, C82 | bookmarks.go (write), writer.go catalog rewrite, bookmarks.go (read) | induction over bookmark forests, end to end through Write and Open |
| C55 | PNG predictors | row induction |
| C56 | Write then Open and GetDirectObject | composition of C09–C12 |
| C57, C58 | compare.go | accounting with multiplicity |
| C59–C62, C83 | encryption dictionary, key derivation, padding, per-object keys; MD5/SHA-256/AES/RC4 defined and shown lawful | algebra; kernel-evaluated witnesses |
| C63–C65 | extraction, splitting, insertion | exact text effect |
| C68 | actions.go, appearance.go | exact text effect |
| C70 | the fall-back of Open | run on any file that ends in a flat trailer; panic witness |
| C76–C79 | core/write/content.go against content/extract/content_stream.go; float arithmetic abstract (`Arith`), with a four-decimal instance for the examples | simulation: reader state against an ISO graphics-state interpreter, induction on the call list |
| C84–C87 | core/write/page.go over histories | invariant over histories, then C56 and C40 |
| C88–C90 | image.go, watermark.go | segment induction; pixel loops as assignments; C76's interpreter |
| C91 | a built document through Open and content/extract: pages, text runs, graphics | composition of C84–C87, C56, C40 and C76–C79 |
| C92–C95 | pages.go, resources.go, annotations.go, images.go on arbitrary page texts | first-occurrence lemmas for the key searches; the JPEG path composed with C88; violations with witnesses |
| C96–C97 | resources/font/pdf.go with font.go and the writer; map orders are parameters (any permutation) | inversion of a successful run, then C55's invariant; C56 for the reading half of C73 |
| C98–C99 | SetBaseEncoding's tables against annex D; parseName's loop against the list of records | table equality by kernel evaluation over all 256 codes; induction on the records |
| C100–C101 | core/parse/xfa_parser.go on the tokens of the XML decoder | invariant over the token loop; induction on the field elements |
| C102–C103 | forms/xfa/xfa.go's text edits, and ReplaceStreamInPDF with the caller's array (aliasing appends) as state | first-occurrence lemmas; the four appends evaluated on an array split at the cuts |
| C104–C106 | xfa_builder.go and ExtractAllXFAStreams over the writer and GetObject | composition with the stand-alone reader (C30); scan of the file for headers, no straddling match; writer invariant; violations with witnesses |
| C107 | xfa_datasets_translator.go on the tokens of the XML decoder; floats abstract | induction on the fields; the decoder's tokens are a hypothesis (`Woven`); violations for nesting, values, reserved names |
| C108–C109 | forms/forms.go over the AcroForm parser, XFA extraction and the writer | case analysis of the two searches; composition of C104, C107 and C67 |
| C110–C111 | types/errors.go with errors.Is | structural induction on the chain of causes |
| C112–C113 | forms/xfa/stream.go: the stream as a state machine on 64-bit offsets; the header reader and the search of ReadObjectFromXRef | invariant over call sequences; evaluation of the header reader on any text around a right offset (it fails) |
| C114 | forms/acroform/integration.go's BuildForm within histories of the document builder | frame of the writer invariant over histories; the page tree number stays free until Bytes; violations for every history |
| C115–C116 | content/extract/directory.go as the list of its file effects, with an oracle for errors | induction on the images; prefixes of the effect list are the crash points |
| C117 | core/compare/report.go | text inclusion by structure of the report |
| C118 | cmd/pdfer/main.go over a map of files; library calls, JSON and write failures are parameters | case analysis of the run; the final write is the only effect on the output |
| C119–C120 | xfa_form_translator.go on the tokens of the XML decoder; floats and %v abstract | the reader run over the writer's tokens (relation `Runs`, closed under the decoder's indentation); invariants over arbitrary token lists |
| C121–C125 | xfa_locale_translator.go, xfa_connection_translator.go, xfa_config_translator.go, xfa_stylesheet_translator.go on XML tokens; floats abstract | Hoare triples `Reads P enc Q` over whatever the decoder may deliver for `enc`, composed along the writer; what exactly comes back is a small function in Spec/XFASets; no panic by invariants over arbitrary tokens |
| C126–C129 | forms/acroform/{fill,fill_streams,replace,integration}.go over the reader with the file filled so far as state; ToFormSchema; ValidateFormSchema with regexp, ParseFloat and the float order as parameters | relation FilledAll, one step per given value; composition with C67 and C49; violations by kernel evaluation on written files (slicing behind the length counts as a crash: capacity = length; in the witnesses the real capacity is exceeded as well); lists of errors by case analysis |
| C130–C132 | DeletePages, RotateAllPages and InsertPage as loops over the manipulator (core/manipulate), errors with the state left behind | induction on the list of pages with the node's text as invariant; C36, C38, C65 for the single steps; violations on a document of four pages |
| C133–C148 | no new model: parts of C13, C26–C28, C34, C36, C39, C44, C47–C49, C53, C57, C63, C72, C83, C88, C95, C118, C120 that the code has in full, stated as properties of their own (Props/Whole.lean) | put together from the theorems of those properties |
| C149–C151 | FlattenForm / FlattenField / GetFieldAppearance and the appearance builder (Model/Flatten.lean), on the open and object reading models | flattening equals an independent relation "every reference left out, every other byte kept"; regular expressions matched at their first occurrence; stored object computed, string read by the independent reader |
| C152–C154 | SetMetadata with formatPDFDate and time.Parse for the accepted layouts, NewMetadataFromFields, ExtractMetadata with its expressions (Model/Metadata.lean), on the writer, open and object reading models | dates: an independent reader of PDF dates inverts the printed text; the Info object: every expression matched at its own key by induction over the sorted dictionary; histories: the object and the reference are kept by every later call |
| C155 | Open with the walk along /Prev, both readers of cross-reference streams and the fallback, GetDirectObject (Model/Incremental.lean, XRefStream.lean, Fallback.lean); slicing beyond the length is a panic in the model | Spec/Crash.lean says where a file is dangerous in terms of its bytes; a panic of the model is traced back to an offset named in the file (number complete, or cut by the 2000-byte window) and to one of two out-of-bounds slices; the converse for startxref near the end is a theorem about a family of files |
| C156 | ExtractContent (Model/Extract.lean), the orders in which Go walks the maps are parameters | Spec/Collect.lean: first page that has a name, one of each; induction over the pages with the entries collected so far; a two-page witness loses an image |
| C157 | DecodeFilter, DCTDecode, EncodeDCTDecode (Model/Filters.lean); inflate is a parameter | the round trips C01–C03 under every spelling of the name; exact characterisation of JPEG data; all other names |
| C158 | ExtractAllXFAStreams with its fall-backs, FindObjectByNumber, findObjectBoundaries, extractStreamFromPDF (Model/XFA.lean, Model/Document.lean) | Spec/XFA.lean: what is left of a cut file; every object of a written file begins a line and its header is found first in every such rest; a stream with `<<` is a counterexample to the unrestricted claim |
| C159 | errors as objects in memory with the ones that exist from the start (Model/ErrorContext.lean) | induction over the history, last call backwards; the predefined errors are shared by everyone, so context given to one of them is seen by all later users (universal counterexample) |
| C160 | `parseEncrypt`, `readDict`, `extractFileID` of Model/Crypto.lean on the dictionary text of ISO 32000-1 (Spec/EncryptDict.lean: literal strings with escapes) | texts that cannot contain a key (`Avoid`), one entry after the other; escapes are not undone and a literal ends at its first closing parenthesis, an unsigned permission number is clamped: universal counterexamples, and files no password opens |
| C161 | `setupPasswords`, `withPassword` (Model/Protect.lean) with the writer, the crypto package and the reader composed | shape of the written file around the encryption dictionary (file_shape), its words found where they stand (`Marks`), then C34 for the whole file; a concrete file checked in the kernel |
| C162 | the writer (Model/Writer.lean) with any cipher; `hide` (Spec/Protect.lean) forgets the stream data of a call | two runs related by forgetting data and lengths (`blank`), step by step and through Write; objects that are not streams stand in the file verbatim: universal counterexample |
| C163 | `extractAndFill`, `fillFromSchema` with the whole fill and validation models underneath | case analysis over parse, validation and fill; the result component equals that of FillForm and the warning component is characterised by the rules of C19 |
| C164 | `parseFull`, `oldXRefStream`, `crossRefTable`, `write` with cross-reference streams | both readers factored over what they find before the entries (`found`), entry loops in lockstep (`Covers`), written entries one by one; counterexamples for predictors and for the detection of streams |
| C165 | `comparePages`, `comparePage`, `textDiff`, `threePhases`, Myers | the matchings of the two runs are turned into each other phase by phase (`turn`); counts of the edit script; counterexamples for doubled rectangles and for which of two swapped texts is reported |
| C166 | `rotatePage`, `deletePage`, `insertPage` in arbitrary sequences (`edits`) | invariant: the source of the enumeration never changes; induction on the calls for the sums of turns; rewriting of different objects commutes, and a page is never a node; counterexample: page numbers do not follow deletions |
| C167 | ExtractAllXFAStreams, findAndDecryptAcroForm, decryptInChunks, extractGenerationNumber on encrypted files (Model/XFAEncrypted.lean), with the array behind the caller's slice | exact specification of the offset search; exact contents of the decrypted object and of the array afterwards; exact condition of the crash; counterexamples evaluated by the kernel: the caller's file is overwritten, the second call fails, objects on one line bring the program down, the dictionary of a standard encrypted file is decrypted although it is in the clear |
| C168 | the dictionary reader of forms/xfa/stream.go and the body of ReadObjectFromXRef (Model/PDFObject.lean) | inductive specification of texts with matching brackets; the scanner's depths are an invariant over their structure; induction on the entries; rounds of the loop as fuel (`none` = still running): for the cut-off dictionary no number of rounds suffices |

Where a row covers a property marked `partial`, MANIFEST.json's note says what is missing; in almost all cases what is missing is
false of the code and the negation is proved beside it (`..._violated`).

## What is modelled and what is not

Modelled function by function (Model/*.lean, each definition with its lines): core/write/{writer,xref_stream,object_stream,page,content,
image,watermark,metadata,bookmarks,encryption_v5,encryption_helper,xfa_builder}.go; core/parse/{parser,xref_stream,object_stream,incremental,api,
get_object,document,document_parser,filters,xfa_parser}.go; core/encrypt/*.go; core/manipulate/*.go; core/compare/{compare,text_diff,myers_diff,report}.go;
content/extract/{extract,directory,pages,metadata,encoding,content_stream,bookmarks,annotations,images}.go and the font and image parts of
resources.go; forms/forms.go; forms/acroform/*.go; forms/xfa/{xfa,xfa_utils,xfa_datasets_translator,xfa_form_translator,xfa_locale_translator,
xfa_connection_translator,xfa_config_translator,xfa_stylesheet_translator,stream}.go;
resources/font/*.go; types/{warnings,errors}.go; cmd/pdfer/main.go.

Not modelled, or abstract:
* forms/xfa: parseObjectStructure (never called), verbose output;
* zlib/deflate: a pair of functions with the round-trip law where needed; image decoding (png, jpeg pixels);
* float64: page sizes and coordinates are the printed text or elements of an abstract type with abstract operations; nothing is claimed
  about rounding;
* `regexp`: only the expressions used, each as a hand-written matcher (leftmost-first, as RE2 would match them on bytes);
* `unicode.IsPrint`, `unicode.IsSpace` outside ASCII, `time.Now`, `rand.Read`: parameters;
* `encoding/xml`, logging and `fmt.Printf` diagnostics, examples/;
* memory: slices are values except in Warnings, Font and XFA, where aliasing and capacity are modelled because the property depends on them;
  dictionaries of stream objects are heap addresses in Writer because the code shares them;
* Go `int` is unbounded unless a definition says otherwise (`atoi` clamps and fails as strconv does; uint8/16/32 wrap).

Recursion that need not terminate in the code (page trees, field trees, outlines, reference chains) has a fuel argument in the model;
the theorems either quantify over all sufficiently large fuel or prove that the fuel does not matter.

Not expressible here: performance, real zlib/flate/JPEG/AES algorithms (abstract), logging output,
`time`/`rand` sources (universally quantified values), XML parsing by encoding/xml.

## Trusted base

* The Lean 4.33.0 kernel (and its reduction: `decide +kernel` evaluates in the kernel; no compiled code is trusted).
* The axioms `propext`, `Classical.choice`, `Quot.sound` and no others; the table below lists them per theorem. It is generated from
  `#print axioms` by tools/axioms.py.
* The hand translation from Go to Lean, documented definition by definition; the specifications in Spec/*.lean; the models of the Go
  standard library in Model/GoLib.lean.

<!-- axioms -->
Axioms per theorem (all in namespace `Pdfer.Props`):

* none (18): C19_backslash_violated, C29_wrong_object_violated, C45_printed_alike_violated, C48_values_depth_violated, C49_wrong_object_violated, C51_char_unique, C55_average_paeth_violated, C68_appearance_violated, C86_font_named_like_resource_violated, C101_caption_violated, C101_prefix_violated, C103_caller_violated, C103_tail_violated, C103_other_violated, C106_bracket_violated, C154_order_violated, C156_pages, C167_generation_violated
* `propext` (151): C10_object_zero_violated, C11_shared_dictionary_violated, C11_slash_length_violated, C13_object_streams_violated, C14_write_twice_partial, C14_xref_stream_violated, C16_read_back_violated, C16_table_mode_loses_objects_violated, C17_first_too_large_violated, C17_decreasing_offsets_violated, C18_not_utf8_violated, C19_octal_violated, C20_values_violated, C20_injection_violated, C27_revision_bytes_violated, C28_revision_number_violated, C30_stream_violated, C36_other_angles, C36_compact_violated, C36_inherited_violated, C38_suffix_violated, C38_spaced_violated, C38_next_key_violated, C38_ancestor_violated, C38_numbering_fixed, C40_page_type_violated, C40_mixed_violated, C44_metadata, C45_other_types, C46_word_bytes, C46_words, C48_find_sound, C48_depth_violated, C48_partial_name_violated, C48_required_partial_violated, C48_maxlen_bytes_violated, C48_nil_violated, C49_nested_violated, C49_dollar_violated, C49_refill_violated, C49_name_violated, C49_second_entry_violated, C50_header_lost_violated, C50_order_violated, C51_literal_two_bytes_violated, C51_small_codes_violated, C51_tab_violated, C53_width_short_hmtx_violated, C63_page_one_violated, C63_range_checked, C65_spaced_violated, C65_nested_violated, C66_types, C67_escape_violated, C67_injection_violated, C67_option_violated, C68_second_action_violated, C68_dollar_violated, C71_reads_only_table_violated, C72_offset_violated, C73_astral_violated, C73_order_violated, C73_shown_text_violated, C74_array_violated, C74_surrogates_violated, C74_ligature_violated, C74_order_violated, C75_no_spaces_violated, C75_inline_base_violated, C75_six_digits_violated, C76_parenthesis_violated, C76_bracket_violated, C76_backslash_violated, C76_restore_violated, C76_name_violated, C77_two_objects_violated, C77_leading_violated, C77_next_line_violated, C77_scale_violated, C78_gray_violated, C78_restore_violated, C79_concat_violated, C82_bound_irrelevant, C82_cycle_never_finishes_violated, C86_names_reused_violated, C87_map_order_violated, C89_transparency_dropped_violated, C91_apostrophe_violated, C91_utf8_violated, C91_rotate_name_violated, C92_state_not_carried_violated, C93_inherited_violated, C93_indirect_box_violated, C93_corners_violated, C94_uri_crash_violated, C94_uri_action_violated, C94_contents_violated, C94_polyline_violated, C94_border_violated, C95_same_name_violated, C95_length_crash_violated, C97_scale_violated, C98_currency_violated, C98_symbol_violated, C99_unicode_platform_violated, C99_surrogates_violated, C99_macintosh_violated, C100_unique_violated, C102_escape_violated, C102_nested_violated, C102_attribute_violated, C102_panic_violated, C105_filter_violated, C105_offsets_violated, C105_longer_violated, C106_crash_violated, C106_dictionary_violated, C109_xfa_violated, C110_is, C110_text, C117_verdict, C117_listed_partial, C117_silent_violated, C119_rules_violated, C120_ids_violated, C120_caption_violated, C125_config, C130_not_atomic_violated, C131_listed_twice_violated, C132_overwrites_violated, C132_second_insertion_violated, C150_lines_violated, C150_states_violated, C151_size_violated, C151_characters_violated, C152_custom_violated, C153_zone_violated, C155_get_violated, C158_lost_violated, C158_old_copy_violated, C164_not_recognised_violated, C164_predictor_violated, C165_metadata, C166_follow_violated, C167_file_kept_partial, C168_cut_off_hangs_violated, C168_names_violated, C168_hex_violated, C168_backslash_violated, C168_broken_key_violated, C168_other
* `propext, Quot.sound` (172): C01_asciihex_roundtrip, C01_asciihex_length, C05_runlength_exact, C05_runlength_rejects, C05_runlength_blind_after_eod, C07_fresh_numbers, C07_add_never_overwrites, C07_handed_out_distinct, C09_offsets_exact, C10_free_entries, C10_size_is_max_plus_one, C11_stream_length_partial, C12_window_violated, C13_dictionary_deterministic, C13_dictionary_map_order, C13_write_deterministic, C18_metadata_escape_faithful, C24_sections, C24_stream_shadows_update_violated, C25_never_deleted_violated, C25_freed_object_violated, C26_cycle_visited_twice_violated, C28_newest_revision, C28_queries_agree, C28_revision_lookup_partial, C29_window_violated, C31_primitives, C33_check_value_partial, C34_rc4_not_encrypted_violated, C34_rc4_violated, C35_doubled_password_violated, C35_same_files_violated, C35_distinct_partial, C35_revision5, C37_ranges_cover, C38_kids_left_partial, C39_cross_file_violated, C39_order_violated, C45_exact_partial, C46_normalise, C47_history, C47_count, C47_filters, C47_returned_list_partial, C47_clear_overwrites_violated, C48_find_none, C48_lookup_partial, C48_values, C49_offsets_violated, C51_base_bytes, C52_subset, C52_subset_grows, C52_glyphs, C52_glyphs_deterministic, C53_width_missing, C53_format4_terminates, C53_width_partial, C53_width_wraps_violated, C57_keyed_exact, C59_padding_violated, C59_conforming_file_violated, C59_padding_partial, C63_dependencies_violated, C63_selection, C64_objects_kept, C64_nested_header_violated, C69_terminates_iff, C69_deterministic, C69_tree, C69_error_iff, C69_cycle_violated, C69_self_violated, C71_other_formats_violated, C72_format4_violated, C83_rc4_conforming, C83_aes256_violated, C80_top_level_parent_violated, C81_shape, C82_written_title_never_finishes_violated, C70_nothing_reachable_violated, C70_pages_lost_violated, C70_compressed_lost_violated, C70_crash_violated, C86_resource_names_partial, C86_right_after_call_partial, C86_same_font_twice_violated, C88_jpeg_size_partial, C88_jpeg_terminates, C88_truncated_panics_violated, C88_fill_byte_violated, C88_other_frames_violated, C89_translucent_darkened_violated, C90_watermark_balanced_partial, C90_text_place_partial, C90_image_place_partial, C90_default_options_violated, C90_failure_unbalanced_violated, C90_no_colour_panics_violated, C90_image_without_slash_violated, C94_no_crash_partial, C97_codes_violated, C104_dropped_violated, C107_written, C107_nested_violated, C107_last_value, C107_values_violated, C107_reserved_violated, C108_agree, C109_groups_violated, C109_agrees, C111_sound_partial, C111_wrapped_violated, C112_safe_partial, C112_seek, C112_origins, C112_overflow_violated, C114_tree_violated, C115_others, C115_rerun_violated, C115_counts, C118_success, C118_failure, C118_passwords_violated, C118_inplace_violated, C118_schema_violated, C120_no_crash, C120_ui_violated, C120_text_violated, C122_roundtrip_partial, C122_written, C122_violated, C123_submit, C123_setting, C124_exact_partial, C124_roundtrip_partial, C124_violated, C125_stylesheet, C126_two_fields_violated, C126_longer_table_violated, C126_reopen_violated, C126_invalid_data_violated, C127_place, C127_kids_violated, C128_order, C137_selection, C138_history, C139_deterministic, C148_status, C149_offsets_violated, C152_pages_violated, C156_each_partial, C156_lost_violated, C157_unknown, C159_own, C159_kept, C159_shared_violated, C162_streams_partial, C162_objects_violated, C163_same_file, C163_same_file_schema, C164_same_errors, C166_numbers_partial, C166_turns_commute, C167_span, C167_file_changed_violated, C167_twice_violated, C167_crash_violated, C167_generation_none, C167_shadow_violated, C167_standard_violated, C168_plain, C168_hang_violated
* `propext, Classical.choice, Quot.sound` (334): C02_ascii85_roundtrip, C03_runlength_roundtrip, C04_asciihex_exact, C04_asciihex_rejects, C04_asciihex_blind_after_end, C05_runlength_bounded, C06_ascii85_exact, C06_ascii85_bounded, C06_ascii85_rejects, C06_ascii85_blind_after_end, C08_reads_last_write, C08_unknown_number_is_error, C12_table_readback_partial, C12_large_document_violated, C15_xref_stream_readback, C15_compressed_entries, C16_last_object_lost_violated, C16_conforming_read_back_partial, C17_panic_iff, C17_no_panic_partial, C18_escape_faithful, C18_escapers_agree, C19_unescape_escape, C19_survives_iff, C19_text_survives_partial, C20_metadata_readback_partial, C21_field_value_partial, C21_wraps_violated, C21_euro_violated, C22_name_partial, C22_collision_violated, C22_whitespace_violated, C23_markers_are_occurrences, C23_range, C23_revision_is_prefix, C23_revision_of_revision, C23_revisions_grow, C23_last_revision_is_file, C24_trailer_dictionary, C24_newest_trailer_partial, C24_newest_update_wins_partial, C26_walk_terminates, C26_walk_follows_links_partial, C27_document_bytes, C27_raw_object_exact, C27_revision_bytes, C27_content, C28_perfect_pdf_agrees, C29_search_is_first_text, C29_suffix_number_violated, C29_ascending_file_partial, C29_linearized_violated, C29_written_partial, C30_whole_body_partial, C30_cut_at_endobj_violated, C31_user_password, C31_user_password_file, C32_owner_password_partial, C32_owner_password_file_partial, C33_wrong_password_violated, C33_accepts_iff_partial, C34_stream_round_trip_partial, C34_setup_round_trip, C34_stream_object_partial, C34_short_key_violated, C34_encrypted_file_partial, C36_rotations_partial, C36_full_turn_partial, C37_range_sizes, C37_ranges_valid, C37_rejects, C38_delete_partial, C38_delete_count_first_partial, C38_count_violated, C39_numbers_distinct, C39_references_partial, C39_page_order_partial, C39_mutual_violated, C40_pages_in_order_partial, C40_extract_pages_in_order_partial, C40_spaced_kids_violated, C40_cycle_violated, C40_extract_cycle_violated, C41_longest_common_subsequence, C41_elements, C41_equal_lists, C42_diff_explains_both, C42_order, C42_nothing_common_left, C43_accounts_for_everything, C43_counts, C44_text_partial, C44_tolerance_zero_violated, C44_keyed_iff, C44_duplicate_graphics_violated, C44_images, C44_form, C44_page_iff, C44_document_iff, C45_modified_exact, C45_empty_form_violated, C46_ratio_range, C46_ratio_zero_iff, C48_validate, C48_validate_field, C49_value_replaced_partial, C49_value_added_partial, C49_replace_exact, C49_positions_partial, C50_pieces_partial, C51_decode_partial, C51_hex_brackets, C51_hex_partial, C51_hex2_partial, C53_format12_terminates_iff, C53_format12_terminates_partial, C53_terminates_violated, C54_inserted_partial, C54_catalog_rewritten_violated, C54_second_write_same_partial, C55_predictor_inverse_partial, C56_write_open_get_partial, C57_identical_means_partial, C57_identical_forms, C57_page_numbers, C57_contents_not_compared_violated, C57_image_data, C58_images_accounted, C60_crash_iff, C60_crash_violated, C60_no_crash_partial, C60_decrypt_crash_violated, C61_dictionary_round_trip, C62_plain_object_partial, C62_fifteen_bytes_violated, C63_old_parent_violated, C65_insert_partial, C66_buttons_violated, C66_own_fields, C67_field_partial, C67_form_partial, C67_document_partial, C68_added_partial, C68_form_once, C68_two_actions_violated, C71_subtable, C71_format4, C71_format12, C71_format12_overlap, C72_widths, C72_parse_partial, C72_parse_small, C72_long_name_violated, C72_format12, C72_cmap_partial, C73_document_partial, C73_round_trip_partial, C73_no_character, C74_map_partial, C75_differences_partial, C75_glyph_code, C76_texts_partial, C77_positions_partial, C78_shapes_partial, C79_images_partial, C79_draw_image_at, C83_aes_conforming, C80_builder_pages, C80_outline_tree_partial, C80_destination_string_violated, C81_set_write_extract_partial, C81_bookmark_changed_violated, C82_acyclic_terminates_partial, C70_table_found_partial, C70_offset_outside_violated, C70_stream_entries_partial, C70_free_entry_violated, C84_built_document, C85_built_document_reads_partial, C85_no_page_violated, C85_nothing_drawn_violated, C85_bookmarks_lose_pages_violated, C87_bytes_again_partial, C87_second_catalog_violated, C89_opaque_pixels_partial, C89_gray_pixels_partial, C89_mask_stored, C90_image_name_with_slash_violated, C91_built_pages_partial, C92_streams_in_order_partial, C92_spaced_array_violated, C93_boxes_partial, C94_annotations_partial, C94_spaced_array_violated, C95_image_data_partial, C95_jpeg_roundtrip, C95_indirect_length_violated, C95_listed_partial, C95_only_images_partial, C96_linked_partial, C96_length_violated, C96_cidsysteminfo_violated, C96_names_violated, C96_subset_violated, C97_widths_partial, C97_letters_violated, C98_named_encoding_partial, C98_default_encoding, C99_names_partial, C100_fields, C100_identifier, C101_template_partial, C102_update_partial, C102_data_partial, C102_order_partial, C103_replace_partial, C104_extract_partial, C104_roundtrip_partial, C105_update_partial, C106_stream_kept_partial, C106_kept_partial, C106_updated_partial, C106_root_partial, C106_ignored_violated, C107_roundtrip_partial, C109_built_partial, C109_acroform_partial, C110_wrap, C112_read_partial, C112_peek_partial, C113_offset_violated, C113_first_partial, C114_lost_violated, C114_second_write_partial, C114_widgets_violated, C115_written, C115_count_violated, C116_crash, C119_roundtrip_partial, C119_questions_violated, C120_ids, C120_fields_partial, C120_nested_violated, C121_exact_partial, C121_roundtrip_partial, C121_violated, C123_exact_partial, C123_roundtrip_partial, C123_violated, C126_unknown, C126_success_partial, C126_built_partial, C126_stream_partial, C126_entries, C127_questions_partial, C127_ids, C128_value, C128_valid, C128_reported, C129_schema_accepts_partial, C129_weaker_violated, C130_delete_partial, C130_order_partial, C131_rotate_all_partial, C132_insert_partial, C132_range, C133_record, C134_queries, C135_ends, C136_numbers, C140_setup, C141_object_keys, C142_compare, C143_validate, C144_replace, C145_no_crash, C146_no_crash, C147_jpeg, C149_exact, C149_gone_partial, C149_nothing_drawn_violated, C149_again_violated, C150_appearance_partial, C150_added_partial, C151_checkbox, C151_text_partial, C151_button_partial, C151_font_violated, C152_roundtrip_partial, C153_date_partial, C153_now_violated, C154_last, C154_order_partial, C154_written_partial, C155_open_partial, C155_tables, C155_crash_violated, C155_get_partial, C157_roundtrip, C157_jpeg, C158_cut_partial, C160_read_partial, C160_word_violated, C160_string_violated, C160_refused, C160_id, C161_roundtrip_partial, C163_warnings, C163_warnings_schema, C164_knows_all_partial, C164_written, C165_text_numbers, C165_text_partial, C165_which_violated, C165_images, C165_forms, C165_graphics_partial, C165_graphics_violated, C165_document_partial, C166_rotations_partial, C166_turn_delete_commute, C166_order_partial, C167_chunks, C167_looks, C167_content, C167_content_stream, C167_crash, C167_generation_partial, C167_object_partial, C167_old_stream_partial, C168_read_partial, C168_ends, C168_encrypted_partial, C168_values_partial
