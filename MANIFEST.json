{
 "claims": [
  {
   "property": "C01",
   "status": "proved",
   "theorems": [
    "VPdf.C01_name_roundtrip",
    "VPdf.C01_name_decode_encode",
    "VPdf.C01_name_injective",
    "VPdf.C01_name_text_regular"
   ],
   "note": "Any byte string; anything that ends the token may follow; both readers (tokenizer and decoder of encoded names)."
  },
  {
   "property": "C02",
   "status": "proved",
   "theorems": [
    "VPdf.C02_literal_roundtrip",
    "VPdf.C02_literal_injective",
    "VPdf.C02_text_is_standard"
   ],
   "note": "Unencrypted strings; any value and any continuation."
  },
  {
   "property": "C03",
   "status": "proved",
   "theorems": [
    "VPdf.C03_hex_roundtrip",
    "VPdf.C03_hex_any_text"
   ],
   "note": "Round trip for any value, and decoding of any text of hexadecimal digits with white-space, odd counts included."
  },
  {
   "property": "C04",
   "status": "proved",
   "theorems": [
    "VPdf.C04_object_roundtrip",
    "VPdf.C04_text_is_standard",
    "VPdf.C04_indirect_roundtrip",
    "VPdf.C04_write_injective",
    "VPdf.C04_null_entries",
    "VPdf.C04_null_entries_meaning",
    "VPdf.C04_followed"
   ],
   "note": "Every holdable object (Spec.Holdable) up to null entries of dictionaries, which are equivalent to absent ones, with any continuation, alone and as an indirect object. Reals are exact decimals in the model, not doubles."
  },
  {
   "property": "C05",
   "status": "proved",
   "theorems": [
    "VPdf.C05_token_progress",
    "VPdf.C05_tokenizing_terminates"
   ],
   "note": "Progress for every successful read and termination of reading until end of input or error."
  },
  {
   "property": "C06",
   "status": "partial",
   "theorems": [
    "VPdf.C06_cache_unobservable",
    "VPdf.C06_peeks_are_transparent_partial",
    "VPdf.C06_peek_is_next_read",
    "VPdf.C06_failing_peek_counterexample",
    "VPdf.C06_peek_skip",
    "VPdf.C06_tokens_partial"
   ],
   "note": "Cache transparency (any operation history, any cache size) and transparency of peeks hold whenever no peek fails; a peek that fails moves the reader (C06_failing_peek_counterexample)."
  },
  {
   "property": "C07",
   "status": "proved",
   "theorems": [
    "VPdf.C07_any_rendition",
    "VPdf.C07_any_rendition_end",
    "VPdf.C07_leading_separators",
    "VPdf.C07_unambiguous"
   ],
   "note": "Any text that the grammar (Spec.Denotes) assigns to the object."
  },
  {
   "property": "C08",
   "status": "proved",
   "theorems": [
    "VPdf.C08_first_nonnull_value",
    "VPdf.C08_null_is_absent"
   ],
   "note": "Any list of entries with any separators."
  },
  {
   "property": "C09",
   "status": "partial",
   "theorems": [
    "VPdf.C09_stream_partial",
    "VPdf.C09_hexadecimal_text_partial",
    "VPdf.C09_inverts_encoding",
    "VPdf.C09_odd_counterexample"
   ],
   "note": "Any text with an even number of digits; an odd number of digits decodes wrongly (C09_odd_counterexample)."
  },
  {
   "property": "C10",
   "status": "partial",
   "theorems": [
    "VPdf.C10_stream_partial",
    "VPdf.C10_decodes_base85_partial",
    "VPdf.C10_decodes_base85_wrapping",
    "VPdf.C10_overflow_counterexample"
   ],
   "note": "All data if signed overflow wraps; by the C++ standard only data whose groups stay below 2^31, otherwise undefined behaviour (C10_overflow_counterexample)."
  },
  {
   "property": "C11",
   "status": "partial",
   "theorems": [
    "VPdf.C11_average_rows_counterexample",
    "VPdf.C11_paeth_rows_counterexample",
    "VPdf.C11_paeth_predictor",
    "VPdf.C11_predictor_inverts_png_partial",
    "VPdf.C11_average_counterexample",
    "VPdf.C11_paeth_counterexample",
    "VPdf.C11_small_pixel_counterexample",
    "VPdf.C11_odd_pixel_counterexample"
   ],
   "note": "None, Up, byte-aligned Sub rows and one-pixel Average and Paeth rows, any number of rows; counterexamples for Average, Paeth and Sub with unaligned pixels."
  },
  {
   "property": "C12",
   "status": "partial",
   "theorems": [
    "VPdf.C12_mixed_chain",
    "VPdf.C12_encode_decode_partial",
    "VPdf.C12_stores_or_reports",
    "VPdf.C12_order_counterexample",
    "VPdf.C12_predictor_counterexample"
   ],
   "note": "zlib and libjpeg are parameters. No filter and chains of Flate without predictor round trip; unsupported encoders report; counterexamples for mixed chains and predictors."
  },
  {
   "property": "C13",
   "status": "partial",
   "theorems": [
    "VPdf.C13_value_preserved",
    "VPdf.C13_error_only_if_unfit_partial",
    "VPdf.C13_maximum_counterexample"
   ],
   "note": "All pairs of integer types of any width: value preserved or error; error only when unfit except the largest value of a signed destination (C13_maximum_counterexample)."
  },
  {
   "property": "C14",
   "status": "proved",
   "theorems": [
    "VPdf.C14_addition_exact",
    "VPdf.C14_addition_error_iff",
    "VPdf.C14_narrow_destination_counterexample",
    "VPdf.C14_signed_counterexample",
    "VPdf.C14_multiplication"
   ],
   "note": "Unsigned types of 8, 16, 32, 64 bits; error exactly when the result does not fit. Outside the property: signed operands and addends wider than the destination, shown by counterexamples."
  },
  {
   "property": "C15",
   "status": "partial",
   "theorems": [
    "VPdf.C15_write_partial",
    "VPdf.C15_roundtrip_partial",
    "VPdf.C15_writer_width_fits",
    "VPdf.C15_content_width_fits_partial",
    "VPdf.C15_wide_field_counterexample"
   ],
   "note": "Widths up to eight bytes; wider fields are undefined behaviour (C15_wide_field_counterexample)."
  },
  {
   "property": "C16",
   "status": "proved",
   "theorems": [
    "VPdf.C16_section_is_map",
    "VPdf.C16_results"
   ],
   "note": "Any operation sequence on a new section of any kind (table, stream, virtual): look-ups, Contains, enumeration in increasing order, size and reported results. Entries are values: an entry whose number changes after insertion is not modelled."
  },
  {
   "property": "C17",
   "status": "proved",
   "theorems": [
    "VPdf.C17_newest_match",
    "VPdf.C17_missing"
   ],
   "note": "Any chain of well-formed sections with hybrid streams; exact characterisation of success, failure and Contains."
  },
  {
   "property": "C18",
   "status": "proved",
   "theorems": [
    "VPdf.C18_number_is_fresh",
    "VPdf.C18_never_twice",
    "VPdf.C18_allocation_effect"
   ],
   "note": "Any history of allocations with arbitrary edits of the sections in between; fresh, strictly increasing, and the effect on look-ups."
  },
  {
   "property": "C19",
   "status": "partial",
   "theorems": [
    "VPdf.C19_others_unchanged",
    "VPdf.C19_released_unreachable_partial",
    "VPdf.C19_release_succeeds",
    "VPdf.C19_older_revision_counterexample",
    "VPdf.C19_hybrid_counterexample"
   ],
   "note": "Other numbers unchanged always; the released number unreachable unless an older section has the same number and a generation other than 0 (C19_older_revision_counterexample) or the entry lives in a hybrid stream (C19_hybrid_counterexample)."
  },
  {
   "property": "C20",
   "status": "partial",
   "theorems": [
    "VPdf.C20_roundtrip_partial",
    "VPdf.C20_text_is_standard_partial",
    "VPdf.C20_line_has_twenty_bytes",
    "VPdf.C20_unused_counterexample"
   ],
   "note": "Proved for tables of free entries and entries in use, any gaps. Used entries that are not in use are counted but not written (C20_unused_counterexample); the number of the next free object is not kept by the reader."
  },
  {
   "property": "C21",
   "status": "partial",
   "theorems": [
    "VPdf.C21_exact",
    "VPdf.C21_roundtrip_partial",
    "VPdf.C21_writer_widths",
    "VPdf.C21_lowest_number_counterexample"
   ],
   "note": "Round trip proved for sections with object 0 and fields below 2^63; C21_exact gives the outcome in all cases; C21_lowest_number_counterexample: a section whose lowest number is not 0 is written with an Index starting at 0."
  },
  {
   "property": "C22",
   "status": "proved",
   "theorems": [
    "VPdf.C22_any_ending",
    "VPdf.C22_roundtrip",
    "VPdf.C22_far_counterexample"
   ],
   "note": "C22_any_ending covers all endings with white-space within the last 16384 bytes; C22_far_counterexample shows the limit."
  },
  {
   "property": "C23",
   "status": "partial",
   "theorems": [
    "VPdf.C23_header_found",
    "VPdf.C23_roundtrip",
    "VPdf.C23_unsupported",
    "VPdf.C23_major_counterexample"
   ],
   "note": "Round trip and rejection of 1.8, 1.9 and 2.1-2.9 proved; headers with other major versions are passed over and a later line may count (C23_major_counterexample). Stack use of std::regex on very long lines is not modelled."
  },
  {
   "property": "C24",
   "status": "partial",
   "theorems": [
    "VPdf.C24_finite_chain_partial",
    "VPdf.C24_sound",
    "VPdf.C24_prev_entry",
    "VPdf.C24_decreasing_partial",
    "VPdf.C24_cycle_counterexample",
    "VPdf.C24_file_counterexample"
   ],
   "note": "Proved for chains without cycle; every cycle makes opening run forever (C24_cycle_counterexample, C24_file_counterexample). Cross-reference streams are a parameter of the loop."
  },
  {
   "property": "C25",
   "status": "partial",
   "theorems": [
    "VPdf.C25_history_partial",
    "VPdf.C25_refused",
    "VPdf.C25_iteration",
    "VPdf.C25_overwrite_counterexample",
    "VPdf.C25_merge_counterexample"
   ],
   "note": "Refinement to a mathematical map proved for histories that never replace a value; overwriting insertions keep the old value (C25_overwrite_counterexample), and so does Merge (C25_merge_counterexample)."
  },
  {
   "property": "C26",
   "status": "proved",
   "theorems": [
    "VPdf.C26_history",
    "VPdf.C26_access",
    "VPdf.C26_out_of_range"
   ],
   "note": "Out-of-range operations are covered (C26_out_of_range)."
  },
  {
   "property": "C27",
   "status": "partial",
   "theorems": [
    "VPdf.C27_marks_partial",
    "VPdf.C27_entry",
    "VPdf.C27_marks_stay",
    "VPdf.C27_ends",
    "VPdf.C27_integer_counterexample",
    "VPdf.C27_real_counterexample",
    "VPdf.C27_clear_counterexample",
    "VPdf.C27_string_counterexample",
    "VPdf.C27_created_counterexample",
    "VPdf.C27_new_name",
    "VPdf.C27_merge_counterexample",
    "VPdf.C27_duplicate_counterexample",
    "VPdf.C27_cycle_counterexample"
   ],
   "note": "Proved for all noticed modifications of initialised paths in all histories without Merge and without removal of one of several occurrences; counterexamples show that integers, reals, Clear of arrays, the first SetValue of a string, newly created containers, Merge and duplicates are not noticed, and that cycles do not end."
  },
  {
   "property": "C28",
   "status": "partial",
   "theorems": [
    "VPdf.C28_same",
    "VPdf.C28_equal_partial",
    "VPdf.C28_cache_partial",
    "VPdf.C28_history_partial",
    "VPdf.C28_reference_counterexample",
    "VPdf.C28_number_counterexample",
    "VPdf.C28_integer_counterexample",
    "VPdf.C28_clear_counterexample",
    "VPdf.C28_created_counterexample"
   ],
   "note": "Values: proved where no reference meets a direct object and no integer a real. Cache: proved for safe histories. Counterexamples for the rest."
  },
  {
   "property": "C29",
   "status": "partial",
   "theorems": [
    "VPdf.C29_same",
    "VPdf.C29_refl",
    "VPdf.C29_exact_partial",
    "VPdf.C29_symm_partial",
    "VPdf.C29_trans_partial",
    "VPdf.C29_entries",
    "VPdf.C29_reference_counterexample",
    "VPdf.C29_number_counterexample",
    "VPdf.C29_alias_counterexample"
   ],
   "note": "Proved where no reference meets a direct object and no integer a real; counterexamples otherwise (C29_reference_counterexample, C29_number_counterexample, C29_alias_counterexample)."
  },
  {
   "property": "C30",
   "status": "partial",
   "theorems": [
    "VPdf.C30_equal_partial",
    "VPdf.C30_succeeds",
    "VPdf.C30_others",
    "VPdf.C30_disjoint",
    "VPdf.C30_independent_partial",
    "VPdf.C30_change",
    "VPdf.C30_cycle_counterexample"
   ],
   "note": "Proved for all objects, after all histories without Merge; for streams the bodies are in C120 (C120_copy, C120_independent) and the dictionary is one of the objects here. An object that contains itself cannot be cloned (C30_cycle_counterexample)."
  },
  {
   "property": "C31",
   "status": "partial",
   "theorems": [
    "VPdf.C31_recorded_offsets_partial",
    "VPdf.C31_own_entry_counterexample"
   ],
   "note": "Every document of tables and cross-reference streams without object streams; every entry except the one of a cross-reference stream for itself, for which it is false in general (counterexample for every document with such an entry)."
  },
  {
   "property": "C32",
   "status": "partial",
   "theorems": [
    "VPdf.C32_object_streams_partial",
    "VPdf.C32_without_object_streams",
    "VPdf.C32_shared_stream_counterexample",
    "VPdf.C32_packed_length_counterexample",
    "VPdf.C32_saved_document_partial",
    "VPdf.C32_tables_are_saved",
    "VPdf.C32_no_zero_counterexample",
    "VPdf.C32_length_counterexample"
   ],
   "note": "Any number of sections, kinds mixed, any objects and stream bodies; all objects, null for missing ones, and the trailer entries Root, Info, ID, Encrypt. Filters through an abstract codec that is assumed to be reversible. With objects in object streams (C32_object_streams_partial): object streams filled by the writer, objects loaded in any order. Missing: the object streams and cross-reference streams themselves; false for cross-reference streams without object 0, for changed Length references, for object streams that a newer section replaces, for streams whose Length is in an object stream (counterexamples)."
  },
  {
   "property": "C33",
   "status": "proved",
   "theorems": [
    "VPdf.C33_source_is_prefix"
   ],
   "note": "Every source and every state in memory."
  },
  {
   "property": "C34",
   "status": "partial",
   "theorems": [
    "VPdf.C34_chained_partial",
    "VPdf.C34_prev_counterexample",
    "VPdf.C34_no_change_counterexample"
   ],
   "note": "False when the source has a Prev already or nothing was changed (general counterexamples); proved for sources written by a full save of tables and cross-reference streams with one change at least."
  },
  {
   "property": "C35",
   "status": "proved",
   "theorems": [
    "VPdf.C35_any_object_stream",
    "VPdf.C35_text_is_standard",
    "VPdf.C35_objects_read_back"
   ],
   "note": "Reading of any standard text, form of the text written, and the round trip."
  },
  {
   "property": "C36",
   "status": "partial",
   "theorems": [
    "VPdf.C36_one_section",
    "VPdf.C36_newest_partial",
    "VPdf.C36_nothing_else",
    "VPdf.C36_trailer_partial",
    "VPdf.C36_freed_counterexample",
    "VPdf.C36_trailer_counterexample"
   ],
   "note": "False for freed numbers and for trailers of cross-reference streams: C36_freed_counterexample, C36_trailer_counterexample."
  },
  {
   "property": "C37",
   "status": "proved",
   "theorems": [
    "VPdf.C37_exactly_needed",
    "VPdf.C37_exactly_reachable",
    "VPdf.C37_nothing_new",
    "VPdf.C37_no_dangling",
    "VPdf.C37_same_document"
   ],
   "note": "For one section, as after the merge. Needed includes the cross-reference stream and the object streams; C37_exactly_reachable for tables."
  },
  {
   "property": "C38",
   "status": "partial",
   "theorems": [
    "VPdf.C38_numbers",
    "VPdf.C38_order",
    "VPdf.C38_same_document_partial",
    "VPdf.C38_object_partial",
    "VPdf.C38_injective",
    "VPdf.C38_freed",
    "VPdf.C38_null_reference_counterexample"
   ],
   "note": "Missing: references to missing objects, C38_null_reference_counterexample."
  },
  {
   "property": "C39",
   "status": "partial",
   "theorems": [
    "VPdf.C39_same_document_partial",
    "VPdf.C39_unique",
    "VPdf.C39_entries",
    "VPdf.C39_lost_counterexample",
    "VPdf.C39_number_counterexample"
   ],
   "note": "Uniqueness in full. Content kept only when nothing below a duplicate has a duplicate and objects are comparable; C39_lost_counterexample, C39_number_counterexample."
  },
  {
   "property": "C40",
   "status": "proved",
   "theorems": [
    "VPdf.C40_length_entry",
    "VPdf.C40_body_read_back"
   ],
   "note": "Any header, any body, any position; a Length that is a reference must lead to the same number for the reader as for the writer (see C32_length_counterexample)."
  },
  {
   "property": "C41",
   "status": "partial",
   "theorems": [
    "VPdf.C41_size_iff_no_gaps",
    "VPdf.C41_gap_counterexample"
   ],
   "note": "False with gaps in the numbers (counterexample); exact condition proved."
  },
  {
   "property": "C42",
   "status": "partial",
   "theorems": [
    "VPdf.C42_padded_partial",
    "VPdf.C42_long_counterexample"
   ],
   "note": "Proved for passwords of at most 32 bytes; longer ones are undefined behaviour in the code."
  },
  {
   "property": "C43",
   "status": "partial",
   "theorems": [
    "VPdf.C43_own_partial",
    "VPdf.C43_counterexample",
    "VPdf.C43_foreign",
    "VPdf.C43_written_partial",
    "VPdf.C43_incomplete"
   ],
   "note": "The property is false of the code: surplus padding bytes stay behind the data. Data of other producers are decrypted correctly."
  },
  {
   "property": "C44",
   "status": "proved",
   "theorems": [
    "VPdf.C44_round_trip"
   ],
   "note": "Under the laws of Spec.Lawful for the OpenSSL primitives."
  },
  {
   "property": "C45",
   "status": "proved",
   "theorems": [
    "VPdf.C45_derivation",
    "VPdf.C45_distinct",
    "VPdf.C45_large_counterexample"
   ],
   "note": "Within the limits of the format; beyond them numbers collide modulo 2^24."
  },
  {
   "property": "C46",
   "status": "partial",
   "theorems": [
    "VPdf.C46_owner_counterexample",
    "VPdf.C46_foreign_counterexample",
    "VPdf.C46_user_accepted_partial",
    "VPdf.C46_standard_partial",
    "VPdf.C46_owner_accepted_partial",
    "VPdf.C46_entries_partial",
    "VPdf.C46_long_key_counterexample"
   ],
   "note": "Passwords of at most 32 bytes and, for the owner password, keys of at most 40 or exactly 128 bits; other lengths fail in the code."
  },
  {
   "property": "C47",
   "status": "proved",
   "theorems": [
    "VPdf.C47_only_pages",
    "VPdf.C47_count_says",
    "VPdf.C47_page_number"
   ],
   "note": "Every tree of any shape and depth; Type, Kids and Count may be direct or behind one reference. Kids written as direct dictionaries are not modelled."
  },
  {
   "property": "C48",
   "status": "partial",
   "theorems": [
    "VPdf.C48_insert_partial",
    "VPdf.C48_insert_outside",
    "VPdf.C48_append",
    "VPdf.C48_first_page",
    "VPdf.C48_remove_partial",
    "VPdf.C48_remove_outside",
    "VPdf.C48_insert_counterexample",
    "VPdf.C48_remove_counterexample",
    "VPdf.C48_flat_step",
    "VPdf.C48_history_partial"
   ],
   "note": "Append proved for all trees; insertion and removal proved to act on the top-level entries, with counts right afterwards; whole claim proved for histories on flat trees; false for nested trees (counterexamples). Requires Type/Kids/Count direct and no node used twice."
  },
  {
   "property": "C49",
   "status": "partial",
   "theorems": [
    "VPdf.C49_contains",
    "VPdf.C49_outside",
    "VPdf.C49_string_partial",
    "VPdf.C49_array",
    "VPdf.C49_mixed_array",
    "VPdf.C49_long_counterexample",
    "VPdf.C49_overflow_counterexample",
    "VPdf.C49_lengths_counterexample"
   ],
   "note": "Whole claim for ranges with ends of the same length up to 4 bytes, arrays, and string destinations up to 4 bytes when the sum fits; false otherwise (three counterexamples)."
  },
  {
   "property": "C50",
   "status": "proved",
   "theorems": [
    "VPdf.C50_strict_total",
    "VPdf.C50_value_order"
   ],
   "note": "Both orders, all buffers."
  },
  {
   "property": "C51",
   "status": "partial",
   "theorems": [
    "VPdf.C51_schedules_partial",
    "VPdf.C51_last_release",
    "VPdf.C51_counterexample"
   ],
   "note": "All thread counts and schedules with fewer than 2^32 references; false beyond."
  },
  {
   "property": "C52",
   "status": "proved",
   "theorems": [
    "VPdf.C52_accepts",
    "VPdf.C52_range",
    "VPdf.C52_written"
   ],
   "note": "Texts shorter than a full date take the defaults the code gives. Date setters, which change fields and not the text, are the subject of C75."
  },
  {
   "property": "C53",
   "status": "partial",
   "theorems": [
    "VPdf.C53_reads",
    "VPdf.C53_write_read_partial",
    "VPdf.C53_images_partial",
    "VPdf.C53_stable_partial",
    "VPdf.C53_image_counterexample",
    "VPdf.C53_operator_counterexample",
    "VPdf.C53_end_counterexample",
    "VPdf.C53_last_counterexample"
   ],
   "note": "Reading of every rendition is proved; write-then-read is proved without inline images and, with them, up to the added line end; false for all inline images as such (C53_image_counterexample)."
  },
  {
   "property": "C54",
   "status": "proved",
   "theorems": [
    "VPdf.C54_first_line",
    "VPdf.C54_progress",
    "VPdf.C54_line",
    "VPdf.C54_refines",
    "VPdf.C54_behind_end",
    "VPdf.C54_lines"
   ],
   "note": "Line, whole sequence of lines, refinement to the parser's readLine, and the error behind the end."
  },
  {
   "property": "C55",
   "status": "partial",
   "theorems": [
    "VPdf.C55_strings_partial",
    "VPdf.C55_unchanged_streams_partial",
    "VPdf.C55_changed_streams_partial",
    "VPdf.C55_changed_crypt_partial",
    "VPdf.C55_filter_array_counterexample",
    "VPdf.C55_crypt_counterexample",
    "VPdf.C55_crypt_body_partial"
   ],
   "note": "Proved for strings and for streams with at most one filter; arrays of filters and unchanged crypt-filter streams fail in the code."
  },
  {
   "property": "C56",
   "status": "partial",
   "theorems": [
    "VPdf.C56_literal_text_partial",
    "VPdf.C56_eol_counterexample",
    "VPdf.C56_overflow_counterexample",
    "VPdf.C56_digit_counterexample",
    "VPdf.C56_nine_counterexample"
   ],
   "note": "False of the code in four cases, each with a counterexample theorem; proved for all other texts (Spec.LitBody)."
  },
  {
   "property": "C57",
   "status": "partial",
   "theorems": [
    "VPdf.C57_terminates_partial",
    "VPdf.C57_progress_partial",
    "VPdf.C57_counterexample"
   ],
   "note": "Proved for inputs in which no /Length is followed by a minus sign; false in general: a negative stream Length makes the reader re-read the same dictionary forever (C57_counterexample). Stack exhaustion on deep nesting is not modelled."
  },
  {
   "property": "C58",
   "status": "partial",
   "theorems": [
    "VPdf.C58_number_zero_partial",
    "VPdf.C58_number_zero_counterexample"
   ],
   "note": "True when some section has an entry 0, as in files made by the document interface; false for a new file made by the file interface (C58_number_zero_counterexample)."
  },
  {
   "property": "C59",
   "status": "partial",
   "theorems": [
    "VPdf.C59_signed_partial",
    "VPdf.C59_unsigned_counterexample"
   ],
   "note": "Signed 64-bit values; unsigned values from 2^63 are written but refused by the reader (C59_unsigned_counterexample)."
  },
  {
   "property": "C60",
   "status": "proved",
   "theorems": [
    "VPdf.C60_any_table_is_read"
   ],
   "note": "Any text generated by the grammar of Spec/XrefTable.lean, wider than the standard."
  },
  {
   "property": "C61",
   "status": "partial",
   "theorems": [
    "VPdf.C61_short_counterexample",
    "VPdf.C61_any_stream_is_read_partial",
    "VPdf.C61_default_type_counterexample",
    "VPdf.C61_unknown_type_counterexample"
   ],
   "note": "All streams with a type field; counterexamples for a missing type field and for unknown types. Data that end before the announced entries are read past their end (C61_short_counterexample). The entry of the stream itself is in C121."
  },
  {
   "property": "C62",
   "status": "partial",
   "theorems": [
    "VPdf.C62_changes_saved_partial",
    "VPdf.C62_compressed_counterexample",
    "VPdf.C62_history_counterexample",
    "VPdf.C62_older_counterexample"
   ],
   "note": "Sources written by a full save (any number of sections, but the newest trailer without Prev), any changed and added objects that newer sections do not replace. False otherwise: three counterexamples."
  },
  {
   "property": "C63",
   "status": "partial",
   "theorems": [
    "VPdf.C63_load_order_partial",
    "VPdf.C63_no_other_value_partial",
    "VPdf.C63_data_position",
    "VPdf.C63_again_partial",
    "VPdf.C63_length_counterexample",
    "VPdf.C63_stale_object_counterexample"
   ],
   "note": "Proved, over the loader that shares one reader position (fetch), for consistent files in which lengths given by reference are outside object streams and right; false for a file in which an object of an object stream was replaced in a newer section, and for a stream whose length is in an object stream not yet unpacked: its data are then cut short and the length object is overwritten (counterexample theorems)."
  },
  {
   "property": "C64",
   "status": "partial",
   "theorems": [
    "VPdf.C64_index_partial",
    "VPdf.C64_gap_counterexample"
   ],
   "note": "Exact condition proved; false when an index is left out (counterexample theorem)."
  },
  {
   "property": "C65",
   "status": "partial",
   "theorems": [
    "VPdf.C65_optimize_partial"
   ],
   "note": "Hypotheses as in C36, C38, C39, whose counterexamples apply; the same cases through the whole save are counterexamples of C119."
  },
  {
   "property": "C66",
   "status": "partial",
   "theorems": [
    "VPdf.C66_inverted_partial",
    "VPdf.C66_counterexample"
   ],
   "note": "The property is false of the code: the flags are inverted."
  },
  {
   "property": "C67",
   "status": "partial",
   "theorems": [
    "VPdf.C67_counterexample"
   ],
   "note": "The property is false of the code: AES is never used by AddEncryption."
  },
  {
   "property": "C68",
   "status": "partial",
   "theorems": [
    "VPdf.C68_renumbered_partial",
    "VPdf.C68_counterexample"
   ],
   "note": "The property is false of the code for streams that were not accessed before saving."
  },
  {
   "property": "C69",
   "status": "partial",
   "theorems": [
    "VPdf.C69_counterexample",
    "VPdf.C69_terminates_partial"
   ],
   "note": "False for cyclic page trees (counterexample for every depth); holds when the document contains a proper tree."
  },
  {
   "property": "C70",
   "status": "partial",
   "theorems": [
    "VPdf.C70_counterexample",
    "VPdf.C70_prefix_partial"
   ],
   "note": "False (prefixes compare equal); characterised exactly for data without zero bytes."
  },
  {
   "property": "C71",
   "status": "proved",
   "theorems": [
    "VPdf.C71_lookup"
   ],
   "note": "Lookup only; the parser of character maps is not part of this claim."
  },
  {
   "property": "C72",
   "status": "partial",
   "theorems": [
    "VPdf.C72_serial_partial",
    "VPdf.C72_upgrade_partial",
    "VPdf.C72_counterexample",
    "VPdf.C72_resurrect_counterexample"
   ],
   "note": "False under concurrency (two counterexample schedules); proved for uninterrupted calls."
  },
  {
   "property": "C73",
   "status": "partial",
   "theorems": [
    "VPdf.C73_read_partial",
    "VPdf.C73_counterexample"
   ],
   "note": "False for offset -1 with the current position or the end as origin (C73_counterexample); proved for every other offset and every history."
  },
  {
   "property": "C74",
   "status": "partial",
   "theorems": [
    "VPdf.C74_whole",
    "VPdf.C74_write_partial",
    "VPdf.C74_overwrite_partial",
    "VPdf.C74_counterexample",
    "VPdf.C74_history_partial",
    "VPdf.C74_lost_counterexample"
   ],
   "note": "C74_whole is complete. Writing is false once the end was met (C74_counterexample, C74_lost_counterexample). C74_history_partial covers every history in which the stream is positioned for reading between meeting the end and the next write, at places of the content and without the offset -1."
  },
  {
   "property": "C75",
   "status": "partial",
   "theorems": [
    "VPdf.C75_edits_lost_counterexample",
    "VPdf.C75_unread_counterexample",
    "VPdf.C75_edits_partial",
    "VPdf.C75_positions_partial",
    "VPdf.C75_positions_counterexample",
    "VPdf.C75_set_counterexample",
    "VPdf.C75_set_partial"
   ],
   "note": "Proved when the object counts as changed and was read; false otherwise, for all states (counterexamples)."
  },
  {
   "property": "C76",
   "status": "partial",
   "theorems": [
    "VPdf.C76_ends_partial",
    "VPdf.C76_counterexample"
   ],
   "note": "Proved for every input without the characters BI; false with inline images."
  },
  {
   "property": "C77",
   "status": "partial",
   "theorems": [
    "VPdf.C77_streams_partial",
    "VPdf.C77_split_partial",
    "VPdf.C77_counterexample"
   ],
   "note": "Proved for streams whose tokens do not touch at the divisions; false for q|Q."
  },
  {
   "property": "C78",
   "status": "partial",
   "theorems": [
    "VPdf.C78_contains",
    "VPdf.C78_find",
    "VPdf.C78_insert_partial",
    "VPdf.C78_limits_partial",
    "VPdf.C78_merge_duplicate",
    "VPdf.C78_existing_counterexample",
    "VPdf.C78_limits_counterexample",
    "VPdf.C78_merge_counterexample",
    "VPdf.C78_kids_counterexample",
    "VPdf.C78_order_partial",
    "VPdf.C78_order_counterexample",
    "VPdf.C78_cycle_counterexample"
   ],
   "note": "Lookup proved for all well-formed trees; insertion proved for flat roots without Limits and a new key, false otherwise (counterexamples: existing keys, Limits, second insertion, kids, order of non-ASCII keys, cycles)."
  },
  {
   "property": "C79",
   "status": "partial",
   "theorems": [
    "VPdf.C79_labels_counterexample",
    "VPdf.C79_kids_counterexample"
   ],
   "note": "False of the code: the map is keyed by object identity, so no page label is ever found, for trees with and without kids."
  },
  {
   "property": "C80",
   "status": "partial",
   "theorems": [
    "VPdf.C80_copy_partial",
    "VPdf.C80_append_partial",
    "VPdf.C80_only_pages",
    "VPdf.C80_dangling_counterexample",
    "VPdf.C80_inherited_counterexample",
    "VPdf.C80_link_counterexample",
    "VPdf.C80_source_counterexample"
   ],
   "note": "C80_copy_partial: a deep copy is the same seen to any depth, one new object per reachable object, destination unchanged, ends on cycles. C80_append_partial: all pages appended in order with equal content. False: a dangling reference leads into the destination and changes objects there; inherited attributes are lost; links between pages lead to copies that are no pages; the source pages lose Parent. Named destinations are C83 and C78."
  },
  {
   "property": "C81",
   "status": "partial",
   "theorems": [
    "VPdf.C81_signed_partial",
    "VPdf.C81_outcome",
    "VPdf.C81_again_counterexample",
    "VPdf.C81_to_file"
   ],
   "note": "Proved for the signature that is being made. C81_again_counterexample: when a document is signed twice while it is in memory, the first signature dictionary is saved with blanks and has no Contents."
  },
  {
   "property": "C82",
   "status": "partial",
   "theorems": [
    "VPdf.C82_read_partial",
    "VPdf.C82_char",
    "VPdf.C82_range_partial",
    "VPdf.C82_count",
    "VPdf.C82_integer_counterexample",
    "VPdf.C82_dict_counterexample"
   ],
   "note": "Proved for all texts of the grammar; C82_integer_counterexample and C82_dict_counterexample show two standard forms that make the whole map unreadable. C82_range_partial has the limits of C49."
  },
  {
   "property": "C83",
   "status": "partial",
   "theorems": [
    "VPdf.C83_find",
    "VPdf.C83_append_partial",
    "VPdf.C83_conflict",
    "VPdf.C83_number",
    "VPdf.C83_bad_counterexample",
    "VPdf.C83_shared_counterexample"
   ],
   "note": "C83_append_partial: after appending all pages, each name that shows page j leads to the new page j with the same view and entries; old names kept; no others. C83_find: such a name is found. C83_conflict (any documents): success means no name was used twice. False: entries that are no destination or have a page number make all pages fail; D by reference is not copied and changes an unrelated object."
  },
  {
   "property": "C84",
   "status": "partial",
   "theorems": [
    "VPdf.C84_recover_partial",
    "VPdf.C84_open_partial",
    "VPdf.C84_ends_partial",
    "VPdf.C84_truncated_counterexample",
    "VPdf.C84_garbage_counterexample",
    "VPdf.C84_split_counterexample",
    "VPdf.C84_unended_counterexample",
    "VPdf.C84_trailer_counterexample",
    "VPdf.C84_stale_counterexample",
    "VPdf.C84_hang_counterexample"
   ],
   "note": "C84_recover_partial: for files of complete objects, trailers, other lines, the last object of each number is found with its value, data and offset, others are null, last trailer. C84_open_partial: opening falls back to it. C84_ends_partial: ends unless some /Length is followed by a minus sign. False otherwise: see the seven counterexamples (truncated, foreign text, split head, missing endobj, linearized trailer, stale cross-reference stream, endless search)."
  },
  {
   "property": "C85",
   "status": "partial",
   "theorems": [
    "VPdf.C85_changed",
    "VPdf.C85_plain",
    "VPdf.C85_rc4_partial",
    "VPdf.C85_unfiltered_partial",
    "VPdf.C85_unsupported_counterexample",
    "VPdf.C85_clear_counterexample",
    "VPdf.C85_length_counterexample"
   ],
   "note": "Proved for changed streams, documents without encryption, ciphers other than AES, and streams without filters. False for unchanged streams with filters in AES documents: C85_unsupported_counterexample (save fails), C85_length_counterexample (Length of other data), C85_clear_counterexample (filter arrays written unencrypted)."
  },
  {
   "property": "C86",
   "status": "partial",
   "theorems": [
    "VPdf.C86_document",
    "VPdf.C86_strings",
    "VPdf.C86_streams_partial",
    "VPdf.C86_save_counterexample",
    "VPdf.C86_flate_counterexample",
    "VPdf.C86_undecodable_counterexample"
   ],
   "note": "Trailer, entries and strings in full; streams without filters or with unchanged size (all ciphers but AES). False for other streams: C86_save_counterexample, C86_flate_counterexample (predictor and Length), C86_undecodable_counterexample."
  },
  {
   "property": "C87",
   "status": "partial",
   "theorems": [
    "VPdf.C87_inflate",
    "VPdf.C87_deflate",
    "VPdf.C87_round_trip",
    "VPdf.C87_damaged",
    "VPdf.C87_truncated_counterexample",
    "VPdf.C87_lost_counterexample"
   ],
   "note": "Proved for every compressor and decompressor that keeps the contract of zlib.h; false for truncated data, which decompress without an error, and for data damaged in the first block, whose contents before the damage are lost."
  },
  {
   "property": "C88",
   "status": "partial",
   "theorems": [
    "VPdf.C88_walk_partial",
    "VPdf.C88_kept_partial",
    "VPdf.C88_unchanged",
    "VPdf.C88_remove_counterexample",
    "VPdf.C88_release_counterexample",
    "VPdf.C88_collection_partial",
    "VPdf.C88_collection_counterexample",
    "VPdf.C88_position_counterexample"
   ],
   "note": "Proved for dictionaries and every client that does not remove the entry being shown, clear the dictionary or give up its reference during the loop, and for collections that are not changed; the other cases are undefined in the code."
  },
  {
   "property": "C89",
   "status": "partial",
   "theorems": [
    "VPdf.C89_values_partial",
    "VPdf.C89_noticed_partial",
    "VPdf.C89_set_noticed",
    "VPdf.C89_insert_counterexample",
    "VPdf.C89_insert_const_counterexample",
    "VPdf.C89_constant_counterexample",
    "VPdf.C89_lookup_counterexample"
   ],
   "note": "Proved for clients that change no name once a dictionary has it, or a copy of it, as a key; false otherwise, because copies of names share their text and their counter of weak references."
  },
  {
   "property": "C90",
   "status": "partial",
   "theorems": [
    "VPdf.C90_no_deadlock_partial",
    "VPdf.C90_all_return_partial",
    "VPdf.C90_one_thread",
    "VPdf.C90_locks_free",
    "VPdf.C90_unlock_own",
    "VPdf.C90_length_counterexample",
    "VPdf.C90_packed_length_counterexample",
    "VPdf.C90_compare_counterexample"
   ],
   "note": "Proved for files in which no stream has a reference as its Length and the object streams are at offsets, and for references compared in one order; in the other cases two threads can wait for each other for ever (three counterexamples). One thread alone never waits, in any file."
  },
  {
   "property": "C91",
   "status": "partial",
   "theorems": [
    "VPdf.C91_stored",
    "VPdf.C91_once_partial",
    "VPdf.C91_updated_counterexample"
   ],
   "note": "That the objects are stored is proved for all files; that they are stored once is proved for objects in one place in files without lengths that are references, and false for updated objects that an old object stream lists."
  },
  {
   "property": "C92",
   "status": "partial",
   "theorems": [
    "VPdf.C92_one_writer_partial",
    "VPdf.C92_flag_counterexample"
   ],
   "note": "Proved for two threads that store an object. The flag is tested without the lock, so that a test races with a store in every file."
  },
  {
   "property": "C93",
   "status": "partial",
   "theorems": [
    "VPdf.C93_ends_partial",
    "VPdf.C93_sequence_partial",
    "VPdf.C93_length_cycle_counterexample",
    "VPdf.C93_stream_cycle_counterexample"
   ],
   "note": "Proved for files in which no object is read with the help of itself and no length is negative (a rank decreases). Proved false of files with cycles of lengths, and of an object stream that contains its own N. A test (checkGrounded) decides the hypothesis for a concrete file."
  },
  {
   "property": "C94",
   "status": "partial",
   "theorems": [
    "VPdf.C94_message_partial",
    "VPdf.C94_long_counterexample",
    "VPdf.C94_returned_counterexample",
    "VPdf.C94_unknown_counterexample",
    "VPdf.C94_printable"
   ],
   "note": "Proved for failures that are exceptions with messages of at most 254 bytes, over all interleavings. Proved false of longer messages, of failures that are no exceptions and of exceptions that are no std::exception."
  },
  {
   "property": "C95",
   "status": "partial",
   "theorems": [
    "VPdf.C95_end_partial",
    "VPdf.C95_sequence_partial",
    "VPdf.C95_memory_partial",
    "VPdf.C95_cycle_counterexample",
    "VPdf.C95_ends_or_cycles"
   ],
   "note": "Proved for all chains that end. For all chains that do not end: the first request fails with an error, and it is proved that the second one exhausts the stack."
  },
  {
   "property": "C96",
   "status": "partial",
   "theorems": [
    "VPdf.C96_history_partial",
    "VPdf.C96_dates",
    "VPdf.C96_again_counterexample",
    "VPdf.C96_producer_counterexample",
    "VPdf.C96_date_counterexample",
    "VPdf.C96_empty_date_counterexample",
    "VPdf.C96_file",
    "VPdf.C96_trapped",
    "VPdf.C96_texts"
   ],
   "note": "Refinement proved over histories in which each entry is set once and was not there, with dates whose string says what their fields say. Proved false of entries that are there and of dates changed by hand, for all values. The entries in the file and their reading are proved against the table of the standard."
  },
  {
   "property": "C97",
   "status": "partial",
   "theorems": [
    "VPdf.C97_one",
    "VPdf.C97_open_partial",
    "VPdf.C97_failure_counterexample",
    "VPdf.C97_link_counterexample",
    "VPdf.C97_closed"
   ],
   "note": "Proved over all histories: one document for each file, links are looked up in it. Opening is proved for addresses where nothing failed before; proved false after a failure at the address or a link without a document, for all histories before and after. A file without handles and documents is proved to be closed."
  },
  {
   "property": "C98",
   "status": "partial",
   "theorems": [
    "VPdf.C98_kind_partial",
    "VPdf.C98_kind_only",
    "VPdf.C98_kind_counterexample",
    "VPdf.C98_none",
    "VPdf.C98_page",
    "VPdf.C98_link",
    "VPdf.C98_nowhere"
   ],
   "note": "Links and the order of annotations proved in full over the model (one reference is followed). Kinds proved for all names of the standard but Stamp, TrapNet and 3D, for which the claim is proved false: every such annotation is refused."
  },
  {
   "property": "C99",
   "status": "partial",
   "theorems": [
    "VPdf.C99_setting",
    "VPdf.C99_only",
    "VPdf.C99_missing",
    "VPdf.C99_version",
    "VPdf.C99_ranges_partial",
    "VPdf.C99_ranges_reference_partial",
    "VPdf.C99_ranges_counterexample"
   ],
   "note": "Settings and version proved in full over the model. Of the ranges of pages only the number and the first range; for every other range in ascending order the claim is proved false."
  },
  {
   "property": "C100",
   "status": "partial",
   "theorems": [
    "VPdf.C100_walk_partial",
    "VPdf.C100_begin",
    "VPdf.C100_title",
    "VPdf.C100_parent_counterexample",
    "VPdf.C100_flags",
    "VPdf.C100_color"
   ],
   "note": "Refinement proved for all outlines and all walks in which Parent is asked for at items at the top only. For every item below another item the claim is proved false: its parent is reported as an outline and cannot be used as an item."
  },
  {
   "property": "C101",
   "status": "partial",
   "theorems": [
    "VPdf.C101_last",
    "VPdf.C101_others",
    "VPdf.C101_clone",
    "VPdf.C101_integer",
    "VPdf.C101_unsigned_partial",
    "VPdf.C101_unsigned_counterexample",
    "VPdf.C101_fraction",
    "VPdf.C101_integral",
    "VPdf.C101_limit_counterexample",
    "VPdf.C101_text_partial",
    "VPdf.C101_rounded",
    "VPdf.C101_precision_counterexample",
    "VPdf.C101_exponent_counterexample",
    "VPdf.C101_bit"
   ],
   "note": "Sharing, clones and bits proved over all histories; texts proved for numbers whose precision covers their digits or, without precision, of common size. The remaining cases are proved false: rounding to an old precision, exponents, unsigned 2^63-1, real 2^63. Doubles are decimal numbers in the model."
  },
  {
   "property": "C102",
   "status": "partial",
   "theorems": [
    "VPdf.C102_own_partial",
    "VPdf.C102_integers",
    "VPdf.C102_fraction_counterexample",
    "VPdf.C102_inherited_counterexample",
    "VPdf.C102_missing",
    "VPdf.C102_set"
   ],
   "note": "Own boxes and boxes that are set are proved for all pages, up to fractions. Loss of fractions and of inherited boxes is proved."
  },
  {
   "property": "C103",
   "status": "partial",
   "theorems": [
    "VPdf.C103_plain_partial",
    "VPdf.C103_others",
    "VPdf.C103_unprotected",
    "VPdf.C103_password",
    "VPdf.C103_answer",
    "VPdf.C103_locked_counterexample",
    "VPdf.C103_again_counterexample",
    "VPdf.C103_form_counterexample",
    "VPdf.C103_literal_counterexample",
    "VPdf.C103_kid_counterexample"
   ],
   "note": "Signatures of fields that belong to other fields are decrypted (C103_kid_counterexample); files whose catalog is in an object stream cannot be opened unless the user password is empty, and a second attempt succeeds without exempting signatures (C103_locked_counterexample); forms that refer to missing objects or signatures with literal contents make opening fail (C103_form_counterexample, C103_literal_counterexample). Everything else is proved in both directions; after any failure, further attempts to open report success (C103_again_counterexample)."
  },
  {
   "property": "C104",
   "status": "partial",
   "theorems": [
    "VPdf.C104_form",
    "VPdf.C104_fields_partial",
    "VPdf.C104_fields_only",
    "VPdf.C104_inherited_counterexample",
    "VPdf.C104_kids_counterexample",
    "VPdf.C104_unknown",
    "VPdf.C104_value",
    "VPdf.C104_texts",
    "VPdf.C104_time",
    "VPdf.C104_contents",
    "VPdf.C104_ranges_partial",
    "VPdf.C104_ranges_counterexample",
    "VPdf.C104_hole_counterexample",
    "VPdf.C104_odd"
   ],
   "note": "Fields that inherit their kind are shown as groups (C104_inherited_counterexample), fields below others are not shown (C104_kids_counterexample), and the second byte range is wrong for every signature: ByteRangeCollection::GetValue(i) takes the items i and i+1 instead of 2i and 2i+1 (C104_ranges_counterexample, C104_hole_counterexample). The rest is proved in general."
  },
  {
   "property": "C105",
   "status": "partial",
   "theorems": [
    "VPdf.C105_resources_partial",
    "VPdf.C105_inherited_counterexample",
    "VPdf.C105_lookup",
    "VPdf.C105_fonts",
    "VPdf.C105_unicode",
    "VPdf.C105_parent_counterexample",
    "VPdf.C105_extensions_partial",
    "VPdf.C105_no_extensions",
    "VPdf.C105_type_counterexample"
   ],
   "note": "Inherited resources are reported missing (C105_inherited_counterexample); PageObject_GetParent hands out a PageTreeNode as a PageTree, so that every use is undefined (C105_parent_counterexample); a Type entry breaks the iteration over extensions (C105_type_counterexample). The rest is proved in general."
  },
  {
   "property": "C106",
   "status": "partial",
   "theorems": [
    "VPdf.C106_accept",
    "VPdf.C106_history",
    "VPdf.C106_data_partial",
    "VPdf.C106_limit_counterexample",
    "VPdf.C106_serial_counterexample",
    "VPdf.C106_updates_counterexample"
   ],
   "note": "The signed content is owner, note, serial, date and limit written one after another without separators: limits can be removed (C106_limit_counterexample), refused numbers hidden (C106_serial_counterexample) and dates replaced (C106_updates_counterexample) with the signature still valid. C106_data_partial: not if the lengths stay the same. The rest is proved in general."
  },
  {
   "property": "C107",
   "status": "partial",
   "theorems": [
    "VPdf.C107_source_partial",
    "VPdf.C107_source_counterexample",
    "VPdf.C107_target",
    "VPdf.C107_rows_partial",
    "VPdf.C107_rows_counterexample",
    "VPdf.C107_samples_partial",
    "VPdf.C107_samples_counterexample",
    "VPdf.C107_grid_counterexample",
    "VPdf.C107_depth_counterexample",
    "VPdf.C107_skip_counterexample"
   ],
   "note": "Reads behind the data for every JPEG that ends early (C107_source_counterexample), behind the samples for JPEG 2000 images with an offset or a coarser grid (C107_grid_counterexample, C107_samples_counterexample), zeros for two components (C107_rows_counterexample), no images beyond eight bits (C107_depth_counterexample), wrong answers to skipping (C107_skip_counterexample). The rest is proved in general. The decoders themselves are not modelled."
  },
  {
   "property": "C108",
   "status": "partial",
   "theorems": [
    "VPdf.C108_history_partial",
    "VPdf.C108_answers",
    "VPdf.C108_overwrite_counterexample",
    "VPdf.C108_clone",
    "VPdf.C108_separate",
    "VPdf.C108_text",
    "VPdf.C108_body_partial",
    "VPdf.C108_body_counterexample",
    "VPdf.C108_retry_counterexample",
    "VPdf.C108_body_clone",
    "VPdf.C108_encode",
    "VPdf.C108_encode_counterexample"
   ],
   "note": "Lists, text, copies and encoding proved for all histories; false for overwriting, for images whose list has facts already, and for bodies longer than the image."
  },
  {
   "property": "C109",
   "status": "partial",
   "theorems": [
    "VPdf.C109_unlock_partial",
    "VPdf.C109_refuse",
    "VPdf.C109_short_counterexample",
    "VPdf.C109_metadata_counterexample",
    "VPdf.C109_length_counterexample",
    "VPdf.C109_password_counterexample",
    "VPdf.C109_named_counterexample",
    "VPdf.C109_later_counterexample",
    "VPdf.C109_custom_counterexample",
    "VPdf.C109_pkcs12",
    "VPdf.C109_padding_counterexample"
   ],
   "note": "Proved for encrypted metadata, the length in the encryption dictionary (or in the crypt filter for AESV3), the crypt filter DefaultCryptFilter and contents of at least twenty bytes. Outside these the property is false: unencrypted metadata, lengths in the crypt filter for V2 and AESV2, other crypt filters, password files, short contents, short custom keys, an envelope for the key that does not open before one that does, and wrapped keys of another length."
  },
  {
   "property": "C110",
   "status": "partial",
   "theorems": [
    "VPdf.C110_custom",
    "VPdf.C110_custom_signs",
    "VPdf.C110_cleanup_counterexample",
    "VPdf.C110_history_partial",
    "VPdf.C110_again_counterexample",
    "VPdf.C110_unlock_counterexample",
    "VPdf.C110_load_partial",
    "VPdf.C110_password_counterexample"
   ],
   "note": "The protocol is proved for all keys and all answers of callbacks. For keys from PKCS#12 the property is proved for all histories without a signature; after one signature it is false, and so it is for every password that is not empty and for a cleanup that fails. OpenSSL is a parameter."
  },
  {
   "property": "C111",
   "status": "partial",
   "theorems": [
    "VPdf.C111_licensed",
    "VPdf.C111_marked_partial",
    "VPdf.C111_reads",
    "VPdf.C111_inherited_counterexample",
    "VPdf.C111_shared_counterexample",
    "VPdf.C111_cycle_counterexample",
    "VPdf.C111_body_counterexample",
    "VPdf.C111_empty_counterexample"
   ],
   "note": "Proved for all finite page trees whose pages share no streams and whose entries have the right types. False for inherited resources, shared streams, cycles, streams that cannot be decoded and pages without contents. Not modelled: Kids that are no array, Type that is no name."
  },
  {
   "property": "C112",
   "status": "partial",
   "theorems": [
    "VPdf.C112_lookup_partial",
    "VPdf.C112_merge_partial",
    "VPdf.C112_hidden_counterexample",
    "VPdf.C112_overlap_counterexample",
    "VPdf.C112_copy_partial",
    "VPdf.C112_self_counterexample",
    "VPdf.C112_written",
    "VPdf.C112_lost_counterexample",
    "VPdf.C112_oldest_counterexample",
    "VPdf.C112_size_counterexample"
   ],
   "note": "Proved for tables without entries for the hidden objects and for hybrid streams listed in a table. False for hidden objects free in the table, objects in both, streams that list themselves only, and unmerged files. The bytes of the sections are in Writer (tables) and XrefStream (streams)."
  },
  {
   "property": "C113",
   "status": "partial",
   "theorems": [
    "VPdf.C113_file",
    "VPdf.C113_incremental",
    "VPdf.C113_told_partial",
    "VPdf.C113_cancel_partial",
    "VPdf.C113_told_incremental_partial",
    "VPdf.C113_finalizing_counterexample",
    "VPdf.C113_released_counterexample",
    "VPdf.C113_reuse_counterexample",
    "VPdf.C113_self_counterexample"
   ],
   "note": "The file: proved for all callbacks. What is told, and cancelling: proved for callbacks that do not change the set of observers. False for observers that are released or reuse an address, for those that unsubscribe themselves, and for the end of a save that is cancelled. Callbacks that change objects are not modelled here (the one that signs is in Signing)."
  },
  {
   "property": "C114",
   "status": "proved",
   "theorems": [
    "VPdf.C114_new_document"
   ],
   "note": "For the calls named in the statement. Streams (contents of pages), entries that are replaced or removed, the entry Parent set by the client, and pages of other documents are not among them. The file must be shorter than 2^63 bytes to be opened, which is a hypothesis on that part only. Codecs must be faithful, as in C32; the document has no streams."
  },
  {
   "property": "C115",
   "status": "partial",
   "theorems": [
    "VPdf.C115_document_partial",
    "VPdf.C115_objects_partial",
    "VPdf.C115_aes_counterexample",
    "VPdf.C115_streams_partial",
    "VPdf.C115_changed_streams_partial"
   ],
   "note": "For RC4; objects of which all strings or none are exempt; sections without object streams; streams without crypt filters; changed streams with at most one filter. False for AES (C115_aes_counterexample)."
  },
  {
   "property": "C116",
   "status": "partial",
   "theorems": [
    "VPdf.C116_clear_counterexample",
    "VPdf.C116_unreadable_counterexample",
    "VPdf.C116_streams_partial",
    "VPdf.C116_changed_streams_counterexample"
   ],
   "note": "False of the code: WriteIncremental never calls SetEncryptionData, so changed strings and streams are written in clear (C116_clear_counterexample, C116_changed_streams_counterexample) and read as garbage afterwards (C116_unreadable_counterexample). The partial theorem is for streams whose data were not decoded."
  },
  {
   "property": "C117",
   "status": "partial",
   "theorems": [
    "VPdf.C117_objects",
    "VPdf.C117_destination",
    "VPdf.C117_stream_entries",
    "VPdf.C117_plain_streams",
    "VPdf.C117_decoded_streams_partial",
    "VPdf.C117_encrypted_source_counterexample",
    "VPdf.C117_encrypted_target_counterexample",
    "VPdf.C117_saved_plain_objects",
    "VPdf.C117_saved_objects_partial",
    "VPdf.C117_compressed_counterexample",
    "VPdf.C117_saved_streams_partial",
    "VPdf.C117_saved_source_counterexample",
    "VPdf.C117_saved_target_counterexample"
   ],
   "note": "Full for what is read from objects and dictionaries of streams (C117_objects, C117_stream_entries), for the other objects of the destination (C117_destination), and for streams when neither document is encrypted. Streams that were not decoded before copying keep the bytes of the source: they read as cipher in a destination that is not encrypted (C117_encrypted_source_counterexample, C117_saved_source_counterexample) and are deciphered with the wrong key in an encrypted one, where they are saved in clear if the source is not encrypted (C117_encrypted_target_counterexample, C117_saved_target_counterexample). Objects out of object streams are written in clear to encrypted destinations (C117_compressed_counterexample). RC4 for saved files."
  },
  {
   "property": "C118",
   "status": "partial",
   "theorems": [
    "VPdf.C118_signing_partial",
    "VPdf.C118_settings",
    "VPdf.C118_shown",
    "VPdf.C118_earlier_fields",
    "VPdf.C118_pages",
    "VPdf.C118_names_counterexample",
    "VPdf.C118_failure_counterexample",
    "VPdf.C118_shared_counterexample",
    "VPdf.C118_dangling_counterexample"
   ],
   "note": "Full for documents whose page, catalog, annotations, form, flags and fields are different objects (or direct), and whose references lead to objects. False for names: the field is always called Signature1 (C118_names_counterexample, general). False for failures: every signing that fails with a key leaves a new object (C118_failure_counterexample, general). False for lists shared by page and form, and for forms that are dangling references (two concrete counterexamples). The bytes of the signature are in C81."
  },
  {
   "property": "C119",
   "status": "partial",
   "theorems": [
    "VPdf.C119_saved_partial",
    "VPdf.C119_distinct_partial",
    "VPdf.C119_is_saved",
    "VPdf.C119_freed_counterexample",
    "VPdf.C119_dangling_counterexample",
    "VPdf.C119_twins_counterexample",
    "VPdf.C119_number_counterexample"
   ],
   "note": "For documents of tables (any number of revisions) whose sections agree on which numbers are free, without references to missing objects, whose objects can be compared, and without duplicates below duplicates; C119_distinct_partial states it for documents without equal objects in terms of the document alone. C119_is_saved: such documents are saved if stream lengths are direct. False otherwise: C119_freed_counterexample, C119_dangling_counterexample, C119_twins_counterexample, C119_number_counterexample (each through the written file). Cross-reference streams (see C36_trailer_counterexample) and object streams are missing."
  },
  {
   "property": "C120",
   "status": "partial",
   "theorems": [
    "VPdf.C120_body_partial",
    "VPdf.C120_unchanged",
    "VPdf.C120_copy",
    "VPdf.C120_independent",
    "VPdf.C120_unread_counterexample",
    "VPdf.C120_null_counterexample",
    "VPdf.C120_self_counterexample",
    "VPdf.C120_reading_counterexample"
   ],
   "note": "Shown bodies, unchanged streams, copies and independence in full; written data for no filter and Flate without predictor (C12). False: C120_unread_counterexample (general), C120_null_counterexample (general), C120_self_counterexample (general, undefined behaviour), C120_reading_counterexample (reading the body makes writing fail). One thread, no encryption, attributes left out."
  },
  {
   "property": "C121",
   "status": "partial",
   "theorems": [
    "VPdf.C121_newest",
    "VPdf.C121_requests_partial",
    "VPdf.C121_replaced_counterexample",
    "VPdf.C121_freed_counterexample",
    "VPdf.C121_circular_counterexample"
   ],
   "note": "The newest trailer for all files (C121_newest); requests for all histories in which the number of an unlisted stream belongs to nothing else. False without this: C121_replaced_counterexample (general: the old stream hides the newer object), C121_freed_counterexample (general: the file cannot be opened by its sections). A circular chain is never opened (C121_circular_counterexample, general; the code reads sections until memory ends)."
  },
  {
   "property": "C122",
   "status": "partial",
   "theorems": [
    "VPdf.C122_null_partial",
    "VPdf.C122_use_partial",
    "VPdf.C122_result_partial",
    "VPdf.C122_program_partial",
    "VPdf.C122_exceptions_partial",
    "VPdf.C122_convert",
    "VPdf.C122_null_counterexample",
    "VPdf.C122_filter_counterexample",
    "VPdf.C122_result_counterexample"
   ],
   "note": "Null arguments for all functions but five (C122_null_counterexample: PageContents_RecalculateStreamData, PageLabel_Prefix/Start/Style, DictionaryObject_Remove); use of handles and sequences of calls for all but these and the Decode functions of six filter types, which take every filter for the Flate filter (C122_filter_counterexample); results for all but four (C122_result_counterexample: the components of outline colours are real numbers handed out as integers, the parent of a page a node handed out as a tree). Exceptions are reported by all functions that have no statements outside of try (646 of 738); of the 92 others the model does not say whether these statements can throw. Use after release is C51. What the functions do in their work is in the other models."
  },
  {
   "property": "C123",
   "status": "partial",
   "theorems": [
    "VPdf.C123_value",
    "VPdf.C123_encoded",
    "VPdf.C123_refused",
    "VPdf.C123_looking",
    "VPdf.C123_self_counterexample"
   ],
   "note": "All sequences of calls, literal and hexadecimal strings. Setting a string to its own buffer is undefined behaviour (C123_self_counterexample). Encoded literal text without carriage returns and unknown escapes (LitBody, as in C56). Without encryption (C55), in one thread."
  },
  {
   "property": "C124",
   "status": "partial",
   "theorems": [
    "VPdf.C124_messages_partial",
    "VPdf.C124_severity_partial",
    "VPdf.C124_accepted",
    "VPdf.C124_first_partial",
    "VPdf.C124_replace_counterexample",
    "VPdf.C124_shutdown_counterexample",
    "VPdf.C124_nested_counterexample",
    "VPdf.C124_one_thread",
    "VPdf.C124_threads_partial",
    "VPdf.C124_race_counterexample",
    "VPdf.C124_late_counterexample",
    "VPdf.C124_replace_race_counterexample"
   ],
   "note": "All histories without undefined calls; with threads, all interleavings: a callback is run by one thread at a time (C124_one_thread), nothing is undefined without shutting down and replacing (C124_threads_partial). False: replacing a callback always fails (C124_replace_counterexample), each message after a shutdown is undefined behaviour (C124_shutdown_counterexample), so is one being written during it (C124_race_counterexample, C124_replace_race_counterexample), and a message caused by a callback (C124_nested_counterexample). spdlog is modelled from its documented behaviour; patterns and rotation of files are not modelled."
  },
  {
   "property": "C125",
   "status": "partial",
   "theorems": [
    "VPdf.C125_history_partial",
    "VPdf.C125_same",
    "VPdf.C125_read_counterexample",
    "VPdf.C125_write_counterexample",
    "VPdf.C125_lost_counterexample"
   ],
   "note": "Files have one position for reading and writing: C125_read_counterexample and C125_write_counterexample, for every content; and after its end was met a file drops what is written (C125_lost_counterexample, for every history). Proved for all histories in which the program positions whenever it changes between reading and writing (C125_history_partial, C125_same). What the C++ standard leaves open (a read directly after a write and vice versa) is modelled as libstdc++ does it."
  },
  {
   "property": "C126",
   "status": "partial",
   "theorems": [
    "VPdf.C126_history_partial",
    "VPdf.C126_defined_partial",
    "VPdf.C126_lifetime",
    "VPdf.C126_no_leak",
    "VPdf.C126_position_counterexample",
    "VPdf.C126_self_counterexample"
   ],
   "note": "Answers, lifetimes and absence of leaks for all histories of programs that use what they hold, insert and remove at positions up to the end and set no buffer from its own memory. False otherwise: C126_position_counterexample (insertion and removal behind the end of any list are undefined), C126_self_counterexample. Counters of fewer than 2^32 references (C51), one thread."
  },
  {
   "property": "C127",
   "status": "partial",
   "theorems": [
    "VPdf.C127_recovered_partial",
    "VPdf.C127_never_another",
    "VPdf.C127_again",
    "VPdf.C127_changed_counterexample",
    "VPdf.C127_order_counterexample",
    "VPdf.C127_lost_counterexample"
   ],
   "note": "Never another object, and the same object when asked again: all files and histories. The right object, whatever was asked before: files whose revisions list, in any disorder, the numbers their objects carry and can be read. False otherwise: C127_order_counterexample (an object that is not listed is null until another request has started the recovery), C127_changed_counterexample (two lines that lead to one number: the answer changes after a failed request for another number), C127_lost_counterexample (one line that cannot be read makes the request fail and the exchanged objects null from then on). Objects in object streams and hybrid sections are left out; the hash set is the one of GCC, which keeps hash codes."
  },
  {
   "property": "C128",
   "status": "partial",
   "theorems": [
    "VPdf.C128_kind_partial",
    "VPdf.C128_text",
    "VPdf.C128_apart",
    "VPdf.C128_stream_partial",
    "VPdf.C128_type_counterexample"
   ],
   "note": "The kind and the text of the operator: all operations, all texts, all content streams that denote instructions. False for the type of the operation: C128_type_counterexample (every operator but BT, ET, Tf, Tj, TJ, BI, ID, EI gives the generic type, although a type for it exists)."
  },
  {
   "property": "C129",
   "status": "partial",
   "theorems": [
    "VPdf.C129_missing_partial",
    "VPdf.C129_wrong_partial",
    "VPdf.C129_return_counterexample"
   ],
   "note": "All files, dictionaries and data without the word endstream, for endstream at the beginning of a line and endobj on another line; a wrong length must lead to something that can be read as a token. False for data that end with a carriage return in front of a single line feed: C129_return_counterexample. The data are those of the file."
  }
 ]
}