# Axioms each property theorem depends on

Output of `#print axioms`, grouped (`python3 tools/axioms.py`).

## none

* `VPdf.C14_signed_counterexample`
* `VPdf.C36_trailer_counterexample`
* `VPdf.C75_set_counterexample`
* `VPdf.C75_set_partial`
* `VPdf.C88_collection_counterexample`
* `VPdf.C94_returned_counterexample`
* `VPdf.C94_unknown_counterexample`
* `VPdf.C101_unsigned_counterexample`
* `VPdf.C110_load_partial`
* `VPdf.C110_password_counterexample`

## propext

* `VPdf.C01_name_roundtrip`
* `VPdf.C01_name_decode_encode`
* `VPdf.C01_name_injective`
* `VPdf.C06_failing_peek_counterexample`
* `VPdf.C08_null_is_absent`
* `VPdf.C11_paeth_predictor`
* `VPdf.C24_sound`
* `VPdf.C24_cycle_counterexample`
* `VPdf.C24_file_counterexample`
* `VPdf.C26_access`
* `VPdf.C27_cycle_counterexample`
* `VPdf.C29_entries`
* `VPdf.C32_no_zero_counterexample`
* `VPdf.C32_length_counterexample`
* `VPdf.C36_one_section`
* `VPdf.C38_numbers`
* `VPdf.C38_order`
* `VPdf.C38_null_reference_counterexample`
* `VPdf.C41_gap_counterexample`
* `VPdf.C45_derivation`
* `VPdf.C49_mixed_array`
* `VPdf.C49_overflow_counterexample`
* `VPdf.C49_lengths_counterexample`
* `VPdf.C53_operator_counterexample`
* `VPdf.C53_end_counterexample`
* `VPdf.C53_last_counterexample`
* `VPdf.C54_behind_end`
* `VPdf.C56_eol_counterexample`
* `VPdf.C56_overflow_counterexample`
* `VPdf.C56_digit_counterexample`
* `VPdf.C56_nine_counterexample`
* `VPdf.C58_number_zero_counterexample`
* `VPdf.C70_counterexample`
* `VPdf.C72_counterexample`
* `VPdf.C72_resurrect_counterexample`
* `VPdf.C73_counterexample`
* `VPdf.C75_edits_lost_counterexample`
* `VPdf.C75_positions_partial`
* `VPdf.C76_counterexample`
* `VPdf.C77_counterexample`
* `VPdf.C84_truncated_counterexample`
* `VPdf.C84_garbage_counterexample`
* `VPdf.C84_split_counterexample`
* `VPdf.C84_unended_counterexample`
* `VPdf.C84_trailer_counterexample`
* `VPdf.C84_stale_counterexample`
* `VPdf.C88_remove_counterexample`
* `VPdf.C92_flag_counterexample`
* `VPdf.C96_again_counterexample`
* `VPdf.C96_producer_counterexample`
* `VPdf.C97_one`
* `VPdf.C97_open_partial`
* `VPdf.C97_failure_counterexample`
* `VPdf.C97_link_counterexample`
* `VPdf.C98_page`
* `VPdf.C99_ranges_reference_partial`
* `VPdf.C104_unknown`
* `VPdf.C105_parent_counterexample`
* `VPdf.C107_rows_counterexample`
* `VPdf.C108_overwrite_counterexample`
* `VPdf.C108_separate`
* `VPdf.C108_body_clone`
* `VPdf.C111_licensed`
* `VPdf.C111_cycle_counterexample`
* `VPdf.C118_earlier_fields`
* `VPdf.C118_shared_counterexample`
* `VPdf.C118_dangling_counterexample`
* `VPdf.C121_circular_counterexample`
* `VPdf.C122_result_partial`
* `VPdf.C122_convert`
* `VPdf.C122_filter_counterexample`
* `VPdf.C122_result_counterexample`
* `VPdf.C123_self_counterexample`
* `VPdf.C124_accepted`
* `VPdf.C124_first_partial`
* `VPdf.C124_shutdown_counterexample`
* `VPdf.C125_write_counterexample`

## propext, Classical.choice, Quot.sound

* `VPdf.C02_literal_roundtrip`
* `VPdf.C02_literal_injective`
* `VPdf.C03_hex_any_text`
* `VPdf.C04_object_roundtrip`
* `VPdf.C04_text_is_standard`
* `VPdf.C04_indirect_roundtrip`
* `VPdf.C04_write_injective`
* `VPdf.C04_null_entries`
* `VPdf.C04_null_entries_meaning`
* `VPdf.C04_followed`
* `VPdf.C07_any_rendition`
* `VPdf.C07_any_rendition_end`
* `VPdf.C07_leading_separators`
* `VPdf.C07_unambiguous`
* `VPdf.C08_first_nonnull_value`
* `VPdf.C09_stream_partial`
* `VPdf.C09_hexadecimal_text_partial`
* `VPdf.C09_inverts_encoding`
* `VPdf.C09_odd_counterexample`
* `VPdf.C10_stream_partial`
* `VPdf.C10_decodes_base85_partial`
* `VPdf.C10_decodes_base85_wrapping`
* `VPdf.C10_overflow_counterexample`
* `VPdf.C11_average_rows_counterexample`
* `VPdf.C11_paeth_rows_counterexample`
* `VPdf.C11_predictor_inverts_png_partial`
* `VPdf.C12_mixed_chain`
* `VPdf.C13_value_preserved`
* `VPdf.C13_error_only_if_unfit_partial`
* `VPdf.C13_maximum_counterexample`
* `VPdf.C14_addition_exact`
* `VPdf.C14_addition_error_iff`
* `VPdf.C14_narrow_destination_counterexample`
* `VPdf.C14_multiplication`
* `VPdf.C15_write_partial`
* `VPdf.C15_roundtrip_partial`
* `VPdf.C15_writer_width_fits`
* `VPdf.C15_content_width_fits_partial`
* `VPdf.C16_section_is_map`
* `VPdf.C16_results`
* `VPdf.C17_newest_match`
* `VPdf.C17_missing`
* `VPdf.C18_number_is_fresh`
* `VPdf.C18_never_twice`
* `VPdf.C18_allocation_effect`
* `VPdf.C19_others_unchanged`
* `VPdf.C19_released_unreachable_partial`
* `VPdf.C19_release_succeeds`
* `VPdf.C19_older_revision_counterexample`
* `VPdf.C19_hybrid_counterexample`
* `VPdf.C20_roundtrip_partial`
* `VPdf.C20_text_is_standard_partial`
* `VPdf.C20_line_has_twenty_bytes`
* `VPdf.C20_unused_counterexample`
* `VPdf.C21_exact`
* `VPdf.C21_roundtrip_partial`
* `VPdf.C21_writer_widths`
* `VPdf.C21_lowest_number_counterexample`
* `VPdf.C22_any_ending`
* `VPdf.C22_roundtrip`
* `VPdf.C22_far_counterexample`
* `VPdf.C24_finite_chain_partial`
* `VPdf.C24_decreasing_partial`
* `VPdf.C25_history_partial`
* `VPdf.C25_iteration`
* `VPdf.C25_overwrite_counterexample`
* `VPdf.C25_merge_counterexample`
* `VPdf.C26_history`
* `VPdf.C27_marks_partial`
* `VPdf.C27_marks_stay`
* `VPdf.C27_ends`
* `VPdf.C28_equal_partial`
* `VPdf.C28_cache_partial`
* `VPdf.C28_history_partial`
* `VPdf.C29_same`
* `VPdf.C29_refl`
* `VPdf.C29_exact_partial`
* `VPdf.C29_symm_partial`
* `VPdf.C29_trans_partial`
* `VPdf.C29_reference_counterexample`
* `VPdf.C30_equal_partial`
* `VPdf.C30_succeeds`
* `VPdf.C30_others`
* `VPdf.C30_disjoint`
* `VPdf.C30_independent_partial`
* `VPdf.C30_change`
* `VPdf.C31_recorded_offsets_partial`
* `VPdf.C32_object_streams_partial`
* `VPdf.C32_without_object_streams`
* `VPdf.C32_saved_document_partial`
* `VPdf.C32_tables_are_saved`
* `VPdf.C33_source_is_prefix`
* `VPdf.C34_chained_partial`
* `VPdf.C34_prev_counterexample`
* `VPdf.C34_no_change_counterexample`
* `VPdf.C35_any_object_stream`
* `VPdf.C35_text_is_standard`
* `VPdf.C35_objects_read_back`
* `VPdf.C36_newest_partial`
* `VPdf.C36_trailer_partial`
* `VPdf.C36_freed_counterexample`
* `VPdf.C37_exactly_needed`
* `VPdf.C37_exactly_reachable`
* `VPdf.C37_no_dangling`
* `VPdf.C37_same_document`
* `VPdf.C38_same_document_partial`
* `VPdf.C38_object_partial`
* `VPdf.C38_injective`
* `VPdf.C38_freed`
* `VPdf.C39_same_document_partial`
* `VPdf.C39_unique`
* `VPdf.C39_entries`
* `VPdf.C40_length_entry`
* `VPdf.C40_body_read_back`
* `VPdf.C41_size_iff_no_gaps`
* `VPdf.C43_own_partial`
* `VPdf.C43_counterexample`
* `VPdf.C43_foreign`
* `VPdf.C43_written_partial`
* `VPdf.C43_incomplete`
* `VPdf.C44_round_trip`
* `VPdf.C46_owner_counterexample`
* `VPdf.C46_user_accepted_partial`
* `VPdf.C46_standard_partial`
* `VPdf.C46_owner_accepted_partial`
* `VPdf.C46_entries_partial`
* `VPdf.C46_long_key_counterexample`
* `VPdf.C47_page_number`
* `VPdf.C48_insert_partial`
* `VPdf.C48_append`
* `VPdf.C48_first_page`
* `VPdf.C48_remove_partial`
* `VPdf.C48_remove_outside`
* `VPdf.C48_insert_counterexample`
* `VPdf.C48_remove_counterexample`
* `VPdf.C48_flat_step`
* `VPdf.C48_history_partial`
* `VPdf.C49_contains`
* `VPdf.C49_outside`
* `VPdf.C49_string_partial`
* `VPdf.C49_array`
* `VPdf.C49_long_counterexample`
* `VPdf.C50_value_order`
* `VPdf.C51_schedules_partial`
* `VPdf.C51_last_release`
* `VPdf.C52_accepts`
* `VPdf.C52_range`
* `VPdf.C52_written`
* `VPdf.C53_reads`
* `VPdf.C53_write_read_partial`
* `VPdf.C53_images_partial`
* `VPdf.C53_stable_partial`
* `VPdf.C53_image_counterexample`
* `VPdf.C54_line`
* `VPdf.C54_refines`
* `VPdf.C54_lines`
* `VPdf.C55_strings_partial`
* `VPdf.C55_unchanged_streams_partial`
* `VPdf.C55_changed_streams_partial`
* `VPdf.C55_changed_crypt_partial`
* `VPdf.C55_crypt_body_partial`
* `VPdf.C56_literal_text_partial`
* `VPdf.C57_terminates_partial`
* `VPdf.C57_progress_partial`
* `VPdf.C58_number_zero_partial`
* `VPdf.C59_signed_partial`
* `VPdf.C59_unsigned_counterexample`
* `VPdf.C60_any_table_is_read`
* `VPdf.C61_short_counterexample`
* `VPdf.C61_any_stream_is_read_partial`
* `VPdf.C61_default_type_counterexample`
* `VPdf.C61_unknown_type_counterexample`
* `VPdf.C62_changes_saved_partial`
* `VPdf.C63_load_order_partial`
* `VPdf.C63_no_other_value_partial`
* `VPdf.C63_data_position`
* `VPdf.C63_again_partial`
* `VPdf.C64_index_partial`
* `VPdf.C65_optimize_partial`
* `VPdf.C66_inverted_partial`
* `VPdf.C66_counterexample`
* `VPdf.C68_renumbered_partial`
* `VPdf.C69_terminates_partial`
* `VPdf.C72_serial_partial`
* `VPdf.C72_upgrade_partial`
* `VPdf.C73_read_partial`
* `VPdf.C74_whole`
* `VPdf.C74_write_partial`
* `VPdf.C74_overwrite_partial`
* `VPdf.C74_counterexample`
* `VPdf.C74_history_partial`
* `VPdf.C75_edits_partial`
* `VPdf.C77_streams_partial`
* `VPdf.C77_split_partial`
* `VPdf.C78_contains`
* `VPdf.C78_find`
* `VPdf.C78_insert_partial`
* `VPdf.C78_limits_partial`
* `VPdf.C78_merge_duplicate`
* `VPdf.C78_existing_counterexample`
* `VPdf.C78_limits_counterexample`
* `VPdf.C78_merge_counterexample`
* `VPdf.C78_kids_counterexample`
* `VPdf.C78_order_partial`
* `VPdf.C79_labels_counterexample`
* `VPdf.C80_copy_partial`
* `VPdf.C80_append_partial`
* `VPdf.C81_signed_partial`
* `VPdf.C81_outcome`
* `VPdf.C81_again_counterexample`
* `VPdf.C81_to_file`
* `VPdf.C82_read_partial`
* `VPdf.C82_char`
* `VPdf.C82_range_partial`
* `VPdf.C82_count`
* `VPdf.C82_integer_counterexample`
* `VPdf.C82_dict_counterexample`
* `VPdf.C83_find`
* `VPdf.C83_append_partial`
* `VPdf.C83_conflict`
* `VPdf.C83_number`
* `VPdf.C84_recover_partial`
* `VPdf.C84_open_partial`
* `VPdf.C84_ends_partial`
* `VPdf.C85_changed`
* `VPdf.C85_plain`
* `VPdf.C85_rc4_partial`
* `VPdf.C85_unfiltered_partial`
* `VPdf.C85_unsupported_counterexample`
* `VPdf.C85_clear_counterexample`
* `VPdf.C85_length_counterexample`
* `VPdf.C86_document`
* `VPdf.C86_streams_partial`
* `VPdf.C86_save_counterexample`
* `VPdf.C86_flate_counterexample`
* `VPdf.C88_walk_partial`
* `VPdf.C88_kept_partial`
* `VPdf.C88_unchanged`
* `VPdf.C88_collection_partial`
* `VPdf.C89_values_partial`
* `VPdf.C89_noticed_partial`
* `VPdf.C89_set_noticed`
* `VPdf.C89_insert_counterexample`
* `VPdf.C89_insert_const_counterexample`
* `VPdf.C89_constant_counterexample`
* `VPdf.C91_stored`
* `VPdf.C91_once_partial`
* `VPdf.C92_one_writer_partial`
* `VPdf.C93_ends_partial`
* `VPdf.C93_sequence_partial`
* `VPdf.C93_length_cycle_counterexample`
* `VPdf.C93_stream_cycle_counterexample`
* `VPdf.C95_end_partial`
* `VPdf.C95_sequence_partial`
* `VPdf.C95_memory_partial`
* `VPdf.C95_cycle_counterexample`
* `VPdf.C95_ends_or_cycles`
* `VPdf.C96_history_partial`
* `VPdf.C96_dates`
* `VPdf.C96_date_counterexample`
* `VPdf.C96_empty_date_counterexample`
* `VPdf.C96_file`
* `VPdf.C96_trapped`
* `VPdf.C97_closed`
* `VPdf.C98_kind_only`
* `VPdf.C98_link`
* `VPdf.C98_nowhere`
* `VPdf.C99_only`
* `VPdf.C99_version`
* `VPdf.C100_walk_partial`
* `VPdf.C101_last`
* `VPdf.C101_others`
* `VPdf.C101_clone`
* `VPdf.C101_integer`
* `VPdf.C101_unsigned_partial`
* `VPdf.C101_fraction`
* `VPdf.C101_integral`
* `VPdf.C101_limit_counterexample`
* `VPdf.C101_text_partial`
* `VPdf.C101_rounded`
* `VPdf.C101_precision_counterexample`
* `VPdf.C101_exponent_counterexample`
* `VPdf.C101_bit`
* `VPdf.C102_own_partial`
* `VPdf.C102_integers`
* `VPdf.C102_fraction_counterexample`
* `VPdf.C102_set`
* `VPdf.C103_plain_partial`
* `VPdf.C103_others`
* `VPdf.C103_unprotected`
* `VPdf.C103_password`
* `VPdf.C103_answer`
* `VPdf.C103_locked_counterexample`
* `VPdf.C103_again_counterexample`
* `VPdf.C103_form_counterexample`
* `VPdf.C103_literal_counterexample`
* `VPdf.C103_kid_counterexample`
* `VPdf.C104_time`
* `VPdf.C104_hole_counterexample`
* `VPdf.C105_resources_partial`
* `VPdf.C105_fonts`
* `VPdf.C105_unicode`
* `VPdf.C106_accept`
* `VPdf.C106_history`
* `VPdf.C106_data_partial`
* `VPdf.C106_limit_counterexample`
* `VPdf.C106_serial_counterexample`
* `VPdf.C106_updates_counterexample`
* `VPdf.C107_source_partial`
* `VPdf.C107_source_counterexample`
* `VPdf.C107_samples_counterexample`
* `VPdf.C107_grid_counterexample`
* `VPdf.C107_depth_counterexample`
* `VPdf.C108_clone`
* `VPdf.C108_encode`
* `VPdf.C108_encode_counterexample`
* `VPdf.C109_pkcs12`
* `VPdf.C110_custom`
* `VPdf.C111_marked_partial`
* `VPdf.C111_reads`
* `VPdf.C112_lookup_partial`
* `VPdf.C112_merge_partial`
* `VPdf.C112_hidden_counterexample`
* `VPdf.C112_overlap_counterexample`
* `VPdf.C112_copy_partial`
* `VPdf.C112_self_counterexample`
* `VPdf.C113_released_counterexample`
* `VPdf.C113_reuse_counterexample`
* `VPdf.C113_self_counterexample`
* `VPdf.C114_new_document`
* `VPdf.C115_document_partial`
* `VPdf.C115_objects_partial`
* `VPdf.C115_aes_counterexample`
* `VPdf.C115_streams_partial`
* `VPdf.C115_changed_streams_partial`
* `VPdf.C116_clear_counterexample`
* `VPdf.C116_unreadable_counterexample`
* `VPdf.C116_streams_partial`
* `VPdf.C116_changed_streams_counterexample`
* `VPdf.C117_objects`
* `VPdf.C117_destination`
* `VPdf.C117_stream_entries`
* `VPdf.C117_plain_streams`
* `VPdf.C117_decoded_streams_partial`
* `VPdf.C117_encrypted_source_counterexample`
* `VPdf.C117_encrypted_target_counterexample`
* `VPdf.C117_saved_plain_objects`
* `VPdf.C117_saved_objects_partial`
* `VPdf.C117_compressed_counterexample`
* `VPdf.C117_saved_streams_partial`
* `VPdf.C117_saved_source_counterexample`
* `VPdf.C117_saved_target_counterexample`
* `VPdf.C118_signing_partial`
* `VPdf.C118_settings`
* `VPdf.C118_failure_counterexample`
* `VPdf.C119_saved_partial`
* `VPdf.C119_distinct_partial`
* `VPdf.C119_is_saved`
* `VPdf.C120_body_partial`
* `VPdf.C120_unchanged`
* `VPdf.C121_newest`
* `VPdf.C121_requests_partial`
* `VPdf.C121_replaced_counterexample`
* `VPdf.C121_freed_counterexample`
* `VPdf.C123_value`
* `VPdf.C123_encoded`
* `VPdf.C124_messages_partial`
* `VPdf.C124_severity_partial`
* `VPdf.C124_replace_counterexample`
* `VPdf.C124_nested_counterexample`
* `VPdf.C125_history_partial`
* `VPdf.C125_same`
* `VPdf.C125_read_counterexample`
* `VPdf.C126_history_partial`
* `VPdf.C126_defined_partial`
* `VPdf.C126_lifetime`
* `VPdf.C126_no_leak`
* `VPdf.C127_recovered_partial`
* `VPdf.C127_changed_counterexample`
* `VPdf.C127_order_counterexample`
* `VPdf.C127_lost_counterexample`
* `VPdf.C128_apart`
* `VPdf.C128_stream_partial`
* `VPdf.C129_missing_partial`
* `VPdf.C129_wrong_partial`
* `VPdf.C129_return_counterexample`

## propext, Quot.sound

* `VPdf.C01_name_text_regular`
* `VPdf.C02_text_is_standard`
* `VPdf.C03_hex_roundtrip`
* `VPdf.C05_token_progress`
* `VPdf.C05_tokenizing_terminates`
* `VPdf.C06_cache_unobservable`
* `VPdf.C06_peeks_are_transparent_partial`
* `VPdf.C06_peek_is_next_read`
* `VPdf.C06_peek_skip`
* `VPdf.C06_tokens_partial`
* `VPdf.C11_average_counterexample`
* `VPdf.C11_paeth_counterexample`
* `VPdf.C11_small_pixel_counterexample`
* `VPdf.C11_odd_pixel_counterexample`
* `VPdf.C12_encode_decode_partial`
* `VPdf.C12_stores_or_reports`
* `VPdf.C12_order_counterexample`
* `VPdf.C12_predictor_counterexample`
* `VPdf.C15_wide_field_counterexample`
* `VPdf.C23_header_found`
* `VPdf.C23_roundtrip`
* `VPdf.C23_unsupported`
* `VPdf.C23_major_counterexample`
* `VPdf.C24_prev_entry`
* `VPdf.C25_refused`
* `VPdf.C26_out_of_range`
* `VPdf.C27_entry`
* `VPdf.C27_integer_counterexample`
* `VPdf.C27_real_counterexample`
* `VPdf.C27_clear_counterexample`
* `VPdf.C27_string_counterexample`
* `VPdf.C27_created_counterexample`
* `VPdf.C27_new_name`
* `VPdf.C27_merge_counterexample`
* `VPdf.C27_duplicate_counterexample`
* `VPdf.C28_same`
* `VPdf.C28_reference_counterexample`
* `VPdf.C28_number_counterexample`
* `VPdf.C28_integer_counterexample`
* `VPdf.C28_clear_counterexample`
* `VPdf.C28_created_counterexample`
* `VPdf.C29_number_counterexample`
* `VPdf.C29_alias_counterexample`
* `VPdf.C30_cycle_counterexample`
* `VPdf.C31_own_entry_counterexample`
* `VPdf.C32_shared_stream_counterexample`
* `VPdf.C32_packed_length_counterexample`
* `VPdf.C36_nothing_else`
* `VPdf.C37_nothing_new`
* `VPdf.C39_lost_counterexample`
* `VPdf.C39_number_counterexample`
* `VPdf.C42_padded_partial`
* `VPdf.C42_long_counterexample`
* `VPdf.C45_distinct`
* `VPdf.C45_large_counterexample`
* `VPdf.C46_foreign_counterexample`
* `VPdf.C47_only_pages`
* `VPdf.C47_count_says`
* `VPdf.C48_insert_outside`
* `VPdf.C50_strict_total`
* `VPdf.C51_counterexample`
* `VPdf.C54_first_line`
* `VPdf.C54_progress`
* `VPdf.C55_filter_array_counterexample`
* `VPdf.C55_crypt_counterexample`
* `VPdf.C57_counterexample`
* `VPdf.C62_compressed_counterexample`
* `VPdf.C62_history_counterexample`
* `VPdf.C62_older_counterexample`
* `VPdf.C63_length_counterexample`
* `VPdf.C63_stale_object_counterexample`
* `VPdf.C64_gap_counterexample`
* `VPdf.C67_counterexample`
* `VPdf.C68_counterexample`
* `VPdf.C69_counterexample`
* `VPdf.C70_prefix_partial`
* `VPdf.C71_lookup`
* `VPdf.C74_lost_counterexample`
* `VPdf.C75_unread_counterexample`
* `VPdf.C75_positions_counterexample`
* `VPdf.C76_ends_partial`
* `VPdf.C78_order_counterexample`
* `VPdf.C78_cycle_counterexample`
* `VPdf.C79_kids_counterexample`
* `VPdf.C80_only_pages`
* `VPdf.C80_dangling_counterexample`
* `VPdf.C80_inherited_counterexample`
* `VPdf.C80_link_counterexample`
* `VPdf.C80_source_counterexample`
* `VPdf.C83_bad_counterexample`
* `VPdf.C83_shared_counterexample`
* `VPdf.C84_hang_counterexample`
* `VPdf.C86_strings`
* `VPdf.C86_undecodable_counterexample`
* `VPdf.C87_inflate`
* `VPdf.C87_deflate`
* `VPdf.C87_round_trip`
* `VPdf.C87_damaged`
* `VPdf.C87_truncated_counterexample`
* `VPdf.C87_lost_counterexample`
* `VPdf.C88_release_counterexample`
* `VPdf.C88_position_counterexample`
* `VPdf.C89_lookup_counterexample`
* `VPdf.C90_no_deadlock_partial`
* `VPdf.C90_all_return_partial`
* `VPdf.C90_one_thread`
* `VPdf.C90_locks_free`
* `VPdf.C90_unlock_own`
* `VPdf.C90_length_counterexample`
* `VPdf.C90_packed_length_counterexample`
* `VPdf.C90_compare_counterexample`
* `VPdf.C91_updated_counterexample`
* `VPdf.C94_message_partial`
* `VPdf.C94_long_counterexample`
* `VPdf.C94_printable`
* `VPdf.C96_texts`
* `VPdf.C98_kind_partial`
* `VPdf.C98_kind_counterexample`
* `VPdf.C98_none`
* `VPdf.C99_setting`
* `VPdf.C99_missing`
* `VPdf.C99_ranges_partial`
* `VPdf.C99_ranges_counterexample`
* `VPdf.C100_begin`
* `VPdf.C100_title`
* `VPdf.C100_parent_counterexample`
* `VPdf.C100_flags`
* `VPdf.C100_color`
* `VPdf.C102_inherited_counterexample`
* `VPdf.C102_missing`
* `VPdf.C104_form`
* `VPdf.C104_fields_partial`
* `VPdf.C104_fields_only`
* `VPdf.C104_inherited_counterexample`
* `VPdf.C104_kids_counterexample`
* `VPdf.C104_value`
* `VPdf.C104_texts`
* `VPdf.C104_contents`
* `VPdf.C104_ranges_partial`
* `VPdf.C104_ranges_counterexample`
* `VPdf.C104_odd`
* `VPdf.C105_inherited_counterexample`
* `VPdf.C105_lookup`
* `VPdf.C105_extensions_partial`
* `VPdf.C105_no_extensions`
* `VPdf.C105_type_counterexample`
* `VPdf.C107_target`
* `VPdf.C107_rows_partial`
* `VPdf.C107_samples_partial`
* `VPdf.C107_skip_counterexample`
* `VPdf.C108_history_partial`
* `VPdf.C108_answers`
* `VPdf.C108_text`
* `VPdf.C108_body_partial`
* `VPdf.C108_body_counterexample`
* `VPdf.C108_retry_counterexample`
* `VPdf.C109_unlock_partial`
* `VPdf.C109_refuse`
* `VPdf.C109_short_counterexample`
* `VPdf.C109_metadata_counterexample`
* `VPdf.C109_length_counterexample`
* `VPdf.C109_password_counterexample`
* `VPdf.C109_named_counterexample`
* `VPdf.C109_later_counterexample`
* `VPdf.C109_custom_counterexample`
* `VPdf.C109_padding_counterexample`
* `VPdf.C110_custom_signs`
* `VPdf.C110_cleanup_counterexample`
* `VPdf.C110_history_partial`
* `VPdf.C110_again_counterexample`
* `VPdf.C110_unlock_counterexample`
* `VPdf.C111_inherited_counterexample`
* `VPdf.C111_shared_counterexample`
* `VPdf.C111_body_counterexample`
* `VPdf.C111_empty_counterexample`
* `VPdf.C112_written`
* `VPdf.C112_lost_counterexample`
* `VPdf.C112_oldest_counterexample`
* `VPdf.C112_size_counterexample`
* `VPdf.C113_file`
* `VPdf.C113_incremental`
* `VPdf.C113_told_partial`
* `VPdf.C113_cancel_partial`
* `VPdf.C113_told_incremental_partial`
* `VPdf.C113_finalizing_counterexample`
* `VPdf.C118_shown`
* `VPdf.C118_pages`
* `VPdf.C118_names_counterexample`
* `VPdf.C119_freed_counterexample`
* `VPdf.C119_dangling_counterexample`
* `VPdf.C119_twins_counterexample`
* `VPdf.C119_number_counterexample`
* `VPdf.C120_copy`
* `VPdf.C120_independent`
* `VPdf.C120_unread_counterexample`
* `VPdf.C120_null_counterexample`
* `VPdf.C120_self_counterexample`
* `VPdf.C120_reading_counterexample`
* `VPdf.C122_null_partial`
* `VPdf.C122_use_partial`
* `VPdf.C122_program_partial`
* `VPdf.C122_exceptions_partial`
* `VPdf.C122_null_counterexample`
* `VPdf.C123_refused`
* `VPdf.C123_looking`
* `VPdf.C124_one_thread`
* `VPdf.C124_threads_partial`
* `VPdf.C124_race_counterexample`
* `VPdf.C124_late_counterexample`
* `VPdf.C124_replace_race_counterexample`
* `VPdf.C125_lost_counterexample`
* `VPdf.C126_position_counterexample`
* `VPdf.C126_self_counterexample`
* `VPdf.C127_never_another`
* `VPdf.C127_again`
* `VPdf.C128_kind_partial`
* `VPdf.C128_text`
* `VPdf.C128_type_counterexample`
