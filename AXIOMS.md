# Axioms of the claim theorems

As reported by `collectAxioms` for every theorem `cNN_...` (namespace `Abieos`, C65 in `Abieos.Ship`). P = propext, Q = Quot.sound, C = Classical.choice.

## no axioms

`c10_epoch`, `c72_add`, `c72_sub`

## P

`c03_hex_error`, `c05_char_to_value`, `c30_unknown_member_same`, `c44_constants`, `c44_tables`, `c72_milliseconds`, `c72_seconds`

## QP

`c01_varuint32_too_big`, `c03_hex_accepts_iff`, `c03_hex_reencode`, `c03_hex_roundtrip`, `c03_unhex_same`, `c07_ctor`, `c09_history_exact`, `c12_monotone`, `c12_slot_roundtrip`, `c12_slot_seconds`, `c17_decimal_to_binary_accepts`, `c17_decimal_to_binary_iff`, `c17_uint128`, `c30_same_congruence`, `c43_binary_accepts`, `c47_equal`, `c47_leaf`, `c47_lexicographic`, `c51_static_read`, `c57_extension`, `c62_elements`, `c62_empty`, `c62_numbers_differ`, `c62_of_stream`, `c62_unpack`, `c63_no_variant_target`, `c72_sec_add`, `c72_sec_sub`

## CQP

`c01_leb128`, `c01_varuint32_exact`, `c01_varuint32_malformed`, `c01_varuint32_read`, `c01_varuint32_roundtrip`, `c01_varuint64_exact`, `c01_varuint64_read`, `c01_varuint64_reads_varuint32`, `c02_varint32_exact`, `c02_varint32_roundtrip`, `c02_varint32_short`, `c02_zigzag`, `c03_hex_digits`, `c04_name_injective`, `c04_name_roundtrip`, `c04_text_exact`, `c04_text_roundtrip`, `c05_lenient_agrees`, `c05_lenient_total`, `c05_literal`, `c05_literal_valid`, `c05_strict_accepts_iff`, `c06_name_order`, `c06_text_order`, `c07_code_parse`, `c07_code_print`, `c07_code_roundtrip`, `c07_code_text_exact`, `c07_length`, `c07_symbol_code_is_valid`, `c07_symbol_is_valid`, `c07_symbol_parse`, `c07_symbol_print`, `c07_symbol_roundtrip`, `c07_text_roundtrip`, `c08_parse`, `c08_parse_only`, `c08_print`, `c08_roundtrip`, `c08_text_exact`, `c09_add`, `c09_compare`, `c09_ctor`, `c09_div`, `c09_div_asset`, `c09_div_rounds`, `c09_ext_add`, `c09_ext_compare`, `c09_ext_equal`, `c09_ext_neg`, `c09_failed_add_leaves_result`, `c09_history`, `c09_mul`, `c09_neg`, `c09_sub`, `c10_consecutive`, `c10_date_roundtrip`, `c10_days_roundtrip`, `c10_from_days`, `c10_from_days_valid`, `c10_to_days`, `c11_block_timestamp_roundtrip`, `c11_day_product_in_range`, `c11_microseconds_iff`, `c11_parse_microseconds`, `c11_parse_seconds`, `c11_parse_seconds_shape`, `c11_print`, `c11_seconds_iff`, `c11_text_exact`, `c11_time_point_roundtrip`, `c11_time_point_sec_roundtrip`, `c12_next`, `c12_slot_time`, `c12_time_to_slot`, `c13_accepts`, `c13_roundtrip`, `c13_text_roundtrip`, `c13_value`, `c14_private_key`, `c14_private_key_format`, `c14_public_key`, `c14_public_key_format`, `c14_public_key_ripemd`, `c14_signature`, `c14_signature_format`, `c14_text`, `c15_mismatch`, `c15_private_key`, `c15_public_key`, `c15_signature`, `c15_wif`, `c15_wif_short`, `c15_wif_unchecked`, `c16_from_json_int_error`, `c16_from_json_int_iff`, `c16_int_buffer`, `c16_int_roundtrip`, `c16_printed`, `c16_text_exact`, `c17_binary_to_decimal`, `c17_int128`, `c17_negate`, `c17_print128`, `c17_roundtrip`, `c18_json_string_injective`, `c18_json_string_round_trip`, `c18_json_string_well_formed`, `c18_patch`, `c18_text_exact`, `c19_convert`, `c19_double`, `c19_order`, `c19_strict`, `c20_concat`, `c20_equivalent`, `c20_injective`, `c20_prefix_free`, `c21_injective`, `c21_rewrite`, `c21_roundtrip`, `c22_errors`, `c22_two_passes`, `c23_within_input`, `c24_no_alias_cycles`, `c24_no_inheritance_cycles`, `c24_resolved`, `c24_terminates`, `c25_alternatives`, `c25_builtin_names`, `c25_builtins`, `c25_extended_asset`, `c25_loads`, `c25_meaning`, `c25_meaning_unique`, `c25_names`, `c25_structs`, `c25_typedefs`, `c25_variants`, `c26_conversions`, `c26_found`, `c26_keeps`, `c26_lookup`, `c26_resolved`, `c26_same_answer`, `c27_json_bin_json`, `c28_bin_json_bin`, `c28_exact_for_encoder_output`, `c29_ordered_to_reorderable`, `c29_reorderable_to_ordered`, `c30_permuted_members`, `c30_permuted_members_same`, `c30_same_documents_same_result`, `c30_unknown_member`, `c31_parses`, `c31_well_formed`, `c32_bin_to_json_terminates`, `c32_ordered_step_bound`, `c32_ordered_terminates`, `c32_reorderable_terminates`, `c33_bin_to_json_exact`, `c33_bin_to_json_stack_bounded`, `c33_bin_to_json_too_deep`, `c33_ordered_stack_bounded`, `c33_ordered_too_deep`, `c34_extra_data`, `c34_reads_prefix`, `c35_ordered_all_present`, `c35_ordered_omits_only_tail`, `c35_reorderable_all_present`, `c35_reorderable_omits_only_tail`, `c36_ordered_is_encoding`, `c36_reorderable_is_encoding`, `c37_last_value_wins`, `c37_ordered_refuses_repeated_keys`, `c37_reorderable_last_value_wins`, `c38_defined`, `c38_failed_load`, `c38_null_context`, `c38_reported`, `c38_returns`, `c39_action`, `c39_bin_to_json`, `c39_hex_to_json`, `c39_isolated`, `c39_json_to_bin`, `c39_json_to_bin_reorderable`, `c39_load_iff`, `c39_not_loaded`, `c39_table`, `c40_failed`, `c40_getters`, `c40_hex_then_decode`, `c40_kept`, `c41_every_storable`, `c41_format`, `c41_generic_read`, `c41_generic_write`, `c41_reread`, `c41_roundtrip`, `c41_storable`, `c41_without_trailing_section`, `c42_export`, `c42_lookup_conversions`, `c42_same_conversions`, `c42_same_structure`, `c42_same_types`, `c43_array_roundtrip`, `c43_binary`, `c43_builtin_decode`, `c43_builtin_encode`, `c43_bytes_roundtrip`, `c43_bytes_unique`, `c43_construct`, `c43_extract`, `c43_from_bytes`, `c43_json`, `c43_json_accepts`, `c43_order`, `c43_to_bytes`, `c43_words_unique`, `c44_chunks`, `c44_length`, `c44_split`, `c44_suffix`, `c45_ascii_block`, `c45_first_byte_ignored`, `c45_hash_name`, `c45_murmur`, `c45_never_rejected`, `c45_short`, `c45_short_injective`, `c46_length`, `c46_no_dot`, `c46_parts`, `c46_rejoin`, `c47_nested`, `c47_operators`, `c47_total`, `c48_float_injective`, `c48_float_nearest`, `c48_print_injective`, `c48_print_nearest`, `c48_print_special`, `c48_widen`, `c48_widen_special`, `c49_print_length`, `c49_print_overflow`, `c50_reads_description`, `c50_unique`, `c51_bin_to_json`, `c51_call_bin_to_json`, `c51_call_hex_to_json`, `c51_call_huge_array`, `c51_call_json_to_bin`, `c51_call_long_double`, `c51_call_smallest_amount`, `c51_call_undefined`, `c51_date`, `c51_huge_array`, `c51_json_to_bin`, `c51_json_to_bin_reorderable`, `c51_long_double`, `c51_smallest_amount`, `c51_static_rewrite`, `c52_binary_to_text`, `c52_bool`, `c52_scalar_to_binary`, `c52_text_to_binary`, `c52_times`, `c53_read_iff`, `c53_reads`, `c53_string`, `c53_unambiguous`, `c53_utf8`, `c53_written`, `c54_alike`, `c54_compact`, `c54_indented`, `c54_only`, `c54_prints`, `c54_prints_example`, `c54_prints_read`, `c54_same_document`, `c55_injective`, `c55_members`, `c55_reads_back`, `c55_reads_document`, `c56_adds`, `c56_again`, `c56_ends`, `c56_keeps`, `c56_name`, `c56_only`, `c56_resolved`, `c57_prefix_free`, `c57_rewrite`, `c57_roundtrip`, `c57_within`, `c57_written`, `c58_bin_to_json`, `c58_json_to_bin`, `c58_json_to_bin_ordered`, `c58_written_bin`, `c58_written_json`, `c58_written_json_ordered`, `c59_bin_json_bin`, `c59_double`, `c59_float`, `c59_json_bin_json`, `c60_bin_to_json`, `c60_json_to_bin`, `c60_json_to_bin_reorderable`, `c61_bin_to_json`, `c61_bin_to_json_fails`, `c61_hex_to_json`, `c61_scalar`, `c62_delayed`, `c62_numbers`, `c62_skips`, `c62_stop`, `c62_write`, `c63_copy`, `c63_members`, `c63_serialize_as`, `c63_there_and_back`, `c64_accepts`, `c64_convert`, `c64_set`, `c64_set_order`, `c64_unique`, `c64_written`, `c65_names`, `c65_nested`, `c65_request`, `c65_rewrite`, `c65_round_trip`, `c65_status`, `c65_status_result`, `c66_budget`, `c66_defined`, `c66_events`, `c66_json_to_bin`, `c66_no_bytes`, `c66_reorderable`, `c66_set_abi`, `c67_binary`, `c67_document`, `c67_load`, `c67_names`, `c67_no_data`, `c67_no_such`, `c67_no_type`, `c67_no_type_any`, `c67_not_hex`, `c67_not_loaded`, `c67_reader_messages`, `c67_type_or_reason`, `c67_version`, `c68_definition`, `c68_extra`, `c68_final`, `c68_native`, `c68_native_final`, `c68_native_maybe`, `c68_truncated`, `c69_names_back`, `c69_numbers_back`, `c69_run`, `c69_unknown_option`, `c70_ordered`, `c70_reorderable`, `c71_binary`, `c71_hex`, `c72_add_mono`, `c72_add_sub`, `c72_compare`, `c72_compare_sec`, `c72_days`, `c72_hours`, `c72_maximum`, `c72_minutes`, `c72_sec_add_micro`, `c72_sec_add_sub`, `c72_sec_diff`, `c72_sec_micro_restore`, `c72_sec_minus`, `c72_sec_plus`, `c72_sec_sub_micro`, `c72_sec_to_time`, `c72_time_sec_diff`, `c72_time_to_sec`, `c72_to_seconds`, `c72_to_seconds_seconds`, `c73_circular`, `c73_loads`, `c73_one_reason`, `c73_reason`, `c73_refused`, `c73_says`, `c73_says_any`, `c73_says_circular`, `c73_told`, `c74_binary`, `c74_describes`, `c74_document`, `c74_one_fault`, `c74_one_fault_binary`, `c75_corpus`, `c75_defined`, `c75_ends`, `c75_ignored`, `c75_pieces`, `c75_session`, `c75_unambiguous`, `c75_undefined`, `c76_array_of_nothing`, `c76_bin_to_json`, `c76_factor`, `c76_json_to_bin`, `c76_json_to_bin_reorderable`, `c76_repeated_names`, `c76_text_from_nothing`, `c77_formatted`, `c77_json`, `c77_printed`, `c77_receipt`, `c77_text`, `c77_types`, `c77_unknown`, `c78_refl`, `c78_same`, `c78_symm`, `c78_trans`, `c79_complete`, `c79_json`, `c79_json_to_bin_reorderable`, `c79_loads`, `c79_reads`, `c79_written`, `c80_json`, `c80_json_to_bin_reorderable`, `c80_reads`, `c80_written`, `c81_exports`, `c81_json`, `c81_json_to_bin_reorderable`, `c81_like`, `c81_meaning`, `c81_plain`, `c81_reads`, `c81_stays`, `c81_written`, `c82_lookups`, `c82_same_types`, `c82_stable`, `c83_cut`, `c83_only`, `c83_records`, `c83_sequences`, `c83_shown`
