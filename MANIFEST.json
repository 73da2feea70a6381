{
 "claims": [
  {
   "property": "C01",
   "status": "proved",
   "theorems": [
    "Abieos.c01_leb128",
    "Abieos.c01_varuint32_exact",
    "Abieos.c01_varuint64_exact",
    "Abieos.c01_varuint32_roundtrip",
    "Abieos.c01_varuint32_too_big",
    "Abieos.c01_varuint32_read",
    "Abieos.c01_varuint32_malformed",
    "Abieos.c01_varuint64_reads_varuint32",
    "Abieos.c01_varuint64_read"
   ],
   "note": "Round trip, shortest encoding, refusal of values over 32 bits, acceptance and error cases of the reader, for every input byte string."
  },
  {
   "property": "C02",
   "status": "proved",
   "theorems": [
    "Abieos.c02_varint32_exact",
    "Abieos.c02_varint32_roundtrip",
    "Abieos.c02_zigzag",
    "Abieos.c02_varint32_short"
   ],
   "note": "Round trip for every int32; zig-zag bijection; small magnitudes are short."
  },
  {
   "property": "C03",
   "status": "proved",
   "theorems": [
    "Abieos.c03_hex_roundtrip",
    "Abieos.c03_hex_accepts_iff",
    "Abieos.c03_hex_reencode",
    "Abieos.c03_hex_error",
    "Abieos.c03_unhex_same",
    "Abieos.c03_hex_digits"
   ],
   "note": "Round trip; the decoder accepts exactly even-length hex texts; re-encoding gives upper case."
  },
  {
   "property": "C04",
   "status": "proved",
   "theorems": [
    "Abieos.c04_name_roundtrip",
    "Abieos.c04_text_roundtrip",
    "Abieos.c04_name_injective",
    "Abieos.c04_text_exact"
   ],
   "note": "Both directions, for all 2^64 values and all accepted texts."
  },
  {
   "property": "C05",
   "status": "proved",
   "theorems": [
    "Abieos.c05_strict_accepts_iff",
    "Abieos.c05_lenient_agrees",
    "Abieos.c05_lenient_total",
    "Abieos.c05_literal",
    "Abieos.c05_literal_valid",
    "Abieos.c05_char_to_value"
   ],
   "note": "Exact acceptance of the strict parser, agreement with and totality of the lenient one; name literals of the compiler."
  },
  {
   "property": "C06",
   "status": "proved",
   "theorems": [
    "Abieos.c06_name_order",
    "Abieos.c06_text_order"
   ],
   "note": "Integer order = padded text order for all 2^64 x 2^64 pairs."
  },
  {
   "property": "C07",
   "status": "proved",
   "theorems": [
    "Abieos.c07_code_parse",
    "Abieos.c07_code_print",
    "Abieos.c07_code_roundtrip",
    "Abieos.c07_text_roundtrip",
    "Abieos.c07_symbol_parse",
    "Abieos.c07_symbol_print",
    "Abieos.c07_symbol_roundtrip",
    "Abieos.c07_symbol_is_valid",
    "Abieos.c07_symbol_code_is_valid",
    "Abieos.c07_length",
    "Abieos.c07_ctor",
    "Abieos.c07_code_text_exact"
   ],
   "note": "Round trips for every valid code; is_valid characterised exactly (7 letters with any 8th byte are accepted: finding i)."
  },
  {
   "property": "C08",
   "status": "proved",
   "theorems": [
    "Abieos.c08_parse",
    "Abieos.c08_parse_only",
    "Abieos.c08_print",
    "Abieos.c08_roundtrip",
    "Abieos.c08_text_exact"
   ],
   "note": "Every amount except -2^63, every precision below 256 and every valid code."
  },
  {
   "property": "C09",
   "status": "proved",
   "theorems": [
    "Abieos.c09_add",
    "Abieos.c09_sub",
    "Abieos.c09_mul",
    "Abieos.c09_div",
    "Abieos.c09_div_rounds",
    "Abieos.c09_neg",
    "Abieos.c09_div_asset",
    "Abieos.c09_ctor",
    "Abieos.c09_history",
    "Abieos.c09_history_exact",
    "Abieos.c09_compare",
    "Abieos.c09_ext_add",
    "Abieos.c09_ext_compare",
    "Abieos.c09_ext_equal",
    "Abieos.c09_ext_neg",
    "Abieos.c09_failed_add_leaves_result"
   ],
   "note": "Every operation and every sequence of operations; += and -= leave the out-of-range amount when they throw (finding j)."
  },
  {
   "property": "C10",
   "status": "proved",
   "theorems": [
    "Abieos.c10_days_roundtrip",
    "Abieos.c10_date_roundtrip",
    "Abieos.c10_from_days_valid",
    "Abieos.c10_epoch",
    "Abieos.c10_consecutive",
    "Abieos.c10_from_days",
    "Abieos.c10_to_days"
   ],
   "note": "All integers; Gregorian calendar specified by leap-year and month-length rules."
  },
  {
   "property": "C11",
   "status": "proved",
   "theorems": [
    "Abieos.c11_text_exact",
    "Abieos.c11_parse_seconds",
    "Abieos.c11_parse_seconds_shape",
    "Abieos.c11_parse_microseconds",
    "Abieos.c11_print",
    "Abieos.c11_time_point_roundtrip",
    "Abieos.c11_time_point_sec_roundtrip",
    "Abieos.c11_block_timestamp_roundtrip",
    "Abieos.c11_day_product_in_range",
    "Abieos.c11_seconds_iff",
    "Abieos.c11_microseconds_iff"
   ],
   "note": "Every instant the parser's 32-bit seconds can hold; sub-millisecond digits of a time_point are lost (finding e), shown by a theorem."
  },
  {
   "property": "C12",
   "status": "proved",
   "theorems": [
    "Abieos.c12_slot_roundtrip",
    "Abieos.c12_slot_time",
    "Abieos.c12_slot_seconds",
    "Abieos.c12_time_to_slot",
    "Abieos.c12_monotone",
    "Abieos.c12_next"
   ],
   "note": "All 2^32 slots."
  },
  {
   "property": "C13",
   "status": "proved",
   "theorems": [
    "Abieos.c13_roundtrip",
    "Abieos.c13_accepts",
    "Abieos.c13_text_roundtrip",
    "Abieos.c13_value"
   ],
   "note": "All byte strings; alphabet texts re-encode to themselves."
  },
  {
   "property": "C14",
   "status": "proved",
   "theorems": [
    "Abieos.c14_public_key_format",
    "Abieos.c14_private_key_format",
    "Abieos.c14_signature_format",
    "Abieos.c14_text",
    "Abieos.c14_public_key",
    "Abieos.c14_private_key",
    "Abieos.c14_signature",
    "Abieos.c14_public_key_ripemd"
   ],
   "note": "For every digest function with 20-byte output; RIPEMD-160 is an instance."
  },
  {
   "property": "C15",
   "status": "proved",
   "theorems": [
    "Abieos.c15_wif",
    "Abieos.c15_wif_short",
    "Abieos.c15_public_key",
    "Abieos.c15_signature",
    "Abieos.c15_private_key",
    "Abieos.c15_mismatch",
    "Abieos.c15_wif_unchecked"
   ],
   "note": "Acceptance implies the checksum matches, for every text and digest."
  },
  {
   "property": "C16",
   "status": "proved",
   "theorems": [
    "Abieos.c16_from_json_int_iff",
    "Abieos.c16_from_json_int_error",
    "Abieos.c16_int_roundtrip",
    "Abieos.c16_int_buffer",
    "Abieos.c16_printed",
    "Abieos.c16_text_exact"
   ],
   "note": "Exact acceptance (mathematical value iff in range) for every width; printing then parsing; print buffer bound."
  },
  {
   "property": "C17",
   "status": "proved",
   "theorems": [
    "Abieos.c17_decimal_to_binary_iff",
    "Abieos.c17_decimal_to_binary_accepts",
    "Abieos.c17_binary_to_decimal",
    "Abieos.c17_roundtrip",
    "Abieos.c17_negate",
    "Abieos.c17_uint128",
    "Abieos.c17_int128",
    "Abieos.c17_print128"
   ],
   "note": "For arrays of every size, not only 16 bytes."
  },
  {
   "property": "C18",
   "status": "proved",
   "theorems": [
    "Abieos.c18_json_string_well_formed",
    "Abieos.c18_json_string_round_trip",
    "Abieos.c18_patch",
    "Abieos.c18_json_string_injective",
    "Abieos.c18_text_exact"
   ],
   "note": "All byte strings; rendering is a JSON string and valid UTF-8; read back exactly if the input was UTF-8."
  },
  {
   "property": "C19",
   "status": "proved",
   "theorems": [
    "Abieos.c19_convert",
    "Abieos.c19_order",
    "Abieos.c19_strict",
    "Abieos.c19_double"
   ],
   "note": "All key types: integers and enums of any size, bool, float, double, varuint32, strings, fixed_bytes, containers, arrays, optionals, variants, tuples and reflected structs, nested at will. varint32 keys do not compile."
  },
  {
   "property": "C20",
   "status": "proved",
   "theorems": [
    "Abieos.c20_prefix_free",
    "Abieos.c20_concat",
    "Abieos.c20_equivalent",
    "Abieos.c20_injective"
   ],
   "note": "Same universe as C19."
  },
  {
   "property": "C21",
   "status": "proved",
   "theorems": [
    "Abieos.c21_roundtrip",
    "Abieos.c21_injective",
    "Abieos.c21_rewrite"
   ],
   "note": "Universe of type descriptions closed under all constructors, any nesting depth."
  },
  {
   "property": "C22",
   "status": "proved",
   "theorems": [
    "Abieos.c22_two_passes",
    "Abieos.c22_errors"
   ],
   "note": "convert_to_bin for every type description."
  },
  {
   "property": "C23",
   "status": "proved",
   "theorems": [
    "Abieos.c23_within_input"
   ],
   "note": "Every reader of the same universe."
  },
  {
   "property": "C24",
   "status": "proved",
   "theorems": [
    "Abieos.c24_terminates",
    "Abieos.c24_resolved",
    "Abieos.c24_no_alias_cycles",
    "Abieos.c24_no_inheritance_cycles"
   ],
   "note": "All definitions. Termination with a unique result, the resolved-table invariant, and rejection of every typedef cycle (also through wrappers) and every inheritance cycle (also through typedefs)."
  },
  {
   "property": "C25",
   "status": "proved",
   "theorems": [
    "Abieos.c25_builtin_names",
    "Abieos.c25_extended_asset",
    "Abieos.c25_meaning",
    "Abieos.c25_structs",
    "Abieos.c25_variants",
    "Abieos.c25_typedefs",
    "Abieos.c25_builtins",
    "Abieos.c25_names",
    "Abieos.c25_meaning_unique",
    "Abieos.c25_loads",
    "Abieos.c25_alternatives"
   ],
   "note": "All definitions, against an independent inductive meaning of ABI definitions that is shown to be unique; also a sufficient condition for loading (distinct names, everything found within 32 steps)."
  },
  {
   "property": "C26",
   "status": "proved",
   "theorems": [
    "Abieos.c26_lookup",
    "Abieos.c26_found",
    "Abieos.c26_keeps",
    "Abieos.c26_resolved",
    "Abieos.c26_same_answer",
    "Abieos.c26_conversions"
   ],
   "note": "All loaded ABIs and all lookup histories, including failed lookups that leave entries behind. Lookups find exactly what the text denotes; conversions are unaffected. The kind of error of a failing lookup may depend on the history."
  },
  {
   "property": "C27",
   "status": "proved",
   "theorems": [
    "Abieos.c27_json_bin_json"
   ],
   "note": "All ABIs, types and documents, with the real serializers of all 31 builtin types. What a scalar must satisfy is Spec/Lossless.lean; strtof/strtod are parameters."
  },
  {
   "property": "C28",
   "status": "proved",
   "theorems": [
    "Abieos.c28_bin_json_bin",
    "Abieos.c28_exact_for_encoder_output"
   ],
   "note": "All ABIs, types and byte strings, with the real serializers of all builtin types. Conditions on scalars: Spec/Lossless.lean."
  },
  {
   "property": "C29",
   "status": "proved",
   "theorems": [
    "Abieos.c29_ordered_to_reorderable",
    "Abieos.c29_reorderable_to_ordered"
   ],
   "note": "Stated for documents in ABI order without unknown keys; any ABI table."
  },
  {
   "property": "C30",
   "status": "proved",
   "theorems": [
    "Abieos.c30_same_documents_same_result",
    "Abieos.c30_permuted_members_same",
    "Abieos.c30_unknown_member_same",
    "Abieos.c30_same_congruence",
    "Abieos.c30_permuted_members",
    "Abieos.c30_unknown_member"
   ],
   "note": "Permutation and unknown members, at every depth."
  },
  {
   "property": "C31",
   "status": "proved",
   "theorems": [
    "Abieos.c31_well_formed",
    "Abieos.c31_parses"
   ],
   "note": "All byte strings; also through the reference JSON reader. Example.lean shows that the condition on extensions is needed (output `{,\"b\":{}}`)."
  },
  {
   "property": "C32",
   "status": "proved",
   "theorems": [
    "Abieos.c32_ordered_terminates",
    "Abieos.c32_ordered_step_bound",
    "Abieos.c32_reorderable_terminates",
    "Abieos.c32_bin_to_json_terminates"
   ],
   "note": "Machine models with explicit step functions: every run ends; ordered conversion has a linear bound."
  },
  {
   "property": "C33",
   "status": "proved",
   "theorems": [
    "Abieos.c33_ordered_stack_bounded",
    "Abieos.c33_bin_to_json_stack_bounded",
    "Abieos.c33_bin_to_json_exact",
    "Abieos.c33_bin_to_json_too_deep",
    "Abieos.c33_ordered_too_deep"
   ],
   "note": "Stack bound as invariant of every reachable machine state; no refusal below the limit."
  },
  {
   "property": "C34",
   "status": "proved",
   "theorems": [
    "Abieos.c34_extra_data",
    "Abieos.c34_reads_prefix"
   ],
   "note": "All byte strings and continuations, with the real serializers of all builtin types. The C entry point's refusal of leftover bytes belongs to C40."
  },
  {
   "property": "C35",
   "status": "proved",
   "theorems": [
    "Abieos.c35_reorderable_omits_only_tail",
    "Abieos.c35_ordered_omits_only_tail",
    "Abieos.c35_reorderable_all_present",
    "Abieos.c35_ordered_all_present"
   ],
   "note": "Binary extensions, top level tail only."
  },
  {
   "property": "C36",
   "status": "proved",
   "theorems": [
    "Abieos.c36_reorderable_is_encoding",
    "Abieos.c36_ordered_is_encoding"
   ],
   "note": "Both conversions proved equal to the recursive encoding, for every table, document and nesting."
  },
  {
   "property": "C37",
   "status": "proved",
   "theorems": [
    "Abieos.c37_ordered_refuses_repeated_keys",
    "Abieos.c37_last_value_wins",
    "Abieos.c37_reorderable_last_value_wins"
   ],
   "note": "Last value wins / repeated keys rejected."
  },
  {
   "property": "C38",
   "status": "proved",
   "theorems": [
    "Abieos.c38_null_context",
    "Abieos.c38_returns",
    "Abieos.c38_defined",
    "Abieos.c38_reported",
    "Abieos.c38_failed_load"
   ],
   "note": "Over all histories of calls on a context. Loads and queries never have undefined behaviour; conversions may (C51)."
  },
  {
   "property": "C39",
   "status": "proved",
   "theorems": [
    "Abieos.c39_load_iff",
    "Abieos.c39_action",
    "Abieos.c39_table",
    "Abieos.c39_json_to_bin",
    "Abieos.c39_json_to_bin_reorderable",
    "Abieos.c39_bin_to_json",
    "Abieos.c39_hex_to_json",
    "Abieos.c39_not_loaded",
    "Abieos.c39_isolated"
   ],
   "note": "Over all histories: answers depend only on the definition loaded first under the contract's name. Finding: a second set_abi for a contract returns true but has no effect."
  },
  {
   "property": "C40",
   "status": "proved",
   "theorems": [
    "Abieos.c40_getters",
    "Abieos.c40_kept",
    "Abieos.c40_failed",
    "Abieos.c40_hex_then_decode"
   ],
   "note": "Over all histories. Finding: when the type lookup fails the previous result stays visible."
  },
  {
   "property": "C41",
   "status": "proved",
   "theorems": [
    "Abieos.c41_format",
    "Abieos.c41_roundtrip",
    "Abieos.c41_without_trailing_section",
    "Abieos.c41_storable",
    "Abieos.c41_every_storable",
    "Abieos.c41_reread",
    "Abieos.c41_generic_read",
    "Abieos.c41_generic_write"
   ],
   "note": "Byte layout of the whole definition, round trip, the optional trailing variants section, every storable definition, generic reader and writer agree."
  },
  {
   "property": "C42",
   "status": "proved",
   "theorems": [
    "Abieos.c42_export",
    "Abieos.c42_same_types",
    "Abieos.c42_same_structure",
    "Abieos.c42_same_conversions",
    "Abieos.c42_lookup_conversions"
   ],
   "note": "All loaded ABIs, after any lookups. The exception for variants that list typedefs is witnessed by an example."
  },
  {
   "property": "C43",
   "status": "proved",
   "theorems": [
    "Abieos.c43_bytes_unique",
    "Abieos.c43_words_unique",
    "Abieos.c43_extract",
    "Abieos.c43_construct",
    "Abieos.c43_array_roundtrip",
    "Abieos.c43_from_bytes",
    "Abieos.c43_to_bytes",
    "Abieos.c43_bytes_roundtrip",
    "Abieos.c43_order",
    "Abieos.c43_binary",
    "Abieos.c43_binary_accepts",
    "Abieos.c43_json",
    "Abieos.c43_json_accepts",
    "Abieos.c43_builtin_encode",
    "Abieos.c43_builtin_decode"
   ],
   "note": "Any byte and word counts. Finding: words with non-zero padding compare unequal although their bytes are equal."
  },
  {
   "property": "C44",
   "status": "proved",
   "theorems": [
    "Abieos.c44_chunks",
    "Abieos.c44_split",
    "Abieos.c44_length",
    "Abieos.c44_constants",
    "Abieos.c44_tables",
    "Abieos.c44_suffix"
   ],
   "note": "Spec/Ripemd160.lean is written from the paper (80-step form, rho/pi, shift table by message word); chunks of 2^31 bytes or more are refused by the code and are outside the model."
  },
  {
   "property": "C45",
   "status": "proved",
   "theorems": [
    "Abieos.c45_murmur",
    "Abieos.c45_short",
    "Abieos.c45_short_injective",
    "Abieos.c45_first_byte_ignored",
    "Abieos.c45_ascii_block",
    "Abieos.c45_never_rejected",
    "Abieos.c45_hash_name"
   ],
   "note": "Murmur64 modelled bit for bit; totality and agreement with the strict parser."
  },
  {
   "property": "C46",
   "status": "proved",
   "theorems": [
    "Abieos.c46_length",
    "Abieos.c46_no_dot",
    "Abieos.c46_parts",
    "Abieos.c46_rejoin"
   ],
   "note": "Length, suffix, prefix and rejoining for every 64-bit name value."
  },
  {
   "property": "C47",
   "status": "proved",
   "theorems": [
    "Abieos.c47_leaf",
    "Abieos.c47_lexicographic",
    "Abieos.c47_equal",
    "Abieos.c47_total",
    "Abieos.c47_nested",
    "Abieos.c47_operators"
   ],
   "note": "Any struct, any field types. Finding: asset's own < throws for different symbols, so it is not total."
  },
  {
   "property": "C48",
   "status": "proved",
   "theorems": [
    "Abieos.c48_print_nearest",
    "Abieos.c48_print_special",
    "Abieos.c48_print_injective",
    "Abieos.c48_widen",
    "Abieos.c48_widen_special",
    "Abieos.c48_float_nearest",
    "Abieos.c48_float_injective"
   ],
   "note": "Full Grisu2 analysis: all finite doubles, with the power table checked by the kernel."
  },
  {
   "property": "C49",
   "status": "proved",
   "theorems": [
    "Abieos.c49_print_length",
    "Abieos.c49_print_overflow"
   ],
   "note": "Exact condition of the 25th character, and a witness (finding p)."
  },
  {
   "property": "C50",
   "status": "proved",
   "theorems": [
    "Abieos.c50_reads_description",
    "Abieos.c50_unique"
   ],
   "note": "Exact: the reader returns d iff the independent description AbiDoc relates document and d."
  },
  {
   "property": "C51",
   "status": "proved",
   "theorems": [
    "Abieos.c51_static_read",
    "Abieos.c51_static_rewrite",
    "Abieos.c51_json_to_bin",
    "Abieos.c51_json_to_bin_reorderable",
    "Abieos.c51_bin_to_json",
    "Abieos.c51_smallest_amount",
    "Abieos.c51_huge_array",
    "Abieos.c51_long_double",
    "Abieos.c51_date",
    "Abieos.c51_call_json_to_bin",
    "Abieos.c51_call_bin_to_json",
    "Abieos.c51_call_hex_to_json",
    "Abieos.c51_call_undefined",
    "Abieos.c51_call_smallest_amount",
    "Abieos.c51_call_long_double",
    "Abieos.c51_call_huge_array"
   ],
   "note": "Undefined behaviour is what the model marks as such: overflow of signed positions, negation of -2^63, writing past fp_to_json's buffer, reads outside the modelled alternatives. A bool byte other than 0 or 1 is read as true. Time texts outside the range wrap in the model; c51_date says exactly which dates these are. Malformed JSON texts are included (c51_call_json_to_bin with ShortText; c66_defined). That the exceptions are met: c51_call_smallest_amount, c51_call_long_double, c51_call_huge_array."
  },
  {
   "property": "C52",
   "status": "proved",
   "theorems": [
    "Abieos.c52_text_to_binary",
    "Abieos.c52_bool",
    "Abieos.c52_times",
    "Abieos.c52_binary_to_text",
    "Abieos.c52_scalar_to_binary"
   ],
   "note": "Spec/BuiltinFormat.lean is one line per type. strtof/strtod are parameters. Times: c52_scalar_to_binary covers every text (Spec/TimeText.lean); c52_times spells out calendar dates from 1970 to 2106."
  },
  {
   "property": "C53",
   "status": "proved",
   "theorems": [
    "Abieos.c53_read_iff",
    "Abieos.c53_unambiguous",
    "Abieos.c53_reads",
    "Abieos.c53_utf8",
    "Abieos.c53_written",
    "Abieos.c53_string"
   ],
   "note": "rapidjson is not in the repository: the reader is its contract, here proved equal to the RFC grammar. rapidjson additionally refuses numbers overflowing a double."
  },
  {
   "property": "C54",
   "status": "proved",
   "theorems": [
    "Abieos.c54_compact",
    "Abieos.c54_indented",
    "Abieos.c54_only",
    "Abieos.c54_alike",
    "Abieos.c54_same_document",
    "Abieos.c54_prints",
    "Abieos.c54_prints_read",
    "Abieos.StaticPrintsExample.c54_prints_example"
   ],
   "note": "Exact texts as a function of the tree of the value; success and failure alike; both texts derive the same document in the RFC 8259 grammar. Texts of builtin values are those of C07-C18, C48. c54_prints: every storable value has a text, but for the scalars of C51."
  },
  {
   "property": "C55",
   "status": "proved",
   "theorems": [
    "Abieos.c55_reads_document",
    "Abieos.c55_reads_back",
    "Abieos.c55_injective",
    "Abieos.c55_members"
   ],
   "note": "Read = Given in both directions for every RFC 8259 text without duplicate names; both written forms are read back. Values JSON cannot carry (optional of empty optional, lossy leaves as in C27, names that are not UTF-8 or occur twice) are excluded by Carried, with a counterexample shown."
  },
  {
   "property": "C56",
   "status": "proved",
   "theorems": [
    "Abieos.c56_name",
    "Abieos.c56_ends",
    "Abieos.c56_keeps",
    "Abieos.c56_only",
    "Abieos.c56_adds",
    "Abieos.c56_resolved",
    "Abieos.c56_again"
   ],
   "note": "Names of the types used must differ (get_variant_type_name joins with _, so variants and structs can clash; counterexample shown) and entries already there must agree. A failed call can leave structs with only some of their fields (example)."
  },
  {
   "property": "C57",
   "status": "proved",
   "theorems": [
    "Abieos.c57_written",
    "Abieos.c57_roundtrip",
    "Abieos.c57_prefix_free",
    "Abieos.c57_within",
    "Abieos.c57_rewrite",
    "Abieos.c57_extension"
   ],
   "note": "Values of builtin types are represented by their bytes (LeafBytes says which). A struct with a might_not_exist that is not there is not covered as a written value: to_bin writes its default value. 64-bit platform, memory suffices for resize."
  },
  {
   "property": "C58",
   "status": "proved",
   "theorems": [
    "Abieos.c58_json_to_bin",
    "Abieos.c58_json_to_bin_ordered",
    "Abieos.c58_bin_to_json",
    "Abieos.c58_written_bin",
    "Abieos.c58_written_json",
    "Abieos.c58_written_json_ordered"
   ],
   "note": "Vectors of fixed-size numbers are excluded from the statement about arbitrary inputs because from_bin reads their count as varuint64 and bin_to_json as varuint32 (counterexamples shown); what convert_to_bin writes is covered for them too. Extensions are excluded (there is no to_json for might_not_exist, and to_bin of an absent one writes a default value)."
  },
  {
   "property": "C59",
   "status": "proved",
   "theorems": [
    "Abieos.c59_double",
    "Abieos.c59_float",
    "Abieos.c59_json_bin_json",
    "Abieos.c59_bin_json_bin"
   ],
   "note": "strtod/strtof are hypotheses (Spec/CLibrary.lean): correct rounding for texts in the normal range, zero, infinity and NaN; a library that meets them is constructed (exactFloats). Subnormal numbers, NaN payloads and the smallest normal float are excluded: the C library may report underflow, and the library then refuses its own text."
  },
  {
   "property": "C60",
   "status": "proved",
   "theorems": [
    "Abieos.c60_json_to_bin_reorderable",
    "Abieos.c60_json_to_bin",
    "Abieos.c60_bin_to_json"
   ],
   "note": "The JSON reader is rapidjson's contract (C53). Conditions on the definition: fewer than 2^31 fields per struct; for json_to_bin also distinct field names and extensions last; for bin_to_json also UTF-8 names and fewer than 2^32 alternatives. The way back needs a C library that rounds correctly (C59) and scalars whose text says all of them (KeptScalar)."
  },
  {
   "property": "C61",
   "status": "proved",
   "theorems": [
    "Abieos.c61_scalar",
    "Abieos.c61_bin_to_json",
    "Abieos.c61_bin_to_json_fails",
    "Abieos.c61_hex_to_json"
   ],
   "note": "Conditions on the definition: fewer than 2^31 fields per struct, extensions last. Which of the possible shortest-style digits a double is shown with is left to the printer (C48 says which texts are possible); a negative double of 24 digits and an asset of -2^63 units are undefined behaviour (C49, C51) and not shown."
  },
  {
   "property": "C62",
   "status": "proved",
   "theorems": [
    "Abieos.c62_skips",
    "Abieos.c62_of_stream",
    "Abieos.c62_write",
    "Abieos.c62_delayed",
    "Abieos.c62_unpack",
    "Abieos.c62_elements",
    "Abieos.c62_stop",
    "Abieos.c62_numbers",
    "Abieos.c62_numbers_differ",
    "Abieos.c62_empty"
   ],
   "note": "The bytes an opaque value points at are modelled as its own; that they outlive it is up to the user."
  },
  {
   "property": "C63",
   "status": "proved",
   "theorems": [
    "Abieos.c63_members",
    "Abieos.c63_copy",
    "Abieos.c63_there_and_back",
    "Abieos.c63_no_variant_target",
    "Abieos.c63_serialize_as"
   ],
   "note": "The overload converting an input_stream to a vector of char is not modelled."
  },
  {
   "property": "C64",
   "status": "proved",
   "theorems": [
    "Abieos.c64_accepts",
    "Abieos.c64_convert",
    "Abieos.c64_unique",
    "Abieos.c64_written",
    "Abieos.c64_set",
    "Abieos.c64_set_order"
   ],
   "note": ""
  },
  {
   "property": "C65",
   "status": "proved",
   "theorems": [
    "Abieos.Ship.c65_names",
    "Abieos.Ship.c65_round_trip",
    "Abieos.Ship.c65_rewrite",
    "Abieos.Ship.c65_status",
    "Abieos.Ship.c65_request",
    "Abieos.Ship.c65_status_result",
    "Abieos.Ship.c65_nested"
   ],
   "note": "Model/Ship.lean is generated from the header by tools/ship.py. input_stream and opaque members are modelled by their bytes; their JSON is C77; the depth of the recursion is limited by the stack only, which is not modelled."
  },
  {
   "property": "C66",
   "status": "proved",
   "theorems": [
    "Abieos.c66_json_to_bin",
    "Abieos.c66_reorderable",
    "Abieos.c66_no_bytes",
    "Abieos.c66_set_abi",
    "Abieos.c66_defined",
    "Abieos.c66_budget",
    "Abieos.c66_events"
   ],
   "note": "The events rapidjson reports before the error are modelled by Reader.upTo (one event per token; the last event is lost if something follows the document). Which of rapidjson's messages is given is not modelled. A type or contract error comes before the text is looked at and is the same for every text."
  },
  {
   "property": "C67",
   "status": "proved",
   "theorems": [
    "Abieos.c67_not_loaded",
    "Abieos.c67_no_such",
    "Abieos.c67_no_type",
    "Abieos.c67_no_type_any",
    "Abieos.c67_type_or_reason",
    "Abieos.c67_document",
    "Abieos.c67_binary",
    "Abieos.c67_not_hex",
    "Abieos.c67_no_data",
    "Abieos.c67_version",
    "Abieos.c67_load",
    "Abieos.c67_names",
    "Abieos.c67_reader_messages"
   ],
   "note": "The texts of Spec/Messages.lean are generated from the headers by tools/messages.py. A type text with more than 31 suffixes that denotes nothing is refused with 'Unknown type', 'Invalid nesting' or 'Recursion limit reached' (c67_no_type_any); which of them can depend on earlier lookups. Which of the errors the loader or a conversion ends with is given by the model relations LoadTypes, JsonToBin, JsonToBinReorderable and BinToJson. What std::bad_alloc says is not stated."
  },
  {
   "property": "C68",
   "status": "proved",
   "theorems": [
    "Abieos.c68_truncated",
    "Abieos.c68_extra",
    "Abieos.c68_final",
    "Abieos.c68_definition",
    "Abieos.c68_native",
    "Abieos.c68_native_maybe",
    "Abieos.c68_native_final"
   ],
   "note": "Memory is taken to suffice for the containers that are resized before their elements are read (as in C21). With extensions an error other than 'Stream overrun' may change when bytes are added, because a field that was skipped is read then; that case is not claimed."
  },
  {
   "property": "C69",
   "status": "proved",
   "theorems": [
    "Abieos.NameTool.c69_unknown_option",
    "Abieos.NameTool.c69_run",
    "Abieos.NameTool.c69_names_back",
    "Abieos.NameTool.c69_numbers_back"
   ],
   "note": "std::stoull with base 0, std::getline and std::showbase/std::hex are modelled from the standards (C locale). As an argument a negative number is an option ('-1' ends with code 2); as a line of input it is a number."
  },
  {
   "property": "C70",
   "status": "proved",
   "theorems": [
    "Abieos.c70_reorderable",
    "Abieos.c70_ordered"
   ],
   "note": "Syntactically malformed texts are C66; types that do not exist and contracts that are not loaded C67. Documents are shorter than 2^31 bytes (base58 lengths in int)."
  },
  {
   "property": "C71",
   "status": "proved",
   "theorems": [
    "Abieos.c71_binary",
    "Abieos.c71_hex"
   ],
   "note": "Both directions: the call tells a message exactly if the bytes have the fault with this message. Array elements are counted in an int, so at most 2^31 are looked at before the behaviour is undefined (C51). Which scalars begin the bytes is C61."
  },
  {
   "property": "C72",
   "status": "proved",
   "theorems": [
    "Abieos.c72_add",
    "Abieos.c72_sub",
    "Abieos.c72_add_sub",
    "Abieos.c72_add_mono",
    "Abieos.c72_milliseconds",
    "Abieos.c72_seconds",
    "Abieos.c72_minutes",
    "Abieos.c72_hours",
    "Abieos.c72_days",
    "Abieos.c72_to_seconds",
    "Abieos.c72_to_seconds_seconds",
    "Abieos.c72_sec_to_time",
    "Abieos.c72_time_to_sec",
    "Abieos.c72_sec_add",
    "Abieos.c72_sec_sub",
    "Abieos.c72_sec_add_sub",
    "Abieos.c72_sec_add_micro",
    "Abieos.c72_sec_sub_micro",
    "Abieos.c72_sec_micro_restore",
    "Abieos.c72_sec_plus",
    "Abieos.c72_sec_minus",
    "Abieos.c72_sec_diff",
    "Abieos.c72_time_sec_diff",
    "Abieos.c72_compare",
    "Abieos.c72_compare_sec",
    "Abieos.c72_maximum"
   ],
   "note": "Undefined behaviour is int64_t overflow only; uint32_t wraps."
  },
  {
   "property": "C73",
   "status": "proved",
   "theorems": [
    "Abieos.c73_reason",
    "Abieos.c73_one_reason",
    "Abieos.c73_refused",
    "Abieos.c73_told",
    "Abieos.c73_loads",
    "Abieos.c73_circular",
    "Abieos.c73_says",
    "Abieos.c73_says_any",
    "Abieos.c73_says_circular"
   ],
   "note": "Exact for definitions without a chain of 32 steps; for the others the reason told is the first fault or the recursion limit. Names that cannot be declared are in C67."
  },
  {
   "property": "C74",
   "status": "proved",
   "theorems": [
    "Abieos.c74_describes",
    "Abieos.c74_one_fault",
    "Abieos.c74_document",
    "Abieos.c74_binary",
    "Abieos.c74_one_fault_binary"
   ],
   "note": "Byte strings shorter than 2^32 bytes. Syntactically malformed texts are C66; definitions that can be read but not loaded C73."
  },
  {
   "property": "C75",
   "status": "proved",
   "theorems": [
    "Abieos.c75_pieces",
    "Abieos.c75_unambiguous",
    "Abieos.c75_session",
    "Abieos.c75_ignored",
    "Abieos.c75_ends",
    "Abieos.c75_defined",
    "Abieos.c75_corpus",
    "Abieos.c75_undefined"
   ],
   "note": "Layout of fuzzer_header as in the usual 64-bit C++ ABIs, little-endian. c75_undefined: inputs of 69 bytes (and all of their kind) do run into the exception of C51."
  },
  {
   "property": "C76",
   "status": "proved",
   "theorems": [
    "Abieos.c76_json_to_bin_reorderable",
    "Abieos.c76_json_to_bin",
    "Abieos.c76_bin_to_json",
    "Abieos.c76_text_from_nothing",
    "Abieos.c76_array_of_nothing",
    "Abieos.c76_repeated_names",
    "Abieos.c76_factor"
   ],
   "note": "Both families without a bound are reachable through set_abi_bin."
  },
  {
   "property": "C77",
   "status": "proved",
   "theorems": [
    "Abieos.Ship.c77_text",
    "Abieos.Ship.c77_formatted",
    "Abieos.Ship.c77_json",
    "Abieos.Ship.c77_printed",
    "Abieos.Ship.c77_unknown",
    "Abieos.Ship.c77_types",
    "Abieos.Ship.c77_receipt"
   ],
   "note": "A double of 24 digits is the exception of C49. get_blocks_result_v1 has members of type opaque, for which there is no to_json."
  },
  {
   "property": "C78",
   "status": "proved",
   "theorems": [
    "Abieos.c78_same",
    "Abieos.c78_symm",
    "Abieos.c78_trans",
    "Abieos.c78_refl"
   ],
   "note": "The structure is a correspondence between types (Spec/SameType); c78_refl, c78_symm, c78_trans say that it is an equivalence. Error texts included; of malformed documents, for which the parser's own message is not modelled exactly, the same messages are possible."
  },
  {
   "property": "C79",
   "status": "proved",
   "theorems": [
    "Abieos.Ship.c79_loads",
    "Abieos.Ship.c79_complete",
    "Abieos.Ship.c79_reads",
    "Abieos.Ship.c79_written",
    "Abieos.Ship.c79_json_to_bin_reorderable",
    "Abieos.Ship.c79_json"
   ],
   "note": "The value's text is that of the members as they are stored: the state of a transaction is its number (the C++ to_json prints its name: C77), a stream is bytes, an opaque member its bytes. C++ has no from_json for streams; for types that contain them, c79_json_to_bin_reorderable and c79_json speak of the same struct with bytes instead. Data of less than 2^32 bytes; documents with no key twice in an object; no vector of 2^31 elements or more, which 64-bit data could have in C++."
  },
  {
   "property": "C80",
   "status": "proved",
   "theorems": [
    "Abieos.c80_reads",
    "Abieos.c80_written",
    "Abieos.c80_json_to_bin_reorderable",
    "Abieos.c80_json"
   ],
   "note": "The C++ type has no might_not_exist and no two types of the same name, and, for showing, no vector of fixed-size numbers (C++ reads their size as 64 bits). Data of less than 2^32 bytes; documents with no key twice in an object. The example is the ABI of test.cpp with the transaction of ship_protocol.hpp."
  },
  {
   "property": "C81",
   "status": "proved",
   "theorems": [
    "Abieos.c81_exports",
    "Abieos.c81_meaning",
    "Abieos.c81_like",
    "Abieos.c81_plain",
    "Abieos.c81_reads",
    "Abieos.c81_written",
    "Abieos.c81_json_to_bin_reorderable",
    "Abieos.c81_json",
    "Abieos.c81_stays"
   ],
   "note": "The C++ types added have names that no other type of the ABI has (NamesDiffer, Agrees), structs with names and members that differ. As in C80: no might_not_exist, no vector of fixed-size numbers for showing, data of less than 2^32 bytes, documents with no key twice in an object."
  },
  {
   "property": "C82",
   "status": "proved",
   "theorems": [
    "Abieos.c82_same_types",
    "Abieos.c82_stable",
    "Abieos.c82_lookups"
   ],
   "note": "Stated for tables that are Built (loaded, then C++ types with different names added), as in C81."
  },
  {
   "property": "C83",
   "status": "proved",
   "theorems": [
    "Abieos.c83_shown",
    "Abieos.c83_cut",
    "Abieos.c83_records",
    "Abieos.c83_only",
    "Abieos.c83_sequences"
   ],
   "note": "For encodings of documents that C27 speaks about. The condition on extensions is needed: an example shows a type of which one encoding is the beginning of another."
  }
 ]
}