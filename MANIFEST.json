{
 "claims": [
  {
   "property": "C01",
   "status": "proved",
   "theorems": [
    "Strf.Dest.string_maker_concat",
    "Strf.Dest.string_appender_concat",
    "Strf.Dest.sized_string_maker_concat"
   ],
   "note": "for allocations that succeed; failing ones are C09"
  },
  {
   "property": "C02",
   "status": "partial",
   "theorems": [
    "Strf.Dest.cstr_prefix_partial",
    "Strf.Dest.cstr_late_write_wrong",
    "Strf.Dest.safeLate_of_no_write",
    "Strf.Dest.cstr_terminated_iff"
   ],
   "note": "false of the code for histories that write more than the garbage space after truncation (cstr_late_write_wrong), and for no others: cstr_terminated_iff"
  },
  {
   "property": "C03",
   "status": "partial",
   "theorems": [
    "Strf.Dest.array_prefix_partial",
    "Strf.Dest.array_late_write_wrong",
    "Strf.Dest.safeLate_of_no_write",
    "Strf.Dest.array_end_iff"
   ],
   "note": "false of the code in the same situation as C02, and in no other: array_end_iff"
  },
  {
   "property": "C04",
   "status": "proved",
   "theorems": [
    "Strf.Dest.discarder_total"
   ],
   "note": ""
  },
  {
   "property": "C05",
   "status": "proved",
   "theorems": [
    "Strf.Dest.cfile_prefix",
    "Strf.Dest.cfile_failed_sends_nothing",
    "Strf.Dest.wideWrite_spec"
   ],
   "note": ""
  },
  {
   "property": "C06",
   "status": "partial",
   "theorems": [
    "Strf.Dest.streambuf_count_partial",
    "Strf.Dest.streambuf_capacity_partial",
    "Strf.Dest.streambuf_prefix_partial",
    "Strf.Dest.streambuf_gap_wrong",
    "Strf.Dest.streambuf_gap_iff"
   ],
   "note": "false of the code when the stream accepts more after a short write: streambuf_gap_wrong. Proved in full for streams that do not (streambuf_prefix_partial)."
  },
  {
   "property": "C07",
   "status": "proved",
   "theorems": [
    "Strf.Dest.write_fill_exact"
   ],
   "note": ""
  },
  {
   "property": "C08",
   "status": "proved",
   "theorems": [
    "Strf.Dest.geometry_independent",
    "Strf.Dest.interchar_copy_exact"
   ],
   "note": "output layer: every history of output operations; printers are covered where they are proved to print a fixed text (Prints)"
  },
  {
   "property": "C09",
   "status": "proved",
   "theorems": [
    "Strf.Dest.appender_exception_prefix",
    "Strf.Dest.appender_never_retries",
    "Strf.Dest.appender_throw_iff_bad",
    "Strf.Dest.maker_leak_on_throw"
   ],
   "note": ""
  },
  {
   "property": "C10",
   "status": "proved",
   "theorems": [
    "Strf.Utf.transcode_follows_unicode",
    "Strf.Utf.utf8_decode_exact"
   ],
   "note": ""
  },
  {
   "property": "C11",
   "status": "proved",
   "theorems": [
    "Strf.Utf.output_well_formed"
   ],
   "note": ""
  },
  {
   "property": "C12",
   "status": "proved",
   "theorems": [
    "Strf.Utf.lossless"
   ],
   "note": ""
  },
  {
   "property": "C13",
   "status": "proved",
   "theorems": [
    "Strf.Utf.sanitize_idempotent"
   ],
   "note": ""
  },
  {
   "property": "C14",
   "status": "partial",
   "theorems": [
    "Strf.Utf.transcode_size_exact_partial",
    "Strf.Utf.transcode_size_8to8",
    "Strf.Utf.transcode_size_reserve",
    "Strf.Utf.transcode_size_8to8_wrong",
    "Strf.Utf.transcode_size_32to32_wrong",
    "Strf.Utf.transcode_size_8to8_iff",
    "Strf.Utf.transcode_size_32to32_iff"
   ],
   "note": "false of the code in two corner cases, shown by the _wrong theorems; exactly when: transcode_size_8to8_iff, transcode_size_32to32_iff"
  },
  {
   "property": "C16",
   "status": "proved",
   "theorems": [
    "Strf.Utf.stop_at_first_invalid"
   ],
   "note": ""
  },
  {
   "property": "C17",
   "status": "partial",
   "theorems": [
    "Strf.Utf.unsafe_agrees",
    "Strf.Utf.unsafe_size_agrees_partial",
    "Strf.Utf.unsafe_size_8to32",
    "Strf.Utf.unsafe_size_8to32_wrong",
    "Strf.Utf.unsafe_size_8to32_iff"
   ],
   "note": "unsafe_transcode itself is proved in full; unsafe_transcode_size UTF-8 to UTF-32 is false for small limits, exactly when: unsafe_size_8to32_iff"
  },
  {
   "property": "C18",
   "status": "proved",
   "theorems": [
    "Strf.Utf.count_codepoints_exact",
    "Strf.Utf.count_codepoints_fast_agrees"
   ],
   "note": ""
  },
  {
   "property": "C19",
   "status": "partial",
   "theorems": [
    "Strf.Utf.encode_char_exact",
    "Strf.Utf.encode_char_invalid",
    "Strf.Utf.decode_unit_utf8",
    "Strf.Utf.decode_unit_signed_wrong",
    "Strf.Utf.decode_unit_signed_iff"
   ],
   "note": "decode_unit of UTF-8 is false for signed char, for the units that are not ASCII and no other (decode_unit_signed_iff)"
  },
  {
   "property": "C21",
   "status": "proved",
   "theorems": [
    "Strf.Utf.lax_utf16_roundtrip",
    "Strf.Utf.lax_utf32_utf8_roundtrip"
   ],
   "note": ""
  },
  {
   "property": "C33",
   "status": "partial",
   "theorems": [
    "Strf.Width.satAdd_exact",
    "Strf.Width.satAddI16_exact",
    "Strf.Width.satAddI32_exact",
    "Strf.Width.satAddI64_exact",
    "Strf.Width.satSub_exact",
    "Strf.Width.satSubI16_exact",
    "Strf.Width.satSubI32_exact",
    "Strf.Width.satSubI64_exact_partial",
    "Strf.Width.satSubI64_exact_iff",
    "Strf.Width.satSubI64_wrong",
    "Strf.Width.satSubI64_undefined",
    "Strf.Width.satMul_exact",
    "Strf.Width.satMulI16_exact",
    "Strf.Width.satMulI32_exact",
    "Strf.Width.satMulU32_exact",
    "Strf.Width.satMulI64_exact",
    "Strf.Width.satMulU64_exact",
    "Strf.Width.conversions_exact"
   ],
   "note": "sat_sub with a 64-bit operand is false / undefined for some operands: exactly which is satSubI64_exact_iff"
  },
  {
   "property": "C34",
   "status": "proved",
   "theorems": [
    "Strf.Width.floor_correct",
    "Strf.Width.ceil_correct",
    "Strf.Width.nnFloor_correct",
    "Strf.Width.nnCeil_correct",
    "Strf.Width.round_correct"
   ],
   "note": ""
  },
  {
   "property": "C35",
   "status": "partial",
   "theorems": [
    "Strf.Width.compare_exact",
    "Strf.Width.compare16_exact_partial",
    "Strf.Width.compare16_exact_iff",
    "Strf.Width.compareI16_undefined",
    "Strf.Width.div_exact_partial",
    "Strf.Width.div_exact_iff",
    "Strf.Width.div_wrong_negative",
    "Strf.Width.div_wrong_overflow"
   ],
   "note": "division and 16-bit comparison are false / undefined for some operands: exactly which are compare16_exact_iff and div_exact_iff"
  },
  {
   "property": "C36",
   "status": "partial",
   "theorems": [
    "Strf.Width.literal_nearest_partial",
    "Strf.Width.literal_exact_iff",
    "Strf.Width.literal_wrong_15_digits",
    "Strf.Width.literal_wrong_range"
   ],
   "note": "false for long literals: exactly which is literal_exact_iff"
  },
  {
   "property": "C46",
   "status": "proved",
   "theorems": [
    "Strf.Utf.encode_fill_exact",
    "Strf.Utf.encode_fill_string_maker",
    "Strf.Sbc.encode_fill_bytes"
   ],
   "note": "UTF encodings and single-byte charsets"
  },
  {
   "property": "C15",
   "status": "proved",
   "theorems": [
    "Strf.Charset.transcode_any_buffer",
    "Strf.Charset.transcode_any_buffer_stop",
    "Strf.Charset.transcode_string_maker",
    "Strf.Charset.decode_encode_utf",
    "Strf.Charset.decode_encode_sbc_utf",
    "Strf.Charset.decode_encode_utf_sbc",
    "Strf.Charset.decode_encode_sbc_sbc",
    "Strf.Charset.decode_encode_ptr_utf",
    "Strf.Charset.decode_encode_size_utf",
    "Strf.Charset.decode_encode_size_limit"
   ],
   "note": ""
  },
  {
   "property": "C20",
   "status": "partial",
   "theorems": [
    "Strf.Charset.notifications_partial",
    "Strf.Charset.notified_twice_wrong",
    "Strf.Transcode.direct_dst_heard",
    "Strf.Transcode.direct_string_heard",
    "Strf.Transcode.direct_range_heard"
   ],
   "note": "false of the code when a buffer is full just before an ill-formed sequence: notified_twice_wrong. Proved: once or twice, in order, and nothing else; exactly which twice (direct_dst_heard): those whose replacement has no room in what is left of the buffer; never to an array"
  },
  {
   "property": "C22",
   "status": "partial",
   "theorems": [
    "Strf.Sbc.encode_decode_byte",
    "Strf.Sbc.decode_encode_char_partial",
    "Strf.Sbc.windows_1254_encode_wrong",
    "Strf.Sbc.windows_1258_encode_wrong",
    "Strf.Sbc.decode_encode_char_iff",
    "Strf.Sbc.decode_injective",
    "Strf.Sbc.valid_iff_decodes"
   ],
   "note": "false for exactly seven characters of windows-1254 and windows-1258 (decode_encode_char_iff); proved for the other 23 charsets and all other characters"
  },
  {
   "property": "C23",
   "status": "partial",
   "theorems": [
    "Strf.Sbc.to_u32_outcome",
    "Strf.Sbc.sanitize_outcome",
    "Strf.Sbc.from_u32_outcome_partial",
    "Strf.Sbc.from_u32_char_iff",
    "Strf.Sbc.from_u32_text",
    "Strf.Sbc.private_use_wrong",
    "Strf.Sbc.unsafe_from_u32_outcome",
    "Strf.Sbc.unsafe_to_u32_outcome",
    "Strf.Sbc.encode_char_byte",
    "Strf.Sbc.count_codepoints_bytes"
   ],
   "note": "false in strict mode for characters in U+E000-U+FFFF (private_use_wrong) and for the seven characters of C22, and for nothing else: from_u32_char_iff"
  },
  {
   "property": "C24",
   "status": "partial",
   "theorems": [
    "Strf.Sbc.to_u32_size_exact",
    "Strf.Sbc.from_u32_size_partial",
    "Strf.Sbc.size_fffd_wrong",
    "Strf.Sbc.size_unsupported_wrong",
    "Strf.Sbc.from_u32_size_char_iff",
    "Strf.Sbc.unsafe_from_u32_size_exact"
   ],
   "note": "false for exactly four boundary values with stop flags (from_u32_size_char_iff)"
  },
  {
   "property": "C47",
   "status": "proved",
   "theorems": [
    "Strf.Sbc.decode_published"
   ],
   "note": ""
  },
  {
   "property": "C25",
   "status": "proved",
   "theorems": [
    "Strf.Numpunct.split_meaning",
    "Strf.Numpunct.separators_count_exact",
    "Strf.Numpunct.any_separator_exact",
    "Strf.Numpunct.distribute_exact"
   ],
   "note": ""
  },
  {
   "property": "C26",
   "status": "partial",
   "theorems": [
    "Strf.Numpunct.ctor_roundtrip",
    "Strf.Numpunct.is_last_meaning",
    "Strf.Numpunct.ctor_injective",
    "Strf.Numpunct.ctor_word",
    "Strf.Numpunct.creator_no_more_sep",
    "Strf.Numpunct.creator_finish",
    "Strf.Numpunct.creator_invalid",
    "Strf.Numpunct.creator_no_groups",
    "Strf.Numpunct.creator_equality_wrong",
    "Strf.Numpunct.creator_equality_iff",
    "Strf.Numpunct.creator_canonical",
    "Strf.Numpunct.same_split_iff",
    "Strf.Numpunct.cstr_repeat",
    "Strf.Numpunct.cstr_no_repeat",
    "Strf.Numpunct.cstr_invalid",
    "Strf.Numpunct.creator_results",
    "Strf.Numpunct.obtainable_valid"
   ],
   "note": "operator== can tell apart two groupings with the same meaning: creator_equality_wrong; exactly when: creator_equality_iff; what creators give is equal exactly if it means the same: creator_canonical"
  },
  {
   "property": "C48",
   "status": "partial",
   "theorems": [
    "Strf.Numpunct.numpunct_facet_exact",
    "Strf.Numpunct.no_grouping_point_wrong",
    "Strf.Numpunct.no_grouping_point_iff"
   ],
   "note": "no_grouping::decimal_point() ignores the value set: no_grouping_point_wrong"
  },
  {
   "property": "C27",
   "status": "proved",
   "theorems": [
    "Strf.IntDigits.count_digits_exact",
    "Strf.IntDigits.count_digits_clz_exact",
    "Strf.IntDigits.numeral_meaning",
    "Strf.IntDigits.text_parses_back",
    "Strf.IntDigits.digits_fit_buffer",
    "Strf.IntDigits.write_int_exact"
   ],
   "note": ""
  },
  {
   "property": "C28",
   "status": "partial",
   "theorems": [
    "Strf.IntDigits.grouped_meaning",
    "Strf.IntDigits.grouped_unseparated",
    "Strf.IntDigits.write_int_little_sep_exact_partial",
    "Strf.IntDigits.write_bin_little_sep_partial",
    "Strf.IntDigits.write_bin_little_sep_wrong",
    "Strf.IntDigits.write_bin_little_sep_iff",
    "Strf.IntDigits.write_int_big_sep_exact"
   ],
   "note": "false in base 2 with a single-unit separator when the first group does not fit in the space left: write_bin_little_sep_wrong"
  },
  {
   "property": "C29",
   "status": "proved",
   "theorems": [
    "Strf.IntDigits.unsigned_abs_exact"
   ],
   "note": ""
  },
  {
   "property": "C30",
   "status": "partial",
   "theorems": [
    "Strf.IntPrinter.fmt_int_exact",
    "Strf.IntPrinter.default_int_exact",
    "Strf.IntPrinter.aligned_default_int_exact",
    "Strf.IntPrinter.plain_int_exact",
    "Strf.IntPrinter.plain_dec_partial",
    "Strf.IntPrinter.plain_dec_wrong",
    "Strf.IntPrinter.plain_dec_iff",
    "Strf.IntPrinter.punct_int_exact_partial",
    "Strf.IntPrinter.bin_punct_wrong",
    "Strf.IntPrinter.dyn_int_exact_partial"
   ],
   "note": "false of the code for +dec(x) without other formats (plain_dec_wrong) and for punctuated binary numbers (bin_punct_wrong); proved for all other formats, `Prints` includes that no store is outside the buffer"
  },
  {
   "property": "C31",
   "status": "partial",
   "theorems": [
    "Strf.IntPrinter.fmt_int_exact",
    "Strf.IntPrinter.default_int_exact",
    "Strf.IntPrinter.aligned_default_int_exact",
    "Strf.IntPrinter.plain_int_exact",
    "Strf.IntPrinter.plain_dec_partial",
    "Strf.IntPrinter.punct_int_exact_partial",
    "Strf.IntPrinter.dyn_int_exact_partial",
    "Strf.IntPrinter.invalid_separator_wrong",
    "Strf.IntPrinter.punct_int_invalid_sep",
    "Strf.IntPrinter.invalid_sep_columns"
   ],
   "note": "false of the code when the separator cannot be encoded: invalid_separator_wrong; what is printed then: punct_int_invalid_sep"
  },
  {
   "property": "C32",
   "status": "partial",
   "theorems": [
    "Strf.IntPrinter.fmt_int_exact",
    "Strf.IntPrinter.default_int_exact",
    "Strf.IntPrinter.aligned_default_int_exact",
    "Strf.IntPrinter.plain_int_exact",
    "Strf.IntPrinter.plain_dec_partial",
    "Strf.IntPrinter.punct_int_exact_partial",
    "Strf.IntPrinter.dyn_int_exact_partial",
    "Strf.IntPrinter.precision_overflow_wrong",
    "Strf.IntPrinter.invalid_separator_wrong",
    "Strf.IntPrinter.punct_int_invalid_sep",
    "Strf.IntPrinter.invalid_sep_columns"
   ],
   "note": "the width is wrong when the separator cannot be encoded (by how much: punct_int_invalid_sep, invalid_sep_columns); precisions near INT_MAX overflow"
  },
  {
   "property": "C37",
   "status": "partial",
   "theorems": [
    "Strf.Print.checked_width_accumulator_exact",
    "Strf.Print.width_accumulator_exact_partial",
    "Strf.Print.width_accumulator_order",
    "Strf.Print.saturate_exact",
    "Strf.Print.measure_width_exact",
    "Strf.Print.measure_size_exact",
    "Strf.Print.add_width_overflow",
    "Strf.Print.add_width_iff"
   ],
   "note": "checked_add_width is proved in full; add_width overflows when the sum exceeds width_max: add_width_overflow"
  },
  {
   "property": "C39",
   "status": "partial",
   "theorems": [
    "Strf.Print.aligned_join_exact",
    "Strf.Print.aligned_join_exact_partial",
    "Strf.Print.join_exact",
    "Strf.Print.join_width_wrong",
    "Strf.Print.join_width_overflow",
    "Strf.Print.join_width_iff"
   ],
   "note": "what is printed and the size are proved in full for aligned joins whose width is not demanded; with a width limit near width_max the reported width is wrong (join_width_wrong) or overflows (join_width_overflow); exactly when: join_width_iff"
  },
  {
   "property": "C43",
   "status": "proved",
   "theorems": [
    "Strf.WidthCalc.fast_str_width_exact",
    "Strf.WidthCalc.fast_str_width_ok",
    "Strf.WidthCalc.fast_str_width_and_pos_exact",
    "Strf.WidthCalc.u32len_utf",
    "Strf.WidthCalc.fast_u32len_agrees",
    "Strf.WidthCalc.u32len_sbc"
   ],
   "note": "width_as_fast_u32len on ill-formed text is only bounded by its contract on well-formed text, as documented"
  },
  {
   "property": "C44",
   "status": "partial",
   "theorems": [
    "Strf.WidthCalc.std_char_width_exact",
    "Strf.WidthCalc.std_str_width_exact",
    "Strf.WidthCalc.std_str_width_sbc",
    "Strf.WidthCalc.std_str_width_ok",
    "Strf.WidthCalc.std_str_width_and_pos_partial",
    "Strf.WidthCalc.std_str_width_and_pos_sbc_partial",
    "Strf.WidthCalc.std_str_width_and_pos_short",
    "Strf.WidthCalc.Longest.boundary",
    "Strf.WidthCalc.std_pos_block_wrong",
    "Strf.WidthCalc.std_pos_width_wrong",
    "Strf.WidthCalc.std_pos_negative_wrong",
    "Strf.WidthCalc.std_str_width_and_pos_iff",
    "Strf.WidthCalc.std_str_width_and_pos_sbc_iff",
    "Strf.WidthCalc.Accepted.unique",
    "Strf.WidthCalc.Accepted.longest_iff",
    "Strf.WidthCalc.Accepted.width_iff"
   ],
   "note": "str_width is proved in full (UAX #29 and the Unicode 13 property table); str_width_and_pos is false of the code at a block boundary, for the width when a wide character does not fit, and for negative limits; std_str_width_and_pos_iff says exactly when and what is returned"
  },
  {
   "property": "C38",
   "status": "partial",
   "theorems": [
    "Strf.Print.aligned_string_exact",
    "Strf.Print.string_exact",
    "Strf.Print.precise_string_exact",
    "Strf.Print.std_precise_string_partial",
    "Strf.Print.std_precise_string_narrow",
    "Strf.Print.std_precise_string_wrong",
    "Strf.Print.std_precise_string_iff",
    "Strf.Print.std_precise_negative_wrong",
    "Strf.Print.policies_agree",
    "Strf.Print.policy_choice"
   ],
   "note": "alignment is proved in full, for every pair of charsets, policy and width calculator; precision in full except with std_width_calc, where the fill count is wrong when a wide character does not fit (std_precise_string_wrong); std_precise_string_iff says exactly when"
  },
  {
   "property": "C40",
   "status": "proved",
   "theorems": [
    "Strf.Print.tr_syntax",
    "Strf.Print.tr_write_exact",
    "Strf.Print.tr_exact"
   ],
   "note": ""
  },
  {
   "property": "C41",
   "status": "proved",
   "theorems": [
    "Strf.Print.tr_size_exact",
    "Strf.Print.tr_exact"
   ],
   "note": ""
  },
  {
   "property": "C42",
   "status": "proved",
   "theorems": [
    "Strf.Print.tr_write_exact",
    "Strf.Print.tr_missing_braces"
   ],
   "note": ""
  },
  {
   "property": "C49",
   "status": "partial",
   "theorems": [
    "Strf.Print.tr_exact",
    "Strf.Print.tr_join_width_wrong",
    "Strf.Print.tr_cluster_width_wrong",
    "Strf.Print.tr_width_overflow"
   ],
   "note": "false of the code if an argument is an aligned join (tr_join_width_wrong), if a directive divides a grapheme cluster (tr_cluster_width_wrong), or if the widths of the arguments add up to more than width_max (tr_width_overflow)"
  },
  {
   "property": "C50",
   "status": "partial",
   "theorems": [
    "Strf.Print.char_width_exact",
    "Strf.Print.char_exact",
    "Strf.Print.char32_exact",
    "Strf.Print.multi_char_exact_partial",
    "Strf.Print.multi_char32_exact_partial",
    "Strf.Print.char_align_overflow",
    "Strf.Print.multi_char_iff",
    "Strf.Print.multi_char32_iff"
   ],
   "note": "everything but alignment of more than 32767.5 columns, where the code overflows (char_align_overflow); exactly when: multi_char_iff, multi_char32_iff"
  },
  {
   "property": "C51",
   "status": "proved",
   "theorems": [
    "Strf.Print.range_exact",
    "Strf.Print.separated_range_exact",
    "Strf.Print.range_stops"
   ],
   "note": ""
  },
  {
   "property": "C52",
   "status": "proved",
   "theorems": [
    "Strf.Print.to_string_exact",
    "Strf.Print.to_string_reserve_exact",
    "Strf.Print.append_exact",
    "Strf.Print.to_cfile_exact",
    "Strf.Print.to_streambuf_exact"
   ],
   "note": "if a streambuf refuses part of the text, what it received may have a gap (Dest.streambuf_gap_wrong, C06); the result still tells that not everything was taken"
  },
  {
   "property": "C53",
   "status": "proved",
   "theorems": [
    "Strf.Print.print_tr_exact",
    "Strf.Print.append_tr_exact",
    "Strf.Print.to_string_tr_exact"
   ],
   "note": ""
  },
  {
   "property": "C45",
   "status": "proved",
   "theorems": [
    "Strf.Dest.reserve_irrelevant",
    "Strf.Print.to_string_exact",
    "Strf.Print.to_string_reserve_exact"
   ],
   "note": ""
  },
  {
   "property": "C54",
   "status": "partial",
   "theorems": [
    "Strf.Print.to_cstr_exact_partial",
    "Strf.Print.to_range_exact_partial",
    "Strf.Print.to_discarder_exact",
    "Strf.Print.to_cstr_terminated_wrong",
    "Strf.Print.to_cstr_terminated_partial",
    "Strf.Print.to_range_end_partial",
    "Strf.Program.call_to_cstr_terminated_partial",
    "Strf.Program.call_to_range_end_partial",
    "Strf.Program.tr_call_to_cstr_terminated_partial",
    "Strf.Program.tr_call_to_range_end_partial",
    "Strf.Program.tr_terminated_wrong"
   ],
   "note": "the terminator is missing in one case, which is a defect of the code: to_cstr_terminated_wrong, and with tr much sooner: tr_terminated_wrong; all the rest is proved, and that this does not happen if the first argument that does not fit has a text of at most 64 units"
  },
  {
   "property": "C55",
   "status": "proved",
   "theorems": [
    "Strf.Facets.get_facet_exact",
    "Strf.Facets.nesting_irrelevant",
    "Strf.Facets.later_overrides",
    "Strf.Facets.combined_facets",
    "Strf.Facets.constrained_no_effect",
    "Strf.Facets.other_category_no_effect",
    "Strf.Facets.printed_by_exact"
   ],
   "note": ""
  },
  {
   "property": "C56",
   "status": "proved",
   "theorems": [
    "Strf.Float.unformatted_exact"
   ],
   "note": ""
  },
  {
   "property": "C57",
   "status": "partial",
   "theorems": [
    "Strf.Float.no_precision_exact",
    "Strf.Float.no_precision_punct_exact",
    "Strf.Float.cast_utf",
    "Strf.Float.cast_ascii",
    "Strf.Float.sbc_separator_wrong",
    "Strf.Float.no_precision_punct_iff"
   ],
   "note": "false of the code in the single-byte charsets if the separator is not ASCII (sbc_separator_wrong), exactly for the integers that have separators (no_precision_punct_iff); everything else is proved"
  },
  {
   "property": "C58",
   "status": "partial",
   "theorems": [
    "Strf.Float.scientific_exact",
    "Strf.Float.scientific_punct_exact",
    "Strf.Float.fixed_exact",
    "Strf.Float.fixed_punct_partial",
    "Strf.Float.general_partial",
    "Strf.Float.general_punct_partial",
    "Strf.Float.fixed_all",
    "Strf.Float.general_all",
    "Strf.Float.fixed_text_iff",
    "Strf.Float.general_iff",
    "Strf.Float.plain_of_punct",
    "Strf.Float.fixed_grouping_carry_wrong",
    "Strf.Float.general_alt_zeros_wrong"
   ],
   "note": "what is missing is false of the code: see the theorems _wrong; fixed_all and general_all say what is printed for every number, fixed_text_iff and general_iff exactly when it is right"
  },
  {
   "property": "C59",
   "status": "partial",
   "theorems": [
    "Strf.Float.hex_exact",
    "Strf.Float.hex_value",
    "Strf.Float.hex_partial",
    "Strf.Float.hex_punct_partial",
    "Strf.Float.hex_all",
    "Strf.Float.hex_exact_iff",
    "Strf.Float.carries_round",
    "Strf.Float.mantissa_digcount_ctz",
    "Strf.Float.hex_carry_wrong"
   ],
   "note": "false of the code for exactly the numbers for which rounding carries to the leading digit (hex_exact_iff, hex_carry_wrong): of these the digits after the point are dropped (hex_all); everything else is proved"
  },
  {
   "property": "C60",
   "status": "proved",
   "theorems": [
    "Strf.Float.unformatted_special_exact",
    "Strf.Float.special_exact"
   ],
   "note": ""
  },
  {
   "property": "C61",
   "status": "partial",
   "theorems": [
    "Strf.Float.unformatted_exact",
    "Strf.Float.no_precision_exact",
    "Strf.Float.no_precision_punct_exact",
    "Strf.Float.scientific_exact",
    "Strf.Float.scientific_punct_exact",
    "Strf.Float.fixed_exact",
    "Strf.Float.fixed_punct_partial",
    "Strf.Float.general_partial",
    "Strf.Float.general_punct_partial",
    "Strf.Float.hex_partial",
    "Strf.Float.hex_punct_partial",
    "Strf.Float.hex_all",
    "Strf.Float.fixed_all",
    "Strf.Float.general_all",
    "Strf.Float.fixed_width_iff",
    "Strf.Float.general_iff",
    "Strf.Float.plain_of_punct",
    "Strf.Float.special_exact",
    "Strf.Float.general_carry_sign_wrong",
    "Strf.Float.fixed_grouping_size_wrong",
    "Strf.Float.general_carry_grouping_wrong"
   ],
   "note": "what is missing is false of the code: see the theorems _wrong; fixed_all and general_all say what is premeasured for every number, fixed_width_iff and general_iff exactly when it is right"
  },
  {
   "property": "C62",
   "status": "proved",
   "theorems": [
    "Strf.Float.fields_exact",
    "Strf.Float.fields_surj",
    "Strf.Float.decode_exact"
   ],
   "note": ""
  },
  {
   "property": "C63",
   "status": "proved",
   "theorems": [
    "Strf.Dragonbox.to_decimal_shortest",
    "Strf.Dragonbox.reads_unique",
    "Strf.Dragonbox.reads_self",
    "Strf.Dragonbox.decode_reads"
   ],
   "note": ""
  },
  {
   "property": "C64",
   "status": "proved",
   "theorems": [
    "Strf.Dragonbox.unformatted_round_trip",
    "Strf.Dragonbox.formatted_round_trip",
    "Strf.Dragonbox.unformatted_injective"
   ],
   "note": ""
  },
  {
   "property": "C65",
   "status": "proved",
   "theorems": [
    "Strf.Dragonbox.regular_in_bounds",
    "Strf.Dragonbox.power_in_bounds"
   ],
   "note": ""
  },
  {
   "property": "C66",
   "status": "partial",
   "theorems": [
    "Strf.Format.int_chain_exact_partial",
    "Strf.Format.int_chain_order_partial",
    "Strf.Format.int_chain_compiles",
    "Strf.Format.base_loses_options_wrong",
    "Strf.Format.int_chain_acting_partial",
    "Strf.Format.acting_id_iff",
    "Strf.Format.chain_options_iff",
    "Strf.Format.acting_same"
   ],
   "note": "false of the code for base(b) after p, pad0 or punct: only the punctuation is kept (base_loses_options_wrong); and for the integer printers' own defects (C30, C31). Proved for all other chains; acting_id_iff and chain_options_iff say exactly which chains those are, and int_chain_acting_partial what the others print."
  },
  {
   "property": "C67",
   "status": "proved",
   "theorems": [
    "Strf.Format.pointer_exact",
    "Strf.Format.alignChain_ok"
   ],
   "note": ""
  },
  {
   "property": "C68",
   "status": "partial",
   "theorems": [
    "Strf.Format.float_chain_exact_partial",
    "Strf.Format.float_chain_order_partial",
    "Strf.Format.float_chain_state",
    "Strf.Format.float_chain_all",
    "Strf.Format.bare_iff",
    "Strf.Format.fast_letters_iff",
    "Strf.Format.fast_lettercase_wrong"
   ],
   "note": "false of the code for the letter case of an unformatted double when the facet is constrained by type (fast_lettercase_wrong), exactly when: float_chain_all with fast_letters_iff; and for the roundings of C58/C59. Proved for all other numbers and all chains."
  },
  {
   "property": "C69",
   "status": "partial",
   "theorems": [
    "Strf.Format.string_chain_exact_partial",
    "Strf.Format.string_chain_state",
    "Strf.Format.how_text",
    "Strf.Format.id_injective",
    "Strf.Format.charset_width_wrong",
    "Strf.Format.string_chain_copied_partial",
    "Strf.Format.copied_text_iff",
    "Strf.Format.charset_width_iff"
   ],
   "note": "false of the code for the width of a string whose charset was given and is copied to a destination of another character type (charset_width_wrong; string_chain_copied_partial says what is printed, and charset_width_iff that it is right exactly if the columns are the same in the facet for the type of the string), and for precision with std_width_calc (C38). Proved for all other chains, charsets and character types."
  },
  {
   "property": "C70",
   "status": "partial",
   "theorems": [
    "Strf.Format.char_chain_exact_partial",
    "Strf.Format.raw_char_exact",
    "Strf.Format.bool_chain_exact",
    "Strf.Format.char_chain_state",
    "Strf.Format.char_chain_cast",
    "Strf.Format.cast_ascii",
    "Strf.Format.ascii_text",
    "Strf.Format.char_cast_wrong"
   ],
   "note": "false of the code for formatted characters of a type other than that of the destination and char32_t, which compile and are cast (char_cast_wrong; char_chain_cast says what is printed, which is right for ASCII characters), and for alignment to more than 32767.5 columns (C50). Proved for all other chains; booleans are proved entirely."
  },
  {
   "property": "C71",
   "status": "partial",
   "theorems": [
    "Strf.Locale.locale_numpunct_exact_partial",
    "Strf.Locale.locale_numpunct_safe",
    "Strf.Locale.begins_exists",
    "Strf.Locale.locale_char_max_wrong",
    "Strf.Locale.locale_numpunct_iff"
   ],
   "note": "false of the code where char is signed: CHAR_MAX (127) is taken for a group of 127 digits and the whole grouping is dropped (locale_char_max_wrong). Proved for all other locales whose grouping a digits_grouping can hold; locale_numpunct_iff says exactly for which locales the result is right."
  },
  {
   "property": "C72",
   "status": "proved",
   "theorems": [
    "Strf.Locale.locale_win_exact",
    "Strf.Locale.win_grouping_exact"
   ],
   "note": ""
  },
  {
   "property": "C73",
   "status": "partial",
   "theorems": [
    "Strf.Program.call_exact_partial",
    "Strf.Program.call_to_string_partial",
    "Strf.Program.call_to_string_reserve_partial",
    "Strf.Program.call_append_partial",
    "Strf.Program.call_to_cfile_partial",
    "Strf.Program.call_to_streambuf_partial",
    "Strf.Program.call_to_streambuf_prefix_partial",
    "Strf.Program.call_to_discarder_partial",
    "Strf.Program.call_to_cstr_partial",
    "Strf.Program.call_text_unique",
    "Strf.Program.aCall_means",
    "Strf.Program.call_tag_wrong"
   ],
   "note": "false of the code for the letter case of an unformatted double when the facet is constrained by type (call_tag_wrong), and where C43, C50, C58, C59, C66, C68, C69, C70 are; Call.Means carries exactly their conditions. Proved for all other calls."
  },
  {
   "property": "C74",
   "status": "proved",
   "theorems": [
    "Strf.Program.charset_uniform"
   ],
   "note": ""
  },
  {
   "property": "C75",
   "status": "proved",
   "theorems": [
    "Strf.Transcode.find_exact",
    "Strf.Transcode.printing_content"
   ],
   "note": ""
  },
  {
   "property": "C76",
   "status": "partial",
   "theorems": [
    "Strf.Transcode.transcode_partial",
    "Strf.Transcode.transcode_dst_partial",
    "Strf.Transcode.decode_encode_partial",
    "Strf.Transcode.decode_encode_dst_partial",
    "Strf.Transcode.converts_unique",
    "Strf.Transcode.transcode_defect_wrong",
    "Strf.Transcode.transcode_private_wrong"
   ],
   "note": "false of the code for seven characters of windows-1254 and windows-1258 (transcode_defect_wrong, C23) and, from UTF-32 to a single-byte charset with a stop flag in strict mode, for U+E000–U+FFFF, which are reported as invalid (transcode_private_wrong). Proved for all other sources, pairs, flags and rooms. The calls of the error notifier: C85."
  },
  {
   "property": "C77",
   "status": "partial",
   "theorems": [
    "Strf.Transcode.transcode_size_partial",
    "Strf.Transcode.transcode_size_reserve_partial",
    "Strf.Transcode.decode_encode_partial",
    "Strf.Transcode.unsafe_transcode_partial",
    "Strf.Transcode.unsafe_transcode_dst_partial",
    "Strf.Transcode.unsafe_same_partial",
    "Strf.Transcode.unsafe_decode_encode_partial",
    "Strf.Transcode.unsafe_decode_encode_size_partial",
    "Strf.Transcode.unsafe_transcode_size_partial"
   ],
   "note": "false of the code in the cases of C14, C17 and C24 (8→8 without stop flag, 32→32 signed, UTF-32 to single-byte with stop flags, unsafe 8→32: the _wrong theorems of Utf and Sbc), and where C76 is. Proved for all others."
  },
  {
   "property": "C78",
   "status": "partial",
   "theorems": [
    "Strf.Program.tr_call_exact_partial",
    "Strf.Program.tr_call_to_string_partial",
    "Strf.Program.tr_call_append_partial",
    "Strf.Program.tr_call_to_cfile_partial",
    "Strf.Program.tr_call_to_cstr_partial",
    "Strf.Program.tr_call_to_streambuf_partial",
    "Strf.Program.tr_call_to_discarder_partial",
    "Strf.Program.tr_call_to_cstr_terminated_partial",
    "Strf.Program.tr_call_to_range_end_partial",
    "Strf.Program.tr_terminated_wrong",
    "Strf.Program.aTrCall_means"
   ],
   "note": "false of the code where C73 is (the printers of the arguments) and, for char arrays that are too small, when the text has more than 64 units: tr does not stop at the truncation, and the end of what was kept is lost (tr_terminated_wrong). Proved for all other calls; the tr-string itself is unrestricted."
  },
  {
   "property": "C79",
   "status": "partial",
   "theorems": [
    "Strf.Program.measure_call_size_partial",
    "Strf.Program.measure_call_width_partial"
   ],
   "note": "false of the code where C73 is, and for widths that overflow width_t (C37). Proved for all others."
  },
  {
   "property": "C80",
   "status": "proved",
   "theorems": [
    "Strf.Program.plain_call_exact",
    "Strf.Program.plain_to_string",
    "Strf.Program.plain_append",
    "Strf.Program.plain_to_cfile",
    "Strf.Program.plain_to_array",
    "Strf.Program.plain_float_round_trip"
   ],
   "note": ""
  },
  {
   "property": "C81",
   "status": "partial",
   "theorems": [
    "Strf.Dragonbox.hex_round_trip",
    "Strf.Dragonbox.hex_rounded_partial",
    "Strf.Dragonbox.hex_rounded_iff",
    "Strf.Dragonbox.hex_round_carry_wrong"
   ],
   "note": "the round trip is proved for all numbers; rounding to less than 13 digits is false of the code for exactly the numbers that carry to the leading digit (hex_rounded_iff, hex_round_carry_wrong)"
  },
  {
   "property": "C82",
   "status": "partial",
   "theorems": [
    "Strf.Dragonbox.precision_rounds_partial",
    "Strf.Dragonbox.precision_nearest_partial",
    "Strf.Dragonbox.precision_nearest_iff",
    "Strf.Dragonbox.rounded_same_iff",
    "Strf.Dragonbox.precision_exact",
    "Strf.Dragonbox.decimal_unique",
    "Strf.Dragonbox.double_rounding_wrong"
   ],
   "note": "false of the code: it rounds the shortest decimal of the number instead of the number (double_rounding_wrong). Proved: what is printed is the shortest decimal rounded; it is the number rounded if and only if no tie separates the two (precision_nearest_iff), for instance if they are equal."
  },
  {
   "property": "C83",
   "status": "proved",
   "theorems": [
    "Strf.Program.writes_unique",
    "Strf.Program.concat_law",
    "Strf.Program.line_law",
    "Strf.Program.two_calls_law",
    "Strf.Program.grouping_law",
    "Strf.Program.arguments_law",
    "Strf.Program.separated_range_law",
    "Strf.Program.tr_law",
    "Strf.Program.tr_refs_law",
    "Strf.Program.aligned_join_law"
   ],
   "note": "of the calls that mean something, in the sense of C73"
  },
  {
   "property": "C84",
   "status": "proved",
   "theorems": [
    "Strf.Lib.fill_exact",
    "Strf.Lib.copy_exact",
    "Strf.Lib.copy_out",
    "Strf.Lib.copy_inside_exact",
    "Strf.Lib.str_length_exact",
    "Strf.Lib.str_find_exact",
    "Strf.Lib.str_equal_exact",
    "Strf.Lib.str_equal_stops",
    "Strf.Lib.view_of_cstr",
    "Strf.Lib.view_of_range",
    "Strf.Lib.view_eq_exact",
    "Strf.Lib.slow_countl_zero_exact",
    "Strf.Lib.iterator_exact",
    "Strf.Lib.iterator_failed",
    "Strf.Lib.iterator_to_string"
   ],
   "note": "the loops used when the standard library is not; the standard functions themselves are trusted to do what the C++ standard says"
  },
  {
   "property": "C85",
   "status": "partial",
   "theorems": [
    "Strf.Transcode.direct_notes_partial",
    "Strf.Transcode.direct_dst_notes_partial",
    "Strf.Transcode.transcode_notes_partial",
    "Strf.Transcode.transcode_dst_notes_partial",
    "Strf.Transcode.transcode_dst_notes_all_partial",
    "Strf.Transcode.unsafe_transcode_notes_partial",
    "Strf.Transcode.unsafe_transcode_dst_notes_partial",
    "Strf.Transcode.unsafe_transcode_dst_notes_all_partial",
    "Strf.Transcode.notes_twice_wrong",
    "Strf.Transcode.notes_order_wrong",
    "Strf.Transcode.notes_ahead_wrong",
    "Strf.Transcode.direct_dst_heard",
    "Strf.Transcode.direct_dst_heard_steady",
    "Strf.Transcode.direct_string_heard",
    "Strf.Transcode.direct_cfile_heard",
    "Strf.Transcode.direct_streambuf_heard",
    "Strf.Transcode.direct_range_heard"
   ],
   "note": "false of the code: a problem at the end of a buffer is told twice (notes_twice_wrong, Charset.notified_twice_wrong); through UTF-32 not in order (notes_order_wrong) and also what lies after the end of the conversion (notes_ahead_wrong). Proved: exactly once and in order by direct conversions to a pointer range; each once or twice in order by direct ones to a destination, twice exactly those whose text has no room in what is left of the buffer (direct_dst_heard); otherwise ill-formed sequences and lacking characters each once or twice, in order among themselves, nothing else, at most 17 marks ahead. The characters of C76 are excepted."
  },
  {
   "property": "C86",
   "status": "proved",
   "theorems": [
    "Strf.Punct.int_read_back",
    "Strf.Punct.float_read_back",
    "Strf.Punct.float_precision_read_back",
    "Strf.Punct.predefined_sound",
    "Strf.Punct.predefined_int",
    "Strf.Punct.predefined_float",
    "Strf.Punct.predefined_float_precision"
   ],
   "note": "of the numbers that mean something, in the sense of C73: where a defect of the code changes the text (C57-C61 *_wrong) nothing is claimed; the three theorems on predefined facets have no such hypothesis"
  },
  {
   "property": "C87",
   "status": "partial",
   "theorems": [
    "Strf.Chain.chain_exact",
    "Strf.Chain.chain_call_partial",
    "Strf.Chain.chain_tr_partial",
    "Strf.Chain.to_string_chain_partial",
    "Strf.Chain.same_facets_same_string_partial",
    "Strf.Chain.append_chain_partial",
    "Strf.Chain.append_tr_chain_partial",
    "Strf.Chain.to_string_tr_chain_partial",
    "Strf.Chain.plain_only_chain",
    "Strf.Chain.simple_chain_compiles",
    "Strf.Chain.chain_compiles_wrong",
    "Strf.Chain.to_string_tr_calc_wrong"
   ],
   "note": "false of the code: some chains do not compile (chain_compiles_wrong, to_string_tr_calc_wrong). Of those that do: the policy written last, all facets in order, the text of the call; calls that mean something in the sense of C73."
  },
  {
   "property": "C88",
   "status": "partial",
   "theorems": [
    "Strf.Threads.threads_isolated",
    "Strf.Threads.threads_each_alone",
    "Strf.Threads.writes_sound",
    "Strf.Threads.race_needs_two_spills",
    "Strf.Threads.spills_truncated",
    "Strf.Threads.noisy_lawful",
    "Strf.Threads.call_undisturbed_partial",
    "Strf.Threads.garbage_race_wrong",
    "Strf.Threads.spilling_is_the_call"
   ],
   "note": "the last part is false of the code: all destinations that are truncated write to one static buffer, strf::garbage_buff, a data race (garbage_race_wrong). Proved: that is the only memory where there can be one, and only if two of the threads are truncated; with stores taken as atomic steps it has no effect on any result."
  },
  {
   "property": "C89",
   "status": "partial",
   "theorems": [
    "Strf.Width.binop_exact_iff",
    "Strf.Width.binop_exact_partial",
    "Strf.Width.cmpop_exact_partial",
    "Strf.Width.sat_functions_exact",
    "Strf.Width.compare_functions_exact",
    "Strf.Width.compare16_functions_exact_partial",
    "Strf.Width.narrowed_wrong",
    "Strf.Width.compare_undefined_wrong"
   ],
   "note": "false of the code for integers that are not values of int16_t, which the operators convert to it (narrowed_wrong), and where a 16-bit comparison overflows (compare_undefined_wrong); quotients and sat_sub with 64 bits as far as C33 and C35 go"
  },
  {
   "property": "C90",
   "status": "partial",
   "theorems": [
    "Strf.Override.std_facets_unaffected",
    "Strf.Override.make_mono",
    "Strf.Override.uarg_exact",
    "Strf.Override.ucall_exact_partial",
    "Strf.Override.ucall_to_string_partial",
    "Strf.Override.ucall_to_string_reserve_partial",
    "Strf.Override.ucall_append_partial",
    "Strf.Override.ucall_to_cfile_partial",
    "Strf.Override.ucall_to_cstr_partial",
    "Strf.Override.ucall_text_unique",
    "Strf.Override.only_overridden",
    "Strf.Override.endless",
    "Strf.Override.last_overrider",
    "Strf.Override.myPrinters_ok",
    "Strf.Override.aUCall_means",
    "Strf.Program.ucall_to_cstr_terminated_partial"
   ],
   "note": "partial as C73 is: the conditions on values of the types of strf; nothing is missing about overriders; classes that have print in the place of make_printer are C91"
  },
  {
   "property": "C91",
   "status": "partial",
   "theorems": [
    "Strf.Direct.says_exact",
    "Strf.Direct.means_exact",
    "Strf.Direct.says_call_partial",
    "Strf.Direct.says_to_string_partial",
    "Strf.Direct.says_to_string_reserve_partial",
    "Strf.Direct.says_append_partial",
    "Strf.Direct.says_to_cfile_partial",
    "Strf.Direct.says_to_cstr_partial",
    "Strf.Direct.says_tr_partial",
    "Strf.Direct.says_tr_to_string_partial",
    "Strf.Direct.means_call_partial",
    "Strf.Direct.means_to_string_calc_partial",
    "Strf.Direct.denotes_says",
    "Strf.Direct.denotes_means",
    "Strf.Direct.print_only_measured",
    "Strf.Direct.print_only_inner",
    "Strf.Direct.unmeasured_wrong",
    "Strf.Direct.myPrint_ok",
    "Strf.Direct.aPCall_says",
    "Strf.Program.says_to_cstr_terminated_partial"
   ],
   "note": "false of the code for arguments of strf::with(...)(...) and strf::tr(...), which need make_printer although nothing is measured (print_only_inner, unmeasured_wrong); and partial as C73 is in the values of the types of strf"
  },
  {
   "property": "C92",
   "status": "partial",
   "theorems": [
    "Strf.Ranges.range_elements",
    "Strf.Ranges.separated_elements",
    "Strf.Ranges.function_called_once",
    "Strf.Ranges.separated_function_called_once",
    "Strf.Ranges.function_measured",
    "Strf.Ranges.separated_function_measured",
    "Strf.Ranges.measured_then_printed",
    "Strf.Ranges.separator_exact",
    "Strf.Ranges.crossed_undefined",
    "Strf.Ranges.range_argument",
    "Strf.Ranges.range_law",
    "Strf.Ranges.fmt_range_ints",
    "Strf.Ranges.fmt_separated_init_wrong"
   ],
   "note": "the last part is false of the code: fmt_separated_range with an initializer list is ill-formed, a narrowing conversion in braces (fmt_separated_init_wrong); the rest is proved"
  },
  {
   "property": "C93",
   "status": "partial",
   "theorems": [
    "Strf.Print.to_cstr_fits",
    "Strf.Print.to_range_fits",
    "Strf.Program.call_to_cstr_fits_partial",
    "Strf.Program.call_to_range_fits_partial",
    "Strf.Program.tr_call_to_cstr_fits_partial",
    "Strf.Program.tr_call_to_range_fits_partial",
    "Strf.Program.ucall_to_cstr_fits_partial",
    "Strf.Program.says_to_cstr_fits_partial"
   ],
   "note": "partial as C73 is, in the values of the types of strf; the flag of the contract (Dest.Prints true) says of every printer that it asks for no more room than its text needs"
  },
  {
   "property": "C94",
   "status": "partial",
   "theorems": [
    "Strf.Print.to_string_reserve_fits",
    "Strf.Program.call_to_string_reserve_fits_partial",
    "Strf.Program.tr_call_to_string_reserve_fits_partial"
   ],
   "note": "partial as C73 is"
  },
  {
   "property": "C95",
   "status": "partial",
   "theorems": [
    "Strf.Print.to_cfile_fits",
    "Strf.Print.to_streambuf_fits",
    "Strf.Program.call_to_cfile_fits_partial",
    "Strf.Program.call_to_streambuf_fits_partial",
    "Strf.Program.tr_call_to_cfile_fits_partial"
   ],
   "note": "partial as C73 is"
  },
  {
   "property": "C96",
   "status": "partial",
   "theorems": [
    "Strf.Numpunct.numpunct_answers",
    "Strf.Numpunct.default_answers",
    "Strf.Numpunct.no_grouping_answers_partial",
    "Strf.Numpunct.numpunct_equal",
    "Strf.Numpunct.equal_answers",
    "Strf.Numpunct.no_grouping_equal_wrong",
    "Strf.Numpunct.no_grouping_uninit_wrong",
    "Strf.Numpunct.no_grouping_point_wrong"
   ],
   "note": "false of no_grouping, which forgets the decimal point that is set, compares unequal although it answers alike, and has a data member without initializer; proved of all else"
  },
  {
   "property": "C97",
   "status": "proved",
   "theorems": [
    "Strf.Transcode.FlagBits.flags_combine",
    "Strf.Transcode.FlagBits.strict_or_lax",
    "Strf.Transcode.FlagBits.flags_named",
    "Strf.Transcode.FlagBits.flags_reached"
   ],
   "note": "for all values of 32 bits; what the conversions do with the flags is C11-C24, C76, C85"
  },
  {
   "property": "C98",
   "status": "partial",
   "theorems": [
    "Strf.Told.call_told_partial",
    "Strf.Told.call_tr_told_partial",
    "Strf.Told.call_to_string_told_partial",
    "Strf.Told.call_to_string_untold_partial"
   ],
   "note": "missing: strings with characters that tables of single-byte charsets have wrong (C05)"
  },
  {
   "property": "C99",
   "status": "partial",
   "theorems": [
    "Strf.TrTold.call_noted_partial",
    "Strf.TrTold.call_tr_noted_partial",
    "Strf.TrTold.call_to_string_noted_partial"
   ],
   "note": "proved of the calls that C73 covers (Call.Means carries its conditions; the code violates C73 in the others); in which order the notes come is not part of the property"
  },
  {
   "property": "C100",
   "status": "partial",
   "theorems": [
    "Strf.Print.append_own_partial",
    "Strf.Print.append_own_once",
    "Strf.Print.append_own_twice_iff",
    "Strf.Print.append_own_reserve_iff",
    "Strf.Print.append_own_calc_iff",
    "Strf.Print.append_own_wrong",
    "Strf.Print.append_own_reserve_wrong",
    "Strf.Print.assign_own_wrong"
   ],
   "note": "false of the code when std::string allocates before the last time that str is read (append_own_wrong, append_own_reserve_wrong: undefined behaviour), and for assign, which clears str first (assign_own_wrong); proved when the capacity suffices; for one or two copies of str, and for reservations, exactly when. Missing: str transcoded, aligned with a fill character of several units, or as part of a join."
  }
 ]
}