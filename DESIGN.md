# A Lean 4 model of robhz786/strf

## How the model is organised

All modules live under `lean/Verif/`. Kinds of file:

* `*/Model*.lean` (and `Dest/{Memory,Strings,Arrays,Files}.lean`, `Print/{Premeasure,Item,Ints,Strings,Chars,Ranges,Join,Tr,Policies}.lean`) —
  executable definitions, one per function of the code, each citing file and lines;
* `*/Spec*.lean` (and `Float/ReadSpec.lean`, `Print/TrSpec.lean`, `Sbc/Published.lean`, `WidthCalc/Unicode.lean`) — small independent
  specifications (arithmetic, the Unicode standard, published tables, the documentation of strf), not using the model;
* `*/*Lemmas.lean` and the remaining files — helper lemmas;
* `*/*Props.lean` — the property theorems, each with an `example` showing that its hypotheses are met.

| directory | code modelled (under `include/strf`) |
|----|----|
| `Basic`, `Width` | machine integers; `width_t.hpp` |
| `Dest` | `destination.hpp`, `to_string.hpp`, `to_cfile.hpp`, `to_streambuf.hpp`, `output_buffer_functions.hpp`: the destinations as state machines, and the operation layer |
| `Utf` | `detail/utf.hpp`: all transcoders, size functions, counters, single-character functions |
| `Charset` | `detail/facets/charset.hpp`: drivers over destinations, decode–encode through UTF-32, error notification |
| `Sbc` | `detail/single_byte_charsets.hpp`: the 25 charsets and their transcoders |
| `Numpunct` | `detail/facets/numpunct.hpp` |
| `IntDigits`, `IntPrinter` | `detail/int_digits.hpp`, `detail/printable_types/int.hpp`: digit counting and writing, the printers |
| `WidthCalc` | `detail/facets/width_calculator.hpp`, `detail/ch32_width_and_gcb_prop` |
| `Print` | `detail/premeasurements.hpp`, `detail/printable_types/{bool,char,string,join,range,tr_string}.hpp`, `detail/tr_printer.hpp`, `detail/reserve_policies.hpp`, `detail/printable_def.hpp` |
| `Facets` | `facets_pack.hpp` |
| `Float` | `detail/printable_types/float.hpp` |
| `Format` | the format specifier classes of `detail/printable_types/{int,float,string,char,bool}.hpp`, `detail/format_functions.hpp`, `detail/value_and_format.hpp`: chains of format functions |
| `Locale` | `locale.hpp`, POSIX and Windows variants |
| `Program` | whole calls: `printing_syntax.hpp`, `separate_args_and_print.hpp`, the `get_facet` calls (category, tag) of every printer, `with(...)(...)`, `tr`, `measure.hpp`; `Plain.lean`: calls without facets and formats; `Laws.lean`: calls that print the same |
| `Lib` | `standard_lib_functions.hpp` in freestanding mode, `simple_string_view.hpp`, `iterator.hpp` |
| `Conformance` | tests, not proofs: the statements of `tests/*.cpp` (1645 of printing, 807 of transcoding, 1088 of text widths, 225 of `width_t`), translated by `tools/conformance.py` and `tools/conformance_width.py` and evaluated on the model by the kernel |
| `Transcode` | `detail/facets/charset.hpp`: `find_transcoder`, `transcode`, `decode_encode`, their size and unsafe versions, for two charsets; the calls of the error notifier |
| `Punct` | how punctuated numbers are read; `detail/facets/numpunct.hpp` 665–970: the predefined facets (table generated by `tools/gen_numpunct.py`) |
| `Chain` | `printing_syntax.hpp` 17–446: chains of `with`, `reserve`, `reserve_calc`, `no_reserve`, and what of them compiles |
| `Threads` | `destination.hpp` 280–391: several threads, their array destinations and the static `garbage_buff`; interleavings and data races (sequentially consistent steps; a race is reported as such, not given a meaning) |
| `Override` | `printing_helpers.hpp` 112–202, `printable_def.hpp` 350–481: overriders (`printable_overrider_c`) and printable types of the user's in whole calls, over arbitrary user classes |
| `Direct` | `printing_helpers.hpp` 226–605, `printable_def.hpp` 28–72: classes with `print` in the place of `make_printer`; which of the two is called where |
| `Ranges` | `printable_types/range.hpp`: the functions that make ranges, going through them with iterators, functions with a state |
| `Dest.Fits`, `Print.Fits`, `Program.Fits` | C93–C95: texts for which there is room from the start |
| `Dragonbox` | `detail/dragonbox.hpp` (binary32 and binary64, default policies) |

## Conventions

* Characters and code units are `Nat` (or a type variable when the code never looks at them); where the width
  of the unit matters the theorem carries the range hypothesis (`b < 256`, ...).
* Pointers into a buffer are offsets; a buffer is a `List`; a pointer into a source text is the list of units from there to the
  end. A store outside the buffer, a read outside the source, signed overflow, division by zero and a loop that does not end are a
  distinct outcome (`none`, or `ub` in `Utf`), never silently dropped: a theorem that says that a function returns `some …`
  contains the absence of undefined behaviour. Unsigned wrap-around is modelled as `% 2^n`.
* Loops become recursion (structural, or well-founded on what is left of the input).
* External things — `std::string::append` throwing, `fwrite` writing less than asked, `sputn` writing less
  than asked — are parameters (oracles) over which the theorems quantify.
* A destination is a record of functions (`Dest`), and `Lawful` is the contract that the printers rely on (`destination.hpp`,
  docs/ref_destination.adoc). Each concrete destination is proved to be lawful, and each printer is proved over every lawful
  destination: `Prints p text` says that running `p` on any good lawful state yields (without undefined behaviour) a state that has
  been given exactly `text` in addition, or a state that went bad having received a prefix.
* A printable value is an `Item`: a function from the premeasurements (size, width: wanted or not, limit left) to new premeasurements and a
  printer. `Item.Means it m` says that the printer prints the text of `m`, that the size added, if wanted, is its length, and that
  the width added, if wanted, is its width.

## Trusted base

* Lean 4.33.0's kernel. Axioms: at most `propext`, `Classical.choice`, `Quot.sound` for every theorem (no axiom of our own; no
  compiled evaluation; `decide +kernel` is only used for checks of whole finite tables and for concrete witnesses).
* The reading of the C++ source: the model was written by hand after the text of the headers, with each definition citing lines; nothing
  checks it mechanically against the compiler. The tables of the single-byte charsets, the decision tree of
  `ch32_width_and_gcb_prop` and the powers of ten of dragonbox were extracted from the source by scripts; `tools/check_tables.py /repo` compares
  them with the source again.
* Independent data: the published charset tables (`Sbc/Published.lean`, from Python's `codecs`, which follow the mapping files of the
  Unicode Consortium), the Unicode 13 Grapheme_Cluster_Break / Extended_Pictographic runs (`WidthCalc/Unicode.lean`, from the UCD 15.0 of
  Perl 5.38 restricted to code points of Age ≤ 13.0, with U+1734 put back to what 13.0 says).
* C++ facts that are taken for granted: 8-bit bytes, 32-bit `int`, 64-bit `ptrdiff_t`/`size_t`, two's complement, arithmetic shift of
  negative numbers, IEEE 754 binary32 and binary64.

That the model is that of the code rests on reading. Two things check it besides: `tools/check_tables.py` compares the tables of the model
with those in the source, and the modules `Verif.Conformance.*` (generated by `tools/conformance.py /repo lean`) evaluate the model on the
statements of the project's own unit tests that the tool can translate (1645 of 1677 printing statements, 807 transcoding statements, 1088
statements on the widths of texts) and compare with what those tests expect: all agree. They are tests of the model, and prove no property.

## What is not modelled

* Compile-time machinery: overload resolution, concepts/SFINAE, tag dispatch (only the dispatch that decides which printer
  runs is modelled, as an explicit choice), `constexpr`-ness, deprecated aliases.
* The header-only/compiled distinction, SIMD-like `memcpy` tricks, `STRF_ASSERT` (it is not executed: no theorem relies
  on an assertion; where an assertion would fail on a reachable state this is noted at the theorem).
* Integers of 128 bits, `long double` (deleted, float.hpp 2640), user-defined charsets (they
  appear as any lawful record). Printable types of the user's: `Override`, `Direct`.
* `std::string`, `FILE*`, `std::streambuf` beyond the oracles above; memory management: objects that outlive what they point to, and printing
  into the memory of an argument, except a string that is appended to itself (`Print/Alias.lean`). Threads: only those of array
  destinations (`Threads`), the single mutable object that the library shares being `garbage_buff`.
* The C library and Windows functions that `locale.hpp` calls (their results are parameters).
* Sizes (sums of `ptrdiff_t`) are taken not to overflow 2^63: the objects would not fit in memory.


## Property by property

Theorem names are without the prefix `Strf.`. A property whose status is *partial* is false of the code in the part that is missing; the theorem named `…_wrong` (or `…_overflow`, `…_undefined`) proves the negation with a concrete witness, and the `_partial` theorem says exactly under which condition the property holds.

| id | property | what is modelled, how it is proved | status | theorems |
|----|----|----|----|----|
| C01 | String-building destinations return the concatenation of everything written | state machines of string_maker, string_appender, sized_string_maker and the operation layer (write, put, ensure, fill, flush); refinement `Rep state text`, induction over histories | proved | `Dest.string_maker_concat`, `Dest.string_appender_concat`, `Dest.sized_string_maker_concat` |
| C02 | Writing to a char array truncates to a prefix, terminates it, and never leaves the array | basic_cstr_destination, array_destination with the user's array and the 64-unit garbage buffer as memory; invariant + refinement over histories | partial | `Dest.cstr_prefix_partial`, `Dest.cstr_late_write_wrong`, `Dest.safeLate_of_no_write`, `Dest.cstr_terminated_iff` |
| C03 | Writing to a character range without terminator truncates to a prefix and stays in range | basic_cstr_destination, array_destination with the user's array and the 64-unit garbage buffer as memory; invariant + refinement over histories | partial | `Dest.array_prefix_partial`, `Dest.array_late_write_wrong`, `Dest.safeLate_of_no_write`, `Dest.array_end_iff` |
| C04 | discarder absorbs everything and never faults | discarder; invariant over histories | proved | `Dest.discarder_total` |
| C05 | FILE* output: the file receives a prefix, the count is exact, success is truthful | cfile_writer_base with a short-write oracle; invariant over histories | proved | `Dest.cfile_prefix`, `Dest.cfile_failed_sends_nothing`, `Dest.wideWrite_spec` |
| C06 | streambuf output: the stream receives a prefix, the count is exact | basic_streambuf_writer with a partial-sputn oracle; invariant over histories | partial | `Dest.streambuf_count_partial`, `Dest.streambuf_capacity_partial`, `Dest.streambuf_prefix_partial`, `Dest.streambuf_gap_wrong`, `Dest.streambuf_gap_iff` |
| C07 | write_fill emits exactly n copies | write_fill over any lawful destination; induction | proved | `Dest.write_fill_exact` |
| C08 | The text produced does not depend on the destination's buffer geometry | the contract `Lawful`; corollary of the text theorems | proved | `Dest.geometry_independent`, `Dest.interchar_copy_exact` |
| C09 | A failed string append is never retried | append with an oracle that throws; invariant over histories | proved | `Dest.appender_exception_prefix`, `Dest.appender_never_retries`, `Dest.appender_throw_iff_bad`, `Dest.maker_leak_on_throw` |
| C10 | UTF-8 decoding accepts exactly well-formed sequences and replaces maximal subparts | every UTF transcoder of utf.hpp, separately, as recursion over the source with output room; each refined to the items of Unicode D90–D92 / maximal subparts | proved | `Utf.transcode_follows_unicode`, `Utf.utf8_decode_exact` |
| C11 | Transcoded output is always well-formed | every UTF transcoder of utf.hpp, separately, as recursion over the source with output room; each refined to the items of Unicode D90–D92 / maximal subparts | proved | `Utf.output_well_formed` |
| C12 | Well-formed text is transcoded without loss | every UTF transcoder of utf.hpp, separately, as recursion over the source with output room; each refined to the items of Unicode D90–D92 / maximal subparts | proved | `Utf.lossless` |
| C13 | Sanitizing is idempotent | every UTF transcoder of utf.hpp, separately, as recursion over the source with output room; each refined to the items of Unicode D90–D92 / maximal subparts | proved | `Utf.sanitize_idempotent` |
| C14 | transcode_size predicts the number of units written | size, unsafe and counting functions; refined to the same items | partial | `Utf.transcode_size_exact_partial`, `Utf.transcode_size_8to8`, `Utf.transcode_size_reserve`, `Utf.transcode_size_8to8_wrong`, `Utf.transcode_size_32to32_wrong`, `Utf.transcode_size_8to8_iff`, `Utf.transcode_size_32to32_iff` |
| C15 | Transcoding is independent of where the output buffer fills up | drivers of charset.hpp over any destination; induction on the source with any buffer sizes | proved | `Charset.transcode_any_buffer`, `Charset.transcode_any_buffer_stop`, `Charset.transcode_string_maker`, `Charset.decode_encode_utf`, `Charset.decode_encode_sbc_utf`, `Charset.decode_encode_utf_sbc`, `Charset.decode_encode_sbc_sbc`, `Charset.decode_encode_ptr_utf`, `Charset.decode_encode_size_utf`, `Charset.decode_encode_size_limit` |
| C16 | stop_on_invalid_sequence stops exactly at the first ill-formed sequence | every UTF transcoder of utf.hpp, separately, as recursion over the source with output room; each refined to the items of Unicode D90–D92 / maximal subparts | proved | `Utf.stop_at_first_invalid` |
| C17 | unsafe_transcode agrees with transcode on valid input | size, unsafe and counting functions; refined to the same items | partial | `Utf.unsafe_agrees`, `Utf.unsafe_size_agrees_partial`, `Utf.unsafe_size_8to32`, `Utf.unsafe_size_8to32_wrong`, `Utf.unsafe_size_8to32_iff` |
| C18 | count_codepoints counts what transcoding would produce | size, unsafe and counting functions; refined to the same items | proved | `Utf.count_codepoints_exact`, `Utf.count_codepoints_fast_agrees` |
| C19 | encode_char, encoded_char_size, validate and decode agree | encode_char, encoded_char_size, validate, decode_unit, encode_fill; case analysis, induction on the count | partial | `Utf.encode_char_exact`, `Utf.encode_char_invalid`, `Utf.decode_unit_utf8`, `Utf.decode_unit_signed_wrong`, `Utf.decode_unit_signed_iff` |
| C20 | Each ill-formed sequence is notified exactly once | drivers of charset.hpp over any destination; induction on the source with any buffer sizes | partial | `Charset.notifications_partial`, `Charset.notified_twice_wrong`, `Transcode.direct_dst_heard`, `Transcode.direct_string_heard`, `Transcode.direct_range_heard` |
| C21 | lax_surrogate_policy preserves unpaired surrogates | every UTF transcoder of utf.hpp, separately, as recursion over the source with output room; each refined to the items of Unicode D90–D92 / maximal subparts | proved | `Utf.lax_utf16_roundtrip`, `Utf.lax_utf32_utf8_roundtrip` |
| C22 | Single-byte charsets: decode and encode are inverse | the 25 single-byte charsets, tables extracted from the header; kernel check of whole tables, lifted to all numbers by lemmas on sorted search; loops by induction | partial | `Sbc.encode_decode_byte`, `Sbc.decode_encode_char_partial`, `Sbc.windows_1254_encode_wrong`, `Sbc.windows_1258_encode_wrong`, `Sbc.decode_encode_char_iff`, `Sbc.decode_injective`, `Sbc.valid_iff_decodes` |
| C23 | Single-byte charsets: unencodable characters are replaced and classified correctly | the 25 single-byte charsets, tables extracted from the header; kernel check of whole tables, lifted to all numbers by lemmas on sorted search; loops by induction | partial | `Sbc.to_u32_outcome`, `Sbc.sanitize_outcome`, `Sbc.from_u32_outcome_partial`, `Sbc.from_u32_char_iff`, `Sbc.from_u32_text`, `Sbc.private_use_wrong`, `Sbc.unsafe_from_u32_outcome`, `Sbc.unsafe_to_u32_outcome`, `Sbc.encode_char_byte`, `Sbc.count_codepoints_bytes` |
| C24 | Single-byte charsets: sizes and prefixes | the 25 single-byte charsets, tables extracted from the header; kernel check of whole tables, lifted to all numbers by lemmas on sorted search; loops by induction | partial | `Sbc.to_u32_size_exact`, `Sbc.from_u32_size_partial`, `Sbc.size_fffd_wrong`, `Sbc.size_unsupported_wrong`, `Sbc.from_u32_size_char_iff`, `Sbc.unsafe_from_u32_size_exact` |
| C25 | digits_grouping counts and distributes separators correctly | digits_grouping (packed word), iterator, creator, facets; refinement to a list of groups | proved | `Numpunct.split_meaning`, `Numpunct.separators_count_exact`, `Numpunct.any_separator_exact`, `Numpunct.distribute_exact` |
| C26 | digits_grouping constructors represent exactly the groups given | digits_grouping (packed word), iterator, creator, facets; refinement to a list of groups | partial | `Numpunct.ctor_roundtrip`, `Numpunct.is_last_meaning`, `Numpunct.ctor_injective`, `Numpunct.ctor_word`, `Numpunct.creator_no_more_sep`, `Numpunct.creator_finish`, `Numpunct.creator_invalid`, `Numpunct.creator_no_groups`, `Numpunct.creator_equality_wrong`, `Numpunct.creator_equality_iff`, `Numpunct.creator_canonical`, `Numpunct.same_split_iff`, `Numpunct.cstr_repeat`, `Numpunct.cstr_no_repeat`, `Numpunct.cstr_invalid`, `Numpunct.creator_results`, `Numpunct.obtainable_valid` |
| C27 | Integer digits are exact in each base | digits counters, backward writers, writers with separators, unsigned_abs; induction | proved | `IntDigits.count_digits_exact`, `IntDigits.count_digits_clz_exact`, `IntDigits.numeral_meaning`, `IntDigits.text_parses_back`, `IntDigits.digits_fit_buffer`, `IntDigits.write_int_exact` |
| C28 | Grouped integers: removing separators gives the plain digits | digits counters, backward writers, writers with separators, unsigned_abs; induction | partial | `IntDigits.grouped_meaning`, `IntDigits.grouped_unseparated`, `IntDigits.write_int_little_sep_exact_partial`, `IntDigits.write_bin_little_sep_partial`, `IntDigits.write_bin_little_sep_wrong`, `IntDigits.write_bin_little_sep_iff`, `IntDigits.write_int_big_sep_exact` |
| C29 | Signed integers are printed with the exact magnitude | digits counters, backward writers, writers with separators, unsigned_abs; induction | proved | `IntDigits.unsigned_abs_exact` |
| C30 | Printing integers never writes outside the destination's buffer | integer printers over any lawful destination; layout theorem, length theorem | partial | `IntPrinter.fmt_int_exact`, `IntPrinter.default_int_exact`, `IntPrinter.aligned_default_int_exact`, `IntPrinter.plain_int_exact`, `IntPrinter.plain_dec_partial`, `IntPrinter.plain_dec_wrong`, `IntPrinter.plain_dec_iff`, `IntPrinter.punct_int_exact_partial`, `IntPrinter.bin_punct_wrong`, `IntPrinter.dyn_int_exact_partial` |
| C31 | Formatted integers have the specified layout | integer printers over any lawful destination; layout theorem, length theorem | partial | `IntPrinter.fmt_int_exact`, `IntPrinter.default_int_exact`, `IntPrinter.aligned_default_int_exact`, `IntPrinter.plain_int_exact`, `IntPrinter.plain_dec_partial`, `IntPrinter.punct_int_exact_partial`, `IntPrinter.dyn_int_exact_partial`, `IntPrinter.invalid_separator_wrong`, `IntPrinter.punct_int_invalid_sep`, `IntPrinter.invalid_sep_columns` |
| C32 | Pre-measured size of integers equals the printed length | integer printers over any lawful destination; layout theorem, length theorem | partial | `IntPrinter.fmt_int_exact`, `IntPrinter.default_int_exact`, `IntPrinter.aligned_default_int_exact`, `IntPrinter.plain_int_exact`, `IntPrinter.plain_dec_partial`, `IntPrinter.punct_int_exact_partial`, `IntPrinter.dyn_int_exact_partial`, `IntPrinter.precision_overflow_wrong`, `IntPrinter.invalid_separator_wrong`, `IntPrinter.punct_int_invalid_sep`, `IntPrinter.invalid_sep_columns` |
| C33 | width_t saturating arithmetic equals exact arithmetic clamped | width_t over 32/64-bit integers; arithmetic | partial | `Width.satAdd_exact`, `Width.satAddI16_exact`, `Width.satAddI32_exact`, `Width.satAddI64_exact`, `Width.satSub_exact`, `Width.satSubI16_exact`, `Width.satSubI32_exact`, `Width.satSubI64_exact_partial`, `Width.satSubI64_exact_iff`, `Width.satSubI64_wrong`, `Width.satSubI64_undefined`, `Width.satMul_exact`, `Width.satMulI16_exact`, `Width.satMulI32_exact`, `Width.satMulU32_exact`, `Width.satMulI64_exact`, `Width.satMulU64_exact`, `Width.conversions_exact` |
| C34 | width_t rounding functions are correct | width_t over 32/64-bit integers; arithmetic | proved | `Width.floor_correct`, `Width.ceil_correct`, `Width.nnFloor_correct`, `Width.nnCeil_correct`, `Width.round_correct` |
| C35 | width_t comparison and division are arithmetic | width_t over 32/64-bit integers; arithmetic | partial | `Width.compare_exact`, `Width.compare16_exact_partial`, `Width.compare16_exact_iff`, `Width.compareI16_undefined`, `Width.div_exact_partial`, `Width.div_exact_iff`, `Width.div_wrong_negative`, `Width.div_wrong_overflow` |
| C36 | _w literals denote the decimal they spell | width_t over 32/64-bit integers; arithmetic | partial | `Width.literal_nearest_partial`, `Width.literal_exact_iff`, `Width.literal_wrong_15_digits`, `Width.literal_wrong_range` |
| C37 | Premeasurement accumulators never exceed their limit and report the true remainder | accumulators, joins; arithmetic, induction over members | partial | `Print.checked_width_accumulator_exact`, `Print.width_accumulator_exact_partial`, `Print.width_accumulator_order`, `Print.saturate_exact`, `Print.measure_width_exact`, `Print.measure_size_exact`, `Print.add_width_overflow`, `Print.add_width_iff` |
| C38 | Aligned text: fill is exactly what is missing | string printers, generic in width calculator, charsets, policy | partial | `Print.aligned_string_exact`, `Print.string_exact`, `Print.precise_string_exact`, `Print.std_precise_string_partial`, `Print.std_precise_string_narrow`, `Print.std_precise_string_wrong`, `Print.std_precise_string_iff`, `Print.std_precise_negative_wrong`, `Print.policies_agree`, `Print.policy_choice` |
| C39 | Aligned joins: members are printed in order, padded as a unit | accumulators, joins; arithmetic, induction over members | partial | `Print.aligned_join_exact`, `Print.aligned_join_exact_partial`, `Print.join_exact`, `Print.join_width_wrong`, `Print.join_width_overflow`, `Print.join_width_iff` |
| C40 | tr-strings: the output follows the documented syntax for every string | the tr-string parsers (write, size, premeasure); refinement to an independent syntax | proved | `Print.tr_syntax`, `Print.tr_write_exact`, `Print.tr_exact` |
| C41 | tr-strings: the premeasured size is the printed size | the tr-string parsers (write, size, premeasure); refinement to an independent syntax | proved | `Print.tr_size_exact`, `Print.tr_exact` |
| C42 | tr-strings: each missing argument is reported once at its brace | the tr-string parsers (write, size, premeasure); refinement to an independent syntax | proved | `Print.tr_write_exact`, `Print.tr_missing_braces` |
| C43 | Width calculators count what they claim | width calculators; std_width_calc's automaton and decision tree, against UAX #29 and the Unicode 13 tables | proved | `WidthCalc.fast_str_width_exact`, `WidthCalc.fast_str_width_ok`, `WidthCalc.fast_str_width_and_pos_exact`, `WidthCalc.u32len_utf`, `WidthCalc.fast_u32len_agrees`, `WidthCalc.u32len_sbc` |
| C44 | std_width_calc treats text as a sequence of grapheme clusters independently of chunking | width calculators; std_width_calc's automaton and decision tree, against UAX #29 and the Unicode 13 tables | partial | `WidthCalc.std_char_width_exact`, `WidthCalc.std_str_width_exact`, `WidthCalc.std_str_width_sbc`, `WidthCalc.std_str_width_ok`, `WidthCalc.std_str_width_and_pos_partial`, `WidthCalc.std_str_width_and_pos_sbc_partial`, `WidthCalc.std_str_width_and_pos_short`, `WidthCalc.Longest.boundary`, `WidthCalc.std_pos_block_wrong`, `WidthCalc.std_pos_width_wrong`, `WidthCalc.std_pos_negative_wrong`, `WidthCalc.std_str_width_and_pos_iff`, `WidthCalc.std_str_width_and_pos_sbc_iff`, `WidthCalc.Accepted.unique`, `WidthCalc.Accepted.longest_iff`, `WidthCalc.Accepted.width_iff` |
| C45 | The reserve policy does not change the result | reserve policies and creators; from arguments to result, corollaries of the item and destination theorems | proved | `Dest.reserve_irrelevant`, `Print.to_string_exact`, `Print.to_string_reserve_exact` |
| C46 | encode_fill writes exactly count encoded characters | encode_char, encoded_char_size, validate, decode_unit, encode_fill; case analysis, induction on the count | proved | `Utf.encode_fill_exact`, `Utf.encode_fill_string_maker`, `Sbc.encode_fill_bytes` |
| C47 | Single-byte charsets: each byte means what the published tables say | the 25 single-byte charsets, tables extracted from the header; kernel check of whole tables, lifted to all numbers by lemmas on sorted search; loops by induction | proved | `Sbc.decode_published` |
| C48 | Numeric punctuation facets report what was set on them | digits_grouping (packed word), iterator, creator, facets; refinement to a list of groups | partial | `Numpunct.numpunct_facet_exact`, `Numpunct.no_grouping_point_wrong`, `Numpunct.no_grouping_point_iff` |
| C49 | tr-strings: the width in an aligned join is the width of what is printed | the tr-string parsers (write, size, premeasure); refinement to an independent syntax | partial | `Print.tr_exact`, `Print.tr_join_width_wrong`, `Print.tr_cluster_width_wrong`, `Print.tr_width_overflow` |
| C50 | Characters: text, repetition, alignment, size and width | character and range printers; case analysis, induction | partial | `Print.char_width_exact`, `Print.char_exact`, `Print.char32_exact`, `Print.multi_char_exact_partial`, `Print.multi_char32_exact_partial`, `Print.char_align_overflow`, `Print.multi_char_iff`, `Print.multi_char32_iff` |
| C51 | Ranges: elements in order, separators only in between | character and range printers; case analysis, induction | proved | `Print.range_exact`, `Print.separated_range_exact`, `Print.range_stops` |
| C52 | The result of printing is the text of the arguments, in order, whatever the destination and the reserve policy | reserve policies and creators; from arguments to result, corollaries of the item and destination theorems | proved | `Print.to_string_exact`, `Print.to_string_reserve_exact`, `Print.append_exact`, `Print.to_cfile_exact`, `Print.to_streambuf_exact` |
| C53 | tr and trline: the result on every destination and reserve policy | reserve policies and creators; from arguments to result, corollaries of the item and destination theorems | proved | `Print.print_tr_exact`, `Print.append_tr_exact`, `Print.to_string_tr_exact` |
| C54 | Printing to a char array or a range: never out of bounds, a prefix, no spurious truncation | reserve policies and creators; from arguments to result, corollaries of the item and destination theorems | partial | `Print.to_cstr_exact_partial`, `Print.to_range_exact_partial`, `Print.to_discarder_exact`, `Print.to_cstr_terminated_wrong`, `Print.to_cstr_terminated_partial`, `Print.to_range_end_partial`, `Program.call_to_cstr_terminated_partial`, `Program.call_to_range_end_partial`, `Program.tr_call_to_cstr_terminated_partial`, `Program.tr_call_to_range_end_partial`, `Program.tr_terminated_wrong` |
| C55 | The facet in force is the last applicable one | facets_pack lookup as recursion over packs; induction | proved | `Facets.get_facet_exact`, `Facets.nesting_irrelevant`, `Facets.later_overrides`, `Facets.combined_facets`, `Facets.constrained_no_effect`, `Facets.other_category_no_effect`, `Facets.printed_by_exact` |
| C56 | A float or double printed without format | float.hpp: decomposition, init functions, sub-printers; refinement to a positional-numeral specification | proved | `Float.unformatted_exact` |
| C57 | Floating-point notations without precision | float.hpp: decomposition, init functions, sub-printers; refinement to a positional-numeral specification | partial | `Float.no_precision_exact`, `Float.no_precision_punct_exact`, `Float.cast_utf`, `Float.cast_ascii`, `Float.sbc_separator_wrong`, `Float.no_precision_punct_iff` |
| C58 | Floating-point notations with precision | float.hpp: decomposition, init functions, sub-printers; refinement to a positional-numeral specification | partial | `Float.scientific_exact`, `Float.scientific_punct_exact`, `Float.fixed_exact`, `Float.fixed_punct_partial`, `Float.general_partial`, `Float.general_punct_partial`, `Float.fixed_all`, `Float.general_all`, `Float.fixed_text_iff`, `Float.general_iff`, `Float.plain_of_punct`, `Float.fixed_grouping_carry_wrong`, `Float.general_alt_zeros_wrong` |
| C59 | Floating-point numbers in hexadecimal notation | float.hpp: decomposition, init functions, sub-printers; refinement to a positional-numeral specification | partial | `Float.hex_exact`, `Float.hex_value`, `Float.hex_partial`, `Float.hex_punct_partial`, `Float.hex_all`, `Float.hex_exact_iff`, `Float.carries_round`, `Float.mantissa_digcount_ctz`, `Float.hex_carry_wrong` |
| C60 | Infinity and NaN | float.hpp: decomposition, init functions, sub-printers; refinement to a positional-numeral specification | proved | `Float.unformatted_special_exact`, `Float.special_exact` |
| C61 | Premeasured width and size of floating-point numbers | float.hpp: decomposition, init functions, sub-printers; refinement to a positional-numeral specification | partial | `Float.unformatted_exact`, `Float.no_precision_exact`, `Float.no_precision_punct_exact`, `Float.scientific_exact`, `Float.scientific_punct_exact`, `Float.fixed_exact`, `Float.fixed_punct_partial`, `Float.general_partial`, `Float.general_punct_partial`, `Float.hex_partial`, `Float.hex_punct_partial`, `Float.hex_all`, `Float.fixed_all`, `Float.general_all`, `Float.fixed_width_iff`, `Float.general_iff`, `Float.plain_of_punct`, `Float.special_exact`, `Float.general_carry_sign_wrong`, `Float.fixed_grouping_size_wrong`, `Float.general_carry_grouping_wrong` |
| C62 | The fields of a floating-point number | float.hpp: decomposition, init functions, sub-printers; refinement to a positional-numeral specification | proved | `Float.fields_exact`, `Float.fields_surj`, `Float.decode_exact` |
| C63 | The shortest decimal number that stands for a float or double | dragonbox.hpp with 64/128-bit arithmetic; ideal algorithm over rationals, continued-fraction bounds checked by the kernel for all exponents | proved | `Dragonbox.to_decimal_shortest`, `Dragonbox.reads_unique`, `Dragonbox.reads_self`, `Dragonbox.decode_reads` |
| C64 | Printed floating-point numbers are read back unchanged | an independent reader of decimal numerals with round-to-nearest-even; from C56, C57 and C63 | proved | `Dragonbox.unformatted_round_trip`, `Dragonbox.formatted_round_trip`, `Dragonbox.unformatted_injective` |
| C65 | No undefined behaviour in the conversion to decimal | dragonbox.hpp with 64/128-bit arithmetic; ideal algorithm over rationals, continued-fraction bounds checked by the kernel for all exponents | proved | `Dragonbox.regular_in_bounds`, `Dragonbox.power_in_bounds` |
| C66 | A chain of format functions on an integer sets each option to the value given last | the format specifier classes as a state machine over calls, with `none` for what does not compile; invariant over chains: the state is the options given last | partial | `Format.int_chain_exact_partial`, `Format.int_chain_order_partial`, `Format.int_chain_compiles`, `Format.base_loses_options_wrong`, `Format.int_chain_acting_partial`, `Format.acting_id_iff`, `Format.chain_options_iff`, `Format.acting_same` |
| C67 | Pointers print as 0x and the hexadecimal address, aligned as asked | the format specifier classes as a state machine over calls, with `none` for what does not compile; invariant over chains: the state is the options given last | proved | `Format.pointer_exact`, `Format.alignChain_ok` |
| C68 | A chain of format functions on a floating-point number sets each option to the value given last | the format specifier classes as a state machine over calls, with `none` for what does not compile; invariant over chains: the state is the options given last | partial | `Format.float_chain_exact_partial`, `Format.float_chain_order_partial`, `Format.float_chain_state`, `Format.float_chain_all`, `Format.bare_iff`, `Format.fast_letters_iff`, `Format.fast_lettercase_wrong` |
| C69 | A chain of format functions on a string sets each option to the value given last, and the string is printed accordingly | the format specifier classes as a state machine over calls, with `none` for what does not compile; invariant over chains: the state is the options given last | partial | `Format.string_chain_exact_partial`, `Format.string_chain_state`, `Format.how_text`, `Format.id_injective`, `Format.charset_width_wrong`, `Format.string_chain_copied_partial`, `Format.copied_text_iff`, `Format.charset_width_iff` |
| C70 | Characters and booleans with format functions | the format specifier classes as a state machine over calls, with `none` for what does not compile; invariant over chains: the state is the options given last | partial | `Format.char_chain_exact_partial`, `Format.raw_char_exact`, `Format.bool_chain_exact`, `Format.char_chain_state`, `Format.char_chain_cast`, `Format.cast_ascii`, `Format.ascii_text`, `Format.char_cast_wrong` |
| C71 | locale_numpunct on POSIX systems reflects the locale | `locale.hpp` with the strings of the C library or of Windows as parameters; a separate grammar of these strings; the transcoders and `digits_grouping` theorems are reused | partial | `Locale.locale_numpunct_exact_partial`, `Locale.locale_numpunct_safe`, `Locale.begins_exists`, `Locale.locale_char_max_wrong`, `Locale.locale_numpunct_iff` |
| C72 | locale_numpunct on Windows reflects the locale | `locale.hpp` with the strings of the C library or of Windows as parameters; a separate grammar of these strings; the transcoders and `digits_grouping` theorems are reused | proved | `Locale.locale_win_exact`, `Locale.win_grouping_exact` |
| C73 | A whole call prints the concatenation of what its arguments mean | a syntax of whole calls (facet packs, trees of arguments); `Arg.item` builds the printers looking up each facet with the tag that the code uses; `Denotes` gives each argument its meaning independently, with the facet `InForce`; mutual induction over the tree with the theorems of C66–C70, C43–C48, and then C54 (destinations) | partial | `Program.call_exact_partial`, `Program.call_to_string_partial`, `Program.call_to_string_reserve_partial`, `Program.call_append_partial`, `Program.call_to_cfile_partial`, `Program.call_to_streambuf_partial`, `Program.call_to_streambuf_prefix_partial`, `Program.call_to_discarder_partial`, `Program.call_to_cstr_partial`, `Program.call_text_unique`, `Program.aCall_means`, `Program.call_tag_wrong` |
| C74 | A call uses one charset per character type | a syntax of whole calls (facet packs, trees of arguments); `Arg.item` builds the printers looking up each facet with the tag that the code uses; `Denotes` gives each argument its meaning independently, with the facet `InForce`; mutual induction over the tree with the theorems of C66–C70, C43–C48, and then C54 (destinations) | proved | `Program.charset_uniform` |
| C75 | The transcoder between two charsets depends on the charsets only | find_transcoder with its overloads modelled by cases on character types; `Marks`/`Converts` say what a conversion is; each transcoder is shown to work mark by mark (from C11–C24), and the loops of destinations and of the pivot buffer are shown to preserve that by induction | proved | `Transcode.find_exact`, `Transcode.printing_content` |
| C76 | strf::transcode between any two charsets converts, stops and reports as documented | find_transcoder with its overloads modelled by cases on character types; `Marks`/`Converts` say what a conversion is; each transcoder is shown to work mark by mark (from C11–C24), and the loops of destinations and of the pivot buffer are shown to preserve that by induction | partial | `Transcode.transcode_partial`, `Transcode.transcode_dst_partial`, `Transcode.decode_encode_partial`, `Transcode.decode_encode_dst_partial`, `Transcode.converts_unique`, `Transcode.transcode_defect_wrong`, `Transcode.transcode_private_wrong` |
| C77 | transcode_size and the unsafe functions agree with transcode for any two charsets | find_transcoder with its overloads modelled by cases on character types; `Marks`/`Converts` say what a conversion is; each transcoder is shown to work mark by mark (from C11–C24), and the loops of destinations and of the pivot buffer are shown to preserve that by induction | partial | `Transcode.transcode_size_partial`, `Transcode.transcode_size_reserve_partial`, `Transcode.decode_encode_partial`, `Transcode.unsafe_transcode_partial`, `Transcode.unsafe_transcode_dst_partial`, `Transcode.unsafe_same_partial`, `Transcode.unsafe_decode_encode_partial`, `Transcode.unsafe_decode_encode_size_partial`, `Transcode.unsafe_transcode_size_partial` |
| C78 | A whole call of tr or trline prints the tr-string with its directives replaced | the calls of C73 with the tr loop of C51/C52 and `measure` of C38; composition with call_exact_partial | partial | `Program.tr_call_exact_partial`, `Program.tr_call_to_string_partial`, `Program.tr_call_append_partial`, `Program.tr_call_to_cfile_partial`, `Program.tr_call_to_cstr_partial`, `Program.tr_call_to_streambuf_partial`, `Program.tr_call_to_discarder_partial`, `Program.tr_call_to_cstr_terminated_partial`, `Program.tr_call_to_range_end_partial`, `Program.tr_terminated_wrong`, `Program.aTrCall_means` |
| C79 | strf::measure of a call gives the size and the width of what the call prints | the calls of C73 with the tr loop of C51/C52 and `measure` of C38; composition with call_exact_partial | partial | `Program.measure_call_size_partial`, `Program.measure_call_width_partial` |
| C80 | A call without facets and formats says its arguments, without exception | an independent relation `Says` for unformatted arguments; every condition of C73 is discharged, the floating-point case from C63/C64 | proved | `Program.plain_call_exact`, `Program.plain_to_string`, `Program.plain_append`, `Program.plain_to_cfile`, `Program.plain_to_array`, `Program.plain_float_round_trip` |
| C81 | Floating-point numbers in hexadecimal notation are read back exactly | an independent reader of hexadecimal floating constants over the rationals; the text of C59 is read as the fields of the number, whose value is that of IEEE 754 | partial | `Dragonbox.hex_round_trip`, `Dragonbox.hex_rounded_partial`, `Dragonbox.hex_rounded_iff`, `Dragonbox.hex_round_carry_wrong` |
| C82 | A precision rounds to the nearest | an independent notion of rounding (`Rounded`); the digits of C58 are read as the rounding of the shortest decimal of C63; a lemma on ties carries it to the number itself | partial | `Dragonbox.precision_rounds_partial`, `Dragonbox.precision_nearest_partial`, `Dragonbox.precision_nearest_iff`, `Dragonbox.rounded_same_iff`, `Dragonbox.precision_exact`, `Dragonbox.decimal_unique`, `Dragonbox.double_rounding_wrong` |
| C83 | Calls written differently print the same | corollaries of the meaning of calls (C73): the meaning of a call is that of its leaves, whatever the grouping (induction on the arguments); a call writes one text | proved | `Program.writes_unique`, `Program.concat_law`, `Program.line_law`, `Program.two_calls_law`, `Program.grouping_law`, `Program.arguments_law`, `Program.separated_range_law`, `Program.tr_law`, `Program.tr_refs_law`, `Program.aligned_join_law` |
| C84 | What replaces the standard library, string views and the iterator | the loops over memory as lists with bounds-checked reads and stores; induction on the number of iterations; the decision tree of the leading zeros by cases | proved | `Lib.fill_exact`, `Lib.copy_exact`, `Lib.copy_out`, `Lib.copy_inside_exact`, `Lib.str_length_exact`, `Lib.str_find_exact`, `Lib.str_equal_exact`, `Lib.str_equal_stops`, `Lib.view_of_cstr`, `Lib.view_of_range`, `Lib.view_eq_exact`, `Lib.slow_countl_zero_exact`, `Lib.iterator_exact`, `Lib.iterator_failed`, `Lib.iterator_to_string` |
| C85 | What the error notifier is told, for any two charsets | the calls of the notifier are part of the result of every transcoding function; each call is shown to notify exactly the marks it passed and the one it ended at; induction over the calls, with the invariant that after a recycle (or with an empty pivot) the first mark is not notified by a call that leaves it | partial | `Transcode.direct_notes_partial`, `Transcode.direct_dst_notes_partial`, `Transcode.transcode_notes_partial`, `Transcode.transcode_dst_notes_partial`, `Transcode.transcode_dst_notes_all_partial`, `Transcode.unsafe_transcode_notes_partial`, `Transcode.unsafe_transcode_dst_notes_partial`, `Transcode.unsafe_transcode_dst_notes_all_partial`, `Transcode.notes_twice_wrong`, `Transcode.notes_order_wrong`, `Transcode.notes_ahead_wrong`, `Transcode.direct_dst_heard`, `Transcode.direct_dst_heard_steady`, `Transcode.direct_string_heard`, `Transcode.direct_cfile_heard`, `Transcode.direct_streambuf_heard`, `Transcode.direct_range_heard` |
| C86 | Punctuated numbers are read back | a reader that knows the facet (`plain`, and the reader of C57); the text of C25/C59 is the encoding of characters from which the plain text of the same digits is obtained; the table of predefined facets is generated from the source and checked entry by entry by the kernel | proved | `Punct.int_read_back`, `Punct.float_read_back`, `Punct.float_precision_read_back`, `Punct.predefined_sound`, `Punct.predefined_int`, `Punct.predefined_float`, `Punct.predefined_float_precision` |
| C87 | Chains of with and reserve functions on a printing syntax object | the object as value category, policy and pack; a step that does not compile has no result; induction on the steps, then C73 and C78 for the call | partial | `Chain.chain_exact`, `Chain.chain_call_partial`, `Chain.chain_tr_partial`, `Chain.to_string_chain_partial`, `Chain.same_facets_same_string_partial`, `Chain.append_chain_partial`, `Chain.append_tr_chain_partial`, `Chain.to_string_tr_chain_partial`, `Chain.plain_only_chain`, `Chain.simple_chain_compiles`, `Chain.chain_compiles_wrong`, `Chain.to_string_tr_calc_wrong` |
| C88 | Threads that print to different destinations do not disturb one another | threads as arbitrary programs over the operations of a destination, interleaved in any order over one shared buffer; a step commutes with any change of the buffer, by induction on the schedule every thread goes where it goes alone; the places written by each step give what races; a destination whose buffer changes before every operation keeps the contract, so that C73 applies to it | partial | `Threads.threads_isolated`, `Threads.threads_each_alone`, `Threads.writes_sound`, `Threads.race_needs_two_spills`, `Threads.spills_truncated`, `Threads.noisy_lawful`, `Threads.call_undisturbed_partial`, `Threads.garbage_race_wrong`, `Threads.spilling_is_the_call` |
| C89 | Operators and functions between widths and integers | each operator as the function that overload resolution selects, on operands that are a width or an integer; linear arithmetic over the casts, then the theorems of C33 and C35 | partial | `Width.binop_exact_iff`, `Width.binop_exact_partial`, `Width.cmpop_exact_partial`, `Width.sat_functions_exact`, `Width.compare_functions_exact`, `Width.compare16_functions_exact_partial`, `Width.narrowed_wrong`, `Width.compare_undefined_wrong` |
| C90 | Printable types of the user and overriders | make_printer as a function of the depth of template instantiations, over arbitrary classes of the user (functions from value and facets to another argument with other facets, or to a printer); monotone in the depth; induction over what the arguments mean; erasing the overriders from the facets commutes with the selection of facets | partial | `Override.std_facets_unaffected`, `Override.make_mono`, `Override.uarg_exact`, `Override.ucall_exact_partial`, `Override.ucall_to_string_partial`, `Override.ucall_to_string_reserve_partial`, `Override.ucall_append_partial`, `Override.ucall_to_cfile_partial`, `Override.ucall_to_cstr_partial`, `Override.ucall_text_unique`, `Override.only_overridden`, `Override.endless`, `Override.last_overrider`, `Override.myPrinters_ok`, `Override.aUCall_means`, `Program.ucall_to_cstr_terminated_partial` |
| C91 | print in the place of make_printer | the item of an argument as a function of the depth of instantiations and of the mode (premeasurements, or none: directly, through tr, through make_printer), over arbitrary user classes with either function; monotone in the depth; induction over two mutual relations, what an argument says and what it means | partial | `Direct.says_exact`, `Direct.means_exact`, `Direct.says_call_partial`, `Direct.says_to_string_partial`, `Direct.says_to_string_reserve_partial`, `Direct.says_append_partial`, `Direct.says_to_cfile_partial`, `Direct.says_to_cstr_partial`, `Direct.says_tr_partial`, `Direct.says_tr_to_string_partial`, `Direct.means_call_partial`, `Direct.means_to_string_calc_partial`, `Direct.denotes_says`, `Direct.denotes_means`, `Direct.print_only_measured`, `Direct.print_only_inner`, `Direct.unmeasured_wrong`, `Direct.myPrint_ok`, `Direct.aPCall_says`, `Program.says_to_cstr_terminated_partial` |
| C92 | Ranges: which elements, and how often the function is called | the printers as loops over iterators, positions in a sequence (dereferencing outside is undefined), with a function that has a state; equal to the items of C73 by induction on what is left of the sequence; the calls counted by the state after them | partial | `Ranges.range_elements`, `Ranges.separated_elements`, `Ranges.function_called_once`, `Ranges.separated_function_called_once`, `Ranges.function_measured`, `Ranges.separated_function_measured`, `Ranges.measured_then_printed`, `Ranges.separator_exact`, `Ranges.crossed_undefined`, `Ranges.range_argument`, `Ranges.range_law`, `Ranges.fmt_range_ints`, `Ranges.fmt_separated_init_wrong` |
| C93 | A text that fits is not truncated | the contract of printing has a flag: with it, a printer leaves a good destination good and takes exactly its text from the space, if the text fits; proved of every printer; then the size of the buffer and the invariants of the destinations (a string that was resized has more space; a file that was written to has a shorter buffer) give the rest | partial | `Print.to_cstr_fits`, `Print.to_range_fits`, `Program.call_to_cstr_fits_partial`, `Program.call_to_range_fits_partial`, `Program.tr_call_to_cstr_fits_partial`, `Program.tr_call_to_range_fits_partial`, `Program.ucall_to_cstr_fits_partial`, `Program.says_to_cstr_fits_partial` |
| C94 | A string with enough room reserved is not resized | the contract of printing has a flag: with it, a printer leaves a good destination good and takes exactly its text from the space, if the text fits; proved of every printer; then the size of the buffer and the invariants of the destinations (a string that was resized has more space; a file that was written to has a shorter buffer) give the rest | partial | `Print.to_string_reserve_fits`, `Program.call_to_string_reserve_fits_partial`, `Program.tr_call_to_string_reserve_fits_partial` |
| C95 | A text that fits the buffer is written with one call | the contract of printing has a flag: with it, a printer leaves a good destination good and takes exactly its text from the space, if the text fits; proved of every printer; then the size of the buffer and the invariants of the destinations (a string that was resized has more space; a file that was written to has a shorter buffer) give the rest | partial | `Print.to_cfile_fits`, `Print.to_streambuf_fits`, `Program.call_to_cfile_fits_partial`, `Program.call_to_streambuf_fits_partial`, `Program.tr_call_to_cfile_fits_partial` |
| C96 | Numeric punctuation facets answer what the groups of digits say | from the theorems on digits_grouping of C25 and C26: the answers of each class against the grouping of the specification | partial | `Numpunct.numpunct_answers`, `Numpunct.default_answers`, `Numpunct.no_grouping_answers_partial`, `Numpunct.numpunct_equal`, `Numpunct.equal_answers`, `Numpunct.no_grouping_equal_wrong`, `Numpunct.no_grouping_uninit_wrong`, `Numpunct.no_grouping_point_wrong` |
| C97 | The flags of a conversion combine as sets | bit by bit: each predicate is one bit of the value, for all values of 32 bits; expressions by induction | proved | `Transcode.FlagBits.flags_combine`, `Transcode.FlagBits.strict_or_lax`, `Transcode.FlagBits.flags_named`, `Transcode.FlagBits.flags_reached` |
| C98 | What the transcoding error notifier is told during a call | a destination whose state is paired with the log of the notifier is itself a lawful destination, so that what C73 says of the text holds of it; of each printer of a string: what it appends to the log (C85); then by induction over the arguments | partial | `Told.call_told_partial`, `Told.call_tr_told_partial`, `Told.call_to_string_told_partial`, `Told.call_to_string_untold_partial` |
| C99 | What the error notifier of tr-strings is told during a call | as C98, with another log (told exactly, in any order): a destination paired with the log is a lawful destination; of strf::tr: what is appended to the log at each reference of the tr-string, by induction over its segments; then by induction over the arguments | partial | `TrTold.call_noted_partial`, `TrTold.call_tr_noted_partial`, `TrTold.call_to_string_noted_partial` |
| C100 | A string can be appended to itself | the views of str can be read as long as the size of str is at most the capacity it had; invariant (what the appender has been given) by induction over the arguments; cases on where a copy goes (buffer or do_write) for the exact conditions | partial | `Print.append_own_partial`, `Print.append_own_once`, `Print.append_own_twice_iff`, `Print.append_own_reserve_iff`, `Print.append_own_calc_iff`, `Print.append_own_wrong`, `Print.append_own_reserve_wrong`, `Print.assign_own_wrong` |

## Defects found

Each of them is a theorem with a concrete witness.

| theorem | what happens |
|----|----|
| `Dest.cstr_late_write_wrong`, `Dest.array_late_write_wrong`, `Print.to_cstr_terminated_wrong` | after truncation, a `write` longer than the garbage space makes `finish()` store the terminator outside of the array; `strf::to(char[4])(strf::right(s, 75))` with 70 characters leaves the array unterminated |
| `Program.tr_terminated_wrong` | `tr` does not look at `good()`: `char b[4]; strf::to(b).tr("{0}{0}{0}{0}{0}{0}{0}{0}", "aaaaaaaaaa")` leaves the array unterminated and stores a zero one past the garbage buffer, although no argument is long |
| `Print.append_own_wrong`, `Print.append_own_reserve_wrong`, `Print.assign_own_wrong` | `strf::append(s)(s, s)` with more than 32 characters and a capacity for fewer than two copies reads characters that `std::string` has deallocated; with `reserve_calc` `strf::append(s).reserve_calc()(s)` does so already with 10 characters; `strf::assign(s)(s)` leaves nothing |
| `Dest.streambuf_gap_wrong` | after a short `sputn` the next buffer is sent nevertheless: the stream receives a text with a gap |
| `Dest.maker_leak_on_throw` | a string is leaked if the first append of a `string_maker` throws |
| `Utf.transcode_size_8to8_wrong`, `transcode_size_32to32_wrong`, `unsafe_size_8to32_wrong`, `decode_unit_signed_wrong` | size functions and `decode_unit` at limits / with signed units |
| `Charset.notified_twice_wrong` | an ill-formed sequence at a full buffer is notified twice |
| `Transcode.notes_twice_wrong`, `notes_order_wrong`, `notes_ahead_wrong` | conversions through UTF-32: an ill-formed sequence after 16 characters is notified twice whatever the room; problems are not notified in order; ill-formed sequences after the character at which the conversion stopped are notified |
| `Sbc.windows_1254_encode_wrong`, `windows_1258_encode_wrong`, `private_use_wrong`, `size_fffd_wrong`, `size_unsupported_wrong` | wrong bytes, wrong classification of unencodable characters |
| `Numpunct.creator_equality_wrong`, `no_grouping_point_wrong`, `no_grouping_equal_wrong`, `no_grouping_uninit_wrong` | equality of groupings; the decimal point set on `no_grouping` is ignored, but compared; its data member has no initializer |
| `IntDigits.write_bin_little_sep_wrong`, `IntPrinter.bin_punct_wrong` | punctuated binary numbers: stores outside of the buffer |
| `IntPrinter.plain_dec_wrong` | `+dec(x)`: room for one character is asked for: stores outside of the buffer |
| `IntPrinter.invalid_separator_wrong`, `precision_overflow_wrong` | width with a separator that cannot be encoded; precisions near INT_MAX |
| `Width.satSubI64_wrong`, `satSubI64_undefined`, `compareI16_undefined`, `div_wrong_negative`, `div_wrong_overflow`, `literal_wrong_15_digits`, `literal_wrong_range` | arithmetic of `width_t` |
| `Print.add_width_overflow`, `join_width_wrong`, `join_width_overflow`, `tr_join_width_wrong`, `tr_cluster_width_wrong`, `tr_width_overflow` | widths of joins and tr-strings |
| `WidthCalc.std_pos_block_wrong`, `std_pos_width_wrong`, `std_pos_negative_wrong`, `Print.std_precise_string_wrong`, `std_precise_negative_wrong` | `std_width_calc::str_width_and_pos` at block boundaries, with wide characters and negative limits |
| `Print.char_align_overflow` | characters aligned to more than 32767.5 columns |
| `Float.general_carry_sign_wrong`, `fixed_grouping_carry_wrong`, `fixed_grouping_size_wrong`, `general_carry_grouping_wrong`, `general_alt_zeros_wrong`, `hex_carry_wrong`, `sbc_separator_wrong` | rounding that carries, `*` in the general notation, separators in single-byte charsets |
| `Dragonbox.double_rounding_wrong` | a precision rounds the shortest decimal of the number instead of the number: `fixed(2.675, 2)` and `gen(2.675, 3)` print 2.68, `printf` (and the documentation, for %g) 2.67 |
| `Format.base_loses_options_wrong` | `base(b)` after `p`, `pad0` or `punct` resets precision, zeros, sign and base prefix |
| `Format.fast_lettercase_wrong` | the letter case of a `double` without format is looked up with the tag `float` |
| `Format.charset_width_wrong` | a string copied because its own charset is that of the destination is measured with the charset facet |
| `Format.char_cast_wrong` | formatted characters of another type than the destination's compile, and are cast instead of transcoded |
| `Program.call_tag_wrong` | the same defect as `fast_lettercase_wrong` in whole calls: `constrain<is_double>(uppercase)` has no effect on `1e100`, `constrain<is_float>(uppercase)` has |
| `Locale.locale_char_max_wrong` | `digits_grouping(const char*)` takes CHAR_MAX, where it is 127, for a group size |
| `Transcode.transcode_defect_wrong`, `transcode_private_wrong` | the same as `Sbc`'s, seen through `strf::transcode`: U+00D0 becomes Ğ in windows-1254; U+FF21 is invalid from UTF-32 and unsupported from UTF-8 |
| `Chain.chain_compiles_wrong`, `to_string_tr_calc_wrong` | these do not compile: `x.reserve(10).reserve(20)`; `x.no_reserve()` of a variable with another policy (an argument is missing); `x.with()` of a variable; `to_string.reserve_calc().tr(…)` (destination_type instead of sized_destination_type) |
| `Threads.garbage_race_wrong` | two threads that print to arrays of their own, both too small: both write to the static `garbage_buff`, a data race (undefined behaviour) |
| `Width.narrowed_wrong`, `compare_undefined_wrong` | `width_t(5) < 100000` is false, `width_t(5) + 40000` is negative: the operators convert integers to `int16_t`; `strf::compare(int16_t(0), width_min)` negates INT_MIN |
| `Direct.unmeasured_wrong` | values of a type with `print` and no `make_printer` cannot be arguments of `strf::with(…)(…)` or `strf::tr(…)`, although nothing is measured and the docs name aligned joins and reserve_calc only |
| `Ranges.fmt_separated_init_wrong` | `fmt_separated_range({1, 2, 3}, ", ")` is ill-formed: range.hpp 817–825 initializes a `ptrdiff_t` with a `size_t` in braces (a narrowing conversion; some compilers only warn) |

Noticed and not expressed as theorems (they are about what compiles, or a matter of documentation):

* docs say that `operator*` is printf's `#`, but hexadecimal 0 prints `0x0`;
* the variant printers' call operators take `destination<char>` only;
* printing_syntax.hpp 426: objects whose creator or facets cannot be copied do not compile (`using …::with` of a class without `with`);
* separate_args_and_print.hpp: `args_with_tr::first_is_fpe` does not remove references;
* printing_helpers.hpp 367–375: `tr` without premeasurements passes the argument to `make_printer` unconverted, so `fmt(x)` of a type whose `make_printer` takes the plain value does not compile there;
* `multi` of a combining character has count × its own width;
* docs list `sat_sub(integral, width_t)`, `compare(width_t, width_t)` and `sat_add`, `sat_sub` of unsigned and 8-bit integers: they do not exist;
* int.hpp: `set_int_format(default_int_format)` of the classes without padding and of static ones, and `set_int_format(static<B, P>)` of
  another base, do not compile; nor does changing the presence of alignment of the dynamic class.

## Testing the theorems

`seeded/LOG.jsonl` records the wrong programs tried: each entry is one edit of the model, the claim it breaks and the theorems whose proofs
failed. Edits that survived and break no claim (e.g. a branch that is equivalent, a fast path) are recorded as such.
