{"id": "C01", "title": "String-building destinations return the concatenation of everything written", "statement": "After any sequence of write/put/fill/ensure+raw-store/flush calls on strf::string_maker, strf::string_appender or strf::sized_string_maker, finish() yields exactly the initial content (appender) followed by the characters in the order they were written: nothing is lost, duplicated or reordered at buffer flushes.", "quantifier": "every initial reserve size, every finite history of output operations with every payload and size", "why_tests_cant": "Flushes happen at data-dependent points (64-character buffers, growth on demand); a test fixes one history and so only a few alignments of writes with buffer boundaries.", "anchors": ["include/strf/to_string.hpp: basic_string_maker, basic_string_appender, basic_sized_string_maker", "include/strf/destination.hpp: output_buffer, put, write"]}
{"id": "C02", "title": "Writing to a char array truncates to a prefix, terminates it, and never leaves the array", "statement": "strf::to(char(&)[N]) / to(char*, size): whatever is written, the array finally holds a prefix of the text (the longest that fits in N-1 characters if only write, put and fill were used) followed by the terminating zero, the returned pointer addresses that zero, `truncated` is false only if the whole text is there and (if each operation uses the space it asks for) true only if the text does not fit, and no store happens outside the array.", "quantifier": "every array size >= 1, every finite history of output operations, including further writes after the truncation", "why_tests_cant": "The dangerous histories are those in which writing continues after truncation with particular sizes; the buffer arithmetic differs in each, and out-of-bounds stores need not crash a test.", "anchors": ["include/strf/destination.hpp: basic_cstr_destination::recycle, do_write, finish"]}
{"id": "C03", "title": "Writing to a character range without terminator truncates to a prefix and stays in range", "statement": "strf::array_destination / to_range: the range finally holds a prefix of the text (the longest that fits if only write, put and fill were used), the returned pointer is one past the last character written and lies in the range, `truncated` as in C02, and no store happens outside the range.", "quantifier": "every range size, every finite history of output operations", "why_tests_cant": "Same as C02: the faulty histories write more after truncation.", "anchors": ["include/strf/destination.hpp: array_destination::recycle, do_write, finish"]}
{"id": "C04", "title": "discarder absorbs everything and never faults", "statement": "strf::discarder is never good(), offers buffer space after each recycle, accepts every history of output operations without any out-of-bounds store, and has no observable effect.", "quantifier": "every finite history of output operations", "why_tests_cant": "Universally quantified over histories and sizes.", "anchors": ["include/strf/destination.hpp: discarder"]}
{"id": "C05", "title": "FILE* output: the file receives a prefix, the count is exact, success is truthful", "statement": "For strf::to(FILE*) (narrow and wide writers), whatever the file accepts on each underlying write call, the file content is a prefix of the text written, the reported count equals the number of characters the file accepted, `success` is true iff the whole text was accepted, and after a failed call nothing more is sent.", "quantifier": "every history of output operations and every schedule of short writes of the underlying file", "why_tests_cant": "Short writes / disk-full cannot be provoked at every call and offset by tests.", "anchors": ["include/strf/to_cfile.hpp: cfile_writer_base::recycle, do_write, finish", "narrow_cfile_writer, wide_cfile_writer"]}
{"id": "C06", "title": "streambuf output: the stream receives a prefix, the count is exact", "statement": "For strf::to(std::basic_streambuf*), whatever sputn accepts on each call, the delivered characters form a prefix of the text, the count equals the number delivered and success is true iff all were delivered.", "quantifier": "every history of output operations and every schedule of partial sputn results", "why_tests_cant": "Partial sputn results cannot be enumerated by tests.", "anchors": ["include/strf/to_streambuf.hpp: basic_streambuf_writer"]}
{"id": "C07", "title": "write_fill emits exactly n copies", "statement": "write_fill(dst, count, ch) appends exactly max(count,0) copies of ch to what was written before, however the copies fall across buffer boundaries.", "quantifier": "every destination, every free space left in the buffer, every count (including 0 and negative) and character", "why_tests_cant": "The split between the first chunk and the continuation depends on the space left, unbounded in count.", "anchors": ["include/strf/output_buffer_functions.hpp: write_fill, write_fill_continuation"]}
{"id": "C08", "title": "The text produced does not depend on the destination's buffer geometry", "statement": "Printing the same arguments to any two destinations that do not fail gives the same text: the positions at which the buffer is recycled and how much space it then offers cannot change, drop or repeat characters.", "quantifier": "every destination that keeps the destination contract (recycle gives at least 64 free units), every free space at each point", "why_tests_cant": "Buffer boundaries can fall between any two characters, and the space after a flush is destination-defined.", "anchors": ["include/strf/destination.hpp: output_buffer::write, put, ensure", "include/strf/detail/facets/charset.hpp: transcode, decode_encode", "include/strf/detail/printable_types/int.hpp"]}
{"id": "C09", "title": "A failed string append is never retried", "statement": "If std::string::append throws inside string_appender / string_maker, the destination is left bad, and later operations, finish() and the destructor do not append again: the target holds what was there before the failing call.", "quantifier": "every history of operations and every allocation that fails", "why_tests_cant": "The failing allocation can be any one in any history.", "anchors": ["include/strf/to_string.hpp: basic_string_appender::recycle, do_write, ~basic_string_appender", "basic_string_maker"]}
{"id": "C10", "title": "UTF-8 decoding accepts exactly well-formed sequences and replaces maximal subparts", "statement": "Transcoding from UTF-8 (strict) yields, for every byte string, each well-formed sequence (Unicode Table 3-7) decoded to its scalar value and each ill-formed part replaced by U+FFFD once per maximal subpart, as Unicode section 3.9 recommends.", "quantifier": "every byte sequence of every length", "why_tests_cant": "The set of inputs is infinite and errors hide in the boundary bytes (E0 9F, ED A0, F0 8F, F4 90, truncated tails).", "anchors": ["include/strf/detail/utf.hpp: static_transcoder<char, char32_t, csid_utf8, csid_utf32>::transcode", "utf8 -> utf16, utf8 -> utf8"]}
{"id": "C11", "title": "Transcoded output is always well-formed", "statement": "In strict mode, without stop flags, the output of each UTF transcoder (8/16/32 to 8/16/32) is a well-formed sequence of the destination encoding, whatever the input.", "quantifier": "every input sequence of code units", "why_tests_cant": "Universally quantified over inputs.", "anchors": ["include/strf/detail/utf.hpp: all static_transcoder<..., utf*, utf*>::transcode"]}
{"id": "C12", "title": "Well-formed text is transcoded without loss", "statement": "If the source is well-formed, transcoding gives exactly the destination encoding of the same sequence of scalar values, no error is notified, and transcoding back gives the original.", "quantifier": "every sequence of Unicode scalar values, each pair of UTF encodings", "why_tests_cant": "1.1 million scalars times arbitrary sequences and six directions.", "anchors": ["include/strf/detail/utf.hpp: static_transcoder<...>::transcode"]}
{"id": "C13", "title": "Sanitizing is idempotent", "statement": "Transcoding an encoding to itself (sanitizing) leaves its own output unchanged: a second pass is the identity and notifies nothing; and well-formed input is returned unchanged.", "quantifier": "every input sequence", "why_tests_cant": "Universally quantified over inputs.", "anchors": ["include/strf/detail/utf.hpp: utf8->utf8, utf16->utf16, utf32->utf32 transcode"]}
{"id": "C14", "title": "transcode_size predicts the number of units written", "statement": "transcode_size(src, src_end, limit, flags).ssize equals the number of units transcode writes for the same source and flags when that fits the limit, and never exceeds the limit; the source position is the one transcode would stop at.", "quantifier": "every source sequence, flag set and limit", "why_tests_cant": "The size functions are separate hand-written copies of the decoders; agreement must hold on every malformed input.", "anchors": ["include/strf/detail/utf.hpp: transcode_size, transcode_size_stop_on_inv_seq_, transcode_size_continue_on_inv_seq_"]}
{"id": "C15", "title": "Transcoding is independent of where the output buffer fills up", "statement": "Transcoding to a destination through any sequence of buffer refills gives the same characters as transcoding in one go into a large enough buffer: resuming at the returned source position after insufficient_output_space loses, repeats or splits nothing, and terminates.", "quantifier": "every source, every sequence of free-space sizes offered by the destination (each at least the minimum)", "why_tests_cant": "A multi-unit character can straddle the end of any buffer.", "anchors": ["include/strf/detail/facets/charset.hpp: transcode (destination overload), decode_encode", "include/strf/detail/utf.hpp: transcode"]}
{"id": "C16", "title": "stop_on_invalid_sequence stops exactly at the first ill-formed sequence", "statement": "With the stop flag, transcode returns invalid_sequence with the source pointer at the first unit of the first ill-formed sequence and the output is exactly the transcoding of what precedes it; if it returns completed the source was well-formed.", "quantifier": "every input sequence", "why_tests_cant": "Universally quantified over inputs.", "anchors": ["include/strf/detail/utf.hpp: transcode, transcode_stop_reason::invalid_sequence"]}
{"id": "C17", "title": "unsafe_transcode agrees with transcode on valid input", "statement": "On well-formed input unsafe_transcode writes the same units and returns the same positions as transcode.", "quantifier": "every well-formed input and every output capacity", "why_tests_cant": "Separate hand-written decoders; infinite inputs.", "anchors": ["include/strf/detail/utf.hpp: unsafe_transcode, unsafe_transcode_size"]}
{"id": "C18", "title": "count_codepoints counts what transcoding would produce", "statement": "count_codepoints (strict) equals the number of characters (scalars or U+FFFD replacements) that transcoding to UTF-32 produces, capped by the limit, with the position after the last one counted; count_codepoints_fast agrees on well-formed input.", "quantifier": "every input, every limit", "why_tests_cant": "Separate decoder copy; infinite inputs.", "anchors": ["include/strf/detail/utf.hpp: count_codepoints, count_codepoints_fast"]}
{"id": "C19", "title": "encode_char, encoded_char_size, validate and decode agree", "statement": "For every Unicode scalar value encode_char writes exactly encoded_char_size units, these are the well-formed encoding of it, decoding them gives it back; validate returns the same size, and a negative number for non-scalars.", "quantifier": "every char32_t value", "why_tests_cant": "2^32 inputs per charset.", "anchors": ["include/strf/detail/utf.hpp: encode_char, encoded_char_size, validate, encode_fill"]}
{"id": "C20", "title": "Each ill-formed sequence is notified exactly once", "statement": "When printing text with invalid sequences, the transcoding error notifier is called once per ill-formed sequence, in order, whatever the destination's buffer sizes.", "quantifier": "every input and every sequence of buffer sizes", "why_tests_cant": "Duplicate notification only happens when an ill-formed sequence coincides with the end of a destination buffer.", "anchors": ["include/strf/detail/utf.hpp: transcode (err_notifier->invalid_sequence)", "include/strf/detail/facets/charset.hpp: transcode"]}
{"id": "C21", "title": "lax_surrogate_policy preserves unpaired surrogates", "statement": "With surrogate_policy::lax, UTF-16 and UTF-32 text containing unpaired surrogates is transcoded to generalized UTF-8 and back without change (for UTF-16 sources: every sequence of 16-bit units round-trips).", "quantifier": "every sequence of 16-bit units", "why_tests_cant": "Pairs forming at concatenation points; infinite inputs.", "anchors": ["include/strf/detail/utf.hpp: transcode with transcode_flags::lax_surrogate_policy"]}
{"id": "C22", "title": "Single-byte charsets: decode and encode are inverse", "statement": "For each single-byte charset, encoding the code point a valid byte decodes to gives the byte back, and every code point that encodes to a byte (other than by replacement) is what that byte decodes to.", "quantifier": "all bytes, all 2^32 code points, all 25 charsets", "why_tests_cant": "Encode is a binary search or switch over hand-written tables, independent from the decode tables, over 2^32 inputs.", "anchors": ["include/strf/detail/single_byte_charsets.hpp: impl_*::decode, encode, is_valid"]}
{"id": "C23", "title": "Single-byte charsets: unencodable characters are replaced and classified correctly", "statement": "Transcoding UTF-32 to a single-byte charset writes one unit per character: its byte if the charset has it, else '?', reporting `unsupported codepoint` for Unicode scalars that the charset lacks and `invalid sequence` only for surrogates (strict) and values above 10FFFF.", "quantifier": "every source sequence, charset, and flag set", "why_tests_cant": "The classification is range tests on every 32-bit value.", "anchors": ["include/strf/detail/single_byte_charsets.hpp: static_transcoder<char32_t,...>::transcode, find_first_*"]}
{"id": "C24", "title": "Single-byte charsets: sizes and prefixes", "statement": "transcode/unsafe_transcode from and to single-byte charsets write exactly min(source length, room) units for the corresponding source prefix, and transcode_size gives the same count and position.", "quantifier": "every source, room, and flags", "why_tests_cant": "Universally quantified.", "anchors": ["include/strf/detail/single_byte_charsets.hpp"]}
{"id": "C25", "title": "digits_grouping counts and distributes separators correctly", "statement": "separators_count(n) is the number of group boundaries strictly inside n digits for the given group sizes (last group repeated, or not, as constructed), and distribute(n) splits n digits into groups whose sizes follow the grouping, sum to n, with the highest group non-empty and no larger than its group size.", "quantifier": "every grouping representable (<=6 groups of 1..30) and every digit count", "why_tests_cant": "Groupings times digit counts; the repeat/no-repeat tails differ.", "anchors": ["include/strf/detail/facets/numpunct.hpp: digits_grouping::separators_count, distribute, any_separator, digits_grouping_iterator"]}
{"id": "C26", "title": "digits_grouping constructors represent exactly the groups given", "statement": "Constructing digits_grouping from group sizes (optionally ending in -1), from a C string, or through digits_grouping_creator, and then iterating, gives back those groups and the right tail rule; invalid specifications give the empty grouping.", "quantifier": "every list of group sizes", "why_tests_cant": "Bit-packed representation with overflow at six groups.", "anchors": ["include/strf/detail/facets/numpunct.hpp: digits_grouping, digits_grouping_creator"]}
{"id": "C27", "title": "Integer digits are exact in each base", "statement": "count_digits<Base> equals the number of digits of the value, the digits written parse back to the value, the first digit is not 0 unless the value is 0, and digits are 0-9a-f (or A-F).", "quantifier": "every 64-bit unsigned value, bases 2, 8, 10, 16, both cases", "why_tests_cant": "2^64 values.", "anchors": ["include/strf/detail/int_digits.hpp: digits_counter, write_int_txtdigits_backwards"]}
{"id": "C28", "title": "Grouped integers: removing separators gives the plain digits", "statement": "Digits written with a separator (single-unit or multi-unit) are the plain digits with a separator exactly at the boundaries of the grouping, and the total length is digits + separators * separator size.", "quantifier": "every value, base, grouping, separator", "why_tests_cant": "Values times groupings times buffer boundaries.", "anchors": ["include/strf/detail/int_digits.hpp: intdigits_writer::write_little_sep, write_big_sep"]}
{"id": "C29", "title": "Signed integers are printed with the exact magnitude", "statement": "The absolute value used for printing signed integers is |x| for every x, including the most negative value.", "quantifier": "every signed value of each width", "why_tests_cant": "Signed overflow corner.", "anchors": ["include/strf/detail/int_digits.hpp: unsigned_abs"]}
{"id": "C30", "title": "Printing integers never writes outside the destination's buffer", "statement": "For every integer, format and destination state, every store made while printing is inside the space the destination offers.", "quantifier": "every value, format (sign, base, precision, pad0, width, punct), every amount of free space left", "why_tests_cant": "A missing space check only bites with particular free space; overruns may not crash.", "anchors": ["include/strf/detail/printable_types/int.hpp: int_printer_no_pad0_nor_punct, int_printer_static_base_and_punct", "include/strf/detail/int_digits.hpp: intdigits_writer"]}
{"id": "C31", "title": "Formatted integers have the specified layout", "statement": "A formatted integer prints as: left fill, sign or base prefix, zeros, digits (with separators), right fill, where the number of zeros is max(precision - digits, pad0 width - content, 0) and the fill makes the total width equal the alignment width when the content is narrower (half, rounded down, on the left for center).", "quantifier": "every value, base, sign mode, showbase, precision, pad0 width, alignment, width, fill char", "why_tests_cant": "Large product of parameters.", "anchors": ["include/strf/detail/printable_types/int.hpp: init_fmt_int_printer_data, init_punct_fmt_int_printer_data"]}
{"id": "C32", "title": "Pre-measured size of integers equals the printed length", "statement": "The size and width an integer printer reports when premeasured equal the number of units and the width it then prints, so reserve_calc never under-reserves.", "quantifier": "every value, format and facet", "why_tests_cant": "Separate code computes size and prints.", "anchors": ["include/strf/detail/printable_types/int.hpp: do_premeasurements / constructor premeasurements"]}
{"id": "C33", "title": "width_t saturating arithmetic equals exact arithmetic clamped", "statement": "sat_add, sat_sub and sat_mul on strf::width_t (with width_t and integer operands of each type) give the exact result clamped to [width_min, width_max] (products truncated toward zero at 1/65536).", "quantifier": "all operand values", "why_tests_cant": "2^32 x 2^64 operand pairs; the wrong results are at extreme values.", "anchors": ["include/strf/width_t.hpp: sat_add, sat_sub, sat_mul, sat_cast"]}
{"id": "C34", "title": "width_t rounding functions are correct", "statement": "floor, ceil, round, non_negative_floor and non_negative_ceil return the mathematically rounded integer (round: half toward zero) for every width.", "quantifier": "all 2^32 width values", "why_tests_cant": "Too many for tests of each bit pattern; errors at negative halves and extremes.", "anchors": ["include/strf/width_t.hpp: floor, ceil, round, non_negative_floor, non_negative_ceil"]}
{"id": "C35", "title": "width_t comparison and division are arithmetic", "statement": "compare with widths and integers orders like the exact values with no overflow, and operator/ gives the exact quotient truncated.", "quantifier": "all operand values", "why_tests_cant": "Extreme values only.", "anchors": ["include/strf/width_t.hpp: compare, operator<, operator==, operator/="]}
{"id": "C36", "title": "_w literals denote the decimal they spell", "statement": "A literal such as 1.25_w is the decimal rounded to the nearest 1/65536 and is rejected at compile time if it is out of range.", "quantifier": "every literal text", "why_tests_cant": "Infinitely many literals.", "anchors": ["include/strf/width_t.hpp: width_literal parser, operator\"\" _w"]}
{"id": "C37", "title": "Premeasurement accumulators never exceed their limit and report the true remainder", "statement": "Adding widths through the checked accumulator gives min(limit, sum), remaining width is limit minus that, order of additions does not matter, and has_remaining_width tells whether the sum is below the limit; the size accumulator is the plain sum.", "quantifier": "every limit and every sequence of widths", "why_tests_cant": "Sequences unbounded.", "anchors": ["include/strf/detail/premeasurements.hpp: width_accumulator, size_accumulator"]}
{"id": "C38", "title": "Aligned text: fill is exactly what is missing", "statement": "A string with alignment format is printed as fill + text + fill with total fill count round(width - text width) (0 if text is at least as wide), on the side(s) asked for, and precision keeps the longest prefix whose width fits.", "quantifier": "every string, width, precision, alignment, fill", "why_tests_cant": "Large product of parameters.", "anchors": ["include/strf/detail/printable_types/string.hpp: aligned_strcpy_printer, aligned_transcode_printer, strcpy_printer"]}
{"id": "C39", "title": "Aligned joins: members are printed in order, padded as a unit", "statement": "An aligned join prints its members' texts in order with total fill round(width - sum of member widths) placed on the left, right, or split, independent of how premeasurement was requested.", "quantifier": "every list of members, width, alignment, and premeasurement mode", "why_tests_cant": "Unbounded member lists, different code when width premeasure is on.", "anchors": ["include/strf/detail/printable_types/join.hpp: aligned_join_printer"]}
{"id": "C40", "title": "tr-strings: the output follows the documented syntax for every string", "statement": "strf::tr(str, args...) prints str with {} replaced by the next argument, {n...} by the n-th, {-...} by nothing, {{ by a brace, text as is; missing arguments print the replacement character; for every format string, well formed or not.", "quantifier": "every tr-string, every argument list", "why_tests_cant": "Arbitrary user-provided (translated) strings at run time.", "anchors": ["include/strf/detail/tr_printer.hpp: tr_string_write, read_uint", "docs/ref_printable_types.adoc tr-string"]}
{"id": "C41", "title": "tr-strings: the premeasured size is the printed size", "statement": "The size calculated for a tr-string equals the number of units printed for it, so reserved memory suffices.", "quantifier": "every tr-string and argument sizes", "why_tests_cant": "Two separately written parsers of the same language.", "anchors": ["include/strf/detail/tr_printer.hpp: tr_string_size / tr_do_premeasurements, tr_string_write"]}
{"id": "C42", "title": "tr-strings: each missing argument is reported once at its brace", "statement": "The tr error notifier is called exactly once for each directive that refers to an absent argument, in order, with the position of its opening brace.", "quantifier": "every tr-string", "why_tests_cant": "Arbitrary strings.", "anchors": ["include/strf/detail/tr_printer.hpp: tr_string_write, err_handler"]}
{"id": "C43", "title": "Width calculators count what they claim", "statement": "fast_width counts code units, width_as_fast_u32len / width_as_u32len count code points, both capped by the limit, and str_width_and_pos returns the longest prefix whose width fits the limit together with that width.", "quantifier": "every string and limit", "why_tests_cant": "Infinite strings and limits.", "anchors": ["include/strf/detail/facets/width_calculator.hpp: fast_width_t, width_as_fast_u32len_t, width_as_u32len_t"]}
{"id": "C44", "title": "std_width_calc treats text as a sequence of grapheme clusters independently of chunking", "statement": "The width computed by std_width_calc is the sum of the widths of the grapheme clusters of the text, capped by the limit; it does not depend on the 32-code-point blocks used internally; and str_width_and_pos returns a prefix that fits, never cutting a cluster.", "quantifier": "every code point sequence and limit", "why_tests_cant": "The block boundary can fall anywhere in an arbitrarily long cluster.", "anchors": ["include/strf/detail/facets/width_calculator.hpp: std_width_calc_t, std_width_calc_func"]}
{"id": "C45", "title": "The reserve policy does not change the result", "statement": "no_reserve, reserve(n) and reserve_calc give the same printed result for growing destinations.", "quantifier": "every argument text, every reserve size", "why_tests_cant": "Every reserve size relative to every text.", "anchors": ["include/strf/detail/reserve_policies.hpp", "include/strf/to_string.hpp: basic_sized_string_maker"]}
{"id": "C46", "title": "encode_fill writes exactly count encoded characters", "statement": "Filling with a character of the destination charset appends exactly count copies of its encoding across any buffer boundaries, and stops early only when the destination is bad.", "quantifier": "every character, count, destination", "why_tests_cant": "Boundary alignment times count.", "anchors": ["include/strf/detail/utf.hpp: encode_fill, repeat_sequence", "include/strf/detail/facets/charset.hpp: trivial_fill_f"]}
{"id": "C47", "title": "Single-byte charsets: each byte means what the published tables say", "statement": "For each of the 25 single-byte charsets, every byte to which the Unicode Consortium's mapping file for that charset gives a meaning decodes to that code point.", "quantifier": "all 25 charsets, all 256 bytes", "why_tests_cant": "Hand-written tables; a test compares samples, or compares against a copy of the same table.", "anchors": ["include/strf/detail/single_byte_charsets.hpp: impl_*::decode"]}
{"id": "C48", "title": "Numeric punctuation facets report what was set on them", "statement": "A numpunct facet returns the grouping, thousands separator and decimal point last set on it (or the documented defaults), and two facets compare equal exactly when all three agree.", "quantifier": "every history of setters and every value", "why_tests_cant": "Every sequence of setter calls.", "anchors": ["include/strf/detail/facets/numpunct.hpp: numpunct, no_grouping, default_numpunct"]}
{"id": "C49", "title": "tr-strings: the width in an aligned join is the width of what is printed", "statement": "Inside strf::join_left/right/center or strf::measure, the width of strf::tr(str, args...) is the width of its text, of its arguments and of the replacement characters, up to the limit, and the calculation has no undefined behaviour.", "quantifier": "every tr-string, every list of arguments, every limit", "why_tests_cant": "Arbitrary strings; the calculation stops early at the limit and is done by two different classes.", "anchors": ["include/strf/detail/tr_printer.hpp: tr_pre_width, tr_pre_size_and_width, tr_do_premeasurements", "include/strf/detail/printable_types/tr_string.hpp: make_printer"]}
{"id": "C50", "title": "Characters: text, repetition, alignment, size and width", "statement": "A character prints itself (a char32_t printed to another character type prints its encoding in the destination charset); multi(c, n) prints it n times; with alignment, exactly as many fill characters are added on the requested side as are missing to the width, counting the width of the character as that of a one-character string. The premeasured size is the number of code units printed and the premeasured width is the width of the characters and fill characters. No undefined behaviour.", "quantifier": "every character, charset, width calculator, count, fill character, alignment, width, destination and premeasurement limit", "why_tests_cant": "All characters times all counts times all widths; the loop crosses buffer boundaries at any position.", "anchors": ["include/strf/detail/printable_types/char.hpp: char_printer, fmt_char_printer, conv_char32_printer, fmt_conv_char32_printer, printable_def<char32_t>"]}
{"id": "C51", "title": "Ranges: elements in order, separators only in between", "statement": "range(r) prints the elements of r in order, each as it would be printed as an argument with the same format; separated_range(r, sep) prints sep between each two consecutive elements and nowhere else; formatted and transformed ranges likewise. The premeasured size is the number of code units printed, the premeasured width is the sum of the widths (up to the limit), and printing stops when the destination fails.", "quantifier": "every list of elements of any length, every separator, charset, width calculator, destination and premeasurement limit", "why_tests_cant": "Ranges have unbounded length, and the measuring loop may stop anywhere (limit reached), after which the count of separators is only partial.", "anchors": ["include/strf/detail/printable_types/range.hpp: range_printer, separated_range_printer, fmt_range_printer, fmt_separated_range_printer, transformed_range_printer, sep_transformed_range_printer"]}
{"id": "C52", "title": "The result of printing is the text of the arguments, in order, whatever the destination and the reserve policy", "statement": "strf::to_string(args...), to_string.reserve(n)(args...) and to_string.reserve_calc()(args...) return the concatenation of the texts of the arguments in the order written, followed by a line feed if .line was used; strf::append(str) adds the same text after the old content of str; a FILE* receives it (or the prefix it accepted, and the result tells how many characters and whether all of them were taken); a streambuf likewise. reserve_calc asks for exactly the number of characters printed, in whatever order the compiler evaluates the premeasurements.", "quantifier": "every list of arguments of any length, every reserve policy, every evaluation order, every behaviour of the file or stream", "why_tests_cant": "Unbounded argument lists, every refusal point of the sink, and an order of evaluation chosen by the compiler.", "anchors": ["include/strf/detail/reserve_policies.hpp: no_reserve, reserve_given_space, reserve_calc, print", "include/strf/to_string.hpp: string_maker, sized_string_maker, string_appender", "include/strf/to_cfile.hpp", "include/strf/to_streambuf.hpp", "include/strf/printing_syntax.hpp"]}
{"id": "C53", "title": "tr and trline: the result on every destination and reserve policy", "statement": ".tr(str, args...) and .trline(str, args...) give every destination the text that the tr-syntax calls for (and a line feed for trline), whatever the reserve policy; the tr-error notifier is told of each reference to an argument that does not exist, with its position; with reserve_calc, the space asked for is exactly the length of the result.", "quantifier": "every tr-string, every list of arguments, every destination and policy", "why_tests_cant": "Arbitrary strings and argument lists; size precalculation and printing are different code and must agree.", "anchors": ["include/strf/detail/reserve_policies.hpp: tr functions", "include/strf/detail/tr_printer.hpp"]}
{"id": "C54", "title": "Printing to a char array or a range: never out of bounds, a prefix, no spurious truncation", "statement": "strf::to(char_array)(args...), strf::to(ptr, n) and strf::to_range(...) never write outside of the array given; the array ends up with a prefix of the text of the arguments, terminated (for the former), and the result points to its end; `truncated` is false only if the whole text is there; text that leaves more than 64 elements free is never truncated, and truncation wastes at most 63 elements.", "quantifier": "every array size \u2265 1, every list of arguments of any length", "why_tests_cant": "All array sizes and argument lists; each kind of argument asks for buffer space in its own way.", "anchors": ["include/strf/destination.hpp: basic_cstr_destination, array_destination, discarder", "include/strf/detail/printable_def.hpp: call_printers, print_printables", "include/strf/detail/reserve_policies.hpp"]}
{"id": "C55", "title": "The facet in force is the last applicable one", "statement": "get_facet<Category, Tag>(pack) returns the last facet of that category in the pack, in the order written, that applies to the tag (facets inside constrain<Filter> apply only to tags accepted by Filter, also when nested), and the category's default if there is none; nesting of packs and references do not matter. So facets passed later override earlier ones for the tags they apply to and for no others: those in the call override those of .with(), later .with() calls override earlier ones, the facets of an inner strf::with(...) override those of the outer call for its arguments. An argument of an overridable type is printed by the overriding facet in force for it, any other by its own definition.", "quantifier": "every pack of any length and nesting depth, every category and tag", "why_tests_cant": "Packs nest without bound and the lookup is overload resolution over inheritance ranks.", "anchors": ["include/strf/facets_pack.hpp: facets_pack, constrained_fpe, fpe_traits, fpe_wrapper, get_facet, pack, merge_1st", "include/strf/printing_syntax.hpp: with", "include/strf/detail/printable_types/facets_pack.hpp: with, inner_pack_with_args", "include/strf/detail/printing_helpers.hpp: printable_def_or_facet_getter_selector"]}
{"id": "C56", "title": "A float or double printed without format", "statement": "Printing a finite float or double without format prints '-' if its sign bit is set (also for -0.0) and then the decimal number that stands for it (see C63) in the shorter of the fixed and the scientific notation (fixed if they are equally long), exactly, with '.' as point, no separators, 'e' (or 'E' with uppercase), the sign of the exponent and at least two digits of it. The size premeasured is that of the text, and nothing is written outside the destination's buffer.", "quantifier": "every finite float and double, every lettercase, every destination and state of its buffer", "why_tests_cant": "There are 2^64 doubles; the boundary between notations depends on the number of digits and the exponent.", "anchors": ["include/strf/detail/printable_types/float.hpp: fast_double_printer, float_printing::make_printer"]}
{"id": "C57", "title": "Floating-point notations without precision", "statement": "With fixed(x), sci(x), gen(x) and no precision the number is printed exactly: in fixed notation all its digits; in scientific notation one digit, the point, and the others; gen selects the shorter (counting separators), fixed if equal. '*' always prints the point; '+' prints the sign also of non-negative numbers, '~'/fill_sign a fill character instead; pad0(n) inserts zeros between the sign and the digits up to n characters; alignment adds fill characters as for other types. With punct() the decimal point and, in fixed form, the separators and groups of the numpunct_c<10> facet are used; separators that the charset cannot encode are left out.", "quantifier": "every finite float and double, every format without precision, every alignment, fill character, charset, numpunct facet and lettercase", "why_tests_cant": "The product of numbers, formats, groupings and charsets is unbounded in practice.", "anchors": ["include/strf/detail/printable_types/float.hpp: init_double_data_without_precision_general, init_double_data_without_precision_scientific, init_double_data_without_precision_fixed, print_amplified_integer_*, punct_double_printer"]}
{"id": "C58", "title": "Floating-point notations with precision", "statement": "With precision p the decimal number is rounded to the nearest, ties to even: in the fixed and scientific notation to p digits after the point, adding zeros if there are fewer; in the general notation to max(p,1) significant digits, in scientific form if the exponent (after rounding) is less than -4 or not less than max(p,1), without trailing zeros after the point unless '*' is used. Sign, pad0, alignment and punctuation are as without precision.", "quantifier": "every finite float and double, every precision up to 2^29, and as in C57", "why_tests_cant": "Carries on rounding change the number of digits, of groups and the notation; they happen for few inputs.", "anchors": ["include/strf/detail/printable_types/float.hpp: init_double_data_with_precision_general, init_double_data_with_precision_general_1digit, init_double_data_with_precision_scientific, init_double_data_with_precision_fixed"]}
{"id": "C59", "title": "Floating-point numbers in hexadecimal notation", "statement": "hex(x) prints 0x, the leading bit, the point if needed, the hexadecimal digits of the mantissa without trailing zeros, 'p', the sign and the decimal digits of the binary exponent, and these denote exactly the number (subnormal numbers with a leading 0 and the exponent of the least normal number; zero with exponent 0). With precision p the mantissa is rounded to p digits, ties to even, or extended with zeros.", "quantifier": "every finite float and double, every format with hexadecimal notation", "why_tests_cant": "All mantissas; rounding carries through all the digits only for a few of them.", "anchors": ["include/strf/detail/printable_types/float.hpp: init_hex_double_printer_data, mantissa_hex_digcount, exponent_hex_digcount, print_hexadecimal_"]}
{"id": "C60", "title": "Infinity and NaN", "statement": "Infinity is printed as inf and NaN as nan (INF, NAN with uppercase; Inf, NaN with mixedcase), with the sign if the sign bit is set or the format asks for it; no zeros are added: pad0(n) acts as a minimum alignment width.", "quantifier": "every infinity and NaN of both types, every format", "why_tests_cant": "There are 2^53 NaNs and unboundedly many formats.", "anchors": ["include/strf/detail/printable_types/float.hpp: print_nan, print_inf, print_inf_or_nan_, init_float_printer_data"]}
{"id": "C61", "title": "Premeasured width and size of floating-point numbers", "statement": "The width and the size that the printer of a floating-point number reports in advance are the number of columns and of code units of the text it prints; and it writes only inside the buffers the destination grants.", "quantifier": "every float and double, every format, charset and destination", "why_tests_cant": "The counts are computed separately from the printing, in a dozen branches.", "anchors": ["include/strf/detail/printable_types/float.hpp: punct_double_printer, init_double_printer_data_fill, fast_double_printer::size"]}
{"id": "C62", "title": "The fields of a floating-point number", "statement": "Sign, exponent and mantissa are extracted from the bits as IEEE 754 binary32 and binary64 lay them out; a maximal exponent means infinity or NaN, a zero exponent and mantissa mean zero, everything else is converted to decimal.", "quantifier": "every bit pattern of both types", "why_tests_cant": "2^64 bit patterns.", "anchors": ["include/strf/detail/printable_types/float.hpp: decode, init_float_printer_data"]}
{"id": "C63", "title": "The shortest decimal number that stands for a float or double", "statement": "The decimal number with which a positive finite float or double is printed when no precision is given is read back as that same number (rounding to nearest, ties to even); no decimal number with fewer digits is; and among those with as few digits none is nearer to it. No trailing zeros are left in it. At most one finite number corresponds to any decimal number, and every finite number is read as itself.", "quantifier": "every positive finite float (2^31) and double (2^63), normal and subnormal, powers of two included", "why_tests_cant": "The 2^63 doubles cannot be enumerated; the algorithm relies on truncated 64 and 128-bit products being right for every mantissa.", "anchors": ["include/strf/detail/dragonbox.hpp: to_decimal, compute_nearest_normal, compute_nearest_shorter, remove_trailing_zeros, compute_mul, compute_delta, compute_mul_parity, cache_holder"]}
{"id": "C64", "title": "Printed floating-point numbers are read back unchanged", "statement": "The text printed for a finite float or double without precision (unformatted, or fixed, scientific, general, with any sign option other than the fill character, zeros and '*'), read as a decimal numeral, gives the sign and a rational number that rounds to the number printed. Two different finite numbers never give the same text.", "quantifier": "every finite float and double, every such format, every lettercase and destination", "why_tests_cant": "The property relates all pairs of numbers.", "anchors": ["include/strf/detail/dragonbox.hpp: to_decimal", "include/strf/detail/printable_types/float.hpp: fast_double_printer, punct_double_printer, init_double_data_without_precision_*"]}
{"id": "C65", "title": "No undefined behaviour in the conversion to decimal", "statement": "In the conversion of a finite float or double the arithmetic of int does not overflow, the tables of powers of ten and of divisibility by five are read inside their bounds, and integers are never shifted by a negative amount or by as much as their size.", "quantifier": "every binary exponent of both types, with and without the special case of powers of two", "why_tests_cant": "Undefined behaviour can go unnoticed, and the extremes of the exponents are rarely tested.", "anchors": ["include/strf/detail/dragonbox.hpp: log::compute, floor_log10_pow2, floor_log2_pow10, floor_log10_pow2_minus_log10_4_over_3, get_cache, check_divisibility, is_product_integer"]}
{"id": "C66", "title": "A chain of format functions on an integer sets each option to the value given last", "statement": "For any integer x and any sequence of format functions applied to it (hex, dec, oct, bin, base, p, pad0, +, ~, *, !/punct, set_int_format, fill, <, >, ^, set_alignment_format, clear_alignment_format) that compiles, what is printed, its width and its premeasured size are those of the options obtained by giving each option the value that was set last (or its default): the order of functions that set different options does not matter, and no function resets an option it does not set. `+`/`~` compile exactly on decimal integers and `*` exactly on non-decimal ones (bases fixed at compile time).", "quantifier": "all finite sequences of format functions with all arguments, all integers of all integer types, all facets, charsets and destinations", "why_tests_cant": "The sequences of calls are unbounded and each goes through a different path among four specifier classes and six printers; tests try a handful of chains.", "anchors": ["include/strf/detail/printable_types/int.hpp: default_int_format_specifier_fn, int_format_specifier_no_pad0_nor_punct_fn, int_format_specifier_static_base_and_punct_fn, int_format_specifier_full_dynamic_fn, int_printing", "include/strf/detail/format_functions.hpp: alignment_format_specifier_fn"]}
{"id": "C67", "title": "Pointers print as 0x and the hexadecimal address, aligned as asked", "statement": "Printing a `const void*`, with any sequence of alignment functions applied to it, writes `0x` (`0X` when the letter-case facet is upper) followed by the hexadecimal digits of the address without leading zeros, surrounded by the fill characters that the last-set width and alignment require; width and size are announced accordingly.", "quantifier": "all 64-bit addresses, all sequences of alignment functions, all letter cases, fill characters, charsets and destinations", "why_tests_cant": "2^64 addresses and unbounded sequences of alignment calls; tests print a few pointers.", "anchors": ["include/strf/detail/printable_types/int.hpp: voidptr_printing", "include/strf/detail/format_functions.hpp: alignment_format_specifier_fn"]}
{"id": "C68", "title": "A chain of format functions on a floating-point number sets each option to the value given last", "statement": "For any float or double x and any sequence of format functions applied to it (sci, fixed, gen, hex, float_notation, p, pad0, +, ~, *, !/punct, set_float_format, and the alignment functions), what is printed, its width and its premeasured size are those of the options obtained by giving each option the value that was set last (or its default). A number whose format is default prints the same whether or not the format functions were called.", "quantifier": "all finite sequences of format functions with all arguments, all bit patterns of float and double, all facets, charsets and destinations", "why_tests_cant": "The sequences of calls are unbounded and go through three specifier classes and two printers with different code; the values are 2^64.", "anchors": ["include/strf/detail/printable_types/float.hpp: default_float_format_specifier_fn, float_format_specifier_no_punct_fn, float_format_specifier_full_dynamic_fn, float_printing, fast_double_printer, punct_double_printer", "include/strf/detail/format_functions.hpp: alignment_format_specifier_fn"]}
{"id": "C69", "title": "A chain of format functions on a string sets each option to the value given last, and the string is printed accordingly", "statement": "For any string and any sequence of format functions applied to it (p, transcode, sani, unsafe_transcode with or without a charset, their aliases, and the alignment functions): what is kept of it is what fits the precision given last; it is read in the charset given last, or that of the facet for its character type; it is copied, transcoded or sanitised as the last of these functions says; and as many fill characters are added as are missing to the width given last. Size and width premeasured are those of that text.", "quantifier": "all finite sequences of format functions with all arguments, all strings, all pairs of character types, charset facets (static or dynamic), width calculators and destinations", "why_tests_cant": "Unbounded sequences and strings; 28 charsets, static or dynamic, on both sides; seven printer classes chosen by a template dispatch.", "anchors": ["include/strf/detail/printable_types/string.hpp: transcoding_format_specifier_fn, string_precision_format_specifier_fn, compare_charsets, string_printer_type, string_printing::make_printer", "include/strf/detail/format_functions.hpp: alignment_format_specifier_fn", "include/strf/detail/facets/charset.hpp: charset_id"]}
{"id": "C70", "title": "Characters and booleans with format functions", "statement": "A character with any sequence of the functions multi and alignment is printed as many times as the last multi says (not at all if that is negative, once if there is none), with as many fill characters as are missing to the width asked for last; a char32_t is encoded in the charset of the destination. A boolean is printed as true or false in the letter case of the facet, with the fill characters asked for. Size and width premeasured are those of that text.", "quantifier": "all finite sequences of format functions, all characters of all character types, counts, charsets, width calculators and destinations; both booleans", "why_tests_cant": "Unbounded sequences and counts, all characters of all types.", "anchors": ["include/strf/detail/printable_types/char.hpp: char_printing, printable_def<char32_t>, fmt_char_printer, fmt_conv_char32_printer", "include/strf/detail/printable_types/bool.hpp: printable_def<bool>", "include/strf/detail/format_functions.hpp: quantity_format_specifier_fn"]}
{"id": "C71", "title": "locale_numpunct on POSIX systems reflects the locale", "statement": "For every locale, locale_numpunct() has no undefined behaviour and returns a facet whose decimal point is the first character of lconv::decimal_point read in the codeset of the locale (UTF-8, ISO-8859-1, -3, -15; ASCII in any), U+FFFD if that cannot be read; which splits any number of digits as lconv::grouping says (each element a group size, CHAR_MAX ends the grouping, the end of the string repeats the last group) with the first character of lconv::thousands_sep between the groups (a no-break space in an unknown codeset), and does not group if there is no such character.", "quantifier": "all contents of the strings of struct lconv, all codeset names, all numbers of digits", "why_tests_cant": "A machine has a handful of locales installed; the strings can have any content.", "anchors": ["include/strf/locale.hpp: locale_numpunct, make_numpunct, get_decoder, decode_first_char", "include/strf/detail/facets/numpunct.hpp: digits_grouping(const char*)"]}
{"id": "C72", "title": "locale_numpunct on Windows reflects the locale", "statement": "For all strings that GetLocaleInfoEx may give: the decimal point and the thousands separator are the first characters of the UTF-16 strings LOCALE_SDECIMAL and LOCALE_STHOUSAND (U+FFFD if there is none), and digits are grouped as LOCALE_SGROUPING says (sizes of one or two digits separated by semicolons; a final zero repeats the last group), not at all if that string is malformed or the separator cannot be read.", "quantifier": "all wide strings", "why_tests_cant": "All strings over an alphabet of 65535 units; the tests see three locales.", "anchors": ["include/strf/locale.hpp: parse_win_grouping, decode_first_char_from_utf16, locale_numpunct"]}
{"id": "C73", "title": "A whole call prints the concatenation of what its arguments mean", "statement": "A call destination.with(facets...)…(facets..., args...) or .line(...), whose arguments are integers, floating-point numbers, strings, characters, booleans and pointers with any chains of format functions, nested to any depth in join, aligned join, range, separated_range, tr and strf::with(...)(...), prints exactly the text that is the concatenation, in order, of the texts of the arguments, each formatted with the facet that is in force for its type where it stands (the last one written that applies, the inner ones after the outer ones), followed by a newline for line(); the same text with to_string, with reserve, appended to a string, written to a FILE* or streambuf (a prefix, if it fails, and the result tells), or to a char array (truncated to its size, and the result tells); and this text is unique.", "quantifier": "all calls: all facet packs with all filters, all lists and trees of arguments, all values, all character types, all charsets, all destinations and failures of them", "why_tests_cant": "The combinations of facets, nested arguments, formats and destinations are infinite, and defects hide in the combinations.", "anchors": ["include/strf/printing_syntax.hpp", "include/strf/detail/separate_args_and_print.hpp", "include/strf/facets_pack.hpp: get_facet", "include/strf/detail/printable_types/: make_printer, printer constructors", "include/strf/detail/printable_def.hpp: print_printables"]}
{"id": "C74", "title": "A call uses one charset per character type", "statement": "In a call there is exactly one charset for each character type: the last one passed to it, or UTF if none is; it is used for arguments of every type, also those inside of strf::with(facets...)(...), because no facets pack that compiles there, constrained or not, can change it.", "quantifier": "all facet packs of the call and of the inner with, all filters, all argument types", "why_tests_cant": "It ranges over all nestings of facet packs and constraints.", "anchors": ["include/strf/facets_pack.hpp: is_constrainable, constrain, get_facet", "include/strf/detail/printable_types/facets_pack.hpp: static_assert", "include/strf/detail/facets/charset.hpp: charset_c::constrainable"]}
{"id": "C75", "title": "The transcoder between two charsets depends on the charsets only", "statement": "find_transcoder(src_charset, dst_charset) compiles for any two charsets of the library and returns the transcoder between these two charsets if there is one (both UTF; the same charset; UTF-32 and a single-byte charset), and none otherwise, no matter whether each of the charsets is static or dynamic and which character types of the right size they are over; the functions used when a string is printed in another charset are those of that transcoder, or else the conversion through UTF-32.", "quantifier": "all pairs of the 28 charsets, static or dynamic, all character types (including two- and four-byte wchar_t)", "why_tests_cant": "The lookup goes through four layers of overloads chosen by the character types and by static/dynamic; the product is large and a wrong branch silently selects the slow or a wrong conversion.", "anchors": ["include/strf/detail/facets/charset.hpp: find_transcoder, transcoder_finder, transcoder_finder_2, has_find_transcoder_to, dynamic_charset::find_transcoder_to/from", "include/strf/detail/utf.hpp: static_charset::find_transcoder_to/from", "include/strf/detail/single_byte_charsets.hpp: static_charset::find_transcoder_to/from"]}
{"id": "C76", "title": "strf::transcode between any two charsets converts, stops and reports as documented", "statement": "strf::transcode and strf::decode_encode, given any two charsets, flags and a source, write the characters of the source in the destination charset (U+FFFD for each ill-formed sequence, the replacement character for what the charset lacks), up to the first one at which the flags ask to stop or for which there is no room, never writing past the room; the stop reason is the right one; and the position reached is exactly that given by stale_src_ptr and u32dist. To a destination object the same text is written, in spite of buffer boundaries, unless the destination fails. What is written and the reason are uniquely determined by that.", "quantifier": "all pairs of the 28 charsets, all sources, well-formed or not, all flags, all sizes of the destination, all destination objects", "why_tests_cant": "Errors appear where a multi-unit character, the end of the room, the 16-character pivot buffer and a stop condition meet; those positions range over all lengths.", "anchors": ["include/strf/detail/facets/charset.hpp: transcode, decode_encode", "include/strf/detail/utf.hpp", "include/strf/detail/single_byte_charsets.hpp"]}
{"id": "C77", "title": "transcode_size and the unsafe functions agree with transcode for any two charsets", "statement": "For any two charsets, transcode_size and decode_encode_size with a limit give the size, position and reason of transcode with that room; without stop flags and below the limit this is the length of the text. unsafe_transcode, unsafe_decode_encode and their size functions do the same as the safe ones whenever the source has no ill-formed sequence.", "quantifier": "all pairs of charsets, sources, flags and limits; for the unsafe functions all well-formed sources", "why_tests_cant": "It relates two functions on all inputs and limits; a difference means a buffer overflow for a caller who reserves memory.", "anchors": ["include/strf/detail/facets/charset.hpp: transcode_size, decode_encode_size, unsafe_transcode, unsafe_transcode_size, unsafe_decode_encode, unsafe_decode_encode_size"]}
{"id": "C78", "title": "A whole call of tr or trline prints the tr-string with its directives replaced", "statement": "destination.with(facets...).tr(facets..., str, args...) prints the tr-string with each directive replaced by the text of the argument it refers to, formatted with the facets in force, or by the replacement character of the charset in force if there is no such argument, and trline adds the end of the line; the tr_error_notifier gets the positions of exactly the directives without argument; reserve_calc creates the destination with exactly the size of that text; on every kind of destination, with what C54 says of its result.", "quantifier": "all tr-strings, all lists of arguments (nested joins, ranges, inner facets, formats), all facets, all destinations and contents of memory", "why_tests_cant": "Texts, argument indices, facets and buffer boundaries combine without bound.", "anchors": ["include/strf/printing_syntax.hpp", "include/strf/detail/separate_args_and_print.hpp", "include/strf/detail/reserve_policies.hpp: the functions that call tr_string_write", "include/strf/detail/tr_printer.hpp"]}
{"id": "C79", "title": "strf::measure of a call gives the size and the width of what the call prints", "statement": "strf::measure<CharT>(pre, facets, args...) puts into pre exactly the number of code units that printing these arguments with these facets writes, and the sum of the widths of the arguments cut at the width limit, whatever the order in which the compiler evaluates the arguments.", "quantifier": "all lists of arguments with any formats and facets, all limits, all orders of evaluation", "why_tests_cant": "It is an equality between two different code paths (premeasuring constructors and printing) for all arguments; an underestimate writes past the end of a reserved buffer.", "anchors": ["include/strf/measure.hpp: measure", "include/strf/detail/premeasurements.hpp", "include/strf/detail/printing_helpers.hpp"]}
{"id": "C80", "title": "A call without facets and formats says its arguments, without exception", "statement": "For every list of integers, floating-point numbers, booleans, pointers, strings and characters of the destination's type and char32_t scalar values, given without format and facets, a call succeeds and prints one after the other: the decimal numeral of each integer, a decimal numeral that is read back as the same floating-point number (inf, nan with their sign), true or false, 0x and the hexadecimal digits of the address, the string and the character unchanged, the char32_t encoded in UTF; as a line if line() is used. Strings returned, appended to, files and char arrays receive that.", "quantifier": "all lists of such arguments of all types and values, the five character types, all destinations", "why_tests_cant": "2^64 values for each number, all lengths and all positions of buffer boundaries.", "anchors": ["include/strf/printing_syntax.hpp", "include/strf/detail/printable_types/int.hpp", "include/strf/detail/printable_types/float.hpp", "include/strf/detail/printable_types/string.hpp", "include/strf/detail/printable_types/char.hpp", "include/strf/detail/printable_types/bool.hpp", "include/strf/detail/printable_types/int.hpp: const void* "]}
{"id": "C81", "title": "Floating-point numbers in hexadecimal notation are read back exactly", "statement": "A finite float or double printed with hex() without precision, or with 13 digits or more, and without alignment, reads as a C hexadecimal floating constant whose sign and value are exactly those of the number; with less digits, its value is within half a unit of the last digit printed.", "quantifier": "all finite floats and doubles, all precisions, letter cases, signs, paddings with zeros and *", "why_tests_cant": "2^64 values times the formats; hexadecimal output is used because it is meant to be lossless.", "anchors": ["include/strf/detail/printable_types/float.hpp: init_hex_double_printer_data, print_hexadecimal"]}
{"id": "C82", "title": "A precision rounds to the nearest", "statement": "A finite float or double printed in fixed, scientific or general notation with a precision, without alignment, reads as the multiple of the last decimal place asked for that is nearest to the number, ties to even, as printf prints it (docs/ref_format_functions.adoc: \"same effect as the 'g' format flags in printf\").", "quantifier": "all finite floats and doubles, all precisions, signs, paddings with zeros and *", "why_tests_cant": "2^64 values times all precisions; errors appear only next to ties.", "anchors": ["include/strf/detail/printable_types/float.hpp", "docs/ref_format_functions.adoc"]}
{"id": "C83", "title": "Calls written differently print the same", "statement": "f(a..., b...) prints what f(a...) prints followed by what f(b...) prints, and so do the two calls on the same destination; .line adds the end of line. How the arguments are grouped with join, range and with, and where the facets are given, does not matter as long as each argument has the same facets in force. separated_range prints what each element prints alone, with the separator in between; tr replaces each reference with what the argument prints alone, and tr(\"{}{}...\", args...) prints what the arguments print without tr; an aligned join prints what the arguments print, surrounded by fill characters.", "quantifier": "all calls that mean something (C73), all destinations and all that was printed before", "why_tests_cant": "Each argument may go through a different code path depending on what surrounds it (premeasurements, buffers that get full); the law ranges over all pairs of programs.", "anchors": ["include/strf/printing_syntax.hpp", "include/strf/detail/printable_def.hpp: call_printers, print_printables", "include/strf/detail/printable_types/join.hpp", "include/strf/detail/printable_types/range.hpp", "include/strf/detail/printable_types/facets_pack.hpp", "include/strf/detail/printable_types/tr_string.hpp"]}
{"id": "C84", "title": "What replaces the standard library, string views and the iterator", "statement": "In freestanding mode, str_fill_n, copy_n, str_length, str_find and str_equal do what the functions of the standard library do: they store and read exactly the units they are told to, and nothing outside; copy_n is right for overlapping ranges if the destination begins first; str_equal reads nothing after the first difference. slow_countl_zero_ll counts the leading zeros. A null-terminated string is the units before its terminator; two views are equal if the strings are. Copying to an output_buffer_iterator writes what is copied, in order, to any destination, and failed() tells whether it is in a bad state.", "quantifier": "all memory contents, positions, counts and values; all destinations", "why_tests_cant": "Loops over arbitrary memory: off-by-one reads are invisible in tests; tests run with the standard library.", "anchors": ["include/strf/detail/standard_lib_functions.hpp: str_fill_n, str_length, str_find, str_equal, copy_n, slow_countl_zero_ll", "include/strf/detail/simple_string_view.hpp", "include/strf/iterator.hpp: output_buffer_iterator"]}
{"id": "C85", "title": "What the error notifier is told, for any two charsets", "statement": "Whatever the two charsets, the flags, the size of the source and the buffers of the destination, strf::transcode tells the transcoding_error_notifier of every ill-formed sequence that it converts (with its place and its size), of every character that the destination charset lacks, and of the problem at which the conversion ends, if any; of each exactly once, in the order of the source, and of nothing else.", "quantifier": "all pairs of charsets, static or dynamic; all flags; all sources; all destinations and amounts of room; safe and unsafe functions", "why_tests_cant": "How often the notifier is called depends on where the buffers (16 code points of pivot, any room in the destination) happen to end relative to the problem.", "anchors": ["include/strf/detail/facets/charset.hpp: transcode, decode_encode, unsafe_transcode", "include/strf/detail/utf.hpp: static_transcoder", "include/strf/detail/single_byte_charsets.hpp: single_byte_charset_to_utf32, utf32_to_single_byte_charset", "include/strf/detail/facets/charset.hpp: transcoding_error_notifier"]}
{"id": "C86", "title": "Punctuated numbers are read back", "statement": "A number printed in base 10 with .punct() — an integer, or a finite floating-point number in general, fixed or scientific notation — consists of digits, signs, an exponent letter, the decimal point and the separators of the numpunct facet in force; leaving out the separators and taking the decimal point for a point, one reads the number that was printed (a floating-point number: one that rounds to it; with a precision: the shortest decimal rounded to that precision). This holds for every facet whose separator and decimal point cannot be taken for each other or for a digit, sign or exponent letter, and each of the 306 predefined facets (numpunct_de_DE, numpunct_hi_IN …) is such a facet, with the groups its definition says.", "quantifier": "all numpunct facets with distinguishable punctuation, all predefined ones; all integer types and values; all finite values of float and double; all charsets that can encode the separator; all character types; all other options but the hexadecimal notation, a sign replaced by a fill character, and alignment", "why_tests_cant": "Tests try a few values with a few facets; a digit lost at the boundary of a group shows only for certain values, groups and encodings of the separator.", "anchors": ["include/strf/detail/facets/numpunct.hpp: numpunct, digits_grouping, numpunct_de_DE", "include/strf/detail/printable_types/int.hpp: int_printer_static_base_and_punct, int_printer_full_dynamic", "include/strf/detail/printable_types/float.hpp: punct_double_printer"]}
{"id": "C87", "title": "Chains of with and reserve functions on a printing syntax object", "statement": "In destination.STEPS(args...), where STEPS is any sequence of .with(facets...), .no_reserve(), .reserve(n) and .reserve_calc(), each of them applied to a temporary, to a variable or to a constant: the chain compiles if the destination can be created as asked for; the facets in force are all those given to with, in the order written, whatever the reserve functions between them; the reserve policy is the one written last, a negative n counting as 0; and the call prints the text of its arguments with these facets to a destination created with the size that this policy asks for. The same for .line, .tr and .trline.", "quantifier": "all sequences of steps, value categories, creators whose destinations keep the contract of destinations, facets, arguments, orders of evaluation", "why_tests_cant": "The types of the objects, and so the code that runs, differ for every sequence; tests try a handful.", "anchors": ["include/strf/printing_syntax.hpp: printing_syntax, detail::reserve_funcs, detail::fpe_funcs", "include/strf/detail/reserve_policies.hpp: no_reserve, reserve_given_space, reserve_calc", "include/strf/to_string.hpp: detail::basic_string_maker_creator, detail::basic_string_appender_creator"]}
{"id": "C88", "title": "Threads that print to different destinations do not disturb one another", "statement": "Any number of threads may print at the same time, each to a character array of its own: in any order of their steps, every thread ends with the array, the returned pointer and the truncated flag that it ends with alone; a call that fits is complete and terminated whatever the others do; and no memory is written by two threads.", "quantifier": "all numbers of threads, programs that use destinations (also depending on what they wrote before), arrays, interleavings of their steps, calls, contents of shared memory", "why_tests_cant": "The interleavings cannot be enumerated, and a race seldom shows.", "anchors": ["include/strf/destination.hpp: garbage_buff, basic_cstr_destination, array_destination, discarder"]}
{"id": "C89", "title": "Operators and functions between widths and integers", "statement": "In a + b, a - b, a * b, a / b and the six comparisons, where one operand is a width_t and the other a width_t or an integer of any type, on either side, the integer counts with its value: sums and differences that a width_t can hold are exact, products are truncated to 1/65536 and saturate, quotients are truncated, comparisons order the values. sat_add, sat_sub and sat_mul with an integer give the exact result clamped, and compare(w, i) and compare(i, w) a number with the sign of the difference.", "quantifier": "all widths, integer types and their values, both orders of the operands", "why_tests_cant": "The 2^32 widths and 2^64 integers; which overload a mixed expression selects depends on the type of the integer.", "anchors": ["include/strf/width_t.hpp: operator+, operator-, operator*, operator/, operator==, operator<, sat_add, sat_sub, sat_mul, compare"]}
{"id": "C90", "title": "Printable types of the user and overriders", "statement": "An argument of a type the user made printable is printed as its definition says, and a floating-point number, boolean, pointer or value of an overridable user type as the overrider in force for its type says (the last facet of the category written that applies to the type), wherever the argument stands: alone, in joins, ranges, tr-strings and strf::with; if there is none, or it is dont_override, as without it. All other arguments, and the selection of all other facets, are unaffected by overriders. What make_printer of the user class hands on, with whatever facets, is printed in its place, its size and width counted; a printer of its own prints what it prints. An overrider that hands on the value unchanged with the same facets does not compile.", "quantifier": "all user classes, facets, arguments, nestings, destinations and reserve policies, for calls whose arguments mean something (C73)", "why_tests_cant": "User classes are arbitrary and may call back into the library to any depth; the tests try two.", "anchors": ["include/strf/detail/printing_helpers.hpp: overrider_getter, printable_def_or_facet_getter_selector_2", "include/strf/detail/printable_def.hpp: make_printer, printable_overrider_c, dont_override", "include/strf/detail/printable_types/bool.hpp: is_overridable"]}
{"id": "C91", "title": "print in the place of make_printer", "statement": "A printable definition or an overrider may have print(dst, facets, x) in the place of make_printer, or besides. Where nothing is measured (no reserve policy that computes the size, no aligned join), an argument of the call, of a join or an element of a range is printed by print if there is one and by make_printer otherwise, an argument of the function tr by make_printer if there is one and by print otherwise: the destination receives exactly what that function says, in its place in the text, to any depth of user functions calling the library. Where the argument is measured, make_printer is what counts, and a class without it does not compile. Classes without print print as if print did not exist.", "quantifier": "all user classes with either or both functions, facets, arguments, nestings and destinations, for calls whose arguments say something", "why_tests_cant": "The choice is made by overload ranks at compile time for every position an argument can stand in; user functions are arbitrary and may call the library again. The tests try three types.", "anchors": ["include/strf/detail/printing_helpers.hpp: print_one_printable, helper_for_tr_printing_without_premeasurements", "include/strf/detail/printable_def.hpp: print_one_printable, call_printers", "include/strf/detail/printable_types/join.hpp: join_printer_without_premeasurements", "docs/howto_add_printable_types.adoc"]}
{"id": "C92", "title": "Ranges: which elements, and how often the function is called", "statement": "strf::range, fmt_range, separated_range and fmt_separated_range print exactly the elements from the first iterator up to the second (of a container, initializer list or array: all of them), in order, each as it would be printed alone (with fmt_range: with the format functions applied to each), with the separator, read up to its terminating zero, between each two. The function given to range is called on each element exactly once each time the range is gone through: once when it is printed (fewer only if the destination has gone bad), and once more when it is measured before. If the function returns something else the second time, what is printed is what it returns the second time. Two iterators of which the second is not reachable from the first are undefined behaviour. All of the functions accept the elements in each of the four ways.", "quantifier": "all sequences, pairs of iterators, separators, functions with or without state, destinations, premeasurements", "why_tests_cant": "The lengths, the positions of the iterators and the state a function may capture are unbounded; the tests print ranges of a few elements with pure functions.", "anchors": ["include/strf/detail/printable_types/range.hpp: range_printer, separated_range_printer, fmt_range_printer, fmt_separated_range_printer, transformed_range_printer, sep_transformed_range_printer, range, separated_range, fmt_range, fmt_separated_range"]}
{"id": "C93", "title": "A text that fits is not truncated", "statement": "strf::to(char_array) with an array of N elements, N >= 1, and (args...), .line(args...), .tr(str, args...) or .trline(str, args...): if the text has at most N - 1 units then it is all in the array, followed by the terminating zero, the result says that it is not truncated and points to the zero; if it has more the result says that it is truncated. strf::to_range(begin, end) the same with N units and without the zero. So no printer asks the destination for more room than the text it is about to write has.", "quantifier": "all arrays and ranges, all calls whose arguments have a text, all formats, facets, charsets and character types, also with printable types and overriders of the user's", "why_tests_cant": "Whether a text that fits exactly is truncated depends on every ensure-space request made by every printer, with every format, at every position in the buffer. The tests exercise a few exact fits.", "anchors": ["include/strf/destination.hpp: basic_cstr_destination, array_destination", "include/strf/detail/printable_types: all printers"]}
{"id": "C94", "title": "A string with enough room reserved is not resized", "statement": "strf::to_string.reserve(n)(args...) with n not less than the size of the text, and strf::to_string.reserve_calc()(args...) (also .line, .tr, .trline): until finish() the string keeps the size with which it was created (1 if the size is 0): no memory is allocated after its creation.", "quantifier": "all n, all calls whose arguments have a text, orders of evaluation", "why_tests_cant": "It depends on the exactness of every premeasurement and on every request for space; a string that grows has the same content, so that the tests of the content do not see it.", "anchors": ["include/strf/to_string.hpp: basic_sized_string_maker", "include/strf/detail/reserve_policies.hpp"]}
{"id": "C95", "title": "A text that fits the buffer is written with one call", "statement": "strf::to(FILE*) and strf::to(streambuf): if the text has no more units than the buffer of the destination (at least 64), then nothing is written to the file or stream while printing, and finish() passes the whole text to it with a single call: a short line is not interleaved with what others write.", "quantifier": "all files and streams (any sequence of accepted counts), all calls whose arguments have a text", "why_tests_cant": "It depends on every request for space of every printer; the content of the file is the same when the text is written in pieces.", "anchors": ["include/strf/to_cfile.hpp: cfile_writer_base", "include/strf/to_streambuf.hpp: basic_streambuf_writer"]}
{"id": "C96", "title": "Numeric punctuation facets answer what the groups of digits say", "statement": "numpunct<B>, no_grouping<B> and default_numpunct<B> answer alike: any_group_separation(n) is true exactly if a number of n digits has at least one separator, thousands_sep_count(n) is how many, distribute(n) gives the groups (from the most significant one), for the groups that grouping() stands for; thousands_sep() and decimal_point() are the characters given (the comma and the full stop if none). no_grouping and default_numpunct answer as a numpunct without groups, also when they are converted to one. Two objects are equal exactly if they were given the same groups and characters, and objects that are equal answer alike.", "quantifier": "all valid sequences of group sizes, with the last repeated or not, all numbers of digits, all characters", "why_tests_cant": "The numbers of digits are unbounded; the three classes are written separately and must agree for every number.", "anchors": ["include/strf/detail/facets/numpunct.hpp: numpunct, default_numpunct, no_grouping"]}
{"id": "C97", "title": "The flags of a conversion combine as sets", "statement": "A value of transcode_flags written with the names of the flags and | makes a conversion lax exactly if (lax_)surrogate_policy is among the names, stop at invalid sequences exactly if stop_on_invalid_sequence is, stop at unsupported codepoints exactly if stop_on_unsupported_codepoint is, whatever the order and the repetitions; & and &= keep the flags that both have, | and |= those that either has; the strict surrogate policy is in force exactly if the lax one is not.", "quantifier": "all expressions, all pairs of values of the type", "why_tests_cant": "Flags that overlap or a wrong mask would show up only in the combination of flags that meets it.", "anchors": ["include/strf/detail/facets/charset.hpp: transcode_flags, operator|, operator&, with_lax_surrogate_policy, with_stop_on_invalid_sequence, with_stop_on_unsupported_codepoint"]}
{"id": "C98", "title": "What the transcoding error notifier is told during a call", "statement": "While a call of a destination carries out, the transcoding error notifier in force, which is the one given last among its facets, is told, of each string that is transcoded (formatted with transcode, sani or, if well formed, unsafe_transcode in such a way that it must be), of its ill-formed sequences (where they begin and their size) and of its characters that the charset of the destination lacks; strings that the precision truncates only of what is kept of them; of each once or twice, in the order of the arguments, also when the string is in a join, an aligned join, a range or nested facets; of an argument of tr, at each reference to it; and of nothing else: numbers, characters, strings that are copied, and the calculation of the size (reserve_calc) tell nothing. A notifier that is not in force is told nothing.", "quantifier": "all calls (also of tr and trline), all strings, facets, charsets, destinations, initial states, orders of evaluation of the arguments", "why_tests_cant": "A notifier that is handed to the wrong place, e.g. during the calculation of the size as well, tells the same problem again only in some combination of destination, layout and string.", "anchors": ["include/strf/detail/printable_types/string.hpp: printer classes that hold err_notifier_", "include/strf/detail/facets/charset.hpp: transcoding_error_notifier, transcode", "include/strf/detail/printing_syntax.hpp: operator()"]}
{"id": "C99", "title": "What the error notifier of tr-strings is told during a call", "statement": "While a call of a destination carries out, the notifier of errors in tr-strings in force, which is the one given last among the facets that apply to strf::tr (the facets may be constrained, or given by strf::with around arguments), is told of each reference to a missing argument in each tr-string exactly once, with the tr-string and the position in it: also when strf::tr is an argument within a join, an aligned join, a range, nested facets or another strf::tr, in that last case once at each reference of the outer tr-string to it; of the tr-string of .tr(...) and .trline(...) likewise. It is told of nothing else, and a notifier that is not in force is not told; the calculation of the size (reserve_calc) tells nothing.", "quantifier": "all calls, all tr-strings and arguments, facets, charsets, destinations, initial states, orders of evaluation of the arguments", "why_tests_cant": "A notifier told twice, e.g. because the size is calculated by a pass that looks at the tr-string as well, or one chosen without regard to its constraints, shows only in some combination of nested arguments, facets and kind of destination.", "anchors": ["include/strf/detail/printable_types/tr_string.hpp: printable_traits of tr_string", "include/strf/detail/tr_printer.hpp: tr_error_notifier_c, tr_string_write", "include/strf/detail/reserve_policies.hpp: the functions that call tr_string_write"]}
{"id": "C100", "title": "A string can be appended to itself", "statement": "strf::append(str)(args...), where str itself or parts of it (views) are among the arguments, any number of times, appends the texts of the arguments, in which str is what it was when the call began, without reading memory that std::string has given back; also with reserve and reserve_calc. strf::assign(str)(args...) likewise.", "quantifier": "every content and capacity of str, every list of arguments in which str appears anywhere, any reserved size", "why_tests_cant": "Whether std::string allocates in the middle of the call depends on its capacity and on how the texts of the other arguments fill the buffer of the appender; small strings work, and memory that was given back often still has the characters.", "anchors": ["include/strf/to_string.hpp: basic_string_appender, basic_string_appender_creator, assign", "include/strf/detail/printable_types/string.hpp: forwarded_type, strcpy_printer", "include/strf/destination.hpp: write"]}
