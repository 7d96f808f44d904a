{"id": "C01", "title": "from_chars<double> is correctly rounded", "statement": "Whenever from_chars/from_chars_advanced accepts a decimal numeral and stores a double, the stored bits are the IEEE-754 binary64 round-to-nearest, ties-to-even image of the exact rational value that the numeral denotes (infinity when that value is at least 2^1024 - 2^970 in magnitude).", "quantifier": "every character sequence, every parse option (decimal point different from digits, signs and exponent letters), every build configuration; any number of digits below 2^28-400, and any number at all when the explicit exponent is below 2^28 in magnitude (C42 shows that the bound is needed)", "why_tests_cant": "the set of accepted strings is infinite, and wrong roundings (if any) sit on astronomically rare inputs that sampling does not hit", "anchors": ["include/fast_float/parse_number.h:from_chars_float_advanced", "include/fast_float/decimal_to_binary.h:compute_float", "include/fast_float/digit_comparison.h:digit_comp", "include/fast_float/parse_number.h:clinger_fast_path_impl"]}
{"id": "C02", "title": "from_chars<float> is correctly rounded", "statement": "Same as C01 for float / IEEE-754 binary32.", "quantifier": "as in C01", "why_tests_cant": "the set of accepted strings is infinite, and wrong roundings (if any) sit on astronomically rare inputs that sampling does not hit", "anchors": ["include/fast_float/parse_number.h:from_chars_float_advanced", "include/fast_float/decimal_to_binary.h:compute_float", "include/fast_float/digit_comparison.h:digit_comp"]}
{"id": "C03", "title": "from_chars<bfloat16_t> is correctly rounded", "statement": "Same as C01 for std::bfloat16_t.", "quantifier": "as in C01", "why_tests_cant": "the set of accepted strings is infinite, and wrong roundings (if any) sit on astronomically rare inputs that sampling does not hit", "anchors": ["include/fast_float/float_common.h:binary_format<std::bfloat16_t>", "include/fast_float/decimal_to_binary.h:compute_float"]}
{"id": "C04", "title": "from_chars<float16_t> is correctly rounded", "statement": "Same as C01 for std::float16_t (binary16).", "quantifier": "as in C01", "why_tests_cant": "the set of accepted strings is infinite, and wrong roundings (if any) sit on astronomically rare inputs that sampling does not hit", "anchors": ["include/fast_float/float_common.h:binary_format<std::float16_t>", "include/fast_float/decimal_to_binary.h:compute_float"]}
{"id": "C05", "title": "Overflow is reported and yields infinity", "statement": "For an accepted decimal numeral the call returns result_out_of_range with value = +/-infinity exactly when the exact magnitude is at least the IEEE overflow threshold (largest finite + half ulp); otherwise the stored value is finite.", "quantifier": "every character sequence denoting a number (of moderate length, see C01), each supported float type", "why_tests_cant": "the threshold is one point in a dense infinite set; tests only sample around it", "anchors": ["include/fast_float/parse_number.h:from_chars_float_advanced", "include/fast_float/parse_number.h:clinger_fast_path_impl"]}
{"id": "C06", "title": "Underflow is reported and yields a signed zero", "statement": "For an accepted decimal numeral, result_out_of_range with value = +/-0 is returned exactly when the exact value is nonzero and its magnitude is at most half of the smallest positive subnormal; a numeral that denotes zero yields a zero with no error; in every other non-overflow case ec is success.", "quantifier": "every character sequence denoting a number (of moderate length, see C01), each supported float type", "why_tests_cant": "same as C05, at the other end of the range", "anchors": ["include/fast_float/parse_number.h:from_chars_float_advanced", "include/fast_float/decimal_to_binary.h:compute_float"]}
{"id": "C07", "title": "Every digit counts", "statement": "However many digits precede a nonzero digit, that digit still takes part in the rounding: the result for numerals with more than 19 significant digits (where the library first truncates) and more than max_digits digits equals the rounding of the full exact value.", "quantifier": "numerals of any length below 2^28-400 digits, and of any length at all when the explicit exponent is below 2^28", "why_tests_cant": "long inputs cannot be enumerated; the interesting ones are exact midpoints followed by arbitrarily late nonzero digits", "anchors": ["include/fast_float/ascii_number.h:parse_number_string", "include/fast_float/digit_comparison.h:parse_mantissa", "include/fast_float/parse_number.h:from_chars_advanced"]}
{"id": "C08", "title": "Sign handling", "statement": "Prefixing an accepted unsigned numeral with '-' yields the same ec, a ptr one further, and the same bits with only the sign bit set (so '-0' gives -0.0).", "quantifier": "every accepted numeral, every float type", "why_tests_cant": "ranges over all strings", "anchors": ["include/fast_float/ascii_number.h:parse_number_string", "include/fast_float/float_common.h:to_float"]}
{"id": "C09", "title": "Spelling independence", "statement": "Two accepted numerals that denote the same rational number (leading zeros, trailing zeros, position of the point, exponent shift, exponent spelled differently) with the same sign yield the same bits and the same ec.", "quantifier": "all pairs of accepted strings", "why_tests_cant": "pairs of unbounded strings; different spellings go through different algorithms", "anchors": ["include/fast_float/parse_number.h:from_chars_float_advanced", "include/fast_float/digit_comparison.h:digit_comp"]}
{"id": "C10", "title": "Monotonicity", "statement": "If two accepted numerals denote x <= y then the stored values satisfy value(x) <= value(y) (with infinities at the ends).", "quantifier": "all pairs of accepted strings", "why_tests_cant": "pairs of arbitrary strings", "anchors": ["include/fast_float/parse_number.h:from_chars_float_advanced"]}
{"id": "C11", "title": "Round trip", "statement": "Any accepted numeral whose exact value lies strictly within half an ulp of a finite float v (in particular the exact decimal expansion of v, or 17 significant digits for double / 9 for float) parses to v.", "quantifier": "all finite floats and all numerals close to them", "why_tests_cant": "2^64 floats times infinitely many spellings", "anchors": ["include/fast_float/parse_number.h:from_chars_float_advanced"]}
{"id": "C12", "title": "Accepted text is exactly the longest numeral", "statement": "On success with a number, [first,ptr) (after optional skipped white space) is a numeral of the selected grammar, and no longer prefix of the input is one.", "quantifier": "every character sequence, every non-JSON chars_format value", "why_tests_cant": "all strings", "anchors": ["include/fast_float/ascii_number.h:parse_number_string"]}
{"id": "C13", "title": "Acceptance is complete", "statement": "For a non-JSON format (other than Fortran exponents with neither fixed nor scientific, a combination without a name) a number is accepted if and only if some prefix of the input (after optional white space) is a numeral of the selected grammar; otherwise the call reports invalid_argument or parses inf/nan.", "quantifier": "every character sequence and chars_format value", "why_tests_cant": "all strings", "anchors": ["include/fast_float/ascii_number.h:parse_number_string", "include/fast_float/parse_number.h:from_chars_float_advanced"]}
{"id": "C14", "title": "Failed float parse leaves everything in place", "statement": "When from_chars/from_chars_advanced for a float type returns invalid_argument, ptr equals first (after skipped white space when that is enabled) and value is not written.", "quantifier": "every character sequence and option", "why_tests_cant": "all strings", "anchors": ["include/fast_float/parse_number.h:from_chars_float_advanced", "include/fast_float/parse_number.h:parse_infnan"]}
{"id": "C15", "title": "fixed / scientific control", "statement": "With scientific but not fixed, a number is accepted only with an exponent; with fixed but not scientific (and no Fortran bit) an exponent is never consumed; with both it is consumed exactly when well formed.", "quantifier": "every character sequence and chars_format value", "why_tests_cant": "all strings and all 2^64 format words", "anchors": ["include/fast_float/ascii_number.h:parse_number_string"]}
{"id": "C16", "title": "JSON grammar", "statement": "With a JSON format the number is accepted iff the maximal digit run before the point is nonempty, has no superfluous leading zero, and a point (if present) is followed by a digit; the accepted text is always an RFC 8259 number (with the configured point).", "quantifier": "every character sequence, every format with the JSON bit", "why_tests_cant": "all strings", "anchors": ["include/fast_float/ascii_number.h:parse_number_string"]}
{"id": "C17", "title": "Fortran exponents", "statement": "With the fortran format an exponent may be introduced by e, E, d, D or directly by a sign, and the value is scaled accordingly; without the fortran bit d, D and bare signs are never consumed.", "quantifier": "every character sequence", "why_tests_cant": "all strings", "anchors": ["include/fast_float/ascii_number.h:parse_number_string"]}
{"id": "C18", "title": "Leading plus", "statement": "A leading '+' is rejected unless allow_leading_plus is set (and never accepted for JSON numbers); when set on a non-JSON format, '+s' behaves as 's' with ptr one further.", "quantifier": "every character sequence and option", "why_tests_cant": "all strings", "anchors": ["include/fast_float/ascii_number.h:parse_number_string", "include/fast_float/ascii_number.h:parse_int_string"]}
{"id": "C19", "title": "White space", "statement": "White space (space, \\t \\n \\v \\f \\r) is skipped iff skip_white_space is set; with it set, parsing s with leading blanks gives the result of parsing s with ptr shifted; no other character is skipped.", "quantifier": "every character sequence, every char type", "why_tests_cant": "all strings, all 2^32 code units", "anchors": ["include/fast_float/float_common.h:is_space", "include/fast_float/parse_number.h:from_chars_float_advanced", "include/fast_float/parse_number.h:from_chars_int_advanced"]}
{"id": "C20", "title": "inf and nan", "statement": "A string that starts with an optional '-' (or '+' if allowed) and nan / inf / infinity in any letter case is accepted (unless no_infnan): value is the (signed) NaN or infinity, ec is success and ptr is past the longest of inf/infinity, resp. past nan or nan(n-char-seq).", "quantifier": "every character sequence and option", "why_tests_cant": "all strings", "anchors": ["include/fast_float/parse_number.h:parse_infnan", "include/fast_float/float_common.h:fastfloat_strncasecmp3", "include/fast_float/float_common.h:fastfloat_strncasecmp5"]}
{"id": "C21", "title": "no_infnan", "statement": "With no_infnan (hence json) no inf/nan spelling is ever accepted: the result is a number or invalid_argument, and the stored value is never NaN.", "quantifier": "every character sequence", "why_tests_cant": "all strings", "anchors": ["include/fast_float/parse_number.h:from_chars_float_advanced"]}
{"id": "C22", "title": "Custom decimal point", "statement": "With a non-digit decimal point character c (not otherwise used by the numeral), parsing is exactly as with '.' after exchanging c and '.'.", "quantifier": "every character sequence, every point character", "why_tests_cant": "all strings", "anchors": ["include/fast_float/ascii_number.h:parse_number_string"]}
{"id": "C23", "title": "Delimited numbers", "statement": "What follows a delimiter does not matter: if the input is s followed by a character that cannot continue any numeral and by anything else, then ptr, ec and value are those obtained from s alone.", "quantifier": "every s, delimiter, and continuation", "why_tests_cant": "all strings", "anchors": ["include/fast_float/ascii_number.h:parse_number_string", "include/fast_float/ascii_number.h:loop_parse_if_eight_digits"]}
{"id": "C24", "title": "Float parsing has no undefined behaviour", "statement": "from_chars / from_chars_advanced for floats never reads outside [first,last), never indexes a lookup table out of range, never shifts by >= the word size, never calls clz on 0, never overflows a signed integer, and always terminates.", "quantifier": "every character sequence of code units (except 0x80000000..0x8000002F of a signed 4-byte wchar_t, for which the digit test itself overflows), every option (any decimal point, even a digit), every configuration", "why_tests_cant": "an out-of-bounds or undefined operation may depend on a single rare input; sanitizers only see executed inputs", "anchors": ["include/fast_float/ascii_number.h:parse_number_string", "include/fast_float/ascii_number.h:read8_to_u64", "include/fast_float/decimal_to_binary.h:compute_product_approximation", "include/fast_float/float_common.h:leading_zeroes"]}
{"id": "C25", "title": "Integer parsing has no undefined behaviour", "statement": "Same as C24 for the integer overloads (including the 4-byte loads of the uint8_t / uint16_t fast paths and the negation of the minimum value).", "quantifier": "every character sequence, integer type, base, option, configuration", "why_tests_cant": "see C24", "anchors": ["include/fast_float/ascii_number.h:parse_int_string"]}
{"id": "C26", "title": "The fixed-size big integer never overflows", "statement": "No big-integer operation of the slow path ever fails for lack of room (the asserted calls always succeed and no silently ignored try_push fails), with 32-bit and 64-bit limbs.", "quantifier": "every numeral that reaches the slow path", "why_tests_cant": "the worst-case size depends on rare digit patterns; a lost carry would be silent", "anchors": ["include/fast_float/bigint.h:stackvec", "include/fast_float/bigint.h:bigint", "include/fast_float/digit_comparison.h:negative_digit_comp"]}
{"id": "C27", "title": "Integer parsing is exact", "statement": "For an integer type, if the input (after optional sign) starts with at least one digit of the base and the value of the maximal digit run fits the type, then ec is success, the value is exactly that integer and ptr is right after the run.", "quantifier": "every character sequence, integer type up to 64 bits, base 2..36", "why_tests_cant": "all strings x all bases", "anchors": ["include/fast_float/ascii_number.h:parse_int_string"]}
{"id": "C28", "title": "Integer overflow is always detected", "statement": "If the value of the maximal digit run does not fit the integer type, the call returns result_out_of_range with ptr right after the whole run.", "quantifier": "every character sequence, integer type, base", "why_tests_cant": "the set of overflowing strings is infinite", "anchors": ["include/fast_float/ascii_number.h:parse_int_string", "include/fast_float/float_common.h:int_luts"]}
{"id": "C29", "title": "Where integer overflow is always detected", "statement": "C28 holds for integer types of at most 32 bits in every base, for all types in bases 2, 4 and 16, and for signed 64-bit types also in bases 3, 9, 10, 19, 23, 29 and 30; for every other base there is an out-of-range value that a 64-bit type accepts.", "quantifier": "every character sequence, base 2..36", "why_tests_cant": "infinite set of overflowing strings; the check relies on a wrapped 64-bit accumulator", "anchors": ["include/fast_float/ascii_number.h:parse_int_string", "include/fast_float/float_common.h:min_safe_u64"]}
{"id": "C30", "title": "Integer rejection", "statement": "If there is no digit of the base after the optional sign, or the type is unsigned and the sign is '-', or the base is not in 2..36, or the input is empty, the result is invalid_argument with ptr = first (after skipped white space).", "quantifier": "every character sequence, type, base (any int)", "why_tests_cant": "all strings", "anchors": ["include/fast_float/parse_number.h:from_chars_int_advanced", "include/fast_float/ascii_number.h:parse_int_string"]}
{"id": "C31", "title": "Failed integer parse does not write", "statement": "On any error (invalid_argument or result_out_of_range) the integer overloads leave value untouched.", "quantifier": "every character sequence, type, base", "why_tests_cant": "all strings", "anchors": ["include/fast_float/ascii_number.h:parse_int_string"]}
{"id": "C32", "title": "integer_times_pow10 (unsigned) is correctly rounded", "statement": "integer_times_pow10<T>(m, e) is the round-to-nearest-even T of m*10^e, infinity on overflow and 0 on underflow.", "quantifier": "all 2^64 mantissas and all 2^32 exponents", "why_tests_cant": "2^96 inputs", "anchors": ["include/fast_float/parse_number.h:integer_times_pow10", "include/fast_float/decimal_to_binary.h:compute_float"]}
{"id": "C33", "title": "integer_times_pow10 (signed) is odd and defined", "statement": "For every int64_t m, integer_times_pow10<T>(m,e) is defined and equals the correctly rounded m*10^e with the sign of m.", "quantifier": "all int64_t mantissas and int exponents", "why_tests_cant": "2^96 inputs, one special point", "anchors": ["include/fast_float/parse_number.h:integer_times_pow10"]}
{"id": "C34", "title": "integer_times_pow10 agrees with from_chars", "statement": "integer_times_pow10<T>(W,Q) has the same bits as the value from_chars stores for the string 'WeQ'.", "quantifier": "all W, Q", "why_tests_cant": "2^96 inputs, two different algorithms", "anchors": ["include/fast_float/parse_number.h:integer_times_pow10", "include/fast_float/parse_number.h:from_chars_float_advanced"]}
{"id": "C35", "title": "Build independence", "statement": "The result (ptr, ec, bits) does not depend on limb width, availability of 128-bit multiplication, endianness, SIMD flavour, the clang-only 4-digit step, or whether evaluation happens at compile time.", "quantifier": "every input x every build configuration", "why_tests_cant": "configurations cannot all be tested, and constant evaluation takes different code", "anchors": ["include/fast_float/float_common.h:full_multiplication", "include/fast_float/float_common.h:leading_zeroes", "include/fast_float/ascii_number.h:read8_to_u64", "include/fast_float/bigint.h:limb", "include/fast_float/ascii_number.h:simd_parse_if_eight_digits_unrolled"]}
{"id": "C36", "title": "Character-type independence", "statement": "The same code units presented as char, char8_t, wchar_t, char16_t or char32_t give the same ptr offset, ec and value.", "quantifier": "every sequence of code units that both character types can hold (non-negative for wchar_t)", "why_tests_cant": "all strings x 5 types", "anchors": ["include/fast_float/ascii_number.h:loop_parse_if_eight_digits", "include/fast_float/float_common.h:fastfloat_strncasecmp3", "include/fast_float/digit_comparison.h:skip_zeros"]}
{"id": "C37", "title": "Rounding-mode independence", "statement": "The stored value does not depend on the thread's floating-point rounding mode.", "quantifier": "every input x the four IEEE rounding modes", "why_tests_cant": "few tests change the mode, and none for all inputs", "anchors": ["include/fast_float/parse_number.h:rounds_to_nearest", "include/fast_float/parse_number.h:clinger_fast_path_impl"]}
{"id": "C38", "title": "Feature macros equal flags", "statement": "Building with FASTFLOAT_ALLOWS_LEADING_PLUS / FASTFLOAT_SKIP_WHITE_SPACE behaves exactly as passing the corresponding chars_format flag in every call.", "quantifier": "every input and option", "why_tests_cant": "all strings", "anchors": ["include/fast_float/float_common.h:adjust_for_feature_macros"]}
{"id": "C39", "title": "Fixed-width aliases", "statement": "from_chars for std::float32_t / std::float64_t gives the result of float / double, and leaves value unmodified on invalid_argument.", "quantifier": "every input", "why_tests_cant": "all strings", "anchors": ["include/fast_float/parse_number.h:from_chars_caller"]}
{"id": "C40", "title": "Integer fast paths are transparent", "statement": "For uint8_t and uint16_t in base 10 the specialised code returns the same ptr, ec and value as the generic digit loop would.", "quantifier": "every byte sequence", "why_tests_cant": "all byte strings (2^32 for four bytes alone)", "anchors": ["include/fast_float/ascii_number.h:parse_int_string"]}
{"id": "C41", "title": "SWAR digit blocks are exact", "statement": "The eight- and four-digit block tests accept exactly blocks made of ASCII digits, and the block conversion returns their decimal value.", "quantifier": "all 2^64 / 2^32 block values", "why_tests_cant": "2^64 words", "anchors": ["include/fast_float/ascii_number.h:is_made_of_eight_digits_fast", "include/fast_float/ascii_number.h:parse_eight_digits_unrolled", "include/fast_float/ascii_number.h:is_made_of_four_digits_fast", "include/fast_float/ascii_number.h:parse_four_digits_unrolled"]}
{"id": "C42", "title": "Exponent literals of any size", "statement": "However long the explicit exponent is, the result is the correctly rounded value (infinity or zero for huge exponents), as long as the digit string is shorter than 2^28-400 characters; leading zeros in the exponent are harmless.", "quantifier": "exponent literals of unbounded length", "why_tests_cant": "unbounded strings", "anchors": ["include/fast_float/ascii_number.h:parse_number_string"]}
{"id": "C43", "title": "Integer round trip", "statement": "Printing any value of an integer type in any base 2..36 (either letter case) and parsing it back yields that value, success, and ptr at the end.", "quantifier": "every type, value, base", "why_tests_cant": "2^64 values x 35 bases", "anchors": ["include/fast_float/ascii_number.h:parse_int_string"]}
{"id": "C44", "title": "No accepted-number call ever stores NaN", "statement": "If the text accepted is a decimal numeral, the stored value is never NaN, and its sign bit is set iff the text starts with '-'.", "quantifier": "every character sequence", "why_tests_cant": "all strings", "anchors": ["include/fast_float/float_common.h:to_float", "include/fast_float/decimal_to_binary.h:compute_float"]}
{"id": "C45", "title": "The public pns overload agrees", "statement": "from_chars_advanced(parsed_number_string, value) applied to the span-carrying parse of a string gives the same result as parsing the string directly.", "quantifier": "every accepted string", "why_tests_cant": "all strings; the string overload uses a different (span-free) parse", "anchors": ["include/fast_float/parse_number.h:from_chars_advanced", "include/fast_float/parse_number.h:parse_number_slow_path"]}
{"id": "C46", "title": "Integer parsing does not depend on the build or the character type", "statement": "For the integer overloads ptr, ec and value do not depend on endianness, SIMD flavour, compiler or constant evaluation, nor on which character type carries the code units; feature macros act as the corresponding flags.", "quantifier": "every character sequence, integer type, base, option, pair of configurations, pair of character types", "why_tests_cant": "configurations and character types cannot all be run on all strings", "anchors": ["include/fast_float/ascii_number.h:parse_int_string", "include/fast_float/parse_number.h:from_chars_int_advanced", "include/fast_float/float_common.h:adjust_for_feature_macros"]}
{"id": "C47", "title": "Integer spelling independence", "statement": "Leading zeros and letter case of digits do not matter: two literals of equal sign and value in the same base give the same ec and value, whatever follows them.", "quantifier": "all pairs of strings, every type, base, option", "why_tests_cant": "pairs of unbounded strings", "anchors": ["include/fast_float/ascii_number.h:parse_int_string"]}
{"id": "C48", "title": "Plus sign and white space in front of integers", "statement": "With allow_leading_plus a '+' before an unsigned literal is transparent, without it a leading '+' is rejected; with skip_white_space leading blanks only move ptr, without it a leading blank is rejected.", "quantifier": "every character sequence, type, base, option", "why_tests_cant": "all strings", "anchors": ["include/fast_float/parse_number.h:from_chars_int_advanced", "include/fast_float/ascii_number.h:parse_int_string"]}
{"id": "C49", "title": "Delimited integers", "statement": "What follows a character that is neither a digit of the base nor a sign has no influence on ptr, ec and value.", "quantifier": "every prefix, delimiter and continuation, type, base, option", "why_tests_cant": "all strings; block loads look ahead of the digits", "anchors": ["include/fast_float/ascii_number.h:parse_int_string", "include/fast_float/ascii_number.h:loop_parse_if_eight_digits"]}
{"id": "C50", "title": "Complete specification of floating-point parsing", "statement": "For double, float and bfloat16_t the triple (ptr, ec, value) of a call is the one and only triple that a model-free specification allows: maximal-munch numeral of the selected grammar with its correctly rounded value and range error exactly outside the representable range; else inf/infinity/nan/nan(...) unless disabled; else invalid_argument with ptr at the start of the text and value untouched.", "quantifier": "every character sequence of fewer than 2^28-400 units (or of any length with a moderate numeral), every chars_format word, every admissible decimal point, every configuration and character type", "why_tests_cant": "an if-and-only-if over all strings and all options", "anchors": ["include/fast_float/parse_number.h:from_chars_float_advanced", "include/fast_float/ascii_number.h:parse_number_string", "include/fast_float/parse_number.h:parse_infnan"]}
{"id": "C51", "title": "Complete specification of integer parsing", "statement": "The triple (ptr, ec, value) of an integer call is the one and only triple that a model-free specification allows: the literal's value if it fits, result_out_of_range after the whole literal if it does not, invalid_argument with ptr at the start if there is no literal.", "quantifier": "every character sequence, integer type up to 64 bits, base (any int), option, configuration, character type", "why_tests_cant": "an if-and-only-if over all strings and all options", "anchors": ["include/fast_float/parse_number.h:from_chars_int_advanced", "include/fast_float/ascii_number.h:parse_int_string"]}
{"id": "C52", "title": "Exact behaviour of float16_t", "statement": "For float16_t a call stores the correctly rounded value except on the nine magnitudes (2j+1)/2^25, j even, j <= 16 (exact ties between subnormals), where it stores the upper neighbour; it reports result_out_of_range exactly when IEEE overflow or underflow occurs, except that an overflow computed on the fast path (rounding to nearest at run time, mantissa <= 2^11, exponent 0..4) is reported as success; integer_times_pow10 has the same exception for j <= 30.", "quantifier": "every character sequence, format, decimal point, configuration; every integer and exponent", "why_tests_cant": "the exceptions are single points of a huge input space; only a proof shows that there are no others", "anchors": ["include/fast_float/parse_number.h:from_chars_advanced", "include/fast_float/float_common.h:binary_format<std::float16_t>", "include/fast_float/decimal_to_binary.h:compute_float"]}
{"id": "C53", "title": "Exact behaviour of integer parsing", "statement": "For every integer type of at most 64 bits and every base the triple (ptr, ec, value) is determined: as C51, except that a literal >= 2^64 with as many digits as 2^64-1 whose residue modulo 2^64 is at least the smallest number of that many digits is treated as that residue.", "quantifier": "every character sequence, integer type up to 64 bits, base (any int), option, configuration, character type", "why_tests_cant": "the exceptional literals are a vanishing fraction of all literals", "anchors": ["include/fast_float/parse_number.h:from_chars_int_advanced", "include/fast_float/ascii_number.h:parse_int_string", "include/fast_float/float_common.h:min_safe_u64", "include/fast_float/float_common.h:max_digits_u64"]}
{"id": "C54", "title": "128-bit integer types", "statement": "For __int128 and unsigned __int128 (integral types in GNU dialects) the call has no undefined behaviour and its result is determined: magnitudes below 2^64 without minus sign are exact, -0 is 0, every other negative literal is reported as out of range although it may fit, and magnitudes >= 2^64 are treated as for uint64_t.", "quantifier": "every character sequence, base, option, configuration, character type", "why_tests_cant": "an if-and-only-if over all strings and options", "anchors": ["include/fast_float/parse_number.h:from_chars_int_advanced", "include/fast_float/ascii_number.h:parse_int_string", "include/fast_float/float_common.h:is_supported_integer_type"]}
{"id": "C55", "title": "Complete specification for texts of any length", "statement": "For double, float, bfloat16_t and float16_t the triple (pointer, error code, value) is exactly the one given by the grammar and the rounding rule, with no bound on the length of the text: the exponent digits are read until the number read reaches 2^28 and later exponent digits are ignored; nothing else is ever lost. Exponents of at most nine digits, and all exponents below 2^28 in magnitude, are taken in full.", "quantifier": "every character sequence of any length, option, configuration, character type and floating-point type", "why_tests_cant": "an if-and-only-if over strings of unbounded length", "anchors": ["include/fast_float/parse_number.h:from_chars_advanced", "include/fast_float/ascii_number.h:parse_number_string"]}
{"id": "C56", "title": "Re-parsing the consumed characters", "statement": "Calling from_chars again on exactly the characters a successful (or out-of-range) call consumed gives the same value, the same error code and consumes all of them, for every floating-point and integer type.", "quantifier": "every character sequence, option, configuration, character type and value type", "why_tests_cant": "relates two calls for every possible string", "anchors": ["include/fast_float/parse_number.h:from_chars_advanced", "include/fast_float/parse_number.h:from_chars_int_advanced"]}
{"id": "C57", "title": "Error bound and exact small integers", "statement": "For every floating-point type (float16_t and its exceptional ties included) a number below the overflow threshold is stored with an error of at most max(2^-p * x, half the smallest subnormal), p the precision; the same holds for integer_times_pow10. An integer up to 2^p is stored exactly, however it is spelled.", "quantifier": "every character sequence, option, configuration, every uint64 significand and exponent", "why_tests_cant": "a bound on the error of every conversion", "anchors": ["include/fast_float/parse_number.h:from_chars", "include/fast_float/parse_number.h:integer_times_pow10"]}
{"id": "C58", "title": "Case-insensitive comparison helper", "statement": "fastfloat_strncasecmp with an expected string of lower-case letters answers exactly whether the first `length` characters are equal up to ASCII letter case - at compile time and at run time, for every character width, endianness and length, without reading beyond `length`. For other expected strings the compile-time and run-time versions differ exactly in bit 5.", "quantifier": "every pair of strings, length, character type, configuration", "why_tests_cant": "word-wise comparison with a partial last block must agree with the character-wise definition for all lengths", "anchors": ["include/fast_float/float_common.h:fastfloat_strncasecmp"]}
{"id": "C59", "title": "More permissive formats keep every accepted result", "statement": "If a call accepts, the same call with fixed, allow_leading_plus or skip_white_space added, or with JSON or no_infnan dropped, gives the same pointer, error code and value. For integers no format bit other than allow_leading_plus and skip_white_space matters.", "quantifier": "every character sequence and every pair of formats so related", "why_tests_cant": "relates two calls for every possible string", "anchors": ["include/fast_float/float_common.h:chars_format", "include/fast_float/ascii_number.h:parse_number_string", "include/fast_float/ascii_number.h:parse_int_string"]}
{"id": "C60", "title": "Integer and floating-point overloads agree", "statement": "If a base-10 integer call succeeds with value v and the next character does not continue a floating-point number, the floating-point overloads consume the same characters and store v correctly rounded (without error for double, float, bfloat16_t).", "quantifier": "every character sequence, integer type with a sound overflow check (or at most 19 characters), floating-point type, option, configuration", "why_tests_cant": "relates two different parsers for every possible string", "anchors": ["include/fast_float/parse_number.h:from_chars_int_advanced", "include/fast_float/parse_number.h:from_chars_advanced"]}
{"id": "C61", "title": "Rounding a caller-supplied significand and exponent", "statement": "A caller of from_chars_advanced(parsed_number_string&, value) who fills in mantissa (any 64-bit number), exponent (any), negative and lastmatch and leaves too_many_digits unset gets the correctly rounded +-mantissa*10^exponent, a range error exactly on IEEE overflow or underflow, and ptr = lastmatch, whatever the other members hold; with too_many_digits set, the first nineteen significant digits as mantissa and the digit runs in the spans, the whole digit string is correctly rounded. float16_t has the sixteen exceptional ties of C32.", "quantifier": "every mantissa, exponent, sign, digit runs of any length, configuration, character type", "why_tests_cant": "2^128 inputs; digit runs of unbounded length", "anchors": ["include/fast_float/parse_number.h:from_chars_advanced", "include/fast_float/digit_comparison.h:digit_comp"]}
{"id": "C62", "title": "Any code units", "statement": "The floating-point and integer overloads work on any sequence of code units of any character type, negative wchar_t values included: after the units skipped as blanks (with skip_white_space: the blanks, and the negative wide characters whose low byte is one, finding c) the call behaves as if the units were char32_t, so no unit outside ASCII is ever taken for a digit, sign, point or letter.", "quantifier": "every sequence of code units, type, format, configuration (floating-point: but the 48 values of a signed 4-byte wchar_t for which c - '0' overflows)", "why_tests_cant": "2^32 units per position, strings of any length", "anchors": ["include/fast_float/float_common.h:is_space", "include/fast_float/parse_number.h:from_chars_advanced", "include/fast_float/parse_number.h:from_chars_int_advanced", "include/fast_float/float_common.h:ch_to_digit"]}
{"id": "C63", "title": "The scanner and its diagnostics", "statement": "parse_number_string<basic_json_fmt> returns exactly one record for every text: valid with the maximal-munch numeral's sign, digit runs, end and (first nineteen) significant digits and exponent, or invalid with the parse_error that describes why no numeral starts here and lastmatch at the place of the problem (missing digits, missing integer or fractional part, leading zeros in JSON, missing exponent ...).", "quantifier": "every non-empty character sequence, format word, admissible decimal point, JSON mode, configuration, character type", "why_tests_cant": "the error code is decided by nested conditions; an if-and-only-if over all strings", "anchors": ["include/fast_float/ascii_number.h:parse_number_string", "include/fast_float/ascii_number.h:parse_error", "include/fast_float/ascii_number.h:report_parse_error"]}
{"id": "C64", "title": "Reading delimited lists", "statement": "The usual loop (call from_chars, stop at an error, go on behind the delimiter ptr points to) reads a list of fields joined by a delimiter that is part of no number completely: every field gives the value it gives when parsed alone; at an invalid or out-of-range field the loop stops right there; a printed list of integers in any base is read back.", "quantifier": "lists of any length, fields of any spelling, every delimiter, option, type, configuration", "why_tests_cant": "an induction over lists of unbounded length", "anchors": ["include/fast_float/parse_number.h:from_chars_advanced", "include/fast_float/parse_number.h:from_chars_int_advanced"]}
{"id": "C65", "title": "Which format bits matter", "statement": "The floating-point overloads depend on the format word only through scientific, fixed, no_infnan, the JSON and Fortran bits, allow_leading_plus and skip_white_space: two words that agree on these (hex and unnamed bits may differ) give the same result, so chars_format::hex is ignored and 0x1p3 is read as the number 0 followed by x1p3; the integer overloads depend only on allow_leading_plus, skip_white_space and the base.", "quantifier": "every character sequence, every pair of format words (any bits), decimal point, base, configuration, character type, float or integer type", "why_tests_cant": "2^64 format words x all strings", "anchors": ["include/fast_float/float_common.h:chars_format", "include/fast_float/ascii_number.h:parse_number_string", "include/fast_float/parse_number.h:from_chars_float_advanced", "include/fast_float/ascii_number.h:parse_int_string"]}
{"id": "C66", "title": "Exact decimal text round trip", "statement": "Every finite value of every floating-point type, of either sign (-0 included), written out exactly in decimal - as an integer with a negative power of ten, or as the complete decimal expansion with the configured decimal point and no exponent - is read back with the same bits, success, and ptr behind the last character, whatever follows that does not continue a number.", "quantifier": "every finite bit pattern of double, float, float16_t, bfloat16_t (2^64 of them), every option that admits the notation (JSON included), configuration, character type, following text", "why_tests_cant": "2^64 values, texts of up to 1076 characters", "anchors": ["include/fast_float/parse_number.h:from_chars_float_advanced", "include/fast_float/digit_comparison.h:digit_comp", "include/fast_float/ascii_number.h:parse_number_string"]}
{"id": "C67", "title": "digits10 and max_digits10", "statement": "A number with at most digits10 significant digits (15 double, 6 float, 3 float16_t, 2 bfloat16_t) in the normal range is the unique such number nearest to the value stored for it, so decimal -> binary -> decimal loses nothing and different short decimals give different values; conversely a positive finite value written with max_digits10 digits (17, 9, 5, 4) or more, correctly rounded, is read back.", "quantifier": "every numeral of that kind in every spelling, every pair of numerals, each float type, option, configuration, character type", "why_tests_cant": "all short decimals in the range of a double are about 10^18; pairs are more", "anchors": ["include/fast_float/parse_number.h:from_chars_float_advanced", "include/fast_float/decimal_to_binary.h:compute_float", "include/fast_float/digit_comparison.h:digit_comp"]}
{"id": "C68", "title": "Big-integer arithmetic is exact up to the full capacity", "statement": "For the fixed-capacity big integer (62 limbs of 64 bits or 125 limbs of 32 bits): every vector whose limbs are in range and whose top limb is nonzero represents exactly one number below 2^3968 (2^4000), each number has one representation only, and construction from a 64-bit word, multiplication by a limb, addition of a limb, multiplication by another big integer, left shift, multiplication by a power of five or of ten each return the representation of the exact mathematical result when it fits, and report failure (no silent truncation or wrap-around, no write past the buffer) exactly when it does not; compare() has the sign of the difference; bit_length() and hi64() return the exact number of bits, the 64 most significant bits and whether any one bit was dropped.", "quantifier": "all big integers up to the capacity, all limbs, all shift amounts and exponents, both limb sizes", "why_tests_cant": "carry chains at the last limb, products of two long operands, and shifts that end exactly on the capacity are a vanishing fraction of the operand space; the slow path never comes near the limit, so no parsing test exercises them.", "anchors": ["include/fast_float/bigint.h:small_mul", "include/fast_float/bigint.h:small_add_from", "include/fast_float/bigint.h:long_mul", "include/fast_float/bigint.h:bigint", "include/fast_float/bigint.h:stackvec"]}
{"id": "C69", "title": "Word helpers are exact on every word", "statement": "For every nonzero 64-bit word leading_zeroes() is the number of zero bits above the highest one bit; for every 32-bit word countr_zero_32() is the exponent of the largest power of two dividing it (32 for zero); for every pair of 64-bit words full_multiplication() returns the exact 128-bit product; byteswap() and byteswap_32() reverse the bytes; read8_to_u64() and read4_to_u32() put the i-th character into byte i of the word on either byte order. The portable and the intrinsic implementation give the same answers.", "quantifier": "all 64-bit words, all pairs of 64-bit words, all blocks of characters below 256, all build configurations (constant evaluation, native multiplication, byte order)", "why_tests_cant": "there are 2^64 words and 2^128 pairs; carries in the portable multiplication and single bits of the search masks can be wrong for a set of inputs no test hits, and the portable versions run only in constant evaluation or on rare compilers.", "anchors": ["include/fast_float/float_common.h:leading_zeroes", "include/fast_float/float_common.h:countr_zero_32", "include/fast_float/float_common.h:full_multiplication", "include/fast_float/float_common.h:umul128_generic", "include/fast_float/ascii_number.h:byteswap", "include/fast_float/ascii_number.h:read8_to_u64"]}
{"id": "C70", "title": "The big integer never leaves its buffer and never reads an unwritten limb", "statement": "Every operation of the big integer (construction from 64 bits, small_add, small_mul, long_mul, large_add_from, shl, pow2, pow5, pow10, normalize, nonzero, compare, hi64, bit_length), run on an array whose cells start out indeterminate, touches no cell outside the array, reads no cell that was not written before, fails no index assertion, and leaves a vector that can be used again even if it returns false after a partial update; it computes the exact result, or returns false exactly if the result does not fit. A whole from_chars call for a floating-point type built on these arrays, ignoring the results of the operations exactly where the program does, has no such fault on any input and returns what the value-level model returns.", "quantifier": "every usable vector (any limbs, any length up to capacity), every argument, both limb widths; for the whole call: every build, character type, floating-point type, option set and text", "why_tests_cant": "Reads of uninitialised stack memory usually return plausible values, so a test passes; the partial updates left by a failed operation and the overlapping copy in shl_limbs depend on lengths near the capacity that sample inputs never reach.", "anchors": ["include/fast_float/bigint.h:stackvec", "include/fast_float/bigint.h:small_add_from", "include/fast_float/bigint.h:long_mul", "include/fast_float/bigint.h:large_add_from", "include/fast_float/bigint.h:bigint", "include/fast_float/digit_comparison.h:parse_mantissa", "include/fast_float/digit_comparison.h:positive_digit_comp", "include/fast_float/digit_comparison.h:negative_digit_comp", "include/fast_float/digit_comparison.h:digit_comp"]}
{"id": "C71", "title": "The short overloads do exactly what their one argument says", "statement": "from_chars(first, last, value, fmt) for a floating-point type has, for every text and every format word, exactly the result that the complete specification gives for that format and the decimal point '.'; from_chars(first, last, value, base) for an integer type exactly the result the complete specification gives for that base in the general format; and the overloads for std::float32_t and std::float64_t have the result of float and double except that they always store a value, zero if the call fails.", "quantifier": "every build, character type, floating-point or integer type, format word, base and text (for float16_t: texts whose numeral is not astronomically long; for the others: fewer than 2^28-400 characters)", "why_tests_cant": "The short overloads only forward their arguments, so a dropped or swapped argument shows only on the combinations of format, base and text that a test happens to contain.", "anchors": ["include/fast_float/parse_number.h:from_chars", "include/fast_float/parse_number.h:from_chars_caller", "include/fast_float/parse_number.h:from_chars_advanced"]}
{"id": "C72", "title": "if (result) and the chars_format operators", "statement": "A from_chars result converts to true exactly when no error is reported: then characters were consumed and a value was stored; when it is false, either nothing was stored and the pointer is at the start of the text, or the number was out of range and a zero or an infinity was stored (nothing for integers). The operators ~ & | ^ and their assigning forms act bit by bit on 64-bit format words, so that fmt | flag, fmt & ~flag and fmt ^ flag set, clear and toggle exactly one flag of a call, and e.g. json & ~no_infnan is json_or_infnan.", "quantifier": "all texts, options and types for the conversion; all pairs of 64-bit format words and all flags for the operators", "why_tests_cant": "the operators range over 2^128 pairs of words and the conversion over all texts and options", "anchors": ["include/fast_float/float_common.h:from_chars_result_t::operator bool", "include/fast_float/float_common.h:operator~", "include/fast_float/float_common.h:operator&", "include/fast_float/float_common.h:operator|", "include/fast_float/float_common.h:operator^", "include/fast_float/float_common.h:chars_format"]}
{"id": "C73", "title": "Validating a whole string", "statement": "The idiom 'r = from_chars(first, last, v); r && r.ptr == last' is true and stores v exactly when the text, after white space to be skipped, is from its first character to its last a number of the selected grammar that is in range (and v is its correctly rounded value), or an allowed spelling of infinity or NaN; for integers exactly when it is an optional sign and digits of the base whose value fits the type. The specification has no notion of a longest match.", "quantifier": "all texts (shorter than 2^28 for floats), options, character types, the three IEEE formats, and all integer types and bases with a sound overflow check", "why_tests_cant": "both directions quantify over all texts: no accepted text may be malformed, and no well-formed text may be refused or stopped short", "anchors": ["include/fast_float/float_common.h:from_chars_result_t", "include/fast_float/parse_number.h:from_chars_advanced", "include/fast_float/ascii_number.h:parse_number_string", "include/fast_float/ascii_number.h:parse_int_string"]}
{"id": "C74", "title": "Complete specification for every options value, whatever the decimal point", "statement": "options.decimal_point may be any character, also one that already is a part of numerals (a sign, e, d, even a digit). For every options value the result of from_chars_advanced is the one of a reader that takes every part (sign, digits, point, digits, exponent) as soon as it is there and as long as it is: pointer, error code and stored value are exactly those of that reading. With a point that is not a digit the value is the correctly rounded value of the numeral read. A digit given as the point is never taken as a point; numerals of up to nineteen significant digits are then read correctly, and those whose digits the code miscounts have their significand reduced modulo 2^64.", "quantifier": "all configurations, character types, texts (of any length), format words and decimal points, and results; all four floating-point types (float16_t with its exceptions)", "why_tests_cant": "all options values and all texts, including ambiguous grammars in which several numerals are prefixes of the text", "anchors": ["include/fast_float/float_common.h:parse_options_t::decimal_point", "include/fast_float/ascii_number.h:parse_number_string", "include/fast_float/parse_number.h:from_chars_advanced"]}
{"id": "C75", "title": "Parsing a floating-point number takes time linear in the length of the text", "statement": "from_chars and from_chars_advanced for a floating-point type take at most a*n+b steps on a text of n code units, whatever the text contains (white space, leading zeros, any number of digits, NaN payloads, malformed texts), where a step is one code unit examined by a loop or one limb of a big integer read, written, copied or filled. The arbitrary-precision arithmetic behind the correct rounding takes a bounded number of steps, however many digits the text has: there is no quadratic or worse behaviour on adversarial texts.", "quantifier": "all configurations, character types, texts of any length, options values; double, float, bfloat16_t, float16_t; also scanning alone and evaluating a parsed number alone", "why_tests_cant": "a benchmark measures particular texts; the claim bounds the work on every text of every length, also adversarial ones", "anchors": ["include/fast_float/parse_number.h:from_chars_advanced", "include/fast_float/ascii_number.h:parse_number_string", "include/fast_float/digit_comparison.h:digit_comp", "include/fast_float/digit_comparison.h:parse_mantissa", "include/fast_float/bigint.h:bigint"]}
{"id": "C76", "title": "Parsing an integer takes time linear in the length of the text", "statement": "from_chars and from_chars_advanced for an integer type take at most 6n+10 steps on a text of n code units, whatever the text, the type and the base, where a step is one code unit examined by a loop (or by one of the unrolled paths).", "quantifier": "all configurations, character types, integer types, bases, options values and texts of any length", "why_tests_cant": "the bound is on every text of every length; tests time particular texts", "anchors": ["include/fast_float/parse_number.h:from_chars_int_advanced", "include/fast_float/ascii_number.h:parse_int_string"]}
{"id": "C77", "title": "The power table is exactly what its generator prints, and what it is meant to contain", "statement": "Running script/table_generation.py prints exactly the 1302 words of the power table in the header, so regenerating it changes nothing. The two words for exponent q are the 128 leading bits of 5^q, scaled by a power of two into [2^127, 2^128): rounded up for -27 <= q < 0, truncated for every other q from -342 to 308.", "quantifier": "all 651 exponents; the script as a program over unbounded integers", "why_tests_cant": "the table is compared with a generator and with the exact rational powers, not with itself; a wrong low bit changes the result for rare significands only", "anchors": ["script/table_generation.py", "include/fast_float/fast_table.h:powers_template::power_of_five_128"]}
{"id": "C78", "title": "The scripts that certify the fast algorithm are sound and succeed", "statement": "script/mushtak_lemire.py prints 'No solutions!', and its method is sound: although it only looks at denominators of convergents of continued fractions, if it finds none then no 64-bit significand w has a product w*T[q] whose low 137 bits are within 2^64 of overflowing, so the truncation of the table can never change a rounding. script/analysis.py prints 'all good', and this means that multiplying by the reciprocal and shifting divides exactly by 5^q (all 127-bit numbers for q <= 17, all 64-bit numbers for q <= 344).", "quantifier": "all numbers T (soundness of the method), all table entries and all 64-bit significands; all q and all dividends", "why_tests_cant": "the claim ranges over all 2^64 significands for each of 651 powers; the script itself relies on a theorem about continued fractions", "anchors": ["script/mushtak_lemire.py:continued_fraction", "script/mushtak_lemire.py:convergents", "script/analysis.py", "include/fast_float/fast_table.h"]}
{"id": "C79", "title": "How far a call looks ahead", "statement": "A call decides where a number ends, and what its value is, from the characters of the number and a bounded number of characters after it: three for a number (an exponent needs a letter, a sign and a digit), five for everything that is not a NaN (inf may go on as infinity), one for an integer. Two texts that agree that far give exactly the same result; in particular appending to a buffer that still holds five unread characters changes nothing. For a NaN no bound exists for the end, but the value and the error code do not change, and the end can only move forward. The bounds three and five cannot be lowered.", "quantifier": "every build configuration, character type, target type, options value and every pair of texts that agree on the units named; for integers every type up to 128 bits and every base", "why_tests_cant": "It relates the results for two arbitrary texts, of any lengths, that differ anywhere after a given point.", "anchors": ["include/fast_float/parse_number.h:from_chars_advanced", "include/fast_float/ascii_number.h:parse_number_string", "include/fast_float/parse_number.h:parse_infnan", "include/fast_float/ascii_number.h:parse_int_string"]}
{"id": "C80", "title": "When the arbitrary-precision arithmetic is used", "statement": "A number of at most nineteen significant digits is read in a single pass over the text, without any big-integer work: at most 9 n + 4 elementary steps for a text of n code units (the constant of C75 is not needed). A longer number does without the big integers as well whenever its first nineteen significant digits settle the result, i.e. when truncating after them and incrementing the last one give the same float (17 n + 8 steps: the text is scanned a second time). Rounding a caller-supplied significand and exponent without too_many_digits takes no loop step at all.", "quantifier": "every build configuration, character type, target type, options value (any decimal point) and every text that holds such a number; for the last two, every significand and exponent", "why_tests_cant": "It is a bound on the work for every text of every length; a benchmark measures a few.", "anchors": ["include/fast_float/parse_number.h:from_chars_float_advanced", "include/fast_float/parse_number.h:parse_number_slow_path", "include/fast_float/parse_number.h:from_chars_advanced", "include/fast_float/digit_comparison.h:digit_comp", "include/fast_float/decimal_to_binary.h:compute_float"]}
{"id": "C81", "title": "Parsing as a wider type and converting", "statement": "For the same text and options, from_chars for float stores exactly what parsing as double and converting the result to float (round to nearest, ties to even) gives, unless the double is exactly half way between two neighbouring floats; the same holds for bfloat16_t and float16_t with double or float as the wider type (for float16_t even on the ties of C04, where the wider value is a midpoint; with a decimal point that is no digit). If it is exactly half way, one of these two neighbours is stored, so the two ways never differ by more than one unit in the last place. If the wider result overflowed to infinity, so does the narrower one, and both calls consume the same characters. The exception is real: just above a midpoint the two differ, and from_chars for the narrow type is the correct one.", "quantifier": "every build configuration, character type, options value and every text that holds a number, for the pairs double/float, double/bfloat16_t, float/bfloat16_t, double/float16_t and float/float16_t", "why_tests_cant": "Double rounding errors occur for isolated inputs among infinitely many.", "anchors": ["include/fast_float/parse_number.h:from_chars_advanced", "include/fast_float/decimal_to_binary.h:compute_float", "include/fast_float/digit_comparison.h:digit_comp", "include/fast_float/float_common.h:to_float"]}
{"id": "C82", "title": "Reading IPv4 addresses with from_chars<uint8_t>", "statement": "The address reader of tests/ipv4_test.cpp and benchmarks/bench_ip.cpp (four calls of from_chars for uint8_t with dots between them) succeeds on a text exactly if it starts with four numbers of at most 255 separated by dots, returns their 32-bit number and stops after the last digit; every one of the 2^32 addresses printed by uint32_to_ipv4_string fits the 16-byte buffer and is read back; seek_ip_end finds the same end.", "quantifier": "every character sequence, every 32-bit address, every continuation, every build configuration without the two feature macros", "why_tests_cant": "the test in the repository tries every 1000th address and no malformed one; the texts and continuations are unbounded", "anchors": ["tests/ipv4_test.cpp:ipv4_string_to_uint32", "tests/ipv4_test.cpp:uint32_to_ipv4_string", "benchmarks/bench_ip.cpp:simple_parse_ip_line", "include/fast_float/ascii_number.h:parse_int_string"]}
{"id": "C83", "title": "Which digits matter", "statement": "Two accepted numbers of the same sign whose first 768 significant digits (113 for float, 97 for bfloat16, 22 for float16) agree at the same decimal places, and which both go on with some non-zero digit, are stored as the same value and (not for float16) reported with the same error, whatever the rest of the digits, the spelling, the options, the character types and the build configurations of the two calls. One digit fewer is not enough, for any of the four types.", "quantifier": "every pair of accepted numbers of any length, every option set, character type and build configuration", "why_tests_cant": "the digits after the decisive ones are unbounded in number; a test can only try a few continuations", "anchors": ["include/fast_float/digit_comparison.h:parse_mantissa", "include/fast_float/digit_comparison.h:digit_comp", "include/fast_float/float_common.h:binary_format::max_digits", "include/fast_float/ascii_number.h:parse_number_string"]}
{"id": "C84", "title": "A field with blanks around it", "statement": "The reading idiom of the rcppfastfloat test (call from_chars with general | allow_leading_plus | skip_white_space, require success, then require that every leftover character satisfies is_space) yields the value v exactly if the text is a number with the value v, correctly rounded and in range, with any amount of white space before and after it and nothing else; every other text is rejected, and nothing undefined happens. The same holds for any options that include skip_white_space and any non-blank decimal point.", "quantifier": "every text shorter than 2^28 - 400 characters (float16: every text), every float type, character type and build configuration", "why_tests_cant": "the texts to be accepted and to be rejected are both infinite sets; the test tries 35 of them", "anchors": ["tests/rcppfastfloat_test.cpp:eddelbuettel", "include/fast_float/float_common.h:is_space", "include/fast_float/parse_number.h:from_chars", "include/fast_float/ascii_number.h:parse_number_string"]}
{"id": "C85", "title": "Lists of 16-bit numbers", "statement": "The validation loop of the uint16 benchmark passes exactly if the buffer is the list of the expected numbers, each written with decimal digits and at most 65535, with the delimiter (any character but a digit) between two of them and nothing else; it never reads past the end and otherwise aborts. The timed loop for n numbers ends with the sum of the n numbers exactly if the buffer is such a list. A buffer built from any numbers in range passes, and the sum does not wrap for up to 2^47 numbers.", "quantifier": "every buffer, list of expected numbers of any length, delimiter that is not a digit, character type, and build configuration without the two feature macros", "why_tests_cant": "the lists are unbounded and the benchmark validates one pseudo-random list", "anchors": ["benchmarks/bench_uint16.cpp:validate", "benchmarks/bench_uint16.cpp:main", "include/fast_float/ascii_number.h:parse_int_string", "include/fast_float/parse_number.h:from_chars"]}
{"id": "C86", "title": "integer_times_pow10 is a monotone function of the product", "statement": "The result of integer_times_pow10(m, e) depends on the product m*10^e only, not on how it is split, on the integer type of m or on the build; a larger product never gives a smaller result (so it is monotone in m, and in e for m >= 0); negating m flips the sign bit and nothing else; and a product that is a number of the floating-point type is returned exactly. This holds for all four types, including float16_t with its wrongly rounded ties.", "quantifier": "every pair of integers of any integer type (except INT64_MIN, whose negation is undefined), every exponent, every pair of build configurations, all four floating-point types", "why_tests_cant": "a relation between pairs of calls over 2^64 integers and all exponents", "anchors": ["include/fast_float/parse_number.h:integer_times_pow10", "include/fast_float/parse_number.h:clinger_fast_path_impl", "include/fast_float/decimal_to_binary.h:compute_float"]}
{"id": "C87", "title": "The accepted texts are the regular languages of the standards", "statement": "With chars_format::json a whole text is accepted (no invalid_argument, pointer at the end) if and only if it matches the grammar of RFC 8259; with general, scientific and fixed if and only if it matches the decimal subject sequence of strtod as restricted by [charconv.from.chars] (no leading plus, mandatory or forbidden exponent, infinities and NaNs in any case); correspondingly for json_or_infnan and fortran, and for every combination of flags, decimal point, type and build. A call that does not report invalid_argument consumes exactly the longest prefix that matches, and (outside JSON) reports invalid_argument exactly when no prefix matches. The same for integers: the subject sequence of strtol in the base, without 0x, minus only for signed types.", "quantifier": "every text, character type, type, options (decimal point not a digit, sign or exponent letter), build", "why_tests_cant": "equality of two infinite languages", "anchors": ["include/fast_float/float_common.h:chars_format", "include/fast_float/ascii_number.h:parse_number_string", "include/fast_float/parse_number.h:parse_infnan", "include/fast_float/ascii_number.h:parse_int_string"]}
{"id": "C88", "title": "The single header is the library", "statement": "For every contents of the nine headers between their include guards (with the quoted includes where the repository has them), of the lists of authors and contributors and of the license files, and for every choice of license, the file made by script/amalgamate.py, given to the compiler alone, shows it every line of the library exactly once and no unresolved include of a library header; the lines come in the order in which #include \"fast_float.h\" shows them, except that the system includes at the top of float_common.h come after constexpr_feature_detect.h instead of before it and those of digit_comparison.h after bigint.h, so that every compiler that does not mind this order is in the same state after either. The headers may be included in any order and any number of times, also mixed with the single header: once fast_float.h (or the single header) is among them, every line of the library has been seen exactly once. In front of the code the single header names every author and every contributor and shows, as comments and line by line, the texts of exactly the licenses of the choice (of LICENSE-APACHE the lines from 180 to the last but one).", "quantifier": "all contents of the nine headers with the include structure and guards of the repository, all author, contributor and license texts, all license choices, all sequences of includes, all compilers (any state, any action of a line)", "why_tests_cant": "The CI builds one single header from one state of the files; that no line is lost, duplicated or reordered must hold for every state of the files and every program that includes them.", "anchors": ["script/amalgamate.py", "include/fast_float/fast_float.h:#include", "include/fast_float/float_common.h:FASTFLOAT_FLOAT_COMMON_H", "include/fast_float/parse_number.h:FASTFLOAT_PARSE_NUMBER_H"]}
{"id": "C89", "title": "The random test texts are numbers, and are read", "statement": "For every seed, build_random_string (both generators of the exhaustive tests) ends, stays inside its buffer of 4096 characters, and writes a JSON number of at most 2000 digits (19 for the short generator) with an exponent of at most three digits, at most 2007 (26) characters long; from_chars for double, float and bfloat16_t, in every format with fixed and scientific notation, reads it to its last character and returns that number correctly rounded, with a range error where due. A draw from an integer interval is inside the interval for every source of 64-bit words, uses the first word that is accepted, and each integer of the interval is the result for the same number of words; every JSON number of at most that many digits with an exponent of at most three digits is the text for some source of words.", "quantifier": "all seeds and states of the engine, all sources of 64-bit words, all intervals of less than 2^31 ints, all formats with fixed and scientific notation, all parser configurations", "why_tests_cant": "The tests that use the generators run forever on a sample of seeds; that a seed can neither hang nor overflow the buffer nor produce a text that is no number (which the tests would report as a bug of the library) must hold for all 2^64 seeds.", "anchors": ["tests/random_string.cpp:build_random_string", "tests/random_string.cpp:RandomEngine", "tests/short_random_string.cpp:build_random_string", "include/fast_float/parse_number.h:from_chars"]}
{"id": "C90", "title": "Which function a call means", "statement": "On every platform (whatever the signedness of char and wchar_t, the width of long, which type std::int64_t is, and which extended types exist) integer_times_pow10(x, e) and integer_times_pow10<T>(x, e) compile for x of every integral type and every supported T, end, and compute with the value of x, the signed version exactly for signed types; with a floating-point, pointer or enumeration argument (other than an unscoped enumeration over a 64-bit type) they do not compile. from_chars(first, last, v[, x]) reads a floating-point number exactly when v is a variable of a supported floating-point type and x, if given, is a chars_format, and an integer exactly when v has an integral type and x, if given, converts to int; nothing else compiles, no call is ambiguous, and from_chars_advanced selects the same parser.", "quantifier": "all platforms, all types of the arguments (including enumerations over any type), all values of integral types, all exponents", "why_tests_cant": "A test compiles on one platform with the handful of argument types it names; an ambiguity or a silent conversion shows up only on the platform where int64_t is the other type, or for the argument type nobody tried.", "anchors": ["include/fast_float/float_common.h:is_supported_float_type", "include/fast_float/float_common.h:is_supported_integer_type", "include/fast_float/fast_float.h:from_chars", "include/fast_float/parse_number.h:integer_times_pow10", "include/fast_float/parse_number.h:from_chars_advanced_caller"]}
{"id": "C91", "title": "Which texts give which value", "statement": "For double, float and bfloat16_t, whatever the spelling, the build and the character type: the magnitude k is stored (with the sign of the text) if and only if the number written lies between the point half way to the value below and the point half way to the value above, and not on one of these points unless the last bit of k is 0. From the last half-way point (the overflow threshold) on, infinity is stored. These intervals cover the numbers and do not overlap. Exactly half way between two neighbours the even one is stored, everything closer to one of them gives that one. integer_times_pow10 cuts the numbers at the same points. For float16_t the same holds except on the nine half-way points of C04 (sixteen for integer_times_pow10, C32).", "quantifier": "every accepted text of fewer than 2^28-400 digits (or with a small exponent), every options value with an admissible decimal point, every magnitude k, every build configuration and character type; every integer that may be passed to integer_times_pow10 and every power", "why_tests_cant": "The test exhaustive32_midpoint prints the half-way points of one type in one spelling; each interval contains infinitely many texts, and for double there are 2^63 of them.", "anchors": ["include/fast_float/parse_number.h:from_chars_advanced", "include/fast_float/parse_number.h:integer_times_pow10", "include/fast_float/digit_comparison.h:digit_comp", "include/fast_float/decimal_to_binary.h:compute_float", "tests/exhaustive32_midpoint.cpp:allvalues"]}
{"id": "C92", "title": "The greatest of many numbers", "statement": "The loop of the benchmark client (read each line with from_chars, keep the greater of the answer and the value, starting from 0) returns, if no line is a NaN, zero or one of the values read, and none of the values read is greater. If every line starts with a number, the answer is the greatest of the numbers written (or zero), correctly rounded: rounding line by line loses nothing. The client's test 'pointer equals begin of line' throws exactly if from_chars reports invalid_argument for some line, also when values are out of range (with the macro FASTFLOAT_SKIP_WHITE_SPACE: for some line that does not begin with white space). Whatever comes before a line with a NaN is forgotten, also the zero: the answer is the greatest of the values after it.", "quantifier": "every list of lines, every build configuration and character type, double, float and bfloat16_t (first and third part also float16_t)", "why_tests_cant": "The benchmark uses one file; the claim is about every list of lines and needs correct rounding and monotonicity for all texts.", "anchors": ["include/fast_float/parse_number.h:from_chars", "benchmarks/benchmark.cpp:findmax_fastfloat64", "benchmarks/benchmark.cpp:findmax_fastfloat32"]}
