# Formal model of fast_float in Lean 4 — design

(Generated by `tools/gen_design.py` from `tools/design_text.md`, `properties.jsonl` and `MANIFEST.json`.)

## 1. Trusted base

* **Lean 4.33.0's kernel.**
* **Axioms**: every theorem named in `MANIFEST.json` depends on at most `propext`, `Classical.choice` and `Quot.sound` (the three axioms of
  Lean/Mathlib).  No axiom is added, nothing is left unproved, no `native_decide`, no `bv_decide`; `decide +kernel` is evaluated by the
  kernel itself.
* **The reading of the C++ source**: every definition under `lean/Verif/Model/` cites the file and lines it models, and says where it
  simplifies.  The numeric tables of the source (the 2×651 words of `power_of_five_128`, `chdigit`, `space_lut`, `maxdigits_u64`, `min_safe_u64`,
  `large_power_of_5`, `small_power_of_5`, `powers_of_ten_uint64`, the `max_mantissa` tables) were compared with `/repo` by script.
  As a check of that reading, `Verif/Tests/Vectors.lean` (generated by `tools/gen_vectors.py`) has the kernel run the model, in three
  configurations, on the repository's own test vectors: the 430 floating-point vectors of `tests/basictest.cpp`, `json_fmt.cpp` and
  `fortran.cpp` (all four types, both decimal points, 8-, 16- and 32-bit characters), the 367 integer vectors of `tests/fast_int.cpp`, and the
  8 rejections of `json_fmt.cpp` with their reasons and positions.  All agree.  They are **tests** of the transcription, not proofs; no claim
  rests on them.
* **IEEE-754 hardware arithmetic.**  The Clinger fast path uses `T(m)`, `*`, `/`, unary `-`, `+`, `==` of the machine.  `Model/Fpu.lean` models them as
  "the exact result, rounded in the thread's rounding mode" — rounded first to the wider evaluation format when `FLT_EVAL_METHOD` says so
  — and literals `1eN` in the power tables as rounded to nearest by the compiler.  That this model is the standard's definition (`Spec/Ieee.lean`), in the four
  directions and for every evaluation method, is proved (C37_hardware_*); that the machine is the standard's is trusted.
* **The statements**: `Verif/Spec/*` (which imports nothing of the model) and `Verif/Props/Vocabulary.lean` (which imports only model and
  specification) are all a reader has to trust or read besides the theorem statements in `Verif/Props/*`.

## 2. The model (`lean/Verif/Model/`)

| file | models |
|---|---|
| `Basic` | execution monad, words, configuration, character types, `chars_format`, `parse_options`, pointer primitives |
| `FloatCommon` | float_common.h: `binary_format<T>`, `leading_zeroes`, `countr_zero_32`, `umul128_generic`, `full_multiplication`, `to_float`, `is_space`, digit tables, `fastfloat_strncasecmp*` |
| `Fpu` | hardware floating point; `rounds_to_nearest`, `exact_power_of_ten` |
| `Table` | fast_table.h |
| `Decimal` | decimal_to_binary.h: `compute_product_approximation`, `compute_float`, `compute_error*` |
| `Ascii` | ascii_number.h: SWAR/SIMD digit blocks, `parse_number_string` |
| `ParseInt` | ascii_number.h: `parse_int_string` with the `uint8_t` and `uint16_t` paths |
| `BigInt` | bigint.h |
| `DigitComp` | digit_comparison.h |
| `StackVec` | bigint.h a second time, in memory: indeterminate cells, 16-bit length, cell-by-cell copies, partial updates of failed operations |
| `Format` | the operators of `chars_format` and `from_chars_result::operator bool` |
| `MemDigitComp` | digit_comparison.h and the float overloads on top of `StackVec`, ignoring the results the program ignores |
| `Scripts` | script/table_generation.py, script/mushtak_lemire.py, script/analysis.py |
| `Ipv4` | tests/ipv4_test.cpp and benchmarks/bench_ip.cpp: the IPv4 printer and readers, clients of `from_chars<uint8_t>` |
| `Clients` | tests/rcppfastfloat_test.cpp:57-95 (a field with blanks around it) and benchmarks/bench_uint16.cpp (validation and summing loops over a delimited list) |
| `RandomString` | tests/random_string.cpp:55-151 and tests/short_random_string.cpp:55-146 (engine and generator) |
| `Overload` | the constraints of the public overloads: float_common.h:256-294, fast_float.h:33-86, parse_number.h:410-486 (forwarding), 516-546 (which function runs, not what it does) |
| `Findmax` | benchmarks/benchmark.cpp:25-51, the loops of `findmax_fastfloat64` and `findmax_fastfloat32` (a client of the library); the comparison of two floating-point values is modelled on bit patterns, the conversion of the float answer to double is left out |
| `Amalgamate`, `Directives` | script/amalgamate.py: the single header as a text; the include structure of the nine headers, and their lines beginning with `#` (generated by tools/gen_directives.py) |
| `Cost` | every looping function once more, with a step counter |
| `ParseNumber` | parse_number.h: `parse_infnan`, `clinger_fast_path_impl`, every `from_chars*` and `integer_times_pow10` overload |

* The execution monad is `Except UB`.  Undefined behaviour (out-of-range pointer or table access, shift by the word size or more, `clz(0)`, signed
  overflow), a failed push to a full big integer, and a loop that outlives its fuel are distinct outcomes; "defined" in a theorem means that the outcome is
  `.ok`, so it includes termination.
* `Cost` counts the steps of the loops (code units examined, limbs touched); a counted function has the outcome of the uncounted one by theorem.  Straight-line code
  is not counted.
* Machine words are `Nat` with explicit `% 2^w`; signed arithmetic is `Int` with a range check wherever an operand depends on the input.
* A pointer into `[first, last)` is the list of the code units from it to `last`; the `ptr` of the API is an offset.  A code unit is its bit
  pattern; `CharType` gives width, signedness and the two types with special code (`char`, `char16_t`).
* `Cfg` collects what the preprocessor, the compiler or the thread selects: limb width, native 128-bit multiplication, `__int128`, overflow builtins,
  endianness, SIMD flavour, clang, constant evaluation, 32-bit system, the two feature macros, the rounding mode, `FLT_EVAL_METHOD`.  Theorems
  quantify over all of it.
* Options: `Fmt` is the whole bit set, so combinations of flags that have no name are covered.

### Not modelled
Template instantiation (the four floating-point formats, the integer types of 1, 8, 16, 32, 64 and 128 bits and the character types of 1, 2, 4 bytes are
parameters instead; which public overload a call selects is modelled in `Overload`, C90, for the value type, the integer argument and the extra argument, with the
rules of overload resolution reduced to what these signatures need, and not for user-defined conversions); `static_assert`s; attribute and warning macros; `constexpr_feature_detect.h`
and `generic`/`span` plumbing (`span` is a list); the object-lifetime rules of C++ (`memcpy` is a word of the bytes; indeterminate values are modelled for the limbs of the big integer only, in `StackVec`);
aliasing of `value` with the input; time other than the steps counted in `Cost`, and stack use; compilers that miscompile; hardware that does not follow IEEE-754 (e.g. flush-to-zero);
x87 double rounding of the *exponent* range (the 80-bit format is modelled with its own exponent range).
The dead `if (counter != 0)` at the end of `parse_mantissa` is omitted in `DigitComp` and present in `MemDigitComp`.  Texts are shorter than 2^62 code units (memory).

## 3. The specification (`lean/Verif/Spec/`)

* `Float`: IEEE formats, the rational value of a bit pattern, `RoundsTo` ("no finite float is closer; the even one in a tie; infinity from the
  threshold on").
* `Numeral`: abstract syntax of numerals, their text and rational value, the grammar a format word selects (`Rules`), and a reference scanner.
* `Api`: `inf`/`nan` texts, white space, preferences of a call.
* `Complete`: declarative maximal munch and `FloatCall` — the relation between text, options and (ptr, ec, value).
* `Diagnosis`: why no numeral starts at a text, and where (the nine `parse_error` codes), and the significand and exponent of a numeral.
* `AnyPoint`: the greedy reading of a text for an arbitrary (ambiguous) decimal point.
* `Narrow`: the midpoints of a format (C81).
* `HalfScaled`: what `std::float16_t` gets for a 64-bit significand times a power of ten, exceptions included.
* `Ipv4`: dotted addresses.
* `Fields`: numbers joined by a delimiter.
* `Preprocess`: the part of the C++ preprocessor that include guards and quoted includes need (C88).
* `Random`: the numerals that the generators of random numerals make (C89).
* `Ieee`: the arithmetic operations of IEEE 754, in the four rounding directions, and evaluation in a wider format (C37).
* `Standards`: RFC 8259, `strtod` / `std::from_chars`, the presets of the library and integers as regular expressions (C87; refers to no other specification).
* `Cell`: the half-way points between neighbouring values and the interval that belongs to each value (C91; an independent account of rounding to nearest even).
* `Overload`: the C++ rules that decide which function a call means: types, conversion ranks, best viable function (C90; refers to no other specification).
* `Leading`: the leading significant digits of a numeral and their place (C83).
* `Print`: texts of numbers (used by the round-trip properties).
* `Whole`: texts that are a number from the first character to the last.
* `Integer`: digits in a base, ranges of integer types, `IntCall`, and the exact (wrapping) variant.

## 4. Proof architecture (`lean/Verif/Proofs/`)

1. `RN`: local midpoint characterisation of nearest-even over the index of floats; equivalent to `RoundsTo`.
2. Table facts: all 651 entries of `power_of_five_128` against exact powers of five (kernel evaluation of the whole table).
3. Mushtak–Lemire: a two-vector lattice certificate for each entry shows that no 64-bit `w` makes the truncated product ambiguous; lifted by a lemma
   for all `w`.
4. `compute_float` = `RN` for all `w < 2^64` and all `q`.
5. Big integers: each operation refines `Nat`; the capacity is never exceeded.  The vector in memory refines the list (`Proofs/StackVec`, `Proofs/MemDigitComp`).
6. `digit_comp` = `RN` for every digit string.
7. Scanner: `parse_number_string` = reference scanner = maximal munch; SWAR/SIMD blocks = digit folding, by lane induction.
8. `parse_int_string` = reference, fast paths = generic loop.
9. Top level: `from_chars*`, `integer_times_pow10`, `from_chars_advanced(pns)`.

## 5. Properties

| id | property | status | how | theorems |
|----|----------|--------|-----|----------|
| C01 | from_chars<double> is correctly rounded | proved | whole pipeline: scanner refinement, Clinger fast path, Eisel-Lemire with the table certificate, big-integer slow path, all shown equal to one rounding relation (`RN`), then `RN` = `RoundsTo` | `C01_double_correctly_rounded` |
| C02 | from_chars<float> is correctly rounded | proved | as C01, binary32 constants | `C02_float_correctly_rounded` |
| C03 | from_chars<bfloat16_t> is correctly rounded | proved | as C01, bfloat16 constants | `C03_bfloat16_correctly_rounded` |
| C04 | from_chars<float16_t> is correctly rounded | partial | as C01; false on nine subnormal ties, so: exact characterisation (`_sharp`), witness, and the rest as `_partial` | `C04_float16_correctly_rounded_partial`, `C04_float16_sharp`, `C04_float16_counterexample` |
| C05 | Overflow is reported and yields infinity | partial | the error-code logic on top of C01; false for float16 on the fast path: exact characterisation and witness | `C05_overflow`, `C05_overflow_float16_partial`, `C05_float16_sharp`, `C05_float16_counterexample` |
| C06 | Underflow is reported and yields a signed zero | proved | index 0 of the rounding relation = magnitude at most half the smallest subnormal | `C06_underflow`, `C06_float16_half_min` |
| C07 | Every digit counts | proved | corollary of C01 for the digit list; the truncation/sticky-digit logic of `parse_mantissa` is refined to exact big-integer values | `C07_every_digit_counts` |
| C08 | Sign handling | proved | sign bit handling of `to_float` and of the fast path | `C08_minus_sign` |
| C09 | Spelling independence | proved | uniqueness of `RoundsTo` | `C09_spelling_independence`, `C09_value_independence` |
| C10 | Monotonicity | proved | monotonicity of rounding | `C10_monotone` |
| C11 | Round trip | proved | spacing of floats; any numeral close enough to a float parses to it | `C11_round_trip`, `C11_exact_value`, `C11_relative`, `C11_seventeen_digits`, `C11_nine_digits` |
| C12 | Accepted text is exactly the longest numeral | proved | refinement of the scanner to a reference scanner, which is the maximal munch of the declarative grammar | `C12_longest_numeral` |
| C13 | Acceptance is complete | proved | same | `C13_acceptance_complete`, `C13_rejection`, `C13_irregular_format` |
| C14 | Failed float parse leaves everything in place | proved | case analysis of the driver | `C14_failure_leaves_value`, `C14_success_stores`, `C14_any_point` |
| C15 | fixed / scientific control | proved | grammar | `C15_scientific_only`, `C15_fixed_only`, `C15_exponent_consumed`, `C15_exponent_left` |
| C16 | JSON grammar | proved | grammar; JSON text characterised by a separate predicate | `C16_json_acceptance`, `C16_json_text` |
| C17 | Fortran exponents | proved | grammar | `C17_fortran_exponents`, `C17_no_fortran` |
| C18 | Leading plus | proved | grammar | `C18_plus_rejected`, `C18_plus_json`, `C18_plus_transparent`, `C18_double_sign` |
| C19 | White space | proved | evaluation of the 256-entry table plus induction over the string; signed negative wide units excluded (finding c) | `C19_blanks_skipped`, `C19_blank_rejected`, `C19_only_blanks`, `C19_any_point` |
| C20 | inf and nan | proved | word-wise comparison = letter-wise comparison, for each character width and endianness | `C20_infinity`, `C20_nan`, `C20_only_these`, `C20_infinity_any_point`, `C20_nan_any_point`, `C20_quiet_nan` |
| C21 | no_infnan | proved | driver | `C21_no_infnan`, `C21_number_or_invalid`, `C21_any_point` |
| C22 | Custom decimal point | proved | renaming of the decimal point | `C22_decimal_point` |
| C23 | Delimited numbers | proved | locality of the scanner | `C23_delimiter`, `C23_any_point` |
| C24 | Float parsing has no undefined behaviour | proved | the model never returns `error` | `C24_float_defined`, `C24_negative_wchar`, `C24_faults_text`, `C24_faults_tables`, `C24_faults_shifts`, `C24_faults_signed`, `C24_faults_clz`, `C24_faults_vector`, `C24_faults_rounds` |
| C25 | Integer parsing has no undefined behaviour | proved | same for the integer overloads | `C25_int_defined` |
| C26 | The fixed-size big integer never overflows | proved | length bounds along `digit_comp`: every big integer stays below the capacity of 4000 bits | `C26_bigint_room` |
| C27 | Integer parsing is exact | proved | refinement of `parse_int_string` | `C27_int_exact` |
| C28 | Integer overflow is always detected | partial | false for 64-bit types: witness, exact set of undetected literals, `_partial` where sound | `C28_overflow_partial`, `C28_undetected`, `C28_counterexample` |
| C29 | Where integer overflow is always detected | proved | exact characterisation of soundness per base by evaluating all 35 bases, lifted to all literals | `C29_overflow`, `C29_sharp` |
| C30 | Integer rejection | proved | maximal run of digits | `C30_int_rejected` |
| C31 | Failed integer parse does not write | proved | grammar of integers | `C31_error_leaves_value` |
| C32 | integer_times_pow10 (unsigned) is correctly rounded | partial | from `compute_float` and the fast path; float16 ties: exact | `C32_integer_times_pow10_unsigned`, `C32_integer_times_pow10_float16_partial`, `C32_float16_sharp`, `C32_float16_counterexample` |
| C33 | integer_times_pow10 (signed) is odd and defined | partial | same; INT64_MIN is undefined behaviour (witness), 128-bit significands wrap | `C33_integer_times_pow10_signed_partial`, `C33_int64_min_undefined`, `C33_integer_times_pow10_any`, `C33_float16_sharp`, `C33_int128_wraps` |
| C34 | integer_times_pow10 agrees with from_chars | partial | C01 + C32 + uniqueness | `C34_pow10_agrees`, `C34_text`, `C34_float16_sharp`, `C34_float16_counterexample` |
| C35 | Build independence | partial | both results equal the configuration-free specification | `C35_build_independence`, `C35_build_independence_float16_partial`, `C35_float16_sharp`, `C35_float16_counterexample`, `C35_any_point`, `C35_any_point_float16` |
| C36 | Character-type independence | proved | same | `C36_character_type`, `C36_any_point` |
| C37 | Rounding-mode independence | proved | same | `C37_value_independence`, `C37_any_point`, `C37_hardware_convert`, `C37_hardware_mul`, `C37_hardware_div`, `C37_hardware_add`, `C37_hardware_sub`, `C37_hardware_literal`, `C37_rounds_to_nearest_exact` |
| C38 | Feature macros equal flags | proved | same option word after `adjust_for_feature_macros` | `C38_macros_are_flags`, `C38_any_point` |
| C39 | Fixed-width aliases | partial | wrapper; false on invalid_argument (witness) | `C39_alias_partial`, `C39_alias_overwrites`, `C71_alias` |
| C40 | Integer fast paths are transparent | proved | fast paths refined to the generic loop | `C40_fast_paths` |
| C41 | SWAR digit blocks are exact | proved | byte-lane induction on words, for all words | `C41_eight_test`, `C41_four_test`, `C41_eight_value`, `C41_four_value`, `C41_simd_test` |
| C42 | Exponent literals of any size | proved | arithmetic of the saturating accumulator; limit shown by witness | `C42_exponent_of_any_size`, `C42_limit` |
| C43 | Integer round trip | proved | printing function in the specification, inverse to parsing | `C43_round_trip` |
| C44 | No accepted-number call ever stores NaN | proved | bit patterns of results | `C44_never_nan`, `C44_any_point` |
| C45 | The public pns overload agrees | proved | both paths refine the same numeral | `C45_pns_overload` |
| C46 | Integer parsing does not depend on the build or the character type | proved | configuration-free specification of integers | `C46_int_independence`, `C46_int_macros` |
| C47 | Integer spelling independence | proved | same | `C47_int_spelling` |
| C48 | Plus sign and white space in front of integers | proved | same | `C48_plus_transparent`, `C48_plus_rejected`, `C48_blanks_skipped`, `C48_blank_rejected` |
| C49 | Delimited integers | proved | locality | `C49_int_delimiter` |
| C50 | Complete specification of floating-point parsing | proved | if-and-only-if with the model-free `FloatCall` | `C50_complete`, `C50_complete_short`, `C50_deterministic`, `C50_float16`, `C50_digit_point` |
| C51 | Complete specification of integer parsing | partial | if-and-only-if with the model-free `IntCall` | `C51_complete_int_partial`, `C51_deterministic` |
| C52 | Exact behaviour of float16_t | proved | exact behaviour of float16 | `C50_float16`, `C04_float16_sharp`, `C05_float16_sharp`, `C06_float16_half_min`, `C32_float16_sharp`, `C33_float16_sharp`, `C34_float16_sharp`, `C35_float16_sharp` |
| C53 | Exact behaviour of integer parsing | proved | if-and-only-if with the exact (wrapping) specification | `C53_actual_int`, `C53_deterministic` |
| C54 | 128-bit integer types | proved | 128-bit types: exact behaviour | `C54_int128`, `C54_deterministic`, `C54_counterexample` |
| C55 | Complete specification for texts of any length | proved | C50 without length bound, with the exponent clipping made part of the specification | `C55_total`, `C55_total_float16`, `C55_nine_digit_exponent`, `C55_small_exponent` |
| C56 | Re-parsing the consumed characters | proved | determinism of the specification on the consumed prefix | `C56_reparse`, `C56_reparse_int`, `C56_any_point` |
| C57 | Error bound and exact small integers | proved | error bounds from the rounding relation | `C57_error_bound`, `C57_error_bound_pow10`, `C57_small_integer` |
| C58 | Case-insensitive comparison helper | proved | block-wise comparison by induction over blocks | `C58_case_insensitive`, `C58_bit_five`, `C58_upper_case_expected` |
| C59 | More permissive formats keep every accepted result | proved | monotonicity of the grammar in the format word | `C59_permissive`, `C59_permissive_int` |
| C60 | Integer and floating-point overloads agree | proved | C53 against C50 | `C60_int_float_agree` |
| C61 | Rounding a caller-supplied significand and exponent | proved | `from_chars_advanced(pns)` on arbitrary structures | `C61_pns_value`, `C61_pns_long`, `C61_pns_float16`, `C61_pns_long_float16`, `C61_pns_float16_exact` |
| C62 | Any code units | proved | the reference scanner looks at a unit only through tests that no unit above 127 passes; induction over the skipped units | `C62_any_units`, `C62_int_any_units`, `C62_complete`, `C62_complete_float16` |
| C63 | The scanner and its diagnostics | proved | refinement of the scanner, error branches included, to the model-free `Diagnosis` | `C63_scanner`, `C63_without_spans` |
| C64 | Reading delimited lists | proved | induction over the list, with C23 and C49 for one step | `C64_float_list`, `C64_float_stop`, `C64_int_list`, `C64_int_list_round_trip` |
| C65 | Which format bits matter | proved | bitwise and/or distribute; congruence through the scanner and the three places that test a flag; the text theorem through C50 | `C65_float_format_bits`, `C65_hex_is_ignored`, `C65_hex_text`, `C65_int_format_bits` |
| C66 | Exact decimal text round trip | proved | the printed texts are defined in Spec/Print.lean without reference to the model; their value is computed by induction over the digits, then C11 and C06 | `C66_scientific_text`, `C66_fixed_text` |
| C67 | digits10 and max_digits10 | proved | two short decimals are multiples of a common power of ten, hence relatively far apart; the error bound C57 is smaller than half of that | `C67_digits10`, `C67_distinct`, `C67_max_digits10` |
| C68 | Big-integer arithmetic is exact up to the full capacity | proved | A value-and-normalisation invariant for each loop with the capacity test, by induction over the limbs; failure is shown to be equivalent to the value reaching 2^(bits*capacity) because a normalised vector of full length is at least 2^(bits*(capacity-1)). | `C68_of_u64`, `C68_unique`, `C68_small_mul`, `C68_small_add`, `C68_long_mul`, `C68_shl`, `C68_pow5`, `C68_pow10`, `C68_compare`, `C68_hi64` |
| C69 | Word helpers are exact on every word | proved | Binary search invariant for the leading zeros; for trailing zeros every word is 2^j times an odd number and each stage acts on j; schoolbook multiplication by splitting into 32-bit halves; byte decomposition of a word. | `C69_leading_zeroes`, `C69_countr_zero`, `C69_full_multiplication`, `C69_byteswap`, `C69_byteswap32`, `C69_read8`, `C69_read4` |
| C70 | The big integer never leaves its buffer and never reads an unwritten limb | proved | Refinement: the vector in memory holds a list; each memory operation is shown to end, without a fault, in a vector that holds the result of the list operation, or to report failure when it does. The slow path and the API are then rebuilt on the memory operations and shown to return what the list-level model returns whenever that one succeeds, which C24 says it always does. | `C70_stores`, `C70_safe`, `C70_safe_two`, `C70_of_u64`, `C70_small_mul`, `C70_small_add`, `C70_long_mul`, `C70_shl`, `C70_pow5`, `C70_pow10`, `C70_compare`, `C70_hi64`, `C70_from_chars`, `C70_faults_cells`, `C70_faults_index`, `C70_faults_fresh` |
| C71 | The short overloads do exactly what their one argument says | proved | The complete specifications C50, C50_float16, C53 and C54 at the options the short overload passes; the decimal point '.' meets the condition on the point for every format word. | `C71_from_chars`, `C71_from_chars_float16`, `C71_alias`, `C71_from_chars_base`, `C71_from_chars_base_wide`, `C71_default_float`, `C71_default_int` |
| C72 | if (result) and the chars_format operators | proved | bit extensionality for the operators; the complete specifications C53 and C55 for the conversion | `C72_bitwise`, `C72_assign`, `C72_laws`, `C72_flag_idioms`, `C72_named`, `C72_json_call`, `C72_if_result`, `C72_if_result_int` |
| C73 | Validating a whole string | proved | C50 / C51 with an empty rest; maximal munch is vacuous at the end of the text | `C73_whole_text`, `C73_whole_text_float16`, `C73_whole_int` |
| C74 | Complete specification for every options value, whatever the decimal point | proved | the reference scanner is proved equivalent to Greedy for every grammar; the digit count of the code is computed exactly for a digit as point | `C74_every_option`, `C74_nondigit_point`, `C74_nondigit_point_float16`, `C74_greedy_iff_munch`, `C74_greedy_unique`, `C74_digit_point`, `C74_every_option_float16` |
| C75 | Parsing a floating-point number takes time linear in the length of the text | proved | a counter is added to every loop of the model; a rule for each function (same outcome, bound on the steps, bound on sizes) composed along the call graph; the capacity of the big integers and the 769-digit limit bound the arithmetic | `C75_float_linear`, `C75_scan_linear`, `C75_parsed_linear`, `C75_every_unit_is_paid`, `C75_every_digit_is_paid` |
| C76 | Parsing an integer takes time linear in the length of the text | proved | as C75, for the integer parser | `C76_int_linear`, `C76_every_unit_is_paid` |
| C77 | The power table is exactly what its generator prints, and what it is meant to contain | proved | while loops in closed form (log2, truncation, normalisation), then kernel evaluation of all entries | `C77_table_regenerated`, `C77_table_entries` |
| C78 | The scripts that certify the fast algorithm are sound and succeed | proved | invariants of the Euclidean algorithm and its convergents; kernel evaluation of the scripts on the whole table | `C78_no_solutions`, `C78_method_sound`, `C78_no_carry`, `C78_all_good`, `C78_exact_division` |
| C79 | How far a call looks ahead | proved | From the complete specifications C74 (floating point), C53 and C54 (integers): every condition that `Greedy`, `InfText` and `Literal` put on the rest of the text is local (`greedy_local`, `inf_local`, `nan_local`, `int_agree`), so the other text meets the specification with the same result, and the specification determines the call. | `C79_lookahead_number`, `C79_lookahead`, `C79_lookahead_nan`, `C79_more_input`, `C79_sharp`, `C79_lookahead_int` |
| C80 | When the arbitrary-precision arithmetic is used | proved | The counted model of C75; compute_float never asks for the slow path (its power of two is not negative, from C01's specification of it), and equal roundings have equal internal representations unless they are the smallest normal number. | `C80_short`, `C80_settled`, `C80_parsed` |
| C81 | Parsing as a wider type and converting | proved | From the complete specification C74: both calls read the same numeral and round its value. The midpoints of the narrow format are floats of the wide one (`wider_mid`), and rounding to the wide format does not move a value past one (`rounds_side`). | `C81_narrow`, `C81_sharp`, `wider_double_float`, `wider_double_bfloat`, `wider_float_bfloat`, `C81_narrow_float16`, `C81_tie`, `wider_double_half`, `wider_float_half` |
| C82 | Reading IPv4 addresses with from_chars<uint8_t> | proved | Model/Ipv4 models the client code; induction over the octets with C51 for each call | `C82_ipv4`, `C82_ipv4_rejects`, `C82_ipv4_print`, `C82_ipv4_buffer`, `C82_ipv4_round_trip`, `C82_seek` |
| C83 | Which digits matter | proved | no midpoint of two neighbouring floats lies strictly between two neighbouring decimals of that many digits (powers of 2 and 5); then C01-C06. Sharpness: the midpoint with exactly that many digits, evaluated by the kernel for the four types | `C83_leading_digits`, `C83_sharp` |
| C84 | A field with blanks around it | proved | the client is modelled; completeness for whole texts (C73) for the part consumed (C56), and the delimiter theorem (C23) for the first blank behind the number | `C84_rcpp`, `C84_trimmed`, `C84_trimmed_float16`, `C84_rejects` |
| C85 | Lists of 16-bit numbers | proved | the loops are modelled; induction on the list with the complete specification of the integer call (C51) | `C85_validate`, `C85_validate_total`, `C85_sum`, `C85_sum_exact`, `C85_round_trip` |
| C86 | integer_times_pow10 is a monotone function of the product | proved | the index of the result is the nearest-even index of the product, or (float16 ties) the upper one; both are functions of the product and monotone | `C86_monotone`, `C86_product_only`, `C86_shift`, `C86_monotone_integer`, `C86_monotone_power`, `C86_odd`, `C86_exact` |
| C87 | The accepted texts are the regular languages of the standards | proved | the formats are transcribed as regular expressions (Spec/Standards.lean, over Mathlib's RegularExpression); membership is computed construct by construct and compared with the numerals of the complete specification C55 (and C53 for integers) | `C87_whole`, `C87_json`, `C87_json_or_infnan`, `C87_general`, `C87_scientific`, `C87_fixed`, `C87_fortran`, `C87_longest_match`, `C87_int_longest_match` |
| C88 | The single header is the library | proved | Spec/Preprocess.lean is a preprocessor for guards and quoted includes that hands every other line on; the script is modelled character by character; the preprocessor is simulated by a traversal of the nine headers, whose result is computed for symbolic contents. | `C88_single_header`, `C88_headers`, `C88_same_lines`, `C88_same_meaning`, `C88_any_order`, `C88_again`, `C88_mixed`, `C88_repository`, `Script.C88_notices`, `Script.C88_authors`, `Script.C88_license`, `Script.C88_not_offered`, `Script.C88_apache_last_line`, `Script.C88_wording` |
| C89 | The random test texts are numbers, and are read | proved | A word that every request accepts, and a measure: the state walks through all 2^64 values by steps of an odd constant, so that this word comes within 2^64 draws; the text is built by invariants over the loops; reading it is C55; the draw is fair because the words accepted for a value are the multiples of s in an interval whose length is a multiple of s. | `C89_text`, `C89_any_source`, `C89_read`, `C89_short`, `C89_range`, `C89_first`, `C89_uniform`, `C89_reaches_all` |
| C90 | Which function a call means | proved | Spec/Overload.lean states the rules; Model/Overload.lean lists the candidates and their constraints and runs a call through the forwarding functions; the ranks are compared without enumerating platforms. | `Overload.C90_integer_times_pow10`, `Overload.C90_integer_times_pow10_wide`, `Overload.C90_integer_times_pow10_rejects`, `Overload.C90_without_the_forwarders`, `Overload.C90_from_chars`, `Overload.C90_no_mixed_call`, `Overload.C90_from_chars_advanced`, `Overload.C90_supported`, `Overload.C90_formats`, `Overload.C90_char_types` |
| C91 | Which texts give which value | proved | the rounding relation of C01-C03 is turned into the interval around the rounded value; the intervals are shown to partition the rationals, so the converse holds too | `C91_cells`, `C91_cells_float16`, `C91_neighbours`, `C91_partition`, `C91_integer_times_pow10`, `C91_integer_times_pow10_float16` |
| C92 | The greatest of many numbers | proved | induction over the lines with the invariant that the answer is the greatest so far; C72 for the test of the pointer, C10 for the rounded maximum | `C92_greatest`, `C92_rounded_maximum`, `C92_throws`, `C92_throws_any_build`, `C92_nan_forgets` |

Each theorem with hypotheses is accompanied by `example`s that meet them with concrete, non-trivial data, beside the theorem or in `Props/Instances.lean`.  A status of *partial* means that **the code violates
the property**; then the violation is a theorem too, and the exact behaviour is given by a `_sharp` theorem or by C52, C53, C54.

## 6. What the proofs found in the code

(a) C28: the overflow check of 64-bit integer parsing misses literals: `"30000000000000000000"` parses as `uint64_t` 11553255926290448384 with success; `"-3"` followed by 21 zeros parses in base 8
  as `INT64_MIN`.  Exactly which: C29_sharp, C53.
(b) `std::float16_t`: an overflow on the fast path (`"2000e4"`) stores infinity but reports success; under another rounding mode or in constant evaluation it reports an error (C05_float16_sharp, C35_float16_sharp).
(c) `is_space` indexes by `uint8_t(c)` after a signed comparison: negative `wchar_t` units whose low byte is a blank are taken for blanks (C62 gives the exact behaviour).
(d) Exponents saturate at 2^28: `0.` + 2^28 zeros + `1e268435457` is not 0.1·… (C42_limit); exact statement C55.
(e) `integer_times_pow10(INT64_MIN, e)` negates the minimum: undefined behaviour.
(f) `std::float16_t`: ties between subnormals `(2j+1)/2^25`, `j` even, `j ≤ 16` (`≤ 30` for `integer_times_pow10`) are rounded up instead of to even.
(g) The `std::float32_t`/`std::float64_t` overloads overwrite `value` with 0 on `invalid_argument`.
(h) `is_integer` on a signed 4-byte `wchar_t` in `[0x80000000, 0x8000002F]` overflows a signed subtraction.
(i) C34 for float16 fails exactly for `j` even, `16 < j ≤ 30`.
(j) A digit as decimal point gives wrong values (C50_digit_point; exactly which: C74_digit_point).
(k) `__int128`: every negative literal except `-0` is reported out of range; magnitudes ≥ 2^64 are rejected or wrapped (C54); `integer_times_pow10` wraps them (C33_int128_wraps).
(l) `fastfloat_strncasecmp` with an expected string that is not lower case: compile-time and run-time answers differ (C58_upper_case_expected).
(m) The `max_mantissa` table of `double` lacks the entry `2^53/5^14`, so entries 14–23 are those of the next index: conservative, a missed fast path only.
(n) With `chars_format::json_or_infnan | allow_leading_plus`, `+inf` is accepted although `+1` is not; with the Fortran flag only, `1+` is rejected as a whole.

(o) `script/amalgamate.py` cuts the last line of LICENSE-APACHE ("limitations under the License.") off the notice in the single header: `lines[179:-1]` where the file ends
with that line (`C88_apache_last_line`).

(p) `findmax_fastfloat64` in the benchmark forgets everything before a line that is a NaN: `answer > x ? answer : x` takes x, and the next number replaces the NaN:
5, nan, 3 gives 3 (C92_nan_forgets).

## 7. Wrong programs

`seeded/LOG.jsonl` records edits of the model (one realistic bug each), the observable difference found by running the edited model, the theorems that
no longer check, and the claims that depend on them.
