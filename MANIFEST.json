{
 "claims": [
  {
   "property": "C01",
   "status": "proved",
   "theorems": [
    "FastFloat.C01_double_correctly_rounded"
   ],
   "note": "Every accepted numeral of at most 2^28-400 significand digits or with |exponent| < 2^28 (Moderate); C42_limit shows why the side condition is needed."
  },
  {
   "property": "C02",
   "status": "proved",
   "theorems": [
    "FastFloat.C02_float_correctly_rounded"
   ],
   "note": "As C01 for float."
  },
  {
   "property": "C03",
   "status": "proved",
   "theorems": [
    "FastFloat.C03_bfloat16_correctly_rounded"
   ],
   "note": "As C01 for bfloat16."
  },
  {
   "property": "C04",
   "status": "partial",
   "theorems": [
    "FastFloat.C04_float16_correctly_rounded_partial",
    "FastFloat.C04_float16_sharp",
    "FastFloat.C04_float16_counterexample"
   ],
   "note": "The property is false of the code on exactly nine magnitudes, the ties (2j+1)/2^25 with j even, j <= 16; the partial theorem covers everything else and C04_float16_sharp proves the exact result everywhere, these nine included."
  },
  {
   "property": "C05",
   "status": "partial",
   "theorems": [
    "FastFloat.C05_overflow",
    "FastFloat.C05_overflow_float16_partial",
    "FastFloat.C05_float16_sharp",
    "FastFloat.C05_float16_counterexample"
   ],
   "note": "Proved for double, float, bfloat16; float16 stores infinity but does not report the error on the fast path. C05_float16_sharp says exactly when."
  },
  {
   "property": "C06",
   "status": "proved",
   "theorems": [
    "FastFloat.C06_underflow",
    "FastFloat.C06_float16_half_min"
   ],
   "note": ""
  },
  {
   "property": "C07",
   "status": "proved",
   "theorems": [
    "FastFloat.C07_every_digit_counts"
   ],
   "note": ""
  },
  {
   "property": "C08",
   "status": "proved",
   "theorems": [
    "FastFloat.C08_minus_sign"
   ],
   "note": ""
  },
  {
   "property": "C09",
   "status": "proved",
   "theorems": [
    "FastFloat.C09_spelling_independence",
    "FastFloat.C09_value_independence"
   ],
   "note": ""
  },
  {
   "property": "C10",
   "status": "proved",
   "theorems": [
    "FastFloat.C10_monotone"
   ],
   "note": ""
  },
  {
   "property": "C11",
   "status": "proved",
   "theorems": [
    "FastFloat.C11_round_trip",
    "FastFloat.C11_exact_value",
    "FastFloat.C11_relative",
    "FastFloat.C11_seventeen_digits",
    "FastFloat.C11_nine_digits"
   ],
   "note": ""
  },
  {
   "property": "C12",
   "status": "proved",
   "theorems": [
    "FastFloat.C12_longest_numeral"
   ],
   "note": ""
  },
  {
   "property": "C13",
   "status": "proved",
   "theorems": [
    "FastFloat.C13_acceptance_complete",
    "FastFloat.C13_rejection",
    "FastFloat.C13_irregular_format"
   ],
   "note": "For formats with fixed or scientific, or without the Fortran bit; the Fortran-only format is irregular (proved)."
  },
  {
   "property": "C14",
   "status": "proved",
   "theorems": [
    "FastFloat.C14_failure_leaves_value",
    "FastFloat.C14_success_stores",
    "FastFloat.C14_any_point"
   ],
   "note": "The *_any_point theorems (module EveryPoint) hold for every options value, also where the decimal point is a digit, a sign or an exponent letter."
  },
  {
   "property": "C15",
   "status": "proved",
   "theorems": [
    "FastFloat.C15_scientific_only",
    "FastFloat.C15_fixed_only",
    "FastFloat.C15_exponent_consumed",
    "FastFloat.C15_exponent_left"
   ],
   "note": ""
  },
  {
   "property": "C16",
   "status": "proved",
   "theorems": [
    "FastFloat.C16_json_acceptance",
    "FastFloat.C16_json_text"
   ],
   "note": ""
  },
  {
   "property": "C17",
   "status": "proved",
   "theorems": [
    "FastFloat.C17_fortran_exponents",
    "FastFloat.C17_no_fortran"
   ],
   "note": "For float16_t the value is stated outside the nine ties of C04."
  },
  {
   "property": "C18",
   "status": "proved",
   "theorems": [
    "FastFloat.C18_plus_rejected",
    "FastFloat.C18_plus_json",
    "FastFloat.C18_plus_transparent",
    "FastFloat.C18_double_sign"
   ],
   "note": ""
  },
  {
   "property": "C19",
   "status": "proved",
   "theorems": [
    "FastFloat.C19_blanks_skipped",
    "FastFloat.C19_blank_rejected",
    "FastFloat.C19_only_blanks",
    "FastFloat.C19_any_point"
   ],
   "note": "The *_any_point theorems (module EveryPoint) hold for every options value, also where the decimal point is a digit, a sign or an exponent letter."
  },
  {
   "property": "C20",
   "status": "proved",
   "theorems": [
    "FastFloat.C20_infinity",
    "FastFloat.C20_nan",
    "FastFloat.C20_only_these",
    "FastFloat.C20_infinity_any_point",
    "FastFloat.C20_nan_any_point",
    "FastFloat.C20_quiet_nan"
   ],
   "note": "The *_any_point theorems (module EveryPoint) hold for every options value, also where the decimal point is a digit, a sign or an exponent letter."
  },
  {
   "property": "C21",
   "status": "proved",
   "theorems": [
    "FastFloat.C21_no_infnan",
    "FastFloat.C21_number_or_invalid",
    "FastFloat.C21_any_point"
   ],
   "note": "The *_any_point theorems (module EveryPoint) hold for every options value, also where the decimal point is a digit, a sign or an exponent letter."
  },
  {
   "property": "C22",
   "status": "proved",
   "theorems": [
    "FastFloat.C22_decimal_point"
   ],
   "note": ""
  },
  {
   "property": "C23",
   "status": "proved",
   "theorems": [
    "FastFloat.C23_delimiter",
    "FastFloat.C23_any_point"
   ],
   "note": "The *_any_point theorems (module EveryPoint) hold for every options value, also where the decimal point is a digit, a sign or an exponent letter."
  },
  {
   "property": "C24",
   "status": "proved",
   "theorems": [
    "FastFloat.C24_float_defined",
    "FastFloat.C24_negative_wchar",
    "FastFloat.C24_faults_text",
    "FastFloat.C24_faults_tables",
    "FastFloat.C24_faults_shifts",
    "FastFloat.C24_faults_signed",
    "FastFloat.C24_faults_clz",
    "FastFloat.C24_faults_vector",
    "FastFloat.C24_faults_rounds"
   ],
   "note": "C24_faults_* say what a fault is, operation by operation. For units that are non-negative as a value of the character type (always so except for negative wchar_t), and every decimal point, digits included."
  },
  {
   "property": "C25",
   "status": "proved",
   "theorems": [
    "FastFloat.C25_int_defined"
   ],
   "note": "Every code unit of every character type, negative wchar_t included."
  },
  {
   "property": "C26",
   "status": "proved",
   "theorems": [
    "FastFloat.C26_bigint_room"
   ],
   "note": ""
  },
  {
   "property": "C27",
   "status": "proved",
   "theorems": [
    "FastFloat.C27_int_exact"
   ],
   "note": ""
  },
  {
   "property": "C28",
   "status": "partial",
   "theorems": [
    "FastFloat.C28_overflow_partial",
    "FastFloat.C28_undetected",
    "FastFloat.C28_counterexample"
   ],
   "note": "False for 64-bit types: C28_overflow_partial proves it outside the exact set of values that escape the check, C28_undetected proves that all of those are accepted, C28_counterexample gives two literals."
  },
  {
   "property": "C29",
   "status": "proved",
   "theorems": [
    "FastFloat.C29_overflow",
    "FastFloat.C29_sharp"
   ],
   "note": ""
  },
  {
   "property": "C30",
   "status": "proved",
   "theorems": [
    "FastFloat.C30_int_rejected"
   ],
   "note": ""
  },
  {
   "property": "C31",
   "status": "proved",
   "theorems": [
    "FastFloat.C31_error_leaves_value"
   ],
   "note": ""
  },
  {
   "property": "C32",
   "status": "partial",
   "theorems": [
    "FastFloat.C32_integer_times_pow10_unsigned",
    "FastFloat.C32_integer_times_pow10_float16_partial",
    "FastFloat.C32_float16_sharp",
    "FastFloat.C32_float16_counterexample"
   ],
   "note": "Proved in full for double, float and bfloat16; for float16 proved except on the 16 exact subnormal ties (2j+1)/2^25, j even, j <= 30, where the code is wrong; C32_float16_sharp is the exact result everywhere."
  },
  {
   "property": "C33",
   "status": "partial",
   "theorems": [
    "FastFloat.C33_integer_times_pow10_signed_partial",
    "FastFloat.C33_int64_min_undefined",
    "FastFloat.C33_integer_times_pow10_any",
    "FastFloat.C33_float16_sharp",
    "FastFloat.C33_int128_wraps"
   ],
   "note": "Proved for every int64_t except INT64_MIN, on which the code performs an undefined signed negation (proved)."
  },
  {
   "property": "C34",
   "status": "partial",
   "theorems": [
    "FastFloat.C34_pow10_agrees",
    "FastFloat.C34_text",
    "FastFloat.C34_float16_sharp",
    "FastFloat.C34_float16_counterexample"
   ],
   "note": "Proved for double, float, bfloat16; false for float16 subnormal ties (proved)."
  },
  {
   "property": "C35",
   "status": "partial",
   "theorems": [
    "FastFloat.C35_build_independence",
    "FastFloat.C35_build_independence_float16_partial",
    "FastFloat.C35_float16_sharp",
    "FastFloat.C35_float16_counterexample",
    "FastFloat.C35_any_point",
    "FastFloat.C35_any_point_float16"
   ],
   "note": "Proved in full for double, float, bfloat16; for float16 the pointer and value are independent (C37_value_independence) but the error code is not (proved)."
  },
  {
   "property": "C36",
   "status": "proved",
   "theorems": [
    "FastFloat.C36_character_type",
    "FastFloat.C36_any_point"
   ],
   "note": "The *_any_point theorems (module EveryPoint) hold for every options value, also where the decimal point is a digit, a sign or an exponent letter."
  },
  {
   "property": "C37",
   "status": "proved",
   "theorems": [
    "FastFloat.C37_value_independence",
    "FastFloat.C37_any_point",
    "FastFloat.C37_hardware_convert",
    "FastFloat.C37_hardware_mul",
    "FastFloat.C37_hardware_div",
    "FastFloat.C37_hardware_add",
    "FastFloat.C37_hardware_sub",
    "FastFloat.C37_hardware_literal",
    "FastFloat.C37_rounds_to_nearest_exact"
   ],
   "note": "C37_hardware_*: the model of the floating-point unit is IEEE 754's in all four directions and under every FLT_EVAL_METHOD (Spec/Ieee.lean). The *_any_point theorems (module EveryPoint) hold for every options value, also where the decimal point is a digit, a sign or an exponent letter."
  },
  {
   "property": "C38",
   "status": "proved",
   "theorems": [
    "FastFloat.C38_macros_are_flags",
    "FastFloat.C38_any_point"
   ],
   "note": "The *_any_point theorems (module EveryPoint) hold for every options value, also where the decimal point is a digit, a sign or an exponent letter."
  },
  {
   "property": "C39",
   "status": "partial",
   "theorems": [
    "FastFloat.C39_alias_partial",
    "FastFloat.C39_alias_overwrites",
    "FastFloat.C71_alias"
   ],
   "note": "Pointer, error code and value agree; but on invalid_argument the alias overloads overwrite value with 0 (proved); C71_alias gives their exact behaviour."
  },
  {
   "property": "C40",
   "status": "proved",
   "theorems": [
    "FastFloat.C40_fast_paths"
   ],
   "note": ""
  },
  {
   "property": "C41",
   "status": "proved",
   "theorems": [
    "FastFloat.C41_eight_test",
    "FastFloat.C41_four_test",
    "FastFloat.C41_eight_value",
    "FastFloat.C41_four_value",
    "FastFloat.C41_simd_test"
   ],
   "note": ""
  },
  {
   "property": "C42",
   "status": "proved",
   "theorems": [
    "FastFloat.C42_exponent_of_any_size",
    "FastFloat.C42_limit"
   ],
   "note": "For float16_t outside the nine ties of C04."
  },
  {
   "property": "C43",
   "status": "proved",
   "theorems": [
    "FastFloat.C43_round_trip"
   ],
   "note": ""
  },
  {
   "property": "C44",
   "status": "proved",
   "theorems": [
    "FastFloat.C44_never_nan",
    "FastFloat.C44_any_point"
   ],
   "note": "The *_any_point theorems (module EveryPoint) hold for every options value, also where the decimal point is a digit, a sign or an exponent letter."
  },
  {
   "property": "C45",
   "status": "proved",
   "theorems": [
    "FastFloat.C45_pns_overload"
   ],
   "note": ""
  },
  {
   "property": "C46",
   "status": "proved",
   "theorems": [
    "FastFloat.C46_int_independence",
    "FastFloat.C46_int_macros"
   ],
   "note": ""
  },
  {
   "property": "C47",
   "status": "proved",
   "theorems": [
    "FastFloat.C47_int_spelling"
   ],
   "note": ""
  },
  {
   "property": "C48",
   "status": "proved",
   "theorems": [
    "FastFloat.C48_plus_transparent",
    "FastFloat.C48_plus_rejected",
    "FastFloat.C48_blanks_skipped",
    "FastFloat.C48_blank_rejected"
   ],
   "note": ""
  },
  {
   "property": "C49",
   "status": "proved",
   "theorems": [
    "FastFloat.C49_int_delimiter"
   ],
   "note": ""
  },
  {
   "property": "C50",
   "status": "proved",
   "theorems": [
    "FastFloat.C50_complete",
    "FastFloat.C50_complete_short",
    "FastFloat.C50_deterministic",
    "FastFloat.C50_float16",
    "FastFloat.C50_digit_point"
   ],
   "note": "C50_complete is the full claim for double, float and bfloat16_t; C50_float16 is the same if-and-only-if for the actual behaviour of float16_t; C50_digit_point shows why a digit is excluded as decimal point."
  },
  {
   "property": "C51",
   "status": "partial",
   "theorems": [
    "FastFloat.C51_complete_int_partial",
    "FastFloat.C51_deterministic"
   ],
   "note": "Proved wherever the overflow check of the code is sound (all types up to 32 bits; bases 2, 4, 16; signed 64-bit also bases 3, 9, 10, 19, 23, 29, 30). In the other 64-bit cases the code is wrong: C28_undetected, C29_sharp."
  },
  {
   "property": "C52",
   "status": "proved",
   "theorems": [
    "FastFloat.C50_float16",
    "FastFloat.C04_float16_sharp",
    "FastFloat.C05_float16_sharp",
    "FastFloat.C06_float16_half_min",
    "FastFloat.C32_float16_sharp",
    "FastFloat.C33_float16_sharp",
    "FastFloat.C34_float16_sharp",
    "FastFloat.C35_float16_sharp"
   ],
   "note": "The exact behaviour, exceptions included, of the one type for which C04, C05, C32, C34 and C35 are false."
  },
  {
   "property": "C53",
   "status": "proved",
   "theorems": [
    "FastFloat.C53_actual_int",
    "FastFloat.C53_deterministic"
   ],
   "note": "The exact behaviour in every case, including the 64-bit cases in which C28 and C51 are false."
  },
  {
   "property": "C54",
   "status": "proved",
   "theorems": [
    "FastFloat.C54_int128",
    "FastFloat.C54_deterministic",
    "FastFloat.C54_counterexample"
   ],
   "note": "The exact behaviour; most of it is not what a user wants (C54_counterexample)."
  },
  {
   "property": "C55",
   "status": "proved",
   "theorems": [
    "FastFloat.C55_total",
    "FastFloat.C55_total_float16",
    "FastFloat.C55_nine_digit_exponent",
    "FastFloat.C55_small_exponent"
   ],
   "note": "No bound on the length of the text, unlike C01 and C50."
  },
  {
   "property": "C56",
   "status": "proved",
   "theorems": [
    "FastFloat.C56_reparse",
    "FastFloat.C56_reparse_int",
    "FastFloat.C56_any_point"
   ],
   "note": "The *_any_point theorems (module EveryPoint) hold for every options value, also where the decimal point is a digit, a sign or an exponent letter."
  },
  {
   "property": "C57",
   "status": "proved",
   "theorems": [
    "FastFloat.C57_error_bound",
    "FastFloat.C57_error_bound_pow10",
    "FastFloat.C57_small_integer"
   ],
   "note": ""
  },
  {
   "property": "C58",
   "status": "proved",
   "theorems": [
    "FastFloat.C58_case_insensitive",
    "FastFloat.C58_bit_five",
    "FastFloat.C58_upper_case_expected"
   ],
   "note": ""
  },
  {
   "property": "C59",
   "status": "proved",
   "theorems": [
    "FastFloat.C59_permissive",
    "FastFloat.C59_permissive_int"
   ],
   "note": ""
  },
  {
   "property": "C60",
   "status": "proved",
   "theorems": [
    "FastFloat.C60_int_float_agree"
   ],
   "note": ""
  },
  {
   "property": "C61",
   "status": "proved",
   "theorems": [
    "FastFloat.C61_pns_value",
    "FastFloat.C61_pns_long",
    "FastFloat.C61_pns_float16",
    "FastFloat.C61_pns_long_float16",
    "FastFloat.C61_pns_float16_exact"
   ],
   "note": "float16_t is covered with its exceptions; C61_pns_float16_exact (Spec/HalfScaled.lean) determines its value and error code completely."
  },
  {
   "property": "C62",
   "status": "proved",
   "theorems": [
    "FastFloat.C62_any_units",
    "FastFloat.C62_int_any_units",
    "FastFloat.C62_complete",
    "FastFloat.C62_complete_float16"
   ],
   "note": "The 48 units of a signed 4-byte wchar_t for which is_integer's subtraction overflows (undefined behaviour, finding h) are excluded in the floating-point theorems; the code's own notion of blank (finding c) is part of the statement."
  },
  {
   "property": "C63",
   "status": "proved",
   "theorems": [
    "FastFloat.C63_scanner",
    "FastFloat.C63_without_spans"
   ],
   "note": ""
  },
  {
   "property": "C64",
   "status": "proved",
   "theorems": [
    "FastFloat.C64_float_list",
    "FastFloat.C64_float_stop",
    "FastFloat.C64_int_list",
    "FastFloat.C64_int_list_round_trip"
   ],
   "note": ""
  },
  {
   "property": "C65",
   "status": "proved",
   "theorems": [
    "FastFloat.C65_float_format_bits",
    "FastFloat.C65_hex_is_ignored",
    "FastFloat.C65_hex_text",
    "FastFloat.C65_int_format_bits"
   ],
   "note": ""
  },
  {
   "property": "C66",
   "status": "proved",
   "theorems": [
    "FastFloat.C66_scientific_text",
    "FastFloat.C66_fixed_text"
   ],
   "note": ""
  },
  {
   "property": "C67",
   "status": "proved",
   "theorems": [
    "FastFloat.C67_digits10",
    "FastFloat.C67_distinct",
    "FastFloat.C67_max_digits10"
   ],
   "note": ""
  },
  {
   "property": "C68",
   "status": "proved",
   "theorems": [
    "FastFloat.C68_of_u64",
    "FastFloat.C68_unique",
    "FastFloat.C68_small_mul",
    "FastFloat.C68_small_add",
    "FastFloat.C68_long_mul",
    "FastFloat.C68_shl",
    "FastFloat.C68_pow5",
    "FastFloat.C68_pow10",
    "FastFloat.C68_compare",
    "FastFloat.C68_hi64"
   ],
   "note": "IsBig states the representation as a weighted sum over the limbs with no model helper; Computes states exact-if-fits / fails-if-not.  Operands are positive for the operations the code only uses on positive operands; the multiplier of small_mul is nonzero (a zero multiplier would leave zero limbs on top, which the code never does)."
  },
  {
   "property": "C69",
   "status": "proved",
   "theorems": [
    "FastFloat.C69_leading_zeroes",
    "FastFloat.C69_countr_zero",
    "FastFloat.C69_full_multiplication",
    "FastFloat.C69_byteswap",
    "FastFloat.C69_byteswap32",
    "FastFloat.C69_read8",
    "FastFloat.C69_read4"
   ],
   "note": "Plain arithmetic statements.  The compiler intrinsics themselves (clzll, ctz, __int128 multiplication) are modelled by their definition."
  },
  {
   "property": "C70",
   "status": "proved",
   "theorems": [
    "FastFloat.C70_stores",
    "FastFloat.C70_safe",
    "FastFloat.C70_safe_two",
    "FastFloat.C70_of_u64",
    "FastFloat.C70_small_mul",
    "FastFloat.C70_small_add",
    "FastFloat.C70_long_mul",
    "FastFloat.C70_shl",
    "FastFloat.C70_pow5",
    "FastFloat.C70_pow10",
    "FastFloat.C70_compare",
    "FastFloat.C70_hi64",
    "FastFloat.C70_from_chars",
    "FastFloat.C70_faults_cells",
    "FastFloat.C70_faults_index",
    "FastFloat.C70_faults_fresh"
   ],
   "note": "A second, lower-level model: cells that may be unwritten, 16-bit length, index assertions, copy_n / copy_backward / fill cell by cell, failed operations that leave partial updates, and the result of every operation ignored where the program ignores it."
  },
  {
   "property": "C71",
   "status": "proved",
   "theorems": [
    "FastFloat.C71_from_chars",
    "FastFloat.C71_from_chars_float16",
    "FastFloat.C71_alias",
    "FastFloat.C71_from_chars_base",
    "FastFloat.C71_from_chars_base_wide",
    "FastFloat.C71_default_float",
    "FastFloat.C71_default_int"
   ],
   "note": "Added after the seeded edits P03 and P04 (base or format argument dropped by the short overload) made only examples and C39 fail: the theorems about the advanced overloads did not mention the short ones. C71_default_*: the default arguments of from_chars and of parse_options_t (added after the seeded edits R7-B13 and R7-B14)."
  },
  {
   "property": "C72",
   "status": "proved",
   "theorems": [
    "FastFloat.C72_bitwise",
    "FastFloat.C72_assign",
    "FastFloat.C72_laws",
    "FastFloat.C72_flag_idioms",
    "FastFloat.C72_named",
    "FastFloat.C72_json_call",
    "FastFloat.C72_if_result",
    "FastFloat.C72_if_result_int"
   ],
   "note": "The integer part is for types of at most 64 bits."
  },
  {
   "property": "C73",
   "status": "proved",
   "theorems": [
    "FastFloat.C73_whole_text",
    "FastFloat.C73_whole_text_float16",
    "FastFloat.C73_whole_int"
   ],
   "note": "64-bit integers in the bases in which the overflow check is unsound are excluded (C28, C53)."
  },
  {
   "property": "C74",
   "status": "proved",
   "theorems": [
    "FastFloat.C74_every_option",
    "FastFloat.C74_nondigit_point",
    "FastFloat.C74_nondigit_point_float16",
    "FastFloat.C74_greedy_iff_munch",
    "FastFloat.C74_greedy_unique",
    "FastFloat.C74_digit_point",
    "FastFloat.C74_every_option_float16"
   ],
   "note": "Greedy (Spec/AnyPoint.lean) is the specification of the reading; for unambiguous points it is proved equal to the maximal munch of C50/C55. C74_every_option and C74_every_option_float16 have no hypothesis on the options at all."
  },
  {
   "property": "C75",
   "status": "proved",
   "theorems": [
    "FastFloat.C75_float_linear",
    "FastFloat.C75_scan_linear",
    "FastFloat.C75_parsed_linear",
    "FastFloat.C75_every_unit_is_paid",
    "FastFloat.C75_every_digit_is_paid"
   ],
   "note": "C75_every_*: the counter does not stand still - every code unit consumed and every digit put into the big integer is paid for; the loops of CostCounts/CostBig have exact step counts. at most 27 n + 104511 steps. Model/Cost.lean is the model with a counter in every loop; that the counted functions have the outcome of the uncounted ones is part of the theorems. Straight-line code between loops is not counted."
  },
  {
   "property": "C76",
   "status": "proved",
   "theorems": [
    "FastFloat.C76_int_linear",
    "FastFloat.C76_every_unit_is_paid"
   ],
   "note": "includes the equality of the outcomes of the counted and the uncounted model."
  },
  {
   "property": "C77",
   "status": "proved",
   "theorems": [
    "FastFloat.C77_table_regenerated",
    "FastFloat.C77_table_entries"
   ],
   "note": "the loops of the script are solved by general lemmas; the comparison with the header is the kernel's evaluation of the whole table."
  },
  {
   "property": "C78",
   "status": "proved",
   "theorems": [
    "FastFloat.C78_no_solutions",
    "FastFloat.C78_method_sound",
    "FastFloat.C78_no_carry",
    "FastFloat.C78_all_good",
    "FastFloat.C78_exact_division"
   ],
   "note": "independent of the lattice certificates used for C01: the soundness proof is a Legendre-type theorem proved along the script's own loop."
  },
  {
   "property": "C79",
   "status": "proved",
   "theorems": [
    "FastFloat.C79_lookahead_number",
    "FastFloat.C79_lookahead",
    "FastFloat.C79_lookahead_nan",
    "FastFloat.C79_more_input",
    "FastFloat.C79_sharp",
    "FastFloat.C79_lookahead_int"
   ],
   "note": "No hypothesis on the options."
  },
  {
   "property": "C80",
   "status": "proved",
   "theorems": [
    "FastFloat.C80_short",
    "FastFloat.C80_settled",
    "FastFloat.C80_parsed"
   ],
   "note": "Steps are those of the counted model (Model/Cost.lean): code units looked at and limbs touched. C80_settled is stated for double, float and bfloat16_t and leaves out the smallest normal number, for which the code has two internal representations and may do the comparison needlessly."
  },
  {
   "property": "C81",
   "status": "proved",
   "theorems": [
    "FastFloat.C81_narrow",
    "FastFloat.C81_sharp",
    "FastFloat.wider_double_float",
    "FastFloat.wider_double_bfloat",
    "FastFloat.wider_float_bfloat",
    "FastFloat.C81_narrow_float16",
    "FastFloat.C81_tie",
    "FastFloat.wider_double_half",
    "FastFloat.wider_float_half"
   ],
   "note": ""
  },
  {
   "property": "C82",
   "status": "proved",
   "theorems": [
    "FastFloat.C82_ipv4",
    "FastFloat.C82_ipv4_rejects",
    "FastFloat.C82_ipv4_print",
    "FastFloat.C82_ipv4_buffer",
    "FastFloat.C82_ipv4_round_trip",
    "FastFloat.C82_seek"
   ],
   "note": ""
  },
  {
   "property": "C83",
   "status": "proved",
   "theorems": [
    "FastFloat.C83_leading_digits",
    "FastFloat.C83_sharp"
   ],
   "note": ""
  },
  {
   "property": "C84",
   "status": "proved",
   "theorems": [
    "FastFloat.C84_rcpp",
    "FastFloat.C84_trimmed",
    "FastFloat.C84_trimmed_float16",
    "FastFloat.C84_rejects"
   ],
   "note": ""
  },
  {
   "property": "C85",
   "status": "proved",
   "theorems": [
    "FastFloat.C85_validate",
    "FastFloat.C85_validate_total",
    "FastFloat.C85_sum",
    "FastFloat.C85_sum_exact",
    "FastFloat.C85_round_trip"
   ],
   "note": ""
  },
  {
   "property": "C86",
   "status": "proved",
   "theorems": [
    "FastFloat.C86_monotone",
    "FastFloat.C86_product_only",
    "FastFloat.C86_shift",
    "FastFloat.C86_monotone_integer",
    "FastFloat.C86_monotone_power",
    "FastFloat.C86_odd",
    "FastFloat.C86_exact"
   ],
   "note": ""
  },
  {
   "property": "C87",
   "status": "proved",
   "theorems": [
    "FastFloat.C87_whole",
    "FastFloat.C87_json",
    "FastFloat.C87_json_or_infnan",
    "FastFloat.C87_general",
    "FastFloat.C87_scientific",
    "FastFloat.C87_fixed",
    "FastFloat.C87_fortran",
    "FastFloat.C87_longest_match",
    "FastFloat.C87_int_longest_match"
   ],
   "note": "In JSON formats a text can be rejected although a prefix matches (01 or 1.x); what is rejected there is C16."
  },
  {
   "property": "C88",
   "status": "proved",
   "theorems": [
    "FastFloat.C88_single_header",
    "FastFloat.C88_headers",
    "FastFloat.C88_same_lines",
    "FastFloat.C88_same_meaning",
    "FastFloat.C88_any_order",
    "FastFloat.C88_again",
    "FastFloat.C88_mixed",
    "FastFloat.C88_repository",
    "FastFloat.Script.C88_notices",
    "FastFloat.Script.C88_authors",
    "FastFloat.Script.C88_license",
    "FastFloat.Script.C88_not_offered",
    "FastFloat.Script.C88_apache_last_line",
    "FastFloat.Script.C88_wording"
   ],
   "note": "C88_repository discharges the condition on the pieces (closed conditionals, no stray guards) for all headers whose lines beginning with # are those of the repository (Model/Directives.lean, generated). C88_apache_last_line records a defect of the script (section 6 (o))."
  },
  {
   "property": "C89",
   "status": "proved",
   "theorems": [
    "FastFloat.C89_text",
    "FastFloat.C89_any_source",
    "FastFloat.C89_read",
    "FastFloat.C89_short",
    "FastFloat.C89_range",
    "FastFloat.C89_first",
    "FastFloat.C89_uniform",
    "FastFloat.C89_reaches_all"
   ],
   "note": "The rest of the two test programs (strtod, printing) is not modelled. float16_t is left to C52."
  },
  {
   "property": "C90",
   "status": "proved",
   "theorems": [
    "FastFloat.Overload.C90_integer_times_pow10",
    "FastFloat.Overload.C90_integer_times_pow10_wide",
    "FastFloat.Overload.C90_integer_times_pow10_rejects",
    "FastFloat.Overload.C90_without_the_forwarders",
    "FastFloat.Overload.C90_from_chars",
    "FastFloat.Overload.C90_no_mixed_call",
    "FastFloat.Overload.C90_from_chars_advanced",
    "FastFloat.Overload.C90_supported",
    "FastFloat.Overload.C90_formats",
    "FastFloat.Overload.C90_char_types"
   ],
   "note": "The rules of C++ overload resolution used (conversion ranks, promotions, fixed parameters before deduced ones) are Spec/Overload.lean; class types are left out. For 128-bit integers the argument is reduced modulo 2^64 without a diagnostic (C90_integer_times_pow10_wide)."
  },
  {
   "property": "C91",
   "status": "proved",
   "theorems": [
    "FastFloat.C91_cells",
    "FastFloat.C91_cells_float16",
    "FastFloat.C91_neighbours",
    "FastFloat.C91_partition",
    "FastFloat.C91_integer_times_pow10",
    "FastFloat.C91_integer_times_pow10_float16"
   ],
   "note": "Stated without distances and without the definition of correct rounding used in C01-C03 (Spec/Cell.lean), so it also checks that definition."
  },
  {
   "property": "C92",
   "status": "proved",
   "theorems": [
    "FastFloat.C92_greatest",
    "FastFloat.C92_rounded_maximum",
    "FastFloat.C92_throws",
    "FastFloat.C92_throws_any_build",
    "FastFloat.C92_nan_forgets"
   ],
   "note": "The comparison a > b of the hardware is modelled on bit patterns (Model/Findmax.lean) and shown to be the order of the values."
  }
 ]
}