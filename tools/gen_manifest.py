#!/usr/bin/env python3
"""Write MANIFEST.json from the table below (property -> status, theorems, note)."""
import json, os
CLAIMS = {
 "C01": ("proved", ["C01_double_correctly_rounded"], "Every accepted numeral of at most 2^28-400 significand digits or with |exponent| < 2^28 (Moderate); C42_limit shows why the side condition is needed."),
 "C02": ("proved", ["C02_float_correctly_rounded"], "As C01 for float."),
 "C03": ("proved", ["C03_bfloat16_correctly_rounded"], "As C01 for bfloat16."),
 "C04": ("partial", ["C04_float16_correctly_rounded_partial", "C04_float16_sharp", "C04_float16_counterexample"], "The property is false of the code on exactly nine magnitudes, the ties (2j+1)/2^25 with j even, j <= 16; the partial theorem covers everything else and C04_float16_sharp proves the exact result everywhere, these nine included."),
 "C05": ("partial", ["C05_overflow", "C05_overflow_float16_partial", "C05_float16_sharp", "C05_float16_counterexample"], "Proved for double, float, bfloat16; float16 stores infinity but does not report the error on the fast path. C05_float16_sharp says exactly when."),
 "C06": ("proved", ["C06_underflow", "C06_float16_half_min"], ""),
 "C07": ("proved", ["C07_every_digit_counts"], ""),
 "C08": ("proved", ["C08_minus_sign"], ""),
 "C09": ("proved", ["C09_spelling_independence", "C09_value_independence"], ""),
 "C10": ("proved", ["C10_monotone"], ""),
 "C11": ("proved", ["C11_round_trip", "C11_exact_value", "C11_relative", "C11_seventeen_digits", "C11_nine_digits"], ""),
 "C12": ("proved", ["C12_longest_numeral"], ""),
 "C13": ("proved", ["C13_acceptance_complete", "C13_rejection", "C13_irregular_format"], "For formats with fixed or scientific, or without the Fortran bit; the Fortran-only format is irregular (proved)."),
 "C14": ("proved", ["C14_failure_leaves_value", "C14_success_stores", "C14_any_point"], "The *_any_point theorems (module EveryPoint) hold for every options value, also where the decimal point is a digit, a sign or an exponent letter."),
 "C15": ("proved", ["C15_scientific_only", "C15_fixed_only", "C15_exponent_consumed", "C15_exponent_left"], ""),
 "C16": ("proved", ["C16_json_acceptance", "C16_json_text"], ""),
 "C17": ("proved", ["C17_fortran_exponents", "C17_no_fortran"], "For float16_t the value is stated outside the nine ties of C04."),
 "C18": ("proved", ["C18_plus_rejected", "C18_plus_json", "C18_plus_transparent", "C18_double_sign"], ""),
 "C19": ("proved", ["C19_blanks_skipped", "C19_blank_rejected", "C19_only_blanks", "C19_any_point"], "The *_any_point theorems (module EveryPoint) hold for every options value, also where the decimal point is a digit, a sign or an exponent letter."),
 "C20": ("proved", ["C20_infinity", "C20_nan", "C20_only_these", "C20_infinity_any_point", "C20_nan_any_point", "C20_quiet_nan"], "The *_any_point theorems (module EveryPoint) hold for every options value, also where the decimal point is a digit, a sign or an exponent letter."),
 "C21": ("proved", ["C21_no_infnan", "C21_number_or_invalid", "C21_any_point"], "The *_any_point theorems (module EveryPoint) hold for every options value, also where the decimal point is a digit, a sign or an exponent letter."),
 "C22": ("proved", ["C22_decimal_point"], ""),
 "C23": ("proved", ["C23_delimiter", "C23_any_point"], "The *_any_point theorems (module EveryPoint) hold for every options value, also where the decimal point is a digit, a sign or an exponent letter."),
 "C24": ("proved", ["C24_float_defined", "C24_negative_wchar", "C24_faults_text", "C24_faults_tables", "C24_faults_shifts", "C24_faults_signed", "C24_faults_clz", "C24_faults_vector", "C24_faults_rounds"], "C24_faults_* say what a fault is, operation by operation. For units that are non-negative as a value of the character type (always so except for negative wchar_t), and every decimal point, digits included."),
 "C25": ("proved", ["C25_int_defined"], "Every code unit of every character type, negative wchar_t included."),
 "C26": ("proved", ["C26_bigint_room"], ""),
 "C27": ("proved", ["C27_int_exact"], ""),
 "C28": ("partial", ["C28_overflow_partial", "C28_undetected", "C28_counterexample"], "False for 64-bit types: C28_overflow_partial proves it outside the exact set of values that escape the check, C28_undetected proves that all of those are accepted, C28_counterexample gives two literals."),
 "C29": ("proved", ["C29_overflow", "C29_sharp"], ""),
 "C30": ("proved", ["C30_int_rejected"], ""),
 "C31": ("proved", ["C31_error_leaves_value"], ""),
 "C32": ("partial", ["C32_integer_times_pow10_unsigned", "C32_integer_times_pow10_float16_partial", "C32_float16_sharp", "C32_float16_counterexample"],
  "Proved in full for double, float and bfloat16; for float16 proved except on the 16 exact subnormal ties (2j+1)/2^25, j even, j <= 30, where the code is wrong; C32_float16_sharp is the exact result everywhere."),
 "C33": ("partial", ["C33_integer_times_pow10_signed_partial", "C33_int64_min_undefined", "C33_integer_times_pow10_any", "C33_float16_sharp", "C33_int128_wraps"],
  "Proved for every int64_t except INT64_MIN, on which the code performs an undefined signed negation (proved)."),
 "C34": ("partial", ["C34_pow10_agrees", "C34_text", "C34_float16_sharp", "C34_float16_counterexample"], "Proved for double, float, bfloat16; false for float16 subnormal ties (proved)."),
 "C35": ("partial", ["C35_build_independence", "C35_build_independence_float16_partial", "C35_float16_sharp", "C35_float16_counterexample", "C35_any_point", "C35_any_point_float16"], "Proved in full for double, float, bfloat16; for float16 the pointer and value are independent (C37_value_independence) but the error code is not (proved)."),
 "C36": ("proved", ["C36_character_type", "C36_any_point"], "The *_any_point theorems (module EveryPoint) hold for every options value, also where the decimal point is a digit, a sign or an exponent letter."),
 "C37": ("proved", ["C37_value_independence", "C37_any_point", "C37_hardware_convert", "C37_hardware_mul", "C37_hardware_div", "C37_hardware_add", "C37_hardware_sub", "C37_hardware_literal", "C37_rounds_to_nearest_exact"], "C37_hardware_*: the model of the floating-point unit is IEEE 754's in all four directions and under every FLT_EVAL_METHOD (Spec/Ieee.lean). The *_any_point theorems (module EveryPoint) hold for every options value, also where the decimal point is a digit, a sign or an exponent letter."),
 "C38": ("proved", ["C38_macros_are_flags", "C38_any_point"], "The *_any_point theorems (module EveryPoint) hold for every options value, also where the decimal point is a digit, a sign or an exponent letter."),
 "C39": ("partial", ["C39_alias_partial", "C39_alias_overwrites", "C71_alias"], "Pointer, error code and value agree; but on invalid_argument the alias overloads overwrite value with 0 (proved); C71_alias gives their exact behaviour."),
 "C40": ("proved", ["C40_fast_paths"], ""),
 "C41": ("proved", ["C41_eight_test", "C41_four_test", "C41_eight_value", "C41_four_value", "C41_simd_test"], ""),
 "C42": ("proved", ["C42_exponent_of_any_size", "C42_limit"], "For float16_t outside the nine ties of C04."),
 "C43": ("proved", ["C43_round_trip"], ""),
 "C44": ("proved", ["C44_never_nan", "C44_any_point"], "The *_any_point theorems (module EveryPoint) hold for every options value, also where the decimal point is a digit, a sign or an exponent letter."),
 "C45": ("proved", ["C45_pns_overload"], ""),
 "C46": ("proved", ["C46_int_independence", "C46_int_macros"], ""),
 "C47": ("proved", ["C47_int_spelling"], ""),
 "C48": ("proved", ["C48_plus_transparent", "C48_plus_rejected", "C48_blanks_skipped", "C48_blank_rejected"], ""),
 "C50": ("proved", ["C50_complete", "C50_complete_short", "C50_deterministic", "C50_float16", "C50_digit_point"], "C50_complete is the full claim for double, float and bfloat16_t; C50_float16 is the same if-and-only-if for the actual behaviour of float16_t; C50_digit_point shows why a digit is excluded as decimal point."),
 "C52": ("proved", ["C50_float16", "C04_float16_sharp", "C05_float16_sharp", "C06_float16_half_min", "C32_float16_sharp", "C33_float16_sharp", "C34_float16_sharp", "C35_float16_sharp"], "The exact behaviour, exceptions included, of the one type for which C04, C05, C32, C34 and C35 are false."),
 "C51": ("partial", ["C51_complete_int_partial", "C51_deterministic"], "Proved wherever the overflow check of the code is sound (all types up to 32 bits; bases 2, 4, 16; signed 64-bit also bases 3, 9, 10, 19, 23, 29, 30). In the other 64-bit cases the code is wrong: C28_undetected, C29_sharp."),
 "C53": ("proved", ["C53_actual_int", "C53_deterministic"], "The exact behaviour in every case, including the 64-bit cases in which C28 and C51 are false."),
 "C54": ("proved", ["C54_int128", "C54_deterministic", "C54_counterexample"], "The exact behaviour; most of it is not what a user wants (C54_counterexample)."),
 "C55": ("proved", ["C55_total", "C55_total_float16", "C55_nine_digit_exponent", "C55_small_exponent"], "No bound on the length of the text, unlike C01 and C50."),
 "C56": ("proved", ["C56_reparse", "C56_reparse_int", "C56_any_point"], "The *_any_point theorems (module EveryPoint) hold for every options value, also where the decimal point is a digit, a sign or an exponent letter."),
 "C57": ("proved", ["C57_error_bound", "C57_error_bound_pow10", "C57_small_integer"], ""),
 "C58": ("proved", ["C58_case_insensitive", "C58_bit_five", "C58_upper_case_expected"], ""),
 "C59": ("proved", ["C59_permissive", "C59_permissive_int"], ""),
 "C60": ("proved", ["C60_int_float_agree"], ""),
 "C61": ("proved", ["C61_pns_value", "C61_pns_long", "C61_pns_float16", "C61_pns_long_float16", "C61_pns_float16_exact"], "float16_t is covered with its exceptions; C61_pns_float16_exact (Spec/HalfScaled.lean) determines its value and error code completely."),
 "C62": ("proved", ["C62_any_units", "C62_int_any_units", "C62_complete", "C62_complete_float16"], "The 48 units of a signed 4-byte wchar_t for which is_integer's subtraction overflows (undefined behaviour, finding h) are excluded in the floating-point theorems; the code's own notion of blank (finding c) is part of the statement."),
 "C63": ("proved", ["C63_scanner", "C63_without_spans"], ""),
 "C64": ("proved", ["C64_float_list", "C64_float_stop", "C64_int_list", "C64_int_list_round_trip"], ""),
 "C49": ("proved", ["C49_int_delimiter"], ""),
 "C65": ("proved", ["C65_float_format_bits", "C65_hex_is_ignored", "C65_hex_text", "C65_int_format_bits"], ""),
 "C66": ("proved", ["C66_scientific_text", "C66_fixed_text"], ""),
 "C67": ("proved", ["C67_digits10", "C67_distinct", "C67_max_digits10"], ""),
 "C68": ("proved", ["C68_of_u64", "C68_unique", "C68_small_mul", "C68_small_add", "C68_long_mul", "C68_shl", "C68_pow5", "C68_pow10", "C68_compare", "C68_hi64"], "IsBig states the representation as a weighted sum over the limbs with no model helper; Computes states exact-if-fits / fails-if-not.  Operands are positive for the operations the code only uses on positive operands; the multiplier of small_mul is nonzero (a zero multiplier would leave zero limbs on top, which the code never does)."),
 "C69": ("proved", ["C69_leading_zeroes", "C69_countr_zero", "C69_full_multiplication", "C69_byteswap", "C69_byteswap32", "C69_read8", "C69_read4"], "Plain arithmetic statements.  The compiler intrinsics themselves (clzll, ctz, __int128 multiplication) are modelled by their definition."),
 "C70": ("proved", ["C70_stores", "C70_safe", "C70_safe_two", "C70_of_u64", "C70_small_mul", "C70_small_add", "C70_long_mul", "C70_shl", "C70_pow5", "C70_pow10", "C70_compare", "C70_hi64", "C70_from_chars", "C70_faults_cells", "C70_faults_index", "C70_faults_fresh"], "A second, lower-level model: cells that may be unwritten, 16-bit length, index assertions, copy_n / copy_backward / fill cell by cell, failed operations that leave partial updates, and the result of every operation ignored where the program ignores it."),
 "C71": ("proved", ["C71_from_chars", "C71_from_chars_float16", "C71_alias", "C71_from_chars_base", "C71_from_chars_base_wide", "C71_default_float", "C71_default_int"], "Added after the seeded edits P03 and P04 (base or format argument dropped by the short overload) made only examples and C39 fail: the theorems about the advanced overloads did not mention the short ones. C71_default_*: the default arguments of from_chars and of parse_options_t (added after the seeded edits R7-B13 and R7-B14)."),
 "C72": ("proved", ["C72_bitwise", "C72_assign", "C72_laws", "C72_flag_idioms", "C72_named", "C72_json_call", "C72_if_result", "C72_if_result_int"], "The integer part is for types of at most 64 bits."),
 "C73": ("proved", ["C73_whole_text", "C73_whole_text_float16", "C73_whole_int"], "64-bit integers in the bases in which the overflow check is unsound are excluded (C28, C53)."),
 "C74": ("proved", ["C74_every_option", "C74_nondigit_point", "C74_nondigit_point_float16", "C74_greedy_iff_munch", "C74_greedy_unique", "C74_digit_point", "C74_every_option_float16"], "Greedy (Spec/AnyPoint.lean) is the specification of the reading; for unambiguous points it is proved equal to the maximal munch of C50/C55. C74_every_option and C74_every_option_float16 have no hypothesis on the options at all."),
 "C75": ("proved", ["C75_float_linear", "C75_scan_linear", "C75_parsed_linear", "C75_every_unit_is_paid", "C75_every_digit_is_paid"], "C75_every_*: the counter does not stand still - every code unit consumed and every digit put into the big integer is paid for; the loops of CostCounts/CostBig have exact step counts. at most 27 n + 104511 steps. Model/Cost.lean is the model with a counter in every loop; that the counted functions have the outcome of the uncounted ones is part of the theorems. Straight-line code between loops is not counted."),
 "C76": ("proved", ["C76_int_linear", "C76_every_unit_is_paid"], "includes the equality of the outcomes of the counted and the uncounted model."),
 "C77": ("proved", ["C77_table_regenerated", "C77_table_entries"], "the loops of the script are solved by general lemmas; the comparison with the header is the kernel's evaluation of the whole table."),
 "C78": ("proved", ["C78_no_solutions", "C78_method_sound", "C78_no_carry", "C78_all_good", "C78_exact_division"], "independent of the lattice certificates used for C01: the soundness proof is a Legendre-type theorem proved along the script's own loop."),
 "C79": ("proved", ["C79_lookahead_number", "C79_lookahead", "C79_lookahead_nan", "C79_more_input", "C79_sharp", "C79_lookahead_int"], "No hypothesis on the options."),
 "C80": ("proved", ["C80_short", "C80_settled", "C80_parsed"], "Steps are those of the counted model (Model/Cost.lean): code units looked at and limbs touched. C80_settled is stated for double, float and bfloat16_t and leaves out the smallest normal number, for which the code has two internal representations and may do the comparison needlessly."),
 "C81": ("proved", ["C81_narrow", "C81_sharp", "wider_double_float", "wider_double_bfloat", "wider_float_bfloat", "C81_narrow_float16", "C81_tie", "wider_double_half", "wider_float_half"], ""),
 "C82": ("proved", ["C82_ipv4", "C82_ipv4_rejects", "C82_ipv4_print", "C82_ipv4_buffer", "C82_ipv4_round_trip", "C82_seek"], ""),
 "C83": ("proved", ["C83_leading_digits", "C83_sharp"], ""),
 "C84": ("proved", ["C84_rcpp", "C84_trimmed", "C84_trimmed_float16", "C84_rejects"], ""),
 "C85": ("proved", ["C85_validate", "C85_validate_total", "C85_sum", "C85_sum_exact", "C85_round_trip"], ""),
 "C86": ("proved", ["C86_monotone", "C86_product_only", "C86_shift", "C86_monotone_integer", "C86_monotone_power", "C86_odd", "C86_exact"], ""),
 "C87": ("proved", ["C87_whole", "C87_json", "C87_json_or_infnan", "C87_general", "C87_scientific", "C87_fixed", "C87_fortran", "C87_longest_match", "C87_int_longest_match"], "In JSON formats a text can be rejected although a prefix matches (01 or 1.x); what is rejected there is C16."),
 "C88": ("proved", ["C88_single_header", "C88_headers", "C88_same_lines", "C88_same_meaning", "C88_any_order", "C88_again", "C88_mixed", "C88_repository", "Script.C88_notices", "Script.C88_authors", "Script.C88_license", "Script.C88_not_offered", "Script.C88_apache_last_line", "Script.C88_wording"], "C88_repository discharges the condition on the pieces (closed conditionals, no stray guards) for all headers whose lines beginning with # are those of the repository (Model/Directives.lean, generated). C88_apache_last_line records a defect of the script (section 6 (o))."),
 "C89": ("proved", ["C89_text", "C89_any_source", "C89_read", "C89_short", "C89_range", "C89_first", "C89_uniform", "C89_reaches_all"], "The rest of the two test programs (strtod, printing) is not modelled. float16_t is left to C52."),
 "C90": ("proved", ["Overload.C90_integer_times_pow10", "Overload.C90_integer_times_pow10_wide", "Overload.C90_integer_times_pow10_rejects", "Overload.C90_without_the_forwarders", "Overload.C90_from_chars", "Overload.C90_no_mixed_call", "Overload.C90_from_chars_advanced", "Overload.C90_supported", "Overload.C90_formats", "Overload.C90_char_types"], "The rules of C++ overload resolution used (conversion ranks, promotions, fixed parameters before deduced ones) are Spec/Overload.lean; class types are left out. For 128-bit integers the argument is reduced modulo 2^64 without a diagnostic (C90_integer_times_pow10_wide)."),
 "C91": ("proved", ["C91_cells", "C91_cells_float16", "C91_neighbours", "C91_partition", "C91_integer_times_pow10", "C91_integer_times_pow10_float16"], "Stated without distances and without the definition of correct rounding used in C01-C03 (Spec/Cell.lean), so it also checks that definition."),
 "C92": ("proved", ["C92_greatest", "C92_rounded_maximum", "C92_throws", "C92_throws_any_build", "C92_nan_forgets"], "The comparison a > b of the hardware is modelled on bit patterns (Model/Findmax.lean) and shown to be the order of the values."),
}
root = os.path.dirname(os.path.dirname(os.path.abspath(__file__)))
out = {"claims": [{"property": p, "status": s, "theorems": ["FastFloat." + x for x in t], "note": n} for p, (s, t, n) in sorted(CLAIMS.items())]}
json.dump(out, open(os.path.join(root, "MANIFEST.json"), "w"), indent=1)
