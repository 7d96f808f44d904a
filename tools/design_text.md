# Formal model of fast_float in Lean 4 — design

(Generated by `tools/gen_design.py` from `tools/design_text.md`, `properties.jsonl` and `MANIFEST.json`.)

## 1. Trusted base

* **Lean 4.33.0's kernel.**
* **Axioms**: every theorem named in `MANIFEST.json` depends on at most `propext`, `Classical.choice` and `Quot.sound` (the three axioms of
  Lean/Mathlib).  No axiom is added, nothing is left unproved, no `native_decide`, no `bv_decide`; `decide +kernel` is evaluated by the
  kernel itself.
* **The reading of the C++ source**: every definition under `lean/Verif/Model/` cites the file and lines it models, and says where it
  simplifies.  The numeric tables of the source (the 2×651 words of `power_of_five_128`, `chdigit`, `space_lut`, `maxdigits_u64`, `min_safe_u64`,
  `large_power_of_5`, `small_power_of_5`, `powers_of_ten_uint64`, the `max_mantissa` tables) were compared with `/repo` by script.
  As a check of that reading, `Verif/Tests/Vectors.lean` (generated by `tools/gen_vectors.py`) has the kernel run the model, in three
  configurations, on the repository's own test vectors: the 430 floating-point vectors of `tests/basictest.cpp`, `json_fmt.cpp` and
  `fortran.cpp` (all four types, both decimal points, 8-, 16- and 32-bit characters), the 367 integer vectors of `tests/fast_int.cpp`, and the
  8 rejections of `json_fmt.cpp` with their reasons and positions.  All agree.  They are **tests** of the transcription, not proofs; no claim
  rests on them.
* **IEEE-754 hardware arithmetic.**  The Clinger fast path uses `T(m)`, `*`, `/`, unary `-`, `+`, `==` of the machine.  `Model/Fpu.lean` models them as
  "the exact result, rounded in the thread's rounding mode" — rounded first to the wider evaluation format when `FLT_EVAL_METHOD` says so
  — and literals `1eN` in the power tables as rounded to nearest by the compiler.  That this model is the standard's definition (`Spec/Ieee.lean`), in the four
  directions and for every evaluation method, is proved (C37_hardware_*); that the machine is the standard's is trusted.
* **The statements**: `Verif/Spec/*` (which imports nothing of the model) and `Verif/Props/Vocabulary.lean` (which imports only model and
  specification) are all a reader has to trust or read besides the theorem statements in `Verif/Props/*`.

## 2. The model (`lean/Verif/Model/`)

| file | models |
|---|---|
| `Basic` | execution monad, words, configuration, character types, `chars_format`, `parse_options`, pointer primitives |
| `FloatCommon` | float_common.h: `binary_format<T>`, `leading_zeroes`, `countr_zero_32`, `umul128_generic`, `full_multiplication`, `to_float`, `is_space`, digit tables, `fastfloat_strncasecmp*` |
| `Fpu` | hardware floating point; `rounds_to_nearest`, `exact_power_of_ten` |
| `Table` | fast_table.h |
| `Decimal` | decimal_to_binary.h: `compute_product_approximation`, `compute_float`, `compute_error*` |
| `Ascii` | ascii_number.h: SWAR/SIMD digit blocks, `parse_number_string` |
| `ParseInt` | ascii_number.h: `parse_int_string` with the `uint8_t` and `uint16_t` paths |
| `BigInt` | bigint.h |
| `DigitComp` | digit_comparison.h |
| `StackVec` | bigint.h a second time, in memory: indeterminate cells, 16-bit length, cell-by-cell copies, partial updates of failed operations |
| `Format` | the operators of `chars_format` and `from_chars_result::operator bool` |
| `MemDigitComp` | digit_comparison.h and the float overloads on top of `StackVec`, ignoring the results the program ignores |
| `Scripts` | script/table_generation.py, script/mushtak_lemire.py, script/analysis.py |
| `Ipv4` | tests/ipv4_test.cpp and benchmarks/bench_ip.cpp: the IPv4 printer and readers, clients of `from_chars<uint8_t>` |
| `Clients` | tests/rcppfastfloat_test.cpp:57-95 (a field with blanks around it) and benchmarks/bench_uint16.cpp (validation and summing loops over a delimited list) |
| `RandomString` | tests/random_string.cpp:55-151 and tests/short_random_string.cpp:55-146 (engine and generator) |
| `Overload` | the constraints of the public overloads: float_common.h:256-294, fast_float.h:33-86, parse_number.h:410-486 (forwarding), 516-546 (which function runs, not what it does) |
| `Findmax` | benchmarks/benchmark.cpp:25-51, the loops of `findmax_fastfloat64` and `findmax_fastfloat32` (a client of the library); the comparison of two floating-point values is modelled on bit patterns, the conversion of the float answer to double is left out |
| `Amalgamate`, `Directives` | script/amalgamate.py: the single header as a text; the include structure of the nine headers, and their lines beginning with `#` (generated by tools/gen_directives.py) |
| `Cost` | every looping function once more, with a step counter |
| `ParseNumber` | parse_number.h: `parse_infnan`, `clinger_fast_path_impl`, every `from_chars*` and `integer_times_pow10` overload |

* The execution monad is `Except UB`.  Undefined behaviour (out-of-range pointer or table access, shift by the word size or more, `clz(0)`, signed
  overflow), a failed push to a full big integer, and a loop that outlives its fuel are distinct outcomes; "defined" in a theorem means that the outcome is
  `.ok`, so it includes termination.
* `Cost` counts the steps of the loops (code units examined, limbs touched); a counted function has the outcome of the uncounted one by theorem.  Straight-line code
  is not counted.
* Machine words are `Nat` with explicit `% 2^w`; signed arithmetic is `Int` with a range check wherever an operand depends on the input.
* A pointer into `[first, last)` is the list of the code units from it to `last`; the `ptr` of the API is an offset.  A code unit is its bit
  pattern; `CharType` gives width, signedness and the two types with special code (`char`, `char16_t`).
* `Cfg` collects what the preprocessor, the compiler or the thread selects: limb width, native 128-bit multiplication, `__int128`, overflow builtins,
  endianness, SIMD flavour, clang, constant evaluation, 32-bit system, the two feature macros, the rounding mode, `FLT_EVAL_METHOD`.  Theorems
  quantify over all of it.
* Options: `Fmt` is the whole bit set, so combinations of flags that have no name are covered.

### Not modelled
Template instantiation (the four floating-point formats, the integer types of 1, 8, 16, 32, 64 and 128 bits and the character types of 1, 2, 4 bytes are
parameters instead; which public overload a call selects is modelled in `Overload`, C90, for the value type, the integer argument and the extra argument, with the
rules of overload resolution reduced to what these signatures need, and not for user-defined conversions); `static_assert`s; attribute and warning macros; `constexpr_feature_detect.h`
and `generic`/`span` plumbing (`span` is a list); the object-lifetime rules of C++ (`memcpy` is a word of the bytes; indeterminate values are modelled for the limbs of the big integer only, in `StackVec`);
aliasing of `value` with the input; time other than the steps counted in `Cost`, and stack use; compilers that miscompile; hardware that does not follow IEEE-754 (e.g. flush-to-zero);
x87 double rounding of the *exponent* range (the 80-bit format is modelled with its own exponent range).
The dead `if (counter != 0)` at the end of `parse_mantissa` is omitted in `DigitComp` and present in `MemDigitComp`.  Texts are shorter than 2^62 code units (memory).

## 3. The specification (`lean/Verif/Spec/`)

* `Float`: IEEE formats, the rational value of a bit pattern, `RoundsTo` ("no finite float is closer; the even one in a tie; infinity from the
  threshold on").
* `Numeral`: abstract syntax of numerals, their text and rational value, the grammar a format word selects (`Rules`), and a reference scanner.
* `Api`: `inf`/`nan` texts, white space, preferences of a call.
* `Complete`: declarative maximal munch and `FloatCall` — the relation between text, options and (ptr, ec, value).
* `Diagnosis`: why no numeral starts at a text, and where (the nine `parse_error` codes), and the significand and exponent of a numeral.
* `AnyPoint`: the greedy reading of a text for an arbitrary (ambiguous) decimal point.
* `Narrow`: the midpoints of a format (C81).
* `HalfScaled`: what `std::float16_t` gets for a 64-bit significand times a power of ten, exceptions included.
* `Ipv4`: dotted addresses.
* `Fields`: numbers joined by a delimiter.
* `Preprocess`: the part of the C++ preprocessor that include guards and quoted includes need (C88).
* `Random`: the numerals that the generators of random numerals make (C89).
* `Ieee`: the arithmetic operations of IEEE 754, in the four rounding directions, and evaluation in a wider format (C37).
* `Standards`: RFC 8259, `strtod` / `std::from_chars`, the presets of the library and integers as regular expressions (C87; refers to no other specification).
* `Cell`: the half-way points between neighbouring values and the interval that belongs to each value (C91; an independent account of rounding to nearest even).
* `Overload`: the C++ rules that decide which function a call means: types, conversion ranks, best viable function (C90; refers to no other specification).
* `Leading`: the leading significant digits of a numeral and their place (C83).
* `Print`: texts of numbers (used by the round-trip properties).
* `Whole`: texts that are a number from the first character to the last.
* `Integer`: digits in a base, ranges of integer types, `IntCall`, and the exact (wrapping) variant.

## 4. Proof architecture (`lean/Verif/Proofs/`)

1. `RN`: local midpoint characterisation of nearest-even over the index of floats; equivalent to `RoundsTo`.
2. Table facts: all 651 entries of `power_of_five_128` against exact powers of five (kernel evaluation of the whole table).
3. Mushtak–Lemire: a two-vector lattice certificate for each entry shows that no 64-bit `w` makes the truncated product ambiguous; lifted by a lemma
   for all `w`.
4. `compute_float` = `RN` for all `w < 2^64` and all `q`.
5. Big integers: each operation refines `Nat`; the capacity is never exceeded.  The vector in memory refines the list (`Proofs/StackVec`, `Proofs/MemDigitComp`).
6. `digit_comp` = `RN` for every digit string.
7. Scanner: `parse_number_string` = reference scanner = maximal munch; SWAR/SIMD blocks = digit folding, by lane induction.
8. `parse_int_string` = reference, fast paths = generic loop.
9. Top level: `from_chars*`, `integer_times_pow10`, `from_chars_advanced(pns)`.

## 5. Properties

| id | property | status | how | theorems |
|----|----------|--------|-----|----------|
@@TABLE@@

Each theorem with hypotheses is accompanied by `example`s that meet them with concrete, non-trivial data, beside the theorem or in `Props/Instances.lean`.  A status of *partial* means that **the code violates
the property**; then the violation is a theorem too, and the exact behaviour is given by a `_sharp` theorem or by C52, C53, C54.

## 6. What the proofs found in the code

(a) C28: the overflow check of 64-bit integer parsing misses literals: `"30000000000000000000"` parses as `uint64_t` 11553255926290448384 with success; `"-3"` followed by 21 zeros parses in base 8
  as `INT64_MIN`.  Exactly which: C29_sharp, C53.
(b) `std::float16_t`: an overflow on the fast path (`"2000e4"`) stores infinity but reports success; under another rounding mode or in constant evaluation it reports an error (C05_float16_sharp, C35_float16_sharp).
(c) `is_space` indexes by `uint8_t(c)` after a signed comparison: negative `wchar_t` units whose low byte is a blank are taken for blanks (C62 gives the exact behaviour).
(d) Exponents saturate at 2^28: `0.` + 2^28 zeros + `1e268435457` is not 0.1·… (C42_limit); exact statement C55.
(e) `integer_times_pow10(INT64_MIN, e)` negates the minimum: undefined behaviour.
(f) `std::float16_t`: ties between subnormals `(2j+1)/2^25`, `j` even, `j ≤ 16` (`≤ 30` for `integer_times_pow10`) are rounded up instead of to even.
(g) The `std::float32_t`/`std::float64_t` overloads overwrite `value` with 0 on `invalid_argument`.
(h) `is_integer` on a signed 4-byte `wchar_t` in `[0x80000000, 0x8000002F]` overflows a signed subtraction.
(i) C34 for float16 fails exactly for `j` even, `16 < j ≤ 30`.
(j) A digit as decimal point gives wrong values (C50_digit_point; exactly which: C74_digit_point).
(k) `__int128`: every negative literal except `-0` is reported out of range; magnitudes ≥ 2^64 are rejected or wrapped (C54); `integer_times_pow10` wraps them (C33_int128_wraps).
(l) `fastfloat_strncasecmp` with an expected string that is not lower case: compile-time and run-time answers differ (C58_upper_case_expected).
(m) The `max_mantissa` table of `double` lacks the entry `2^53/5^14`, so entries 14–23 are those of the next index: conservative, a missed fast path only.
(n) With `chars_format::json_or_infnan | allow_leading_plus`, `+inf` is accepted although `+1` is not; with the Fortran flag only, `1+` is rejected as a whole.

(o) `script/amalgamate.py` cuts the last line of LICENSE-APACHE ("limitations under the License.") off the notice in the single header: `lines[179:-1]` where the file ends
with that line (`C88_apache_last_line`).

(p) `findmax_fastfloat64` in the benchmark forgets everything before a line that is a NaN: `answer > x ? answer : x` takes x, and the next number replaces the NaN:
5, nan, 3 gives 3 (C92_nan_forgets).

## 7. Wrong programs

`seeded/LOG.jsonl` records edits of the model (one realistic bug each), the observable difference found by running the edited model, the theorems that
no longer check, and the claims that depend on them.
