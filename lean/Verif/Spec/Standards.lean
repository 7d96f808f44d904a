import Mathlib.Computability.RegularExpressions
/-
# The number formats of the standards, as regular expressions

This file refers neither to the model nor to the other specifications: the formats are written down as regular expressions over code units (Mathlib's
`RegularExpression`, where `+` is alternative, `*` is concatenation, `1` is the empty text and `0` matches nothing), clause by clause after

* RFC 8259, section 6 (numbers of JSON);
* ISO C, 7.22.1.3 (the subject sequence of `strtod`, decimal) and ISO C++, [charconv.from.chars] (what `std::from_chars` changes: a plus sign may appear only
  in the exponent, `scientific` without `fixed` makes the exponent mandatory, `fixed` without `scientific` forbids it);
* the README of the library (the presets `json`, `json_or_infnan`, `fortran` and the flags `no_infnan` and `allow_leading_plus`).
-/
namespace Standards
open RegularExpression

abbrev Pattern := RegularExpression Nat

/-- one of the listed characters -/
def oneOf : List Nat → Pattern
  | [] => 0
  | a :: l => char a + oneOf l

/-- `r` or nothing -/
def opt (r : Pattern) : Pattern := 1 + r

/-- `r` once or more -/
def many1 (r : Pattern) : Pattern := r * star r

/-- `0` to `9` -/
def digit : Pattern := oneOf [48, 49, 50, 51, 52, 53, 54, 55, 56, 57]

/-- `1` to `9` -/
def digit19 : Pattern := oneOf [49, 50, 51, 52, 53, 54, 55, 56, 57]

/-- `e` or `E`, an optional sign, digits -/
def exponent (letters : List Nat) : Pattern := oneOf letters * (opt (oneOf [43, 45]) * many1 digit)

/-! ### RFC 8259 -/

/-- `int = zero / ( digit1-9 *DIGIT )` -/
def jsonInt : Pattern := char 48 + digit19 * star digit

/-- `number = [ minus ] int [ frac ] [ exp ]`, with `frac = decimal-point 1*DIGIT` and `exp = e [ minus / plus ] 1*DIGIT` -/
def rfc8259 : Pattern := opt (char 45) * (jsonInt * (opt (char 46 * many1 digit) * opt (exponent [101, 69])))

/-! ### ISO C and C++ -/

/-- "a nonempty sequence of decimal digits optionally containing a decimal-point character" -/
def significand (point : Nat) : Pattern := many1 digit * opt (char point * star digit) + char point * many1 digit

/-- The letters of a word, ignoring case: `w` is the word in lower case. -/
def word : List Nat → Pattern
  | [] => 1
  | a :: w => oneOf [a, a - 32] * word w

/-- `INF` or `INFINITY`, ignoring case -/
def infinity : Pattern := word [105, 110, 102] + word [105, 110, 102, 105, 110, 105, 116, 121]

/-- a digit or a letter or an underscore -/
def nChar : Pattern := oneOf (List.range' 48 10 ++ List.range' 65 26 ++ [95] ++ List.range' 97 26)

/-- `NAN` or `NAN(n-char-sequence_opt)`, ignoring case in the `NAN` part -/
def nan : Pattern := word [110, 97, 110] * opt (char 40 * (star nChar * char 41))

/-- the pattern of `std::from_chars` with an optional exponent: `chars_format::general` -/
def general : Pattern := opt (char 45) * (significand 46 * opt (exponent [101, 69])) + opt (char 45) * (infinity + nan)

/-- `chars_format::scientific`: the exponent shall appear -/
def scientific : Pattern := opt (char 45) * (significand 46 * exponent [101, 69]) + opt (char 45) * (infinity + nan)

/-- `chars_format::fixed`: the exponent shall not appear -/
def fixed : Pattern := opt (char 45) * significand 46 + opt (char 45) * (infinity + nan)

/-! ### The presets and flags of the library -/

/-- `json_or_infnan`: a JSON number, or an infinity or a NaN with an optional minus sign -/
def jsonOrInfnan : Pattern := rfc8259 + opt (char 45) * (infinity + nan)

/-- `fortran`: the exponent may also be written with `d` or `D`, or with its sign alone -/
def fortranExponent : Pattern := exponent [101, 69] + exponent [100, 68] + oneOf [43, 45] * many1 digit

/-- `chars_format::fortran` -/
def fortran : Pattern := opt (char 45) * (significand 46 * opt fortranExponent) + opt (char 45) * (infinity + nan)

/-- The pattern of any combination of flags: `sci`, `fix`, `fort` = exponents with `e`, numbers without exponent, Fortran exponents; `json` = the significand of
RFC 8259; `plus` = a leading plus sign is allowed (not for JSON numbers); `special` = infinities and NaNs are allowed. -/
def pattern (sci fix fort json plus special : Bool) (point : Nat) : Pattern :=
  let expo := (if sci then exponent [101, 69] else 0) + (if fort then exponent [100, 68] + oneOf [43, 45] * many1 digit else 0)
  opt (oneOf (if plus && !json then [43, 45] else [45])) *
    ((if json then jsonInt * opt (char point * many1 digit) else significand point) * (if sci && !fix then expo else opt expo)) +
  (if special then opt (oneOf (if plus then [43, 45] else [45])) * (infinity + nan) else 0)

/-- The pattern that a `chars_format` value (scientific = bit 0, fixed = bit 2, no_infnan = bit 4, JSON = bit 5, Fortran = bit 6, allow_leading_plus = bit 7)
and a decimal point select. -/
def patternOf (fmt point : Nat) : Pattern :=
  pattern (fmt.testBit 0) (fmt.testBit 2) (fmt.testBit 6) (fmt.testBit 5) (fmt.testBit 7) (!fmt.testBit 4) point

/-! ### Integers -/

/-- The characters of the digits of a base of at most 36: `0` to `9`, then the letters in either case. -/
def baseDigits (base : Nat) : List Nat := (List.range base).flatMap fun d => if d < 10 then [48 + d] else [87 + d, 55 + d]

/-- [charconv.from.chars] for integers: the subject sequence of `strtol` in the base, without the prefix `0x`; a minus sign is the only sign that may appear, and
only for signed types (`plus`: the flag `allow_leading_plus` of the library allows a plus sign). -/
def integer (signed plus : Bool) (base : Nat) : Pattern :=
  opt (oneOf ((if plus then [43] else []) ++ (if signed then [45] else []))) * many1 (oneOf (baseDigits base))

/-- The longest prefix of `t` that matches, as [charconv.from.chars] puts it: "the characters matching the pattern". -/
def LongestMatch (P : Pattern) (t p : List Nat) : Prop :=
  p <+: t ∧ p ∈ P.matches' ∧ ∀ q, q <+: t → q ∈ P.matches' → q.length ≤ p.length

end Standards
