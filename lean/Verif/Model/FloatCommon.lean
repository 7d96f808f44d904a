import Verif.Model.Basic
/-
# float_common.h
-/
namespace FastFloat

/-! ### `binary_format<T>` -/

/-- The constants of `binary_format<T>` (float_common.h:646-668), one field per member function. -/
structure BinFmt where
  /-- `mantissa_explicit_bits()` -/
  mb : Nat
  /-- `minimum_exponent()` -/
  minExp : Int
  /-- `infinite_power()` -/
  infPow : Nat
  /-- `sign_index()`; the width of `equiv_uint` is one more -/
  signIdx : Nat
  /-- `min_exponent_fast_path()` when `FLT_EVAL_METHOD` is 0 -/
  minFast : Int
  /-- `max_exponent_fast_path()` -/
  maxFast : Int
  /-- `min_exponent_round_to_even()` -/
  minRte : Int
  /-- `max_exponent_round_to_even()` -/
  maxRte : Int
  /-- `smallest_power_of_ten()` -/
  minPow10 : Int
  /-- `largest_power_of_ten()` -/
  maxPow10 : Int
  /-- `max_digits()` -/
  maxDigits : Nat
  /-- number of entries of the table `powers_of_ten` -/
  powLen : Nat
  /-- the table `max_mantissa` -/
  maxMantissa : List Nat
  deriving DecidableEq, Repr

/-- `constant_55555` (float_common.h:642). -/
def constant55555 : Nat := 5 * 5 * 5 * 5 * 5

/-- The table `max_mantissa` of `double` (float_common.h:677-709). The comment in the source says `2^53 / 5^index`, but the entry `2^53 / 5^14` is missing: from index 14 on every entry is the next one. -/
def maxMantissa64 : List Nat :=
  [0x20000000000000, 0x20000000000000 / 5, 0x20000000000000 / (5 * 5), 0x20000000000000 / (5 * 5 * 5),
   0x20000000000000 / (5 * 5 * 5 * 5), 0x20000000000000 / (constant55555),
   0x20000000000000 / (constant55555 * 5), 0x20000000000000 / (constant55555 * 5 * 5),
   0x20000000000000 / (constant55555 * 5 * 5 * 5), 0x20000000000000 / (constant55555 * 5 * 5 * 5 * 5),
   0x20000000000000 / (constant55555 * constant55555),
   0x20000000000000 / (constant55555 * constant55555 * 5),
   0x20000000000000 / (constant55555 * constant55555 * 5 * 5),
   0x20000000000000 / (constant55555 * constant55555 * 5 * 5 * 5),
   0x20000000000000 / (constant55555 * constant55555 * constant55555),
   0x20000000000000 / (constant55555 * constant55555 * constant55555 * 5),
   0x20000000000000 / (constant55555 * constant55555 * constant55555 * 5 * 5),
   0x20000000000000 / (constant55555 * constant55555 * constant55555 * 5 * 5 * 5),
   0x20000000000000 / (constant55555 * constant55555 * constant55555 * 5 * 5 * 5 * 5),
   0x20000000000000 / (constant55555 * constant55555 * constant55555 * constant55555),
   0x20000000000000 / (constant55555 * constant55555 * constant55555 * constant55555 * 5),
   0x20000000000000 / (constant55555 * constant55555 * constant55555 * constant55555 * 5 * 5),
   0x20000000000000 / (constant55555 * constant55555 * constant55555 * constant55555 * 5 * 5 * 5),
   0x20000000000000 / (constant55555 * constant55555 * constant55555 * constant55555 * 5 * 5 * 5 * 5)]

/-- The table `max_mantissa` of `float` (float_common.h:728-740). -/
def maxMantissa32 : List Nat :=
  [0x1000000, 0x1000000 / 5, 0x1000000 / (5 * 5), 0x1000000 / (5 * 5 * 5), 0x1000000 / (5 * 5 * 5 * 5),
   0x1000000 / (constant55555), 0x1000000 / (constant55555 * 5), 0x1000000 / (constant55555 * 5 * 5),
   0x1000000 / (constant55555 * 5 * 5 * 5), 0x1000000 / (constant55555 * 5 * 5 * 5 * 5),
   0x1000000 / (constant55555 * constant55555), 0x1000000 / (constant55555 * constant55555 * 5)]

/-- The table `max_mantissa` of `std::float16_t` (float_common.h:853-858). -/
def maxMantissa16 : List Nat :=
  [0x800, 0x800 / 5, 0x800 / (5 * 5), 0x800 / (5 * 5 * 5), 0x800 / (5 * 5 * 5 * 5), 0x800 / (constant55555)]

/-- The table `max_mantissa` of `std::bfloat16_t` (float_common.h:979-981). -/
def maxMantissaB16 : List Nat :=
  [0x100, 0x100 / 5, 0x100 / (5 * 5), 0x100 / (5 * 5 * 5), 0x100 / (5 * 5 * 5 * 5)]

/-- `binary_format<double>` (float_common.h:670-710, 753-838, 1094-1186). -/
def binary64 : BinFmt where
  mb := 52
  minExp := -1023
  infPow := 0x7FF
  signIdx := 63
  minFast := -22
  maxFast := 22
  minRte := -4
  maxRte := 23
  minPow10 := -342
  maxPow10 := 308
  maxDigits := 769
  powLen := 23
  maxMantissa := maxMantissa64

/-- `binary_format<float>` (float_common.h:722-741, 762-843, 1104-1180). -/
def binary32 : BinFmt where
  mb := 23
  minExp := -127
  infPow := 0xFF
  signIdx := 31
  minFast := -10
  maxFast := 10
  minRte := -17
  maxRte := 10
  minPow10 := -64
  maxPow10 := 38
  maxDigits := 114
  powLen := 11
  maxMantissa := maxMantissa32

/-- `binary_format<std::float16_t>` (float_common.h:845-970). -/
def binary16 : BinFmt where
  mb := 10
  minExp := -15
  infPow := 0x1F
  signIdx := 15
  minFast := 0
  maxFast := 4
  minRte := -22
  maxRte := 5
  minPow10 := -27
  maxPow10 := 4
  maxDigits := 22
  powLen := 5
  maxMantissa := maxMantissa16

/-- `binary_format<std::bfloat16_t>` (float_common.h:971-1092). -/
def bfloat16 : BinFmt where
  mb := 7
  minExp := -127
  infPow := 0xFF
  signIdx := 15
  minFast := 0
  maxFast := 3
  minRte := -24
  maxRte := 3
  minPow10 := -60
  maxPow10 := 38
  maxDigits := 98
  powLen := 4
  maxMantissa := maxMantissaB16

/-- `min_exponent_fast_path()` (float_common.h:753-769, 924-927, 1048-1051): 0 for double and float unless `FLT_EVAL_METHOD` is 0 or 1. -/
def minExponentFastPath (c : Cfg) (F : BinFmt) : Int := if c.evalMethod.is01 then F.minFast else 0

/-- `max_mantissa_fast_path()` (float_common.h:835-843, 908-912, 1031-1035): `uint64_t(2) << mantissa_explicit_bits()`. -/
def maxMantissaFastPath (F : BinFmt) : Nat := 2 * 2 ^ F.mb

/-- `max_mantissa_fast_path(power)` (float_common.h:914-922, 1037-1045, 1094-1112). -/
def maxMantissaFastPathAt (F : BinFmt) (power : Nat) : Exec Nat := tableGet F.maxMantissa power

/-! ### Words and bit tricks -/

/-- `value128` (float_common.h:461-468). -/
structure Value128 where
  low : Nat
  high : Nat
  deriving DecidableEq, Repr

/-- `leading_zeroes_generic` (float_common.h:470-497).  Every step tests a bit mask; `x & 0xffffffff00000000` is nonzero iff
`x / 2^32` is (for a 64-bit `x`), and similarly for the later, already shifted, words. `last_bit |= k` adds `k`
because the bits are distinct. -/
def leadingZeroesGeneric (x : Nat) : Nat :=
  let a := if x &&& 0xffffffff00000000 ≠ 0 then (x / 2 ^ 32, 32) else (x, 0)
  let b := if a.1 &&& 0xffff0000 ≠ 0 then (a.1 / 2 ^ 16, a.2 ||| 16) else a
  let d := if b.1 &&& 0xff00 ≠ 0 then (b.1 / 2 ^ 8, b.2 ||| 8) else b
  let e := if d.1 &&& 0xf0 ≠ 0 then (d.1 / 2 ^ 4, d.2 ||| 4) else d
  let f := if e.1 &&& 0xc ≠ 0 then (e.1 / 2 ^ 2, e.2 ||| 2) else e
  let g := if f.1 &&& 0x2 ≠ 0 then f.2 ||| 1 else f.2
  63 - g

/-- `leading_zeroes` (float_common.h:499-519).  `__builtin_clzll(0)` is undefined; `__builtin_clzll x = 63 - log2 x`. -/
def leadingZeroes (c : Cfg) (x : Nat) : Exec Nat :=
  if x = 0 then .error .clzZero
  else if c.constEval then .ok (leadingZeroesGeneric x)
  else .ok (63 - Nat.log2 x)

/-- `countr_zero_generic_32` (float_common.h:521-548). -/
def countrZeroGeneric32 (x : Nat) : Nat :=
  if x = 0 then 32 else
  let a := if x &&& 0xFFFF = 0 then (x / 2 ^ 16, 16) else (x, 0)
  let b := if a.1 &&& 0xFF = 0 then (a.1 / 2 ^ 8, a.2 ||| 8) else a
  let d := if b.1 &&& 0xF = 0 then (b.1 / 2 ^ 4, b.2 ||| 4) else b
  let e := if d.1 &&& 0x3 = 0 then (d.1 / 2 ^ 2, d.2 ||| 2) else d
  if e.1 &&& 0x1 = 0 then e.2 ||| 1 else e.2

/-- `__builtin_ctz` on a nonzero 32-bit word: the number of trailing zero bits (the argument `n` bounds the search). -/
def ctzNative : Nat → Nat → Nat
  | 0, _ => 0
  | n + 1, x => if x % 2 = 1 then 0 else 1 + ctzNative n (x / 2)

/-- `countr_zero_32` (float_common.h:550-565). -/
def countrZero32 (c : Cfg) (x : Nat) : Nat :=
  if c.constEval then countrZeroGeneric32 x else if x = 0 then 32 else ctzNative 32 x

/-- `emulu` (float_common.h:567-570). -/
def emulu (x y : Nat) : Nat := x * y % 2 ^ 64

/-- `umul128_generic` (float_common.h:572-582). -/
def umul128Generic (ab cd : Nat) : Value128 :=
  let ad := emulu (ab / 2 ^ 32 % 2 ^ 32) (cd % 2 ^ 32)
  let bd := emulu (ab % 2 ^ 32) (cd % 2 ^ 32)
  let adbc := (ad + emulu (ab % 2 ^ 32) (cd / 2 ^ 32 % 2 ^ 32)) % 2 ^ 64
  let adbcCarry := if adbc < ad then 1 else 0
  let lo := (bd + adbc * 2 ^ 32 % 2 ^ 64) % 2 ^ 64
  let hi := (emulu (ab / 2 ^ 32 % 2 ^ 32) (cd / 2 ^ 32 % 2 ^ 32) + adbc / 2 ^ 32 + adbcCarry * 2 ^ 32 % 2 ^ 64 +
    (if lo < bd then 1 else 0)) % 2 ^ 64
  { low := lo, high := hi }

/-- `full_multiplication` (float_common.h:598-622). -/
def fullMultiplication (c : Cfg) (a b : Nat) : Value128 :=
  if c.constEval then umul128Generic a b
  else if c.nativeMul then { low := a * b % 2 ^ 64, high := a * b / 2 ^ 64 % 2 ^ 64 }
  else umul128Generic a b

/-- `adjusted_mantissa` (float_common.h:624-636). -/
structure AdjustedMantissa where
  mantissa : Nat
  power2 : Int
  deriving DecidableEq, Repr

/-- `invalid_am_bias` (float_common.h:639). -/
def invalidAmBias : Int := -0x8000

/-- `to_float` (float_common.h:1188-1202): the bits of the resulting value. -/
def toFloat (F : BinFmt) (negative : Bool) (am : AdjustedMantissa) : Nat :=
  let W := 2 ^ (F.signIdx + 1)
  let word := am.mantissa % W
  let word := (word ||| ((am.power2 % (W : Int)).toNat * 2 ^ F.mb)) % W
  (word ||| ((if negative then 1 else 0) * 2 ^ F.signIdx)) % W

/-! ### Lookup tables for characters -/

/-- `space_lut::value` (float_common.h:1204-1217). -/
def spaceLut : List Bool := ([
  0, 0, 0, 0, 0, 0, 0, 0, 0, 1, 1, 1, 1, 1, 0, 0, 0, 0, 0, 0, 0, 0, 0, 0,
  0, 0, 0, 0, 0, 0, 0, 0, 1, 0, 0, 0, 0, 0, 0, 0, 0, 0, 0, 0, 0, 0, 0, 0,
  0, 0, 0, 0, 0, 0, 0, 0, 0, 0, 0, 0, 0, 0, 0, 0, 0, 0, 0, 0, 0, 0, 0, 0,
  0, 0, 0, 0, 0, 0, 0, 0, 0, 0, 0, 0, 0, 0, 0, 0, 0, 0, 0, 0, 0, 0, 0, 0,
  0, 0, 0, 0, 0, 0, 0, 0, 0, 0, 0, 0, 0, 0, 0, 0, 0, 0, 0, 0, 0, 0, 0, 0,
  0, 0, 0, 0, 0, 0, 0, 0, 0, 0, 0, 0, 0, 0, 0, 0, 0, 0, 0, 0, 0, 0, 0, 0,
  0, 0, 0, 0, 0, 0, 0, 0, 0, 0, 0, 0, 0, 0, 0, 0, 0, 0, 0, 0, 0, 0, 0, 0,
  0, 0, 0, 0, 0, 0, 0, 0, 0, 0, 0, 0, 0, 0, 0, 0, 0, 0, 0, 0, 0, 0, 0, 0,
  0, 0, 0, 0, 0, 0, 0, 0, 0, 0, 0, 0, 0, 0, 0, 0, 0, 0, 0, 0, 0, 0, 0, 0,
  0, 0, 0, 0, 0, 0, 0, 0, 0, 0, 0, 0, 0, 0, 0, 0, 0, 0, 0, 0, 0, 0, 0, 0,
  0, 0, 0, 0, 0, 0, 0, 0, 0, 0, 0, 0, 0, 0, 0, 0] : List Nat).map (· == 1)

/-- `is_space` (float_common.h:1225-1227): `c < 256 && space_lut<>::value[uint8_t(c)]`; `c < 256` is a comparison of
the promoted (possibly negative) code unit. -/
def isSpace (ct : CharType) (c : Nat) : Exec Bool :=
  if ct.toInt c < 256 then tableGet spaceLut (c % 256) else .ok false

/-- The white-space loop of `from_chars_float_advanced` / `from_chars_int_advanced` (parse_number.h:324-328, 503-507). -/
def skipSpaces (ct : CharType) : List Nat → Exec (List Nat)
  | [] => .ok []
  | c :: p =>
    match isSpace ct c with
    | .error e => .error e
    | .ok true => skipSpaces ct p
    | .ok false => .ok (c :: p)

/-- `int_cmp_zeros` (float_common.h:1229-1237): the word made of `8/sizeof(UC)` units `'0'`. -/
def intCmpZeros (ct : CharType) : Nat :=
  if ct.width = 1 then 0x3030303030303030
  else if ct.width = 2 then 48 * 2 ^ 48 ||| 48 * 2 ^ 32 ||| 48 * 2 ^ 16 ||| 48
  else 48 * 2 ^ 32 ||| 48

/-- `int_cmp_len` (float_common.h:1239-1241): `sizeof(uint64_t) / sizeof(UC)`. -/
def intCmpLen (ct : CharType) : Nat := 8 / ct.width

/-- `int_luts::chdigit` (float_common.h:1286-1304). -/
def chdigit : List Nat := [
  255, 255, 255, 255, 255, 255, 255, 255, 255, 255, 255, 255, 255, 255, 255,
  255, 255, 255, 255, 255, 255, 255, 255, 255, 255, 255, 255, 255, 255, 255,
  255, 255, 255, 255, 255, 255, 255, 255, 255, 255, 255, 255, 255, 255, 255,
  255, 255, 255, 0,   1,   2,   3,   4,   5,   6,   7,   8,   9,   255, 255,
  255, 255, 255, 255, 255, 10,  11,  12,  13,  14,  15,  16,  17,  18,  19,
  20,  21,  22,  23,  24,  25,  26,  27,  28,  29,  30,  31,  32,  33,  34,
  35,  255, 255, 255, 255, 255, 255, 10,  11,  12,  13,  14,  15,  16,  17,
  18,  19,  20,  21,  22,  23,  24,  25,  26,  27,  28,  29,  30,  31,  32,
  33,  34,  35,  255, 255, 255, 255, 255, 255, 255, 255, 255, 255, 255, 255,
  255, 255, 255, 255, 255, 255, 255, 255, 255, 255, 255, 255, 255, 255, 255,
  255, 255, 255, 255, 255, 255, 255, 255, 255, 255, 255, 255, 255, 255, 255,
  255, 255, 255, 255, 255, 255, 255, 255, 255, 255, 255, 255, 255, 255, 255,
  255, 255, 255, 255, 255, 255, 255, 255, 255, 255, 255, 255, 255, 255, 255,
  255, 255, 255, 255, 255, 255, 255, 255, 255, 255, 255, 255, 255, 255, 255,
  255, 255, 255, 255, 255, 255, 255, 255, 255, 255, 255, 255, 255, 255, 255,
  255, 255, 255, 255, 255, 255, 255, 255, 255, 255, 255, 255, 255, 255, 255,
  255, 255, 255, 255, 255, 255, 255, 255, 255, 255, 255, 255, 255, 255, 255,
  255]

/-- `int_luts::maxdigits_u64` (float_common.h:1306-1308). -/
def maxdigitsU64 : List Nat := [
  64, 41, 32, 28, 25, 23, 22, 21, 20, 19, 18, 18, 17, 17, 16, 16, 16, 16,
  15, 15, 15, 15, 14, 14, 14, 14, 14, 14, 14, 13, 13, 13, 13, 13, 13]

/-- `int_luts::min_safe_u64` (float_common.h:1310-1322). -/
def minSafeU64Table : List Nat := [
  9223372036854775808,  12157665459056928801, 4611686018427387904,
  7450580596923828125,     4738381338321616896,     3909821048582988049,
  9223372036854775808,  12157665459056928801, 10000000000000000000,
  5559917313492231481,     2218611106740436992,     8650415919381337933,
  2177953337809371136,     6568408355712890625,     1152921504606846976,
  2862423051509815793,     6746640616477458432,     15181127029874798299,
  1638400000000000000,     3243919932521508681,     6221821273427820544,
  11592836324538749809, 876488338465357824,      1490116119384765625,
  2481152873203736576,     4052555153018976267,     6502111422497947648,
  10260628712958602189, 15943230000000000000, 787662783788549761,
  1152921504606846976,     1667889514952984961,     2386420683693101056,
  3379220508056640625,     4738381338321616896]

/-- `ch_to_digit` (float_common.h:1335-1343): the code unit is replaced by 0 unless it fits a byte. -/
def chToDigit (c : Nat) : Exec Nat := tableGet chdigit ((if c / 256 = 0 then c else 0) % 256)

/-- A C array indexed by a signed `base - 2`. -/
def tableGetInt {α : Type} (t : List α) (i : Int) : Exec α :=
  if i < 0 then .error .tableIndex else tableGet t i.toNat

/-- `max_digits_u64` (float_common.h:1345-1347). -/
def maxDigitsU64 (base : Int) : Exec Nat := tableGetInt maxdigitsU64 (base - 2)

/-- `min_safe_u64` (float_common.h:1351-1353). -/
def minSafeU64 (base : Int) : Exec Nat := tableGetInt minSafeU64Table (base - 2)

/-! ### Case-insensitive comparison with "nan" / "infinity" -/

/-- The 64-bit mask of `0x20` per code unit (float_common.h:301-311, 359, 367, 377). -/
def caseMask (width : Nat) : Nat :=
  if width = 1 then 0x2020202020202020 else if width = 2 then 0x0020002000200020 else 0x0000002000000020

/-- The `constexpr` loop `(actual[i] | 32) != expected[i]` (float_common.h:314-320, 350-356).  `| 32` on a promoted code unit
sets bit 5 of its bit pattern; equality of promoted values of one type is equality of bit patterns. -/
def caseLoop : List Nat → List Nat → Bool
  | a :: as, e :: es => if a ||| 32 ≠ e then false else caseLoop as es
  | _, _ => true

/-- `memcpy` of `n` units into a zero-initialised `uint64_t` (the rest stays 0).  On a big-endian machine the units land in the
most significant bytes. -/
def memWordPad (c : Cfg) (w : Nat) (cs : List Nat) : Nat :=
  if c.bigEndian then beWord w cs * 2 ^ (64 - 8 * w * cs.length) else leWord w cs

/-- `fastfloat_strncasecmp3` (float_common.h:297-342). `expected` are the first three units of the literal. -/
def strncasecmp3 (c : Cfg) (ct : CharType) (p expected : List Nat) : Exec Bool :=
  match readBlock 3 p with
  | .error e => .error e
  | .ok a =>
    if c.constEval then .ok (caseLoop a expected)
    else if ct.width = 4 then
      .ok (if memWordPad c 4 (a.take 2) ||| caseMask 4 ≠ memWordPad c 4 (expected.take 2) then false
        else (a.drop 2).headD 0 ||| 32 == (expected.drop 2).headD 0)
    else .ok ((memWordPad c ct.width a ||| caseMask ct.width) == (memWordPad c ct.width expected ||| caseMask ct.width))

/-- `fastfloat_strncasecmp5` (float_common.h:344-396). -/
def strncasecmp5 (c : Cfg) (ct : CharType) (p expected : List Nat) : Exec Bool :=
  match readBlock 5 p with
  | .error e => .error e
  | .ok a =>
    if c.constEval then .ok (caseLoop a expected)
    else if ct.width = 1 then
      .ok ((memWordPad c 1 a ||| caseMask 1) == (memWordPad c 1 expected ||| caseMask 1))
    else if ct.width = 2 then
      .ok (if memWordPad c 2 (a.take 4) ||| caseMask 2 ≠ memWordPad c 2 (expected.take 4) then false
        else (a.drop 4).headD 0 ||| 32 == (expected.drop 4).headD 0)
    else
      .ok (if memWordPad c 4 (a.take 2) ||| caseMask 4 ≠ memWordPad c 4 (expected.take 2) then false
        else if memWordPad c 4 ((a.drop 2).take 2) ||| caseMask 4 ≠ memWordPad c 4 ((expected.drop 2).take 2) then false
        else (a.drop 4).headD 0 ||| 32 == (expected.drop 4).headD 0)

/-- The run-time loop of `fastfloat_strncasecmp` (float_common.h:422-437): `len` is `length - i`, `p` and `e` point at unit `i` of the two strings, `sz` is
the number of units per block (it shrinks in the last round).  `fuel` bounds the number of rounds; `length` rounds suffice (`strncasecmp_eq`). -/
def caseCmpLoop (c : Cfg) (w : Nat) : Nat → Nat → Nat → List Nat → List Nat → Exec Bool
  | 0, _, len, _, _ => if len = 0 then .ok true else .error .fuel
  | fuel + 1, sz, len, p, e =>
    if len = 0 then .ok true
    else
      let sz := if sz < len then sz else len
      match readBlock sz p with
      | .error x => .error x
      | .ok a =>
        match readBlock sz e with
        | .error x => .error x
        | .ok b =>
          if memWordPad c w a ||| caseMask w ≠ memWordPad c w b ||| caseMask w then .ok false
          else caseCmpLoop c w fuel sz (len - sz) (p.drop sz) (e.drop sz)

/-- The `constexpr` loop of `fastfloat_strncasecmp` (float_common.h:414-420), which stops reading at the first difference. -/
def caseConstLoop : Nat → List Nat → List Nat → Exec Bool
  | 0, _, _ => .ok true
  | len + 1, p, e =>
    match p, e with
    | a :: p, b :: e => if a ||| 32 ≠ b then .ok false else caseConstLoop len p e
    | _, _ => .error .outOfBounds

/-- `fastfloat_strncasecmp` (float_common.h:398-440), which the library itself does not call. -/
def strncasecmp (c : Cfg) (ct : CharType) (p expected : List Nat) (length : Nat) : Exec Bool :=
  if c.constEval then caseConstLoop length p expected
  else caseCmpLoop c ct.width length (8 / ct.width) length p expected

/-- `str_const_nan` (float_common.h:1245-1261). -/
def strNan : List Nat := [110, 97, 110]
/-- `str_const_inf` (float_common.h:1263-1283): "infinity". -/
def strInf : List Nat := [105, 110, 102, 105, 110, 105, 116, 121]

end FastFloat
