/-
# Execution model, machine words, configuration

Words are natural numbers with explicit reduction modulo `2^w`.  Undefined behaviour is an explicit
outcome (`throw`) of the execution monad `Exec`.
-/
namespace FastFloat

/-- The ways an execution of the C++ code can go wrong.  `fuel` is not C++ undefined behaviour: it is thrown
when a `while` loop of the model runs out of the iteration budget it was given, so a theorem
"never throws" includes termination.  `capacity` stands for a failed `try_push`/`try_resize`/`try_extend`, whose
result the C++ code ignores in release builds (`FASTFLOAT_ASSERT`, float_common.h:226-241). -/
inductive UB where
  | outOfBounds | tableIndex | shift | clzZero | signedOverflow | nullDeref | capacity | fuel
  deriving DecidableEq, Repr

/-- Execution monad. -/
abbrev Exec (α : Type) := Except UB α

/-- `std::errc` values used by the library. -/
inductive Errc where
  | ok | invalidArgument | outOfRange
  deriving DecidableEq, Repr

/-- Reading a fixed C array at an index; outside is undefined behaviour. -/
def tableGet {α : Type} (t : List α) (i : Nat) : Exec α :=
  match t[i]? with
  | some x => .ok x
  | none => .error .tableIndex

/-- `x << n` on `uint64_t`: undefined for `n >= 64`. -/
def shl64 (x n : Nat) : Exec Nat := if n < 64 then .ok (x * 2 ^ n % 2 ^ 64) else .error .shift

/-- `x >> n` on `uint64_t`: undefined for `n >= 64`. -/
def shr64 (x n : Nat) : Exec Nat := if n < 64 then .ok (x / 2 ^ n) else .error .shift

/-- `int64_t` arithmetic: signed overflow is undefined. -/
def chk64 (x : Int) : Exec Int := if -2 ^ 63 ≤ x ∧ x < 2 ^ 63 then .ok x else .error .signedOverflow

/-- `int32_t`/`int` arithmetic: signed overflow is undefined. -/
def chk32 (x : Int) : Exec Int := if -2 ^ 31 ≤ x ∧ x < 2 ^ 31 then .ok x else .error .signedOverflow

/-- The thread's floating-point rounding mode (`fegetround`). -/
inductive RoundMode where
  | nearest | up | down | zero
  deriving DecidableEq, Repr

/-- How floating-point expressions are evaluated (`FLT_EVAL_METHOD` of `<cfloat>`, float_common.h:440-442).
`own`: 0, every type in its own format.  `flt`: 0, with the 16-bit types computed in `float` (gcc and clang without native
16-bit arithmetic).  `dbl`: 1, `float` and narrower computed in `double`.  `ext`: 2, everything computed in the 80-bit
`long double` (x87).  `half`: 16, every type in its own format, but not one of the two values the library tests for. -/
inductive EvalMethod where
  | own | flt | dbl | ext | half
  deriving DecidableEq, Repr

/-- `FLT_EVAL_METHOD == 0 || FLT_EVAL_METHOD == 1`: the test of float_common.h:755, 764 and parse_number.h:80. -/
def EvalMethod.is01 : EvalMethod → Bool
  | .own => true
  | .flt => true
  | .dbl => true
  | .ext => false
  | .half => false

/-- SIMD flavour compiled in: `FASTFLOAT_SSE2` / `FASTFLOAT_NEON` / neither (float_common.h:165-177). -/
inductive Simd where
  | none | sse2 | neon
  deriving DecidableEq, Repr

/-- Build and run configuration: everything the preprocessor, the compiler or the thread state selects. -/
structure Cfg where
  /-- `FASTFLOAT_64BIT_LIMB` (bigint.h:19-27) -/
  limb64 : Bool
  /-- a native 64x64->128 multiplication in `full_multiplication` (float_common.h:599-622) -/
  nativeMul : Bool
  /-- `__SIZEOF_INT128__` in `scalar_mul` (bigint.h:234-257) -/
  int128 : Bool
  /-- `__builtin_add_overflow` in `scalar_add` (bigint.h:214-231) -/
  builtinAdd : Bool
  /-- `FASTFLOAT_IS_BIG_ENDIAN` -/
  bigEndian : Bool
  simd : Simd
  /-- `__clang__` (ascii_number.h:274, parse_number.h:230) -/
  clang : Bool
  /-- `cpp20_and_in_constexpr()` / `std::is_constant_evaluated()` -/
  constEval : Bool
  /-- `FASTFLOAT_32BIT` (parse_number.h:230) -/
  sys32 : Bool
  /-- `FASTFLOAT_ALLOWS_LEADING_PLUS` -/
  plusMacro : Bool
  /-- `FASTFLOAT_SKIP_WHITE_SPACE` -/
  wsMacro : Bool
  /-- thread rounding mode -/
  mode : RoundMode
  /-- `FLT_EVAL_METHOD` -/
  evalMethod : EvalMethod
  deriving DecidableEq, Repr

/-- A character type `UC`: `char`, `char8_t`, `wchar_t`, `char16_t`, `char32_t` (float_common.h:285-295).
Code units are represented by their unsigned bit pattern, a number `< 2^(8*width)`. -/
structure CharType where
  /-- `sizeof(UC)`: 1, 2 or 4 -/
  width : Nat
  /-- signedness (`char` and `wchar_t` may be signed) -/
  signed : Bool
  /-- `UC` is `char` itself -/
  isChar : Bool
  /-- `UC` is `char16_t` itself -/
  isChar16 : Bool
  deriving DecidableEq, Repr

/-- The character types that exist. -/
def CharType.WF (ct : CharType) : Prop :=
  (ct.width = 1 ∨ ct.width = 2 ∨ ct.width = 4) ∧ (ct.isChar = true → ct.width = 1) ∧
  (ct.isChar16 = true → ct.width = 2 ∧ ct.signed = false)

instance (ct : CharType) : Decidable ct.WF := by unfold CharType.WF; infer_instance

/-- The value of a code unit when used in an arithmetic expression (integral promotion). -/
def CharType.toInt (ct : CharType) (c : Nat) : Int :=
  if ct.signed ∧ 2 ^ (8 * ct.width - 1) ≤ c then (c : Int) - 2 ^ (8 * ct.width) else c

/-- `chars_format` (float_common.h:40-58) as a bit set. -/
abbrev Fmt := Nat

namespace Fmt
/-- float_common.h:45 -/
def scientific : Fmt := 1
/-- float_common.h:46 -/
def fixed : Fmt := 4
/-- float_common.h:47 -/
def hex : Fmt := 8
/-- float_common.h:48 -/
def noInfnan : Fmt := 16
/-- float_common.h:40, `detail::basic_json_fmt` -/
def basicJson : Fmt := 32
/-- float_common.h:41, `detail::basic_fortran_fmt` -/
def basicFortran : Fmt := 64
/-- float_common.h:50 -/
def json : Fmt := basicJson ||| fixed ||| scientific ||| noInfnan
/-- float_common.h:52 -/
def jsonOrInfnan : Fmt := basicJson ||| fixed ||| scientific
/-- float_common.h:53 -/
def fortran : Fmt := basicFortran ||| fixed ||| scientific
/-- float_common.h:54 -/
def general : Fmt := fixed ||| scientific
/-- float_common.h:55 -/
def allowLeadingPlus : Fmt := 128
/-- float_common.h:56 -/
def skipWhiteSpace : Fmt := 256
end Fmt

/-- `uint64_t(fmt & flag)` used as a condition. -/
def Fmt.has (fmt flag : Fmt) : Bool := (fmt &&& flag) != 0

/-- `detail::adjust_for_feature_macros` (float_common.h:1443-1455). -/
def adjustForFeatureMacros (c : Cfg) (fmt : Fmt) : Fmt :=
  let f := if c.plusMacro then fmt ||| Fmt.allowLeadingPlus else fmt
  if c.wsMacro then f ||| Fmt.skipWhiteSpace else f

/-- `parse_options_t` (float_common.h:71-82). -/
structure Options where
  format : Fmt := Fmt.general
  decimalPoint : Nat := 46
  base : Int := 10
  deriving DecidableEq, Repr

/-! ### Code units used by the scanner -/
/-- `UC('-')` -/
def chMinus : Nat := 45
/-- `UC('+')` -/
def chPlus : Nat := 43
/-- `UC('0')` -/
def ch0 : Nat := 48

/-- `*p`: dereferencing at `pend` is out of bounds.  A pointer is the list of code units from it to `pend`. -/
def deref : List Nat → Exec Nat
  | [] => .error .outOfBounds
  | c :: _ => .ok c

/-- `++p`: moving past `pend` is out of bounds. -/
def advance : List Nat → Exec (List Nat)
  | [] => .error .outOfBounds
  | _ :: p => .ok p

/-- The condition `(p != pend) && (*p == c)` (short-circuit, so never out of bounds). -/
def peekIs (p : List Nat) (c : Nat) : Bool :=
  match p with
  | [] => false
  | x :: _ => x == c

/-- Reads the `n` code units at `p`, as a block load or `n` dereferences do. -/
def readBlock (n : Nat) (p : List Nat) : Exec (List Nat) :=
  if n ≤ p.length then .ok (p.take n) else .error .outOfBounds

/-- `p + n`: the pointer may not go past `pend`. -/
def skipN (n : Nat) (p : List Nat) : Exec (List Nat) :=
  if n ≤ p.length then .ok (p.drop n) else .error .outOfBounds

/-- Bytes (or `8*w`-bit units) of a memory block as a little-endian word. -/
def leWord (w : Nat) : List Nat → Nat
  | [] => 0
  | c :: cs => c + 2 ^ (8 * w) * leWord w cs

/-- The same block read by a big-endian machine: first unit most significant. -/
def beWord (w : Nat) (cs : List Nat) : Nat := leWord w cs.reverse

/-- `memcpy` of a block of units of `w` bytes into a native unsigned word of exactly that size. -/
def memWord (c : Cfg) (w : Nat) (cs : List Nat) : Nat := if c.bigEndian then beWord w cs else leWord w cs

end FastFloat
