import Verif.Model.ParseNumber
import Verif.Spec.Float
import Verif.Spec.Numeral
import Verif.Spec.Api
import Verif.Spec.Integer
import Verif.Spec.Complete
/-
# Vocabulary of the property statements

Everything the statements of the properties use besides the model (`Verif/Model`) and the model-free specification (`Verif/Spec`):
names for configurations and types, what a caller may pass, and abbreviations.
-/
namespace FastFloat
open NumSpec FloatSpec ApiSpec IntSpec

/-- A common build: 64-bit little-endian gcc, run-time evaluation, default rounding mode, no feature macros. -/
def Cfg.x64 : Cfg where
  limb64 := true
  nativeMul := true
  int128 := true
  builtinAdd := true
  bigEndian := false
  simd := .sse2
  clang := false
  constEval := false
  sys32 := false
  plusMacro := false
  wsMacro := false
  mode := .nearest
  evalMethod := .own

/-- `char` on that build (signed). -/
def CharType.char : CharType := ⟨1, true, true, false⟩

/-- The supported floating-point types (`is_supported_float_type`, float_common.h:256-273; `std::float32_t` and `std::float64_t`
are the aliases of `float` and `double`). -/
inductive FloatTy where
  | double | float | bfloat16 | float16
  deriving DecidableEq, Repr

namespace FloatTy

/-- The model's `binary_format<T>`. -/
def fmt : FloatTy → BinFmt
  | double => FastFloat.binary64
  | float => FastFloat.binary32
  | bfloat16 => FastFloat.bfloat16
  | float16 => FastFloat.binary16

/-- The IEEE-754 format of the type. -/
def spec : FloatTy → FloatSpec.Format
  | double => FloatSpec.double
  | float => FloatSpec.single
  | bfloat16 => FloatSpec.bfloat
  | float16 => FloatSpec.half

end FloatTy

/-- `std::uint64_t` -/
def uint64 : IntType := ⟨64, false, false, false, true⟩

/-- `std::int64_t` -/
def int64 : IntType := ⟨64, true, false, false, false⟩

/-- `std::uint8_t` -/
def uint8 : IntType := ⟨8, false, true, false, false⟩

/-- `std::uint16_t` -/
def uint16 : IntType := ⟨16, false, false, true, false⟩

/-- `std::int32_t` -/
def int32 : IntType := ⟨32, true, false, false, false⟩

/-- `__int128` -/
def int128 : IntType := ⟨128, true, false, false, false⟩

/-- `unsigned __int128` -/
def uint128 : IntType := ⟨128, false, false, false, false⟩

/-- A code unit of the character type on which `is_integer` has defined behaviour. -/
def UnitOK (ct : CharType) (u : Nat) : Prop :=
  u < 2 ^ (8 * ct.width) ∧ ¬ (ct.width = 4 ∧ ct.signed = true ∧ 2 ^ 31 ≤ u ∧ u < 2 ^ 31 + 48)

/-- A code unit of the type that is not a negative wide character. -/
def GoodUnit (ct : CharType) (u : Nat) : Prop := u < 2 ^ (8 * ct.width) ∧ (ct.signed = true → ct.width = 1 ∨ u < 2 ^ (8 * ct.width - 1))

/-- What a caller may pass: an existing character type, code units of that type (negative `wchar_t` values excluded),
and a sequence that fits in an address space. -/
structure Input (ct : CharType) (s : List Nat) : Prop where
  wf : ct.WF
  units : ∀ u ∈ s, GoodUnit ct u
  len : s.length < 2 ^ 62

/-- The format in force for a call. -/
def Cfg.eff (c : Cfg) (opt : Options) : Nat := effective c.plusMacro c.wsMacro opt.format

/-- The grammar in force for a call. -/
def grammar (c : Cfg) (opt : Options) : Rules := rules (c.eff opt) opt.decimalPoint

/-- The text parsed by a call: the input after the white space to be skipped. -/
def textOf (c : Cfg) (opt : Options) (s : List Nat) : List Nat := body (c.eff opt) s

/-- The call returns `r`, does not report `invalid_argument`, and the longest numeral at the start of the text is `n`. -/
structure AcceptsNumber (c : Cfg) (ct : CharType) (T : FloatTy) (s : List Nat) (opt : Options) (n : Numeral) (rest : List Nat)
    (r : ApiFloat) : Prop where
  result : fromCharsFloat c ct T.fmt s opt = .ok r
  accepted : r.ec ≠ .invalidArgument
  longest : LongestNumeral (grammar c opt) (textOf c opt s) n rest

/-- The text spells an infinity or a NaN. -/
def InfNanText (c : Cfg) (opt : Options) (s : List Nat) : Prop :=
  (∃ neg rest, InfText (plusFlag (c.eff opt)) (textOf c opt s) neg rest) ∨ (∃ neg rest, NanText (plusFlag (c.eff opt)) (textOf c opt s) neg rest)

/-- The characters before the returned pointer are skipped white space and the numeral `n`; `rest` follows. -/
def Consumed (c : Cfg) (opt : Options) (s : List Nat) (off : Nat) (n : Numeral) (rest : List Nat) : Prop :=
  ∃ ws, s = ws ++ (n.text opt.decimalPoint ++ rest) ∧ (∀ u ∈ ws, ApiSpec.isSpace u = true) ∧ (wsFlag (c.eff opt) = false → ws = []) ∧
    s.take off = ws ++ n.text opt.decimalPoint

/-- The grammar in force is not JSON, and is not "Fortran exponents but neither fixed nor scientific". -/
def RegularFormat (fmt : Nat) : Prop :=
  fmt.testBit 5 = false ∧ (fmt.testBit 2 = true ∨ fmt.testBit 0 = true ∨ fmt.testBit 6 = false)

/-- The number denoted, with its sign. -/
def signedValue (n : Numeral) : ℚ := if n.neg then -n.value else n.value

/-- An RFC 8259 number with decimal point `point`: `[minus] int [frac] [exp]` where `int` is `0` or starts with a nonzero digit,
`frac` is the point and at least one digit, and `exp` is `e` or `E`, an optional sign and at least one digit. -/
def IsJsonNumber (point : Nat) (t : List Nat) : Prop :=
  ∃ sg int frac exp, t = sg ++ int ++ frac ++ exp ∧ (sg = [] ∨ sg = [45]) ∧
    (∀ u ∈ int, IsDigit u) ∧ int ≠ [] ∧ (int = [48] ∨ ∀ ds, int ≠ 48 :: ds) ∧
    (frac = [] ∨ ∃ ds, frac = point :: ds ∧ ds ≠ [] ∧ ∀ u ∈ ds, IsDigit u) ∧
    (exp = [] ∨ ∃ m es ds, exp = m :: (es ++ ds) ∧ (m = 101 ∨ m = 69) ∧ (es = [] ∨ es = [43] ∨ es = [45]) ∧ ds ≠ [] ∧ ∀ u ∈ ds, IsDigit u)

/-- A character that is part of no numeral, infinity or NaN spelling: not a digit, letter, underscore, parenthesis or sign. -/
def Neutral (d : Nat) : Prop := ¬ NanChar d ∧ d ≠ 40 ∧ d ≠ 41 ∧ d ≠ 43 ∧ d ≠ 45

/-- Exchanging two characters. -/
def swapCh (p q u : Nat) : Nat := if u = p then q else if u = q then p else u

/-- Two configurations with the same feature macros. -/
def SameMacros (c c' : Cfg) : Prop := c.plusMacro = c'.plusMacro ∧ c.wsMacro = c'.wsMacro

/-- What the fast path is allowed to depend on. -/
def SameFpu (c c' : Cfg) : Prop := c.constEval = c'.constEval ∧ c.mode = c'.mode ∧ c.evalMethod.is01 = c'.evalMethod.is01

/-- At run time, with `FLT_EVAL_METHOD` 0 or 1, in the default rounding mode. -/
def Runtime (c : Cfg) : Prop := c.constEval = false ∧ c.evalMethod.is01 = true ∧ c.mode = .nearest

/-- The numeral overflows, and the fast path would take it. -/
def Swallowed (n : Numeral) : Prop := 65520 ≤ n.value ∧ digitsVal n.digits ≤ 2 ^ 11 ∧ n.expVal - ((n.frac.getD []).length : Int) ≤ 4

/-- The error code of the model as a code of the specification. -/
def Errc.code : Errc → Code
  | .ok => .success
  | .invalidArgument => .invalid
  | .outOfRange => .range

/-- The text of a call, `text`, starts with a literal of base `b` that the type `T` can carry: a minus sign needs a signed type. -/
structure IntLiteral (c : Cfg) (T : IntType) (s : List Nat) (opt : Options) (b : Nat) (neg : Bool) (ds rest : List Nat) : Prop where
  base : opt.base = (b : Int)
  two : 2 ≤ b
  max : b ≤ 36
  literal : Literal (plusFlag (c.eff opt)) b (textOf c opt s) neg ds rest
  sign : neg = true → T.signed = true

/-- The types and bases for which the overflow check of the code is sound (C29; C29_sharp shows that it is not for any other 64-bit case). -/
def SoundCheck (T : IntType) (base : Int) : Prop :=
  T.bits ≤ 32 ∨ (base = 2 ∨ base = 4 ∨ base = 16) ∨
    (T.signed = true ∧ (base = 3 ∨ base = 9 ∨ base = 10 ∨ base = 19 ∨ base = 23 ∨ base = 29 ∨ base = 30))

end FastFloat
