import Verif.Spec.Numeral
import Verif.Spec.Float
/-
# Options, white space, and the spellings of infinity and NaN

This file does not refer to the model.  A `chars_format` is a natural number; its documented bits are
scientific = bit 0, fixed = bit 2, no_infnan = bit 4, JSON = bit 5, Fortran = bit 6, allow_leading_plus = bit 7,
skip_white_space = bit 8.
-/
namespace ApiSpec

/-- `chars_format::no_infnan` -/
def noInfNan (fmt : Nat) : Bool := fmt.testBit 4
/-- `chars_format::allow_leading_plus` -/
def plusFlag (fmt : Nat) : Bool := fmt.testBit 7
/-- `chars_format::skip_white_space` -/
def wsFlag (fmt : Nat) : Bool := fmt.testBit 8

/-- The format in force: the flags passed, plus those that the build macros `FASTFLOAT_ALLOWS_LEADING_PLUS` and
`FASTFLOAT_SKIP_WHITE_SPACE` add to every call. -/
def effective (plusMacro wsMacro : Bool) (fmt : Nat) : Nat :=
  fmt ||| ((if plusMacro then 2 ^ 7 else 0) ||| (if wsMacro then 2 ^ 8 else 0))

/-- The format `f'` allows at least what `f` allows, without new exponent markers: same scientific and Fortran bits; fixed, allow_leading_plus and
skip_white_space may be added, JSON and no_infnan may be dropped. -/
structure MorePermissive (f f' : Nat) : Prop where
  scientific : f'.testBit 0 = f.testBit 0
  fortran : f'.testBit 6 = f.testBit 6
  fixed : f.testBit 2 = true → f'.testBit 2 = true
  json : f'.testBit 5 = true → f.testBit 5 = true
  infnan : noInfNan f' = true → noInfNan f = true
  plus : plusFlag f = true → plusFlag f' = true
  ws : wsFlag f = true → wsFlag f' = true

/-- The grammar of decimal numerals that a `chars_format` value and a decimal point select. -/
def rules (fmt point : Nat) : NumSpec.Rules where
  point := point
  json := fmt.testBit 5
  plus := plusFlag fmt
  fixed := fmt.testBit 2
  scientific := fmt.testBit 0
  fortran := fmt.testBit 6

/-- ASCII white space: space, `\t`, `\n`, `\v`, `\f`, `\r`. -/
def isSpace (u : Nat) : Bool := u == 32 || (9 ≤ u && u ≤ 13)

/-- The text that is parsed: everything, or everything after the leading white space. -/
def body (fmt : Nat) (s : List Nat) : List Nat := if wsFlag fmt then s.dropWhile isSpace else s

/-- ASCII lower case. -/
def lower (u : Nat) : Nat := if 65 ≤ u ∧ u ≤ 90 then u + 32 else u

/-- "inf" -/
def wInf : List Nat := [105, 110, 102]
/-- "inity" -/
def wInity : List Nat := [105, 110, 105, 116, 121]
/-- "nan" -/
def wNan : List Nat := [110, 97, 110]

/-- Letters, digits and underscore: what may stand between the parentheses of `nan(...)`. -/
def NanChar (u : Nat) : Prop := (97 ≤ u ∧ u ≤ 122) ∨ (65 ≤ u ∧ u ≤ 90) ∨ (48 ≤ u ∧ u ≤ 57) ∨ u = 95

/-- `s` is an optional sign followed by `t`. A plus sign needs `plus`. -/
def Signed (plus : Bool) (s : List Nat) (neg : Bool) (t : List Nat) : Prop :=
  (neg = true ∧ s = 45 :: t) ∨ (neg = false ∧ s = t) ∨ (neg = false ∧ plus = true ∧ s = 43 :: t)

/-- `s` starts with `w` in any letter case; `t` follows. -/
def StartsWith (w s t : List Nat) : Prop := ∃ v, s = v ++ t ∧ v.map lower = w

/-- `s` is an infinity spelled `inf` or, if possible, `infinity`, followed by `rest`. -/
def InfText (plus : Bool) (s : List Nat) (neg : Bool) (rest : List Nat) : Prop :=
  ∃ t r, Signed plus s neg t ∧ StartsWith wInf t r ∧
    (StartsWith wInity r rest ∨ ((¬ ∃ q, StartsWith wInity r q) ∧ rest = r))

/-- `t` is a parenthesised n-char-sequence followed by `rest`. -/
def Paren (t rest : List Nat) : Prop := ∃ q, (∀ u ∈ q, NanChar u) ∧ t = 40 :: (q ++ 41 :: rest)

/-- `s` is a NaN spelled `nan(n-char-seq)` if possible, `nan` otherwise, followed by `rest`. -/
def NanText (plus : Bool) (s : List Nat) (neg : Bool) (rest : List Nat) : Prop :=
  ∃ t r, Signed plus s neg t ∧ StartsWith wNan t r ∧ (Paren r rest ∨ ((¬ ∃ q, Paren r q) ∧ rest = r))

/-- A NaN bit pattern: exponent field all ones and a nonzero fraction. -/
def IsNaN (f : FloatSpec.Format) (bits : Nat) : Prop := f.inf < bits % f.signBit ∧ bits < 2 * f.signBit

end ApiSpec
