import Mathlib.Data.Rat.Defs
import Mathlib.Algebra.Order.Ring.Rat
import Mathlib.Algebra.Field.Rat
import Mathlib.Algebra.Order.Group.Abs
import Mathlib.Tactic.NormNum
/-
# Decimal numerals: syntax, text, value, and the grammar selected by an options value

This file does not refer to the model.  Texts are lists of code units (`'0'` = 48, `'+'` = 43, `'-'` = 45, `'E'`/`'e'` = 69/101,
`'D'`/`'d'` = 68/100).
-/
namespace NumSpec

/-- An ASCII decimal digit. -/
def IsDigit (c : Nat) : Prop := 48 ≤ c ∧ c ≤ 57

/-- The number written by a string of digits, most significant first. -/
def digitsVal (ds : List Nat) : Nat := ds.foldl (fun a c => a * 10 + (c - 48)) 0

/-- An exponent part. -/
structure Exponent where
  /-- the letter, absent for a bare-sign Fortran exponent -/
  marker : Option Nat
  /-- the sign character, if any -/
  sign : Option Nat
  digits : List Nat
  deriving DecidableEq, Repr

/-- A decimal numeral. -/
structure Numeral where
  /-- the sign character, if any -/
  sign : Option Nat
  /-- digits before the point -/
  int : List Nat
  /-- `some ds` when there is a point; `ds` are the digits after it -/
  frac : Option (List Nat)
  exp : Option Exponent
  deriving DecidableEq, Repr

/-- What the format flags and options select. -/
structure Rules where
  /-- the decimal point character -/
  point : Nat
  json : Bool
  plus : Bool
  fixed : Bool
  scientific : Bool
  fortran : Bool
  deriving DecidableEq, Repr

namespace Exponent

/-- The text of an exponent part. -/
def text (e : Exponent) : List Nat := e.marker.toList ++ e.sign.toList ++ e.digits

/-- The exponent denoted. -/
def val (e : Exponent) : Int := if e.sign = some 45 then -(digitsVal e.digits : Int) else digitsVal e.digits

/-- Well-formedness: at least one digit; introduced by `e`/`E` (scientific formats), or in Fortran formats by `d`/`D` or directly by a sign. -/
def WF (g : Rules) (e : Exponent) : Prop :=
  e.digits ≠ [] ∧ (∀ c ∈ e.digits, IsDigit c) ∧ (e.sign = none ∨ e.sign = some 43 ∨ e.sign = some 45) ∧
  ((g.scientific = true ∧ (e.marker = some 101 ∨ e.marker = some 69)) ∨
   (g.fortran = true ∧ (e.marker = some 100 ∨ e.marker = some 68)) ∨
   (g.fortran = true ∧ e.marker = none ∧ e.sign ≠ none))

end Exponent

namespace Numeral

/-- All significand digits. -/
def digits (n : Numeral) : List Nat := n.int ++ n.frac.getD []

/-- The text of an optional fraction. -/
def fracText (point : Nat) : Option (List Nat) → List Nat
  | none => []
  | some ds => point :: ds

/-- The text of an optional exponent part. -/
def expText : Option Exponent → List Nat
  | none => []
  | some e => e.text

/-- The text of a numeral. -/
def text (point : Nat) (n : Numeral) : List Nat :=
  n.sign.toList ++ n.int ++ fracText point n.frac ++ expText n.exp

/-- Is there a minus sign? -/
def neg (n : Numeral) : Bool := n.sign == some 45

/-- The explicit exponent (0 if absent). -/
def expVal (n : Numeral) : Int := match n.exp with | none => 0 | some e => e.val

/-- The magnitude denoted: digits times a power of ten. -/
def value (n : Numeral) : ℚ := (digitsVal n.digits : ℚ) * (10 : ℚ) ^ (n.expVal - ((n.frac.getD []).length : Int))

/-- The exponent part is well formed, and present when the format makes it mandatory. -/
def ExpOK (g : Rules) : Option Exponent → Prop
  | none => ¬ (g.scientific = true ∧ g.fixed = false)
  | some e => e.WF g

/-- The grammar. -/
def WF (g : Rules) (n : Numeral) : Prop :=
  (n.sign = none ∨ n.sign = some 45 ∨ (n.sign = some 43 ∧ g.plus = true ∧ g.json = false)) ∧
  (∀ c ∈ n.digits, IsDigit c) ∧
  (if g.json = true then n.int ≠ [] ∧ (∀ ds, n.int = 48 :: ds → ds = []) ∧ n.frac ≠ some []
   else n.digits ≠ []) ∧
  ExpOK g n.exp

end Numeral

/-- The numeral is not astronomically long: its significand has fewer than `2^28 - 400` digits, or its explicit exponent is below
`2^28` in magnitude.  (Every numeral shorter than 268 million characters qualifies.) -/
def Moderate (n : Numeral) : Prop := n.digits.length + 400 ≤ 2 ^ 28 ∨ |n.expVal| < 2 ^ 28

/-- The digits of an exponent up to the point where the number read reaches `2^28`; `a` is the number read so far. -/
def clipDigits : Nat → List Nat → List Nat
  | _, [] => []
  | a, d :: ds => if a < 2 ^ 28 then d :: clipDigits (10 * a + (d - 48)) ds else []

/-- The numeral with the digits of its exponent cut off where the exponent reaches `2^28`. -/
def Numeral.clip (n : Numeral) : Numeral := { n with exp := n.exp.map fun e => { e with digits := clipDigits 0 e.digits } }

/-- The point character can not be confused with another part of a numeral. -/
def Rules.PointOK (g : Rules) : Prop :=
  ¬ IsDigit g.point ∧ g.point ≠ 43 ∧ g.point ≠ 45 ∧ g.point ≠ 101 ∧ g.point ≠ 69 ∧ g.point ≠ 100 ∧ g.point ≠ 68

/-- `n` is the longest numeral that `s` starts with; `rest` follows it. -/
def LongestNumeral (g : Rules) (s : List Nat) (n : Numeral) (rest : List Nat) : Prop :=
  n.WF g ∧ s = n.text g.point ++ rest ∧
  ∀ (m : Numeral) (r : List Nat), m.WF g → s = m.text g.point ++ r → (m.text g.point).length ≤ (n.text g.point).length

end NumSpec
