import Verif.Spec.Numeral
/-
# The numerals that the generators of random numerals make

This file does not refer to the model.
-/
set_option autoImplicit false
namespace NumSpec

/-- No exponent part, or `e` or `E`, an optional sign and one to three digits. -/
def SmallExponent (e : Option Exponent) : Prop :=
  e = none ∨ ∃ m sg ds, e = some ⟨some m, sg, ds⟩ ∧ (m = 101 ∨ m = 69) ∧ (sg = none ∨ sg = some 43 ∨ sg = some 45) ∧ 1 ≤ ds.length ∧ ds.length ≤ 3 ∧ ∀ d ∈ ds, IsDigit d

/-- A JSON number with at most 19 digits (`short`) or 2000 digits and an exponent of at most three digits. -/
structure Made (short : Bool) (n : Numeral) : Prop where
  sign : n.sign = none ∨ n.sign = some 45
  digits : ∀ d ∈ n.digits, IsDigit d
  count : n.digits.length ≤ if short then 19 else 2000
  int : n.int ≠ []
  zero : ∀ ds, n.int = 48 :: ds → ds = []
  frac : n.frac ≠ some []
  exp : SmallExponent n.exp

end NumSpec
