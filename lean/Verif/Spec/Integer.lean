import Verif.Spec.Api
/-
# Integer literals: digits of a base, value, range of an integer type

This file does not refer to the model.
-/
namespace IntSpec

/-- The value of a code unit as a digit: `0`-`9`, `a`-`z`, `A`-`Z` are 0 to 35; anything else is no digit in any base (36). -/
def digit (u : Nat) : Nat :=
  if 48 ≤ u ∧ u ≤ 57 then u - 48 else if 97 ≤ u ∧ u ≤ 122 then u - 87 else if 65 ≤ u ∧ u ≤ 90 then u - 55 else 36

/-- A digit of the base. -/
def IsDigit (base u : Nat) : Prop := digit u < base

instance (base u : Nat) : Decidable (IsDigit base u) := by unfold IsDigit; infer_instance

/-- The number written by a string of digits, most significant first. -/
def value (base : Nat) (ds : List Nat) : Nat := ds.foldl (fun a u => a * base + digit u) 0

/-- `s` is an optional sign (`-`, or `+` if allowed), then `ds`, a nonempty and maximal run of digits of the base, then `rest`. -/
structure Literal (plus : Bool) (base : Nat) (s : List Nat) (neg : Bool) (ds rest : List Nat) : Prop where
  text : ApiSpec.Signed plus s neg (ds ++ rest)
  digits : ∀ u ∈ ds, IsDigit base u
  nonempty : ds ≠ []
  maximal : ∀ u, rest.head? = some u → ¬ IsDigit base u

/-- The integer denoted. -/
def signedValue (neg : Bool) (v : Nat) : Int := if neg then -(v : Int) else v

/-- The least value of a two's complement (or unsigned) integer type. -/
def minValue (bits : Nat) (signed : Bool) : Int := if signed then -2 ^ (bits - 1) else 0
/-- The greatest value. -/
def maxValue (bits : Nat) (signed : Bool) : Int := if signed then 2 ^ (bits - 1) - 1 else 2 ^ bits - 1

/-- `x` is a value of the type. -/
def Fits (bits : Nat) (signed : Bool) (x : Int) : Prop := minValue bits signed ≤ x ∧ x ≤ maxValue bits signed

instance (bits : Nat) (signed : Bool) (x : Int) : Decidable (Fits bits signed x) := by unfold Fits; infer_instance

/-- The magnitudes that pass the overflow check although they are at least `2^64`: those with the same number of digits in base `b` as `2^64 - 1` whose residue
modulo `2^64` is not below `b^k`, the least number of that many digits. -/
def Escapes (b V : Nat) : Prop := 2 ^ 64 ≤ V ∧ ∃ k, b ^ k < 2 ^ 64 ∧ 2 ^ 64 ≤ b ^ (k + 1) ∧ V < b ^ (k + 1) ∧ b ^ k ≤ V % 2 ^ 64

/-- The character for a digit, in lower or upper case. -/
def digitChar (upper : Bool) (d : Nat) : Nat := if d < 10 then 48 + d else if upper then 55 + d else 87 + d

/-- The digits of `n` in base `b`, most significant first (at least one); `caps` chooses the case of each. -/
def render (b : Nat) (caps : Nat → Bool) (n : Nat) : List Nat :=
  if _h : 2 ≤ b ∧ b ≤ n then render b caps (n / b) ++ [digitChar (caps n) (n % b)] else [digitChar (caps n) n]
termination_by n
decreasing_by exact Nat.div_lt_self (by omega) (by omega)

/-- What `to_chars` writes for `x` in base `b`. -/
def print (b : Nat) (caps : Nat → Bool) (x : Int) : List Nat :=
  if x < 0 then 45 :: render b caps x.natAbs else render b caps x.natAbs

end IntSpec
