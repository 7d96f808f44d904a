import Verif.Spec.Float
import Verif.Spec.Integer
/-
# Writing a finite float exactly in decimal

This file does not refer to the model.  A finite magnitude `b` is `significand b · 2^exponent b / 2^(bias + fracBits)`, and `M / 2^k = M·5^k / 10^k`.
-/
namespace FloatSpec.Format
open IntSpec
variable (f : Format)

/-- The significand of a finite magnitude as an integer, hidden bit included. -/
def significand (b : Nat) : Nat := if b / 2 ^ f.fracBits = 0 then b % 2 ^ f.fracBits else 2 ^ f.fracBits + b % 2 ^ f.fracBits

/-- The exponent field, 1 for subnormals. -/
def exponent (b : Nat) : Nat := max (b / 2 ^ f.fracBits) 1

/-- The number of decimals needed: the value is an integer divided by this power of two (or an integer). -/
def decimals (b : Nat) : Nat := f.bias + f.fracBits - f.exponent b

/-- The value times `10^decimals`. -/
def scaled (b : Nat) : Nat := f.significand b * 2 ^ (f.exponent b - (f.bias + f.fracBits)) * 5 ^ f.decimals b

/-- The decimal digits of a number. -/
def decimal (n : Nat) : List Nat := render 10 (fun _ => false) n

/-- The last `k` decimal digits of a number, with leading zeros. -/
def lastDigits : Nat → Nat → List Nat
  | 0, _ => []
  | k + 1, n => lastDigits k (n / 10) ++ [48 + n % 10]

/-- The sign character. -/
def signText (neg : Bool) : List Nat := if neg then [45] else []

/-- Every finite float written exactly, as an integer or with a negative exponent: `-15000000000e-10` for the float16 -1.5. -/
def scientificText (neg : Bool) (b : Nat) : List Nat :=
  signText neg ++ decimal (f.scaled b) ++ (if f.decimals b = 0 then [] else [101, 45] ++ decimal (f.decimals b))

/-- Every finite float written exactly, without an exponent: `-1.5000000000` for the float16 -1.5. -/
def fixedText (point : Nat) (neg : Bool) (b : Nat) : List Nat :=
  signText neg ++ decimal (f.scaled b / 10 ^ f.decimals b) ++
    (if f.decimals b = 0 then [] else point :: lastDigits (f.decimals b) (f.scaled b % 10 ^ f.decimals b))

end FloatSpec.Format
