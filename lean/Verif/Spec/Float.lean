import Mathlib.Data.Rat.Defs
import Mathlib.Algebra.Order.Ring.Rat
import Mathlib.Algebra.Order.Group.Abs
import Mathlib.Order.WithBot
import Mathlib.Tactic.NormNum
/-
# What "correctly rounded" means

This file does not refer to the model.  An IEEE-754 binary interchange format has `fracBits` fraction bits and
`expBits` exponent bits; a bit pattern is `sign * 2^(fracBits+expBits) + magnitude` and a *magnitude* is
`exponent_field * 2^fracBits + fraction`.
-/
namespace FloatSpec

/-- An IEEE-754 binary interchange format (bfloat16 has the same shape). -/
structure Format where
  fracBits : Nat
  expBits : Nat

/-- `double` -/
def double : Format := ⟨52, 11⟩
/-- `float` -/
def single : Format := ⟨23, 8⟩
/-- `std::float16_t` -/
def half : Format := ⟨10, 5⟩
/-- `std::bfloat16_t` -/
def bfloat : Format := ⟨7, 8⟩

namespace Format
variable (f : Format)

/-- Exponent bias. -/
def bias : Nat := 2 ^ (f.expBits - 1) - 1

/-- The magnitude of infinity: all exponent bits set, fraction zero. -/
def inf : Nat := (2 ^ f.expBits - 1) * 2 ^ f.fracBits

/-- The weight of the sign bit. -/
def signBit : Nat := 2 ^ (f.fracBits + f.expBits)

/-- The rational value of a finite magnitude: `0.fraction * 2^(1-bias)` for subnormals, `1.fraction * 2^(exponent-bias)` else. -/
def val (b : Nat) : ℚ :=
  let e := b / 2 ^ f.fracBits
  let m := b % 2 ^ f.fracBits
  if e = 0 then (m : ℚ) / 2 ^ f.fracBits * 2 / 2 ^ f.bias
  else (1 + (m : ℚ) / 2 ^ f.fracBits) * 2 ^ e / 2 ^ f.bias

/-- Smallest value that overflows to infinity when rounding to nearest: largest finite value plus half a unit in its last place. -/
def overflowThreshold : ℚ := (2 - 1 / 2 ^ (f.fracBits + 1)) * 2 ^ f.bias

/-- `b` is the round-to-nearest, ties-to-even image of the non-negative rational `x`: infinity from the overflow threshold on,
otherwise the finite float that no other finite float is closer to; if another one is equally close, `b` is the even one. -/
def RoundsTo (x : ℚ) (b : Nat) : Prop :=
  (f.overflowThreshold ≤ x ∧ b = f.inf) ∨
  (x < f.overflowThreshold ∧ b < f.inf ∧
    ∀ b', b' < f.inf → b' ≠ b → |x - f.val b| < |x - f.val b'| ∨ (|x - f.val b| = |x - f.val b'| ∧ b % 2 = 0))

/-- Correctly rounded bit pattern of a signed quantity given as sign flag and magnitude. -/
def RoundsToBits (neg : Bool) (x : ℚ) (bits : Nat) : Prop :=
  ∃ b, f.RoundsTo x b ∧ bits = (if neg then f.signBit else 0) + b

/-- `b` is a finite float within half a unit in the last place of `x`: the distance is at most `2^-p` times `x` (`p = fracBits + 1` is the
precision), or at most half the smallest subnormal. -/
def Close (x : ℚ) (b : Nat) : Prop := b < f.inf ∧ |f.val b - x| ≤ max (x / 2 ^ (f.fracBits + 1)) (f.val 1 / 2)

/-- An exact tie between two neighbouring subnormals (or zero and the smallest subnormal, or the largest subnormal and the smallest
normal). -/
def SubnormalTie (x : ℚ) : Prop := ∃ k : Nat, k < 2 ^ f.fracBits ∧ x = (f.val k + f.val (k + 1)) / 2

/-- The number denoted by a non-NaN bit pattern, with infinities at the ends. -/
def extVal (bits : Nat) : WithBot (WithTop ℚ) :=
  if bits < f.signBit then (if bits = f.inf then ((⊤ : WithTop ℚ) : WithBot (WithTop ℚ)) else ((f.val bits : WithTop ℚ) : WithBot (WithTop ℚ)))
  else if bits - f.signBit = f.inf then ⊥ else ((-(f.val (bits - f.signBit)) : ℚ) : WithTop ℚ)

end Format

/-- The ties on which `std::float16_t` goes wrong: `x` is half way between the subnormals `j` and `j + 1` (in units of `2^-24`), `j` is even and
at most `J`.  The even neighbour is `j`. -/
def HalfException (J : Nat) (x : ℚ) : Prop := ∃ j : Nat, j % 2 = 0 ∧ j ≤ J ∧ x = (2 * j + 1) / 2 ^ 25
end FloatSpec
