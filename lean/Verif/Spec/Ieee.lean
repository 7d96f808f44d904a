import Verif.Spec.Float
/-
# The arithmetic operations of IEEE 754

This file does not refer to the model.  An operation returns the exact result rounded in the direction in force; everything here is about non-negative results,
for which rounding down and rounding towards zero agree.
-/
set_option autoImplicit false
namespace FloatSpec

/-- A rounding direction. -/
inductive Direction where
  | nearest | up | down | zero

/-- The 80-bit format of the x87 unit, as a set of values: 63 fraction bits, 15 exponent bits. -/
def extended : Format := ⟨63, 15⟩

namespace Format
variable (f : Format)

/-- `b` is the smallest finite float that is not below `x`, or infinity if there is none. -/
def UpTo (x : ℚ) (b : Nat) : Prop :=
  (b < f.inf ∧ x ≤ f.val b ∧ ∀ b', b' < f.inf → x ≤ f.val b' → f.val b ≤ f.val b') ∨ (b = f.inf ∧ ∀ b', b' < f.inf → f.val b' < x)

/-- `b` is the largest finite float that is not above `x`. -/
def DownTo (x : ℚ) (b : Nat) : Prop := b < f.inf ∧ f.val b ≤ x ∧ ∀ b', b' < f.inf → f.val b' ≤ x → f.val b' ≤ f.val b

/-- `b` is `x ≥ 0` rounded in direction `d`. -/
def RoundsIn (d : Direction) (x : ℚ) (b : Nat) : Prop :=
  match d with
  | .nearest => f.RoundsTo x b
  | .up => f.UpTo x b
  | .down => f.DownTo x b
  | .zero => f.DownTo x b

/-- What is in an object of format `f` after an expression with the exact value `x` was evaluated in format `wide` (if any) and stored: rounded once, or twice. -/
def Stored (wide : Option Format) (d : Direction) (x : ℚ) (b : Nat) : Prop :=
  match wide with
  | none => f.RoundsIn d x b
  | some w => ∃ n, w.RoundsIn d x n ∧ ((n < w.inf ∧ f.RoundsIn d (w.val n) b) ∨ (n = w.inf ∧ b = f.inf))

end Format
end FloatSpec
