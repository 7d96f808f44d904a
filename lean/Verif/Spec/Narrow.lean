import Verif.Spec.Float
/-
# Midpoints of a format

This file does not refer to the model.
-/
namespace FloatSpec

/-- `y` lies exactly half way between two neighbouring floats of the format; the neighbour of the largest finite one is `2^(bias+1)`, so that the overflow
threshold is a midpoint, too. -/
def Format.Midpoint (f : Format) (y : ℚ) : Prop := ∃ k, k + 1 ≤ f.inf ∧ 2 * y = f.val k + f.val (k + 1)

end FloatSpec
