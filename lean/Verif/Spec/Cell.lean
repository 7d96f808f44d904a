import Verif.Spec.Float
/-
# Which numbers belong to which floating-point value

This file does not refer to the model.  The non-negative rationals are cut at the points half way between neighbouring values; each piece belongs to one value.
Compare `Format.RoundsTo`, which speaks of distances: here there is no distance and no quantifier over the other values.
-/
namespace FloatSpec.Format
variable (f : Format)

/-- The point half way between the value with the magnitude `k` and the next one.  The magnitude behind the largest finite one is that of infinity; there
`val` gives the power of two that would come next, so that the last of these points is the overflow threshold. -/
def mid (k : Nat) : ℚ := (f.val k + f.val (k + 1)) / 2

/-- `x` belongs to the magnitude `k`: not below the half-way point under it, not above the one over it, and on such a point only if `k` is even. -/
structure Cell (x : ℚ) (k : Nat) : Prop where
  finite : k ≤ f.inf
  above : ∀ j, j + 1 = k → f.mid j ≤ x
  below : k < f.inf → x ≤ f.mid k
  onLower : ∀ j, j + 1 = k → x = f.mid j → k % 2 = 0
  onUpper : k < f.inf → x = f.mid k → k % 2 = 0

end FloatSpec.Format
