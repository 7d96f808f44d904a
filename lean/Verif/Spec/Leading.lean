import Verif.Spec.AnyPoint
import Verif.Spec.Float
/-
# The leading digits of a numeral

This file does not refer to the model.
-/
set_option autoImplicit false
namespace NumSpec

/-- The significant digits of `n` (those from the first that is not zero) are `p` followed by `t`, and the last digit of `p` has the weight `10^e`. -/
structure Leads (n : Numeral) (p t : List Nat) (e : Int) : Prop where
  digits : ApiSpec.significant n.digits = p ++ t
  weight : e = n.expVal - ((n.frac.getD []).length : Int) + t.length

/-- Some digit is not zero. -/
def NonzeroTail (t : List Nat) : Prop := ∃ d ∈ t, d ≠ 48

end NumSpec
