import Verif.Spec.Complete
/-
# What `std::float16_t` gets for a 64-bit significand and a power of ten

This file does not refer to the model.
-/
namespace ApiSpec
open NumSpec FloatSpec

/-- What is stored and reported for `m * 10^e`.  It differs from correct rounding in two ways: the sixteen ties `(2j+1)/2^25`, `j` even, `j ≤ 30`, are rounded up (one of
them is the underflow threshold), and at run time in the default rounding mode an overflow is not reported if `m ≤ 2^11` and `e ≤ 4`. -/
structure HalfScaled (runtime : Prop) (neg : Bool) (m : Nat) (e : Int) (code : Code) (bits : Nat) : Prop where
  rounded : ¬ HalfException 30 ((m : ℚ) * 10 ^ e) → half.RoundsToBits neg ((m : ℚ) * 10 ^ e) bits
  exception : ∀ j : Nat, j % 2 = 0 → j ≤ 30 → (m : ℚ) * 10 ^ e = (2 * j + 1) / 2 ^ 25 → bits = (if neg then half.signBit else 0) + (j + 1)
  error : code = .range ∨ code = .success
  range : code = .range ↔ (0 < (m : ℚ) * 10 ^ e ∧ (m : ℚ) * 10 ^ e < 1 / 2 ^ 25) ∨ (65520 ≤ (m : ℚ) * 10 ^ e ∧ ¬ (runtime ∧ m ≤ 2 ^ 11 ∧ e ≤ 4))

end ApiSpec
