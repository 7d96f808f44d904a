import Verif.Model.FloatCommon
import Verif.Model.Table
/-
# decimal_to_binary.h
-/
namespace FastFloat

/-- `powers::smallest_power_of_five` (fast_table.h:34-35). -/
def smallestPowerOfFive : Int := -342

/-- `precision_mask` (decimal_to_binary.h:31-33) for `bit_precision < 64`: `0xFFFFFFFFFFFFFFFF >> bit_precision`. -/
def precisionMask (bitPrecision : Nat) : Nat :=
  if bitPrecision < 64 then 0xFFFFFFFFFFFFFFFF / 2 ^ bitPrecision else 0xFFFFFFFFFFFFFFFF

/-- `compute_product_approximation` (decimal_to_binary.h:20-47).  `x & precision_mask` is `x % (precision_mask + 1)`. -/
def computeProductApproximation (c : Cfg) (bitPrecision : Nat) (q : Int) (w : Nat) : Exec Value128 := do
  let index := 2 * (q - smallestPowerOfFive)
  let hi ← tableGetInt powerOfFive128 index
  let first := fullMultiplication c w hi
  if first.high % (precisionMask bitPrecision + 1) = precisionMask bitPrecision then do
    let lo ← tableGetInt powerOfFive128 (index + 1)
    let second := fullMultiplication c w lo
    let low := (first.low + second.high) % 2 ^ 64
    if second.high > low then pure { low := low, high := (first.high + 1) % 2 ^ 64 }
    else pure { low := low, high := first.high }
  else pure first

/-- `detail::power` (decimal_to_binary.h:65-67): `((152170 + 65536) * q) >> 16) + 63`; `>>` on a negative `int` is an
arithmetic shift (floor division).  The `int` product must not overflow. -/
def power (q : Int) : Exec Int := do
  let p ← chk32 ((152170 + 65536) * q)
  chk32 (p.fdiv 65536 + 63)

/-- `compute_error_scaled` (decimal_to_binary.h:70-82). -/
def computeErrorScaled (F : BinFmt) (q : Int) (w lz : Nat) : Exec AdjustedMantissa := do
  let hilz := 1 - w / 2 ^ 63
  let m ← shl64 w hilz
  let bias : Int := F.mb - F.minExp
  let p ← power q
  let p2 ← chk32 (p + bias - hilz - lz - 62 + invalidAmBias)
  pure { mantissa := m, power2 := p2 }

/-- `compute_error` (decimal_to_binary.h:84-94). -/
def computeError (c : Cfg) (F : BinFmt) (q : Int) (w : Nat) : Exec AdjustedMantissa := do
  let lz ← leadingZeroes c w
  let w' ← shl64 w lz
  let product ← computeProductApproximation c (F.mb + 3) q w'
  computeErrorScaled F q product.high lz

/-- Subnormal branch of `compute_float` (decimal_to_binary.h:148-177). `m & 1` is `m % 2`. -/
def computeFloatSubnormal (F : BinFmt) (m : Nat) (p2 : Int) : Exec AdjustedMantissa :=
  if -p2 + 1 ≥ 64 then .ok { mantissa := 0, power2 := 0 }
  else do
    let m ← shr64 m (-p2 + 1).toNat
    let m := (m + m % 2) % 2 ^ 64
    let m := m / 2
    pure { mantissa := m, power2 := if m < 2 ^ F.mb then 0 else 1 }

/-- The round-half-even adjustment of `compute_float` (decimal_to_binary.h:179-193). `m & 3` is `m % 4`;
`m & ~1` is `m - m % 2`. -/
def computeFloatTie (F : BinFmt) (q : Int) (product : Value128) (m shift : Nat) : Exec Nat :=
  if product.low ≤ 1 ∧ q ≥ F.minRte ∧ q ≤ F.maxRte ∧ m % 4 = 1 then do
    let back ← shl64 m shift
    if back = product.high then pure (m - m % 2) else pure m
  else pure m

/-- Final rounding of `compute_float` (decimal_to_binary.h:195-207).  `m & ~(1 << mb)` clears bit `mb`. -/
def computeFloatFinish (F : BinFmt) (m : Nat) (p2 : Int) : AdjustedMantissa :=
  let m := (m + m % 2) % 2 ^ 64
  let m := m / 2
  let carry : Bool := decide (m ≥ 2 * 2 ^ F.mb)
  let m' := if carry then 2 ^ F.mb else m
  let p2' := if carry then p2 + 1 else p2
  let m'' := m' - (m' / 2 ^ F.mb % 2) * 2 ^ F.mb
  if p2' ≥ F.infPow then { mantissa := 0, power2 := F.infPow } else { mantissa := m'', power2 := p2' }

/-- `compute_float` (decimal_to_binary.h:96-208). -/
def computeFloat (c : Cfg) (F : BinFmt) (q : Int) (w : Nat) : Exec AdjustedMantissa :=
  if w = 0 ∨ q < F.minPow10 then .ok { mantissa := 0, power2 := 0 }
  else if q > F.maxPow10 then .ok { mantissa := 0, power2 := F.infPow }
  else do
    let lz ← leadingZeroes c w
    let w' ← shl64 w lz
    let product ← computeProductApproximation c (F.mb + 3) q w'
    let upperbit := product.high / 2 ^ 63
    let shift := upperbit + 64 - F.mb - 3
    let m ← shr64 product.high shift
    let p ← power q
    let p2 ← chk32 (p + upperbit - lz - F.minExp)
    if p2 ≤ 0 then computeFloatSubnormal F m p2
    else do
      let m' ← computeFloatTie F q product m shift
      pure (computeFloatFinish F m' p2)

end FastFloat
