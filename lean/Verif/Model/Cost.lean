import Verif.Model.ParseNumber
/-
# Work done by a call

Every loop of the library, with a counter.  A `Timed` computation is an execution together with the number of steps it takes: one step for every code unit a loop
looks at (eight for a block of eight, counted twice where the source reads the block twice) and one for every limb a loop of bigint.h reads, writes, copies or
fills; a step of a loop that touches neither (`scientific_exponent`, the two `while (exp >= ...)` of `pow5`) counts one.  Straight-line code between the loops
is not counted: a C++ function of this library executes a number of instructions bounded by a constant times the steps counted here plus a constant.
Failed executions keep the steps taken up to the failure.

Each definition is the definition of the same name (without the `T`) in the other model files with the counter added; that the outcome is the same is a theorem
(`Verif.Proofs.Cost`).
-/
set_option autoImplicit false
namespace FastFloat

/-- An execution and the steps it takes. -/
structure Timed (α : Type) where
  steps : Nat
  out : Exec α

namespace Timed

/-- Sequencing adds the steps. -/
def bind {α β : Type} (x : Timed α) (f : α → Timed β) : Timed β :=
  match x.out with
  | .ok a => ⟨x.steps + (f a).steps, (f a).out⟩
  | .error e => ⟨x.steps, .error e⟩

instance : Monad Timed where
  pure a := ⟨0, .ok a⟩
  bind := bind

/-- Straight-line code. -/
def run {α : Type} (x : Exec α) : Timed α := ⟨0, x⟩

/-- `n` steps. -/
def tick (n : Nat) : Timed Unit := ⟨n, .ok ()⟩

end Timed

open Timed

/-! ### The scanner (ascii_number.h) -/

/-- The white-space loop (parse_number.h:324-328, 503-507). -/
def skipSpacesT (ct : CharType) : List Nat → Timed (List Nat)
  | [] => pure []
  | c :: p => do
    tick 1
    match isSpace ct c with
    | .error e => run (.error e)
    | .ok true => skipSpacesT ct p
    | .ok false => pure (c :: p)

/-- The `while` loop of `loop_parse_if_eight_digits` for `char16_t` with SIMD (ascii_number.h:251-255). -/
def simdEightLoopT (c : Cfg) : Nat → List Nat → Nat → Timed (List Nat × Nat)
  | 0, _, _ => run (.error .fuel)
  | fuel + 1, p, i =>
    if p.length ≥ 8 then do
      tick 8
      match ← run (simdParseIfEight c p i) with
      | none => pure (p, i)
      | some i' => do
        let p' ← run (skipN 8 p)
        simdEightLoopT c fuel p' i'
    else pure (p, i)

/-- The `while` loop of `loop_parse_if_eight_digits` for `char` (ascii_number.h:262-268): two reads of eight units. -/
def charEightLoopT (c : Cfg) (ct : CharType) : Nat → List Nat → Nat → Timed (List Nat × Nat)
  | 0, _, _ => run (.error .fuel)
  | fuel + 1, p, i =>
    if p.length ≥ 8 then do
      tick 8
      let v ← run (read8ToU64 c ct p)
      if isMadeOfEightDigitsFast v then do
        tick 8
        let v' ← run (read8ToU64 c ct p)
        let p' ← run (skipN 8 p)
        charEightLoopT c ct fuel p' ((i * 100000000 + parseEightDigitsUnrolled v') % 2 ^ 64)
      else pure (p, i)
    else pure (p, i)

/-- `loop_parse_if_eight_digits` (ascii_number.h:245-284), all overloads; the clang-only step reads four units. -/
def loopParseIfEightDigitsT (c : Cfg) (ct : CharType) (p : List Nat) (i : Nat) : Timed (List Nat × Nat) :=
  if ct.isChar then do
    let r ← charEightLoopT c ct (p.length + 1) p i
    tick 4
    run (clangFour c ct r.1 r.2)
  else if hasSimdOpt c ct then simdEightLoopT c (p.length + 1) p i
  else pure (p, i)

/-- The digit loop (ascii_number.h:398-404, 435-439). -/
def digitLoopT (ct : CharType) : List Nat → Nat → Timed (List Nat × Nat)
  | [], i => pure ([], i)
  | ch :: p, i => do
    tick 1
    match isInteger ct ch with
    | .error e => run (.error e)
    | .ok true => digitLoopT ct p ((10 * i + (ch - 48)) % 2 ^ 64)
    | .ok false => pure (ch :: p, i)

/-- One peeled iteration of the integer-part scan (ascii_number.h:383, 386, 389, 392, 395). -/
def ifDigitT (ct : CharType) (p : List Nat) (i : Nat) (f : Nat → Nat) (k : List Nat → Nat → Timed (List Nat × Nat)) : Timed (List Nat × Nat) :=
  match p with
  | [] => pure ([], i)
  | ch :: p => do
    tick 1
    match isInteger ct ch with
    | .error e => run (.error e)
    | .ok true => k p (f (ch - 48))
    | .ok false => pure (ch :: p, i)

/-- The integer-part scan (ascii_number.h:377-409). -/
def intDigitsT (ct : CharType) (p : List Nat) : Timed (List Nat × Nat) :=
  ifDigitT ct p 0 (fun d => d % 2 ^ 64) fun p i =>
    ifDigitT ct p i (fun d => (10 * i + d) % 2 ^ 64) fun p i =>
      ifDigitT ct p i (fun d => (10 * i + d) % 2 ^ 64) fun p i =>
        ifDigitT ct p i (fun d => (10 * i + d) % 2 ^ 64) fun p i =>
          ifDigitT ct p i (fun d => (10 * i + d) % 2 ^ 64) fun p i =>
            digitLoopT ct p i

/-- Integer part (ascii_number.h:375-424). -/
def intStepT (ct : CharType) (json : Bool) (start : List Nat) : Timed (Scan (Nat × List Nat)) := do
  let (p, i) ← intDigitsT ct start
  let digitCount := start.length - p.length
  if json then
    if digitCount = 0 then pure (.fail (reportParseError p .noDigitsInIntegerPart))
    else do
      let c0 ← run (deref start)
      if c0 == ch0 && decide (digitCount > 1) then pure (.fail (reportParseError start .leadingZerosInIntegerPart))
      else pure (.go (i, p))
  else pure (.go (i, p))

/-- Fraction part (ascii_number.h:426-445). -/
def fracStepT (c : Cfg) (ct : CharType) (dp i : Nat) (p : List Nat) : Timed FracRes :=
  if peekIs p dp then do
    let before ← run (advance p)
    let r ← loopParseIfEightDigitsT c ct before i
    let s ← digitLoopT ct r.1 r.2
    let n := before.length - s.1.length
    pure { i := s.2, p := s.1, count := n, span := some (before.take n) }
  else pure { i := i, p := p, count := 0, span := none }

/-- The exponent digit loop (ascii_number.h:486-492). -/
def expDigitLoopT (ct : CharType) : List Nat → Int → Timed (List Nat × Int)
  | [], n => pure ([], n)
  | ch :: p, n => do
    tick 1
    match isInteger ct ch with
    | .error e => run (.error e)
    | .ok true => do
      let n' ← run (expAccum n ch)
      expDigitLoopT ct p n'
    | .ok false => pure (ch :: p, n)

/-- Exponent part (ascii_number.h:456-504). -/
def expStepT (ct : CharType) (fmt : Fmt) (p : List Nat) : Timed (Scan (Int × List Nat)) :=
  if startsExponent fmt p then do
    let p1 ← run (skipMarker p)
    let (negExp, p2) := expSign p1
    let isInt ← run (peekDigit ct p2)
    if !isInt then
      if !fmt.has Fmt.fixed then pure (.fail (reportParseError p2 .missingExponentialPart))
      else pure (.go (0, p))
    else do
      let (p3, n) ← expDigitLoopT ct p2 0
      pure (.go (if negExp then -n else n, p3))
  else if fmt.has Fmt.scientific && !fmt.has Fmt.fixed then
    pure (.fail (reportParseError p .missingExponentialPart))
  else pure (.go (0, p))

/-- The run of leading zeros (ascii_number.h:518-524). -/
def leadingZeroRunT (dp : Nat) : List Nat → Timed Nat
  | [] => pure 0
  | ch :: p => do
    tick 1
    if ch == ch0 || ch == dp then do
      let n ← leadingZeroRunT dp p
      pure ((if ch == ch0 then 1 else 0) + n)
    else pure 0

/-- The loops of ascii_number.h:540-543, 549-552. -/
def truncLoopT : List Nat → Nat → Timed (Nat × Nat)
  | [], i => pure (i, 0)
  | ch :: p, i => do
    tick 1
    if i < 1000000000000000000 then truncLoopT p ((i * 10 + (ch - 48)) % 2 ^ 64) else pure (i, p.length + 1)

/-- The recomputation of mantissa and exponent (ascii_number.h:532-556). -/
def recomputeT (integer : List Nat) (fraction : Option (List Nat)) (expNumber : Int) : Timed (Int × Nat) := do
  let a ← truncLoopT integer 0
  if a.1 ≥ 1000000000000000000 then pure ((a.2 : Int) + expNumber, a.1)
  else do
    let f := fraction.getD []
    let b ← truncLoopT f a.1
    pure (-((f.length - b.2 : Nat) : Int) + expNumber, b.1)

/-- The leading zeros are counted when there are more than 19 digits (ascii_number.h:514-525). -/
def countZerosT (dp : Nat) (digitCount : Int) (start : List Nat) : Timed Nat := if digitCount > 19 then leadingZeroRunT dp start else pure 0

/-- Mantissa and exponent are recomputed when there are too many digits and the spans are kept (ascii_number.h:526-557). -/
def chooseT (again : Bool) (integer : List Nat) (fraction : Option (List Nat)) (expNumber : Int) (em : Int × Nat) : Timed (Int × Nat) :=
  if again then recomputeT integer fraction expNumber else pure em

/-- `parse_number_string` (ascii_number.h:340-562). -/
def parseNumberStringT (c : Cfg) (ct : CharType) (json : Bool) (p : List Nat) (opt : Options) (storeSpans : Bool) : Timed ParsedNumber := do
  let fmt := adjustForFeatureMacros c opt.format
  let dp := opt.decimalPoint
  match ← run (signStep ct json fmt dp p) with
  | .fail r => pure r
  | .go (negative, start) =>
    match ← intStepT ct json start with
    | .fail r => pure r
    | .go (i, endInt) => do
      let intCount := start.length - endInt.length
      let fr ← fracStepT c ct dp i endInt
      let digitCount ← run (chk64 ((intCount : Int) + fr.count))
      if json && fr.span.isSome && fr.count == 0 then pure (reportParseError fr.p .noDigitsInFractionalPart)
      else if !json && digitCount == 0 then pure (reportParseError fr.p .noDigitsInMantissa)
      else
        match ← expStepT ct fmt fr.p with
        | .fail r => pure r
        | .go (expNumber, last) => do
          let exponent ← run (chk64 (-(fr.count : Int) + expNumber))
          let zeros ← countZerosT dp digitCount start
          let digitCount' := if digitCount > 19 then digitCount - zeros else digitCount
          let tooMany := decide (digitCount > 19) && decide (digitCount' > 19)
          let integer := start.take intCount
          let em ← chooseT (tooMany && storeSpans) integer fr.span expNumber (exponent, fr.i)
          pure {
            exponent := em.1
            mantissa := em.2
            lastmatch := last
            negative := negative
            valid := true
            tooManyDigits := tooMany
            integer := if storeSpans then some integer else none
            fraction := if storeSpans then fr.span else none }

/-! ### Big integers (bigint.h) -/

/-- `stackvec::normalize` (bigint.h:157-161) on the reversed vector. -/
def dropZerosT : Limbs → Timed Limbs
  | [] => pure []
  | x :: xs => do
    tick 1
    if x = 0 then dropZerosT xs else pure (x :: xs)

/-- `stackvec::normalize` (bigint.h:157-161). -/
def normalizeT (v : Limbs) : Timed Limbs := do
  let r ← dropZerosT v.reverse
  pure r.reverse

/-- The loop of `stackvec::nonzero` (bigint.h:146-154), from the most significant limb looked at down. -/
def anyNonzeroT : Limbs → Timed Bool
  | [] => pure false
  | x :: xs => do
    tick 1
    if x != 0 then pure true else anyNonzeroT xs

/-- `stackvec::nonzero` (bigint.h:146-154). -/
def nonzeroFromT (v : Limbs) (index : Nat) : Timed Bool := anyNonzeroT (v.take (v.length - index)).reverse

/-- The loop of `small_add_from` (bigint.h:267-271). -/
def addCarryLoopT (c : Cfg) : Limbs → Nat → Timed (Limbs × Nat)
  | [], carry => pure ([], carry)
  | x :: xs, carry =>
    if carry = 0 then pure (x :: xs, 0)
    else do
      tick 1
      let s := scalarAdd c x carry
      let r ← addCarryLoopT c xs (if s.2 then 1 else 0)
      pure (s.1 :: r.1, r.2)

/-- `small_add_from` (bigint.h:261-276). -/
def smallAddFromT (c : Cfg) (v : Limbs) (y start : Nat) : Timed Limbs := do
  let r ← addCarryLoopT c (v.drop start) y
  let v' := v.take start ++ r.1
  if r.2 ≠ 0 then run (tryPush c v' r.2) else pure v'

/-- The loop of `small_mul` (bigint.h:289-292). -/
def mulLoopT (c : Cfg) (y : Nat) : Limbs → Nat → Timed (Limbs × Nat)
  | [], carry => pure ([], carry)
  | x :: xs, carry => do
    tick 1
    let s := scalarMul c x y carry
    let r ← mulLoopT c y xs s.2
    pure (s.1 :: r.1, r.2)

/-- `small_mul` (bigint.h:286-297). -/
def smallMulT (c : Cfg) (v : Limbs) (y : Nat) : Timed Limbs := do
  let r ← mulLoopT c y v 0
  if r.2 ≠ 0 then run (tryPush c r.1 r.2) else pure r.1

/-- The loop of `large_add_from` (bigint.h:310-322). -/
def largeAddLoopT (c : Cfg) : Limbs → Limbs → Bool → Timed (Limbs × Bool)
  | xs, [], carry => pure (xs, carry)
  | [], _ :: _, _ => run (.error .outOfBounds)
  | x :: xs, y :: ys, carry => do
    tick 1
    let s1 := scalarAdd c x y
    let s2 := if carry then scalarAdd c s1.1 1 else (s1.1, false)
    let r ← largeAddLoopT c xs ys (s1.2 || s2.2)
    pure (s2.1 :: r.1, r.2)

/-- The `try_resize` of `large_add_from` (bigint.h:306-308): `std::fill` of the new limbs. -/
def resizeForT (c : Cfg) (x y : Limbs) (start : Nat) : Timed Limbs :=
  if x.length < start ∨ y.length > x.length - start then
    (if y.length + start > bigintLimbs c then run (.error .capacity)
     else do
      tick (y.length + start - x.length)
      pure (x ++ List.replicate (y.length + start - x.length) 0))
  else pure x

/-- `large_add_from` (bigint.h:301-329). -/
def largeAddFromT (c : Cfg) (x y : Limbs) (start : Nat) : Timed Limbs := do
  let x ← resizeForT c x y start
  let r ← largeAddLoopT c (x.drop start) y false
  let x' := x.take start ++ r.1
  if r.2 then smallAddFromT c x' 1 (y.length + start) else pure x'

/-- The loop of `long_mul` (bigint.h:348-359); `zi.try_extend(zs)` copies every limb of `z`. -/
def longMulLoopT (c : Cfg) (z : Limbs) : Limbs → Nat → Limbs → Timed Limbs
  | [], _, x => pure x
  | yi :: ys, index, x => do
    tick 1
    if yi ≠ 0 then do
      tick z.length
      let zi ← smallMulT c z yi
      let x ← largeAddFromT c x zi index
      longMulLoopT c z ys (index + 1) x
    else longMulLoopT c z ys (index + 1) x

/-- `long_mul` (bigint.h:339-364); `stackvec z(xs)` copies every limb of `x`. -/
def longMulT (c : Cfg) (x y : Limbs) : Timed Limbs := do
  tick x.length
  match y with
  | [] => normalizeT x
  | y0 :: ys => do
    let x' ← smallMulT c x y0
    let r ← longMulLoopT c x ys 1 x'
    normalizeT r

/-- `large_mul` (bigint.h:367-375). -/
def largeMulT (c : Cfg) (x y : Limbs) : Timed Limbs :=
  match y with
  | [y0] => smallMulT c x y0
  | _ => longMulT c x y

/-- `bigint::bigint(uint64_t)` (bigint.h:445-453). -/
def bigOfU64T (c : Cfg) (value : Nat) : Timed Limbs :=
  if c.limb64 then normalizeT [value % 2 ^ 64] else normalizeT [value % 2 ^ 32, value / 2 ^ 32 % 2 ^ 32]

/-- `bigint::hi64` (bigint.h:457-482). -/
def hi64T (c : Cfg) (v : Limbs) : Timed Hi :=
  if c.limb64 then
    if v.length = 0 then pure (0, false)
    else if v.length = 1 then do
      let r0 ← run (rindex v 0)
      run (uint64Hi64One c r0)
    else do
      let r0 ← run (rindex v 0)
      let r1 ← run (rindex v 1)
      let h ← run (uint64Hi64Two c r0 r1)
      let s ← nonzeroFromT v 2
      pure (h.1, h.2 || s)
  else
    if v.length = 0 then pure (0, false)
    else if v.length = 1 then do
      let r0 ← run (rindex v 0)
      run (uint64Hi64One c r0)
    else if v.length = 2 then do
      let r0 ← run (rindex v 0)
      let r1 ← run (rindex v 1)
      run (uint32Hi64Two c r0 r1)
    else do
      let r0 ← run (rindex v 0)
      let r1 ← run (rindex v 1)
      let r2 ← run (rindex v 2)
      let h ← run (uint32Hi64Three c r0 r1 r2)
      let s ← nonzeroFromT v 3
      pure (h.1, h.2 || s)

/-- Comparison from the most significant limb down (bigint.h:496-505). -/
def compareLoopT : Limbs → Limbs → Timed Int
  | x :: xs, y :: ys => do
    tick 1
    if x > y then pure 1 else if x < y then pure (-1) else compareLoopT xs ys
  | _, _ => pure 0

/-- `bigint::compare` (bigint.h:490-507). -/
def bigCompareT (x y : Limbs) : Timed Int :=
  if x.length > y.length then pure 1
  else if x.length < y.length then pure (-1)
  else compareLoopT x.reverse y.reverse

/-- Loop of `shl_bits` (bigint.h:523-527). -/
def shlBitsLoopT (lb n : Nat) : Limbs → Nat → Timed (Limbs × Nat)
  | [], prev => pure ([], prev)
  | x :: xs, prev => do
    tick 1
    let r ← shlBitsLoopT lb n xs x
    pure (((x * 2 ^ n % 2 ^ lb) ||| (prev / 2 ^ (lb - n))) :: r.1, r.2)

/-- `bigint::shl_bits` (bigint.h:511-534). -/
def shlBitsT (c : Cfg) (v : Limbs) (n : Nat) : Timed Limbs :=
  if n = 0 ∨ n ≥ limbBits c then run (.error .shift)
  else do
    let r ← shlBitsLoopT (limbBits c) n v 0
    let carry := r.2 / 2 ^ (limbBits c - n)
    if carry ≠ 0 then run (tryPush c r.1 carry) else pure r.1

/-- `bigint::shl_limbs` (bigint.h:537-555): `std::copy_backward` of the limbs and `std::fill` of `n` zeros. -/
def shlLimbsT (c : Cfg) (v : Limbs) (n : Nat) : Timed Limbs :=
  if n + v.length > bigintLimbs c then run (.error .capacity)
  else if v.length ≠ 0 then do
    tick (v.length + n)
    pure (List.replicate n 0 ++ v)
  else pure v

/-- `bigint::shl` (bigint.h:558-568). -/
def bigShlT (c : Cfg) (v : Limbs) (n : Nat) : Timed Limbs := do
  let rem := n % limbBits c
  let div := n / limbBits c
  let v ← if rem ≠ 0 then shlBitsT c v rem else pure v
  if div ≠ 0 then shlLimbsT c v div else pure v

/-- `while (exp >= large_step)` of `pow5` (bigint.h:603-606). -/
def pow5LargeT (c : Cfg) : Nat → Limbs → Nat → Timed (Limbs × Nat)
  | 0, _, _ => run (.error .fuel)
  | fuel + 1, v, exp =>
    if exp ≥ largeStep then do
      tick 1
      let v ← largeMulT c v (largePowerOf5 c)
      pow5LargeT c fuel v (exp - largeStep)
    else pure (v, exp)

/-- `while (exp >= small_step)` of `pow5` (bigint.h:614-617). -/
def pow5SmallT (c : Cfg) : Nat → Limbs → Nat → Timed (Limbs × Nat)
  | 0, _, _ => run (.error .fuel)
  | fuel + 1, v, exp =>
    if exp ≥ smallStep c then do
      tick 1
      let v ← smallMulT c v (maxNative c)
      pow5SmallT c fuel v (exp - smallStep c)
    else pure (v, exp)

/-- `bigint::pow5` (bigint.h:599-627). -/
def bigPow5T (c : Cfg) (v : Limbs) (exp : Nat) : Timed Limbs := do
  let (v, exp) ← pow5LargeT c (exp + 1) v exp
  let (v, exp) ← pow5SmallT c (exp + 1) v exp
  if exp ≠ 0 then do
    let y ← run (tableGet smallPowerOf5 exp)
    smallMulT c v (y % 2 ^ limbBits c)
  else pure v

/-- `bigint::pow10` (bigint.h:630-633). -/
def bigPow10T (c : Cfg) (v : Limbs) (exp : Nat) : Timed Limbs := do
  let v ← bigPow5T c v exp
  bigShlT c v exp

/-! ### digit_comparison.h -/

/-- The loops of `scientific_exponent` (digit_comparison.h:42-53). -/
def sciLoopT (bound : Nat) (step : Int) : Nat → Nat → Int → Timed (Nat × Int)
  | 0, _, _ => run (.error .fuel)
  | fuel + 1, m, e =>
    if m ≥ bound then do
      tick 1
      let e' ← run (chk32 (e + step))
      sciLoopT bound step fuel (m / bound) e'
    else pure (m, e)

/-- `scientific_exponent` (digit_comparison.h:40-55). -/
def scientificExponentT (mantissa : Nat) (exponent : Int) : Timed Int := do
  let a ← sciLoopT 10000 4 65 mantissa exponent
  let b ← sciLoopT 100 2 65 a.1 a.2
  let d ← sciLoopT 10 1 65 b.1 b.2
  pure d.2

/-- First loop of `skip_zeros` (digit_comparison.h:174-181). -/
def skipZerosBlocksT (c : Cfg) (ct : CharType) : Nat → List Nat → Timed (List Nat)
  | 0, _ => run (.error .fuel)
  | fuel + 1, p =>
    if !c.constEval && decide (p.length ≥ intCmpLen ct) then do
      tick (intCmpLen ct)
      let b ← run (readBlock (intCmpLen ct) p)
      if memWord c ct.width b ≠ intCmpZeros ct then pure p
      else do
        let p' ← run (skipN (intCmpLen ct) p)
        skipZerosBlocksT c ct fuel p'
    else pure p

/-- Second loop of `skip_zeros` (digit_comparison.h:182-187). -/
def skipZerosUnitsT : List Nat → Timed (List Nat)
  | [] => pure []
  | ch :: p => do
    tick 1
    if ch ≠ ch0 then pure (ch :: p) else skipZerosUnitsT p

/-- `skip_zeros` (digit_comparison.h:170-188). -/
def skipZerosT (c : Cfg) (ct : CharType) (p : List Nat) : Timed (List Nat) := do
  let p ← skipZerosBlocksT c ct (p.length + 1) p
  skipZerosUnitsT p

/-- First loop of `is_truncated` (digit_comparison.h:197-204). -/
def isTruncatedBlocksT (c : Cfg) (ct : CharType) : Nat → List Nat → Timed (Option (List Nat))
  | 0, _ => run (.error .fuel)
  | fuel + 1, p =>
    if !c.constEval && decide (p.length ≥ intCmpLen ct) then do
      tick (intCmpLen ct)
      let b ← run (readBlock (intCmpLen ct) p)
      if memWord c ct.width b ≠ intCmpZeros ct then pure none
      else do
        let p' ← run (skipN (intCmpLen ct) p)
        isTruncatedBlocksT c ct fuel p'
    else pure (some p)

/-- Second loop of `is_truncated` (digit_comparison.h:205-211). -/
def anyNotZeroDigitT : List Nat → Timed Bool
  | [] => pure false
  | ch :: p => do
    tick 1
    if ch != ch0 then pure true else anyNotZeroDigitT p

/-- `is_truncated` (digit_comparison.h:190-218). -/
def isTruncatedT (c : Cfg) (ct : CharType) (p : List Nat) : Timed Bool := do
  match ← isTruncatedBlocksT c ct (p.length + 1) p with
  | none => pure true
  | some q => anyNotZeroDigitT q

/-- `parse_eight_digits` loop (digit_comparison.h:220-228, 277-280, 311-314). -/
def pmEightLoopT (c : Cfg) (ct : CharType) (step maxDigits : Nat) : Nat → PMState → Timed PMState
  | 0, _ => run (.error .fuel)
  | fuel + 1, s =>
    if s.p.length ≥ 8 ∧ step - s.counter ≥ 8 ∧ maxDigits - s.digits ≥ 8 then do
      tick 8
      let v ← run (parseEightDigitsUnrolledAt c ct s.p)
      let p' ← run (skipN 8 s.p)
      pmEightLoopT c ct step maxDigits fuel
        { p := p', value := (s.value * 100000000 % 2 ^ limbBits c + v) % 2 ^ limbBits c,
          counter := s.counter + 8, digits := s.digits + 8 }
    else pure s

/-- `parse_one_digit` loop (digit_comparison.h:230-238, 281-283, 315-317). -/
def pmOneLoopT (c : Cfg) (step maxDigits : Nat) : Nat → PMState → Timed PMState
  | 0, _ => run (.error .fuel)
  | fuel + 1, s =>
    match s.p with
    | [] => pure s
    | ch :: p' =>
      if s.counter < step ∧ s.digits < maxDigits then do
        tick 1
        pmOneLoopT c step maxDigits fuel
          { p := p', value := (s.value * 10 % 2 ^ limbBits c + (ch - 48)) % 2 ^ limbBits c,
            counter := s.counter + 1, digits := s.digits + 1 }
      else pure s

/-- `add_native` (digit_comparison.h:240-244). -/
def addNativeT (c : Cfg) (big : Limbs) (power value : Nat) : Timed Limbs := do
  let b ← smallMulT c big power
  smallAddFromT c b value 0

/-- `round_up_bigint` (digit_comparison.h:246-252). -/
def roundUpBigintT (c : Cfg) (big : Limbs) (count : Nat) : Timed (Limbs × Nat) := do
  let b ← addNativeT c big 10 1
  pure (b, count + 1)

/-- The outer digit loop of `parse_mantissa` (digit_comparison.h:276-300, 310-331). -/
def pmLoopT (c : Cfg) (ct : CharType) (maxDigits : Nat) (isTrunc : List Nat → Timed Bool) :
    Nat → Limbs → List Nat → Nat → Timed (Sum (Limbs × Nat) (Limbs × Nat))
  | 0, _, _, _ => run (.error .fuel)
  | fuel + 1, big, p, digits =>
    if p.length = 0 then pure (.inr (big, digits))
    else do
      tick 1
      let s ← pmEightLoopT c ct (pmStep c) maxDigits (p.length + 1) { p := p, value := 0, counter := 0, digits := digits }
      let s ← pmOneLoopT c (pmStep c) maxDigits (s.p.length + 1) s
      let pw ← run (tableGet powersOfTenU64 s.counter)
      let big ← addNativeT c big (pw % 2 ^ limbBits c) s.value
      if s.digits = maxDigits then do
        let t ← isTrunc s.p
        if t then do
          let r ← roundUpBigintT c big s.digits
          pure (.inl r)
        else pure (.inl (big, s.digits))
      else pmLoopT c ct maxDigits isTrunc fuel big s.p s.digits

/-- `truncated` inside the integer part (digit_comparison.h:284-294). -/
def intTruncT (c : Cfg) (ct : CharType) (fraction : Option (List Nat)) (q : List Nat) : Timed Bool := do
  let t ← isTruncatedT c ct q
  match fraction with
  | none => pure t
  | some f => do
    let t2 ← isTruncatedT c ct f
    pure (t || t2)

/-- `parse_mantissa` (digit_comparison.h:254-337). -/
def parseMantissaT (c : Cfg) (ct : CharType) (num : ParsedNumber) (maxDigits : Nat) : Timed (Limbs × Nat) := do
  let p ← skipZerosT c ct (num.integer.getD [])
  let r ← pmLoopT c ct maxDigits (intTruncT c ct num.fraction) (p.length + 1) [] p 0
  match r with
  | .inl x => pure x
  | .inr (big, digits) =>
    match num.fraction with
    | none => pure (big, digits)
    | some f => do
      let p ← if digits = 0 then skipZerosT c ct f else pure f
      let r ← pmLoopT c ct maxDigits (isTruncatedT c ct) (p.length + 1) big p digits
      match r with
      | .inl x => pure x
      | .inr x => pure x

/-- `positive_digit_comp` (digit_comparison.h:339-360). -/
def positiveDigitCompT (c : Cfg) (F : BinFmt) (bigmant : Limbs) (exponent : Nat) : Timed AdjustedMantissa := do
  let big ← bigPow10T c bigmant exponent
  let h ← hi64T c big
  let bias : Int := F.mb - F.minExp
  let bl ← run (bitLength c big)
  let answer : AdjustedMantissa := { mantissa := h.1, power2 := bl - 64 + bias }
  run (roundAm F answer (roundNearestTieEven fun isOdd isHalfway isAbove =>
    isAbove || (isHalfway && h.2) || (isOdd && isHalfway)))

/-- `negative_digit_comp` (digit_comparison.h:367-416). -/
def negativeDigitCompT (c : Cfg) (F : BinFmt) (bigmant : Limbs) (am : AdjustedMantissa) (exponent : Int) : Timed AdjustedMantissa := do
  let amB ← run (roundAm F am roundDown)
  let b := toFloat F false amB
  let theor := toExtendedHalfway F b
  let theorDigits ← bigOfU64T c theor.mantissa
  let pow2Exp ← run (chk32 (theor.power2 - exponent))
  let pow5Exp := (-exponent).toNat
  let theorDigits ← if pow5Exp ≠ 0 then bigPow5T c theorDigits pow5Exp else pure theorDigits
  let theorDigits ← if pow2Exp > 0 then bigShlT c theorDigits pow2Exp.toNat else pure theorDigits
  let realDigits ← if pow2Exp < 0 then bigShlT c bigmant (-pow2Exp).toNat else pure bigmant
  let ord ← bigCompareT realDigits theorDigits
  run (roundAm F am (roundNearestTieEven fun isOdd _ _ =>
    if ord > 0 then true else if ord < 0 then false else isOdd))

/-- `digit_comp` (digit_comparison.h:431-450). -/
def digitCompT (c : Cfg) (ct : CharType) (F : BinFmt) (num : ParsedNumber) (am : AdjustedMantissa) : Timed AdjustedMantissa := do
  let am : AdjustedMantissa := { mantissa := am.mantissa, power2 := am.power2 - invalidAmBias }
  let e32 ← run (chk32 num.exponent)
  let sciExp ← scientificExponentT num.mantissa e32
  let (bigmant, digits) ← parseMantissaT c ct num F.maxDigits
  let exponent ← run (chk32 (sciExp + 1 - (digits : Int)))
  if exponent ≥ 0 then positiveDigitCompT c F bigmant exponent.toNat
  else negativeDigitCompT c F bigmant am exponent

/-! ### parse_number.h -/

/-- The loop over `nan(n-char-seq)` (parse_number.h:45-53). -/
def nanSeqT (ct : CharType) : List Nat → Timed (Option (List Nat))
  | [] => pure none
  | ch :: p => do
    tick 1
    if ch == 41 then pure (some p) else if nanChar ct ch then nanSeqT ct p else pure none

/-- The end of a NaN: the parenthesised sequence if it is complete (parse_number.h:43-54). -/
def nanEndT (ct : CharType) (q : List Nat) : Timed (List Nat) :=
  if peekIs q 40 then do
    let e ← nanSeqT ct (q.drop 1)
    pure (e.getD q)
  else pure q

/-- The end of an infinity (parse_number.h:58-63): five units compared. -/
def infinityEndT (c : Cfg) (ct : CharType) (p : List Nat) : Timed (List Nat) := do
  tick 5
  run (infinityEnd c ct p)

/-- `detail::parse_infnan` (parse_number.h:22-71): three units compared, twice. -/
def parseInfnanT (c : Cfg) (ct : CharType) (F : BinFmt) (first : List Nat) (fmt : Fmt) : Timed FloatResult := do
  let c0 ← run (deref first)
  let minusSign := c0 == chMinus
  let p ← run (infnanSign first c0 fmt)
  if p.length ≥ 3 then do
    tick 3
    let isNan ← run (strncasecmp3 c ct p strNan)
    if isNan then do
      let q ← run (skipN 3 p)
      let bits := if minusSign then fpNeg F (quietNaN F) else quietNaN F
      let ptr ← nanEndT ct q
      pure { ptr := ptr, ec := .ok, value := some bits }
    else do
      tick 3
      let isInf ← run (strncasecmp3 c ct p (strInf.take 3))
      if isInf then do
        let ptr ← infinityEndT c ct p
        pure { ptr := ptr, ec := .ok, value := some (if minusSign then fpNeg F (infIdx F) else infIdx F) }
      else pure { ptr := first, ec := .invalidArgument, value := none }
  else pure { ptr := first, ec := .invalidArgument, value := none }

/-- `from_chars_advanced(parsed_number_string_t&, T&)` (parse_number.h:253-290). -/
def fromCharsAdvancedPnsT (c : Cfg) (ct : CharType) (F : BinFmt) (pns : ParsedNumber) : Timed FloatResult := do
  let fast ← if !pns.tooManyDigits then run (clingerFastPath c F pns.mantissa pns.exponent pns.negative) else pure none
  match fast with
  | some v => pure { ptr := pns.lastmatch, ec := .ok, value := some v }
  | none => do
    let am ← run (computeFloat c F pns.exponent pns.mantissa)
    let am ← if pns.tooManyDigits && decide (am.power2 ≥ 0) then do
        let am1 ← run (computeFloat c F pns.exponent ((pns.mantissa + 1) % 2 ^ 64))
        if am ≠ am1 then run (computeError c F pns.exponent pns.mantissa) else pure am
      else pure am
    let am ← if am.power2 < 0 then digitCompT c ct F pns am else pure am
    pure { ptr := pns.lastmatch, ec := rangeErrc F pns.mantissa am, value := some (toFloat F pns.negative am) }

/-- `parse_number_slow_path` (parse_number.h:299-307). -/
def parseNumberSlowPathT (c : Cfg) (ct : CharType) (F : BinFmt) (first : List Nat) (opt : Options) (bjf : Bool) : Timed FloatResult := do
  let pns ← parseNumberStringT c ct bjf first opt true
  fromCharsAdvancedPnsT c ct F pns

/-- `from_chars_float_advanced` after the scan (parse_number.h:341-393). -/
def fromCharsFloatParsedT (c : Cfg) (ct : CharType) (F : BinFmt) (first : List Nat) (opt : Options) (fmt : Fmt) (bjf : Bool)
    (pns : ParsedNumber) : Timed FloatResult :=
  if !pns.valid then
    if fmt.has Fmt.noInfnan then pure { ptr := first, ec := .invalidArgument, value := none }
    else parseInfnanT c ct F first fmt
  else if pns.tooManyDigits then parseNumberSlowPathT c ct F first opt bjf
  else do
    match ← run (clingerFastPath c F pns.mantissa pns.exponent pns.negative) with
    | some v => pure { ptr := pns.lastmatch, ec := .ok, value := some v }
    | none => do
      let am ← run (computeFloat c F pns.exponent pns.mantissa)
      if am.power2 < 0 then parseNumberSlowPathT c ct F first opt bjf
      else pure { ptr := pns.lastmatch, ec := rangeErrc F pns.mantissa am, value := some (toFloat F pns.negative am) }

/-- `from_chars_float_advanced` after the white space (parse_number.h:327-393). -/
def fromCharsFloatBodyT (c : Cfg) (ct : CharType) (F : BinFmt) (first : List Nat) (opt : Options) : Timed FloatResult :=
  match first with
  | [] => pure { ptr := first, ec := .invalidArgument, value := none }
  | _ :: _ => do
    let fmt := adjustForFeatureMacros c opt.format
    let bjf := fmt.has Fmt.basicJson
    let pns ← parseNumberStringT c ct bjf first opt false
    fromCharsFloatParsedT c ct F first opt fmt bjf pns

/-- The optional white-space loop (parse_number.h:322-326, 502-506). -/
def dropSpacesT (c : Cfg) (ct : CharType) (first : List Nat) (opt : Options) : Timed (List Nat) :=
  if (adjustForFeatureMacros c opt.format).has Fmt.skipWhiteSpace then skipSpacesT ct first else pure first

/-- `from_chars_float_advanced` (parse_number.h:309-394). -/
def fromCharsFloatAdvancedT (c : Cfg) (ct : CharType) (F : BinFmt) (first : List Nat) (opt : Options) : Timed FloatResult := do
  let first ← dropSpacesT c ct first opt
  fromCharsFloatBodyT c ct F first opt

/-- `from_chars_advanced(first, last, T&, options)` for a floating-point `T` (parse_number.h:516-527, 538-546), counted. -/
def fromCharsFloatT (c : Cfg) (ct : CharType) (F : BinFmt) (s : List Nat) (opt : Options) : Timed ApiFloat := do
  let r ← fromCharsFloatAdvancedT c ct F s opt
  pure { off := s.length - r.ptr.length, ec := r.ec, value := r.value }

/-! ### parse_int_string (ascii_number.h:564-819) -/

/-- `while (p != pend && *p == UC('0')) ++p;` (ascii_number.h:595-597). -/
def skipZeroUnitsT : List Nat → Timed (List Nat)
  | [] => pure []
  | ch :: p => do
    tick 1
    if ch == ch0 then skipZeroUnitsT p else pure (ch :: p)

/-- The loop over the rest of a too long run (ascii_number.h:668-673). -/
def u8RestT (ct : CharType) : List Nat → Timed (List Nat)
  | [] => pure []
  | ch :: q => do
    tick 1
    if ct.toInt ch < 48 ∨ ct.toInt ch > 57 then pure (ch :: q) else u8RestT ct q

/-- The `uint8_t` fast path (ascii_number.h:603-694): four units read. -/
def parseU8T (c : Cfg) (ct : CharType) (first p : List Nat) (hasLeadingZeros : Bool) : Timed IntResult :=
  let noDigits : IntResult :=
    if hasLeadingZeros then { ptr := p, ec := .ok, value := some 0 }
    else { ptr := first, ec := .invalidArgument, value := none }
  let len := p.length
  if len = 0 then pure noDigits
  else do
    tick 4
    let digits ← run (u8Digits c p)
    let magic := ((digits + 0x46464646) % 2 ^ 32 ||| (digits + 2 ^ 32 - 0x30303030) % 2 ^ 32) &&& 0x80808080
    let tz := countrZero32 c magic
    let nd := if tz = 32 then 4 else tz / 2 ^ 3
    let nd := if nd < len then nd else len
    if nd = 0 then pure noDigits
    else if nd > 3 then do
      let q ← run (skipN nd p)
      let q ← u8RestT ct q
      pure { ptr := q, ec := .outOfRange, value := none }
    else do
      let digits := digits ^^^ 0x30303030
      let digits ← run (shl32 digits ((4 - nd) * 8))
      let check := (digits / 2 ^ 24 &&& 0xff) ||| (digits / 2 ^ 8 &&& 0xff00) ||| (digits * 2 ^ 8 % 2 ^ 32 &&& 0xff0000)
      let q ← run (skipN nd p)
      if check > 0x00020505 then pure { ptr := q, ec := .outOfRange, value := none }
      else pure { ptr := q, ec := .ok, value := some (((0x640a01 * digits % 2 ^ 32) / 2 ^ 24 % 256 : Nat) : Int) }

/-- `while (q != pend && is_integer(*q)) q++;` (ascii_number.h:721-723). -/
def skipDigitsT (ct : CharType) : List Nat → Timed (List Nat)
  | [] => pure []
  | ch :: q => do
    tick 1
    match isInteger ct ch with
    | .error e => run (.error e)
    | .ok true => skipDigitsT ct q
    | .ok false => pure (ch :: q)

/-- The `uint16_t` fast path (ascii_number.h:696-745): six units read. -/
def parseU16T (c : Cfg) (ct : CharType) (first p : List Nat) (hasLeadingZeros : Bool) : Timed (Option IntResult) :=
  let len := p.length
  if len = 0 then
    pure (some (if hasLeadingZeros then { ptr := p, ec := .ok, value := some 0 }
      else { ptr := first, ec := .invalidArgument, value := none }))
  else if len ≥ 4 then do
    tick 6
    let digits ← run (read4ToU32 c ct p)
    if isMadeOfFourDigitsFast digits then do
      let v := parseFourDigitsUnrolled digits
      let d5 ← run (isIntegerAt ct p 4)
      if d5 then do
        let v := (v * 10 + ((p.getD 4 0) - 48)) % 2 ^ 32
        let d6 ← run (isIntegerAt ct p 5)
        let q5 ← run (skipN 5 p)
        if d6 then do
          let q ← skipDigitsT ct q5
          pure (some { ptr := q, ec := .outOfRange, value := none })
        else if v > 65535 then pure (some { ptr := q5, ec := .outOfRange, value := none })
        else pure (some { ptr := q5, ec := .ok, value := some ((v % 2 ^ 16 : Nat) : Int) })
      else do
        let q4 ← run (skipN 4 p)
        pure (some { ptr := q4, ec := .ok, value := some ((v % 2 ^ 16 : Nat) : Int) })
    else pure none
  else pure none

/-- `if (base == 10) loop_parse_if_eight_digits(p, pend, i);` (ascii_number.h:747-750). -/
def intBlocksT (c : Cfg) (ct : CharType) (base : Int) (p : List Nat) : Timed (List Nat × Nat) :=
  if base = 10 then loopParseIfEightDigitsT c ct p 0 else pure (p, 0)

/-- The generic digit loop (ascii_number.h:751-758). -/
def baseLoopT (base : Int) : List Nat → Nat → Timed (List Nat × Nat)
  | [], i => pure ([], i)
  | ch :: p, i => do
    tick 1
    match chToDigit ch with
    | .error e => run (.error e)
    | .ok d =>
      if (d : Int) ≥ base then pure (ch :: p, i)
      else baseLoopT base p ((base.toNat * i + d) % 2 ^ 64)

/-- What follows the digit loops in the generic part of `parse_int_string` (ascii_number.h:759-818): no loop. -/
def parseIntFinish (T : IntType) (base : Int) (first p : List Nat) (negative hasLeadingZeros : Bool) (r2 : List Nat × Nat) : Exec IntResult :=
  let q := r2.1
  let i := r2.2
  let digitCount := p.length - q.length
  if digitCount = 0 then
    if hasLeadingZeros then pure { ptr := q, ec := .ok, value := some 0 }
    else pure { ptr := first, ec := .invalidArgument, value := none }
  else do
    let maxDigits ← maxDigitsU64 base
    if digitCount > maxDigits then pure { ptr := q, ec := .outOfRange, value := none }
    else do
      let minSafe ← minSafeU64 base
      if digitCount = maxDigits ∧ i < minSafe then pure { ptr := q, ec := .outOfRange, value := none }
      else if !T.isU64 && decide (i > (T.max % 2 ^ 64 + (if negative then 1 else 0)) % 2 ^ 64) then
        pure { ptr := q, ec := .outOfRange, value := none }
      else if negative then do
        let v ← negativeValue T i
        pure { ptr := q, ec := .ok, value := some v }
      else pure { ptr := q, ec := .ok, value := some (T.cast i) }

/-- The generic part of `parse_int_string` (ascii_number.h:747-818). -/
def parseIntGenericT (c : Cfg) (ct : CharType) (T : IntType) (base : Int) (first p : List Nat) (negative hasLeadingZeros : Bool) : Timed IntResult := do
  let r1 ← intBlocksT c ct base p
  let r2 ← baseLoopT base r1.1 r1.2
  run (parseIntFinish T base first p negative hasLeadingZeros r2)

/-- The choice between the specialised paths and the generic code (ascii_number.h:603-605, 696-698, 747). -/
def parseIntDigitsT (c : Cfg) (ct : CharType) (T : IntType) (base : Int) (first p : List Nat) (negative hasLeadingZeros : Bool) : Timed IntResult :=
  if T.isU8 && decide (ct.width = 1) && decide (base = 10) then parseU8T c ct first p hasLeadingZeros
  else if T.isU16 && decide (ct.width = 1) && decide (base = 10) then do
    match ← parseU16T c ct first p hasLeadingZeros with
    | some r => pure r
    | none => parseIntGenericT c ct T base first p negative hasLeadingZeros
  else parseIntGenericT c ct T base first p negative hasLeadingZeros

/-- `parse_int_string` (ascii_number.h:564-819). -/
def parseIntStringT (c : Cfg) (ct : CharType) (T : IntType) (first : List Nat) (opt : Options) : Timed IntResult := do
  let fmt := adjustForFeatureMacros c opt.format
  let c0 ← run (deref first)
  let negative := c0 == chMinus
  if !T.signed && negative then pure { ptr := first, ec := .invalidArgument, value := none }
  else do
    let startNum ← run (skipIntSign fmt c0 first)
    let p ← skipZeroUnitsT startNum
    parseIntDigitsT c ct T opt.base first p negative (decide (p.length < startNum.length))

/-- `from_chars_int_advanced` (parse_number.h:488-514). -/
def fromCharsIntAdvancedT (c : Cfg) (ct : CharType) (T : IntType) (first : List Nat) (opt : Options) : Timed IntResult := do
  let first ← dropSpacesT c ct first opt
  if first.length = 0 ∨ opt.base < 2 ∨ opt.base > 36 then pure { ptr := first, ec := .invalidArgument, value := none }
  else parseIntStringT c ct T first opt

/-- `from_chars_advanced(first, last, T&, options)` for an integer `T` (parse_number.h:529-546), counted. -/
def fromCharsIntApiT (c : Cfg) (ct : CharType) (T : IntType) (s : List Nat) (opt : Options) : Timed ApiInt := do
  let r ← fromCharsIntAdvancedT c ct T s opt
  pure { off := s.length - r.ptr.length, ec := r.ec, value := r.value }

end FastFloat
