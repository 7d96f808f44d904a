import Verif.Model.BigInt
import Verif.Model.Ascii
/-
# digit_comparison.h
-/
namespace FastFloat

/-- `powers_of_ten_uint64` (digit_comparison.h:14-34). -/
def powersOfTenU64 : List Nat := [
  1, 10, 100, 1000, 10000, 100000, 1000000, 10000000, 100000000, 1000000000, 10000000000, 100000000000, 1000000000000,
  10000000000000, 100000000000000, 1000000000000000, 10000000000000000, 100000000000000000, 1000000000000000000,
  10000000000000000000]

/-- `while (mantissa >= bound) { mantissa /= bound; exponent += step; }` (digit_comparison.h:42-53). -/
def sciLoop (bound : Nat) (step : Int) : Nat → Nat → Int → Exec (Nat × Int)
  | 0, _, _ => .error .fuel
  | fuel + 1, m, e =>
    if m ≥ bound then do
      let e' ← chk32 (e + step)
      sciLoop bound step fuel (m / bound) e'
    else .ok (m, e)

/-- `scientific_exponent` (digit_comparison.h:40-55). -/
def scientificExponent (mantissa : Nat) (exponent : Int) : Exec Int := do
  let a ← sciLoop 10000 4 65 mantissa exponent
  let b ← sciLoop 100 2 65 a.1 a.2
  let d ← sciLoop 10 1 65 b.1 b.2
  pure d.2

/-- `to_extended` (digit_comparison.h:58-88) on the bits of a value.  `bits & exponent_mask` is zero iff the exponent field is;
`| hidden_bit_mask` adds `2^mb` because that bit is clear in `bits & mantissa_mask`. -/
def toExtended (F : BinFmt) (bits : Nat) : AdjustedMantissa :=
  let bias : Int := F.mb - F.minExp
  let e := bits / 2 ^ F.mb % (F.infPow + 1)
  let m := bits % 2 ^ F.mb
  if e = 0 then { mantissa := m, power2 := 1 - bias }
  else { mantissa := m + 2 ^ F.mb, power2 := (e : Int) - bias }

/-- `to_extended_halfway` (digit_comparison.h:93-101). -/
def toExtendedHalfway (F : BinFmt) (bits : Nat) : AdjustedMantissa :=
  let am := toExtended F bits
  { mantissa := (am.mantissa * 2 % 2 ^ 64 + 1) % 2 ^ 64, power2 := am.power2 - 1 }

/-- `round` (digit_comparison.h:103-136) with the callback `cb`. -/
def roundAm (F : BinFmt) (am : AdjustedMantissa) (cb : AdjustedMantissa → Nat → Exec AdjustedMantissa) : Exec AdjustedMantissa :=
  let mantissaShift := 64 - F.mb - 1
  if -am.power2 ≥ mantissaShift then do
    let shift := -am.power2 + 1
    let am ← cb am (if shift < 64 then shift.toNat else 64)
    pure { mantissa := am.mantissa, power2 := if am.mantissa < 2 ^ F.mb then 0 else 1 }
  else do
    let am ← cb am mantissaShift
    let carry : Bool := decide (am.mantissa ≥ 2 * 2 ^ F.mb)
    let m := if carry then 2 ^ F.mb else am.mantissa
    let p2 := if carry then am.power2 + 1 else am.power2
    let m := m - (m / 2 ^ F.mb % 2) * 2 ^ F.mb
    if p2 ≥ F.infPow then pure { mantissa := 0, power2 := F.infPow } else pure { mantissa := m, power2 := p2 }

/-- `round_nearest_tie_even` (digit_comparison.h:138-158). -/
def roundNearestTieEven (cb : Bool → Bool → Bool → Bool) (am : AdjustedMantissa) (shift : Nat) : Exec AdjustedMantissa := do
  let mask ← if shift = 64 then .ok (2 ^ 64 - 1) else do
    let s ← shl64 1 shift
    pure ((s + 2 ^ 64 - 1) % 2 ^ 64)
  let halfway ← if shift = 0 then .ok 0 else shl64 1 (shift - 1)
  let truncatedBits := am.mantissa % (mask + 1)
  let isAbove := decide (truncatedBits > halfway)
  let isHalfway := decide (truncatedBits = halfway)
  let m ← if shift = 64 then .ok 0 else shr64 am.mantissa shift
  let isOdd := decide (m % 2 = 1)
  pure { mantissa := (m + (if cb isOdd isHalfway isAbove then 1 else 0)) % 2 ^ 64, power2 := am.power2 + shift }

/-- `round_down` (digit_comparison.h:160-168). -/
def roundDown (am : AdjustedMantissa) (shift : Nat) : Exec AdjustedMantissa := do
  let m ← if shift = 64 then .ok 0 else shr64 am.mantissa shift
  pure { mantissa := m, power2 := am.power2 + shift }

/-- First loop of `skip_zeros` (digit_comparison.h:174-181): 8 bytes at a time (not in constant evaluation). -/
def skipZerosBlocks (c : Cfg) (ct : CharType) : Nat → List Nat → Exec (List Nat)
  | 0, _ => .error .fuel
  | fuel + 1, p =>
    if !c.constEval && decide (p.length ≥ intCmpLen ct) then do
      let b ← readBlock (intCmpLen ct) p
      if memWord c ct.width b ≠ intCmpZeros ct then pure p
      else do
        let p' ← skipN (intCmpLen ct) p
        skipZerosBlocks c ct fuel p'
    else .ok p

/-- Second loop of `skip_zeros` (digit_comparison.h:182-187). -/
def skipZerosUnits : List Nat → List Nat
  | [] => []
  | ch :: p => if ch ≠ ch0 then ch :: p else skipZerosUnits p

/-- `skip_zeros` (digit_comparison.h:170-188). -/
def skipZeros (c : Cfg) (ct : CharType) (p : List Nat) : Exec (List Nat) := do
  let p ← skipZerosBlocks c ct (p.length + 1) p
  pure (skipZerosUnits p)

/-- First loop of `is_truncated` (digit_comparison.h:197-204): `none` = returned true, `some p` = continue at `p`. -/
def isTruncatedBlocks (c : Cfg) (ct : CharType) : Nat → List Nat → Exec (Option (List Nat))
  | 0, _ => .error .fuel
  | fuel + 1, p =>
    if !c.constEval && decide (p.length ≥ intCmpLen ct) then do
      let b ← readBlock (intCmpLen ct) p
      if memWord c ct.width b ≠ intCmpZeros ct then pure none
      else do
        let p' ← skipN (intCmpLen ct) p
        isTruncatedBlocks c ct fuel p'
    else .ok (some p)

/-- `is_truncated` (digit_comparison.h:190-218). -/
def isTruncated (c : Cfg) (ct : CharType) (p : List Nat) : Exec Bool := do
  match ← isTruncatedBlocks c ct (p.length + 1) p with
  | none => pure true
  | some q => pure (q.any (· != ch0))

/-- State of `parse_mantissa`: position, `value`, `counter`, `digits`. -/
structure PMState where
  p : List Nat
  value : Nat
  counter : Nat
  digits : Nat

/-- `parse_eight_digits` loop (digit_comparison.h:220-228, 277-280, 311-314). -/
def pmEightLoop (c : Cfg) (ct : CharType) (step maxDigits : Nat) : Nat → PMState → Exec PMState
  | 0, _ => .error .fuel
  | fuel + 1, s =>
    if s.p.length ≥ 8 ∧ step - s.counter ≥ 8 ∧ maxDigits - s.digits ≥ 8 then do
      let v ← parseEightDigitsUnrolledAt c ct s.p
      let p' ← skipN 8 s.p
      pmEightLoop c ct step maxDigits fuel
        { p := p', value := (s.value * 100000000 % 2 ^ limbBits c + v) % 2 ^ limbBits c,
          counter := s.counter + 8, digits := s.digits + 8 }
    else .ok s

/-- `parse_one_digit` loop (digit_comparison.h:230-238, 281-283, 315-317). -/
def pmOneLoop (c : Cfg) (step maxDigits : Nat) : Nat → PMState → Exec PMState
  | 0, _ => .error .fuel
  | fuel + 1, s =>
    match s.p with
    | [] => .ok s
    | ch :: p' =>
      if s.counter < step ∧ s.digits < maxDigits then
        pmOneLoop c step maxDigits fuel
          { p := p', value := (s.value * 10 % 2 ^ limbBits c + (ch - 48)) % 2 ^ limbBits c,
            counter := s.counter + 1, digits := s.digits + 1 }
      else .ok s

/-- `add_native` (digit_comparison.h:240-244). -/
def addNative (c : Cfg) (big : Limbs) (power value : Nat) : Exec Limbs := do
  let b ← smallMul c big power
  smallAddFrom c b value 0

/-- `round_up_bigint` (digit_comparison.h:246-252). -/
def roundUpBigint (c : Cfg) (big : Limbs) (count : Nat) : Exec (Limbs × Nat) := do
  let b ← addNative c big 10 1
  pure (b, count + 1)

/-- `step` (digit_comparison.h:265-269). -/
def pmStep (c : Cfg) : Nat := if c.limb64 then 19 else 9

/-- The outer digit loop of `parse_mantissa` over one span (digit_comparison.h:276-300, 310-331). `isTrunc` computes `truncated` from the
position reached.  `Sum.inl` = returned early with the final big integer and digit count; `Sum.inr` = fell out of the loop. -/
def pmLoop (c : Cfg) (ct : CharType) (maxDigits : Nat) (isTrunc : List Nat → Exec Bool) :
    Nat → Limbs → List Nat → Nat → Exec (Sum (Limbs × Nat) (Limbs × Nat))
  | 0, _, _, _ => .error .fuel
  | fuel + 1, big, p, digits =>
    if p.length = 0 then .ok (.inr (big, digits))
    else do
      let s ← pmEightLoop c ct (pmStep c) maxDigits (p.length + 1) { p := p, value := 0, counter := 0, digits := digits }
      let s ← pmOneLoop c (pmStep c) maxDigits (s.p.length + 1) s
      let pw ← tableGet powersOfTenU64 s.counter
      let big ← addNative c big (pw % 2 ^ limbBits c) s.value
      if s.digits = maxDigits then do
        let t ← isTrunc s.p
        if t then do
          let r ← roundUpBigint c big s.digits
          pure (.inl r)
        else pure (.inl (big, s.digits))
      else pmLoop c ct maxDigits isTrunc fuel big s.p s.digits

/-- `truncated` when the digit budget runs out inside the integer part (digit_comparison.h:284-294): the rest of the integer part
or, when there is one, the whole fraction has a nonzero digit. -/
def intTrunc (c : Cfg) (ct : CharType) (fraction : Option (List Nat)) (q : List Nat) : Exec Bool := do
  let t ← isTruncated c ct q
  match fraction with
  | none => pure t
  | some f => do
    let t2 ← isTruncated c ct f
    pure (t || t2)

/-- `parse_mantissa` (digit_comparison.h:254-337).  A null integer span has length 0 and is not dereferenced. The final
`if (counter != 0)` is unreachable with a nonzero counter (`counter` is reset at the end of every iteration) and is omitted. -/
def parseMantissa (c : Cfg) (ct : CharType) (num : ParsedNumber) (maxDigits : Nat) : Exec (Limbs × Nat) := do
  let p ← skipZeros c ct (num.integer.getD [])
  let r ← pmLoop c ct maxDigits (intTrunc c ct num.fraction) (p.length + 1) [] p 0
  match r with
  | .inl x => pure x
  | .inr (big, digits) =>
    match num.fraction with
    | none => pure (big, digits)
    | some f => do
      let p ← if digits = 0 then skipZeros c ct f else pure f
      let r ← pmLoop c ct maxDigits (isTruncated c ct) (p.length + 1) big p digits
      match r with
      | .inl x => pure x
      | .inr x => pure x

/-- `positive_digit_comp` (digit_comparison.h:339-360). -/
def positiveDigitComp (c : Cfg) (F : BinFmt) (bigmant : Limbs) (exponent : Nat) : Exec AdjustedMantissa := do
  let big ← bigPow10 c bigmant exponent
  let h ← hi64 c big
  let bias : Int := F.mb - F.minExp
  let bl ← bitLength c big
  let answer : AdjustedMantissa := { mantissa := h.1, power2 := bl - 64 + bias }
  roundAm F answer (roundNearestTieEven fun isOdd isHalfway isAbove =>
    isAbove || (isHalfway && h.2) || (isOdd && isHalfway))

/-- `negative_digit_comp` (digit_comparison.h:367-416). -/
def negativeDigitComp (c : Cfg) (F : BinFmt) (bigmant : Limbs) (am : AdjustedMantissa) (exponent : Int) :
    Exec AdjustedMantissa := do
  let amB ← roundAm F am roundDown
  let b := toFloat F false amB
  let theor := toExtendedHalfway F b
  let theorDigits := bigOfU64 c theor.mantissa
  let pow2Exp ← chk32 (theor.power2 - exponent)
  let pow5Exp := (-exponent).toNat
  let theorDigits ← if pow5Exp ≠ 0 then bigPow5 c theorDigits pow5Exp else pure theorDigits
  let theorDigits ← if pow2Exp > 0 then bigShl c theorDigits pow2Exp.toNat else pure theorDigits
  let realDigits ← if pow2Exp < 0 then bigShl c bigmant (-pow2Exp).toNat else pure bigmant
  let ord := bigCompare realDigits theorDigits
  roundAm F am (roundNearestTieEven fun isOdd _ _ =>
    if ord > 0 then true else if ord < 0 then false else isOdd)

/-- `digit_comp` (digit_comparison.h:431-450).  `static_cast<int32_t>(num.exponent)` must be value preserving in the model. -/
def digitComp (c : Cfg) (ct : CharType) (F : BinFmt) (num : ParsedNumber) (am : AdjustedMantissa) : Exec AdjustedMantissa := do
  let am : AdjustedMantissa := { mantissa := am.mantissa, power2 := am.power2 - invalidAmBias }
  let e32 ← chk32 num.exponent
  let sciExp ← scientificExponent num.mantissa e32
  let (bigmant, digits) ← parseMantissa c ct num F.maxDigits
  let exponent ← chk32 (sciExp + 1 - (digits : Int))
  if exponent ≥ 0 then positiveDigitComp c F bigmant exponent.toNat
  else negativeDigitComp c F bigmant am exponent

end FastFloat
