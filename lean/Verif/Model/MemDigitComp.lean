import Verif.Model.StackVec
import Verif.Model.ParseNumber
/-
# digit_comparison.h and parse_number.h, on the memory-level big integer

The functions that own or pass a `bigint`, rewritten so that the big integer is the `stackvec` of `Verif.Model.StackVec`: they modify it in place, and
they ignore the results of the operations exactly where the program does (`FASTFLOAT_ASSERT(x)` is `((void)(x))`, and `add_native` drops both results).
The functions that do not touch a `bigint` are those of the list model.
-/
set_option autoImplicit false
namespace FastFloat
namespace Mem

/-- `add_native` (digit_comparison.h:240-244): both results are dropped. -/
def addNative (c : Cfg) (big : StackVec) (power value : Nat) : M StackVec := do
  let a ← smallMul c big power
  let b ← smallAddFrom c a.2 value 0
  pure b.2

/-- `round_up_bigint` (digit_comparison.h:246-252). -/
def roundUpBigint (c : Cfg) (big : StackVec) (count : Nat) : M (StackVec × Nat) := do
  let b ← addNative c big 10 1
  pure (b, count + 1)

/-- The outer digit loop of `parse_mantissa` over one span (digit_comparison.h:276-300, 310-331), with `p`, `value`, `counter` and `digits` as they are on
entry.  `Sum.inl` = returned from the function, `Sum.inr` = fell out of the loop. -/
def pmLoop (c : Cfg) (ct : CharType) (maxDigits : Nat) (isTrunc : List Nat → Exec Bool) :
    Nat → StackVec → PMState → M (Sum (StackVec × Nat) (StackVec × PMState))
  | 0, _, _ => .error .fuel
  | fuel + 1, big, s =>
    if s.p.length = 0 then .ok (.inr (big, s))
    else do
      let s ← lift (pmEightLoop c ct (pmStep c) maxDigits (s.p.length + 1) s)
      let s ← lift (pmOneLoop c (pmStep c) maxDigits (s.p.length + 1) s)
      if s.digits = maxDigits then do
        let pw ← lift (tableGet powersOfTenU64 s.counter)
        let big ← addNative c big (pw % 2 ^ limbBits c) s.value
        let t ← lift (isTrunc s.p)
        if t then do
          let r ← roundUpBigint c big s.digits
          pure (.inl r)
        else pure (.inl (big, s.digits))
      else do
        let pw ← lift (tableGet powersOfTenU64 s.counter)
        let big ← addNative c big (pw % 2 ^ limbBits c) s.value
        pmLoop c ct maxDigits isTrunc fuel big { s with counter := 0, value := 0 }

/-- `if (counter != 0)` at the end of `parse_mantissa` (digit_comparison.h:334-336). -/
def pmFinish (c : Cfg) (big : StackVec) (s : PMState) : M (StackVec × Nat) :=
  if s.counter ≠ 0 then do
    let pw ← lift (tableGet powersOfTenU64 s.counter)
    let big ← addNative c big (pw % 2 ^ limbBits c) s.value
    pure (big, s.digits)
  else pure (big, s.digits)

/-- `parse_mantissa` (digit_comparison.h:254-337) into the vector `result`. -/
def parseMantissa (c : Cfg) (ct : CharType) (result : StackVec) (num : ParsedNumber) (maxDigits : Nat) : M (StackVec × Nat) := do
  let p ← lift (skipZeros c ct (num.integer.getD []))
  let r ← pmLoop c ct maxDigits (intTrunc c ct num.fraction) (p.length + 1) result { p := p, value := 0, counter := 0, digits := 0 }
  match r with
  | .inl x => pure x
  | .inr (big, s) =>
    match num.fraction with
    | none => pmFinish c big s
    | some f => do
      let p ← if s.digits = 0 then lift (skipZeros c ct f) else pure f
      let r ← pmLoop c ct maxDigits (isTruncated c ct) (p.length + 1) big { s with p := p }
      match r with
      | .inl x => pure x
      | .inr (big, s) => pmFinish c big s

/-- `positive_digit_comp` (digit_comparison.h:339-360): the result of `pow10` is not looked at. -/
def positiveDigitComp (c : Cfg) (F : BinFmt) (bigmant : StackVec) (exponent : Nat) : M AdjustedMantissa := do
  let big ← pow10 c bigmant exponent
  let h ← hi64 c big.2
  let bias : Int := F.mb - F.minExp
  let bl ← bitLength c big.2
  let answer : AdjustedMantissa := { mantissa := h.1, power2 := bl - 64 + bias }
  lift (roundAm F answer (roundNearestTieEven fun isOdd isHalfway isAbove =>
    isAbove || (isHalfway && h.2) || (isOdd && isHalfway)))

/-- `negative_digit_comp` (digit_comparison.h:367-416): the results of `pow5` and `pow2` are not looked at. -/
def negativeDigitComp (c : Cfg) (F : BinFmt) (bigmant : StackVec) (am : AdjustedMantissa) (exponent : Int) : M AdjustedMantissa := do
  let amB ← lift (roundAm F am roundDown)
  let b := toFloat F false amB
  let theor := toExtendedHalfway F b
  let theorDigits ← bigOfU64 c theor.mantissa
  let pow2Exp ← lift (chk32 (theor.power2 - exponent))
  let pow5Exp := (-exponent).toNat
  let theorDigits ← if pow5Exp ≠ 0 then pow5 c theorDigits pow5Exp else pure (true, theorDigits)
  let theorDigits ← if pow2Exp > 0 then shl c theorDigits.2 pow2Exp.toNat else pure (true, theorDigits.2)
  let realDigits ← if pow2Exp < 0 then shl c bigmant (-pow2Exp).toNat else pure (true, bigmant)
  let ord ← compare realDigits.2 theorDigits.2
  lift (roundAm F am (roundNearestTieEven fun isOdd _ _ =>
    if ord > 0 then true else if ord < 0 then false else isOdd))

/-- `digit_comp` (digit_comparison.h:431-450); `bigint bigmant;` leaves the cells indeterminate. -/
def digitComp (c : Cfg) (ct : CharType) (F : BinFmt) (num : ParsedNumber) (am : AdjustedMantissa) : M AdjustedMantissa := do
  let am : AdjustedMantissa := { mantissa := am.mantissa, power2 := am.power2 - invalidAmBias }
  let e32 ← lift (chk32 num.exponent)
  let sciExp ← lift (scientificExponent num.mantissa e32)
  let r ← parseMantissa c ct (StackVec.fresh (bigintLimbs c)) num F.maxDigits
  let exponent ← lift (chk32 (sciExp + 1 - (r.2 : Int)))
  if exponent ≥ 0 then positiveDigitComp c F r.1 exponent.toNat
  else negativeDigitComp c F r.1 am exponent

/-- `from_chars_advanced(parsed_number_string_t&, T&)` (parse_number.h:253-290). -/
def fromCharsAdvancedPns (c : Cfg) (ct : CharType) (F : BinFmt) (pns : ParsedNumber) : M FloatResult := do
  let fast ← if !pns.tooManyDigits then lift (clingerFastPath c F pns.mantissa pns.exponent pns.negative) else pure none
  match fast with
  | some v => pure { ptr := pns.lastmatch, ec := .ok, value := some v }
  | none => do
    let am ← lift (computeFloat c F pns.exponent pns.mantissa)
    let am ← if pns.tooManyDigits && decide (am.power2 ≥ 0) then do
        let am1 ← lift (computeFloat c F pns.exponent ((pns.mantissa + 1) % 2 ^ 64))
        if am ≠ am1 then lift (computeError c F pns.exponent pns.mantissa) else pure am
      else pure am
    let am ← if am.power2 < 0 then digitComp c ct F pns am else pure am
    pure { ptr := pns.lastmatch, ec := rangeErrc F pns.mantissa am, value := some (toFloat F pns.negative am) }

/-- `parse_number_slow_path` (parse_number.h:299-307). -/
def parseNumberSlowPath (c : Cfg) (ct : CharType) (F : BinFmt) (first : List Nat) (opt : Options) (bjf : Bool) : M FloatResult := do
  let pns ← lift (parseNumberString c ct bjf first opt true)
  fromCharsAdvancedPns c ct F pns

/-- `from_chars_float_advanced` after the scan (parse_number.h:341-393). -/
def fromCharsFloatParsed (c : Cfg) (ct : CharType) (F : BinFmt) (first : List Nat) (opt : Options) (fmt : Fmt) (bjf : Bool)
    (pns : ParsedNumber) : M FloatResult :=
  if !pns.valid then
    if fmt.has Fmt.noInfnan then pure { ptr := first, ec := .invalidArgument, value := none }
    else lift (parseInfnan c ct F first fmt)
  else if pns.tooManyDigits then parseNumberSlowPath c ct F first opt bjf
  else do
    match ← lift (clingerFastPath c F pns.mantissa pns.exponent pns.negative) with
    | some v => pure { ptr := pns.lastmatch, ec := .ok, value := some v }
    | none => do
      let am ← lift (computeFloat c F pns.exponent pns.mantissa)
      if am.power2 < 0 then parseNumberSlowPath c ct F first opt bjf
      else pure { ptr := pns.lastmatch, ec := rangeErrc F pns.mantissa am, value := some (toFloat F pns.negative am) }

/-- `from_chars_float_advanced` after the white space (parse_number.h:327-393). -/
def fromCharsFloatBody (c : Cfg) (ct : CharType) (F : BinFmt) (first : List Nat) (opt : Options) : M FloatResult :=
  match first with
  | [] => pure { ptr := first, ec := .invalidArgument, value := none }
  | _ :: _ => do
    let fmt := adjustForFeatureMacros c opt.format
    let bjf := fmt.has Fmt.basicJson
    let pns ← lift (parseNumberString c ct bjf first opt false)
    fromCharsFloatParsed c ct F first opt fmt bjf pns

/-- `from_chars_advanced(first, last, T&, options)` for a floating-point `T` (parse_number.h:309-394, 516-527, 538-546). -/
def fromCharsFloat (c : Cfg) (ct : CharType) (F : BinFmt) (s : List Nat) (opt : Options) : M ApiFloat := do
  let first ← lift (dropSpaces c ct s opt)
  let r ← fromCharsFloatBody c ct F first opt
  pure { off := s.length - r.ptr.length, ec := r.ec, value := r.value }

end Mem
end FastFloat
