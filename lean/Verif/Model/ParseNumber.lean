import Verif.Model.Decimal
import Verif.Model.DigitComp
import Verif.Model.Fpu
import Verif.Model.ParseInt
/-
# parse_number.h
-/
namespace FastFloat

/-- Result of a float parse: suffix at the returned pointer, error code, bits written to `value` (`none` = not written). -/
structure FloatResult where
  ptr : List Nat
  ec : Errc
  value : Option Nat
  deriving DecidableEq, Repr

/-- Is `c` one of the characters allowed in `nan(...)`? (parse_number.h:49-51; comparisons of promoted units) -/
def nanChar (ct : CharType) (ch : Nat) : Bool :=
  (decide (97 ≤ ct.toInt ch) && decide (ct.toInt ch ≤ 122)) || (decide (65 ≤ ct.toInt ch) && decide (ct.toInt ch ≤ 90)) ||
  (decide (48 ≤ ct.toInt ch) && decide (ct.toInt ch ≤ 57)) || ch == 95

/-- The loop over `nan(n-char-seq)` (parse_number.h:45-53): the suffix after `)`, or `none`. -/
def nanSeq (ct : CharType) : List Nat → Option (List Nat)
  | [] => none
  | ch :: p => if ch == 41 then some p else if nanChar ct ch then nanSeq ct p else none

/-- The sign test of `parse_infnan` (parse_number.h:30-36). -/
def infnanSign (first : List Nat) (c0 : Nat) (fmt : Fmt) : Exec (List Nat) :=
  if c0 == chMinus || (fmt.has Fmt.allowLeadingPlus && c0 == chPlus) then advance first else pure first

/-- The end of an infinity: `infinity` if it is there, `inf` otherwise (parse_number.h:58-63). -/
def infinityEnd (c : Cfg) (ct : CharType) (p : List Nat) : Exec (List Nat) :=
  if p.length ≥ 8 then do
    let q ← skipN 3 p
    let isInfinity ← strncasecmp5 c ct q (strInf.drop 3)
    if isInfinity then skipN 8 p else skipN 3 p
  else skipN 3 p

/-- `detail::parse_infnan` (parse_number.h:22-71). -/
def parseInfnan (c : Cfg) (ct : CharType) (F : BinFmt) (first : List Nat) (fmt : Fmt) : Exec FloatResult := do
  let c0 ← deref first
  let minusSign := c0 == chMinus
  let p ← infnanSign first c0 fmt
  if p.length ≥ 3 then do
    let isNan ← strncasecmp3 c ct p strNan
    if isNan then do
      let q ← skipN 3 p
      let bits := if minusSign then fpNeg F (quietNaN F) else quietNaN F
      let ptr := if peekIs q 40 then (nanSeq ct (q.drop 1)).getD q else q
      pure { ptr := ptr, ec := .ok, value := some bits }
    else do
      let isInf ← strncasecmp3 c ct p (strInf.take 3)
      if isInf then do
        let ptr ← infinityEnd c ct p
        pure { ptr := ptr, ec := .ok, value := some (if minusSign then fpNeg F (infIdx F) else infIdx F) }
      else pure { ptr := first, ec := .invalidArgument, value := none }
  else pure { ptr := first, ec := .invalidArgument, value := none }

/-- `clinger_fast_path_impl` (parse_number.h:191-246): the bits written to `value` when it returns true. -/
def clingerFastPath (c : Cfg) (F : BinFmt) (mantissa : Nat) (exponent : Int) (negative : Bool) : Exec (Option Nat) :=
  if minExponentFastPath c F ≤ exponent ∧ exponent ≤ F.maxFast then
    if !c.constEval && roundsToNearest c then
      if mantissa ≤ maxMantissaFastPath F then do
        let v := fpOfNat F c.mode mantissa
        let v ← if exponent < 0 then do
            let t ← exactPowerOfTen F (-exponent).toNat
            pure (fpDiv c F v t)
          else do
            let t ← exactPowerOfTen F exponent.toNat
            pure (fpMul c F v t)
        pure (some (if negative then fpNeg F v else v))
      else pure none
    else if exponent ≥ 0 then do
      let mm ← maxMantissaFastPathAt F exponent.toNat
      if mantissa ≤ mm then
        if (c.clang || c.sys32) && mantissa == 0 then pure (some (if negative then fpNeg F 0 else 0))
        else do
          let t ← exactPowerOfTen F exponent.toNat
          let v := fpMul c F (fpOfNat F c.mode mantissa) t
          pure (some (if negative then fpNeg F v else v))
      else pure none
    else pure none
  else pure none

/-- The over/underflow test (parse_number.h:284-288, 388-392). -/
def rangeErrc (F : BinFmt) (mantissa : Nat) (am : AdjustedMantissa) : Errc :=
  if (mantissa ≠ 0 ∧ am.mantissa = 0 ∧ am.power2 = 0) ∨ am.power2 = F.infPow then .outOfRange else .ok

/-- `from_chars_advanced(parsed_number_string_t&, T&)` (parse_number.h:253-290). -/
def fromCharsAdvancedPns (c : Cfg) (ct : CharType) (F : BinFmt) (pns : ParsedNumber) : Exec FloatResult := do
  let fast ← if !pns.tooManyDigits then clingerFastPath c F pns.mantissa pns.exponent pns.negative else pure none
  match fast with
  | some v => pure { ptr := pns.lastmatch, ec := .ok, value := some v }
  | none => do
    let am ← computeFloat c F pns.exponent pns.mantissa
    let am ← if pns.tooManyDigits && decide (am.power2 ≥ 0) then do
        let am1 ← computeFloat c F pns.exponent ((pns.mantissa + 1) % 2 ^ 64)
        if am ≠ am1 then computeError c F pns.exponent pns.mantissa else pure am
      else pure am
    let am ← if am.power2 < 0 then digitComp c ct F pns am else pure am
    pure { ptr := pns.lastmatch, ec := rangeErrc F pns.mantissa am, value := some (toFloat F pns.negative am) }

/-- `parse_number_slow_path` (parse_number.h:299-307). -/
def parseNumberSlowPath (c : Cfg) (ct : CharType) (F : BinFmt) (first : List Nat) (opt : Options) (bjf : Bool) :
    Exec FloatResult := do
  let pns ← parseNumberString c ct bjf first opt true
  fromCharsAdvancedPns c ct F pns

/-- `from_chars_float_advanced` after the scan (parse_number.h:341-393): not a number, slow path, fast path, Eisel-Lemire. -/
def fromCharsFloatParsed (c : Cfg) (ct : CharType) (F : BinFmt) (first : List Nat) (opt : Options) (fmt : Fmt) (bjf : Bool)
    (pns : ParsedNumber) : Exec FloatResult :=
  if !pns.valid then
    if fmt.has Fmt.noInfnan then pure { ptr := first, ec := .invalidArgument, value := none }
    else parseInfnan c ct F first fmt
  else if pns.tooManyDigits then parseNumberSlowPath c ct F first opt bjf
  else do
    match ← clingerFastPath c F pns.mantissa pns.exponent pns.negative with
    | some v => pure { ptr := pns.lastmatch, ec := .ok, value := some v }
    | none => do
      let am ← computeFloat c F pns.exponent pns.mantissa
      if am.power2 < 0 then parseNumberSlowPath c ct F first opt bjf
      else pure { ptr := pns.lastmatch, ec := rangeErrc F pns.mantissa am, value := some (toFloat F pns.negative am) }

/-- `from_chars_float_advanced` after the white space (parse_number.h:327-393). -/
def fromCharsFloatBody (c : Cfg) (ct : CharType) (F : BinFmt) (first : List Nat) (opt : Options) : Exec FloatResult :=
  match first with
  | [] => pure { ptr := first, ec := .invalidArgument, value := none }
  | _ :: _ => do
    let fmt := adjustForFeatureMacros c opt.format
    let bjf := fmt.has Fmt.basicJson
    let pns ← parseNumberString c ct bjf first opt false
    fromCharsFloatParsed c ct F first opt fmt bjf pns

/-- The optional white-space loop (parse_number.h:322-326, 502-506). -/
def dropSpaces (c : Cfg) (ct : CharType) (first : List Nat) (opt : Options) : Exec (List Nat) :=
  if (adjustForFeatureMacros c opt.format).has Fmt.skipWhiteSpace then skipSpaces ct first else pure first

/-- `from_chars_float_advanced` (parse_number.h:309-394). -/
def fromCharsFloatAdvanced (c : Cfg) (ct : CharType) (F : BinFmt) (first : List Nat) (opt : Options) : Exec FloatResult := do
  let first ← dropSpaces c ct first opt
  fromCharsFloatBody c ct F first opt

/-- `from_chars_int_advanced` (parse_number.h:488-514). -/
def fromCharsIntAdvanced (c : Cfg) (ct : CharType) (T : IntType) (first : List Nat) (opt : Options) : Exec IntResult := do
  let first ← dropSpaces c ct first opt
  if first.length = 0 ∨ opt.base < 2 ∨ opt.base > 36 then pure { ptr := first, ec := .invalidArgument, value := none }
  else parseIntString c ct T first opt

/-- `integer_times_pow10<T>(uint64_t, int)` (parse_number.h:410-422, 440-443): bits of the returned value. -/
def integerTimesPow10U (c : Cfg) (F : BinFmt) (mantissa : Nat) (e : Int) : Exec Nat := do
  match ← clingerFastPath c F mantissa e false with
  | some v => pure v
  | none => do
    let am ← computeFloat c F e mantissa
    pure (toFloat F false am)

/-- `integer_times_pow10<T>(int64_t, int)` (parse_number.h:424-438, 445-448).  `-mantissa` is a signed negation (undefined for the minimum). -/
def integerTimesPow10I (c : Cfg) (F : BinFmt) (mantissa : Int) (e : Int) : Exec Nat := do
  let negative := decide (mantissa < 0)
  let m ← if negative then chk64 (-mantissa) else pure mantissa
  match ← clingerFastPath c F m.toNat e negative with
  | some v => pure v
  | none => do
    let am ← computeFloat c F e m.toNat
    pure (toFloat F negative am)

/-- `static_cast<int64_t>` of an integer of any type (modular). -/
def toInt64 (x : Int) : Int :=
  let r := x % 2 ^ 64
  if 2 ^ 63 ≤ r then r - 2 ^ 64 else r

/-- `integer_times_pow10<T>(Int, int)` for any other integer type, `__int128` included (parse_number.h:450-486): converts to 64 bits first. -/
def integerTimesPow10Any (c : Cfg) (F : BinFmt) (T : IntType) (mantissa : Int) (e : Int) : Exec Nat :=
  if T.signed then integerTimesPow10I c F (toInt64 mantissa) e else integerTimesPow10U c F (mantissa % 2 ^ 64).toNat e

/-! ### API level: offsets instead of suffixes -/

/-- What a caller of a float overload sees: offset of `ptr` from `first`, `ec`, and the bits stored through `value` (if any). -/
structure ApiFloat where
  off : Nat
  ec : Errc
  value : Option Nat
  deriving DecidableEq, Repr

/-- What a caller of an integer overload sees. -/
structure ApiInt where
  off : Nat
  ec : Errc
  value : Option Int
  deriving DecidableEq, Repr

/-- `from_chars_advanced(first, last, T&, options)` for a floating-point `T` (parse_number.h:516-527, 538-546). -/
def fromCharsFloat (c : Cfg) (ct : CharType) (F : BinFmt) (s : List Nat) (opt : Options) : Exec ApiFloat := do
  let r ← fromCharsFloatAdvanced c ct F s opt
  pure { off := s.length - r.ptr.length, ec := r.ec, value := r.value }

/-- `from_chars(first, last, T&, chars_format)` for `float`, `double`, `float16_t`, `bfloat16_t` (parse_number.h:140-147, 183-189; the default
argument is in fast_float.h:37). -/
def fromChars (c : Cfg) (ct : CharType) (F : BinFmt) (s : List Nat) (fmt : Fmt := Fmt.general) : Exec ApiFloat :=
  fromCharsFloat c ct F s { format := fmt }

/-- `from_chars` for `std::float32_t` / `std::float64_t` (parse_number.h:149-181): a local `val = 0` is parsed into and then
always copied to `value`. -/
def fromCharsAlias (c : Cfg) (ct : CharType) (F : BinFmt) (s : List Nat) (fmt : Fmt := Fmt.general) : Exec ApiFloat := do
  let r ← fromCharsFloat c ct F s { format := fmt }
  pure { off := r.off, ec := r.ec, value := some (r.value.getD 0) }

/-- `from_chars_advanced(first, last, T&, options)` for an integer `T` (parse_number.h:529-546). -/
def fromCharsIntApi (c : Cfg) (ct : CharType) (T : IntType) (s : List Nat) (opt : Options) : Exec ApiInt := do
  let r ← fromCharsIntAdvanced c ct T s opt
  pure { off := s.length - r.ptr.length, ec := r.ec, value := r.value }

/-- `from_chars(first, last, T&, int base)` (parse_number.h:396-408; the default argument is in fast_float.h:86). -/
def fromCharsInt (c : Cfg) (ct : CharType) (T : IntType) (s : List Nat) (base : Int := 10) : Exec ApiInt :=
  fromCharsIntApi c ct T s { base := base }

end FastFloat
