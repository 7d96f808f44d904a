import Verif.Model.FloatCommon
/-
# ascii_number.h
-/
namespace FastFloat

/-- `has_simd_opt<UC>()` (ascii_number.h:23-29): only `char16_t`, when SSE2 or NEON is available. -/
def hasSimdOpt (c : Cfg) (ct : CharType) : Bool := ct.isChar16 && c.simd != .none

/-- `is_integer` (ascii_number.h:33-36): `(unsigned)(c - UC('0')) <= 9u`.  The subtraction is done in `int` (undefined on
overflow) except for an unsigned 4-byte `UC`, where it wraps. -/
def isInteger (ct : CharType) (c : Nat) : Exec Bool :=
  if ct.width = 4 ∧ ct.signed = false then .ok (decide ((c + 2 ^ 32 - 48) % 2 ^ 32 ≤ 9))
  else
    match chk32 (ct.toInt c - 48) with
    | .error e => .error e
    | .ok d => .ok (decide ((d % 2 ^ 32).toNat ≤ 9))

/-- `byteswap` (ascii_number.h:38-43). -/
def byteswap64 (v : Nat) : Nat :=
  (v &&& 0xFF00000000000000) / 2 ^ 56 ||| (v &&& 0x00FF000000000000) / 2 ^ 40 |||
  (v &&& 0x0000FF0000000000) / 2 ^ 24 ||| (v &&& 0x000000FF00000000) / 2 ^ 8 |||
  (v &&& 0x00000000FF000000) * 2 ^ 8 ||| (v &&& 0x0000000000FF0000) * 2 ^ 24 |||
  (v &&& 0x000000000000FF00) * 2 ^ 40 ||| (v &&& 0x00000000000000FF) * 2 ^ 56

/-- `byteswap_32` (ascii_number.h:45-48). -/
def byteswap32 (v : Nat) : Nat :=
  v / 2 ^ 24 ||| (v / 2 ^ 8 &&& 0x0000FF00) ||| (v * 2 ^ 8 % 2 ^ 32 &&& 0x00FF0000) ||| v * 2 ^ 24 % 2 ^ 32

/-- The loop `val |= uint64_t(uint8_t(*chars)) << (i * 8)` (ascii_number.h:55-60, 76-81). -/
def orBytes : Nat → List Nat → Nat → Nat
  | _, [], val => val
  | i, ch :: cs, val => orBytes (i + 1) cs (val ||| (ch % 256) * 2 ^ (i * 8))

/-- `read8_to_u64` (ascii_number.h:50-69). -/
def read8ToU64 (c : Cfg) (ct : CharType) (p : List Nat) : Exec Nat :=
  match readBlock 8 p with
  | .error e => .error e
  | .ok b =>
    if c.constEval || !ct.isChar then .ok (orBytes 0 b 0)
    else if c.bigEndian then .ok (byteswap64 (memWord c 1 b)) else .ok (memWord c 1 b)

/-- `read4_to_u32` (ascii_number.h:71-89). -/
def read4ToU32 (c : Cfg) (ct : CharType) (p : List Nat) : Exec Nat :=
  match readBlock 4 p with
  | .error e => .error e
  | .ok b =>
    if c.constEval || !ct.isChar then .ok (orBytes 0 b 0)
    else if c.bigEndian then .ok (byteswap32 (memWord c 1 b)) else .ok (memWord c 1 b)

/-- One lane of `_mm_packus_epi16`: a signed 16-bit lane saturated to an unsigned byte. -/
def packusLane (x : Nat) : Nat := if 2 ^ 15 ≤ x then 0 else if x > 255 then 255 else x

/-- `simd_read8_to_u64` (ascii_number.h:90-129): SSE2 `packus` / NEON `vmovn`, lane `i` becomes byte `i` of the result. -/
def simdRead8 (c : Cfg) (b : List Nat) : Nat :=
  match c.simd with
  | .sse2 => leWord 1 (b.map packusLane)
  | .neon => leWord 1 (b.map (· % 256))
  | .none => 0

/-- `parse_eight_digits_unrolled(uint64_t)` (ascii_number.h:142-152). -/
def parseEightDigitsUnrolled (val : Nat) : Nat :=
  let mask := 0x000000FF000000FF
  let mul1 := 0x000F424000000064
  let mul2 := 0x0000271000000001
  let v := (val + 2 ^ 64 - 0x3030303030303030) % 2 ^ 64
  let v := (v * 10 % 2 ^ 64 + v / 2 ^ 8) % 2 ^ 64
  let v := (((v &&& mask) * mul1 % 2 ^ 64 + (v / 2 ^ 16 &&& mask) * mul2 % 2 ^ 64) % 2 ^ 64) / 2 ^ 32
  v % 2 ^ 32

/-- `parse_eight_digits_unrolled(UC const*)` (ascii_number.h:154-162). -/
def parseEightDigitsUnrolledAt (c : Cfg) (ct : CharType) (p : List Nat) : Exec Nat :=
  if c.constEval || !hasSimdOpt c ct then do
    let v ← read8ToU64 c ct p
    pure (parseEightDigitsUnrolled v)
  else do
    let b ← readBlock 8 p
    pure (parseEightDigitsUnrolled (simdRead8 c b))

/-- `is_made_of_eight_digits_fast` (ascii_number.h:164-169). -/
def isMadeOfEightDigitsFast (val : Nat) : Bool :=
  (((val + 0x4646464646464646) % 2 ^ 64 ||| (val + 2 ^ 64 - 0x3030303030303030) % 2 ^ 64) &&& 0x8080808080808080) == 0

/-- `is_made_of_four_digits_fast` (ascii_number.h:171-174). -/
def isMadeOfFourDigitsFast (val : Nat) : Bool :=
  (((val + 0x46464646) % 2 ^ 32 ||| (val + 2 ^ 32 - 0x30303030) % 2 ^ 32) &&& 0x80808080) == 0

/-- `parse_four_digits_unrolled` (ascii_number.h:176-181). -/
def parseFourDigitsUnrolled (val : Nat) : Nat :=
  let v := (val + 2 ^ 32 - 0x30303030) % 2 ^ 32
  let v := (v * 10 % 2 ^ 32 + v / 2 ^ 8) % 2 ^ 32
  ((v &&& 0x00FF00FF) * 0x00640001 % 2 ^ 32) / 2 ^ 16 &&& 0xFFFF

/-- A 16-bit lane read as a signed number. -/
def lane16 (x : Nat) : Int := if 2 ^ 15 ≤ x then (x : Int) - 2 ^ 16 else x

/-- The digit test of one lane in `simd_parse_if_eight_digits_unrolled`:
SSE2 (ascii_number.h:199-204): `cmpgt((x + 32720), -32759)` is all zero;
NEON (ascii_number.h:214-219): `x - '0' < 10` unsigned. -/
def simdLaneDigit (s : Simd) (x : Nat) : Bool :=
  match s with
  | .sse2 => !decide (lane16 ((x + 32720) % 2 ^ 16) > -32759)
  | .neon => decide ((x + 2 ^ 16 - 48) % 2 ^ 16 < 10)
  | .none => false

/-- `simd_parse_if_eight_digits_unrolled` (ascii_number.h:185-230): `none` when it returns `false`, else the new `i`. -/
def simdParseIfEight (c : Cfg) (p : List Nat) (i : Nat) : Exec (Option Nat) :=
  if c.constEval then .ok none
  else do
    let b ← readBlock 8 p
    if b.all (simdLaneDigit c.simd) then
      pure (some ((i * 100000000 + parseEightDigitsUnrolled (simdRead8 c b)) % 2 ^ 64))
    else pure none

/-- The `while` loop of `loop_parse_if_eight_digits` for `char16_t` with SIMD (ascii_number.h:251-255). -/
def simdEightLoop (c : Cfg) : Nat → List Nat → Nat → Exec (List Nat × Nat)
  | 0, _, _ => .error .fuel
  | fuel + 1, p, i =>
    if p.length ≥ 8 then do
      match ← simdParseIfEight c p i with
      | none => pure (p, i)
      | some i' => do
        let p' ← skipN 8 p
        simdEightLoop c fuel p' i'
    else pure (p, i)

/-- The `while` loop of `loop_parse_if_eight_digits` for `char` (ascii_number.h:262-268). -/
def charEightLoop (c : Cfg) (ct : CharType) : Nat → List Nat → Nat → Exec (List Nat × Nat)
  | 0, _, _ => .error .fuel
  | fuel + 1, p, i =>
    if p.length ≥ 8 then do
      let v ← read8ToU64 c ct p
      if isMadeOfEightDigitsFast v then do
        let v' ← read8ToU64 c ct p
        let p' ← skipN 8 p
        charEightLoop c ct fuel p' ((i * 100000000 + parseEightDigitsUnrolled v') % 2 ^ 64)
      else pure (p, i)
    else pure (p, i)

/-- The clang-only 4-digit step (ascii_number.h:274-283). -/
def clangFour (c : Cfg) (ct : CharType) (p : List Nat) (i : Nat) : Exec (List Nat × Nat) :=
  if c.clang && decide (p.length ≥ 4) then do
    let v ← read4ToU32 c ct p
    if isMadeOfFourDigitsFast v then do
      let p' ← skipN 4 p
      pure (p', (i * 10000 + parseFourDigitsUnrolled v) % 2 ^ 64)
    else pure (p, i)
  else pure (p, i)

/-- `loop_parse_if_eight_digits` (ascii_number.h:245-284), all overloads. Returns the new `p` and `i`. -/
def loopParseIfEightDigits (c : Cfg) (ct : CharType) (p : List Nat) (i : Nat) : Exec (List Nat × Nat) :=
  if ct.isChar then do
    let r ← charEightLoop c ct (p.length + 1) p i
    clangFour c ct r.1 r.2
  else if hasSimdOpt c ct then simdEightLoop c (p.length + 1) p i
  else pure (p, i)

/-- `parse_error` (ascii_number.h:286-303). -/
inductive ParseError where
  | noError | missingIntegerAfterSign | missingIntegerOrDotAfterSign | leadingZerosInIntegerPart
  | noDigitsInIntegerPart | noDigitsInFractionalPart | noDigitsInMantissa | missingExponentialPart
  deriving DecidableEq, Repr

/-- `parsed_number_string_t` (ascii_number.h:305-316).  A span is the list of its code units; `none` is a null span. -/
structure ParsedNumber where
  exponent : Int := 0
  mantissa : Nat := 0
  lastmatch : List Nat := []
  negative : Bool := false
  valid : Bool := false
  tooManyDigits : Bool := false
  integer : Option (List Nat) := none
  fraction : Option (List Nat) := none
  error : ParseError := .noError
  deriving DecidableEq, Repr

/-- `report_parse_error` (ascii_number.h:321-329). -/
def reportParseError (p : List Nat) (e : ParseError) : ParsedNumber :=
  { lastmatch := p, error := e }

/-- Intermediate results of the scanner: an early `return report_parse_error(..)` or a value to go on with. -/
inductive Scan (α : Type) where
  | fail (r : ParsedNumber)
  | go (a : α)

/-- Digit loop `while ((p != pend) && is_integer(*p)) { i = 10*i + digit; ++p; }` on a wrapping `uint64_t`
(ascii_number.h:398-404, 435-439). -/
def digitLoop (ct : CharType) : List Nat → Nat → Exec (List Nat × Nat)
  | [], i => .ok ([], i)
  | ch :: p, i =>
    match isInteger ct ch with
    | .error e => .error e
    | .ok true => digitLoop ct p ((10 * i + (ch - 48)) % 2 ^ 64)
    | .ok false => .ok (ch :: p, i)

/-- One peeled iteration of the integer-part scan, `if ((p != pend) && is_integer(*p)) { i = f(digit); ++p; ... }`
(ascii_number.h:383, 386, 389, 392, 395): `f` is the assignment to `i`, `k` the code nested inside. -/
def ifDigit (ct : CharType) (p : List Nat) (i : Nat) (f : Nat → Nat) (k : List Nat → Nat → Exec (List Nat × Nat)) :
    Exec (List Nat × Nat) :=
  match p with
  | [] => .ok ([], i)
  | ch :: p =>
    match isInteger ct ch with
    | .error e => .error e
    | .ok true => k p (f (ch - 48))
    | .ok false => .ok (ch :: p, i)

/-- The integer-part scan with its five peeled iterations, on a wrapping `uint64_t` (ascii_number.h:377-409). -/
def intDigits (ct : CharType) (p : List Nat) : Exec (List Nat × Nat) :=
  ifDigit ct p 0 (fun d => d % 2 ^ 64) fun p i =>
    ifDigit ct p i (fun d => (10 * i + d) % 2 ^ 64) fun p i =>
      ifDigit ct p i (fun d => (10 * i + d) % 2 ^ 64) fun p i =>
        ifDigit ct p i (fun d => (10 * i + d) % 2 ^ 64) fun p i =>
          ifDigit ct p i (fun d => (10 * i + d) % 2 ^ 64) fun p i =>
            digitLoop ct p i

/-- Sign handling of `parse_number_string` (ascii_number.h:351-374). Returns `negative` and `start_digits`. -/
def signStep (ct : CharType) (json : Bool) (fmt : Fmt) (dp : Nat) (p : List Nat) : Exec (Scan (Bool × List Nat)) := do
  let c0 ← deref p
  let negative := c0 == chMinus
  if c0 == chMinus || (fmt.has Fmt.allowLeadingPlus && !json && c0 == chPlus) then do
    let p ← advance p
    match p with
    | [] => pure (.fail (reportParseError p .missingIntegerOrDotAfterSign))
    | ch :: _ => do
      let isInt ← isInteger ct ch
      if json then
        if !isInt then pure (.fail (reportParseError p .missingIntegerAfterSign))
        else pure (.go (negative, p))
      else
        if !isInt && ch != dp then pure (.fail (reportParseError p .missingIntegerOrDotAfterSign))
        else pure (.go (negative, p))
  else pure (.go (negative, p))

/-- Integer part (ascii_number.h:375-424).  Returns `i` and `p` (= `end_of_integer_part`). -/
def intStep (ct : CharType) (json : Bool) (start : List Nat) : Exec (Scan (Nat × List Nat)) := do
  let (p, i) ← intDigits ct start
  let digitCount := start.length - p.length
  if json then
    if digitCount = 0 then pure (.fail (reportParseError p .noDigitsInIntegerPart))
    else do
      let c0 ← deref start
      if c0 == ch0 && decide (digitCount > 1) then pure (.fail (reportParseError start .leadingZerosInIntegerPart))
      else pure (.go (i, p))
  else pure (.go (i, p))

/-- Result of the fraction step. -/
structure FracRes where
  i : Nat
  p : List Nat
  /-- number of fraction digits; `exponent = before - p` is its negation -/
  count : Nat
  /-- the fraction span, `none` when there is no point -/
  span : Option (List Nat)

/-- Fraction part (ascii_number.h:426-445). -/
def fracStep (c : Cfg) (ct : CharType) (dp i : Nat) (p : List Nat) : Exec FracRes :=
  if peekIs p dp then do
    let before ← advance p
    let r ← loopParseIfEightDigits c ct before i
    let s ← digitLoop ct r.1 r.2
    let n := before.length - s.1.length
    pure { i := s.2, p := s.1, count := n, span := some (before.take n) }
  else pure { i := i, p := p, count := 0, span := none }

/-- One digit of the exponent: `if (exp_number < 0x10000000) exp_number = 10 * exp_number + digit` (ascii_number.h:488-490). -/
def expAccum (n : Int) (ch : Nat) : Exec Int :=
  if n < 0x10000000 then chk64 (10 * n + ((ch - 48 : Nat) : Int)) else .ok n

/-- The exponent digit loop with its saturation (ascii_number.h:486-492). -/
def expDigitLoop (ct : CharType) : List Nat → Int → Exec (List Nat × Int)
  | [], n => .ok ([], n)
  | ch :: p, n =>
    match isInteger ct ch with
    | .error e => .error e
    | .ok true => do
      let n' ← expAccum n ch
      expDigitLoop ct p n'
    | .ok false => .ok (ch :: p, n)

/-- Does `p` start with `e`, `E`? -/
def peekE (p : List Nat) : Bool := peekIs p 101 || peekIs p 69
/-- Does `p` start with `d`, `D`? -/
def peekD (p : List Nat) : Bool := peekIs p 100 || peekIs p 68
/-- Does `p` start with a sign? -/
def peekSign (p : List Nat) : Bool := peekIs p 43 || peekIs p 45

/-- The condition that starts an exponent part (ascii_number.h:457-461). -/
def startsExponent (fmt : Fmt) (p : List Nat) : Bool :=
  (fmt.has Fmt.scientific && peekE p) || (fmt.has Fmt.basicFortran && (peekSign p || peekD p))

/-- Optional sign of the exponent (ascii_number.h:467-475). -/
def expSign (p : List Nat) : Bool × List Nat :=
  match p with
  | [] => (false, p)
  | ch :: p' => if ch == 45 then (true, p') else if ch == 43 then (false, p') else (false, p)

/-- Skips the exponent letter, if any (ascii_number.h:463-466). -/
def skipMarker (p : List Nat) : Exec (List Nat) := if peekE p || peekD p then advance p else .ok p

/-- `(p != pend) && is_integer(*p)` (negated at ascii_number.h:476). -/
def peekDigit (ct : CharType) (p : List Nat) : Exec Bool :=
  match p with
  | [] => .ok false
  | ch :: _ => isInteger ct ch

/-- Exponent part (ascii_number.h:456-504).  Returns `exp_number` and the new `p`. -/
def expStep (ct : CharType) (fmt : Fmt) (p : List Nat) : Exec (Scan (Int × List Nat)) :=
  if startsExponent fmt p then do
    let p1 ← skipMarker p
    let (negExp, p2) := expSign p1
    let isInt ← peekDigit ct p2
    if !isInt then
      if !fmt.has Fmt.fixed then pure (.fail (reportParseError p2 .missingExponentialPart))
      else pure (.go (0, p))
    else do
      let (p3, n) ← expDigitLoop ct p2 0
      pure (.go (if negExp then -n else n, p3))
  else if fmt.has Fmt.scientific && !fmt.has Fmt.fixed then
    pure (.fail (reportParseError p .missingExponentialPart))
  else pure (.go (0, p))

/-- Counts the zeros of the leading run of `'0'`/decimal-point units (ascii_number.h:518-524). -/
def leadingZeroRun (dp : Nat) : List Nat → Nat
  | [] => 0
  | ch :: p => if ch == ch0 || ch == dp then (if ch == ch0 then 1 else 0) + leadingZeroRun dp p else 0

/-- `while ((i < minimal_nineteen_digit_integer) && (p != end)) i = i*10 + digit` (ascii_number.h:540-543, 549-552).
Returns `i` and the number of units left before `end`. -/
def truncLoop : List Nat → Nat → Nat × Nat
  | [], i => (i, 0)
  | ch :: p, i =>
    if i < 1000000000000000000 then truncLoop p ((i * 10 + (ch - 48)) % 2 ^ 64) else (i, p.length + 1)

/-- The recomputation of mantissa and exponent from the spans (ascii_number.h:532-556).
Returns `(exponent, i)`.  When the loop enters the fraction with a null span it dereferences nothing. -/
def recompute (integer : List Nat) (fraction : Option (List Nat)) (expNumber : Int) : Int × Nat :=
  let a := truncLoop integer 0
  if a.1 ≥ 1000000000000000000 then ((a.2 : Int) + expNumber, a.1)
  else
    let f := fraction.getD []
    let b := truncLoop f a.1
    (-((f.length - b.2 : Nat) : Int) + expNumber, b.1)

/-- `parse_number_string` (ascii_number.h:340-562). `exponent` and `digit_count` are `int64_t`. -/
def parseNumberString (c : Cfg) (ct : CharType) (json : Bool) (p : List Nat) (opt : Options) (storeSpans : Bool) :
    Exec ParsedNumber := do
  let fmt := adjustForFeatureMacros c opt.format
  let dp := opt.decimalPoint
  match ← signStep ct json fmt dp p with
  | .fail r => pure r
  | .go (negative, start) =>
    match ← intStep ct json start with
    | .fail r => pure r
    | .go (i, endInt) => do
      let intCount := start.length - endInt.length
      let fr ← fracStep c ct dp i endInt
      let digitCount ← chk64 ((intCount : Int) + fr.count)
      if json && fr.span.isSome && fr.count == 0 then pure (reportParseError fr.p .noDigitsInFractionalPart)
      else if !json && digitCount == 0 then pure (reportParseError fr.p .noDigitsInMantissa)
      else
        match ← expStep ct fmt fr.p with
        | .fail r => pure r
        | .go (expNumber, last) => do
          let exponent ← chk64 (-(fr.count : Int) + expNumber)
          let digitCount' := if digitCount > 19 then digitCount - leadingZeroRun dp start else digitCount
          let tooMany := decide (digitCount > 19) && decide (digitCount' > 19)
          let integer := start.take intCount
          let em := if tooMany && storeSpans then recompute integer fr.span expNumber else (exponent, fr.i)
          pure {
            exponent := em.1
            mantissa := em.2
            lastmatch := last
            negative := negative
            valid := true
            tooManyDigits := tooMany
            integer := if storeSpans then some integer else none
            fraction := if storeSpans then fr.span else none }

end FastFloat
