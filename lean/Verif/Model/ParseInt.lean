import Verif.Model.Ascii
/-
# ascii_number.h: parse_int_string
-/
namespace FastFloat

/-- An integer type `T` (of at most 64 bits, or `__int128`, which the GNU dialects count as integral). -/
structure IntType where
  bits : Nat
  signed : Bool
  /-- `T` is `std::uint8_t` -/
  isU8 : Bool
  /-- `T` is `std::uint16_t` -/
  isU16 : Bool
  /-- `T` is `std::uint64_t` -/
  isU64 : Bool
  deriving DecidableEq, Repr

/-- The integer types that exist (up to 64 bits): `std::is_integral` (float_common.h:283), so `bool` too, as an unsigned type of one bit
(`bool(i)` for `i <= max = 1` is `i`). -/
def IntType.WF (T : IntType) : Prop :=
  ((T.bits = 1 ∧ T.signed = false) ∨ T.bits = 8 ∨ T.bits = 16 ∨ T.bits = 32 ∨ T.bits = 64) ∧
  (T.isU8 = true → T.bits = 8 ∧ T.signed = false) ∧ (T.isU16 = true → T.bits = 16 ∧ T.signed = false) ∧
  (T.isU64 = true → T.bits = 64 ∧ T.signed = false)

/-- `__int128` and `unsigned __int128`, for which `std::is_integral` holds with GNU extensions. -/
def IntType.Wide (T : IntType) : Prop := T.bits = 128 ∧ T.isU8 = false ∧ T.isU16 = false ∧ T.isU64 = false

instance (T : IntType) : Decidable T.WF := by unfold IntType.WF; infer_instance

/-- `std::numeric_limits<T>::max()` -/
def IntType.max (T : IntType) : Nat := if T.signed then 2 ^ (T.bits - 1) - 1 else 2 ^ T.bits - 1

/-- Conversion of an integer to `T` (modular, as on every two's complement implementation). -/
def IntType.cast (T : IntType) (x : Int) : Int :=
  let r := x % 2 ^ T.bits
  if T.signed ∧ 2 ^ (T.bits - 1) ≤ r then r - 2 ^ T.bits else r

/-- Result of an integer parse; `ptr` is the suffix at the returned pointer, `value = none` when the output is not written. -/
structure IntResult where
  ptr : List Nat
  ec : Errc
  value : Option Int
  deriving DecidableEq, Repr

/-- `while (p != pend && *p == UC('0')) ++p;` (ascii_number.h:595-597). -/
def skipZeroUnits : List Nat → List Nat
  | [] => []
  | ch :: p => if ch == ch0 then skipZeroUnits p else ch :: p

/-- The four bytes of the `uint8_t` path (ascii_number.h:619-647): constant evaluation pads with 0, the short case pads with 0xFF. -/
def u8Digits (c : Cfg) (p : List Nat) : Exec Nat :=
  if c.constEval then
    let str := (p.take 4) ++ List.replicate (4 - (p.take 4).length) 0
    .ok (if c.bigEndian then byteswap32 (beWord 1 str) else leWord 1 str)
  else if p.length ≥ 4 then
    match readBlock 4 p with
    | .error e => .error e
    | .ok b => .ok (if c.bigEndian then byteswap32 (beWord 1 b) else leWord 1 b)
  else
    match p with
    | [] => .error .outOfBounds
    | b0 :: t =>
      let b1 := match t with | [] => 0xFF | x :: _ => x
      let b2 := match t with | _ :: x :: _ => x | _ => 0xFF
      .ok (b0 ||| b1 * 2 ^ 8 ||| b2 * 2 ^ 16 ||| 0xFF * 2 ^ 24)

/-- The loop over the rest of a too long run (ascii_number.h:668-673): `*q < '0' || *q > '9'` on promoted units. -/
def u8Rest (ct : CharType) : List Nat → List Nat
  | [] => []
  | ch :: q => if ct.toInt ch < 48 ∨ ct.toInt ch > 57 then ch :: q else u8Rest ct q

/-- `uint32_t` shift; undefined for counts `>= 32`. -/
def shl32 (x n : Nat) : Exec Nat := if n < 32 then .ok (x * 2 ^ n % 2 ^ 32) else .error .shift

/-- The `uint8_t` fast path (ascii_number.h:603-694), `sizeof(UC) == 1`, base 10. -/
def parseU8 (c : Cfg) (ct : CharType) (first p : List Nat) (hasLeadingZeros : Bool) : Exec IntResult :=
  let noDigits : IntResult :=
    if hasLeadingZeros then { ptr := p, ec := .ok, value := some 0 }
    else { ptr := first, ec := .invalidArgument, value := none }
  let len := p.length
  if len = 0 then .ok noDigits
  else do
    let digits ← u8Digits c p
    let magic := ((digits + 0x46464646) % 2 ^ 32 ||| (digits + 2 ^ 32 - 0x30303030) % 2 ^ 32) &&& 0x80808080
    let tz := countrZero32 c magic
    let nd := if tz = 32 then 4 else tz / 2 ^ 3
    let nd := if nd < len then nd else len
    if nd = 0 then pure noDigits
    else if nd > 3 then do
      let q ← skipN nd p
      pure { ptr := u8Rest ct q, ec := .outOfRange, value := none }
    else do
      let digits := digits ^^^ 0x30303030
      let digits ← shl32 digits ((4 - nd) * 8)
      let check := (digits / 2 ^ 24 &&& 0xff) ||| (digits / 2 ^ 8 &&& 0xff00) ||| (digits * 2 ^ 8 % 2 ^ 32 &&& 0xff0000)
      let q ← skipN nd p
      if check > 0x00020505 then pure { ptr := q, ec := .outOfRange, value := none }
      else pure { ptr := q, ec := .ok, value := some (((0x640a01 * digits % 2 ^ 32) / 2 ^ 24 % 256 : Nat) : Int) }

/-- `while (q != pend && is_integer(*q)) q++;` (ascii_number.h:721-723). -/
def skipDigits (ct : CharType) : List Nat → Exec (List Nat)
  | [] => .ok []
  | ch :: q =>
    match isInteger ct ch with
    | .error e => .error e
    | .ok true => skipDigits ct q
    | .ok false => .ok (ch :: q)

/-- `len > k && is_integer(p[k])` -/
def isIntegerAt (ct : CharType) (p : List Nat) (k : Nat) : Exec Bool :=
  match p[k]? with
  | none => .ok false
  | some ch => isInteger ct ch

/-- The `uint16_t` fast path (ascii_number.h:696-745), `sizeof(UC) == 1`, base 10; `none` = fall through to the generic code. -/
def parseU16 (c : Cfg) (ct : CharType) (first p : List Nat) (hasLeadingZeros : Bool) : Exec (Option IntResult) :=
  let len := p.length
  if len = 0 then
    .ok (some (if hasLeadingZeros then { ptr := p, ec := .ok, value := some 0 }
      else { ptr := first, ec := .invalidArgument, value := none }))
  else if len ≥ 4 then do
    let digits ← read4ToU32 c ct p
    if isMadeOfFourDigitsFast digits then do
      let v := parseFourDigitsUnrolled digits
      let d5 ← isIntegerAt ct p 4
      if d5 then do
        let v := (v * 10 + ((p.getD 4 0) - 48)) % 2 ^ 32
        let d6 ← isIntegerAt ct p 5
        let q5 ← skipN 5 p
        if d6 then do
          let q ← skipDigits ct q5
          pure (some { ptr := q, ec := .outOfRange, value := none })
        else if v > 65535 then pure (some { ptr := q5, ec := .outOfRange, value := none })
        else pure (some { ptr := q5, ec := .ok, value := some ((v % 2 ^ 16 : Nat) : Int) })
      else do
        let q4 ← skipN 4 p
        pure (some { ptr := q4, ec := .ok, value := some ((v % 2 ^ 16 : Nat) : Int) })
    else pure none
  else pure none

/-- `if (base == 10) loop_parse_if_eight_digits(p, pend, i);` with `i = 0` (ascii_number.h:747-750). -/
def intBlocks (c : Cfg) (ct : CharType) (base : Int) (p : List Nat) : Exec (List Nat × Nat) :=
  if base = 10 then loopParseIfEightDigits c ct p 0 else .ok (p, 0)

/-- The generic digit loop (ascii_number.h:751-758). -/
def baseLoop (base : Int) : List Nat → Nat → Exec (List Nat × Nat)
  | [], i => .ok ([], i)
  | ch :: p, i =>
    match chToDigit ch with
    | .error e => .error e
    | .ok d =>
      if (d : Int) ≥ base then .ok (ch :: p, i)
      else baseLoop base p ((base.toNat * i + d) % 2 ^ 64)

/-- A value of type `__int128`; overflow would be undefined. -/
def chk128 (x : Int) : Exec Int := if -2 ^ 127 ≤ x ∧ x < 2 ^ 127 then .ok x else .error .signedOverflow

/-- Conversion of a negative magnitude (ascii_number.h:802-809): `T(-max - T(i - uint64_t(max)))`.
The arithmetic is done in `int` or in `T` if wider; overflow would be undefined. -/
def negativeValue (T : IntType) (i : Nat) : Exec Int := do
  let d := T.cast (((i + 2 ^ 64 - T.max) % 2 ^ 64 : Nat) : Int)
  let r := -(T.max : Int) - d
  if T.bits ≤ 32 then do
    let r ← chk32 r
    pure (T.cast r)
  else if T.bits ≤ 64 then do
    let r ← chk64 r
    pure (T.cast r)
  else do
    let r ← chk128 r
    pure (T.cast r)

/-- The generic part of `parse_int_string` (ascii_number.h:747-818). `p` is `start_digits`. -/
def parseIntGeneric (c : Cfg) (ct : CharType) (T : IntType) (base : Int) (first p : List Nat) (negative hasLeadingZeros : Bool) :
    Exec IntResult := do
  let r1 ← intBlocks c ct base p
  let r2 ← baseLoop base r1.1 r1.2
  let q := r2.1
  let i := r2.2
  let digitCount := p.length - q.length
  if digitCount = 0 then
    if hasLeadingZeros then pure { ptr := q, ec := .ok, value := some 0 }
    else pure { ptr := first, ec := .invalidArgument, value := none }
  else do
    let maxDigits ← maxDigitsU64 base
    if digitCount > maxDigits then pure { ptr := q, ec := .outOfRange, value := none }
    else do
      let minSafe ← minSafeU64 base
      if digitCount = maxDigits ∧ i < minSafe then pure { ptr := q, ec := .outOfRange, value := none }
      else if !T.isU64 && decide (i > (T.max % 2 ^ 64 + (if negative then 1 else 0)) % 2 ^ 64) then
        pure { ptr := q, ec := .outOfRange, value := none }
      else if negative then do
        let v ← negativeValue T i
        pure { ptr := q, ec := .ok, value := some v }
      else pure { ptr := q, ec := .ok, value := some (T.cast i) }

/-- `if ((*p == '-') || (allow_leading_plus && (*p == '+'))) ++p;` (ascii_number.h:588-591); `c0` is `*p`. -/
def skipIntSign (fmt : Fmt) (c0 : Nat) (first : List Nat) : Exec (List Nat) :=
  if c0 == chMinus || (fmt.has Fmt.allowLeadingPlus && c0 == chPlus) then advance first else .ok first

/-- The choice between the specialised paths and the generic code (ascii_number.h:603-605, 696-698, 747); `p` is `start_digits`. -/
def parseIntDigits (c : Cfg) (ct : CharType) (T : IntType) (base : Int) (first p : List Nat) (negative hasLeadingZeros : Bool) : Exec IntResult :=
  if T.isU8 && decide (ct.width = 1) && decide (base = 10) then parseU8 c ct first p hasLeadingZeros
  else if T.isU16 && decide (ct.width = 1) && decide (base = 10) then
    match parseU16 c ct first p hasLeadingZeros with
    | .error e => .error e
    | .ok (some r) => .ok r
    | .ok none => parseIntGeneric c ct T base first p negative hasLeadingZeros
  else parseIntGeneric c ct T base first p negative hasLeadingZeros

/-- `parse_int_string` (ascii_number.h:564-819). -/
def parseIntString (c : Cfg) (ct : CharType) (T : IntType) (first : List Nat) (opt : Options) : Exec IntResult := do
  let fmt := adjustForFeatureMacros c opt.format
  let c0 ← deref first
  let negative := c0 == chMinus
  if !T.signed && negative then pure { ptr := first, ec := .invalidArgument, value := none }
  else do
    let startNum ← skipIntSign fmt c0 first
    let p := skipZeroUnits startNum
    parseIntDigits c ct T opt.base first p negative (decide (p.length < startNum.length))

end FastFloat
