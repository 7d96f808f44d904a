import Verif.Model.FloatCommon
/-
# Hardware floating point (trusted IEEE-754 semantics)

The Clinger fast path (parse_number.h:193-248) uses the machine's `T(uint64_t)`, `*`, `/`, unary `-`
and `rounds_to_nearest` uses `+`, `-` and `==` on `float`.  A non-negative float is represented by its bit pattern
without sign bit ("index" `n = exponent_field * 2^mb + fraction`).  Every operation returns the exact result rounded
in the thread's rounding mode: this is the IEEE-754 definition of the operations.  When `FLT_EVAL_METHOD` says that an expression
is evaluated in a wider format, the exact result is first rounded to that format and rounded again when it is stored.
-/
namespace FastFloat

/-- Index of infinity. -/
def infIdx (F : BinFmt) : Nat := F.infPow * 2 ^ F.mb

/-- Exponent of the smallest subnormal: `minExp + 1 - mb` is negative for all formats; this is its absolute value. -/
def ulpExp (F : BinFmt) : Nat := (F.mb - 1 - F.minExp).toNat

/-- Value of the finite non-negative float with index `n`, in units of the smallest subnormal `2^-(ulpExp F)`. -/
def fpVal (mb n : Nat) : Nat :=
  if n / 2 ^ mb = 0 then n % 2 ^ mb else (2 ^ mb + n % 2 ^ mb) * 2 ^ (n / 2 ^ mb - 1)

/-- Does the mode round the magnitude `q + rem/den` up to `q + 1`? (non-negative values) -/
def roundsUp (mode : RoundMode) (q rem den : Nat) : Bool :=
  match mode with
  | .nearest => decide (2 * rem > den) || (decide (2 * rem = den) && decide (q % 2 = 1))
  | .up => decide (rem > 0)
  | .down => false
  | .zero => false

/-- IEEE-754 rounding of the non-negative rational `num/den` (in units of the smallest subnormal) to an index. -/
def fpRound (F : BinFmt) (mode : RoundMode) (num den : Nat) : Nat :=
  let j := Nat.log2 (num / den) - F.mb
  let d := den * 2 ^ j
  let q := num / d
  let n := j * 2 ^ F.mb + q + (if roundsUp mode q (num % d) d then 1 else 0)
  if n < infIdx F then n
  else match mode with
    | .nearest => infIdx F
    | .up => infIdx F
    | .down => infIdx F - 1
    | .zero => infIdx F - 1

/-- `T(m)` for an unsigned integer. -/
def fpOfNat (F : BinFmt) (mode : RoundMode) (m : Nat) : Nat := fpRound F mode (m * 2 ^ ulpExp F) 1

/-- The 80-bit extended format of the x87 unit (64-bit significand with explicit leading bit, so 63 fraction bits).  Only the fields
that determine its values matter; the explicit leading bit takes no room in an index, so the sign is bit 78 here. -/
def extended80 : BinFmt := { binary64 with mb := 63, minExp := -16383, infPow := 0x7FFF, signIdx := 78 }

/-- The wider format in which an expression of type `F` is evaluated, if any. -/
def widerFmt (ev : EvalMethod) (F : BinFmt) : Option BinFmt :=
  match ev with
  | .own => none
  | .flt => if F.mb < 23 then some binary32 else none
  | .dbl => if F.mb < 52 then some binary64 else none
  | .ext => some extended80
  | .half => none

/-- The exact result `num/den` (in units of the smallest subnormal of `F`) of an operation whose value is stored to an object of
type `F`: rounded to the evaluation format, then converted to `F`. -/
def fpEval (c : Cfg) (F : BinFmt) (num den : Nat) : Nat :=
  match widerFmt c.evalMethod F with
  | none => fpRound F c.mode num den
  | some W =>
    let n := fpRound W c.mode (num * 2 ^ (ulpExp W - ulpExp F)) den
    if n < infIdx W then fpRound F c.mode (fpVal W.mb n) (2 ^ (ulpExp W - ulpExp F)) else infIdx F

/-- `x = a * b` for finite non-negative floats. -/
def fpMul (c : Cfg) (F : BinFmt) (a b : Nat) : Nat :=
  fpEval c F (fpVal F.mb a * fpVal F.mb b) (2 ^ ulpExp F)

/-- `x = a / b` for finite non-negative floats, `b` nonzero. -/
def fpDiv (c : Cfg) (F : BinFmt) (a b : Nat) : Nat :=
  fpEval c F (fpVal F.mb a * 2 ^ ulpExp F) (fpVal F.mb b)

/-- The format in which an expression of type `F` is evaluated. -/
def evalFmt (c : Cfg) (F : BinFmt) : BinFmt := (widerFmt c.evalMethod F).getD F

/-- `a + b` for finite non-negative floats of type `F`, not stored: an index of the evaluation format. -/
def fpAdd (c : Cfg) (F : BinFmt) (a b : Nat) : Nat :=
  fpRound (evalFmt c F) c.mode ((fpVal F.mb a + fpVal F.mb b) * 2 ^ (ulpExp (evalFmt c F) - ulpExp F)) 1

/-- `a - b` for finite non-negative floats of type `F` with `b ≤ a`, not stored: an index of the evaluation format. -/
def fpSub (c : Cfg) (F : BinFmt) (a b : Nat) : Nat :=
  fpRound (evalFmt c F) c.mode ((fpVal F.mb a - fpVal F.mb b) * 2 ^ (ulpExp (evalFmt c F) - ulpExp F)) 1

/-- Unary minus on a non-negative float: sets the sign bit. -/
def fpNeg (F : BinFmt) (a : Nat) : Nat := a + 2 ^ F.signIdx

/-- `detail::rounds_to_nearest` (parse_number.h:78-136): `fmin + 1.0f == 1.0f - fmin` in `float` arithmetic;
`false` unless `FLT_EVAL_METHOD` is 0 or 1.  `numeric_limits<float>::min()` has bits `1 << 23`; `1.0f` has bits `127 << 23`. -/
def roundsToNearest (c : Cfg) : Bool :=
  if c.evalMethod.is01 then
    fpAdd c binary32 (2 ^ 23) (127 * 2 ^ 23) == fpSub c binary32 (127 * 2 ^ 23) (2 ^ 23)
  else false

/-- `exact_power_of_ten(k)` (float_common.h:671-673, 723-724, 848-849, 873-878, 974-975, 996-1001, 1114-1125): the table entry is the literal
`1ek` of type `T`, which the compiler rounds to nearest. -/
def exactPowerOfTen (F : BinFmt) (k : Nat) : Exec Nat :=
  if k < F.powLen then .ok (fpOfNat F .nearest (10 ^ k)) else .error .tableIndex

/-- `std::numeric_limits<T>::quiet_NaN()`: all exponent bits and the top fraction bit. -/
def quietNaN (F : BinFmt) : Nat := infIdx F + 2 ^ (F.mb - 1)

end FastFloat
