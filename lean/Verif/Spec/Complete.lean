import Verif.Spec.Integer
/-
# A complete specification of a floating-point call, as a relation between text and result

This file does not refer to the model.  `FloatCall f number fmt point t rest code value`: parsing the text `t` (white space already removed)
in format `f`, with the format flags `fmt` and the decimal point `point`, leaves `rest` unread, reports `code` and stores `value`
(`none` = the value argument is not written).
-/
namespace ApiSpec
open NumSpec FloatSpec

/-- What `from_chars_result.ec` can be. -/
inductive Code where
  | success | invalid | range
  deriving DecidableEq, Repr

/-- Maximal munch: `n` is a numeral of the grammar and ends where reading greedily (sign, all digits, point and all digits, exponent)
ends.  In the formats in which the exponent may be absent although `fixed` is not set, the rest may not look like the beginning of an exponent. -/
structure Munch (g : Rules) (s : List Nat) (n : Numeral) (rest : List Nat) : Prop where
  wf : n.WF g
  text : s = n.text g.point ++ rest
  noDigit : ∀ u t, rest = u :: t → ¬ IsDigit u
  noPoint : n.frac = none → n.exp = none → ∀ t, rest ≠ g.point :: t
  noExponent : n.exp = none → ¬ ∃ (e : Exponent) (q : List Nat), e.WF g ∧ rest = e.text ++ q
  noBeginning : n.exp = none → g.fixed = false → g.fortran = true → ∀ u t, rest = u :: t → u ≠ 100 ∧ u ≠ 68 ∧ u ≠ 43 ∧ u ≠ 45

/-- The magnitude is too large for the format, or it is not zero and too small. -/
def OutOfRange (f : Format) (x : ℚ) : Prop := f.overflowThreshold ≤ x ∨ (0 < x ∧ x ≤ f.val 1 / 2)

/-- The quiet NaN with an otherwise empty payload. -/
def quietNaN (f : Format) : Nat := f.inf + 2 ^ (f.fracBits - 1)

/-- What a call for an IEEE format stores and reports for a numeral: the correctly rounded value, and a range error where it is one. -/
structure IeeeNumber (f : Format) (n : Numeral) (code : Code) (bits : Nat) : Prop where
  rounded : f.RoundsToBits n.neg n.value bits
  error : (code = .range ∧ OutOfRange f n.value) ∨ (code = .success ∧ ¬ OutOfRange f n.value)

/-- What a call for `std::float16_t` stores and reports for a numeral.  It differs from `IeeeNumber half` in two ways: the nine exceptional
ties are rounded up (one of them is the underflow threshold), and at run time in the default rounding mode an overflow is not reported if the
digits of the significand, read as one integer, give at most `2^11` and the power of ten it is multiplied with is at most `10^4`. -/
structure HalfNumber (runtime : Prop) (n : Numeral) (code : Code) (bits : Nat) : Prop where
  rounded : ¬ HalfException 16 n.value → half.RoundsToBits n.neg n.value bits
  exception : ∀ j : Nat, j % 2 = 0 → j ≤ 16 → n.value = (2 * j + 1) / 2 ^ 25 → bits = (if n.neg then half.signBit else 0) + (j + 1)
  error : code = .range ∨ code = .success
  range : code = .range ↔ (0 < n.value ∧ n.value < 1 / 2 ^ 25) ∨
    (65520 ≤ n.value ∧ ¬ (runtime ∧ digitsVal n.digits ≤ 2 ^ 11 ∧ n.expVal - ((n.frac.getD []).length : Int) ≤ 4))

inductive FloatCall (f : Format) (number : Numeral → Code → Nat → Prop) (fmt point : Nat) (t : List Nat) : List Nat → Code → Option Nat → Prop
  /-- a numeral -/
  | number {n : Numeral} {rest : List Nat} {code : Code} {bits : Nat} (text : Munch (rules fmt point) t n rest) (result : number n code bits) :
      FloatCall f number fmt point t rest code (some bits)
  /-- an infinity -/
  | infinity {neg : Bool} {rest : List Nat} (allowed : noInfNan fmt = false) (text : InfText (plusFlag fmt) t neg rest) :
      FloatCall f number fmt point t rest .success (some ((if neg then f.signBit else 0) + f.inf))
  /-- a NaN -/
  | nan {neg : Bool} {rest : List Nat} (allowed : noInfNan fmt = false) (text : NanText (plusFlag fmt) t neg rest) :
      FloatCall f number fmt point t rest .success (some ((if neg then f.signBit else 0) + quietNaN f))
  /-- anything else: nothing is consumed and nothing is stored -/
  | invalid (noNumber : ¬ ∃ n rest, Munch (rules fmt point) t n rest)
      (noSpecial : noInfNan fmt = true ∨
        ((¬ ∃ neg rest, InfText (plusFlag fmt) t neg rest) ∧ ¬ ∃ neg rest, NanText (plusFlag fmt) t neg rest)) :
      FloatCall f number fmt point t t .invalid none

end ApiSpec

namespace IntSpec
open ApiSpec

/-- A literal that an integer type of the given signedness can be asked to read: base 2 to 36, minus only for signed types. -/
structure Readable (signed : Bool) (fmt : Nat) (base : Int) (t : List Nat) (neg : Bool) (ds rest : List Nat) : Prop where
  two : 2 ≤ base
  max : base ≤ 36
  literal : Literal (plusFlag fmt) base.toNat t neg ds rest
  sign : neg = true → signed = true

/-- The number written fits and is stored, or it does not and the call reports a range error and stores nothing. -/
inductive ExactInt (bits : Nat) (signed neg : Bool) (v : Nat) : Code → Option Int → Prop
  | fits (h : Fits bits signed (signedValue neg v)) : ExactInt bits signed neg v .success (some (signedValue neg v))
  | overflow (h : ¬ Fits bits signed (signedValue neg v)) : ExactInt bits signed neg v .range none

/-- What the code does with a number: as `ExactInt`, except that a magnitude that escapes the check is replaced by its residue modulo `2^64`,
and accepted if that fits. -/
inductive ActualInt (bits : Nat) (signed : Bool) (base : Nat) (neg : Bool) (v : Nat) : Code → Option Int → Prop
  | fits (h : Fits bits signed (signedValue neg v)) : ActualInt bits signed base neg v .success (some (signedValue neg v))
  | wrapped (h : Escapes base v) (h' : Fits bits signed (signedValue neg (v % 2 ^ 64))) :
      ActualInt bits signed base neg v .success (some (signedValue neg (v % 2 ^ 64)))
  | overflow (h : ¬ Fits bits signed (signedValue neg v)) (h' : ¬ (Escapes base v ∧ Fits bits signed (signedValue neg (v % 2 ^ 64)))) :
      ActualInt bits signed base neg v .range none

/-- What the code does with a number for the 128-bit integer types: only zero and positive magnitudes below `2^64` are read correctly; every negative number
but "-0" is reported as out of range, and so is every magnitude of at least `2^64` that does not escape the 64-bit check. -/
inductive WideInt (base : Nat) (neg : Bool) (v : Nat) : Code → Option Int → Prop
  | fits (h : v < 2 ^ 64) (h' : neg = false ∨ v = 0) : WideInt base neg v .success (some v)
  | wrapped (h : Escapes base v) (h' : neg = false) : WideInt base neg v .success (some (v % 2 ^ 64 : Nat))
  | overflow (h : 2 ^ 64 ≤ v) (h' : neg = false) (h'' : ¬ Escapes base v) : WideInt base neg v .range none
  | negative (h : neg = true) (h' : v ≠ 0) : WideInt base neg v .range none

/-- A complete specification of an integer call: parsing the text `t` (white space already removed) as an integer of a type of the given signedness
leaves `rest` unread, reports the code and stores the value (`none` = nothing is stored).  `number neg v code value` says what is reported and stored for
a literal with that sign and magnitude. -/
inductive IntCall (signed : Bool) (number : Bool → Nat → Code → Option Int → Prop) (fmt : Nat) (base : Int) (t : List Nat) : List Nat → Code → Option Int → Prop
  | number {neg : Bool} {ds rest : List Nat} {code : Code} {r : Option Int} (h : Readable signed fmt base t neg ds rest)
      (result : number neg (value base.toNat ds) code r) : IntCall signed number fmt base t rest code r
  | invalid (h : ¬ ∃ neg ds rest, Readable signed fmt base t neg ds rest) : IntCall signed number fmt base t t .invalid none

end IntSpec
