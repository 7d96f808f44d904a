import Verif.Spec.Complete
/-
# The complete specification for an arbitrary decimal point

`options.decimal_point` may be any character, also one that is a part of numerals already (a sign, `e`, `d`, even a digit).  Then a text can
be read as a numeral in more than one way, and "the longest numeral" is no longer what a left-to-right reader finds.  `Greedy` says what it
finds: every part is taken as soon as it can be taken and is as long as it can be.  This file does not refer to the model.
-/
namespace ApiSpec
open NumSpec FloatSpec

/-- `n` is what reading `s` from left to right finds, each part being taken if it is there, and `rest` is what is left. -/
structure Greedy (g : Rules) (s : List Nat) (n : Numeral) (rest : List Nat) : Prop where
  /-- a numeral of the grammar -/
  wf : n.WF g
  /-- at the beginning of the text -/
  text : s = n.text g.point ++ rest
  /-- a sign that the format allows is taken as the sign -/
  sign : n.sign = none → ∀ t, s ≠ 45 :: t ∧ (g.plus = true → g.json = false → s ≠ 43 :: t)
  /-- then all digits are taken -/
  int : ∀ u t, Numeral.fracText g.point n.frac ++ Numeral.expText n.exp ++ rest = u :: t → ¬ IsDigit u
  /-- then the decimal point is taken if it follows -/
  point : n.frac = none → ∀ t, Numeral.expText n.exp ++ rest ≠ g.point :: t
  /-- then all digits are taken -/
  frac : ∀ u t, Numeral.expText n.exp ++ rest = u :: t → ¬ IsDigit u
  /-- then an exponent is taken if one follows, with all its digits -/
  exp : n.exp = none → ¬ ∃ (e : Exponent) (q : List Nat), e.WF g ∧ rest = e.text ++ q
  expDigits : ∀ u t, rest = u :: t → ¬ IsDigit u
  /-- without `fixed`, the beginning of an exponent must be one -/
  noBeginning : n.exp = none → g.fixed = false → g.fortran = true → ∀ u t, rest = u :: t → u ≠ 100 ∧ u ≠ 68 ∧ u ≠ 43 ∧ u ≠ 45

/-- `FloatCall` with `Greedy` for the numerals. -/
inductive AnyPointCall (f : Format) (number : Numeral → Code → Nat → Prop) (fmt point : Nat) (t : List Nat) : List Nat → Code → Option Nat → Prop
  /-- a numeral -/
  | number {n : Numeral} {rest : List Nat} {code : Code} {bits : Nat} (text : Greedy (rules fmt point) t n rest) (result : number n code bits) :
      AnyPointCall f number fmt point t rest code (some bits)
  /-- an infinity -/
  | infinity {neg : Bool} {rest : List Nat} (allowed : noInfNan fmt = false) (text : InfText (plusFlag fmt) t neg rest) :
      AnyPointCall f number fmt point t rest .success (some ((if neg then f.signBit else 0) + f.inf))
  /-- a NaN -/
  | nan {neg : Bool} {rest : List Nat} (allowed : noInfNan fmt = false) (text : NanText (plusFlag fmt) t neg rest) :
      AnyPointCall f number fmt point t rest .success (some ((if neg then f.signBit else 0) + quietNaN f))
  /-- anything else: nothing is consumed and nothing is stored -/
  | invalid (noNumber : ¬ ∃ n rest, Greedy (rules fmt point) t n rest)
      (noSpecial : noInfNan fmt = true ∨
        ((¬ ∃ neg rest, InfText (plusFlag fmt) t neg rest) ∧ ¬ ∃ neg rest, NanText (plusFlag fmt) t neg rest)) :
      AnyPointCall f number fmt point t t .invalid none

/-- The digits of a significand from the first one that is not zero. -/
def significant (ds : List Nat) : List Nat := ds.dropWhile (· == 48)

/-- The digits that the code counts when the decimal point is the digit `point`: the zeros in the leading run of zeros and `point`s are left out. -/
def counted (point : Nat) (ds : List Nat) : Nat := ds.length - ((ds.takeWhile (fun u => u == 48 || u == point)).filter (· == 48)).length

/-- More than nineteen significant digits, of which not more than nineteen are counted. -/
def Miscounted (point : Nat) (n : Numeral) : Prop := 19 < (significant n.digits).length ∧ counted point n.digits ≤ 19

/-- The number the code works with: the value with the exponent cut off as in `Numeral.clip`, and the significand reduced modulo `2^64` if its
digits are miscounted. -/
noncomputable def valueRead (point : Nat) (n : Numeral) : ℚ :=
  open Classical in
  if Miscounted point n then ((digitsVal n.digits % 2 ^ 64 : Nat) : ℚ) * (10 : ℚ) ^ (n.clip.expVal - ((n.frac.getD []).length : Int)) else n.clip.value

/-- As `IeeeNumber`, for the number `x`. -/
structure IeeeValue (f : Format) (neg : Bool) (x : ℚ) (code : Code) (bits : Nat) : Prop where
  rounded : f.RoundsToBits neg x bits
  error : (code = .range ∧ OutOfRange f x) ∨ (code = .success ∧ ¬ OutOfRange f x)

end ApiSpec
