import Verif.Spec.Complete
/-
# What is wrong with a text that is not a numeral, and where

This file does not refer to the model.  `Diagnosis g s e p`: read from left to right, the non-empty text `s` stops being a numeral of the grammar `g` with
the problem `e`; `p` is the part of the text from the place of the problem on.  The names and their meaning are those of `enum class parse_error`.
-/
namespace NumSpec

inductive Problem where
  /-- [JSON-only] The minus sign must be followed by an integer. -/
  | missingIntegerAfterSign
  /-- A sign must be followed by an integer or dot. -/
  | missingIntegerOrDotAfterSign
  /-- [JSON-only] The integer part must not have leading zeros. -/
  | leadingZerosInIntegerPart
  /-- [JSON-only] The integer part must have at least one digit. -/
  | noDigitsInIntegerPart
  /-- [JSON-only] If there is a decimal point, there must be digits in the fractional part. -/
  | noDigitsInFractionalPart
  /-- The mantissa must have at least one digit. -/
  | noDigitsInMantissa
  /-- Scientific notation requires an exponential part. -/
  | missingExponentialPart
  deriving DecidableEq, Repr

/-- The text does not start with a digit. -/
def NoDigitHead (s : List Nat) : Prop := ∀ u t, s = u :: t → ¬ IsDigit u

/-- The text does not start with the character `u`. -/
def NotHead (u : Nat) (s : List Nat) : Prop := ∀ t, s ≠ u :: t

/-- `s` is a sign and `t` (`b` true), or it is `t` and has no sign (`b` false). -/
inductive SignSplit (g : Rules) : List Nat → Bool → List Nat → Prop
  | minus (t : List Nat) : SignSplit g (45 :: t) true t
  | plus (t : List Nat) (h : g.plus = true) (hj : g.json = false) : SignSplit g (43 :: t) true t
  | none (t : List Nat) (h1 : NotHead 45 t) (h2 : g.plus = true → g.json = false → NotHead 43 t) : SignSplit g t false t

/-- `q` is a sign and `p`, or it is `p` and has no sign. -/
def OptionalSign (q p : List Nat) : Prop := q = 45 :: p ∨ q = 43 :: p ∨ (q = p ∧ NotHead 45 q ∧ NotHead 43 q)

/-- `r` starts like an exponent part; `p` is what follows the letter and the sign, the place where the digits of the exponent should be. -/
def ExponentAhead (g : Rules) (r p : List Nat) : Prop :=
  (∃ m q, r = m :: q ∧ ((g.scientific = true ∧ (m = 101 ∨ m = 69)) ∨ (g.fortran = true ∧ (m = 100 ∨ m = 68))) ∧ OptionalSign q p) ∨
  (g.fortran = true ∧ (r = 43 :: p ∨ r = 45 :: p))

/-- `s` starts with a sign (optional) and a complete significand; `r` follows. -/
structure SignificandThen (g : Rules) (s r : List Nat) : Prop where
  parts : ∃ (b : Bool) (ds : List Nat) (f : Option (List Nat)), SignSplit g s b (ds ++ Numeral.fracText g.point f ++ r) ∧
    (∀ c ∈ ds ++ f.getD [], IsDigit c) ∧
    (if g.json = true then ds ≠ [] ∧ (∀ e, ds = 48 :: e → e = []) ∧ f ≠ some [] else ds ++ f.getD [] ≠ []) ∧
    (f = none → NotHead g.point r)
  noDigit : NoDigitHead r

inductive Diagnosis (g : Rules) (s : List Nat) : Problem → List Nat → Prop
  | afterSign {t : List Nat} (sign : SignSplit g s true t) (h : t = [] ∨ (g.json = false ∧ NoDigitHead t ∧ NotHead g.point t)) :
      Diagnosis g s .missingIntegerOrDotAfterSign t
  | jsonAfterSign {t : List Nat} (json : g.json = true) (sign : SignSplit g s true t) (more : t ≠ []) (h : NoDigitHead t) :
      Diagnosis g s .missingIntegerAfterSign t
  | noInteger (json : g.json = true) (sign : SignSplit g s false s) (h : NoDigitHead s) :
      Diagnosis g s .noDigitsInIntegerPart s
  | leadingZeros {b : Bool} {d : Nat} {q : List Nat} (json : g.json = true) (sign : SignSplit g s b (48 :: d :: q)) (h : IsDigit d) :
      Diagnosis g s .leadingZerosInIntegerPart (48 :: d :: q)
  | noFraction {b : Bool} {ds r : List Nat} (json : g.json = true) (sign : SignSplit g s b (ds ++ g.point :: r)) (digits : ∀ c ∈ ds, IsDigit c)
      (some : ds ≠ []) (zero : ∀ e, ds = 48 :: e → e = []) (h : NoDigitHead r) :
      Diagnosis g s .noDigitsInFractionalPart r
  | noMantissa (json : g.json = false) (sign : SignSplit g s false s) (h : NoDigitHead s) (h' : NotHead g.point s) :
      Diagnosis g s .noDigitsInMantissa s
  | onlyPoint {b : Bool} {r : List Nat} (json : g.json = false) (sign : SignSplit g s b (g.point :: r)) (h : NoDigitHead r) :
      Diagnosis g s .noDigitsInMantissa r
  | badExponent {r p : List Nat} (fixed : g.fixed = false) (mantissa : SignificandThen g s r) (ahead : ExponentAhead g r p) (h : NoDigitHead p) :
      Diagnosis g s .missingExponentialPart p
  | noExponent {r : List Nat} (fixed : g.fixed = false) (scientific : g.scientific = true) (mantissa : SignificandThen g s r)
      (h : ¬ ∃ p, ExponentAhead g r p) : Diagnosis g s .missingExponentialPart r

/-- The digits of the significand without leading zeros. -/
def significant (n : Numeral) : List Nat := n.digits.dropWhile (· == 48)

/-- `mantissa`, `exponent` and `too_many_digits` of the record that describes a numeral: the significand as one integer and the power of ten it is
multiplied with; or the first 19 significant digits and the power that belongs to them, and a flag that says that digits were left out.  (The explicit
exponent is read until it reaches `2^28`, see `Numeral.clip`.) -/
structure ScannedAs (n : Numeral) (mantissa : Nat) (exponent : Int) (many : Bool) : Prop where
  flag : many = true ↔ 19 < (significant n).length
  short : many = false → mantissa = digitsVal n.digits ∧ exponent = n.clip.expVal - ((n.frac.getD []).length : Int)
  long : many = true → mantissa = digitsVal ((significant n).take 19) ∧
    exponent = n.clip.expVal - ((n.frac.getD []).length : Int) + ((significant n).length - 19 : Int)

end NumSpec
