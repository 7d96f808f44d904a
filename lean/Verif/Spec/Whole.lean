import Verif.Spec.Complete
/-
# Texts that are a number from the first character to the last

This file does not refer to the model.  The specifications here do not speak of longest matches: nothing is left over.
-/
namespace ApiSpec
open NumSpec FloatSpec

/-- The numeral is in the range of the format and rounds to `bits`. -/
def InRange (f : Format) (n : Numeral) (bits : Nat) : Prop := ¬ OutOfRange f n.value ∧ f.RoundsToBits n.neg n.value bits

/-- The text `t` is, from its first character to its last, a representation of a number of the format `f` whose bits are `bits`: a numeral of the grammar
with these bits (`number` says which numerals have bits, and which: `InRange f` for the IEEE formats), an infinity, or a NaN. -/
inductive WholeText (f : Format) (number : Numeral → Nat → Prop) (fmt point : Nat) (t : List Nat) : Nat → Prop
  | number {bits : Nat} (n : Numeral) (wf : n.WF (rules fmt point)) (text : t = n.text point) (result : number n bits) : WholeText f number fmt point t bits
  | infinity (neg : Bool) (w : List Nat) (allowed : noInfNan fmt = false) (text : Signed (plusFlag fmt) t neg w)
      (word : w.map lower = wInf ∨ w.map lower = wInf ++ wInity) : WholeText f number fmt point t ((if neg then f.signBit else 0) + f.inf)
  | nan (neg : Bool) (w : List Nat) (allowed : noInfNan fmt = false) (text : Signed (plusFlag fmt) t neg w)
      (word : w.map lower = wNan ∨ ∃ v q, v.map lower = wNan ∧ (∀ u ∈ q, NanChar u) ∧ w = v ++ 40 :: (q ++ [41])) :
      WholeText f number fmt point t ((if neg then f.signBit else 0) + quietNaN f)

end ApiSpec

namespace IntSpec
open ApiSpec

/-- The text `t` is, from its first character to its last, the integer `x` in the base, and `x` is a value of the type. -/
structure WholeInt (bits : Nat) (signed : Bool) (fmt : Nat) (base : Int) (t : List Nat) (x : Int) : Prop where
  two : 2 ≤ base
  max : base ≤ 36
  text : ∃ (neg : Bool) (ds : List Nat), Signed (plusFlag fmt) t neg ds ∧ ds ≠ [] ∧ (∀ u ∈ ds, IsDigit base.toNat u) ∧ (neg = true → signed = true) ∧
    x = signedValue neg (value base.toNat ds)
  fits : Fits bits signed x

end IntSpec
