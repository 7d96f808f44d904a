import Verif.Spec.Integer
/-
# Texts made of fields

This file does not refer to the model.
-/
set_option autoImplicit false
namespace FieldSpec

/-- `g` writes the number `v` with decimal digits (leading zeros are allowed, in any number), and `v` is at most `max`. -/
structure Number (max : Nat) (g : List Nat) (v : Nat) : Prop where
  digits : ∀ u ∈ g, 48 ≤ u ∧ u ≤ 57
  nonempty : g ≠ []
  value : IntSpec.value 10 g = v
  small : v ≤ max

/-- The fields with a delimiter between two of them, and nothing else. -/
def joined (delimiter : Nat) : List (List Nat) → List Nat
  | [] => []
  | [g] => g
  | g :: gs => g ++ delimiter :: joined delimiter gs

/-- `s` is the list of numbers `vs`, each at most `max`, with the delimiter between two of them. -/
def NumberList (max delimiter : Nat) (s vs : List Nat) : Prop :=
  ∃ gs, s = joined delimiter gs ∧ List.Forall₂ (Number max) gs vs

end FieldSpec
