import Verif.Spec.Integer
/-
# Dotted addresses

This file does not refer to the model.
-/
set_option autoImplicit false
namespace Ipv4Spec

/-- `g` writes the number `v` of at most 255 with decimal digits (leading zeros are allowed, in any number). -/
structure Octet (g : List Nat) (v : Nat) : Prop where
  digits : ∀ u ∈ g, 48 ≤ u ∧ u ≤ 57
  nonempty : g ≠ []
  value : IntSpec.value 10 g = v
  small : v ≤ 255

/-- `s` is the address `a.b.c.d` followed by `rest`, which does not go on with a digit. -/
def Address (s : List Nat) (a b c d : Nat) (rest : List Nat) : Prop :=
  ∃ ga gb gc gd, s = ga ++ 46 :: (gb ++ 46 :: (gc ++ 46 :: (gd ++ rest))) ∧ Octet ga a ∧ Octet gb b ∧ Octet gc c ∧ Octet gd d ∧
    ∀ u, rest.head? = some u → ¬ (48 ≤ u ∧ u ≤ 57)

/-- The 32-bit number of an address. -/
def number (a b c d : Nat) : Nat := a * 2 ^ 24 + b * 2 ^ 16 + c * 2 ^ 8 + d

/-- The usual text of an address: four numbers without leading zeros. -/
def text (a b c d : Nat) : List Nat :=
  IntSpec.render 10 (fun _ => false) a ++ 46 :: (IntSpec.render 10 (fun _ => false) b ++ 46 ::
    (IntSpec.render 10 (fun _ => false) c ++ 46 :: IntSpec.render 10 (fun _ => false) d))

end Ipv4Spec
