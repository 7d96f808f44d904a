import Mathlib.Data.List.Basic
import Mathlib.Data.Int.Basic
/-
# Which function a C++ call means

A model-free fragment of the C++ rules ([over.match], [conv.prom], [basic.fundamental], [temp.func.order]): the types of arguments, the rank of the conversion to
a parameter, and the best viable function.  Simplifications: no class types (`other` converts to nothing and nothing to it), an argument is a value or an lvalue of
its type and decays are done, and of the partial ordering of templates only "a parameter of a fixed type is more specialised than a deduced one" is needed.
-/
set_option autoImplicit false
namespace CppSpec

/-- Types of arguments.  An unscoped enumeration has an underlying type and may have it fixed (`enum E : short`). -/
inductive Ty where
  | bool | char | schar | uchar | char8 | char16 | char32 | wchar
  | short | ushort | int | uint | long | ulong | llong | ullong | int128 | uint128
  | float | double | longDouble | float16 | float32 | float64 | float128 | bfloat16
  | scopedEnum (name : Nat) | plainEnum (name : Nat) (fixed : Bool) (underlying : Ty) | pointer | other
  deriving DecidableEq, Repr

/-- What differs between platforms. -/
structure Platform where
  /-- plain `char` is signed -/
  charSigned : Bool
  wchar16 : Bool
  wcharSigned : Bool
  /-- `long` has 64 bits -/
  long64 : Bool
  /-- `std::int64_t` is `long` (otherwise `long long`) -/
  int64IsLong : Bool
  /-- `std::is_integral<__int128>` (the GNU dialects) -/
  gnu128 : Bool
  /-- the extended floating-point types of C++23 that exist -/
  has16 : Bool
  has32 : Bool
  has64 : Bool
  hasB16 : Bool
  /-- `std::int64_t` has 64 bits -/
  wf : int64IsLong = true → long64 = true

variable (P : Platform)

/-- `std::int64_t`. -/
def Platform.int64 : Ty := if P.int64IsLong then .long else .llong
/-- `std::uint64_t`. -/
def Platform.uint64 : Ty := if P.int64IsLong then .ulong else .ullong

/-- `std::is_integral`. -/
def Platform.Integral : Ty → Prop
  | .bool | .char | .schar | .uchar | .char8 | .char16 | .char32 | .wchar
  | .short | .ushort | .int | .uint | .long | .ulong | .llong | .ullong => True
  | .int128 | .uint128 => P.gnu128 = true
  | _ => False

instance : DecidablePred P.Integral := fun t => by unfold Platform.Integral; split <;> infer_instance

/-- Signedness of an integral type. -/
def Platform.signed : Ty → Bool
  | .char => P.charSigned
  | .wchar => P.wcharSigned
  | .schar | .short | .int | .long | .llong | .int128 => true
  | _ => false

/-- Number of bits of the values of an integral type. -/
def Platform.bits : Ty → Nat
  | .bool => 1
  | .char | .schar | .uchar | .char8 => 8
  | .char16 | .short | .ushort => 16
  | .wchar => if P.wchar16 then 16 else 32
  | .char32 | .int | .uint => 32
  | .long | .ulong => if P.long64 then 64 else 32
  | .llong | .ullong => 64
  | .int128 | .uint128 => 128
  | _ => 0

/-- The values of an integral type. -/
def Platform.Holds (t : Ty) (x : Int) : Prop :=
  if P.signed t then -2 ^ (P.bits t - 1) ≤ x ∧ x < 2 ^ (P.bits t - 1) else 0 ≤ x ∧ x < 2 ^ P.bits t

instance (t : Ty) (x : Int) : Decidable (P.Holds t x) := by unfold Platform.Holds; infer_instance

/-- Arithmetic types. -/
def Ty.arithmetic : Ty → Bool
  | .scopedEnum _ | .plainEnum _ _ _ | .pointer | .other => false
  | _ => true

/-- The promoted type of an integral type narrower than `int` or of a character type ([conv.prom]). -/
def Platform.promoted : Ty → Ty
  | .bool | .char | .schar | .uchar | .char8 | .char16 | .short | .ushort => .int
  | .char32 => .uint
  | .wchar => if P.wchar16 ∨ P.wcharSigned then .int else .uint
  | .float => .double
  | t => t

/-- Rank of an implicit conversion: identity, promotion, conversion. -/
inductive Rank where
  | identity | promotion | conversion
  deriving DecidableEq, Repr

def Rank.toNat : Rank → Nat
  | .identity => 0
  | .promotion => 1
  | .conversion => 2

/-- The implicit conversion from an argument of type `a` to a parameter of type `p`. -/
def Platform.convert (a p : Ty) : Option Rank :=
  if a = p then some .identity
  else if p.arithmetic then
    match a with
    | .plainEnum _ fixed u => if p = u ∨ (fixed = true ∧ p = P.promoted u) then some .promotion else some .conversion
    | .pointer => if p = .bool then some .conversion else none
    | a => if a.arithmetic then (if p = P.promoted a then some .promotion else some .conversion) else none
  else none

/-- A candidate function: its parameters, and whether the type of one was deduced from the argument. -/
structure Candidate (β : Type) where
  params : List Ty
  deduced : Bool
  body : β
  deriving DecidableEq

/-- Every argument converts to its parameter. -/
def Platform.Viable {β : Type} (args : List Ty) (f : Candidate β) : Prop :=
  List.Forall₂ (fun a p => (P.convert a p).isSome) args f.params

/-- The rank of a conversion, as a number (only used for viable functions). -/
def Platform.cost (a p : Ty) : Nat := ((P.convert a p).map Rank.toNat).getD 3

/-- `f` is a better candidate than `g` ([over.match.best]): no argument converts worse, and one converts better or `f` has a fixed parameter where `g` has a
deduced one. -/
def Platform.Better {β : Type} (args : List Ty) (f g : Candidate β) : Prop :=
  (∀ x ∈ args.zip (f.params.zip g.params), P.cost x.1 x.2.1 ≤ P.cost x.1 x.2.2) ∧
  ((∃ x ∈ args.zip (f.params.zip g.params), P.cost x.1 x.2.1 < P.cost x.1 x.2.2) ∨ (f.deduced = false ∧ g.deduced = true))

/-- The call means `f`: it is viable and better than every other viable candidate.  If there is no such `f` the call does not compile. -/
def Platform.Means {β : Type} (args : List Ty) (cands : List (Candidate β)) (f : Candidate β) : Prop :=
  f ∈ cands ∧ P.Viable args f ∧ ∀ g ∈ cands, g ≠ f → P.Viable args g → P.Better args f g

/-- The integer of `bits` bits, two's complement, congruent to `x`: what a conversion between integral types yields. -/
def wrap (bits : Nat) (signed : Bool) (x : Int) : Int :=
  let r := x % 2 ^ bits
  if signed = true ∧ 2 ^ (bits - 1) ≤ r then r - 2 ^ bits else r

end CppSpec
