import Verif.Model.ParseNumber
import Verif.Spec.Overload
/-
# The overloads of the library

The candidates that a call of `integer_times_pow10`, `from_chars` or `from_chars_advanced` has, with their constraints (fast_float.h:33-86, parse_number.h:187-189,
396-546, float_common.h:256-294).  What each of them does is in `Model/ParseNumber.lean`; here is which of them runs.
-/
set_option autoImplicit false
namespace FastFloat
namespace Overload
open CppSpec

/-- `is_supported_float_type<T>` (float_common.h:256-273), with the format of the type (`binary_format<T>`, float_common.h:1372-1385 for the aliases). -/
def floatFmt (P : Platform) : Ty → Option BinFmt
  | .double => some binary64
  | .float => some binary32
  | .float64 => if P.has64 then some binary64 else none
  | .float32 => if P.has32 then some binary32 else none
  | .float16 => if P.has16 then some binary16 else none
  | .bfloat16 => if P.hasB16 then some bfloat16 else none
  | _ => none

/-- The eight functions called `integer_times_pow10` (parse_number.h:410-486). -/
inductive Pow10 where
  /-- `integer_times_pow10<T>(uint64_t, int)` (parse_number.h:410-422) -/
  | u64 (F : BinFmt)
  /-- `integer_times_pow10<T>(int64_t, int)` (parse_number.h:424-438) -/
  | i64 (F : BinFmt)
  /-- `integer_times_pow10(uint64_t, int)` (parse_number.h:440-443) -/
  | doubleU
  /-- `integer_times_pow10(int64_t, int)` (parse_number.h:445-448) -/
  | doubleI
  /-- `integer_times_pow10<T, Int>(Int, int)`, `Int` unsigned (parse_number.h:452-462) -/
  | anyU (T : Ty)
  /-- `integer_times_pow10<T, Int>(Int, int)`, `Int` signed (parse_number.h:464-474) -/
  | anyI (T : Ty)
  /-- `integer_times_pow10<Int>(Int, int)`, `Int` unsigned (parse_number.h:476-480) -/
  | anyDoubleU
  /-- `integer_times_pow10<Int>(Int, int)`, `Int` signed (parse_number.h:482-486) -/
  | anyDoubleI
  deriving DecidableEq

/-- `template <typename Int> ... integer_times_pow10(Int, int)`: one of the two, if `Int` is integral (parse_number.h:476-486).  `deduced` says whether `Int` was
deduced or given. -/
def anyDouble (P : Platform) (int : Ty) (deduced : Bool) : List (Candidate Pow10) :=
  if P.Integral int then [⟨[int, .int], deduced, if P.signed int then .anyDoubleI else .anyDoubleU⟩] else []

/-- Candidates of `integer_times_pow10(a, e)` (parse_number.h:440-448, 476-486); the other four need the template argument `T`. -/
def plainCands (P : Platform) (a : Ty) : List (Candidate Pow10) :=
  [⟨[P.uint64, .int], false, .doubleU⟩, ⟨[P.int64, .int], false, .doubleI⟩] ++ anyDouble P a true

/-- Candidates of `integer_times_pow10<T>(a, e)` (parse_number.h:410-438, 452-486): with `T` a supported floating-point type, or with `Int = T`. -/
def typedCands (P : Platform) (T a : Ty) : List (Candidate Pow10) :=
  (match floatFmt P T with
    | some F => [⟨[P.uint64, .int], false, .u64 F⟩, ⟨[P.int64, .int], false, .i64 F⟩] ++
        (if P.Integral a then [⟨[a, .int], true, if P.signed a then .anyI T else .anyU T⟩] else [])
    | none => []) ++ anyDouble P T false

/-- A call of `integer_times_pow10`, with or without a template argument, as written at the call. -/
inductive Call where
  | plain
  | typed (T : Ty)

/-- The candidates of a call. -/
def Call.cands (P : Platform) : Call → Ty → List (Candidate Pow10)
  | .plain, a => plainCands P a
  | .typed T, a => typedCands P T a

/-- Running a call `integer_times_pow10[<T>](x, e)` with an argument of type `a` and value `x`: the function it means runs, after the conversion of the
argument to its parameter; the forwarding functions convert and call again (parse_number.h:440-486).  The result is the pair of the format of the returned
type and the outcome. -/
inductive Runs (P : Platform) (c : Cfg) : Call → Ty → Int → Int → BinFmt × Exec Nat → Prop
  | u64 {call a x e f F} : P.Means [a, .int] (call.cands P a) f → f.body = .u64 F →
      Runs P c call a x e (F, integerTimesPow10U c F (wrap 64 false x).toNat e)
  | i64 {call a x e f F} : P.Means [a, .int] (call.cands P a) f → f.body = .i64 F →
      Runs P c call a x e (F, integerTimesPow10I c F (wrap 64 true x) e)
  | doubleU {call a x e f r} : P.Means [a, .int] (call.cands P a) f → f.body = .doubleU →
      Runs P c (.typed .double) P.uint64 (wrap 64 false x) e r → Runs P c call a x e r
  | doubleI {call a x e f r} : P.Means [a, .int] (call.cands P a) f → f.body = .doubleI →
      Runs P c (.typed .double) P.int64 (wrap 64 true x) e r → Runs P c call a x e r
  | anyU {call a x e f r T} : P.Means [a, .int] (call.cands P a) f → f.body = .anyU T →
      Runs P c (.typed T) P.uint64 (wrap 64 false x) e r → Runs P c call a x e r
  | anyI {call a x e f r T} : P.Means [a, .int] (call.cands P a) f → f.body = .anyI T →
      Runs P c (.typed T) P.int64 (wrap 64 true x) e r → Runs P c call a x e r
  | anyDoubleU {call a x e f r t} : P.Means [a, .int] (call.cands P a) f → f.body = .anyDoubleU → f.params = [t, .int] →
      Runs P c .plain P.uint64 (wrap 64 false (wrap (P.bits t) (P.signed t) x)) e r → Runs P c call a x e r
  | anyDoubleI {call a x e f r t} : P.Means [a, .int] (call.cands P a) f → f.body = .anyDoubleI → f.params = [t, .int] →
      Runs P c .plain P.int64 (wrap 64 true (wrap (P.bits t) (P.signed t) x)) e r → Runs P c call a x e r

/-- The variable passed as `value`: its type and qualifiers. -/
structure Lvalue where
  ty : Ty
  isConst : Bool := false
  isVolatile : Bool := false
  deriving DecidableEq

/-- The two functions called `from_chars` (fast_float.h:33-37, 83-86). -/
inductive Entry where
  | number | integer
  deriving DecidableEq

/-- `chars_format` is a scoped enumeration (float_common.h:40). -/
def charsFormat : Ty := .scopedEnum 0

/-- `is_supported_float_type<T>` with `T` deduced from the variable: `std::is_same` looks at the qualifiers (float_common.h:256-273). -/
def FloatVar (P : Platform) (v : Lvalue) : Prop := v.isConst = false ∧ v.isVolatile = false ∧ (floatFmt P v.ty).isSome

instance (P : Platform) (v : Lvalue) : Decidable (FloatVar P v) := by unfold FloatVar; infer_instance

/-- `is_supported_integer_type<T>`: `std::is_integral` ignores the qualifiers (float_common.h:283). -/
def IntVar (P : Platform) (v : Lvalue) : Prop := P.Integral v.ty

instance (P : Platform) (v : Lvalue) : Decidable (IntVar P v) := by unfold IntVar; infer_instance

/-- Candidates of `from_chars(first, last, v)` (`more = []`) and of `from_chars(first, last, v, x)` (`more = [type of x]`): the fourth parameter has a default
(fast_float.h:33-37, 83-86).  The first three parameters are deduced alike in both and are left out. -/
def fromCharsCands (P : Platform) (v : Lvalue) (more : List Ty) : List (Candidate Entry) :=
  (if FloatVar P v then [⟨[charsFormat].take more.length, false, .number⟩] else []) ++
  (if IntVar P v then [⟨[.int].take more.length, false, .integer⟩] else [])

/-- The index of `from_chars_advanced_caller` (parse_number.h:539-546). -/
def advancedIndex (P : Platform) (v : Lvalue) : Nat := (if FloatVar P v then 1 else 0) + 2 * (if IntVar P v then 1 else 0)

/-- What the index selects: nothing for 0 (the `static_assert`, parse_number.h:516-518), and there is no third specialisation with a `call`
(parse_number.h:520-536). -/
def advancedEntry (P : Platform) (v : Lvalue) : Option Entry :=
  match advancedIndex P v with
  | 1 => some .number
  | 2 => some .integer
  | _ => none

/-- `is_supported_char_type<UC>` (float_common.h:285-295); `char8_t` where it exists. -/
def charSupported : Ty → Bool
  | .char | .wchar | .char16 | .char32 | .char8 => true
  | _ => false

end Overload
end FastFloat
