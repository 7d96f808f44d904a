import Verif.Model.ParseNumber
/-
# The operators of `chars_format` and of `from_chars_result`

float_common.h:57-69 and 1405-1441.
-/
set_option autoImplicit false
namespace FastFloat

/-- `static_cast<int_type>` and back: `chars_format` has the underlying type `uint64_t` (float_common.h:37, 42). -/
def fmtBits : Nat := 64

/-- `operator~` (float_common.h:1405-1408). -/
def fmtNot (rhs : Fmt) : Fmt := (2 ^ fmtBits - 1) ^^^ rhs

/-- `operator&` (float_common.h:1410-1414). -/
def fmtAnd (lhs rhs : Fmt) : Fmt := lhs &&& rhs

/-- `operator|` (float_common.h:1416-1420). -/
def fmtOr (lhs rhs : Fmt) : Fmt := lhs ||| rhs

/-- `operator^` (float_common.h:1422-1426). -/
def fmtXor (lhs rhs : Fmt) : Fmt := lhs ^^^ rhs

/-- `operator&=` (float_common.h:1428-1431): the new contents of `lhs`, which is also what the expression denotes. -/
def fmtAndAssign (lhs rhs : Fmt) : Fmt := fmtAnd lhs rhs

/-- `operator|=` (float_common.h:1433-1436). -/
def fmtOrAssign (lhs rhs : Fmt) : Fmt := fmtOr lhs rhs

/-- `operator^=` (float_common.h:1438-1441). -/
def fmtXorAssign (lhs rhs : Fmt) : Fmt := fmtXor lhs rhs

/-- `from_chars_result_t::operator bool` (float_common.h:61-64): `ec == std::errc()`. -/
def Errc.toBool (e : Errc) : Bool := e == .ok

/-- `if (result)` for a floating-point call. -/
def ApiFloat.toBool (r : ApiFloat) : Bool := r.ec.toBool

/-- `if (result)` for an integer call. -/
def ApiInt.toBool (r : ApiInt) : Bool := r.ec.toBool

end FastFloat
