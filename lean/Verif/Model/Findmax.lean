import Verif.Model.ParseNumber
/-
# A client of the library: benchmarks/benchmark.cpp

`none` stands for the exception "bug in findmax_fastfloat".
-/
set_option autoImplicit false
namespace FastFloat
namespace Client

/-- The comparison `a > b` of the hardware on bit patterns (IEEE 754, 5.11), as in benchmark.cpp:34 and :48: false if one of them is a NaN; sign and magnitude
otherwise, the two zeros being equal. -/
def fpGreater (F : BinFmt) (a b : Nat) : Bool :=
  let magnitude (x : Nat) : Nat := x % 2 ^ F.signIdx
  let key (x : Nat) : Int := if 2 ^ F.signIdx ≤ x then -(magnitude x : Int) else (magnitude x : Int)
  if infIdx F < magnitude a ∨ infIdx F < magnitude b then false else decide (key b < key a)

/-- The loop of `findmax_fastfloat64` and `findmax_fastfloat32` (benchmark.cpp:29-35, :43-49): `x` keeps its value if the call stores nothing; `p == st.data()` throws. -/
def findmaxLoop (c : Cfg) (ct : CharType) (F : BinFmt) : List (List Nat) → Nat → Nat → Exec (Option Nat)
  | [], answer, _ => .ok (some answer)
  | st :: s, answer, x => do
    let r ← fromChars c ct F st
    let x := r.value.getD x
    if r.off = 0 then pure none
    else findmaxLoop c ct F s (if fpGreater F answer x then answer else x) x

/-- `findmax_fastfloat64` / `findmax_fastfloat32` (benchmark.cpp:25-51): the bits of `answer`.  The conversion of a `float` answer to the `double` that is
returned is exact and is left out. -/
def findmax (c : Cfg) (ct : CharType) (F : BinFmt) (s : List (List Nat)) : Exec (Option Nat) := findmaxLoop c ct F s 0 0

end Client
end FastFloat
