import Verif.Model.Ipv4
/-
# More clients of the library: tests/rcppfastfloat_test.cpp and benchmarks/bench_uint16.cpp

`none` stands for "could not parse" / "found trailing content" in the first and for `std::abort()` in the second.
-/
set_option autoImplicit false
namespace FastFloat
namespace Client

/-- The loop over the leftover characters (rcppfastfloat_test.cpp:80-86): `true` if all of them are white space. -/
def leftoverBlank (ct : CharType) : List Nat → Exec Bool
  | [] => .ok true
  | ch :: leftover => do
    let b ← isSpace ct ch
    if !b then pure false else leftoverBlank ct leftover

/-- The options of the call (rcppfastfloat_test.cpp:65-69). -/
def rcppOptions : Options := { format := Fmt.general ||| Fmt.allowLeadingPlus ||| Fmt.skipWhiteSpace }

/-- One step of the loop of `eddelbuettel` (rcppfastfloat_test.cpp:57-95): the `result` that is compared with the expected one.
A success that stores nothing would read an indeterminate `result`: `nullDeref`.  Simplification: the options are a parameter (the test passes `rcppOptions`), and so
are the types of the number and of the characters (`double` and `char` in the test). -/
def rcppField (c : Cfg) (ct : CharType) (f : BinFmt) (s : List Nat) (opt : Options := rcppOptions) : Exec (Option Nat) := do
  let answer ← fromCharsFloat c ct f s opt
  if answer.ec ≠ .ok then pure none
  else
    let blank ← if answer.off ≠ s.length then leftoverBlank ct (s.drop answer.off) else pure true
    if !blank then pure none
    else
      match answer.value with
      | none => .error .nullDeref
      | some v => pure (some v)

/-- `uint16_t` as an argument of `from_chars`. -/
def u16 : IntType := ⟨16, false, false, true, false⟩

/-- The step behind a number in the loops of bench_uint16.cpp (:50-56, :125-129): the delimiter is required and skipped unless it was the last number. -/
def skipDelim (delimiter : Nat) (last : Bool) (p : List Nat) : Option (List Nat) :=
  if last then some p
  else
    match p with
    | [] => none
    | ch :: p => if ch ≠ delimiter then none else some p

/-- The loop of `validate` (bench_uint16.cpp:38-57): the text left over, or `none` after `std::abort()`. -/
def validateLoop (c : Cfg) (ct : CharType) (delimiter : Nat) : List Nat → List Nat → Exec (Option (List Nat))
  | [], p => .ok (some p)
  | e :: expected, p => do
    let r ← fromCharsInt c ct u16 p 10
    if r.ec ≠ .ok then pure none
    else
      match r.value with
      | none => .error .nullDeref
      | some val =>
        if val ≠ (e : Int) then pure none
        else
          match skipDelim delimiter expected.isEmpty (p.drop r.off) with
          | none => pure none
          | some p => validateLoop c ct delimiter expected p

/-- `validate` (bench_uint16.cpp:33-63): `true` if it prints "Validation passed!", `false` if it aborts. -/
def validate (c : Cfg) (ct : CharType) (buffer expected : List Nat) (delimiter : Nat) : Exec Bool := do
  match ← validateLoop c ct delimiter expected buffer with
  | none => pure false
  | some p => if p ≠ [] then pure false else pure true

/-- The loop of the benchmark (bench_uint16.cpp:117-130) with `n` numbers to go; `sum` is a `uint64_t`. -/
def sumLoop (c : Cfg) (ct : CharType) (delimiter : Nat) : Nat → List Nat → Nat → Exec (Option (Nat × List Nat))
  | 0, p, sum => .ok (some (sum, p))
  | n + 1, p, sum => do
    let r ← fromCharsInt c ct u16 p 10
    if r.ec ≠ .ok then pure none
    else
      match r.value with
      | none => .error .nullDeref
      | some value =>
        match skipDelim delimiter (n == 0) (p.drop r.off) with
        | none => pure none
        | some p => sumLoop c ct delimiter n p ((sum + value.toNat) % 2 ^ 64)

/-- The benchmark "parse_uint16_fastfloat" (bench_uint16.cpp:113-134): `sum`, or `none` after `std::abort()`. -/
def sumAll (c : Cfg) (ct : CharType) (buffer : List Nat) (n delimiter : Nat) : Exec (Option Nat) := do
  match ← sumLoop c ct delimiter n buffer 0 with
  | none => pure none
  | some (sum, p) => if p ≠ [] then pure none else pure (some sum)

/-- The text the benchmark is run on (bench_uint16.cpp:77-87).  `std::to_string` is not part of the code base: it is modelled by the usual digit loop. -/
def buildBuffer (delimiter : Nat) : List Nat → List Nat
  | [] => []
  | [val] => u8ToChars val
  | val :: vals => u8ToChars val ++ delimiter :: buildBuffer delimiter vals

end Client
end FastFloat
