import Verif.Props.Vocabulary
/-
GENERATED by tools/gen_vectors.py from /repo/tests: do not edit.

Conformance TESTS of the transcription.  The kernel runs the model on the test vectors of the repository itself (tests/basictest.cpp,
tests/fast_int.cpp, tests/json_fmt.cpp, tests/fortran.cpp) and compares with the results those tests expect.  They are finite checks on
literals: evidence that the model was transcribed faithfully, not proofs, and no claim in MANIFEST.json rests on them.  The expected bits
were computed from the C++ literal by exact rational arithmetic in the generator, not by this model.
-/
set_option autoImplicit false
set_option maxRecDepth 20000
namespace FastFloat
namespace Vectors

/-- line in the test file, text, element type, expected bits, expected error, decimal point, format, expected length consumed -/
structure FloatVec where
  line : Nat
  text : List Nat
  ty : FloatTy
  bits : Nat
  ec : Errc
  point : Nat
  fmt : Fmt
  off : Nat

/-- line, text, type, base; `ec`, `value` and `off` are `none` where the test does not look at them -/
structure IntVec where
  line : Nat
  text : List Nat
  ty : IntType
  base : Int
  ec : Option Errc
  value : Option Int
  off : Option Nat

/-- Run one vector and compare. -/
def FloatVec.check (c : Cfg) (ct : CharType) (v : FloatVec) : Bool :=
  match fromCharsFloat c ct v.ty.fmt v.text { format := v.fmt, decimalPoint := v.point } with
  | .error _ => false
  | .ok r => r.off == v.off && decide (r.ec = v.ec) && decide (r.value = some v.bits)

/-- Run one vector and compare what the test compares. -/
def IntVec.check (c : Cfg) (ct : CharType) (v : IntVec) : Bool :=
  match fromCharsInt c ct v.ty v.text v.base with
  | .error _ => false
  | .ok r => v.ec.all (fun e => decide (r.ec = e)) && v.value.all (fun x => decide (r.value = some x)) && v.off.all (fun o => r.off == o)

/-- `char16_t` and `char32_t`. -/
def c16 : CharType := ⟨2, false, false, true⟩
def c32 : CharType := ⟨4, false, false, false⟩

/-- A rejected JSON text, the reason and the position reported by `parse_number_string<true>`. -/
structure Rejected where
  line : Nat
  text : List Nat
  reason : ParseError
  at_ : Nat

/-- Rejected by `from_chars` with `chars_format::json`, and by `parse_number_string<true>` with `json | allow_leading_plus` for that reason. -/
def Rejected.check (c : Cfg) (v : Rejected) : Bool :=
  (match fromChars c .char FloatTy.double.fmt v.text Fmt.json with
    | .error _ => false
    | .ok r => decide (r.ec ≠ .ok)) &&
  (match parseNumberString c .char true v.text { format := Fmt.json ||| Fmt.allowLeadingPlus } true with
    | .error _ => false
    | .ok r => !r.valid && decide (r.error = v.reason) && v.text.length - r.lastmatch.length == v.at_)

/-- The same machine during constant evaluation (`verify_comptime`). -/
def compileTime : Cfg := { Cfg.x64 with constEval := true, simd := .none }
/-- A 32-bit machine without a wide multiplication. -/
def small : Cfg := { Cfg.x64 with limb64 := false, nativeMul := false, int128 := false, builtinAdd := false, simd := .none, sys32 := true }

def floats1 : List FloatVec := [
  ⟨1112, [73, 78, 70], .double, 9218868437227405312, .ok, 46, Fmt.general, 3⟩,
  ⟨1113, [45, 73, 78, 70], .double, 18442240474082181120, .ok, 46, Fmt.general, 4⟩,
  ⟨1114, [73, 78, 70, 73, 78, 73, 84, 89], .double, 9218868437227405312, .ok, 46, Fmt.general, 8⟩,
  ⟨1115, [45, 73, 78, 70, 73, 78, 73, 84, 89], .double, 18442240474082181120, .ok, 46, Fmt.general, 9⟩,
  ⟨1116, [105, 110, 102, 105, 110, 105, 116, 121], .double, 9218868437227405312, .ok, 46, Fmt.general, 8⟩,
  ⟨1117, [45, 105, 110, 102, 105, 110, 105, 116, 121], .double, 18442240474082181120, .ok, 46, Fmt.general, 9⟩,
  ⟨1118, [105, 110, 102], .double, 9218868437227405312, .ok, 46, Fmt.general, 3⟩,
  ⟨1119, [45, 105, 110, 102], .double, 18442240474082181120, .ok, 46, Fmt.general, 4⟩,
  ⟨1120, [49, 50, 51, 52, 52, 53, 54, 55, 56, 57, 48, 49, 50, 51, 52, 53, 54, 55, 56, 57, 48, 49, 50, 51, 52, 53, 54, 55, 56, 57, 48, 101] ++ List.replicate 28 57, .double, 9218868437227405312, .outOfRange, 46, Fmt.general, 60⟩,
  ⟨1123, [45, 50, 49, 51, 57, 56, 55, 57, 52, 48, 49, 48, 57, 53, 52, 54, 54, 51, 52, 52, 53, 49, 49, 49, 48, 49, 57, 49, 53, 52, 55, 48, 52, 53, 52, 55, 52, 52, 46, 57, 56, 49, 51, 56, 56, 56, 54, 53, 54, 56, 53, 54, 57, 52, 51, 69, 43, 50, 55, 50], .double, 18442240474082181120, .outOfRange, 46, Fmt.general, 60⟩,
  ⟨1126, [49, 46, 56, 101, 51, 48, 56], .double, 9218868437227405312, .outOfRange, 46, Fmt.general, 7⟩,
  ⟨1128, [49, 46, 56, 51, 50, 51, 49, 50, 50, 49, 51, 50, 49, 51, 50, 49, 51, 50, 51, 50, 49, 51, 50, 49, 51, 50, 49, 52, 51, 52, 53, 49, 50, 51, 52, 52, 53, 51, 49, 50, 51, 52, 49, 50, 51, 50, 49, 51, 50, 49, 51, 49, 50, 101, 51, 48, 56], .double, 9218868437227405312, .outOfRange, 46, Fmt.general, 57⟩,
  ⟨1131, [50, 101, 51, 48, 48, 48, 48, 48, 48, 48, 48, 48, 48, 48, 48, 48, 48, 48, 48], .double, 9218868437227405312, .outOfRange, 46, Fmt.general, 19⟩,
  ⟨1133, [50, 101, 51, 48, 48, 48], .double, 9218868437227405312, .outOfRange, 46, Fmt.general, 6⟩,
  ⟨1135, [49, 46, 57, 101, 51, 48, 56], .double, 9218868437227405312, .outOfRange, 46, Fmt.general, 7⟩,
  ⟨1139, [49, 46, 55, 57, 55, 54, 57, 51, 49, 51, 52, 56, 54, 50, 51, 49, 53, 56, 49, 101, 51, 48, 56], .double, 9218868437227405312, .outOfRange, 46, Fmt.general, 23⟩,
  ⟨1143, [49, 46, 55, 57, 55, 54, 57, 51, 49, 51, 52, 56, 54, 50, 51, 49, 53, 57, 101, 51, 48, 56], .double, 9218868437227405312, .outOfRange, 46, Fmt.general, 22⟩,
  ⟨1157, [48, 46, 57, 53, 48, 48, 48, 48, 48, 48, 48, 48, 48, 48, 48, 48, 48, 48, 48, 48, 48, 48], .double, 4606732058837280358, .ok, 46, Fmt.general, 22⟩,
  ⟨1158, [50, 50, 50, 53, 48, 55, 51, 56, 53, 56, 53, 48, 55, 50, 48, 49, 50, 101, 45, 51, 50, 52], .double, 4503599627370496, .ok, 46, Fmt.general, 22⟩,
  ⟨1160, [45, 50, 50, 50, 53, 48, 55, 51, 56, 53, 56, 53, 48, 55, 50, 48, 49, 50, 101, 45, 51, 50, 52], .double, 9227875636482146304, .ok, 46, Fmt.general, 23⟩,
  ⟨1162, [45, 49, 101, 45, 57, 57, 57], .double, 9223372036854775808, .outOfRange, 46, Fmt.general, 7⟩,
  ⟨1165, [50, 46, 52, 55, 48, 51, 50, 56, 50, 50, 57, 50, 48, 54, 50, 51, 50, 55, 101, 45, 51, 50, 52], .double, 0, .outOfRange, 46, Fmt.general, 23⟩,
  ⟨1168, [50, 46, 52, 55, 48, 51, 50, 56, 50, 50, 57, 50, 48, 54, 50, 51, 50, 56, 101, 45, 51, 50, 52], .double, 1, .ok, 46, Fmt.general, 23⟩,
  ⟨1170, [48, 46, 50, 52, 55, 48, 51, 50, 56, 50, 50, 57, 50, 48, 54, 50, 51, 50, 55, 50, 48, 101, 45, 51, 50, 51], .double, 0, .outOfRange, 46, Fmt.general, 26⟩,
  ⟨1171, [48, 46, 50, 52, 55, 48, 51, 50, 56, 50, 50, 57, 50, 48, 54, 50, 51, 50, 55, 50, 49, 101, 45, 51, 50, 51], .double, 1, .ok, 46, Fmt.general, 26⟩,
  ⟨1173, [45, 50, 46, 50, 50, 50, 50, 50, 50, 50, 50, 50, 50, 50, 50, 51, 101, 45, 51, 50, 50], .double, 9223372036854775853, .ok, 46, Fmt.general, 21⟩,
  ⟨1174, [57, 48, 48, 55, 49, 57, 57, 50, 53, 52, 55, 52, 48, 57, 57, 51, 46, 48], .double, 4845873199050653696, .ok, 46, Fmt.general, 18⟩,
  ⟨1175, [56, 54, 48, 50, 50, 56, 49, 50, 50, 46, 54, 54, 53, 52, 53, 49, 52, 51, 49, 57, 69, 43, 57, 48], .double, 6086944415032570207, .ok, 46, Fmt.general, 24⟩,
  ⟨1177, [49, 48, 48, 48, 48, 48, 48, 48, 48, 48, 48, 48, 48, 48, 48, 48, 48, 48, 48, 48], .double, 4891288408196988160, .ok, 46, Fmt.general, 20⟩,
  ⟨1178, [49] ++ List.replicate 30 48 ++ [49, 48, 48, 48, 48, 48, 48, 48, 48, 48, 48, 48, 48], .double, 5250267901928720505, .ok, 46, Fmt.general, 44⟩,
  ⟨1180, [49] ++ List.replicate 42 48 ++ [49], .double, 5250267901928720505, .ok, 46, Fmt.general, 44⟩,
  ⟨1182, [49, 46, 49, 57, 50, 48, 57, 50, 56, 57, 53, 53, 48, 55, 56, 49, 50, 53, 101, 45, 48, 55], .double, 4503599627370496000, .ok, 46, Fmt.general, 22⟩,
  ⟨1196, [45, 48], .double, 9223372036854775808, .ok, 46, Fmt.general, 2⟩,
  ⟨1211, [49, 46, 48, 48, 48, 48, 48, 48, 48, 48, 48, 48, 48, 48, 48, 48, 48, 54, 54, 54, 49, 51, 51, 56, 49, 52, 55, 55, 53, 48, 57, 51, 57, 50, 52, 50, 53, 52, 49, 55, 57, 48, 48, 48, 56, 53, 52, 52, 57, 50, 49, 56, 55, 53], .double, 4607182418800017411, .ok, 46, Fmt.general, 54⟩,
  ⟨1213, [49, 48, 57, 48, 53, 52, 52, 49, 52, 52, 49, 56, 49, 54, 48, 57, 51, 52, 56, 56, 51, 53, 48, 55, 55, 49, 52, 50, 49, 57, 48], .double, 5056283964479065595, .ok, 46, Fmt.general, 31⟩,
  ⟨1214, [50, 46, 50, 50, 53, 48, 55, 51, 56, 53, 56, 53, 48, 55, 50, 48, 49, 51, 101, 45, 51, 48, 56], .double, 4503599627370496, .ok, 46, Fmt.general, 23⟩,
  ⟨1215, [45, 57, 50, 54, 54, 54, 53, 49, 56, 48, 53, 54, 52, 52, 54, 50, 48, 54, 53, 54, 51, 69, 51], .double, 14173847782598907213, .ok, 46, Fmt.general, 23⟩,
  ⟨1216, [45, 57, 50, 54, 54, 54, 53, 49, 56, 48, 53, 54, 52, 52, 54, 50, 48, 54, 53, 54, 51, 69, 51], .double, 14173847782598907213, .ok, 46, Fmt.general, 23⟩,
  ⟨1217, [45, 52, 50, 56, 50, 51, 49, 52, 54, 48, 50, 56, 51, 51, 53, 51, 49, 56, 54, 57, 51, 101, 45, 49, 50, 56], .double, 12209284349579549359, .ok, 46, Fmt.general, 26⟩,
  ⟨1218, [57, 48, 48, 53, 52, 54, 48, 50, 54, 51, 53, 57, 52, 56, 53, 55, 53, 55, 50, 56, 69, 55, 50], .double, 5982498519340857027, .ok, 46, Fmt.general, 23⟩]

example : floats1.all (FloatVec.check Cfg.x64 .char) = true := by decide +kernel
example : floats1.all (FloatVec.check small c32) = true := by decide +kernel
example : floats1.all (FloatVec.check compileTime c16) = true := by decide +kernel

def floats2 : List FloatVec := [
  ⟨1224, [48, 101] ++ List.replicate 28 57, .double, 0, .ok, 46, Fmt.general, 30⟩,
  ⟨1225, [45, 50, 52, 48, 50, 56, 52, 52, 51, 54, 56, 52, 53, 52, 52, 48, 53, 51, 57, 53, 46, 50], .double, 14105463488704160487, .ok, 46, Fmt.general, 22⟩,
  ⟨1226, [50, 52, 48, 50, 56, 52, 52, 51, 54, 56, 52, 53, 52, 52, 48, 53, 51, 57, 53, 46, 50], .double, 4882091451849384679, .ok, 46, Fmt.general, 21⟩,
  ⟨1227, [55, 46, 48, 52, 50, 48, 53, 53, 55, 48, 55, 55, 53, 57, 52, 53, 56, 56, 54, 54, 57, 52, 54, 56, 55, 56, 52, 51, 53, 55, 53, 54, 49, 50, 48, 55, 57, 54, 50, 48, 57, 56, 52, 52, 51, 52, 56, 51, 49, 56, 55, 57, 52, 48, 55, 57, 50, 55, 50, 57, 54, 48, 48, 48, 48, 48, 101, 43, 53, 57], .double, 5502285962871183634, .ok, 46, Fmt.general, 70⟩,
  ⟨1230, [55, 46, 48, 52, 50, 48, 53, 53, 55, 48, 55, 55, 53, 57, 52, 53, 56, 56, 54, 54, 57, 52, 54, 56, 55, 56, 52, 51, 53, 55, 53, 54, 49, 50, 48, 55, 57, 54, 50, 48, 57, 56, 52, 52, 51, 52, 56, 51, 49, 56, 55, 57, 52, 48, 55, 57, 50, 55, 50, 57, 54, 48, 48, 48, 48, 48, 101, 43, 53, 57], .double, 5502285962871183634, .ok, 46, Fmt.general, 70⟩,
  ⟨1233, [45, 49, 46, 55, 51, 51, 57, 50, 53, 51, 48, 54, 50, 48, 57, 50, 49, 54, 51, 55, 51, 48, 53, 55, 56, 54, 48, 57, 52, 53, 56, 54, 56, 51, 56, 55, 55, 48, 53, 49, 53, 57, 54, 56] ++ List.replicate 23 48 ++ [101, 43, 52, 50], .double, 14462157418690977065, .ok, 46, Fmt.general, 71⟩,
  ⟨1236, [45, 50, 46, 48, 57, 55, 50, 54, 50, 50, 50, 51, 52, 51, 56, 54, 54, 49, 57, 50, 49, 52, 53, 53, 57, 56, 50, 52, 55, 56, 53, 50, 56, 52, 48, 50, 51, 55, 57, 50, 56, 55, 49, 49, 50, 50, 53, 51, 55, 53, 52, 53, 55, 50, 56, 48, 48, 48, 48, 48, 48, 48, 48, 48, 48, 48, 48, 101, 43, 53, 50], .double, 14613062615229222967, .ok, 46, Fmt.general, 71⟩,
  ⟨1239, [45, 49, 46, 48, 48, 48, 49, 56, 48, 51, 51, 55, 52, 51, 55, 50, 49, 57, 49, 56, 52, 57, 52, 48, 55, 49, 55, 57, 52, 54, 50, 49, 50, 48, 48, 53, 51, 51, 51, 56, 48, 50, 56, 51, 55, 57, 48, 53, 49, 56, 55, 57, 56, 57, 56, 56, 48, 56, 51, 50, 48, 48, 48, 48, 48, 48, 48, 101, 43, 53, 55], .double, 14682971939196447345, .ok, 46, Fmt.general, 71⟩,
  ⟨1242, [45, 49, 46, 56, 54, 48, 55, 50, 52, 53, 50, 56, 51, 48, 53, 52, 51, 52, 50, 51, 54, 51, 56, 49, 56, 52, 51, 54, 57, 57, 49, 53, 51, 52, 56, 53, 54, 57, 55, 51, 57, 57, 50, 48, 55, 48, 53, 50, 48, 49, 53, 49, 49, 52, 50, 56, 50, 53, 57, 56, 52, 48, 48, 48, 48, 48, 48, 101, 43, 53, 56], .double, 14701920605995486015, .ok, 46, Fmt.general, 71⟩,
  ⟨1245, [45, 49, 46, 57, 49, 56, 57, 50, 48, 53, 51, 49, 49, 49, 51, 50, 54, 56, 54, 57, 48, 55, 50, 54, 52, 51, 56, 53, 54, 48, 50, 50, 52, 53, 50, 51, 55, 49, 51, 55, 57, 48, 55, 51, 57, 48, 51, 55, 54, 53, 55, 52, 57, 55, 54, 48, 48, 48, 48, 48, 48, 48, 48, 48, 48, 48, 48, 101, 43, 53, 50], .double, 14612391768343320291, .ok, 46, Fmt.general, 71⟩,
  ⟨1248, [45, 50, 46, 56, 49, 56, 52, 52, 56, 51, 50, 51, 49, 54, 56, 56, 57, 53, 49, 53, 54, 51, 50, 53, 51, 50, 51, 56, 56, 56, 54, 53, 53, 51, 53, 48, 54, 55, 57, 51, 48, 56, 53, 49, 56, 55, 56, 56, 57, 56, 53, 53, 50, 48, 49, 50, 56, 48, 48, 48, 48, 48, 48, 48, 48, 48, 48, 101, 43, 53, 52], .double, 14644981464159035963, .ok, 46, Fmt.general, 71⟩,
  ⟨1251, [45, 49, 46, 55, 54, 54, 52, 57, 54, 48, 50, 50, 52, 54, 53, 48, 49, 48, 54, 56, 57, 50, 48, 53, 52, 48, 54, 51, 50, 54, 49, 51, 52, 52, 53, 53, 53, 54, 52, 54, 51, 53, 55, 48, 50, 52, 51, 53, 57, 49, 48, 55, 55, 56, 56, 56, 48, 48, 48, 48, 48, 48, 48, 48, 48, 48, 48, 101, 43, 53, 51], .double, 14626990414825260659, .ok, 46, Fmt.general, 71⟩,
  ⟨1254, [45, 50, 46, 49, 52, 55, 48, 57, 55, 55, 49, 53, 52, 51, 50, 48, 53, 51, 54, 52, 56, 57, 52, 55, 49, 48, 51, 48, 52, 54, 51, 55, 54, 49, 56, 56, 51, 55, 56, 51, 57, 49, 53, 49, 49, 48, 52] ++ List.replicate 20 48 ++ [101, 43, 52, 53], .double, 14508365845922571905, .ok, 46, Fmt.general, 71⟩,
  ⟨1257, [45, 52, 46, 52, 57, 48, 48, 51, 49, 50, 55, 52, 52, 48, 48, 51, 49, 53, 57, 48, 48, 57, 51, 51, 56, 50, 55, 53, 49, 54, 48, 55, 57, 57, 52, 57, 56, 51, 52, 48, 56, 54, 50, 54, 51, 48, 48, 52, 54, 51, 53, 57, 55, 56, 57, 49, 54, 54, 57, 49, 57, 54, 56, 48, 48, 48, 48, 101, 43, 54, 49], .double, 14752650022422988359, .ok, 46, Fmt.general, 71⟩,
  ⟨1260, [49], .double, 4607182418800017408, .ok, 46, Fmt.general, 1⟩,
  ⟨1261, [49, 46, 55, 57, 55, 54, 57, 51, 49, 51, 52, 56, 54, 50, 51, 49, 53, 55, 48, 48, 48, 48, 48, 48, 48, 48, 48, 48, 48, 48, 48, 48, 48, 48, 49, 101, 51, 48, 56], .double, 9218868437227405311, .ok, 46, Fmt.general, 39⟩,
  ⟨1262, [51, 101, 45, 51, 50, 52], .double, 1, .ok, 46, Fmt.general, 6⟩,
  ⟨1263, [49, 46, 48, 48, 48, 48, 48, 48, 48, 54, 101, 43, 48, 57], .double, 4741671816869707776, .ok, 46, Fmt.general, 14⟩,
  ⟨1264, [52, 46, 57, 52, 48, 54, 53, 54, 52, 53, 56, 52, 49, 50, 52, 54, 53, 51, 101, 45, 51, 50, 52], .double, 1, .ok, 46, Fmt.general, 23⟩,
  ⟨1265, [52, 46, 57, 52, 48, 54, 53, 54, 52, 53, 56, 52, 49, 50, 52, 54, 53, 52, 101, 45, 51, 50, 52], .double, 1, .ok, 46, Fmt.general, 23⟩,
  ⟨1266, [50, 46, 50, 50, 53, 48, 55, 51, 56, 53, 56, 53, 48, 55, 50, 48, 48, 57, 101, 45, 51, 48, 56], .double, 4503599627370495, .ok, 46, Fmt.general, 23⟩,
  ⟨1267, [50, 46, 50, 50, 53, 48, 55, 51, 56, 53, 56, 53, 48, 55, 50, 48, 49, 52, 101, 45, 51, 48, 56], .double, 4503599627370496, .ok, 46, Fmt.general, 23⟩,
  ⟨1268, [48, 46, 50, 50, 50, 53, 48, 55, 51, 56, 53, 56, 53, 48, 55, 50, 48, 49, 49, 51, 54, 101, 45, 51, 48, 55], .double, 4503599627370495, .ok, 46, Fmt.general, 26⟩,
  ⟨1269, [48, 46, 50, 50, 50, 53, 48, 55, 51, 56, 53, 56, 53, 48, 55, 50, 48, 49, 49, 51, 55, 101, 45, 51, 48, 55], .double, 4503599627370496, .ok, 46, Fmt.general, 26⟩,
  ⟨1270, [49, 46, 55, 57, 55, 54, 57, 51, 49, 51, 52, 56, 54, 50, 51, 49, 53, 55, 101, 51, 48, 56], .double, 9218868437227405311, .ok, 46, Fmt.general, 22⟩,
  ⟨1271, [49, 46, 55, 57, 55, 54, 57, 51, 49, 51, 52, 56, 54, 50, 51, 49, 53, 56, 101, 51, 48, 56], .double, 9218868437227405311, .ok, 46, Fmt.general, 22⟩,
  ⟨1272, [49, 46, 55, 57, 55, 54, 57, 51, 49, 51, 52, 56, 54, 50, 51, 49, 53, 56, 48, 55, 57, 101, 51, 48, 56], .double, 9218868437227405311, .ok, 46, Fmt.general, 25⟩,
  ⟨1273, [49, 46, 55, 57, 55, 54, 57, 51, 49, 51, 52, 56, 54, 50, 51, 49, 53, 56, 48, 56, 48, 101, 51, 48, 56], .double, 9218868437227405312, .outOfRange, 46, Fmt.general, 25⟩,
  ⟨1275, [52, 53, 48, 51, 53, 57, 57, 54, 50, 55, 51, 55, 48, 52, 57, 54, 46, 53], .double, 4841369599423283200, .ok, 46, Fmt.general, 18⟩,
  ⟨1276, [52, 53, 48, 51, 53, 57, 57, 54, 50, 55, 52, 55, 53, 51, 53, 50, 46, 53], .double, 4841369599423388056, .ok, 46, Fmt.general, 18⟩,
  ⟨1277, [52, 53, 48, 51, 53, 57, 57, 54, 50, 55, 52, 55, 53, 51, 53, 51, 46, 53], .double, 4841369599423388058, .ok, 46, Fmt.general, 18⟩,
  ⟨1278, [50, 50, 53, 49, 55, 57, 57, 56, 49, 51, 54, 56, 53, 50, 52, 56, 46, 50, 53], .double, 4836865999795912704, .ok, 46, Fmt.general, 19⟩,
  ⟨1279, [49, 49, 50, 53, 56, 57, 57, 57, 48, 54, 56, 52, 50, 54, 50, 52, 46, 49, 50, 53], .double, 4832362400168542208, .ok, 46, Fmt.general, 20⟩,
  ⟨1280, [49, 49, 50, 53, 56, 57, 57, 57, 48, 54, 56, 52, 50, 57, 48, 49, 46, 56, 55, 53], .double, 4832362400168543320, .ok, 46, Fmt.general, 20⟩,
  ⟨1281, [50, 50, 53, 49, 55, 57, 57, 56, 49, 51, 54, 56, 53, 56, 48, 51, 46, 55, 53], .double, 4836865999795913816, .ok, 46, Fmt.general, 19⟩,
  ⟨1282, [52, 53, 48, 51, 53, 57, 57, 54, 50, 55, 51, 55, 48, 52, 57, 55, 46, 53], .double, 4841369599423283202, .ok, 46, Fmt.general, 18⟩,
  ⟨1283, [52, 53, 48, 51, 53, 57, 57, 54, 46, 50, 55, 51, 55, 48, 52, 57, 57, 53], .double, 4721313438954982463, .ok, 46, Fmt.general, 18⟩,
  ⟨1284, [52, 53, 48, 51, 53, 57, 57, 54, 46, 50, 55, 51, 55, 48, 52, 57, 56, 53], .double, 4721313438954982461, .ok, 46, Fmt.general, 18⟩,
  ⟨1351, [45, 50, 50, 52, 48, 48, 56, 52, 49, 51, 50, 50, 55, 49, 48, 49, 51, 53, 48, 52, 46, 49, 51, 49, 50, 52, 56, 50, 56, 48, 56, 52, 51, 49, 49, 57, 57, 52, 51, 54, 56, 55, 57, 52, 50, 56, 52, 54, 54, 53, 56, 53, 55, 57, 52, 50, 56], .double, 14105017162311336127, .ok, 46, Fmt.general, 57⟩,
  ⟨1372, [49, 44, 56, 101, 51, 48, 56], .double, 9218868437227405312, .outOfRange, 44, Fmt.general, 7⟩]

example : floats2.all (FloatVec.check Cfg.x64 .char) = true := by decide +kernel
example : floats2.all (FloatVec.check small c32) = true := by decide +kernel
example : floats2.all (FloatVec.check compileTime c16) = true := by decide +kernel

def floats3 : List FloatVec := [
  ⟨1374, [49, 44, 56, 51, 50, 51, 49, 50, 50, 49, 51, 50, 49, 51, 50, 49, 51, 50, 51, 50, 49, 51, 50, 49, 51, 50, 49, 52, 51, 52, 53, 49, 50, 51, 52, 52, 53, 51, 49, 50, 51, 52, 49, 50, 51, 50, 49, 51, 50, 49, 51, 49, 50, 101, 51, 48, 56], .double, 9218868437227405312, .outOfRange, 44, Fmt.general, 57⟩,
  ⟨1377, [50, 101, 51, 48, 48, 48, 48, 48, 48, 48, 48, 48, 48, 48, 48, 48, 48, 48, 48], .double, 9218868437227405312, .outOfRange, 44, Fmt.general, 19⟩,
  ⟨1379, [50, 101, 51, 48, 48, 48], .double, 9218868437227405312, .outOfRange, 44, Fmt.general, 6⟩,
  ⟨1381, [49, 44, 57, 101, 51, 48, 56], .double, 9218868437227405312, .outOfRange, 44, Fmt.general, 7⟩,
  ⟨1385, [45, 50, 44, 50, 50, 50, 50, 50, 50, 50, 50, 50, 50, 50, 50, 51, 101, 45, 51, 50, 50], .double, 9223372036854775853, .ok, 44, Fmt.general, 21⟩,
  ⟨1386, [57, 48, 48, 55, 49, 57, 57, 50, 53, 52, 55, 52, 48, 57, 57, 51, 44, 48], .double, 4845873199050653696, .ok, 44, Fmt.general, 18⟩,
  ⟨1387, [56, 54, 48, 50, 50, 56, 49, 50, 50, 44, 54, 54, 53, 52, 53, 49, 52, 51, 49, 57, 69, 43, 57, 48], .double, 6086944415032570207, .ok, 44, Fmt.general, 24⟩,
  ⟨1389, [49, 44, 49, 57, 50, 48, 57, 50, 56, 57, 53, 53, 48, 55, 56, 49, 50, 53, 101, 45, 48, 55], .double, 4503599627370496000, .ok, 44, Fmt.general, 22⟩,
  ⟨1418, [49, 44, 48, 48, 48, 48, 48, 48, 48, 48, 48, 48, 48, 48, 48, 48, 48, 54, 54, 54, 49, 51, 51, 56, 49, 52, 55, 55, 53, 48, 57, 51, 57, 50, 52, 50, 53, 52, 49, 55, 57, 48, 48, 48, 56, 53, 52, 52, 57, 50, 49, 56, 55, 53], .double, 4607182418800017411, .ok, 44, Fmt.general, 54⟩,
  ⟨1420, [50, 44, 50, 50, 53, 48, 55, 51, 56, 53, 56, 53, 48, 55, 50, 48, 49, 51, 101, 45, 51, 48, 56], .double, 4503599627370496, .ok, 44, Fmt.general, 23⟩,
  ⟨1426, [45, 50, 52, 48, 50, 56, 52, 52, 51, 54, 56, 52, 53, 52, 52, 48, 53, 51, 57, 53, 44, 50], .double, 14105463488704160487, .ok, 44, Fmt.general, 22⟩,
  ⟨1427, [50, 52, 48, 50, 56, 52, 52, 51, 54, 56, 52, 53, 52, 52, 48, 53, 51, 57, 53, 44, 50], .double, 4882091451849384679, .ok, 44, Fmt.general, 21⟩,
  ⟨1428, [55, 44, 48, 52, 50, 48, 53, 53, 55, 48, 55, 55, 53, 57, 52, 53, 56, 56, 54, 54, 57, 52, 54, 56, 55, 56, 52, 51, 53, 55, 53, 54, 49, 50, 48, 55, 57, 54, 50, 48, 57, 56, 52, 52, 51, 52, 56, 51, 49, 56, 55, 57, 52, 48, 55, 57, 50, 55, 50, 57, 54, 48, 48, 48, 48, 48, 101, 43, 53, 57], .double, 5502285962871183634, .ok, 44, Fmt.general, 70⟩,
  ⟨1431, [55, 44, 48, 52, 50, 48, 53, 53, 55, 48, 55, 55, 53, 57, 52, 53, 56, 56, 54, 54, 57, 52, 54, 56, 55, 56, 52, 51, 53, 55, 53, 54, 49, 50, 48, 55, 57, 54, 50, 48, 57, 56, 52, 52, 51, 52, 56, 51, 49, 56, 55, 57, 52, 48, 55, 57, 50, 55, 50, 57, 54, 48, 48, 48, 48, 48, 101, 43, 53, 57], .double, 5502285962871183634, .ok, 44, Fmt.general, 70⟩,
  ⟨1434, [45, 49, 44, 55, 51, 51, 57, 50, 53, 51, 48, 54, 50, 48, 57, 50, 49, 54, 51, 55, 51, 48, 53, 55, 56, 54, 48, 57, 52, 53, 56, 54, 56, 51, 56, 55, 55, 48, 53, 49, 53, 57, 54, 56] ++ List.replicate 23 48 ++ [101, 43, 52, 50], .double, 14462157418690977065, .ok, 44, Fmt.general, 71⟩,
  ⟨1437, [45, 50, 44, 48, 57, 55, 50, 54, 50, 50, 50, 51, 52, 51, 56, 54, 54, 49, 57, 50, 49, 52, 53, 53, 57, 56, 50, 52, 55, 56, 53, 50, 56, 52, 48, 50, 51, 55, 57, 50, 56, 55, 49, 49, 50, 50, 53, 51, 55, 53, 52, 53, 55, 50, 56, 48, 48, 48, 48, 48, 48, 48, 48, 48, 48, 48, 48, 101, 43, 53, 50], .double, 14613062615229222967, .ok, 44, Fmt.general, 71⟩,
  ⟨1440, [45, 49, 44, 48, 48, 48, 49, 56, 48, 51, 51, 55, 52, 51, 55, 50, 49, 57, 49, 56, 52, 57, 52, 48, 55, 49, 55, 57, 52, 54, 50, 49, 50, 48, 48, 53, 51, 51, 51, 56, 48, 50, 56, 51, 55, 57, 48, 53, 49, 56, 55, 57, 56, 57, 56, 56, 48, 56, 51, 50, 48, 48, 48, 48, 48, 48, 48, 101, 43, 53, 55], .double, 14682971939196447345, .ok, 44, Fmt.general, 71⟩,
  ⟨1443, [45, 49, 44, 56, 54, 48, 55, 50, 52, 53, 50, 56, 51, 48, 53, 52, 51, 52, 50, 51, 54, 51, 56, 49, 56, 52, 51, 54, 57, 57, 49, 53, 51, 52, 56, 53, 54, 57, 55, 51, 57, 57, 50, 48, 55, 48, 53, 50, 48, 49, 53, 49, 49, 52, 50, 56, 50, 53, 57, 56, 52, 48, 48, 48, 48, 48, 48, 101, 43, 53, 56], .double, 14701920605995486015, .ok, 44, Fmt.general, 71⟩,
  ⟨1446, [45, 49, 44, 57, 49, 56, 57, 50, 48, 53, 51, 49, 49, 49, 51, 50, 54, 56, 54, 57, 48, 55, 50, 54, 52, 51, 56, 53, 54, 48, 50, 50, 52, 53, 50, 51, 55, 49, 51, 55, 57, 48, 55, 51, 57, 48, 51, 55, 54, 53, 55, 52, 57, 55, 54, 48, 48, 48, 48, 48, 48, 48, 48, 48, 48, 48, 48, 101, 43, 53, 50], .double, 14612391768343320291, .ok, 44, Fmt.general, 71⟩,
  ⟨1449, [45, 50, 44, 56, 49, 56, 52, 52, 56, 51, 50, 51, 49, 54, 56, 56, 57, 53, 49, 53, 54, 51, 50, 53, 51, 50, 51, 56, 56, 56, 54, 53, 53, 51, 53, 48, 54, 55, 57, 51, 48, 56, 53, 49, 56, 55, 56, 56, 57, 56, 53, 53, 50, 48, 49, 50, 56, 48, 48, 48, 48, 48, 48, 48, 48, 48, 48, 101, 43, 53, 52], .double, 14644981464159035963, .ok, 44, Fmt.general, 71⟩,
  ⟨1452, [45, 49, 44, 55, 54, 54, 52, 57, 54, 48, 50, 50, 52, 54, 53, 48, 49, 48, 54, 56, 57, 50, 48, 53, 52, 48, 54, 51, 50, 54, 49, 51, 52, 52, 53, 53, 53, 54, 52, 54, 51, 53, 55, 48, 50, 52, 51, 53, 57, 49, 48, 55, 55, 56, 56, 56, 48, 48, 48, 48, 48, 48, 48, 48, 48, 48, 48, 101, 43, 53, 51], .double, 14626990414825260659, .ok, 44, Fmt.general, 71⟩,
  ⟨1455, [45, 50, 44, 49, 52, 55, 48, 57, 55, 55, 49, 53, 52, 51, 50, 48, 53, 51, 54, 52, 56, 57, 52, 55, 49, 48, 51, 48, 52, 54, 51, 55, 54, 49, 56, 56, 51, 55, 56, 51, 57, 49, 53, 49, 49, 48, 52] ++ List.replicate 20 48 ++ [101, 43, 52, 53], .double, 14508365845922571905, .ok, 44, Fmt.general, 71⟩,
  ⟨1458, [45, 52, 44, 52, 57, 48, 48, 51, 49, 50, 55, 52, 52, 48, 48, 51, 49, 53, 57, 48, 48, 57, 51, 51, 56, 50, 55, 53, 49, 54, 48, 55, 57, 57, 52, 57, 56, 51, 52, 48, 56, 54, 50, 54, 51, 48, 48, 52, 54, 51, 53, 57, 55, 56, 57, 49, 54, 54, 57, 49, 57, 54, 56, 48, 48, 48, 48, 101, 43, 54, 49], .double, 14752650022422988359, .ok, 44, Fmt.general, 71⟩,
  ⟨1461, [49], .double, 4607182418800017408, .ok, 44, Fmt.general, 1⟩,
  ⟨1462, [49, 44, 55, 57, 55, 54, 57, 51, 49, 51, 52, 56, 54, 50, 51, 49, 53, 55, 48, 48, 48, 48, 48, 48, 48, 48, 48, 48, 48, 48, 48, 48, 48, 48, 49, 101, 51, 48, 56], .double, 9218868437227405311, .ok, 44, Fmt.general, 39⟩,
  ⟨1464, [51, 101, 45, 51, 50, 52], .double, 1, .ok, 44, Fmt.general, 6⟩,
  ⟨1465, [49, 44, 48, 48, 48, 48, 48, 48, 48, 54, 101, 43, 48, 57], .double, 4741671816869707776, .ok, 44, Fmt.general, 14⟩,
  ⟨1466, [52, 44, 57, 52, 48, 54, 53, 54, 52, 53, 56, 52, 49, 50, 52, 54, 53, 51, 101, 45, 51, 50, 52], .double, 1, .ok, 44, Fmt.general, 23⟩,
  ⟨1467, [52, 44, 57, 52, 48, 54, 53, 54, 52, 53, 56, 52, 49, 50, 52, 54, 53, 52, 101, 45, 51, 50, 52], .double, 1, .ok, 44, Fmt.general, 23⟩,
  ⟨1468, [50, 44, 50, 50, 53, 48, 55, 51, 56, 53, 56, 53, 48, 55, 50, 48, 48, 57, 101, 45, 51, 48, 56], .double, 4503599627370495, .ok, 44, Fmt.general, 23⟩,
  ⟨1469, [50, 44, 50, 50, 53, 48, 55, 51, 56, 53, 56, 53, 48, 55, 50, 48, 49, 52, 101, 45, 51, 48, 56], .double, 4503599627370496, .ok, 44, Fmt.general, 23⟩,
  ⟨1470, [49, 44, 55, 57, 55, 54, 57, 51, 49, 51, 52, 56, 54, 50, 51, 49, 53, 55, 101, 51, 48, 56], .double, 9218868437227405311, .ok, 44, Fmt.general, 22⟩,
  ⟨1471, [49, 44, 55, 57, 55, 54, 57, 51, 49, 51, 52, 56, 54, 50, 51, 49, 53, 56, 101, 51, 48, 56], .double, 9218868437227405311, .ok, 44, Fmt.general, 22⟩,
  ⟨1472, [52, 53, 48, 51, 53, 57, 57, 54, 50, 55, 51, 55, 48, 52, 57, 54, 44, 53], .double, 4841369599423283200, .ok, 44, Fmt.general, 18⟩,
  ⟨1473, [52, 53, 48, 51, 53, 57, 57, 54, 50, 55, 52, 55, 53, 51, 53, 50, 44, 53], .double, 4841369599423388056, .ok, 44, Fmt.general, 18⟩,
  ⟨1474, [52, 53, 48, 51, 53, 57, 57, 54, 50, 55, 52, 55, 53, 51, 53, 51, 44, 53], .double, 4841369599423388058, .ok, 44, Fmt.general, 18⟩,
  ⟨1475, [50, 50, 53, 49, 55, 57, 57, 56, 49, 51, 54, 56, 53, 50, 52, 56, 44, 50, 53], .double, 4836865999795912704, .ok, 44, Fmt.general, 19⟩,
  ⟨1476, [49, 49, 50, 53, 56, 57, 57, 57, 48, 54, 56, 52, 50, 54, 50, 52, 44, 49, 50, 53], .double, 4832362400168542208, .ok, 44, Fmt.general, 20⟩,
  ⟨1477, [49, 49, 50, 53, 56, 57, 57, 57, 48, 54, 56, 52, 50, 57, 48, 49, 44, 56, 55, 53], .double, 4832362400168543320, .ok, 44, Fmt.general, 20⟩,
  ⟨1478, [50, 50, 53, 49, 55, 57, 57, 56, 49, 51, 54, 56, 53, 56, 48, 51, 44, 55, 53], .double, 4836865999795913816, .ok, 44, Fmt.general, 19⟩]

example : floats3.all (FloatVec.check Cfg.x64 .char) = true := by decide +kernel
example : floats3.all (FloatVec.check small c32) = true := by decide +kernel
example : floats3.all (FloatVec.check compileTime c16) = true := by decide +kernel

def floats4 : List FloatVec := [
  ⟨1479, [52, 53, 48, 51, 53, 57, 57, 54, 50, 55, 51, 55, 48, 52, 57, 55, 44, 53], .double, 4841369599423283202, .ok, 44, Fmt.general, 18⟩,
  ⟨1480, [52, 53, 48, 51, 53, 57, 57, 54, 44, 50, 55, 51, 55, 48, 52, 57, 57, 53], .double, 4721313438954982463, .ok, 44, Fmt.general, 18⟩,
  ⟨1481, [52, 53, 48, 51, 53, 57, 57, 54, 44, 50, 55, 51, 55, 48, 52, 57, 56, 53], .double, 4721313438954982461, .ok, 44, Fmt.general, 18⟩,
  ⟨1521, [73, 78, 70], .float, 2139095040, .ok, 46, Fmt.general, 3⟩,
  ⟨1522, [45, 73, 78, 70], .float, 4286578688, .ok, 46, Fmt.general, 4⟩,
  ⟨1523, [73, 78, 70, 73, 78, 73, 84, 89], .float, 2139095040, .ok, 46, Fmt.general, 8⟩,
  ⟨1524, [45, 73, 78, 70, 73, 78, 73, 84, 89], .float, 4286578688, .ok, 46, Fmt.general, 9⟩,
  ⟨1525, [105, 110, 102, 105, 110, 105, 116, 121], .float, 2139095040, .ok, 46, Fmt.general, 8⟩,
  ⟨1526, [45, 105, 110, 102, 105, 110, 105, 116, 121], .float, 4286578688, .ok, 46, Fmt.general, 9⟩,
  ⟨1527, [105, 110, 102], .float, 2139095040, .ok, 46, Fmt.general, 3⟩,
  ⟨1528, [45, 105, 110, 102], .float, 4286578688, .ok, 46, Fmt.general, 4⟩,
  ⟨1529, [49, 50, 51, 52, 52, 53, 54, 55, 56, 57, 48, 49, 50, 51, 52, 53, 54, 55, 56, 57, 48, 49, 50, 51, 52, 53, 54, 55, 56, 57, 48, 101] ++ List.replicate 28 57, .float, 2139095040, .outOfRange, 46, Fmt.general, 60⟩,
  ⟨1532, [50, 101, 51, 48, 48, 48], .float, 2139095040, .outOfRange, 46, Fmt.general, 6⟩,
  ⟨1534, [51, 46, 53, 48, 50, 56, 50, 51, 52, 54, 54, 54, 101, 51, 56], .float, 2139095040, .outOfRange, 46, Fmt.general, 15⟩,
  ⟨1537, [51, 46, 52, 48, 50, 56, 50, 51, 53, 55, 101, 51, 56], .float, 2139095040, .outOfRange, 46, Fmt.general, 13⟩,
  ⟨1540, [51, 46, 52, 48, 50, 56, 50, 51, 54, 101, 51, 56], .float, 2139095040, .outOfRange, 46, Fmt.general, 12⟩,
  ⟨1544, [51, 52, 48, 50, 56, 50, 51, 53, 54, 55, 55, 57, 55, 51, 51, 54, 54, 49, 54, 51, 55, 53, 51, 57, 51, 57, 53, 52, 53, 56, 49, 52, 50, 53, 54, 56, 52, 52, 56], .float, 2139095040, .outOfRange, 46, Fmt.general, 39⟩,
  ⟨1551, [48, 46, 55, 48, 48, 54, 52, 57, 50, 101, 45, 52, 53], .float, 0, .outOfRange, 46, Fmt.general, 13⟩,
  ⟨1553, [48, 46, 55, 48, 48, 54, 52, 57, 51, 101, 45, 52, 53], .float, 1, .ok, 46, Fmt.general, 13⟩,
  ⟨1554, [48, 46, 55, 48, 48, 54, 52, 57, 50, 51, 50, 49, 54, 50, 52, 48, 56, 53, 51, 53, 52, 101, 45, 52, 53], .float, 0, .outOfRange, 46, Fmt.general, 25⟩,
  ⟨1555, [48, 46, 55, 48, 48, 54, 52, 57, 50, 51, 50, 49, 54, 50, 52, 48, 56, 53, 51, 53, 53, 101, 45, 52, 53], .float, 1, .ok, 46, Fmt.general, 25⟩,
  ⟨1558, [51, 52, 48, 50, 56, 50, 51, 52, 54, 54, 51, 56, 53, 50, 56, 56, 53, 57, 56, 49, 49, 55, 48, 52, 49, 56, 51, 52, 56, 52, 53, 49, 54, 57, 50, 53, 52, 52, 48], .float, 2139095039, .ok, 46, Fmt.general, 39⟩,
  ⟨1560, [45, 51, 52, 48, 50, 56, 50, 51, 52, 54, 54, 51, 56, 53, 50, 56, 56, 53, 57, 56, 49, 49, 55, 48, 52, 49, 56, 51, 52, 56, 52, 53, 49, 54, 57, 50, 53, 52, 52, 48], .float, 4286578687, .ok, 46, Fmt.general, 40⟩,
  ⟨1564, [51, 52, 48, 50, 56, 50, 51, 53, 54, 55, 55, 57, 55, 51, 51, 54, 54, 49, 54, 51, 55, 53, 51, 57, 51, 57, 53, 52, 53, 56, 49, 52, 50, 53, 54, 56, 52, 52, 55], .float, 2139095039, .ok, 46, Fmt.general, 39⟩,
  ⟨1566, [48, 46, 51, 52, 48, 50, 56, 50, 51, 53, 54, 55, 55, 57, 55, 51, 51, 54, 54, 49, 54, 101, 51, 57], .float, 2139095039, .ok, 46, Fmt.general, 24⟩,
  ⟨1567, [48, 46, 51, 52, 48, 50, 56, 50, 51, 53, 54, 55, 55, 57, 55, 51, 51, 54, 54, 49, 55, 101, 51, 57], .float, 2139095040, .outOfRange, 46, Fmt.general, 24⟩,
  ⟨1570, [45, 49, 101, 45, 57, 57, 57], .float, 2147483648, .outOfRange, 46, Fmt.general, 7⟩,
  ⟨1579, [49, 46, 49, 55, 53, 52, 57, 52, 50, 56, 48, 55, 53, 55, 51, 54, 52, 50, 57, 49, 55, 101, 45, 51, 56], .float, 8388607, .ok, 46, Fmt.general, 25⟩,
  ⟨1580, [49, 46, 49, 55, 53, 52, 57, 52, 50, 56, 48, 55, 53, 55, 51, 54, 52, 50, 57, 49, 56, 101, 45, 51, 56], .float, 8388608, .ok, 46, Fmt.general, 25⟩,
  ⟨1625, [45, 48], .float, 2147483648, .ok, 46, Fmt.general, 2⟩,
  ⟨1626, [49, 48, 57, 48, 53, 52, 52, 49, 52, 52, 49, 56, 49, 54, 48, 57, 51, 52, 56, 56, 51, 53, 48, 55, 55, 49, 52, 50, 49, 57, 48], .float, 1901870032, .ok, 46, Fmt.general, 31⟩,
  ⟨1627, [49, 46, 49, 55, 53, 52, 57, 52, 51, 53, 48, 56, 101, 45, 51, 56], .float, 8388608, .ok, 46, Fmt.general, 16⟩,
  ⟨1628, [51, 48, 50, 49, 57, 46, 48, 56, 51, 48, 48, 55, 56, 49, 50, 53], .float, 1189877290, .ok, 46, Fmt.general, 16⟩,
  ⟨1629, [49, 54, 50, 53, 50, 57, 50, 49, 46, 53], .float, 1266155514, .ok, 46, Fmt.general, 10⟩,
  ⟨1630, [53, 51, 50, 50, 53, 49, 57, 46, 50, 53], .float, 1252159022, .ok, 46, Fmt.general, 10⟩,
  ⟨1631, [51, 57, 48, 48, 50, 52, 53, 46, 56, 55, 53], .float, 1248726360, .ok, 46, Fmt.general, 11⟩,
  ⟨1632, [49, 53, 49, 48, 57, 56, 56, 46, 51, 49, 50, 53], .float, 1236824674, .ok, 46, Fmt.general, 12⟩,
  ⟨1633, [55, 56, 50, 50, 54, 50, 46, 50, 56, 49, 50, 53], .float, 1228864356, .ok, 46, Fmt.general, 12⟩,
  ⟨1634, [51, 50, 56, 51, 56, 49, 46, 52, 56, 52, 51, 55, 53], .float, 1218467760, .ok, 46, Fmt.general, 13⟩,
  ⟨1635, [49, 53, 54, 55, 56, 50, 46, 48, 55, 48, 51, 49, 50, 53], .float, 1209604996, .ok, 46, Fmt.general, 14⟩]

example : floats4.all (FloatVec.check Cfg.x64 .char) = true := by decide +kernel
example : floats4.all (FloatVec.check small c32) = true := by decide +kernel
example : floats4.all (FloatVec.check compileTime c16) = true := by decide +kernel

def floats5 : List FloatVec := [
  ⟨1636, [56, 53, 48, 48, 51, 46, 50, 52, 54, 48, 57, 51, 55, 53], .float, 1202062752, .ok, 46, Fmt.general, 14⟩,
  ⟨1637, [49, 55, 52, 49, 57, 46, 54, 52, 57, 52, 49, 52, 48, 54, 50, 53], .float, 1183323980, .ok, 46, Fmt.general, 16⟩,
  ⟨1638, [49, 53, 52, 57, 56, 46, 51, 54, 51, 55, 54, 57, 53, 51, 49, 50, 53], .float, 1181886836, .ok, 46, Fmt.general, 17⟩,
  ⟨1639, [54, 51, 49, 56, 46, 53, 56, 48, 51, 50, 50, 50, 54, 53, 54, 50, 53], .float, 1170568356, .ok, 46, Fmt.general, 17⟩,
  ⟨1640, [50, 53, 50, 53, 46, 50, 56, 52, 48, 53, 55, 54, 49, 55, 49, 56, 55, 53], .float, 1159582860, .ok, 46, Fmt.general, 18⟩,
  ⟨1641, [49, 51, 55, 48, 46, 57, 50, 54, 53, 55, 52, 55, 48, 55, 48, 51, 49, 50], .float, 1152081318, .ok, 46, Fmt.general, 18⟩,
  ⟨1642, [57, 51, 54, 46, 51, 55, 48, 50, 48, 56, 55, 52, 48, 50, 51, 52, 52], .float, 1147803570, .ok, 46, Fmt.general, 17⟩,
  ⟨1643, [52, 49, 49, 46, 56, 56, 54, 56, 50, 53, 53, 54, 49, 53, 50, 51, 52, 52], .float, 1137570180, .ok, 46, Fmt.general, 18⟩,
  ⟨1644, [50, 48, 54, 46, 53, 48, 51, 49, 48, 53, 49, 54, 51, 53, 55, 52, 50, 50], .float, 1129218252, .ok, 46, Fmt.general, 18⟩,
  ⟨1645, [49, 50, 52, 46, 49, 54, 56, 55, 56, 56, 57, 48, 57, 57, 49, 50, 49, 49], .float, 1123571308, .ok, 46, Fmt.general, 18⟩,
  ⟨1646, [53, 48, 46, 56, 49, 49, 53, 55, 52, 57, 51, 53, 57, 49, 51, 48, 56, 54], .float, 1112227598, .ok, 46, Fmt.general, 18⟩,
  ⟨1647, [49, 55, 46, 52, 56, 54, 52, 52, 51, 53, 49, 57, 53, 57, 50, 50, 56, 53], .float, 1099686972, .ok, 46, Fmt.general, 18⟩,
  ⟨1648, [49, 51, 46, 57, 49, 55, 52, 53, 49, 51, 56, 49, 54, 56, 51, 51, 53], .float, 1096723938, .ok, 46, Fmt.general, 17⟩,
  ⟨1649, [55, 46, 53, 52, 54, 52, 53, 49, 51, 51, 48, 49, 56, 52, 57, 51, 54, 53], .float, 1089567879, .ok, 46, Fmt.general, 18⟩,
  ⟨1650, [50, 46, 54, 56, 55, 50, 49, 55, 49, 49, 54, 51, 53, 53, 56, 57, 54], .float, 1076624222, .ok, 46, Fmt.general, 17⟩,
  ⟨1651, [49, 46, 49, 56, 55, 55, 54, 51, 48, 51, 53, 50, 57, 55, 51, 57, 51, 56], .float, 1066928287, .ok, 46, Fmt.general, 18⟩,
  ⟨1652, [48, 46, 55, 54, 50, 50, 53, 48, 51, 51, 52, 48, 50, 52, 52, 50, 57, 51], .float, 1061364438, .ok, 46, Fmt.general, 18⟩,
  ⟨1653, [48, 46, 51, 48, 53, 51, 49, 55, 56, 48, 52, 50, 49, 55, 51, 51, 56, 53, 54], .float, 1050432157, .ok, 46, Fmt.general, 19⟩,
  ⟨1654, [48, 46, 50, 49, 55, 57, 49, 48, 54, 49, 48, 49, 51, 57, 51, 54, 57, 57, 54], .float, 1046422517, .ok, 46, Fmt.general, 19⟩,
  ⟨1655, [48, 46, 48, 57, 50, 56, 57, 51, 55, 54, 56, 49, 48, 49, 57, 51, 48, 54, 50], .float, 1035878167, .ok, 46, Fmt.general, 19⟩,
  ⟨1656, [48, 46, 48, 51, 55, 48, 54, 48, 54, 55, 54, 49, 52, 50, 53, 55, 51, 51, 54], .float, 1024969968, .ok, 46, Fmt.general, 19⟩,
  ⟨1657, [48, 46, 48, 50, 56, 48, 54, 56, 51, 53, 49, 53, 53, 57, 51, 52, 48, 57, 53, 52], .float, 1021702042, .ok, 46, Fmt.general, 20⟩,
  ⟨1658, [48, 46, 48, 49, 50, 49, 49, 52, 54, 50, 57, 54, 49, 53, 48, 57, 56, 50, 51, 56], .float, 1011252337, .ok, 46, Fmt.general, 20⟩,
  ⟨1659, [48, 46, 48, 48, 52, 50, 50, 49, 51, 55, 48, 54, 55, 54, 53, 51, 50, 51, 56, 56], .float, 998921069, .ok, 46, Fmt.general, 20⟩,
  ⟨1660, [48, 46, 48, 48, 50, 49, 53, 51, 56, 49, 55, 52, 52, 55, 56, 51, 51, 55, 49, 55], .float, 990717712, .ok, 46, Fmt.general, 20⟩,
  ⟨1661, [48, 46, 48, 48, 49, 53, 57, 50, 52, 56, 51, 56, 57, 53, 51, 54, 53, 49, 52, 56, 56], .float, 986757861, .ok, 46, Fmt.general, 21⟩,
  ⟨1662, [48, 46, 48, 48, 48, 56, 54, 48, 50, 51, 56, 56, 50, 54, 49, 51, 53, 49, 55, 51, 52], .float, 979468710, .ok, 46, Fmt.general, 21⟩,
  ⟨1663, [48, 46, 48, 48, 48, 51, 54, 51, 57, 51, 50, 57, 51, 55, 48, 51, 52, 52, 48, 53, 55, 55], .float, 968805953, .ok, 46, Fmt.general, 22⟩,
  ⟨1664, [48, 46, 48, 48, 48, 49, 51, 55, 52, 54, 55, 55, 48, 49, 50, 55, 57, 48, 57, 50, 53, 56], .float, 957359412, .ok, 46, Fmt.general, 22⟩,
  ⟨1665, [49, 54, 52, 48, 55, 46, 57, 52, 54, 50, 56, 57, 48, 54, 50, 53], .float, 1182805988, .ok, 46, Fmt.general, 16⟩,
  ⟨1666, [49, 46, 49, 55, 53, 52, 57, 52, 55, 48, 49, 49, 52, 54, 57, 48, 51, 54, 101, 45, 51, 56], .float, 8388611, .ok, 46, Fmt.general, 22⟩,
  ⟨1667, [55, 46, 48, 48, 54, 52, 57, 50, 51, 50, 49, 54, 50, 52, 48, 56, 53, 52, 101, 45, 52, 54], .float, 1, .ok, 46, Fmt.general, 22⟩,
  ⟨1668, [56, 51, 56, 56, 54, 49, 52, 46, 53], .float, 1258291206, .ok, 46, Fmt.general, 9⟩,
  ⟨1669, [48, 101] ++ List.replicate 28 57, .float, 0, .ok, 46, Fmt.general, 30⟩,
  ⟨1670, [52, 46, 55, 48, 49, 57, 55, 55, 52, 48, 51, 50, 56, 57, 49, 53, 48, 48, 51, 49, 56, 55, 52, 57, 52, 54, 49, 52, 56, 56, 56, 56, 57, 56, 50, 55, 49, 49, 50, 55, 52, 54, 54, 50, 50, 50, 55, 48, 56, 56, 51, 53, 48, 48, 56, 54, 48, 51, 53, 48, 48, 54, 56, 50, 53, 49, 101, 45, 51, 56], .float, 25165824, .ok, 46, Fmt.general, 70⟩,
  ⟨1678, [50, 46, 51, 53, 48, 57, 56, 56, 55, 48, 49, 54, 52, 52, 53, 55, 53, 48, 49, 53, 57, 51, 55, 52, 55, 51, 48, 55, 52, 52, 52, 52, 52, 57, 49, 51, 53, 53, 54, 51, 55, 51, 51, 49, 49, 49, 51, 53, 52, 52, 49, 55, 53, 48, 52, 51, 48, 49, 55, 53, 48, 51, 52, 49, 50, 54, 101, 45, 51, 56], .float, 16777216, .ok, 46, Fmt.general, 70⟩,
  ⟨1681, [49], .float, 1065353216, .ok, 46, Fmt.general, 1⟩,
  ⟨1682, [55, 46, 48, 48, 54, 48, 101, 45, 52, 54], .float, 0, .outOfRange, 46, Fmt.general, 10⟩,
  ⟨1683, [51, 46, 52, 48, 50, 56, 50, 51, 52, 54, 54, 52, 101, 51, 56], .float, 2139095039, .ok, 46, Fmt.general, 15⟩,
  ⟨1684, [51, 46, 52, 48, 50, 56, 50, 51, 52, 54, 54, 53, 101, 51, 56], .float, 2139095039, .ok, 46, Fmt.general, 15⟩]

example : floats5.all (FloatVec.check Cfg.x64 .char) = true := by decide +kernel
example : floats5.all (FloatVec.check small c32) = true := by decide +kernel
example : floats5.all (FloatVec.check compileTime c16) = true := by decide +kernel

def floats6 : List FloatVec := [
  ⟨1685, [51, 46, 52, 48, 50, 56, 50, 51, 52, 54, 54, 54, 101, 51, 56], .float, 2139095039, .ok, 46, Fmt.general, 15⟩,
  ⟨1719, [51, 44, 53, 48, 50, 56, 50, 51, 52, 54, 54, 54, 101, 51, 56], .float, 2139095040, .outOfRange, 44, Fmt.general, 15⟩,
  ⟨1771, [49, 44, 49, 55, 53, 52, 57, 52, 51, 53, 48, 56, 101, 45, 51, 56], .float, 8388608, .ok, 44, Fmt.general, 16⟩,
  ⟨1772, [51, 48, 50, 49, 57, 44, 48, 56, 51, 48, 48, 55, 56, 49, 50, 53], .float, 1189877290, .ok, 44, Fmt.general, 16⟩,
  ⟨1773, [49, 44, 49, 55, 53, 52, 57, 52, 55, 48, 49, 49, 52, 54, 57, 48, 51, 54, 101, 45, 51, 56], .float, 8388611, .ok, 44, Fmt.general, 22⟩,
  ⟨1774, [55, 44, 48, 48, 54, 52, 57, 50, 51, 50, 49, 54, 50, 52, 48, 56, 53, 52, 101, 45, 52, 54], .float, 1, .ok, 44, Fmt.general, 22⟩,
  ⟨1775, [56, 51, 56, 56, 54, 49, 52, 44, 53], .float, 1258291206, .ok, 44, Fmt.general, 9⟩,
  ⟨1776, [48, 101] ++ List.replicate 28 57, .float, 0, .ok, 44, Fmt.general, 30⟩,
  ⟨1777, [52, 44, 55, 48, 49, 57, 55, 55, 52, 48, 51, 50, 56, 57, 49, 53, 48, 48, 51, 49, 56, 55, 52, 57, 52, 54, 49, 52, 56, 56, 56, 56, 57, 56, 50, 55, 49, 49, 50, 55, 52, 54, 54, 50, 50, 50, 55, 48, 56, 56, 51, 53, 48, 48, 56, 54, 48, 51, 53, 48, 48, 54, 56, 50, 53, 49, 101, 45, 51, 56], .float, 25165824, .ok, 44, Fmt.general, 70⟩,
  ⟨1785, [50, 44, 51, 53, 48, 57, 56, 56, 55, 48, 49, 54, 52, 52, 53, 55, 53, 48, 49, 53, 57, 51, 55, 52, 55, 51, 48, 55, 52, 52, 52, 52, 52, 57, 49, 51, 53, 53, 54, 51, 55, 51, 51, 49, 49, 49, 51, 53, 52, 52, 49, 55, 53, 48, 52, 51, 48, 49, 55, 53, 48, 51, 52, 49, 50, 54, 101, 45, 51, 56], .float, 16777216, .ok, 44, Fmt.general, 70⟩,
  ⟨1788, [49], .float, 1065353216, .ok, 44, Fmt.general, 1⟩,
  ⟨1789, [55, 44, 48, 48, 54, 48, 101, 45, 52, 54], .float, 0, .outOfRange, 44, Fmt.general, 10⟩,
  ⟨1790, [51, 44, 52, 48, 50, 56, 50, 51, 52, 54, 54, 52, 101, 51, 56], .float, 2139095039, .ok, 44, Fmt.general, 15⟩,
  ⟨1791, [51, 44, 52, 48, 50, 56, 50, 51, 52, 54, 54, 53, 101, 51, 56], .float, 2139095039, .ok, 44, Fmt.general, 15⟩,
  ⟨1792, [51, 44, 52, 48, 50, 56, 50, 51, 52, 54, 54, 54, 101, 51, 56], .float, 2139095039, .ok, 44, Fmt.general, 15⟩,
  ⟨1820, [73, 78, 70], .float16, 31744, .ok, 46, Fmt.general, 3⟩,
  ⟨1821, [45, 73, 78, 70], .float16, 64512, .ok, 46, Fmt.general, 4⟩,
  ⟨1822, [73, 78, 70, 73, 78, 73, 84, 89], .float16, 31744, .ok, 46, Fmt.general, 8⟩,
  ⟨1823, [45, 73, 78, 70, 73, 78, 73, 84, 89], .float16, 64512, .ok, 46, Fmt.general, 9⟩,
  ⟨1824, [105, 110, 102, 105, 110, 105, 116, 121], .float16, 31744, .ok, 46, Fmt.general, 8⟩,
  ⟨1825, [45, 105, 110, 102, 105, 110, 105, 116, 121], .float16, 64512, .ok, 46, Fmt.general, 9⟩,
  ⟨1826, [105, 110, 102], .float16, 31744, .ok, 46, Fmt.general, 3⟩,
  ⟨1827, [45, 105, 110, 102], .float16, 64512, .ok, 46, Fmt.general, 4⟩,
  ⟨1828, [49, 50, 51, 52, 52, 53, 54, 55, 56, 57, 48, 49, 50, 51, 52, 53, 54, 55, 56, 57, 48, 49, 50, 51, 52, 53, 54, 55, 56, 57, 48, 101] ++ List.replicate 28 57, .float16, 31744, .outOfRange, 46, Fmt.general, 60⟩,
  ⟨1831, [50, 101, 51, 48, 48, 48], .float16, 31744, .outOfRange, 46, Fmt.general, 6⟩,
  ⟨1833, [51, 46, 53, 48, 50, 56, 50, 51, 52, 54, 54, 54, 101, 51, 56], .float16, 31744, .outOfRange, 46, Fmt.general, 15⟩,
  ⟨1839, [54, 53, 53, 48, 52], .float16, 31743, .ok, 46, Fmt.general, 5⟩,
  ⟨1841, [45, 54, 53, 53, 48, 52], .float16, 64511, .ok, 46, Fmt.general, 6⟩,
  ⟨1843, [48, 46, 48, 48, 48, 48, 54, 48, 57, 55, 53, 53, 53, 49, 54, 48, 53, 50, 50, 52, 54, 48, 57, 51, 55, 53], .float16, 1023, .ok, 46, Fmt.general, 26⟩,
  ⟨1844, [54, 46, 48, 57, 55, 53, 53, 53, 49, 54, 48, 53, 50, 50, 52, 54, 48, 57, 51, 55, 53, 101, 45, 53], .float16, 1023, .ok, 46, Fmt.general, 24⟩,
  ⟨1846, [48, 46, 48, 48, 48, 48, 48, 48, 48, 53, 57, 54, 48, 52, 54, 52, 52, 55, 55, 53, 51, 57, 48, 54, 50, 53], .float16, 1, .ok, 46, Fmt.general, 26⟩,
  ⟨1847, [53, 46, 57, 54, 48, 52, 54, 52, 52, 55, 55, 53, 51, 57, 48, 54, 50, 53, 101, 45, 56], .float16, 1, .ok, 46, Fmt.general, 21⟩,
  ⟨1849, [45, 48, 46, 48, 48, 48, 48, 54, 48, 57, 55, 53, 53, 53, 49, 54, 48, 53, 50, 50, 52, 54, 48, 57, 51, 55, 53], .float16, 33791, .ok, 46, Fmt.general, 27⟩,
  ⟨1850, [45, 54, 46, 48, 57, 55, 53, 53, 53, 49, 54, 48, 53, 50, 50, 52, 54, 48, 57, 51, 55, 53, 101, 45, 53], .float16, 33791, .ok, 46, Fmt.general, 25⟩,
  ⟨1852, [45, 48, 46, 48, 48, 48, 48, 48, 48, 48, 53, 57, 54, 48, 52, 54, 52, 52, 55, 55, 53, 51, 57, 48, 54, 50, 53], .float16, 32769, .ok, 46, Fmt.general, 27⟩,
  ⟨1853, [45, 53, 46, 57, 54, 48, 52, 54, 52, 52, 55, 55, 53, 51, 57, 48, 54, 50, 53, 101, 45, 56], .float16, 32769, .ok, 46, Fmt.general, 22⟩,
  ⟨1855, [45, 49, 101, 45, 57, 57, 57], .float16, 32768, .outOfRange, 46, Fmt.general, 7⟩,
  ⟨1856, [54, 46, 48, 57, 55, 53, 53, 53, 49, 54, 48, 53, 50, 50, 52, 54, 48, 57, 51, 55, 53], .float16, 17945, .ok, 46, Fmt.general, 21⟩,
  ⟨1869, [45, 48], .float16, 32768, .ok, 46, Fmt.general, 2⟩,
  ⟨1872, [51, 48, 50, 49, 57, 46, 48, 56, 51, 48, 48, 55, 56, 49, 50, 53], .float16, 30561, .ok, 46, Fmt.general, 16⟩]

example : floats6.all (FloatVec.check Cfg.x64 .char) = true := by decide +kernel
example : floats6.all (FloatVec.check small c32) = true := by decide +kernel
example : floats6.all (FloatVec.check compileTime c16) = true := by decide +kernel

def floats7 : List FloatVec := [
  ⟨1873, [49, 55, 52, 49, 57, 46, 54, 52, 57, 52, 49, 52, 48, 54, 50, 53], .float16, 29761, .ok, 46, Fmt.general, 16⟩,
  ⟨1874, [49, 53, 52, 57, 56, 46, 51, 54, 51, 55, 54, 57, 53, 51, 49, 50, 53], .float16, 29585, .ok, 46, Fmt.general, 17⟩,
  ⟨1875, [54, 51, 49, 56, 46, 53, 56, 48, 51, 50, 50, 50, 54, 53, 54, 50, 53], .float16, 28204, .ok, 46, Fmt.general, 17⟩,
  ⟨1876, [50, 53, 50, 53, 46, 50, 56, 52, 48, 53, 55, 54, 49, 55, 49, 56, 55, 53], .float16, 26863, .ok, 46, Fmt.general, 18⟩,
  ⟨1877, [49, 51, 55, 48, 46, 57, 50, 54, 53, 55, 52, 55, 48, 55, 48, 51, 49, 50], .float16, 25947, .ok, 46, Fmt.general, 18⟩,
  ⟨1878, [57, 51, 54, 46, 51, 55, 48, 50, 48, 56, 55, 52, 48, 50, 51, 52, 52], .float16, 25425, .ok, 46, Fmt.general, 17⟩,
  ⟨1879, [52, 49, 49, 46, 56, 56, 54, 56, 50, 53, 53, 54, 49, 53, 50, 51, 52, 52], .float16, 24176, .ok, 46, Fmt.general, 18⟩,
  ⟨1880, [50, 48, 54, 46, 53, 48, 51, 49, 48, 53, 49, 54, 51, 53, 55, 52, 50, 50], .float16, 23156, .ok, 46, Fmt.general, 18⟩,
  ⟨1881, [49, 50, 52, 46, 49, 54, 56, 55, 56, 56, 57, 48, 57, 57, 49, 50, 49, 49], .float16, 22467, .ok, 46, Fmt.general, 18⟩,
  ⟨1882, [53, 48, 46, 56, 49, 49, 53, 55, 52, 57, 51, 53, 57, 49, 51, 48, 56, 54], .float16, 21082, .ok, 46, Fmt.general, 18⟩,
  ⟨1883, [49, 55, 46, 52, 56, 54, 52, 52, 51, 53, 49, 57, 53, 57, 50, 50, 56, 53], .float16, 19551, .ok, 46, Fmt.general, 18⟩,
  ⟨1884, [49, 51, 46, 57, 49, 55, 52, 53, 49, 51, 56, 49, 54, 56, 51, 51, 53], .float16, 19189, .ok, 46, Fmt.general, 17⟩,
  ⟨1885, [55, 46, 53, 52, 54, 52, 53, 49, 51, 51, 48, 49, 56, 52, 57, 51, 54, 53], .float16, 18316, .ok, 46, Fmt.general, 18⟩,
  ⟨1886, [50, 46, 54, 56, 55, 50, 49, 55, 49, 49, 54, 51, 53, 53, 56, 57, 54], .float16, 16736, .ok, 46, Fmt.general, 17⟩,
  ⟨1887, [49, 46, 49, 56, 55, 55, 54, 51, 48, 51, 53, 50, 57, 55, 51, 57, 51, 56], .float16, 15552, .ok, 46, Fmt.general, 18⟩,
  ⟨1888, [48, 46, 55, 54, 50, 50, 53, 48, 51, 51, 52, 48, 50, 52, 52, 50, 57, 51], .float16, 14873, .ok, 46, Fmt.general, 18⟩,
  ⟨1889, [48, 46, 51, 48, 53, 51, 49, 55, 56, 48, 52, 50, 49, 55, 51, 51, 56, 53, 54], .float16, 13539, .ok, 46, Fmt.general, 19⟩,
  ⟨1890, [48, 46, 50, 49, 55, 57, 49, 48, 54, 49, 48, 49, 51, 57, 51, 54, 57, 57, 54], .float16, 13049, .ok, 46, Fmt.general, 19⟩,
  ⟨1891, [48, 46, 48, 57, 50, 56, 57, 51, 55, 54, 56, 49, 48, 49, 57, 51, 48, 54, 50], .float16, 11762, .ok, 46, Fmt.general, 19⟩,
  ⟨1892, [48, 46, 48, 51, 55, 48, 54, 48, 54, 55, 54, 49, 52, 50, 53, 55, 51, 51, 54], .float16, 10430, .ok, 46, Fmt.general, 19⟩,
  ⟨1893, [48, 46, 48, 50, 56, 48, 54, 56, 51, 53, 49, 53, 53, 57, 51, 52, 48, 57, 53, 52], .float16, 10031, .ok, 46, Fmt.general, 20⟩,
  ⟨1894, [48, 46, 48, 49, 50, 49, 49, 52, 54, 50, 57, 54, 49, 53, 48, 57, 56, 50, 51, 56], .float16, 8756, .ok, 46, Fmt.general, 20⟩,
  ⟨1895, [48, 46, 48, 48, 52, 50, 50, 49, 51, 55, 48, 54, 55, 54, 53, 51, 50, 51, 56, 56], .float16, 7251, .ok, 46, Fmt.general, 20⟩,
  ⟨1896, [48, 46, 48, 48, 50, 49, 53, 51, 56, 49, 55, 52, 52, 55, 56, 51, 51, 55, 49, 55], .float16, 6249, .ok, 46, Fmt.general, 20⟩,
  ⟨1897, [48, 46, 48, 48, 49, 53, 57, 50, 52, 56, 51, 56, 57, 53, 51, 54, 53, 49, 52, 56, 56], .float16, 5766, .ok, 46, Fmt.general, 21⟩,
  ⟨1898, [48, 46, 48, 48, 48, 56, 54, 48, 50, 51, 56, 56, 50, 54, 49, 51, 53, 49, 55, 51, 52], .float16, 4876, .ok, 46, Fmt.general, 21⟩,
  ⟨1899, [48, 46, 48, 48, 48, 51, 54, 51, 57, 51, 50, 57, 51, 55, 48, 51, 52, 52, 48, 53, 55, 55], .float16, 3574, .ok, 46, Fmt.general, 22⟩,
  ⟨1900, [48, 46, 48, 48, 48, 49, 51, 55, 52, 54, 55, 55, 48, 49, 50, 55, 57, 48, 57, 50, 53, 56], .float16, 2177, .ok, 46, Fmt.general, 22⟩,
  ⟨1901, [49, 54, 52, 48, 55, 46, 57, 52, 54, 50, 56, 57, 48, 54, 50, 53], .float16, 29697, .ok, 46, Fmt.general, 16⟩,
  ⟨1905, [48, 101] ++ List.replicate 28 57, .float16, 0, .ok, 46, Fmt.general, 30⟩,
  ⟨1917, [49], .float16, 15360, .ok, 46, Fmt.general, 1⟩,
  ⟨1950, [73, 78, 70], .bfloat16, 32640, .ok, 46, Fmt.general, 3⟩,
  ⟨1951, [45, 73, 78, 70], .bfloat16, 65408, .ok, 46, Fmt.general, 4⟩,
  ⟨1952, [73, 78, 70, 73, 78, 73, 84, 89], .bfloat16, 32640, .ok, 46, Fmt.general, 8⟩,
  ⟨1953, [45, 73, 78, 70, 73, 78, 73, 84, 89], .bfloat16, 65408, .ok, 46, Fmt.general, 9⟩,
  ⟨1954, [105, 110, 102, 105, 110, 105, 116, 121], .bfloat16, 32640, .ok, 46, Fmt.general, 8⟩,
  ⟨1955, [45, 105, 110, 102, 105, 110, 105, 116, 121], .bfloat16, 65408, .ok, 46, Fmt.general, 9⟩,
  ⟨1956, [105, 110, 102], .bfloat16, 32640, .ok, 46, Fmt.general, 3⟩,
  ⟨1957, [45, 105, 110, 102], .bfloat16, 65408, .ok, 46, Fmt.general, 4⟩,
  ⟨1958, [49, 50, 51, 52, 52, 53, 54, 55, 56, 57, 48, 49, 50, 51, 52, 53, 54, 55, 56, 57, 48, 49, 50, 51, 52, 53, 54, 55, 56, 57, 48, 101] ++ List.replicate 28 57, .bfloat16, 32640, .outOfRange, 46, Fmt.general, 60⟩]

example : floats7.all (FloatVec.check Cfg.x64 .char) = true := by decide +kernel
example : floats7.all (FloatVec.check small c32) = true := by decide +kernel
example : floats7.all (FloatVec.check compileTime c16) = true := by decide +kernel

def floats8 : List FloatVec := [
  ⟨1961, [50, 101, 51, 48, 48, 48], .bfloat16, 32640, .outOfRange, 46, Fmt.general, 6⟩,
  ⟨1963, [51, 46, 53, 48, 50, 56, 50, 51, 52, 54, 54, 54, 101, 51, 56], .bfloat16, 32640, .outOfRange, 46, Fmt.general, 15⟩,
  ⟨1969, [51, 51, 56, 57, 53, 51, 49, 51, 56, 57, 50, 53, 49, 53, 51, 53, 52, 55, 53, 57, 48, 52, 55, 48, 56, 48, 48, 51, 55, 49, 52, 56, 55, 56, 54, 54, 56, 56, 48], .bfloat16, 32639, .ok, 46, Fmt.general, 39⟩,
  ⟨1971, [45, 51, 51, 56, 57, 53, 51, 49, 51, 56, 57, 50, 53, 49, 53, 51, 53, 52, 55, 53, 57, 48, 52, 55, 48, 56, 48, 48, 51, 55, 49, 52, 56, 55, 56, 54, 54, 56, 56, 48], .bfloat16, 65407, .ok, 46, Fmt.general, 40⟩,
  ⟨1978, [49, 46, 49, 55, 53, 52, 57, 52, 51, 53, 48, 56, 50, 50, 50, 56, 55, 53, 48, 55, 57, 54, 56, 55, 51, 54, 53, 51, 55, 50, 50, 50, 50, 52, 53, 54, 55, 55, 56, 49, 56, 54, 54, 53, 53, 53, 54, 55, 55, 50, 48, 56, 55, 53, 50, 49, 53, 48, 56, 55, 53, 49, 55, 48, 54, 50, 55, 56, 52, 49, 55, 50, 53, 57, 52, 53, 52, 55, 50, 55, 49, 55, 50, 56, 53, 49, 53, 54, 50, 53, 101, 45, 51, 56], .bfloat16, 128, .ok, 46, Fmt.general, 94⟩,
  ⟨1989, [57, 46, 49, 56, 51, 53, 52, 57, 54, 49, 53, 55, 57, 57, 49, 50, 49, 49, 53, 54, 48, 48, 53, 55, 53, 52, 49, 57, 55, 48, 52, 56, 55, 57, 52, 51, 53, 55, 57, 53, 56, 51, 50, 52, 54, 54, 50, 50, 56, 49, 57, 51, 51, 55, 54, 49, 55, 56, 55, 49, 50, 50, 55, 48, 53, 51, 48, 48, 49, 51, 52, 56, 51, 57, 52, 57, 48, 48, 53, 54, 48, 51, 55, 57, 48, 50, 56, 51, 50, 48, 51, 49, 50, 53, 101, 45, 52, 49], .bfloat16, 1, .ok, 46, Fmt.general, 98⟩,
  ⟨2000, [45, 49, 46, 49, 55, 53, 52, 57, 52, 51, 53, 48, 56, 50, 50, 50, 56, 55, 53, 48, 55, 57, 54, 56, 55, 51, 54, 53, 51, 55, 50, 50, 50, 50, 52, 53, 54, 55, 55, 56, 49, 56, 54, 54, 53, 53, 53, 54, 55, 55, 50, 48, 56, 55, 53, 50, 49, 53, 48, 56, 55, 53, 49, 55, 48, 54, 50, 55, 56, 52, 49, 55, 50, 53, 57, 52, 53, 52, 55, 50, 55, 49, 55, 50, 56, 53, 49, 53, 54, 50, 53, 101, 45, 51, 56], .bfloat16, 32896, .ok, 46, Fmt.general, 95⟩,
  ⟨2011, [45, 57, 46, 49, 56, 51, 53, 52, 57, 54, 49, 53, 55, 57, 57, 49, 50, 49, 49, 53, 54, 48, 48, 53, 55, 53, 52, 49, 57, 55, 48, 52, 56, 55, 57, 52, 51, 53, 55, 57, 53, 56, 51, 50, 52, 54, 54, 50, 50, 56, 49, 57, 51, 51, 55, 54, 49, 55, 56, 55, 49, 50, 50, 55, 48, 53, 51, 48, 48, 49, 51, 52, 56, 51, 57, 52, 57, 48, 48, 53, 54, 48, 51, 55, 57, 48, 50, 56, 51, 50, 48, 51, 49, 50, 53, 101, 45, 52, 49], .bfloat16, 32769, .ok, 46, Fmt.general, 99⟩,
  ⟨2017, [45, 49, 101, 45, 57, 57, 57], .bfloat16, 32768, .outOfRange, 46, Fmt.general, 7⟩,
  ⟨2018, [49, 46, 49, 55, 53, 52, 57, 52, 51, 53, 48, 56, 50, 50, 50, 56, 55, 53, 48, 55, 57, 54, 56, 55, 51, 54, 53, 51, 55, 50, 50, 50, 50, 52, 53, 54, 55, 55, 56, 49, 56, 54, 54, 53, 53, 53, 54, 55, 55, 50, 48, 56, 55, 53, 50, 49, 53, 48, 56, 55, 53, 49, 55, 48, 54, 50, 55, 56, 52, 49, 55, 50, 53, 57, 52, 53, 52, 55, 50, 55, 49, 55, 50, 56, 53, 49, 53, 54, 50, 53], .bfloat16, 16278, .ok, 46, Fmt.general, 90⟩,
  ⟨2056, [45, 48], .bfloat16, 32768, .ok, 46, Fmt.general, 2⟩,
  ⟨2059, [51, 48, 50, 49, 57, 46, 48, 56, 51, 48, 48, 55, 56, 49, 50, 53], .bfloat16, 18156, .ok, 46, Fmt.general, 16⟩,
  ⟨2060, [49, 54, 50, 53, 50, 57, 50, 49, 46, 53], .bfloat16, 19320, .ok, 46, Fmt.general, 10⟩,
  ⟨2061, [53, 51, 50, 50, 53, 49, 57, 46, 50, 53], .bfloat16, 19106, .ok, 46, Fmt.general, 10⟩,
  ⟨2062, [51, 57, 48, 48, 50, 52, 53, 46, 56, 55, 53], .bfloat16, 19054, .ok, 46, Fmt.general, 11⟩,
  ⟨2063, [49, 53, 49, 48, 57, 56, 56, 46, 51, 49, 50, 53], .bfloat16, 18872, .ok, 46, Fmt.general, 12⟩,
  ⟨2064, [55, 56, 50, 50, 54, 50, 46, 50, 56, 49, 50, 53], .bfloat16, 18751, .ok, 46, Fmt.general, 12⟩,
  ⟨2065, [51, 50, 56, 51, 56, 49, 46, 52, 56, 52, 51, 55, 53], .bfloat16, 18592, .ok, 46, Fmt.general, 13⟩,
  ⟨2066, [49, 53, 54, 55, 56, 50, 46, 48, 55, 48, 51, 49, 50, 53], .bfloat16, 18457, .ok, 46, Fmt.general, 14⟩,
  ⟨2067, [56, 53, 48, 48, 51, 46, 50, 52, 54, 48, 57, 51, 55, 53], .bfloat16, 18342, .ok, 46, Fmt.general, 14⟩,
  ⟨2068, [49, 55, 52, 49, 57, 46, 54, 52, 57, 52, 49, 52, 48, 54, 50, 53], .bfloat16, 18056, .ok, 46, Fmt.general, 16⟩,
  ⟨2069, [49, 53, 52, 57, 56, 46, 51, 54, 51, 55, 54, 57, 53, 51, 49, 50, 53], .bfloat16, 18034, .ok, 46, Fmt.general, 17⟩,
  ⟨2070, [54, 51, 49, 56, 46, 53, 56, 48, 51, 50, 50, 50, 54, 53, 54, 50, 53], .bfloat16, 17861, .ok, 46, Fmt.general, 17⟩,
  ⟨2071, [50, 53, 50, 53, 46, 50, 56, 52, 48, 53, 55, 54, 49, 55, 49, 56, 55, 53], .bfloat16, 17694, .ok, 46, Fmt.general, 18⟩,
  ⟨2072, [49, 51, 55, 48, 46, 57, 50, 54, 53, 55, 52, 55, 48, 55, 48, 51, 49, 50], .bfloat16, 17579, .ok, 46, Fmt.general, 18⟩,
  ⟨2073, [57, 51, 54, 46, 51, 55, 48, 50, 48, 56, 55, 52, 48, 50, 51, 52, 52], .bfloat16, 17514, .ok, 46, Fmt.general, 17⟩,
  ⟨2074, [52, 49, 49, 46, 56, 56, 54, 56, 50, 53, 53, 54, 49, 53, 50, 51, 52, 52], .bfloat16, 17358, .ok, 46, Fmt.general, 18⟩,
  ⟨2075, [50, 48, 54, 46, 53, 48, 51, 49, 48, 53, 49, 54, 51, 53, 55, 52, 50, 50], .bfloat16, 17231, .ok, 46, Fmt.general, 18⟩,
  ⟨2076, [49, 50, 52, 46, 49, 54, 56, 55, 56, 56, 57, 48, 57, 57, 49, 50, 49, 49], .bfloat16, 17144, .ok, 46, Fmt.general, 18⟩,
  ⟨2077, [53, 48, 46, 56, 49, 49, 53, 55, 52, 57, 51, 53, 57, 49, 51, 48, 56, 54], .bfloat16, 16971, .ok, 46, Fmt.general, 18⟩,
  ⟨2078, [49, 55, 46, 52, 56, 54, 52, 52, 51, 53, 49, 57, 53, 57, 50, 50, 56, 53], .bfloat16, 16780, .ok, 46, Fmt.general, 18⟩,
  ⟨2079, [49, 51, 46, 57, 49, 55, 52, 53, 49, 51, 56, 49, 54, 56, 51, 51, 53], .bfloat16, 16735, .ok, 46, Fmt.general, 17⟩,
  ⟨2080, [55, 46, 53, 52, 54, 52, 53, 49, 51, 51, 48, 49, 56, 52, 57, 51, 54, 53], .bfloat16, 16625, .ok, 46, Fmt.general, 18⟩,
  ⟨2081, [50, 46, 54, 56, 55, 50, 49, 55, 49, 49, 54, 51, 53, 53, 56, 57, 54], .bfloat16, 16428, .ok, 46, Fmt.general, 17⟩,
  ⟨2082, [49, 46, 49, 56, 55, 55, 54, 51, 48, 51, 53, 50, 57, 55, 51, 57, 51, 56], .bfloat16, 16280, .ok, 46, Fmt.general, 18⟩,
  ⟨2083, [48, 46, 55, 54, 50, 50, 53, 48, 51, 51, 52, 48, 50, 52, 52, 50, 57, 51], .bfloat16, 16195, .ok, 46, Fmt.general, 18⟩,
  ⟨2084, [48, 46, 51, 48, 53, 51, 49, 55, 56, 48, 52, 50, 49, 55, 51, 51, 56, 53, 54], .bfloat16, 16028, .ok, 46, Fmt.general, 19⟩,
  ⟨2085, [48, 46, 50, 49, 55, 57, 49, 48, 54, 49, 48, 49, 51, 57, 51, 54, 57, 57, 54], .bfloat16, 15967, .ok, 46, Fmt.general, 19⟩,
  ⟨2086, [48, 46, 48, 57, 50, 56, 57, 51, 55, 54, 56, 49, 48, 49, 57, 51, 48, 54, 50], .bfloat16, 15806, .ok, 46, Fmt.general, 19⟩,
  ⟨2087, [48, 46, 48, 51, 55, 48, 54, 48, 54, 55, 54, 49, 52, 50, 53, 55, 51, 51, 54], .bfloat16, 15640, .ok, 46, Fmt.general, 19⟩]

example : floats8.all (FloatVec.check Cfg.x64 .char) = true := by decide +kernel
example : floats8.all (FloatVec.check small c32) = true := by decide +kernel
example : floats8.all (FloatVec.check compileTime c16) = true := by decide +kernel

def floats9 : List FloatVec := [
  ⟨2088, [48, 46, 48, 50, 56, 48, 54, 56, 51, 53, 49, 53, 53, 57, 51, 52, 48, 57, 53, 52], .bfloat16, 15590, .ok, 46, Fmt.general, 20⟩,
  ⟨2089, [48, 46, 48, 49, 50, 49, 49, 52, 54, 50, 57, 54, 49, 53, 48, 57, 56, 50, 51, 56], .bfloat16, 15430, .ok, 46, Fmt.general, 20⟩,
  ⟨2090, [48, 46, 48, 48, 52, 50, 50, 49, 51, 55, 48, 54, 55, 54, 53, 51, 50, 51, 56, 56], .bfloat16, 15242, .ok, 46, Fmt.general, 20⟩,
  ⟨2091, [48, 46, 48, 48, 50, 49, 53, 51, 56, 49, 55, 52, 52, 55, 56, 51, 51, 55, 49, 55], .bfloat16, 15117, .ok, 46, Fmt.general, 20⟩,
  ⟨2092, [48, 46, 48, 48, 49, 53, 57, 50, 52, 56, 51, 56, 57, 53, 51, 54, 53, 49, 52, 56, 56], .bfloat16, 15057, .ok, 46, Fmt.general, 21⟩,
  ⟨2093, [48, 46, 48, 48, 48, 56, 54, 48, 50, 51, 56, 56, 50, 54, 49, 51, 53, 49, 55, 51, 52], .bfloat16, 14946, .ok, 46, Fmt.general, 21⟩,
  ⟨2094, [48, 46, 48, 48, 48, 51, 54, 51, 57, 51, 50, 57, 51, 55, 48, 51, 52, 52, 48, 53, 55, 55], .bfloat16, 14783, .ok, 46, Fmt.general, 22⟩,
  ⟨2095, [48, 46, 48, 48, 48, 49, 51, 55, 52, 54, 55, 55, 48, 49, 50, 55, 57, 48, 57, 50, 53, 56], .bfloat16, 14608, .ok, 46, Fmt.general, 22⟩,
  ⟨2096, [49, 54, 52, 48, 55, 46, 57, 52, 54, 50, 56, 57, 48, 54, 50, 53], .bfloat16, 18048, .ok, 46, Fmt.general, 16⟩,
  ⟨2100, [48, 101] ++ List.replicate 28 57, .bfloat16, 0, .ok, 46, Fmt.general, 30⟩,
  ⟨2112, [49], .bfloat16, 16256, .ok, 46, Fmt.general, 1⟩,
  ⟨2113, [55, 46, 48, 48, 54, 48, 101, 45, 52, 54], .bfloat16, 0, .outOfRange, 46, Fmt.general, 10⟩,
  ⟨2114, [51, 46, 51, 56, 56, 101, 43, 51, 56], .bfloat16, 32639, .ok, 46, Fmt.general, 9⟩,
  ⟨2115, [51, 46, 51, 56, 57, 101, 43, 51, 56], .bfloat16, 32639, .ok, 46, Fmt.general, 9⟩,
  ⟨2116, [51, 46, 51, 57, 48, 101, 43, 51, 56], .bfloat16, 32639, .ok, 46, Fmt.general, 9⟩,
  ⟨75, [45, 48, 46, 50], .double, 13819745816549104026, .ok, 46, Fmt.jsonOrInfnan, 4⟩,
  ⟨76, [48, 46, 48, 50], .double, 4581421828931458171, .ok, 46, Fmt.jsonOrInfnan, 4⟩,
  ⟨77, [48, 46, 48, 48, 50], .double, 4566758108544739836, .ok, 46, Fmt.jsonOrInfnan, 5⟩,
  ⟨78, [49, 101, 43, 48, 48, 48, 48], .double, 4607182418800017408, .ok, 46, Fmt.jsonOrInfnan, 7⟩,
  ⟨79, [48, 101, 45, 50], .double, 0, .ok, 46, Fmt.jsonOrInfnan, 4⟩,
  ⟨80, [49, 101], .double, 4607182418800017408, .ok, 46, Fmt.jsonOrInfnan, 1⟩,
  ⟨81, [49, 101, 43], .double, 4607182418800017408, .ok, 46, Fmt.jsonOrInfnan, 1⟩,
  ⟨82, [105, 110, 102], .double, 9218868437227405312, .ok, 46, Fmt.jsonOrInfnan, 3⟩,
  ⟨28, [49, 43, 52], .double, 4666723172467343360, .ok, 46, (Fmt.fortran ||| Fmt.allowLeadingPlus), 3⟩,
  ⟨28, [49, 43, 51], .double, 4652007308841189376, .ok, 46, (Fmt.fortran ||| Fmt.allowLeadingPlus), 3⟩,
  ⟨28, [49, 43, 50], .double, 4636737291354636288, .ok, 46, (Fmt.fortran ||| Fmt.allowLeadingPlus), 3⟩,
  ⟨28, [49, 43, 49], .double, 4621819117588971520, .ok, 46, (Fmt.fortran ||| Fmt.allowLeadingPlus), 3⟩,
  ⟨28, [49, 43, 48], .double, 4607182418800017408, .ok, 46, (Fmt.fortran ||| Fmt.allowLeadingPlus), 3⟩,
  ⟨29, [49, 45, 49], .double, 4591870180066957722, .ok, 46, (Fmt.fortran ||| Fmt.allowLeadingPlus), 3⟩,
  ⟨29, [49, 45, 50], .double, 4576918229304087675, .ok, 46, (Fmt.fortran ||| Fmt.allowLeadingPlus), 3⟩,
  ⟨29, [49, 45, 51], .double, 4562254508917369340, .ok, 46, (Fmt.fortran ||| Fmt.allowLeadingPlus), 3⟩,
  ⟨29, [49, 45, 52], .double, 4547007122018943789, .ok, 46, (Fmt.fortran ||| Fmt.allowLeadingPlus), 3⟩,
  ⟨30, [49, 100, 43, 52], .double, 4666723172467343360, .ok, 46, (Fmt.fortran ||| Fmt.allowLeadingPlus), 4⟩,
  ⟨30, [49, 100, 43, 51], .double, 4652007308841189376, .ok, 46, (Fmt.fortran ||| Fmt.allowLeadingPlus), 4⟩,
  ⟨30, [49, 100, 43, 50], .double, 4636737291354636288, .ok, 46, (Fmt.fortran ||| Fmt.allowLeadingPlus), 4⟩,
  ⟨30, [49, 100, 43, 49], .double, 4621819117588971520, .ok, 46, (Fmt.fortran ||| Fmt.allowLeadingPlus), 4⟩,
  ⟨30, [49, 100, 43, 48], .double, 4607182418800017408, .ok, 46, (Fmt.fortran ||| Fmt.allowLeadingPlus), 4⟩,
  ⟨31, [49, 100, 45, 49], .double, 4591870180066957722, .ok, 46, (Fmt.fortran ||| Fmt.allowLeadingPlus), 4⟩,
  ⟨31, [49, 100, 45, 50], .double, 4576918229304087675, .ok, 46, (Fmt.fortran ||| Fmt.allowLeadingPlus), 4⟩,
  ⟨31, [49, 100, 45, 51], .double, 4562254508917369340, .ok, 46, (Fmt.fortran ||| Fmt.allowLeadingPlus), 4⟩]

example : floats9.all (FloatVec.check Cfg.x64 .char) = true := by decide +kernel
example : floats9.all (FloatVec.check small c32) = true := by decide +kernel
example : floats9.all (FloatVec.check compileTime c16) = true := by decide +kernel

def floats10 : List FloatVec := [
  ⟨31, [49, 100, 45, 52], .double, 4547007122018943789, .ok, 46, (Fmt.fortran ||| Fmt.allowLeadingPlus), 4⟩,
  ⟨32, [43, 49, 43, 52], .double, 4666723172467343360, .ok, 46, (Fmt.fortran ||| Fmt.allowLeadingPlus), 4⟩,
  ⟨32, [43, 49, 43, 51], .double, 4652007308841189376, .ok, 46, (Fmt.fortran ||| Fmt.allowLeadingPlus), 4⟩,
  ⟨32, [43, 49, 43, 50], .double, 4636737291354636288, .ok, 46, (Fmt.fortran ||| Fmt.allowLeadingPlus), 4⟩,
  ⟨32, [43, 49, 43, 49], .double, 4621819117588971520, .ok, 46, (Fmt.fortran ||| Fmt.allowLeadingPlus), 4⟩,
  ⟨32, [43, 49, 43, 48], .double, 4607182418800017408, .ok, 46, (Fmt.fortran ||| Fmt.allowLeadingPlus), 4⟩,
  ⟨33, [43, 49, 45, 49], .double, 4591870180066957722, .ok, 46, (Fmt.fortran ||| Fmt.allowLeadingPlus), 4⟩,
  ⟨33, [43, 49, 45, 50], .double, 4576918229304087675, .ok, 46, (Fmt.fortran ||| Fmt.allowLeadingPlus), 4⟩,
  ⟨33, [43, 49, 45, 51], .double, 4562254508917369340, .ok, 46, (Fmt.fortran ||| Fmt.allowLeadingPlus), 4⟩,
  ⟨33, [43, 49, 45, 52], .double, 4547007122018943789, .ok, 46, (Fmt.fortran ||| Fmt.allowLeadingPlus), 4⟩,
  ⟨12, [49, 100, 43, 52], .double, 4666723172467343360, .ok, 46, (Fmt.fortran ||| Fmt.allowLeadingPlus), 4⟩]

example : floats10.all (FloatVec.check Cfg.x64 .char) = true := by decide +kernel
example : floats10.all (FloatVec.check small c32) = true := by decide +kernel
example : floats10.all (FloatVec.check compileTime c16) = true := by decide +kernel

def floats11 : List FloatVec := [
  ⟨1147, [49, 55, 57, 55, 54, 57, 51, 49, 51, 52, 56, 54, 50, 51, 49, 53, 56, 48, 55, 57, 51, 55, 50, 56, 57, 55, 49, 52, 48, 53, 51, 48, 51, 52, 49, 53, 48, 55, 57, 57, 51, 52, 49, 51, 50, 55, 49, 48, 48, 51, 55, 56, 50, 54, 57, 51, 54, 49, 55, 51, 55, 55, 56, 57, 56, 48, 52, 52, 52, 57, 54, 56, 50, 57, 50, 55, 54, 52, 55, 53, 48, 57, 52, 54, 54, 52, 57, 48, 49, 55, 57, 55, 55, 53, 56, 55, 50, 48, 55, 48, 57, 54, 51, 51, 48, 50, 56, 54, 52, 49, 54, 54, 57, 50, 56, 56, 55, 57, 49, 48, 57, 52, 54, 53, 53, 53, 53, 52, 55, 56, 53, 49, 57, 52, 48, 52, 48, 50, 54, 51, 48, 54, 53, 55, 52, 56, 56, 54, 55, 49, 53, 48, 53, 56, 50, 48, 54, 56, 49, 57, 48, 56, 57, 48, 50, 48, 48, 48, 55, 48, 56, 51, 56, 51, 54, 55, 54, 50, 55, 51, 56, 53, 52, 56, 52, 53, 56, 49, 55, 55, 49, 49, 53, 51, 49, 55, 54, 52, 52, 55, 53, 55, 51, 48, 50, 55, 48, 48, 54, 57, 56, 53, 53, 53, 55, 49, 51, 54, 54, 57, 53, 57, 54, 50, 50, 56, 52, 50, 57, 49, 52, 56, 49, 57, 56, 54, 48, 56, 51, 52, 57, 51, 54, 52, 55, 53, 50, 57, 50, 55, 49, 57, 48, 55, 52, 49, 54, 56, 52, 52, 52, 51, 54, 53, 53, 49, 48, 55, 48, 52, 51, 52, 50, 55, 49, 49, 53, 53, 57, 54, 57, 57, 53, 48, 56, 48, 57, 51, 48, 52, 50, 56, 56, 48, 49, 55, 55, 57, 48, 52, 49, 55, 52, 52, 57, 55, 55, 57, 50], .double, 9218868437227405312, .outOfRange, 46, Fmt.general, 309⟩,
  ⟨1176, [57, 48, 48, 55, 49, 57, 57, 50, 53, 52, 55, 52, 48, 57, 57, 51, 46] ++ List.replicate 1001 48, .double, 4845873199050653696, .ok, 46, Fmt.general, 1018⟩,
  ⟨1183, [57, 51, 53, 53, 57, 53, 48, 48, 48, 48, 48, 48, 48, 48, 48, 48, 48, 48, 48, 46] ++ List.replicate 34 48 ++ [49, 56, 52, 52, 54, 55, 52, 52, 48, 55, 51, 55, 48, 57, 53, 53, 49, 54, 49, 54, 48, 48, 48, 48, 48, 49, 56, 52, 52, 54, 55, 52, 52, 48, 55, 51, 55, 48, 57, 53, 53, 49, 54, 49, 54, 49, 56, 52, 52, 54, 55, 52, 52, 48, 55, 51, 55, 48, 57, 53, 53, 49, 54, 49, 52, 48, 55, 51, 55, 48, 57, 53, 53, 49, 54, 49, 54, 49, 56, 52, 52, 54, 55, 52, 52, 48, 55, 51, 55, 48, 57, 53, 53, 49, 54, 49, 54, 48, 48, 48, 49, 56, 52, 52, 54, 55, 52, 52, 48, 55, 51, 55, 48, 57, 53, 53, 49, 54, 49, 54, 54, 48, 48, 48, 48, 48, 49, 56, 52, 52, 54, 55, 52, 52, 48, 55, 51, 55, 48, 57, 53, 53, 49, 54, 49, 54, 49, 56, 52, 52, 54, 55, 52, 52, 48, 55, 51, 55, 48, 57, 53, 53, 49, 54, 49, 52, 48, 55, 51, 55, 48, 57, 53, 53, 49, 54, 49, 54, 49, 56, 52, 52, 54, 55, 52, 52, 48, 55, 51, 55, 48, 57, 53, 53, 49, 54, 49, 54, 48, 48, 48, 49, 56, 52, 52, 54, 55, 52, 52, 48, 55, 51, 55, 48, 57, 53, 53, 49, 54, 49, 54, 48, 49, 56, 52, 52, 54, 55, 52, 52, 48, 55, 51, 55, 48, 57, 53, 53, 54, 55, 52, 52, 53, 49, 54, 49, 54, 49, 56, 52, 52, 54, 55, 52, 52, 48, 55, 51, 55, 48, 57, 53, 53, 49, 54, 49, 52, 48, 55, 51, 55, 48, 57, 53, 53, 49, 54, 49, 54, 49, 56, 52, 52, 54, 55, 52, 52, 48, 55, 51, 55, 48, 57, 53, 53, 49, 54, 49, 54, 48, 48, 48, 49, 56, 52, 52, 54, 55, 52, 52, 48, 55, 51, 55, 48, 57, 53, 53, 49, 54, 49, 54, 48, 49, 56, 52, 52, 54, 55, 52, 52, 48, 55, 51, 55, 48, 57, 53, 53, 49, 54, 49, 49, 54, 49, 54, 48, 48, 48, 49, 56, 52, 52, 54, 55, 52, 52, 48, 55, 51, 55, 48, 57, 53, 48, 48, 49, 56, 52, 52, 54, 55, 52, 52, 48, 55, 51, 55, 48, 57, 53, 53, 49, 54, 49, 54, 48, 48, 49, 56, 52, 52, 54, 55, 52, 52, 48, 55, 51, 55, 48, 57, 53, 53, 49, 54, 49, 54, 48, 48, 49, 56, 52, 52, 54, 55, 52, 52, 48, 55, 51, 55, 48, 57, 53, 53, 49, 49, 54, 56, 49, 54, 52, 52, 54, 55, 52, 52, 48, 55, 51, 55, 48, 57, 53, 53, 49, 54, 49, 54, 48, 48, 48, 49, 56, 52, 52, 48, 55, 51, 55, 48, 57, 53, 53, 49, 54, 49, 54, 48, 49, 56, 52, 52, 54, 55, 52, 52, 48, 55, 51, 55, 48, 57, 53, 53, 49, 54, 49, 54, 49, 56, 52, 52, 54, 55, 52, 52, 48, 55, 51, 55, 48, 57, 53, 53, 49, 54, 49, 54, 48, 48, 48, 49, 56, 52, 52, 54, 55, 52, 52, 48, 55, 53, 51, 54, 57, 49, 48, 55, 53, 49, 54, 48, 49, 54, 49, 49, 54, 49, 54, 48, 48, 48, 49, 56, 52, 52, 54, 55, 52, 52, 48, 55, 51, 55, 48, 57, 53, 48, 48, 49, 56, 52, 52, 54, 55, 52, 52, 48, 55, 51, 55, 48, 57, 53, 53, 49, 54, 49, 54, 48, 48, 49, 56, 52, 52, 54, 55, 52, 52, 48, 55, 51, 55, 48, 57, 53, 53, 49, 54, 49, 54, 48, 48, 49, 56, 52, 52, 54, 55, 52, 52, 48, 55, 51, 55, 48, 57, 53, 53, 49, 54, 49, 54, 49, 56, 52, 52, 54, 55, 52, 52, 48, 55, 51, 55, 48, 57, 53, 53, 49, 54, 49, 54, 48, 48, 48, 49, 56, 52, 52, 57, 53, 53, 49, 54, 49, 54, 49, 56, 52, 52, 54, 55, 52, 52, 48, 55, 51, 55, 48, 57, 53, 53, 49, 54, 49, 54, 48, 48, 48, 49, 56, 52, 52, 54, 55, 52, 52, 48, 55, 53, 51, 54, 57, 49, 48, 55, 53, 49, 54, 48, 48, 49, 56, 52, 52, 54, 55, 52, 52, 48, 55, 51, 55, 48, 57], .double, 4890973930657925660, .ok, 46, Fmt.general, 772⟩,
  ⟨1197, [50, 46, 50, 50, 53, 48, 55, 51, 56, 53, 56, 53, 48, 55, 50, 48, 50, 49, 50, 52, 49, 56, 56, 55, 48, 49, 52, 55, 57, 50, 48, 50, 50, 50, 48, 51, 50, 57, 48, 55, 50, 52, 48, 53, 50, 56, 50, 55, 57, 52, 51, 57, 48, 51, 55, 56, 49, 52, 51, 48, 51, 49, 51, 51, 56, 51, 55, 52, 51, 53, 49, 48, 55, 51, 49, 57, 50, 52, 52, 49, 57, 52, 54, 56, 54, 55, 53, 52, 52, 48, 54, 52, 51, 50, 53, 54, 51, 56, 56, 49, 56, 53, 49, 51, 56, 50, 49, 56, 56, 50, 49, 56, 53, 48, 50, 52, 51, 56, 48, 54, 57, 57, 57, 57, 57, 52, 55, 55, 51, 51, 48, 49, 51, 48, 48, 53, 54, 52, 57, 56, 56, 52, 49, 48, 55, 55, 57, 49, 57, 50, 56, 55, 52, 49, 51, 52, 49, 57, 50, 57, 50, 57, 55, 50, 48, 48, 57, 55, 48, 52, 56, 49, 57, 53, 49, 57, 57, 51, 48, 54, 55, 57, 57, 51, 50, 57, 48, 57, 54, 57, 48, 52, 50, 55, 56, 52, 48, 54, 52, 55, 51, 49, 54, 56, 50, 48, 52, 49, 53, 54, 53, 57, 50, 54, 55, 50, 56, 54, 51, 50, 57, 51, 51, 54, 51, 48, 52, 55, 52, 54, 55, 48, 49, 50, 51, 51, 49, 54, 56, 53, 50, 57, 56, 51, 52, 50, 50, 49, 53, 50, 55, 52, 52, 53, 49, 55, 50, 54, 48, 56, 51, 53, 56, 53, 57, 54, 53, 52, 53, 54, 54, 51, 49, 57, 50, 56, 50, 56, 51, 53, 50, 52, 52, 55, 56, 55, 55, 56, 55, 55, 57, 57, 56, 57, 52, 51, 49, 48, 55, 55, 57, 55, 56, 51, 56, 51, 51, 54, 57, 57, 49, 53, 57, 50, 56, 56, 53, 57, 52, 53, 53, 53, 50, 49, 51, 55, 49, 52, 49, 56, 49, 49, 50, 56, 52, 53, 56, 50, 53, 49, 49, 52, 53, 53, 56, 52, 51, 49, 57, 50, 50, 51, 48, 55, 57, 56, 57, 55, 53, 48, 52, 51, 57, 53, 48, 56, 54, 56, 53, 57, 52, 49, 50, 52, 53, 55, 50, 51, 48, 56, 57, 49, 55, 51, 56, 57, 52, 54, 49, 54, 57, 51, 54, 56, 51, 55, 50, 51, 50, 49, 49, 57, 49, 51, 55, 51, 54, 53, 56, 57, 55, 55, 57, 55, 55, 55, 50, 51, 50, 56, 54, 54, 57, 56, 56, 52, 48, 51, 53, 54, 51, 57, 48, 50, 53, 49, 48, 52, 52, 52, 52, 51, 48, 51, 53, 52, 53, 55, 51, 57, 54, 55, 51, 51, 55, 48, 54, 53, 56, 51, 57, 56, 49, 48, 53, 53, 52, 50, 48, 52, 53, 54, 54, 57, 51, 56, 50, 52, 54, 53, 56, 52, 49, 51, 55, 52, 55, 54, 48, 55, 49, 53, 53, 57, 56, 49, 49, 55, 54, 53, 55, 51, 56, 55, 55, 54, 50, 54, 55, 52, 55, 54, 54, 53, 57, 49, 50, 51, 56, 55, 49, 57, 57, 57, 51, 49, 57, 48, 52, 48, 48, 54, 51, 49, 55, 51, 51, 52, 55, 48, 57, 48, 48, 51, 48, 49, 50, 55, 57, 48, 49, 56, 56, 49, 55, 53, 50, 48, 51, 52, 52, 55, 49, 57, 48, 50, 53, 48, 48, 50, 56, 48, 54, 49, 50, 55, 55, 55, 55, 55, 57, 49, 54, 55, 57, 56, 51, 57, 49, 48, 57, 48, 53, 55, 56, 53, 56, 52, 48, 48, 54, 52, 54, 52, 55, 49, 53, 57, 52, 51, 56, 49, 48, 53, 49, 49, 52, 56, 57, 49, 53, 52, 50, 56, 50, 55, 55, 53, 48, 52, 49, 49, 55, 52, 54, 56, 50, 49, 57, 52, 49, 51, 51, 57, 53, 50, 52, 54, 54, 54, 56, 50, 53, 48, 51, 52, 51, 49, 51, 48, 54, 49, 56, 49, 53, 56, 55, 56, 50, 57, 51, 55, 57, 48, 48, 52, 50, 48, 53, 51, 57, 50, 51, 55, 53, 48, 55, 50, 48, 56, 51, 51, 54, 54, 54, 57, 51, 50, 52, 49, 53, 56, 48, 48, 48, 50, 55, 53, 56, 51, 57, 49, 49, 49, 56, 56, 53, 52, 49, 56, 56, 54, 52, 49, 53, 49, 51, 49, 54, 56, 52, 55, 56, 52, 51, 54, 51, 49, 51, 48, 56, 48, 50, 51, 55, 53, 57, 54, 50, 57, 53, 55, 55, 51, 57, 56, 51, 48, 48, 49, 55, 48, 56, 57, 56, 52, 51, 55, 53, 101, 45, 51, 48, 56], .double, 4503599627370498, .ok, 46, Fmt.general, 774⟩,
  ⟨1219, [49, 46, 48, 48, 48, 48, 48, 48, 48, 48, 48, 48, 48, 48, 48, 48, 49, 56, 56, 53, 53, 56, 57, 50, 48, 56, 55, 48, 50, 50, 51, 52, 54, 51, 56, 55, 48, 49, 55, 52, 53, 54, 54, 48, 50, 48, 54, 57, 49, 55, 53, 51, 53, 49, 53, 51, 57, 52, 54, 52, 51, 53, 53, 48, 54, 54, 51, 48, 55, 48, 53, 53, 56, 51, 54, 56, 51, 55, 51, 50, 50, 49, 57, 55, 50, 53, 54, 57, 55, 54, 49, 49, 52, 52, 54, 48, 51, 54, 48, 53, 54, 51, 53, 54, 57, 50, 51, 55, 52, 56, 51, 48, 50, 52, 54, 49, 51, 52, 50, 48, 49, 48, 54, 51, 55, 50, 50, 48, 53, 56, 101, 45, 51, 48, 57], .double, 202402253307311, .ok, 46, Fmt.general, 135⟩,
  ⟨1285, [48, 46] ++ List.replicate 307 48 ++ [52, 52, 53, 48, 49, 52, 55, 55, 49, 55, 48, 49, 52, 52, 48, 50, 50, 55, 50, 49, 49, 52, 56, 49, 57, 53, 57, 51, 52, 49, 56, 50, 54, 51, 57, 53, 49, 56, 54, 57, 54, 51, 57, 48, 57, 50, 55, 48, 51, 50, 57, 49, 50, 57, 54, 48, 52, 54, 56, 53, 50, 50, 49, 57, 52, 52, 57, 54, 52, 52, 52, 52, 52, 48, 52, 50, 49, 53, 51, 56, 57, 49, 48, 51, 51, 48, 53, 57, 48, 52, 55, 56, 49, 54, 50, 55, 48, 49, 55, 53, 56, 50, 56, 50, 57, 56, 51, 49, 55, 56, 50, 54, 48, 55, 57, 50, 52, 50, 50, 49, 51, 55, 52, 48, 49, 55, 50, 56, 55, 55, 51, 56, 57, 49, 56, 57, 50, 57, 49, 48, 53, 53, 51, 49, 52, 52, 49, 52, 56, 49, 53, 54, 52, 49, 50, 52, 51, 52, 56, 54, 55, 53, 57, 57, 55, 54, 50, 56, 50, 49, 50, 54, 53, 51, 52, 54, 53, 56, 53, 48, 55, 49, 48, 52, 53, 55, 51, 55, 54, 50, 55, 52, 52, 50, 57, 56, 48, 50, 53, 57, 54, 50, 50, 52, 52, 57, 48, 50, 57, 48, 51, 55, 55, 57, 54, 57, 56, 49, 49, 52, 52, 52, 52, 54, 49, 52, 53, 55, 48, 53, 49, 48, 50, 54, 54, 51, 49, 49, 53, 49, 48, 48, 51, 49, 56, 50, 56, 55, 57, 52, 57, 53, 50, 55, 57, 53, 57, 54, 54, 56, 50, 51, 54, 48, 51, 57, 57, 56, 54, 52, 55, 57, 50, 53, 48, 57, 54, 53, 55, 56, 48, 51, 52, 50, 49, 52, 49, 54, 51, 55, 48, 49, 51, 56, 49, 50, 54, 49, 51, 51, 51, 51, 49, 49, 57, 56, 57, 56, 55, 54, 53, 53, 49, 53, 52, 53, 49, 52, 52, 48, 51, 49, 53, 50, 54, 49, 50, 53, 51, 56, 49, 51, 50, 54, 54, 54, 53, 50, 57, 53, 49, 51, 48, 54, 48, 48, 48, 49, 56, 52, 57, 49, 55, 55, 54, 54, 51, 50, 56, 54, 54, 48, 55, 53, 53, 53, 57, 53, 56, 51, 55, 51, 57, 50, 50, 52, 48, 57, 56, 57, 57, 52, 55, 56, 48, 55, 53, 53, 54, 53, 57, 52, 48, 57, 56, 49, 48, 49, 48, 50, 49, 54, 49, 50, 49, 57, 56, 56, 49, 52, 54, 48, 53, 50, 53, 56, 55, 52, 50, 53, 55, 57, 49, 55, 57, 48, 48, 48, 48, 55, 49, 54, 55, 53, 57, 57, 57, 51, 52, 52, 49, 52, 53, 48, 56, 54, 48, 56, 55, 50, 48, 53, 54, 56, 49, 53, 55, 55, 57, 49, 53, 52, 51, 53, 57, 50, 51, 48, 49, 56, 57, 49, 48, 51, 51, 52, 57, 54, 52, 56, 54, 57, 52, 50, 48, 54, 49, 52, 48, 53, 50, 49, 56, 50, 56, 57, 50, 52, 51, 49, 52, 52, 53, 55, 57, 55, 54, 48, 53, 49, 54, 51, 54, 53, 48, 57, 48, 51, 54, 48, 54, 53, 49, 52, 49, 52, 48, 51, 55, 55, 50, 49, 55, 52, 52, 50, 50, 54, 50, 53, 54, 49, 53, 57, 48, 50, 52, 52, 54, 54, 56, 53, 50, 53, 55, 54, 55, 51, 55, 50, 52, 52, 54, 52, 51, 48, 48, 55, 53, 53, 49, 51, 51, 51, 50, 52, 53, 48, 48, 55, 57, 54, 53, 48, 54, 56, 54, 55, 49, 57, 52, 57, 49, 51, 55, 55, 54, 56, 56, 52, 55, 56, 48, 48, 53, 51, 48, 57, 57, 54, 51, 57, 54, 55, 55, 48, 57, 55, 53, 56, 57, 54, 53, 56, 52, 52, 49, 51, 55, 56, 57, 52, 52, 51, 51, 55, 57, 54, 54, 50, 49, 57, 57, 51, 57, 54, 55, 51, 49, 54, 57, 51, 54, 50, 56, 48, 52, 53, 55, 48, 56, 52, 56, 54, 54, 54, 49, 51, 50, 48, 54, 55, 57, 55, 48, 49, 55, 55, 50, 56, 57, 49, 54, 48, 56, 48, 48, 50, 48, 54, 57, 56, 54, 55, 57, 52, 48, 56, 53, 53, 49, 51, 52, 51, 55, 50, 56, 56, 54, 55, 54, 55, 53, 52, 48, 57, 55, 50, 48, 55, 53, 55, 50, 51, 50, 52, 53, 53, 52, 51, 52, 55, 55, 48, 57, 49, 50, 52, 54, 49, 51, 49, 55, 52, 57, 51, 53, 56, 48, 50, 56, 49, 55, 51, 52, 52, 54, 54, 53, 53, 50, 55, 51, 52, 51, 55, 53], .double, 9007199254740991, .ok, 46, Fmt.general, 1076⟩,
  ⟨1303, [48, 46] ++ List.replicate 307 48 ++ [50, 50, 50, 53, 48, 55, 51, 56, 53, 56, 53, 48, 55, 50, 48, 48, 56, 56, 57, 48, 50, 52, 53, 56, 54, 56, 55, 54, 48, 56, 53, 56, 53, 57, 56, 56, 55, 54, 53, 48, 52, 50, 51, 49, 49, 50, 50, 52, 48, 57, 53, 57, 52, 54, 53, 52, 57, 51, 53, 50, 52, 56, 48, 50, 53, 54, 50, 52, 52, 48, 48, 48, 57, 50, 50, 56, 50, 51, 53, 54, 57, 53, 49, 55, 56, 55, 55, 53, 56, 56, 56, 56, 48, 51, 55, 53, 57, 49, 53, 53, 50, 54, 52, 50, 51, 48, 57, 55, 56, 48, 57, 53, 48, 52, 51, 52, 51, 49, 50, 48, 56, 53, 56, 55, 55, 51, 56, 55, 49, 53, 56, 51, 53, 55, 50, 57, 49, 56, 50, 49, 57, 57, 51, 48, 50, 48, 50, 57, 52, 51, 55, 57, 50, 50, 52, 50, 50, 51, 53, 53, 57, 56, 49, 57, 56, 50, 55, 53, 48, 49, 50, 52, 50, 48, 52, 49, 55, 56, 56, 57, 54, 57, 53, 55, 49, 51, 49, 49, 55, 57, 49, 48, 56, 50, 50, 54, 49, 48, 52, 51, 57, 55, 49, 57, 55, 57, 54, 48, 52, 48, 48, 48, 52, 53, 52, 56, 57, 55, 51, 57, 49, 57, 51, 56, 48, 55, 57, 49, 57, 56, 57, 51, 54, 48, 56, 49, 53, 50, 53, 54, 49, 51, 49, 49, 51, 51, 55, 54, 49, 52, 57, 56, 52, 50, 48, 52, 51, 50, 55, 49, 55, 53, 49, 48, 51, 51, 54, 50, 55, 51, 57, 49, 53, 52, 57, 55, 56, 50, 55, 51, 49, 53, 57, 52, 49, 52, 51, 56, 50, 56, 49, 51, 54, 50, 55, 53, 49, 49, 51, 56, 51, 56, 54, 48, 52, 48, 57, 52, 50, 52, 57, 52, 54, 52, 57, 52, 50, 50, 56, 54, 51, 49, 54, 54, 57, 53, 52, 50, 57, 49, 48, 53, 48, 56, 48, 50, 48, 49, 56, 49, 53, 57, 50, 54, 54, 52, 50, 49, 51, 52, 57, 57, 54, 54, 48, 54, 53, 49, 55, 56, 48, 51, 48, 57, 53, 48, 55, 53, 57, 49, 51, 48, 53, 56, 55, 49, 57, 56, 52, 54, 52, 50, 51, 57, 48, 54, 48, 54, 56, 54, 51, 55, 49, 48, 50, 48, 48, 53, 49, 48, 56, 55, 50, 51, 50, 56, 50, 55, 56, 52, 54, 55, 56, 56, 52, 51, 54, 51, 49, 57, 52, 52, 53, 49, 53, 56, 54, 54, 49, 51, 53, 48, 52, 49, 50, 50, 51, 52, 55, 57, 48, 49, 52, 55, 57, 50, 51, 54, 57, 53, 56, 53, 50, 48, 56, 51, 50, 49, 53, 57, 55, 54, 50, 49, 48, 54, 54, 51, 55, 53, 52, 48, 49, 54, 49, 51, 55, 51, 54, 53, 56, 51, 48, 52, 52, 49, 57, 51, 54, 48, 51, 55, 49, 52, 55, 55, 56, 51, 53, 53, 51, 48, 54, 54, 56, 50, 56, 51, 52, 53, 51, 53, 54, 51, 52, 48, 48, 53, 48, 55, 52, 48, 55, 51, 48, 52, 48, 49, 51, 53, 54, 48, 50, 57, 54, 56, 48, 52, 54, 51, 55, 53, 57, 49, 56, 53, 56, 51, 49, 54, 51, 49, 50, 52, 50, 50, 52, 53, 50, 49, 53, 57, 57, 50, 54, 50, 53, 52, 54, 52, 57, 52, 51, 48, 48, 56, 51, 54, 56, 53, 49, 56, 54, 49, 55, 49, 57, 52, 50, 50, 52, 49, 55, 54, 52, 54, 52, 53, 53, 49, 51, 55, 49, 51, 53, 52, 50, 48, 49, 51, 50, 50, 49, 55, 48, 51, 49, 51, 55, 48, 52, 57, 54, 53, 56, 51, 50, 49, 48, 49, 53, 52, 54, 53, 52, 48, 54, 56, 48, 51, 53, 51, 57, 55, 52, 49, 55, 57, 48, 54, 48, 50, 50, 53, 56, 57, 53, 48, 51, 48, 50, 51, 53, 48, 49, 57, 51, 55, 53, 49, 57, 55, 55, 51, 48, 51, 48, 57, 52, 53, 55, 54, 51, 49, 55, 51, 50, 49, 48, 56, 53, 50, 53, 48, 55, 50, 57, 57, 51, 48, 53, 48, 56, 57, 55, 54, 49, 53, 56, 50, 53, 49, 57, 49, 53, 57, 55, 50, 48, 55, 53, 55, 50, 51, 50, 52, 53, 53, 52, 51, 52, 55, 55, 48, 57, 49, 50, 52, 54, 49, 51, 49, 55, 52, 57, 51, 53, 56, 48, 50, 56, 49, 55, 51, 52, 52, 54, 54, 53, 53, 50, 55, 51, 52, 51, 55, 53], .double, 4503599627370495, .ok, 46, Fmt.general, 1076⟩,
  ⟨1321, [49, 52, 51, 56, 52, 53, 54, 54, 54, 51, 49, 52, 49, 51, 57, 48, 50, 55, 51, 53, 50, 54, 49, 49, 56, 50, 48, 55, 54, 52, 50, 50, 51, 53, 53, 56, 49, 49, 56, 51, 50, 50, 55, 56, 52, 53, 50, 52, 54, 51, 51, 49, 50, 51, 49, 49, 54, 50, 54, 51, 54, 54, 53, 51, 55, 57, 48, 51, 54, 56, 49, 53, 50, 48, 57, 49, 51, 57, 52, 49, 57, 54, 57, 51, 48, 51, 54, 53, 56, 50, 56, 54, 51, 52, 54, 56, 55, 54, 51, 55, 57, 52, 56, 49, 53, 55, 57, 52, 48, 55, 55, 54, 53, 57, 57, 49, 56, 50, 55, 57, 49, 51, 56, 55, 53, 50, 55, 49, 51, 53, 51, 53, 51, 48, 51, 52, 55, 51, 56, 51, 53, 55, 49, 51, 52, 49, 49, 48, 51, 49, 48, 54, 48, 57, 52, 53, 53, 54, 57, 51, 57, 48, 48, 56, 50, 52, 49, 57, 51, 53, 52, 57, 55, 55, 50, 55, 57, 50, 48, 49, 54, 53, 52, 51, 49, 56, 50, 54, 56, 48, 53, 49, 57, 55, 52, 48, 53, 56, 48, 51, 53, 52, 51, 54, 53, 52, 54, 55, 57, 56, 53, 52, 52, 48, 49, 56, 51, 53, 57, 56, 55, 48, 49, 51, 49, 50, 50, 53, 55, 54, 50, 52, 53, 52, 53, 53, 54, 50, 51, 51, 49, 51, 57, 55, 48, 49, 56, 51, 50, 57, 57, 50, 56, 54, 49, 51, 49, 57, 54, 49, 50, 53, 53, 57, 48, 50, 55, 52, 49, 56, 55, 55, 50, 48, 48, 55, 51, 57, 49, 52, 56, 49, 56, 48, 54, 50, 53, 51, 48, 56, 51, 48, 51, 49, 54, 53, 51, 51, 49, 53, 56, 48, 57, 56, 54, 50, 52, 57, 56, 52, 49, 49, 56, 56, 56, 57, 50, 57, 56, 50, 56, 49, 51, 55, 49, 56, 49, 50, 50, 56, 56, 55, 56, 57, 53, 51, 55, 51, 49, 48, 53, 57, 57, 48, 51, 55, 53, 50, 57, 49, 49, 51, 52, 49, 53, 52, 51, 56, 55, 51, 56, 57, 53, 52, 56, 57, 52, 55, 53, 50, 49, 50, 52, 55, 50, 52, 57, 56, 51, 48, 54, 55, 50, 52, 49, 49, 48, 56, 55, 54, 52, 52, 56, 56, 51, 52, 54, 52, 53, 52, 51, 55, 54, 54, 57, 57, 48, 49, 56, 54, 55, 51, 48, 55, 56, 52, 48, 52, 55, 53, 49, 49, 50, 49, 52, 49, 52, 56, 48, 52, 57, 51, 55, 50, 50, 52, 50, 52, 48, 56, 48, 53, 57, 57, 51, 49, 50, 51, 56, 49, 54, 57, 51, 50, 51, 50, 54, 50, 50, 51, 54, 56, 51, 48, 57, 48, 55, 55, 48, 53, 54, 49, 53, 57, 55, 53, 55, 48, 52, 53, 55, 55, 57, 51, 57, 51, 50, 57, 56, 53, 56, 50, 54, 49, 54, 50, 54, 48, 52, 50, 53, 53, 56, 56, 52, 53, 50, 57, 49, 51, 52, 49, 50, 54, 51, 57, 54, 50, 56, 50, 50, 48, 50, 49, 50, 54, 53, 50, 54, 50, 53, 51, 51, 56, 57, 51, 56, 51, 52, 50, 49, 56, 48, 54, 55, 50, 55, 57, 53, 52, 53, 56, 56, 53, 50, 53, 53, 57, 54, 49, 49, 52, 51, 55, 57, 56, 48, 49, 50, 54, 57, 48, 57, 52, 48, 57, 54, 51, 50, 57, 56, 48, 53, 48, 53, 52, 56, 48, 51, 48, 56, 57, 50, 57, 57, 55, 51, 54, 57, 57, 54, 56, 55, 48, 57, 53, 49, 50, 53, 56, 53, 55, 51, 48, 49, 48, 56, 55, 55, 52, 48, 52, 52, 48, 55, 52, 53, 49, 57, 53, 51, 56, 52, 54, 54, 57, 56, 54, 48, 57, 49, 57, 56, 50, 49, 51, 57, 50, 54, 56, 56, 50, 54, 57, 50, 48, 55, 56, 53, 53, 55, 48, 51, 51, 50, 50, 56, 50, 54, 53, 50, 53, 57, 51, 48, 53, 52, 56, 49, 49, 57, 56, 53, 50, 54, 48, 53, 57, 56, 49, 51, 49, 54, 52, 52, 54, 57, 49, 56, 55, 53, 56, 54, 54, 57, 51, 50, 53, 55, 51, 51, 53, 55, 55, 57, 53, 50, 50, 48, 50, 48, 52, 48, 55, 54, 52, 53, 52, 57, 56, 54, 56, 52, 50, 54, 51, 51, 51, 57, 57, 50, 49, 57, 48, 53, 50, 50, 55, 53, 53, 54, 54, 49, 54, 54, 57, 56, 49, 50, 57, 57, 54, 55, 52, 49, 50, 56, 57, 49, 50, 56, 50, 50, 51, 49, 54, 56, 53, 53, 48, 52, 54, 54, 48, 54, 55, 49, 50, 55, 55, 57, 50, 55, 49, 57, 56, 50, 57, 48, 48, 48, 57, 56, 50, 52, 54, 56, 48, 49, 56, 54, 51, 49, 57, 55, 53, 48, 57, 55, 56, 54, 54, 53, 55, 51, 52, 53, 55, 54, 54, 56, 51, 55, 56, 52, 50, 53, 53, 56, 48, 50, 50, 54, 57, 55, 48, 56, 57, 49, 55, 51, 54, 49, 55, 49, 57, 52, 54, 54, 48, 52, 51, 49, 55, 53, 50, 48, 49, 49, 53, 56, 56, 52, 57, 48, 57, 55, 56, 56, 49, 51, 55, 48, 52, 55, 55, 49, 49, 49, 56, 53, 48, 49, 55, 49, 53, 55, 57, 56, 54, 57, 48, 53, 54, 48, 49, 54, 48, 54, 49, 54, 54, 54, 49, 55, 51, 48, 50, 57, 48, 53, 57, 53, 56, 56, 52, 51, 51, 55, 55, 54, 48, 49, 53, 54, 52, 52, 52, 51, 57, 55, 48, 53, 48, 53, 48, 51, 55, 55, 53, 53, 52, 50, 55, 55, 54, 57, 54, 49, 52, 51, 57, 50, 56, 50, 55, 56, 48, 57, 51, 52, 53, 51, 55, 57, 50, 56, 48, 51, 56, 52, 54, 50, 53, 50, 55, 49, 53, 57, 54, 54, 48, 49, 54, 55, 51, 51, 50, 50, 50, 54, 52, 54, 52, 52, 50, 51, 56, 50, 56, 57, 50, 49, 50, 51, 57, 52, 48, 48, 53, 50, 52, 52, 49, 51, 52, 54, 56, 50, 50, 52, 50, 57, 55, 50, 49, 53, 57, 51, 56, 56, 52, 51, 55, 56, 50, 49, 50, 53, 53, 56, 55, 48, 49, 48, 48, 52, 51, 53, 54, 57, 50, 52, 50, 52, 51, 48, 51, 48, 48, 53, 57, 53, 49, 55, 52, 56, 57, 51, 52, 54, 54, 52, 54, 53, 55, 55, 55, 50, 52, 54, 50, 50, 52, 57, 56, 57, 49, 57, 55, 53, 50, 53, 57, 55, 51, 56, 50, 48, 57, 53, 50, 50, 50, 53, 48, 48, 51, 49, 49, 49, 50, 52, 49, 56, 49, 56, 50, 51, 53, 49, 50, 50, 53, 49, 48, 55, 49, 51, 53, 54, 49, 56, 49, 55, 54, 57, 51, 55, 54, 53, 55, 55, 54, 53, 49, 51, 57, 48, 48, 50, 56, 50, 57, 55, 55, 57, 54, 49, 53, 54, 50, 48, 56, 56, 49, 53, 51, 55, 53, 48, 56, 57, 49, 53, 57, 49, 50, 56, 51, 57, 52, 57, 52, 53, 55, 49, 48, 53, 49, 53, 56, 54, 49, 51, 51, 52, 52, 56, 54, 50, 54, 55, 49, 48, 49, 55, 57, 55, 52, 57, 55, 49, 49, 49, 49, 50, 53, 57, 48, 57, 50, 55, 50, 53, 48, 53, 49, 57, 52, 55, 57, 50, 56, 55, 48, 56, 56, 57, 54, 49, 55, 49, 55, 57, 55, 53, 56, 55, 48, 51, 52, 52, 50, 54, 48, 56, 48, 49, 54, 49, 52, 51, 51, 52, 51, 50, 54, 50, 49, 53, 57, 57, 57, 56, 49, 52, 57, 55, 48, 48, 54, 48, 54, 53, 57, 55, 55, 57, 50, 53, 51, 53, 53, 55, 52, 52, 53, 55, 53, 54, 48, 52, 50, 57, 50, 50, 54, 57, 55, 52, 50, 55, 51, 52, 52, 51, 54, 51, 48, 51, 50, 51, 56, 49, 56, 55, 52, 55, 55, 51, 48, 55, 55, 49, 51, 49, 54, 55, 54, 51, 51, 57, 56, 53, 55, 50, 49, 49, 48, 56, 55, 52, 57, 53, 57, 57, 56, 49, 57, 50, 51, 55, 51, 50, 52, 54, 51, 48, 55, 54, 56, 56, 52, 53, 50, 56, 54, 55, 55, 51, 57, 50, 54, 53, 52, 49, 53, 48, 48, 49, 48, 50, 54, 57, 56, 50, 50, 50, 51, 57, 52, 48, 49, 57, 57, 51, 52, 50, 55, 52, 56, 50, 51, 55, 54, 53, 49, 51, 50, 51, 49, 51, 56, 57, 50, 49, 50, 51, 53, 51, 53, 56, 51, 53, 55, 51, 53, 54, 54, 51, 55, 54, 57, 49, 53, 53, 55, 50, 54, 53, 48, 57, 49, 54, 56, 54, 54, 53, 53, 51, 54, 49, 50, 51, 54, 54, 49, 56, 55, 51, 55, 56, 57, 53, 57, 53, 53, 52, 57, 56, 51, 53, 54, 54, 55, 49, 50, 55, 54, 55, 48, 57, 51, 51, 55, 50, 57, 48, 54, 48, 51, 48, 49, 56, 56, 57, 55, 54, 50, 50, 48, 49, 54, 57, 48, 53, 56, 48, 50, 53, 51, 53, 52, 57, 55, 51, 54, 50, 50, 50, 49, 49, 54, 54, 54, 53, 48, 52, 53, 52, 57, 51, 49, 54, 57, 53, 56, 50, 55, 49, 56, 56, 48, 57, 55, 53, 54, 57, 55, 49, 52, 51, 53, 52, 54, 53, 54, 52, 52, 54, 57, 56, 48, 54, 55, 57, 49, 51, 53, 56, 55, 48, 55, 51, 49, 56, 56, 55, 51, 48, 55, 53, 55, 48, 56, 51, 56, 51, 51, 52, 53, 48, 48, 52, 48, 57, 48, 49, 53, 49, 57, 55, 52, 48, 54, 56, 51, 50, 53, 56, 51, 56, 49, 55, 55, 53, 51, 49, 50, 54, 54, 57, 53, 52, 49, 55, 55, 52, 48, 54, 54, 54, 49, 51, 57, 50, 50, 50, 57, 56, 48, 49, 51, 52, 57, 57, 57, 52, 54, 57, 53, 57, 52, 49, 53, 48, 57, 57, 51, 53, 54, 53, 53, 51, 53, 53, 54, 53, 50, 57, 56, 53, 55, 50, 51, 55, 56, 50, 49, 53, 51, 53, 55, 48, 48, 56, 52, 48, 56, 57, 53, 54, 48, 49, 51, 57, 49, 52, 50, 50, 51, 49, 46, 55, 51, 56, 52, 55, 53, 48, 52, 50, 51, 54, 50, 53, 57, 54, 56, 55, 53, 52, 52, 57, 49, 53, 52, 53, 53, 50, 51, 57, 50, 50, 57, 57, 53, 52, 56, 57, 52, 55, 49, 51, 56, 49, 54, 50, 48, 56, 49, 54, 57, 52, 49, 54, 56, 54, 55, 53, 51, 52, 48, 54, 55, 55, 56, 52, 51, 56, 48, 55, 54, 49, 51, 49, 50, 57, 55, 56, 48, 52, 52, 57, 51, 50, 51, 51, 54, 51, 55, 53, 57, 48, 50, 55, 48, 49, 50, 57, 55, 50, 52, 54, 54, 57, 56, 55, 51, 55, 48, 57, 50, 49, 56, 49, 54, 56, 49, 51, 49, 54, 50, 54, 53, 56, 55, 53, 52, 55, 50, 54, 53, 52, 53, 49, 50, 49, 48, 57, 48, 53, 52, 53, 53, 48, 55, 50, 52, 48, 50, 54, 55, 48, 48, 48, 52, 53, 54, 53, 57, 52, 55, 56, 54, 53, 52, 48, 57, 52, 57, 54, 48, 53, 50, 54, 48, 55, 50, 50, 52, 54, 49, 57, 51, 55, 56, 55, 48, 54, 51, 48, 54, 51, 52, 56, 55, 52, 57, 57, 49, 55, 50, 57, 51, 57, 56, 50, 48, 56, 48, 50, 54, 52, 54, 55, 54, 57, 56, 49, 51, 49, 56, 57, 56, 54, 57, 49, 56, 51, 48, 48, 49, 50, 49, 54, 55, 56, 57, 55, 51, 57, 57, 54, 56, 50, 49, 55, 57, 54, 48, 49, 55, 51, 52, 53, 54, 57, 48, 55, 49, 52, 50, 51, 54, 56, 49, 101, 45, 55, 51, 51], .double, 9218868437227405312, .outOfRange, 46, Fmt.general, 1993⟩,
  ⟨1356, [49, 55, 57, 55, 54, 57, 51, 49, 51, 52, 56, 54, 50, 51, 49, 53, 56, 48, 55, 57, 51, 55, 50, 56, 57, 55, 49, 52, 48, 53, 51, 48, 51, 52, 49, 53, 48, 55, 57, 57, 51, 52, 49, 51, 50, 55, 49, 48, 48, 51, 55, 56, 50, 54, 57, 51, 54, 49, 55, 51, 55, 55, 56, 57, 56, 48, 52, 52, 52, 57, 54, 56, 50, 57, 50, 55, 54, 52, 55, 53, 48, 57, 52, 54, 54, 52, 57, 48, 49, 55, 57, 55, 55, 53, 56, 55, 50, 48, 55, 48, 57, 54, 51, 51, 48, 50, 56, 54, 52, 49, 54, 54, 57, 50, 56, 56, 55, 57, 49, 48, 57, 52, 54, 53, 53, 53, 53, 52, 55, 56, 53, 49, 57, 52, 48, 52, 48, 50, 54, 51, 48, 54, 53, 55, 52, 56, 56, 54, 55, 49, 53, 48, 53, 56, 50, 48, 54, 56, 49, 57, 48, 56, 57, 48, 50, 48, 48, 48, 55, 48, 56, 51, 56, 51, 54, 55, 54, 50, 55, 51, 56, 53, 52, 56, 52, 53, 56, 49, 55, 55, 49, 49, 53, 51, 49, 55, 54, 52, 52, 55, 53, 55, 51, 48, 50, 55, 48, 48, 54, 57, 56, 53, 53, 53, 55, 49, 51, 54, 54, 57, 53, 57, 54, 50, 50, 56, 52, 50, 57, 49, 52, 56, 49, 57, 56, 54, 48, 56, 51, 52, 57, 51, 54, 52, 55, 53, 50, 57, 50, 55, 49, 57, 48, 55, 52, 49, 54, 56, 52, 52, 52, 51, 54, 53, 53, 49, 48, 55, 48, 52, 51, 52, 50, 55, 49, 49, 53, 53, 57, 54, 57, 57, 53, 48, 56, 48, 57, 51, 48, 52, 50, 56, 56, 48, 49, 55, 55, 57, 48, 52, 49, 55, 52, 52, 57, 55, 55, 57, 49], .double, 9218868437227405311, .ok, 46, Fmt.general, 309⟩,
  ⟨1388, [57, 48, 48, 55, 49, 57, 57, 50, 53, 52, 55, 52, 48, 57, 57, 51, 44] ++ List.replicate 1001 48, .double, 4845873199050653696, .ok, 44, Fmt.general, 1018⟩]

example : floats11.all (FloatVec.check Cfg.x64 .char) = true := by decide +kernel
example : floats11.all (FloatVec.check small c32) = true := by decide +kernel
example : floats11.all (FloatVec.check compileTime c16) = true := by decide +kernel

def floats12 : List FloatVec := [
  ⟨1390, [57, 51, 53, 53, 57, 53, 48, 48, 48, 48, 48, 48, 48, 48, 48, 48, 48, 48, 48, 44] ++ List.replicate 34 48 ++ [49, 56, 52, 52, 54, 55, 52, 52, 48, 55, 51, 55, 48, 57, 53, 53, 49, 54, 49, 54, 48, 48, 48, 48, 48, 49, 56, 52, 52, 54, 55, 52, 52, 48, 55, 51, 55, 48, 57, 53, 53, 49, 54, 49, 54, 49, 56, 52, 52, 54, 55, 52, 52, 48, 55, 51, 55, 48, 57, 53, 53, 49, 54, 49, 52, 48, 55, 51, 55, 48, 57, 53, 53, 49, 54, 49, 54, 49, 56, 52, 52, 54, 55, 52, 52, 48, 55, 51, 55, 48, 57, 53, 53, 49, 54, 49, 54, 48, 48, 48, 49, 56, 52, 52, 54, 55, 52, 52, 48, 55, 51, 55, 48, 57, 53, 53, 49, 54, 49, 54, 54, 48, 48, 48, 48, 48, 49, 56, 52, 52, 54, 55, 52, 52, 48, 55, 51, 55, 48, 57, 53, 53, 49, 54, 49, 54, 49, 56, 52, 52, 54, 55, 52, 52, 48, 55, 51, 55, 48, 57, 53, 53, 49, 54, 49, 52, 48, 55, 51, 55, 48, 57, 53, 53, 49, 54, 49, 54, 49, 56, 52, 52, 54, 55, 52, 52, 48, 55, 51, 55, 48, 57, 53, 53, 49, 54, 49, 54, 48, 48, 48, 49, 56, 52, 52, 54, 55, 52, 52, 48, 55, 51, 55, 48, 57, 53, 53, 49, 54, 49, 54, 48, 49, 56, 52, 52, 54, 55, 52, 52, 48, 55, 51, 55, 48, 57, 53, 53, 54, 55, 52, 52, 53, 49, 54, 49, 54, 49, 56, 52, 52, 54, 55, 52, 52, 48, 55, 51, 55, 48, 57, 53, 53, 49, 54, 49, 52, 48, 55, 51, 55, 48, 57, 53, 53, 49, 54, 49, 54, 49, 56, 52, 52, 54, 55, 52, 52, 48, 55, 51, 55, 48, 57, 53, 53, 49, 54, 49, 54, 48, 48, 48, 49, 56, 52, 52, 54, 55, 52, 52, 48, 55, 51, 55, 48, 57, 53, 53, 49, 54, 49, 54, 48, 49, 56, 52, 52, 54, 55, 52, 52, 48, 55, 51, 55, 48, 57, 53, 53, 49, 54, 49, 49, 54, 49, 54, 48, 48, 48, 49, 56, 52, 52, 54, 55, 52, 52, 48, 55, 51, 55, 48, 57, 53, 48, 48, 49, 56, 52, 52, 54, 55, 52, 52, 48, 55, 51, 55, 48, 57, 53, 53, 49, 54, 49, 54, 48, 48, 49, 56, 52, 52, 54, 55, 52, 52, 48, 55, 51, 55, 48, 57, 53, 53, 49, 54, 49, 54, 48, 48, 49, 56, 52, 52, 54, 55, 52, 52, 48, 55, 51, 55, 48, 57, 53, 53, 49, 49, 54, 56, 49, 54, 52, 52, 54, 55, 52, 52, 48, 55, 51, 55, 48, 57, 53, 53, 49, 54, 49, 54, 48, 48, 48, 49, 56, 52, 52, 48, 55, 51, 55, 48, 57, 53, 53, 49, 54, 49, 54, 48, 49, 56, 52, 52, 54, 55, 52, 52, 48, 55, 51, 55, 48, 57, 53, 53, 49, 54, 49, 54, 49, 56, 52, 52, 54, 55, 52, 52, 48, 55, 51, 55, 48, 57, 53, 53, 49, 54, 49, 54, 48, 48, 48, 49, 56, 52, 52, 54, 55, 52, 52, 48, 55, 53, 51, 54, 57, 49, 48, 55, 53, 49, 54, 48, 49, 54, 49, 49, 54, 49, 54, 48, 48, 48, 49, 56, 52, 52, 54, 55, 52, 52, 48, 55, 51, 55, 48, 57, 53, 48, 48, 49, 56, 52, 52, 54, 55, 52, 52, 48, 55, 51, 55, 48, 57, 53, 53, 49, 54, 49, 54, 48, 48, 49, 56, 52, 52, 54, 55, 52, 52, 48, 55, 51, 55, 48, 57, 53, 53, 49, 54, 49, 54, 48, 48, 49, 56, 52, 52, 54, 55, 52, 52, 48, 55, 51, 55, 48, 57, 53, 53, 49, 54, 49, 54, 49, 56, 52, 52, 54, 55, 52, 52, 48, 55, 51, 55, 48, 57, 53, 53, 49, 54, 49, 54, 48, 48, 48, 49, 56, 52, 52, 57, 53, 53, 49, 54, 49, 54, 49, 56, 52, 52, 54, 55, 52, 52, 48, 55, 51, 55, 48, 57, 53, 53, 49, 54, 49, 54, 48, 48, 48, 49, 56, 52, 52, 54, 55, 52, 52, 48, 55, 53, 51, 54, 57, 49, 48, 55, 53, 49, 54, 48, 48, 49, 56, 52, 52, 54, 55, 52, 52, 48, 55, 51, 55, 48, 57], .double, 4890973930657925660, .ok, 44, Fmt.general, 772⟩,
  ⟨1404, [50, 44, 50, 50, 53, 48, 55, 51, 56, 53, 56, 53, 48, 55, 50, 48, 50, 49, 50, 52, 49, 56, 56, 55, 48, 49, 52, 55, 57, 50, 48, 50, 50, 50, 48, 51, 50, 57, 48, 55, 50, 52, 48, 53, 50, 56, 50, 55, 57, 52, 51, 57, 48, 51, 55, 56, 49, 52, 51, 48, 51, 49, 51, 51, 56, 51, 55, 52, 51, 53, 49, 48, 55, 51, 49, 57, 50, 52, 52, 49, 57, 52, 54, 56, 54, 55, 53, 52, 52, 48, 54, 52, 51, 50, 53, 54, 51, 56, 56, 49, 56, 53, 49, 51, 56, 50, 49, 56, 56, 50, 49, 56, 53, 48, 50, 52, 51, 56, 48, 54, 57, 57, 57, 57, 57, 52, 55, 55, 51, 51, 48, 49, 51, 48, 48, 53, 54, 52, 57, 56, 56, 52, 49, 48, 55, 55, 57, 49, 57, 50, 56, 55, 52, 49, 51, 52, 49, 57, 50, 57, 50, 57, 55, 50, 48, 48, 57, 55, 48, 52, 56, 49, 57, 53, 49, 57, 57, 51, 48, 54, 55, 57, 57, 51, 50, 57, 48, 57, 54, 57, 48, 52, 50, 55, 56, 52, 48, 54, 52, 55, 51, 49, 54, 56, 50, 48, 52, 49, 53, 54, 53, 57, 50, 54, 55, 50, 56, 54, 51, 50, 57, 51, 51, 54, 51, 48, 52, 55, 52, 54, 55, 48, 49, 50, 51, 51, 49, 54, 56, 53, 50, 57, 56, 51, 52, 50, 50, 49, 53, 50, 55, 52, 52, 53, 49, 55, 50, 54, 48, 56, 51, 53, 56, 53, 57, 54, 53, 52, 53, 54, 54, 51, 49, 57, 50, 56, 50, 56, 51, 53, 50, 52, 52, 55, 56, 55, 55, 56, 55, 55, 57, 57, 56, 57, 52, 51, 49, 48, 55, 55, 57, 55, 56, 51, 56, 51, 51, 54, 57, 57, 49, 53, 57, 50, 56, 56, 53, 57, 52, 53, 53, 53, 50, 49, 51, 55, 49, 52, 49, 56, 49, 49, 50, 56, 52, 53, 56, 50, 53, 49, 49, 52, 53, 53, 56, 52, 51, 49, 57, 50, 50, 51, 48, 55, 57, 56, 57, 55, 53, 48, 52, 51, 57, 53, 48, 56, 54, 56, 53, 57, 52, 49, 50, 52, 53, 55, 50, 51, 48, 56, 57, 49, 55, 51, 56, 57, 52, 54, 49, 54, 57, 51, 54, 56, 51, 55, 50, 51, 50, 49, 49, 57, 49, 51, 55, 51, 54, 53, 56, 57, 55, 55, 57, 55, 55, 55, 50, 51, 50, 56, 54, 54, 57, 56, 56, 52, 48, 51, 53, 54, 51, 57, 48, 50, 53, 49, 48, 52, 52, 52, 52, 51, 48, 51, 53, 52, 53, 55, 51, 57, 54, 55, 51, 51, 55, 48, 54, 53, 56, 51, 57, 56, 49, 48, 53, 53, 52, 50, 48, 52, 53, 54, 54, 57, 51, 56, 50, 52, 54, 53, 56, 52, 49, 51, 55, 52, 55, 54, 48, 55, 49, 53, 53, 57, 56, 49, 49, 55, 54, 53, 55, 51, 56, 55, 55, 54, 50, 54, 55, 52, 55, 54, 54, 53, 57, 49, 50, 51, 56, 55, 49, 57, 57, 57, 51, 49, 57, 48, 52, 48, 48, 54, 51, 49, 55, 51, 51, 52, 55, 48, 57, 48, 48, 51, 48, 49, 50, 55, 57, 48, 49, 56, 56, 49, 55, 53, 50, 48, 51, 52, 52, 55, 49, 57, 48, 50, 53, 48, 48, 50, 56, 48, 54, 49, 50, 55, 55, 55, 55, 55, 57, 49, 54, 55, 57, 56, 51, 57, 49, 48, 57, 48, 53, 55, 56, 53, 56, 52, 48, 48, 54, 52, 54, 52, 55, 49, 53, 57, 52, 51, 56, 49, 48, 53, 49, 49, 52, 56, 57, 49, 53, 52, 50, 56, 50, 55, 55, 53, 48, 52, 49, 49, 55, 52, 54, 56, 50, 49, 57, 52, 49, 51, 51, 57, 53, 50, 52, 54, 54, 54, 56, 50, 53, 48, 51, 52, 51, 49, 51, 48, 54, 49, 56, 49, 53, 56, 55, 56, 50, 57, 51, 55, 57, 48, 48, 52, 50, 48, 53, 51, 57, 50, 51, 55, 53, 48, 55, 50, 48, 56, 51, 51, 54, 54, 54, 57, 51, 50, 52, 49, 53, 56, 48, 48, 48, 50, 55, 53, 56, 51, 57, 49, 49, 49, 56, 56, 53, 52, 49, 56, 56, 54, 52, 49, 53, 49, 51, 49, 54, 56, 52, 55, 56, 52, 51, 54, 51, 49, 51, 48, 56, 48, 50, 51, 55, 53, 57, 54, 50, 57, 53, 55, 55, 51, 57, 56, 51, 48, 48, 49, 55, 48, 56, 57, 56, 52, 51, 55, 53, 101, 45, 51, 48, 56], .double, 4503599627370498, .ok, 44, Fmt.general, 774⟩,
  ⟨1421, [49, 44, 48, 48, 48, 48, 48, 48, 48, 48, 48, 48, 48, 48, 48, 48, 49, 56, 56, 53, 53, 56, 57, 50, 48, 56, 55, 48, 50, 50, 51, 52, 54, 51, 56, 55, 48, 49, 55, 52, 53, 54, 54, 48, 50, 48, 54, 57, 49, 55, 53, 51, 53, 49, 53, 51, 57, 52, 54, 52, 51, 53, 53, 48, 54, 54, 51, 48, 55, 48, 53, 53, 56, 51, 54, 56, 51, 55, 51, 50, 50, 49, 57, 55, 50, 53, 54, 57, 55, 54, 49, 49, 52, 52, 54, 48, 51, 54, 48, 53, 54, 51, 53, 54, 57, 50, 51, 55, 52, 56, 51, 48, 50, 52, 54, 49, 51, 52, 50, 48, 49, 48, 54, 51, 55, 50, 50, 48, 53, 56, 101, 45, 51, 48, 57], .double, 202402253307311, .ok, 44, Fmt.general, 135⟩,
  ⟨1482, [48, 44] ++ List.replicate 307 48 ++ [52, 52, 53, 48, 49, 52, 55, 55, 49, 55, 48, 49, 52, 52, 48, 50, 50, 55, 50, 49, 49, 52, 56, 49, 57, 53, 57, 51, 52, 49, 56, 50, 54, 51, 57, 53, 49, 56, 54, 57, 54, 51, 57, 48, 57, 50, 55, 48, 51, 50, 57, 49, 50, 57, 54, 48, 52, 54, 56, 53, 50, 50, 49, 57, 52, 52, 57, 54, 52, 52, 52, 52, 52, 48, 52, 50, 49, 53, 51, 56, 57, 49, 48, 51, 51, 48, 53, 57, 48, 52, 55, 56, 49, 54, 50, 55, 48, 49, 55, 53, 56, 50, 56, 50, 57, 56, 51, 49, 55, 56, 50, 54, 48, 55, 57, 50, 52, 50, 50, 49, 51, 55, 52, 48, 49, 55, 50, 56, 55, 55, 51, 56, 57, 49, 56, 57, 50, 57, 49, 48, 53, 53, 51, 49, 52, 52, 49, 52, 56, 49, 53, 54, 52, 49, 50, 52, 51, 52, 56, 54, 55, 53, 57, 57, 55, 54, 50, 56, 50, 49, 50, 54, 53, 51, 52, 54, 53, 56, 53, 48, 55, 49, 48, 52, 53, 55, 51, 55, 54, 50, 55, 52, 52, 50, 57, 56, 48, 50, 53, 57, 54, 50, 50, 52, 52, 57, 48, 50, 57, 48, 51, 55, 55, 57, 54, 57, 56, 49, 49, 52, 52, 52, 52, 54, 49, 52, 53, 55, 48, 53, 49, 48, 50, 54, 54, 51, 49, 49, 53, 49, 48, 48, 51, 49, 56, 50, 56, 55, 57, 52, 57, 53, 50, 55, 57, 53, 57, 54, 54, 56, 50, 51, 54, 48, 51, 57, 57, 56, 54, 52, 55, 57, 50, 53, 48, 57, 54, 53, 55, 56, 48, 51, 52, 50, 49, 52, 49, 54, 51, 55, 48, 49, 51, 56, 49, 50, 54, 49, 51, 51, 51, 51, 49, 49, 57, 56, 57, 56, 55, 54, 53, 53, 49, 53, 52, 53, 49, 52, 52, 48, 51, 49, 53, 50, 54, 49, 50, 53, 51, 56, 49, 51, 50, 54, 54, 54, 53, 50, 57, 53, 49, 51, 48, 54, 48, 48, 48, 49, 56, 52, 57, 49, 55, 55, 54, 54, 51, 50, 56, 54, 54, 48, 55, 53, 53, 53, 57, 53, 56, 51, 55, 51, 57, 50, 50, 52, 48, 57, 56, 57, 57, 52, 55, 56, 48, 55, 53, 53, 54, 53, 57, 52, 48, 57, 56, 49, 48, 49, 48, 50, 49, 54, 49, 50, 49, 57, 56, 56, 49, 52, 54, 48, 53, 50, 53, 56, 55, 52, 50, 53, 55, 57, 49, 55, 57, 48, 48, 48, 48, 55, 49, 54, 55, 53, 57, 57, 57, 51, 52, 52, 49, 52, 53, 48, 56, 54, 48, 56, 55, 50, 48, 53, 54, 56, 49, 53, 55, 55, 57, 49, 53, 52, 51, 53, 57, 50, 51, 48, 49, 56, 57, 49, 48, 51, 51, 52, 57, 54, 52, 56, 54, 57, 52, 50, 48, 54, 49, 52, 48, 53, 50, 49, 56, 50, 56, 57, 50, 52, 51, 49, 52, 52, 53, 55, 57, 55, 54, 48, 53, 49, 54, 51, 54, 53, 48, 57, 48, 51, 54, 48, 54, 53, 49, 52, 49, 52, 48, 51, 55, 55, 50, 49, 55, 52, 52, 50, 50, 54, 50, 53, 54, 49, 53, 57, 48, 50, 52, 52, 54, 54, 56, 53, 50, 53, 55, 54, 55, 51, 55, 50, 52, 52, 54, 52, 51, 48, 48, 55, 53, 53, 49, 51, 51, 51, 50, 52, 53, 48, 48, 55, 57, 54, 53, 48, 54, 56, 54, 55, 49, 57, 52, 57, 49, 51, 55, 55, 54, 56, 56, 52, 55, 56, 48, 48, 53, 51, 48, 57, 57, 54, 51, 57, 54, 55, 55, 48, 57, 55, 53, 56, 57, 54, 53, 56, 52, 52, 49, 51, 55, 56, 57, 52, 52, 51, 51, 55, 57, 54, 54, 50, 49, 57, 57, 51, 57, 54, 55, 51, 49, 54, 57, 51, 54, 50, 56, 48, 52, 53, 55, 48, 56, 52, 56, 54, 54, 54, 49, 51, 50, 48, 54, 55, 57, 55, 48, 49, 55, 55, 50, 56, 57, 49, 54, 48, 56, 48, 48, 50, 48, 54, 57, 56, 54, 55, 57, 52, 48, 56, 53, 53, 49, 51, 52, 51, 55, 50, 56, 56, 54, 55, 54, 55, 53, 52, 48, 57, 55, 50, 48, 55, 53, 55, 50, 51, 50, 52, 53, 53, 52, 51, 52, 55, 55, 48, 57, 49, 50, 52, 54, 49, 51, 49, 55, 52, 57, 51, 53, 56, 48, 50, 56, 49, 55, 51, 52, 52, 54, 54, 53, 53, 50, 55, 51, 52, 51, 55, 53], .double, 9007199254740991, .ok, 44, Fmt.general, 1076⟩,
  ⟨1500, [48, 44] ++ List.replicate 307 48 ++ [50, 50, 50, 53, 48, 55, 51, 56, 53, 56, 53, 48, 55, 50, 48, 48, 56, 56, 57, 48, 50, 52, 53, 56, 54, 56, 55, 54, 48, 56, 53, 56, 53, 57, 56, 56, 55, 54, 53, 48, 52, 50, 51, 49, 49, 50, 50, 52, 48, 57, 53, 57, 52, 54, 53, 52, 57, 51, 53, 50, 52, 56, 48, 50, 53, 54, 50, 52, 52, 48, 48, 48, 57, 50, 50, 56, 50, 51, 53, 54, 57, 53, 49, 55, 56, 55, 55, 53, 56, 56, 56, 56, 48, 51, 55, 53, 57, 49, 53, 53, 50, 54, 52, 50, 51, 48, 57, 55, 56, 48, 57, 53, 48, 52, 51, 52, 51, 49, 50, 48, 56, 53, 56, 55, 55, 51, 56, 55, 49, 53, 56, 51, 53, 55, 50, 57, 49, 56, 50, 49, 57, 57, 51, 48, 50, 48, 50, 57, 52, 51, 55, 57, 50, 50, 52, 50, 50, 51, 53, 53, 57, 56, 49, 57, 56, 50, 55, 53, 48, 49, 50, 52, 50, 48, 52, 49, 55, 56, 56, 57, 54, 57, 53, 55, 49, 51, 49, 49, 55, 57, 49, 48, 56, 50, 50, 54, 49, 48, 52, 51, 57, 55, 49, 57, 55, 57, 54, 48, 52, 48, 48, 48, 52, 53, 52, 56, 57, 55, 51, 57, 49, 57, 51, 56, 48, 55, 57, 49, 57, 56, 57, 51, 54, 48, 56, 49, 53, 50, 53, 54, 49, 51, 49, 49, 51, 51, 55, 54, 49, 52, 57, 56, 52, 50, 48, 52, 51, 50, 55, 49, 55, 53, 49, 48, 51, 51, 54, 50, 55, 51, 57, 49, 53, 52, 57, 55, 56, 50, 55, 51, 49, 53, 57, 52, 49, 52, 51, 56, 50, 56, 49, 51, 54, 50, 55, 53, 49, 49, 51, 56, 51, 56, 54, 48, 52, 48, 57, 52, 50, 52, 57, 52, 54, 52, 57, 52, 50, 50, 56, 54, 51, 49, 54, 54, 57, 53, 52, 50, 57, 49, 48, 53, 48, 56, 48, 50, 48, 49, 56, 49, 53, 57, 50, 54, 54, 52, 50, 49, 51, 52, 57, 57, 54, 54, 48, 54, 53, 49, 55, 56, 48, 51, 48, 57, 53, 48, 55, 53, 57, 49, 51, 48, 53, 56, 55, 49, 57, 56, 52, 54, 52, 50, 51, 57, 48, 54, 48, 54, 56, 54, 51, 55, 49, 48, 50, 48, 48, 53, 49, 48, 56, 55, 50, 51, 50, 56, 50, 55, 56, 52, 54, 55, 56, 56, 52, 51, 54, 51, 49, 57, 52, 52, 53, 49, 53, 56, 54, 54, 49, 51, 53, 48, 52, 49, 50, 50, 51, 52, 55, 57, 48, 49, 52, 55, 57, 50, 51, 54, 57, 53, 56, 53, 50, 48, 56, 51, 50, 49, 53, 57, 55, 54, 50, 49, 48, 54, 54, 51, 55, 53, 52, 48, 49, 54, 49, 51, 55, 51, 54, 53, 56, 51, 48, 52, 52, 49, 57, 51, 54, 48, 51, 55, 49, 52, 55, 55, 56, 51, 53, 53, 51, 48, 54, 54, 56, 50, 56, 51, 52, 53, 51, 53, 54, 51, 52, 48, 48, 53, 48, 55, 52, 48, 55, 51, 48, 52, 48, 49, 51, 53, 54, 48, 50, 57, 54, 56, 48, 52, 54, 51, 55, 53, 57, 49, 56, 53, 56, 51, 49, 54, 51, 49, 50, 52, 50, 50, 52, 53, 50, 49, 53, 57, 57, 50, 54, 50, 53, 52, 54, 52, 57, 52, 51, 48, 48, 56, 51, 54, 56, 53, 49, 56, 54, 49, 55, 49, 57, 52, 50, 50, 52, 49, 55, 54, 52, 54, 52, 53, 53, 49, 51, 55, 49, 51, 53, 52, 50, 48, 49, 51, 50, 50, 49, 55, 48, 51, 49, 51, 55, 48, 52, 57, 54, 53, 56, 51, 50, 49, 48, 49, 53, 52, 54, 53, 52, 48, 54, 56, 48, 51, 53, 51, 57, 55, 52, 49, 55, 57, 48, 54, 48, 50, 50, 53, 56, 57, 53, 48, 51, 48, 50, 51, 53, 48, 49, 57, 51, 55, 53, 49, 57, 55, 55, 51, 48, 51, 48, 57, 52, 53, 55, 54, 51, 49, 55, 51, 50, 49, 48, 56, 53, 50, 53, 48, 55, 50, 57, 57, 51, 48, 53, 48, 56, 57, 55, 54, 49, 53, 56, 50, 53, 49, 57, 49, 53, 57, 55, 50, 48, 55, 53, 55, 50, 51, 50, 52, 53, 53, 52, 51, 52, 55, 55, 48, 57, 49, 50, 52, 54, 49, 51, 49, 55, 52, 57, 51, 53, 56, 48, 50, 56, 49, 55, 51, 52, 52, 54, 54, 53, 53, 50, 55, 51, 52, 51, 55, 53], .double, 4503599627370495, .ok, 44, Fmt.general, 1076⟩,
  ⟨1571, [49, 46, 49, 55, 53, 52, 57, 52, 49, 52, 48, 54, 50, 55, 53, 49, 55, 56, 53, 57, 50, 52, 54, 49, 55, 53, 56, 57, 56, 54, 54, 50, 56, 48, 56, 49, 56, 52, 51, 51, 49, 50, 52, 53, 56, 54, 52, 55, 51, 50, 55, 57, 54, 50, 52, 48, 48, 51, 49, 51, 56, 53, 57, 52, 50, 55, 49, 56, 49, 55, 52, 54, 55, 53, 57, 56, 54, 48, 54, 52, 55, 54, 57, 57, 55, 50, 52, 55, 50, 50, 55, 55, 48, 48, 52, 50, 55, 49, 55, 52, 53, 54, 56, 49, 55, 54, 50, 54, 57, 53, 51, 49, 50, 53], .float, 1066825368, .ok, 46, Fmt.general, 114⟩,
  ⟨1575, [49, 46, 49, 55, 53, 52, 57, 52, 49, 52, 48, 54, 50, 55, 53, 49, 55, 56, 53, 57, 50, 52, 54, 49, 55, 53, 56, 57, 56, 54, 54, 50, 56, 48, 56, 49, 56, 52, 51, 51, 49, 50, 52, 53, 56, 54, 52, 55, 51, 50, 55, 57, 54, 50, 52, 48, 48, 51, 49, 51, 56, 53, 57, 52, 50, 55, 49, 56, 49, 55, 52, 54, 55, 53, 57, 56, 54, 48, 54, 52, 55, 54, 57, 57, 55, 50, 52, 55, 50, 50, 55, 55, 48, 48, 52, 50, 55, 49, 55, 52, 53, 54, 56, 49, 55, 54, 50, 54, 57, 53, 51, 49, 50, 53, 101, 45, 51, 56], .float, 8388606, .ok, 46, Fmt.general, 118⟩,
  ⟨1581, [49, 46, 49, 55, 53, 52, 57, 52, 49, 52, 48, 54, 50, 55, 53, 49, 55, 56, 53, 57, 50, 52, 54, 49, 55, 53, 56, 57, 56, 54, 54, 50, 56, 48, 56, 49, 56, 52, 51, 51, 49, 50, 52, 53, 56, 54, 52, 55, 51, 50, 55, 57, 54, 50, 52, 48, 48, 51, 49, 51, 56, 53, 57, 52, 50, 55, 49, 56, 49, 55, 52, 54, 55, 53, 57, 56, 54, 48, 54, 52, 55, 54, 57, 57, 55, 50, 52, 55, 50, 50, 55, 55, 48, 48, 52, 50, 55, 49, 55, 52, 53, 54, 56, 49, 55, 54, 50, 54, 57, 53, 51, 49, 50, 53] ++ List.replicate 655 48, .float, 1066825368, .ok, 46, Fmt.general, 769⟩,
  ⟨1587, [49, 46, 49, 55, 53, 52, 57, 52, 49, 52, 48, 54, 50, 55, 53, 49, 55, 56, 53, 57, 50, 52, 54, 49, 55, 53, 56, 57, 56, 54, 54, 50, 56, 48, 56, 49, 56, 52, 51, 51, 49, 50, 52, 53, 56, 54, 52, 55, 51, 50, 55, 57, 54, 50, 52, 48, 48, 51, 49, 51, 56, 53, 57, 52, 50, 55, 49, 56, 49, 55, 52, 54, 55, 53, 57, 56, 54, 48, 54, 52, 55, 54, 57, 57, 55, 50, 52, 55, 50, 50, 55, 55, 48, 48, 52, 50, 55, 49, 55, 52, 53, 54, 56, 49, 55, 54, 50, 54, 57, 53, 51, 49, 50, 53] ++ List.replicate 656 48, .float, 1066825368, .ok, 46, Fmt.general, 770⟩,
  ⟨1593, [49, 46, 49, 55, 53, 52, 57, 52, 49, 52, 48, 54, 50, 55, 53, 49, 55, 56, 53, 57, 50, 52, 54, 49, 55, 53, 56, 57, 56, 54, 54, 50, 56, 48, 56, 49, 56, 52, 51, 51, 49, 50, 52, 53, 56, 54, 52, 55, 51, 50, 55, 57, 54, 50, 52, 48, 48, 51, 49, 51, 56, 53, 57, 52, 50, 55, 49, 56, 49, 55, 52, 54, 55, 53, 57, 56, 54, 48, 54, 52, 55, 54, 57, 57, 55, 50, 52, 55, 50, 50, 55, 55, 48, 48, 52, 50, 55, 49, 55, 52, 53, 54, 56, 49, 55, 54, 50, 54, 57, 53, 51, 49, 50, 53] ++ List.replicate 1000 48, .float, 1066825368, .ok, 46, Fmt.general, 1114⟩]

example : floats12.all (FloatVec.check Cfg.x64 .char) = true := by decide +kernel
example : floats12.all (FloatVec.check small c32) = true := by decide +kernel
example : floats12.all (FloatVec.check compileTime c16) = true := by decide +kernel

def floats13 : List FloatVec := [
  ⟨1606, [49, 46, 49, 55, 53, 52, 57, 52, 49, 52, 48, 54, 50, 55, 53, 49, 55, 56, 53, 57, 50, 52, 54, 49, 55, 53, 56, 57, 56, 54, 54, 50, 56, 48, 56, 49, 56, 52, 51, 51, 49, 50, 52, 53, 56, 54, 52, 55, 51, 50, 55, 57, 54, 50, 52, 48, 48, 51, 49, 51, 56, 53, 57, 52, 50, 55, 49, 56, 49, 55, 52, 54, 55, 53, 57, 56, 54, 48, 54, 52, 55, 54, 57, 57, 55, 50, 52, 55, 50, 50, 55, 55, 48, 48, 52, 50, 55, 49, 55, 52, 53, 54, 56, 49, 55, 54, 50, 54, 57, 53, 51, 49, 50, 53] ++ List.replicate 655 48 ++ [101, 45, 51, 56], .float, 8388606, .ok, 46, Fmt.general, 773⟩,
  ⟨1613, [49, 46, 49, 55, 53, 52, 57, 52, 49, 52, 48, 54, 50, 55, 53, 49, 55, 56, 53, 57, 50, 52, 54, 49, 55, 53, 56, 57, 56, 54, 54, 50, 56, 48, 56, 49, 56, 52, 51, 51, 49, 50, 52, 53, 56, 54, 52, 55, 51, 50, 55, 57, 54, 50, 52, 48, 48, 51, 49, 51, 56, 53, 57, 52, 50, 55, 49, 56, 49, 55, 52, 54, 55, 53, 57, 56, 54, 48, 54, 52, 55, 54, 57, 57, 55, 50, 52, 55, 50, 50, 55, 55, 48, 48, 52, 50, 55, 49, 55, 52, 53, 54, 56, 49, 55, 54, 50, 54, 57, 53, 51, 49, 50, 53] ++ List.replicate 656 48 ++ [101, 45, 51, 56], .float, 8388606, .ok, 46, Fmt.general, 774⟩,
  ⟨1620, [49, 46, 49, 55, 53, 52, 57, 52, 49, 52, 48, 54, 50, 55, 53, 49, 55, 56, 53, 57, 50, 52, 54, 49, 55, 53, 56, 57, 56, 54, 54, 50, 56, 48, 56, 49, 56, 52, 51, 51, 49, 50, 52, 53, 56, 54, 52, 55, 51, 50, 55, 57, 54, 50, 52, 48, 48, 51, 49, 51, 56, 53, 57, 52, 50, 55, 49, 56, 49, 55, 52, 54, 55, 53, 57, 56, 54, 48, 54, 52, 55, 54, 57, 57, 55, 50, 52, 55, 50, 50, 55, 55, 48, 48, 52, 50, 55, 49, 55, 52, 53, 54, 56, 49, 55, 54, 50, 54, 57, 53, 51, 49, 50, 53] ++ List.replicate 1000 48 ++ [101, 45, 51, 56], .float, 8388606, .ok, 46, Fmt.general, 1118⟩,
  ⟨1673, [51, 46, 49, 52, 49, 53, 57, 50, 54, 53, 51, 53, 56, 57, 55, 57, 51, 50, 51, 56, 52, 54, 50, 54, 52, 51, 51, 56, 51, 50, 55, 57, 53, 48, 50, 56, 56, 52, 49, 57, 55, 49, 54, 57, 51, 57, 57, 51, 55, 53, 49, 48, 53, 56, 50, 48, 57, 55, 52, 57, 52, 52, 53, 57, 50, 51, 48, 55, 56, 49, 54, 52, 48, 54, 50, 56, 54, 50, 48, 56, 57, 57, 56, 54, 50, 56, 48, 51, 52, 56, 50, 53, 51, 52, 50, 49, 49, 55, 48, 54, 55, 57], .float, 1078530011, .ok, 46, Fmt.general, 102⟩,
  ⟨1686, [48, 46] ++ List.replicate 37 48 ++ [49, 49, 55, 53, 52, 57, 52, 51, 53, 48, 56, 50, 50, 50, 56, 55, 53, 48, 55, 57, 54, 56, 55, 51, 54, 53, 51, 55, 50, 50, 50, 50, 52, 53, 54, 55, 55, 56, 49, 56, 54, 54, 53, 53, 53, 54, 55, 55, 50, 48, 56, 55, 53, 50, 49, 53, 48, 56, 55, 53, 49, 55, 48, 54, 50, 55, 56, 52, 49, 55, 50, 53, 57, 52, 53, 52, 55, 50, 55, 49, 55, 50, 56, 53, 49, 53, 54, 50, 53], .double, 4039728865751334912, .ok, 46, Fmt.general, 128⟩,
  ⟨1691, [48, 46] ++ List.replicate 44 48 ++ [49, 52, 48, 49, 50, 57, 56, 52, 54, 52, 51, 50, 52, 56, 49, 55, 48, 55, 48, 57, 50, 51, 55, 50, 57, 53, 56, 51, 50, 56, 57, 57, 49, 54, 49, 51, 49, 50, 56, 48, 50, 54, 49, 57, 52, 49, 56, 55, 54, 53, 49, 53, 55, 55, 49, 55, 53, 55, 48, 54, 56, 50, 56, 51, 56, 56, 57, 55, 57, 49, 48, 56, 50, 54, 56, 53, 56, 54, 48, 54, 48, 49, 52, 56, 54, 54, 51, 56, 49, 56, 56, 51, 54, 50, 49, 50, 49, 53, 56, 50, 48, 51, 49, 50, 53], .float, 1, .ok, 46, Fmt.general, 151⟩,
  ⟨1697, [48, 46] ++ List.replicate 37 48 ++ [50, 51, 53, 48, 57, 56, 56, 53, 54, 49, 53, 49, 52, 55, 50, 56, 53, 56, 51, 52, 53, 53, 55, 54, 53, 57, 56, 50, 48, 55, 49, 53, 51, 51, 48, 50, 54, 54, 52, 53, 55, 49, 55, 57, 56, 53, 53, 49, 55, 57, 56, 48, 56, 53, 53, 51, 54, 53, 57, 50, 54, 50, 51, 54, 56, 53, 48, 48, 48, 54, 49, 50, 57, 57, 51, 48, 51, 52, 54, 48, 55, 55, 49, 49, 55, 48, 54, 52, 56, 53, 49, 51, 51, 54, 49, 56, 49, 49, 54, 51, 55, 56, 55, 56, 52, 49, 55, 57, 54, 56, 55, 53], .float, 16777215, .ok, 46, Fmt.general, 151⟩,
  ⟨1703, [48, 46] ++ List.replicate 37 48 ++ [49, 49, 55, 53, 52, 57, 52, 50, 49, 48, 54, 57, 50, 52, 52, 49, 48, 55, 53, 52, 56, 55, 48, 50, 57, 52, 52, 52, 56, 52, 57, 50, 56, 55, 51, 52, 56, 56, 50, 55, 48, 53, 50, 52, 50, 56, 55, 52, 53, 56, 57, 51, 51, 51, 51, 56, 53, 55, 49, 55, 52, 53, 51, 48, 53, 55, 49, 53, 56, 56, 56, 55, 48, 52, 55, 53, 54, 49, 56, 57, 48, 52, 50, 54, 53, 53, 48, 50, 51, 53, 49, 51, 51, 54, 49, 56, 49, 49, 54, 51, 55, 56, 55, 56, 52, 49, 55, 57, 54, 56, 55, 53], .float, 8388607, .ok, 46, Fmt.general, 151⟩,
  ⟨1723, [49, 44, 49, 55, 53, 52, 57, 52, 49, 52, 48, 54, 50, 55, 53, 49, 55, 56, 53, 57, 50, 52, 54, 49, 55, 53, 56, 57, 56, 54, 54, 50, 56, 48, 56, 49, 56, 52, 51, 51, 49, 50, 52, 53, 56, 54, 52, 55, 51, 50, 55, 57, 54, 50, 52, 48, 48, 51, 49, 51, 56, 53, 57, 52, 50, 55, 49, 56, 49, 55, 52, 54, 55, 53, 57, 56, 54, 48, 54, 52, 55, 54, 57, 57, 55, 50, 52, 55, 50, 50, 55, 55, 48, 48, 52, 50, 55, 49, 55, 52, 53, 54, 56, 49, 55, 54, 50, 54, 57, 53, 51, 49, 50, 53], .float, 1066825368, .ok, 44, Fmt.general, 114⟩,
  ⟨1727, [49, 44, 49, 55, 53, 52, 57, 52, 49, 52, 48, 54, 50, 55, 53, 49, 55, 56, 53, 57, 50, 52, 54, 49, 55, 53, 56, 57, 56, 54, 54, 50, 56, 48, 56, 49, 56, 52, 51, 51, 49, 50, 52, 53, 56, 54, 52, 55, 51, 50, 55, 57, 54, 50, 52, 48, 48, 51, 49, 51, 56, 53, 57, 52, 50, 55, 49, 56, 49, 55, 52, 54, 55, 53, 57, 56, 54, 48, 54, 52, 55, 54, 57, 57, 55, 50, 52, 55, 50, 50, 55, 55, 48, 48, 52, 50, 55, 49, 55, 52, 53, 54, 56, 49, 55, 54, 50, 54, 57, 53, 51, 49, 50, 53, 101, 45, 51, 56], .float, 8388606, .ok, 44, Fmt.general, 118⟩]

example : floats13.all (FloatVec.check Cfg.x64 .char) = true := by decide +kernel
example : floats13.all (FloatVec.check small c32) = true := by decide +kernel
example : floats13.all (FloatVec.check compileTime c16) = true := by decide +kernel

def floats14 : List FloatVec := [
  ⟨1731, [49, 44, 49, 55, 53, 52, 57, 52, 49, 52, 48, 54, 50, 55, 53, 49, 55, 56, 53, 57, 50, 52, 54, 49, 55, 53, 56, 57, 56, 54, 54, 50, 56, 48, 56, 49, 56, 52, 51, 51, 49, 50, 52, 53, 56, 54, 52, 55, 51, 50, 55, 57, 54, 50, 52, 48, 48, 51, 49, 51, 56, 53, 57, 52, 50, 55, 49, 56, 49, 55, 52, 54, 55, 53, 57, 56, 54, 48, 54, 52, 55, 54, 57, 57, 55, 50, 52, 55, 50, 50, 55, 55, 48, 48, 52, 50, 55, 49, 55, 52, 53, 54, 56, 49, 55, 54, 50, 54, 57, 53, 51, 49, 50, 53] ++ List.replicate 655 48, .float, 1066825368, .ok, 44, Fmt.general, 769⟩,
  ⟨1737, [49, 44, 49, 55, 53, 52, 57, 52, 49, 52, 48, 54, 50, 55, 53, 49, 55, 56, 53, 57, 50, 52, 54, 49, 55, 53, 56, 57, 56, 54, 54, 50, 56, 48, 56, 49, 56, 52, 51, 51, 49, 50, 52, 53, 56, 54, 52, 55, 51, 50, 55, 57, 54, 50, 52, 48, 48, 51, 49, 51, 56, 53, 57, 52, 50, 55, 49, 56, 49, 55, 52, 54, 55, 53, 57, 56, 54, 48, 54, 52, 55, 54, 57, 57, 55, 50, 52, 55, 50, 50, 55, 55, 48, 48, 52, 50, 55, 49, 55, 52, 53, 54, 56, 49, 55, 54, 50, 54, 57, 53, 51, 49, 50, 53] ++ List.replicate 656 48, .float, 1066825368, .ok, 44, Fmt.general, 770⟩,
  ⟨1743, [49, 44, 49, 55, 53, 52, 57, 52, 49, 52, 48, 54, 50, 55, 53, 49, 55, 56, 53, 57, 50, 52, 54, 49, 55, 53, 56, 57, 56, 54, 54, 50, 56, 48, 56, 49, 56, 52, 51, 51, 49, 50, 52, 53, 56, 54, 52, 55, 51, 50, 55, 57, 54, 50, 52, 48, 48, 51, 49, 51, 56, 53, 57, 52, 50, 55, 49, 56, 49, 55, 52, 54, 55, 53, 57, 56, 54, 48, 54, 52, 55, 54, 57, 57, 55, 50, 52, 55, 50, 50, 55, 55, 48, 48, 52, 50, 55, 49, 55, 52, 53, 54, 56, 49, 55, 54, 50, 54, 57, 53, 51, 49, 50, 53] ++ List.replicate 1000 48, .float, 1066825368, .ok, 44, Fmt.general, 1114⟩,
  ⟨1756, [49, 44, 49, 55, 53, 52, 57, 52, 49, 52, 48, 54, 50, 55, 53, 49, 55, 56, 53, 57, 50, 52, 54, 49, 55, 53, 56, 57, 56, 54, 54, 50, 56, 48, 56, 49, 56, 52, 51, 51, 49, 50, 52, 53, 56, 54, 52, 55, 51, 50, 55, 57, 54, 50, 52, 48, 48, 51, 49, 51, 56, 53, 57, 52, 50, 55, 49, 56, 49, 55, 52, 54, 55, 53, 57, 56, 54, 48, 54, 52, 55, 54, 57, 57, 55, 50, 52, 55, 50, 50, 55, 55, 48, 48, 52, 50, 55, 49, 55, 52, 53, 54, 56, 49, 55, 54, 50, 54, 57, 53, 51, 49, 50, 53] ++ List.replicate 655 48 ++ [101, 45, 51, 56], .float, 8388606, .ok, 44, Fmt.general, 773⟩,
  ⟨1763, [49, 44, 49, 55, 53, 52, 57, 52, 49, 52, 48, 54, 50, 55, 53, 49, 55, 56, 53, 57, 50, 52, 54, 49, 55, 53, 56, 57, 56, 54, 54, 50, 56, 48, 56, 49, 56, 52, 51, 51, 49, 50, 52, 53, 56, 54, 52, 55, 51, 50, 55, 57, 54, 50, 52, 48, 48, 51, 49, 51, 56, 53, 57, 52, 50, 55, 49, 56, 49, 55, 52, 54, 55, 53, 57, 56, 54, 48, 54, 52, 55, 54, 57, 57, 55, 50, 52, 55, 50, 50, 55, 55, 48, 48, 52, 50, 55, 49, 55, 52, 53, 54, 56, 49, 55, 54, 50, 54, 57, 53, 51, 49, 50, 53] ++ List.replicate 656 48 ++ [101, 45, 51, 56], .float, 8388606, .ok, 44, Fmt.general, 774⟩,
  ⟨1770, [49, 44, 49, 55, 53, 52, 57, 52, 49, 52, 48, 54, 50, 55, 53, 49, 55, 56, 53, 57, 50, 52, 54, 49, 55, 53, 56, 57, 56, 54, 54, 50, 56, 48, 56, 49, 56, 52, 51, 51, 49, 50, 52, 53, 56, 54, 52, 55, 51, 50, 55, 57, 54, 50, 52, 48, 48, 51, 49, 51, 56, 53, 57, 52, 50, 55, 49, 56, 49, 55, 52, 54, 55, 53, 57, 56, 54, 48, 54, 52, 55, 54, 57, 57, 55, 50, 52, 55, 50, 50, 55, 55, 48, 48, 52, 50, 55, 49, 55, 52, 53, 54, 56, 49, 55, 54, 50, 54, 57, 53, 51, 49, 50, 53] ++ List.replicate 1000 48 ++ [101, 45, 51, 56], .float, 8388606, .ok, 44, Fmt.general, 1118⟩,
  ⟨1780, [51, 44, 49, 52, 49, 53, 57, 50, 54, 53, 51, 53, 56, 57, 55, 57, 51, 50, 51, 56, 52, 54, 50, 54, 52, 51, 51, 56, 51, 50, 55, 57, 53, 48, 50, 56, 56, 52, 49, 57, 55, 49, 54, 57, 51, 57, 57, 51, 55, 53, 49, 48, 53, 56, 50, 48, 57, 55, 52, 57, 52, 52, 53, 57, 50, 51, 48, 55, 56, 49, 54, 52, 48, 54, 50, 56, 54, 50, 48, 56, 57, 57, 56, 54, 50, 56, 48, 51, 52, 56, 50, 53, 51, 52, 50, 49, 49, 55, 48, 54, 55, 57], .float, 1078530011, .ok, 44, Fmt.general, 102⟩,
  ⟨1793, [48, 44] ++ List.replicate 37 48 ++ [49, 49, 55, 53, 52, 57, 52, 51, 53, 48, 56, 50, 50, 50, 56, 55, 53, 48, 55, 57, 54, 56, 55, 51, 54, 53, 51, 55, 50, 50, 50, 50, 52, 53, 54, 55, 55, 56, 49, 56, 54, 54, 53, 53, 53, 54, 55, 55, 50, 48, 56, 55, 53, 50, 49, 53, 48, 56, 55, 53, 49, 55, 48, 54, 50, 55, 56, 52, 49, 55, 50, 53, 57, 52, 53, 52, 55, 50, 55, 49, 55, 50, 56, 53, 49, 53, 54, 50, 53], .float, 8388608, .ok, 44, Fmt.general, 128⟩,
  ⟨1798, [48, 44] ++ List.replicate 44 48 ++ [49, 52, 48, 49, 50, 57, 56, 52, 54, 52, 51, 50, 52, 56, 49, 55, 48, 55, 48, 57, 50, 51, 55, 50, 57, 53, 56, 51, 50, 56, 57, 57, 49, 54, 49, 51, 49, 50, 56, 48, 50, 54, 49, 57, 52, 49, 56, 55, 54, 53, 49, 53, 55, 55, 49, 55, 53, 55, 48, 54, 56, 50, 56, 51, 56, 56, 57, 55, 57, 49, 48, 56, 50, 54, 56, 53, 56, 54, 48, 54, 48, 49, 52, 56, 54, 54, 51, 56, 49, 56, 56, 51, 54, 50, 49, 50, 49, 53, 56, 50, 48, 51, 49, 50, 53], .float, 1, .ok, 44, Fmt.general, 151⟩,
  ⟨1804, [48, 44] ++ List.replicate 37 48 ++ [50, 51, 53, 48, 57, 56, 56, 53, 54, 49, 53, 49, 52, 55, 50, 56, 53, 56, 51, 52, 53, 53, 55, 54, 53, 57, 56, 50, 48, 55, 49, 53, 51, 51, 48, 50, 54, 54, 52, 53, 55, 49, 55, 57, 56, 53, 53, 49, 55, 57, 56, 48, 56, 53, 53, 51, 54, 53, 57, 50, 54, 50, 51, 54, 56, 53, 48, 48, 48, 54, 49, 50, 57, 57, 51, 48, 51, 52, 54, 48, 55, 55, 49, 49, 55, 48, 54, 52, 56, 53, 49, 51, 51, 54, 49, 56, 49, 49, 54, 51, 55, 56, 55, 56, 52, 49, 55, 57, 54, 56, 55, 53], .float, 16777215, .ok, 44, Fmt.general, 151⟩]

example : floats14.all (FloatVec.check Cfg.x64 .char) = true := by decide +kernel
example : floats14.all (FloatVec.check small c32) = true := by decide +kernel
example : floats14.all (FloatVec.check compileTime c16) = true := by decide +kernel

def floats15 : List FloatVec := [
  ⟨1810, [48, 44] ++ List.replicate 37 48 ++ [49, 49, 55, 53, 52, 57, 52, 50, 49, 48, 54, 57, 50, 52, 52, 49, 48, 55, 53, 52, 56, 55, 48, 50, 57, 52, 52, 52, 56, 52, 57, 50, 56, 55, 51, 52, 56, 56, 50, 55, 48, 53, 50, 52, 50, 56, 55, 52, 53, 56, 57, 51, 51, 51, 51, 56, 53, 55, 49, 55, 52, 53, 51, 48, 53, 55, 49, 53, 56, 56, 56, 55, 48, 52, 55, 53, 54, 49, 56, 57, 48, 52, 50, 54, 53, 53, 48, 50, 51, 53, 49, 51, 51, 54, 49, 56, 49, 49, 54, 51, 55, 56, 55, 56, 52, 49, 55, 57, 54, 56, 55, 53], .float, 8388607, .ok, 44, Fmt.general, 151⟩,
  ⟨1857, [54, 46, 48, 57, 55, 53, 53, 53, 49, 54, 48, 53, 50, 50, 52, 54, 48, 57, 51, 55, 53] ++ List.replicate 655 48, .float16, 17945, .ok, 46, Fmt.general, 676⟩,
  ⟨1858, [54, 46, 48, 57, 55, 53, 53, 53, 49, 54, 48, 53, 50, 50, 52, 54, 48, 57, 51, 55, 53] ++ List.replicate 656 48, .float16, 17945, .ok, 46, Fmt.general, 677⟩,
  ⟨1859, [54, 46, 48, 57, 55, 53, 53, 53, 49, 54, 48, 53, 50, 50, 52, 54, 48, 57, 51, 55, 53] ++ List.replicate 1000 48, .float16, 17945, .ok, 46, Fmt.general, 1021⟩,
  ⟨1860, [54, 46, 48, 57, 55, 53, 53, 53, 49, 54, 48, 53, 50, 50, 52, 54, 48, 57, 51, 55, 53] ++ List.replicate 655 48 ++ [101, 45, 53], .float16, 1023, .ok, 46, Fmt.general, 679⟩,
  ⟨1863, [54, 46, 48, 57, 55, 53, 53, 53, 49, 54, 48, 53, 50, 50, 52, 54, 48, 57, 51, 55, 53] ++ List.replicate 656 48 ++ [101, 45, 53], .float16, 1023, .ok, 46, Fmt.general, 680⟩,
  ⟨1866, [54, 46, 48, 57, 55, 53, 53, 53, 49, 54, 48, 53, 50, 50, 52, 54, 48, 57, 51, 55, 53] ++ List.replicate 1000 48 ++ [101, 45, 53], .float16, 1023, .ok, 46, Fmt.general, 1024⟩,
  ⟨1909, [51, 46, 49, 52, 49, 53, 57, 50, 54, 53, 51, 53, 56, 57, 55, 57, 51, 50, 51, 56, 52, 54, 50, 54, 52, 51, 51, 56, 51, 50, 55, 57, 53, 48, 50, 56, 56, 52, 49, 57, 55, 49, 54, 57, 51, 57, 57, 51, 55, 53, 49, 48, 53, 56, 50, 48, 57, 55, 52, 57, 52, 52, 53, 57, 50, 51, 48, 55, 56, 49, 54, 52, 48, 54, 50, 56, 54, 50, 48, 56, 57, 57, 56, 54, 50, 56, 48, 51, 52, 56, 50, 53, 51, 52, 50, 49, 49, 55, 48, 54, 55, 57], .float16, 16968, .ok, 46, Fmt.general, 102⟩,
  ⟨1973, [48, 46] ++ List.replicate 37 48 ++ [49, 49, 55, 53, 52, 57, 52, 51, 53, 48, 56, 50, 50, 50, 56, 55, 53, 48, 55, 57, 54, 56, 55, 51, 54, 53, 51, 55, 50, 50, 50, 50, 52, 53, 54, 55, 55, 56, 49, 56, 54, 54, 53, 53, 53, 54, 55, 55, 50, 48, 56, 55, 53, 50, 49, 53, 48, 56, 55, 53, 49, 55, 48, 54, 50, 55, 56, 52, 49, 55, 50, 53, 57, 52, 53, 52, 55, 50, 55, 49, 55, 50, 56, 53, 49, 53, 54, 50, 53], .bfloat16, 128, .ok, 46, Fmt.general, 128⟩,
  ⟨1984, [48, 46] ++ List.replicate 40 48 ++ [57, 49, 56, 51, 53, 52, 57, 54, 49, 53, 55, 57, 57, 49, 50, 49, 49, 53, 54, 48, 48, 53, 55, 53, 52, 49, 57, 55, 48, 52, 56, 55, 57, 52, 51, 53, 55, 57, 53, 56, 51, 50, 52, 54, 54, 50, 50, 56, 49, 57, 51, 51, 55, 54, 49, 55, 56, 55, 49, 50, 50, 55, 48, 53, 51, 48, 48, 49, 51, 52, 56, 51, 57, 52, 57, 48, 48, 53, 54, 48, 51, 55, 57, 48, 50, 56, 51, 50, 48, 51, 49, 50, 53], .bfloat16, 1, .ok, 46, Fmt.general, 135⟩]

example : floats15.all (FloatVec.check Cfg.x64 .char) = true := by decide +kernel
example : floats15.all (FloatVec.check small c32) = true := by decide +kernel
example : floats15.all (FloatVec.check compileTime c16) = true := by decide +kernel

def floats16 : List FloatVec := [
  ⟨1995, [45, 48, 46] ++ List.replicate 37 48 ++ [49, 49, 55, 53, 52, 57, 52, 51, 53, 48, 56, 50, 50, 50, 56, 55, 53, 48, 55, 57, 54, 56, 55, 51, 54, 53, 51, 55, 50, 50, 50, 50, 52, 53, 54, 55, 55, 56, 49, 56, 54, 54, 53, 53, 53, 54, 55, 55, 50, 48, 56, 55, 53, 50, 49, 53, 48, 56, 55, 53, 49, 55, 48, 54, 50, 55, 56, 52, 49, 55, 50, 53, 57, 52, 53, 52, 55, 50, 55, 49, 55, 50, 56, 53, 49, 53, 54, 50, 53], .bfloat16, 32896, .ok, 46, Fmt.general, 129⟩,
  ⟨2006, [45, 48, 46] ++ List.replicate 40 48 ++ [57, 49, 56, 51, 53, 52, 57, 54, 49, 53, 55, 57, 57, 49, 50, 49, 49, 53, 54, 48, 48, 53, 55, 53, 52, 49, 57, 55, 48, 52, 56, 55, 57, 52, 51, 53, 55, 57, 53, 56, 51, 50, 52, 54, 54, 50, 50, 56, 49, 57, 51, 51, 55, 54, 49, 55, 56, 55, 49, 50, 50, 55, 48, 53, 51, 48, 48, 49, 51, 52, 56, 51, 57, 52, 57, 48, 48, 53, 54, 48, 51, 55, 57, 48, 50, 56, 51, 50, 48, 51, 49, 50, 53], .bfloat16, 32769, .ok, 46, Fmt.general, 136⟩,
  ⟨2023, [49, 46, 49, 55, 53, 52, 57, 52, 51, 53, 48, 56, 50, 50, 50, 56, 55, 53, 48, 55, 57, 54, 56, 55, 51, 54, 53, 51, 55, 50, 50, 50, 50, 52, 53, 54, 55, 55, 56, 49, 56, 54, 54, 53, 53, 53, 54, 55, 55, 50, 48, 56, 55, 53, 50, 49, 53, 48, 56, 55, 53, 49, 55, 48, 54, 50, 55, 56, 52, 49, 55, 50, 53, 57, 52, 53, 52, 55, 50, 55, 49, 55, 50, 56, 53, 49, 53, 54, 50, 53] ++ List.replicate 655 48, .bfloat16, 16278, .ok, 46, Fmt.general, 745⟩,
  ⟨2028, [49, 46, 49, 55, 53, 52, 57, 52, 51, 53, 48, 56, 50, 50, 50, 56, 55, 53, 48, 55, 57, 54, 56, 55, 51, 54, 53, 51, 55, 50, 50, 50, 50, 52, 53, 54, 55, 55, 56, 49, 56, 54, 54, 53, 53, 53, 54, 55, 55, 50, 48, 56, 55, 53, 50, 49, 53, 48, 56, 55, 53, 49, 55, 48, 54, 50, 55, 56, 52, 49, 55, 50, 53, 57, 52, 53, 52, 55, 50, 55, 49, 55, 50, 56, 53, 49, 53, 54, 50, 53] ++ List.replicate 656 48, .bfloat16, 16278, .ok, 46, Fmt.general, 746⟩,
  ⟨2033, [49, 46, 49, 55, 53, 52, 57, 52, 51, 53, 48, 56, 50, 50, 50, 56, 55, 53, 48, 55, 57, 54, 56, 55, 51, 54, 53, 51, 55, 50, 50, 50, 50, 52, 53, 54, 55, 55, 56, 49, 56, 54, 54, 53, 53, 53, 54, 55, 55, 50, 48, 56, 55, 53, 50, 49, 53, 48, 56, 55, 53, 49, 55, 48, 54, 50, 55, 56, 52, 49, 55, 50, 53, 57, 52, 53, 52, 55, 50, 55, 49, 55, 50, 56, 53, 49, 53, 54, 50, 53] ++ List.replicate 1000 48, .bfloat16, 16278, .ok, 46, Fmt.general, 1090⟩,
  ⟨2038, [49, 46, 49, 55, 53, 52, 57, 52, 51, 53, 48, 56, 50, 50, 50, 56, 55, 53, 48, 55, 57, 54, 56, 55, 51, 54, 53, 51, 55, 50, 50, 50, 50, 52, 53, 54, 55, 55, 56, 49, 56, 54, 54, 53, 53, 53, 54, 55, 55, 50, 48, 56, 55, 53, 50, 49, 53, 48, 56, 55, 53, 49, 55, 48, 54, 50, 55, 56, 52, 49, 55, 50, 53, 57, 52, 53, 52, 55, 50, 55, 49, 55, 50, 56, 53, 49, 53, 54, 50, 53] ++ List.replicate 655 48 ++ [101, 45, 51, 56], .bfloat16, 128, .ok, 46, Fmt.general, 749⟩,
  ⟨2044, [49, 46, 49, 55, 53, 52, 57, 52, 51, 53, 48, 56, 50, 50, 50, 56, 55, 53, 48, 55, 57, 54, 56, 55, 51, 54, 53, 51, 55, 50, 50, 50, 50, 52, 53, 54, 55, 55, 56, 49, 56, 54, 54, 53, 53, 53, 54, 55, 55, 50, 48, 56, 55, 53, 50, 49, 53, 48, 56, 55, 53, 49, 55, 48, 54, 50, 55, 56, 52, 49, 55, 50, 53, 57, 52, 53, 52, 55, 50, 55, 49, 55, 50, 56, 53, 49, 53, 54, 50, 53] ++ List.replicate 656 48 ++ [101, 45, 51, 56], .bfloat16, 128, .ok, 46, Fmt.general, 750⟩,
  ⟨2050, [49, 46, 49, 55, 53, 52, 57, 52, 51, 53, 48, 56, 50, 50, 50, 56, 55, 53, 48, 55, 57, 54, 56, 55, 51, 54, 53, 51, 55, 50, 50, 50, 50, 52, 53, 54, 55, 55, 56, 49, 56, 54, 54, 53, 53, 53, 54, 55, 55, 50, 48, 56, 55, 53, 50, 49, 53, 48, 56, 55, 53, 49, 55, 48, 54, 50, 55, 56, 52, 49, 55, 50, 53, 57, 52, 53, 52, 55, 50, 55, 49, 55, 50, 56, 53, 49, 53, 54, 50, 53] ++ List.replicate 1000 48 ++ [101, 45, 51, 56], .bfloat16, 128, .ok, 46, Fmt.general, 1094⟩,
  ⟨2104, [51, 46, 49, 52, 49, 53, 57, 50, 54, 53, 51, 53, 56, 57, 55, 57, 51, 50, 51, 56, 52, 54, 50, 54, 52, 51, 51, 56, 51, 50, 55, 57, 53, 48, 50, 56, 56, 52, 49, 57, 55, 49, 54, 57, 51, 57, 57, 51, 55, 53, 49, 48, 53, 56, 50, 48, 57, 55, 52, 57, 52, 52, 53, 57, 50, 51, 48, 55, 56, 49, 54, 52, 48, 54, 50, 56, 54, 50, 48, 56, 57, 57, 56, 54, 50, 56, 48, 51, 52, 56, 50, 53, 51, 52, 50, 49, 49, 55, 48, 54, 55, 57], .bfloat16, 16457, .ok, 46, Fmt.general, 102⟩]

example : floats16.all (FloatVec.check Cfg.x64 .char) = true := by decide +kernel
example : floats16.all (FloatVec.check small c32) = true := by decide +kernel
example : floats16.all (FloatVec.check compileTime c16) = true := by decide +kernel

def ints1 : List IntVec := [
  ⟨50, [48], ⟨32, true, false, false, false⟩, 10, (some .ok), (some (0)), none⟩,
  ⟨50, [49, 48, 32], ⟨32, true, false, false, false⟩, 10, (some .ok), (some (10)), none⟩,
  ⟨50, [45, 52, 48], ⟨32, true, false, false, false⟩, 10, (some .ok), (some (-40)), none⟩,
  ⟨51, [49, 48, 48, 49, 32, 119, 105, 116, 104, 32, 116, 101, 120, 116], ⟨32, true, false, false, false⟩, 10, (some .ok), (some (1001)), none⟩,
  ⟨51, [57, 46, 57, 57, 57], ⟨32, true, false, false, false⟩, 10, (some .ok), (some (9)), none⟩,
  ⟨80, [48], ⟨32, false, false, false, false⟩, 10, (some .ok), (some (0)), none⟩,
  ⟨80, [49, 48, 32], ⟨32, false, false, false, false⟩, 10, (some .ok), (some (10)), none⟩,
  ⟨80, [49, 48, 48, 49, 32, 119, 105, 116, 104, 32, 116, 101, 120, 116], ⟨32, false, false, false, false⟩, 10, (some .ok), (some (1001)), none⟩,
  ⟨80, [57, 46, 57, 57, 57], ⟨32, false, false, false, false⟩, 10, (some .ok), (some (9)), none⟩,
  ⟨100, [48], ⟨8, true, false, false, false⟩, 10, (some .ok), (some (0)), none⟩,
  ⟨100, [49, 48, 32], ⟨8, true, false, false, false⟩, 10, (some .ok), (some (10)), none⟩,
  ⟨100, [52, 48], ⟨8, true, false, false, false⟩, 10, (some .ok), (some (40)), none⟩,
  ⟨101, [49, 48, 48, 32, 119, 105, 116, 104, 32, 116, 101, 120, 116], ⟨8, true, false, false, false⟩, 10, (some .ok), (some (100)), none⟩,
  ⟨101, [57, 46, 57, 57, 57], ⟨8, true, false, false, false⟩, 10, (some .ok), (some (9)), none⟩,
  ⟨122, [48], ⟨16, true, false, false, false⟩, 10, (some .ok), (some (0)), none⟩,
  ⟨122, [49, 48, 32], ⟨16, true, false, false, false⟩, 10, (some .ok), (some (10)), none⟩,
  ⟨122, [45, 52, 48], ⟨16, true, false, false, false⟩, 10, (some .ok), (some (-40)), none⟩,
  ⟨122, [49, 48, 48, 49, 32, 119, 105, 116, 104, 32, 116, 101, 120, 116], ⟨16, true, false, false, false⟩, 10, (some .ok), (some (1001)), none⟩,
  ⟨122, [57, 46, 57, 57, 57], ⟨16, true, false, false, false⟩, 10, (some .ok), (some (9)), none⟩,
  ⟨143, [48], ⟨64, true, false, false, false⟩, 10, (some .ok), (some (0)), none⟩,
  ⟨143, [49, 48, 32], ⟨64, true, false, false, false⟩, 10, (some .ok), (some (10)), none⟩,
  ⟨143, [45, 52, 48], ⟨64, true, false, false, false⟩, 10, (some .ok), (some (-40)), none⟩,
  ⟨143, [49, 48, 48, 49, 32, 119, 105, 116, 104, 32, 116, 101, 120, 116], ⟨64, true, false, false, false⟩, 10, (some .ok), (some (1001)), none⟩,
  ⟨143, [57, 46, 57, 57, 57], ⟨64, true, false, false, false⟩, 10, (some .ok), (some (9)), none⟩,
  ⟨165, [48], ⟨64, true, false, false, false⟩, 10, (some .ok), (some (0)), none⟩,
  ⟨165, [49, 48, 32], ⟨64, true, false, false, false⟩, 10, (some .ok), (some (10)), none⟩,
  ⟨165, [45, 52, 48], ⟨64, true, false, false, false⟩, 10, (some .ok), (some (-40)), none⟩,
  ⟨165, [49, 48, 48, 49, 32, 119, 105, 116, 104, 32, 116, 101, 120, 116], ⟨64, true, false, false, false⟩, 10, (some .ok), (some (1001)), none⟩,
  ⟨165, [57, 46, 57, 57, 57], ⟨64, true, false, false, false⟩, 10, (some .ok), (some (9)), none⟩,
  ⟨188, [48], ⟨8, false, true, false, false⟩, 10, (some .ok), (some (0)), none⟩,
  ⟨188, [49, 48, 32], ⟨8, false, true, false, false⟩, 10, (some .ok), (some (10)), none⟩,
  ⟨188, [49, 48, 48, 32, 119, 105, 116, 104, 32, 116, 101, 120, 116], ⟨8, false, true, false, false⟩, 10, (some .ok), (some (100)), none⟩,
  ⟨188, [57, 46, 57, 57, 57], ⟨8, false, true, false, false⟩, 10, (some .ok), (some (9)), none⟩,
  ⟨211, [48], ⟨16, false, false, true, false⟩, 10, (some .ok), (some (0)), none⟩,
  ⟨211, [49, 48, 32], ⟨16, false, false, true, false⟩, 10, (some .ok), (some (10)), none⟩,
  ⟨211, [49, 48, 48, 49, 32, 119, 105, 116, 104, 32, 116, 101, 120, 116], ⟨16, false, false, true, false⟩, 10, (some .ok), (some (1001)), none⟩,
  ⟨211, [57, 46, 57, 57, 57], ⟨16, false, false, true, false⟩, 10, (some .ok), (some (9)), none⟩,
  ⟨233, [48], ⟨64, false, false, false, true⟩, 10, (some .ok), (some (0)), none⟩,
  ⟨233, [49, 48, 32], ⟨64, false, false, false, true⟩, 10, (some .ok), (some (10)), none⟩,
  ⟨233, [49, 48, 48, 49, 32, 119, 105, 116, 104, 32, 116, 101, 120, 116], ⟨64, false, false, false, true⟩, 10, (some .ok), (some (1001)), none⟩,
  ⟨233, [57, 46, 57, 57, 57], ⟨64, false, false, false, true⟩, 10, (some .ok), (some (9)), none⟩,
  ⟨255, [48], ⟨64, false, false, false, false⟩, 10, (some .ok), (some (0)), none⟩,
  ⟨255, [49, 48, 32], ⟨64, false, false, false, false⟩, 10, (some .ok), (some (10)), none⟩,
  ⟨255, [49, 48, 48, 49, 32, 119, 105, 116, 104, 32, 116, 101, 120, 116], ⟨64, false, false, false, false⟩, 10, (some .ok), (some (1001)), none⟩,
  ⟨255, [57, 46, 57, 57, 57], ⟨64, false, false, false, false⟩, 10, (some .ok), (some (9)), none⟩,
  ⟨275, [48], ⟨1, false, false, false, false⟩, 10, (some .ok), (some (0)), none⟩,
  ⟨275, [49], ⟨1, false, false, false, false⟩, 10, (some .ok), (some (1)), none⟩,
  ⟨295, [116, 101, 120, 116], ⟨32, true, false, false, false⟩, 10, (some .invalidArgument), none, none⟩,
  ⟨295, [116, 101, 120, 116, 32, 119, 105, 116, 104, 32, 49, 48, 48, 50], ⟨32, true, false, false, false⟩, 10, (some .invalidArgument), none, none⟩,
  ⟨295, [43, 53, 48], ⟨32, true, false, false, false⟩, 10, (some .invalidArgument), none, none⟩,
  ⟨295, [32, 53, 48], ⟨32, true, false, false, false⟩, 10, (some .invalidArgument), none, none⟩,
  ⟨310, [116, 101, 120, 116], ⟨32, false, false, false, false⟩, 10, (some .invalidArgument), none, none⟩,
  ⟨310, [116, 101, 120, 116, 32, 119, 105, 116, 104, 32, 49, 48, 48, 50], ⟨32, false, false, false, false⟩, 10, (some .invalidArgument), none, none⟩,
  ⟨310, [43, 53, 48], ⟨32, false, false, false, false⟩, 10, (some .invalidArgument), none, none⟩,
  ⟨310, [32, 53, 48], ⟨32, false, false, false, false⟩, 10, (some .invalidArgument), none, none⟩,
  ⟨310, [45, 53, 48], ⟨32, false, false, false, false⟩, 10, (some .invalidArgument), none, none⟩,
  ⟨325, [50] ++ List.replicate 21 48, ⟨8, true, false, false, false⟩, 10, (some .outOfRange), none, none⟩,
  ⟨325, [49, 50, 56], ⟨8, true, false, false, false⟩, 10, (some .outOfRange), none, none⟩,
  ⟨325, [45, 49, 50, 57], ⟨8, true, false, false, false⟩, 10, (some .outOfRange), none, none⟩,
  ⟨340, [50] ++ List.replicate 21 48, ⟨16, true, false, false, false⟩, 10, (some .outOfRange), none, none⟩]

example : ints1.all (IntVec.check Cfg.x64 .char) = true := by decide +kernel
example : ints1.all (IntVec.check compileTime .char) = true := by decide +kernel

def ints2 : List IntVec := [
  ⟨340, [51, 50, 55, 54, 56], ⟨16, true, false, false, false⟩, 10, (some .outOfRange), none, none⟩,
  ⟨340, [45, 51, 50, 55, 54, 57], ⟨16, true, false, false, false⟩, 10, (some .outOfRange), none, none⟩,
  ⟨355, [50] ++ List.replicate 21 48, ⟨32, true, false, false, false⟩, 10, (some .outOfRange), none, none⟩,
  ⟨355, [50, 49, 52, 55, 52, 56, 51, 54, 52, 56], ⟨32, true, false, false, false⟩, 10, (some .outOfRange), none, none⟩,
  ⟨355, [45, 50, 49, 52, 55, 52, 56, 51, 54, 52, 57], ⟨32, true, false, false, false⟩, 10, (some .outOfRange), none, none⟩,
  ⟨370, [50] ++ List.replicate 21 48, ⟨64, true, false, false, false⟩, 10, (some .outOfRange), none, none⟩,
  ⟨370, [57, 50, 50, 51, 51, 55, 50, 48, 51, 54, 56, 53, 52, 55, 55, 53, 56, 48, 56], ⟨64, true, false, false, false⟩, 10, (some .outOfRange), none, none⟩,
  ⟨370, [45, 57, 50, 50, 51, 51, 55, 50, 48, 51, 54, 56, 53, 52, 55, 55, 53, 56, 48, 57], ⟨64, true, false, false, false⟩, 10, (some .outOfRange), none, none⟩,
  ⟨385, [50] ++ List.replicate 21 48, ⟨8, false, true, false, false⟩, 10, (some .outOfRange), none, none⟩,
  ⟨385, [50, 53, 54], ⟨8, false, true, false, false⟩, 10, (some .outOfRange), none, none⟩,
  ⟨400, [50] ++ List.replicate 21 48, ⟨16, false, false, true, false⟩, 10, (some .outOfRange), none, none⟩,
  ⟨400, [54, 53, 53, 51, 54], ⟨16, false, false, true, false⟩, 10, (some .outOfRange), none, none⟩,
  ⟨415, [50] ++ List.replicate 21 48, ⟨32, false, false, false, false⟩, 10, (some .outOfRange), none, none⟩,
  ⟨415, [52, 50, 57, 52, 57, 54, 55, 50, 57, 54], ⟨32, false, false, false, false⟩, 10, (some .outOfRange), none, none⟩,
  ⟨430, [50] ++ List.replicate 21 48, ⟨64, false, false, false, true⟩, 10, (some .outOfRange), none, none⟩,
  ⟨430, [49, 56, 52, 52, 54, 55, 52, 52, 48, 55, 51, 55, 48, 57, 53, 53, 49, 54, 49, 54], ⟨64, false, false, false, true⟩, 10, (some .outOfRange), none, none⟩,
  ⟨444, [48], ⟨32, true, false, false, false⟩, 10, (some .ok), none, none⟩,
  ⟨444, [48, 49, 48], ⟨32, true, false, false, false⟩, 10, (some .ok), none, none⟩,
  ⟨444, [45, 52, 48], ⟨32, true, false, false, false⟩, 10, (some .ok), none, none⟩,
  ⟨541, [48], ⟨32, true, false, false, false⟩, 2, (some .ok), (some (0)), none⟩,
  ⟨541, [49], ⟨32, true, false, false, false⟩, 2, (some .ok), (some (1)), none⟩,
  ⟨541, [49, 48, 48], ⟨32, true, false, false, false⟩, 2, (some .ok), (some (4)), none⟩,
  ⟨541, [48, 49, 48], ⟨32, true, false, false, false⟩, 2, (some .ok), (some (2)), none⟩,
  ⟨542, [45, 49], ⟨32, true, false, false, false⟩, 2, (some .ok), (some (-1)), none⟩,
  ⟨562, [48], ⟨32, false, false, false, false⟩, 2, (some .ok), (some (0)), none⟩,
  ⟨562, [49], ⟨32, false, false, false, false⟩, 2, (some .ok), (some (1)), none⟩,
  ⟨562, [49, 48, 48], ⟨32, false, false, false, false⟩, 2, (some .ok), (some (4)), none⟩,
  ⟨563, [48, 49, 48], ⟨32, false, false, false, false⟩, 2, (some .ok), (some (2)), none⟩,
  ⟨582, [50], ⟨32, true, false, false, false⟩, 2, (some .invalidArgument), none, none⟩,
  ⟨582, [65], ⟨32, true, false, false, false⟩, 2, (some .invalidArgument), none, none⟩,
  ⟨583, [45, 50], ⟨32, true, false, false, false⟩, 2, (some .invalidArgument), none, none⟩,
  ⟨599, [50], ⟨32, false, false, false, false⟩, 2, (some .invalidArgument), none, none⟩,
  ⟨599, [65], ⟨32, false, false, false, false⟩, 2, (some .invalidArgument), none, none⟩,
  ⟨599, [45, 49], ⟨32, false, false, false, false⟩, 2, (some .invalidArgument), none, none⟩,
  ⟨599, [45, 50], ⟨32, false, false, false, false⟩, 2, (some .invalidArgument), none, none⟩,
  ⟨616, [48], ⟨32, true, false, false, false⟩, 8, (some .ok), (some (0)), none⟩,
  ⟨616, [49], ⟨32, true, false, false, false⟩, 8, (some .ok), (some (1)), none⟩,
  ⟨616, [48, 55], ⟨32, true, false, false, false⟩, 8, (some .ok), (some (7)), none⟩,
  ⟨616, [48, 49, 48], ⟨32, true, false, false, false⟩, 8, (some .ok), (some (8)), none⟩,
  ⟨617, [48, 48, 49, 49], ⟨32, true, false, false, false⟩, 8, (some .ok), (some (9)), none⟩,
  ⟨637, [48], ⟨32, true, false, false, false⟩, 16, (some .ok), (some (0)), none⟩,
  ⟨637, [49], ⟨32, true, false, false, false⟩, 16, (some .ok), (some (1)), none⟩,
  ⟨637, [70], ⟨32, true, false, false, false⟩, 16, (some .ok), (some (15)), none⟩,
  ⟨638, [48, 49, 102], ⟨32, true, false, false, false⟩, 16, (some .ok), (some (31)), none⟩,
  ⟨638, [48, 120, 49, 49], ⟨32, true, false, false, false⟩, 16, (some .ok), (some (0)), none⟩,
  ⟨638, [49, 48, 88, 49, 49], ⟨32, true, false, false, false⟩, 16, (some .ok), (some (16)), none⟩,
  ⟨657, [48], ⟨32, true, false, false, false⟩, -1, (some .invalidArgument), none, none⟩,
  ⟨657, [49], ⟨32, true, false, false, false⟩, -1, (some .invalidArgument), none, none⟩,
  ⟨657, [45, 49], ⟨32, true, false, false, false⟩, -1, (some .invalidArgument), none, none⟩,
  ⟨657, [70], ⟨32, true, false, false, false⟩, -1, (some .invalidArgument), none, none⟩,
  ⟨658, [49, 48, 90], ⟨32, true, false, false, false⟩, -1, (some .invalidArgument), none, none⟩,
  ⟨673, [48], ⟨32, true, false, false, false⟩, 37, (some .invalidArgument), none, none⟩,
  ⟨673, [49], ⟨32, true, false, false, false⟩, 37, (some .invalidArgument), none, none⟩,
  ⟨673, [70], ⟨32, true, false, false, false⟩, 37, (some .invalidArgument), none, none⟩,
  ⟨673, [90], ⟨32, true, false, false, false⟩, 37, (some .invalidArgument), none, none⟩,
  ⟨674, [49, 48, 90], ⟨32, true, false, false, false⟩, 37, (some .invalidArgument), none, none⟩,
  ⟨690, [49] ++ List.replicate 63 48, ⟨64, true, false, false, false⟩, 2, (some .outOfRange), none, none⟩,
  ⟨691, [45, 49] ++ List.replicate 62 48 ++ [49], ⟨64, true, false, false, false⟩, 2, (some .outOfRange), none, none⟩,
  ⟨692, [50, 48, 50, 49, 49, 49, 48, 48, 49, 49, 48, 50, 50, 50, 49, 48, 48, 49, 50, 49, 48, 50, 48, 49, 48, 48, 50, 49, 50, 50, 48, 49, 48, 49, 50, 50, 48, 50, 50, 50], ⟨64, true, false, false, false⟩, 3, (some .outOfRange), none, none⟩,
  ⟨693, [45, 50, 48, 50, 49, 49, 49, 48, 48, 49, 49, 48, 50, 50, 50, 49, 48, 48, 49, 50, 49, 48, 50, 48, 49, 48, 48, 50, 49, 50, 50, 48, 49, 48, 49, 50, 50, 49, 48, 48, 48], ⟨64, true, false, false, false⟩, 3, (some .outOfRange), none, none⟩]

example : ints2.all (IntVec.check Cfg.x64 .char) = true := by decide +kernel
example : ints2.all (IntVec.check compileTime .char) = true := by decide +kernel

def ints3 : List IntVec := [
  ⟨694, [50] ++ List.replicate 31 48, ⟨64, true, false, false, false⟩, 4, (some .outOfRange), none, none⟩,
  ⟨695, [45, 50] ++ List.replicate 30 48 ++ [49], ⟨64, true, false, false, false⟩, 4, (some .outOfRange), none, none⟩,
  ⟨696, [49, 49, 48, 52, 51, 51, 50, 52, 48, 49, 51, 48, 52, 52, 50, 50, 52, 51, 52, 51, 49, 48, 51, 49, 49, 50, 49, 51], ⟨64, true, false, false, false⟩, 5, (some .outOfRange), none, none⟩,
  ⟨697, [45, 49, 49, 48, 52, 51, 51, 50, 52, 48, 49, 51, 48, 52, 52, 50, 50, 52, 51, 52, 51, 49, 48, 51, 49, 49, 50, 49, 52], ⟨64, true, false, false, false⟩, 5, (some .outOfRange), none, none⟩,
  ⟨698, [49, 53, 52, 48, 50, 52, 49, 48, 48, 51, 48, 51, 49, 48, 51, 48, 50, 50, 50, 49, 50, 50, 50, 49, 50], ⟨64, true, false, false, false⟩, 6, (some .outOfRange), none, none⟩,
  ⟨699, [45, 49, 53, 52, 48, 50, 52, 49, 48, 48, 51, 48, 51, 49, 48, 51, 48, 50, 50, 50, 49, 50, 50, 50, 49, 51], ⟨64, true, false, false, false⟩, 6, (some .outOfRange), none, none⟩,
  ⟨700, [50, 50, 51, 52, 49, 48, 49, 48, 54, 49, 49, 50, 52, 53, 48, 53, 50, 48, 53, 50, 51, 48, 49], ⟨64, true, false, false, false⟩, 7, (some .outOfRange), none, none⟩,
  ⟨701, [45, 50, 50, 51, 52, 49, 48, 49, 48, 54, 49, 49, 50, 52, 53, 48, 53, 50, 48, 53, 50, 51, 48, 50], ⟨64, true, false, false, false⟩, 7, (some .outOfRange), none, none⟩,
  ⟨702, [49] ++ List.replicate 21 48, ⟨64, true, false, false, false⟩, 8, (some .outOfRange), none, none⟩,
  ⟨703, [45, 49] ++ List.replicate 20 48 ++ [49], ⟨64, true, false, false, false⟩, 8, (some .outOfRange), none, none⟩,
  ⟨704, [54, 55, 52, 48, 52, 50, 56, 51, 49, 55, 50, 49, 48, 55, 56, 49, 49, 56, 50, 56], ⟨64, true, false, false, false⟩, 9, (some .outOfRange), none, none⟩,
  ⟨705, [45, 54, 55, 52, 48, 52, 50, 56, 51, 49, 55, 50, 49, 48, 55, 56, 49, 49, 56, 51, 48], ⟨64, true, false, false, false⟩, 9, (some .outOfRange), none, none⟩,
  ⟨706, [57, 50, 50, 51, 51, 55, 50, 48, 51, 54, 56, 53, 52, 55, 55, 53, 56, 48, 56], ⟨64, true, false, false, false⟩, 10, (some .outOfRange), none, none⟩,
  ⟨707, [45, 57, 50, 50, 51, 51, 55, 50, 48, 51, 54, 56, 53, 52, 55, 55, 53, 56, 48, 57], ⟨64, true, false, false, false⟩, 10, (some .outOfRange), none, none⟩,
  ⟨708, [49, 55, 50, 56, 48, 48, 50, 54, 51, 53, 50, 49, 52, 53, 57, 48, 54, 57, 56], ⟨64, true, false, false, false⟩, 11, (some .outOfRange), none, none⟩,
  ⟨709, [45, 49, 55, 50, 56, 48, 48, 50, 54, 51, 53, 50, 49, 52, 53, 57, 48, 54, 57, 57], ⟨64, true, false, false, false⟩, 11, (some .outOfRange), none, none⟩,
  ⟨710, [52, 49, 65, 55, 57, 50, 54, 55, 56, 53, 49, 53, 49, 50, 48, 51, 54, 56], ⟨64, true, false, false, false⟩, 12, (some .outOfRange), none, none⟩,
  ⟨711, [45, 52, 49, 65, 55, 57, 50, 54, 55, 56, 53, 49, 53, 49, 50, 48, 51, 54, 57], ⟨64, true, false, false, false⟩, 12, (some .outOfRange), none, none⟩,
  ⟨712, [49, 48, 66, 50, 54, 57, 53, 52, 57, 48, 55, 53, 52, 51, 51, 67, 51, 56], ⟨64, true, false, false, false⟩, 13, (some .outOfRange), none, none⟩,
  ⟨713, [45, 49, 48, 66, 50, 54, 57, 53, 52, 57, 48, 55, 53, 52, 51, 51, 67, 51, 57], ⟨64, true, false, false, false⟩, 13, (some .outOfRange), none, none⟩,
  ⟨714, [52, 51, 52, 48, 55, 50, 52, 67, 54, 67, 55, 49, 68, 67, 55, 65, 56], ⟨64, true, false, false, false⟩, 14, (some .outOfRange), none, none⟩,
  ⟨715, [45, 52, 51, 52, 48, 55, 50, 52, 67, 54, 67, 55, 49, 68, 67, 55, 65, 57], ⟨64, true, false, false, false⟩, 14, (some .outOfRange), none, none⟩,
  ⟨716, [49, 54, 48, 69, 50, 65, 68, 51, 50, 52, 54, 51, 54, 54, 56, 48, 56], ⟨64, true, false, false, false⟩, 15, (some .outOfRange), none, none⟩,
  ⟨717, [45, 49, 54, 48, 69, 50, 65, 68, 51, 50, 52, 54, 51, 54, 54, 56, 48, 57], ⟨64, true, false, false, false⟩, 15, (some .outOfRange), none, none⟩,
  ⟨718, [56, 48, 48, 48, 48, 48, 48, 48, 48, 48, 48, 48, 48, 48, 48, 48], ⟨64, true, false, false, false⟩, 16, (some .outOfRange), none, none⟩,
  ⟨719, [45, 56, 48, 48, 48, 48, 48, 48, 48, 48, 48, 48, 48, 48, 48, 48, 49], ⟨64, true, false, false, false⟩, 16, (some .outOfRange), none, none⟩,
  ⟨720, [51, 51, 68, 51, 68, 56, 51, 48, 55, 66, 50, 49, 52, 48, 48, 57], ⟨64, true, false, false, false⟩, 17, (some .outOfRange), none, none⟩,
  ⟨721, [45, 51, 51, 68, 51, 68, 56, 51, 48, 55, 66, 50, 49, 52, 48, 48, 65], ⟨64, true, false, false, false⟩, 17, (some .outOfRange), none, none⟩,
  ⟨722, [49, 54, 65, 71, 72, 53, 57, 53, 68, 70, 56, 50, 53, 70, 65, 56], ⟨64, true, false, false, false⟩, 18, (some .outOfRange), none, none⟩,
  ⟨723, [45, 49, 54, 65, 71, 72, 53, 57, 53, 68, 70, 56, 50, 53, 70, 65, 57], ⟨64, true, false, false, false⟩, 18, (some .outOfRange), none, none⟩,
  ⟨724, [66, 65, 54, 52, 51, 68, 67, 73, 48, 70, 70, 69, 69, 72, 73], ⟨64, true, false, false, false⟩, 19, (some .outOfRange), none, none⟩,
  ⟨725, [45, 66, 65, 54, 52, 51, 68, 67, 73, 48, 70, 70, 69, 69, 73, 48], ⟨64, true, false, false, false⟩, 19, (some .outOfRange), none, none⟩,
  ⟨726, [53, 67, 66, 70, 74, 73, 65, 51, 70, 72, 50, 54, 74, 65, 56], ⟨64, true, false, false, false⟩, 20, (some .outOfRange), none, none⟩,
  ⟨727, [45, 53, 67, 66, 70, 74, 73, 65, 51, 70, 72, 50, 54, 74, 65, 57], ⟨64, true, false, false, false⟩, 20, (some .outOfRange), none, none⟩,
  ⟨728, [50, 72, 69, 73, 67, 73, 73, 73, 69, 56, 50, 68, 72, 57, 56], ⟨64, true, false, false, false⟩, 21, (some .outOfRange), none, none⟩,
  ⟨729, [45, 50, 72, 69, 73, 67, 73, 73, 73, 69, 56, 50, 68, 72, 57, 57], ⟨64, true, false, false, false⟩, 21, (some .outOfRange), none, none⟩,
  ⟨730, [49, 65, 68, 65, 73, 66, 66, 50, 49, 68, 67, 75, 70, 65, 56], ⟨64, true, false, false, false⟩, 22, (some .outOfRange), none, none⟩,
  ⟨731, [45, 49, 65, 68, 65, 73, 66, 66, 50, 49, 68, 67, 75, 70, 65, 57], ⟨64, true, false, false, false⟩, 22, (some .outOfRange), none, none⟩,
  ⟨732, [73, 54, 75, 52, 52, 56, 67, 70, 52, 49, 57, 50, 67, 51], ⟨64, true, false, false, false⟩, 23, (some .outOfRange), none, none⟩,
  ⟨733, [45, 73, 54, 75, 52, 52, 56, 67, 70, 52, 49, 57, 50, 67, 52], ⟨64, true, false, false, false⟩, 23, (some .outOfRange), none, none⟩,
  ⟨734, [65, 67, 68, 55, 55, 50, 74, 78, 67, 57, 76, 48, 76, 56], ⟨64, true, false, false, false⟩, 24, (some .outOfRange), none, none⟩,
  ⟨735, [45, 65, 67, 68, 55, 55, 50, 74, 78, 67, 57, 76, 48, 76, 57], ⟨64, true, false, false, false⟩, 24, (some .outOfRange), none, none⟩,
  ⟨736, [54, 52, 73, 69, 49, 70, 79, 67, 78, 78, 53, 71, 55, 56], ⟨64, true, false, false, false⟩, 25, (some .outOfRange), none, none⟩,
  ⟨737, [45, 54, 52, 73, 69, 49, 70, 79, 67, 78, 78, 53, 71, 55, 57], ⟨64, true, false, false, false⟩, 25, (some .outOfRange), none, none⟩,
  ⟨738, [51, 73, 71, 79, 69, 67, 74, 66, 77, 67, 65, 54, 56, 56], ⟨64, true, false, false, false⟩, 26, (some .outOfRange), none, none⟩,
  ⟨739, [45, 51, 73, 71, 79, 69, 67, 74, 66, 77, 67, 65, 54, 56, 57], ⟨64, true, false, false, false⟩, 26, (some .outOfRange), none, none⟩,
  ⟨740, [50, 55, 67, 52, 56, 76, 53, 66, 51, 55, 79, 65, 79, 81], ⟨64, true, false, false, false⟩, 27, (some .outOfRange), none, none⟩,
  ⟨741, [45, 50, 55, 67, 52, 56, 76, 53, 66, 51, 55, 79, 65, 80, 48], ⟨64, true, false, false, false⟩, 27, (some .outOfRange), none, none⟩,
  ⟨742, [49, 66, 75, 51, 57, 70, 51, 65, 72, 51, 68, 77, 81, 56], ⟨64, true, false, false, false⟩, 28, (some .outOfRange), none, none⟩,
  ⟨743, [45, 49, 66, 75, 51, 57, 70, 51, 65, 72, 51, 68, 77, 81, 57], ⟨64, true, false, false, false⟩, 28, (some .outOfRange), none, none⟩,
  ⟨744, [81, 49, 83, 69, 56, 70, 48, 77, 48, 52, 73, 83, 67], ⟨64, true, false, false, false⟩, 29, (some .outOfRange), none, none⟩,
  ⟨745, [45, 81, 49, 83, 69, 56, 70, 48, 77, 48, 52, 73, 83, 68], ⟨64, true, false, false, false⟩, 29, (some .outOfRange), none, none⟩,
  ⟨746, [72, 65, 74, 80, 80, 66, 67, 49, 70, 67, 50, 48, 56], ⟨64, true, false, false, false⟩, 30, (some .outOfRange), none, none⟩,
  ⟨747, [45, 72, 65, 74, 80, 80, 66, 67, 49, 70, 67, 50, 48, 57], ⟨64, true, false, false, false⟩, 30, (some .outOfRange), none, none⟩,
  ⟨748, [66, 77, 48, 51, 73, 57, 53, 72, 73, 65, 52, 51, 56], ⟨64, true, false, false, false⟩, 31, (some .outOfRange), none, none⟩,
  ⟨749, [45, 66, 77, 48, 51, 73, 57, 53, 72, 73, 65, 52, 51, 57], ⟨64, true, false, false, false⟩, 31, (some .outOfRange), none, none⟩,
  ⟨750, [56, 48, 48, 48, 48, 48, 48, 48, 48, 48, 48, 48, 48], ⟨64, true, false, false, false⟩, 32, (some .outOfRange), none, none⟩,
  ⟨751, [45, 56, 48, 48, 48, 48, 48, 48, 48, 48, 48, 48, 48, 49], ⟨64, true, false, false, false⟩, 32, (some .outOfRange), none, none⟩,
  ⟨752, [53, 72, 71, 52, 67, 75, 57, 74, 68, 52, 85, 51, 56], ⟨64, true, false, false, false⟩, 33, (some .outOfRange), none, none⟩,
  ⟨753, [45, 53, 72, 71, 52, 67, 75, 57, 74, 68, 52, 85, 51, 57], ⟨64, true, false, false, false⟩, 33, (some .outOfRange), none, none⟩]

example : ints3.all (IntVec.check Cfg.x64 .char) = true := by decide +kernel
example : ints3.all (IntVec.check compileTime .char) = true := by decide +kernel

def ints4 : List IntVec := [
  ⟨754, [51, 84, 68, 84, 75, 49, 86, 56, 74, 54, 84, 80, 81], ⟨64, true, false, false, false⟩, 34, (some .outOfRange), none, none⟩,
  ⟨755, [45, 51, 84, 68, 84, 75, 49, 86, 56, 74, 54, 84, 80, 82], ⟨64, true, false, false, false⟩, 34, (some .outOfRange), none, none⟩,
  ⟨756, [50, 80, 73, 74, 77, 73, 75, 69, 88, 82, 88, 80, 56], ⟨64, true, false, false, false⟩, 35, (some .outOfRange), none, none⟩,
  ⟨757, [45, 50, 80, 73, 74, 77, 73, 75, 69, 88, 82, 88, 80, 57], ⟨64, true, false, false, false⟩, 35, (some .outOfRange), none, none⟩,
  ⟨758, [49, 89, 50, 80, 48, 73, 74, 51, 50, 69, 56, 69, 56], ⟨64, true, false, false, false⟩, 36, (some .outOfRange), none, none⟩,
  ⟨759, [45, 49, 89, 50, 80, 48, 73, 74, 51, 50, 69, 56, 69, 57], ⟨64, true, false, false, false⟩, 36, (some .outOfRange), none, none⟩,
  ⟨775, [49] ++ List.replicate 64 48, ⟨64, false, false, false, true⟩, 2, (some .outOfRange), none, none⟩,
  ⟨776, [49, 49, 49, 49, 50, 50, 50, 48, 48, 50, 50, 49, 50, 50, 49, 50, 48, 49, 48, 49, 50, 49, 49, 48, 50, 48, 49, 50, 48, 50, 49, 48, 50, 49, 48, 50, 49, 49, 50, 50, 49], ⟨64, false, false, false, true⟩, 3, (some .outOfRange), none, none⟩,
  ⟨777, [49] ++ List.replicate 32 48, ⟨64, false, false, false, true⟩, 4, (some .outOfRange), none, none⟩,
  ⟨778, [50, 50, 49, 52, 50, 50, 48, 51, 48, 51, 49, 49, 52, 52, 48, 48, 52, 50, 52, 49, 50, 49, 49, 50, 50, 52, 51, 49], ⟨64, false, false, false, true⟩, 5, (some .outOfRange), none, none⟩,
  ⟨779, [51, 53, 50, 48, 53, 50, 50, 48, 49, 48, 49, 48, 50, 49, 48, 48, 52, 52, 52, 50, 52, 52, 52, 50, 52], ⟨64, false, false, false, true⟩, 6, (some .outOfRange), none, none⟩,
  ⟨780, [52, 53, 48, 49, 50, 48, 50, 49, 53, 50, 50, 53, 50, 51, 49, 51, 52, 49, 51, 52, 54, 48, 50], ⟨64, false, false, false, true⟩, 7, (some .outOfRange), none, none⟩,
  ⟨781, [50] ++ List.replicate 21 48, ⟨64, false, false, false, true⟩, 8, (some .outOfRange), none, none⟩,
  ⟨782, [49, 52, 53, 56, 48, 56, 53, 55, 54, 51, 53, 52, 50, 49, 54, 55, 50, 51, 55, 53, 55], ⟨64, false, false, false, true⟩, 9, (some .outOfRange), none, none⟩,
  ⟨783, [49, 56, 52, 52, 54, 55, 52, 52, 48, 55, 51, 55, 48, 57, 53, 53, 49, 54, 49, 54], ⟨64, false, false, false, true⟩, 10, (some .outOfRange), none, none⟩,
  ⟨784, [51, 51, 53, 53, 48, 48, 53, 49, 54, 65, 52, 50, 57, 48, 55, 49, 50, 56, 53], ⟨64, false, false, false, true⟩, 11, (some .outOfRange), none, none⟩,
  ⟨785, [56, 51, 57, 51, 54, 53, 49, 51, 52, 65, 50, 65, 50, 52, 48, 55, 49, 52], ⟨64, false, false, false, true⟩, 12, (some .outOfRange), none, none⟩,
  ⟨786, [50, 49, 57, 53, 48, 53, 65, 57, 53, 49, 49, 65, 56, 54, 55, 66, 55, 51], ⟨64, false, false, false, true⟩, 13, (some .outOfRange), none, none⟩,
  ⟨787, [56, 54, 56, 49, 48, 52, 57, 65, 68, 66, 48, 51, 68, 66, 49, 55, 50], ⟨64, false, false, false, true⟩, 14, (some .outOfRange), none, none⟩,
  ⟨788, [50, 67, 49, 68, 53, 54, 66, 54, 52, 56, 67, 54, 67, 68, 49, 49, 49], ⟨64, false, false, false, true⟩, 15, (some .outOfRange), none, none⟩,
  ⟨789, [49, 48, 48, 48, 48, 48, 48, 48, 48, 48, 48, 48, 48, 48, 48, 48, 48], ⟨64, false, false, false, true⟩, 16, (some .outOfRange), none, none⟩,
  ⟨790, [54, 55, 57, 55, 57, 71, 54, 48, 70, 53, 52, 50, 56, 48, 49, 49], ⟨64, false, false, false, true⟩, 17, (some .outOfRange), none, none⟩,
  ⟨791, [50, 68, 51, 70, 71, 66, 48, 66, 57, 67, 71, 52, 66, 68, 50, 71], ⟨64, false, false, false, true⟩, 18, (some .outOfRange), none, none⟩,
  ⟨792, [49, 52, 49, 67, 56, 55, 56, 54, 72, 49, 67, 67, 65, 65, 71, 72], ⟨64, false, false, false, true⟩, 19, (some .outOfRange), none, none⟩,
  ⟨793, [66, 53, 51, 66, 74, 72, 48, 55, 66, 69, 52, 68, 74, 48, 71], ⟨64, false, false, false, true⟩, 20, (some .outOfRange), none, none⟩,
  ⟨794, [53, 69, 56, 71, 52, 71, 71, 71, 55, 71, 53, 54, 68, 73, 71], ⟨64, false, false, false, true⟩, 21, (some .outOfRange), none, none⟩,
  ⟨795, [50, 76, 52, 76, 70, 49, 48, 52, 51, 53, 51, 74, 56, 75, 71], ⟨64, false, false, false, true⟩, 22, (some .outOfRange), none, none⟩,
  ⟨796, [49, 68, 68, 72, 56, 56, 72, 50, 55, 56, 50, 73, 53, 49, 54], ⟨64, false, false, false, true⟩, 23, (some .outOfRange), none, none⟩,
  ⟨797, [76, 49, 50, 69, 69, 53, 70, 78, 48, 74, 73, 49, 73, 71], ⟨64, false, false, false, true⟩, 24, (some .outOfRange), none, none⟩,
  ⟨798, [67, 57, 67, 51, 51, 54, 79, 48, 77, 76, 66, 55, 69, 71], ⟨64, false, false, false, true⟩, 25, (some .outOfRange), none, none⟩,
  ⟨799, [55, 66, 55, 78, 50, 80, 67, 78, 73, 79, 75, 67, 71, 71], ⟨64, false, false, false, true⟩, 26, (some .outOfRange), none, none⟩,
  ⟨800, [52, 69, 79, 56, 72, 70, 65, 77, 54, 70, 76, 76, 77, 80], ⟨64, false, false, false, true⟩, 27, (some .outOfRange), none, none⟩,
  ⟨801, [50, 78, 67, 54, 74, 50, 54, 76, 54, 54, 82, 72, 79, 71], ⟨64, false, false, false, true⟩, 28, (some .outOfRange), none, none⟩,
  ⟨802, [49, 78, 51, 82, 83, 72, 49, 49, 70, 48, 57, 56, 82, 79], ⟨64, false, false, false, true⟩, 29, (some .outOfRange), none, none⟩,
  ⟨803, [49, 52, 76, 57, 76, 75, 77, 79, 51, 48, 79, 52, 48, 71], ⟨64, false, false, false, true⟩, 30, (some .outOfRange), none, none⟩,
  ⟨804, [78, 68, 48, 55, 53, 73, 66, 52, 53, 75, 56, 54, 71], ⟨64, false, false, false, true⟩, 31, (some .outOfRange), none, none⟩,
  ⟨805, [71, 48, 48, 48, 48, 48, 48, 48, 48, 48, 48, 48, 48], ⟨64, false, false, false, true⟩, 32, (some .outOfRange), none, none⟩,
  ⟨806, [66, 49, 87, 56, 80, 55, 74, 53, 81, 57, 82, 54, 71], ⟨64, false, false, false, true⟩, 33, (some .outOfRange), none, none⟩,
  ⟨807, [55, 79, 82, 80, 54, 51, 83, 72, 52, 68, 80, 72, 73], ⟨64, false, false, false, true⟩, 34, (some .outOfRange), none, none⟩,
  ⟨808, [53, 71, 50, 52, 65, 50, 53, 84, 87, 75, 87, 70, 71], ⟨64, false, false, false, true⟩, 35, (some .outOfRange), none, none⟩,
  ⟨809, [51, 87, 53, 69, 49, 49, 50, 54, 52, 83, 71, 83, 71], ⟨64, false, false, false, true⟩, 36, (some .outOfRange), none, none⟩,
  ⟨826, List.replicate 63 49, ⟨64, true, false, false, false⟩, 2, (some .ok), none, none⟩,
  ⟨827, [45, 49] ++ List.replicate 63 48, ⟨64, true, false, false, false⟩, 2, (some .ok), none, none⟩,
  ⟨828, [50, 48, 50, 49, 49, 49, 48, 48, 49, 49, 48, 50, 50, 50, 49, 48, 48, 49, 50, 49, 48, 50, 48, 49, 48, 48, 50, 49, 50, 50, 48, 49, 48, 49, 50, 50, 48, 50, 50, 49], ⟨64, true, false, false, false⟩, 3, (some .ok), none, none⟩,
  ⟨829, [45, 50, 48, 50, 49, 49, 49, 48, 48, 49, 49, 48, 50, 50, 50, 49, 48, 48, 49, 50, 49, 48, 50, 48, 49, 48, 48, 50, 49, 50, 50, 48, 49, 48, 49, 50, 50, 48, 50, 50, 50], ⟨64, true, false, false, false⟩, 3, (some .ok), none, none⟩,
  ⟨830, [49] ++ List.replicate 31 51, ⟨64, true, false, false, false⟩, 4, (some .ok), none, none⟩,
  ⟨831, [45, 50] ++ List.replicate 31 48, ⟨64, true, false, false, false⟩, 4, (some .ok), none, none⟩,
  ⟨832, [49, 49, 48, 52, 51, 51, 50, 52, 48, 49, 51, 48, 52, 52, 50, 50, 52, 51, 52, 51, 49, 48, 51, 49, 49, 50, 49, 50], ⟨64, true, false, false, false⟩, 5, (some .ok), none, none⟩,
  ⟨833, [45, 49, 49, 48, 52, 51, 51, 50, 52, 48, 49, 51, 48, 52, 52, 50, 50, 52, 51, 52, 51, 49, 48, 51, 49, 49, 50, 49, 51], ⟨64, true, false, false, false⟩, 5, (some .ok), none, none⟩,
  ⟨834, [49, 53, 52, 48, 50, 52, 49, 48, 48, 51, 48, 51, 49, 48, 51, 48, 50, 50, 50, 49, 50, 50, 50, 49, 49], ⟨64, true, false, false, false⟩, 6, (some .ok), none, none⟩,
  ⟨835, [45, 49, 53, 52, 48, 50, 52, 49, 48, 48, 51, 48, 51, 49, 48, 51, 48, 50, 50, 50, 49, 50, 50, 50, 49, 50], ⟨64, true, false, false, false⟩, 6, (some .ok), none, none⟩,
  ⟨836, [50, 50, 51, 52, 49, 48, 49, 48, 54, 49, 49, 50, 52, 53, 48, 53, 50, 48, 53, 50, 51, 48, 48], ⟨64, true, false, false, false⟩, 7, (some .ok), none, none⟩,
  ⟨837, [45, 50, 50, 51, 52, 49, 48, 49, 48, 54, 49, 49, 50, 52, 53, 48, 53, 50, 48, 53, 50, 51, 48, 49], ⟨64, true, false, false, false⟩, 7, (some .ok), none, none⟩,
  ⟨838, List.replicate 21 55, ⟨64, true, false, false, false⟩, 8, (some .ok), none, none⟩,
  ⟨839, [45, 49] ++ List.replicate 21 48, ⟨64, true, false, false, false⟩, 8, (some .ok), none, none⟩,
  ⟨840, [54, 55, 52, 48, 52, 50, 56, 51, 49, 55, 50, 49, 48, 55, 56, 49, 49, 56, 50, 55], ⟨64, true, false, false, false⟩, 9, (some .ok), none, none⟩,
  ⟨841, [45, 54, 55, 52, 48, 52, 50, 56, 51, 49, 55, 50, 49, 48, 55, 56, 49, 49, 56, 50, 56], ⟨64, true, false, false, false⟩, 9, (some .ok), none, none⟩,
  ⟨842, [57, 50, 50, 51, 51, 55, 50, 48, 51, 54, 56, 53, 52, 55, 55, 53, 56, 48, 55], ⟨64, true, false, false, false⟩, 10, (some .ok), none, none⟩,
  ⟨843, [45, 57, 50, 50, 51, 51, 55, 50, 48, 51, 54, 56, 53, 52, 55, 55, 53, 56, 48, 56], ⟨64, true, false, false, false⟩, 10, (some .ok), none, none⟩,
  ⟨844, [49, 55, 50, 56, 48, 48, 50, 54, 51, 53, 50, 49, 52, 53, 57, 48, 54, 57, 55], ⟨64, true, false, false, false⟩, 11, (some .ok), none, none⟩]

example : ints4.all (IntVec.check Cfg.x64 .char) = true := by decide +kernel
example : ints4.all (IntVec.check compileTime .char) = true := by decide +kernel

def ints5 : List IntVec := [
  ⟨845, [45, 49, 55, 50, 56, 48, 48, 50, 54, 51, 53, 50, 49, 52, 53, 57, 48, 54, 57, 56], ⟨64, true, false, false, false⟩, 11, (some .ok), none, none⟩,
  ⟨846, [52, 49, 65, 55, 57, 50, 54, 55, 56, 53, 49, 53, 49, 50, 48, 51, 54, 55], ⟨64, true, false, false, false⟩, 12, (some .ok), none, none⟩,
  ⟨847, [45, 52, 49, 65, 55, 57, 50, 54, 55, 56, 53, 49, 53, 49, 50, 48, 51, 54, 56], ⟨64, true, false, false, false⟩, 12, (some .ok), none, none⟩,
  ⟨848, [49, 48, 66, 50, 54, 57, 53, 52, 57, 48, 55, 53, 52, 51, 51, 67, 51, 55], ⟨64, true, false, false, false⟩, 13, (some .ok), none, none⟩,
  ⟨849, [45, 49, 48, 66, 50, 54, 57, 53, 52, 57, 48, 55, 53, 52, 51, 51, 67, 51, 56], ⟨64, true, false, false, false⟩, 13, (some .ok), none, none⟩,
  ⟨850, [52, 51, 52, 48, 55, 50, 52, 67, 54, 67, 55, 49, 68, 67, 55, 65, 55], ⟨64, true, false, false, false⟩, 14, (some .ok), none, none⟩,
  ⟨851, [45, 52, 51, 52, 48, 55, 50, 52, 67, 54, 67, 55, 49, 68, 67, 55, 65, 56], ⟨64, true, false, false, false⟩, 14, (some .ok), none, none⟩,
  ⟨852, [49, 54, 48, 69, 50, 65, 68, 51, 50, 52, 54, 51, 54, 54, 56, 48, 55], ⟨64, true, false, false, false⟩, 15, (some .ok), none, none⟩,
  ⟨853, [45, 49, 54, 48, 69, 50, 65, 68, 51, 50, 52, 54, 51, 54, 54, 56, 48, 56], ⟨64, true, false, false, false⟩, 15, (some .ok), none, none⟩,
  ⟨854, [55, 70, 70, 70, 70, 70, 70, 70, 70, 70, 70, 70, 70, 70, 70, 70], ⟨64, true, false, false, false⟩, 16, (some .ok), none, none⟩,
  ⟨855, [45, 56, 48, 48, 48, 48, 48, 48, 48, 48, 48, 48, 48, 48, 48, 48, 48], ⟨64, true, false, false, false⟩, 16, (some .ok), none, none⟩,
  ⟨856, [51, 51, 68, 51, 68, 56, 51, 48, 55, 66, 50, 49, 52, 48, 48, 56], ⟨64, true, false, false, false⟩, 17, (some .ok), none, none⟩,
  ⟨857, [45, 51, 51, 68, 51, 68, 56, 51, 48, 55, 66, 50, 49, 52, 48, 48, 57], ⟨64, true, false, false, false⟩, 17, (some .ok), none, none⟩,
  ⟨858, [49, 54, 65, 71, 72, 53, 57, 53, 68, 70, 56, 50, 53, 70, 65, 55], ⟨64, true, false, false, false⟩, 18, (some .ok), none, none⟩,
  ⟨859, [45, 49, 54, 65, 71, 72, 53, 57, 53, 68, 70, 56, 50, 53, 70, 65, 56], ⟨64, true, false, false, false⟩, 18, (some .ok), none, none⟩,
  ⟨860, [66, 65, 54, 52, 51, 68, 67, 73, 48, 70, 70, 69, 69, 72, 72], ⟨64, true, false, false, false⟩, 19, (some .ok), none, none⟩,
  ⟨861, [45, 66, 65, 54, 52, 51, 68, 67, 73, 48, 70, 70, 69, 69, 72, 73], ⟨64, true, false, false, false⟩, 19, (some .ok), none, none⟩,
  ⟨862, [53, 67, 66, 70, 74, 73, 65, 51, 70, 72, 50, 54, 74, 65, 55], ⟨64, true, false, false, false⟩, 20, (some .ok), none, none⟩,
  ⟨863, [45, 53, 67, 66, 70, 74, 73, 65, 51, 70, 72, 50, 54, 74, 65, 56], ⟨64, true, false, false, false⟩, 20, (some .ok), none, none⟩,
  ⟨864, [50, 72, 69, 73, 67, 73, 73, 73, 69, 56, 50, 68, 72, 57, 55], ⟨64, true, false, false, false⟩, 21, (some .ok), none, none⟩,
  ⟨865, [45, 50, 72, 69, 73, 67, 73, 73, 73, 69, 56, 50, 68, 72, 57, 56], ⟨64, true, false, false, false⟩, 21, (some .ok), none, none⟩,
  ⟨866, [49, 65, 68, 65, 73, 66, 66, 50, 49, 68, 67, 75, 70, 65, 55], ⟨64, true, false, false, false⟩, 22, (some .ok), none, none⟩,
  ⟨867, [45, 49, 65, 68, 65, 73, 66, 66, 50, 49, 68, 67, 75, 70, 65, 56], ⟨64, true, false, false, false⟩, 22, (some .ok), none, none⟩,
  ⟨868, [73, 54, 75, 52, 52, 56, 67, 70, 52, 49, 57, 50, 67, 50], ⟨64, true, false, false, false⟩, 23, (some .ok), none, none⟩,
  ⟨869, [45, 73, 54, 75, 52, 52, 56, 67, 70, 52, 49, 57, 50, 67, 51], ⟨64, true, false, false, false⟩, 23, (some .ok), none, none⟩,
  ⟨870, [65, 67, 68, 55, 55, 50, 74, 78, 67, 57, 76, 48, 76, 55], ⟨64, true, false, false, false⟩, 24, (some .ok), none, none⟩,
  ⟨871, [45, 65, 67, 68, 55, 55, 50, 74, 78, 67, 57, 76, 48, 76, 56], ⟨64, true, false, false, false⟩, 24, (some .ok), none, none⟩,
  ⟨872, [54, 52, 73, 69, 49, 70, 79, 67, 78, 78, 53, 71, 55, 55], ⟨64, true, false, false, false⟩, 25, (some .ok), none, none⟩,
  ⟨873, [45, 54, 52, 73, 69, 49, 70, 79, 67, 78, 78, 53, 71, 55, 56], ⟨64, true, false, false, false⟩, 25, (some .ok), none, none⟩,
  ⟨874, [51, 73, 71, 79, 69, 67, 74, 66, 77, 67, 65, 54, 56, 55], ⟨64, true, false, false, false⟩, 26, (some .ok), none, none⟩,
  ⟨875, [45, 51, 73, 71, 79, 69, 67, 74, 66, 77, 67, 65, 54, 56, 56], ⟨64, true, false, false, false⟩, 26, (some .ok), none, none⟩,
  ⟨876, [50, 55, 67, 52, 56, 76, 53, 66, 51, 55, 79, 65, 79, 80], ⟨64, true, false, false, false⟩, 27, (some .ok), none, none⟩,
  ⟨877, [45, 50, 55, 67, 52, 56, 76, 53, 66, 51, 55, 79, 65, 79, 81], ⟨64, true, false, false, false⟩, 27, (some .ok), none, none⟩,
  ⟨878, [49, 66, 75, 51, 57, 70, 51, 65, 72, 51, 68, 77, 81, 55], ⟨64, true, false, false, false⟩, 28, (some .ok), none, none⟩,
  ⟨879, [45, 49, 66, 75, 51, 57, 70, 51, 65, 72, 51, 68, 77, 81, 56], ⟨64, true, false, false, false⟩, 28, (some .ok), none, none⟩,
  ⟨880, [81, 49, 83, 69, 56, 70, 48, 77, 48, 52, 73, 83, 66], ⟨64, true, false, false, false⟩, 29, (some .ok), none, none⟩,
  ⟨881, [45, 81, 49, 83, 69, 56, 70, 48, 77, 48, 52, 73, 83, 67], ⟨64, true, false, false, false⟩, 29, (some .ok), none, none⟩,
  ⟨882, [72, 65, 74, 80, 80, 66, 67, 49, 70, 67, 50, 48, 55], ⟨64, true, false, false, false⟩, 30, (some .ok), none, none⟩,
  ⟨883, [45, 72, 65, 74, 80, 80, 66, 67, 49, 70, 67, 50, 48, 56], ⟨64, true, false, false, false⟩, 30, (some .ok), none, none⟩,
  ⟨884, [66, 77, 48, 51, 73, 57, 53, 72, 73, 65, 52, 51, 55], ⟨64, true, false, false, false⟩, 31, (some .ok), none, none⟩,
  ⟨885, [45, 66, 77, 48, 51, 73, 57, 53, 72, 73, 65, 52, 51, 56], ⟨64, true, false, false, false⟩, 31, (some .ok), none, none⟩,
  ⟨886, [55, 86, 86, 86, 86, 86, 86, 86, 86, 86, 86, 86, 86], ⟨64, true, false, false, false⟩, 32, (some .ok), none, none⟩,
  ⟨887, [45, 56, 48, 48, 48, 48, 48, 48, 48, 48, 48, 48, 48, 48], ⟨64, true, false, false, false⟩, 32, (some .ok), none, none⟩,
  ⟨888, [53, 72, 71, 52, 67, 75, 57, 74, 68, 52, 85, 51, 55], ⟨64, true, false, false, false⟩, 33, (some .ok), none, none⟩,
  ⟨889, [45, 53, 72, 71, 52, 67, 75, 57, 74, 68, 52, 85, 51, 56], ⟨64, true, false, false, false⟩, 33, (some .ok), none, none⟩,
  ⟨890, [51, 84, 68, 84, 75, 49, 86, 56, 74, 54, 84, 80, 80], ⟨64, true, false, false, false⟩, 34, (some .ok), none, none⟩,
  ⟨891, [45, 51, 84, 68, 84, 75, 49, 86, 56, 74, 54, 84, 80, 81], ⟨64, true, false, false, false⟩, 34, (some .ok), none, none⟩,
  ⟨892, [50, 80, 73, 74, 77, 73, 75, 69, 88, 82, 88, 80, 55], ⟨64, true, false, false, false⟩, 35, (some .ok), none, none⟩,
  ⟨893, [45, 50, 80, 73, 74, 77, 73, 75, 69, 88, 82, 88, 80, 56], ⟨64, true, false, false, false⟩, 35, (some .ok), none, none⟩,
  ⟨894, [49, 89, 50, 80, 48, 73, 74, 51, 50, 69, 56, 69, 55], ⟨64, true, false, false, false⟩, 36, (some .ok), none, none⟩,
  ⟨895, [45, 49, 89, 50, 80, 48, 73, 74, 51, 50, 69, 56, 69, 56], ⟨64, true, false, false, false⟩, 36, (some .ok), none, none⟩,
  ⟨911, List.replicate 64 49, ⟨64, false, false, false, true⟩, 2, (some .ok), none, none⟩,
  ⟨912, [49, 49, 49, 49, 50, 50, 50, 48, 48, 50, 50, 49, 50, 50, 49, 50, 48, 49, 48, 49, 50, 49, 49, 48, 50, 48, 49, 50, 48, 50, 49, 48, 50, 49, 48, 50, 49, 49, 50, 50, 48], ⟨64, false, false, false, true⟩, 3, (some .ok), none, none⟩,
  ⟨913, List.replicate 32 51, ⟨64, false, false, false, true⟩, 4, (some .ok), none, none⟩,
  ⟨914, [50, 50, 49, 52, 50, 50, 48, 51, 48, 51, 49, 49, 52, 52, 48, 48, 52, 50, 52, 49, 50, 49, 49, 50, 50, 52, 51, 48], ⟨64, false, false, false, true⟩, 5, (some .ok), none, none⟩,
  ⟨915, [51, 53, 50, 48, 53, 50, 50, 48, 49, 48, 49, 48, 50, 49, 48, 48, 52, 52, 52, 50, 52, 52, 52, 50, 51], ⟨64, false, false, false, true⟩, 6, (some .ok), none, none⟩,
  ⟨916, [52, 53, 48, 49, 50, 48, 50, 49, 53, 50, 50, 53, 50, 51, 49, 51, 52, 49, 51, 52, 54, 48, 49], ⟨64, false, false, false, true⟩, 7, (some .ok), none, none⟩,
  ⟨917, [49] ++ List.replicate 21 55, ⟨64, false, false, false, true⟩, 8, (some .ok), none, none⟩,
  ⟨918, [49, 52, 53, 56, 48, 56, 53, 55, 54, 51, 53, 52, 50, 49, 54, 55, 50, 51, 55, 53, 54], ⟨64, false, false, false, true⟩, 9, (some .ok), none, none⟩,
  ⟨919, [49, 56, 52, 52, 54, 55, 52, 52, 48, 55, 51, 55, 48, 57, 53, 53, 49, 54, 49, 53], ⟨64, false, false, false, true⟩, 10, (some .ok), none, none⟩]

example : ints5.all (IntVec.check Cfg.x64 .char) = true := by decide +kernel
example : ints5.all (IntVec.check compileTime .char) = true := by decide +kernel

def ints6 : List IntVec := [
  ⟨920, [51, 51, 53, 53, 48, 48, 53, 49, 54, 65, 52, 50, 57, 48, 55, 49, 50, 56, 52], ⟨64, false, false, false, true⟩, 11, (some .ok), none, none⟩,
  ⟨921, [56, 51, 57, 51, 54, 53, 49, 51, 52, 65, 50, 65, 50, 52, 48, 55, 49, 51], ⟨64, false, false, false, true⟩, 12, (some .ok), none, none⟩,
  ⟨922, [50, 49, 57, 53, 48, 53, 65, 57, 53, 49, 49, 65, 56, 54, 55, 66, 55, 50], ⟨64, false, false, false, true⟩, 13, (some .ok), none, none⟩,
  ⟨923, [56, 54, 56, 49, 48, 52, 57, 65, 68, 66, 48, 51, 68, 66, 49, 55, 49], ⟨64, false, false, false, true⟩, 14, (some .ok), none, none⟩,
  ⟨924, [50, 67, 49, 68, 53, 54, 66, 54, 52, 56, 67, 54, 67, 68, 49, 49, 48], ⟨64, false, false, false, true⟩, 15, (some .ok), none, none⟩,
  ⟨925, [70, 70, 70, 70, 70, 70, 70, 70, 70, 70, 70, 70, 70, 70, 70, 70], ⟨64, false, false, false, true⟩, 16, (some .ok), none, none⟩,
  ⟨926, [54, 55, 57, 55, 57, 71, 54, 48, 70, 53, 52, 50, 56, 48, 49, 48], ⟨64, false, false, false, true⟩, 17, (some .ok), none, none⟩,
  ⟨927, [50, 68, 51, 70, 71, 66, 48, 66, 57, 67, 71, 52, 66, 68, 50, 70], ⟨64, false, false, false, true⟩, 18, (some .ok), none, none⟩,
  ⟨928, [49, 52, 49, 67, 56, 55, 56, 54, 72, 49, 67, 67, 65, 65, 71, 71], ⟨64, false, false, false, true⟩, 19, (some .ok), none, none⟩,
  ⟨929, [66, 53, 51, 66, 74, 72, 48, 55, 66, 69, 52, 68, 74, 48, 70], ⟨64, false, false, false, true⟩, 20, (some .ok), none, none⟩,
  ⟨930, [53, 69, 56, 71, 52, 71, 71, 71, 55, 71, 53, 54, 68, 73, 70], ⟨64, false, false, false, true⟩, 21, (some .ok), none, none⟩,
  ⟨931, [50, 76, 52, 76, 70, 49, 48, 52, 51, 53, 51, 74, 56, 75, 70], ⟨64, false, false, false, true⟩, 22, (some .ok), none, none⟩,
  ⟨932, [49, 68, 68, 72, 56, 56, 72, 50, 55, 56, 50, 73, 53, 49, 53], ⟨64, false, false, false, true⟩, 23, (some .ok), none, none⟩,
  ⟨933, [76, 49, 50, 69, 69, 53, 70, 78, 48, 74, 73, 49, 73, 70], ⟨64, false, false, false, true⟩, 24, (some .ok), none, none⟩,
  ⟨934, [67, 57, 67, 51, 51, 54, 79, 48, 77, 76, 66, 55, 69, 70], ⟨64, false, false, false, true⟩, 25, (some .ok), none, none⟩,
  ⟨935, [55, 66, 55, 78, 50, 80, 67, 78, 73, 79, 75, 67, 71, 70], ⟨64, false, false, false, true⟩, 26, (some .ok), none, none⟩,
  ⟨936, [52, 69, 79, 56, 72, 70, 65, 77, 54, 70, 76, 76, 77, 79], ⟨64, false, false, false, true⟩, 27, (some .ok), none, none⟩,
  ⟨937, [50, 78, 67, 54, 74, 50, 54, 76, 54, 54, 82, 72, 79, 70], ⟨64, false, false, false, true⟩, 28, (some .ok), none, none⟩,
  ⟨938, [49, 78, 51, 82, 83, 72, 49, 49, 70, 48, 57, 56, 82, 78], ⟨64, false, false, false, true⟩, 29, (some .ok), none, none⟩,
  ⟨939, [49, 52, 76, 57, 76, 75, 77, 79, 51, 48, 79, 52, 48, 70], ⟨64, false, false, false, true⟩, 30, (some .ok), none, none⟩,
  ⟨940, [78, 68, 48, 55, 53, 73, 66, 52, 53, 75, 56, 54, 70], ⟨64, false, false, false, true⟩, 31, (some .ok), none, none⟩,
  ⟨941, [70, 86, 86, 86, 86, 86, 86, 86, 86, 86, 86, 86, 86], ⟨64, false, false, false, true⟩, 32, (some .ok), none, none⟩,
  ⟨942, [66, 49, 87, 56, 80, 55, 74, 53, 81, 57, 82, 54, 70], ⟨64, false, false, false, true⟩, 33, (some .ok), none, none⟩,
  ⟨943, [55, 79, 82, 80, 54, 51, 83, 72, 52, 68, 80, 72, 72], ⟨64, false, false, false, true⟩, 34, (some .ok), none, none⟩,
  ⟨944, [53, 71, 50, 52, 65, 50, 53, 84, 87, 75, 87, 70, 70], ⟨64, false, false, false, true⟩, 35, (some .ok), none, none⟩,
  ⟨945, [51, 87, 53, 69, 49, 49, 50, 54, 52, 83, 71, 83, 70], ⟨64, false, false, false, true⟩, 36, (some .ok), none, none⟩,
  ⟨963, List.replicate 70 48 ++ [49, 49, 49, 49, 49, 49, 48, 49, 49, 49], ⟨32, true, false, false, false⟩, 2, (some .ok), (some (1015)), none⟩,
  ⟨965, List.replicate 50 48 ++ [49, 49, 48, 49, 49, 50, 49], ⟨32, true, false, false, false⟩, 3, (some .ok), (some (1015)), none⟩,
  ⟨966, List.replicate 40 48 ++ [51, 51, 51, 49, 51], ⟨32, true, false, false, false⟩, 4, (some .ok), (some (1015)), none⟩,
  ⟨967, List.replicate 30 48 ++ [49, 51, 48, 51, 48], ⟨32, true, false, false, false⟩, 5, (some .ok), (some (1015)), none⟩,
  ⟨968, List.replicate 30 48 ++ [52, 52, 49, 49], ⟨32, true, false, false, false⟩, 6, (some .ok), (some (1015)), none⟩,
  ⟨969, List.replicate 30 48 ++ [50, 54, 53, 48], ⟨32, true, false, false, false⟩, 7, (some .ok), (some (1015)), none⟩,
  ⟨970, List.replicate 30 48 ++ [49, 55, 54, 55], ⟨32, true, false, false, false⟩, 8, (some .ok), (some (1015)), none⟩,
  ⟨971, List.replicate 30 48 ++ [49, 51, 52, 55], ⟨32, true, false, false, false⟩, 9, (some .ok), (some (1015)), none⟩,
  ⟨972, List.replicate 30 48 ++ [49, 48, 49, 53], ⟨32, true, false, false, false⟩, 10, (some .ok), (some (1015)), none⟩,
  ⟨973, List.replicate 20 48 ++ [56, 52, 51], ⟨32, true, false, false, false⟩, 11, (some .ok), (some (1015)), none⟩,
  ⟨974, List.replicate 20 48 ++ [55, 48, 55], ⟨32, true, false, false, false⟩, 12, (some .ok), (some (1015)), none⟩,
  ⟨975, List.replicate 20 48 ++ [54, 48, 49], ⟨32, true, false, false, false⟩, 13, (some .ok), (some (1015)), none⟩,
  ⟨976, List.replicate 20 48 ++ [53, 50, 55], ⟨32, true, false, false, false⟩, 14, (some .ok), (some (1015)), none⟩,
  ⟨977, List.replicate 20 48 ++ [52, 55, 65], ⟨32, true, false, false, false⟩, 15, (some .ok), (some (1015)), none⟩,
  ⟨978, List.replicate 20 48 ++ [51, 70, 55], ⟨32, true, false, false, false⟩, 16, (some .ok), (some (1015)), none⟩,
  ⟨979, List.replicate 20 48 ++ [51, 56, 67], ⟨32, true, false, false, false⟩, 17, (some .ok), (some (1015)), none⟩,
  ⟨980, List.replicate 20 48 ++ [51, 50, 55], ⟨32, true, false, false, false⟩, 18, (some .ok), (some (1015)), none⟩,
  ⟨981, List.replicate 20 48 ++ [50, 70, 56], ⟨32, true, false, false, false⟩, 19, (some .ok), (some (1015)), none⟩,
  ⟨982, List.replicate 20 48 ++ [50, 65, 70], ⟨32, true, false, false, false⟩, 20, (some .ok), (some (1015)), none⟩,
  ⟨983, List.replicate 20 48 ++ [50, 54, 55], ⟨32, true, false, false, false⟩, 21, (some .ok), (some (1015)), none⟩,
  ⟨984, List.replicate 20 48 ++ [50, 50, 51], ⟨32, true, false, false, false⟩, 22, (some .ok), (some (1015)), none⟩,
  ⟨985, List.replicate 20 48 ++ [49, 76, 51], ⟨32, true, false, false, false⟩, 23, (some .ok), (some (1015)), none⟩,
  ⟨986, List.replicate 20 48 ++ [49, 73, 55], ⟨32, true, false, false, false⟩, 24, (some .ok), (some (1015)), none⟩,
  ⟨987, List.replicate 20 48 ++ [49, 70, 70], ⟨32, true, false, false, false⟩, 25, (some .ok), (some (1015)), none⟩,
  ⟨988, List.replicate 20 48 ++ [49, 68, 49], ⟨32, true, false, false, false⟩, 26, (some .ok), (some (1015)), none⟩,
  ⟨989, List.replicate 20 48 ++ [49, 65, 71], ⟨32, true, false, false, false⟩, 27, (some .ok), (some (1015)), none⟩,
  ⟨990, List.replicate 20 48 ++ [49, 56, 55], ⟨32, true, false, false, false⟩, 28, (some .ok), (some (1015)), none⟩,
  ⟨991, List.replicate 20 48 ++ [49, 54, 48], ⟨32, true, false, false, false⟩, 29, (some .ok), (some (1015)), none⟩,
  ⟨992, List.replicate 20 48 ++ [49, 51, 80], ⟨32, true, false, false, false⟩, 30, (some .ok), (some (1015)), none⟩,
  ⟨993, List.replicate 20 48 ++ [49, 49, 78], ⟨32, true, false, false, false⟩, 31, (some .ok), (some (1015)), none⟩,
  ⟨994, List.replicate 20 48 ++ [86, 78], ⟨32, true, false, false, false⟩, 32, (some .ok), (some (1015)), none⟩,
  ⟨995, List.replicate 20 48 ++ [85, 80], ⟨32, true, false, false, false⟩, 33, (some .ok), (some (1015)), none⟩,
  ⟨996, List.replicate 20 48 ++ [84, 84], ⟨32, true, false, false, false⟩, 34, (some .ok), (some (1015)), none⟩,
  ⟨997, List.replicate 20 48 ++ [84, 48], ⟨32, true, false, false, false⟩, 35, (some .ok), (some (1015)), none⟩]

example : ints6.all (IntVec.check Cfg.x64 .char) = true := by decide +kernel
example : ints6.all (IntVec.check compileTime .char) = true := by decide +kernel

def ints7 : List IntVec := [
  ⟨998, List.replicate 20 48 ++ [83, 55], ⟨32, true, false, false, false⟩, 36, (some .ok), (some (1015)), none⟩,
  ⟨462, [49, 48, 48, 49, 32, 119, 105, 116, 104, 32, 116, 101, 120, 116], ⟨32, true, false, false, false⟩, 10, none, none, (some 4)⟩,
  ⟨475, [49, 48, 48, 49, 32, 119, 105, 116, 104, 32, 116, 101, 120, 116, 92, 110], ⟨32, true, false, false, false⟩, 10, none, none, (some 4)⟩,
  ⟨488, [57, 46, 57, 57, 57], ⟨32, true, false, false, false⟩, 10, none, none, (some 1)⟩,
  ⟨501, [43, 53, 48], ⟨32, true, false, false, false⟩, 10, none, none, (some 0)⟩,
  ⟨514, [49, 48, 48, 49, 32, 119, 105, 116, 104, 32, 116, 101, 120, 116], ⟨32, false, false, false, false⟩, 10, none, none, (some 4)⟩,
  ⟨527, [45, 53, 48], ⟨32, false, false, false, false⟩, 10, none, none, (some 0)⟩]

example : ints7.all (IntVec.check Cfg.x64 .char) = true := by decide +kernel
example : ints7.all (IntVec.check compileTime .char) = true := by decide +kernel

def rejected : List Rejected := [
  ⟨84, [45, 46, 50], .missingIntegerAfterSign, 1⟩,
  ⟨85, [48, 48, 46, 48, 50], .leadingZerosInIntegerPart, 0⟩,
  ⟨86, [48, 46, 101, 43, 49], .noDigitsInFractionalPart, 2⟩,
  ⟨87, [48, 48, 46, 101, 43, 49], .leadingZerosInIntegerPart, 0⟩,
  ⟨88, [46, 50, 53], .noDigitsInIntegerPart, 0⟩,
  ⟨92, [43, 48, 46, 50, 53], .noDigitsInIntegerPart, 0⟩,
  ⟨93, [105, 110, 102], .noDigitsInIntegerPart, 0⟩,
  ⟨94, [110, 97, 110, 40, 115, 110, 97, 110, 41], .noDigitsInIntegerPart, 0⟩]

example : rejected.all (Rejected.check Cfg.x64) = true := by decide +kernel
example : rejected.all (Rejected.check small) = true := by decide +kernel
example : rejected.all (Rejected.check compileTime) = true := by decide +kernel
end Vectors
end FastFloat
