import Verif.Props.Complete
import Verif.Props.CompleteInt
import Verif.Props.HalfExact
import Verif.Props.Wide
import Verif.Props.Build
/-
# C71: the short overloads

`from_chars(first, last, value, fmt)` and `from_chars(first, last, value, base)` are the calls most programs make.  The theorems give their complete behaviour in
terms of the argument alone: the point is `.`, the integer overload uses the general format.  They also settle the overloads for `std::float32_t` and
`std::float64_t`, which differ from `float` and `double` in what they store on failure.
-/
set_option autoImplicit false
namespace FastFloat
open NumSpec FloatSpec ApiSpec IntSpec

theorem point_dot (c : Cfg) (fmt : Fmt) : (grammar c { format := fmt }).PointOK := by
  have : (grammar c { format := fmt }).point = 46 := rfl
  unfold Rules.PointOK NumSpec.IsDigit
  rw [this]; decide

/-- **C71**: `from_chars(first, last, value, fmt)` for `double`, `float` and `bfloat16_t`. -/
theorem C71_from_chars (c : Cfg) {ct : CharType} (T : FloatTy) (hT : T ≠ .float16) {s : List Nat} (fmt : Nat) (hin : Input ct s)
    (hs : s.length + 400 ≤ 2 ^ 28) (r : ApiFloat) :
    fromChars c ct T.fmt s fmt = .ok r ↔
      r.off ≤ s.length ∧ FloatCall T.spec (IeeeNumber T.spec) (effective c.plusMacro c.wsMacro fmt) 46 (body (effective c.plusMacro c.wsMacro fmt) s)
        (s.drop r.off) r.ec.code r.value :=
  C50_complete_short c T hT { format := fmt } hin (point_dot c fmt) hs r

/-- **C71**: `from_chars(first, last, value, fmt)` for `float16_t`. -/
theorem C71_from_chars_float16 (c : Cfg) {ct : CharType} {s : List Nat} (fmt : Nat) (hin : Input ct s)
    (hm : ∀ n rest, Munch (rules (effective c.plusMacro c.wsMacro fmt) 46) (body (effective c.plusMacro c.wsMacro fmt) s) n rest → Moderate n) (r : ApiFloat) :
    fromChars c ct binary16 s fmt = .ok r ↔
      r.off ≤ s.length ∧ FloatCall half (HalfNumber (Runtime c)) (effective c.plusMacro c.wsMacro fmt) 46 (body (effective c.plusMacro c.wsMacro fmt) s)
        (s.drop r.off) r.ec.code r.value :=
  C50_float16 c { format := fmt } hin (point_dot c fmt) hm r

/-- **C71**: `from_chars(first, last, value, fmt)` for `std::float32_t` and `std::float64_t`: the result of `float` / `double`, except that a value is always
stored: zero if the call fails. -/
theorem C71_alias (c : Cfg) {ct : CharType} (T : FloatTy) (hT : T ≠ .float16) {s : List Nat} (fmt : Nat) (hin : Input ct s)
    (hs : s.length + 400 ≤ 2 ^ 28) (r : ApiFloat) :
    fromCharsAlias c ct T.fmt s fmt = .ok r ↔
      r.off ≤ s.length ∧ ∃ v, FloatCall T.spec (IeeeNumber T.spec) (effective c.plusMacro c.wsMacro fmt) 46 (body (effective c.plusMacro c.wsMacro fmt) s)
        (s.drop r.off) r.ec.code v ∧ r.value = some (v.getD 0) := by
  have key := fun r => C71_from_chars c T hT fmt hin hs r
  unfold fromCharsAlias
  constructor
  · intro h
    cases hq : fromChars c ct T.fmt s fmt with
    | error u =>
      have hq' : fromCharsFloat c ct T.fmt s { format := fmt } = .error u := hq
      rw [hq'] at h; cases h
    | ok q =>
      have hq' : fromCharsFloat c ct T.fmt s { format := fmt } = .ok q := hq
      rw [hq'] at h
      have h := Except.ok.inj h
      subst h
      obtain ⟨h1, h2⟩ := (key q).1 hq
      exact ⟨h1, q.value, h2, rfl⟩
  · rintro ⟨h1, v, h2, h3⟩
    have hq : fromCharsFloat c ct T.fmt s { format := fmt } = .ok ⟨r.off, r.ec, v⟩ := (key ⟨r.off, r.ec, v⟩).2 ⟨h1, h2⟩
    rw [hq]
    show Except.ok _ = _
    rw [← h3]

/-- **C71**: `from_chars(first, last, value, base)` for the integer types of at most 64 bits. -/
theorem C71_from_chars_base (c : Cfg) {ct : CharType} {T : IntType} (hT : T.WF) {s : List Nat} (base : Int) (hin : Input ct s) (r : ApiInt) :
    fromCharsInt c ct T s base = .ok r ↔
      r.off ≤ s.length ∧ IntCall T.signed (ActualInt T.bits T.signed base.toNat) (effective c.plusMacro c.wsMacro 5) base
        (body (effective c.plusMacro c.wsMacro 5) s) (s.drop r.off) r.ec.code r.value :=
  C53_actual_int c hT { base := base } hin r

/-- **C71**: `from_chars(first, last, value, base)` for the 128-bit integer types. -/
theorem C71_from_chars_base_wide (c : Cfg) {ct : CharType} {T : IntType} (hT : T.Wide) {s : List Nat} (base : Int) (hin : Input ct s) (r : ApiInt) :
    fromCharsInt c ct T s base = .ok r ↔
      r.off ≤ s.length ∧ IntCall T.signed (WideInt base.toNat) (effective c.plusMacro c.wsMacro 5) base
        (body (effective c.plusMacro c.wsMacro 5) s) (s.drop r.off) r.ec.code r.value :=
  C54_int128 c hT { base := base } hin r

/-- **C71**: the default arguments.  `from_chars(first, last, value)` and `from_chars_advanced(first, last, value, parse_options{})` read a floating-point number
in the general format with the decimal point `.`... -/
theorem C71_default_float (c : Cfg) {ct : CharType} (T : FloatTy) (hT : T ≠ .float16) {s : List Nat} (hin : Input ct s)
    (hs : s.length + 400 ≤ 2 ^ 28) (r : ApiFloat) :
    (fromChars c ct T.fmt s = .ok r ↔
      r.off ≤ s.length ∧ FloatCall T.spec (IeeeNumber T.spec) (effective c.plusMacro c.wsMacro 5) 46 (body (effective c.plusMacro c.wsMacro 5) s)
        (s.drop r.off) r.ec.code r.value) ∧
    (fromCharsFloat c ct T.fmt s {} = .ok r ↔
      r.off ≤ s.length ∧ FloatCall T.spec (IeeeNumber T.spec) (effective c.plusMacro c.wsMacro 5) 46 (body (effective c.plusMacro c.wsMacro 5) s)
        (s.drop r.off) r.ec.code r.value) :=
  ⟨C71_from_chars c T hT 5 hin hs r, C71_from_chars c T hT 5 hin hs r⟩

/-- ... and an integer in base ten. -/
theorem C71_default_int (c : Cfg) {ct : CharType} {T : IntType} (hT : T.WF) {s : List Nat} (hin : Input ct s) (r : ApiInt) :
    (fromCharsInt c ct T s = .ok r ↔
      r.off ≤ s.length ∧ IntCall T.signed (ActualInt T.bits T.signed 10) (effective c.plusMacro c.wsMacro 5) 10
        (body (effective c.plusMacro c.wsMacro 5) s) (s.drop r.off) r.ec.code r.value) ∧
    (fromCharsIntApi c ct T s {} = .ok r ↔
      r.off ≤ s.length ∧ IntCall T.signed (ActualInt T.bits T.signed 10) (effective c.plusMacro c.wsMacro 5) 10
        (body (effective c.plusMacro c.wsMacro 5) s) (s.drop r.off) r.ec.code r.value) :=
  ⟨C71_from_chars_base c hT 10 hin r, C71_from_chars_base c hT 10 hin r⟩

/-! ### The hypotheses are met, and the arguments matter -/

/-- "1e2" in the fixed format is "1" ... -/
example : (fromChars Cfg.x64 CharType.char FloatTy.double.fmt [49, 101, 50] 4 = .ok ⟨1, .ok, some 0x3FF0000000000000⟩) ∧
    FloatCall FloatTy.double.spec (IeeeNumber FloatTy.double.spec) (effective false false 4) 46 (body (effective false false 4) [49, 101, 50]) [101, 50] .success
      (some 0x3FF0000000000000) := by
  have h : fromChars Cfg.x64 CharType.char FloatTy.double.fmt [49, 101, 50] 4 = .ok ⟨1, .ok, some 0x3FF0000000000000⟩ := by decide +kernel
  exact ⟨h, ((C71_from_chars Cfg.x64 .double (by decide) 4 (input_of_bytes (by decide) (by decide)) (by decide) _).1 h).2⟩

/-- ... and "7f" in base 16 is 127, "x" stores zero into a `std::float64_t`. -/
example : (fromCharsInt Cfg.x64 CharType.char int32 [55, 102] 16 = .ok ⟨2, .ok, some 127⟩ ∧
      IntCall true (ActualInt 32 true 16) (effective false false 5) 16 (body (effective false false 5) [55, 102]) [] .success (some 127)) ∧
    (fromCharsAlias Cfg.x64 CharType.char FloatTy.double.fmt [120] 5 = .ok ⟨0, .invalidArgument, some 0⟩ ∧
      ∃ v, FloatCall FloatTy.double.spec (IeeeNumber FloatTy.double.spec) (effective false false 5) 46 (body (effective false false 5) [120]) [120]
        .invalid v ∧ (some 0 : Option Nat) = some (v.getD 0)) := by
  have h : fromCharsInt Cfg.x64 CharType.char int32 [55, 102] 16 = .ok ⟨2, .ok, some 127⟩ := by decide +kernel
  have h' : fromCharsAlias Cfg.x64 CharType.char FloatTy.double.fmt [120] 5 = .ok ⟨0, .invalidArgument, some 0⟩ := by decide +kernel
  exact ⟨⟨h, ((C71_from_chars_base Cfg.x64 (by decide) 16 (input_of_bytes (by decide) (by decide)) _).1 h).2⟩,
    h', ((C71_alias Cfg.x64 .double (by decide) 5 (input_of_bytes (by decide) (by decide)) (by decide) _).1 h').2⟩

end FastFloat
