import Verif.Proofs.Cost
import Verif.Props.Vocabulary
/-
# C75, C76: the work of a call is linear in the length of the text

`Verif.Model.Cost` is the model with a counter in every loop: one step for every code unit a loop looks at and one for every limb of a big integer it reads,
writes, copies or fills.  The theorems say, for every text whatever, that the counted call has the outcome of the model and takes at most `a * n + b` steps for
a text of `n` units.  So there is no quadratic blow-up on long texts, and the arbitrary precision part takes a bounded number of steps however many digits
are given.
-/
set_option autoImplicit false
namespace FastFloat

theorem FloatTy.maxDigits_le (T : FloatTy) : T.fmt.maxDigits ≤ 769 := by cases T <;> decide

/-- **C75**: `from_chars_advanced` for a floating-point type: a text of `n` code units takes at most `27 n + 104511` steps, whatever its content, the options,
the configuration and the character type.  The counted call is the call: it has the same outcome. -/
theorem C75_float_linear (c : Cfg) (ct : CharType) (T : FloatTy) (s : List Nat) (opt : Options) :
    (fromCharsFloatT c ct T.fmt s opt).out = fromCharsFloat c ct T.fmt s opt ∧ (fromCharsFloatT c ct T.fmt s opt).steps ≤ 27 * s.length + 104511 :=
  have r := fromCharsFloatT_runs c ct T.fmt T.maxDigits_le s opt
  ⟨r.out, r.steps⟩

/-- **C75**: scanning alone (`parse_number_string`): at most `8 n + 4` steps. -/
theorem C75_scan_linear (c : Cfg) (ct : CharType) (json : Bool) (s : List Nat) (opt : Options) (spans : Bool) :
    (parseNumberStringT c ct json s opt spans).out = parseNumberString c ct json s opt spans ∧ (parseNumberStringT c ct json s opt spans).steps ≤ 8 * s.length + 4 :=
  have r := parseNumberStringT_runs c ct json s opt spans
  ⟨r.out, r.steps⟩

/-- **C75**: evaluating a parsed number (`from_chars_advanced(parsed_number_string_t&, T&)`): ten steps for each digit of the longer of the two recorded digit
spans, to scan them, and at most 104503 steps of arithmetic, however many digits there are. -/
theorem C75_parsed_linear (c : Cfg) (ct : CharType) (T : FloatTy) (pns : ParsedNumber) :
    (fromCharsAdvancedPnsT c ct T.fmt pns).out = fromCharsAdvancedPns c ct T.fmt pns ∧
      (fromCharsAdvancedPnsT c ct T.fmt pns).steps ≤ 10 * max (pns.integer.getD []).length (pns.fraction.getD []).length + 104503 := by
  have r := fromCharsAdvancedPnsT_runs c ct T.fmt T.maxDigits_le pns (max (pns.integer.getD []).length (pns.fraction.getD []).length) ?_
  · exact ⟨r.out, r.steps⟩
  · exact ⟨le_max_left _ _, le_max_right _ _⟩

/-- **C76**: `from_chars_advanced` for an integer type: a text of `n` code units takes at most `6 n + 10` steps. -/
theorem C76_int_linear (c : Cfg) (ct : CharType) (T : IntType) (s : List Nat) (opt : Options) :
    (fromCharsIntApiT c ct T s opt).out = fromCharsIntApi c ct T s opt ∧ (fromCharsIntApiT c ct T s opt).steps ≤ 6 * s.length + 10 :=
  have r := fromCharsIntApiT_runs c ct T s opt
  ⟨r.out, r.steps⟩

/-- The counter at work: 9007199254740993.00000000000000000000000000000000000001 (just above a tie) goes through the big integers: 290 steps; a number
of the fast path takes one step for every unit. -/
example :
    (fromCharsFloatT Cfg.x64 CharType.char FloatTy.double.fmt ("9007199254740993.00000000000000000000000000000000000001".toList.map Char.toNat) {}).steps = 290 ∧
    (fromCharsFloatT Cfg.x64 CharType.char FloatTy.double.fmt ("1e23".toList.map Char.toNat) {}).steps = 4 ∧
    (fromCharsIntApiT Cfg.x64 CharType.char uint64 ("18446744073709551615".toList.map Char.toNat) {}).steps = 41 := by
  refine ⟨?_, ?_, ?_⟩ <;> decide +kernel

end FastFloat
