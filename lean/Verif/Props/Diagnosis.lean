import Verif.Proofs.Diagnose
import Verif.Props.Total
/-
# C63: the public scanner `parse_number_string` and its diagnostics
-/
set_option linter.unusedSimpArgs false
set_option autoImplicit false
namespace FastFloat
open NumSpec FloatSpec ApiSpec

/-- The grammar of `parse_number_string<json>`: the template argument, not the format word, selects the JSON restrictions. -/
def scannerGrammar (c : Cfg) (json : Bool) (opt : Options) : Rules := { grammar c opt with json := json }

theorem scannerGrammar_eq (c : Cfg) (json : Bool) (opt : Options) :
    scanRules json (adjustForFeatureMacros c opt.format) opt.decimalPoint = scannerGrammar c json opt := by
  rw [adjust_eq]
  have h := scanRules_eq (c.eff opt) opt.decimalPoint
  unfold scannerGrammar grammar
  rw [← h]
  rfl

theorem scanned_pns {n : Numeral} (hd : ∀ d ∈ n.digits, IsDigit d) (rest : List Nat) :
    ScannedAs n (pnsOf true n rest).mantissa (pnsOf true n rest).exponent (pnsOf true n rest).tooManyDigits := by
  have hs : significant n = dz n.digits := rfl
  unfold pnsOf pnsGen
  refine ⟨?_, fun h => ?_, fun h => ?_⟩
  · simp [hs]
  · simp only at h ⊢
    rw [h]
    simp only [Bool.false_and, Bool.false_eq_true, if_false, clip_expVal, and_true]
    have h19 : (dz n.digits).length ≤ 19 := by simpa using h
    have h1 : dval n.digits = dval (dz n.digits) := (dval_dz n.digits).symm
    have h2 := dval_lt (l := dz n.digits) (fun c hc => hd c ((List.dropWhile_sublist _).subset hc))
    have h3 : (10 : Nat) ^ (dz n.digits).length ≤ 10 ^ 19 := Nat.pow_le_pow_right (by norm_num) h19
    rw [Nat.mod_eq_of_lt (by rw [h1]; norm_num at h3 ⊢; omega)]
    rfl
  · simp only at h ⊢
    rw [h]
    simp only [Bool.true_and, if_true, clip_expVal, hs]
    exact ⟨rfl, by omega⟩

/-- The record `parse_number_string` returns, described without the model: either the text starts with a numeral and the record describes it, or the
record carries the diagnosis. -/
inductive ScanResult (g : Rules) (s : List Nat) : ParsedNumber → Prop
  | numeral {n : Numeral} {rest : List Nat} {m : Nat} {e : Int} {many : Bool} (text : Munch g s n rest) (scanned : ScannedAs n m e many) :
      ScanResult g s { valid := true, error := .noError, lastmatch := rest, negative := n.neg, mantissa := m, exponent := e, tooManyDigits := many, integer := some n.int, fraction := n.frac }
  | problem {x : Problem} {p : List Nat} {e : ParseError} (diagnosis : Diagnosis g s x p) (code : e.problem = some x) :
      ScanResult g s { valid := false, error := e, lastmatch := p, negative := false, mantissa := 0, exponent := 0, tooManyDigits := false, integer := none, fraction := none }

theorem scannedAs_unique {n : Numeral} {m m' : Nat} {e e' : Int} {b b' : Bool} (h : ScannedAs n m e b) (h' : ScannedAs n m' e' b') : m = m' ∧ e = e' ∧ b = b' := by
  have hb : b = b' := by
    rw [Bool.eq_iff_iff, h.flag, h'.flag]
  subst hb
  cases b with
  | true => obtain ⟨a1, a2⟩ := h.long rfl; obtain ⟨b1, b2⟩ := h'.long rfl; exact ⟨by rw [a1, b1], by rw [a2, b2], rfl⟩
  | false => obtain ⟨a1, a2⟩ := h.short rfl; obtain ⟨b1, b2⟩ := h'.short rfl; exact ⟨by rw [a1, b1], by rw [a2, b2], rfl⟩

/-- The description determines the record. -/
theorem scanResult_unique {g : Rules} (hp : g.PointOK) {s : List Nat} {r r' : ParsedNumber} (h : ScanResult g s r) (h' : ScanResult g s r') : r = r' := by
  cases h with
  | numeral text scanned =>
    have h1 := munch_scan hp text
    cases h' with
    | numeral text' scanned' =>
      have h2 := munch_scan hp text'
      rw [h1] at h2
      cases h2
      obtain ⟨rfl, rfl, rfl⟩ := scannedAs_unique scanned scanned'
      rfl
    | problem diagnosis code =>
      rw [scan_none_of_diag (refDiag_complete hp.1 diagnosis)] at h1; cases h1
  | problem diagnosis code =>
    have h1 := refDiag_complete hp.1 diagnosis
    cases h' with
    | numeral text' scanned' =>
      have h2 := munch_scan hp text'
      rw [scan_none_of_diag h1] at h2; cases h2
    | problem diagnosis' code' =>
      have h2 := refDiag_complete hp.1 diagnosis'
      rw [h1] at h2
      cases h2
      have := ParseError.problem_inj (code.trans code'.symm)
      rw [this]

/-- **C63**: `parse_number_string` on any non-empty sequence of code units returns exactly the record described by `ScanResult`: the numeral at the start of
the text, or the reason why there is none and the place of it. -/
theorem C63_scanner (c : Cfg) {ct : CharType} (hw : ct.WF) (json : Bool) {s : List Nat} (opt : Options) (hs : s ≠ []) (hu : ∀ u ∈ s, UnitOK ct u)
    (hlen : s.length < 2 ^ 62) (hp : (scannerGrammar c json opt).PointOK) (r : ParsedNumber) :
    parseNumberString c ct json s opt true = .ok r ↔ ScanResult (scannerGrammar c json opt) s r := by
  have key : ∃ r, parseNumberString c ct json s opt true = .ok r ∧ ScanResult (scannerGrammar c json opt) s r := by
    cases hsn : scanNumeral (scannerGrammar c json opt) s with
    | none =>
      obtain ⟨r, h1, e, x, p, h2, h3, h4⟩ := parse_diag c hw json opt true hs hu hlen (by rw [scannerGrammar_eq]; exact hsn)
      rw [scannerGrammar_eq] at h4
      refine ⟨r, h1, ?_⟩
      rw [h2]
      exact .problem (refDiag_sound h4) h3
    | some x =>
      obtain ⟨n, rest⟩ := x
      have h1 := (parse_spec c hw json opt true hs hu hlen hp.1).2 n rest (by rw [scannerGrammar_eq]; exact hsn)
      refine ⟨_, h1, ?_⟩
      exact .numeral (scan_munch hsn) (scanned_pns (scan_sound hsn).1.2.1 rest)
  obtain ⟨r0, h1, h2⟩ := key
  constructor
  · intro h
    rw [h1] at h; cases h; exact h2
  · intro h
    rw [h1, scanResult_unique hp h2 h]

/-- **C63**: without the spans (`store_spans = false`) the scanner accepts and rejects the same texts with the same diagnosis, and returns the same fields,
except that mantissa and exponent are not usable when `too_many_digits` is set. -/
theorem C63_without_spans (c : Cfg) {ct : CharType} (hw : ct.WF) (json : Bool) {s : List Nat} (opt : Options) (hs : s ≠ []) (hu : ∀ u ∈ s, UnitOK ct u)
    (hlen : s.length < 2 ^ 62) (hp : (scannerGrammar c json opt).PointOK) {r : ParsedNumber} (h : parseNumberString c ct json s opt true = .ok r) :
    ∃ m e, parseNumberString c ct json s opt false = .ok { r with mantissa := m, exponent := e, integer := none, fraction := none } ∧
      (r.tooManyDigits = false → m = r.mantissa ∧ e = r.exponent) := by
  cases hsn : scanNumeral (scannerGrammar c json opt) s with
  | none =>
    obtain ⟨r1, h1, e, x, p, h2, h3, h4⟩ := parse_diag c hw json opt true hs hu hlen (by rw [scannerGrammar_eq]; exact hsn)
    obtain ⟨r2, k1, e', x', p', k2, k3, k4⟩ := parse_diag c hw json opt false hs hu hlen (by rw [scannerGrammar_eq]; exact hsn)
    rw [h] at h1
    cases h1
    rw [h4] at k4
    cases k4
    have he : e = e' := ParseError.problem_inj (h3.trans k3.symm)
    refine ⟨0, 0, ?_, fun _ => ?_⟩
    · rw [k1, k2, h2, he]; rfl
    · rw [h2]; exact ⟨rfl, rfl⟩
  | some x =>
    obtain ⟨n, rest⟩ := x
    have h1 := (parse_spec c hw json opt true hs hu hlen hp.1).2 n rest (by rw [scannerGrammar_eq]; exact hsn)
    have h2 := (parse_spec c hw json opt false hs hu hlen hp.1).2 n rest (by rw [scannerGrammar_eq]; exact hsn)
    rw [h] at h1
    cases h1
    refine ⟨(pnsOf false n rest).mantissa, (pnsOf false n rest).exponent, ?_, fun hm => ?_⟩
    · rw [h2]; rfl
    · unfold pnsOf pnsGen at hm ⊢
      simp only at hm ⊢
      rw [hm]
      simp

/-- `-.x` after JSON rules: the minus sign is not followed by an integer. -/
example : parseNumberString Cfg.x64 CharType.char true [45, 46, 120] {} true = .ok { lastmatch := [46, 120], error := .missingIntegerAfterSign } ∧
    Diagnosis (scannerGrammar Cfg.x64 true {}) [45, 46, 120] .missingIntegerAfterSign [46, 120] :=
  ⟨by decide +kernel, .jsonAfterSign rfl (.minus _) (by simp) (by rintro u t h; cases h; unfold IsDigit; omega)⟩
/-- `1.5e+` in the scientific format: the place of the problem is the end of the text. -/
example : ∃ r, parseNumberString Cfg.x64 CharType.char false [49, 46, 53, 101, 43] { format := 1 } true = .ok r ∧
    ScanResult (scannerGrammar Cfg.x64 false { format := 1 }) [49, 46, 53, 101, 43] r ∧ r.error = .missingExponentialPart ∧ r.lastmatch = [] := by
  refine ⟨{ lastmatch := [], error := .missingExponentialPart }, by decide +kernel, ?_, rfl, rfl⟩
  exact (C63_scanner Cfg.x64 (ct := CharType.char) (by decide) false { format := 1 } (by simp) (by unfold UnitOK; decide) (by decide) sample_point _).1
    (by decide +kernel)
/-- More than 19 digits. -/
example : ∃ r, parseNumberString Cfg.x64 CharType.char false sampleText {} true = .ok r ∧ ScanResult (scannerGrammar Cfg.x64 false {}) sampleText r ∧
    r.tooManyDigits = true := by
  obtain ⟨r, hr, hm⟩ : ∃ r, parseNumberString Cfg.x64 CharType.char false sampleText {} true = .ok r ∧ r.tooManyDigits = true := by
    refine ⟨_, rfl, ?_⟩; decide +kernel
  exact ⟨r, hr, (C63_scanner Cfg.x64 (by decide) false {} (by decide) sample_input.ok (by decide) sample_point r).1 hr, hm⟩
example : ∃ m e r, parseNumberString Cfg.x64 CharType.char false [49, 46, 53] {} true = .ok r ∧
    parseNumberString Cfg.x64 CharType.char false [49, 46, 53] {} false = .ok { r with mantissa := m, exponent := e, integer := none, fraction := none } := by
  obtain ⟨m, e, h, _⟩ := C63_without_spans Cfg.x64 (ct := CharType.char) (by decide) false (s := [49, 46, 53]) {} (by simp) (by unfold UnitOK; decide) (by decide)
    sample_point (r := ⟨-1, 15, [], false, true, false, some [49], some [53], .noError⟩) (by decide +kernel)
  exact ⟨m, e, _, by decide +kernel, h⟩

end FastFloat
