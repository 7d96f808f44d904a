import Verif.Props.Delim
import Verif.Props.Pow10
/-
# C24, C26, C34-C39, C41, C45: definedness, independence of the build, the public overloads
-/
set_option linter.unusedSimpArgs false
namespace FastFloat
open NumSpec FloatSpec ApiSpec

/-! ### C24, C26 -/

/-- **C24**: a call of a floating-point overload always ends normally: for every configuration, character type, floating-point type, options
and input (units for which the digit test does not overflow) the execution reaches a result, that is, it never reads outside
the input, never indexes a table out of range, never shifts too far, never counts leading zeros of 0, never overflows a signed integer, never
runs out of room, and every loop ends; and the returned pointer is inside the input. -/
theorem C24_float_defined (c : Cfg) {ct : CharType} (hw : ct.WF) (T : FloatTy) {s : List Nat} (opt : Options)
    (hu : ∀ u ∈ s, UnitOK ct u) (hl : s.length < 2 ^ 62) :
    ∃ r, fromCharsFloat c ct T.fmt s opt = .ok r ∧ r.off ≤ s.length := by
  obtain ⟨h1, h2⟩ := float_cases_gen c hw T opt hu hl
  cases hs : scanNumeral (rules (c.eff opt) opt.decimalPoint) (codeBody ct (c.eff opt) s) with
  | some x =>
    obtain ⟨b, ec, h3, _⟩ := h1 x.1 x.2 hs
    exact ⟨_, h3, Nat.sub_le _ _⟩
  | none =>
    obtain ⟨h3, h4⟩ := h2 hs
    by_cases hn : noInfNan (c.eff opt) = true
    · exact ⟨_, h3 hn, Nat.sub_le _ _⟩
    · obtain ⟨h5, h6, h7⟩ := h4 (by simpa using hn)
      by_cases hi : ∃ neg rest, InfText (plusFlag (c.eff opt)) (codeBody ct (c.eff opt) s) neg rest
      · obtain ⟨neg, rest, hi⟩ := hi
        exact ⟨_, h5 _ _ hi, Nat.sub_le _ _⟩
      · by_cases hna : ∃ neg rest, NanText (plusFlag (c.eff opt)) (codeBody ct (c.eff opt) s) neg rest
        · obtain ⟨neg, rest, hna⟩ := hna
          exact ⟨_, h6 _ _ hna, Nat.sub_le _ _⟩
        · exact ⟨_, h7 hi hna, Nat.sub_le _ _⟩

/-- The only units excluded in C24 are `0x80000000 ... 0x8000002F` of a signed 4-byte `wchar_t`; on those the digit test `c - '0'` overflows
`int`. -/
theorem C24_negative_wchar :
    fromCharsFloat Cfg.x64 ⟨4, true, false, false⟩ binary64 [0x80000005] {} = .error .signedOverflow := by decide +kernel

example : ∀ u ∈ sampleText, UnitOK CharType.char u := sample_input.ok

/-- **C26**: the fixed-size big integer of the slow path never runs out of room, with 32-bit and with 64-bit limbs. -/
theorem C26_bigint_room (c : Cfg) {ct : CharType} (hw : ct.WF) (T : FloatTy) {s : List Nat} (opt : Options)
    (hu : ∀ u ∈ s, UnitOK ct u) (hl : s.length < 2 ^ 62) :
    fromCharsFloat c ct T.fmt s opt ≠ .error .capacity := by
  obtain ⟨r, h, _⟩ := C24_float_defined c hw T opt hu hl
  rw [h]; intro h; cases h

/-- The sample text needs the big integer. -/
example : fromCharsFloat { Cfg.x64 with limb64 := false } CharType.char binary64 sampleText {} ≠ .error .capacity :=
  C26_bigint_room _ (by decide) .double {} sample_input.ok (by decide)

/-! ### C35 - C38 -/

/-- The same text gives the same outcome when the numeric kernel does. -/
theorem Outcome.transport {c c' : Cfg} {ct ct' : CharType} {T : FloatTy} {fmt point : Nat} {t rest : List Nat} {ec : Errc} {v : Option Nat}
    (h : Outcome c ct T fmt point t rest ec v)
    (hn : ∀ n : Numeral, (∀ d ∈ n.digits, IsDigit d) → numOut c ct T n = numOut c' ct' T n) : Outcome c' ct' T fmt point t rest ec v := by
  cases h with
  | num hs ho => exact Outcome.num hs (by rw [← hn _ (scan_sound hs).1.2.1]; exact ho)
  | inf hn h => exact Outcome.inf hn h
  | nan hn h => exact Outcome.nan hn h
  | bad hs h => exact Outcome.bad hs h

theorem call_transport {c c' : Cfg} {ct ct' : CharType} {T : FloatTy} {s : List Nat} {opt opt' : Options} (hin : Input ct s) (hin' : Input ct' s)
    (hdp : ¬ IsDigit opt.decimalPoint) (he : c.eff opt = c'.eff opt') (hp : opt.decimalPoint = opt'.decimalPoint)
    (hn : ∀ n : Numeral, (∀ d ∈ n.digits, IsDigit d) → numOut c ct T n = numOut c' ct' T n) :
    fromCharsFloat c ct T.fmt s opt = fromCharsFloat c' ct' T.fmt s opt' := by
  obtain ⟨rest, ec, v, ho⟩ := outcome_exists c hin.wf T (c.eff opt) opt.decimalPoint (textOf c opt s)
  rw [Outcome.call hin hdp ho]
  have := ho.transport hn
  have ht : textOf c opt s = textOf c' opt' s := by unfold textOf; rw [he]
  rw [ht, he, hp] at this
  exact (Outcome.call hin' (by rw [← hp]; exact hdp) this).symm

theorem SameMacros.eff {c c' : Cfg} (h : SameMacros c c') (opt : Options) : c.eff opt = c'.eff opt := by
  unfold Cfg.eff; rw [h.1, h.2]

/-- **C35**: the result does not depend on the configuration: limb width, 128-bit arithmetic, endianness, SIMD flavour, compiler, compile-time or
run-time evaluation, rounding mode, `FLT_EVAL_METHOD` (for `float16_t` see the two theorems below). -/
theorem C35_build_independence {c c' : Cfg} (hm : SameMacros c c') {ct : CharType} (T : FloatTy) (hT : T ≠ .float16) {s : List Nat} (opt : Options)
    (hin : Input ct s) (hdp : ¬ IsDigit opt.decimalPoint) : fromCharsFloat c ct T.fmt s opt = fromCharsFloat c' ct T.fmt s opt :=
  call_transport hin hin hdp (hm.eff opt) rfl (fun _ hd => numOut_indep' c c' hin.wf hin.wf hT hd)

/-- A 32-bit big-endian clang build without SIMD, evaluated at compile time, against the common build. -/
example : fromCharsFloat Cfg.x64 CharType.char binary64 sampleText {} =
    fromCharsFloat ⟨false, false, false, false, true, .none, true, true, true, false, false, .up, .ext⟩ CharType.char binary64 sampleText {} :=
  C35_build_independence (c := Cfg.x64) (c' := ⟨false, false, false, false, true, .none, true, true, true, false, false, .up, .ext⟩) (ct := CharType.char)
    (s := sampleText) ⟨rfl, rfl⟩ .double (by decide) {} sample_input sample_point.1

/-- **C35 for all types, partial**: configurations that agree on evaluation time, rounding mode and `FLT_EVAL_METHOD` give the same result.  Missing:
for `float16_t` the error code does depend on those (see `C35_float16_counterexample`). -/
theorem C35_build_independence_float16_partial {c c' : Cfg} (hm : SameMacros c c') (hf : SameFpu c c') {ct : CharType} (T : FloatTy) {s : List Nat} (opt : Options)
    (hin : Input ct s) (hdp : ¬ IsDigit opt.decimalPoint) : fromCharsFloat c ct T.fmt s opt = fromCharsFloat c' ct T.fmt s opt :=
  call_transport hin hin hdp (hm.eff opt) rfl (fun _ hd => numOut_indep hf hin.wf hin.wf T hd)

example : fromCharsFloat Cfg.x64 CharType.char binary16 halfOverText {} =
    fromCharsFloat { Cfg.x64 with limb64 := false, clang := true, evalMethod := .dbl } CharType.char binary16 halfOverText {} :=
  C35_build_independence_float16_partial (c := Cfg.x64) (c' := { Cfg.x64 with limb64 := false, clang := true, evalMethod := .dbl }) (ct := CharType.char)
    (s := halfOverText) ⟨rfl, rfl⟩ ⟨rfl, rfl, rfl⟩ .float16 {} halfOver_input sample_point.1

/-- "2000e4" as `float16_t`: no error at run time, `result_out_of_range` at compile time. -/
theorem C35_float16_counterexample :
    fromCharsFloat Cfg.x64 CharType.char binary16 [50, 48, 48, 48, 101, 52] {} = .ok ⟨6, .ok, some 31744⟩ ∧
    fromCharsFloat { Cfg.x64 with constEval := true } CharType.char binary16 [50, 48, 48, 48, 101, 52] {} = .ok ⟨6, .outOfRange, some 31744⟩ :=
  ⟨by decide +kernel, by decide +kernel⟩

/-- **C36**: the same code units presented as another character type give the same result. -/
theorem C36_character_type (c : Cfg) {ct ct' : CharType} (T : FloatTy) {s : List Nat} (opt : Options) (hin : Input ct s) (hin' : Input ct' s)
    (hdp : ¬ IsDigit opt.decimalPoint) : fromCharsFloat c ct T.fmt s opt = fromCharsFloat c ct' T.fmt s opt :=
  call_transport hin hin' hdp rfl rfl (fun _ hd => numOut_indep ⟨rfl, rfl, rfl⟩ hin.wf hin'.wf T hd)

/-- `sampleText` as `char16_t`. -/
example : fromCharsFloat Cfg.x64 CharType.char binary64 sampleText {} = fromCharsFloat Cfg.x64 ⟨2, false, false, true⟩ binary64 sampleText {} :=
  C36_character_type Cfg.x64 .double {} sample_input ⟨by decide, fun u hu => ⟨lt_trans ((sample_input.units u hu).1 : u < 2 ^ 8) (by decide), fun h => by cases h⟩, by decide⟩ sample_point.1

/-- The magnitude stored for a numeral is the same in all configurations, for every type. -/
theorem numOut_value (c c' : Cfg) {ct ct' : CharType} (hw : ct.WF) (hw' : ct'.WF) (T : FloatTy) {n : Numeral} (hd : ∀ d ∈ n.digits, IsDigit d)
    {ec ec' : Errc} {b b' : Nat} (h : numOut c ct T n = .ok (ec, b)) (h' : numOut c' ct' T n = .ok (ec', b')) : b = b' := by
  obtain ⟨f1, w1, k1, a1, a2⟩ := numCore_spec c hw T hd
  obtain ⟨f2, w2, k2, b1, b2⟩ := numCore_spec c' hw' T hd
  unfold numOut at h h'
  rw [a1] at h
  rw [b1] at h'
  have h : (f1, coreBits T.fmt false w1) = (ec, b) := Except.ok.inj h
  have h' : (f2, coreBits T.fmt false w2) = (ec', b') := Except.ok.inj h'
  rw [← (Prod.mk.inj h).2, ← (Prod.mk.inj h').2, a2.bits, b2.bits, a2.index_unique b2]

/-- **C37** (and C35 for the value): for every type, the pointer and the stored value are the same in all configurations with the same feature macros; in particular
they do not depend on the rounding mode. -/
theorem C37_value_independence {c c' : Cfg} (hm : SameMacros c c') {ct : CharType} (T : FloatTy) {s : List Nat} (opt : Options)
    (hin : Input ct s) (hdp : ¬ IsDigit opt.decimalPoint) :
    ∃ r r', fromCharsFloat c ct T.fmt s opt = .ok r ∧ fromCharsFloat c' ct T.fmt s opt = .ok r' ∧ r.off = r'.off ∧ r.value = r'.value ∧
      (r.ec = .invalidArgument ↔ r'.ec = .invalidArgument) := by
  have ht : textOf c' opt s = textOf c opt s := by unfold textOf; rw [hm.eff opt]
  have heff := hm.eff opt
  obtain ⟨rest, ec, v, ho⟩ := outcome_exists c hin.wf T (c.eff opt) opt.decimalPoint (textOf c opt s)
  have key : ∃ ec', Outcome c' ct T (c.eff opt) opt.decimalPoint (textOf c opt s) rest ec' v ∧ (ec = .invalidArgument ↔ ec' = .invalidArgument) := by
    cases ho with
    | num hs hno =>
      rename_i n b
      have hd := (scan_sound hs).1.2.1
      obtain ⟨f, w, k, a1, a2⟩ := numCore_spec c' hin.wf T hd
      obtain ⟨f0, w0, k0, a10, a20⟩ := numCore_spec c hin.wf T hd
      have h1 : numOut c' ct T n = .ok (f, coreBits T.fmt false w) := by unfold numOut; rw [a1]; rfl
      have h0 : numOut c ct T n = .ok (f0, coreBits T.fmt false w0) := by unfold numOut; rw [a10]; rfl
      have hb := numOut_value c c' hin.wf hin.wf T hd hno h1
      refine ⟨f, ?_, ?_⟩
      · rw [hb]; exact Outcome.num hs h1
      · rw [hno] at h0
        have := (Prod.mk.inj (Except.ok.inj h0)).1
        rw [this]
        rcases a2.ecs with h | h <;> rcases a20.ecs with h' | h' <;> rw [h, h'] <;> simp
    | inf hn h => exact ⟨.ok, Outcome.inf hn h, by simp⟩
    | nan hn h => exact ⟨.ok, Outcome.nan hn h, by simp⟩
    | bad hs h => exact ⟨_, Outcome.bad hs h, Iff.rfl⟩
  obtain ⟨ec', ho', hiff⟩ := key
  have hc' := Outcome.call (c := c') (opt := opt) (rest := rest) (ec := ec') (v := v) hin hdp (by rw [ht, ← heff]; exact ho')
  exact ⟨_, _, Outcome.call hin hdp ho, hc', rfl, rfl, hiff⟩

/-- `2000e4` as float16 at run time and at compile time. -/
example : ∃ r r', fromCharsFloat Cfg.x64 CharType.char binary16 halfOverText {} = .ok r ∧
    fromCharsFloat { Cfg.x64 with constEval := true, mode := .down } CharType.char binary16 halfOverText {} = .ok r' ∧ r.off = r'.off ∧ r.value = r'.value ∧
      (r.ec = .invalidArgument ↔ r'.ec = .invalidArgument) :=
  C37_value_independence (c := Cfg.x64) (c' := { Cfg.x64 with constEval := true, mode := .down }) (ct := CharType.char) (s := halfOverText) ⟨rfl, rfl⟩ .float16 {} halfOver_input sample_point.1

example : SameMacros Cfg.x64 { Cfg.x64 with mode := .down, limb64 := false, bigEndian := true, simd := .none } := ⟨rfl, rfl⟩

theorem eff_macros (c : Cfg) (opt : Options) :
    c.eff opt = { c with plusMacro := false, wsMacro := false }.eff
      { opt with format := opt.format ||| ((if c.plusMacro then 128 else 0) ||| (if c.wsMacro then 256 else 0)) } := by
  unfold Cfg.eff effective
  simp

/-- **C38**: building with the feature macros is the same as passing the flags in every call. -/
theorem C38_macros_are_flags (c : Cfg) {ct : CharType} (T : FloatTy) {s : List Nat} (opt : Options) (hin : Input ct s) (hdp : ¬ IsDigit opt.decimalPoint) :
    fromCharsFloat c ct T.fmt s opt = fromCharsFloat { c with plusMacro := false, wsMacro := false } ct T.fmt s
      { opt with format := opt.format ||| ((if c.plusMacro then 128 else 0) ||| (if c.wsMacro then 256 else 0)) } :=
  call_transport hin hin hdp (eff_macros c opt) rfl (fun _ hd => numOut_indep (c := c) (c' := { c with plusMacro := false, wsMacro := false }) ⟨rfl, rfl, rfl⟩ hin.wf hin.wf T hd)

/-- " +1" in a build with both macros. -/
example : fromCharsFloat { Cfg.x64 with plusMacro := true, wsMacro := true } CharType.char binary64 [32, 43, 49] {} = .ok ⟨3, .ok, some 0x3FF0000000000000⟩ := by
  rw [show binary64 = FloatTy.double.fmt from rfl, C38_macros_are_flags _ _ _ (input_of_bytes (by decide) (by decide)) sample_point.1]
  decide +kernel

/-! ### C39 -/

/-- **C39, partial**: `from_chars` for `std::float32_t` / `std::float64_t` gives the pointer and error code of `float` / `double`, and the same value whenever
something is accepted.  Missing: the value is overwritten on failure, see `C39_alias_overwrites`. -/
theorem C39_alias_partial (c : Cfg) {ct : CharType} (T : FloatTy) {s : List Nat} (fmt : Fmt) (hin : Input ct s)
    {r : ApiFloat} (h : fromChars c ct T.fmt s fmt = .ok r) :
    ∃ r', fromCharsAlias c ct T.fmt s fmt = .ok r' ∧ r'.off = r.off ∧ r'.ec = r.ec ∧ (r.ec ≠ .invalidArgument → r'.value = r.value) := by
  unfold fromChars at h
  refine ⟨⟨r.off, r.ec, some (r.value.getD 0)⟩, ?_, rfl, rfl, ?_⟩
  · unfold fromCharsAlias; rw [h]; rfl
  · intro he
    have := C14_success_stores c T { format := fmt } hin (show ¬ IsDigit 46 by unfold IsDigit; omega) h he
    cases hv : r.value with
    | none => exact absurd hv this
    | some v => simp

example : ∃ r', fromCharsAlias Cfg.x64 CharType.char binary32 underText 5 = .ok r' ∧ r'.off = 6 ∧ r'.ec = .outOfRange ∧
    (Errc.outOfRange ≠ .invalidArgument → r'.value = some 2147483648) :=
  C39_alias_partial Cfg.x64 .float 5 under_input (r := ⟨6, .outOfRange, some 2147483648⟩) (by decide +kernel)

/-- On `invalid_argument` the alias overloads store 0 into `value`, whereas `float` and `double` leave it alone. -/
theorem C39_alias_overwrites (c : Cfg) {ct : CharType} (T : FloatTy) {s : List Nat} (fmt : Fmt) (hin : Input ct s)
    {r : ApiFloat} (h : fromChars c ct T.fmt s fmt = .ok r) (he : r.ec = .invalidArgument) :
    r.value = none ∧ fromCharsAlias c ct T.fmt s fmt = .ok ⟨r.off, .invalidArgument, some 0⟩ := by
  unfold fromChars at h
  have := (C14_failure_leaves_value c T { format := fmt } hin (show ¬ IsDigit 46 by unfold IsDigit; omega) h he).1
  refine ⟨this, ?_⟩
  unfold fromCharsAlias
  rw [h, ← he]
  show Except.ok _ = _
  rw [this]; rfl

example : fromCharsAlias Cfg.x64 CharType.char binary64 [120] 5 = .ok ⟨0, .invalidArgument, some 0⟩ := by decide +kernel

/-! ### C34 -/

/-- **C34**: `integer_times_pow10<T>(W, Q)` has the bits that `from_chars` stores for a numeral denoting `W·10^Q` (such as the text "WeQ"). -/
theorem C34_pow10_agrees (c c' : Cfg) {ct : CharType} (T : FloatTy) (hT : T ≠ .float16) {s : List Nat} (opt : Options) (hin : Input ct s)
    (hp : (grammar c opt).PointOK) {n : Numeral} {rest : List Nat} {r : ApiFloat} (h : AcceptsNumber c ct T s opt n rest r) (hm : Moderate n)
    (hs : n.neg = false) {W : Nat} (hW : W < 2 ^ 64) {Q : Int} (hv : n.value = (W : ℚ) * 10 ^ Q) :
    ∃ b, r.value = some b ∧ integerTimesPow10U c' T.fmt W Q = .ok b := by
  obtain ⟨k, b, _, h2, h3⟩ := accepts_exact hin hp h hm
  obtain ⟨b', n', e1, e2, e3, _⟩ := pow10_core c' T W hW Q false
  refine ⟨b, h2, ?_⟩
  have h4 := h3.rn hT
  rw [hv] at h4
  have h5 := e2.rn (T.ulpWide hT) hW
  have hk := h4.unique h5
  have : integerTimesPow10U c' T.fmt W Q = .ok b' := e1
  rw [this, e3, h3.bits, hs, hk]
  simp

/-- `100.0` and 1·10^2 -/
example : ∃ b, (some 4636737291354636288 : Option Nat) = some b ∧ integerTimesPow10U Cfg.x64 FloatTy.double.fmt 1 2 = .ok b :=
  C34_pow10_agrees Cfg.x64 Cfg.x64 .double (by decide) {} hundredB_input sample_point hundredB_accepts (Or.inl (by decide)) (by decide) (W := 1) (by norm_num) (Q := 2) (by
    rw [value_of (n := hundredBNumeral) (D := 1000) (E := -1) (by decide) (by decide)]; norm_num)

/-- Any text `WeQ`: `ds` is a spelling of `W`, `es` a spelling of `|Q|`. -/
theorem C34_text (c c' : Cfg) {ct : CharType} (T : FloatTy) (hT : T ≠ .float16) {ds es : List Nat} {neg : Bool} (hds : ∀ u ∈ ds, IsDigit u) (hne : ds ≠ [])
    (hes : ∀ u ∈ es, IsDigit u) (hee : es ≠ []) (hW : digitsVal ds < 2 ^ 64) (hl : ds.length + 400 ≤ 2 ^ 28)
    (hin : Input ct (ds ++ 101 :: ((if neg then [45] else []) ++ es))) :
    ∃ b ec, fromCharsFloat c ct T.fmt (ds ++ 101 :: ((if neg then [45] else []) ++ es)) {} =
        .ok ⟨(ds ++ 101 :: ((if neg then [45] else []) ++ es)).length, ec, some b⟩ ∧
      integerTimesPow10U c' T.fmt (digitsVal ds) (if neg then -(digitsVal es : Int) else digitsVal es) = .ok b := by
  obtain ⟨n, hn⟩ : ∃ n : Numeral, n = ⟨none, ds, none, some ⟨some 101, if neg then some 45 else none, es⟩⟩ := ⟨_, rfl⟩
  have hfmt : ∃ f, c.eff ({} : Options) = f ∧ f.testBit 0 = true ∧ f.testBit 5 = false := by
    refine ⟨_, rfl, ?_, ?_⟩ <;> (unfold Cfg.eff effective; cases c.plusMacro <;> cases c.wsMacro <;> decide)
  obtain ⟨f, hf, f0, f5⟩ := hfmt
  have hp : (grammar c ({} : Options)).PointOK := by
    have : (grammar c ({} : Options)).point = 46 := rfl
    unfold Rules.PointOK IsDigit
    rw [this]; decide
  have hdig : n.digits = ds := by subst hn; simp [Numeral.digits]
  have hwf : n.WF (grammar c {}) := by
    refine ⟨by subst hn; exact Or.inl rfl, by rw [hdig]; exact hds, ?_, ?_⟩
    · rw [if_neg (by show ¬ ((c.eff ({} : Options)).testBit 5 = true); rw [hf, f5]; simp), hdig]; exact hne
    · subst hn
      refine ⟨hee, hes, ?_, Or.inl ⟨by show (c.eff ({} : Options)).testBit 0 = true; rw [hf, f0], Or.inl rfl⟩⟩
      cases neg
      · exact Or.inl rfl
      · exact Or.inr (Or.inr rfl)
  obtain ⟨s, hsdef⟩ : ∃ s, ds ++ 101 :: ((if neg then [45] else []) ++ es) = s := ⟨_, rfl⟩
  rw [hsdef] at hin ⊢
  have htext : textOf c {} s = n.text (grammar c {}).point ++ [] := by
    have hsn : s = n.text (grammar c {}).point ++ [] := by
      rw [← hsdef]; subst hn
      cases neg <;> simp [Numeral.text, Numeral.fracText, Numeral.expText, Exponent.text]
    have : textOf c {} s = s := by
      obtain ⟨a, t, rfl⟩ := List.exists_cons_of_ne_nil hne
      have ha := hds a (by simp)
      rw [← hsdef]
      apply textOf_cons
      unfold IsDigit at ha
      unfold ApiSpec.isSpace
      simp; omega
    rw [this]; exact hsn
  have hs : scanNumeral (grammar c {}) (textOf c {} s) = some (n, []) := by
    rw [htext]; exact scan_text hp hwf (Or.inr (Stops.nil _))
  obtain ⟨k, b, ec, hacc, _⟩ := scan_accepts (T := T) hin hp hs
  have hval : n.value = (digitsVal ds : ℚ) * 10 ^ (if neg then -(digitsVal es : Int) else digitsVal es) := by
    unfold Numeral.value
    rw [hdig]
    subst hn
    cases neg <;> simp [Numeral.expVal, Exponent.val]
  obtain ⟨b', h1, h2⟩ := C34_pow10_agrees c c' T hT {} hin hp hacc (Or.inl (by rw [hdig]; exact hl)) (by subst hn; rfl) hW hval
  cases h1
  exact ⟨b, ec, hacc.result, h2⟩

/-- `12e-3` -/
example : ∃ b ec, fromCharsFloat Cfg.x64 CharType.char binary64 [49, 50, 101, 45, 51] {} = .ok ⟨5, ec, some b⟩ ∧
    integerTimesPow10U Cfg.x64 FloatTy.double.fmt 12 (-3) = .ok b :=
  C34_text Cfg.x64 Cfg.x64 .double (by decide) (ds := [49, 50]) (es := [51]) (neg := true) (by unfold IsDigit; decide) (by decide) (by unfold IsDigit; decide)
    (by decide) (by decide) (by decide) (input_of_bytes (by decide) (by decide))

/-- **C34 for float16, sharp**: the two have the same bits if and only if the value is not one of the seven ties `(2j+1)/2^25` with `j` even and
`16 < j ≤ 30`. -/
theorem C34_float16_sharp (c c' : Cfg) {ct : CharType} {s : List Nat} (opt : Options) (hin : Input ct s)
    (hp : (grammar c opt).PointOK) {n : Numeral} {rest : List Nat} {r : ApiFloat} (h : AcceptsNumber c ct .float16 s opt n rest r) (hm : Moderate n)
    (hs : n.neg = false) {W : Nat} (hW : W < 2 ^ 64) {Q : Int} (hv : n.value = (W : ℚ) * 10 ^ Q) :
    ∃ b b', r.value = some b ∧ integerTimesPow10U c' binary16 W Q = .ok b' ∧
      (b = b' ↔ ¬ (HalfException 30 n.value ∧ ¬ HalfException 16 n.value)) := by
  obtain ⟨k, b, _, h2, h3⟩ := accepts_exact hin hp h hm
  obtain ⟨b', n', e1, e2, e3⟩ := pow10_half c' W hW Q false
  rw [← hv] at e3
  refine ⟨b, b', h2, e1, ?_⟩
  have hi : infIdx FloatTy.float16.fmt = 31744 := by decide
  have hi' : infIdx binary16 = 31744 := by decide
  rw [h3.bits, hs, e2, hi, hi']
  clear hi hi' hW
  simp only [Bool.false_eq_true, if_false, Nat.zero_add, Nat.add_zero]
  rcases h3.split16 with ⟨a1, a2⟩ | ⟨j, a1, a2, a3, a4⟩ <;> rcases e3 with ⟨b1, b2⟩ | ⟨i, b1, b2, b3, b4⟩
  · rw [a2.unique b2]
    simp [b1]
  · have hE : HalfException 30 n.value := ⟨i, b1, b2, b3⟩
    constructor
    · intro hk
      exfalso
      rw [b4, Nat.min_eq_left (by omega)] at hk
      have hk : k = i + 1 := by omega
      rw [hk, b3] at a2
      exact exception_wrong (by norm_num) b1 b2 a2
    · intro h; exact absurd ⟨hE, a1⟩ h
  · exact absurd ⟨j, a1, by omega, a3⟩ b1
  · have hj : j + 1 = i + 1 := half_split_unique (J := 30) (Or.inr ⟨j, a1, by omega, a3, rfl⟩) (Or.inr ⟨i, b1, b2, b3, rfl⟩)
    rw [a4, b4, hj]
    constructor
    · rintro _ ⟨_, h⟩
      exact h ⟨j, a1, a2, a3⟩
    · intro _; rfl

/-- On the tie `1/2^25` both return the upper neighbour. -/
example : ∃ b b', (some 1 : Option Nat) = some b ∧ integerTimesPow10U Cfg.x64 binary16 298023223876953125 (-25) = .ok b' ∧
    (b = b' ↔ ¬ (HalfException 30 tieNumeral.value ∧ ¬ HalfException 16 tieNumeral.value)) :=
  C34_float16_sharp Cfg.x64 Cfg.x64 {} (input_of_bytes (by decide) (by decide)) sample_point tie_accepts (Or.inl (by decide)) (by decide)
    (W := 298023223876953125) (by norm_num) (Q := -25) (by rw [tie_value]; norm_num)

/-- For `float16_t` the two disagree: `18179416656494140625e-25` is a tie between the subnormals 30 and 31; `from_chars` stores 30 but
`integer_times_pow10` returns 31. -/
theorem C34_float16_counterexample :
    integerTimesPow10U Cfg.x64 binary16 18179416656494140625 (-25) = .ok 31 ∧
    fromCharsFloat Cfg.x64 CharType.char binary16 [49, 56, 49, 55, 57, 52, 49, 54, 54, 53, 54, 52, 57, 52, 49, 52, 48, 54, 50, 53, 101, 45, 50, 53] {} =
      .ok ⟨24, .ok, some 30⟩ := ⟨by decide +kernel, by decide +kernel⟩

example : fromCharsFloat Cfg.x64 CharType.char binary64 [49, 50, 101, 45, 51] {} = .ok ⟨5, .ok, some 4578071150808694522⟩ := by decide +kernel

/-! ### C41 -/

/-- **C41**: the eight-digit block test accepts exactly the blocks of eight ASCII digits (of any eight bytes). -/
theorem C41_eight_test (l : List Nat) (hl : l.length = 8) (h : ∀ u ∈ l, u < 256) :
    isMadeOfEightDigitsFast (leWord 1 l) = true ↔ ∀ u ∈ l, IsDigit u := isMadeOfEight_iff l hl h

/-- **C41**: the four-digit block test. -/
theorem C41_four_test (l : List Nat) (hl : l.length = 4) (h : ∀ u ∈ l, u < 256) :
    isMadeOfFourDigitsFast (leWord 1 l) = true ↔ ∀ u ∈ l, IsDigit u := isMadeOfFour_iff l hl h

/-- **C41**: the eight-digit block conversion. -/
theorem C41_eight_value (l : List Nat) (hl : l.length = 8) (h : ∀ u ∈ l, IsDigit u) :
    parseEightDigitsUnrolled (leWord 1 l) = digitsVal l := parseEight_eq l hl h

/-- **C41**: the four-digit block conversion. -/
theorem C41_four_value (l : List Nat) (hl : l.length = 4) (h : ∀ u ∈ l, IsDigit u) :
    parseFourDigitsUnrolled (leWord 1 l) = digitsVal l := parseFour_eq l hl h

/-- **C41**: the SIMD lane test on 16-bit units accepts exactly the digits, in both flavours. -/
theorem C41_simd_test (s : Simd) (hs : s ≠ .none) (x : Nat) (hx : x < 2 ^ 16) : simdLaneDigit s x = true ↔ IsDigit x := simdLaneDigit_iff s hs x hx

example : isMadeOfEightDigitsFast (leWord 1 [49, 50, 51, 52, 53, 54, 55, 56]) = true ∧
    parseEightDigitsUnrolled (leWord 1 [49, 50, 51, 52, 53, 54, 55, 56]) = 12345678 := by decide

/-! ### C45 -/

/-- **C45**: applying the public overload to the (span-carrying) parse of the text gives the result of parsing the string directly. -/
theorem C45_pns_overload (c : Cfg) {ct : CharType} (T : FloatTy) {s : List Nat} (opt : Options) (hin : Input ct s) (hdp : ¬ IsDigit opt.decimalPoint)
    (hne : textOf c opt s ≠ []) {p : ParsedNumber} (h : parseNumberString c ct ((c.eff opt).testBit 5) (textOf c opt s) opt true = .ok p) (hv : p.valid = true) :
    ∃ R, fromCharsAdvancedPns c ct T.fmt p = .ok R ∧ fromCharsFloat c ct T.fmt s opt = .ok ⟨s.length - R.ptr.length, R.ec, R.value⟩ := by
  obtain ⟨ws, w1, _, _⟩ := textOf_suffix c opt s
  have hut : ∀ u ∈ textOf c opt s, UnitOK ct u := fun u hu => hin.ok u (by rw [w1]; exact List.mem_append_right _ hu)
  have hlt : (textOf c opt s).length < 2 ^ 62 := by
    have := congrArg List.length w1
    rw [List.length_append] at this
    have := hin.len
    omega
  have hb : Fmt.has (c.eff opt) Fmt.basicJson = (c.eff opt).testBit 5 := has_pow _ 5
  have hPs := parse_spec c hin.wf (Fmt.has (c.eff opt) Fmt.basicJson) opt true hne hut hlt hdp
  rw [adjust_eq, scanRules_eq, hb] at hPs
  cases hs : scanNumeral (rules (c.eff opt) opt.decimalPoint) (textOf c opt s) with
  | none =>
    obtain ⟨r, h1, h2⟩ := hPs.1 hs
    rw [h] at h1
    cases h1
    rw [hv] at h2; cases h2
  | some x =>
    obtain ⟨n, rest⟩ := x
    have h1 := hPs.2 n rest hs
    rw [h] at h1
    cases h1
    obtain ⟨ec, v, k, h1, h2⟩ := numCore_spec c hin.wf T (scan_sound hs).1.2.1
    rw [numCore_pns, h1]
    refine ⟨_, rfl, ?_⟩
    rw [call_number c hin.wf T opt hin.ok hin.len hdp (by rw [hin.body_eq]; exact hs), h1]
    rfl

example : ∃ p, parseNumberString Cfg.x64 CharType.char false sampleText {} true = .ok p ∧ p.valid = true ∧ p.tooManyDigits = true := by
  refine ⟨_, rfl, ?_, ?_⟩ <;> decide +kernel

end FastFloat
