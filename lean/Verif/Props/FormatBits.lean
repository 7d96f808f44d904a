import Verif.Props.Complete
import Verif.Props.CompleteInt
import Verif.Props.HalfExact
/-
# C65: which format bits matter
-/
set_option linter.unusedSimpArgs false
set_option autoImplicit false
namespace FastFloat
open NumSpec FloatSpec ApiSpec

/-- The flags of `chars_format` that select something: all named single flags but `hex`. -/
def meaningfulFlags : List Fmt :=
  [Fmt.scientific, Fmt.fixed, Fmt.noInfnan, Fmt.basicJson, Fmt.basicFortran, Fmt.allowLeadingPlus, Fmt.skipWhiteSpace]

/-- Two format words that agree on the flags above. -/
def SameFlags (f f' : Fmt) : Prop := ∀ x ∈ meaningfulFlags, f.has x = f'.has x

theorem has_or (f g x : Fmt) : (f ||| g).has x = (f.has x || g.has x) := by
  have e : (f ||| g) &&& x = (f &&& x) ||| (g &&& x) := Nat.and_or_distrib_right f g x
  unfold Fmt.has
  rw [e]
  by_cases h : (f &&& x) ||| (g &&& x) = 0
  · have h' := h
    rw [Nat.or_eq_zero_iff] at h
    rw [h', h.1, h.2]; rfl
  · have h' : ¬ ((f &&& x) = 0 ∧ (g &&& x) = 0) := fun hc => h (by rw [Nat.or_eq_zero_iff]; exact hc)
    have e1 : (((f &&& x) ||| (g &&& x)) != 0) = true := by simpa using h
    rw [e1]
    by_cases h1 : (f &&& x) = 0
    · have h2 : ¬ (g &&& x) = 0 := fun hc => h' ⟨h1, hc⟩
      simp [h2]
    · simp [h1]

theorem SameFlags.adjust {f f' : Fmt} (h : SameFlags f f') (c : Cfg) : SameFlags (adjustForFeatureMacros c f) (adjustForFeatureMacros c f') := by
  intro x hx
  have := h x hx
  unfold adjustForFeatureMacros
  cases c.plusMacro <;> cases c.wsMacro <;> simp [has_or, this]

theorem signStep_flags (ct : CharType) (json : Bool) {f f' : Fmt} (h : SameFlags f f') (dp : Nat) (p : List Nat) :
    signStep ct json f dp p = signStep ct json f' dp p := by
  unfold signStep
  rw [h _ (by decide : Fmt.allowLeadingPlus ∈ meaningfulFlags)]

theorem expStep_flags (ct : CharType) {f f' : Fmt} (h : SameFlags f f') (p : List Nat) : expStep ct f p = expStep ct f' p := by
  unfold expStep startsExponent
  rw [h _ (by decide : Fmt.scientific ∈ meaningfulFlags), h _ (by decide : Fmt.fixed ∈ meaningfulFlags),
    h _ (by decide : Fmt.basicFortran ∈ meaningfulFlags)]

theorem parseNumberString_flags (c : Cfg) (ct : CharType) (json : Bool) (p : List Nat) {o o' : Options} (h : SameFlags o.format o'.format)
    (hd : o.decimalPoint = o'.decimalPoint) (st : Bool) : parseNumberString c ct json p o st = parseNumberString c ct json p o' st := by
  unfold parseNumberString
  simp only [hd, signStep_flags ct json (h.adjust c), expStep_flags ct (h.adjust c)]

/-- **C65**: the floating-point overloads look at seven flags of the format word only: two words that agree on them give the same result.  `hex` and
the bits without a name are not among them. -/
theorem C65_float_format_bits (c : Cfg) (ct : CharType) (T : FloatTy) (s : List Nat) {o o' : Options} (h : SameFlags o.format o'.format)
    (hd : o.decimalPoint = o'.decimalPoint) : fromCharsFloat c ct T.fmt s o = fromCharsFloat c ct T.fmt s o' := by
  have ha := h.adjust c
  have hps := fun json p st => parseNumberString_flags c ct json p h hd st
  unfold fromCharsFloat fromCharsFloatAdvanced dropSpaces fromCharsFloatBody fromCharsFloatParsed parseNumberSlowPath parseInfnan infnanSign
  simp only [hps, ha _ (by decide : Fmt.allowLeadingPlus ∈ meaningfulFlags), ha _ (by decide : Fmt.skipWhiteSpace ∈ meaningfulFlags),
    ha _ (by decide : Fmt.noInfnan ∈ meaningfulFlags), ha _ (by decide : Fmt.basicJson ∈ meaningfulFlags)]

/-- **C65**: `chars_format::hex` is accepted and ignored: hexadecimal floating-point numbers are not read, with or without it. -/
theorem C65_hex_is_ignored (c : Cfg) (ct : CharType) (T : FloatTy) (s : List Nat) (o : Options) :
    fromCharsFloat c ct T.fmt s { o with format := o.format ||| Fmt.hex } = fromCharsFloat c ct T.fmt s o := by
  refine C65_float_format_bits c ct T s (fun x hx => ?_) rfl
  show (o.format ||| Fmt.hex).has x = _
  rw [has_or]
  have : Fmt.has Fmt.hex x = false := by
    revert x hx; decide
  simp [this]

theorem roundsTo_zero (T : FloatTy) : T.spec.RoundsTo 0 0 := by
  have h0 : T.spec.val 0 = 0 := val_zero T
  refine Or.inr ⟨?_, by cases T <;> decide, fun b' _ hb' => Or.inl ?_⟩
  · cases T <;> (unfold Format.overflowThreshold Format.bias; norm_num [FloatTy.spec, FloatSpec.double, FloatSpec.single, FloatSpec.half, FloatSpec.bfloat])
  · have h1 := sval_lt T (a := 0) (b := b') (by omega)
    rw [h0] at h1 ⊢
    rw [sub_zero, abs_zero, zero_sub, abs_neg]
    exact abs_pos.mpr (ne_of_gt h1)

theorem eff_fixed {c : Cfg} {opt : Options} (h : Fmt.has opt.format Fmt.fixed = true) : (c.eff opt).testBit 2 = true := by
  rw [show Fmt.fixed = 2 ^ 2 from rfl, has_pow] at h
  unfold Cfg.eff effective
  cases c.plusMacro <;> cases c.wsMacro <;> simp [h]

/-- **C65**, what hexadecimal texts are: `0x1p3` is the number `0` followed by `x1p3`, in every format in which the exponent is optional, also with `hex`. -/
theorem C65_hex_text (c : Cfg) {ct : CharType} (T : FloatTy) {rest : List Nat} (opt : Options) (hin : Input ct (48 :: 120 :: rest))
    (hx : Fmt.has opt.format Fmt.fixed = true) (hp : (grammar c opt).PointOK) (hd : opt.decimalPoint ≠ 120) :
    fromCharsFloat c ct T.fmt (48 :: 120 :: rest) opt = .ok ⟨1, .ok, some 0⟩ := by
  have ht : textOf c opt (48 :: 120 :: rest) = 48 :: 120 :: rest := textOf_cons (by decide)
  have hm : Munch (grammar c opt) (48 :: 120 :: rest) ⟨none, [48], none, none⟩ (120 :: rest) := by
    refine ⟨⟨Or.inl rfl, ?_, ?_, ?_⟩, rfl, ?_, ?_, ?_, ?_⟩
    · intro u hu
      have : u = 48 := by simpa [Numeral.digits] using hu
      subst this; decide
    · split
      · exact ⟨by simp, by intro ds h; simpa using h.symm, by simp⟩
      · simp [Numeral.digits]
    · show ¬ _
      rintro ⟨_, h⟩
      have := eff_fixed (c := c) hx
      change (c.eff opt).testBit 2 = false at h
      rw [this] at h; cases h
    · rintro u t h; cases h; unfold IsDigit; omega
    · intro _ _ t h
      exact hd (List.cons.inj h).1.symm
    · rintro _ ⟨e, q, hw, h⟩
      unfold Exponent.text at h
      obtain ⟨_, _, h3, h4⟩ := hw
      rcases h4 with ⟨_, h4 | h4⟩ | ⟨_, h4 | h4⟩ | ⟨_, h4, h5⟩
      · rw [h4] at h; exact absurd (List.cons.inj h).1 (by decide)
      · rw [h4] at h; exact absurd (List.cons.inj h).1 (by decide)
      · rw [h4] at h; exact absurd (List.cons.inj h).1 (by decide)
      · rw [h4] at h; exact absurd (List.cons.inj h).1 (by decide)
      · rw [h4] at h
        rcases h3 with h3 | h3 | h3
        · exact h5 h3
        · rw [h3] at h; exact absurd (List.cons.inj h).1 (by decide)
        · rw [h3] at h; exact absurd (List.cons.inj h).1 (by decide)
    · intro _ _ _ u t h
      rw [← (List.cons.inj h).1]; decide
  have hv : (⟨none, [48], none, none⟩ : Numeral).value = 0 := by simp [Numeral.value, Numeral.digits, digitsVal]
  have hs := munch_scan hp (ht ▸ hm)
  obtain ⟨r, g1, g2, g3⟩ := number_pointer c T hin hp hs
  have hacc : AcceptsNumber c ct T (48 :: 120 :: rest) opt ⟨none, [48], none, none⟩ (120 :: rest) r := ⟨g1, g2, scan_longest hp hs⟩
  obtain ⟨k, b, h1, h2, h3⟩ := accepts_exact hin hp hacc (Or.inl (by norm_num [Numeral.digits]))
  rw [hv] at h3
  have hk : k = 0 := (h3.zero_iff (fun _ => by norm_num)).2 (by rw [val_one]; positivity)
  have hip := inf_pos T
  have hec : r.ec = .ok := by
    rcases h3.ecs with e | e
    · exact e
    · rcases h3.ec1 e with ⟨a, _⟩ | a
      · exact absurd rfl a
      · omega
  have hb : b = 0 := by rw [h3.bits, hk]; simp [Numeral.neg]
  rw [g1]
  cases r
  simp only at h1 h2 hec
  rw [h1, h2, hec, hb]
  simp

/-- **C65** for integers: only `allow_leading_plus` and `skip_white_space` matter; `json`, `fortran`, `scientific`, `hex` ... do not, and neither does
the decimal point. -/
theorem C65_int_format_bits (c : Cfg) (ct : CharType) (T : IntType) (s : List Nat) {o o' : Options}
    (hplus : o.format.has Fmt.allowLeadingPlus = o'.format.has Fmt.allowLeadingPlus)
    (hws : o.format.has Fmt.skipWhiteSpace = o'.format.has Fmt.skipWhiteSpace) (hb : o.base = o'.base) :
    fromCharsIntApi c ct T s o = fromCharsIntApi c ct T s o' := by
  have h1 : (adjustForFeatureMacros c o.format).has Fmt.allowLeadingPlus = (adjustForFeatureMacros c o'.format).has Fmt.allowLeadingPlus := by
    unfold adjustForFeatureMacros
    cases c.plusMacro <;> cases c.wsMacro <;> simp [has_or, hplus]
  have h2 : (adjustForFeatureMacros c o.format).has Fmt.skipWhiteSpace = (adjustForFeatureMacros c o'.format).has Fmt.skipWhiteSpace := by
    unfold adjustForFeatureMacros
    cases c.plusMacro <;> cases c.wsMacro <;> simp [has_or, hws]
  unfold fromCharsIntApi fromCharsIntAdvanced dropSpaces parseIntString skipIntSign
  simp only [h1, h2, hb]

/-- A case of C65: `0x1p3`, asked for with `hex | general`. -/
example : fromCharsFloat Cfg.x64 CharType.char binary64 [48, 120, 49, 112, 51] { format := 13 } = .ok ⟨1, .ok, some 0⟩ :=
  C65_hex_text Cfg.x64 .double { format := 13 } (input_of_bytes (by decide) (by decide)) (by decide) sample_point (by decide)

/-- A case of C65: two format words that differ in `hex` and in an unnamed bit. -/
example : SameFlags 5 (5 + 8 + 1024) := by unfold SameFlags; decide

end FastFloat
