import Verif.Proofs.InfNan
/-
# The float entry points in terms of the reference scanner
-/
set_option linter.unusedSimpArgs false
namespace FastFloat
open NumSpec FloatSpec ApiSpec

theorem has_pow (f k : Nat) : Fmt.has f (2 ^ k) = f.testBit k := by
  unfold Fmt.has
  have h : f &&& 2 ^ k = (f.testBit k).toNat * 2 ^ k := by
    apply Nat.eq_of_testBit_eq
    intro i
    cases hf : f.testBit k
    · simp only [Nat.testBit_and, Nat.testBit_two_pow, Bool.toNat_false, Nat.zero_mul, Nat.zero_testBit]
      by_cases hi : k = i
      · subst hi; simp [hf]
      · simp [hi]
    · simp only [Nat.testBit_and, Nat.testBit_two_pow, Bool.toNat_true, Nat.one_mul]
      by_cases hi : k = i
      · subst hi; simp [hf]
      · simp [hi]
  rw [h]
  cases f.testBit k
  · simp
  · simp

theorem adjust_eq (c : Cfg) (opt : Options) : adjustForFeatureMacros c opt.format = c.eff opt := by
  unfold adjustForFeatureMacros Cfg.eff effective Fmt.allowLeadingPlus Fmt.skipWhiteSpace
  cases c.plusMacro <;> cases c.wsMacro <;> simp [Nat.or_assoc]

theorem scanRules_eq (fmt : Fmt) (dp : Nat) : scanRules (fmt.has Fmt.basicJson) fmt dp = rules fmt dp := by
  unfold scanRules rules plusFlag
  rw [← has_pow, ← has_pow, ← has_pow, ← has_pow, ← has_pow]
  rfl

theorem noInf_eq (fmt : Fmt) : fmt.has Fmt.noInfnan = noInfNan fmt := has_pow fmt 4
theorem plus_eq (fmt : Fmt) : fmt.has Fmt.allowLeadingPlus = plusFlag fmt := has_pow fmt 7
theorem ws_eq (fmt : Fmt) : fmt.has Fmt.skipWhiteSpace = wsFlag fmt := has_pow fmt 8

/-- What the code takes for white space. -/
def codeSpace (ct : CharType) (u : Nat) : Bool := decide (ct.toInt u < 256) && ApiSpec.isSpace (u % 256)

theorem spaceLut_get : ∀ i < 256, spaceLut[i]? = some (ApiSpec.isSpace i) := by decide +kernel

theorem isSpace_eq (ct : CharType) (u : Nat) : isSpace ct u = .ok (codeSpace ct u) := by
  unfold isSpace codeSpace tableGet
  by_cases h : ct.toInt u < 256
  · rw [if_pos h, spaceLut_get _ (Nat.mod_lt _ (by norm_num))]; simp [h]
  · rw [if_neg h]; simp [h]

theorem skipSpaces_eq (ct : CharType) (s : List Nat) : skipSpaces ct s = .ok (s.dropWhile (codeSpace ct)) := by
  induction s with
  | nil => rfl
  | cons a s ih =>
    unfold skipSpaces
    rw [isSpace_eq, List.dropWhile_cons]
    cases h : codeSpace ct a
    · rfl
    · simp [ih]

/-- The text the code parses, after the white space it skips. -/
def codeBody (ct : CharType) (fmt : Nat) (s : List Nat) : List Nat := if wsFlag fmt then s.dropWhile (codeSpace ct) else s

theorem dropSpaces_eq (c : Cfg) (ct : CharType) (s : List Nat) (opt : Options) :
    dropSpaces c ct s opt = .ok (codeBody ct (c.eff opt) s) := by
  unfold dropSpaces codeBody
  rw [adjust_eq, ws_eq]
  by_cases h : wsFlag (c.eff opt) = true
  · rw [if_pos h, if_pos h, skipSpaces_eq]
  · rw [if_neg h, if_neg h]; rfl

theorem codeBody_suffix (ct : CharType) (fmt : Nat) (s : List Nat) : codeBody ct fmt s <:+ s := by
  unfold codeBody
  split
  · exact List.dropWhile_suffix _
  · exact List.suffix_refl _

theorem codeBody_mem {ct : CharType} {fmt : Nat} {s : List Nat} {P : Nat → Prop} (h : ∀ u ∈ s, P u) : ∀ u ∈ codeBody ct fmt s, P u :=
  fun u hu => h u ((codeBody_suffix ct fmt s).subset hu)

theorem GoodUnit.ok {ct : CharType} {u : Nat} (h : GoodUnit ct u) : UnitOK ct u := by
  refine ⟨h.1, ?_⟩
  rintro ⟨h1, h2, h3, h4⟩
  rcases h.2 h2 with h5 | h5
  · omega
  · rw [h1] at h5; norm_num at h5 h3; omega

theorem codeSpace_eq {ct : CharType} {u : Nat} (h : GoodUnit ct u) : codeSpace ct u = ApiSpec.isSpace u := by
  obtain ⟨h1, h2⟩ := h
  unfold codeSpace
  rcases Nat.lt_or_ge u 256 with hu | hu
  · rw [Nat.mod_eq_of_lt hu]
    have : ct.toInt u < 256 := by
      unfold CharType.toInt
      split
      · have : (0 : Int) < 2 ^ (8 * ct.width) := by positivity
        omega
      · omega
    simp [this]
  · have hs : ApiSpec.isSpace u = false := by
      unfold ApiSpec.isSpace
      simp; omega
    have : ¬ ct.toInt u < 256 := by
      unfold CharType.toInt
      rw [if_neg]
      · omega
      · rintro ⟨h3, h4⟩
        rcases h2 h3 with h5 | h5
        · rw [h5] at h1; norm_num at h1; omega
        · omega
    rw [hs]; simp [this]

theorem codeBody_eq {ct : CharType} (fmt : Nat) {s : List Nat} (h : ∀ u ∈ s, GoodUnit ct u) : codeBody ct fmt s = body fmt s := by
  unfold codeBody body
  by_cases hws : wsFlag fmt = true
  · rw [if_pos hws, if_pos hws]
    induction s with
    | nil => rfl
    | cons a s ih =>
      rw [List.dropWhile_cons, List.dropWhile_cons, codeSpace_eq (h a (by simp)), ih (fun u hu => h u (by simp [hu]))]
  · rw [if_neg hws, if_neg hws]

/-- Without the slow path the call always ends normally. -/
theorem parsed_few (c : Cfg) {ct : CharType} (T : FloatTy) {s : List Nat} (opt : Options) (fmt : Fmt) (bjf : Bool) {pns : ParsedNumber}
    (hv : pns.valid = true) (htm : pns.tooManyDigits = false) (hm : pns.mantissa < 2 ^ 64) :
    ∃ ec b, fromCharsFloatParsed c ct T.fmt s opt fmt bjf pns = .ok ⟨pns.lastmatch, ec, some b⟩ := by
  unfold fromCharsFloatParsed
  rw [hv, htm]
  simp only [Bool.not_true, Bool.false_eq_true, if_false]
  obtain ⟨o, ho, _⟩ := clinger_spec c T.fast pns.mantissa pns.exponent pns.negative
  rw [ho, ok_bind]
  cases o with
  | some v => exact ⟨_, _, rfl⟩
  | none =>
    obtain ⟨am, k, h1, h2, h3⟩ := computeFloat_spec c T.good pns.exponent pns.mantissa hm
    have hp0 : ¬ am.power2 < 0 := by
      rcases h3.2 with ⟨h, _⟩ | ⟨_, h, _⟩ <;> rw [h] <;> exact not_lt.2 (Int.natCast_nonneg _)
    simp only [h1, ok_bind]
    rw [if_neg hp0]
    exact ⟨_, _, rfl⟩

/-- The four possible outcomes of a float call, in terms of the reference scanner, whatever the decimal point; here only that the call ends
normally is said about numerals. -/
theorem float_cases_gen (c : Cfg) {ct : CharType} (hw : ct.WF) (T : FloatTy) {s : List Nat} (opt : Options)
    (hu : ∀ u ∈ s, UnitOK ct u) (hlen : s.length < 2 ^ 62) :
    (∀ n rest, scanNumeral (rules (c.eff opt) opt.decimalPoint) (codeBody ct (c.eff opt) s) = some (n, rest) →
      ∃ b ec, fromCharsFloat c ct T.fmt s opt = .ok ⟨s.length - rest.length, ec, some b⟩ ∧
        (¬ IsDigit opt.decimalPoint → ∃ k, CodeOut T n.neg (codeValue n) k b ec)) ∧
    (scanNumeral (rules (c.eff opt) opt.decimalPoint) (codeBody ct (c.eff opt) s) = none →
      (noInfNan (c.eff opt) = true → fromCharsFloat c ct T.fmt s opt =
        .ok ⟨s.length - (codeBody ct (c.eff opt) s).length, .invalidArgument, none⟩) ∧
      (noInfNan (c.eff opt) = false →
        (∀ neg rest, InfText (plusFlag (c.eff opt)) (codeBody ct (c.eff opt) s) neg rest →
          fromCharsFloat c ct T.fmt s opt = .ok ⟨s.length - rest.length, .ok, some (infBits T.fmt neg)⟩) ∧
        (∀ neg rest, NanText (plusFlag (c.eff opt)) (codeBody ct (c.eff opt) s) neg rest →
          fromCharsFloat c ct T.fmt s opt = .ok ⟨s.length - rest.length, .ok, some (nanBits T.fmt neg)⟩) ∧
        ((¬ ∃ neg rest, InfText (plusFlag (c.eff opt)) (codeBody ct (c.eff opt) s) neg rest) →
         (¬ ∃ neg rest, NanText (plusFlag (c.eff opt)) (codeBody ct (c.eff opt) s) neg rest) →
          fromCharsFloat c ct T.fmt s opt = .ok ⟨s.length - (codeBody ct (c.eff opt) s).length, .invalidArgument, none⟩))) := by
  have hut := codeBody_mem (ct := ct) (fmt := c.eff opt) hu
  have hlt : (codeBody ct (c.eff opt) s).length < 2 ^ 62 := lt_of_le_of_lt (codeBody_suffix ct (c.eff opt) s).length_le hlen
  have e0 : fromCharsFloat c ct T.fmt s opt = (do
      let r ← fromCharsFloatBody c ct T.fmt (codeBody ct (c.eff opt) s) opt
      pure { off := s.length - r.ptr.length, ec := r.ec, value := r.value }) := by
    unfold fromCharsFloat fromCharsFloatAdvanced
    rw [dropSpaces_eq, ok_bind]
  rw [e0]
  obtain ⟨t, ht⟩ : ∃ t, codeBody ct (c.eff opt) s = t := ⟨_, rfl⟩
  rw [ht] at hut hlt ⊢
  cases t with
  | nil =>
    have hscan : scanNumeral (rules (c.eff opt) opt.decimalPoint) [] = none := by
      cases h : scanNumeral (rules (c.eff opt) opt.decimalPoint) [] with
      | none => rfl
      | some x =>
        exfalso
        obtain ⟨h1, h2⟩ := scan_sound (n := x.1) (rest := x.2) h
        have hne : x.1.digits ≠ [] := by
          have := h1.2.2.1
          split at this
          · intro hc; simp [Numeral.digits] at hc; exact this.1 hc.1
          · exact this
        have h2 := congrArg List.length h2
        have : x.1.digits.length ≤ (x.1.text (rules (c.eff opt) opt.decimalPoint).point).length := by
          unfold Numeral.text Numeral.digits
          cases x.1.frac <;> simp [Numeral.fracText] <;> omega
        have h3 := List.length_pos_of_ne_nil hne
        rw [List.length_append] at h2
        simp only [List.length_nil] at h2
        omega
    rw [hscan]
    refine ⟨(fun _ _ h => by cases h), fun _ => ⟨fun _ => rfl, fun _ => ⟨?_, ?_, fun _ _ => rfl⟩⟩⟩
    · rintro neg rest ⟨u, r, h1, h2, _⟩
      exact absurd rfl (strip_of_signed h1 h2 letters_inf (by decide)).2.2
    · rintro neg rest ⟨u, r, h1, h2, _⟩
      exact absurd rfl (strip_of_signed h1 h2 letters_nan (by decide)).2.2
  | cons a t =>
    have hP := parse_spec_gen c hw (Fmt.has (c.eff opt) Fmt.basicJson) opt false (List.cons_ne_nil a t) hut hlt
    have hPs := parse_spec_gen c hw (Fmt.has (c.eff opt) Fmt.basicJson) opt true (List.cons_ne_nil a t) hut hlt
    rw [adjust_eq, scanRules_eq] at hP hPs
    have e1 : fromCharsFloatBody c ct T.fmt (a :: t) opt = (do
        let pns ← parseNumberString c ct (Fmt.has (c.eff opt) Fmt.basicJson) (a :: t) opt false
        fromCharsFloatParsed c ct T.fmt (a :: t) opt (c.eff opt) (Fmt.has (c.eff opt) Fmt.basicJson) pns) := by
      unfold fromCharsFloatBody
      rw [adjust_eq]
    rw [e1]
    constructor
    · intro n rest hs
      have hwf := (scan_sound hs).1
      obtain ⟨p1, p2, p3⟩ := hP.2 n rest hs
      obtain ⟨q1, _, _⟩ := hPs.2 n rest hs
      rw [p1, ok_bind]
      obtain ⟨M, hM⟩ : ∃ M, manyTest opt.decimalPoint n (refSign (rules (c.eff opt) opt.decimalPoint) (a :: t)).2 = M := ⟨_, rfl⟩
      rw [hM] at p2 p3 q1 ⊢
      by_cases hML : M = decide ((dz n.digits).length > 19)
      · rw [hML] at q1 ⊢
        obtain ⟨k, b, ec, h1, h2⟩ := parsed_spec c hw T opt (fmt := c.eff opt) hwf.2.1 q1
        refine ⟨b, ec, ?_, fun _ => ⟨k, h2⟩⟩
        have h1 : fromCharsFloatParsed c ct T.fmt (a :: t) opt (c.eff opt) (Fmt.has (c.eff opt) Fmt.basicJson)
          (pnsGen (decide ((dz n.digits).length > 19)) false n rest) = .ok ⟨rest, ec, some b⟩ := h1
        rw [h1, ok_bind]
        rfl
      · have hMf : M = false := by
          cases hm : M with
          | false => rfl
          | true => exact absurd (by rw [hm]; exact (decide_eq_true (p2 hm)).symm) hML
        rw [hMf]
        obtain ⟨ec, b, h1⟩ := parsed_few c (ct := ct) T (s := a :: t) opt (c.eff opt) (Fmt.has (c.eff opt) Fmt.basicJson)
          (pns := pnsGen false false n rest) rfl rfl (Nat.mod_lt _ (by norm_num))
        refine ⟨b, ec, ?_, fun h => absurd (p3 h) hML⟩
        rw [h1, ok_bind]
        rfl
    · intro hs
      obtain ⟨r, hr, hv⟩ := hP.1 hs
      rw [hr, ok_bind]
      unfold fromCharsFloatParsed
      rw [hv, noInf_eq]
      simp only [Bool.not_false, if_true]
      have hub : ∀ u ∈ a :: t, u < 2 ^ (8 * ct.width) := fun u h => (hut u h).1
      refine ⟨?_, ?_⟩
      · intro hn; rw [if_pos hn]; rfl
      · intro hn
        rw [if_neg (by rw [hn]; simp)]
        rw [← plus_eq]
        refine ⟨?_, ?_, ?_⟩
        · intro neg rest h; rw [parseInfnan_inf c hw T.fmt _ hub h, ok_bind]; rfl
        · intro neg rest h; rw [parseInfnan_nan c hw T.fmt _ hub h, ok_bind]; rfl
        · intro h1 h2; rw [parseInfnan_none c hw T.fmt (List.cons_ne_nil a t) _ hub h1 h2, ok_bind]; rfl

/-- The same for a decimal point that is not a digit, with the result for numerals. -/
theorem float_cases (c : Cfg) {ct : CharType} (hw : ct.WF) (T : FloatTy) {s : List Nat} (opt : Options)
    (hu : ∀ u ∈ s, UnitOK ct u) (hlen : s.length < 2 ^ 62) (hdp : ¬ IsDigit opt.decimalPoint) :
    (∀ n rest, scanNumeral (rules (c.eff opt) opt.decimalPoint) (codeBody ct (c.eff opt) s) = some (n, rest) →
      ∃ k b ec, fromCharsFloat c ct T.fmt s opt = .ok ⟨s.length - rest.length, ec, some b⟩ ∧
        CodeOut T n.neg (codeValue n) k b ec) ∧
    (scanNumeral (rules (c.eff opt) opt.decimalPoint) (codeBody ct (c.eff opt) s) = none →
      (noInfNan (c.eff opt) = true → fromCharsFloat c ct T.fmt s opt =
        .ok ⟨s.length - (codeBody ct (c.eff opt) s).length, .invalidArgument, none⟩) ∧
      (noInfNan (c.eff opt) = false →
        (∀ neg rest, InfText (plusFlag (c.eff opt)) (codeBody ct (c.eff opt) s) neg rest →
          fromCharsFloat c ct T.fmt s opt = .ok ⟨s.length - rest.length, .ok, some (infBits T.fmt neg)⟩) ∧
        (∀ neg rest, NanText (plusFlag (c.eff opt)) (codeBody ct (c.eff opt) s) neg rest →
          fromCharsFloat c ct T.fmt s opt = .ok ⟨s.length - rest.length, .ok, some (nanBits T.fmt neg)⟩) ∧
        ((¬ ∃ neg rest, InfText (plusFlag (c.eff opt)) (codeBody ct (c.eff opt) s) neg rest) →
         (¬ ∃ neg rest, NanText (plusFlag (c.eff opt)) (codeBody ct (c.eff opt) s) neg rest) →
          fromCharsFloat c ct T.fmt s opt = .ok ⟨s.length - (codeBody ct (c.eff opt) s).length, .invalidArgument, none⟩))) := by
  obtain ⟨h1, h2⟩ := float_cases_gen c hw T opt hu hlen
  refine ⟨fun n rest hs => ?_, h2⟩
  obtain ⟨b, ec, h3, h4⟩ := h1 n rest hs
  obtain ⟨k, h4⟩ := h4 hdp
  exact ⟨k, b, ec, h3, h4⟩

end FastFloat
