import Verif.Props.Reparse
import Verif.Props.ErrorBound
/-
# C59, C60: relations between calls with different options and different types
-/
set_option linter.unusedSimpArgs false
namespace FastFloat
open NumSpec FloatSpec ApiSpec IntSpec

/-! ### C59: more permissive options -/

theorem MorePermissive.eff {f f' : Nat} (h : MorePermissive f f') (a b : Bool) : MorePermissive (effective a b f) (effective a b f') := by
  obtain ⟨M, hM⟩ : ∃ M : Nat, ((if a then 2 ^ 7 else 0) ||| (if b then 2 ^ 8 else 0)) = M := ⟨_, rfl⟩
  have key : ∀ (g i : Nat), (effective a b g).testBit i = (g.testBit i || M.testBit i) := by
    intro g i
    unfold effective
    rw [hM, Nat.testBit_or]
  have mono : ∀ i : Nat, (f.testBit i = true → f'.testBit i = true) → (f.testBit i || M.testBit i) = true → (f'.testBit i || M.testBit i) = true := by
    intro i hi
    simp only [Bool.or_eq_true]
    exact Or.imp_left hi
  have mono' : ∀ i : Nat, (f'.testBit i = true → f.testBit i = true) → (f'.testBit i || M.testBit i) = true → (f.testBit i || M.testBit i) = true := by
    intro i hi
    simp only [Bool.or_eq_true]
    exact Or.imp_left hi
  refine ⟨?_, ?_, ?_, ?_, ?_, ?_, ?_⟩
  · rw [key, key, h.scientific]
  · rw [key, key, h.fortran]
  · rw [key, key]; exact mono _ h.fixed
  · rw [key, key]; exact mono' _ h.json
  · unfold noInfNan; rw [key, key]; exact mono' _ h.infnan
  · unfold plusFlag; rw [key, key]; exact mono _ h.plus
  · unfold wsFlag; rw [key, key]; exact mono _ h.ws

theorem signed_mono {plus plus' neg : Bool} {s t : List Nat} (hm : plus = true → plus' = true) (h : Signed plus s neg t) : Signed plus' s neg t := by
  rcases h with h | h | ⟨h1, h2, h3⟩
  · exact Or.inl h
  · exact Or.inr (Or.inl h)
  · exact Or.inr (Or.inr ⟨h1, hm h2, h3⟩)

theorem munch_mono {f f' point : Nat} (h : MorePermissive f f') {t rest : List Nat} {n : Numeral} (hm : Munch (rules f point) t n rest) :
    Munch (rules f' point) t n rest := by
  have hexp : ∀ e : Exponent, e.WF (rules f' point) ↔ e.WF (rules f point) := by
    intro e
    unfold Exponent.WF rules
    simp only [h.scientific, h.fortran]
  obtain ⟨⟨w1, w2, w3, w4⟩, h2, h3, h4, h5, h6⟩ := hm
  refine ⟨⟨?_, w2, ?_, ?_⟩, h2, h3, h4, ?_, ?_⟩
  · rcases w1 with w | w | ⟨w, wp, wj⟩
    · exact Or.inl w
    · exact Or.inr (Or.inl w)
    · refine Or.inr (Or.inr ⟨w, h.plus wp, ?_⟩)
      by_contra hc
      have hc : f'.testBit 5 = true := by simpa [rules] using hc
      have := h.json hc
      have wj : f.testBit 5 = false := wj
      rw [this] at wj; cases wj
  · by_cases hj' : f'.testBit 5 = true
    · rw [if_pos (show (rules f' point).json = true from hj')]
      rw [if_pos (show (rules f point).json = true from h.json hj')] at w3
      exact w3
    · rw [if_neg (show ¬ (rules f' point).json = true from hj')]
      by_cases hj : f.testBit 5 = true
      · rw [if_pos (show (rules f point).json = true from hj)] at w3
        unfold Numeral.digits
        intro hc
        exact w3.1 (List.append_eq_nil_iff.1 hc).1
      · rw [if_neg (show ¬ (rules f point).json = true from hj)] at w3
        exact w3
  · revert w4
    cases n.exp with
    | some e => intro w4; exact (hexp e).2 w4
    | none =>
      intro w4
      rintro ⟨a1, a2⟩
      apply w4
      have a1 : f'.testBit 0 = true := a1
      have a2 : f'.testBit 2 = false := a2
      refine ⟨show f.testBit 0 = true by rw [← h.scientific]; exact a1, show f.testBit 2 = false from ?_⟩
      by_contra hc
      have := h.fixed (by simpa using hc)
      rw [this] at a2; cases a2
  · intro he
    rintro ⟨e, q, e1, e2⟩
    exact h5 he ⟨e, q, (hexp e).1 e1, e2⟩
  · intro he hf hfo
    have hf : f'.testBit 2 = false := hf
    have hfo : f'.testBit 6 = true := hfo
    refine h6 he (show f.testBit 2 = false from ?_) (show f.testBit 6 = true by rw [← h.fortran]; exact hfo)
    by_contra hc
    have := h.fixed (by simpa using hc)
    rw [this] at hf; cases hf

theorem floatCall_mono {F : Format} {number : Numeral → Code → Nat → Prop} {f f' point : Nat} (hm : MorePermissive f f') {t rest : List Nat} {code : Code}
    {v : Option Nat} (h : FloatCall F number f point t rest code v) (hc : code ≠ .invalid) : FloatCall F number f' point t rest code v := by
  have hn : noInfNan f = false → noInfNan f' = false := by
    intro h0
    by_contra hc
    have := hm.infnan (by simpa using hc)
    rw [this] at h0; cases h0
  cases h with
  | number text result => exact .number (munch_mono hm text) result
  | infinity allowed text =>
    obtain ⟨t', r, h1, h2⟩ := text
    exact .infinity (hn allowed) ⟨t', r, signed_mono hm.plus h1, h2⟩
  | nan allowed text =>
    obtain ⟨t', r, h1, h2⟩ := text
    exact .nan (hn allowed) ⟨t', r, signed_mono hm.plus h1, h2⟩
  | invalid _ _ => exact absurd rfl hc

theorem textOf_permissive {c : Cfg} {opt opt' : Options} (hm : MorePermissive (c.eff opt) (c.eff opt')) {s : List Nat}
    (h : wsFlag (c.eff opt) = false → ∀ a u, s = a :: u → ApiSpec.isSpace a = false) : textOf c opt' s = textOf c opt s := by
  unfold textOf body
  cases hw : wsFlag (c.eff opt) with
  | true => rw [hm.ws hw]
  | false =>
    cases hw' : wsFlag (c.eff opt') with
    | false => rfl
    | true =>
      simp only [if_true, Bool.false_eq_true, if_false]
      cases s with
      | nil => rfl
      | cons a u => rw [List.dropWhile_cons_of_neg (by rw [h hw a u rfl]; simp)]

theorem permissive_of {c : Cfg} {ct : CharType} {T : FloatTy} {s : List Nat} {opt : Options} {f' : Nat} (hin : Input ct s) (hp : (grammar c opt).PointOK)
    (hps : ApiSpec.isSpace opt.decimalPoint = false)
    {number : Numeral → Code → Nat → Prop} (hN : ∀ o : Options, o.decimalPoint = opt.decimalPoint → NumberSpec c ct T s o number)
    (hm : MorePermissive opt.format f') {r : ApiFloat}
    (h : fromCharsFloat c ct T.fmt s opt = .ok r) (hr : r.ec ≠ .invalidArgument) :
    fromCharsFloat c ct T.fmt s { opt with format := f' } = .ok r := by
  have hm' : MorePermissive (c.eff opt) (c.eff { opt with format := f' }) := MorePermissive.eff hm _ _
  obtain ⟨h1, h2⟩ := (complete_of hin hp (hN opt rfl) r).1 h
  have hc : r.ec.code ≠ .invalid := by revert hr; cases r.ec <;> simp [Errc.code]
  have hp' : (grammar c { opt with format := f' }).PointOK := hp
  refine (complete_of hin hp' (hN _ rfl) r).2 ⟨h1, ?_⟩
  have ht : textOf c { opt with format := f' } s = textOf c opt s := by
    apply textOf_permissive hm'
    intro hw a u hs
    by_contra hb
    subst hs
    have := C19_blank_rejected c T (s := u) (a := a) opt hin hp.1 hw (by simpa using hb) (by rintro rfl; exact hb hps)
    rw [this] at h
    cases h
    exact hr rfl
  rw [ht]
  exact floatCall_mono hm' h2 hc

/-- **C59**: whatever a call accepts, it accepts with the same result under a more permissive format: adding `fixed`, `allow_leading_plus`, `skip_white_space`,
dropping JSON or `no_infnan`.  (Everything but new exponent markers: with `scientific` or Fortran added, more characters may be consumed.) -/
theorem C59_permissive (c : Cfg) {ct : CharType} (T : FloatTy) {s : List Nat} (opt : Options) (hin : Input ct s) (hp : (grammar c opt).PointOK)
    (hps : ApiSpec.isSpace opt.decimalPoint = false) {f' : Nat} (hm : MorePermissive opt.format f') {r : ApiFloat}
    (h : fromCharsFloat c ct T.fmt s opt = .ok r) (hr : r.ec ≠ .invalidArgument) :
    fromCharsFloat c ct T.fmt s { opt with format := f' } = .ok r := by
  by_cases hT : T = .float16
  · subst hT
    exact permissive_of hin hp hps (fun o ho => half_total hin (by unfold grammar; rw [ho]; exact hp)) hm h hr
  · exact permissive_of hin hp hps (fun o ho => ieee_total hT hin (by unfold grammar; rw [ho]; exact hp)) hm h hr

/-- **C59** for integers: adding `allow_leading_plus` and `skip_white_space`; no other format bit matters. -/
theorem C59_permissive_int (c : Cfg) {ct : CharType} {T : IntType} (hT : T.WF ∨ T.Wide) {s : List Nat} (opt : Options) (hin : Input ct s) {f' : Nat}
    (hplus : plusFlag opt.format = true → plusFlag f' = true) (hws : wsFlag opt.format = true → wsFlag f' = true) {r : ApiInt}
    (h : fromCharsIntApi c ct T s opt = .ok r) (hr : r.ec ≠ .invalidArgument) :
    fromCharsIntApi c ct T s { opt with format := f' } = .ok r := by
  have key : ∀ (g i : Nat), (effective c.plusMacro c.wsMacro g).testBit i = (g.testBit i || ((if c.plusMacro then 2 ^ 7 else 0) ||| (if c.wsMacro then 2 ^ 8 else 0) : Nat).testBit i) := by
    intro g i
    unfold effective
    rw [Nat.testBit_or]
  have hplus' : plusFlag (c.eff opt) = true → plusFlag (c.eff { opt with format := f' }) = true := by
    unfold plusFlag Cfg.eff at *
    rw [key, key]
    simp only [Bool.or_eq_true]
    tauto
  have hws' : wsFlag (c.eff opt) = true → wsFlag (c.eff { opt with format := f' }) = true := by
    unfold wsFlag Cfg.eff at *
    rw [key, key]
    simp only [Bool.or_eq_true]
    tauto
  obtain ⟨number, hs, hn⟩ : ∃ number, (∀ o : Options, o.base = opt.base → IntRejects c ct T o) ∧ (∀ o : Options, o.base = opt.base → IntNumberSpec c ct T o number) := by
    rcases hT with hT | hT
    · refine ⟨ActualInt T.bits T.signed opt.base.toNat, fun o _ => rejects_of_wf hT, fun o ho => ?_⟩
      rw [← ho]
      exact actual_numberSpec hT
    · refine ⟨WideInt opt.base.toNat, fun o _ => wide_rejects hT, fun o ho => ?_⟩
      rw [← ho]
      exact wide_numberSpec hT
  obtain ⟨h1, h2⟩ := (int_complete_of c opt (hs opt rfl) hin (hn opt rfl) r).1 h
  refine (int_complete_of c { opt with format := f' } (hs { opt with format := f' } rfl) hin (hn { opt with format := f' } rfl) r).2 ⟨h1, ?_⟩
  have hc : r.ec.code ≠ .invalid := by revert hr; cases r.ec <;> simp [Errc.code]
  have htext : textOf c { opt with format := f' } s = textOf c opt s := by
    unfold textOf body
    cases hw : wsFlag (c.eff opt) with
    | true => rw [hws' hw]
    | false =>
      cases hw' : wsFlag (c.eff { opt with format := f' }) with
      | false => rfl
      | true =>
        simp only [if_true, Bool.false_eq_true, if_false]
        cases s with
        | nil => rfl
        | cons a u =>
          have : ApiSpec.isSpace a = false := by
            by_contra hb
            have hb : ApiSpec.isSpace a = true := by simpa using hb
            have ht : textOf c opt (a :: u) = a :: u := by unfold textOf body; rw [hw]; rfl
            rw [ht] at h2
            have hsp : a = 32 ∨ (9 ≤ a ∧ a ≤ 13) := by simpa [ApiSpec.isSpace] using hb
            revert h2
            generalize r.ec.code = code at hc
            generalize r.value = v
            generalize (a :: u).drop r.off = rest
            intro h2
            cases h2 with
            | number hrd _ =>
              rename_i neg ds
              have h36 := hrd.max
              rcases hrd.literal.text with ⟨_, e⟩ | ⟨_, e⟩ | ⟨_, _, e⟩
              · injection e with e _; omega
              · obtain ⟨d, l, hd⟩ := List.exists_cons_of_ne_nil hrd.literal.nonempty
                rw [hd] at e
                injection e with e _
                have := hrd.literal.digits d (by rw [hd]; simp)
                unfold IntSpec.IsDigit IntSpec.digit at this
                rw [if_neg (by omega), if_neg (by omega), if_neg (by omega)] at this
                omega
              · injection e with e _; omega
            | invalid h => exact absurd rfl hc
          rw [List.dropWhile_cons_of_neg (by rw [this]; simp)]
  rw [htext]
  revert h2
  generalize r.ec.code = code at hc
  generalize r.value = v
  generalize s.drop r.off = rest
  intro h2
  cases h2 with
  | number hrd result =>
    exact .number ⟨hrd.two, hrd.max, ⟨signed_mono hplus' hrd.literal.text, hrd.literal.digits, hrd.literal.nonempty, hrd.literal.maximal⟩, hrd.sign⟩ result
  | invalid h => exact absurd rfl hc

/-- JSON to general with everything allowed -/
example : fromCharsFloat Cfg.x64 CharType.char binary32 tenthText { format := 0x185 } = .ok ⟨3, .ok, some 1036831949⟩ :=
  C59_permissive Cfg.x64 .float { format := 0x35 } tenth_input sample_point (by decide) (f' := 0x185)
    ⟨by decide, by decide, by decide, by decide, by decide, by decide, by decide⟩ (by decide +kernel) (by decide)

example : fromCharsIntApi Cfg.x64 CharType.char int32 [45, 55, 102, 120] { base := 16, format := 0x180 } = .ok ⟨3, .ok, some (-127)⟩ :=
  C59_permissive_int Cfg.x64 (Or.inl (by decide)) { base := 16 } (input_of_bytes (by decide) (by decide)) (f' := 0x180) (by decide) (by decide)
    (by decide +kernel) (by decide)

/-! ### C60: integer and floating-point overloads -/

theorem digitsVal_value {ds : List Nat} (h : ∀ u ∈ ds, NumSpec.IsDigit u) : digitsVal ds = IntSpec.value 10 ds := by
  unfold digitsVal IntSpec.value
  generalize 0 = a
  induction ds generalizing a with
  | nil => rfl
  | cons d ds ih =>
    have hd := h d (by simp)
    rw [List.foldl_cons, List.foldl_cons, ih (fun u hu => h u (by simp [hu]))]
    congr 1
    unfold NumSpec.IsDigit at hd
    unfold IntSpec.digit
    rw [if_pos hd]

theorem wf_bits_le {T : IntType} (h : T.WF) : T.bits ≤ 64 := by
  rcases h with h | h | h | h | h <;> omega

/-- The value of a successful base-10 call, in terms of the literal. -/
theorem int_success (c : Cfg) {ct : CharType} {T : IntType} (hT : T.WF) {s : List Nat} (opt : Options) (hin : Input ct s) (hb : opt.base = 10) {r : ApiInt}
    (hx : SoundCheck T 10 ∨ r.off ≤ 19) (h : fromCharsIntApi c ct T s opt = .ok r) (hr : r.ec = .ok) :
    ∃ neg ds rest, Readable T.signed (c.eff opt) opt.base (textOf c opt s) neg ds rest ∧ s.drop r.off = rest ∧ r.off ≤ s.length ∧
      Fits T.bits T.signed (IntSpec.signedValue neg (value 10 ds)) ∧ r.value = some (IntSpec.signedValue neg (value 10 ds)) := by
  have hbn : opt.base.toNat = 10 := by rw [hb]; rfl
  obtain ⟨h1, h2⟩ := (C53_actual_int c hT opt hin r).1 h
  have hoff : r.off = s.length - (s.drop r.off).length := by rw [List.length_drop]; omega
  have hfull := h
  revert h2
  rw [hr]
  obtain ⟨v, hv⟩ : ∃ v, r.value = v := ⟨_, rfl⟩
  obtain ⟨rest, hrest⟩ : ∃ v, s.drop r.off = v := ⟨_, rfl⟩
  rw [hv, hrest]
  show IntCall _ _ _ _ _ _ .success _ → _
  intro h2
  cases h2 with
  | number hrd result =>
    rename_i neg ds
    rw [hbn] at result
    refine ⟨neg, ds, rest, hrd, rfl, h1, ?_⟩
    cases result with
    | fits hf => exact ⟨hf, rfl⟩
    | wrapped he hf =>
      exfalso
      rcases hx with hx | hx
      · -- the sound specification excludes it
        rw [← hb] at hx
        obtain ⟨_, h3⟩ := (C51_complete_int_partial c hT opt hin hx r).1 hfull
        rw [hr, hv, hrest] at h3
        have h3 : IntCall T.signed (ExactInt T.bits T.signed) (c.eff opt) opt.base (textOf c opt s) rest .success _ := h3
        have hlit := readable_iff.1 hrd
        rw [hbn] at hlit
        have hv2 : 2 ^ 64 ≤ value 10 ds := he.1
        obtain ⟨code', v', h4, h5⟩ : ∃ code' v', ExactInt T.bits T.signed neg (value 10 ds) code' v' ∧ code' ≠ .success := by
          refine ⟨_, _, .overflow ?_, by simp⟩
          intro hc
          unfold Fits maxValue minValue IntSpec.signedValue at hc
          have hbits : (2 : Int) ^ T.bits ≤ 2 ^ 64 := pow_le_pow_right₀ (by norm_num) (wf_bits_le hT)
          have hbits1 : (2 : Int) ^ (T.bits - 1) ≤ 2 ^ 63 := pow_le_pow_right₀ (by norm_num) (by have := wf_bits_le hT; omega)
          have hv3 : (2 : Int) ^ 64 ≤ (value 10 ds : Int) := by exact_mod_cast hv2
          cases neg <;> cases hsg : T.signed <;> rw [hsg] at hc <;> simp only [if_true, Bool.false_eq_true, if_false] at hc <;> omega
        have h6 : IntCall T.signed (ExactInt T.bits T.signed) (c.eff opt) opt.base (textOf c opt s) (s.drop r.off) code' v' := by
          rw [hrest]
          refine .number hrd ?_
          rw [hbn]; exact h4
        obtain ⟨ec', hec⟩ : ∃ ec' : Errc, ec'.code = code' := by
          cases code' with
          | success => exact ⟨.ok, rfl⟩
          | invalid => exact ⟨.invalidArgument, rfl⟩
          | range => exact ⟨.outOfRange, rfl⟩
        have h7 := (C51_complete_int_partial c hT opt hin hx ⟨r.off, ec', v'⟩).2 ⟨h1, by rw [hec]; exact h6⟩
        have := h7.symm.trans hfull
        injection this with this
        have h8 : ec' = r.ec := congrArg ApiInt.ec this
        rw [h8, hr] at hec
        exact h5 (hec.symm)
      · have hlen : ds.length ≤ 19 := by
          have h3 : (textOf c opt s).length ≤ s.length := by
            obtain ⟨ws, w1, _⟩ := textOf_suffix c opt s
            have := congrArg List.length w1
            rw [List.length_append] at this; omega
          obtain ⟨ws, w1, _⟩ := textOf_suffix c opt s
          have h5 := congrArg List.length w1
          rw [List.length_append] at h5
          have h4 : ds.length + rest.length ≤ (textOf c opt s).length := by
            rcases hrd.literal.text with ⟨_, e⟩ | ⟨_, e⟩ | ⟨_, _, e⟩ <;> rw [e] <;> simp
          rw [hrest] at hoff
          omega
        have hval : value 10 ds < 10 ^ ds.length := by
          have hd := hrd.literal.digits
          rw [hbn] at hd
          exact value_lt hd
        have : (10 : Nat) ^ ds.length ≤ 10 ^ 19 := Nat.pow_le_pow_right (by norm_num) hlen
        have h2 := he.1
        norm_num at this h2
        omega

theorem half_exception_not_int {J N : Nat} : ¬ HalfException J (N : ℚ) := by
  rintro ⟨j, _, _, h⟩
  have h2 : ((N * 2 ^ 25 : Nat) : ℚ) = ((2 * j + 1 : Nat) : ℚ) := by
    push_cast
    rw [h]
    ring
  have h3 : N * 2 ^ 25 = 2 * j + 1 := by exact_mod_cast h2
  omega

/-- **C60**: let a base-10 integer call succeed with value `v`, and let what follows the digits not continue a floating-point number (no decimal point, no
exponent letter, no sign).  Then the floating-point overloads accept the same characters, and store `v` correctly rounded - for `double`, `float` and
`bfloat16_t` without error. -/
theorem C60_int_float_agree (c : Cfg) {ct : CharType} {T : IntType} (hT : T.WF) (F : FloatTy) {s : List Nat} (opt : Options) (hin : Input ct s)
    (hp : (grammar c opt).PointOK) (hb : opt.base = 10) (hfix : (c.eff opt).testBit 2 = true) (hj : (c.eff opt).testBit 5 = false) {ri : ApiInt}
    (hx : SoundCheck T 10 ∨ ri.off ≤ 19) (h : fromCharsIntApi c ct T s opt = .ok ri) (hr : ri.ec = .ok)
    (hrest : ∀ u t, s.drop ri.off = u :: t → u ≠ opt.decimalPoint ∧ u ≠ 101 ∧ u ≠ 69 ∧ u ≠ 100 ∧ u ≠ 68 ∧ u ≠ 43 ∧ u ≠ 45) :
    ∃ (v : Int) (ec : Errc) (b : Nat), ri.value = some v ∧ fromCharsFloat c ct F.fmt s opt = .ok ⟨ri.off, ec, some b⟩ ∧
      F.spec.RoundsToBits ((textOf c opt s).head? == some 45) |(v : ℚ)| b ∧ (F ≠ .float16 → ec = .ok) := by
  obtain ⟨neg, ds, rest, hrd, e1, e2, hfit, e3⟩ := int_success c hT opt hin hb hx h hr
  rw [e1] at hrest
  have hdig : ∀ u ∈ ds, NumSpec.IsDigit u := by
    intro u hu
    have := hrd.literal.digits u hu
    rw [hb] at this
    exact digit_lt_ten.1 this
  obtain ⟨d, dl, hdl⟩ := List.exists_cons_of_ne_nil hrd.literal.nonempty
  have hd0 := hdig d (by rw [hdl]; simp)
  obtain ⟨sg, hsg1, hsg2, hsg3, hsg4⟩ : ∃ sg : Option Nat, (sg = none ∨ sg = some 45 ∨ (sg = some 43 ∧ plusFlag (c.eff opt) = true)) ∧
      textOf c opt s = sg.toList ++ ds ++ rest ∧ ((sg == some 45) = neg) ∧ ((textOf c opt s).head? == some 45) = neg := by
    rcases hrd.literal.text with ⟨h1, h2⟩ | ⟨h1, h2⟩ | ⟨h1, h2, h3⟩
    · exact ⟨some 45, by simp, by simp [h2], by simp [h1], by simp [h1, h2]⟩
    · refine ⟨none, by simp, by simp [h2], by simp [h1], ?_⟩
      rw [h2, hdl, h1]
      unfold NumSpec.IsDigit at hd0
      simp only [List.cons_append, List.head?_cons, beq_eq_false_iff_ne, ne_eq, Option.some.injEq]
      omega
    · exact ⟨some 43, by simp [h2], by simp [h3], by simp [h1], by simp [h1, h3]⟩
  have hmu : Munch (grammar c opt) (textOf c opt s) ⟨sg, ds, none, none⟩ rest := by
    refine ⟨⟨?_, ?_, ?_, ?_⟩, ?_, ?_, ?_, ?_, ?_⟩
    · rcases hsg1 with h | h | ⟨h, h'⟩
      · exact Or.inl h
      · exact Or.inr (Or.inl h)
      · exact Or.inr (Or.inr ⟨h, h', hj⟩)
    · intro u hu
      exact hdig u (by simpa [Numeral.digits] using hu)
    · rw [if_neg (show ¬ (grammar c opt).json = true by show ¬ (c.eff opt).testBit 5 = true; rw [hj]; simp)]
      unfold Numeral.digits
      simp [hdl]
    · rintro ⟨_, hf⟩
      have hf : (c.eff opt).testBit 2 = false := hf
      rw [hfix] at hf; cases hf
    · rw [hsg2]
      unfold Numeral.text Numeral.fracText Numeral.expText
      simp
    · intro u t hut hu
      have := hrd.literal.maximal u (by rw [hut]; rfl)
      rw [hb] at this
      exact this (digit_lt_ten.2 hu)
    · intro _ _ t ht
      exact (hrest _ t ht).1 rfl
    · rintro _ ⟨e, q, w, hq⟩
      obtain ⟨w1, w2, w3, w4⟩ := w
      obtain ⟨m, sg', dd⟩ := e
      unfold Exponent.text at hq
      have hcase : ∃ u t, rest = u :: t ∧ (u = 101 ∨ u = 69 ∨ u = 100 ∨ u = 68 ∨ u = 43 ∨ u = 45) := by
        simp only at w3 w4 hq
        rcases w4 with ⟨_, h | h⟩ | ⟨_, h | h⟩ | ⟨_, h, hs⟩
        · exact ⟨101, _, by rw [hq, h]; rfl, by simp⟩
        · exact ⟨69, _, by rw [hq, h]; rfl, by simp⟩
        · exact ⟨100, _, by rw [hq, h]; rfl, by simp⟩
        · exact ⟨68, _, by rw [hq, h]; rfl, by simp⟩
        · rcases w3 with h' | h' | h'
          · exact absurd h' hs
          · exact ⟨43, _, by rw [hq, h, h']; rfl, by simp⟩
          · exact ⟨45, _, by rw [hq, h, h']; rfl, by simp⟩
      obtain ⟨u, t, hut, hu⟩ := hcase
      have := hrest u t hut
      omega
    · intro _ hf
      have hf : (c.eff opt).testBit 2 = false := hf
      rw [hfix] at hf; cases hf
  obtain ⟨k, b, ec, hacc, hco⟩ := scan_accepts (T := F) hin hp (munch_scan hp hmu)
  have hmod : Moderate ⟨sg, ds, none, none⟩ := Or.inr (by show |(0 : Int)| < 2 ^ 28; norm_num)
  have hval : Numeral.value ⟨sg, ds, none, none⟩ = (value 10 ds : ℚ) := by
    unfold Numeral.value Numeral.digits Numeral.expVal
    simp only [Option.getD_none, List.append_nil, List.length_nil]
    rw [digitsVal_value hdig]
    norm_num
  have hneg : Numeral.neg ⟨sg, ds, none, none⟩ = neg := hsg3
  have habs : |((IntSpec.signedValue neg (value 10 ds) : Int) : ℚ)| = (value 10 ds : ℚ) := by
    unfold IntSpec.signedValue
    cases neg <;> simp
  have hoff : s.length - rest.length = ri.off := by
    have := congrArg List.length e1
    rw [List.length_drop] at this; omega
  refine ⟨_, ec, b, e3, by rw [← hoff]; exact hacc.result, ?_, ?_⟩
  · rw [habs, hsg4, ← hval, ← hneg]
    by_cases hF : F = .float16
    · subst hF
      obtain ⟨b', h1, h2⟩ := C04_float16_correctly_rounded_partial c opt hin hp hacc hmod (by rw [hval]; exact half_exception_not_int)
      injection h1 with h1
      rw [h1]; exact h2
    · have : ∃ b', (some b : Option Nat) = some b' ∧ F.spec.RoundsToBits (Numeral.neg ⟨sg, ds, none, none⟩) (Numeral.value ⟨sg, ds, none, none⟩) b' := by
        cases F with
        | double => exact C01_double_correctly_rounded c opt hin hp hacc hmod
        | float => exact C02_float_correctly_rounded c opt hin hp hacc hmod
        | bfloat16 => exact C03_bfloat16_correctly_rounded c opt hin hp hacc hmod
        | float16 => exact absurd rfl hF
      obtain ⟨b', h1, h2⟩ := this
      injection h1 with h1
      rw [h1]; exact h2
  · intro hF
    have hi : IeeeNumber F.spec (Numeral.clip ⟨sg, ds, none, none⟩) ec.code b := by
      rw [← clip_value] at hco
      exact codeOut_ieee hF (n := Numeral.clip ⟨sg, ds, none, none⟩) hco
    have hclip : (Numeral.clip ⟨sg, ds, none, none⟩).value = (value 10 ds : ℚ) := hval
    rcases hi.error with ⟨_, hrange⟩ | ⟨hok, _⟩
    · exfalso
      rw [hclip] at hrange
      have hlt : (value 10 ds : ℚ) < 2 ^ 64 := by
        have : value 10 ds < 2 ^ 64 := by
          unfold Fits maxValue minValue IntSpec.signedValue at hfit
          have hbits : (2 : Int) ^ T.bits ≤ 2 ^ 64 := pow_le_pow_right₀ (by norm_num) (wf_bits_le hT)
          have hbits1 : (2 : Int) ^ (T.bits - 1) ≤ 2 ^ 63 := pow_le_pow_right₀ (by norm_num) (by have := wf_bits_le hT; omega)
          cases neg <;> cases hsg : T.signed <;> rw [hsg] at hfit <;> simp only [if_true, Bool.false_eq_true, if_false] at hfit <;> omega
        exact_mod_cast this
      rcases hrange with hr1 | ⟨hr1, hr2⟩
      · have : (2 : ℚ) ^ 64 ≤ F.spec.overflowThreshold := by
          cases F with
          | double => set_option exponentiation.threshold 2000 in norm_num [FloatTy.spec, Format.overflowThreshold, double, Format.bias]
          | float => norm_num [FloatTy.spec, Format.overflowThreshold, single, Format.bias]
          | bfloat16 => norm_num [FloatTy.spec, Format.overflowThreshold, bfloat, Format.bias]
          | float16 => exact absurd rfl hF
        linarith
      · have h1 : (1 : ℚ) ≤ (value 10 ds : ℚ) := by
          have : 0 < value 10 ds := by exact_mod_cast hr1
          exact_mod_cast this
        have : F.spec.val 1 ≤ 1 := by
          cases F with
          | double => set_option exponentiation.threshold 2000 in norm_num [FloatTy.spec, Format.val, double, Format.bias]
          | float => norm_num [FloatTy.spec, Format.val, single, Format.bias]
          | bfloat16 => norm_num [FloatTy.spec, Format.val, bfloat, Format.bias]
          | float16 => exact absurd rfl hF
        linarith
    · revert hok
      cases ec <;> simp [Errc.code]

/-- "-0042," as `int32_t` and as `float16_t` -/
example : ∃ (v : Int) (ec : Errc) (b : Nat), (some (-42) : Option Int) = some v ∧
    fromCharsFloat Cfg.x64 CharType.char FloatTy.float16.fmt [45, 48, 48, 52, 50, 44] {} = .ok ⟨5, ec, some b⟩ ∧
      half.RoundsToBits true |(v : ℚ)| b ∧ (FloatTy.float16 ≠ .float16 → ec = .ok) :=
  C60_int_float_agree Cfg.x64 (T := int32) (by decide) .float16 {} (input_of_bytes (by decide) (by decide)) sample_point rfl (by decide) (by decide)
    (ri := ⟨5, .ok, some (-42)⟩) (Or.inr (by decide)) (by decide +kernel) rfl (by
      intro u t h
      have h : [44] = u :: t := h
      injection h with h _
      subst h
      decide)

end FastFloat
