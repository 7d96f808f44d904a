import Verif.Spec.HalfScaled
import Verif.Props.AnyPoint
/-
# C61 and C74 for `std::float16_t`: everything
-/
set_option linter.unusedSimpArgs false
set_option autoImplicit false
namespace FastFloat
open NumSpec FloatSpec ApiSpec

/-- Which overflows of binary16 the fast path swallows. -/
theorem fast16_over_raw (c : Cfg) {m : Nat} {e : Int} (neg : Bool) (hov : 65520 ≤ (m : ℚ) * 10 ^ e) :
    (∃ v, clingerFastPath c binary16 m e neg = .ok (some v)) ↔ Runtime c ∧ m ≤ 2 ^ 11 ∧ e ≤ 4 := by
  unfold Runtime
  have hflag : (!c.constEval && roundsToNearest c) = true ↔ c.constEval = false ∧ c.evalMethod.is01 = true ∧ c.mode = .nearest := by
    rw [roundsToNearest_eq]; simp
  have hmax : maxMantissaFastPath binary16 = 2 ^ 11 := by decide
  have hmf : binary16.maxFast = 4 := rfl
  constructor
  · rintro ⟨v, hv⟩
    unfold clingerFastPath at hv
    by_cases hr : minExponentFastPath c binary16 ≤ e ∧ e ≤ binary16.maxFast
    swap
    · rw [if_neg hr] at hv; cases hv
    rw [if_pos hr] at hv
    by_cases hf : (!c.constEval && roundsToNearest c) = true
    · rw [if_pos hf, hmax] at hv
      by_cases hm : m ≤ 2 ^ 11
      · exact ⟨hflag.1 hf, hm, by rw [hmf] at hr; exact hr.2⟩
      · rw [if_neg hm] at hv; cases hv
    · exfalso
      rw [if_neg hf] at hv
      by_cases he0 : e ≥ 0
      swap
      · rw [if_neg he0] at hv; cases hv
      rw [if_pos he0] at hv
      obtain ⟨k, rfl⟩ := Int.eq_ofNat_of_zero_le he0
      have hk4 : k ≤ 4 := by rw [hmf] at hr; omega
      have hkn : ((k : Int)).toNat = k := by omega
      obtain ⟨mm, tm1, tm2, tm3⟩ := fast16.table k (by have := fast16.maxF; omega)
      have htab : maxMantissaFastPathAt binary16 k = .ok mm := by unfold maxMantissaFastPathAt tableGet; rw [tm1]
      simp only [hkn, htab, ok_bind] at hv
      by_cases hm : m ≤ mm
      swap
      · rw [if_neg hm] at hv; cases hv
      have h5 : m * 5 ^ k ≤ 2 ^ 11 := le_trans (Nat.mul_le_mul_right _ hm) tm2
      have h2 : 2 ^ k ≤ 2 ^ 4 := Nat.pow_le_pow_right (by norm_num) hk4
      have h3 : m * 10 ^ k ≤ 2 ^ 11 * 2 ^ 4 := by
        rw [show (10 : Nat) = 5 * 2 from rfl, Nat.mul_pow, ← mul_assoc]
        exact Nat.mul_le_mul h5 h2
      rw [zpow_natCast] at hov
      have h4 : (65520 : Nat) ≤ m * 10 ^ k := by exact_mod_cast hov
      omega
  · rintro ⟨hrt, hm, h4⟩
    have he0 : 0 ≤ e := by
      by_contra hc
      have hz : (10 : ℚ) ^ e ≤ 1 := zpow_le_one_of_nonpos₀ (by norm_num) (by omega)
      have hm' : (m : ℚ) ≤ 2048 := by exact_mod_cast hm
      have hz0 : (0 : ℚ) < 10 ^ e := by positivity
      have hd0 : (0 : ℚ) ≤ m := by positivity
      nlinarith
    obtain ⟨o, ho, _⟩ := clinger_spec c fast16 m e neg
    cases o with
    | some v => exact ⟨v, ho⟩
    | none =>
      exfalso
      unfold clingerFastPath at ho
      have hr : minExponentFastPath c binary16 ≤ e ∧ e ≤ binary16.maxFast := by
        refine ⟨?_, by rw [hmf]; exact h4⟩
        unfold minExponentFastPath
        have : binary16.minFast = 0 := rfl
        split <;> omega
      rw [if_pos hr, if_pos (hflag.2 hrt), hmax, if_pos hm] at ho
      simp only [not_lt.2 he0, if_false] at ho
      cases ht : exactPowerOfTen binary16 e.toNat with
      | error x => rw [ht] at ho; cases ho
      | ok t => rw [ht] at ho; cases ho

theorem threshold16 : FloatTy.float16.spec.overflowThreshold = 65520 := by
  show half.overflowThreshold = _
  norm_num [Format.overflowThreshold, half, Format.bias]

theorem rounded_inf16 {x : ℚ} {n : Nat} (h : Rounded binary16 (x * 2 ^ ulpExp binary16) n) : infIdx binary16 ≤ n ↔ 65520 ≤ x := by
  rcases h with h | ⟨k, _, hk, he, rfl⟩
  · have := rn_inf (T := .float16) h
    rw [threshold16] at this
    exact this
  · have hu : ulpExp binary16 = 24 := by decide
    have hi : infIdx binary16 = 31744 := by decide
    have hmb : binary16.mb = 10 := rfl
    rw [hmb] at hk
    rw [hu] at he
    rw [hi]
    constructor
    · intro h; norm_num at hk; omega
    · intro h
      exfalso
      have hk' : (k : ℚ) < 2 ^ 10 := by exact_mod_cast hk
      norm_num at he
      norm_num only at hk'
      linarith

theorem rounded_zero16 {x : ℚ} {n : Nat} (h : Rounded binary16 (x * 2 ^ ulpExp binary16) n) (hx : x ≠ 1 / 2 ^ 25) : n = 0 ↔ x < 1 / 2 ^ 25 := by
  have h1 : FloatTy.float16.spec.val 1 / 2 = 1 / 2 ^ 25 := by
    have := half_val_lin (j := 1) (by norm_num)
    push_cast at this
    show half.val 1 / 2 = _
    rw [this]; norm_num
  rcases h with h | ⟨k, _, hk, he, rfl⟩
  · have := rn_zero (T := .float16) h
    rw [h1] at this
    rw [this]
    exact ⟨fun h => lt_of_le_of_ne h hx, le_of_lt⟩
  · have hu : ulpExp binary16 = 24 := by decide
    rw [hu] at he
    have hk0 : (0 : ℚ) ≤ k := by positivity
    constructor
    · intro h; omega
    · intro h
      exfalso
      norm_num at he h
      linarith

/-- The error code on overflow. -/
theorem pns_over (c : Cfg) (ct : CharType) {p : ParsedNumber} {q : List Nat} {ec : Errc} {b : Nat} (ht : p.tooManyDigits = false)
    (h : fromCharsAdvancedPns c ct binary16 p = .ok ⟨q, ec, some b⟩) (hm : p.mantissa < 2 ^ 64) (hov : 65520 ≤ (p.mantissa : ℚ) * 10 ^ p.exponent) :
    ec = .ok ↔ Runtime c ∧ p.mantissa ≤ 2 ^ 11 ∧ p.exponent ≤ 4 := by
  rw [← fast16_over_raw c p.negative hov]
  obtain ⟨o, ho, hv⟩ := clinger_spec c fast16 p.mantissa p.exponent p.negative
  unfold fromCharsAdvancedPns at h
  simp only [ht, Bool.not_false, if_true, bind, Except.bind, pure, Except.pure, ho] at h
  cases o with
  | some v =>
    injection h with h
    injection h with _ h _
    exact ⟨fun _ => ⟨v, ho⟩, fun _ => h.symm⟩
  | none =>
    obtain ⟨am, n, h1, h2, h3, h4⟩ := computeFloat_spec' c FloatTy.float16.good p.exponent p.mantissa hm
    have h1 : computeFloat c binary16 p.exponent p.mantissa = .ok am := h1
    have hp := amRep_nonneg h3
    simp only [h1, Bool.false_and, Bool.false_eq_true, if_false] at h
    rw [if_neg (by omega)] at h
    injection h with h
    injection h with _ h _
    have hc : infIdx FloatTy.float16.fmt ≤ n := (rounded_inf16 h2).2 hov
    obtain ⟨e1, e2⟩ := rangeErrc_eq FloatTy.float16.good (m := p.mantissa) h3
    have h5 : rangeErrc FloatTy.float16.fmt p.mantissa am = .outOfRange := e1.2 (Or.inr (by omega))
    have h5 : ec = .outOfRange := by rw [← h]; exact h5
    rw [ho, h5]
    simp

/-- **C61 for float16, exactly**: what is stored and what is reported for a significand and an exponent supplied by the caller. -/
theorem C61_pns_float16_exact (c : Cfg) (ct : CharType) (p : ParsedNumber) (hm : p.mantissa < 2 ^ 64) (ht : p.tooManyDigits = false) :
    ∃ ec b, fromCharsAdvancedPns c ct binary16 p = .ok ⟨p.lastmatch, ec, some b⟩ ∧ HalfScaled (Runtime c) p.negative p.mantissa p.exponent ec.code b := by
  obtain ⟨b, n, ec, e1, g2, e3, g4, g5, g6, g7, _⟩ := pns_core c ct .float16 p hm ht
  obtain ⟨ec', b', h1, h2, h3⟩ := C61_pns_float16 c ct p hm ht
  have e1' : fromCharsAdvancedPns c ct binary16 p = .ok ⟨p.lastmatch, ec, some b⟩ := e1
  have := e1'.symm.trans h1
  cases this
  refine ⟨ec, b, e1', fun hx => h2.2 hx, h3, ?_, ?_⟩
  · rcases g5 with e | e <;> rw [e]
    · exact Or.inr rfl
    · exact Or.inl rfl
  have hi : infIdx FloatTy.float16.fmt ≤ n ↔ 65520 ≤ (p.mantissa : ℚ) * 10 ^ p.exponent := rounded_inf16 g2
  have hz : n = 0 ↔ (p.mantissa : ℚ) * 10 ^ p.exponent < 1 / 2 ^ 25 := by
    by_cases hx : (p.mantissa : ℚ) * 10 ^ p.exponent = 1 / 2 ^ 25
    · have := (g4 rfl 0 (by norm_num) (by rw [hx]; norm_num)).2
      rw [this, hx]; simp
    · exact rounded_zero16 g2 hx
  have hx0 : p.mantissa ≠ 0 ↔ 0 < (p.mantissa : ℚ) * 10 ^ p.exponent := by
    rw [← Nat.pos_iff_ne_zero]
    constructor
    · intro h
      have : (0 : ℚ) < p.mantissa := by exact_mod_cast h
      positivity
    · intro h
      by_contra hc
      have : p.mantissa = 0 := by omega
      rw [this] at h; simp at h
  have hec : ec.code = .range ↔ ec = .outOfRange := by cases ec <;> simp [Errc.code]
  rw [hec]
  constructor
  · intro he
    rcases g6 he with ⟨a, b⟩ | a
    · exact Or.inl ⟨hx0.1 a, hz.1 b⟩
    · refine Or.inr ⟨hi.1 a, fun hc => ?_⟩
      have := (pns_over c ct ht e1' hm (hi.1 a)).2 hc
      rw [he] at this; cases this
  · rintro (⟨a1, a2⟩ | ⟨a1, a2⟩)
    · exact g7 (hx0.2 a1) (hz.2 a2)
    · rcases g5 with e | e
      · exact absurd ((pns_over c ct ht e1' hm a1).1 e) a2
      · exact e

theorem halfScaled_unique {P : Prop} {neg : Bool} {m : Nat} {e : Int} {a b : Nat} {x y : Code} (h1 : HalfScaled P neg m e x a) (h2 : HalfScaled P neg m e y b) :
    x = y ∧ a = b := by
  constructor
  · rcases h1.error with e | e <;> rcases h2.error with f | f
    · rw [e, f]
    · have := h2.range.2 (h1.range.1 e); rw [f] at this; cases this
    · have := h1.range.2 (h2.range.1 f); rw [e] at this; cases this
    · rw [e, f]
  · by_cases hx : HalfException 30 ((m : ℚ) * 10 ^ e)
    · obtain ⟨j, i1, i2, i3⟩ := hx
      rw [h1.exception j i1 i2 i3, h2.exception j i1 i2 i3]
    · exact roundsToBits_unique .float16 (h1.rounded hx) (h2.rounded hx)

/-- A call for a numeral whose digits are miscounted is a call for its significand modulo `2^64`. -/
theorem call_miscounted_pns {c : Cfg} {ct : CharType} {T : FloatTy} {s : List Nat} {opt : Options} (hin : Input ct s) {n : Numeral} {rest : List Nat}
    (hs : Greedy (grammar c opt) (textOf c opt s) n rest) (hmc : Miscounted opt.decimalPoint n) :
    ∃ p : ParsedNumber, p.mantissa = digitsVal n.digits % 2 ^ 64 ∧ p.exponent = n.clip.expVal - ((n.frac.getD []).length : Int) ∧ p.negative = n.neg ∧
      p.lastmatch = rest ∧ p.tooManyDigits = false ∧ ∀ ec b, fromCharsAdvancedPns c ct T.fmt p = .ok ⟨rest, ec, some b⟩ →
        fromCharsFloat c ct T.fmt s opt = .ok ⟨s.length - rest.length, ec, some b⟩ := by
  have hsc := greedy_scan hs
  have hwf := hs.wf
  have e0 : fromCharsFloat c ct T.fmt s opt = (do
      let r ← fromCharsFloatBody c ct T.fmt (codeBody ct (c.eff opt) s) opt
      pure { off := s.length - r.ptr.length, ec := r.ec, value := r.value }) := by
    unfold fromCharsFloat fromCharsFloatAdvanced
    rw [dropSpaces_eq, ok_bind]
  rw [e0]
  have hut := codeBody_mem (ct := ct) (fmt := c.eff opt) hin.ok
  have hlt : (codeBody ct (c.eff opt) s).length < 2 ^ 62 := lt_of_le_of_lt (codeBody_suffix ct (c.eff opt) s).length_le hin.len
  rw [hin.body_eq] at hut hlt ⊢
  obtain ⟨t, ht⟩ : ∃ t, textOf c opt s = t := ⟨_, rfl⟩
  rw [ht] at hut hlt hs hsc ⊢
  have hne : t ≠ [] := by
    rintro rfl
    obtain ⟨pre, d, post, h1, _, _⟩ := numeral_digit hwf
    have h2 := hs.text
    rw [h1] at h2
    simp at h2
  have hP := parse_spec_gen c hin.wf (Fmt.has (c.eff opt) Fmt.basicJson) opt false hne hut hlt
  rw [adjust_eq, scanRules_eq] at hP
  have e1 : fromCharsFloatBody c ct T.fmt t opt = (do
      let pns ← parseNumberString c ct (Fmt.has (c.eff opt) Fmt.basicJson) t opt false
      fromCharsFloatParsed c ct T.fmt t opt (c.eff opt) (Fmt.has (c.eff opt) Fmt.basicJson) pns) := by
    cases t with
    | nil => exact absurd rfl hne
    | cons a t =>
      unfold fromCharsFloatBody
      rw [adjust_eq]
  have hM : manyTest opt.decimalPoint n (refSign (rules (c.eff opt) opt.decimalPoint) t).2 = false := by
    rw [Bool.eq_false_iff]
    intro h
    exact ((many_iff hs).1 h).2 hmc
  have p1 := (hP.2 n rest hsc).1
  rw [hM] at p1
  obtain ⟨p, hp⟩ : ∃ p, pnsGen false false n rest = p := ⟨_, rfl⟩
  have q1 : p.mantissa = digitsVal n.digits % 2 ^ 64 := by rw [← hp]; rfl
  have q2 : p.exponent = n.clip.expVal - ((n.frac.getD []).length : Int) := by rw [← hp, clip_expVal]; rfl
  have q3 : p.negative = n.neg := by rw [← hp]; rfl
  have q4 : p.lastmatch = rest := by rw [← hp]; rfl
  have q5 : p.valid = true := by rw [← hp]; rfl
  have q6 : p.tooManyDigits = false := by rw [← hp]; rfl
  have q7 : p.mantissa < 2 ^ 64 := by rw [q1]; exact Nat.mod_lt _ (by norm_num)
  rw [hp] at p1
  refine ⟨p, q1, q2, q3, q4, q6, fun ec b hr => ?_⟩
  rw [e1, p1, ok_bind]
  have heq : fromCharsFloatParsed c ct T.fmt t opt (c.eff opt) (Fmt.has (c.eff opt) Fmt.basicJson) p = fromCharsAdvancedPns c ct T.fmt p := by
    unfold fromCharsFloatParsed fromCharsAdvancedPns
    rw [q5, q6]
    simp only [Bool.not_true, Bool.false_eq_true, if_false, Bool.not_false, if_true]
    refine bind_congr' fun o => ?_
    cases o with
    | some v => rfl
    | none =>
      obtain ⟨am, k, h1, h2, h3⟩ := computeFloat_spec c T.good p.exponent p.mantissa q7
      have hp0 : ¬ am.power2 < 0 := not_lt.2 (amRep_nonneg h3)
      simp only [h1, ok_bind, Bool.false_and, Bool.false_eq_true, if_false]
      rw [if_neg hp0]
      show _ = if am.power2 < 0 then _ else _
      rw [if_neg hp0]
      rfl
  rw [heq, hr, ok_bind]
  rfl

/-- **C74** for `float16_t` and every options value: with `C74_every_option` this completes the specification for all types. -/
theorem C74_every_option_float16 (c : Cfg) {ct : CharType} {s : List Nat} (opt : Options) (hin : Input ct s) (r : ApiFloat) :
    fromCharsFloat c ct binary16 s opt = .ok r ↔
      r.off ≤ s.length ∧
        AnyPointCall half (fun n code b =>
            (¬ Miscounted opt.decimalPoint n → HalfNumber (Runtime c) n.clip code b) ∧
            (Miscounted opt.decimalPoint n → HalfScaled (Runtime c) n.neg (digitsVal n.digits % 2 ^ 64) (n.clip.expVal - ((n.frac.getD []).length : Int)) code b))
          (c.eff opt) opt.decimalPoint (textOf c opt s) (s.drop r.off) r.ec.code r.value := by
  refine any_complete (T := .float16) (number := fun n code b =>
            (¬ Miscounted opt.decimalPoint n → HalfNumber (Runtime c) n.clip code b) ∧
            (Miscounted opt.decimalPoint n → HalfScaled (Runtime c) n.neg (digitsVal n.digits % 2 ^ 64) (n.clip.expVal - ((n.frac.getD []).length : Int)) code b)) hin
    ⟨fun n rest hg => ?_, fun n a b x y h1 h2 => ?_⟩ r
  · by_cases hmc : Miscounted opt.decimalPoint n
    · obtain ⟨p, q1, q2, q3, q4, q5, q6⟩ := call_miscounted_pns (T := .float16) hin hg hmc
      obtain ⟨ec, b, h1, h2⟩ := C61_pns_float16_exact c ct p (by rw [q1]; exact Nat.mod_lt _ (by norm_num)) q5
      rw [q4] at h1
      refine ⟨ec, b, q6 ec b h1, fun h => absurd hmc h, fun _ => ?_⟩
      rwa [q1, q2, q3] at h2
    · obtain ⟨ec, b, h1, h2⟩ := half_any hin hg hmc
      exact ⟨ec, b, h1, fun _ => h2, fun h => absurd h hmc⟩
  · by_cases hmc : Miscounted opt.decimalPoint n
    · exact halfScaled_unique (h1.2 hmc) (h2.2 hmc)
    · exact half_unique (h1.1 hmc) (h2.1 hmc)

/-! ### Samples -/

/-- `2000·10^4` overflows, and the fast path does not report it; in another rounding mode it does. -/
example : ∃ b, fromCharsAdvancedPns Cfg.x64 CharType.char binary16 { mantissa := 2000, exponent := 4 } = .ok ⟨[], .ok, some b⟩ ∧
    HalfScaled (Runtime Cfg.x64) false 2000 4 .success b := by
  obtain ⟨ec, b, h1, h2⟩ := C61_pns_float16_exact Cfg.x64 .char { mantissa := 2000, exponent := 4 } (by norm_num) rfl
  have hec : ec = .ok := by
    rcases (by cases ec <;> simp : ec = .ok ∨ ec ≠ .ok) with h | h
    · exact h
    · have h3 : ec.code ≠ .success := by cases ec <;> simp_all [Errc.code]
      rcases h2.error with h4 | h4
      · rcases h2.range.1 h4 with ⟨_, h5⟩ | ⟨_, h5⟩
        · norm_num at h5
        · exact absurd ⟨by unfold Runtime; decide, by norm_num, by norm_num⟩ h5
      · exact absurd h4 h3
  subst hec
  exact ⟨b, h1, h2⟩

/-- The point `5` and twenty digits, of which ten are counted. -/
example : fromCharsFloat Cfg.x64 CharType.char binary16 (List.replicate 10 [53, 48]).flatten { decimalPoint := 53 } = .ok ⟨20, .outOfRange, some 0x7c00⟩ := by
  decide +kernel

example : AnyPointCall half (fun n code b =>
      (¬ Miscounted 53 n → HalfNumber (Runtime Cfg.x64) n.clip code b) ∧
      (Miscounted 53 n → HalfScaled (Runtime Cfg.x64) n.neg (digitsVal n.digits % 2 ^ 64) (n.clip.expVal - ((n.frac.getD []).length : Int)) code b))
    5 53 (List.replicate 10 [53, 48]).flatten [] .range (some 0x7c00) :=
  ((C74_every_option_float16 Cfg.x64 { decimalPoint := 53 } (s := (List.replicate 10 [53, 48]).flatten) (ct := .char)
    (input_of_bytes (by decide) (by decide)) ⟨20, .outOfRange, some 0x7c00⟩).1 (by decide +kernel)).2

end FastFloat
