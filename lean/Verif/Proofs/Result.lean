import Verif.Props.Common
/-
# The result of an accepted number as a function of the numeral

`float_cases` says what value is stored up to correct rounding; here the result is expressed as one call of the public
`from_chars_advanced(parsed_number_string_t&, T&)` on the numeral, which makes it comparable across inputs also for binary16.
-/
set_option linter.unusedSimpArgs false
namespace FastFloat
open NumSpec FloatSpec ApiSpec

theorem emap_bind {α β γ : Type} (g : β → γ) (x : Exec α) (f : α → Exec β) :
    Except.map g (x >>= f) = x >>= fun a => Except.map g (f a) := by cases x <;> rfl

theorem emap_pure {α β : Type} (g : α → β) (a : α) : Except.map g (pure a : Exec α) = pure (g a) := rfl

theorem emap_ite {α β : Type} (g : α → β) (P : Prop) [Decidable P] (a b : Exec α) :
    Except.map g (if P then a else b) = if P then Except.map g a else Except.map g b := by split <;> rfl

theorem bind_emap {α β γ : Type} (g : α → β) (x : Exec α) (f : β → Exec γ) :
    (Except.map g x >>= f) = x >>= fun a => f (g a) := by cases x <;> rfl

theorem bind_congr' {α β : Type} {x : Exec α} {f g : α → Exec β} (h : ∀ a, f a = g a) : (x >>= f) = (x >>= g) := by
  rw [funext h]

/-- What `from_chars_advanced(parsed_number_string_t&, T&)` computes apart from pointer and sign: the error code, and either the
magnitude found by the fast path or an adjusted mantissa. -/
def advCore (c : Cfg) (ct : CharType) (F : BinFmt) (p : ParsedNumber) : Exec (Errc × (Nat ⊕ AdjustedMantissa)) := do
  let fast ← if !p.tooManyDigits then clingerFastPath c F p.mantissa p.exponent false else pure none
  match fast with
  | some v => pure (.ok, .inl v)
  | none => do
    let am ← computeFloat c F p.exponent p.mantissa
    let am ← if p.tooManyDigits && decide (am.power2 ≥ 0) then do
        let am1 ← computeFloat c F p.exponent ((p.mantissa + 1) % 2 ^ 64)
        if am ≠ am1 then computeError c F p.exponent p.mantissa else pure am
      else pure am
    let am ← if am.power2 < 0 then digitComp c ct F p am else pure am
    pure (rangeErrc F p.mantissa am, .inr am)

/-- Bits of the outcome, given the sign. -/
def coreBits (F : BinFmt) (neg : Bool) : Nat ⊕ AdjustedMantissa → Nat
  | .inl v => if neg then fpNeg F v else v
  | .inr am => toFloat F neg am

theorem clinger_neg (c : Cfg) (F : BinFmt) (m : Nat) (e : Int) (neg : Bool) :
    clingerFastPath c F m e neg = (clingerFastPath c F m e false).map (Option.map (fun v => if neg then fpNeg F v else v)) := by
  unfold clingerFastPath
  simp only [emap_bind, emap_ite, emap_pure, if_true, Bool.false_eq_true, if_false, Option.map_some, Option.map_none]

theorem advPns_core (c : Cfg) (ct : CharType) (F : BinFmt) (p : ParsedNumber) :
    fromCharsAdvancedPns c ct F p = (advCore c ct F p).map (fun y => ⟨p.lastmatch, y.1, some (coreBits F p.negative y.2)⟩) := by
  unfold fromCharsAdvancedPns advCore
  simp only [emap_bind, emap_ite, emap_pure]
  rw [clinger_neg c F p.mantissa p.exponent p.negative]
  simp only [bind_emap]
  split
  · refine bind_congr' fun o => ?_
    cases o with
    | some v => rfl
    | none => simp only [emap_bind, emap_ite, emap_pure, Option.map_none]; rfl
  · show _ = (Except.ok (none : Option Nat) >>= _)
    rw [ok_bind]
    show (Except.ok (none : Option Nat) >>= _) = _
    rw [ok_bind]
    simp only [emap_bind, emap_ite, emap_pure]; rfl

theorem advCore_irrel (c : Cfg) (ct : CharType) (F : BinFmt) (p : ParsedNumber) (r : List Nat) (b : Bool) :
    advCore c ct F { p with lastmatch := r, negative := b } = advCore c ct F p := rfl

theorem toFloat_true {F : BinFmt} {am : AdjustedMantissa} (h : toFloat F false am < 2 ^ F.signIdx) :
    toFloat F true am = toFloat F false am + 2 ^ F.signIdx := by
  unfold toFloat at *
  simp only [Bool.false_eq_true, if_false, if_true, Nat.zero_mul, Nat.or_zero, Nat.one_mul] at *
  obtain ⟨w, hw⟩ : ∃ w, (am.mantissa % 2 ^ (F.signIdx + 1) ||| ((am.power2 % ((2 ^ (F.signIdx + 1) : Nat) : Int)).toNat * 2 ^ F.mb)) % 2 ^ (F.signIdx + 1) = w := ⟨_, rfl⟩
  rw [hw] at h ⊢
  have hlt : w < 2 ^ (F.signIdx + 1) := by rw [← hw]; exact Nat.mod_lt _ (Nat.two_pow_pos _)
  rw [Nat.mod_eq_of_lt hlt] at h ⊢
  have := or_high w 1 F.signIdx h
  rw [Nat.one_mul] at this
  rw [this, Nat.mod_eq_of_lt]
  rw [pow_succ]; omega

/-- The sign of a numeral shows in the sign bit only. -/
theorem advCore_bits {T : FloatTy} {x : ℚ} {k : Nat} {ec : Errc} {v : Nat ⊕ AdjustedMantissa}
    (h : CodeOut T false x k (coreBits T.fmt false v) ec) : coreBits T.fmt true v = coreBits T.fmt false v + 2 ^ T.fmt.signIdx := by
  have hb := h.bits
  have hi := infIdx_lt_sign T
  simp only [Bool.false_eq_true, if_false, Nat.add_zero] at hb
  cases v with
  | inl v => rfl
  | inr am =>
    simp only [coreBits] at hb ⊢
    apply toFloat_true
    rw [hb]; omega

/-- Direct parsing and the public overload agree. -/
theorem parsed_eq_pns (c : Cfg) (ct : CharType) (T : FloatTy) {s : List Nat} (opt : Options) {fmt : Fmt} {bjf : Bool}
    {n : Numeral} {rest : List Nat} (hd : ∀ c ∈ n.digits, IsDigit c)
    (hstore : parseNumberString c ct bjf s opt true = .ok (pnsOf true n rest)) :
    fromCharsFloatParsed c ct T.fmt s opt fmt bjf (pnsOf false n rest) = fromCharsAdvancedPns c ct T.fmt (pnsOf true n rest) := by
  have hslow : parseNumberSlowPath c ct T.fmt s opt bjf = fromCharsAdvancedPns c ct T.fmt (pnsOf true n rest) := by
    unfold parseNumberSlowPath
    rw [hstore, ok_bind]
  unfold fromCharsFloatParsed
  have hv : (pnsOf false n rest).valid = true := rfl
  have hlm : (pnsOf false n rest).lastmatch = (pnsOf true n rest).lastmatch := rfl
  have hneg : (pnsOf false n rest).negative = (pnsOf true n rest).negative := rfl
  have htme : (pnsOf false n rest).tooManyDigits = (pnsOf true n rest).tooManyDigits := rfl
  rw [hv]
  simp only [Bool.not_true, Bool.false_eq_true, if_false]
  by_cases hL : 19 < (dz n.digits).length
  · have htm : (pnsOf false n rest).tooManyDigits = true := by unfold pnsOf pnsGen; simpa using hL
    rw [htm]
    simp only [if_true]
    exact hslow
  · have htm : (pnsOf false n rest).tooManyDigits = false := by unfold pnsOf pnsGen; simpa using hL
    have hlt : dval n.digits < 10 ^ 19 := by
      rw [← dval_dz]
      have := dval_lt (fun c hc => (dz_mem hd) c hc : ∀ c ∈ dz n.digits, IsDig c)
      exact lt_of_lt_of_le this (Nat.pow_le_pow_right (by norm_num) (by omega))
    have hlt64 : dval n.digits < 2 ^ 64 := lt_trans hlt (by norm_num)
    have hm : (pnsOf false n rest).mantissa = (pnsOf true n rest).mantissa := by
      unfold pnsOf pnsGen; simp [hL]
    have he : (pnsOf false n rest).exponent = (pnsOf true n rest).exponent := by
      unfold pnsOf pnsGen; simp [hL]
    have hmt : (pnsOf true n rest).mantissa < 2 ^ 64 := by
      rw [← hm]; unfold pnsOf pnsGen; simp only [Bool.and_false, Bool.false_eq_true, if_false]; exact Nat.mod_lt _ (by norm_num)
    rw [htm, hm, he, hneg, hlm]
    rw [htme] at htm
    unfold fromCharsAdvancedPns
    rw [htm]
    simp only [Bool.false_eq_true, if_false, Bool.not_false, if_true]
    refine bind_congr' fun o => ?_
    cases o with
    | some v => rfl
    | none =>
      obtain ⟨am, k, h1, h2, h3⟩ := computeFloat_spec c T.good (pnsOf true n rest).exponent (pnsOf true n rest).mantissa hmt
      have hp0 : ¬ am.power2 < 0 := by
        rcases h3.2 with ⟨h, _⟩ | ⟨_, h, _⟩ <;> rw [h] <;> exact not_lt.2 (Int.natCast_nonneg _)
      simp only [h1, ok_bind, Bool.false_and, Bool.false_eq_true, if_false]
      rw [if_neg hp0]
      show _ = if am.power2 < 0 then _ else _
      rw [if_neg hp0]
      rfl

/-- The unsigned outcome for a numeral. -/
def numCore (c : Cfg) (ct : CharType) (T : FloatTy) (n : Numeral) : Exec (Errc × (Nat ⊕ AdjustedMantissa)) :=
  advCore c ct T.fmt (pnsOf true { n with sign := none } [])

theorem numCore_pns (c : Cfg) (ct : CharType) (T : FloatTy) (n : Numeral) (rest : List Nat) :
    fromCharsAdvancedPns c ct T.fmt (pnsOf true n rest) =
      (numCore c ct T n).map (fun y => ⟨rest, y.1, some (coreBits T.fmt n.neg y.2)⟩) := advPns_core c ct T.fmt (pnsOf true n rest)

theorem emap_ok {α β : Type} {f : α → β} {x : Exec α} {b : β} (h : x.map f = .ok b) : ∃ a, x = .ok a ∧ f a = b := by
  cases x with
  | error e => cases h
  | ok a => exact ⟨a, rfl, Except.ok.inj h⟩

/-- The fast path applies to the numeral. -/
def FastPath (c : Cfg) (F : BinFmt) (n : Numeral) : Prop :=
  (dz n.digits).length ≤ 19 ∧ ∃ v, clingerFastPath c F (dval n.digits) (satExp n.exp - ((n.frac.getD []).length : Int)) false = .ok (some v)

theorem numCore_spec' (c : Cfg) {ct : CharType} (hw : ct.WF) (T : FloatTy) {n : Numeral} (hd : ∀ c ∈ n.digits, IsDigit c) :
    ∃ ec v k, numCore c ct T n = .ok (ec, v) ∧ CodeOut T false (codeValue n) k (coreBits T.fmt false v) ec ∧
      (infIdx T.fmt ≤ k → (ec = .ok ↔ FastPath c T.fmt n)) := by
  obtain ⟨m, hm⟩ : ∃ m : Numeral, m = { n with sign := none } := ⟨_, rfl⟩
  have hcv : codeValue m = codeValue n := by rw [hm]; rfl
  have hmd : m.digits = n.digits := by rw [hm]; rfl
  have hmn : m.neg = false := by rw [hm]; rfl
  have hcore : numCore c ct T n = numCore c ct T m := by rw [hm]; rfl
  by_cases hL : 19 < (dz n.digits).length
  · obtain ⟨k, b, ec, h1, h2, h3⟩ := slow_spec (rest := []) c hw T (n := m) (by rw [hmd]; exact hd) (by rw [hmd]; exact hL)
    rw [numCore_pns] at h1
    obtain ⟨⟨ec', v⟩, e1, e2⟩ := emap_ok h1
    simp only [FloatResult.mk.injEq, true_and, Option.some.injEq] at e2
    rw [hmn] at e2 h2
    refine ⟨ec', v, k, by rw [hcore, e1], ?_, ?_⟩
    · rw [e2.1, e2.2, ← hcv]; exact h2
    · intro hk
      rw [e2.1, h3 hk]
      constructor
      · intro h; cases h
      · rintro ⟨h, _⟩; omega
  · have hlt : dval n.digits < 10 ^ 19 := by
      rw [← dval_dz]
      have := dval_lt (fun c hc => (dz_mem hd) c hc : ∀ c ∈ dz n.digits, IsDig c)
      exact lt_of_lt_of_le this (Nat.pow_le_pow_right (by norm_num) (by omega))
    have hlt64 : dval n.digits < 2 ^ 64 := lt_trans hlt (by norm_num)
    rw [hcore]
    unfold numCore advCore
    have htm : (pnsOf true { m with sign := none } []).tooManyDigits = false := by
      rw [hm]; exact decide_eq_false hL
    have hma : (pnsOf true { m with sign := none } []).mantissa = dval n.digits := by
      rw [hm]; unfold pnsOf pnsGen
      have : Numeral.digits { n with sign := none } = n.digits := rfl
      simp only [this, hL, decide_false, Bool.false_and, Bool.false_eq_true, if_false]
      exact Nat.mod_eq_of_lt hlt64
    have hex : (pnsOf true { m with sign := none } []).exponent = satExp n.exp - ((n.frac.getD []).length : Int) := by
      rw [hm]; unfold pnsOf pnsGen
      have : Numeral.digits { n with sign := none } = n.digits := rfl
      simp only [this, hL, decide_false, Bool.false_and, Bool.false_eq_true, if_false]
    obtain ⟨p, hp⟩ : ∃ p, pnsOf true { m with sign := none } [] = p := ⟨_, rfl⟩
    rw [hp] at htm hma hex ⊢
    rw [htm, hma, hex]
    simp only [Bool.not_false, if_true, Bool.false_and, Bool.false_eq_true, if_false]
    have hxs : scaled T.fmt (dval n.digits) (satExp n.exp - ((n.frac.getD []).length : Int)) = codeValue n * 2 ^ ulpExp T.fmt := rfl
    have hmx : dval n.digits ≠ 0 ↔ codeValue n ≠ 0 := by
      unfold codeValue
      rw [mul_ne_zero_iff, Nat.cast_ne_zero]
      constructor
      · intro h; exact ⟨h, by positivity⟩
      · intro h; exact h.1
    obtain ⟨o, ho, hv⟩ := clinger_spec c T.fast (dval n.digits) (satExp n.exp - ((n.frac.getD []).length : Int)) false
    rw [ho, ok_bind]
    cases o with
    | some v =>
      obtain ⟨k, r1, r2, r3, r4⟩ := hv v rfl
      rw [hxs] at r1
      have hi := infIdx_gt T.good
      refine ⟨.ok, .inl v, k, rfl, ⟨Or.inl r1, fun _ => r1, clinger_tie c ho, r2, Or.inl rfl, (by intro h; cases h), ?_, ?_⟩,
        fun _ => ⟨fun _ => ⟨by omega, v, ho⟩, fun _ => rfl⟩⟩
      · intro h1 h2; exact absurd h2 (r3 (hmx.2 h1))
      · intro hT h; exact absurd (r4 (T.finite hT)) (by omega)
    | none =>
      obtain ⟨am, k, h1, h2, h3, h4⟩ := computeFloat_spec' c T.good (satExp n.exp - ((n.frac.getD []).length : Int)) (dval n.digits) hlt64
      have hp0 : ¬ am.power2 < 0 := by
        rcases h3.2 with ⟨h, _⟩ | ⟨_, h, _⟩ <;> rw [h] <;> exact not_lt.2 (Int.natCast_nonneg _)
      simp only [h1, ok_bind]
      refine ⟨rangeErrc T.fmt (dval n.digits) am, .inr am, k, ?_, codeOut_am (hxs ▸ h2) (fun hT => hxs ▸ Rounded.rn (T.ulpWide hT) hlt64 h2) (few_tie hlt h4) h3 hmx, ?_⟩
      swap
      · intro hk
        rw [rangeErrc_over h3 hk]
        constructor
        · intro h; cases h
        · rintro ⟨_, v, hv⟩; rw [ho] at hv; cases hv
      show (if am.power2 < 0 then _ else _) = _
      rw [if_neg hp0]
      rfl

theorem numCore_spec (c : Cfg) {ct : CharType} (hw : ct.WF) (T : FloatTy) {n : Numeral} (hd : ∀ c ∈ n.digits, IsDigit c) :
    ∃ ec v k, numCore c ct T n = .ok (ec, v) ∧ CodeOut T false (codeValue n) k (coreBits T.fmt false v) ec := by
  obtain ⟨ec, v, k, h1, h2, _⟩ := numCore_spec' c hw T hd
  exact ⟨ec, v, k, h1, h2⟩

/-- Which overflows of binary16 the fast path swallows. -/
theorem fast16_over (c : Cfg) {n : Numeral} (hd : ∀ c ∈ n.digits, IsDigit c) (hov : 65520 ≤ codeValue n) :
    FastPath c binary16 n ↔ c.constEval = false ∧ c.evalMethod.is01 = true ∧ c.mode = .nearest ∧ dval n.digits ≤ 2 ^ 11 ∧
      satExp n.exp - ((n.frac.getD []).length : Int) ≤ 4 := by
  unfold FastPath codeValue at *
  obtain ⟨e, he⟩ : ∃ e, satExp n.exp - ((n.frac.getD []).length : Int) = e := ⟨_, rfl⟩
  rw [he] at hov ⊢
  have hflag : (!c.constEval && roundsToNearest c) = true ↔ c.constEval = false ∧ c.evalMethod.is01 = true ∧ c.mode = .nearest := by
    rw [roundsToNearest_eq]; simp
  have hmax : maxMantissaFastPath binary16 = 2 ^ 11 := by decide
  have hmf : binary16.maxFast = 4 := rfl
  constructor
  · rintro ⟨_, v, hv⟩
    unfold clingerFastPath at hv
    by_cases hr : minExponentFastPath c binary16 ≤ e ∧ e ≤ binary16.maxFast
    swap
    · rw [if_neg hr] at hv; cases hv
    rw [if_pos hr] at hv
    by_cases hf : (!c.constEval && roundsToNearest c) = true
    · rw [if_pos hf, hmax] at hv
      obtain ⟨f1, f2, f3⟩ := hflag.1 hf
      by_cases hm : dval n.digits ≤ 2 ^ 11
      · exact ⟨f1, f2, f3, hm, by rw [hmf] at hr; exact hr.2⟩
      · rw [if_neg hm] at hv; cases hv
    · exfalso
      rw [if_neg hf] at hv
      by_cases he0 : e ≥ 0
      swap
      · rw [if_neg he0] at hv; cases hv
      rw [if_pos he0] at hv
      obtain ⟨k, rfl⟩ := Int.eq_ofNat_of_zero_le he0
      have hk4 : k ≤ 4 := by rw [hmf] at hr; omega
      have hkn : ((k : Int)).toNat = k := by omega
      obtain ⟨mm, tm1, tm2, tm3⟩ := fast16.table k (by have := fast16.maxF; omega)
      have htab : maxMantissaFastPathAt binary16 k = .ok mm := by unfold maxMantissaFastPathAt tableGet; rw [tm1]
      simp only [hkn, htab, ok_bind] at hv
      by_cases hm : dval n.digits ≤ mm
      swap
      · rw [if_neg hm] at hv; cases hv
      have h5 : dval n.digits * 5 ^ k ≤ 2 ^ 11 := le_trans (Nat.mul_le_mul_right _ hm) tm2
      have h2 : 2 ^ k ≤ 2 ^ 4 := Nat.pow_le_pow_right (by norm_num) hk4
      have h3 : dval n.digits * 10 ^ k ≤ 2 ^ 11 * 2 ^ 4 := by
        rw [show (10 : Nat) = 5 * 2 from rfl, Nat.mul_pow, ← mul_assoc]
        exact Nat.mul_le_mul h5 h2
      rw [zpow_natCast] at hov
      have h4 : (65520 : Nat) ≤ dval n.digits * 10 ^ k := by exact_mod_cast hov
      omega
  · rintro ⟨f1, f2, f3, hm, h4⟩
    have hL : (dz n.digits).length ≤ 19 := by
      by_contra hc
      have hdz : ∀ c ∈ dz n.digits, IsDig c := fun c hc => (dz_mem hd) c hc
      have hne : dz n.digits ≠ [] := by intro h; rw [h] at hc; simp at hc
      have := dval_ge hdz hne (dz_idem _)
      rw [dval_dz] at this
      have h19 : (10 : Nat) ^ 19 ≤ 10 ^ ((dz n.digits).length - 1) := Nat.pow_le_pow_right (by norm_num) (by omega)
      have := le_trans h19 this
      norm_num at this
      omega
    have he0 : 0 ≤ e := by
      by_contra hc
      have hz : (10 : ℚ) ^ e ≤ 1 := zpow_le_one_of_nonpos₀ (by norm_num) (by omega)
      have hm' : (dval n.digits : ℚ) ≤ 2048 := by exact_mod_cast hm
      have hz0 : (0 : ℚ) < 10 ^ e := by positivity
      have hd0 : (0 : ℚ) ≤ dval n.digits := by positivity
      nlinarith
    refine ⟨hL, ?_⟩
    obtain ⟨o, ho, _⟩ := clinger_spec c fast16 (dval n.digits) e false
    cases o with
    | some v => exact ⟨v, ho⟩
    | none =>
      exfalso
      unfold clingerFastPath at ho
      have hr : minExponentFastPath c binary16 ≤ e ∧ e ≤ binary16.maxFast := by
        refine ⟨?_, by rw [hmf]; exact h4⟩
        unfold minExponentFastPath
        have : binary16.minFast = 0 := rfl
        split <;> omega
      rw [if_pos hr, if_pos (hflag.2 ⟨f1, f2, f3⟩), hmax, if_pos hm] at ho
      simp only [not_lt.2 he0, if_false] at ho
      cases ht : exactPowerOfTen binary16 e.toNat with
      | error x => rw [ht] at ho; cases ho
      | ok t => rw [ht] at ho; cases ho

/-- The result of a call whose text starts with a numeral. -/
theorem call_number (c : Cfg) {ct : CharType} (hw : ct.WF) (T : FloatTy) {s : List Nat} (opt : Options)
    (hu : ∀ u ∈ s, UnitOK ct u) (hlen : s.length < 2 ^ 62) (hdp : ¬ IsDigit opt.decimalPoint) {n : Numeral} {rest : List Nat}
    (hs : scanNumeral (rules (c.eff opt) opt.decimalPoint) (codeBody ct (c.eff opt) s) = some (n, rest)) :
    fromCharsFloat c ct T.fmt s opt =
      (numCore c ct T n).map (fun y => ⟨s.length - rest.length, y.1, some (coreBits T.fmt n.neg y.2)⟩) := by
  have hut := codeBody_mem (ct := ct) (fmt := c.eff opt) hu
  have hlt : (codeBody ct (c.eff opt) s).length < 2 ^ 62 := lt_of_le_of_lt (codeBody_suffix ct (c.eff opt) s).length_le hlen
  have hwf := (scan_sound hs).1
  have e0 : fromCharsFloat c ct T.fmt s opt = (do
      let r ← fromCharsFloatBody c ct T.fmt (codeBody ct (c.eff opt) s) opt
      pure { off := s.length - r.ptr.length, ec := r.ec, value := r.value }) := by
    unfold fromCharsFloat fromCharsFloatAdvanced
    rw [dropSpaces_eq, ok_bind]
  rw [e0]
  obtain ⟨t, ht⟩ : ∃ t, codeBody ct (c.eff opt) s = t := ⟨_, rfl⟩
  rw [ht] at hut hlt hs ⊢
  have hne : t ≠ [] := by
    rintro rfl
    obtain ⟨pre, d, post, h1, _, _⟩ := numeral_digit hwf
    have h2 := (scan_sound hs).2
    rw [h1] at h2
    simp at h2
  have hP := parse_spec c hw (Fmt.has (c.eff opt) Fmt.basicJson) opt false hne hut hlt hdp
  have hPs := parse_spec c hw (Fmt.has (c.eff opt) Fmt.basicJson) opt true hne hut hlt hdp
  rw [adjust_eq, scanRules_eq] at hP hPs
  have e1 : fromCharsFloatBody c ct T.fmt t opt = (do
      let pns ← parseNumberString c ct (Fmt.has (c.eff opt) Fmt.basicJson) t opt false
      fromCharsFloatParsed c ct T.fmt t opt (c.eff opt) (Fmt.has (c.eff opt) Fmt.basicJson) pns) := by
    cases t with
    | nil => exact absurd rfl hne
    | cons a t =>
      unfold fromCharsFloatBody
      rw [adjust_eq]
  rw [e1, hP.2 n rest hs, ok_bind, parsed_eq_pns c ct T opt hwf.2.1 (hPs.2 n rest hs), numCore_pns, bind_emap]
  cases numCore c ct T n <;> rfl

/-- The same, with the outcome characterised. -/
theorem call_number' (c : Cfg) {ct : CharType} (T : FloatTy) {s : List Nat} (opt : Options) (hin : Input ct s)
    (hdp : ¬ IsDigit opt.decimalPoint) {n : Numeral} {rest : List Nat}
    (hs : scanNumeral (grammar c opt) (textOf c opt s) = some (n, rest)) :
    ∃ ec v k, numCore c ct T n = .ok (ec, v) ∧ CodeOut T false (codeValue n) k (coreBits T.fmt false v) ec ∧
      fromCharsFloat c ct T.fmt s opt = .ok ⟨s.length - rest.length, ec, some (coreBits T.fmt false v + if n.neg then 2 ^ T.fmt.signIdx else 0)⟩ := by
  have hwf := (scan_sound hs).1
  obtain ⟨ec, v, k, h1, h2⟩ := numCore_spec c hin.wf T hwf.2.1
  refine ⟨ec, v, k, h1, h2, ?_⟩
  rw [call_number c hin.wf T opt hin.ok hin.len hdp (by rw [hin.body_eq]; exact hs), h1]
  show Except.ok _ = _
  simp only
  cases hn : n.neg
  · simp
  · simp only [if_true]; rw [advCore_bits h2]

end FastFloat
