import Verif.Props.Cost
import Verif.Props.AnyPoint
/-
# C80: when the arbitrary precision arithmetic is used

`Verif.Model.Cost` counts the work of a call (see C75).  Here: a number of at most nineteen significant digits is read in one pass over the text, and a longer
one only needs the big integers if its first nineteen digits do not settle the result.
-/
set_option linter.unusedSimpArgs false
set_option autoImplicit false
namespace FastFloat
open NumSpec FloatSpec ApiSpec

theorem computeFloat_nonneg {c : Cfg} (T : FloatTy) {q : Int} {w : Nat} {am : AdjustedMantissa} (hw : w < 2 ^ 64) (h : computeFloat c T.fmt q w = .ok am) :
    0 ≤ am.power2 := by
  obtain ⟨am', k, h1, _, h3⟩ := computeFloat_spec c T.good q w hw
  rw [h1] at h
  obtain rfl : am' = am := by injection h
  exact amRep_nonneg h3

/-- A call for a text that holds a number, given the cost of what comes after the scan. -/
theorem float_runs_of {c : Cfg} {ct : CharType} {T : FloatTy} {s : List Nat} {opt : Options} (hin : Input ct s) (hne : textOf c opt s ≠ []) {B : Nat}
    (h : ∀ pns, parseNumberString c ct (Fmt.has (c.eff opt) Fmt.basicJson) (textOf c opt s) opt false = .ok pns →
      TimedRuns (fromCharsFloatParsedT c ct T.fmt (textOf c opt s) opt (c.eff opt) (Fmt.has (c.eff opt) Fmt.basicJson) pns)
        (fromCharsFloatParsed c ct T.fmt (textOf c opt s) opt (c.eff opt) (Fmt.has (c.eff opt) Fmt.basicJson) pns) B (fun _ => True)) :
    TimedRuns (fromCharsFloatT c ct T.fmt s opt) (fromCharsFloat c ct T.fmt s opt) (9 * s.length + 4 + B) (fun _ => True) := by
  unfold fromCharsFloatT fromCharsFloat
  refine TimedRuns.bind (b := 9 * s.length + 4 + B) (Q := fun _ => True) ?_ (b' := 0) (fun _ _ _ => TimedRuns.pure trivial) (by omega)
  unfold fromCharsFloatAdvancedT fromCharsFloatAdvanced
  refine TimedRuns.bind (dropSpacesT_runs c ct s opt) (b' := 8 * s.length + 4 + B) (fun q hq hl => ?_) (by omega)
  rw [dropSpaces_eq, hin.body_eq] at hq
  obtain rfl : textOf c opt s = q := by injection hq
  obtain ⟨t, ht⟩ : ∃ t, textOf c opt s = t := ⟨_, rfl⟩
  rw [ht] at h hne hl ⊢
  cases t with
  | nil => exact absurd rfl hne
  | cons a first =>
    unfold fromCharsFloatBodyT fromCharsFloatBody
    dsimp only
    rw [adjust_eq]
    exact TimedRuns.bind (parseNumberStringT_runs c ct _ (a :: first) opt false) (b' := B) (fun pns hp _ => h pns hp) (by omega)

/-- `from_chars_advanced(parsed_number_string_t&, T&)` without big integers. -/
theorem pns_short_runs (c : Cfg) (ct : CharType) (T : FloatTy) (pns : ParsedNumber) (hm : pns.mantissa < 2 ^ 64) (ht : pns.tooManyDigits = false) :
    TimedRuns (fromCharsAdvancedPnsT c ct T.fmt pns) (fromCharsAdvancedPns c ct T.fmt pns) 0 (fun _ => True) := by
  unfold fromCharsAdvancedPnsT fromCharsAdvancedPns
  refine TimedRuns.ite (fun _ => ?_) (fun _ => ?_) <;>
  · refine TimedRuns.bind (b := 0) (Q := fun _ => True) (TimedRuns.runT _) (b' := 0) (fun fast _ _ => ?_) (by omega)
    cases fast with
    | some v => exact TimedRuns.pure trivial
    | none =>
      dsimp only
      refine TimedRuns.bind (TimedRuns.run (b := 0) (Q := fun am => 0 ≤ am.power2) fun am h => computeFloat_nonneg T hm h)
        (b' := 0) (fun am _ ham => ?_) (by omega)
      refine TimedRuns.ite (fun h => ?_) (fun _ => ?_)
      · rw [ht] at h; simp at h
      · refine TimedRuns.bind (TimedRuns.pure (b := 0) (Q := fun am : AdjustedMantissa => 0 ≤ am.power2) ham) (b' := 0) (fun am _ ham => ?_) (by omega)
        refine TimedRuns.ite (fun h => absurd ham (by omega)) (fun h => ?_)
        exact TimedRuns.bind (TimedRuns.pure (b := 0) (Q := fun _ => True) trivial) (b' := 0) (fun _ _ _ => TimedRuns.pure trivial) (by omega)

theorem greedy_ne_nil {g : Rules} {s : List Nat} {n : Numeral} {rest : List Nat} (h : Greedy g s n rest) : s ≠ [] := by
  rintro rfl
  obtain ⟨pre, d, post, h1, _, _⟩ := numeral_digit h.wf
  have h2 := h.text
  rw [h1] at h2
  simp at h2

/-- What the scan gives for a numeral. -/
theorem greedy_pns {c : Cfg} {ct : CharType} {s : List Nat} {opt : Options} (hin : Input ct s) {n : Numeral} {rest : List Nat}
    (hg : Greedy (grammar c opt) (textOf c opt s) n rest) (store : Bool) :
    parseNumberString c ct (Fmt.has (c.eff opt) Fmt.basicJson) (textOf c opt s) opt store =
      .ok (pnsGen (manyTest opt.decimalPoint n (refSign (grammar c opt) (textOf c opt s)).2) store n rest) := by
  have hut := codeBody_mem (ct := ct) (fmt := c.eff opt) hin.ok
  have hlt : (codeBody ct (c.eff opt) s).length < 2 ^ 62 := lt_of_le_of_lt (codeBody_suffix ct (c.eff opt) s).length_le hin.len
  rw [hin.body_eq] at hut hlt
  have hP := parse_spec_gen c hin.wf (Fmt.has (c.eff opt) Fmt.basicJson) opt store (greedy_ne_nil hg) hut hlt
  rw [adjust_eq, scanRules_eq] at hP
  exact (hP.2 n rest (greedy_scan hg)).1

theorem short_parsed_runs {c : Cfg} {ct : CharType} {T : FloatTy} {s : List Nat} {opt : Options} (hin : Input ct s) {n : Numeral} {rest : List Nat}
    (hg : Greedy (grammar c opt) (textOf c opt s) n rest) (hM : manyTest opt.decimalPoint n (refSign (grammar c opt) (textOf c opt s)).2 = false) {pns : ParsedNumber}
    (hp : parseNumberString c ct (Fmt.has (c.eff opt) Fmt.basicJson) (textOf c opt s) opt false = .ok pns) :
    TimedRuns (fromCharsFloatParsedT c ct T.fmt (textOf c opt s) opt (c.eff opt) (Fmt.has (c.eff opt) Fmt.basicJson) pns)
        (fromCharsFloatParsed c ct T.fmt (textOf c opt s) opt (c.eff opt) (Fmt.has (c.eff opt) Fmt.basicJson) pns) 0 (fun _ => True) := by
  rw [greedy_pns hin hg, hM] at hp
  obtain ⟨p, hpp⟩ : ∃ p, pnsGen false false n rest = p := ⟨_, rfl⟩
  have q1 : p.mantissa = digitsVal n.digits % 2 ^ 64 := by rw [← hpp]; rfl
  have q5 : p.valid = true := by rw [← hpp]; rfl
  have q6 : p.tooManyDigits = false := by rw [← hpp]; rfl
  have q7 : p.mantissa < 2 ^ 64 := by rw [q1]; exact Nat.mod_lt _ (by norm_num)
  rw [hpp] at hp
  obtain rfl : p = pns := by injection hp
  unfold fromCharsFloatParsedT fromCharsFloatParsed
  refine TimedRuns.ite (fun h => ?_) (fun _ => TimedRuns.ite (fun h => ?_) (fun _ => ?_))
  · rw [q5] at h; simp at h
  · rw [q6] at h; simp at h
  · refine TimedRuns.bind (TimedRuns.runT _ (b := 0)) (b' := 0) (fun fast _ _ => ?_) (by omega)
    cases fast with
    | some v => exact TimedRuns.pure trivial
    | none =>
      dsimp only
      refine TimedRuns.bind (TimedRuns.run (b := 0) (Q := fun am => 0 ≤ am.power2) fun am h => computeFloat_nonneg T q7 h)
        (b' := 0) (fun am _ ham => ?_) (by omega)
      exact TimedRuns.ite (fun h => absurd ham (by omega)) (fun _ => TimedRuns.pure trivial)

/-- **C80**: a number of at most nineteen significant digits - not counting leading zeros - is read in one pass over the text, without any arbitrary precision
arithmetic: at most `9 n + 4` steps for a text of `n` units. -/
theorem C80_short (c : Cfg) {ct : CharType} (T : FloatTy) {s : List Nat} (opt : Options) (hin : Input ct s) {n : Numeral} {rest : List Nat}
    (hg : Greedy (grammar c opt) (textOf c opt s) n rest) (h19 : (significant n.digits).length ≤ 19) :
    (fromCharsFloatT c ct T.fmt s opt).out = fromCharsFloat c ct T.fmt s opt ∧ (fromCharsFloatT c ct T.fmt s opt).steps ≤ 9 * s.length + 4 := by
  have r := float_runs_of (T := T) hin (greedy_ne_nil hg) (B := 0) ?_
  · exact ⟨r.out, r.steps⟩
  · intro pns hp
    have hM : manyTest opt.decimalPoint n (refSign (grammar c opt) (textOf c opt s)).2 = false := by
      rw [Bool.eq_false_iff]
      intro h
      have := ((many_iff hg).1 h).1
      omega
    exact short_parsed_runs hin hg hM hp

/-- **C80**: rounding a significand and an exponent supplied by the caller, or by a scan, takes no step at all if `too_many_digits` is not set. -/
theorem C80_parsed (c : Cfg) (ct : CharType) (T : FloatTy) (p : ParsedNumber) (hm : p.mantissa < 2 ^ 64) (ht : p.tooManyDigits = false) :
    (fromCharsAdvancedPnsT c ct T.fmt p).out = fromCharsAdvancedPns c ct T.fmt p ∧ (fromCharsAdvancedPnsT c ct T.fmt p).steps = 0 :=
  have r := pns_short_runs c ct T p hm ht
  ⟨r.out, Nat.le_zero.1 r.steps⟩

theorem amRep_eq {F : BinFmt} {am am' : AdjustedMantissa} {n : Nat} (h : AmRep F am n) (h' : AmRep F am' n) (hn : n ≠ 2 ^ F.mb) : am = am' := by
  obtain ⟨_, ⟨a1, a2⟩ | ⟨a, _⟩⟩ := h
  · obtain ⟨_, ⟨b1, b2⟩ | ⟨b, _⟩⟩ := h'
    · obtain ⟨m, p⟩ := am
      obtain ⟨m', p'⟩ := am'
      simp only at a1 a2 b1 b2
      rw [a1, a2, b1, b2]
    · exact absurd b hn
  · exact absurd a hn

theorem computeFloat_of_rounds {c : Cfg} (T : FloatTy) (hT : T ≠ .float16) {q : Int} {w b : Nat} (hw : w < 2 ^ 64) (h : T.spec.RoundsTo ((w : ℚ) * 10 ^ q) b) :
    ∃ am, computeFloat c T.fmt q w = .ok am ∧ AmRep T.fmt am b := by
  obtain ⟨am, n, h1, h2, h3⟩ := computeFloat_spec c T.good q w hw
  refine ⟨am, h1, ?_⟩
  have h4 := roundsTo_of_RN T.fmatch (Rounded.rn (T.ulpWide hT) hw h2)
  have h5 : min n (infIdx T.fmt) = b := by
    have := roundsToBits_unique T (neg := false) ⟨_, h4, rfl⟩ ⟨_, h, rfl⟩
    omega
  rw [← h5]; exact h3

/-- `from_chars_advanced(parsed_number_string_t&, T&)` where nineteen digits settle the result. -/
theorem pns_settled_runs (c : Cfg) (ct : CharType) (T : FloatTy) (hT : T ≠ .float16) (pns : ParsedNumber) (hm : pns.mantissa + 1 < 2 ^ 64) {b : Nat}
    (h1 : T.spec.RoundsTo ((pns.mantissa : ℚ) * 10 ^ pns.exponent) b) (h2 : T.spec.RoundsTo (((pns.mantissa + 1 : Nat) : ℚ) * 10 ^ pns.exponent) b)
    (hb : b ≠ 2 ^ T.fmt.mb) :
    TimedRuns (fromCharsAdvancedPnsT c ct T.fmt pns) (fromCharsAdvancedPns c ct T.fmt pns) 0 (fun _ => True) := by
  obtain ⟨am, e1, r1⟩ := computeFloat_of_rounds (c := c) T hT (by omega) h1
  obtain ⟨am', e2, r2⟩ := computeFloat_of_rounds (c := c) T hT (by omega) h2
  obtain rfl := amRep_eq r1 r2 hb
  have hp := amRep_nonneg r1
  have hmod : (pns.mantissa + 1) % 2 ^ 64 = pns.mantissa + 1 := Nat.mod_eq_of_lt hm
  have slow : TimedRuns (if am.power2 < 0 then digitCompT c ct T.fmt pns am >>= fun am => (Pure.pure (⟨pns.lastmatch, rangeErrc T.fmt pns.mantissa am, some (toFloat T.fmt pns.negative am)⟩ : FloatResult) : Timed FloatResult)
        else Pure.pure am >>= fun am => (Pure.pure (⟨pns.lastmatch, rangeErrc T.fmt pns.mantissa am, some (toFloat T.fmt pns.negative am)⟩ : FloatResult) : Timed FloatResult))
        (if am.power2 < 0 then digitComp c ct T.fmt pns am >>= fun am => (Pure.pure (⟨pns.lastmatch, rangeErrc T.fmt pns.mantissa am, some (toFloat T.fmt pns.negative am)⟩ : FloatResult) : Exec FloatResult)
        else Pure.pure am >>= fun am => (Pure.pure (⟨pns.lastmatch, rangeErrc T.fmt pns.mantissa am, some (toFloat T.fmt pns.negative am)⟩ : FloatResult) : Exec FloatResult)) 0 (fun _ => True) := by
    refine TimedRuns.ite (fun h => absurd hp (by omega)) (fun h => ?_)
    exact TimedRuns.bind (TimedRuns.pure (b := 0) (Q := fun _ => True) trivial) (b' := 0) (fun _ _ _ => TimedRuns.pure trivial) (by omega)
  unfold fromCharsAdvancedPnsT fromCharsAdvancedPns
  refine TimedRuns.ite (fun _ => ?_) (fun _ => ?_) <;>
  · refine TimedRuns.bind (b := 0) (Q := fun _ => True) (TimedRuns.runT _) (b' := 0) (fun fast _ _ => ?_) (by omega)
    cases fast with
    | some v => exact TimedRuns.pure trivial
    | none =>
      dsimp only
      refine TimedRuns.bind (TimedRuns.run (b := 0) (Q := fun a => a = am) fun a h => by rw [e1] at h; injection h with h; exact h.symm)
        (b' := 0) (fun a _ ha => ?_) (by omega)
      subst ha
      refine TimedRuns.ite (fun _ => ?_) (fun _ => ?_)
      · refine TimedRuns.bind (TimedRuns.run (b := 0) (Q := fun x => x = a) fun x h => by rw [hmod, e2] at h; injection h with h; exact h.symm)
          (b' := 0) (fun a' _ ha' => ?_) (by omega)
        subst ha'
        refine TimedRuns.ite (fun h => absurd rfl h) (fun _ => ?_)
        exact TimedRuns.bind (TimedRuns.pure (b := 0) (Q := fun x => x = a') rfl) (b' := 0) (fun x _ hx => by subst hx; exact slow) (by omega)
      · exact TimedRuns.bind (TimedRuns.pure (b := 0) (Q := fun x => x = a) rfl) (b' := 0) (fun x _ hx => by subst hx; exact slow) (by omega)

/-- **C80**: a longer number does without the big integers, too, if its first nineteen significant digits settle the result: let `w` be the number they write and
`10^e` the weight of the last of them; if `w * 10^e` and `(w + 1) * 10^e` are rounded to the same float, other than the smallest normal one, the call takes at
most `17 n + 8` steps (the text is scanned twice). -/
theorem C80_settled (c : Cfg) {ct : CharType} (T : FloatTy) (hT : T ≠ .float16) {s : List Nat} (opt : Options) (hin : Input ct s) {n : Numeral} {rest : List Nat}
    (hg : Greedy (grammar c opt) (textOf c opt s) n rest) {w b : Nat} {e : Int} (hw : w = digitsVal ((significant n.digits).take 19))
    (he : e = n.clip.expVal - ((n.frac.getD []).length : Int) + (significant n.digits).length - 19)
    (h1 : T.spec.RoundsTo ((w : ℚ) * 10 ^ e) b) (h2 : T.spec.RoundsTo (((w + 1 : Nat) : ℚ) * 10 ^ e) b) (hb : b ≠ 2 ^ T.spec.fracBits) :
    (fromCharsFloatT c ct T.fmt s opt).out = fromCharsFloat c ct T.fmt s opt ∧ (fromCharsFloatT c ct T.fmt s opt).steps ≤ 17 * s.length + 8 := by
  by_cases hM : manyTest opt.decimalPoint n (refSign (grammar c opt) (textOf c opt s)).2 = true
  swap
  · have r := float_runs_of (T := T) hin (greedy_ne_nil hg) (B := 0) ?_
    · exact ⟨r.out, r.steps.trans (by omega)⟩
    · intro pns hp
      exact short_parsed_runs hin hg (by simpa using hM) hp
  have hlen : (textOf c opt s).length ≤ s.length := by
    rw [← hin.body_eq c opt]; exact (codeBody_suffix ct (c.eff opt) s).length_le
  have r := float_runs_of (T := T) hin (greedy_ne_nil hg) (B := 8 * s.length + 4) ?_
  · exact ⟨r.out, r.steps.trans (by omega)⟩
  intro pns hp
  rw [greedy_pns hin hg, hM] at hp
  obtain ⟨p, hpp⟩ : ∃ p, pnsGen true false n rest = p := ⟨_, rfl⟩
  have q5 : p.valid = true := by rw [← hpp]; rfl
  have q6 : p.tooManyDigits = true := by rw [← hpp]; rfl
  rw [hpp] at hp
  obtain rfl : p = pns := by injection hp
  unfold fromCharsFloatParsedT fromCharsFloatParsed
  refine TimedRuns.ite (fun h => ?_) (fun _ => TimedRuns.ite (fun _ => ?_) (fun h => absurd q6 h))
  · rw [q5] at h; simp at h
  unfold parseNumberSlowPathT parseNumberSlowPath
  refine TimedRuns.bind (parseNumberStringT_runs c ct _ (textOf c opt s) opt true) (b' := 0) (fun pns hp' _ => ?_) (by omega)
  rw [greedy_pns hin hg, hM] at hp'
  obtain ⟨p', hpp'⟩ : ∃ p', pnsGen true true n rest = p' := ⟨_, rfl⟩
  have m1 : p'.mantissa = w := by rw [← hpp', hw]; rfl
  have m2 : p'.exponent = e := by rw [← hpp', he, clip_expVal]; rfl
  rw [hpp'] at hp'
  obtain rfl : p' = pns := by injection hp'
  have hwl : w < 10 ^ 19 := by
    rw [hw]
    have hd : ∀ d ∈ (significant n.digits).take 19, IsDig d := fun d hd => dz_mem hg.wf.2.1 d (List.mem_of_mem_take hd)
    have h3 := dval_lt hd
    have h4 : ((significant n.digits).take 19).length ≤ 19 := by simp
    exact lt_of_lt_of_le h3 (Nat.pow_le_pow_right (by norm_num) h4)
  have hmb : T.spec.fracBits = T.fmt.mb := by cases T <;> rfl
  refine pns_settled_runs c ct T hT p' (by rw [m1]; have : (10:Nat) ^ 19 + 1 < 2 ^ 64 := by norm_num
                                           omega) (b := b) (by rw [m1, m2]; exact h1) (by rw [m1, m2]; exact h2) (by rw [← hmb]; exact hb)

/-! ### Samples -/

/-- "0.000001234567890123456789" has nineteen significant digits. -/
example : (fromCharsFloatT Cfg.x64 CharType.char FloatTy.double.fmt ("0.000001234567890123456789".toList.map Char.toNat) {}).steps ≤ 9 * 26 + 4 :=
  (C80_short Cfg.x64 .double (ct := .char) (s := "0.000001234567890123456789".toList.map Char.toNat) {} (input_of_bytes (by decide) (by decide))
    (n := ⟨none, [48], some ("000001234567890123456789".toList.map Char.toNat), none⟩) (rest := []) (scan_greedy (by decide +kernel)) (by decide)).2

theorem rounds_of_computeFloat {c : Cfg} (T : FloatTy) (hT : T ≠ .float16) {q : Int} {w b : Nat} (hw : w < 2 ^ 64) {am : AdjustedMantissa}
    (h : computeFloat c T.fmt q w = .ok am) (hr : AmRep T.fmt am b) : T.spec.RoundsTo ((w : ℚ) * 10 ^ q) b := by
  obtain ⟨am', n, h1, h2, h3⟩ := computeFloat_spec c T.good q w hw
  rw [h1] at h
  obtain rfl : am' = am := by injection h
  have h4 := roundsTo_of_RN T.fmatch (Rounded.rn (T.ulpWide hT) hw h2)
  rwa [AmRep.unique h3 hr] at h4

/-- "3.14159265358979323846264338327950288": 36 digits, and nineteen of them settle the double. -/
example : (fromCharsFloatT Cfg.x64 CharType.char FloatTy.double.fmt ("3.14159265358979323846264338327950288".toList.map Char.toNat) {}).steps ≤ 17 * 37 + 8 := by
  have r (w : Nat) (hw : w < 2 ^ 64) (hw' : computeFloat Cfg.x64 FloatTy.double.fmt (-18) w = .ok ⟨0x921fb54442d18, 1024⟩) :
      FloatTy.double.spec.RoundsTo ((w : ℚ) * 10 ^ (-18 : Int)) 0x400921fb54442d18 :=
    rounds_of_computeFloat .double (by decide) hw hw' ⟨by decide +kernel, Or.inl ⟨by decide +kernel, by decide +kernel⟩⟩
  exact (C80_settled Cfg.x64 .double (by decide) (ct := .char) (s := "3.14159265358979323846264338327950288".toList.map Char.toNat) {}
    (input_of_bytes (by decide) (by decide)) (n := ⟨none, [51], some ("14159265358979323846264338327950288".toList.map Char.toNat), none⟩) (rest := [])
    (scan_greedy (by decide +kernel)) (w := 3141592653589793238) (e := -18) (b := 0x400921fb54442d18) (by decide +kernel) (by decide +kernel)
    (r _ (by norm_num) (by decide +kernel)) (r _ (by norm_num) (by decide +kernel)) (by decide +kernel)).2


end FastFloat
