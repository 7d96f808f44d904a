import Verif.Spec.AnyPoint
import Verif.Props.Total
import Verif.Props.Pns
/-
# C74: the complete specification for every options value, whatever the decimal point
-/
set_option linter.unusedSimpArgs false
set_option autoImplicit false
namespace FastFloat
open NumSpec FloatSpec ApiSpec

/-! ### The scanner reads greedily -/

theorem greedy_refSign {g : Rules} {s : List Nat} {n : Numeral} {rest : List Nat} (h : Greedy g s n rest) :
    refSign g s = (n.sign, n.int ++ (Numeral.fracText g.point n.frac ++ Numeral.expText n.exp ++ rest)) := by
  have ht : s = n.sign.toList ++ (n.int ++ (Numeral.fracText g.point n.frac ++ Numeral.expText n.exp ++ rest)) := by
    rw [h.text]; simp [Numeral.text]
  rcases h.wf.1 with hs | hs | ⟨hs, hpl, hj⟩
  · have h1 := h.sign hs
    rw [hs] at ht ⊢
    rw [Option.toList_none, List.nil_append] at ht
    rw [← ht]
    have e1 : headIs s 45 = false := by
      cases hh : headIs s 45 with
      | false => rfl
      | true => obtain ⟨t, ht'⟩ := headIs_iff.1 hh; exact absurd ht' (h1 t).1
    unfold refSign
    rw [e1]
    cases hh : headIs s 43 with
    | false => simp
    | true =>
      obtain ⟨t, ht'⟩ := headIs_iff.1 hh
      have h2 := (h1 t).2
      cases hp : g.plus <;> cases hj : g.json <;> simp [hp, hj] at h2 ⊢
      exact absurd ht' h2
  · rw [hs] at ht ⊢; rw [ht]; simp [refSign, headIs]
  · rw [hs] at ht ⊢; rw [ht]; simp [refSign, headIs, hpl, hj]

theorem refExp_some {g : Rules} {e : Exponent} (h : e.WF g) {rest : List Nat} (hr : NoDigit rest) :
    refExp g (e.text ++ rest) = some (some e, rest) := by
  obtain ⟨ds, r, h1, h2⟩ := refExp_of h rest
  have hds : ds = [] := by
    cases ds with
    | nil => rfl
    | cons a ds =>
      exfalso
      have h3 := refExp_WF h1
      have h4 : IsDigit a := h3.2.1 a (by simp)
      exact hr a (ds ++ r) h2 h4
  subst hds
  rw [h1]
  simp only [List.append_nil, List.nil_append] at h2 ⊢
  rw [h2]

theorem greedy_scan {g : Rules} {s : List Nat} {n : Numeral} {rest : List Nat} (h : Greedy g s n rest) : scanNumeral g s = some (n, rest) := by
  have hint : ∀ c ∈ n.int, IsDigit c := fun c hc => h.wf.2.1 c (by simp [Numeral.digits, hc])
  have hfr : ∀ c ∈ n.frac.getD [], IsDigit c := fun c hc => h.wf.2.1 c (by simp [Numeral.digits, hc])
  obtain ⟨r1, r2⟩ := run_digits_append (s := Numeral.fracText g.point n.frac ++ Numeral.expText n.exp ++ rest) hint
  obtain ⟨r3, r4⟩ := run_of_noDigit h.int
  have hF : refFrac g (Numeral.fracText g.point n.frac ++ Numeral.expText n.exp ++ rest) = (n.frac, Numeral.expText n.exp ++ rest) := by
    cases hf : n.frac with
    | none =>
      have h1 := h.point hf
      simp only [fracText_none, List.nil_append]
      unfold refFrac
      rw [if_neg]
      intro hh
      obtain ⟨t, ht⟩ := headIs_iff.1 hh
      exact h1 t ht
    | some ds =>
      rw [hf] at hfr
      obtain ⟨q1, q2⟩ := run_digits_append (s := Numeral.expText n.exp ++ rest) (show ∀ c ∈ ds, IsDigit c from hfr)
      obtain ⟨q3, q4⟩ := run_of_noDigit h.frac
      simp only [fracText_some, List.cons_append, List.append_assoc]
      unfold refFrac
      rw [if_pos (by simp [headIs])]
      simp only [List.drop_succ_cons, List.drop_zero]
      rw [q1, q2, q3, q4, List.append_nil]
  have hE : refExp g (Numeral.expText n.exp ++ rest) = some (n.exp, rest) := by
    have hw := h.wf.2.2.2
    cases he : n.exp with
    | none =>
      rw [he] at hw
      exact refExp_none_iff hw (h.exp he) (h.noBeginning he)
    | some e =>
      rw [he] at hw
      exact refExp_some hw h.expDigits
  have hM : mantOK g n.int n.frac = true := by
    have := h.wf.2.2.1
    unfold mantOK
    cases hj : g.json with
    | true =>
      rw [hj] at this
      simp only [if_true] at this
      obtain ⟨a, b, d⟩ := this
      have e1 : n.int.isEmpty = false := by simpa using a
      have e2 : (headIs n.int 48 && decide (n.int.length > 1)) = false := by
        cases hh : headIs n.int 48 with
        | false => rfl
        | true =>
          obtain ⟨t, ht⟩ := headIs_iff.1 hh
          rw [ht, b t ht]; simp
      have e3 : (n.frac == some []) = false := by
        cases hf : n.frac with
        | none => rfl
        | some ds => cases ds with
          | nil => exact absurd hf d
          | cons a ds => rfl
      rw [if_pos rfl, e1, e2, e3]; rfl
    | false =>
      rw [hj] at this
      simp only [Bool.false_eq_true, if_false] at this ⊢
      have e1 : (n.int ++ n.frac.getD []).isEmpty = false := by
        rw [List.isEmpty_eq_false_iff]; exact this
      rw [e1]; rfl
  unfold scanNumeral
  simp only [greedy_refSign h]
  rw [r1, r2, r3, r4, List.append_nil, hF]
  simp only [hM, if_true, hE]

theorem scan_greedy {g : Rules} {s : List Nat} {n : Numeral} {rest : List Nat} (h : scanNumeral g s = some (n, rest)) :
    Greedy g s n rest := by
  have hmu := scan_munch h
  unfold scanNumeral at h
  simp only at h
  split at h
  swap
  · cases h
  split at h
  · cases h
  rename_i e r he
  simp only [Option.some.injEq, Prod.mk.injEq] at h
  obtain ⟨h3, rfl⟩ := h
  have hsg : n.sign = (refSign g s).1 := by rw [← h3]
  have hf : n.frac = (refFrac g (afterRun (refSign g s).2)).1 := by rw [← h3]
  have hx : n.exp = e := by rw [← h3]
  have ha1 := refFrac_append g (afterRun (refSign g s).2)
  have ha2 := refExp_append he
  rw [← hf] at ha1
  rw [← hx] at ha2
  refine ⟨hmu.wf, hmu.text, ?_, ?_, ?_, ?_, hmu.noExponent, hmu.noDigit, hmu.noBeginning⟩
  · intro hn t
    rw [hsg] at hn
    unfold refSign at hn
    constructor
    · rintro rfl; simp [headIs] at hn
    · rintro hp hj rfl; simp [headIs, hp, hj] at hn
  · rw [List.append_assoc, ha2, ha1]
    exact afterRun_noDigit _
  · intro hfn t
    rw [ha2]
    rw [hf] at hfn
    unfold refFrac at hfn ⊢
    split at hfn
    · cases hfn
    · rename_i hh
      rw [if_neg hh]
      intro ht
      exact hh (headIs_iff.2 ⟨t, ht⟩)
  · rw [ha2]
    exact refFrac_noDigit (afterRun_noDigit _)

/-- For every grammar, also one with an ambiguous point. -/
theorem scan_iff_greedy {g : Rules} {s : List Nat} {n : Numeral} {rest : List Nat} :
    scanNumeral g s = some (n, rest) ↔ Greedy g s n rest := ⟨scan_greedy, greedy_scan⟩

/-! ### The digit count with a digit as the point -/

theorem dz_significant (ds : List Nat) : significant ds = dz ds := rfl

theorem lzr_takeWhile (dp : Nat) : ∀ (l r : List Nat), (∀ c ∈ l, IsDigit c) → NoDigit r → IsDigit dp →
    leadingZeroRun dp (l ++ r) = ((l.takeWhile (fun u => u == 48 || u == dp)).filter (· == 48)).length := by
  intro l
  induction l with
  | nil =>
    intro r _ hr hdp
    cases r with
    | nil => rfl
    | cons a r =>
      have ha := hr a r rfl
      have h1 : a ≠ 48 := by rintro rfl; exact ha (by unfold IsDigit; omega)
      have h2 : a ≠ dp := by rintro rfl; exact ha hdp
      simp [leadingZeroRun, ch0, h1, h2]
  | cons a l ih =>
    intro r hl hr hdp
    have ih := ih r (fun c hc => hl c (by simp [hc])) hr hdp
    rw [List.cons_append]
    unfold leadingZeroRun
    by_cases h1 : a = 48
    · subst h1
      rw [ih]
      simp [ch0]
      omega
    · by_cases h2 : a = dp
      · subst h2
        rw [ih]
        simp [ch0, h1]
      · simp [ch0, h1, h2]

theorem counted_nodigit {point : Nat} (hp : ¬ IsDigit point) {ds : List Nat} (hd : ∀ c ∈ ds, IsDigit c) : counted point ds = (significant ds).length := by
  have h1 : ds.takeWhile (fun u => u == 48 || u == point) = ds.takeWhile (fun u => u == 48) := by
    induction ds with
    | nil => rfl
    | cons a ds ih =>
      have ha := hd a (by simp)
      have : a ≠ point := by rintro rfl; exact hp ha
      have e1 : (a == point) = false := by simp [this]
      rw [List.takeWhile_cons, List.takeWhile_cons, ih (fun c hc => hd c (by simp [hc])), e1, Bool.or_false]
  have h2 : (ds.takeWhile (fun u => u == 48)).filter (· == 48) = ds.takeWhile (fun u => u == 48) := by
    rw [List.filter_eq_self]
    intro u hu
    exact List.mem_takeWhile_imp (p := fun u => u == 48) hu
  have h3 := congrArg List.length (List.takeWhile_append_dropWhile (p := fun u => u == 48) (l := ds))
  rw [List.length_append] at h3
  unfold counted significant
  rw [h1, h2]
  omega

/-- With a point that is not a digit no digits are miscounted. -/
theorem not_miscounted {g : Rules} {n : Numeral} (hn : n.WF g) {point : Nat} (hp : ¬ IsDigit point) : ¬ Miscounted point n := by
  rintro ⟨h1, h2⟩
  rw [counted_nodigit hp hn.2.1] at h2
  omega

theorem many_counted {dp : Nat} (hdp : IsDigit dp) {n : Numeral} {r : List Nat} (hd : ∀ c ∈ n.int, IsDigit c) (hf : n.frac = none) (hr : NoDigit r) :
    manyTest dp n (n.int ++ r) = decide (19 < counted dp n.digits) := by
  have h1 := lzr_takeWhile dp n.int r hd hr hdp
  have h2 : ((n.int.takeWhile (fun u => u == 48 || u == dp)).filter (· == 48)).length ≤ n.int.length :=
    le_trans (List.length_filter_le _ _) (List.takeWhile_prefix _).length_le
  unfold manyTest counted Numeral.digits
  rw [hf, h1]
  simp only [Option.getD_none, List.append_nil, List.length_nil]
  generalize ((n.int.takeWhile (fun u => u == 48 || u == dp)).filter (· == 48)).length = z at h2 ⊢
  rw [Bool.eq_iff_iff, Bool.and_eq_true, decide_eq_true_iff, decide_eq_true_iff, decide_eq_true_iff]
  constructor
  · rintro ⟨a, b⟩
    rw [if_pos a] at b
    omega
  · intro a
    have : (n.int.length : Int) + ((0 : Nat) : Int) > 19 := by omega
    refine ⟨this, ?_⟩
    rw [if_pos this]
    omega

theorem greedy_digit_point {g : Rules} (hdp : IsDigit g.point) {s : List Nat} {n : Numeral} {rest : List Nat} (h : Greedy g s n rest) : n.frac = none := by
  cases hf : n.frac with
  | none => rfl
  | some ds =>
    exfalso
    have := h.int
    rw [hf] at this
    exact this g.point (ds ++ Numeral.expText n.exp ++ rest) (by simp) hdp

/-- The digit test of the code, for every point. -/
theorem many_iff {g : Rules} {s : List Nat} {n : Numeral} {rest : List Nat} (h : Greedy g s n rest) :
    manyTest g.point n (refSign g s).2 = true ↔ 19 < (significant n.digits).length ∧ ¬ Miscounted g.point n := by
  have hd := h.wf.2.1
  rw [greedy_refSign h]
  by_cases hdp : IsDigit g.point
  · have hf := greedy_digit_point hdp h
    rw [many_counted hdp (fun c hc => hd c (by simp [Numeral.digits, hc])) hf h.int, decide_eq_true_iff]
    unfold Miscounted
    constructor
    · intro h1
      refine ⟨?_, fun h2 => by omega⟩
      have h3 := lzr_takeWhile g.point n.int (Numeral.fracText g.point n.frac ++ Numeral.expText n.exp ++ rest)
        (fun c hc => hd c (by simp [Numeral.digits, hc])) h.int hdp
      have h4 := leadingZeroRun_ge g.point n.int (Numeral.fracText g.point n.frac ++ Numeral.expText n.exp ++ rest)
      have h5 : n.digits = n.int := by simp [Numeral.digits, hf]
      have h6 : (dz n.int).length ≤ n.int.length := (List.dropWhile_suffix _).length_le
      unfold counted at h1
      rw [h5] at h1 ⊢
      rw [dz_significant]
      omega
    · rintro ⟨h1, h2⟩
      by_contra h3
      exact h2 ⟨h1, by omega⟩
  · have e := manyTest_eq (rest := Numeral.expText n.exp ++ rest) hdp hd
    rw [← List.append_assoc (Numeral.fracText g.point n.frac)] at e
    rw [e, decide_eq_true_iff, dz_significant]
    exact ⟨fun h1 => ⟨h1, not_miscounted h.wf hdp⟩, fun h1 => h1.1⟩

/-! ### Calls -/

/-- The result of a call whose text starts with a numeral whose digits are counted correctly. -/
theorem call_number_any (c : Cfg) {ct : CharType} (T : FloatTy) {s : List Nat} (opt : Options) (hin : Input ct s) {n : Numeral} {rest : List Nat}
    (hs : Greedy (grammar c opt) (textOf c opt s) n rest) (hmc : ¬ Miscounted opt.decimalPoint n) :
    fromCharsFloat c ct T.fmt s opt =
      (numCore c ct T n).map (fun y => ⟨s.length - rest.length, y.1, some (coreBits T.fmt n.neg y.2)⟩) := by
  have hsc := greedy_scan hs
  have hwf := hs.wf
  have e0 : fromCharsFloat c ct T.fmt s opt = (do
      let r ← fromCharsFloatBody c ct T.fmt (codeBody ct (c.eff opt) s) opt
      pure { off := s.length - r.ptr.length, ec := r.ec, value := r.value }) := by
    unfold fromCharsFloat fromCharsFloatAdvanced
    rw [dropSpaces_eq, ok_bind]
  rw [e0]
  have hut := codeBody_mem (ct := ct) (fmt := c.eff opt) hin.ok
  have hlt : (codeBody ct (c.eff opt) s).length < 2 ^ 62 := lt_of_le_of_lt (codeBody_suffix ct (c.eff opt) s).length_le hin.len
  rw [hin.body_eq] at hut hlt ⊢
  obtain ⟨t, ht⟩ : ∃ t, textOf c opt s = t := ⟨_, rfl⟩
  rw [ht] at hut hlt hs hsc ⊢
  have hne : t ≠ [] := by
    rintro rfl
    obtain ⟨pre, d, post, h1, _, _⟩ := numeral_digit hwf
    have h2 := hs.text
    rw [h1] at h2
    simp at h2
  have hP := parse_spec_gen c hin.wf (Fmt.has (c.eff opt) Fmt.basicJson) opt false hne hut hlt
  have hPs := parse_spec_gen c hin.wf (Fmt.has (c.eff opt) Fmt.basicJson) opt true hne hut hlt
  rw [adjust_eq, scanRules_eq] at hP hPs
  have e1 : fromCharsFloatBody c ct T.fmt t opt = (do
      let pns ← parseNumberString c ct (Fmt.has (c.eff opt) Fmt.basicJson) t opt false
      fromCharsFloatParsed c ct T.fmt t opt (c.eff opt) (Fmt.has (c.eff opt) Fmt.basicJson) pns) := by
    cases t with
    | nil => exact absurd rfl hne
    | cons a t =>
      unfold fromCharsFloatBody
      rw [adjust_eq]
  have hM : manyTest opt.decimalPoint n (refSign (rules (c.eff opt) opt.decimalPoint) t).2 = decide ((dz n.digits).length > 19) := by
    have := many_iff hs
    rw [dz_significant] at this
    rw [Bool.eq_iff_iff, decide_eq_true_iff]
    exact this.trans ⟨fun h => h.1, fun h => ⟨h, hmc⟩⟩
  have p1 := (hP.2 n rest hsc).1
  have p2 := (hPs.2 n rest hsc).1
  rw [hM] at p1 p2
  have p1 : parseNumberString c ct (Fmt.has (c.eff opt) Fmt.basicJson) t opt false = .ok (pnsOf false n rest) := p1
  have p2 : parseNumberString c ct (Fmt.has (c.eff opt) Fmt.basicJson) t opt true = .ok (pnsOf true n rest) := p2
  rw [e1, p1, ok_bind, parsed_eq_pns c ct T opt hwf.2.1 p2, numCore_pns, bind_emap]
  cases numCore c ct T n <;> rfl

/-- What the code works out for a numeral whose digits are counted correctly. -/
theorem call_codeOut {c : Cfg} {ct : CharType} {T : FloatTy} {s : List Nat} {opt : Options} (hin : Input ct s) {n : Numeral} {rest : List Nat}
    (hs : Greedy (grammar c opt) (textOf c opt s) n rest) (hmc : ¬ Miscounted opt.decimalPoint n) :
    ∃ k b ec, fromCharsFloat c ct T.fmt s opt = .ok ⟨s.length - rest.length, ec, some b⟩ ∧ CodeOut T n.neg n.clip.value k b ec ∧
      (infIdx T.fmt ≤ k → (ec = .ok ↔ FastPath c T.fmt n)) := by
  obtain ⟨ec, v, k, h1, h2, h3⟩ := numCore_spec' c hin.wf T hs.wf.2.1
  have h4 := call_number_any c T opt hin hs hmc
  rw [h1] at h4
  refine ⟨k, _, ec, h4, ?_, h3⟩
  have hb : coreBits T.fmt n.neg v = coreBits T.fmt false v + if n.neg then 2 ^ T.fmt.signIdx else 0 := by
    cases hn : n.neg
    · simp
    · simp only [if_true]; exact advCore_bits h2
  rw [hb, clip_value]
  exact h2.withSign

/-- What the code works out for a numeral whose digits are miscounted. -/
theorem call_miscounted {c : Cfg} {ct : CharType} {T : FloatTy} (hT : T ≠ .float16) {s : List Nat} {opt : Options} (hin : Input ct s) {n : Numeral} {rest : List Nat}
    (hs : Greedy (grammar c opt) (textOf c opt s) n rest) (hmc : Miscounted opt.decimalPoint n) :
    ∃ k b ec, fromCharsFloat c ct T.fmt s opt = .ok ⟨s.length - rest.length, ec, some b⟩ ∧
      CodeOut T n.neg (((digitsVal n.digits % 2 ^ 64 : Nat) : ℚ) * (10 : ℚ) ^ (n.clip.expVal - ((n.frac.getD []).length : Int))) k b ec := by
  have hsc := greedy_scan hs
  have hwf := hs.wf
  have e0 : fromCharsFloat c ct T.fmt s opt = (do
      let r ← fromCharsFloatBody c ct T.fmt (codeBody ct (c.eff opt) s) opt
      pure { off := s.length - r.ptr.length, ec := r.ec, value := r.value }) := by
    unfold fromCharsFloat fromCharsFloatAdvanced
    rw [dropSpaces_eq, ok_bind]
  rw [e0]
  have hut := codeBody_mem (ct := ct) (fmt := c.eff opt) hin.ok
  have hlt : (codeBody ct (c.eff opt) s).length < 2 ^ 62 := lt_of_le_of_lt (codeBody_suffix ct (c.eff opt) s).length_le hin.len
  rw [hin.body_eq] at hut hlt ⊢
  obtain ⟨t, ht⟩ : ∃ t, textOf c opt s = t := ⟨_, rfl⟩
  rw [ht] at hut hlt hs hsc ⊢
  have hne : t ≠ [] := by
    rintro rfl
    obtain ⟨pre, d, post, h1, _, _⟩ := numeral_digit hwf
    have h2 := hs.text
    rw [h1] at h2
    simp at h2
  have hP := parse_spec_gen c hin.wf (Fmt.has (c.eff opt) Fmt.basicJson) opt false hne hut hlt
  rw [adjust_eq, scanRules_eq] at hP
  have e1 : fromCharsFloatBody c ct T.fmt t opt = (do
      let pns ← parseNumberString c ct (Fmt.has (c.eff opt) Fmt.basicJson) t opt false
      fromCharsFloatParsed c ct T.fmt t opt (c.eff opt) (Fmt.has (c.eff opt) Fmt.basicJson) pns) := by
    cases t with
    | nil => exact absurd rfl hne
    | cons a t =>
      unfold fromCharsFloatBody
      rw [adjust_eq]
  have hM : manyTest opt.decimalPoint n (refSign (rules (c.eff opt) opt.decimalPoint) t).2 = false := by
    rw [Bool.eq_false_iff]
    intro h
    exact ((many_iff hs).1 h).2 hmc
  have p1 := (hP.2 n rest hsc).1
  rw [hM] at p1
  obtain ⟨p, hp⟩ : ∃ p, pnsGen false false n rest = p := ⟨_, rfl⟩
  have q1 : p.mantissa = digitsVal n.digits % 2 ^ 64 := by rw [← hp]; rfl
  have q2 : p.exponent = n.clip.expVal - ((n.frac.getD []).length : Int) := by rw [← hp, clip_expVal]; rfl
  have q3 : p.negative = n.neg := by rw [← hp]; rfl
  have q4 : p.lastmatch = rest := by rw [← hp]; rfl
  have q5 : p.valid = true := by rw [← hp]; rfl
  have q6 : p.tooManyDigits = false := by rw [← hp]; rfl
  have q7 : p.mantissa < 2 ^ 64 := by rw [q1]; exact Nat.mod_lt _ (by norm_num)
  rw [hp] at p1
  rw [e1, p1, ok_bind]
  obtain ⟨b, k, ec, h1, h2, h3, _, h4, h5, h6, h7⟩ := pns_core c ct T p q7 q6
  have hx : (p.mantissa : ℚ) * 10 ^ p.exponent ≠ 0 ↔ p.mantissa ≠ 0 := by
    rw [mul_ne_zero_iff]
    exact ⟨fun h => by exact_mod_cast h.1, fun h => ⟨by exact_mod_cast h, by positivity⟩⟩
  have hc : CodeOut T p.negative ((p.mantissa : ℚ) * 10 ^ p.exponent) k b ec :=
    ⟨h2, fun hT => h2.rn (T.ulpWide hT) q7, fun h => absurd h hT, by rw [h3, T.signBit_eq, Nat.add_comm], h4,
      fun h => (h5 h).imp (fun a => ⟨hx.2 a.1, a.2⟩) id, fun a b => h6 (hx.1 a) b, h7⟩
  have heq : fromCharsFloatParsed c ct T.fmt t opt (c.eff opt) (Fmt.has (c.eff opt) Fmt.basicJson) p = fromCharsAdvancedPns c ct T.fmt p := by
    unfold fromCharsFloatParsed fromCharsAdvancedPns
    rw [q5, q6]
    simp only [Bool.not_true, Bool.false_eq_true, if_false, Bool.not_false, if_true]
    refine bind_congr' fun o => ?_
    cases o with
    | some v => rfl
    | none =>
      obtain ⟨am, k, h1, h2, h3⟩ := computeFloat_spec c T.good p.exponent p.mantissa q7
      have hp0 : ¬ am.power2 < 0 := by
        rcases h3.2 with ⟨h, _⟩ | ⟨_, h, _⟩ <;> rw [h] <;> exact not_lt.2 (Int.natCast_nonneg _)
      simp only [h1, ok_bind, Bool.false_and, Bool.false_eq_true, if_false]
      rw [if_neg hp0]
      show _ = if am.power2 < 0 then _ else _
      rw [if_neg hp0]
      rfl
  rw [heq, h1, ok_bind]
  rw [q1, q2, q3] at hc
  exact ⟨k, b, ec, by rw [q4]; rfl, hc⟩

/-- What the proof of completeness needs to know about numerals. -/
structure AnyNumberSpec (c : Cfg) (ct : CharType) (T : FloatTy) (s : List Nat) (opt : Options) (number : Numeral → Code → Nat → Prop) : Prop where
  call : ∀ n rest, Greedy (grammar c opt) (textOf c opt s) n rest →
    ∃ ec b, fromCharsFloat c ct T.fmt s opt = .ok ⟨s.length - rest.length, ec, some b⟩ ∧ number n ec.code b
  unique : ∀ n a b x y, number n x a → number n y b → x = y ∧ a = b

theorem any_of_spec {c : Cfg} {ct : CharType} {T : FloatTy} {s : List Nat} {opt : Options} (hin : Input ct s)
    {number : Numeral → Code → Nat → Prop} (hN : AnyNumberSpec c ct T s opt number)
    {rest : List Nat} {code : Code} {v : Option Nat} (h : AnyPointCall T.spec number (c.eff opt) opt.decimalPoint (textOf c opt s) rest code v) :
    ∃ ec, ec.code = code ∧ fromCharsFloat c ct T.fmt s opt = .ok ⟨s.length - rest.length, ec, v⟩ := by
  obtain ⟨_, hC⟩ := float_cases_gen c hin.wf T opt hin.ok hin.len
  rw [hin.body_eq] at hC
  cases h with
  | number text result =>
    rename_i n bits
    obtain ⟨ec, b, h1, h2⟩ := hN.call n rest text
    obtain ⟨e1, e2⟩ := hN.unique n _ _ _ _ h2 result
    exact ⟨ec, e1, by rw [h1, e2]⟩
  | infinity allowed text =>
    refine ⟨.ok, rfl, ?_⟩
    rw [((hC (scan_none_of_infnan (Or.inl text))).2 allowed).1 _ _ text, infBits_eq]
  | nan allowed text =>
    refine ⟨.ok, rfl, ?_⟩
    rw [((hC (scan_none_of_infnan (Or.inr text))).2 allowed).2.1 _ _ text, nan_quiet]
  | invalid noNumber noSpecial =>
    have hs : scanNumeral (rules (c.eff opt) opt.decimalPoint) (textOf c opt s) = none := by
      cases hs : scanNumeral (rules (c.eff opt) opt.decimalPoint) (textOf c opt s) with
      | none => rfl
      | some x => exact absurd ⟨x.1, x.2, scan_greedy (n := x.1) (rest := x.2) hs⟩ noNumber
    refine ⟨.invalidArgument, rfl, ?_⟩
    by_cases hn : noInfNan (c.eff opt) = true
    · exact (hC hs).1 hn
    · rcases noSpecial with h | ⟨h1, h2⟩
      · exact absurd h hn
      · exact ((hC hs).2 (by simpa using hn)).2.2 h1 h2

theorem any_exists {c : Cfg} {ct : CharType} {T : FloatTy} {s : List Nat} {opt : Options}
    {number : Numeral → Code → Nat → Prop} (hN : AnyNumberSpec c ct T s opt number) :
    ∃ rest code v, AnyPointCall T.spec number (c.eff opt) opt.decimalPoint (textOf c opt s) rest code v := by
  by_cases hs : ∃ n rest, Greedy (rules (c.eff opt) opt.decimalPoint) (textOf c opt s) n rest
  · obtain ⟨n, rest, hs⟩ := hs
    obtain ⟨ec, b, _, h2⟩ := hN.call n rest hs
    exact ⟨_, _, _, .number hs h2⟩
  · by_cases hn : noInfNan (c.eff opt) = true
    · exact ⟨_, _, _, .invalid hs (Or.inl hn)⟩
    · have hn : noInfNan (c.eff opt) = false := by simpa using hn
      by_cases h1 : ∃ neg rest, InfText (plusFlag (c.eff opt)) (textOf c opt s) neg rest
      · obtain ⟨neg, rest, h1⟩ := h1
        exact ⟨_, _, _, .infinity hn h1⟩
      · by_cases h2 : ∃ neg rest, NanText (plusFlag (c.eff opt)) (textOf c opt s) neg rest
        · obtain ⟨neg, rest, h2⟩ := h2
          exact ⟨_, _, _, .nan hn h2⟩
        · exact ⟨_, _, _, .invalid hs (Or.inr ⟨h1, h2⟩)⟩

theorem infText_suffix {plus neg : Bool} {t rest : List Nat} (h : InfText plus t neg rest) : ∃ p, t = p ++ rest := by
  obtain ⟨u, r, h1, ⟨v, rfl, _⟩, h3⟩ := h
  have hr : ∃ p, r = p ++ rest := by
    rcases h3 with ⟨w, rfl, _⟩ | ⟨_, rfl⟩
    · exact ⟨_, rfl⟩
    · exact ⟨[], rfl⟩
  obtain ⟨p, rfl⟩ := hr
  rcases h1 with ⟨_, h⟩ | ⟨_, h⟩ | ⟨_, _, h⟩
  · exact ⟨45 :: v ++ p, by rw [h]; simp⟩
  · exact ⟨v ++ p, by rw [h]; simp⟩
  · exact ⟨43 :: v ++ p, by rw [h]; simp⟩

theorem nanText_suffix {plus neg : Bool} {t rest : List Nat} (h : NanText plus t neg rest) : ∃ p, t = p ++ rest := by
  obtain ⟨u, r, h1, ⟨v, rfl, _⟩, h3⟩ := h
  have hr : ∃ p, r = p ++ rest := by
    rcases h3 with ⟨w, _, rfl⟩ | ⟨_, rfl⟩
    · exact ⟨40 :: (w ++ [41]), by simp⟩
    · exact ⟨[], rfl⟩
  obtain ⟨p, rfl⟩ := hr
  rcases h1 with ⟨_, h⟩ | ⟨_, h⟩ | ⟨_, _, h⟩
  · exact ⟨45 :: v ++ p, by rw [h]; simp⟩
  · exact ⟨v ++ p, by rw [h]; simp⟩
  · exact ⟨43 :: v ++ p, by rw [h]; simp⟩

theorem any_complete {c : Cfg} {ct : CharType} {T : FloatTy} {s : List Nat} {opt : Options} (hin : Input ct s)
    {number : Numeral → Code → Nat → Prop} (hN : AnyNumberSpec c ct T s opt number) (r : ApiFloat) :
    fromCharsFloat c ct T.fmt s opt = .ok r ↔
      r.off ≤ s.length ∧ AnyPointCall T.spec number (c.eff opt) opt.decimalPoint (textOf c opt s) (s.drop r.off) r.ec.code r.value := by
  have hdrop : ∀ rest : List Nat, (∃ p, textOf c opt s = p ++ rest) → s.drop (s.length - rest.length) = rest ∧ s.length - rest.length ≤ s.length := by
    rintro rest ⟨p, hp⟩
    obtain ⟨ws, w1, _⟩ := textOf_suffix c opt s
    rw [hp, ← List.append_assoc] at w1
    refine ⟨?_, by omega⟩
    have : s.length - rest.length = (ws ++ p).length := by rw [w1]; simp; omega
    rw [this]
    conv_lhs => rw [w1, List.drop_left]
  constructor
  · intro h
    obtain ⟨rest, code, v, hf⟩ := any_exists hN
    obtain ⟨ec, e1, e2⟩ := any_of_spec hin hN hf
    have := e2.symm.trans h
    cases this
    have hsuf : ∃ p, textOf c opt s = p ++ rest := by
      cases hf with
      | number text _ => exact ⟨_, text.text⟩
      | infinity _ text => exact infText_suffix text
      | nan _ text => exact nanText_suffix text
      | invalid _ _ => exact ⟨[], rfl⟩
    obtain ⟨d1, d2⟩ := hdrop rest hsuf
    simp only
    rw [d1, e1]
    exact ⟨d2, hf⟩
  · rintro ⟨h1, h2⟩
    obtain ⟨ec, e1, e2⟩ := any_of_spec hin hN h2
    rw [e2]
    have e3 : ec = r.ec := by
      revert e1; cases ec <;> cases r.ec <;> simp [Errc.code]
    rw [e3, List.length_drop]
    congr 1
    cases r
    simp only [ApiFloat.mk.injEq, and_true]
    simp only at h1
    omega

theorem ieeeValue_unique (T : FloatTy) {neg : Bool} {q : ℚ} {a b : Nat} {x y : Code} (h1 : IeeeValue T.spec neg q x a) (h2 : IeeeValue T.spec neg q y b) :
    x = y ∧ a = b := by
  refine ⟨?_, roundsToBits_unique T h1.rounded h2.rounded⟩
  rcases h1.error with ⟨a1, a2⟩ | ⟨a1, a2⟩ <;> rcases h2.error with ⟨b1, b2⟩ | ⟨b1, b2⟩
  · rw [a1, b1]
  · exact absurd a2 b2
  · exact absurd b2 a2
  · rw [a1, b1]

/-- **C74**: the complete specification of a call for `double`, `float` and `bfloat16_t` for every options value, without any condition on the format
word, the decimal point or the text: the call returns `r` if and only if the specification relates the text to `r`. -/
theorem C74_every_option (c : Cfg) {ct : CharType} (T : FloatTy) (hT : T ≠ .float16) {s : List Nat} (opt : Options) (hin : Input ct s) (r : ApiFloat) :
    fromCharsFloat c ct T.fmt s opt = .ok r ↔
      r.off ≤ s.length ∧
        AnyPointCall T.spec (fun n => IeeeValue T.spec n.neg (valueRead opt.decimalPoint n)) (c.eff opt) opt.decimalPoint (textOf c opt s) (s.drop r.off)
          r.ec.code r.value := by
  refine any_complete (number := fun n => IeeeValue T.spec n.neg (valueRead opt.decimalPoint n)) hin ⟨fun n rest hg => ?_, fun n a b x y => ieeeValue_unique T⟩ r
  by_cases hmc : Miscounted opt.decimalPoint n
  · obtain ⟨k, b, ec, h1, h2⟩ := call_miscounted (T := T) hT hin hg hmc
    refine ⟨ec, b, h1, ?_⟩
    unfold valueRead
    rw [if_pos hmc]
    exact ⟨h2.roundsTo hT, codeOut_range hT (by positivity) h2⟩
  · obtain ⟨k, b, ec, h1, h2, _⟩ := call_codeOut (T := T) hin hg hmc
    refine ⟨ec, b, h1, ?_⟩
    unfold valueRead
    rw [if_neg hmc]
    exact ⟨h2.roundsTo hT, codeOut_range hT (value_nonneg _) h2⟩

/-- **C74** for every decimal point that is not a digit (`+`, `-`, `e`, `d`, a letter, a NUL, ...): the value is the one written. -/
theorem C74_nondigit_point (c : Cfg) {ct : CharType} (T : FloatTy) (hT : T ≠ .float16) {s : List Nat} (opt : Options) (hin : Input ct s)
    (hp : ¬ IsDigit opt.decimalPoint) (r : ApiFloat) :
    fromCharsFloat c ct T.fmt s opt = .ok r ↔
      r.off ≤ s.length ∧
        AnyPointCall T.spec (fun n => IeeeNumber T.spec n.clip) (c.eff opt) opt.decimalPoint (textOf c opt s) (s.drop r.off) r.ec.code r.value := by
  refine any_complete (number := fun n => IeeeNumber T.spec n.clip) hin ⟨fun n rest hg => ?_, fun n a b x y => ieee_unique T⟩ r
  obtain ⟨k, b, ec, h1, h2, _⟩ := call_codeOut (T := T) hin hg (not_miscounted hg.wf hp)
  exact ⟨ec, b, h1, codeOut_ieee hT (n := n.clip) h2⟩

theorem half_any {c : Cfg} {ct : CharType} {s : List Nat} {opt : Options} (hin : Input ct s) {n : Numeral} {rest : List Nat}
    (hg : Greedy (grammar c opt) (textOf c opt s) n rest) (hmc : ¬ Miscounted opt.decimalPoint n) :
    ∃ ec b, fromCharsFloat c ct binary16 s opt = .ok ⟨s.length - rest.length, ec, some b⟩ ∧ HalfNumber (Runtime c) n.clip ec.code b := by
  obtain ⟨k, b, ec, h1, h2, h3⟩ := call_codeOut (T := .float16) hin hg hmc
  refine ⟨ec, b, h1, half_core (m := n.clip) h2 (fun hk => ?_)⟩
  have hth : FloatTy.float16.spec.overflowThreshold = 65520 := by
    show half.overflowThreshold = _
    norm_num [Format.overflowThreshold, half, Format.bias]
  have h6 := h2.inf_iff.1 hk
  rw [hth, clip_value] at h6
  rw [h3 hk]
  have h7 := fast16_over c hg.wf.2.1 h6
  rw [show FloatTy.float16.fmt = binary16 from rfl, h7, clip_expVal]
  unfold Runtime
  exact ⟨fun h => ⟨⟨h.1, h.2.1, h.2.2.1⟩, h.2.2.2.1, h.2.2.2.2⟩, fun h => ⟨h.1.1, h.1.2.1, h.1.2.2, h.2.1, h.2.2⟩⟩

/-- **C74** for `float16_t`, for every decimal point that is not a digit. -/
theorem C74_nondigit_point_float16 (c : Cfg) {ct : CharType} {s : List Nat} (opt : Options) (hin : Input ct s)
    (hp : ¬ IsDigit opt.decimalPoint) (r : ApiFloat) :
    fromCharsFloat c ct binary16 s opt = .ok r ↔
      r.off ≤ s.length ∧
        AnyPointCall half (fun n => HalfNumber (Runtime c) n.clip) (c.eff opt) opt.decimalPoint (textOf c opt s) (s.drop r.off) r.ec.code r.value := by
  exact any_complete (T := .float16) (number := fun n => HalfNumber (Runtime c) n.clip) hin
    ⟨fun n rest hg => half_any hin hg (not_miscounted hg.wf hp), fun n a b x y h1 h2 => half_unique h1 h2⟩ r

/-- **C74**: for a point that cannot be confused with another part of a numeral, the greedy reading is the one of C50 and C55 (maximal munch). -/
theorem C74_greedy_iff_munch {g : Rules} (hp : g.PointOK) {s : List Nat} {n : Numeral} {rest : List Nat} : Greedy g s n rest ↔ Munch g s n rest :=
  ⟨fun h => scan_munch (greedy_scan h), fun h => scan_greedy (munch_scan hp h)⟩

/-- **C74**: a greedy reading is unique, for every grammar. -/
theorem C74_greedy_unique {g : Rules} {s : List Nat} {n m : Numeral} {rest r : List Nat} (h : Greedy g s n rest) (h' : Greedy g s m r) : n = m ∧ rest = r := by
  have := (greedy_scan h).symm.trans (greedy_scan h')
  cases this
  exact ⟨rfl, rfl⟩

/-- **C74**: a digit as the decimal point is never taken as a point, and a numeral of up to nineteen significant digits is read correctly. -/
theorem C74_digit_point (c : Cfg) {ct : CharType} (T : FloatTy) {s : List Nat} (opt : Options) (hin : Input ct s) (hp : IsDigit opt.decimalPoint) {n : Numeral}
    {rest : List Nat} (hg : Greedy (grammar c opt) (textOf c opt s) n rest) (h19 : (significant n.digits).length ≤ 19) :
    n.frac = none ∧ ∃ ec b, fromCharsFloat c ct T.fmt s opt = .ok ⟨s.length - rest.length, ec, some b⟩ ∧
      (T ≠ .float16 → IeeeNumber T.spec n.clip ec.code b) ∧ (T = .float16 → HalfNumber (Runtime c) n.clip ec.code b) := by
  have hmc : ¬ Miscounted opt.decimalPoint n := fun h => by have := h.1; omega
  refine ⟨greedy_digit_point hp hg, ?_⟩
  by_cases hT : T = .float16
  · subst hT
    obtain ⟨ec, b, h1, h2⟩ := half_any hin hg hmc
    exact ⟨ec, b, h1, fun h => absurd rfl h, fun _ => h2⟩
  · obtain ⟨k, b, ec, h1, h2, _⟩ := call_codeOut (T := T) hin hg hmc
    exact ⟨ec, b, h1, fun _ => codeOut_ieee hT (n := n.clip) h2, fun h => absurd h hT⟩

/-! ### Samples -/

/-- The point `e`: in "1e5" the `e` is the decimal point, so that the value is 1.5; the longest-numeral reading (10 to the 5) is as long but not the one taken. -/
example : fromCharsFloat Cfg.x64 CharType.char binary64 [49, 101, 53] { decimalPoint := 101 } = .ok ⟨3, .ok, some 0x3ff8000000000000⟩ := by decide +kernel

example : Greedy (grammar Cfg.x64 { decimalPoint := 101 }) [49, 101, 53] ⟨none, [49], some [53], none⟩ [] := scan_greedy (by decide +kernel)

example : AnyPointCall double (fun n => IeeeNumber double n.clip) 5 101 [49, 101, 53] [] .success (some 0x3ff8000000000000) :=
  ((C74_nondigit_point Cfg.x64 .double (by decide) { decimalPoint := 101 } (s := [49, 101, 53]) (ct := .char)
    (input_of_bytes (by decide) (by decide)) (by unfold IsDigit; decide) ⟨3, .ok, some 0x3ff8000000000000⟩).1 (by decide +kernel)).2

/-- The point `-`: "-5" is minus five (the sign is looked for first), "1-5" is 1.5, and "--5" is -0.5. -/
example : fromCharsFloat Cfg.x64 CharType.char binary64 [45, 53] { decimalPoint := 45 } = .ok ⟨2, .ok, some 0xc014000000000000⟩ ∧
    fromCharsFloat Cfg.x64 CharType.char binary64 [49, 45, 53] { decimalPoint := 45 } = .ok ⟨3, .ok, some 0x3ff8000000000000⟩ ∧
    fromCharsFloat Cfg.x64 CharType.char binary64 [45, 45, 53] { decimalPoint := 45 } = .ok ⟨3, .ok, some 0xbfe0000000000000⟩ := by decide +kernel

/-- The point `5` and twenty digits, of which ten are counted (C50_digit_point): the significand is reduced modulo `2^64`. -/
example : Miscounted 53 ⟨none, (List.replicate 10 [53, 48]).flatten, none, none⟩ := by
  constructor <;> decide

example (r : ApiFloat) : fromCharsFloat Cfg.x64 CharType.char binary64 (List.replicate 10 [53, 48]).flatten { decimalPoint := 53 } = .ok r →
    AnyPointCall double (fun n => IeeeValue double n.neg (valueRead 53 n)) 5 53 (List.replicate 10 [53, 48]).flatten
      ((List.replicate 10 [53, 48]).flatten.drop r.off) r.ec.code r.value := fun h =>
  ((C74_every_option Cfg.x64 .double (by decide) { decimalPoint := 53 } (s := (List.replicate 10 [53, 48]).flatten) (ct := .char)
    (input_of_bytes (by decide) (by decide)) r).1 h).2

/-- The point `5`, within nineteen digits: "1525" is the integer 1525. -/
example : ∃ ec b, fromCharsFloat Cfg.x64 CharType.char binary64 [49, 53, 50, 53] { decimalPoint := 53 } = .ok ⟨4, ec, some b⟩ ∧ IeeeNumber double ⟨none, [49, 53, 50, 53], none, none⟩ ec.code b := by
  obtain ⟨_, ec, b, h1, h2, _⟩ := C74_digit_point Cfg.x64 .double { decimalPoint := 53 } (s := [49, 53, 50, 53]) (ct := .char)
    (input_of_bytes (by decide) (by decide)) (by unfold IsDigit; decide) (n := ⟨none, [49, 53, 50, 53], none, none⟩) (rest := [])
    (scan_greedy (by decide +kernel)) (by decide)
  exact ⟨ec, b, h1, h2 (by decide)⟩

end FastFloat
