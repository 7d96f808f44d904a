import Verif.Spec.Complete
import Verif.Props.Flags
/-
# C50: the complete specification of a floating-point call
-/
set_option linter.unusedSimpArgs false
namespace FastFloat
open NumSpec FloatSpec ApiSpec

theorem refExp_none_iff {g : Rules} {rest : List Nat} (hw : Numeral.ExpOK g none) (h3 : NoExp g rest)
    (h4 : g.fixed = false → g.fortran = true → ∀ u t, rest = u :: t → u ≠ 100 ∧ u ≠ 68 ∧ u ≠ 43 ∧ u ≠ 45) :
    refExp g rest = some (none, rest) := by
  cases hf : g.fixed with
  | true => exact refExp_noExp hf h3
  | false =>
    have hsc : g.scientific = false := by
      cases hs : g.scientific with
      | false => rfl
      | true => exact absurd ⟨hs, hf⟩ hw
    have hm : refMarker g rest = none := by
      unfold refMarker
      rw [hsc]
      cases hfo : g.fortran with
      | false => rfl
      | true =>
        cases rest with
        | nil => rfl
        | cons u t =>
          obtain ⟨a, b, c, d⟩ := h4 hf hfo u t rfl
          simp [headIs, a, b, c, d]
    unfold refExp
    rw [hm, hsc]; rfl

theorem munch_scan {g : Rules} (hp : g.PointOK) {s : List Nat} {n : Numeral} {rest : List Nat} (h : Munch g s n rest) :
    scanNumeral g s = some (n, rest) := by
  rw [h.text]
  cases he : n.exp with
  | some e => exact scan_text hp h.wf (Or.inl ⟨by rw [he]; simp, h.noDigit⟩)
  | none =>
    apply scan_text' hp h.wf
    rw [he]
    refine ⟨h.noDigit, fun hfr => ?_, ?_⟩
    · have := h.noPoint hfr he
      cases rest with
      | nil => rfl
      | cons u t =>
        have : u ≠ g.point := fun hu => this t (by rw [hu])
        simp [headIs, this]
    · apply refExp_none_iff _ (h.noExponent he) (h.noBeginning he)
      have := h.wf.2.2.2; rw [he] at this; exact this

theorem refFrac_noDigit {g : Rules} {s : List Nat} (h : NoDigit s) : NoDigit (refFrac g s).2 := by
  unfold refFrac
  split
  · exact afterRun_noDigit _
  · exact h

theorem refExp_noDigit {g : Rules} {s : List Nat} {e : Option Exponent} {rest : List Nat} (h : NoDigit s) (he : refExp g s = some (e, rest)) : NoDigit rest := by
  unfold refExp at he
  split at he
  · split at he
    · cases he
    · cases he; exact h
  · split at he
    · split at he
      · cases he; exact h
      · cases he
    · cases he; exact afterRun_noDigit _

theorem scan_munch {g : Rules} {s : List Nat} {n : Numeral} {rest : List Nat} (h : scanNumeral g s = some (n, rest)) :
    Munch g s n rest := by
  obtain ⟨h1, h2⟩ := scan_sound h
  unfold scanNumeral at h
  simp only at h
  split at h
  swap
  · cases h
  split at h
  · cases h
  rename_i e r he
  simp only [Option.some.injEq, Prod.mk.injEq] at h
  obtain ⟨h3, rfl⟩ := h
  have hf : n.frac = (refFrac g (afterRun (refSign g s).2)).1 := by rw [← h3]
  have hx : n.exp = e := by rw [← h3]
  obtain ⟨F, hF⟩ : ∃ F, refFrac g (afterRun (refSign g s).2) = F := ⟨_, rfl⟩
  have hnd : NoDigit F.2 := by rw [← hF]; exact refFrac_noDigit (afterRun_noDigit _)
  rw [hF] at he hf
  have hrest : n.exp = none → F.2 = r := by
    intro h; rw [← hx, h] at he
    have := refExp_append he
    simpa using this.symm
  refine ⟨h1, h2, refExp_noDigit hnd he, fun a b t ht => ?_, fun a => ?_, fun a b d u t ht => ?_⟩
  · have h4 := hrest b
    rw [hf] at a
    unfold refFrac at hF
    split at hF
    · rw [← hF] at a; cases a
    · rename_i hh
      rw [← hF] at h4
      simp only at h4
      rw [h4, ht] at hh
      exact hh (by simp [headIs])
  · rintro ⟨e', q, hw, hq⟩
    obtain ⟨ds, rest', hE, _⟩ := refExp_of hw q
    rw [hrest a, hq, hE, ← hx, a] at he
    simp at he
  · rw [hrest a, ← hx, a] at he
    unfold refExp at he
    have hm : refMarker g r = none := by
      split at he
      · assumption
      · rw [b] at he
        split at he <;> simp at he
    rw [ht] at hm
    unfold refMarker at hm
    rw [d] at hm
    refine ⟨?_, ?_, ?_, ?_⟩ <;> rintro rfl <;> simp [headIs] at hm

theorem scan_iff_munch {g : Rules} (hp : g.PointOK) {s : List Nat} {n : Numeral} {rest : List Nat} :
    scanNumeral g s = some (n, rest) ↔ Munch g s n rest := ⟨scan_munch, munch_scan hp⟩

theorem nan_quiet (T : FloatTy) (neg : Bool) : nanBits T.fmt neg = (if neg then T.spec.signBit else 0) + ApiSpec.quietNaN T.spec := by
  cases T <;> cases neg <;> decide +kernel

theorem codeOut_range {T : FloatTy} (hT : T ≠ .float16) {neg : Bool} {x : ℚ} (hx : 0 ≤ x) {k b : Nat} {ec : Errc} (h : CodeOut T neg x k b ec) :
    (ec.code = .range ∧ OutOfRange T.spec x) ∨ (ec.code = .success ∧ ¬ OutOfRange T.spec x) := by
  have hrn := h.rn hT
  have hi := rn_inf hrn
  have hz := rn_zero hrn
  rcases h.ecs with e | e
  · right
    refine ⟨by rw [e]; rfl, ?_⟩
    rintro (h1 | ⟨h1, h2⟩)
    · have := h.ec3 hT (hi.2 h1); rw [e] at this; cases this
    · have := h.ec2 (ne_of_gt h1) (hz.2 h2); rw [e] at this; cases this
  · left
    refine ⟨by rw [e]; rfl, ?_⟩
    rcases h.ec1 e with ⟨a, b⟩ | a
    · exact Or.inr ⟨lt_of_le_of_ne hx (Ne.symm a), hz.1 b⟩
    · exact Or.inl (hi.1 a)

theorem sval_lt (T : FloatTy) {a b : Nat} (h : a < b) : T.spec.val a < T.spec.val b := by
  rw [val_eq T.fmatch, val_eq T.fmatch]
  have : (fpVal T.fmt.mb a : ℚ) < fpVal T.fmt.mb b := by exact_mod_cast fpVal_strictMono h
  gcongr

theorem even_tie (T : FloatTy) {x : ℚ} {m k : Nat} (hmk : m < k) (hm : m % 2 = 0) (hk : k % 2 = 0)
    (he : |x - T.spec.val m| = |x - T.spec.val k|) : |x - T.spec.val (m + 1)| < |x - T.spec.val m| ∧ m + 1 < k := by
  have h1 : m + 1 < k := by omega
  have a := sval_lt T (show m < m + 1 by omega)
  have b := sval_lt T h1
  refine ⟨?_, h1⟩
  rcases abs_eq_abs.1 he with h | h
  · linarith
  · rw [abs_lt]
    have h2 : |x - T.spec.val m| = x - T.spec.val m := abs_of_nonneg (by linarith)
    rw [h2]
    constructor <;> linarith

/-- The rounding relation determines the result. -/
theorem roundsToBits_unique (T : FloatTy) {neg : Bool} {x : ℚ} {a b : Nat} (h1 : T.spec.RoundsToBits neg x a) (h2 : T.spec.RoundsToBits neg x b) : a = b := by
  obtain ⟨m, m1, rfl⟩ := h1
  obtain ⟨k, k1, rfl⟩ := h2
  have : m = k := by
    rcases m1 with ⟨a1, a2⟩ | ⟨a1, a2, a3⟩
    · rcases k1 with ⟨b1, b2⟩ | ⟨b1, b2, b3⟩
      · rw [a2, b2]
      · exact absurd a1 (not_le.2 b1)
    · rcases k1 with ⟨b1, b2⟩ | ⟨b1, b2, b3⟩
      · exact absurd b1 (not_le.2 a1)
      · by_contra hne
        rcases a3 k b2 (fun h => hne h.symm) with u | ⟨u, u'⟩
        · rcases b3 m a2 hne with v | ⟨v, v'⟩
          · exact absurd (lt_trans u v) (lt_irrefl _)
          · rw [v] at u; exact lt_irrefl _ u
        · rcases b3 m a2 hne with v | ⟨v, v'⟩
          · rw [u] at v; exact lt_irrefl _ v
          · exfalso
            rcases Nat.lt_or_gt_of_ne hne with h | h
            · obtain ⟨g1, g2⟩ := even_tie T h u' v' u
              rcases a3 (m + 1) (by omega) (by omega) with w | ⟨w, _⟩
              · linarith
              · rw [w] at g1; exact lt_irrefl _ g1
            · obtain ⟨g1, g2⟩ := even_tie T h v' u' v
              rcases b3 (k + 1) (by omega) (by omega) with w | ⟨w, _⟩
              · linarith
              · rw [w] at g1; exact lt_irrefl _ g1
  rw [this]

/-- Every numeral the text starts with is of moderate length. -/
theorem short_moderate {g : Rules} {s : List Nat} (h : s.length + 400 ≤ 2 ^ 28) {n : Numeral} {rest : List Nat} (hm : s = n.text g.point ++ rest) : Moderate n := by
  left
  have h1 := congrArg List.length hm
  have h2 : n.digits.length ≤ (n.text g.point).length := by
    unfold Numeral.digits Numeral.text
    cases hf : n.frac <;> simp [hf] <;> omega
  rw [List.length_append] at h1
  omega

theorem codeOut_ieee {T : FloatTy} (hT : T ≠ .float16) {n : Numeral} {k b : Nat} {ec : Errc} (h : CodeOut T n.neg n.value k b ec) :
    IeeeNumber T.spec n ec.code b := ⟨h.roundsTo hT, codeOut_range hT (value_nonneg n) h⟩

theorem ieee_unique (T : FloatTy) {n : Numeral} {a b : Nat} {x y : Code} (h1 : IeeeNumber T.spec n x a) (h2 : IeeeNumber T.spec n y b) :
    x = y ∧ a = b := by
  refine ⟨?_, roundsToBits_unique T h1.rounded h2.rounded⟩
  rcases h1.error with ⟨a1, a2⟩ | ⟨a1, a2⟩ <;> rcases h2.error with ⟨b1, b2⟩ | ⟨b1, b2⟩
  · rw [a1, b1]
  · exact absurd a2 b2
  · exact absurd b2 a2
  · rw [a1, b1]

/-- What the proof of completeness needs to know about the result for numerals. -/
structure NumberSpec (c : Cfg) (ct : CharType) (T : FloatTy) (s : List Nat) (opt : Options) (number : Numeral → Code → Nat → Prop) : Prop where
  holds : ∀ n rest ec b, Munch (grammar c opt) (textOf c opt s) n rest →
    fromCharsFloat c ct T.fmt s opt = .ok ⟨s.length - rest.length, ec, some b⟩ → number n ec.code b
  unique : ∀ n a b x y, number n x a → number n y b → x = y ∧ a = b

/-- Soundness half of C50. -/
theorem call_of_spec {c : Cfg} {ct : CharType} {T : FloatTy} {s : List Nat} {opt : Options} (hin : Input ct s)
    (hp : (grammar c opt).PointOK) {number : Numeral → Code → Nat → Prop} (hN : NumberSpec c ct T s opt number)
    {rest : List Nat} {code : Code} {v : Option Nat} (h : FloatCall T.spec number (c.eff opt) opt.decimalPoint (textOf c opt s) rest code v) :
    ∃ ec, ec.code = code ∧ fromCharsFloat c ct T.fmt s opt = .ok ⟨s.length - rest.length, ec, v⟩ := by
  cases h with
  | number text result =>
    rename_i n bits
    have hs := munch_scan hp text
    obtain ⟨k, b, ec, h1, h2⟩ := scan_accepts (T := T) hin hp hs
    have h3 := hN.holds n rest ec b text h1.result
    obtain ⟨e1, e2⟩ := hN.unique n _ _ _ _ h3 result
    exact ⟨ec, e1, by rw [h1.result, e2]⟩
  | infinity allowed text => exact ⟨.ok, rfl, C20_infinity c T opt hin hp.1 allowed text⟩
  | nan allowed text =>
    refine ⟨.ok, rfl, ?_⟩
    rw [Outcome.call hin hp.1 (Outcome.nan allowed text), nan_quiet]
  | invalid noNumber noSpecial =>
    refine ⟨.invalidArgument, rfl, Outcome.call hin hp.1 (Outcome.bad ?_ noSpecial)⟩
    cases hs : scanNumeral (rules (c.eff opt) opt.decimalPoint) (textOf c opt s) with
    | none => rfl
    | some x => exact absurd ⟨x.1, x.2, scan_munch (n := x.1) (rest := x.2) hs⟩ noNumber

/-- Every text has a specified result. -/
theorem spec_exists {c : Cfg} {ct : CharType} {T : FloatTy} {s : List Nat} {opt : Options} (hin : Input ct s)
    (hp : (grammar c opt).PointOK) {number : Numeral → Code → Nat → Prop} (hN : NumberSpec c ct T s opt number) :
    ∃ rest code v, FloatCall T.spec number (c.eff opt) opt.decimalPoint (textOf c opt s) rest code v ∧ rest.length ≤ (textOf c opt s).length := by
  cases hs : scanNumeral (grammar c opt) (textOf c opt s) with
  | some x =>
    obtain ⟨n, rest⟩ := x
    obtain ⟨k, b, ec, h1, h2⟩ := scan_accepts (T := T) hin hp hs
    exact ⟨_, _, _, .number (scan_munch hs) (hN.holds _ _ _ _ (scan_munch hs) h1.result), scan_rest hs⟩
  | none =>
    have hno : ¬ ∃ n rest, Munch (grammar c opt) (textOf c opt s) n rest := by
      rintro ⟨n, rest, h⟩
      rw [munch_scan hp h] at hs; cases hs
    by_cases hn : noInfNan (c.eff opt) = true
    · exact ⟨_, _, _, .invalid hno (Or.inl hn), le_rfl⟩
    · have hn : noInfNan (c.eff opt) = false := by simpa using hn
      by_cases h1 : ∃ neg rest, InfText (plusFlag (c.eff opt)) (textOf c opt s) neg rest
      · obtain ⟨neg, rest, h1⟩ := h1
        exact ⟨_, _, _, .infinity hn h1, infText_rest h1⟩
      · by_cases h2 : ∃ neg rest, NanText (plusFlag (c.eff opt)) (textOf c opt s) neg rest
        · obtain ⟨neg, rest, h2⟩ := h2
          exact ⟨_, _, _, .nan hn h2, nanText_rest h2⟩
        · exact ⟨_, _, _, .invalid hno (Or.inr ⟨h1, h2⟩), le_rfl⟩

theorem ieee_numberSpec {c : Cfg} {ct : CharType} {T : FloatTy} (hT : T ≠ .float16) {s : List Nat} {opt : Options} (hin : Input ct s)
    (hp : (grammar c opt).PointOK) (hm : ∀ n rest, Munch (grammar c opt) (textOf c opt s) n rest → Moderate n) :
    NumberSpec c ct T s opt (IeeeNumber T.spec) := by
  refine ⟨fun n rest ec b hmu hr => ?_, fun n a b x y => ieee_unique T⟩
  have hs := munch_scan hp hmu
  obtain ⟨k, b', ec', h1, h2⟩ := scan_accepts (T := T) hin hp hs
  have := h1.result.symm.trans hr
  cases this
  obtain ⟨k', h3⟩ := h2.moderate (scan_sound hs).1 (hm _ _ hmu)
  exact codeOut_ieee hT h3

/-- The call returns exactly what the specification says, given what it says about numerals. -/
theorem complete_of {c : Cfg} {ct : CharType} {T : FloatTy} {s : List Nat} {opt : Options} (hin : Input ct s)
    (hp : (grammar c opt).PointOK) {number : Numeral → Code → Nat → Prop} (hN : NumberSpec c ct T s opt number) (r : ApiFloat) :
    fromCharsFloat c ct T.fmt s opt = .ok r ↔
      r.off ≤ s.length ∧ FloatCall T.spec number (c.eff opt) opt.decimalPoint (textOf c opt s) (s.drop r.off) r.ec.code r.value := by
  have hdrop : ∀ rest : List Nat, (∃ p, textOf c opt s = p ++ rest) → s.drop (s.length - rest.length) = rest ∧ s.length - rest.length ≤ s.length := by
    rintro rest ⟨p, hp⟩
    obtain ⟨ws, w1, _⟩ := textOf_suffix c opt s
    rw [hp, ← List.append_assoc] at w1
    refine ⟨?_, by omega⟩
    have : s.length - rest.length = (ws ++ p).length := by rw [w1]; simp; omega
    rw [this]
    conv_lhs => rw [w1, List.drop_left]
  have hsuf : ∀ {rest : List Nat} {code : Code} {v : Option Nat}, FloatCall T.spec number (c.eff opt) opt.decimalPoint (textOf c opt s) rest code v →
      ∃ p, textOf c opt s = p ++ rest := by
    intro rest code v h
    cases h with
    | number text _ => exact ⟨_, text.text⟩
    | infinity _ text =>
      obtain ⟨t, r, h1, ⟨v, rfl, _⟩, h3⟩ := text
      have hr : ∃ p, r = p ++ rest := by
        rcases h3 with ⟨w, rfl, _⟩ | ⟨_, rfl⟩
        · exact ⟨_, rfl⟩
        · exact ⟨[], rfl⟩
      obtain ⟨p, rfl⟩ := hr
      rcases h1 with ⟨_, h⟩ | ⟨_, h⟩ | ⟨_, _, h⟩
      · exact ⟨45 :: v ++ p, by rw [h]; simp⟩
      · exact ⟨v ++ p, by rw [h]; simp⟩
      · exact ⟨43 :: v ++ p, by rw [h]; simp⟩
    | nan _ text =>
      obtain ⟨t, r, h1, ⟨v, rfl, _⟩, h3⟩ := text
      have hr : ∃ p, r = p ++ rest := by
        rcases h3 with ⟨w, _, rfl⟩ | ⟨_, rfl⟩
        · exact ⟨40 :: (w ++ [41]), by simp⟩
        · exact ⟨[], rfl⟩
      obtain ⟨p, rfl⟩ := hr
      rcases h1 with ⟨_, h⟩ | ⟨_, h⟩ | ⟨_, _, h⟩
      · exact ⟨45 :: v ++ p, by rw [h]; simp⟩
      · exact ⟨v ++ p, by rw [h]; simp⟩
      · exact ⟨43 :: v ++ p, by rw [h]; simp⟩
    | invalid _ _ => exact ⟨[], rfl⟩
  constructor
  · intro h
    obtain ⟨rest, code, v, hf, hle⟩ := spec_exists hin hp hN
    obtain ⟨ec, e1, e2⟩ := call_of_spec hin hp hN hf
    have := e2.symm.trans h
    cases this
    obtain ⟨d1, d2⟩ := hdrop rest (hsuf hf)
    simp only
    rw [d1, e1]
    exact ⟨d2, hf⟩
  · rintro ⟨h1, h2⟩
    obtain ⟨ec, e1, e2⟩ := call_of_spec hin hp hN h2
    rw [e2]
    have e3 : ec = r.ec := by
      revert e1; cases ec <;> cases r.ec <;> simp [Errc.code]
    rw [e3, List.length_drop]
    congr 1
    cases r
    simp only [ApiFloat.mk.injEq, and_true]
    simp only at h1
    omega

/-- **C50**: the result of a call for `double`, `float` or `bfloat16_t` is exactly the one specified: for every configuration, character type,
options and text (whose numeral, if any, is not astronomically long), the call returns `r` if and only if the specification relates the text
to the pointer, error code and stored value of `r`. -/
theorem C50_complete (c : Cfg) {ct : CharType} (T : FloatTy) (hT : T ≠ .float16) {s : List Nat} (opt : Options) (hin : Input ct s)
    (hp : (grammar c opt).PointOK) (hm : ∀ n rest, Munch (grammar c opt) (textOf c opt s) n rest → Moderate n) (r : ApiFloat) :
    fromCharsFloat c ct T.fmt s opt = .ok r ↔
      r.off ≤ s.length ∧ FloatCall T.spec (IeeeNumber T.spec) (c.eff opt) opt.decimalPoint (textOf c opt s) (s.drop r.off) r.ec.code r.value :=
  complete_of hin hp (ieee_numberSpec hT hin hp hm) r

theorem short_text_moderate {c : Cfg} {opt : Options} {s : List Nat} (hs : s.length + 400 ≤ 2 ^ 28) :
    ∀ n rest, Munch (grammar c opt) (textOf c opt s) n rest → Moderate n := by
  intro n rest h
  refine short_moderate (g := grammar c opt) ?_ h.text
  obtain ⟨ws, w1, _⟩ := textOf_suffix c opt s
  have := congrArg List.length w1
  rw [List.length_append] at this
  omega

/-- **C50** for texts of less than 268 million characters: no condition on the numeral is left. -/
theorem C50_complete_short (c : Cfg) {ct : CharType} (T : FloatTy) (hT : T ≠ .float16) {s : List Nat} (opt : Options) (hin : Input ct s)
    (hp : (grammar c opt).PointOK) (hs : s.length + 400 ≤ 2 ^ 28) (r : ApiFloat) :
    fromCharsFloat c ct T.fmt s opt = .ok r ↔
      r.off ≤ s.length ∧ FloatCall T.spec (IeeeNumber T.spec) (c.eff opt) opt.decimalPoint (textOf c opt s) (s.drop r.off) r.ec.code r.value := 
  C50_complete c T hT opt hin hp (short_text_moderate hs) r

/-- **C50**: the specification is a function: two results for the same text agree. -/
theorem C50_deterministic (c : Cfg) {ct : CharType} (T : FloatTy) (hT : T ≠ .float16) {s : List Nat} (opt : Options) (hin : Input ct s)
    (hp : (grammar c opt).PointOK) (hs : s.length + 400 ≤ 2 ^ 28) :
    ∃! r : Nat × Errc × Option Nat, r.1 ≤ s.length ∧ FloatCall T.spec (IeeeNumber T.spec) (c.eff opt) opt.decimalPoint (textOf c opt s) (s.drop r.1) r.2.1.code r.2.2 := by
  have h := C50_complete_short c T hT opt hin hp hs
  have hN := ieee_numberSpec (T := T) hT hin hp (short_text_moderate hs)
  obtain ⟨rest, code, v, hf, hle⟩ := spec_exists hin hp hN
  obtain ⟨ec, e1, e2⟩ := call_of_spec hin hp hN hf
  refine ⟨⟨s.length - rest.length, ec, v⟩, (h _).1 e2, ?_⟩
  rintro ⟨a, b, d⟩ hy
  have := (h ⟨a, b, d⟩).2 hy
  rw [e2] at this
  cases this; rfl

example : ∃! r : Nat × Errc × Option Nat, r.1 ≤ sampleText.length ∧
    FloatCall double (IeeeNumber double) (Cfg.x64.eff {}) 46 sampleText (sampleText.drop r.1) r.2.1.code r.2.2 :=
  C50_deterministic Cfg.x64 .double (by decide) {} sample_input sample_point (by decide)

/-- What the facts about the result amount to for `float16_t`. -/
theorem half_core {c : Cfg} {m : Numeral} {k' b : Nat} {ec : Errc} (h4 : CodeOut .float16 m.neg m.value k' b ec)
    (hover : infIdx FloatTy.float16.fmt ≤ k' →
      (ec = .ok ↔ Runtime c ∧ digitsVal m.digits ≤ 2 ^ 11 ∧ m.expVal - ((m.frac.getD []).length : Int) ≤ 4)) : HalfNumber (Runtime c) m ec.code b := by
  have hth : FloatTy.float16.spec.overflowThreshold = 65520 := by
    show half.overflowThreshold = _
    norm_num [Format.overflowThreshold, half, Format.bias]
  have hnn := value_nonneg m
  have hz : k' = 0 ↔ m.value < 1 / 2 ^ 25 := by
    have h1 : FloatTy.float16.spec.val 1 / 2 = 1 / 2 ^ 25 := by
      have := half_val_lin (j := 1) (by norm_num)
      push_cast at this
      show half.val 1 / 2 = _
      rw [this]; norm_num
    by_cases he : m.value = 1 / 2 ^ 25
    · have : k' = 0 + 1 := half_split_unique h4.split16 (Or.inr ⟨0, by norm_num, by norm_num, by rw [he]; norm_num, rfl⟩)
      rw [this, he]; simp
    · rw [h4.zero_iff (fun _ => he), h1]
      exact ⟨fun h => lt_of_le_of_ne h he, le_of_lt⟩
  have hi := h4.inf_iff
  rw [hth] at hi
  refine ⟨fun hx => h4.roundsTo' (fun _ => hx), ?_, ?_, ?_⟩
  · intro j i1 i2 i3
    have hk : k' = j + 1 := half_split_unique h4.split16 (Or.inr ⟨j, i1, i2, i3, rfl⟩)
    have hi : infIdx FloatTy.float16.fmt = 31744 := by decide
    have e1 : half.signBit = 2 ^ FloatTy.float16.fmt.signIdx := FloatTy.float16.signBit_eq
    rw [h4.bits, hk, Nat.min_eq_left (by omega), e1, Nat.add_comm]
  · rcases h4.ecs with e | e <;> rw [e]
    · exact Or.inr rfl
    · exact Or.inl rfl
  · have hec : ec.code = .range ↔ ec = .outOfRange := by cases ec <;> simp [Errc.code]
    rw [hec]
    constructor
    · intro he
      rcases h4.ec1 he with ⟨a, b⟩ | a
      · exact Or.inl ⟨lt_of_le_of_ne hnn (Ne.symm a), hz.1 b⟩
      · refine Or.inr ⟨hi.1 a, fun hc => ?_⟩
        have := (hover a).2 hc
        rw [he] at this; cases this
    · rintro (⟨a1, a2⟩ | ⟨a1, a2⟩)
      · exact h4.ec2 (ne_of_gt a1) (hz.2 a2)
      · rcases h4.ecs with e | e
        · exact absurd ((hover (hi.2 a1)).1 e) a2
        · exact e

theorem half_unique {P : Prop} {n : Numeral} {a b : Nat} {x y : Code} (h1 : HalfNumber P n x a) (h2 : HalfNumber P n y b) : x = y ∧ a = b := by
  constructor
  · rcases h1.error with e | e <;> rcases h2.error with f | f
    · rw [e, f]
    · have := h2.range.2 (h1.range.1 e); rw [f] at this; cases this
    · have := h1.range.2 (h2.range.1 f); rw [e] at this; cases this
    · rw [e, f]
  · by_cases hx : HalfException 16 n.value
    · obtain ⟨j, i1, i2, i3⟩ := hx
      rw [h1.exception j i1 i2 i3, h2.exception j i1 i2 i3]
    · exact roundsToBits_unique .float16 (h1.rounded hx) (h2.rounded hx)

/-- What the code does with a numeral, in terms of the value it works with. -/
theorem half_call {c : Cfg} {ct : CharType} {s : List Nat} {opt : Options} (hin : Input ct s) (hp : (grammar c opt).PointOK) {n : Numeral} {rest : List Nat}
    {ec : Errc} {b : Nat} (hmu : Munch (grammar c opt) (textOf c opt s) n rest)
    (hr : fromCharsFloat c ct binary16 s opt = .ok ⟨s.length - rest.length, ec, some b⟩) :
    ∃ k, CodeOut .float16 n.neg (codeValue n) k b ec ∧ (infIdx FloatTy.float16.fmt ≤ k →
      (ec = .ok ↔ Runtime c ∧ digitsVal n.digits ≤ 2 ^ 11 ∧ satExp n.exp - ((n.frac.getD []).length : Int) ≤ 4)) := by
  have hs := munch_scan hp hmu
  obtain ⟨ec', v, k, h1, h2, h3⟩ := call_number' c .float16 opt hin hp.1 hs
  obtain ⟨ec'', v', k'', g1, g2, g3⟩ := numCore_spec' c hin.wf .float16 (scan_sound hs).1.2.1
  have := g1.symm.trans h1
  cases this
  have := h3.symm.trans hr
  cases this
  have hco := g2.withSign (neg := n.neg)
  refine ⟨k'', hco, fun hk => ?_⟩
  have hth : FloatTy.float16.spec.overflowThreshold = 65520 := by
    show half.overflowThreshold = _
    norm_num [Format.overflowThreshold, half, Format.bias]
  have h5 := g3 hk
  have h6 := hco.inf_iff.1 hk
  rw [hth] at h6
  rw [h5]
  have h7 := fast16_over c (scan_sound hs).1.2.1 h6
  rw [show FloatTy.float16.fmt = binary16 from rfl, h7]
  unfold Runtime
  exact ⟨fun h => ⟨⟨h.1, h.2.1, h.2.2.1⟩, h.2.2.2.1, h.2.2.2.2⟩, fun h => ⟨h.1.1, h.1.2.1, h.1.2.2, h.2.1, h.2.2⟩⟩

theorem half_numberSpec {c : Cfg} {ct : CharType} {s : List Nat} {opt : Options} (hin : Input ct s)
    (hp : (grammar c opt).PointOK) (hm : ∀ n rest, Munch (grammar c opt) (textOf c opt s) n rest → Moderate n) :
    NumberSpec c ct .float16 s opt (HalfNumber (Runtime c)) := by
  refine ⟨fun n rest ec b hmu hr => ?_, fun n a b x y h1 h2 => half_unique h1 h2⟩
  have hs := munch_scan hp hmu
  obtain ⟨k, hco, h5⟩ := half_call hin hp hmu hr
  obtain ⟨k', h4⟩ := hco.moderate (scan_sound hs).1 (hm _ _ hmu)
  have hinf : infIdx FloatTy.float16.fmt ≤ k ↔ infIdx FloatTy.float16.fmt ≤ k' := by
    have e1 := hco.bits
    have e2 := h4.bits
    omega
  refine half_core h4 (fun hk => ?_)
  rw [← sat_le4 (scan_sound hs).1 (hm _ _ hmu)]
  exact h5 (hinf.2 hk)

/-- **C50 for `float16_t`**: the result of a call is exactly the one specified by `HalfNumber`: the deviations from IEEE are the nine exceptional ties
and the overflows that go unreported, and nothing else. -/
theorem C50_float16 (c : Cfg) {ct : CharType} {s : List Nat} (opt : Options) (hin : Input ct s)
    (hp : (grammar c opt).PointOK) (hm : ∀ n rest, Munch (grammar c opt) (textOf c opt s) n rest → Moderate n) (r : ApiFloat) :
    fromCharsFloat c ct binary16 s opt = .ok r ↔
      r.off ≤ s.length ∧ FloatCall half (HalfNumber (Runtime c)) (c.eff opt) opt.decimalPoint (textOf c opt s) (s.drop r.off) r.ec.code r.value :=
  complete_of (T := .float16) hin hp (half_numberSpec hin hp hm) r

/-- `2000e4` at run time: infinity is stored and success is reported. -/
example : FloatCall half (HalfNumber (Runtime Cfg.x64)) (Cfg.x64.eff {}) 46 halfOverText [] .success (some 31744) :=
  ((C50_float16 Cfg.x64 {} halfOver_input sample_point (short_text_moderate (by decide)) ⟨6, .ok, some 31744⟩).1 halfOver_accepts.result).2

/-- The specification applied to the sample text: what it says about the 32 characters of `sampleText` is what the call returns. -/
example : FloatCall double (IeeeNumber double) 5 46 sampleText [120] .success (some (2 ^ 63 + 0x4340000000000001)) :=
  ((C50_complete_short Cfg.x64 .double (by decide) {} sample_input sample_point (by decide) ⟨31, .ok, some (2 ^ 63 + 0x4340000000000001)⟩).1
    sample_accepts.result).2

/-- Why C50 asks for a decimal point that is not a digit: with the point `5` the text `50505050505050505050` (read as an integer, since the digits
are consumed before a point is looked for) is accepted with a value that is not its value - the test for more than 19 digits takes the zeros
after the points as leading zeros, and the 64-bit significand wraps. -/
theorem C50_digit_point :
    fromCharsFloat Cfg.x64 CharType.char binary64 (List.replicate 10 [53, 48]).flatten { decimalPoint := 53 } = .ok ⟨20, .ok, some 4893051866379425368⟩ ∧
    fromCharsFloat Cfg.x64 CharType.char binary64 (List.replicate 10 [53, 48]).flatten {} = .ok ⟨20, .ok, some 4901577962249708950⟩ := by
  constructor <;> decide +kernel

end FastFloat
