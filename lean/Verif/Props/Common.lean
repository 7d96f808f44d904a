import Verif.Proofs.Api
/-
# Vocabulary of the property statements
-/
set_option linter.unusedSimpArgs false
namespace FastFloat
open NumSpec FloatSpec ApiSpec

theorem Input.ok {ct : CharType} {s : List Nat} (h : Input ct s) : ∀ u ∈ s, UnitOK ct u := fun u hu => (h.units u hu).ok

theorem Input.body_eq {ct : CharType} {s : List Nat} (h : Input ct s) (c : Cfg) (opt : Options) : codeBody ct (c.eff opt) s = textOf c opt s :=
  codeBody_eq _ h.units

theorem numeral_digit {g : Rules} {n : Numeral} (h : n.WF g) :
    ∃ pre d post, n.text g.point = pre ++ d :: post ∧ pre.length ≤ 2 ∧ IsDigit d := by
  have hne : n.int ≠ [] ∨ (n.int = [] ∧ ∃ d ds, n.frac = some (d :: ds)) := by
    have := h.2.2.1
    split at this
    · exact Or.inl this.1
    · by_cases hi : n.int = []
      · right
        refine ⟨hi, ?_⟩
        simp only [Numeral.digits, hi, List.nil_append] at this
        cases hf : n.frac with
        | none => rw [hf] at this; simp at this
        | some ds => cases ds with
          | nil => rw [hf] at this; simp at this
          | cons d ds => exact ⟨d, ds, rfl⟩
      · exact Or.inl hi
  have hsl : n.sign.toList.length ≤ 1 := by cases n.sign <;> simp
  rcases hne with hi | ⟨hi, d, ds, hf⟩
  · obtain ⟨d, ds, hd⟩ := List.exists_cons_of_ne_nil hi
    refine ⟨n.sign.toList, d, ds ++ Numeral.fracText g.point n.frac ++ Numeral.expText n.exp, ?_, by omega, ?_⟩
    · unfold Numeral.text; rw [hd]; simp
    · exact h.2.1 d (by unfold Numeral.digits; rw [hd]; simp)
  · refine ⟨n.sign.toList ++ [g.point], d, ds ++ Numeral.expText n.exp, ?_, by simpa using hsl, ?_⟩
    · unfold Numeral.text; rw [hi, hf]; simp [Numeral.fracText]
    · exact h.2.1 d (by unfold Numeral.digits; rw [hi, hf]; simp)

theorem startsWith3_nodigit {w t r : List Nat} (hw : Letters w) (hl : w.length = 3) (h : StartsWith w t r) :
    ∃ a b e q, t = a :: b :: e :: q ∧ ¬ IsDigit a ∧ ¬ IsDigit b ∧ ¬ IsDigit e := by
  obtain ⟨v, rfl, hv⟩ := h
  have hvl : v.length = 3 := by rw [← hl, ← hv, List.length_map]
  have hnd : ∀ u ∈ v, ¬ IsDigit u := by
    intro u hu hd
    have := hw (lower u) (by rw [← hv]; exact List.mem_map_of_mem hu)
    unfold IsDigit at hd
    unfold lower at this
    split at this <;> omega
  match v, hvl with
  | [a, b, e], _ => exact ⟨a, b, e, r, rfl, hnd a (by simp), hnd b (by simp), hnd e (by simp)⟩

theorem numeral_not_infnan {g : Rules} {n : Numeral} (h : n.WF g) {t rest : List Nat} (ht : t = n.text g.point ++ rest) {plus neg : Bool}
    {u w r : List Nat} (hs : Signed plus t neg u) (hw : Letters w) (hl : w.length = 3) (hst : StartsWith w u r) : False := by
  obtain ⟨pre, d, post, e1, e2, e3⟩ := numeral_digit h
  obtain ⟨a, b, e, q, rfl, ha, hb, he⟩ := startsWith3_nodigit hw hl hst
  have hget : t[pre.length]? = some d := by rw [ht, e1]; simp
  have h45 : ¬ IsDigit 45 := by unfold IsDigit; omega
  have h43 : ¬ IsDigit 43 := by unfold IsDigit; omega
  have key : ∀ i ≤ 2, ∀ x, t[i]? = some x → ¬ IsDigit x := by
    intro i hi x hx
    rcases hs with ⟨_, rfl⟩ | ⟨_, rfl⟩ | ⟨_, _, rfl⟩ <;>
      (rcases (by omega : i = 0 ∨ i = 1 ∨ i = 2) with rfl | rfl | rfl) <;> simp at hx <;> subst hx <;> assumption
  exact key _ e2 d hget e3

theorem numeral_not_infnan' {c : Cfg} {opt : Options} {s : List Nat} {n : Numeral} {rest : List Nat}
    (h : n.WF (grammar c opt)) (ht : textOf c opt s = n.text (grammar c opt).point ++ rest) : ¬ InfNanText c opt s := by
  rintro (⟨neg, r, u, q, h1, h2, _⟩ | ⟨neg, r, u, q, h1, h2, _⟩)
  · exact numeral_not_infnan h ht h1 letters_inf rfl h2
  · exact numeral_not_infnan h ht h1 letters_nan rfl h2

/-- Outcomes under the standing assumptions. -/
theorem float_cases' (c : Cfg) {ct : CharType} (T : FloatTy) {s : List Nat} (opt : Options) (hin : Input ct s) (hdp : ¬ IsDigit opt.decimalPoint) :
    (∀ n rest, scanNumeral (grammar c opt) (textOf c opt s) = some (n, rest) →
      ∃ k b ec, fromCharsFloat c ct T.fmt s opt = .ok ⟨s.length - rest.length, ec, some b⟩ ∧
        CodeOut T n.neg (codeValue n) k b ec) ∧
    (scanNumeral (grammar c opt) (textOf c opt s) = none →
      (noInfNan (c.eff opt) = true → fromCharsFloat c ct T.fmt s opt =
        .ok ⟨s.length - (textOf c opt s).length, .invalidArgument, none⟩) ∧
      (noInfNan (c.eff opt) = false →
        (∀ neg rest, InfText (plusFlag (c.eff opt)) (textOf c opt s) neg rest →
          fromCharsFloat c ct T.fmt s opt = .ok ⟨s.length - rest.length, .ok, some (infBits T.fmt neg)⟩) ∧
        (∀ neg rest, NanText (plusFlag (c.eff opt)) (textOf c opt s) neg rest →
          fromCharsFloat c ct T.fmt s opt = .ok ⟨s.length - rest.length, .ok, some (nanBits T.fmt neg)⟩) ∧
        (¬ InfNanText c opt s →
          fromCharsFloat c ct T.fmt s opt = .ok ⟨s.length - (textOf c opt s).length, .invalidArgument, none⟩))) := by
  have h := float_cases c hin.wf T opt hin.ok hin.len hdp
  rw [hin.body_eq] at h
  refine ⟨h.1, fun hn => ⟨(h.2 hn).1, fun hi => ?_⟩⟩
  obtain ⟨a1, a2, a3⟩ := (h.2 hn).2 hi
  refine ⟨a1, a2, fun hx => a3 (fun h => hx (Or.inl h)) (fun h => hx (Or.inr h))⟩

theorem accepts_scan {c : Cfg} {ct : CharType} {T : FloatTy} {s : List Nat} {opt : Options} (hin : Input ct s)
    (hp : (grammar c opt).PointOK) {n : Numeral} {rest : List Nat} {r : ApiFloat} (h : AcceptsNumber c ct T s opt n rest r) :
    scanNumeral (grammar c opt) (textOf c opt s) = some (n, rest) := by
  obtain ⟨h1, h2⟩ := float_cases' c T opt hin hp.1
  have hni := numeral_not_infnan' h.longest.1 h.longest.2.1
  cases hs : scanNumeral (grammar c opt) (textOf c opt s) with
  | none =>
    exfalso
    have hr := h.result
    cases hn : noInfNan (c.eff opt) with
    | true =>
      rw [(h2 hs).1 hn] at hr
      cases hr; exact h.accepted rfl
    | false =>
      rw [((h2 hs).2 hn).2.2 hni] at hr
      cases hr; exact h.accepted rfl
  | some x =>
    obtain ⟨m, q⟩ := x
    obtain ⟨rfl, rfl⟩ := longest_eq hp hs h.longest
    rfl

theorem scan_accepts {c : Cfg} {ct : CharType} {T : FloatTy} {s : List Nat} {opt : Options} (hin : Input ct s)
    (hp : (grammar c opt).PointOK) {n : Numeral} {rest : List Nat} (h : scanNumeral (grammar c opt) (textOf c opt s) = some (n, rest)) :
    ∃ k b ec, AcceptsNumber c ct T s opt n rest ⟨s.length - rest.length, ec, some b⟩ ∧ CodeOut T n.neg (codeValue n) k b ec := by
  obtain ⟨k, b, ec, h1, h2⟩ := (float_cases' c T opt hin hp.1).1 n rest h
  refine ⟨k, b, ec, ⟨h1, ?_, scan_longest hp h⟩, h2⟩
  rcases h2.ecs with h | h <;> simp [h]

/-- Everything known about an accepted number. -/
theorem accepts_out {c : Cfg} {ct : CharType} {T : FloatTy} {s : List Nat} {opt : Options} (hin : Input ct s)
    (hp : (grammar c opt).PointOK) {n : Numeral} {rest : List Nat} {r : ApiFloat} (h : AcceptsNumber c ct T s opt n rest r) :
    ∃ k b, r.off = s.length - rest.length ∧ r.value = some b ∧ CodeOut T n.neg (codeValue n) k b r.ec := by
  have hs := accepts_scan hin hp h
  obtain ⟨k, b, ec, h1, h2⟩ := scan_accepts (T := T) hin hp hs
  have := h1.result.symm.trans h.result
  cases this
  exact ⟨k, b, rfl, rfl, h2⟩

/-- The same with respect to the exact value, for numerals that are not astronomically long. -/
theorem accepts_exact {c : Cfg} {ct : CharType} {T : FloatTy} {s : List Nat} {opt : Options} (hin : Input ct s)
    (hp : (grammar c opt).PointOK) {n : Numeral} {rest : List Nat} {r : ApiFloat} (h : AcceptsNumber c ct T s opt n rest r)
    (hm : Moderate n) : ∃ k b, r.off = s.length - rest.length ∧ r.value = some b ∧ CodeOut T n.neg n.value k b r.ec := by
  obtain ⟨k, b, h1, h2, h3⟩ := accepts_out hin hp h
  obtain ⟨k', h4⟩ := h3.moderate h.longest.1 hm
  exact ⟨k', b, h1, h2, h4⟩

theorem value_nonneg (n : Numeral) : 0 ≤ n.value := by unfold Numeral.value; positivity

/-- Bits of a signed magnitude. -/
theorem CodeOut.roundsTo {T : FloatTy} (hT : T ≠ .float16) {neg : Bool} {x : ℚ} {k b : Nat} {ec : Errc} (h : CodeOut T neg x k b ec) :
    T.spec.RoundsToBits neg x b := by
  refine ⟨min k (infIdx T.fmt), roundsTo_of_RN T.fmatch (h.rn hT), ?_⟩
  rw [h.bits, T.signBit_eq, Nat.add_comm]

theorem infIdx_lt_sign (T : FloatTy) : infIdx T.fmt < 2 ^ T.fmt.signIdx := by
  rw [← T.good.signIdx]; unfold infIdx
  exact Nat.mul_lt_mul_of_pos_right (by omega) (Nat.two_pow_pos _)

/-! ### A concrete accepted number, used to show that the hypotheses of the theorems can be met -/

/-- `-9007199254740993.0000000000001x`: just above the midpoint of two doubles; the deciding digit is the 29th, so the call goes
through the truncated mantissa and the big-integer comparison. -/
def sampleText : List Nat := [45, 57, 48, 48, 55, 49, 57, 57, 50, 53, 52, 55, 52, 48, 57, 57, 51, 46, 48, 48, 48, 48, 48, 48, 48, 48, 48, 48, 48, 48, 49, 120]

/-- The numeral in `sampleText`. -/
def sampleNumeral : Numeral := ⟨some 45, [57, 48, 48, 55, 49, 57, 57, 50, 53, 52, 55, 52, 48, 57, 57, 51], some [48, 48, 48, 48, 48, 48, 48, 48, 48, 48, 48, 48, 49], none⟩

theorem sample_input : Input CharType.char sampleText := by
  refine ⟨by decide, ?_, by decide⟩
  have : ∀ u ∈ sampleText, u < 2 ^ 8 := by decide
  intro u hu
  exact ⟨this u hu, fun _ => Or.inl rfl⟩

theorem sample_point : (grammar Cfg.x64 {}).PointOK := by
  have : (grammar Cfg.x64 {}).point = 46 := rfl
  unfold Rules.PointOK IsDigit
  rw [this]; decide

theorem sample_accepts : AcceptsNumber Cfg.x64 CharType.char .double sampleText {} sampleNumeral [120]
    ⟨31, .ok, some (2 ^ 63 + 0x4340000000000001)⟩ := by
  refine ⟨by decide +kernel, by decide, ?_⟩
  apply scan_longest sample_point
  decide +kernel

theorem sample_moderate : Moderate sampleNumeral := Or.inl (by decide)

theorem input_of_bytes {s : List Nat} (h : ∀ u ∈ s, u < 2 ^ 8) (hl : s.length < 2 ^ 62) : Input CharType.char s :=
  ⟨by decide, fun u hu => ⟨h u hu, fun _ => Or.inl rfl⟩, hl⟩

/-- The value of a numeral from its digits and its exponent. -/
theorem value_of {n : Numeral} {D : Nat} {E : Int} (h1 : digitsVal n.digits = D) (h2 : n.expVal - ((n.frac.getD []).length : Int) = E) :
    n.value = D * 10 ^ E := by unfold Numeral.value; rw [h1, h2]

theorem sample_not_infnan : ¬ InfNanText Cfg.x64 {} sampleText :=
  numeral_not_infnan' sample_accepts.longest.1 sample_accepts.longest.2.1

/-- A text of fewer than three characters is not an infinity or a NaN. -/
theorem short_not_infnan {c : Cfg} {opt : Options} {s : List Nat} (h : (textOf c opt s).length < 3) : ¬ InfNanText c opt s := by
  have key : ∀ {plus neg : Bool} {t w a b : List Nat}, Signed plus t neg a → StartsWith w a b → w.length ≤ t.length := by
    intro plus neg t w a b h1 h2
    obtain ⟨v, h3, h4⟩ := h2
    have e1 : v.length = w.length := by rw [← h4, List.length_map]
    have e2 : w.length ≤ a.length := by rw [h3, List.length_append]; omega
    rcases h1 with ⟨_, rfl⟩ | ⟨_, rfl⟩ | ⟨_, _, rfl⟩ <;> simp <;> omega
  rintro (⟨neg, rest, t, r, h1, h2, _⟩ | ⟨neg, rest, t, r, h1, h2, _⟩)
  · have := key h1 h2; simp [wInf] at this; omega
  · have := key h1 h2; simp [wNan] at this; omega

/-- `16777217.00000000000000000001`: just above the midpoint of two floats. -/
def floatText : List Nat := [49, 54, 55, 55, 55, 50, 49, 55, 46, 48, 48, 48, 48, 48, 48, 48, 48, 48, 48, 48, 48, 48, 48, 48, 48, 48, 48, 48, 49]
/-- Its numeral. -/
def floatNumeral : Numeral := ⟨none, [49, 54, 55, 55, 55, 50, 49, 55], some [48, 48, 48, 48, 48, 48, 48, 48, 48, 48, 48, 48, 48, 48, 48, 48, 48, 48, 48, 49], none⟩
theorem float_input : Input CharType.char floatText := input_of_bytes (by decide) (by decide)
theorem float_accepts : AcceptsNumber Cfg.x64 CharType.char .float floatText {} floatNumeral [] ⟨29, .ok, some 1266679809⟩ :=
  ⟨by decide +kernel, by decide, scan_longest sample_point (by decide +kernel)⟩

/-- `257.0000000000000000000001`: just above the midpoint of two bfloat16 values. -/
def bfloatText : List Nat := [50, 53, 55, 46, 48, 48, 48, 48, 48, 48, 48, 48, 48, 48, 48, 48, 48, 48, 48, 48, 48, 48, 48, 48, 48, 49]
/-- Its numeral. -/
def bfloatNumeral : Numeral := ⟨none, [50, 53, 55], some [48, 48, 48, 48, 48, 48, 48, 48, 48, 48, 48, 48, 48, 48, 48, 48, 48, 48, 48, 48, 48, 49], none⟩
theorem bfloat_input : Input CharType.char bfloatText := input_of_bytes (by decide) (by decide)
theorem bfloat_accepts : AcceptsNumber Cfg.x64 CharType.char .bfloat16 bfloatText {} bfloatNumeral [] ⟨26, .ok, some 17281⟩ :=
  ⟨by decide +kernel, by decide, scan_longest sample_point (by decide +kernel)⟩

/-- `2049.0000000000000000000001`: just above the midpoint of two float16 values. -/
def halfText : List Nat := [50, 48, 52, 57, 46, 48, 48, 48, 48, 48, 48, 48, 48, 48, 48, 48, 48, 48, 48, 48, 48, 48, 48, 48, 48, 48, 49]
/-- Its numeral. -/
def halfNumeral : Numeral := ⟨none, [50, 48, 52, 57], some [48, 48, 48, 48, 48, 48, 48, 48, 48, 48, 48, 48, 48, 48, 48, 48, 48, 48, 48, 48, 48, 49], none⟩
theorem half_input : Input CharType.char halfText := input_of_bytes (by decide) (by decide)
theorem half_accepts : AcceptsNumber Cfg.x64 CharType.char .float16 halfText {} halfNumeral [] ⟨27, .ok, some 26625⟩ :=
  ⟨by decide +kernel, by decide, scan_longest sample_point (by decide +kernel)⟩

/-- `340282356779733661637539395458142568448`: exactly the overflow threshold of float. -/
def overText : List Nat := [51, 52, 48, 50, 56, 50, 51, 53, 54, 55, 55, 57, 55, 51, 51, 54, 54, 49, 54, 51, 55, 53, 51, 57, 51, 57, 53, 52, 53, 56, 49, 52, 50, 53, 54, 56, 52, 52, 56]
/-- Its numeral. -/
def overNumeral : Numeral := ⟨none, [51, 52, 48, 50, 56, 50, 51, 53, 54, 55, 55, 57, 55, 51, 51, 54, 54, 49, 54, 51, 55, 53, 51, 57, 51, 57, 53, 52, 53, 56, 49, 52, 50, 53, 54, 56, 52, 52, 56], none, none⟩
theorem over_input : Input CharType.char overText := input_of_bytes (by decide) (by decide)
theorem over_accepts : AcceptsNumber Cfg.x64 CharType.char .float overText {} overNumeral [] ⟨39, .outOfRange, some 2139095040⟩ :=
  ⟨by decide +kernel, by decide, scan_longest sample_point (by decide +kernel)⟩

/-- `-7e-46`: less than half the smallest float. -/
def underText : List Nat := [45, 55, 101, 45, 52, 54]
/-- Its numeral. -/
def underNumeral : Numeral := ⟨some 45, [55], none, some ⟨some 101, some 45, [52, 54]⟩⟩
theorem under_input : Input CharType.char underText := input_of_bytes (by decide) (by decide)
theorem under_accepts : AcceptsNumber Cfg.x64 CharType.char .float underText {} underNumeral [] ⟨6, .outOfRange, some 2147483648⟩ :=
  ⟨by decide +kernel, by decide, scan_longest sample_point (by decide +kernel)⟩

/-- `0.1`: one tenth. -/
def tenthText : List Nat := [48, 46, 49]
/-- Its numeral. -/
def tenthNumeral : Numeral := ⟨none, [48], some [49], none⟩
theorem tenth_input : Input CharType.char tenthText := input_of_bytes (by decide) (by decide)
theorem tenth_accepts : AcceptsNumber Cfg.x64 CharType.char .float tenthText {} tenthNumeral [] ⟨3, .ok, some 1036831949⟩ :=
  ⟨by decide +kernel, by decide, scan_longest sample_point (by decide +kernel)⟩

/-- `0.10000000000000001`: the double nearest to one tenth, printed with 17 digits. -/
def tenth17Text : List Nat := [48, 46, 49, 48, 48, 48, 48, 48, 48, 48, 48, 48, 48, 48, 48, 48, 48, 48, 49]
/-- Its numeral. -/
def tenth17Numeral : Numeral := ⟨none, [48], some [49, 48, 48, 48, 48, 48, 48, 48, 48, 48, 48, 48, 48, 48, 48, 48, 49], none⟩
theorem tenth17_input : Input CharType.char tenth17Text := input_of_bytes (by decide) (by decide)
theorem tenth17_accepts : AcceptsNumber Cfg.x64 CharType.char .double tenth17Text {} tenth17Numeral [] ⟨19, .ok, some 4591870180066957722⟩ :=
  ⟨by decide +kernel, by decide, scan_longest sample_point (by decide +kernel)⟩

/-- `0.100000001`: the float nearest to one tenth, printed with 9 digits. -/
def tenth9Text : List Nat := [48, 46, 49, 48, 48, 48, 48, 48, 48, 48, 49]
/-- Its numeral. -/
def tenth9Numeral : Numeral := ⟨none, [48], some [49, 48, 48, 48, 48, 48, 48, 48, 49], none⟩
theorem tenth9_input : Input CharType.char tenth9Text := input_of_bytes (by decide) (by decide)
theorem tenth9_accepts : AcceptsNumber Cfg.x64 CharType.char .float tenth9Text {} tenth9Numeral [] ⟨11, .ok, some 1036831949⟩ :=
  ⟨by decide +kernel, by decide, scan_longest sample_point (by decide +kernel)⟩

/-- `1e99999999999999999999`: an exponent literal that fits no integer type. -/
def hugeExpText : List Nat := [49, 101, 57, 57, 57, 57, 57, 57, 57, 57, 57, 57, 57, 57, 57, 57, 57, 57, 57, 57, 57, 57]
/-- Its numeral. -/
def hugeExpNumeral : Numeral := ⟨none, [49], none, some ⟨some 101, none, [57, 57, 57, 57, 57, 57, 57, 57, 57, 57, 57, 57, 57, 57, 57, 57, 57, 57, 57, 57]⟩⟩
theorem hugeExp_input : Input CharType.char hugeExpText := input_of_bytes (by decide) (by decide)
theorem hugeExp_accepts : AcceptsNumber Cfg.x64 CharType.char .float hugeExpText {} hugeExpNumeral [] ⟨22, .outOfRange, some 2139095040⟩ :=
  ⟨by decide +kernel, by decide, scan_longest sample_point (by decide +kernel)⟩

/-- `2000e4`: an overflow that float16 does not report. -/
def halfOverText : List Nat := [50, 48, 48, 48, 101, 52]
/-- Its numeral. -/
def halfOverNumeral : Numeral := ⟨none, [50, 48, 48, 48], none, some ⟨some 101, none, [52]⟩⟩
theorem halfOver_input : Input CharType.char halfOverText := input_of_bytes (by decide) (by decide)
theorem halfOver_accepts : AcceptsNumber Cfg.x64 CharType.char .float16 halfOverText {} halfOverNumeral [] ⟨6, .ok, some 31744⟩ :=
  ⟨by decide +kernel, by decide, scan_longest sample_point (by decide +kernel)⟩

/-- `1e2`: one hundred. -/
def hundredAText : List Nat := [49, 101, 50]
/-- Its numeral. -/
def hundredANumeral : Numeral := ⟨none, [49], none, some ⟨some 101, none, [50]⟩⟩
theorem hundredA_input : Input CharType.char hundredAText := input_of_bytes (by decide) (by decide)
theorem hundredA_accepts : AcceptsNumber Cfg.x64 CharType.char .double hundredAText {} hundredANumeral [] ⟨3, .ok, some 4636737291354636288⟩ :=
  ⟨by decide +kernel, by decide, scan_longest sample_point (by decide +kernel)⟩

/-- `100.0`: one hundred again. -/
def hundredBText : List Nat := [49, 48, 48, 46, 48]
/-- Its numeral. -/
def hundredBNumeral : Numeral := ⟨none, [49, 48, 48], some [48], none⟩
theorem hundredB_input : Input CharType.char hundredBText := input_of_bytes (by decide) (by decide)
theorem hundredB_accepts : AcceptsNumber Cfg.x64 CharType.char .double hundredBText {} hundredBNumeral [] ⟨5, .ok, some 4636737291354636288⟩ :=
  ⟨by decide +kernel, by decide, scan_longest sample_point (by decide +kernel)⟩

end FastFloat
