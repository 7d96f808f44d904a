import Verif.Spec.Print
import Verif.Props.Relations
import Verif.Props.HalfExact
import Verif.Props.ErrorBound
/-
# C66: every finite float, written exactly, is read back
-/
set_option linter.unusedSimpArgs false
set_option autoImplicit false
namespace FastFloat
open NumSpec FloatSpec ApiSpec

/-- Nothing that continues a number. -/
def EndsNumber (point : Nat) (rest : List Nat) : Prop :=
  ∀ u t, rest = u :: t → ¬ NumSpec.IsDigit u ∧ u ≠ point ∧ u ≠ 101 ∧ u ≠ 69 ∧ u ≠ 100 ∧ u ≠ 68 ∧ u ≠ 43 ∧ u ≠ 45

theorem munch_of_ends {g : Rules} {n : Numeral} {rest : List Nat} (hwf : n.WF g) (hrest : EndsNumber g.point rest) :
    Munch g (n.text g.point ++ rest) n rest := by
  refine ⟨hwf, rfl, fun u t h => (hrest u t h).1, fun _ _ t h => (hrest _ t h).2.1 rfl, ?_, ?_⟩
  · rintro _ ⟨e, q, w, hq⟩
    obtain ⟨w1, w2, w3, w4⟩ := w
    obtain ⟨m, sg', dd⟩ := e
    unfold Exponent.text at hq
    have hcase : ∃ u t, rest = u :: t ∧ (u = 101 ∨ u = 69 ∨ u = 100 ∨ u = 68 ∨ u = 43 ∨ u = 45) := by
      simp only at w3 w4 hq
      rcases w4 with ⟨_, h | h⟩ | ⟨_, h | h⟩ | ⟨_, h, hs⟩
      · exact ⟨101, _, by rw [hq, h]; rfl, by simp⟩
      · exact ⟨69, _, by rw [hq, h]; rfl, by simp⟩
      · exact ⟨100, _, by rw [hq, h]; rfl, by simp⟩
      · exact ⟨68, _, by rw [hq, h]; rfl, by simp⟩
      · rcases w3 with h' | h' | h'
        · exact absurd h' hs
        · exact ⟨43, _, by rw [hq, h, h']; rfl, by simp⟩
        · exact ⟨45, _, by rw [hq, h, h']; rfl, by simp⟩
    obtain ⟨u, t, hut, hu⟩ := hcase
    have := hrest u t hut
    omega
  · intro _ _ _ u t h
    obtain ⟨_, _, _, _, h5, h6, h7, h8⟩ := hrest u t h
    exact ⟨h5, h6, h7, h8⟩

theorem float16_grid {b : Nat} : half.val b ≠ 1 / 2 ^ 25 := by
  have h := val_eq FloatTy.float16.fmatch b
  change half.val b = _ at h
  have hu : ulpExp FloatTy.float16.fmt = 24 := by decide
  rw [hu] at h
  rw [h]
  intro hc
  rw [div_eq_div_iff (by norm_num) (by norm_num)] at hc
  have : (fpVal FloatTy.float16.fmt.mb b) * 2 ^ 25 = 1 * 2 ^ 24 := by exact_mod_cast hc
  omega

/-- A numeral whose value is a finite float is accepted completely and gives that float, without error, in every type. -/
theorem exact_numeral (c : Cfg) {ct : CharType} (T : FloatTy) {s : List Nat} (opt : Options) (hin : Input ct s) (hp : (grammar c opt).PointOK)
    {n : Numeral} {rest : List Nat} (hm : Munch (grammar c opt) (textOf c opt s) n rest) (hmod : Moderate n) {b : Nat} (hb : b < T.spec.inf)
    (hv : n.value = T.spec.val b) :
    fromCharsFloat c ct T.fmt s opt = .ok ⟨s.length - rest.length, .ok, some ((if n.neg then T.spec.signBit else 0) + b)⟩ := by
  obtain ⟨k, b', ec, hacc, _⟩ := scan_accepts (T := T) hin hp (munch_scan hp hm)
  have h1 := C11_exact_value c T opt hin hp hacc hmod hb hv
  obtain ⟨_, h2, h3⟩ := C06_underflow c T opt hin hp hacc hmod (by rintro rfl; rw [hv]; exact float16_grid)
  have hec : ec = .ok := by
    rcases Nat.eq_zero_or_pos b with h0 | h0
    · exact (h2 (by rw [hv, h0, val_zero])).1
    · refine h3 ?_ ?_
      · rw [hv]
        have e1 := sval_mono T (show 1 ≤ b from h0)
        have e2 := sval_lt T (show 0 < 1 by omega)
        rw [val_zero] at e2
        linarith
      · rw [hv]
        have e0 := val_inf_mid T
        have e1 := sval_mono T (show b ≤ T.spec.inf - 1 by omega)
        have e2 := sval_lt T (show T.spec.inf - 1 < T.spec.inf by omega)
        linarith
  rw [hacc.result, hec]
  simp only at h1
  rw [h1]

theorem val_significand (f : Format) (b : Nat) : f.val b = (f.significand b : ℚ) * 2 ^ f.exponent b / 2 ^ (f.bias + f.fracBits) := by
  unfold Format.val Format.significand Format.exponent
  by_cases h : b / 2 ^ f.fracBits = 0
  · simp only [h, if_true]
    rw [show max 0 1 = 1 from rfl, pow_add]
    field_simp
  · simp only [h, if_false]
    rw [max_eq_left (Nat.one_le_iff_ne_zero.2 h), pow_add]
    push_cast
    field_simp

theorem val_scaled (f : Format) (b : Nat) : f.val b = (f.scaled b : ℚ) / 10 ^ f.decimals b := by
  rw [val_significand]
  unfold Format.scaled Format.decimals
  obtain ⟨E, hE⟩ : ∃ E, f.exponent b = E := ⟨_, rfl⟩
  obtain ⟨B, hB⟩ : ∃ B, f.bias + f.fracBits = B := ⟨_, rfl⟩
  rw [hE, hB]
  push_cast
  rcases Nat.le_total B E with h | h
  · obtain ⟨d, rfl⟩ := Nat.exists_eq_add_of_le h
    rw [show B - (B + d) = 0 by omega, show B + d - B = d by omega, pow_add]
    field_simp
  · obtain ⟨d, rfl⟩ := Nat.exists_eq_add_of_le h
    rw [show E - (E + d) = 0 by omega, show E + d - E = d by omega, pow_add, show (10 : ℚ) = 2 * 5 by norm_num, mul_pow]
    field_simp

theorem digit_ten {u : Nat} (h : IntSpec.digit u < 10) : NumSpec.IsDigit u := by
  unfold IntSpec.digit at h
  unfold NumSpec.IsDigit
  split at h
  · assumption
  · split at h
    · omega
    · split at h <;> omega

theorem decimal_digits (n : Nat) : ∀ u ∈ Format.decimal n, NumSpec.IsDigit u := fun u hu =>
  digit_ten ((render_facts (by omega) (by omega) _ n).2.1 u hu).1

theorem decimal_ne (n : Nat) : Format.decimal n ≠ [] := (render_facts (by omega) (by omega) _ n).2.2

theorem decimal_val (n : Nat) : digitsVal (Format.decimal n) = n := by
  rw [digitsVal_value (decimal_digits n)]
  exact (render_facts (by omega) (by omega) _ n).1

/-- No leading zero. -/
theorem decimal_lead : ∀ (n : Nat) (ds : List Nat), Format.decimal n = 48 :: ds → ds = [] := by
  intro n
  induction n using Nat.strong_induction_on with
  | _ n ih =>
    intro ds h
    unfold Format.decimal at h
    rw [IntSpec.render] at h
    by_cases hn : 2 ≤ 10 ∧ 10 ≤ n
    · rw [dif_pos hn] at h
      obtain ⟨w, hw⟩ : ∃ w, IntSpec.render 10 (fun _ => false) (n / 10) = w := ⟨_, rfl⟩
      have hne := decimal_ne (n / 10)
      change IntSpec.render 10 (fun _ => false) (n / 10) ≠ [] at hne
      cases w with
      | nil => exact absurd hw hne
      | cons a l =>
        rw [hw] at h
        have ha : a = 48 := (List.cons.inj h).1
        subst ha
        have hl := ih (n / 10) (by omega) l hw
        subst hl
        have hv := decimal_val (n / 10)
        unfold Format.decimal at hv
        rw [hw] at hv
        have : digitsVal [48] = 0 := rfl
        omega
    · rw [dif_neg hn] at h
      exact (List.cons.inj h).2.symm

theorem digitsVal_snoc (l : List Nat) (d : Nat) : digitsVal (l ++ [d]) = digitsVal l * 10 + (d - 48) := by
  unfold digitsVal; rw [List.foldl_append]; rfl

theorem digitsVal_app (l : List Nat) : ∀ m : List Nat, digitsVal (l ++ m) = digitsVal l * 10 ^ m.length + digitsVal m := by
  intro m
  induction m using List.reverseRecOn with
  | nil => simp [digitsVal]
  | append_singleton m d ih =>
    rw [← List.append_assoc, digitsVal_snoc, ih, digitsVal_snoc, List.length_append, List.length_singleton, pow_succ]
    ring

theorem lastDigits_facts : ∀ k n, (Format.lastDigits k n).length = k ∧ (∀ u ∈ Format.lastDigits k n, NumSpec.IsDigit u) ∧
    (n < 10 ^ k → digitsVal (Format.lastDigits k n) = n) := by
  intro k
  induction k with
  | zero => intro n; exact ⟨rfl, (by intro u hu; cases hu), (by intro h; simp [Format.lastDigits, digitsVal]; omega)⟩
  | succ k ih =>
    intro n
    obtain ⟨i1, i2, i3⟩ := ih (n / 10)
    refine ⟨by simp [Format.lastDigits, i1], ?_, ?_⟩
    · intro u hu
      unfold Format.lastDigits at hu
      rcases List.mem_append.1 hu with h | h
      · exact i2 u h
      · rw [List.mem_singleton] at h
        unfold NumSpec.IsDigit; omega
    · intro h
      unfold Format.lastDigits
      rw [digitsVal_snoc, i3 (by rw [pow_succ] at h; omega)]
      omega

theorem decimals_small (T : FloatTy) (b : Nat) : T.spec.decimals b < 2 ^ 28 := by
  unfold Format.decimals
  have : T.spec.bias + T.spec.fracBits < 2 ^ 28 := by cases T <;> decide
  omega

theorem signText_head (neg : Bool) (n : Nat) (q : List Nat) : ∃ u, (Format.signText neg ++ Format.decimal n ++ q).head? = some u ∧ ApiSpec.isSpace u = false := by
  obtain ⟨a, l, hl⟩ := List.exists_cons_of_ne_nil (decimal_ne n)
  cases neg with
  | true => exact ⟨45, by simp [Format.signText], by decide⟩
  | false =>
    refine ⟨a, by simp [Format.signText, hl], ?_⟩
    have := decimal_digits n a (by rw [hl]; simp)
    unfold NumSpec.IsDigit at this
    unfold ApiSpec.isSpace
    simp; omega

def signChar (neg : Bool) : Option Nat := if neg then some 45 else none

theorem signChar_toList (neg : Bool) : (signChar neg).toList = Format.signText neg := by cases neg <;> rfl

theorem signChar_ok {g : Rules} (neg : Bool) : signChar neg = none ∨ signChar neg = some 45 ∨ (signChar neg = some 43 ∧ g.plus = true ∧ g.json = false) := by
  cases neg <;> simp [signChar]

theorem signChar_neg (neg : Bool) : (signChar neg == some 45) = neg := by cases neg <;> rfl

/-- **C66**, with an exponent: every finite float of every type, either sign, written exactly as an integer times a power of ten, is read back: the
same bits, no error, and the pointer behind the last character; what follows may be anything that does not continue a number. -/
theorem C66_scientific_text (c : Cfg) {ct : CharType} (T : FloatTy) (opt : Options) (neg : Bool) {b : Nat} (hb : b < T.spec.inf) {rest : List Nat}
    (hrest : EndsNumber opt.decimalPoint rest) (hin : Input ct (T.spec.scientificText neg b ++ rest)) (hp : (grammar c opt).PointOK)
    (hsci : (c.eff opt).testBit 0 = true) (hfix : (c.eff opt).testBit 2 = true) :
    fromCharsFloat c ct T.fmt (T.spec.scientificText neg b ++ rest) opt =
      .ok ⟨(T.spec.scientificText neg b).length, .ok, some ((if neg then T.spec.signBit else 0) + b)⟩ := by
  obtain ⟨k, hk⟩ : ∃ k, T.spec.decimals b = k := ⟨_, rfl⟩
  obtain ⟨N, hN⟩ : ∃ N, T.spec.scaled b = N := ⟨_, rfl⟩
  obtain ⟨n, hn⟩ : ∃ n : Numeral, n = ⟨signChar neg, Format.decimal N, none, if k = 0 then none else some ⟨some 101, some 45, Format.decimal k⟩⟩ := ⟨_, rfl⟩
  have htext : T.spec.scientificText neg b = n.text (grammar c opt).point := by
    unfold Format.scientificText Numeral.text
    rw [hn, hk, hN]
    simp only [signChar_toList, Numeral.fracText, List.append_nil]
    split
    · rfl
    · rfl
  have hval : n.value = T.spec.val b := by
    rw [val_scaled, hk, hN]
    unfold Numeral.value
    rw [hn]
    simp only [Numeral.digits, Option.getD_none, List.append_nil, decimal_val, List.length_nil, Numeral.expVal]
    by_cases h : k = 0
    · simp [h]
    · simp only [if_neg h, Exponent.val, if_true, decimal_val]
      rw [show -(k : Int) - ((0 : Nat) : Int) = -(k : Int) by simp, zpow_neg, zpow_natCast]
      rfl
  have hwf : n.WF (grammar c opt) := by
    rw [hn]
    refine ⟨signChar_ok neg, ?_, ?_, ?_⟩
    · intro u hu
      exact decimal_digits N u (by simpa [Numeral.digits] using hu)
    · split
      · exact ⟨decimal_ne N, decimal_lead N, by simp⟩
      · simpa [Numeral.digits] using decimal_ne N
    · by_cases h : k = 0
      · simp only [if_pos h]
        rintro ⟨_, hf⟩
        change (c.eff opt).testBit 2 = false at hf
        rw [hfix] at hf; cases hf
      · simp only [if_neg h]
        exact ⟨decimal_ne k, decimal_digits k, by simp, Or.inl ⟨hsci, Or.inl rfl⟩⟩
  have hmod : Moderate n := by
    refine Or.inr ?_
    rw [hn]
    simp only [Numeral.expVal]
    have := decimals_small T b
    by_cases h : k = 0
    · simp [h]
    · simp only [if_neg h, Exponent.val, if_true, decimal_val]
      rw [abs_neg, Nat.abs_cast]
      rw [hk] at this
      exact_mod_cast this
  have ht : textOf c opt (T.spec.scientificText neg b ++ rest) = T.spec.scientificText neg b ++ rest := by
    obtain ⟨u, h1, h2⟩ := signText_head neg N ((if k = 0 then [] else [101, 45] ++ Format.decimal k) ++ rest)
    refine textOf_head c opt ?_ h2
    rw [← h1]
    unfold Format.scientificText
    rw [hk, hN, List.append_assoc]
  have hmu : Munch (grammar c opt) (textOf c opt (T.spec.scientificText neg b ++ rest)) n rest := by
    rw [ht, htext]
    exact munch_of_ends hwf hrest
  rw [exact_numeral c T opt hin hp hmu hmod hb hval]
  have e1 : n.neg = neg := by rw [hn]; exact signChar_neg neg
  rw [e1, List.length_append, Nat.add_sub_cancel]

/-- **C66**, without an exponent: the same for the full decimal expansion with the decimal point in force (`%.1074f` for the smallest double), which
every format but "scientific only" accepts, JSON included. -/
theorem C66_fixed_text (c : Cfg) {ct : CharType} (T : FloatTy) (opt : Options) (neg : Bool) {b : Nat} (hb : b < T.spec.inf) {rest : List Nat}
    (hrest : EndsNumber opt.decimalPoint rest) (hin : Input ct (T.spec.fixedText opt.decimalPoint neg b ++ rest)) (hp : (grammar c opt).PointOK)
    (hfix : (c.eff opt).testBit 2 = true ∨ (c.eff opt).testBit 0 = false) :
    fromCharsFloat c ct T.fmt (T.spec.fixedText opt.decimalPoint neg b ++ rest) opt =
      .ok ⟨(T.spec.fixedText opt.decimalPoint neg b).length, .ok, some ((if neg then T.spec.signBit else 0) + b)⟩ := by
  obtain ⟨k, hk⟩ : ∃ k, T.spec.decimals b = k := ⟨_, rfl⟩
  obtain ⟨N, hN⟩ : ∃ N, T.spec.scaled b = N := ⟨_, rfl⟩
  obtain ⟨n, hn⟩ : ∃ n : Numeral, n = ⟨signChar neg, Format.decimal (N / 10 ^ k), if k = 0 then none else some (Format.lastDigits k (N % 10 ^ k)), none⟩ := ⟨_, rfl⟩
  obtain ⟨l1, l2, l3⟩ := lastDigits_facts k (N % 10 ^ k)
  have l3 := l3 (Nat.mod_lt _ (by positivity))
  have htext : T.spec.fixedText opt.decimalPoint neg b = n.text (grammar c opt).point := by
    unfold Format.fixedText Numeral.text
    rw [hn, hk, hN]
    simp only [signChar_toList, Numeral.expText, List.append_nil]
    split
    · rfl
    · rfl
  have hval : n.value = T.spec.val b := by
    rw [val_scaled, hk, hN]
    unfold Numeral.value
    rw [hn]
    simp only [Numeral.digits, Numeral.expVal]
    by_cases h : k = 0
    · simp [h, decimal_val]
    · simp only [if_neg h, Option.getD_some, l1, digitsVal_app, decimal_val, l3]
      rw [show (0 : Int) - (k : Int) = -(k : Int) by simp, zpow_neg, zpow_natCast, Nat.mul_comm, Nat.div_add_mod]
      rfl
  have hwf : n.WF (grammar c opt) := by
    rw [hn]
    refine ⟨signChar_ok neg, ?_, ?_, ?_⟩
    · intro u hu
      unfold Numeral.digits at hu
      rcases List.mem_append.1 hu with h | h
      · exact decimal_digits _ u h
      · by_cases h0 : k = 0
        · simp [h0] at h
        · simp only [if_neg h0, Option.getD_some] at h
          exact l2 u h
    · split
      · refine ⟨decimal_ne _, decimal_lead _, ?_⟩
        by_cases h0 : k = 0
        · simp [h0]
        · simp only [if_neg h0]
          intro hc
          rw [Option.some.inj hc] at l1
          simp at l1; omega
      · intro hc
        unfold Numeral.digits at hc
        exact decimal_ne _ (List.append_eq_nil_iff.1 hc).1
    · rintro ⟨hs, hf⟩
      change (c.eff opt).testBit 2 = false at hf
      change (c.eff opt).testBit 0 = true at hs
      rcases hfix with h | h
      · rw [hf] at h; cases h
      · rw [hs] at h; cases h
  have hmod : Moderate n := by
    refine Or.inr ?_
    rw [hn]
    simp [Numeral.expVal]
  have ht : textOf c opt (T.spec.fixedText opt.decimalPoint neg b ++ rest) = T.spec.fixedText opt.decimalPoint neg b ++ rest := by
    obtain ⟨u, h1, h2⟩ := signText_head neg (N / 10 ^ k) ((if k = 0 then [] else opt.decimalPoint :: Format.lastDigits k (N % 10 ^ k)) ++ rest)
    refine textOf_head c opt ?_ h2
    rw [← h1]
    unfold Format.fixedText
    rw [hk, hN, List.append_assoc]
  have hmu : Munch (grammar c opt) (textOf c opt (T.spec.fixedText opt.decimalPoint neg b ++ rest)) n rest := by
    rw [ht, htext]
    exact munch_of_ends hwf hrest
  rw [exact_numeral c T opt hin hp hmu hmod hb hval]
  have e1 : n.neg = neg := by rw [hn]; exact signChar_neg neg
  rw [e1, List.length_append, Nat.add_sub_cancel]

/-- The texts of the float16 -1.5, spelled out. -/
theorem minus_three_halves : half.scientificText true 15872 = [45, 49, 53, 48, 48, 48, 48, 48, 48, 48, 48, 48, 101, 45, 49, 48] ∧
    half.fixedText 46 true 15872 = [45, 49, 46, 53, 48, 48, 48, 48, 48, 48, 48, 48, 48] := by decide +kernel

/-- A case of C66: the float16 -1.5, followed by a comma. -/
example : fromCharsFloat Cfg.x64 CharType.char binary16 ([45, 49, 53, 48, 48, 48, 48, 48, 48, 48, 48, 48, 101, 45, 49, 48] ++ [44]) {} = .ok ⟨16, .ok, some 48640⟩ := by
  have h := C66_scientific_text Cfg.x64 .float16 {} true (b := 15872) (by decide) (rest := [44]) (ct := CharType.char)
    (by rintro u t ⟨⟩; decide) (by rw [show FloatTy.float16.spec = half from rfl, minus_three_halves.1]; exact input_of_bytes (by decide) (by decide))
    sample_point (by decide) (by decide)
  rw [show FloatTy.float16.spec = half from rfl, minus_three_halves.1] at h
  exact h

/-- A case of C66: the smallest float16, `0.000000059604644775390625`, in the JSON format. -/
example : fromCharsFloat Cfg.x64 CharType.char binary16 [48, 46, 48, 48, 48, 48, 48, 48, 48, 53, 57, 54, 48, 52, 54, 52, 52, 55, 55, 53, 51, 57, 48, 54, 50, 53]
    { format := 53 } = .ok ⟨26, .ok, some 1⟩ := by
  have e : half.fixedText 46 false 1 = [48, 46, 48, 48, 48, 48, 48, 48, 48, 53, 57, 54, 48, 52, 54, 52, 52, 55, 55, 53, 51, 57, 48, 54, 50, 53] := by
    decide +kernel
  have h := C66_fixed_text Cfg.x64 .float16 { format := 53 } false (b := 1) (by decide) (rest := []) (ct := CharType.char)
    (by rintro u t ⟨⟩)
    (by rw [show FloatTy.float16.spec.fixedText _ _ _ = half.fixedText 46 false 1 from rfl, e]; exact input_of_bytes (by decide) (by decide))
    sample_point (by decide)
  rw [show FloatTy.float16.spec.fixedText _ _ _ = half.fixedText 46 false 1 from rfl, e] at h
  exact h

end FastFloat
