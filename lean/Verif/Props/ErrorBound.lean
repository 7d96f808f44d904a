import Verif.Props.HalfExact
import Verif.Props.Pow10
/-
# C57: the error of a conversion
-/
set_option linter.unusedSimpArgs false
namespace FastFloat
open NumSpec FloatSpec ApiSpec

theorem val_inf_mid (T : FloatTy) : T.spec.overflowThreshold * 2 = T.spec.val (T.spec.inf - 1) + T.spec.val T.spec.inf := by
  have h := threshold_eq T.fmatch
  have hp : (0 : ℚ) < 2 ^ ulpExp T.fmt := by positivity
  rw [T.fmatch.inf, val_eq T.fmatch, val_eq T.fmatch, ← add_div, ← h]
  field_simp

/-- The distance of two neighbours. -/
theorem step_le (T : FloatTy) (k : Nat) : T.spec.val (k + 1) - T.spec.val k ≤ max (T.spec.val k / 2 ^ T.spec.fracBits) (T.spec.val 1) := by
  obtain ⟨j, m, rfl, h1, h2⟩ := idx_pos T.fmt.mb k
  have e1 : (T.spec.val 1 : ℚ) = 1 / 2 ^ ulpExp T.fmt := by
    rw [val_eq T.fmatch]
    have : fpVal T.fmt.mb 1 = 1 := by
      have := fpVal_lin T.fmt.mb 0 1 (Or.inl rfl) (by have := Nat.two_pow_pos T.fmt.mb; rw [pow_succ]; omega)
      simpa using this
    rw [this]; norm_num
  rw [val_eq T.fmatch, e1, val_eq T.fmatch, fpVal_lin _ _ _ h1 h2, fpVal_succ _ _ _ h1 h2, T.fmatch.mb]
  have hp : (0 : ℚ) < 2 ^ ulpExp T.fmt := by positivity
  have hb : (0 : ℚ) < 2 ^ T.fmt.mb := by positivity
  have hj : (0 : ℚ) < 2 ^ j := by positivity
  rw [← sub_div]
  have e2 : (((m + 1) * 2 ^ j : Nat) : ℚ) - ((m * 2 ^ j : Nat) : ℚ) = 2 ^ j := by push_cast; ring
  rw [e2]
  rcases h1 with h | h
  · refine le_max_of_le_right ?_
    rw [h]; norm_num
  · refine le_max_of_le_left ?_
    rw [div_div, div_le_div_iff₀ hp (by positivity)]
    have hm : (2 : ℚ) ^ T.fmt.mb ≤ m := by exact_mod_cast h
    push_cast
    nlinarith [mul_le_mul_of_nonneg_right hm (mul_pos hj hp).le]

theorem close_of_nearest (T : FloatTy) {x : ℚ} {b : Nat} (hx0 : 0 ≤ x) (hlt : x < T.spec.overflowThreshold) (hb : b < T.spec.inf)
    (h : ∀ b', b' < T.spec.inf → |x - T.spec.val b| ≤ |x - T.spec.val b'|) : T.spec.Close x b := by
  refine ⟨hb, ?_⟩
  classical
  have hip : 0 < T.spec.inf := by omega
  obtain ⟨k, hk⟩ : ∃ k, Nat.findGreatest (fun i => T.spec.val i ≤ x) (T.spec.inf - 1) = k := ⟨_, rfl⟩
  have hkle : k ≤ T.spec.inf - 1 := by rw [← hk]; exact Nat.findGreatest_le _
  have hval : T.spec.val k ≤ x := by
    rw [← hk]
    exact Nat.findGreatest_spec (P := fun i => T.spec.val i ≤ x) (m := 0) (Nat.zero_le _) (by rw [val_zero]; exact hx0)
  have hstep := step_le T k
  have hnear : |x - T.spec.val b| ≤ (T.spec.val (k + 1) - T.spec.val k) / 2 := by
    have ha := h k (by omega)
    rw [abs_of_nonneg (sub_nonneg.2 hval)] at ha
    rcases Nat.lt_or_ge k (T.spec.inf - 1) with hk' | hk'
    · have hgt : x < T.spec.val (k + 1) := by
        by_contra hc
        push Not at hc
        have := Nat.le_findGreatest (P := fun i => T.spec.val i ≤ x) (show k + 1 ≤ T.spec.inf - 1 by omega) hc
        omega
      have hb' := h (k + 1) (by omega)
      rw [abs_of_neg (sub_neg.2 hgt)] at hb'
      linarith
    · have e : k = T.spec.inf - 1 := by omega
      have e2 : k + 1 = T.spec.inf := by omega
      have := val_inf_mid T
      rw [← e, ← e2] at this
      linarith
  rw [abs_sub_comm]
  refine hnear.trans ?_
  have hb2 : (0 : ℚ) < 2 ^ T.spec.fracBits := by positivity
  rcases le_max_iff.1 hstep with h1 | h1
  · refine le_max_of_le_left ?_
    have h3 : T.spec.val k / 2 ^ T.spec.fracBits ≤ x / 2 ^ T.spec.fracBits := div_le_div_of_nonneg_right hval hb2.le
    rw [pow_succ, ← div_div]
    linarith
  · exact le_max_of_le_right (by linarith)

theorem close_of_rounds (T : FloatTy) {x : ℚ} {b : Nat} (hx0 : 0 ≤ x) (hlt : x < T.spec.overflowThreshold) (h : T.spec.RoundsTo x b) : T.spec.Close x b := by
  rcases h with ⟨h1, _⟩ | ⟨_, h2, h3⟩
  · linarith
  · refine close_of_nearest T hx0 hlt h2 fun b' hb' => ?_
    by_cases e : b' = b
    · rw [e]
    · rcases h3 b' hb' e with h | ⟨h, _⟩
      · exact h.le
      · exact h.le

theorem close_exception {x : ℚ} {j : Nat} (hj : j ≤ 30) (hx : x = (2 * j + 1) / 2 ^ 25) : half.Close x (j + 1) := by
  refine ⟨by have : half.inf = 31744 := by decide
             omega, le_max_of_le_right ?_⟩
  have e : ∀ i : Nat, i < 1024 → half.val i = i / 2 ^ 24 := by
    intro i hi
    unfold Format.val
    have h0 : i / 2 ^ half.fracBits = 0 := Nat.div_eq_of_lt (by show i < 2 ^ 10; omega)
    have h1 : i % 2 ^ half.fracBits = i := Nat.mod_eq_of_lt (by show i < 2 ^ 10; omega)
    simp only [h0, h1, if_true]
    norm_num [half, Format.bias]; ring
  rw [e (j + 1) (by omega), e 1 (by omega), hx]
  have : ((j + 1 : Nat) : ℚ) / 2 ^ 24 - (2 * j + 1) / 2 ^ 25 = 1 / 2 ^ 25 := by push_cast; ring
  rw [this]
  norm_num

/-- **C57**: a number below the overflow threshold is stored with an error of at most half a unit in the last place, in every type - `float16_t`
and its exceptional ties included. -/
theorem C57_error_bound (c : Cfg) {ct : CharType} (T : FloatTy) {s : List Nat} (opt : Options) (hin : Input ct s)
    (hp : (grammar c opt).PointOK) {n : Numeral} {rest : List Nat} {r : ApiFloat}
    (h : AcceptsNumber c ct T s opt n rest r) (hm : Moderate n) (hlt : n.value < T.spec.overflowThreshold) :
    ∃ b, r.value = some ((if n.neg then T.spec.signBit else 0) + b) ∧ T.spec.Close n.value b := by
  have h0 := value_nonneg n
  by_cases hT : T = .float16
  · subst hT
    obtain ⟨⟨b, h1, h2⟩, h3⟩ := C04_float16_sharp c opt hin hp h hm
    by_cases hx : HalfException 16 n.value
    · obtain ⟨j, j1, j2, j3⟩ := hx
      exact ⟨j + 1, h3 j j1 j2 j3, close_exception (by omega) j3⟩
    · obtain ⟨m, h4, h5⟩ := h2.2 hx
      exact ⟨m, by rw [h1, h5]; rfl, close_of_rounds .float16 h0 hlt h4⟩
  · have : ∃ b, r.value = some b ∧ T.spec.RoundsToBits n.neg n.value b := by
      cases T with
      | double => exact C01_double_correctly_rounded c opt hin hp h hm
      | float => exact C02_float_correctly_rounded c opt hin hp h hm
      | bfloat16 => exact C03_bfloat16_correctly_rounded c opt hin hp h hm
      | float16 => exact absurd rfl hT
    obtain ⟨b, h1, m, h4, h5⟩ := this
    exact ⟨m, by rw [h1, h5], close_of_rounds T h0 hlt h4⟩

/-- `0.1` as a float -/
example : ∃ b, (some 1036831949 : Option Nat) = some ((if tenthNumeral.neg then single.signBit else 0) + b) ∧ single.Close tenthNumeral.value b :=
  C57_error_bound Cfg.x64 .float {} tenth_input sample_point tenth_accepts (Or.inl (by decide)) (by
    rw [value_of (n := tenthNumeral) (D := 1) (E := -1) (by decide) (by decide)]
    norm_num [FloatTy.spec, Format.overflowThreshold, single, Format.bias])

/-- a float16 tie on which the result is not the correctly rounded one -/
example : ∃ b, (some 1 : Option Nat) = some ((if tieNumeral.neg then half.signBit else 0) + b) ∧ half.Close tieNumeral.value b :=
  C57_error_bound Cfg.x64 .float16 {} (input_of_bytes (by decide) (by decide)) sample_point tie_accepts (Or.inl (by decide)) (by
    rw [tie_value]
    norm_num [FloatTy.spec, Format.overflowThreshold, half, Format.bias])

/-- **C57** for `integer_times_pow10`. -/
theorem C57_error_bound_pow10 (c : Cfg) (T : FloatTy) (m : Nat) (hm : m < 2 ^ 64) (e : Int) (hlt : (m : ℚ) * 10 ^ e < T.spec.overflowThreshold) :
    ∃ b, integerTimesPow10U c T.fmt m e = .ok b ∧ T.spec.Close ((m : ℚ) * 10 ^ e) b := by
  have h0 : (0 : ℚ) ≤ (m : ℚ) * 10 ^ e := by positivity
  by_cases hT : T = .float16
  · subst hT
    obtain ⟨b, h1, h2, h3⟩ := C32_float16_sharp c m hm e
    refine ⟨b, h1, ?_⟩
    by_cases hx : HalfException 30 ((m : ℚ) * 10 ^ e)
    · obtain ⟨j, j1, j2, j3⟩ := hx
      rw [h3 j j1 j2 j3]
      exact close_exception j2 j3
    · exact close_of_rounds .float16 h0 hlt (h2.2 hx)
  · obtain ⟨b, h1, h2⟩ := C32_integer_times_pow10_unsigned c T hT m hm e
    exact ⟨b, h1, close_of_rounds T h0 hlt h2⟩

/-- `18446744073709551615e-3` -/
example : ∃ b, integerTimesPow10U Cfg.x64 binary64 18446744073709551615 (-3) = .ok b ∧ double.Close (((18446744073709551615 : Nat) : ℚ) * 10 ^ (-3 : Int)) b :=
  C57_error_bound_pow10 Cfg.x64 .double 18446744073709551615 (by norm_num) (-3) (by
    set_option exponentiation.threshold 2000 in norm_num [FloatTy.spec, Format.overflowThreshold, double, Format.bias])

/-- A positive integer of at most `fracBits + 1` bits is a float. -/
theorem small_int_val (T : FloatTy) {N : Nat} (hN : N ≤ 2 ^ (T.spec.fracBits + 1)) : ∃ v, v < T.spec.inf ∧ T.spec.val v = N := by
  have hmb := T.fmatch.mb
  have hulp := T.fmatch.ulp
  have hb : T.spec.fracBits + 1 ≤ T.spec.bias := by cases T <;> decide
  rcases Nat.eq_zero_or_pos N with h0 | h0
  · exact ⟨0, by rw [T.fmatch.inf]; have := inf_pos T; omega, by rw [val_zero, h0]; norm_num⟩
  rw [hmb] at hN
  -- N * 2^ulp as fpVal
  obtain ⟨L, hL1, hL2⟩ : ∃ L, 2 ^ T.fmt.mb ≤ N * 2 ^ L ∧ N * 2 ^ L ≤ 2 ^ (T.fmt.mb + 1) ∧ L ≤ T.fmt.mb := by
    have : ∀ t : Nat, t ≤ T.fmt.mb → 2 ^ (T.fmt.mb - t) ≤ N → ∃ L, 2 ^ T.fmt.mb ≤ N * 2 ^ L ∧ N * 2 ^ L ≤ 2 ^ (T.fmt.mb + 1) ∧ L ≤ T.fmt.mb := by
      intro t
      induction t with
      | zero => intro _ h; exact ⟨0, by simpa using h, by simpa using hN, Nat.zero_le _⟩
      | succ t ih =>
        intro ht h
        rcases Nat.lt_or_ge N (2 ^ (T.fmt.mb - t)) with hc | hc
        · refine ⟨t + 1, ?_, ?_, ht⟩
          · calc 2 ^ T.fmt.mb = 2 ^ (T.fmt.mb - (t + 1)) * 2 ^ (t + 1) := by rw [← pow_add]; congr 1; omega
              _ ≤ _ := Nat.mul_le_mul_right _ h
          · calc N * 2 ^ (t + 1) ≤ 2 ^ (T.fmt.mb - t) * 2 ^ (t + 1) := Nat.mul_le_mul_right _ hc.le
              _ = _ := by rw [← pow_add]; congr 1; omega
        · exact ih (by omega) hc
    exact this T.fmt.mb le_rfl (by rw [Nat.sub_self, pow_zero]; exact h0)
  obtain ⟨hL2, hL3⟩ := hL2
  have hu : L + (ulpExp T.fmt - L) = ulpExp T.fmt := by omega
  refine ⟨(ulpExp T.fmt - L) * 2 ^ T.fmt.mb + N * 2 ^ L, ?_, ?_⟩
  · have hi := T.fmatch.inf
    have hinfb := T.fmatch.infb
    rw [hi]
    unfold infIdx
    calc (ulpExp T.fmt - L) * 2 ^ T.fmt.mb + N * 2 ^ L ≤ (ulpExp T.fmt - L) * 2 ^ T.fmt.mb + 2 * 2 ^ T.fmt.mb := by rw [pow_succ] at hL2; omega
      _ = (ulpExp T.fmt - L + 2) * 2 ^ T.fmt.mb := by ring
      _ < T.fmt.infPow * 2 ^ T.fmt.mb := Nat.mul_lt_mul_of_pos_right (by omega) (Nat.two_pow_pos _)
  · rw [val_eq T.fmatch, fpVal_lin' _ _ _ (Or.inr hL1) hL2]
    have hp : (0 : ℚ) < 2 ^ ulpExp T.fmt := by positivity
    rw [mul_assoc, ← pow_add, hu]
    push_cast
    field_simp

/-- **C57, small integers**: an integer up to `2^p` (`2^53` for double, `2^24` for float, `2^11` for float16, `2^8` for bfloat16) is stored exactly, however
it is spelled. -/
theorem C57_small_integer (c : Cfg) {ct : CharType} (T : FloatTy) {s : List Nat} (opt : Options) (hin : Input ct s)
    (hp : (grammar c opt).PointOK) {n : Numeral} {rest : List Nat} {r : ApiFloat}
    (h : AcceptsNumber c ct T s opt n rest r) (hm : Moderate n) {N : Nat} (hN : N ≤ 2 ^ (T.spec.fracBits + 1)) (hv : n.value = N) :
    ∃ b, r.value = some ((if n.neg then T.spec.signBit else 0) + b) ∧ b < T.spec.inf ∧ T.spec.val b = N := by
  obtain ⟨v, h1, h2⟩ := small_int_val T hN
  exact ⟨v, C11_exact_value c T opt hin hp h hm h1 (by rw [h2, hv]), h1, h2⟩

/-- `1e2` -/
example : ∃ b, (some 4636737291354636288 : Option Nat) = some ((if hundredANumeral.neg then double.signBit else 0) + b) ∧ b < double.inf ∧ double.val b = (100 : Nat) :=
  C57_small_integer Cfg.x64 .double {} hundredA_input sample_point hundredA_accepts (Or.inl (by decide)) (N := 100) (by decide) (by
    rw [value_of (n := hundredANumeral) (D := 1) (E := 2) (by decide) (by decide)]
    norm_num)

end FastFloat
