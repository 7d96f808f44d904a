import Verif.Props.Common
import Verif.Proofs.Half
/-
# C01-C07, C09-C11, C42, C44: the stored value and the error code of an accepted number
-/
set_option linter.unusedSimpArgs false
namespace FastFloat
open NumSpec FloatSpec ApiSpec

section helpers

/-- Either not binary16, or not one of the nine ties on which binary16 goes wrong. -/
def Faithful (T : FloatTy) (x : ℚ) : Prop := T = .float16 → ¬ HalfException 16 x

theorem CodeOut.split16 {neg : Bool} {x : ℚ} {k b : Nat} {ec : Errc} (h : CodeOut .float16 neg x k b ec) :
    (¬ HalfException 16 x ∧ RN 10 (x * 2 ^ 24) k) ∨ ∃ j : Nat, j % 2 = 0 ∧ j ≤ 16 ∧ x = (2 * j + 1) / 2 ^ 25 ∧ k = j + 1 := by
  have := h.rounded
  rw [ulp16] at this
  exact Tie16.split this h.tie

theorem CodeOut.withSign {T : FloatTy} {neg : Bool} {x : ℚ} {k b : Nat} {ec : Errc} (h : CodeOut T false x k b ec) :
    CodeOut T neg x k (b + if neg then 2 ^ T.fmt.signIdx else 0) ec :=
  ⟨h.rounded, h.rn, h.tie, by rw [h.bits]; simp, h.ecs, h.ec1, h.ec2, h.ec3⟩

theorem CodeOut.rn' {T : FloatTy} {neg : Bool} {x : ℚ} {k b : Nat} {ec : Errc} (h : CodeOut T neg x k b ec) (hx : Faithful T x) :
    RN T.fmt.mb (x * 2 ^ ulpExp T.fmt) k := by
  by_cases hT : T = .float16
  · subst hT
    rw [ulp16]
    rcases h.split16 with ⟨_, h⟩ | ⟨j, a1, a2, a3, _⟩
    · exact h
    · exact absurd ⟨j, a1, a2, a3⟩ (hx rfl)
  · exact h.rn hT

/-- The index is a function of the value. -/
theorem CodeOut.index_unique {T : FloatTy} {neg neg' : Bool} {x : ℚ} {k k' b b' : Nat} {ec ec' : Errc} (h : CodeOut T neg x k b ec)
    (h' : CodeOut T neg' x k' b' ec') : k = k' := by
  by_cases hT : T = .float16
  · subst hT; exact half_split_unique h.split16 h'.split16
  · exact RN.unique (h.rn hT) (h'.rn hT)

/-- Monotonicity, also on the exceptions. -/
theorem CodeOut.index_mono {T : FloatTy} {neg neg' : Bool} {x y : ℚ} {k k' b b' : Nat} {ec ec' : Errc} (h : CodeOut T neg x k b ec)
    (h' : CodeOut T neg' y k' b' ec') (hxy : x ≤ y) : k ≤ k' := by
  rcases lt_or_eq_of_le hxy with hlt | rfl
  · exact h.rounded.mono_lt h'.rounded (mul_lt_mul_of_pos_right hlt (by positivity))
  · exact (h.index_unique h').le

theorem CodeOut.roundsTo' {T : FloatTy} {neg : Bool} {x : ℚ} {k b : Nat} {ec : Errc} (h : CodeOut T neg x k b ec) (hx : Faithful T x) :
    T.spec.RoundsToBits neg x b := by
  refine ⟨min k (infIdx T.fmt), roundsTo_of_RN T.fmatch (h.rn' hx), ?_⟩
  rw [h.bits, T.signBit_eq, Nat.add_comm]

theorem roundsTo_inf {f : Format} {x : ℚ} {b : Nat} (h : f.RoundsTo x b) : b = f.inf ↔ f.overflowThreshold ≤ x := by
  rcases h with ⟨h1, h2⟩ | ⟨h1, h2, _⟩
  · exact ⟨fun _ => h1, fun _ => h2⟩
  · exact ⟨fun h => absurd h (by omega), fun h => absurd h (not_le.2 h1)⟩

theorem val_one (T : FloatTy) : T.spec.val 1 = 1 / 2 ^ ulpExp T.fmt := by
  rw [val_eq T.fmatch]
  have : fpVal T.fmt.mb 1 = 1 := by
    have := fpVal_lin' T.fmt.mb 0 1 (Or.inl rfl) (Nat.one_le_two_pow); simpa using this
  rw [this]; norm_num

theorem rn_zero {T : FloatTy} {x : ℚ} {k : Nat} (h : RN T.fmt.mb (x * 2 ^ ulpExp T.fmt) k) : k = 0 ↔ x ≤ T.spec.val 1 / 2 := by
  have hp : (0 : ℚ) < 2 ^ ulpExp T.fmt := by positivity
  have e0 : fpVal T.fmt.mb 0 = 0 := by
    simp [fpVal]
  have e1 : fpVal T.fmt.mb 1 = 1 := by
    have := fpVal_lin' T.fmt.mb 0 1 (Or.inl rfl) (Nat.one_le_two_pow); simpa using this
  rw [val_one]
  have key : x ≤ 1 / 2 ^ ulpExp T.fmt / 2 ↔ 2 * (x * 2 ^ ulpExp T.fmt) ≤ 1 := by
    rw [div_div, le_div_iff₀ (by positivity)]
    constructor <;> intro h <;> linarith
  rw [key]
  constructor
  · rintro rfl
    have := (h.high (show 0 < 1 by norm_num)).1
    rw [e0, e1] at this; push_cast at this; linarith
  · intro hx
    by_contra hk
    have a := h.low (show 0 < k by omega)
    have hk1 : (1 : ℚ) ≤ fpVal T.fmt.mb k := by
      have : fpVal T.fmt.mb 1 ≤ fpVal T.fmt.mb k := fpVal_mono (by omega)
      rw [e1] at this; exact_mod_cast this
    rw [e0] at a; push_cast at a
    rcases Nat.lt_or_ge 1 k with h1 | h1
    · have : (1 : ℚ) < fpVal T.fmt.mb k := by
        have : fpVal T.fmt.mb 1 < fpVal T.fmt.mb k := fpVal_strictMono h1
        rw [e1] at this; exact_mod_cast this
      linarith [a.1]
    · have : k = 1 := by omega
      have := a.2 (by omega)
      linarith

theorem rn_inf {T : FloatTy} {x : ℚ} {k : Nat} (h : RN T.fmt.mb (x * 2 ^ ulpExp T.fmt) k) :
    infIdx T.fmt ≤ k ↔ T.spec.overflowThreshold ≤ x := by
  have := roundsTo_inf (roundsTo_of_RN T.fmatch h)
  rw [← this, T.fmatch.inf]
  omega

/-- Infinity is stored exactly from the threshold on, also for float16. -/
theorem CodeOut.inf_iff {T : FloatTy} {neg : Bool} {x : ℚ} {k b : Nat} {ec : Errc} (h : CodeOut T neg x k b ec) :
    infIdx T.fmt ≤ k ↔ T.spec.overflowThreshold ≤ x := by
  by_cases hf : Faithful T x
  · exact rn_inf (h.rn' hf)
  · have hT : T = .float16 := by by_contra hT; exact hf (fun h => absurd h hT)
    subst hT
    rcases h.split16 with ⟨h, _⟩ | ⟨j, a1, a2, a3, a4⟩
    · exact absurd (fun _ => h) hf
    · have h1 : infIdx FloatTy.float16.fmt = 31744 := by decide
      have h2 : half.overflowThreshold = 65520 := by norm_num [Format.overflowThreshold, FloatSpec.half, Format.bias]
      have h3 := (exception_lt (J := 16) (by norm_num) ⟨j, a1, a2, a3⟩).2
      constructor
      · intro h; omega
      · intro h
        exfalso
        have h : (65520 : ℚ) ≤ x := by rw [← h2]; exact h
        norm_num at h3
        linarith

/-- Zero is stored exactly up to half the smallest subnormal; for float16 that half itself is stored as the smallest subnormal. -/
theorem CodeOut.zero_iff {T : FloatTy} {neg : Bool} {x : ℚ} {k b : Nat} {ec : Errc} (h : CodeOut T neg x k b ec)
    (hx : T = .float16 → x ≠ 1 / 2 ^ 25) : k = 0 ↔ x ≤ T.spec.val 1 / 2 := by
  by_cases hf : Faithful T x
  · exact rn_zero (h.rn' hf)
  · have hT : T = .float16 := by by_contra hT; exact hf (fun h => absurd h hT)
    subst hT
    rcases h.split16 with ⟨h, _⟩ | ⟨j, a1, a2, a3, a4⟩
    · exact absurd (fun _ => h) hf
    · have h1 : FloatTy.float16.spec.val 1 = 1 / 2 ^ 24 := by
        have := half_val_lin (j := 1) (by norm_num); push_cast at this; exact this
      rw [h1]
      have hj : 1 ≤ j := by
        rcases Nat.eq_zero_or_pos j with h0 | h0
        · exfalso; apply hx rfl; rw [a3, h0]; norm_num
        · exact h0
      have hj : (1 : ℚ) ≤ j := by exact_mod_cast hj
      constructor
      · intro h; omega
      · intro h
        exfalso
        rw [a3] at h
        norm_num at h
        linarith

theorem inf_pos (T : FloatTy) : 1 < infIdx T.fmt := by
  have := infIdx_gt T.good; have := Nat.two_pow_pos T.fmt.mb; omega

theorem val_one_lt_threshold (T : FloatTy) : T.spec.val 1 / 2 < T.spec.overflowThreshold := by
  have h := RN_exact T.fmt.mb 0
  have hx : ((fpVal T.fmt.mb 0 : Nat) : ℚ) = T.spec.val 1 / 2 * 0 * 2 ^ ulpExp T.fmt := by
    have e0 : fpVal T.fmt.mb 0 = 0 := by
      simp [fpVal]
    rw [e0]; simp
  by_contra hc
  push Not at hc
  obtain ⟨k, hk⟩ := RN_exists (mb := T.fmt.mb) T.good.mb1 (T.spec.val 1 / 2 * 2 ^ ulpExp T.fmt) (by rw [val_one]; positivity)
  have h1 := (rn_zero hk).2 le_rfl
  have h2 := (rn_inf hk).2 hc
  have := inf_pos T
  omega

end helpers

/-! ### C01-C04: correct rounding -/

/-- **C01**: an accepted number is stored as the correctly rounded double. -/
theorem C01_double_correctly_rounded (c : Cfg) {ct : CharType} {s : List Nat} (opt : Options) (hin : Input ct s)
    (hp : (grammar c opt).PointOK) {n : Numeral} {rest : List Nat} {r : ApiFloat}
    (h : AcceptsNumber c ct .double s opt n rest r) (hm : Moderate n) :
    ∃ b, r.value = some b ∧ double.RoundsToBits n.neg n.value b := by
  obtain ⟨k, b, _, h2, h3⟩ := accepts_exact hin hp h hm
  exact ⟨b, h2, h3.roundsTo (by decide)⟩

/-- The hypotheses are met by the sample number (29 digits, deciding digit last). -/
example : ∃ b, (some (2 ^ 63 + 0x4340000000000001) : Option Nat) = some b ∧ double.RoundsToBits sampleNumeral.neg sampleNumeral.value b :=
  C01_double_correctly_rounded Cfg.x64 {} sample_input sample_point sample_accepts sample_moderate

/-- **C02**: an accepted number is stored as the correctly rounded float. -/
theorem C02_float_correctly_rounded (c : Cfg) {ct : CharType} {s : List Nat} (opt : Options) (hin : Input ct s)
    (hp : (grammar c opt).PointOK) {n : Numeral} {rest : List Nat} {r : ApiFloat}
    (h : AcceptsNumber c ct .float s opt n rest r) (hm : Moderate n) :
    ∃ b, r.value = some b ∧ single.RoundsToBits n.neg n.value b := by
  obtain ⟨k, b, _, h2, h3⟩ := accepts_exact hin hp h hm
  exact ⟨b, h2, h3.roundsTo (by decide)⟩

/-- `16777217.00000000000000000001`: the deciding digit is the 28th. -/
example : ∃ b, (some 1266679809 : Option Nat) = some b ∧ single.RoundsToBits floatNumeral.neg floatNumeral.value b :=
  C02_float_correctly_rounded Cfg.x64 {} float_input sample_point float_accepts (Or.inl (by decide))

/-- **C03**: an accepted number is stored as the correctly rounded bfloat16. -/
theorem C03_bfloat16_correctly_rounded (c : Cfg) {ct : CharType} {s : List Nat} (opt : Options) (hin : Input ct s)
    (hp : (grammar c opt).PointOK) {n : Numeral} {rest : List Nat} {r : ApiFloat}
    (h : AcceptsNumber c ct .bfloat16 s opt n rest r) (hm : Moderate n) :
    ∃ b, r.value = some b ∧ bfloat.RoundsToBits n.neg n.value b := by
  obtain ⟨k, b, _, h2, h3⟩ := accepts_exact hin hp h hm
  exact ⟨b, h2, h3.roundsTo (by decide)⟩

/-- `257.0000000000000000000001` -/
example : ∃ b, (some 17281 : Option Nat) = some b ∧ bfloat.RoundsToBits bfloatNumeral.neg bfloatNumeral.value b :=
  C03_bfloat16_correctly_rounded Cfg.x64 {} bfloat_input sample_point bfloat_accepts (Or.inl (by decide))

/-- **C04, partial**: for float16 the value is correctly rounded unless it is one of the nine ties `(2j+1)/2^25`, `j` even and at most 16.
The full statement is false exactly there: `C04_float16_sharp`, `C04_float16_counterexample`. -/
theorem C04_float16_correctly_rounded_partial (c : Cfg) {ct : CharType} {s : List Nat} (opt : Options) (hin : Input ct s)
    (hp : (grammar c opt).PointOK) {n : Numeral} {rest : List Nat} {r : ApiFloat}
    (h : AcceptsNumber c ct .float16 s opt n rest r) (hm : Moderate n) (hx : ¬ HalfException 16 n.value) :
    ∃ b, r.value = some b ∧ half.RoundsToBits n.neg n.value b := by
  obtain ⟨k, b, _, h2, h3⟩ := accepts_exact hin hp h hm
  exact ⟨b, h2, h3.roundsTo' (fun _ => hx)⟩

theorem half_no_tie : ¬ HalfException 16 halfNumeral.value := by
  intro h
  have := (exception_lt (by norm_num) h).2
  rw [value_of (n := halfNumeral) (D := 20490000000000000000000001) (E := -22) (by decide) (by decide)] at this
  norm_num at this

/-- `2049.0000000000000000000001` -/
example : ∃ b, (some 26625 : Option Nat) = some b ∧ half.RoundsToBits halfNumeral.neg halfNumeral.value b :=
  C04_float16_correctly_rounded_partial Cfg.x64 {} half_input sample_point half_accepts (Or.inl (by decide)) half_no_tie

/-- **C04, sharp**: a float16 is stored correctly rounded if and only if the value is not one of the nine exceptions, whatever the spelling;
on an exception the upper (odd) neighbour is stored. -/
theorem C04_float16_sharp (c : Cfg) {ct : CharType} {s : List Nat} (opt : Options) (hin : Input ct s)
    (hp : (grammar c opt).PointOK) {n : Numeral} {rest : List Nat} {r : ApiFloat}
    (h : AcceptsNumber c ct .float16 s opt n rest r) (hm : Moderate n) :
    (∃ b, r.value = some b ∧ (half.RoundsToBits n.neg n.value b ↔ ¬ HalfException 16 n.value)) ∧
    ∀ j : Nat, j % 2 = 0 → j ≤ 16 → n.value = (2 * j + 1) / 2 ^ 25 → r.value = some ((if n.neg then half.signBit else 0) + (j + 1)) := by
  obtain ⟨k, b, _, h2, h3⟩ := accepts_exact hin hp h hm
  have hi : infIdx FloatTy.float16.fmt = 31744 := by decide
  have e1 : half.signBit = 2 ^ FloatTy.float16.fmt.signIdx := FloatTy.float16.signBit_eq
  refine ⟨⟨b, h2, ?_, fun hx => h3.roundsTo' (fun _ => hx)⟩, ?_⟩
  · rintro ⟨b', hr, hb⟩
    rcases h3.split16 with ⟨h, _⟩ | ⟨j, a1, a2, a3, a4⟩
    · exact h
    · exfalso
      rw [a3] at hr
      rw [h3.bits, a4, Nat.min_eq_left (by omega), ← e1] at hb
      have hb : b' = j + 1 := by omega
      rw [hb] at hr
      exact exception_not_rounded (by omega) a1 hr
  · intro j i1 i2 i3
    have hk : k = j + 1 := half_split_unique h3.split16 (Or.inr ⟨j, i1, i2, i3, rfl⟩)
    rw [h2, h3.bits, hk, Nat.min_eq_left (by omega), e1, Nat.add_comm]

/-- "298023223876953125e-25", exactly half the smallest positive float16. -/
def tieText : List Nat := [50, 57, 56, 48, 50, 51, 50, 50, 51, 56, 55, 54, 57, 53, 51, 49, 50, 53, 101, 45, 50, 53]
/-- Its numeral. -/
def tieNumeral : Numeral :=
  ⟨none, [50, 57, 56, 48, 50, 51, 50, 50, 51, 56, 55, 54, 57, 53, 51, 49, 50, 53], none, some ⟨some 101, some 45, [50, 53]⟩⟩

theorem tie_accepts : AcceptsNumber Cfg.x64 CharType.char .float16 tieText {} tieNumeral [] ⟨22, .ok, some 1⟩ :=
  ⟨by decide +kernel, by decide, scan_longest sample_point (by decide +kernel)⟩

theorem tie_value : tieNumeral.value = 1 / 2 ^ 25 := by
  rw [value_of (n := tieNumeral) (D := 298023223876953125) (E := -25) (by decide) (by decide)]
  norm_num

/-- The tie between 0 and the smallest float16. -/
example : (some 1 : Option Nat) = some (0 + (0 + 1)) :=
  (C04_float16_sharp Cfg.x64 {} (input_of_bytes (by decide) (by decide)) sample_point tie_accepts (Or.inl (by decide))).2 0 (by decide) (by decide)
    (by rw [tie_value]; norm_num)

/-! ### C05, C06: range errors -/

/-- **C05**: overflow is reported and yields infinity, exactly from the IEEE threshold on. -/
theorem C05_overflow (c : Cfg) {ct : CharType} (T : FloatTy) (hT : T ≠ .float16) {s : List Nat} (opt : Options) (hin : Input ct s)
    (hp : (grammar c opt).PointOK) {n : Numeral} {rest : List Nat} {r : ApiFloat}
    (h : AcceptsNumber c ct T s opt n rest r) (hm : Moderate n) :
    (T.spec.overflowThreshold ≤ n.value ↔
      r.ec = .outOfRange ∧ r.value = some ((if n.neg then T.spec.signBit else 0) + T.spec.inf)) ∧
    (n.value < T.spec.overflowThreshold → ∃ m, r.value = some ((if n.neg then T.spec.signBit else 0) + m) ∧ m < T.spec.inf) := by
  obtain ⟨k, b, _, h2, h3⟩ := accepts_exact hin hp h hm
  have hrn := h3.rn hT
  have hi := rn_inf hrn
  have hb := h3.bits
  rw [T.signBit_eq, T.fmatch.inf]
  refine ⟨⟨fun hx => ?_, fun hx => ?_⟩, fun hx => ?_⟩
  · have := hi.2 hx
    refine ⟨h3.ec3 hT this, ?_⟩
    rw [h2, hb, Nat.min_eq_right this, Nat.add_comm]
  · rw [h2, hb] at hx
    have := Option.some.inj hx.2
    exact hi.1 (by omega)
  · have : ¬ infIdx T.fmt ≤ k := fun h => absurd (hi.1 h) (not_le.2 hx)
    refine ⟨k, ?_, by omega⟩
    rw [h2, hb, Nat.min_eq_left (by omega), Nat.add_comm]

/-- Exactly the threshold of float: a tie that is rounded to infinity. -/
example : single.overflowThreshold ≤ overNumeral.value ∧ (Errc.outOfRange = .outOfRange ∧ (some 2139095040 : Option Nat) = some (0 + single.inf)) := by
  have h : single.overflowThreshold ≤ overNumeral.value := by
    rw [value_of (n := overNumeral) (D := 340282356779733661637539395458142568448) (E := 0) (by decide) (by decide)]
    norm_num [Format.overflowThreshold, single, Format.bias]
  exact ⟨h, (C05_overflow Cfg.x64 .float (by decide) {} over_input sample_point over_accepts (Or.inl (by decide))).1.1 h⟩

/-- **C05 for float16, partial**: the stored value is infinite exactly from the threshold on and no finite result is reported as an
overflow, but the overflow may go unreported (`C05_float16_counterexample`). -/
theorem C05_overflow_float16_partial (c : Cfg) {ct : CharType} {s : List Nat} (opt : Options) (hin : Input ct s)
    (hp : (grammar c opt).PointOK) {n : Numeral} {rest : List Nat} {r : ApiFloat}
    (h : AcceptsNumber c ct .float16 s opt n rest r) (hm : Moderate n) :
    (half.overflowThreshold ≤ n.value ↔ r.value = some ((if n.neg then half.signBit else 0) + half.inf)) ∧
    (r.ec = .outOfRange → half.overflowThreshold ≤ n.value ∨ (0 < n.value ∧ n.value < half.val 1 / 2)) := by
  obtain ⟨k, b, _, h2, h3⟩ := accepts_exact hin hp h hm
  have hi := h3.inf_iff
  have hb := h3.bits
  have e1 : half.signBit = 2 ^ FloatTy.float16.fmt.signIdx := FloatTy.float16.signBit_eq
  have e2 : half.inf = infIdx FloatTy.float16.fmt := FloatTy.float16.fmatch.inf
  rw [e1, e2]
  refine ⟨⟨fun hx => ?_, fun hx => ?_⟩, fun he => ?_⟩
  · rw [h2, hb, Nat.min_eq_right (hi.2 hx), Nat.add_comm]
  · rw [h2, hb] at hx
    have := Option.some.inj hx
    exact hi.1 (by omega)
  · rcases h3.ec1 he with ⟨a, b⟩ | a
    · refine Or.inr ⟨lt_of_le_of_ne (value_nonneg n) (Ne.symm a), ?_⟩
      have hne : n.value ≠ 1 / 2 ^ 25 := by
        intro h
        have : k = 0 + 1 := half_split_unique h3.split16 (Or.inr ⟨0, by norm_num, by norm_num, by rw [h]; norm_num, rfl⟩)
        omega
      have hle := (h3.zero_iff (fun _ => hne)).1 b
      refine lt_of_le_of_ne hle ?_
      have h1 : half.val 1 = 1 / 2 ^ 24 := by
        have := half_val_lin (j := 1) (by norm_num); push_cast at this; exact this
      rw [h1]
      intro h; apply hne; rw [h]; norm_num
    · exact Or.inl (hi.1 a)

/-- `2000e4`: infinity is stored, and reported as success. -/
example : (half.overflowThreshold ≤ halfOverNumeral.value ↔ (some 31744 : Option Nat) = some (0 + half.inf)) :=
  (C05_overflow_float16_partial Cfg.x64 {} halfOver_input sample_point halfOver_accepts (Or.inl (by decide))).1

/-- **C06**: underflow is reported and yields a signed zero, exactly for nonzero magnitudes up to half the smallest subnormal;
a zero numeral is stored as a signed zero without error; every other in-range number is reported as success.  The one exception is the
float16 value `2^-25`, exactly half the smallest subnormal (`C06_float16_half_min`). -/
theorem C06_underflow (c : Cfg) {ct : CharType} (T : FloatTy) {s : List Nat} (opt : Options) (hin : Input ct s)
    (hp : (grammar c opt).PointOK) {n : Numeral} {rest : List Nat} {r : ApiFloat}
    (h : AcceptsNumber c ct T s opt n rest r) (hm : Moderate n) (hx : T = .float16 → n.value ≠ 1 / 2 ^ 25) :
    (0 < n.value ∧ n.value ≤ T.spec.val 1 / 2 ↔ r.ec = .outOfRange ∧ r.value = some (if n.neg then T.spec.signBit else 0)) ∧
    (n.value = 0 → r.ec = .ok ∧ r.value = some (if n.neg then T.spec.signBit else 0)) ∧
    (T.spec.val 1 / 2 < n.value → n.value < T.spec.overflowThreshold → r.ec = .ok) := by
  obtain ⟨k, b, _, h2, h3⟩ := accepts_exact hin hp h hm
  have hi := h3.inf_iff
  have hz := h3.zero_iff hx
  have hb := h3.bits
  have hip := inf_pos T
  have hnn := value_nonneg n
  have hth := val_one_lt_threshold T
  rw [T.signBit_eq]
  refine ⟨⟨fun hx => ?_, fun hx => ?_⟩, fun hx => ?_, fun ha hb' => ?_⟩
  · have hk := hz.2 hx.2
    refine ⟨h3.ec2 (ne_of_gt hx.1) hk, ?_⟩
    rw [h2, hb, hk]; simp
  · rw [h2, hb] at hx
    have hk := Option.some.inj hx.2
    have hk : k = 0 := by omega
    rcases h3.ec1 hx.1 with ⟨a, _⟩ | a
    · exact ⟨lt_of_le_of_ne hnn (Ne.symm a), hz.1 hk⟩
    · omega
  · have hk : k = 0 := hz.2 (by rw [hx, val_one]; positivity)
    constructor
    · rcases h3.ecs with e | e
      · exact e
      · rcases h3.ec1 e with ⟨a, _⟩ | a
        · exact absurd hx a
        · omega
    · rw [h2, hb, hk]; simp
  · rcases h3.ecs with e | e
    · exact e
    · rcases h3.ec1 e with ⟨_, a⟩ | a
      · exact absurd (hz.1 a) (not_le.2 ha)
      · exact absurd (hi.1 a) (not_le.2 hb')

/-- `-7e-46`, just below half the smallest float. -/
example : (0 < underNumeral.value ∧ underNumeral.value ≤ single.val 1 / 2) ∧ (Errc.outOfRange = .outOfRange ∧ (some 2147483648 : Option Nat) = some single.signBit) := by
  have h : 0 < underNumeral.value ∧ underNumeral.value ≤ single.val 1 / 2 := by
    rw [value_of (n := underNumeral) (D := 7) (E := -46) (by decide) (by decide)]
    norm_num [Format.val, single, Format.bias]
  exact ⟨h, (C06_underflow Cfg.x64 .float {} under_input sample_point under_accepts (Or.inl (by decide)) (by intro h; cases h)).1.1 h⟩

/-- **C06, the exception**: exactly half the smallest float16 is stored as the smallest float16, with no error. -/
theorem C06_float16_half_min (c : Cfg) {ct : CharType} {s : List Nat} (opt : Options) (hin : Input ct s)
    (hp : (grammar c opt).PointOK) {n : Numeral} {rest : List Nat} {r : ApiFloat}
    (h : AcceptsNumber c ct .float16 s opt n rest r) (hm : Moderate n) (hx : n.value = 1 / 2 ^ 25) :
    r.ec = .ok ∧ r.value = some ((if n.neg then half.signBit else 0) + 1) := by
  refine ⟨?_, (C04_float16_sharp c opt hin hp h hm).2 0 (by norm_num) (by norm_num) (by rw [hx]; norm_num)⟩
  obtain ⟨k, b, _, h2, h3⟩ := accepts_exact hin hp h hm
  have hk : k = 0 + 1 := half_split_unique h3.split16 (Or.inr ⟨0, by norm_num, by norm_num, by rw [hx]; norm_num, rfl⟩)
  have hi := inf_pos .float16
  rcases h3.ecs with e | e
  · exact e
  · rcases h3.ec1 e with ⟨_, a⟩ | a <;> omega

example : Errc.ok = .ok ∧ (some 1 : Option Nat) = some (0 + 1) :=
  C06_float16_half_min Cfg.x64 {} (input_of_bytes (by decide) (by decide)) sample_point tie_accepts (Or.inl (by decide)) tie_value

/-! ### C07: every digit counts -/

/-- **C07**: however far back the deciding digit is, a number above the midpoint of two neighbouring floats is rounded up and a
number below it is rounded down. -/
theorem C07_every_digit_counts (c : Cfg) {ct : CharType} (T : FloatTy) {s : List Nat} (opt : Options) (hin : Input ct s)
    (hp : (grammar c opt).PointOK) {n : Numeral} {rest : List Nat} {r : ApiFloat}
    (h : AcceptsNumber c ct T s opt n rest r) (hm : Moderate n) {j : Nat} (hj : j + 1 < T.spec.inf) :
    ((T.spec.val j + T.spec.val (j + 1)) / 2 < n.value → n.value ≤ T.spec.val (j + 1) →
      r.value = some ((if n.neg then T.spec.signBit else 0) + (j + 1))) ∧
    (T.spec.val j ≤ n.value → n.value < (T.spec.val j + T.spec.val (j + 1)) / 2 →
      r.value = some ((if n.neg then T.spec.signBit else 0) + j)) := by
  obtain ⟨k, b, _, h2, h3⟩ := accepts_exact hin hp h hm
  have hb := h3.bits
  have hp2 : (0 : ℚ) < 2 ^ ulpExp T.fmt := by positivity
  rw [val_eq T.fmatch, val_eq T.fmatch, T.signBit_eq, h2, hb]
  rw [T.fmatch.inf] at hj
  obtain ⟨A, hA⟩ : ∃ A, fpVal T.fmt.mb j = A := ⟨_, rfl⟩
  obtain ⟨B, hB⟩ : ∃ B, fpVal T.fmt.mb (j + 1) = B := ⟨_, rfl⟩
  rw [hA, hB]
  have hAB : (A : ℚ) < B := by rw [← hA, ← hB]; exact_mod_cast fpVal_lt_succ _ _
  have low := fun i (hk : k = i + 1) => Rounded.low (hk ▸ h3.rounded)
  have high := h3.rounded.high
  constructor
  · intro h1 h4
    have h1 : (A : ℚ) + B < 2 * (n.value * 2 ^ ulpExp T.fmt) := by
      rw [← add_div, div_div, div_lt_iff₀ (by positivity)] at h1; linarith
    have h4 : n.value * 2 ^ ulpExp T.fmt ≤ B := by rwa [le_div_iff₀ hp2] at h4
    have hk : k = j + 1 := by
      rcases Nat.lt_trichotomy k (j + 1) with hlt | heq | hgt
      · exfalso
        have a1 : (fpVal T.fmt.mb k : ℚ) ≤ A := by rw [← hA]; exact_mod_cast fpVal_mono (by omega)
        have a2 : (fpVal T.fmt.mb (k + 1) : ℚ) ≤ B := by rw [← hB]; exact_mod_cast fpVal_mono (by omega)
        linarith
      · exact heq
      · exfalso
        obtain ⟨i, hi⟩ : ∃ i, k = i + 1 := ⟨k - 1, by omega⟩
        have a0 := low i hi
        have a1 : (B : ℚ) ≤ fpVal T.fmt.mb i := by rw [← hB]; exact_mod_cast fpVal_mono (by omega)
        have a2 : (fpVal T.fmt.mb i : ℚ) < fpVal T.fmt.mb (i + 1) := by exact_mod_cast fpVal_lt_succ _ _
        linarith
    rw [hk, Nat.min_eq_left (by omega), Nat.add_comm]
  · intro h1 h4
    have h4 : 2 * (n.value * 2 ^ ulpExp T.fmt) < (A : ℚ) + B := by
      rw [← add_div, div_div, lt_div_iff₀ (by positivity)] at h4; linarith
    have h1 : A ≤ n.value * 2 ^ ulpExp T.fmt := by rwa [div_le_iff₀ hp2] at h1
    have hk : k = j := by
      rcases Nat.lt_trichotomy k j with hlt | heq | hgt
      · exfalso
        have a1 : (fpVal T.fmt.mb (k + 1) : ℚ) ≤ A := by rw [← hA]; exact_mod_cast fpVal_mono (by omega)
        have a2 : (fpVal T.fmt.mb k : ℚ) < fpVal T.fmt.mb (k + 1) := by exact_mod_cast fpVal_lt_succ _ _
        linarith
      · exact heq
      · exfalso
        obtain ⟨i, hi⟩ : ∃ i, k = i + 1 := ⟨k - 1, by omega⟩
        have a0 := low i hi
        have a1 : (A : ℚ) ≤ fpVal T.fmt.mb i := by rw [← hA]; exact_mod_cast fpVal_mono (by omega)
        have a2 : (B : ℚ) ≤ fpVal T.fmt.mb (i + 1) := by rw [← hB]; exact_mod_cast fpVal_mono (by omega)
        linarith
    rw [hk, Nat.min_eq_left (by omega), Nat.add_comm]

/-- `16777217.00000000000000000001` lies just above the midpoint of the floats 16777216 and 16777218. -/
example : (some 1266679809 : Option Nat) = some (0 + (1266679808 + 1)) := by
  refine (C07_every_digit_counts Cfg.x64 .float {} float_input sample_point float_accepts (Or.inl (by decide)) (j := 1266679808) (by decide)).1 ?_ ?_ <;>
    rw [value_of (n := floatNumeral) (D := 1677721700000000000000000001) (E := -20) (by decide) (by decide)] <;>
    norm_num [FloatTy.spec, Format.val, single, Format.bias]

/-! ### C09-C11: consequences for pairs of calls -/

theorem codeOut_unique {T : FloatTy} (hT : T ≠ .float16) {neg : Bool} {x : ℚ} {k k' b b' : Nat} {e e' : Errc} (h : CodeOut T neg x k b e)
    (h' : CodeOut T neg x k' b' e') : b = b' ∧ e = e' := by
  have hk : k = k' := RN.unique (h.rn hT) (h'.rn hT)
  subst hk
  refine ⟨by rw [h.bits, h'.bits], ?_⟩
  have key : ∀ {b : Nat} {e : Errc}, CodeOut T neg x k b e → (e = .outOfRange ↔ (x ≠ 0 ∧ k = 0) ∨ infIdx T.fmt ≤ k) := by
    intro b e h
    refine ⟨h.ec1, ?_⟩
    rintro (⟨h1, h2⟩ | h1)
    · exact h.ec2 h1 h2
    · exact h.ec3 hT h1
  have e1 := key h
  have e2 := key h'
  rcases h.ecs with h3 | h3 <;> rcases h'.ecs with h4 | h4
  · rw [h3, h4]
  · have := e1.2 (e2.1 h4); rw [h3] at this; cases this
  · have := e2.2 (e1.1 h3); rw [h4] at this; cases this
  · rw [h3, h4]

/-- **C09**: two accepted numbers with the same sign and the same value give the same bits and the same error code,
whatever their spelling, options, character types and build configurations. -/
theorem C09_spelling_independence (T : FloatTy) (hT : T ≠ .float16) {c₁ c₂ : Cfg} {ct₁ ct₂ : CharType} {s₁ s₂ : List Nat}
    {opt₁ opt₂ : Options} (hin₁ : Input ct₁ s₁) (hin₂ : Input ct₂ s₂) (hp₁ : (grammar c₁ opt₁).PointOK) (hp₂ : (grammar c₂ opt₂).PointOK)
    {n₁ n₂ : Numeral} {rest₁ rest₂ : List Nat} {r₁ r₂ : ApiFloat} (h₁ : AcceptsNumber c₁ ct₁ T s₁ opt₁ n₁ rest₁ r₁)
    (h₂ : AcceptsNumber c₂ ct₂ T s₂ opt₂ n₂ rest₂ r₂) (hm₁ : Moderate n₁) (hm₂ : Moderate n₂) (hneg : n₁.neg = n₂.neg)
    (hv : n₁.value = n₂.value) : r₁.value = r₂.value ∧ r₁.ec = r₂.ec := by
  obtain ⟨k, b, _, a2, a3⟩ := accepts_exact hin₁ hp₁ h₁ hm₁
  obtain ⟨k', b', _, b2, b3⟩ := accepts_exact hin₂ hp₂ h₂ hm₂
  rw [hneg, hv] at a3
  obtain ⟨e1, e2⟩ := codeOut_unique hT a3 b3
  rw [a2, b2, e1]; exact ⟨rfl, e2⟩

/-- **C09 for every type, float16 included**: the same bits; the error codes can differ for float16 only, and only on an overflow. -/
theorem C09_value_independence (T : FloatTy) {c₁ c₂ : Cfg} {ct₁ ct₂ : CharType} {s₁ s₂ : List Nat}
    {opt₁ opt₂ : Options} (hin₁ : Input ct₁ s₁) (hin₂ : Input ct₂ s₂) (hp₁ : (grammar c₁ opt₁).PointOK) (hp₂ : (grammar c₂ opt₂).PointOK)
    {n₁ n₂ : Numeral} {rest₁ rest₂ : List Nat} {r₁ r₂ : ApiFloat} (h₁ : AcceptsNumber c₁ ct₁ T s₁ opt₁ n₁ rest₁ r₁)
    (h₂ : AcceptsNumber c₂ ct₂ T s₂ opt₂ n₂ rest₂ r₂) (hm₁ : Moderate n₁) (hm₂ : Moderate n₂) (hneg : n₁.neg = n₂.neg)
    (hv : n₁.value = n₂.value) : r₁.value = r₂.value ∧ (n₁.value < T.spec.overflowThreshold → r₁.ec = r₂.ec) := by
  obtain ⟨k, b, _, a2, a3⟩ := accepts_exact hin₁ hp₁ h₁ hm₁
  obtain ⟨k', b', _, b2, b3⟩ := accepts_exact hin₂ hp₂ h₂ hm₂
  have hi := a3.inf_iff
  rw [hneg, hv] at a3
  have hk := a3.index_unique b3
  subst hk
  refine ⟨by rw [a2, b2, a3.bits, b3.bits], fun hlt => ?_⟩
  have hk : ¬ infIdx T.fmt ≤ k := fun h => absurd (hi.1 h) (not_le.2 hlt)
  have key : ∀ {b : Nat} {e : Errc}, CodeOut T n₂.neg n₂.value k b e → (e = .outOfRange ↔ n₂.value ≠ 0 ∧ k = 0) := by
    intro b e h
    refine ⟨fun he => ?_, fun he => h.ec2 he.1 he.2⟩
    rcases h.ec1 he with a | a
    · exact a
    · exact absurd a hk
  have e1 := key a3
  have e2 := key b3
  rcases a3.ecs with h3 | h3 <;> rcases b3.ecs with h4 | h4
  · rw [h3, h4]
  · have := e1.2 (e2.1 h4); rw [h3] at this; cases this
  · have := e2.2 (e1.1 h3); rw [h4] at this; cases this
  · rw [h3, h4]

/-- `1e2` and `100.0` -/
example : (some 4636737291354636288 : Option Nat) = some 4636737291354636288 ∧ (hundredANumeral.value < double.overflowThreshold → Errc.ok = .ok) :=
  C09_value_independence .double hundredA_input hundredB_input sample_point sample_point hundredA_accepts hundredB_accepts
    (Or.inl (by decide)) (Or.inl (by decide)) (by decide) (by
      rw [value_of (n := hundredANumeral) (D := 1) (E := 2) (by decide) (by decide),
        value_of (n := hundredBNumeral) (D := 1000) (E := -1) (by decide) (by decide)]
      norm_num)

/-- `1e2` and `100.0` -/
example : (some 4636737291354636288 : Option Nat) = some 4636737291354636288 ∧ Errc.ok = .ok :=
  C09_spelling_independence .double (by decide) hundredA_input hundredB_input sample_point sample_point hundredA_accepts hundredB_accepts
    (Or.inl (by decide)) (Or.inl (by decide)) (by decide) (by
      rw [value_of (n := hundredANumeral) (D := 1) (E := 2) (by decide) (by decide),
        value_of (n := hundredBNumeral) (D := 1000) (E := -1) (by decide) (by decide)]
      norm_num)

theorem sval_mono (T : FloatTy) {a b : Nat} (h : a ≤ b) : T.spec.val a ≤ T.spec.val b := by
  rw [val_eq T.fmatch, val_eq T.fmatch]
  apply div_le_div_of_nonneg_right _ (by positivity)
  exact_mod_cast fpVal_mono h

theorem val_nonneg (T : FloatTy) (a : Nat) : 0 ≤ T.spec.val a := by
  rw [val_eq T.fmatch]; positivity

theorem val_zero (T : FloatTy) : T.spec.val 0 = 0 := by
  rw [val_eq T.fmatch]
  have e0 : fpVal T.fmt.mb 0 = 0 := by
    simp [fpVal]
  rw [e0]; simp

theorem extVal_pos (T : FloatTy) {m : Nat} (h : m ≤ infIdx T.fmt) :
    T.spec.extVal m = if m = infIdx T.fmt then ((⊤ : WithTop ℚ) : WithBot (WithTop ℚ)) else ((T.spec.val m : WithTop ℚ) : WithBot (WithTop ℚ)) := by
  unfold Format.extVal
  rw [if_pos (by rw [T.signBit_eq]; have := infIdx_lt_sign T; omega), T.fmatch.inf]

theorem extVal_neg (T : FloatTy) (m : Nat) :
    T.spec.extVal (m + 2 ^ T.fmt.signIdx) = if m = infIdx T.fmt then (⊥ : WithBot (WithTop ℚ)) else (((-(T.spec.val m) : ℚ) : WithTop ℚ) : WithBot (WithTop ℚ)) := by
  unfold Format.extVal
  rw [T.signBit_eq, if_neg (by omega), Nat.add_sub_cancel, T.fmatch.inf]

theorem extVal_mono_pos (T : FloatTy) {a b : Nat} (h : a ≤ b) (hb : b ≤ infIdx T.fmt) : T.spec.extVal a ≤ T.spec.extVal b := by
  rw [extVal_pos T hb, extVal_pos T (le_trans h hb)]
  by_cases h1 : b = infIdx T.fmt
  · rw [if_pos h1]
    split
    · exact le_rfl
    · exact WithBot.coe_le_coe.2 le_top
  · rw [if_neg h1, if_neg (by omega)]
    exact WithBot.coe_le_coe.2 (WithTop.coe_le_coe.2 (sval_mono T h))

theorem extVal_mono_neg (T : FloatTy) {a b : Nat} (h : a ≤ b) (hb : b ≤ infIdx T.fmt) :
    T.spec.extVal (b + 2 ^ T.fmt.signIdx) ≤ T.spec.extVal (a + 2 ^ T.fmt.signIdx) := by
  rw [extVal_neg, extVal_neg]
  by_cases h1 : b = infIdx T.fmt
  · rw [if_pos h1]; exact bot_le
  · rw [if_neg h1, if_neg (by omega)]
    exact WithBot.coe_le_coe.2 (WithTop.coe_le_coe.2 (neg_le_neg (sval_mono T h)))

theorem extVal_neg_le_pos (T : FloatTy) {a b : Nat} (hb : b ≤ infIdx T.fmt) :
    T.spec.extVal (a + 2 ^ T.fmt.signIdx) ≤ T.spec.extVal b := by
  rw [extVal_neg, extVal_pos T hb]
  by_cases h1 : a = infIdx T.fmt
  · rw [if_pos h1]; exact bot_le
  · rw [if_neg h1]
    split
    · exact WithBot.coe_le_coe.2 le_top
    · refine WithBot.coe_le_coe.2 (WithTop.coe_le_coe.2 ?_)
      have := val_nonneg T a
      have := val_nonneg T b
      linarith

/-- **C10**: parsing is monotone. -/
theorem C10_monotone (T : FloatTy) {c₁ c₂ : Cfg} {ct₁ ct₂ : CharType} {s₁ s₂ : List Nat}
    {opt₁ opt₂ : Options} (hin₁ : Input ct₁ s₁) (hin₂ : Input ct₂ s₂) (hp₁ : (grammar c₁ opt₁).PointOK) (hp₂ : (grammar c₂ opt₂).PointOK)
    {n₁ n₂ : Numeral} {rest₁ rest₂ : List Nat} {r₁ r₂ : ApiFloat} (h₁ : AcceptsNumber c₁ ct₁ T s₁ opt₁ n₁ rest₁ r₁)
    (h₂ : AcceptsNumber c₂ ct₂ T s₂ opt₂ n₂ rest₂ r₂) (hm₁ : Moderate n₁) (hm₂ : Moderate n₂)
    (hv : signedValue n₁ ≤ signedValue n₂) :
    ∃ b₁ b₂, r₁.value = some b₁ ∧ r₂.value = some b₂ ∧ T.spec.extVal b₁ ≤ T.spec.extVal b₂ := by
  obtain ⟨k, b, _, a2, a3⟩ := accepts_exact hin₁ hp₁ h₁ hm₁
  obtain ⟨k', b', _, b2, b3⟩ := accepts_exact hin₂ hp₂ h₂ hm₂
  refine ⟨b, b', a2, b2, ?_⟩
  have v1 := value_nonneg n₁
  have v2 := value_nonneg n₂
  rw [a3.bits, b3.bits]
  unfold signedValue at hv
  cases hn1 : n₁.neg <;> cases hn2 : n₂.neg <;> rw [hn1, hn2] at hv <;> simp only [if_true, Bool.false_eq_true, if_false, Nat.add_zero] at hv ⊢
  · have := a3.index_mono b3 hv
    exact extVal_mono_pos T (by omega) (by omega)
  · -- both zero
    have e1 : n₁.value = 0 := by linarith
    have e2 : n₂.value = 0 := by linarith
    have hh : (0 : ℚ) ≤ T.spec.val 1 / 2 := by have := val_nonneg T 1; linarith
    have z1 : k = 0 := (a3.zero_iff (by intro _; rw [e1]; norm_num)).2 (by rw [e1]; exact hh)
    have z2 : k' = 0 := (b3.zero_iff (by intro _; rw [e2]; norm_num)).2 (by rw [e2]; exact hh)
    have hip := inf_pos T
    rw [z1, z2, Nat.zero_min, extVal_neg, extVal_pos T (Nat.zero_le _), if_neg (by omega), if_neg (by omega), val_zero]
    exact le_of_eq (by norm_num)
  · exact extVal_neg_le_pos T (by omega)
  · have := b3.index_mono a3 (neg_le_neg_iff.1 hv)
    exact extVal_mono_neg T (by omega) (by omega)

/-- `-7e-46 ≤ 0.1` -/
example : ∃ b₁ b₂, (some 2147483648 : Option Nat) = some b₁ ∧ (some 1036831949 : Option Nat) = some b₂ ∧ single.extVal b₁ ≤ single.extVal b₂ :=
  C10_monotone .float under_input tenth_input sample_point sample_point under_accepts tenth_accepts
    (Or.inl (by decide)) (Or.inl (by decide)) (by
      have h1 : signedValue underNumeral = -underNumeral.value := if_pos (by decide)
      have h2 : signedValue tenthNumeral = tenthNumeral.value := if_neg (by decide)
      rw [h1, h2]
      have := value_nonneg underNumeral
      have := value_nonneg tenthNumeral
      linarith)

/-- **C11**: a number that is strictly closer to the finite float `v` than to any other (and below the overflow threshold)
parses to `v`. -/
theorem C11_round_trip (c : Cfg) {ct : CharType} (T : FloatTy) {s : List Nat} (opt : Options) (hin : Input ct s)
    (hp : (grammar c opt).PointOK) {n : Numeral} {rest : List Nat} {r : ApiFloat}
    (h : AcceptsNumber c ct T s opt n rest r) (hm : Moderate n) {v : Nat} (hv : v < T.spec.inf)
    (hlo : ∀ j, j + 1 = v → (T.spec.val j + T.spec.val v) / 2 < n.value)
    (hhi : n.value < (T.spec.val v + T.spec.val (v + 1)) / 2) :
    r.value = some ((if n.neg then T.spec.signBit else 0) + v) := by
  obtain ⟨k, b, _, h2, h3⟩ := accepts_exact hin hp h hm
  have hp2 : (0 : ℚ) < 2 ^ ulpExp T.fmt := by positivity
  rw [val_eq T.fmatch, val_eq T.fmatch, ← add_div, div_div, lt_div_iff₀ (by positivity)] at hhi
  have hk : k = v := by
    rcases Nat.lt_trichotomy k v with hlt | heq | hgt
    · exfalso
      obtain ⟨j, rfl⟩ : ∃ j, v = j + 1 := ⟨v - 1, by omega⟩
      have hlo := hlo j rfl
      rw [val_eq T.fmatch, val_eq T.fmatch, ← add_div, div_div, div_lt_iff₀ (by positivity)] at hlo
      have a0 := h3.rounded.high
      have a1 : (fpVal T.fmt.mb (k + 1) : ℚ) ≤ fpVal T.fmt.mb (j + 1) := by exact_mod_cast fpVal_mono (by omega)
      have a2 : (fpVal T.fmt.mb k : ℚ) ≤ fpVal T.fmt.mb j := by exact_mod_cast fpVal_mono (by omega)
      linarith
    · exact heq
    · exfalso
      obtain ⟨i, rfl⟩ : ∃ i, k = i + 1 := ⟨k - 1, by omega⟩
      have a0 := h3.rounded.low
      have a1 : (fpVal T.fmt.mb v : ℚ) ≤ fpVal T.fmt.mb i := by exact_mod_cast fpVal_mono (by omega)
      have a2 : (fpVal T.fmt.mb (v + 1) : ℚ) ≤ fpVal T.fmt.mb (i + 1) := by exact_mod_cast fpVal_mono (by omega)
      linarith
  rw [T.fmatch.inf] at hv
  rw [h2, h3.bits, hk, Nat.min_eq_left hv.le, T.signBit_eq, Nat.add_comm]

/-- `0.1` is closest to the float with bits `0x3DCCCCCD`. -/
example : (some 1036831949 : Option Nat) = some (0 + 0x3DCCCCCD) := by
  refine C11_round_trip Cfg.x64 .float {} tenth_input sample_point tenth_accepts (Or.inl (by decide)) (v := 0x3DCCCCCD) (by decide) ?_ ?_
  · intro j hj
    have hj' : j = 0x3DCCCCCC := by omega
    subst hj'
    rw [value_of (n := tenthNumeral) (D := 1) (E := -1) (by decide) (by decide)]
    norm_num [FloatTy.spec, Format.val, single, Format.bias]
  · rw [value_of (n := tenthNumeral) (D := 1) (E := -1) (by decide) (by decide)]
    norm_num [FloatTy.spec, Format.val, single, Format.bias]

theorem val_lt_succ (T : FloatTy) (a : Nat) : T.spec.val a < T.spec.val (a + 1) := by
  rw [val_eq T.fmatch, val_eq T.fmatch]
  apply div_lt_div_of_pos_right _ (by positivity)
  exact_mod_cast fpVal_lt_succ _ _

/-- **C11, exact decimal expansions**: a number equal to a finite float parses to that float. -/
theorem C11_exact_value (c : Cfg) {ct : CharType} (T : FloatTy) {s : List Nat} (opt : Options) (hin : Input ct s)
    (hp : (grammar c opt).PointOK) {n : Numeral} {rest : List Nat} {r : ApiFloat}
    (h : AcceptsNumber c ct T s opt n rest r) (hm : Moderate n) {v : Nat} (hv : v < T.spec.inf) (hx : n.value = T.spec.val v) :
    r.value = some ((if n.neg then T.spec.signBit else 0) + v) := by
  apply C11_round_trip c T opt hin hp h hm hv
  · rintro j rfl
    have := val_lt_succ T j
    rw [hx]; linarith
  · have := val_lt_succ T v
    rw [hx]; linarith

/-- `1e2` -/
example : (some 4636737291354636288 : Option Nat) = some (0 + 4636737291354636288) := by
  refine C11_exact_value Cfg.x64 .double {} hundredA_input sample_point hundredA_accepts (Or.inl (by decide)) (v := 4636737291354636288) (by decide) ?_
  rw [value_of (n := hundredANumeral) (D := 1) (E := 2) (by decide) (by decide)]
  set_option exponentiation.threshold 2000 in norm_num [FloatTy.spec, Format.val, double, Format.bias]

/-- Relative spacing of the floats below and above `v`. -/
theorem spacing (T : FloatTy) (v : Nat) :
    T.spec.val v ≤ (T.spec.val (v + 1) - T.spec.val v) * 2 ^ (T.fmt.mb + 1) ∧
    T.spec.val (v + 1) ≤ (T.spec.val (v + 1) - T.spec.val v) * 2 ^ (T.fmt.mb + 1) := by
  obtain ⟨j, m, rfl, h1, h2⟩ := idx_pos T.fmt.mb v
  rw [val_eq T.fmatch, val_eq T.fmatch, fpVal_lin _ _ _ h1 h2, fpVal_succ _ _ _ h1 h2]
  have hp : (0 : ℚ) < 2 ^ ulpExp T.fmt := by positivity
  have hj : (0 : ℚ) < 2 ^ j := by positivity
  have hm : (m : ℚ) + 1 ≤ 2 ^ (T.fmt.mb + 1) := by exact_mod_cast h2
  rw [← sub_div, div_mul_eq_mul_div, div_le_div_iff_of_pos_right hp, div_le_div_iff_of_pos_right hp]
  push_cast
  constructor <;> nlinarith

/-- **C11, shortest round trip**: a number within relative distance `2^-(p+1)` of a positive finite float `v` parses to `v`, where
`p` is the precision (53 for double, 24 for float). -/
theorem C11_relative (c : Cfg) {ct : CharType} (T : FloatTy) {s : List Nat} (opt : Options) (hin : Input ct s)
    (hp : (grammar c opt).PointOK) {n : Numeral} {rest : List Nat} {r : ApiFloat}
    (h : AcceptsNumber c ct T s opt n rest r) (hm : Moderate n) {v : Nat} (hv : v < T.spec.inf) (hv0 : 0 < v)
    (hx : |n.value - T.spec.val v| * 2 ^ (T.spec.fracBits + 2) < T.spec.val v) :
    r.value = some ((if n.neg then T.spec.signBit else 0) + v) := by
  rw [T.fmatch.mb] at hx
  obtain ⟨d, hd⟩ : ∃ d, n.value - T.spec.val v = d := ⟨_, rfl⟩
  rw [hd] at hx
  have hP : (0 : ℚ) < 2 ^ (T.fmt.mb + 1) := by positivity
  have e : (2 : ℚ) ^ (T.fmt.mb + 2) = 2 * 2 ^ (T.fmt.mb + 1) := by rw [pow_succ]; ring
  rw [e] at hx
  have hd1 : d ≤ |d| := le_abs_self d
  have hd2 : -d ≤ |d| := neg_le_abs d
  apply C11_round_trip c T opt hin hp h hm hv
  · rintro j rfl
    have := (spacing T j).2
    have h3 : |d| * 2 < T.spec.val (j + 1) - T.spec.val j := by
      by_contra hc
      push Not at hc
      have := mul_le_mul_of_nonneg_right hc hP.le
      linarith
    linarith
  · have := (spacing T v).1
    have h3 : |d| * 2 < T.spec.val (v + 1) - T.spec.val v := by
      by_contra hc
      push Not at hc
      have := mul_le_mul_of_nonneg_right hc hP.le
      linarith
    linarith

/-- `0.100000001` for float -/
example : (some 1036831949 : Option Nat) = some (0 + 0x3DCCCCCD) := by
  refine C11_relative Cfg.x64 .float {} tenth9_input sample_point tenth9_accepts (Or.inl (by decide)) (v := 0x3DCCCCCD) (by decide) (by decide) ?_
  rw [value_of (n := tenth9Numeral) (D := 100000001) (E := -9) (by decide) (by decide)]
  norm_num [FloatTy.spec, Format.val, single, Format.bias, abs_lt]

/-- **C11 for 17 digits**: if the significand `D` has at least 17 digits and the number `D·10^e` is within half a unit of its last
digit of a positive finite double `v` (that is, `v` printed with 17 significant digits), it parses to `v`. -/
theorem C11_seventeen_digits (c : Cfg) {ct : CharType} {s : List Nat} (opt : Options) (hin : Input ct s)
    (hp : (grammar c opt).PointOK) {n : Numeral} {rest : List Nat} {r : ApiFloat}
    (h : AcceptsNumber c ct .double s opt n rest r) (hm : Moderate n) {v : Nat} (hv : v < double.inf) (hv0 : 0 < v)
    {D : Nat} {e : Int} (hD : 10 ^ 16 ≤ D) (hn : n.value = D * 10 ^ e) (hx : |n.value - double.val v| ≤ 10 ^ e / 2) :
    r.value = some ((if n.neg then double.signBit else 0) + v) := by
  apply C11_relative c .double opt hin hp h hm hv hv0
  show |n.value - double.val v| * 2 ^ 54 < double.val v
  have hpe : (0 : ℚ) < 10 ^ e := by positivity
  have hD' : (10 : ℚ) ^ 16 ≤ D := by exact_mod_cast hD
  have h1 : (10 : ℚ) ^ 16 * 10 ^ e ≤ n.value := by rw [hn]; exact mul_le_mul_of_nonneg_right hD' hpe.le
  have h2 := le_abs_self (n.value - double.val v)
  norm_num at h1 ⊢
  linarith

/-- `0.10000000000000001` -/
example : (some 4591870180066957722 : Option Nat) = some (0 + 0x3FB999999999999A) := by
  have hv : tenth17Numeral.value = (10000000000000001 : Nat) * 10 ^ (-17 : Int) :=
    value_of (n := tenth17Numeral) (D := 10000000000000001) (E := -17) (by decide) (by decide)
  refine C11_seventeen_digits Cfg.x64 {} tenth17_input sample_point tenth17_accepts (Or.inl (by decide)) (v := 0x3FB999999999999A)
    (by decide) (by decide) (D := 10000000000000001) (e := -17) (by norm_num) hv ?_
  rw [hv]
  set_option exponentiation.threshold 2000 in norm_num [Format.val, double, Format.bias, abs_le]

/-- **C11 for 9 digits**: the same for float. -/
theorem C11_nine_digits (c : Cfg) {ct : CharType} {s : List Nat} (opt : Options) (hin : Input ct s)
    (hp : (grammar c opt).PointOK) {n : Numeral} {rest : List Nat} {r : ApiFloat}
    (h : AcceptsNumber c ct .float s opt n rest r) (hm : Moderate n) {v : Nat} (hv : v < single.inf) (hv0 : 0 < v)
    {D : Nat} {e : Int} (hD : 10 ^ 8 ≤ D) (hn : n.value = D * 10 ^ e) (hx : |n.value - single.val v| ≤ 10 ^ e / 2) :
    r.value = some ((if n.neg then single.signBit else 0) + v) := by
  apply C11_relative c .float opt hin hp h hm hv hv0
  show |n.value - single.val v| * 2 ^ 25 < single.val v
  have hpe : (0 : ℚ) < 10 ^ e := by positivity
  have hD' : (10 : ℚ) ^ 8 ≤ D := by exact_mod_cast hD
  have h1 : (10 : ℚ) ^ 8 * 10 ^ e ≤ n.value := by rw [hn]; exact mul_le_mul_of_nonneg_right hD' hpe.le
  have h2 := le_abs_self (n.value - single.val v)
  norm_num at h1 ⊢
  linarith

/-- `0.100000001` -/
example : (some 1036831949 : Option Nat) = some (0 + 0x3DCCCCCD) := by
  have hv : tenth9Numeral.value = (100000001 : Nat) * 10 ^ (-9 : Int) :=
    value_of (n := tenth9Numeral) (D := 100000001) (E := -9) (by decide) (by decide)
  refine C11_nine_digits Cfg.x64 {} tenth9_input sample_point tenth9_accepts (Or.inl (by decide)) (v := 0x3DCCCCCD)
    (by decide) (by decide) (D := 100000001) (e := -9) (by norm_num) hv ?_
  rw [hv]
  norm_num [Format.val, single, Format.bias, abs_le]

/-! ### C42, C44 -/

/-- **C42**: however many digits the exponent literal has, the number is correctly rounded (its significand being shorter than
`2^28 - 400` digits; for float16, outside the nine ties of C04). -/
theorem C42_exponent_of_any_size (c : Cfg) {ct : CharType} (T : FloatTy) {s : List Nat} (opt : Options) (hin : Input ct s)
    (hp : (grammar c opt).PointOK) {n : Numeral} {rest : List Nat} {r : ApiFloat}
    (h : AcceptsNumber c ct T s opt n rest r) (hd : n.digits.length + 400 ≤ 2 ^ 28)
    (hx : T = .float16 → ¬ HalfException 16 n.value) :
    ∃ b, r.value = some b ∧ T.spec.RoundsToBits n.neg n.value b := by
  obtain ⟨k, b, _, h2, h3⟩ := accepts_exact hin hp h (Or.inl hd)
  exact ⟨b, h2, h3.roundsTo' hx⟩

/-- `1e99999999999999999999` -/
example : ∃ b, (some 2139095040 : Option Nat) = some b ∧ single.RoundsToBits hugeExpNumeral.neg hugeExpNumeral.value b :=
  C42_exponent_of_any_size Cfg.x64 .float {} hugeExp_input sample_point hugeExp_accepts (by decide) (fun h => by cases h)

theorem longest_head_minus {g : Rules} {t : List Nat} {n : Numeral} {rest : List Nat} (hp : g.PointOK) (h : LongestNumeral g t n rest) :
    n.neg = true ↔ t.head? = some 45 := by
  obtain ⟨⟨hs, hd, hj, he⟩, ht, _⟩ := h
  unfold Numeral.neg
  cases hsg : n.sign with
  | some x =>
    have : t.head? = some x := by rw [ht]; unfold Numeral.text; rw [hsg]; simp
    rw [this]; simp
  | none =>
    constructor
    · intro h; simp at h
    · intro h
      exfalso
      rw [ht] at h
      unfold Numeral.text at h
      rw [hsg] at h
      simp only [Option.toList_none, List.nil_append] at h
      cases hi : n.int with
      | cons a l =>
        rw [hi] at h
        simp only [List.cons_append, List.head?_cons, Option.some.injEq] at h
        have := hd a (by unfold Numeral.digits; rw [hi]; simp)
        unfold IsDigit at this; omega
      | nil =>
        rw [hi] at h
        cases hf : n.frac with
        | some ds =>
          rw [hf] at h
          simp only [Numeral.fracText, List.nil_append, List.cons_append, List.head?_cons, Option.some.injEq] at h
          exact hp.2.2.1 h
        | none =>
          split at hj
          · exact hj.1 hi
          · exact hj (by unfold Numeral.digits; rw [hi, hf]; rfl)

/-- **C44**: an accepted number is never stored as NaN, and its sign bit is set exactly when the text starts with a minus sign. -/
theorem C44_never_nan (c : Cfg) {ct : CharType} (T : FloatTy) {s : List Nat} (opt : Options) (hin : Input ct s)
    (hp : (grammar c opt).PointOK) {n : Numeral} {rest : List Nat} {r : ApiFloat} (h : AcceptsNumber c ct T s opt n rest r) :
    ∃ b, r.value = some b ∧ ¬ IsNaN T.spec b ∧ (T.spec.signBit ≤ b ↔ (textOf c opt s).head? = some 45) := by
  obtain ⟨k, b, _, h2, h3⟩ := accepts_out hin hp h
  have hlt := infIdx_lt_sign T
  refine ⟨b, h2, ?_, ?_⟩
  · rintro ⟨h4, _⟩
    rw [T.signBit_eq, T.fmatch.inf, h3.bits] at h4
    have : (min k (infIdx T.fmt) + if n.neg = true then 2 ^ T.fmt.signIdx else 0) % 2 ^ T.fmt.signIdx = min k (infIdx T.fmt) := by
      split
      · rw [Nat.add_mod_right, Nat.mod_eq_of_lt (by omega)]
      · rw [Nat.add_zero, Nat.mod_eq_of_lt (by omega)]
    rw [this] at h4
    omega
  · rw [← longest_head_minus hp h.longest, T.signBit_eq, h3.bits]
    cases n.neg
    · simp only [Bool.false_eq_true, if_false, Nat.add_zero, iff_false]; omega
    · simp

/-- `-7e-46`: the stored zero has its sign bit set. -/
example : ∃ b, (some 2147483648 : Option Nat) = some b ∧ ¬ IsNaN single b ∧ (single.signBit ≤ b ↔ underText.head? = some 45) :=
  C44_never_nan Cfg.x64 .float {} under_input sample_point under_accepts

/-! ### Counterexamples -/

/-- **Counterexample to C04**: an accepted, moderate number whose stored float16 is not the correctly rounded one. -/
theorem C04_float16_counterexample : ∃ n rest r, Input CharType.char tieText ∧ AcceptsNumber Cfg.x64 CharType.char .float16 tieText {} n rest r ∧
    Moderate n ∧ ∃ b, r.value = some b ∧ ¬ half.RoundsToBits n.neg n.value b := by
  refine ⟨tieNumeral, [], ⟨22, .ok, some 1⟩, input_of_bytes (by decide) (by decide),
    ⟨by decide +kernel, by decide, scan_longest sample_point (by decide +kernel)⟩, Or.inl (by decide), 1, rfl, ?_⟩
  have hx : tieNumeral.value = half.val 1 / 2 := by
    have h1 : half.val 1 = 1 / 2 ^ ulpExp FloatTy.float16.fmt := val_one .float16
    have h2 : ulpExp FloatTy.float16.fmt = 24 := by decide
    have h3 : digitsVal tieNumeral.digits = 298023223876953125 := by decide
    have h4 : tieNumeral.expVal - ((tieNumeral.frac.getD []).length : Int) = -25 := by decide
    unfold Numeral.value
    rw [h1, h2, h3, h4]; norm_num
  rintro ⟨b, h1, h2⟩
  have hb : b = 1 := by
    have : tieNumeral.neg = false := rfl
    rw [this] at h2; simpa using h2.symm
  subst hb
  rcases h1 with ⟨h, _⟩ | ⟨_, _, h⟩
  · rw [hx] at h
    exact absurd (val_one_lt_threshold .float16) (not_lt.2 h)
  · have h0 := h 0 (by decide) (by decide)
    have hv0 : half.val 0 = 0 := val_zero .float16
    have hv1 : 0 ≤ half.val 1 := val_nonneg .float16 1
    rw [hx, hv0] at h0
    have e1 : |half.val 1 / 2 - half.val 1| = half.val 1 / 2 := by
      rw [abs_of_nonpos (by linarith)]; ring
    have e2 : |half.val 1 / 2 - 0| = half.val 1 / 2 := by
      rw [sub_zero, abs_of_nonneg (by linarith)]
    rw [e1, e2] at h0
    rcases h0 with h0 | ⟨_, h0⟩
    · exact lt_irrefl _ h0
    · exact absurd h0 (by decide)

/-- **Counterexample to C05 for float16**: "2000e4" is stored as infinity but reported as success. -/
theorem C05_float16_counterexample : ∃ n rest r, Input CharType.char [50, 48, 48, 48, 101, 52] ∧
    AcceptsNumber Cfg.x64 CharType.char .float16 [50, 48, 48, 48, 101, 52] {} n rest r ∧ Moderate n ∧
    half.overflowThreshold ≤ n.value ∧ r.value = some half.inf ∧ r.ec = .ok := by
  refine ⟨⟨none, [50, 48, 48, 48], none, some ⟨some 101, none, [52]⟩⟩, [], ⟨6, .ok, some half.inf⟩,
    input_of_bytes (by decide) (by decide),
    ⟨by decide +kernel, by decide, scan_longest sample_point (by decide +kernel)⟩, Or.inl (by decide), ?_, rfl, rfl⟩
  have h3 : digitsVal (Numeral.digits ⟨none, [50, 48, 48, 48], none, some ⟨some 101, none, [52]⟩⟩) = 2000 := by decide
  have h4 : Numeral.expVal ⟨none, [50, 48, 48, 48], none, some ⟨some 101, none, [52]⟩⟩ = 4 := by decide
  unfold Numeral.value
  rw [h3, h4]
  have h5 : half.bias = 15 := by decide
  unfold Format.overflowThreshold
  rw [h5, show half.fracBits = 10 from rfl]
  norm_num

/-- "0.00...01e9999999999" with `K` zeros after the point. -/
def longNumeral (K : Nat) : Numeral := ⟨none, [48], some (List.replicate K 48 ++ [49]), some ⟨some 101, none, List.replicate 10 57⟩⟩

/-- **The length bound in `Moderate` is needed**: the numeral "0.00...01e9999999999" with 9999999998 zeros denotes exactly 1, but it
is stored as 0 and reported as out of range, because the exponent literal saturates. -/
theorem C42_limit (K : Nat) (hK : K + 1 = 9999999999) :
    ∃ r, Input CharType.char ((longNumeral K).text 46) ∧
      AcceptsNumber Cfg.x64 CharType.char .double ((longNumeral K).text 46) {} (longNumeral K) [] r ∧
      (longNumeral K).value = 1 ∧ r.value = some 0 ∧ r.ec = .outOfRange := by
  have hpt : (grammar Cfg.x64 {}).point = 46 := rfl
  have hlen : ((longNumeral K).text 46).length = K + 14 := by
    simp [longNumeral, Numeral.text, Numeral.fracText, Numeral.expText, Exponent.text]
  have hdig : ∀ u ∈ (longNumeral K).digits, IsDigit u := by
    intro u hu
    simp only [longNumeral, Numeral.digits, Option.getD_some, List.mem_append, List.mem_cons, List.mem_replicate, List.not_mem_nil, or_false] at hu
    unfold IsDigit
    omega
  have hexp : ∀ u ∈ List.replicate 10 57, IsDigit u := by
    intro u hu; rw [List.eq_of_mem_replicate hu]; unfold IsDigit; omega
  have hin : Input CharType.char ((longNumeral K).text 46) := by
    apply input_of_bytes
    · intro u hu
      simp only [longNumeral, Numeral.text, Numeral.fracText, Numeral.expText, Exponent.text, Option.toList_none, Option.toList_some,
        List.mem_append, List.mem_cons, List.mem_replicate, List.not_mem_nil, or_false, List.nil_append, false_or] at hu
      omega
    · omega
  have hwf : (longNumeral K).WF (grammar Cfg.x64 {}) := by
    refine ⟨Or.inl rfl, hdig, ?_, ?_⟩
    · have : (grammar Cfg.x64 {}).json = false := rfl
      rw [this]
      simp [longNumeral, Numeral.digits]
    · refine ⟨by simp [longNumeral], hexp, Or.inl rfl, Or.inl ⟨rfl, Or.inl rfl⟩⟩
  have htext : textOf Cfg.x64 {} ((longNumeral K).text 46) = (longNumeral K).text 46 := rfl
  have heq : textOf Cfg.x64 {} ((longNumeral K).text 46) = (longNumeral K).text (grammar Cfg.x64 {}).point ++ [] := by
    rw [htext, hpt, List.append_nil]
  have hscan : scanNumeral (grammar Cfg.x64 {}) (textOf Cfg.x64 {} ((longNumeral K).text 46)) = some (longNumeral K, []) := by
    obtain ⟨n, rest, h⟩ := scan_complete sample_point ⟨rfl, Or.inl rfl⟩ hwf heq
    rcases scan_extends sample_point hwf heq h with rfl | hlt
    · have := (scan_sound h).2
      rw [heq] at this
      rw [h, List.append_cancel_left this]
    · exfalso
      have := congrArg List.length (scan_sound h).2
      rw [htext, List.length_append] at this
      rw [hpt] at this hlt
      omega
  obtain ⟨k, b, ec, h1, h2⟩ := scan_accepts (T := .double) hin sample_point hscan
  refine ⟨_, hin, h1, ?_⟩
  have hdv : dval (longNumeral K).digits = 1 := by
    have h0 : ∀ k, dval (List.replicate k 48) = 0 := by
      intro k
      induction k with
      | zero => rfl
      | succ k ih => rw [List.replicate_succ', dval_append, ih]; rfl
    have : (longNumeral K).digits = List.replicate (K + 1) 48 ++ [49] := by
      simp [longNumeral, Numeral.digits, List.replicate_succ]
    rw [this, dval_append, h0]; rfl
  have hfl : ((longNumeral K).frac.getD []).length = 9999999999 := by simp [longNumeral, hK]
  have hval : (longNumeral K).value = 1 := by
    unfold Numeral.value
    rw [hfl, show digitsVal (longNumeral K).digits = 1 from hdv]
    have : (longNumeral K).expVal = 9999999999 := by
      show (if (none : Option Nat) = some 45 then -(digitsVal (List.replicate 10 57) : Int) else (digitsVal (List.replicate 10 57) : Int)) = _
      decide +kernel
    rw [this]; norm_num
  have hcv : codeValue (longNumeral K) = 10 ^ (-9000000000 : Int) := by
    unfold codeValue
    rw [hfl, hdv]
    have : satExp (longNumeral K).exp = 999999999 := by
      show (if (none : Option Nat) = some 45 then -(satFold 0 (List.replicate 10 57) : Int) else (satFold 0 (List.replicate 10 57) : Int)) = _
      decide +kernel
    rw [this, Nat.cast_one, one_mul]
    congr 1
  have hk : k = 0 := by
    apply rounded_tiny .double (x := codeValue (longNumeral K)) _ (by rw [hcv]; positivity) h2.rounded
    rw [hcv]
    have e : (10 : ℚ) ^ 400 = 10 ^ (400 : Int) := by norm_cast
    rw [e, ← zpow_add₀ (by norm_num)]
    exact zpow_le_one_of_nonpos₀ (by norm_num) (by norm_num)
  refine ⟨hval, ?_, h2.ec2 (by rw [hcv]; positivity) hk⟩
  show some b = some 0
  rw [h2.bits, hk]
  rfl

end FastFloat
