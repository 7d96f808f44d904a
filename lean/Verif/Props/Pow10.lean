import Verif.Proofs.Half
/-
# C32, C33: integer_times_pow10
-/
namespace FastFloat
open FloatSpec

/-- The exact value, scaled, is what the internals round. -/
theorem scaled_eq (F : BinFmt) (m : Nat) (e : Int) : scaled F m e = ((m : ℚ) * 10 ^ e) * 2 ^ ulpExp F := rfl

theorem clinger16_no_tie {c : Cfg} {w : Nat} {q : Int} {neg : Bool} {v : Nat} (h : clingerFastPath c binary16 w q neg = .ok (some v)) {j : Nat}
    (ht : 2 * ((w : ℚ) * 10 ^ q * 2 ^ 24) = 2 * (j : ℚ) + 1) : False := by
  obtain ⟨a, ha, _⟩ := tie16_form ht
  unfold clingerFastPath at h
  rw [if_neg] at h
  · cases h
  · rintro ⟨h1, _⟩
    unfold minExponentFastPath at h1
    have h2 : binary16.minFast = 0 := rfl
    rw [h2] at h1
    split at h1 <;> omega

theorem tie16_small64 {D : Nat} {e : Int} {j : Nat} (h : 2 * ((D : ℚ) * 10 ^ e * 2 ^ 24) = 2 * (j : ℚ) + 1) (hD : D < 2 ^ 64) : j ≤ 30 := by
  obtain ⟨a, _, h2⟩ := tie16_form h
  by_contra hc
  have h3 : 63 * 5 ^ 25 ≤ (2 * j + 1) * 5 ^ 25 := Nat.mul_le_mul_right _ (by omega)
  have h4 : (2 * j + 1) * 5 ^ 25 * 1 ≤ D := by rw [h2]; exact Nat.mul_le_mul_left _ (Nat.one_le_iff_ne_zero.2 (by positivity))
  norm_num at h3 h4 hD
  omega

/-- Internal form: the index produced is the nearest-even one, except at subnormal ties (binary16 only), where it is the upper neighbour. -/
theorem pow10_core (c : Cfg) (T : FloatTy) (m : Nat) (hm : m < 2 ^ 64) (e : Int) (neg : Bool) :
    ∃ b n, (do match ← clingerFastPath c T.fmt m e neg with
              | some v => pure v
              | none => do
                let am ← computeFloat c T.fmt e m
                pure (toFloat T.fmt neg am) : Exec Nat) = .ok b ∧
      Rounded T.fmt (scaled T.fmt m e) n ∧ b = (if neg then T.spec.signBit else 0) + min n (infIdx T.fmt) ∧
      (T = .float16 → ∀ j : Nat, j < 2 ^ 10 → 2 * ((m : ℚ) * 10 ^ e * 2 ^ 24) = 2 * (j : ℚ) + 1 → j ≤ 30 ∧ n = j + 1) := by
  obtain ⟨o, ho, hv⟩ := clinger_spec c T.fast m e neg
  rw [T.signBit_eq]
  simp only [bind, Except.bind, pure, Except.pure, ho]
  cases o with
  | some v =>
    obtain ⟨n, h1, h2, _⟩ := hv v rfl
    refine ⟨v, n, rfl, Or.inl h1, by rw [h2, Nat.add_comm], ?_⟩
    rintro rfl j _ ht
    exact absurd (clinger16_no_tie ho ht) id
  | none =>
    obtain ⟨am, n, h1, h2, h3, h4⟩ := computeFloat_spec' c T.good e m hm
    simp only [h1]
    refine ⟨_, n, rfl, h2, by rw [toFloat_eq T.good h3, Nat.add_comm], ?_⟩
    rintro rfl j hj ht
    exact ⟨tie16_small64 ht hm, h4 j hj ht⟩

/-- The float16 case: correctly rounded, or one of the exceptions. -/
theorem pow10_half (c : Cfg) (m : Nat) (hm : m < 2 ^ 64) (e : Int) (neg : Bool) :
    ∃ b n, (do match ← clingerFastPath c binary16 m e neg with
              | some v => pure v
              | none => do
                let am ← computeFloat c binary16 e m
                pure (toFloat binary16 neg am) : Exec Nat) = .ok b ∧
      b = (if neg then half.signBit else 0) + min n (infIdx binary16) ∧
      ((¬ HalfException 30 ((m : ℚ) * 10 ^ e) ∧ RN 10 ((m : ℚ) * 10 ^ e * 2 ^ 24) n) ∨
        ∃ j : Nat, j % 2 = 0 ∧ j ≤ 30 ∧ (m : ℚ) * 10 ^ e = (2 * j + 1) / 2 ^ 25 ∧ n = j + 1) := by
  obtain ⟨b, n, h1, h2, h3, h4⟩ := pow10_core c .float16 m hm e neg
  refine ⟨b, n, h1, h3, half_split (by norm_num) h2 ?_⟩
  intro j hj ht
  obtain ⟨a1, a2⟩ := h4 rfl j hj ht
  exact ⟨fun _ => a2, fun h => absurd h (by omega)⟩

/-- **C32**: for every unsigned 64-bit `m` and every exponent the result is the correctly rounded `m·10^e`. -/
theorem C32_integer_times_pow10_unsigned (c : Cfg) (T : FloatTy) (hT : T ≠ .float16) (m : Nat) (hm : m < 2 ^ 64) (e : Int) :
    ∃ b, integerTimesPow10U c T.fmt m e = .ok b ∧ T.spec.RoundsTo ((m : ℚ) * 10 ^ e) b := by
  obtain ⟨b, n, h1, h2, h3, _⟩ := pow10_core c T m hm e false
  refine ⟨b, h1, ?_⟩
  have := roundsTo_of_RN T.fmatch (x := (m : ℚ) * 10 ^ e) (h2.rn (T.ulpWide hT) hm)
  rw [h3]; simpa using this

/-- The hypotheses of C32 are met by a case that takes the Eisel-Lemire route (a 19-digit significand, subnormal result). -/
example : (FloatTy.double ≠ .float16) ∧ (1234567890123456789 : Nat) < 2 ^ 64 := ⟨by decide, by norm_num⟩

/-- **C32 for float16, partial**: correct for all values except the sixteen ties `(2j+1)/2^25`, `j` even and at most 30.
The full statement is false exactly there: `C32_float16_sharp`. -/
theorem C32_integer_times_pow10_float16_partial (c : Cfg) (m : Nat) (hm : m < 2 ^ 64) (e : Int)
    (hx : ¬ HalfException 30 ((m : ℚ) * 10 ^ e)) :
    ∃ b, integerTimesPow10U c binary16 m e = .ok b ∧ half.RoundsTo ((m : ℚ) * 10 ^ e) b := by
  obtain ⟨b, n, h1, h3, h2⟩ := pow10_half c m hm e false
  refine ⟨b, h1, ?_⟩
  rcases h2 with ⟨_, h2⟩ | ⟨j, a1, a2, a3, _⟩
  · have := roundsTo_of_RN FloatTy.float16.fmatch (x := (m : ℚ) * 10 ^ e) (by rw [ulp16]; exact h2)
    rw [h3]; simp only [Bool.false_eq_true, if_false, Nat.zero_add]; exact this
  · exact absurd ⟨j, a1, a2, a3⟩ hx

/-- `3·10^-6` is a subnormal float16, not an exception. -/
example : ∃ b, integerTimesPow10U Cfg.x64 binary16 3 (-6) = .ok b ∧ half.RoundsTo (((3 : Nat) : ℚ) * 10 ^ (-6 : Int)) b := by
  refine C32_integer_times_pow10_float16_partial Cfg.x64 3 (by norm_num) (-6) ?_
  rintro ⟨j, _, hj, h⟩
  norm_num at h
  have h5 : (3 * 2 ^ 25 : ℚ) = (2 * j + 1) * 10 ^ 6 := by linarith
  have h6 : (3 * 2 ^ 25 : Nat) = (2 * j + 1) * 10 ^ 6 := by exact_mod_cast h5
  omega

/-- **C32 for float16, sharp**: the result is the correctly rounded one if and only if the value is not one of the sixteen exceptions; there
the upper neighbour is returned. -/
theorem C32_float16_sharp (c : Cfg) (m : Nat) (hm : m < 2 ^ 64) (e : Int) :
    ∃ b, integerTimesPow10U c binary16 m e = .ok b ∧ (half.RoundsTo ((m : ℚ) * 10 ^ e) b ↔ ¬ HalfException 30 ((m : ℚ) * 10 ^ e)) ∧
      ∀ j : Nat, j % 2 = 0 → j ≤ 30 → (m : ℚ) * 10 ^ e = (2 * j + 1) / 2 ^ 25 → b = j + 1 := by
  obtain ⟨b, n, h1, h3, h2⟩ := pow10_half c m hm e false
  have hi : infIdx binary16 = 31744 := by decide
  simp only [Bool.false_eq_true, if_false, Nat.zero_add] at h3
  refine ⟨b, h1, ⟨fun hr => ?_, fun hx => ?_⟩, ?_⟩
  · rcases h2 with ⟨h2, _⟩ | ⟨j, a1, a2, a3, a4⟩
    · exact h2
    · exfalso
      rw [a3, h3, a4, Nat.min_eq_left (by omega)] at hr
      exact exception_not_rounded (by omega) a1 hr
  · obtain ⟨b', e1, e2⟩ := C32_integer_times_pow10_float16_partial c m hm e hx
    have := e1.symm.trans h1
    cases this
    exact e2
  · intro j i1 i2 i3
    have : n = j + 1 := half_split_unique h2 (Or.inr ⟨j, i1, i2, i3, rfl⟩)
    rw [h3, this, Nat.min_eq_left (by omega)]

/-- `18179416656494140625·10^-25 = 61/2^25`: the largest exception. -/
example : ∃ b, integerTimesPow10U Cfg.x64 binary16 18179416656494140625 (-25) = .ok b ∧ b = 30 + 1 := by
  obtain ⟨b, h1, _, h2⟩ := C32_float16_sharp Cfg.x64 18179416656494140625 (by norm_num) (-25)
  exact ⟨b, h1, h2 30 (by norm_num) (by norm_num) (by norm_num)⟩

/-- Counterexample to C32 (and C04) for `std::float16_t`: `298023223876953125e-25` is exactly half the smallest subnormal
`2^-24`; ties-to-even demands 0 but the code returns the smallest subnormal. -/
theorem C32_float16_counterexample :
    integerTimesPow10U Cfg.x64 binary16 298023223876953125 (-25) = .ok 1 ∧
    ¬ half.RoundsTo ((298023223876953125 : ℚ) * 10 ^ (-25 : Int)) 1 := by
  refine ⟨by decide +kernel, ?_⟩
  have hx : (298023223876953125 : ℚ) * 10 ^ (-25 : Int) = 1 / 2 ^ 25 := by norm_num
  rw [hx]
  rintro (⟨_, h⟩ | ⟨_, _, h⟩)
  · exact absurd h (by decide)
  · rcases h 0 (by decide) (by decide) with h | ⟨_, h⟩
    · have v0 : half.val 0 = 0 := by simp [Format.val]
      have v1 : half.val 1 = 1 / 2 ^ 24 := by norm_num [Format.val, half, Format.bias]
      rw [v0, v1] at h
      norm_num [abs_of_pos, abs_of_neg] at h
    · exact absurd h (by decide)

/-- The signed overload on anything but the minimum: the same computation on the absolute value. -/
theorem pow10I_eq (c : Cfg) (F : BinFmt) {m : Int} (h1 : -2 ^ 63 < m) (h2 : m < 2 ^ 63) (e : Int) :
    integerTimesPow10I c F m e = (do match ← clingerFastPath c F m.natAbs e (decide (m < 0)) with
              | some v => pure v
              | none => do
                let am ← computeFloat c F e m.natAbs
                pure (toFloat F (decide (m < 0)) am) : Exec Nat) := by
  unfold integerTimesPow10I
  by_cases hm : m < 0
  · have hc : chk64 (-m) = .ok (-m) := by unfold chk64; rw [if_pos (by omega)]
    have hmk : (-m).toNat = m.natAbs := by omega
    simp only [bind, Except.bind, hm, decide_true, if_true, hc, hmk]
    cases clingerFastPath c F m.natAbs e true with
    | error => rfl
    | ok o => cases o <;> simp only <;> cases computeFloat c F e m.natAbs <;> rfl
  · have hmk : m.toNat = m.natAbs := by omega
    simp only [bind, Except.bind, pure, Except.pure, hm, decide_false, Bool.false_eq_true, if_false, hmk]
    cases clingerFastPath c F m.natAbs e false with
    | error => rfl
    | ok o => cases o <;> simp only <;> cases computeFloat c F e m.natAbs <;> rfl

theorem abs_natAbs (m : Int) : |(m : ℚ)| = ((m.natAbs : Nat) : ℚ) := by
  rw [Nat.cast_natAbs, Int.cast_abs]

/-- **C33, partial**: for every `int64_t` except the minimum the call is defined and gives the correctly rounded magnitude with
the sign of `m`.  The full statement is false: see `C33_int64_min_undefined`. -/
theorem C33_integer_times_pow10_signed_partial (c : Cfg) (T : FloatTy) (hT : T ≠ .float16) (m : Int) (h1 : -2 ^ 63 < m)
    (h2 : m < 2 ^ 63) (e : Int) :
    ∃ b, integerTimesPow10I c T.fmt m e = .ok b ∧ T.spec.RoundsToBits (decide (m < 0)) (|(m : ℚ)| * 10 ^ e) b := by
  have hk64 : m.natAbs < 2 ^ 64 := by omega
  obtain ⟨b, n, e1, e2, e3, _⟩ := pow10_core c T m.natAbs hk64 e (decide (m < 0))
  refine ⟨b, by rw [pow10I_eq c T.fmt h1 h2 e]; exact e1, _, ?_, e3⟩
  rw [abs_natAbs]
  exact roundsTo_of_RN T.fmatch (x := (m.natAbs : ℚ) * 10 ^ e) (e2.rn (T.ulpWide hT) hk64)

/-- **C33 for float16**: the same, with the sixteen exceptions of `C32_float16_sharp`. -/
theorem C33_float16_sharp (c : Cfg) (m : Int) (h1 : -2 ^ 63 < m) (h2 : m < 2 ^ 63) (e : Int) :
    ∃ b, integerTimesPow10I c binary16 m e = .ok b ∧
      (half.RoundsToBits (decide (m < 0)) (|(m : ℚ)| * 10 ^ e) b ↔ ¬ HalfException 30 (|(m : ℚ)| * 10 ^ e)) ∧
      ∀ j : Nat, j % 2 = 0 → j ≤ 30 → |(m : ℚ)| * 10 ^ e = (2 * j + 1) / 2 ^ 25 → b = (if m < 0 then half.signBit else 0) + (j + 1) := by
  have hk64 : m.natAbs < 2 ^ 64 := by omega
  obtain ⟨b, n, e1, e3, e2⟩ := pow10_half c m.natAbs hk64 e (decide (m < 0))
  have hi : infIdx binary16 = 31744 := by decide
  rw [abs_natAbs]
  refine ⟨b, by rw [pow10I_eq c binary16 h1 h2 e]; exact e1, ⟨?_, fun hx => ?_⟩, ?_⟩
  · rintro ⟨b', hr, hb⟩
    rcases e2 with ⟨h2, _⟩ | ⟨j, a1, a2, a3, a4⟩
    · exact h2
    · exfalso
      rw [a3] at hr
      rw [e3, a4, Nat.min_eq_left (by omega)] at hb
      have hb : b' = j + 1 := by omega
      rw [hb] at hr
      exact exception_not_rounded (by omega) a1 hr
  · rcases e2 with ⟨_, h2⟩ | ⟨j, a1, a2, a3, a4⟩
    · refine ⟨_, ?_, e3⟩
      exact roundsTo_of_RN FloatTy.float16.fmatch (x := (m.natAbs : ℚ) * 10 ^ e) (by rw [ulp16]; exact h2)
    · exact absurd ⟨j, a1, a2, a3⟩ hx
  · intro j i1 i2 i3
    have : n = j + 1 := half_split_unique e2 (Or.inr ⟨j, i1, i2, i3, rfl⟩)
    rw [e3, this, Nat.min_eq_left (by omega)]
    simp only [decide_eq_true_eq]

/-- `-298023223876953125·10^-25 = -1/2^25`. -/
example : ∃ b, integerTimesPow10I Cfg.x64 binary16 (-298023223876953125) (-25) = .ok b ∧ b = half.signBit + (0 + 1) := by
  obtain ⟨b, h1, _, h2⟩ := C33_float16_sharp Cfg.x64 (-298023223876953125) (by norm_num) (by norm_num) (-25)
  exact ⟨b, h1, h2 0 (by norm_num) (by norm_num) (by norm_num)⟩

example : (-2 ^ 63 : Int) < -9223372036854775807 ∧ (-9223372036854775807 : Int) < 2 ^ 63 := by norm_num

/-- `integer_times_pow10<T>(INT64_MIN, e)` negates the minimum of a signed type: undefined behaviour, in every configuration and
for every type and exponent. -/
theorem C33_int64_min_undefined (c : Cfg) (F : BinFmt) (e : Int) :
    integerTimesPow10I c F (-2 ^ 63) e = .error .signedOverflow := by
  unfold integerTimesPow10I chk64
  simp [bind, Except.bind]

theorem toInt64_of_range {m : Int} (h1 : -2 ^ 63 ≤ m) (h2 : m < 2 ^ 63) : toInt64 m = m := by
  unfold toInt64
  simp only
  split <;> omega

/-- **C33 for the other integer types**: every type of at most 32 bits (and every unsigned type of at most 64 bits) is covered
without exception. -/
theorem C33_integer_times_pow10_any (c : Cfg) (T : FloatTy) (hT : T ≠ .float16) (I : IntType) (m : Int)
    (hm : if I.signed then -2 ^ 63 < m ∧ m < 2 ^ 63 else 0 ≤ m ∧ m < 2 ^ 64) (e : Int) :
    ∃ b, integerTimesPow10Any c T.fmt I m e = .ok b ∧ T.spec.RoundsToBits (decide (m < 0)) (|(m : ℚ)| * 10 ^ e) b := by
  unfold integerTimesPow10Any
  by_cases hs : I.signed
  · rw [if_pos hs] at hm ⊢
    rw [toInt64_of_range hm.1.le hm.2]
    exact C33_integer_times_pow10_signed_partial c T hT m hm.1 hm.2 e
  · rw [if_neg hs] at hm ⊢
    rw [Int.emod_eq_of_lt hm.1 hm.2]
    obtain ⟨b, h1, h2⟩ := C32_integer_times_pow10_unsigned c T hT m.toNat (by omega) e
    refine ⟨b, h1, b, ?_, ?_⟩
    · have : |(m : ℚ)| = ((m.toNat : Nat) : ℚ) := by
        rw [abs_of_nonneg (by exact_mod_cast hm.1)]
        have : ((m.toNat : Nat) : Int) = m := Int.toNat_of_nonneg hm.1
        exact_mod_cast (congrArg (Int.cast (R := ℚ)) this).symm
      rw [this]; exact h2
    · have : ¬ m < 0 := by omega
      simp [this]

/-- The most negative `int32_t`. -/
example : ∃ b, integerTimesPow10Any Cfg.x64 FloatTy.double.fmt ⟨32, true, false, false, false⟩ (-2147483648) (-3) = .ok b ∧
    double.RoundsToBits true (|((-2147483648 : Int) : ℚ)| * 10 ^ (-3 : Int)) b :=
  C33_integer_times_pow10_any Cfg.x64 .double (by decide) ⟨32, true, false, false, false⟩ (-2147483648) (by norm_num) (-3)

/-- **C33, 128-bit integers**: `integer_times_pow10` of an `__int128` (accepted by the overload, whose only condition is `std::is_integral`)
silently uses the integer reduced modulo `2^64`: two integers that are equal modulo `2^64` give the same result. -/
theorem C33_int128_wraps (c : Cfg) (F : BinFmt) (I : IntType) (m k : Int) (e : Int) :
    integerTimesPow10Any c F I (m + 2 ^ 64 * k) e = integerTimesPow10Any c F I m e := by
  unfold integerTimesPow10Any toInt64
  rw [Int.add_mul_emod_self_left]

/-- `integer_times_pow10((unsigned __int128)1 << 64, 0)` is `0.0`. -/
example : integerTimesPow10Any Cfg.x64 binary64 uint128 (2 ^ 64) 0 = .ok 0 := by decide +kernel

end FastFloat
