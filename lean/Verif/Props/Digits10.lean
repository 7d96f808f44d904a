import Verif.Props.ErrorBound
/-
# C67: short decimals survive
-/
set_option linter.unusedSimpArgs false
set_option autoImplicit false
namespace FastFloat
open NumSpec FloatSpec ApiSpec

/-- `std::numeric_limits<T>::digits10`. -/
def FloatTy.digits10 : FloatTy → Nat
  | .double => 15
  | .float => 6
  | .float16 => 3
  | .bfloat16 => 2

/-- `x` can be written with at most `d` significant digits. -/
def ShortDecimal (d : Nat) (x : ℚ) : Prop := ∃ (D : Nat) (e : Int), D < 10 ^ d ∧ x = D * 10 ^ e

/-- Two different integers times `g` are at least `g` apart. -/
theorem grid_gap {g : ℚ} (hg : 0 < g) {a b : Int} (h : (a : ℚ) * g ≠ b * g) : g ≤ |(a : ℚ) * g - b * g| := by
  have hab : a - b ≠ 0 := fun hc => h (by rw [sub_eq_zero.1 hc])
  rw [← sub_mul, abs_mul, abs_of_pos hg]
  have h1 : (1 : ℚ) ≤ |(a : ℚ) - b| := by
    have : (1 : Int) ≤ |a - b| := Int.one_le_abs hab
    exact_mod_cast this
  nlinarith

/-- Two different short decimals are relatively far apart. -/
theorem short_gap {d : Nat} {x y : ℚ} (hx : ShortDecimal d x) (hy : ShortDecimal d y) (hne : x ≠ y) (h0 : 0 ≤ y) : x < |x - y| * (10 ^ d + 1) := by
  obtain ⟨D, e, hD, rfl⟩ := hx
  obtain ⟨D', e', hD', rfl⟩ := hy
  have hp : ∀ e : Int, (0 : ℚ) < 10 ^ e := fun e => zpow_pos (by norm_num) e
  have hDq : (D : ℚ) < 10 ^ d := by exact_mod_cast hD
  have hDq' : (D' : ℚ) < 10 ^ d := by exact_mod_cast hD'
  rcases le_total e e' with h | h
  · obtain ⟨k, rfl⟩ := Int.le.dest h
    have e1 : (D' : ℚ) * 10 ^ (e + (k : Int)) = ((D' * 10 ^ k : Int) : ℚ) * 10 ^ e := by
      rw [zpow_add₀ (by norm_num), zpow_natCast]; push_cast; ring
    have e2 : (D : ℚ) * 10 ^ e = ((D : Int) : ℚ) * 10 ^ e := by push_cast; rfl
    rw [e1, e2] at hne
    have := grid_gap (hp e) hne
    rw [← e1, ← e2] at this
    have h1 := hp e
    have h2 := abs_nonneg ((D : ℚ) * 10 ^ e - D' * 10 ^ (e + (k : Int)))
    have h3 : (D : ℚ) * 10 ^ e < 10 ^ d * 10 ^ e := by nlinarith
    have h4 : (0 : ℚ) < 10 ^ d := by positivity
    nlinarith
  · obtain ⟨k, rfl⟩ := Int.le.dest h
    have e1 : (D : ℚ) * 10 ^ (e' + (k : Int)) = ((D * 10 ^ k : Int) : ℚ) * 10 ^ e' := by
      rw [zpow_add₀ (by norm_num), zpow_natCast]; push_cast; ring
    have e2 : (D' : ℚ) * 10 ^ e' = ((D' : Int) : ℚ) * 10 ^ e' := by push_cast; rfl
    rw [e1, e2] at hne
    have := grid_gap (hp e') hne
    rw [← e1, ← e2] at this
    have h1 := hp e'
    have h2 := le_abs_self ((D : ℚ) * 10 ^ (e' + (k : Int)) - D' * 10 ^ e')
    have h3 : (D' : ℚ) * 10 ^ e' < 10 ^ d * 10 ^ e' := by nlinarith
    have h4 : (0 : ℚ) < 10 ^ d := by positivity
    nlinarith

/-- **C67**: a number with at most `digits10` significant digits, in the normal range of the type, is the only such number nearest to the value
stored for it: converting the value back to that many digits gives the number again. -/
theorem C67_digits10 (c : Cfg) {ct : CharType} (T : FloatTy) {s : List Nat} (opt : Options) (hin : Input ct s)
    (hp : (grammar c opt).PointOK) {n : Numeral} {rest : List Nat} {r : ApiFloat}
    (h : AcceptsNumber c ct T s opt n rest r) (hm : Moderate n) (hd : ShortDecimal T.digits10 n.value)
    (hlo : T.spec.val (2 ^ T.spec.fracBits) ≤ n.value) (hhi : n.value < T.spec.overflowThreshold) :
    ∃ b, r.value = some ((if n.neg then T.spec.signBit else 0) + b) ∧ b < T.spec.inf ∧
      ∀ y, 0 ≤ y → ShortDecimal T.digits10 y → y ≠ n.value → |T.spec.val b - n.value| < |T.spec.val b - y| := by
  obtain ⟨b, h1, h2, h3⟩ := C57_error_bound c T opt hin hp h hm hhi
  refine ⟨b, h1, h2, fun y hy0 hy hne => ?_⟩
  obtain ⟨x, hx⟩ : ∃ x, n.value = x := ⟨_, rfl⟩
  obtain ⟨v, hv⟩ : ∃ v, T.spec.val b = v := ⟨_, rfl⟩
  rw [hx] at hd hlo h3 hne
  rw [hx, hv]
  rw [hv] at h3
  have hgap := short_gap hd hy (Ne.symm hne) hy0
  have hmin : T.spec.val 1 / 2 ≤ x / 2 ^ (T.spec.fracBits + 1) := by
    have e : T.spec.val (2 ^ T.spec.fracBits) = T.spec.val 1 * 2 ^ T.spec.fracBits := by
      unfold Format.val
      set_option exponentiation.threshold 2000 in
      cases T <;> norm_num [FloatTy.spec, FloatSpec.double, FloatSpec.single, FloatSpec.half, FloatSpec.bfloat, Format.bias]
    rw [e] at hlo
    rw [le_div_iff₀ (by positivity), pow_succ]
    linarith
  rw [max_eq_left hmin, le_div_iff₀ (by positivity)] at h3
  have hk : (10 : ℚ) ^ T.digits10 + 1 ≤ 2 ^ T.spec.fracBits := by
    cases T <;> norm_num [FloatTy.digits10, FloatTy.spec, FloatSpec.double, FloatSpec.single, FloatSpec.half, FloatSpec.bfloat]
  have hA := abs_nonneg (x - y)
  have h4 : x < |x - y| * 2 ^ T.spec.fracBits := lt_of_lt_of_le hgap (mul_le_mul_of_nonneg_left hk hA)
  rw [pow_succ] at h3
  have hP : (0 : ℚ) < 2 ^ T.spec.fracBits := by positivity
  have h5 : 2 * |v - x| < |x - y| := by
    by_contra hc
    have hc := not_lt.1 hc
    have := mul_le_mul_of_nonneg_right hc hP.le
    linarith
  have h6 : |x - y| ≤ |x - v| + |v - y| := abs_sub_le x v y
  rw [abs_sub_comm x v] at h6
  linarith

/-- **C67**, two calls: different numbers with at most `digits10` significant digits in the normal range give different values. -/
theorem C67_distinct (c : Cfg) {ct ct' : CharType} (T : FloatTy) {s s' : List Nat} (opt opt' : Options) (hin : Input ct s) (hin' : Input ct' s')
    (hp : (grammar c opt).PointOK) (hp' : (grammar c opt').PointOK) {n n' : Numeral} {rest rest' : List Nat} {r r' : ApiFloat}
    (h : AcceptsNumber c ct T s opt n rest r) (h' : AcceptsNumber c ct' T s' opt' n' rest' r') (hm : Moderate n) (hm' : Moderate n')
    (hd : ShortDecimal T.digits10 n.value) (hd' : ShortDecimal T.digits10 n'.value)
    (hlo : T.spec.val (2 ^ T.spec.fracBits) ≤ n.value) (hhi : n.value < T.spec.overflowThreshold)
    (hlo' : T.spec.val (2 ^ T.spec.fracBits) ≤ n'.value) (hhi' : n'.value < T.spec.overflowThreshold) (hne : n.value ≠ n'.value) : r.value ≠ r'.value := by
  obtain ⟨b, h1, h2, h3⟩ := C67_digits10 c T opt hin hp h hm hd hlo hhi
  obtain ⟨b', h1', h2', h3'⟩ := C67_digits10 c T opt' hin' hp' h' hm' hd' hlo' hhi'
  intro hc
  have hb : b = b' := by
    rw [h1, h1'] at hc
    have hc := Option.some.inj hc
    have hi : T.spec.inf < T.spec.signBit := by cases T <;> decide
    split at hc <;> split at hc <;> omega
  subst hb
  have i1 := h3 n'.value (value_nonneg n') hd' (Ne.symm hne)
  have i2 := h3' n.value (value_nonneg n) hd hne
  linarith

/-- A case of C67: `0.1` as a float; every other number with at most six digits is farther from the float stored. -/
example : ∃ b, (some 1036831949 : Option Nat) = some ((if tenthNumeral.neg then single.signBit else 0) + b) ∧ b < single.inf ∧
    ∀ y, 0 ≤ y → ShortDecimal 6 y → y ≠ tenthNumeral.value → |single.val b - tenthNumeral.value| < |single.val b - y| := by
  have hv : tenthNumeral.value = 1 / 10 := by rw [value_of (n := tenthNumeral) (D := 1) (E := -1) (by decide) (by decide)]; norm_num
  exact C67_digits10 Cfg.x64 .float {} tenth_input sample_point tenth_accepts (Or.inl (by decide))
    ⟨1, -1, by decide, by rw [hv]; norm_num⟩
    (by rw [hv]; norm_num [FloatTy.spec, Format.val, single, Format.bias])
    (by rw [hv]; norm_num [FloatTy.spec, Format.overflowThreshold, single, Format.bias])

/-- `std::numeric_limits<T>::max_digits10`. -/
def FloatTy.maxDigits10 : FloatTy → Nat
  | .double => 17
  | .float => 9
  | .float16 => 5
  | .bfloat16 => 4

/-- **C67**, the other way round: a positive finite value `v`, written with `max_digits10` (or more) significant digits - that is, as `D·10^e` with so
many digits in `D` and at most half a unit of the last digit away - is read back, in every type. -/
theorem C67_max_digits10 (c : Cfg) {ct : CharType} (T : FloatTy) {s : List Nat} (opt : Options) (hin : Input ct s)
    (hp : (grammar c opt).PointOK) {n : Numeral} {rest : List Nat} {r : ApiFloat}
    (h : AcceptsNumber c ct T s opt n rest r) (hm : Moderate n) {v : Nat} (hv : v < T.spec.inf) (hv0 : 0 < v)
    {D : Nat} {e : Int} (hD : 10 ^ (T.maxDigits10 - 1) ≤ D) (hn : n.value = D * 10 ^ e) (hx : |n.value - T.spec.val v| ≤ 10 ^ e / 2) :
    r.value = some ((if n.neg then T.spec.signBit else 0) + v) := by
  apply C11_relative c T opt hin hp h hm hv hv0
  have hp : (0 : ℚ) < 10 ^ e := zpow_pos (by norm_num) e
  have hDq : (10 : ℚ) ^ (T.maxDigits10 - 1) ≤ D := by exact_mod_cast hD
  have hk : (2 : ℚ) ^ (T.spec.fracBits + 1) + 1 ≤ 10 ^ (T.maxDigits10 - 1) := by
    cases T <;> norm_num [FloatTy.maxDigits10, FloatTy.spec, FloatSpec.double, FloatSpec.single, FloatSpec.half, FloatSpec.bfloat]
  have h1 := (abs_le.1 hx).2
  rw [hn] at h1
  have hP : (0 : ℚ) < 2 ^ (T.spec.fracBits + 1) := by positivity
  rw [show T.spec.fracBits + 2 = (T.spec.fracBits + 1) + 1 from rfl, pow_succ]
  have h2 : |n.value - T.spec.val v| * (2 ^ (T.spec.fracBits + 1) * 2) ≤ 10 ^ e / 2 * (2 ^ (T.spec.fracBits + 1) * 2) :=
    mul_le_mul_of_nonneg_right hx (by positivity)
  have h3 : ((2 : ℚ) ^ (T.spec.fracBits + 1) + 1) * 10 ^ e ≤ D * 10 ^ e := mul_le_mul_of_nonneg_right (hk.trans hDq) hp.le
  linarith

/-- A case of C67: the float of `0.1` written with 10 digits, `1000000015e-10`. -/
example {r : ApiFloat} {rest : List Nat} {n : Numeral} {s : List Nat} (hin : Input CharType.char s) (h : AcceptsNumber Cfg.x64 CharType.char .float s {} n rest r)
    (hm : Moderate n) (hn : n.value = (1000000015 : Nat) * 10 ^ (-10 : Int)) : r.value = some ((if n.neg then single.signBit else 0) + 1036831949) :=
  C67_max_digits10 Cfg.x64 .float {} hin sample_point h hm (v := 1036831949) (by decide) (by decide) (D := 1000000015) (e := -10) (by decide) hn
    (by rw [hn]; norm_num [FloatTy.spec, Format.val, single, Format.bias, abs_le])

end FastFloat
