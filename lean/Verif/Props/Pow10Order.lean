import Verif.Props.Rounding
import Verif.Props.Pow10
/-
# C86: integer_times_pow10 as a function of the product

Monotone, dependent on the product only, odd, and exact where the product is a number of the type - for the four floating-point types (the float16 exceptions of
C32 included), any two integer types and any two build configurations.
-/
set_option autoImplicit false
namespace FastFloat
open FloatSpec

/-- The integers for which a call is defined: everything but the minimum of a 64-bit signed type. -/
def Allowed (I : IntType) (m : Int) : Prop := if I.signed then -2 ^ 63 < m ∧ m < 2 ^ 63 else 0 ≤ m ∧ m < 2 ^ 64

theorem pow10_any_index (c : Cfg) (T : FloatTy) (I : IntType) {m : Int} (hm : Allowed I m) (e : Int) :
    ∃ b n, integerTimesPow10Any c T.fmt I m e = .ok b ∧ Rounded T.fmt (scaled T.fmt m.natAbs e) n ∧
      b = (if m < 0 then T.spec.signBit else 0) + min n (infIdx T.fmt) ∧
      (T = .float16 → ∀ j : Nat, j < 2 ^ 10 → 2 * ((m.natAbs : ℚ) * 10 ^ e * 2 ^ 24) = 2 * (j : ℚ) + 1 → n = j + 1) := by
  unfold Allowed at hm
  unfold integerTimesPow10Any
  by_cases hs : I.signed
  · rw [if_pos hs] at hm ⊢
    obtain ⟨b, n, e1, e2, e3, e4⟩ := pow10_core c T m.natAbs (by omega) e (decide (m < 0))
    rw [toInt64_of_range hm.1.le hm.2, pow10I_eq c T.fmt hm.1 hm.2 e]
    refine ⟨b, n, e1, e2, ?_, fun h j hj ht => (e4 h j hj ht).2⟩
    rw [e3]; simp
  · rw [if_neg hs] at hm ⊢
    rw [Int.emod_eq_of_lt hm.1 hm.2]
    have : m.toNat = m.natAbs := by omega
    obtain ⟨b, n, e1, e2, e3, e4⟩ := pow10_core c T m.natAbs (by omega) e false
    rw [this]
    refine ⟨b, n, e1, e2, ?_, fun h j hj ht => (e4 h j hj ht).2⟩
    rw [e3]
    simp [not_lt.2 hm.1]

theorem pow10_index_unique {T : FloatTy} {m m' : Nat} {e e' : Int} {n n' : Nat} (hm : m < 2 ^ 64) (hm' : m' < 2 ^ 64)
    (h : Rounded T.fmt (scaled T.fmt m e) n) (h' : Rounded T.fmt (scaled T.fmt m' e') n')
    (ht : T = .float16 → ∀ j : Nat, j < 2 ^ 10 → 2 * ((m : ℚ) * 10 ^ e * 2 ^ 24) = 2 * (j : ℚ) + 1 → n = j + 1)
    (ht' : T = .float16 → ∀ j : Nat, j < 2 ^ 10 → 2 * ((m' : ℚ) * 10 ^ e' * 2 ^ 24) = 2 * (j : ℚ) + 1 → n' = j + 1)
    (hv : (m : ℚ) * 10 ^ e = (m' : ℚ) * 10 ^ e') : n = n' := by
  by_cases hT : T = .float16
  · subst hT
    have hs : scaled FloatTy.float16.fmt m e = (m : ℚ) * 10 ^ e * 2 ^ 24 := by rw [scaled_eq, ulp16]
    have hs' : scaled FloatTy.float16.fmt m' e' = (m' : ℚ) * 10 ^ e' * 2 ^ 24 := by rw [scaled_eq, ulp16]
    rw [hs] at h
    rw [hs'] at h'
    rcases h with h | ⟨k, _, k2, k3, k4⟩
    · rcases h' with h' | ⟨k, _, k2, k3, k4⟩
      · rw [hv] at h; exact RN.unique h h'
      · rw [k4]; exact ht rfl k k2 (by rw [hv]; exact k3)
    · rw [k4]; exact (ht' rfl k k2 (by rw [← hv]; exact k3)).symm
  · have a := h.rn (T.ulpWide hT) hm
    have b := h'.rn (T.ulpWide hT) hm'
    rw [scaled_eq] at a b
    rw [hv] at a
    exact RN.unique a b

theorem pow10_index_mono {T : FloatTy} {m m' : Nat} {e e' : Int} {n n' : Nat} (hm : m < 2 ^ 64) (hm' : m' < 2 ^ 64)
    (h : Rounded T.fmt (scaled T.fmt m e) n) (h' : Rounded T.fmt (scaled T.fmt m' e') n')
    (ht : T = .float16 → ∀ j : Nat, j < 2 ^ 10 → 2 * ((m : ℚ) * 10 ^ e * 2 ^ 24) = 2 * (j : ℚ) + 1 → n = j + 1)
    (ht' : T = .float16 → ∀ j : Nat, j < 2 ^ 10 → 2 * ((m' : ℚ) * 10 ^ e' * 2 ^ 24) = 2 * (j : ℚ) + 1 → n' = j + 1)
    (hv : (m : ℚ) * 10 ^ e ≤ (m' : ℚ) * 10 ^ e') : n ≤ n' := by
  rcases lt_or_eq_of_le hv with hlt | heq
  · refine h.mono_lt h' ?_
    rw [scaled_eq, scaled_eq]
    exact mul_lt_mul_of_pos_right hlt (by positivity)
  · exact (pow10_index_unique hm hm' h h' ht ht' heq).le

theorem allowed_abs {I : IntType} {m : Int} (h : Allowed I m) : m.natAbs < 2 ^ 64 := by
  unfold Allowed at h; split at h <;> omega

theorem int_split (m : Int) : (m : ℚ) = if m < 0 then -(m.natAbs : ℚ) else (m.natAbs : ℚ) := by
  have h : (m.natAbs : ℚ) = |(m : ℚ)| := by rw [abs_natAbs]
  rw [h]
  split_ifs with hm
  · rw [abs_of_neg (by exact_mod_cast hm)]; ring
  · rw [abs_of_nonneg (by exact_mod_cast not_lt.1 hm)]

/-- **C86**: `integer_times_pow10` is monotone in the product, whatever the two integer types, splits into integer and power of ten, and configurations.  (`extVal`
orders the infinities below and above everything.) -/
theorem C86_monotone (T : FloatTy) {c₁ c₂ : Cfg} {I₁ I₂ : IntType} {m₁ m₂ : Int} (h₁ : Allowed I₁ m₁) (h₂ : Allowed I₂ m₂) (e₁ e₂ : Int)
    (hv : (m₁ : ℚ) * 10 ^ e₁ ≤ (m₂ : ℚ) * 10 ^ e₂) :
    ∃ b₁ b₂, integerTimesPow10Any c₁ T.fmt I₁ m₁ e₁ = .ok b₁ ∧ integerTimesPow10Any c₂ T.fmt I₂ m₂ e₂ = .ok b₂ ∧ T.spec.extVal b₁ ≤ T.spec.extVal b₂ := by
  obtain ⟨b, n, a1, a2, a3, a4⟩ := pow10_any_index c₁ T I₁ h₁ e₁
  obtain ⟨b', n', d1, d2, d3, d4⟩ := pow10_any_index c₂ T I₂ h₂ e₂
  refine ⟨b, b', a1, d1, ?_⟩
  have q1 : (0 : ℚ) < 10 ^ e₁ := by positivity
  have q2 : (0 : ℚ) < 10 ^ e₂ := by positivity
  rw [int_split m₁, int_split m₂] at hv
  rw [a3, d3, T.signBit_eq]
  by_cases s1 : m₁ < 0 <;> by_cases s2 : m₂ < 0 <;> simp only [s1, s2, if_true, if_false, Nat.zero_add] at hv ⊢
  · rw [Nat.add_comm, Nat.add_comm _ (min n' _)]
    have := pow10_index_mono (allowed_abs h₂) (allowed_abs h₁) d2 a2 d4 a4 (by linarith)
    exact extVal_mono_neg T (by omega) (by omega)
  · rw [Nat.add_comm]
    exact extVal_neg_le_pos T (by omega)
  · exfalso
    have p2 : (0 : ℚ) < (m₂.natAbs : ℚ) := by exact_mod_cast (by omega : 0 < m₂.natAbs)
    have p1 : (0 : ℚ) ≤ (m₁.natAbs : ℚ) := by positivity
    have := mul_pos p2 q2
    have := mul_nonneg p1 q1.le
    linarith
  · have := pow10_index_mono (allowed_abs h₁) (allowed_abs h₂) a2 d2 a4 d4 hv
    exact extVal_mono_pos T (by omega) (by omega)

/-- **C86**: the result depends on the product only: two calls with equal products return the same bits. -/
theorem C86_product_only (T : FloatTy) {c₁ c₂ : Cfg} {I₁ I₂ : IntType} {m₁ m₂ : Int} (h₁ : Allowed I₁ m₁) (h₂ : Allowed I₂ m₂) {e₁ e₂ : Int}
    (hv : (m₁ : ℚ) * 10 ^ e₁ = (m₂ : ℚ) * 10 ^ e₂) : integerTimesPow10Any c₁ T.fmt I₁ m₁ e₁ = integerTimesPow10Any c₂ T.fmt I₂ m₂ e₂ := by
  obtain ⟨b, n, a1, a2, a3, a4⟩ := pow10_any_index c₁ T I₁ h₁ e₁
  obtain ⟨b', n', d1, d2, d3, d4⟩ := pow10_any_index c₂ T I₂ h₂ e₂
  have q1 : (0 : ℚ) < 10 ^ e₁ := by positivity
  have q2 : (0 : ℚ) < 10 ^ e₂ := by positivity
  have hs : m₁ < 0 ↔ m₂ < 0 := by
    have t1 : m₁ < 0 ↔ (m₁ : ℚ) * 10 ^ e₁ < 0 := by
      rw [← not_le, ← not_le, mul_nonneg_iff_of_pos_right q1, Int.cast_nonneg_iff]
    have t2 : m₂ < 0 ↔ (m₂ : ℚ) * 10 ^ e₂ < 0 := by
      rw [← not_le, ← not_le, mul_nonneg_iff_of_pos_right q2, Int.cast_nonneg_iff]
    rw [t1, t2, hv]
  have hv' : (m₁.natAbs : ℚ) * 10 ^ e₁ = (m₂.natAbs : ℚ) * 10 ^ e₂ := by
    rw [int_split m₁, int_split m₂] at hv
    by_cases s : m₂ < 0
    · rw [if_pos s, if_pos (hs.2 s)] at hv; linarith
    · rw [if_neg s, if_neg (fun h => s (hs.1 h))] at hv; exact hv
  have := pow10_index_unique (allowed_abs h₁) (allowed_abs h₂) a2 d2 a4 d4 hv'
  rw [a1, d1, a3, d3, this]
  simp only [hs]

/-- **C86**: a zero at the end of the integer can be moved to the exponent and back. -/
theorem C86_shift (T : FloatTy) {c₁ c₂ : Cfg} {I₁ I₂ : IntType} {m : Int} (k : Nat) (h₁ : Allowed I₁ m) (h₂ : Allowed I₂ (m * 10 ^ k)) (e : Int) :
    integerTimesPow10Any c₁ T.fmt I₁ m (e + k) = integerTimesPow10Any c₂ T.fmt I₂ (m * 10 ^ k) e := by
  refine C86_product_only T h₁ h₂ ?_
  rw [zpow_add₀ (by norm_num), zpow_natCast]
  push_cast
  ring

/-- **C86**: larger integer, larger result. -/
theorem C86_monotone_integer (T : FloatTy) {c₁ c₂ : Cfg} {I₁ I₂ : IntType} {m₁ m₂ : Int} (h₁ : Allowed I₁ m₁) (h₂ : Allowed I₂ m₂) (h : m₁ ≤ m₂) (e : Int) :
    ∃ b₁ b₂, integerTimesPow10Any c₁ T.fmt I₁ m₁ e = .ok b₁ ∧ integerTimesPow10Any c₂ T.fmt I₂ m₂ e = .ok b₂ ∧ T.spec.extVal b₁ ≤ T.spec.extVal b₂ :=
  C86_monotone T h₁ h₂ e e (mul_le_mul_of_nonneg_right (by exact_mod_cast h) (by positivity))

/-- **C86**: larger power of ten, result farther from zero. -/
theorem C86_monotone_power (T : FloatTy) {c₁ c₂ : Cfg} {I₁ I₂ : IntType} {m : Int} (h₁ : Allowed I₁ m) (h₂ : Allowed I₂ m) (hm : 0 ≤ m) {e₁ e₂ : Int} (h : e₁ ≤ e₂) :
    ∃ b₁ b₂, integerTimesPow10Any c₁ T.fmt I₁ m e₁ = .ok b₁ ∧ integerTimesPow10Any c₂ T.fmt I₂ m e₂ = .ok b₂ ∧ T.spec.extVal b₁ ≤ T.spec.extVal b₂ :=
  C86_monotone T h₁ h₂ e₁ e₂ (mul_le_mul_of_nonneg_left (zpow_le_zpow_right₀ (by norm_num) h) (by exact_mod_cast hm))

/-- **C86**: negating the integer flips the sign bit and nothing else. -/
theorem C86_odd (T : FloatTy) {c₁ c₂ : Cfg} {I₁ I₂ : IntType} {m : Int} (hm : 0 < m) (h₁ : Allowed I₁ m) (h₂ : Allowed I₂ (-m)) (e : Int) :
    ∃ b, b < T.spec.signBit ∧ integerTimesPow10Any c₁ T.fmt I₁ m e = .ok b ∧ integerTimesPow10Any c₂ T.fmt I₂ (-m) e = .ok (T.spec.signBit + b) := by
  obtain ⟨b, n, a1, a2, a3, a4⟩ := pow10_any_index c₁ T I₁ h₁ e
  obtain ⟨b', n', d1, d2, d3, d4⟩ := pow10_any_index c₂ T I₂ h₂ e
  have := pow10_index_unique (allowed_abs h₁) (allowed_abs h₂) a2 d2 a4 d4 (by rw [Int.natAbs_neg])
  subst this
  rw [if_neg (by omega), Nat.zero_add] at a3
  rw [if_pos (by omega)] at d3
  refine ⟨b, ?_, a1, ?_⟩
  · rw [a3, T.signBit_eq]; have := infIdx_lt_sign T; omega
  · rw [d1, d3, a3]

/-- **C86**: a product that is a number of the type is returned exactly. -/
theorem C86_exact (T : FloatTy) (c : Cfg) (I : IntType) {m : Int} (hm : Allowed I m) (e : Int) {k : Nat} (hk : k < T.spec.inf) (hx : |(m : ℚ)| * 10 ^ e = T.spec.val k) :
    integerTimesPow10Any c T.fmt I m e = .ok ((if m < 0 then T.spec.signBit else 0) + k) := by
  obtain ⟨b, n, a1, a2, a3, a4⟩ := pow10_any_index c T I hm e
  rw [abs_natAbs] at hx
  have hsc : scaled T.fmt m.natAbs e = (fpVal T.fmt.mb k : ℚ) := by
    rw [scaled_eq, hx, val_eq T.fmatch, div_mul_cancel₀ _ (by positivity)]
  have hn : n = k := by
    rw [hsc] at a2
    rcases a2 with h | ⟨j, _, _, h3, _⟩
    · exact RN.unique h (RN_exact _ _)
    · exfalso
      have : 2 * fpVal T.fmt.mb k = 2 * j + 1 := by exact_mod_cast h3
      omega
  rw [a1, a3, hn, Nat.min_eq_left]
  rw [T.fmatch.inf] at hk
  exact hk.le

/-! ### Concrete cases -/

/-- `30 * 10^-25` and `3 * 10^-24` (float16 underflow side), `7 * 10^3` as int8 and 7000 as int16. -/
example : integerTimesPow10Any Cfg.x64 FloatTy.float.fmt ⟨8, true, false, false, false⟩ 7 3 = integerTimesPow10Any Cfg.x64 FloatTy.float.fmt ⟨16, true, false, false, false⟩ 7000 0 :=
  C86_shift .float (c₁ := Cfg.x64) (c₂ := Cfg.x64) 3 (I₁ := ⟨8, true, false, false, false⟩) (I₂ := ⟨16, true, false, false, false⟩) (m := 7) (by unfold Allowed; decide)
    (by unfold Allowed; decide) 0
example : integerTimesPow10Any Cfg.x64 FloatTy.float.fmt ⟨8, true, false, false, false⟩ 7 3 = .ok 0x45DAC000 := by decide +kernel
/-- The exceptional tie `2^-25` in float16, split in two ways: the same (wrong) result. -/
example : integerTimesPow10Any Cfg.x64 binary16 uint64 298023223876953125 (-25) = .ok 1 ∧ integerTimesPow10Any Cfg.x64 binary16 uint64 2980232238769531250 (-26) = .ok 1 := by
  decide +kernel
example : Allowed uint64 298023223876953125 ∧ Allowed int64 (-5) := by unfold Allowed; decide

end FastFloat
