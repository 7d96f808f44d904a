import Verif.Model.Fpu
import Verif.Spec.Float
import Mathlib.Tactic.Linarith
import Mathlib.Tactic.Ring
import Mathlib.Tactic.Positivity
import Mathlib.Tactic.FieldSimp
import Mathlib.Tactic.NormNum
import Mathlib.Algebra.Order.Field.Basic
/-
# Round to nearest, ties to even, on the index line of floats
-/
namespace FastFloat

/-- fpVal on an index in normalised position. -/
theorem fpVal_lin (mb j m : Nat) (h1 : j = 0 ∨ 2 ^ mb ≤ m) (h2 : m < 2 ^ (mb + 1)) :
    fpVal mb (j * 2 ^ mb + m) = m * 2 ^ j := by
  have hp : 0 < 2 ^ mb := Nat.two_pow_pos mb
  rw [pow_succ] at h2
  unfold fpVal
  rcases Nat.lt_or_ge m (2 ^ mb) with h | h
  · have hj : j = 0 := by omega
    subst hj
    simp [Nat.div_eq_of_lt h, Nat.mod_eq_of_lt h]
  · obtain ⟨r, rfl⟩ := Nat.exists_eq_add_of_le h
    have hr : r < 2 ^ mb := by omega
    have e1 : j * 2 ^ mb + (2 ^ mb + r) = r + (j + 1) * 2 ^ mb := by ring
    rw [e1, Nat.add_mul_div_right _ _ hp, Nat.add_mul_mod_self_right, Nat.div_eq_of_lt hr, Nat.mod_eq_of_lt hr]
    simp

/-- The top of a binade. -/
theorem fpVal_top (mb j : Nat) : fpVal mb (j * 2 ^ mb + 2 ^ (mb + 1)) = 2 ^ (mb + 1) * 2 ^ j := by
  have e : j * 2 ^ mb + 2 ^ (mb + 1) = (j + 1) * 2 ^ mb + 2 ^ mb := by ring
  rw [e, fpVal_lin mb (j + 1) (2 ^ mb) (Or.inr le_rfl) (by rw [pow_succ]; have := Nat.two_pow_pos mb; omega)]
  ring

theorem fpVal_lin' (mb j m : Nat) (h1 : j = 0 ∨ 2 ^ mb ≤ m) (h2 : m ≤ 2 ^ (mb + 1)) :
    fpVal mb (j * 2 ^ mb + m) = m * 2 ^ j := by
  rcases Nat.lt_or_eq_of_le h2 with h | h
  · exact fpVal_lin mb j m h1 h
  · subst h; exact fpVal_top mb j

/-- Every index has a normalised position. -/
theorem idx_pos (mb n : Nat) : ∃ j m, n = j * 2 ^ mb + m ∧ (j = 0 ∨ 2 ^ mb ≤ m) ∧ m < 2 ^ (mb + 1) := by
  have hp : 0 < 2 ^ mb := Nat.two_pow_pos mb
  have hd := Nat.div_add_mod n (2 ^ mb)
  have hm := Nat.mod_lt n hp
  rw [mul_comm] at hd
  rcases Nat.eq_zero_or_pos (n / 2 ^ mb) with h | h
  · refine ⟨0, n % 2 ^ mb, by rw [h] at hd; omega, Or.inl rfl, by rw [pow_succ]; omega⟩
  · obtain ⟨k, hk⟩ := Nat.exists_eq_add_of_le h
    refine ⟨k, 2 ^ mb + n % 2 ^ mb, ?_, Or.inr (by omega), by rw [pow_succ]; omega⟩
    rw [hk] at hd
    have : (Nat.succ 0 + k) * 2 ^ mb = k * 2 ^ mb + 2 ^ mb := by simp only [Nat.succ_eq_add_one]; ring
    omega

theorem fpVal_succ (mb j m : Nat) (h1 : j = 0 ∨ 2 ^ mb ≤ m) (h2 : m < 2 ^ (mb + 1)) :
    fpVal mb (j * 2 ^ mb + m + 1) = (m + 1) * 2 ^ j := by
  rw [add_assoc]
  exact fpVal_lin' mb j (m + 1) (by omega) (by omega)

theorem fpVal_lt_succ (mb n : Nat) : fpVal mb n < fpVal mb (n + 1) := by
  obtain ⟨j, m, rfl, h1, h2⟩ := idx_pos mb n
  rw [fpVal_lin mb j m h1 h2, fpVal_succ mb j m h1 h2]
  exact Nat.mul_lt_mul_of_pos_right (Nat.lt_succ_self m) (Nat.two_pow_pos j)

theorem fpVal_strictMono {mb a b : Nat} (h : a < b) : fpVal mb a < fpVal mb b := by
  induction b with
  | zero => omega
  | succ b ih =>
    rcases Nat.lt_or_eq_of_le (Nat.lt_succ_iff.mp h) with h' | h'
    · exact lt_trans (ih h') (fpVal_lt_succ mb b)
    · subst h'; exact fpVal_lt_succ mb a

theorem fpVal_mono {mb a b : Nat} (h : a ≤ b) : fpVal mb a ≤ fpVal mb b := by
  rcases Nat.lt_or_eq_of_le h with h | h
  · exact le_of_lt (fpVal_strictMono h)
  · rw [h]

@[simp] theorem fpVal_zero (mb : Nat) : fpVal mb 0 = 0 := by simp [fpVal]

/-- Nearest-even on the unbounded index line, `X` in units of the smallest subnormal. -/
def RN (mb : Nat) (X : ℚ) (n : Nat) : Prop :=
  (∀ k, n = k + 1 → (fpVal mb k : ℚ) + fpVal mb n ≤ 2 * X ∧ (n % 2 = 1 → (fpVal mb k : ℚ) + fpVal mb n < 2 * X)) ∧
  (2 * X ≤ (fpVal mb n : ℚ) + fpVal mb (n + 1) ∧ (n % 2 = 1 → 2 * X < (fpVal mb n : ℚ) + fpVal mb (n + 1)))

/-- Lower bound for smaller indices. -/
theorem RN.low {mb : Nat} {X : ℚ} {n k : Nat} (h : RN mb X n) (hk : k < n) :
    (fpVal mb k : ℚ) + fpVal mb n ≤ 2 * X ∧ (n % 2 = 1 → (fpVal mb k : ℚ) + fpVal mb n < 2 * X) := by
  obtain ⟨m, rfl⟩ : ∃ m, n = m + 1 := ⟨n - 1, by omega⟩
  have h1 := h.1 m rfl
  have h2 : (fpVal mb k : ℚ) ≤ fpVal mb m := by exact_mod_cast fpVal_mono (by omega)
  exact ⟨by linarith [h1.1], fun ho => by linarith [h1.2 ho]⟩

theorem RN.high {mb : Nat} {X : ℚ} {n k : Nat} (h : RN mb X n) (hk : n < k) :
    2 * X ≤ (fpVal mb n : ℚ) + fpVal mb k ∧ (n % 2 = 1 → 2 * X < (fpVal mb n : ℚ) + fpVal mb k) := by
  have h2 : (fpVal mb (n + 1) : ℚ) ≤ fpVal mb k := by exact_mod_cast fpVal_mono (by omega)
  exact ⟨by linarith [h.2.1], fun ho => by linarith [h.2.2 ho]⟩

theorem RN.mono {mb : Nat} {X Y : ℚ} {n m : Nat} (hX : RN mb X n) (hY : RN mb Y m) (h : X ≤ Y) : n ≤ m := by
  by_contra hc
  have hlt : m < n := by omega
  have a := hX.low hlt
  have b := hY.high hlt
  have heq : X = Y := by linarith [a.1, b.1]
  subst heq
  -- equality in the midpoint: both even, and adjacent indices have different parity
  rcases Nat.lt_or_ge (m + 1) n with h2 | h2
  · have s : (fpVal mb m : ℚ) < fpVal mb (m + 1) := by exact_mod_cast fpVal_lt_succ mb m
    have a' := hX.low h2
    linarith [a'.1, b.1]
  · have e : n = m + 1 := by omega
    rcases Nat.mod_two_eq_zero_or_one n with p | p
    · have := b.2 (by omega); linarith [a.1]
    · have := a.2 p; linarith [b.1]

theorem RN.unique {mb : Nat} {X : ℚ} {n m : Nat} (hX : RN mb X n) (hY : RN mb X m) : n = m :=
  le_antisymm (hX.mono hY le_rfl) (hY.mono hX le_rfl)

/-- `m` is the nearest-even integer of `y`. -/
def RNInt (y : ℚ) (m : Nat) : Prop :=
  (2 * m : ℚ) - 1 ≤ 2 * y ∧ 2 * y ≤ 2 * m + 1 ∧ (m % 2 = 1 → (2 * m : ℚ) - 1 < 2 * y ∧ 2 * y < 2 * m + 1)

/-- Rounding the scaled significand gives the rounded index. -/
theorem RN_of_scaled {mb : Nat} (hmb : 1 ≤ mb) {X : ℚ} {j m : Nat} (h1 : j = 0 ∨ (2 ^ (mb + j) : ℚ) ≤ X)
    (h2 : X < 2 ^ (mb + 1 + j)) (hX : 0 ≤ X) (hm : RNInt (X / 2 ^ j) m) : RN mb X (j * 2 ^ mb + m) := by
  have hp : (0 : ℚ) < 2 ^ j := by positivity
  obtain ⟨y, hy⟩ : ∃ y, y = X / 2 ^ j := ⟨_, rfl⟩
  have hXy : X = y * 2 ^ j := by rw [hy]; field_simp
  rw [← hy] at hm
  have hy2 : y < 2 ^ (mb + 1) := by
    rw [hXy, pow_add] at h2
    exact lt_of_mul_lt_mul_right h2 hp.le
  have hy1 : j = 0 ∨ (2 ^ mb : ℚ) ≤ y := by
    rcases h1 with h | h
    · exact Or.inl h
    · right; rw [hXy, pow_add] at h; exact le_of_mul_le_mul_right h hp
  have hy0 : 0 ≤ y := by rw [hy]; positivity
  have hmle : m ≤ 2 ^ (mb + 1) := by
    by_contra hc
    have : (2 ^ (mb + 1) : ℚ) + 1 ≤ m := by exact_mod_cast (by omega : 2 ^ (mb + 1) + 1 ≤ m)
    linarith [hm.1]
  have hmge : j = 0 ∨ 2 ^ mb ≤ m := by
    rcases hy1 with h | h
    · exact Or.inl h
    · right
      by_contra hc
      have : (m : ℚ) + 1 ≤ 2 ^ mb := by exact_mod_cast (by omega : m + 1 ≤ 2 ^ mb)
      linarith [hm.2.1]
  have hpar : (j * 2 ^ mb + m) % 2 = m % 2 := by
    obtain ⟨k, rfl⟩ : ∃ k, mb = k + 1 := ⟨mb - 1, by omega⟩
    have : j * 2 ^ (k + 1) = 2 * (j * 2 ^ k) := by ring
    omega
  have hv : fpVal mb (j * 2 ^ mb + m) = m * 2 ^ j := fpVal_lin' mb j m hmge hmle
  constructor
  · intro k hk
    -- value of the predecessor
    have hvk : (fpVal mb k : ℚ) ≤ (m - 1) * 2 ^ j ∨ ((2 ^ mb : ℚ) ≤ y ∧ m = 2 ^ mb ∧ (fpVal mb k : ℚ) < m * 2 ^ j) := by
      rcases Nat.lt_or_ge (2 ^ mb) m with hgt | hle
      · left
        have e : k = j * 2 ^ mb + (m - 1) := by omega
        rw [e, fpVal_lin' mb j (m - 1) (by omega) (by omega)]
        push_cast [Nat.cast_sub (by omega : 1 ≤ m)]
        exact le_rfl
      · rcases hmge with h0 | h0
        · left
          subst h0
          have hm1 : 1 ≤ m := by
            by_contra hc
            have : m = 0 := by omega
            subst this; simp at hk
          have e : k = 0 * 2 ^ mb + (m - 1) := by omega
          rw [e, fpVal_lin' mb 0 (m - 1) (Or.inl rfl) (by rw [pow_succ]; omega)]
          push_cast [Nat.cast_sub hm1]
          exact le_rfl
        · have hmm : m = 2 ^ mb := le_antisymm hle h0
          rcases hy1 with h3 | h3
          · left
            subst h3
            have hm1 : 1 ≤ m := by have := Nat.two_pow_pos mb; omega
            have e : k = 0 * 2 ^ mb + (m - 1) := by omega
            rw [e, fpVal_lin' mb 0 (m - 1) (Or.inl rfl) (by rw [pow_succ]; omega)]
            push_cast [Nat.cast_sub hm1]
            exact le_rfl
          · right
            refine ⟨h3, hmm, ?_⟩
            have : fpVal mb k < fpVal mb (j * 2 ^ mb + m) := fpVal_strictMono (by omega)
            rw [hv] at this
            exact_mod_cast this
    rw [hv, hpar]
    push_cast
    rcases hvk with hvk | ⟨hyy, hmm, hvk⟩
    · constructor
      · have := mul_le_mul_of_nonneg_right hm.1 hp.le
        rw [hXy]; nlinarith
      · intro ho
        have := mul_lt_mul_of_pos_right (hm.2.2 ho).1 hp
        rw [hXy]; nlinarith
    · have hmy : (m : ℚ) ≤ y := by rw [hmm]; exact_mod_cast hyy
      have := mul_le_mul_of_nonneg_right hmy hp.le
      constructor
      · rw [hXy]; nlinarith
      · intro ho; rw [hXy]; nlinarith
  · -- successor
    have hvs : ((m : ℚ) + 1) * 2 ^ j ≤ fpVal mb (j * 2 ^ mb + m + 1) := by
      rcases Nat.lt_or_eq_of_le hmle with h | h
      · rw [fpVal_succ mb j m hmge h]; push_cast; exact le_rfl
      · subst h
        have e : j * 2 ^ mb + 2 ^ (mb + 1) + 1 = (j + 1) * 2 ^ mb + (2 ^ mb + 1) := by ring
        have h1m : 2 ^ mb + 1 ≤ 2 ^ (mb + 1) := by
          rw [pow_succ]; have := Nat.two_pow_pos mb; omega
        rw [e, fpVal_lin' mb (j + 1) (2 ^ mb + 1) (Or.inr (by omega)) h1m]
        push_cast
        rw [pow_succ, pow_succ]
        nlinarith
    rw [hv, hpar]
    push_cast
    constructor
    · have := mul_le_mul_of_nonneg_right hm.2.1 hp.le
      rw [hXy]; nlinarith
    · intro ho
      have := mul_lt_mul_of_pos_right (hm.2.2 ho).2 hp
      rw [hXy]; nlinarith

end FastFloat
