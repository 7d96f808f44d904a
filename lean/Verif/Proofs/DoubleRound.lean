import Verif.Proofs.FpuRN
import Mathlib.Tactic.LinearCombination
/-
# Rounding twice: first to a wider format, then to the final one

`FLT_EVAL_METHOD == 1` evaluates `float` operations in `double` and rounds to `float` on assignment.  For the quotients of the fast
path the intermediate rounding is harmless.
-/
namespace FastFloat

/-- `fpRound` only depends on the quotient. -/
theorem fpRound_scale (F : BinFmt) (mode : RoundMode) (a d k : Nat) (hk : 0 < k) : fpRound F mode (a * k) (d * k) = fpRound F mode a d := by
  have h1 : a * k / (d * k) = a / d := Nat.mul_div_mul_right a d hk
  have hj : ∀ j, d * k * 2 ^ j = d * 2 ^ j * k := fun j => by ring
  have h2 : ∀ D, a * k / (D * k) = a / D := fun D => Nat.mul_div_mul_right a D hk
  have h3 : ∀ D, a * k % (D * k) = a % D * k := fun D => Nat.mul_mod_mul_right k a D
  have h4 : ∀ q r D, roundsUp mode q (r * k) (D * k) = roundsUp mode q r D := by
    intro q r D
    have a1 : (2 * (r * k) > D * k) ↔ 2 * r > D := by
      rw [← Nat.mul_assoc]; exact Nat.mul_lt_mul_right hk
    have a2 : (2 * (r * k) = D * k) ↔ 2 * r = D := by
      rw [← Nat.mul_assoc]; exact Nat.mul_left_inj hk.ne'
    have a3 : (r * k > 0) ↔ r > 0 := by
      constructor
      · intro h; exact Nat.pos_of_mul_pos_right h
      · intro h; exact Nat.mul_pos h hk
    cases mode <;> simp only [roundsUp, a1, a2, a3]
  unfold fpRound
  simp only [h1, hj, h2, h3, h4]

theorem fpRound_congr (F : BinFmt) (mode : RoundMode) {a d a' d' : Nat} (hd : 0 < d) (hd' : 0 < d') (h : a * d' = a' * d) :
    fpRound F mode a d = fpRound F mode a' d' := by
  rw [← fpRound_scale F mode a d d' hd', ← fpRound_scale F mode a' d' d hd, h, Nat.mul_comm d d']

/-- Twice the midpoint above an index. -/
theorem mid_form (mb k : Nat) : ∃ j m, fpVal mb k + fpVal mb (k + 1) = (2 * m + 1) * 2 ^ j ∧ m < 2 ^ (mb + 1) ∧ (j = 0 ∨ 2 ^ mb ≤ m) := by
  obtain ⟨j, m, rfl, h1, h2⟩ := idx_pos mb k
  refine ⟨j, m, ?_, h2, h1⟩
  rw [fpVal_lin mb j m h1 h2, fpVal_succ mb j m h1 h2]; ring

/-- Small multiples of powers of two are representable. -/
theorem exact_idx (mb : Nat) : ∀ (t M : Nat), M ≤ 2 ^ (mb + 1) → ∃ n, fpVal mb n = M * 2 ^ t := by
  intro t
  induction t with
  | zero =>
    intro M h
    refine ⟨M, ?_⟩
    have := fpVal_lin' mb 0 M (Or.inl rfl) h
    simpa using this
  | succ t ih =>
    intro M h
    rcases Nat.lt_or_ge M (2 ^ mb) with hl | hl
    · obtain ⟨n, hn⟩ := ih (2 * M) (by rw [pow_succ]; omega)
      exact ⟨n, by rw [hn, pow_succ]; ring⟩
    · exact ⟨(t + 1) * 2 ^ mb + M, fpVal_lin' mb (t + 1) M (Or.inr hl) h⟩

/-- A rounded value is within half a unit in the last place. -/
theorem RN_near {mb : Nat} {X : ℚ} {z : Nat} (h : RN mb X z) (hz : 2 ^ mb ≤ z) :
    |X - fpVal mb z| * 2 ^ (mb + 1) ≤ fpVal mb z := by
  obtain ⟨j, m, rfl, h1, h2⟩ := idx_pos mb z
  have hp := Nat.two_pow_pos mb
  have hm : 2 ^ mb ≤ m := by
    rcases h1 with h | h
    · subst h; omega
    · exact h
  have hv : fpVal mb (j * 2 ^ mb + m) = m * 2 ^ j := fpVal_lin mb j m h1 h2
  have hs : fpVal mb (j * 2 ^ mb + m + 1) = (m + 1) * 2 ^ j := fpVal_succ mb j m h1 h2
  have hpr : ∃ k, j * 2 ^ mb + m = k + 1 ∧ (m * 2 ^ j : ℚ) - 2 ^ j ≤ fpVal mb k := by
    refine ⟨j * 2 ^ mb + m - 1, by omega, ?_⟩
    rcases Nat.lt_or_ge (2 ^ mb) m with hgt | hle
    · have e : j * 2 ^ mb + m - 1 = j * 2 ^ mb + (m - 1) := by omega
      rw [e, fpVal_lin mb j (m - 1) (by omega) (by omega)]
      push_cast [Nat.cast_sub (by omega : 1 ≤ m)]
      linarith
    · have hmm : m = 2 ^ mb := by omega
      rcases Nat.eq_zero_or_pos j with hj | hj
      · subst hj
        have e : 0 * 2 ^ mb + m - 1 = 0 * 2 ^ mb + (m - 1) := by omega
        rw [e, fpVal_lin mb 0 (m - 1) (Or.inl rfl) (by omega)]
        push_cast [Nat.cast_sub (by omega : 1 ≤ m)]
        linarith
      · obtain ⟨i, rfl⟩ : ∃ i, j = i + 1 := ⟨j - 1, by omega⟩
        have e : (i + 1) * 2 ^ mb + m - 1 = i * 2 ^ mb + (2 ^ (mb + 1) - 1) := by
          rw [hmm, pow_succ, Nat.add_mul]; omega
        rw [e, fpVal_lin mb i (2 ^ (mb + 1) - 1) (Or.inr (by rw [pow_succ]; omega)) (by rw [pow_succ]; omega)]
        rw [hmm, pow_succ 2 mb, Nat.cast_mul, Nat.cast_sub (by omega)]
        push_cast
        rw [pow_succ]
        have : (0 : ℚ) < 2 ^ i := by positivity
        nlinarith
  obtain ⟨k, hk, hkv⟩ := hpr
  have hlow := (h.1 k hk).1
  have hhigh := h.2.1
  rw [hv] at hlow
  rw [hv, hs] at hhigh
  rw [hv]
  push_cast at *
  have hj : (0 : ℚ) < 2 ^ j := by positivity
  have habs : |X - m * 2 ^ j| * 2 ≤ 2 ^ j := by
    rw [← le_div_iff₀ (by norm_num), abs_le]
    constructor
    · rw [← neg_div]; rw [div_le_iff₀ (by norm_num)]; linarith
    · rw [le_div_iff₀ (by norm_num)]; linarith
  have hmq : (2 ^ mb : ℚ) ≤ m := by exact_mod_cast hm
  calc |X - m * 2 ^ j| * 2 ^ (mb + 1) = (|X - m * 2 ^ j| * 2) * 2 ^ mb := by rw [pow_succ]; ring
    _ ≤ 2 ^ j * 2 ^ mb := mul_le_mul_of_nonneg_right habs (by positivity)
    _ ≤ m * 2 ^ j := by rw [mul_comm]; exact mul_le_mul_of_nonneg_right hmq hj.le

/-- An integer smaller than one in absolute value. -/
theorem int_small {A B : Int} {T : Nat} (hT : B < T) (h : |A| * T ≤ B) : A = 0 := by
  by_contra hc
  have h1 : 1 ≤ |A| := Int.one_le_abs hc
  have : (T : Int) ≤ |A| * T := by nlinarith
  omega

/-- The quotient is never close to a midpoint of the narrow format without being one. -/
theorem quotient_gap {p P uF uG m k N t : Nat} (hm : m ≤ 2 ^ (p + 1)) (hgap : 2 ^ (p + 2) * 5 ^ k ≤ 2 ^ (P + 1))
    (hN : N < 2 ^ (p + 2)) (hN1 : 1 ≤ N) (hbig : t + k > uG → 2 ^ (p + 1) ≤ N) (_huG : uF ≤ uG)
    (h : |(m * 2 ^ uG : ℚ) / 10 ^ k - N * 2 ^ t| * 2 ^ (P + 1) ≤ N * 2 ^ t) : (m * 2 ^ uG : ℚ) / 10 ^ k = N * 2 ^ t := by
  have h10 : (0 : ℚ) < 10 ^ k := by positivity
  -- clear the denominator
  have h' : |(m * 2 ^ uG : ℚ) - N * 2 ^ t * 10 ^ k| * 2 ^ (P + 1) ≤ N * 2 ^ t * 10 ^ k := by
    have e : (m * 2 ^ uG : ℚ) - N * 2 ^ t * 10 ^ k = ((m * 2 ^ uG : ℚ) / 10 ^ k - N * 2 ^ t) * 10 ^ k := by field_simp
    rw [e, abs_mul, abs_of_pos h10]
    have := mul_le_mul_of_nonneg_right h h10.le
    linarith
  rw [div_eq_iff h10.ne']
  have h105 : (10 : ℚ) ^ k = 2 ^ k * 5 ^ k := by rw [← mul_pow]; norm_num
  rcases le_or_gt (t + k) uG with hc | hc
  · obtain ⟨r, rfl⟩ := Nat.exists_eq_add_of_le hc
    have e1 : (m * 2 ^ (t + k + r) : ℚ) - N * 2 ^ t * 10 ^ k = ((m * 2 ^ r - N * 5 ^ k : Int) : ℚ) * 2 ^ (t + k) := by
      rw [h105]; push_cast; rw [pow_add, pow_add]; ring
    have e2 : (N * 2 ^ t * 10 ^ k : ℚ) = ((N * 5 ^ k : Int) : ℚ) * 2 ^ (t + k) := by
      rw [h105]; push_cast; rw [pow_add]; ring
    have hp : (0 : ℚ) < 2 ^ (t + k) := by positivity
    rw [e1, e2, abs_mul, abs_of_pos hp] at h'
    have h2 : |((m * 2 ^ r - N * 5 ^ k : Int) : ℚ)| * 2 ^ (P + 1) ≤ ((N * 5 ^ k : Int) : ℚ) := by
      have : |((m * 2 ^ r - N * 5 ^ k : Int) : ℚ)| * 2 ^ (P + 1) * 2 ^ (t + k) ≤ ((N * 5 ^ k : Int) : ℚ) * 2 ^ (t + k) := by linarith
      exact le_of_mul_le_mul_right this hp
    have h3 : |(m * 2 ^ r - N * 5 ^ k : Int)| * ((2 ^ (P + 1) : Nat) : Int) ≤ (N * 5 ^ k : Int) := by exact_mod_cast h2
    have h4 : (N * 5 ^ k : Int) < ((2 ^ (P + 1) : Nat) : Int) := by
      have : N * 5 ^ k < 2 ^ (P + 1) := lt_of_lt_of_le (Nat.mul_lt_mul_of_pos_right hN (by positivity)) hgap
      exact_mod_cast this
    have h5 := int_small h4 h3
    have : (m * 2 ^ (t + k + r) : ℚ) - N * 2 ^ t * 10 ^ k = 0 := by rw [e1, h5]; simp
    linarith
  · exfalso
    obtain ⟨r, hr⟩ := Nat.exists_eq_add_of_lt hc
    have hNb := hbig hc
    have e2 : (N * 2 ^ t * 10 ^ k : ℚ) = (N * 2 ^ (r + 1) * 5 ^ k) * 2 ^ uG := by
      rw [h105]
      have : (2 : ℚ) ^ t * 2 ^ k = 2 ^ (r + 1) * 2 ^ uG := by rw [← pow_add, ← pow_add]; congr 1; omega
      linear_combination (N * 5 ^ k : ℚ) * this
    rw [e2] at h'
    have hp : (0 : ℚ) < 2 ^ uG := by positivity
    have e1 : (m * 2 ^ uG : ℚ) - N * 2 ^ (r + 1) * 5 ^ k * 2 ^ uG = (m - N * 2 ^ (r + 1) * 5 ^ k) * 2 ^ uG := by ring
    rw [e1, abs_mul, abs_of_pos hp] at h'
    obtain ⟨A, hA⟩ : ∃ A : ℚ, A = N * 2 ^ (r + 1) * 5 ^ k := ⟨_, rfl⟩
    rw [← hA] at h'
    have h2 : |(m : ℚ) - A| * 2 ^ (P + 1) ≤ A := by
      have : |(m : ℚ) - A| * 2 ^ (P + 1) * 2 ^ uG ≤ A * 2 ^ uG := by linarith
      exact le_of_mul_le_mul_right this hp
    have hmq : (m : ℚ) ≤ 2 ^ (p + 1) := by exact_mod_cast hm
    have hNq : (2 ^ (p + 1) : ℚ) ≤ N := by exact_mod_cast hNb
    have h5 : (1 : ℚ) ≤ 5 ^ k := one_le_pow₀ (by norm_num)
    have h2r : (2 : ℚ) ≤ 2 ^ (r + 1) := by
      calc (2 : ℚ) = 2 ^ 1 := by norm_num
        _ ≤ 2 ^ (r + 1) := pow_le_pow_right₀ (by norm_num) (by omega)
    have hNpos : (0 : ℚ) < N := by exact_mod_cast hN1
    have hA2 : 2 * (N : ℚ) ≤ A := by
      rw [hA]
      calc 2 * (N : ℚ) = N * 2 * 1 := by ring
        _ ≤ N * 2 ^ (r + 1) * 5 ^ k := by
          apply mul_le_mul _ h5 (by norm_num) (by positivity)
          exact mul_le_mul_of_nonneg_left h2r hNpos.le
    have hdiff : A / 2 ≤ |(m : ℚ) - A| := by
      rw [abs_sub_comm]
      refine le_trans ?_ (le_abs_self _)
      linarith
    have h4 : (4 : ℚ) ≤ 2 ^ (P + 1) := by
      have : 2 ^ 2 ≤ 2 ^ (P + 1) := by
        refine le_trans ?_ hgap
        refine le_trans (Nat.pow_le_pow_right (by norm_num) (by omega : 2 ≤ p + 2)) (Nat.le_mul_of_pos_right _ (by positivity))
      have : (2 ^ 2 : ℚ) ≤ 2 ^ (P + 1) := by exact_mod_cast this
      linarith
    nlinarith

/-- Rounding the quotient to the wide format first does not change the result. -/
theorem RN_double {p P uF d m k : Nat} (hP : p + 2 ≤ P) (hd : 1 ≤ d) (hm0 : 0 < m) (hm : m ≤ 2 ^ (p + 1)) (hk : k ≤ uF)
    (hgap : 2 ^ (p + 2) * 5 ^ k ≤ 2 ^ (P + 1)) (hbig : 2 ^ P * 10 ^ k ≤ 2 ^ (uF + d)) {y n : Nat}
    (hy : RN P ((m * 2 ^ (uF + d) : ℚ) / 10 ^ k) y) (hn : RN p ((fpVal P y : ℚ) / 2 ^ d) n) :
    RN p ((m * 2 ^ uF : ℚ) / 10 ^ k) n := by
  have h10 : (0 : ℚ) < 10 ^ k := by positivity
  have hpd : (0 : ℚ) < 2 ^ d := by positivity
  obtain ⟨X, hX⟩ : ∃ X : ℚ, X = (m * 2 ^ uF : ℚ) / 10 ^ k := ⟨_, rfl⟩
  have hXd : (m * 2 ^ (uF + d) : ℚ) / 10 ^ k = X * 2 ^ d := by rw [hX, pow_add]; field_simp
  obtain ⟨Y, hY⟩ : ∃ Y : ℚ, Y = (fpVal P y : ℚ) / 2 ^ d := ⟨_, rfl⟩
  have hYd : (fpVal P y : ℚ) = Y * 2 ^ d := by rw [hY]; field_simp
  rw [← hX]; rw [← hY] at hn
  rw [hXd] at hy
  have hyb : 2 ^ P ≤ y := by
    apply hy.ge_of_le
    have h1 : fpVal P (2 ^ P) = 2 ^ P := by
      have := fpVal_lin' P 0 (2 ^ P) (Or.inl rfl) (by rw [pow_succ]; have := Nat.two_pow_pos P; omega)
      simpa using this
    rw [h1, ← hXd, le_div_iff₀ h10]
    have hb : (2 ^ P * 10 ^ k : ℚ) ≤ 2 ^ (uF + d) := by exact_mod_cast hbig
    have hm1 : (1 : ℚ) ≤ m := by exact_mod_cast hm0
    push_cast
    nlinarith [show (0 : ℚ) < 2 ^ (uF + d) by positivity]
  -- comparison with a midpoint of the narrow format
  have key : ∀ k', (2 * Y < fpVal p k' + fpVal p (k' + 1) → 2 * X < fpVal p k' + fpVal p (k' + 1)) ∧
      (fpVal p k' + fpVal p (k' + 1) < 2 * Y → fpVal p k' + fpVal p (k' + 1) < 2 * X) ∧
      (2 * Y = fpVal p k' + fpVal p (k' + 1) → 2 * X = fpVal p k' + fpVal p (k' + 1)) := by
    intro k'
    obtain ⟨j, a, hmid, ha, hja⟩ := mid_form p k'
    have hmq : (fpVal p k' : ℚ) + fpVal p (k' + 1) = (2 * a + 1) * 2 ^ j := by exact_mod_cast hmid
    obtain ⟨z, hz⟩ := exact_idx P (j + d - 1) (2 * a + 1) (by
      have : 2 ^ (p + 2) ≤ 2 ^ (P + 1) := Nat.pow_le_pow_right (by norm_num) (by omega)
      rw [pow_succ] at this; rw [pow_succ] at ha; rw [pow_succ]
      have e : 2 ^ (p + 1) = 2 ^ p * 2 := pow_succ _ _
      rw [pow_succ] at this
      omega)
    have hzq : 2 * (fpVal P z : ℚ) = (2 * a + 1) * 2 ^ j * 2 ^ d := by
      rw [hz]; push_cast
      have : (2 : ℚ) * 2 ^ (j + d - 1) = 2 ^ j * 2 ^ d := by
        rw [← pow_add, ← pow_succ']; congr 1; omega
      linear_combination (2 * a + 1 : ℚ) * this
    rw [hmq]
    refine ⟨?_, ?_, ?_⟩
    · intro h
      by_contra hc
      have hge : (fpVal P z : ℚ) ≤ X * 2 ^ d := by nlinarith
      have h1 := hy.ge_of_le hge
      have h2 : (fpVal P z : ℚ) ≤ fpVal P y := by exact_mod_cast fpVal_mono h1
      rw [hYd] at h2
      have : (2 * Y) * 2 ^ d < (2 * a + 1) * 2 ^ j * 2 ^ d := mul_lt_mul_of_pos_right h hpd
      linarith
    · intro h
      by_contra hc
      have hge : X * 2 ^ d ≤ (fpVal P z : ℚ) := by nlinarith
      have h1 := hy.le_of_ge hge
      have h2 : (fpVal P y : ℚ) ≤ fpVal P z := by exact_mod_cast fpVal_mono h1
      rw [hYd] at h2
      have : (2 * a + 1) * 2 ^ j * 2 ^ d < (2 * Y) * 2 ^ d := mul_lt_mul_of_pos_right h hpd
      linarith
    · intro h
      have e1 : (fpVal P y : ℚ) = fpVal P z := by
        rw [hYd]
        have : 2 * (Y * 2 ^ d) = 2 * (fpVal P z : ℚ) := by rw [hzq, ← h]; ring
        linarith
      have hnear := RN_near hy hyb
      rw [e1, hz, ← hXd] at hnear
      push_cast at hnear
      have hg := quotient_gap (p := p) (P := P) (uF := uF) (uG := uF + d) (m := m) (k := k) (N := 2 * a + 1) (t := j + d - 1) hm hgap
        (by rw [pow_succ] at ha; rw [pow_succ, pow_succ]; omega) (by omega)
        (by
          intro hc
          have hj : j ≠ 0 := by omega
          rcases hja with h | h
          · exact absurd h hj
          · rw [pow_succ]; omega)
        (by omega) (by push_cast; exact hnear)
      have : X * 2 ^ d = fpVal P z := by
        rw [← hXd, hg, hz]; push_cast; ring
      have h3 : (2 * X) * 2 ^ d = ((2 * a + 1) * 2 ^ j) * 2 ^ d := by rw [← hzq, ← this]; ring
      exact mul_right_cancel₀ hpd.ne' h3
  constructor
  · intro k' hk'
    subst hk'
    have h1 := hn.1 k' rfl
    obtain ⟨q1, q2, q3⟩ := key k'
    constructor
    · rcases lt_or_eq_of_le h1.1 with h | h
      · exact (q2 h).le
      · exact (q3 h.symm).symm.le
    · intro ho; exact q2 (h1.2 ho)
  · obtain ⟨q1, q2, q3⟩ := key n
    constructor
    · rcases lt_or_eq_of_le hn.2.1 with h | h
      · exact (q1 h).le
      · exact (q3 h).le
    · intro ho; exact q1 (hn.2.2 ho)

end FastFloat
