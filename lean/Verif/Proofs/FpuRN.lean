import Verif.Proofs.RN
/-
# The hardware model rounds to nearest-even in the sense of `RN`
-/
namespace FastFloat

theorem div_bounds (num d : Nat) (hd : 0 < d) :
    ((num / d : Nat) : ℚ) ≤ (num : ℚ) / d ∧ (num : ℚ) / d < (num / d : Nat) + 1 ∧
    (num : ℚ) / d = (num / d : Nat) + (num % d : Nat) / d := by
  have hdq : (0 : ℚ) < d := by exact_mod_cast hd
  have e : (num : ℚ) = d * (num / d : Nat) + (num % d : Nat) := by exact_mod_cast (Nat.div_add_mod num d).symm
  have hm : ((num % d : Nat) : ℚ) < d := by exact_mod_cast Nat.mod_lt num hd
  have hm0 : (0 : ℚ) ≤ (num % d : Nat) := by positivity
  have e2 : (num : ℚ) / d = (num / d : Nat) + (num % d : Nat) / d := by
    rw [div_eq_iff hdq.ne', add_mul, div_mul_cancel₀ _ hdq.ne']; linarith
  have h0 : (0 : ℚ) ≤ ((num % d : Nat) : ℚ) / d := by positivity
  have h1 : ((num % d : Nat) : ℚ) / d < 1 := by rw [div_lt_one hdq]; exact hm
  exact ⟨by linarith, by linarith, e2⟩

theorem RNInt_nearest (num d : Nat) (hd : 0 < d) :
    RNInt ((num : ℚ) / d) (num / d + (if roundsUp .nearest (num / d) (num % d) d then 1 else 0)) := by
  have hdq : (0 : ℚ) < d := by exact_mod_cast hd
  obtain ⟨b1, b2, b3⟩ := div_bounds num d hd
  have hm : ((num % d : Nat) : ℚ) < d := by exact_mod_cast Nat.mod_lt num hd
  rw [b3]
  generalize num / d = Q
  generalize num % d = r at *
  have hr0 : (0 : ℚ) ≤ (r : ℚ) / d := by positivity
  have hr1 : (r : ℚ) / d < 1 := by rw [div_lt_one hdq]; exact hm
  by_cases hu : roundsUp .nearest Q r d = true
  · rw [if_pos hu]
    simp only [roundsUp, Bool.or_eq_true, Bool.and_eq_true, decide_eq_true_eq] at hu
    have hge : (1 : ℚ) ≤ 2 * (r / d) := by
      rw [← mul_div_assoc, le_div_iff₀ hdq]
      have : d ≤ 2 * r := by omega
      rw [one_mul]; exact_mod_cast this
    unfold RNInt
    push_cast
    refine ⟨by linarith, by linarith, fun ho => ⟨?_, by linarith⟩⟩
    have hgt : 2 * r > d := by
      rcases hu with h | h
      · exact h
      · omega
    have : (1 : ℚ) < 2 * (r / d) := by
      rw [← mul_div_assoc, lt_div_iff₀ hdq, one_mul]; exact_mod_cast hgt
    linarith
  · rw [if_neg hu]
    simp only [roundsUp, Bool.or_eq_true, Bool.and_eq_true, decide_eq_true_eq] at hu
    have hle : 2 * ((r : ℚ) / d) ≤ 1 := by
      rw [← mul_div_assoc, div_le_one hdq]
      have : 2 * r ≤ d := by omega
      exact_mod_cast this
    unfold RNInt
    push_cast
    simp only [add_zero]
    refine ⟨by linarith, by linarith, fun ho => ⟨by linarith, ?_⟩⟩
    have hgt : 2 * r < d := by omega
    have : 2 * ((r : ℚ) / d) < 1 := by
      rw [← mul_div_assoc, div_lt_one hdq]; exact_mod_cast hgt
    linarith

/-- The unbounded index computed by `fpRound`. -/
def fpRoundIdx (mb num den : Nat) : Nat :=
  let j := Nat.log2 (num / den) - mb
  j * 2 ^ mb + (num / (den * 2 ^ j) + (if roundsUp .nearest (num / (den * 2 ^ j)) (num % (den * 2 ^ j)) (den * 2 ^ j) then 1 else 0))

theorem RN_fpRoundIdx {mb : Nat} (hmb : 1 ≤ mb) (num den : Nat) (hd : 0 < den) :
    RN mb ((num : ℚ) / den) (fpRoundIdx mb num den) := by
  unfold fpRoundIdx
  obtain ⟨j, hj⟩ : ∃ j, Nat.log2 (num / den) - mb = j := ⟨_, rfl⟩
  simp only [hj]
  have hdq : (0 : ℚ) < den := by exact_mod_cast hd
  obtain ⟨b1, b2, _⟩ := div_bounds num den hd
  have hp : 0 < den * 2 ^ j := Nat.mul_pos hd (Nat.two_pow_pos j)
  refine RN_of_scaled hmb ?_ ?_ (by positivity) ?_
  · rcases Nat.eq_zero_or_pos j with h | h
    · exact Or.inl h
    · right
      have hne : num / den ≠ 0 := by
        intro hc; rw [hc] at hj; simp at hj; omega
      have := Nat.log2_self_le hne
      have e : Nat.log2 (num / den) = mb + j := by omega
      rw [e] at this
      have : (2 ^ (mb + j) : ℚ) ≤ (num / den : Nat) := by exact_mod_cast this
      linarith
  · have h1 : num / den < 2 ^ (mb + 1 + j) :=
      lt_of_lt_of_le Nat.lt_log2_self (Nat.pow_le_pow_right (by norm_num) (by omega))
    have : ((num / den : Nat) : ℚ) + 1 ≤ 2 ^ (mb + 1 + j) := by exact_mod_cast h1
    linarith
  · have := RNInt_nearest num (den * 2 ^ j) hp
    have e : (num : ℚ) / (den * 2 ^ j : Nat) = (num : ℚ) / den / 2 ^ j := by
      push_cast; rw [div_div]
    rwa [e] at this

theorem fpRound_nearest (F : BinFmt) (num den : Nat) :
    fpRound F .nearest num den = min (fpRoundIdx F.mb num den) (infIdx F) := by
  unfold fpRound fpRoundIdx
  simp only [← Nat.add_assoc]
  generalize ((num / den).log2 - F.mb) * 2 ^ F.mb + num / (den * 2 ^ ((num / den).log2 - F.mb)) + _ = n
  split
  · rw [Nat.min_eq_left (by omega)]
  · rw [Nat.min_eq_right (by omega)]

theorem RN_exists {mb : Nat} (hmb : 1 ≤ mb) (X : ℚ) (hX : 0 ≤ X) : ∃ n, RN mb X n := by
  refine ⟨fpRoundIdx mb X.num.toNat X.den, ?_⟩
  have := RN_fpRoundIdx hmb X.num.toNat X.den X.den_pos
  have e : ((X.num.toNat : Nat) : ℚ) / X.den = X := by
    have h : ((X.num.toNat : Nat) : ℤ) = X.num := Int.toNat_of_nonneg (Rat.num_nonneg.2 hX)
    have h2 : ((X.num.toNat : Nat) : ℚ) = (X.num : ℚ) := by exact_mod_cast congrArg (Int.cast (R := ℚ)) h
    rw [h2]; exact Rat.num_div_den X
  rwa [e] at this

/-- Above the value of an index the rounded index is at least that. -/
theorem RN.ge_of_le {mb : Nat} {X : ℚ} {n k : Nat} (h : RN mb X n) (hk : (fpVal mb k : ℚ) ≤ X) : k ≤ n := by
  by_contra hc
  have := (h.high (show n < k by omega)).1
  have : (fpVal mb n : ℚ) < fpVal mb k := by exact_mod_cast fpVal_strictMono (by omega)
  linarith

theorem RN.le_of_ge {mb : Nat} {X : ℚ} {n k : Nat} (h : RN mb X n) (hk : X ≤ (fpVal mb k : ℚ)) : n ≤ k := by
  by_contra hc
  have := (h.low (show k < n by omega)).1
  have : (fpVal mb k : ℚ) < fpVal mb n := by exact_mod_cast fpVal_strictMono (by omega)
  linarith

/-- Exactly representable values round to themselves. -/
theorem RN_exact (mb n : Nat) : RN mb (fpVal mb n : ℚ) n := by
  constructor
  · intro k hk
    have : (fpVal mb k : ℚ) < fpVal mb n := by exact_mod_cast fpVal_strictMono (by omega)
    exact ⟨by linarith, fun _ => by linarith⟩
  · have : (fpVal mb n : ℚ) < fpVal mb (n + 1) := by exact_mod_cast fpVal_strictMono (by omega)
    exact ⟨by linarith, fun _ => by linarith⟩

end FastFloat
