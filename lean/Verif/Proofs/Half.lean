import Verif.Proofs.FloatTop
/-
# binary16: what is stored on ties of subnormals
-/
set_option linter.unusedSimpArgs false
namespace FastFloat
open FloatSpec

theorem ulp16 : ulpExp FloatTy.float16.fmt = 24 := by decide

theorem fp16_lin {j : Nat} (h : j ≤ 2 ^ 11) : fpVal 10 j = j := by
  have := fpVal_lin' 10 0 j (Or.inl rfl) h; simpa using this

theorem half_val_lin {j : Nat} (h : j ≤ 2 ^ 11) : half.val j = j / 2 ^ 24 := by
  rw [val_eq match16]
  show ((fpVal 10 j : Nat) : ℚ) / 2 ^ ulpExp FloatTy.float16.fmt = _
  rw [fp16_lin h, ulp16]

/-- The upper neighbour is not the correctly rounded value of a tie whose lower neighbour is even. -/
theorem exception_not_rounded {j : Nat} (hj : j < 2 ^ 10) (h1 : j % 2 = 0) : ¬ half.RoundsTo ((2 * j + 1) / 2 ^ 25) (j + 1) := by
  have e0 := half_val_lin (j := j) (by omega)
  have e1 := half_val_lin (j := j + 1) (by omega)
  have hi : half.inf = 31744 := by decide
  rintro (⟨_, h⟩ | ⟨_, _, h⟩)
  · omega
  · have a : ((2 * j + 1 : ℚ) / 2 ^ 25 - half.val (j + 1)) = -(1 / 2 ^ 25) := by rw [e1]; push_cast; ring
    have b : ((2 * j + 1 : ℚ) / 2 ^ 25 - half.val j) = 1 / 2 ^ 25 := by rw [e0]; ring
    have := h j (by omega) (by omega)
    rw [a, b, abs_neg] at this
    rcases this with h | ⟨_, h⟩
    · exact lt_irrefl _ h
    · omega

/-- Correctly rounded, or one of the exceptions, which are rounded up. -/
theorem half_split {J : Nat} (hJ : J < 2 ^ 10) {x : ℚ} {k : Nat} (h : Rounded binary16 (x * 2 ^ 24) k)
    (ht : ∀ j : Nat, j < 2 ^ 10 → 2 * (x * 2 ^ 24) = 2 * (j : ℚ) + 1 → (j ≤ J → k = j + 1) ∧ (J < j → RN 10 (x * 2 ^ 24) k)) :
    (¬ HalfException J x ∧ RN 10 (x * 2 ^ 24) k) ∨ ∃ j : Nat, j % 2 = 0 ∧ j ≤ J ∧ x = (2 * j + 1) / 2 ^ 25 ∧ k = j + 1 := by
  by_cases hx : HalfException J x
  · obtain ⟨j, h1, h2, h3⟩ := hx
    refine Or.inr ⟨j, h1, h2, h3, (ht j (by omega) ?_).1 h2⟩
    rw [h3]; norm_num; ring
  · refine Or.inl ⟨hx, ?_⟩
    rcases h with h | ⟨j, h1, h2, h3, _⟩
    · exact h
    · rcases Nat.lt_or_ge J j with hlt | hge
      · exact (ht j h2 h3).2 hlt
      · exfalso
        refine hx ⟨j, h1, hge, ?_⟩
        rw [eq_div_iff (by norm_num)]
        linarith

theorem Tie16.split {x : ℚ} {k : Nat} (h : Rounded binary16 (x * 2 ^ 24) k) (ht : Tie16 .float16 x k) :
    (¬ HalfException 16 x ∧ RN 10 (x * 2 ^ 24) k) ∨ ∃ j : Nat, j % 2 = 0 ∧ j ≤ 16 ∧ x = (2 * j + 1) / 2 ^ 25 ∧ k = j + 1 :=
  half_split (by norm_num) h (ht rfl)

/-- Two results for the same value are the same. -/
theorem half_split_unique {J : Nat} {x : ℚ} {k k' : Nat}
    (h : (¬ HalfException J x ∧ RN 10 (x * 2 ^ 24) k) ∨ ∃ j : Nat, j % 2 = 0 ∧ j ≤ J ∧ x = (2 * j + 1) / 2 ^ 25 ∧ k = j + 1)
    (h' : (¬ HalfException J x ∧ RN 10 (x * 2 ^ 24) k') ∨ ∃ j : Nat, j % 2 = 0 ∧ j ≤ J ∧ x = (2 * j + 1) / 2 ^ 25 ∧ k' = j + 1) : k = k' := by
  rcases h with ⟨a1, a2⟩ | ⟨j, a1, a2, a3, a4⟩ <;> rcases h' with ⟨b1, b2⟩ | ⟨i, b1, b2, b3, b4⟩
  · exact RN.unique a2 b2
  · exact absurd ⟨i, b1, b2, b3⟩ a1
  · exact absurd ⟨j, a1, a2, a3⟩ b1
  · rw [a4, b4]
    have : (2 * (j : ℚ) + 1) = 2 * i + 1 := by
      have := a3.symm.trans b3
      rwa [div_left_inj' (by norm_num)] at this
    have : (j : ℚ) = i := by linarith
    have : j = i := by exact_mod_cast this
    rw [this]

/-- On an exception the result is not the correctly rounded one. -/
theorem exception_wrong {J : Nat} (hJ : J < 2 ^ 10) {j : Nat} (h1 : j % 2 = 0) (h2 : j ≤ J) : ¬ RN 10 (((2 * j + 1 : ℚ) / 2 ^ 25) * 2 ^ 24) (j + 1) := by
  intro h
  have a := h.low (show j < j + 1 by omega)
  have e0 := fp16_lin (j := j) (by omega)
  have e1 := fp16_lin (j := j + 1) (by omega)
  rw [e0, e1] at a
  have b := a.2 (by omega)
  push_cast at b
  rw [div_mul_eq_mul_div, mul_div_assoc'] at b
  norm_num at b
  linarith

theorem exception_lt {J : Nat} (hJ : J < 2 ^ 10) {x : ℚ} (h : HalfException J x) : 0 < x ∧ x < 1 / 2 ^ 14 := by
  obtain ⟨j, h1, h2, rfl⟩ := h
  have : (j : ℚ) + 1 ≤ 2 ^ 10 := by exact_mod_cast (by omega : j + 1 ≤ 2 ^ 10)
  refine ⟨by positivity, ?_⟩
  rw [div_lt_div_iff₀ (by norm_num) (by norm_num)]
  norm_num at this ⊢
  linarith

/-- Rounding is monotone even where ties are rounded the wrong way. -/
theorem Rounded.mono_lt {F : BinFmt} {X Y : ℚ} {k k' : Nat} (h : Rounded F X k) (h' : Rounded F Y k') (hlt : X < Y) : k ≤ k' := by
  by_contra hc
  obtain ⟨i, rfl⟩ : ∃ i, k = i + 1 := ⟨k - 1, by omega⟩
  have a := h.low
  have b := h'.high
  have c1 : (fpVal F.mb k' : ℚ) ≤ fpVal F.mb i := by exact_mod_cast fpVal_mono (by omega)
  have c2 : (fpVal F.mb (k' + 1) : ℚ) ≤ fpVal F.mb (i + 1) := by exact_mod_cast fpVal_mono (by omega)
  linarith

end FastFloat
