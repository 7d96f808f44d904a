import Verif.Proofs.RN
/-
# From `RN` to the specification `FloatSpec.Format.RoundsTo`
-/
namespace FastFloat
open FloatSpec

/-- The specification format of a `binary_format<T>`. -/
structure FormatMatch (F : BinFmt) (f : Format) : Prop where
  mb : f.fracBits = F.mb
  mbpos : 1 ≤ F.mb
  inf : f.inf = infIdx F
  bias : (ulpExp F : Int) = f.bias - 1 + f.fracBits
  biaspos : 1 ≤ f.bias
  infb : F.infPow = 2 * f.bias + 1
  signIdx : f.signBit = 2 ^ F.signIdx

theorem match64 : FormatMatch binary64 double := by constructor <;> decide
theorem match32 : FormatMatch binary32 single := by constructor <;> decide
theorem match16 : FormatMatch binary16 half := by constructor <;> decide
theorem matchB16 : FormatMatch bfloat16 bfloat := by constructor <;> decide

theorem FormatMatch.ulp {F : BinFmt} {f : Format} (h : FormatMatch F f) : ulpExp F + 1 = f.bias + f.fracBits := by
  have := h.bias; have := h.biaspos; omega

theorem val_eq {F : BinFmt} {f : Format} (h : FormatMatch F f) (b : Nat) :
    f.val b = (fpVal F.mb b : ℚ) / 2 ^ ulpExp F := by
  have hu : (2 : ℚ) ^ ulpExp F * 2 = 2 ^ f.bias * 2 ^ F.mb := by
    rw [← pow_succ, h.ulp, h.mb, pow_add]
  have h2 : (2 : ℚ) ^ ulpExp F = 2 ^ f.bias * 2 ^ F.mb / 2 := by linarith
  unfold Format.val fpVal
  rw [h.mb, h2]
  by_cases he : b / 2 ^ F.mb = 0
  · simp only [he, if_true]
    field_simp
  · obtain ⟨k, hk⟩ : ∃ k, b / 2 ^ F.mb = k + 1 := Nat.exists_eq_succ_of_ne_zero he
    simp only [hk, if_neg (Nat.succ_ne_zero k), Nat.add_sub_cancel]
    push_cast
    rw [pow_succ]
    field_simp

theorem fpVal_inf (F : BinFmt) (h : 1 ≤ F.infPow) : fpVal F.mb (infIdx F) = 2 ^ F.mb * 2 ^ (F.infPow - 1) := by
  obtain ⟨k, hk⟩ : ∃ k, F.infPow = k + 1 := ⟨F.infPow - 1, by omega⟩
  have e : infIdx F = k * 2 ^ F.mb + 2 ^ F.mb := by unfold infIdx; rw [hk]; ring
  rw [e, fpVal_lin' F.mb k (2 ^ F.mb) (Or.inr le_rfl) (by rw [pow_succ]; have := Nat.two_pow_pos F.mb; omega), hk]
  simp

theorem fpVal_inf_pred (F : BinFmt) (h : 2 ≤ F.infPow) :
    fpVal F.mb (infIdx F - 1) = (2 ^ (F.mb + 1) - 1) * 2 ^ (F.infPow - 2) := by
  obtain ⟨k, hk⟩ : ∃ k, F.infPow = k + 2 := ⟨F.infPow - 2, by omega⟩
  have hp := Nat.two_pow_pos F.mb
  have e : infIdx F - 1 = k * 2 ^ F.mb + (2 ^ (F.mb + 1) - 1) := by
    unfold infIdx; rw [hk, pow_succ]
    have : (k + 2) * 2 ^ F.mb = k * 2 ^ F.mb + 2 ^ F.mb * 2 := by ring
    omega
  rw [e, fpVal_lin' F.mb k _ (Or.inr (by rw [pow_succ]; omega)) (by omega), hk]
  simp

/-- The midpoint between the largest finite index and infinity is the overflow threshold. -/
theorem threshold_eq {F : BinFmt} {f : Format} (h : FormatMatch F f) :
    f.overflowThreshold * 2 ^ ulpExp F * 2 = (fpVal F.mb (infIdx F - 1) : ℚ) + fpVal F.mb (infIdx F) := by
  have hb := h.biaspos
  have hi := h.infb
  rw [fpVal_inf F (by omega), fpVal_inf_pred F (by omega)]
  obtain ⟨k, hk⟩ : ∃ k, F.infPow = k + 2 := ⟨F.infPow - 2, by omega⟩
  have e3 : k + 1 = 2 * f.bias := by omega
  have e1 : F.infPow - 2 = k := by omega
  have e2 : F.infPow - 1 = k + 1 := by omega
  rw [e1, e2]
  unfold Format.overflowThreshold
  have hu : (2 : ℚ) ^ ulpExp F * 2 = 2 ^ f.bias * 2 ^ F.mb := by
    rw [← pow_succ, h.ulp, h.mb, pow_add]
  have hk2 : (2 : ℚ) ^ k * 2 = 2 ^ f.bias * 2 ^ f.bias := by
    rw [← pow_succ, e3, two_mul, pow_add]
  rw [h.mb]
  push_cast [Nat.cast_sub (Nat.one_le_two_pow (n := F.mb + 1))]
  calc (2 - 1 / (2 : ℚ) ^ (F.mb + 1)) * 2 ^ f.bias * 2 ^ ulpExp F * 2
      = (2 - 1 / 2 ^ (F.mb + 1)) * 2 ^ f.bias * (2 ^ ulpExp F * 2) := by ring
    _ = (2 - 1 / 2 ^ (F.mb + 1)) * 2 ^ F.mb * (2 ^ f.bias * 2 ^ f.bias) := by rw [hu]; ring
    _ = (2 - 1 / 2 ^ (F.mb + 1)) * 2 ^ F.mb * (2 ^ k * 2) := by rw [hk2]
    _ = _ := by rw [pow_succ, pow_succ]; field_simp; ring

/-- `RN` on the unbounded line, capped at infinity, is the specification's rounding. -/
theorem roundsTo_of_RN {F : BinFmt} {f : Format} (h : FormatMatch F f) {x : ℚ} {n : Nat}
    (hn : RN F.mb (x * 2 ^ ulpExp F) n) : f.RoundsTo x (min n (infIdx F)) := by
  have hp : (0 : ℚ) < 2 ^ ulpExp F := by positivity
  have ht := threshold_eq h
  have hip : 1 ≤ infIdx F := by
    have := h.infb
    unfold infIdx
    have := Nat.two_pow_pos F.mb
    have : 1 * 1 ≤ F.infPow * 2 ^ F.mb := Nat.mul_le_mul (by omega) (by omega)
    omega
  have hev : infIdx F % 2 = 0 := by
    unfold infIdx
    obtain ⟨k, hk⟩ : ∃ k, F.mb = k + 1 := ⟨F.mb - 1, by have := h.mbpos; omega⟩
    rw [hk, pow_succ, ← mul_assoc]; omega
  rcases Nat.lt_or_ge n (infIdx F) with hlt | hge
  · right
    rw [Nat.min_eq_left hlt.le]
    refine ⟨?_, by rw [h.inf]; exact hlt, ?_⟩
    · -- below the threshold
      have h1 := hn.high hlt
      have h2 : (fpVal F.mb n : ℚ) ≤ fpVal F.mb (infIdx F - 1) := by exact_mod_cast fpVal_mono (by omega)
      by_contra hc
      push Not at hc
      have h3 : f.overflowThreshold * 2 ^ ulpExp F ≤ x * 2 ^ ulpExp F := mul_le_mul_of_nonneg_right hc hp.le
      have heq : (fpVal F.mb n : ℚ) = fpVal F.mb (infIdx F - 1) := by linarith [h1.1]
      rcases Nat.lt_or_ge n (infIdx F - 1) with h4 | h4
      · have : (fpVal F.mb n : ℚ) < fpVal F.mb (infIdx F - 1) := by exact_mod_cast fpVal_strictMono h4
        linarith
      · have : n % 2 = 1 := by omega
        linarith [h1.2 this]
    · intro b' hb' hne
      rw [val_eq h, val_eq h]
      have e : ∀ v : ℚ, x - v / 2 ^ ulpExp F = (x * 2 ^ ulpExp F - v) / 2 ^ ulpExp F := by
        intro v; field_simp
      rw [e, e, abs_div, abs_div, abs_of_pos hp]
      generalize hX : x * 2 ^ ulpExp F = X at *
      have key : |X - fpVal F.mb n| < |X - fpVal F.mb b'| ∨ (|X - fpVal F.mb n| = |X - fpVal F.mb b'| ∧ n % 2 = 0) := by
        rcases Nat.lt_or_gt_of_ne hne with hb | hb
        · have a := hn.low hb
          have s : (fpVal F.mb b' : ℚ) < fpVal F.mb n := by exact_mod_cast fpVal_strictMono hb
          have e2 : |X - fpVal F.mb b'| = X - fpVal F.mb b' := abs_of_pos (by linarith [a.1])
          rw [e2]
          rcases Nat.mod_two_eq_zero_or_one n with p | p
          · rcases le_or_gt X (fpVal F.mb n) with hx | hx
            · rw [abs_of_nonpos (by linarith)]
              rcases lt_or_eq_of_le a.1 with l | l
              · left; linarith
              · right; exact ⟨by linarith, p⟩
            · left; rw [abs_of_pos (by linarith)]; linarith
          · left
            have := a.2 p
            rcases le_or_gt X (fpVal F.mb n) with hx | hx
            · rw [abs_of_nonpos (by linarith)]; linarith
            · rw [abs_of_pos (by linarith)]; linarith
        · have a := hn.high hb
          have s : (fpVal F.mb n : ℚ) < fpVal F.mb b' := by exact_mod_cast fpVal_strictMono hb
          have e2 : |X - fpVal F.mb b'| = -(X - fpVal F.mb b') := abs_of_neg (by linarith [a.1])
          rw [e2]
          rcases Nat.mod_two_eq_zero_or_one n with p | p
          · rcases le_or_gt X (fpVal F.mb n) with hx | hx
            · left; rw [abs_of_nonpos (by linarith)]; linarith
            · rw [abs_of_pos (by linarith)]
              rcases lt_or_eq_of_le a.1 with l | l
              · left; linarith
              · right; exact ⟨by linarith, p⟩
          · left
            have := a.2 p
            rcases le_or_gt X (fpVal F.mb n) with hx | hx
            · rw [abs_of_nonpos (by linarith)]; linarith
            · rw [abs_of_pos (by linarith)]; linarith
      rcases key with k | ⟨k, p⟩
      · left; exact div_lt_div_of_pos_right k hp
      · right; exact ⟨by rw [k], p⟩
  · left
    rw [Nat.min_eq_right hge]
    refine ⟨?_, h.inf.symm⟩
    have h1 := hn.low (show infIdx F - 1 < n by omega)
    have h2 : (fpVal F.mb (infIdx F) : ℚ) ≤ fpVal F.mb n := by exact_mod_cast fpVal_mono hge
    have : f.overflowThreshold * 2 ^ ulpExp F ≤ x * 2 ^ ulpExp F := by linarith [h1.1]
    exact le_of_mul_le_mul_right this hp

end FastFloat
