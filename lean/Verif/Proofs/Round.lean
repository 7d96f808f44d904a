import Verif.Proofs.ComputeFloat
import Verif.Proofs.BigIntTop
import Verif.Model.DigitComp
/-
# `round` with its callbacks, and `compute_error`
-/
namespace FastFloat

/-- The shift `round` hands to its callback. -/
def rShift (F : BinFmt) (te : Int) : Nat :=
  if -te ≥ ((64 - F.mb - 1 : Nat) : Int) then (if -te + 1 < 64 then (-te + 1).toNat else 64) else 64 - F.mb - 1

/-- The binade (exponent of the unit in the last place, in units of the smallest subnormal). -/
def rJ (F : BinFmt) (te : Int) : Nat := (te + 62 - F.mb).toNat

theorem rShift_pos (F : BinFmt) (h : F.mb ≤ 52) (te : Int) : 1 ≤ rShift F te ∧ rShift F te ≤ 64 := by
  unfold rShift
  split
  · split <;> omega
  · omega

/-- Size of the shifted significand. -/
theorem rShift_bounds {F : BinFmt} (G : GoodFmt F) {m : Nat} {te : Int} (h1 : 2 ^ 63 ≤ m) (h2 : m < 2 ^ 64) :
    (rJ F te = 0 ∨ 2 ^ F.mb ≤ m / 2 ^ rShift F te) ∧ m / 2 ^ rShift F te < 2 ^ (F.mb + 1) ∧
    (te + 63 - F.mb ≤ 0 → m / 2 ^ rShift F te < 2 ^ F.mb) ∧ (1 ≤ te + 63 - F.mb → 2 ^ F.mb ≤ m / 2 ^ rShift F te) := by
  have hmb := G.mb52
  have hbp := Nat.two_pow_pos F.mb
  by_cases hp : te + 63 - F.mb ≤ 0
  · have hJ : rJ F te = 0 := by unfold rJ; omega
    have hs : 64 - F.mb ≤ rShift F te := by
      unfold rShift
      rw [if_pos (by omega)]
      split <;> omega
    have hlt : m / 2 ^ rShift F te < 2 ^ F.mb := by
      rw [Nat.div_lt_iff_lt_mul (Nat.two_pow_pos _), ← pow_add]
      exact lt_of_lt_of_le h2 (Nat.pow_le_pow_right (by norm_num) (by omega))
    refine ⟨Or.inl hJ, ?_, fun _ => hlt, fun h => by omega⟩
    rw [pow_succ]; omega
  · have hs : rShift F te = 63 - F.mb := by
      unfold rShift
      rw [if_neg (by omega)]; omega
    have hge : 2 ^ F.mb ≤ m / 2 ^ rShift F te := by
      rw [Nat.le_div_iff_mul_le (Nat.two_pow_pos _), ← pow_add, hs, show F.mb + (63 - F.mb) = 63 by omega]
      exact h1
    refine ⟨Or.inr hge, ?_, fun h => by omega, fun _ => hge⟩
    rw [Nat.div_lt_iff_lt_mul (Nat.two_pow_pos _), ← pow_add, hs, show F.mb + 1 + (63 - F.mb) = 64 by omega]
    exact h2

theorem roundAm_spec {F : BinFmt} (G : GoodFmt F) {am : AdjustedMantissa} {cb : AdjustedMantissa → Nat → Exec AdjustedMantissa}
    {r : Nat} (hcb : cb am (rShift F am.power2) = .ok { mantissa := r, power2 := am.power2 + rShift F am.power2 })
    (h0 : am.power2 + 63 - F.mb ≤ 0 → r ≤ 2 ^ F.mb)
    (h1 : 1 ≤ am.power2 + 63 - F.mb → 2 ^ F.mb ≤ r ∧ r ≤ 2 ^ (F.mb + 1)) :
    ∃ am', roundAm F am cb = .ok am' ∧ AmRep F am' (min (rJ F am.power2 * 2 ^ F.mb + r) (infIdx F)) := by
  have hmb := G.mb52
  have hbp := Nat.two_pow_pos F.mb
  unfold roundAm
  simp only [bind, Except.bind, pure, Except.pure]
  by_cases hp : am.power2 + 63 - F.mb ≤ 0
  · rw [if_pos (by omega)]
    have hs : (if -am.power2 + 1 < 64 then (-am.power2 + 1).toNat else 64) = rShift F am.power2 := by
      unfold rShift; rw [if_pos (show -am.power2 ≥ ((64 - F.mb - 1 : Nat) : Int) by omega)]
    rw [hs, hcb]
    simp only
    refine ⟨_, rfl, ?_⟩
    have hJ : rJ F am.power2 = 0 := by unfold rJ; omega
    have hr := h0 hp
    have hinf : r ≤ infIdx F := by
      unfold infIdx
      have := Nat.mul_le_mul_right (2 ^ F.mb) (show 1 ≤ F.infPow by have := G.infPow1; omega)
      omega
    rw [hJ, Nat.zero_mul, Nat.zero_add, Nat.min_eq_left hinf]
    refine ⟨hinf, ?_⟩
    by_cases hlt : r < 2 ^ F.mb
    · left
      rw [if_pos hlt, Nat.div_eq_of_lt hlt, Nat.mod_eq_of_lt hlt]
      exact ⟨rfl, rfl⟩
    · right
      rw [if_neg hlt]
      exact ⟨by omega, rfl, by simp; omega⟩
  · rw [if_neg (by omega)]
    have hs : rShift F am.power2 = 64 - F.mb - 1 := by unfold rShift; rw [if_neg (by omega)]
    rw [hs] at hcb
    rw [hcb]
    simp only
    obtain ⟨r1, r2⟩ := h1 (by omega)
    have e1 : 2 ^ (F.mb + 1) = 2 * 2 ^ F.mb := by ring
    have e2 : 2 ^ (F.mb + 2) = 4 * 2 ^ F.mb := by ring
    have hbig : 2 ^ (F.mb + 2) ≤ 2 ^ 54 := Nat.pow_le_pow_right (by norm_num) (by omega)
    have hp2 : (am.power2 + ((64 - F.mb - 1 : Nat) : Int)) = am.power2 + 63 - F.mb := by omega
    have hfin := finish_spec G (m' := 2 * r - 1) (p2 := am.power2 + 63 - F.mb) (by omega) (by omega) (by omega)
    have hr : (2 * r - 1 + (2 * r - 1) % 2) / 2 = r := by omega
    have hr' : (2 * r - 1 + (2 * r - 1) % 2) % 2 ^ 64 / 2 = r := by
      rw [Nat.mod_eq_of_lt (by omega)]; exact hr
    have hJ : (am.power2 + 63 - F.mb - 1).toNat = rJ F am.power2 := by unfold rJ; congr 1; omega
    rw [hJ, hr] at hfin
    rw [hp2]
    refine ⟨_, ?_, hfin⟩
    unfold computeFloatFinish
    simp only [hr']
    split_ifs <;> rfl

theorem roundDown_eq {F : BinFmt} (hmb : F.mb ≤ 52) (am : AdjustedMantissa) (h : am.mantissa < 2 ^ 64) :
    roundDown am (rShift F am.power2) =
      .ok { mantissa := am.mantissa / 2 ^ rShift F am.power2, power2 := am.power2 + rShift F am.power2 } := by
  obtain ⟨h1, h2⟩ := rShift_pos F hmb am.power2
  unfold roundDown
  simp only [bind, Except.bind, pure, Except.pure]
  by_cases hs : rShift F am.power2 = 64
  · rw [if_pos hs, hs, Nat.div_eq_of_lt h]
  · rw [if_neg hs]
    unfold shr64
    rw [if_pos (by omega)]

theorem roundNearestTieEven_eq {F : BinFmt} (hmb : F.mb ≤ 52) (cb : Bool → Bool → Bool → Bool) (am : AdjustedMantissa)
    (h : am.mantissa < 2 ^ 64) (s : Nat) (hs : s = rShift F am.power2) :
    roundNearestTieEven cb am s =
      .ok { mantissa := am.mantissa / 2 ^ s +
              (if cb (decide (am.mantissa / 2 ^ s % 2 = 1)) (decide (am.mantissa % 2 ^ s = 2 ^ (s - 1)))
                 (decide (am.mantissa % 2 ^ s > 2 ^ (s - 1))) then 1 else 0),
            power2 := am.power2 + s } := by
  obtain ⟨h1, h2⟩ := rShift_pos F hmb am.power2
  rw [← hs] at h1 h2
  have hq : am.mantissa / 2 ^ s + 1 < 2 ^ 64 := by
    have h2s : 2 ^ 1 ≤ 2 ^ s := Nat.pow_le_pow_right (by norm_num) h1
    have : am.mantissa / 2 ^ s ≤ am.mantissa / 2 := Nat.div_le_div_left (by simpa using h2s) (by norm_num)
    omega
  have hmask : (if s = 64 then (.ok (2 ^ 64 - 1) : Exec Nat) else do
      let t ← shl64 1 s
      pure ((t + 2 ^ 64 - 1) % 2 ^ 64)) = .ok (2 ^ s - 1) := by
    by_cases h64 : s = 64
    · rw [if_pos h64, h64]
    · rw [if_neg h64]
      unfold shl64
      rw [if_pos (by omega)]
      simp only [bind, Except.bind, pure, Except.pure]
      have hlt : 2 ^ s < 2 ^ 64 := Nat.pow_lt_pow_right (by norm_num) (by omega)
      have hp := Nat.two_pow_pos s
      rw [Nat.one_mul, Nat.mod_eq_of_lt hlt]
      have key : ∀ A : Nat, 0 < A → A < 2 ^ 64 → (A + 2 ^ 64 - 1) % 2 ^ 64 = A - 1 := by intro A _ _; omega
      rw [key _ hp hlt]
  have hhalf : (if s = 0 then (.ok 0 : Exec Nat) else shl64 1 (s - 1)) = .ok (2 ^ (s - 1)) := by
    rw [if_neg (by omega)]
    unfold shl64
    rw [if_pos (by omega), Nat.one_mul, Nat.mod_eq_of_lt (Nat.pow_lt_pow_right (by norm_num) (by omega))]
  have hdiv : (if s = 64 then (.ok 0 : Exec Nat) else shr64 am.mantissa s) = .ok (am.mantissa / 2 ^ s) := by
    by_cases h64 : s = 64
    · rw [if_pos h64, h64, Nat.div_eq_of_lt h]
    · rw [if_neg h64]
      unfold shr64
      rw [if_pos (by omega)]
  have hp := Nat.two_pow_pos s
  have hm1 : 2 ^ s - 1 + 1 = 2 ^ s := by omega
  have hrw : roundNearestTieEven cb am s = (match (if s = 64 then (.ok (2 ^ 64 - 1) : Exec Nat) else do
        let t ← shl64 1 s
        pure ((t + 2 ^ 64 - 1) % 2 ^ 64)) with
      | .error e => .error e
      | .ok mask => match (if s = 0 then (.ok 0 : Exec Nat) else shl64 1 (s - 1)) with
        | .error e => .error e
        | .ok halfway => match (if s = 64 then (.ok 0 : Exec Nat) else shr64 am.mantissa s) with
          | .error e => .error e
          | .ok m => .ok { mantissa := (m + (if cb (decide (m % 2 = 1)) (decide (am.mantissa % (mask + 1) = halfway))
              (decide (am.mantissa % (mask + 1) > halfway)) then 1 else 0)) % 2 ^ 64, power2 := am.power2 + s }) := by
    unfold roundNearestTieEven
    simp only [bind, Except.bind, pure, Except.pure]
    by_cases h64 : s = 64
    · subst h64
      unfold shl64
      simp
    · have h0 : s ≠ 0 := by omega
      unfold shl64 shr64
      simp only [h64, h0, if_false]
      rw [if_pos (by omega), if_pos (by omega), if_pos (by omega)]
  rw [hrw, hmask, hhalf, hdiv]
  simp only [hm1]
  congr 2
  apply Nat.mod_eq_of_lt
  split <;> omega

end FastFloat
