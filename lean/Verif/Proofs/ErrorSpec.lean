import Verif.Proofs.Round
/-
# `compute_error`: an exact truncated significand for the slow path
-/
namespace FastFloat

/-- `compute_error` returns a biased 64-bit significand whose truncation at the target precision is the exact floor. -/
theorem computeError_spec (c : Cfg) {F : BinFmt} (G : GoodFmt F) (q : Int) (w : Nat) (hw0 : w ≠ 0) (hw : w < 2 ^ 64)
    (hq0 : F.minPow10 ≤ q) (hq1 : q ≤ F.maxPow10) :
    ∃ (m : Nat) (te : Int), computeError c F q w = .ok { mantissa := m, power2 := te + invalidAmBias } ∧
      2 ^ 63 ≤ m ∧ m < 2 ^ 64 ∧ -3000 ≤ te ∧ te ≤ 3000 ∧
      ((m / 2 ^ rShift F te : Nat) : ℚ) * 2 ^ rJ F te ≤ scaled F w q ∧
      scaled F w q < ((m / 2 ^ rShift F te : Nat) + 1 : ℚ) * 2 ^ rJ F te := by
  have hb := Nat.two_pow_pos F.mb
  have hqlo : -342 ≤ q := by have := G.minPow; omega
  have hqhi : q ≤ 308 := by have := G.maxPow; omega
  unfold computeError
  rw [leadingZeroes_eq c w hw0 hw]
  simp only [bind, Except.bind]
  rw [shl64_norm w hw0 hw]
  simp only
  obtain ⟨hn1, hn2, hlog⟩ := normalise w hw0 hw
  obtain ⟨lz, hlz⟩ : ∃ lz, 63 - Nat.log2 w = lz := ⟨_, rfl⟩
  rw [hlz] at hn1 hn2 ⊢
  obtain ⟨W, hW⟩ : ∃ W, w * 2 ^ lz = W := ⟨_, rfl⟩
  rw [hW] at hn1 hn2 ⊢
  obtain ⟨hi, lo, cert, t1, t2, hE⟩ := table_entry q hqlo hqhi
  obtain ⟨pr, hpr, hH, hL, hcase⟩ := product_cases c q F.mb W hi lo G.mb52 hn2 hE.1 hE.2.1 t1 t2
  rw [hpr]
  simp only
  obtain ⟨H, hHe⟩ : ∃ H, pr.high = H := ⟨_, rfl⟩
  obtain ⟨L, hLe⟩ : ∃ L, pr.low = L := ⟨_, rfl⟩
  rw [hHe, hLe] at hcase
  rw [hHe] at hH
  rw [hLe] at hL
  rw [hHe]
  unfold computeErrorScaled
  obtain ⟨up, hup⟩ : ∃ up, H / 2 ^ 63 = up := ⟨_, rfl⟩
  rw [hup]
  have hmb := G.mb52
  obtain ⟨s, hs'⟩ : ∃ s, s = up + (61 - F.mb) := ⟨_, rfl⟩
  have hup1 : up ≤ 1 := by omega
  obtain ⟨M, hM⟩ : ∃ M, H / 2 ^ s = M := ⟨_, rfl⟩
  have hfl := product_floor G.mb52 hn2 hE hL hcase
  have hMfl : W * tNum q / (tDen q * 2 ^ (128 + s)) = M := by
    rw [← hM, hs', show 128 + (up + (61 - F.mb)) = 128 + (61 - F.mb) + up by ring, Nat.add_comm up,
      pow_add 2 (128 + (61 - F.mb)) up, ← Nat.mul_assoc, ← Nat.div_div_eq_div_mul, hfl, Nat.div_div_eq_div_mul, ← pow_add]
  have hH62 : 2 ^ 62 ≤ H := by
    have h63 := hE.2.2.1
    have hWhi : 2 ^ 63 * 2 ^ 63 ≤ W * hi := Nat.mul_le_mul hn1 h63
    have : W * hi ≤ H * 2 ^ 64 + L := by
      rcases hcase with ⟨_, h⟩ | h
      · exact h.ge
      · rw [h, Nat.mul_add, ← Nat.mul_assoc, Nat.add_comm, Nat.add_mul_div_right _ _ (by norm_num)]; omega
    omega
  have hM2 : M < 2 ^ (F.mb + 2) := by
    rw [← hM, Nat.div_lt_iff_lt_mul (Nat.two_pow_pos s), ← pow_add]
    rcases Nat.le_one_iff_eq_zero_or_eq_one.1 hup1 with h | h
    · rw [show F.mb + 2 + s = 63 by omega]; omega
    · rw [show F.mb + 2 + s = 64 by omega]; omega
  have hfd : ((152170 + 65536) * q).fdiv 65536 = tExp q + q + 127 := by unfold tExp; ring_nf
  have hfd2 : -1200 ≤ tExp q + q + 127 ∧ tExp q + q + 127 ≤ 1100 := by
    rw [← hfd, Int.fdiv_eq_ediv_of_nonneg _ (by norm_num)]; omega
  have hpow : power q = .ok (tExp q + q + 190) := by
    unfold power chk32
    simp only [bind, Except.bind]
    rw [if_pos (by constructor <;> omega)]
    simp only [hfd]
    rw [if_pos (by constructor <;> omega)]
    congr 1; ring
  have hminE := G.minExp1
  have hulp := G.ulp
  have hmbulp := G.mbulp
  -- the significand
  obtain ⟨m, hm⟩ : ∃ m, H * 2 ^ (1 - up) = m := ⟨_, rfl⟩
  have hm1 : 2 ^ 63 ≤ m ∧ m < 2 ^ 64 := by
    rcases Nat.le_one_iff_eq_zero_or_eq_one.1 hup1 with h | h
    · subst h; simp at hm; omega
    · subst h; simp at hm; omega
  have hshl : shl64 H (1 - up) = .ok m := by
    unfold shl64
    rw [if_pos (by omega), hm, Nat.mod_eq_of_lt hm1.2]
  simp only [bind, Except.bind, pure, Except.pure, hshl, hpow]
  obtain ⟨p2, hp2⟩ : ∃ p2 : Int, tExp q + q + 190 + (up : Int) - (lz : Int) - F.minExp = p2 := ⟨_, rfl⟩
  obtain ⟨te, hte⟩ : ∃ te : Int, p2 + F.mb - 63 = te := ⟨_, rfl⟩
  have hpe : tExp q + q + 190 + ((F.mb : Int) - F.minExp) - ((1 - up : Nat) : Int) - (lz : Int) - 62 + invalidAmBias
      = te + invalidAmBias := by omega
  rw [hpe]
  have hinv : invalidAmBias = -0x8000 := rfl
  unfold chk32
  rw [if_pos (by rw [hinv]; constructor <;> omega)]
  refine ⟨m, te, rfl, hm1.1, hm1.2, by omega, by omega, ?_⟩
  -- the exact value
  have hD : (0 : ℚ) < tDen q := by exact_mod_cast tDen_pos q
  obtain ⟨Y, hY⟩ : ∃ Y : ℚ, (W * tNum q : Nat) / ((tDen q * 2 ^ (128 + s) : Nat) : ℚ) = Y := ⟨_, rfl⟩
  have hXY : scaled F w q = Y * (2 : ℚ) ^ (p2 - 2) := by
    unfold scaled
    rw [← hY, ← hW]
    have h10 : (10 : ℚ) ^ q = 5 ^ q * 2 ^ q := by rw [← mul_zpow]; norm_num
    rw [h10, five_zpow hqlo]
    push_cast
    have e : (2 : ℚ) ^ tExp q * 2 ^ q * 2 ^ ulpExp F = 2 ^ (p2 - 2) * 2 ^ lz / 2 ^ (128 + s) := by
      rw [← zpow_natCast (2 : ℚ) (ulpExp F), ← zpow_natCast (2 : ℚ) lz, ← zpow_natCast (2 : ℚ) (128 + s),
        ← zpow_add₀ (by norm_num), ← zpow_add₀ (by norm_num), ← zpow_add₀ (by norm_num), ← zpow_sub₀ (by norm_num)]
      congr 1
      push_cast
      omega
    calc (w : ℚ) * ((tNum q : ℚ) / tDen q * 2 ^ tExp q * 2 ^ q) * 2 ^ ulpExp F
        = (w : ℚ) * ((tNum q : ℚ) / tDen q) * (2 ^ tExp q * 2 ^ q * 2 ^ ulpExp F) := by ring
      _ = (w : ℚ) * ((tNum q : ℚ) / tDen q) * (2 ^ (p2 - 2) * 2 ^ lz / 2 ^ (128 + s)) := by rw [e]
      _ = _ := by field_simp
  have hDp : 0 < tDen q * 2 ^ (128 + s) := Nat.mul_pos (tDen_pos q) (Nat.two_pow_pos _)
  obtain ⟨y1, y2, _⟩ := div_bounds (W * tNum q) (tDen q * 2 ^ (128 + s)) hDp
  rw [hMfl, hY] at y1 y2
  have hmM : m / 2 ^ (62 - F.mb) = M := by
    rw [← hm, ← hM]
    rcases Nat.le_one_iff_eq_zero_or_eq_one.1 hup1 with h | h
    · rw [h] at hs' ⊢
      rw [show 62 - F.mb = s + (1 - 0) by omega, pow_add, Nat.mul_div_mul_right _ _ (by norm_num)]
    · rw [h] at hs' ⊢
      rw [show 62 - F.mb = s by omega]; simp
  -- floor of `Y / 2^k` is `M / 2^k`
  have hfloor : ∀ k : Nat, ((M / 2 ^ k : Nat) : ℚ) ≤ Y / 2 ^ k ∧ Y / 2 ^ k < (M / 2 ^ k : Nat) + 1 := by
    intro k
    have hp : (0 : ℚ) < 2 ^ k := by positivity
    have hkp := Nat.two_pow_pos k
    constructor
    · rw [le_div_iff₀ hp]
      refine le_trans ?_ y1
      exact_mod_cast Nat.div_mul_le_self M (2 ^ k)
    · rw [div_lt_iff₀ hp]
      have : M + 1 ≤ (M / 2 ^ k + 1) * 2 ^ k := by
        have := Nat.div_add_mod M (2 ^ k)
        have := Nat.mod_lt M hkp
        rw [Nat.add_mul, Nat.mul_comm]; omega
      have : ((M : ℚ) + 1) ≤ ((M / 2 ^ k : Nat) + 1) * 2 ^ k := by exact_mod_cast this
      linarith
  by_cases hsub : p2 ≤ 0
  · have hJ : rJ F te = 0 := by unfold rJ; omega
    rw [hJ]
    obtain ⟨k, hk⟩ : ∃ k : Nat, 2 - p2 = k := ⟨(2 - p2).toNat, by omega⟩
    have hX : scaled F w q = Y / 2 ^ k := by
      rw [hXY, show p2 - 2 = -(k : Int) by omega, zpow_neg, zpow_natCast]; rfl
    have hB : m / 2 ^ rShift F te = M / 2 ^ k := by
      unfold rShift
      rw [if_pos (by omega)]
      by_cases h64 : -te + 1 < 64
      · rw [if_pos h64, ← hmM, Nat.div_div_eq_div_mul, ← pow_add]
        congr 2
        omega
      · rw [if_neg h64, Nat.div_eq_of_lt hm1.2, Nat.div_eq_of_lt]
        exact lt_of_lt_of_le hM2 (Nat.pow_le_pow_right (by norm_num) (by omega))
    rw [hB, hX]
    simpa using hfloor k
  · obtain ⟨j, hj⟩ : ∃ j : Nat, p2 = j + 1 := ⟨(p2 - 1).toNat, by omega⟩
    have hJ : rJ F te = j := by unfold rJ; omega
    have hB : m / 2 ^ rShift F te = M / 2 ^ 1 := by
      unfold rShift
      rw [if_neg (by omega), ← hmM, Nat.div_div_eq_div_mul, ← pow_add]
      congr 2
      omega
    rw [hJ, hB]
    have hX : scaled F w q = Y / 2 ^ 1 * 2 ^ j := by
      rw [hXY, hj, show ((j : Int) + 1 - 2) = (j : Int) - 1 by ring, zpow_sub₀ (by norm_num), zpow_natCast]
      ring
    have hp : (0 : ℚ) < 2 ^ j := by positivity
    obtain ⟨f1, f2⟩ := hfloor 1
    rw [hX]
    exact ⟨mul_le_mul_of_nonneg_right f1 hp.le, mul_lt_mul_of_pos_right f2 hp⟩

end FastFloat
