import Verif.Proofs.DigitCompNum
/-
# `digit_comp` after `parse_mantissa`
-/
namespace FastFloat

/-- Comparing the scaled digits with the scaled halfway point is comparing the value with the halfway point. -/
theorem cmp_exact {x : ℚ} {D R T B J u k f : Nat} (hf : 0 < f) (hx : (D : ℚ) = x * 10 ^ k)
    (hR : R = D * f) (hT : T * 2 ^ (u + 1) = (2 * B + 1) * 2 ^ J * 10 ^ k * f) :
    (T < R ↔ (2 * B + 1 : ℚ) * 2 ^ J < 2 * (x * 2 ^ u)) ∧ (R < T ↔ 2 * (x * 2 ^ u) < (2 * B + 1 : ℚ) * 2 ^ J) := by
  have hTq : (T : ℚ) * 2 ^ (u + 1) = (2 * B + 1) * 2 ^ J * (10 ^ k * f) := by
    have : ((T * 2 ^ (u + 1) : Nat) : ℚ) = (((2 * B + 1) * 2 ^ J * 10 ^ k * f : Nat) : ℚ) := by rw [hT]
    push_cast at this; rw [this]; ring
  have hRq : (R : ℚ) * 2 ^ (u + 1) = 2 * (x * 2 ^ u) * (10 ^ k * f) := by
    rw [hR]; push_cast; rw [hx, pow_succ]; ring
  have hp : (0 : ℚ) < 2 ^ (u + 1) := by positivity
  have hg : (0 : ℚ) < 10 ^ k * f := by have : (0 : ℚ) < f := by exact_mod_cast hf
                                       positivity
  constructor
  · rw [← Nat.cast_lt (α := ℚ), ← mul_lt_mul_iff_left₀ hp, hTq, hRq, mul_lt_mul_iff_left₀ hg]
  · rw [← Nat.cast_lt (α := ℚ), ← mul_lt_mul_iff_left₀ hp, hTq, hRq, mul_lt_mul_iff_left₀ hg]

theorem cmp_sticky {x : ℚ} {D0 R T B J u K f H : Nat} (hf : 0 < f) (h1 : (D0 : ℚ) < x * 10 ^ K) (h2 : x * 10 ^ K < D0 + 1)
    (hH : (2 * B + 1) * 2 ^ J * 10 ^ K = H * 2 ^ (u + 1))
    (hR : R = (10 * D0 + 1) * f) (hT : T * 2 ^ (u + 1) = (2 * B + 1) * 2 ^ J * 10 ^ (K + 1) * f) :
    (T < R ↔ (2 * B + 1 : ℚ) * 2 ^ J < 2 * (x * 2 ^ u)) ∧ (R < T ↔ 2 * (x * 2 ^ u) < (2 * B + 1 : ℚ) * 2 ^ J) := by
  have hTe : T = 10 * H * f := by
    have : T * 2 ^ (u + 1) = 10 * H * f * 2 ^ (u + 1) := by
      rw [hT, pow_succ, ← Nat.mul_assoc, hH]; ring
    exact Nat.eq_of_mul_eq_mul_right (Nat.two_pow_pos _) this
  have hg : (0 : ℚ) < 10 ^ K := by positivity
  have hp : (0 : ℚ) < 2 ^ (u + 1) := by positivity
  have hHq : (2 * B + 1 : ℚ) * 2 ^ J * 10 ^ K = H * 2 ^ (u + 1) := by exact_mod_cast hH
  have hxq : 2 * (x * 2 ^ u) * 10 ^ K = x * 10 ^ K * 2 ^ (u + 1) := by rw [pow_succ]; ring
  rw [hR, hTe, Nat.mul_lt_mul_right hf, Nat.mul_lt_mul_right hf]
  constructor
  · rw [← mul_lt_mul_iff_left₀ hg, hHq, hxq, mul_lt_mul_iff_left₀ hp]
    constructor
    · intro h
      have : H ≤ D0 := by omega
      have : (H : ℚ) ≤ D0 := by exact_mod_cast this
      linarith
    · intro h
      have : (H : ℚ) < D0 + 1 := by linarith
      have : H < D0 + 1 := by exact_mod_cast this
      omega
  · rw [← mul_lt_mul_iff_left₀ hg, hHq, hxq, mul_lt_mul_iff_left₀ hp]
    constructor
    · intro h
      have : D0 + 1 ≤ H := by omega
      have : (D0 + 1 : ℚ) ≤ H := by exact_mod_cast this
      linarith
    · intro h
      have : (D0 : ℚ) < H := by linarith
      have : D0 < H := by exact_mod_cast this
      omega

/-- The size facts of the slow path. -/
structure SlowCtx (F : BinFmt) (w : Nat) (q : Int) (m : Nat) (te : Int) (x : ℚ) : Prop where
  w1 : 10 ^ 18 ≤ w
  w2 : w < 10 ^ 19
  q1 : F.minPow10 ≤ q
  q2 : q ≤ F.maxPow10
  m1 : 2 ^ 63 ≤ m
  m2 : m < 2 ^ 64
  te1 : -3000 ≤ te
  te2 : te ≤ 3000
  lo : ((m / 2 ^ rShift F te : Nat) : ℚ) * 2 ^ rJ F te ≤ scaled F w q
  hi : scaled F w q < ((m / 2 ^ rShift F te : Nat) + 1 : ℚ) * 2 ^ rJ F te
  x1 : (w : ℚ) * 10 ^ q ≤ x
  x2 : x < (w + 1 : ℚ) * 10 ^ q
  fin : rJ F te * 2 ^ F.mb + m / 2 ^ rShift F te < infIdx F

theorem SlowCtx.qsmall {F : BinFmt} (G : GoodFmt F) {w q m te x} (h : SlowCtx F w q m te x) : q + 18 ≤ F.maxPow10 := by
  obtain ⟨b1, b2, _, _⟩ := rShift_bounds G (te := te) h.m1 h.m2
  have hi := h.hi
  obtain ⟨B, hB⟩ : ∃ B, m / 2 ^ rShift F te = B := ⟨_, rfl⟩
  obtain ⟨J, hJ⟩ : ∃ J, rJ F te = J := ⟨_, rfl⟩
  have fin := h.fin
  rw [hB, hJ] at b1 hi fin
  rw [hB] at b2
  have v1 : (fpVal F.mb (J * 2 ^ F.mb + B + 1) : ℚ) = (B + 1) * 2 ^ J := by
    rw [fpVal_succ F.mb J B b1 b2]; push_cast; ring
  have v2 : (fpVal F.mb (J * 2 ^ F.mb + B + 1) : ℚ) ≤ 10 ^ (F.maxPow10.toNat + 1) * 2 ^ ulpExp F := by
    have := le_trans (fpVal_mono (mb := F.mb) (show J * 2 ^ F.mb + B + 1 ≤ infIdx F by omega)) G.over
    exact_mod_cast this
  unfold scaled at hi
  have hp : (0 : ℚ) < 2 ^ ulpExp F := by positivity
  have h3 : (w : ℚ) * 10 ^ q < 10 ^ (F.maxPow10.toNat + 1) := by
    have : (w : ℚ) * 10 ^ q * 2 ^ ulpExp F < 10 ^ (F.maxPow10.toNat + 1) * 2 ^ ulpExp F := by linarith
    exact lt_of_mul_lt_mul_right this hp.le
  have hw : (10 : ℚ) ^ (18 : Nat) ≤ w := by exact_mod_cast h.w1
  have hq : (0 : ℚ) < 10 ^ q := by positivity
  have h4 : (10 : ℚ) ^ (q + 18) < 10 ^ (F.maxPow10 + 1) := by
    calc (10 : ℚ) ^ (q + 18) = 10 ^ (18 : Nat) * 10 ^ q := by
          rw [zpow_add₀ (by norm_num), mul_comm]; congr 1
      _ ≤ w * 10 ^ q := mul_le_mul_of_nonneg_right hw hq.le
      _ < 10 ^ (F.maxPow10.toNat + 1) := h3
      _ = 10 ^ (F.maxPow10 + 1) := by
          rw [← zpow_natCast]; congr 1; have := G.maxPow0; omega
  have := (zpow_lt_zpow_iff_right₀ (by norm_num : (1 : ℚ) < 10)).1 h4
  omega

theorem toNat_zpow (b : ℚ) {q : Int} (h : 0 ≤ q) : b ^ q.toNat = b ^ q := by
  rw [← zpow_natCast]; congr 1; omega

/-- Big integers of the negative branch fit. -/
theorem neg_caps {F : BinFmt} (G : GoodFmt F) (S : GoodSlow F) {w q m te x} (h : SlowCtx F w q m te x) {D d k : Nat}
    (hk : (k : Int) = d - 19 - q) (hd : d ≤ F.maxDigits + 1) (hD : (D : ℚ) ≤ 2 * x * 10 ^ k)
    {B J u : Nat} (hB : m / 2 ^ rShift F te = B) (hJ : rJ F te = J) (hu : ulpExp F = u) :
    (∀ n : Nat, n + u + 1 = J + k → (2 * B + 1) * 5 ^ k * 2 ^ n < 2 ^ 3200) ∧ (2 * B + 1) * 5 ^ k < 2 ^ 3200 ∧
    (∀ n : Nat, J + k + n = u + 1 → D * 2 ^ n < 2 ^ 3200) := by
  obtain ⟨b1, b2, _, _⟩ := rShift_bounds G (te := te) h.m1 h.m2
  have hi := h.hi
  have lo := h.lo
  rw [hB, hJ] at b1 hi lo
  rw [hB] at b2
  unfold scaled at hi lo
  rw [hu] at hi lo
  obtain ⟨E, hE⟩ : ∃ E, (F.maxDigits - 18 - F.minPow10).toNat = E := ⟨_, rfl⟩
  have cA := S.capA
  have cB := S.capB
  have cC := S.capC
  rw [hE] at cA cB
  rw [hu] at cA
  have hkE : k ≤ E := by have := h.q1; omega
  have h5 : 5 ^ k ≤ 5 ^ E := Nat.pow_le_pow_right (by norm_num) hkE
  have hB2 : 2 * B + 1 ≤ 2 ^ (F.mb + 2) := by
    have : 2 ^ (F.mb + 2) = 2 * 2 ^ (F.mb + 1) := by ring
    omega
  have hq : (0 : ℚ) < 10 ^ q := by positivity
  refine ⟨fun n hn => ?_, ?_, fun n hn => ?_⟩
  · rcases b1 with hJ0 | hBb
    · refine lt_of_le_of_lt ?_ cA
      refine Nat.mul_le_mul (Nat.mul_le_mul hB2 h5) (Nat.pow_le_pow_right (by norm_num) (by omega))
    · refine lt_of_lt_of_le ?_ cC.le
      have hB1 : 1 ≤ B := le_trans Nat.one_le_two_pow hBb
      have e1 : (2 * B + 1) * 5 ^ k * 2 ^ n * 2 ^ (u + 1) = (2 * B + 1) * 2 ^ J * 10 ^ k := by
        have : 2 ^ n * 2 ^ (u + 1) = 2 ^ J * 2 ^ k := by rw [← pow_add, ← pow_add]; congr 1
        have e10 : (10 : Nat) ^ k = 5 ^ k * 2 ^ k := by rw [← Nat.mul_pow]
        rw [e10]
        calc (2 * B + 1) * 5 ^ k * 2 ^ n * 2 ^ (u + 1) = (2 * B + 1) * 5 ^ k * (2 ^ n * 2 ^ (u + 1)) := by ring
          _ = _ := by rw [this]; ring
      have e2 : (((2 * B + 1) * 5 ^ k * 2 ^ n : Nat) : ℚ) * 2 ^ (u + 1) = (2 * B + 1) * 2 ^ J * 10 ^ k := by
        exact_mod_cast e1
      have hp : (0 : ℚ) < 2 ^ (u + 1) := by positivity
      have h10 : (0 : ℚ) < 10 ^ k := by positivity
      have hBq : (1 : ℚ) ≤ B := by exact_mod_cast hB1
      have hJp : (0 : ℚ) < 2 ^ J := by positivity
      have e3 : (2 * B + 1 : ℚ) * 2 ^ J ≤ 4 * (w * 10 ^ q * 2 ^ u) := by
        have : (1 : ℚ) * 2 ^ J ≤ B * 2 ^ J := mul_le_mul_of_nonneg_right hBq hJp.le
        linarith
      have e4 : (w : ℚ) * 10 ^ q * 10 ^ k < 10 ^ (F.maxDigits + 1) := by
        have hw : (w : ℚ) < 10 ^ (19 : Nat) := by exact_mod_cast h.w2
        calc (w : ℚ) * 10 ^ q * 10 ^ k < 10 ^ (19 : Nat) * 10 ^ q * 10 ^ k := by
              apply mul_lt_mul_of_pos_right _ h10
              exact mul_lt_mul_of_pos_right hw hq
          _ = 10 ^ d := by
              rw [← zpow_natCast, ← zpow_natCast, ← zpow_natCast, ← zpow_add₀ (by norm_num), ← zpow_add₀ (by norm_num)]
              congr 1; push_cast; omega
          _ ≤ 10 ^ (F.maxDigits + 1) := pow_le_pow_right₀ (by norm_num) hd
      have e5 : (((2 * B + 1) * 5 ^ k * 2 ^ n : Nat) : ℚ) * 2 ^ (u + 1) < 4 * 10 ^ (F.maxDigits + 1) * 2 ^ (u + 1) := by
        rw [e2]
        have : (2 * B + 1 : ℚ) * 2 ^ J * 10 ^ k ≤ 4 * (w * 10 ^ q * 2 ^ u) * 10 ^ k := mul_le_mul_of_nonneg_right e3 h10.le
        have hup : (0 : ℚ) < 2 ^ u := by positivity
        have e6 := mul_lt_mul_of_pos_right e4 hup
        have e7 : (0 : ℚ) < 10 ^ (F.maxDigits + 1) * 2 ^ u := by positivity
        calc (2 * B + 1 : ℚ) * 2 ^ J * 10 ^ k ≤ 4 * (w * 10 ^ q * 2 ^ u) * 10 ^ k := this
          _ = 4 * (w * 10 ^ q * 10 ^ k * 2 ^ u) := by ring
          _ < 4 * (10 ^ (F.maxDigits + 1) * 2 ^ u) := by linarith
          _ ≤ 4 * (10 ^ (F.maxDigits + 1) * 2 ^ u) * 2 := by linarith
          _ = 4 * 10 ^ (F.maxDigits + 1) * 2 ^ (u + 1) := by rw [pow_succ]; ring
      have := lt_of_mul_lt_mul_right e5 hp.le
      exact_mod_cast this
  · refine lt_of_le_of_lt ?_ cB
    refine Nat.mul_le_mul (le_trans hB2 (Nat.pow_le_pow_right (by norm_num) (by omega))) h5
  · refine lt_of_le_of_lt ?_ (lt_of_le_of_lt (Nat.mul_le_mul_left (2 ^ (F.mb + 5)) h5) cB)
    have h10 : (0 : ℚ) < 10 ^ k := by positivity
    have hup : (0 : ℚ) < 2 ^ u := by positivity
    have hnp : (0 : ℚ) < 2 ^ n := by positivity
    have hJp : (0 : ℚ) < 2 ^ J := by positivity
    have hw1 : (1 : ℚ) ≤ w := by
      have := h.w1
      exact_mod_cast (le_trans (by norm_num) this : 1 ≤ w)
    have hx : x ≤ 2 * (w * 10 ^ q) := by
      have := h.x2
      have : (1 : ℚ) * 10 ^ q ≤ w * 10 ^ q := mul_le_mul_of_nonneg_right hw1 hq.le
      linarith [h.x2]
    have hBq : (B : ℚ) + 1 ≤ 2 ^ (F.mb + 1) := by exact_mod_cast b2
    have hi2 : (w : ℚ) * 10 ^ q * 2 ^ u ≤ 2 ^ (F.mb + 1) * 2 ^ J :=
      le_trans hi.le (mul_le_mul_of_nonneg_right hBq hJp.le)
    have hD2 : (D : ℚ) * 2 ^ n * 2 ^ u ≤ 2 ^ (F.mb + 5) * 5 ^ k * 2 ^ u := by
      calc (D : ℚ) * 2 ^ n * 2 ^ u ≤ 2 * x * 10 ^ k * 2 ^ n * 2 ^ u := by
            apply mul_le_mul_of_nonneg_right _ hup.le
            exact mul_le_mul_of_nonneg_right hD hnp.le
        _ = x * (2 * 10 ^ k * 2 ^ n * 2 ^ u) := by ring
        _ ≤ 2 * (w * 10 ^ q) * (2 * 10 ^ k * 2 ^ n * 2 ^ u) := mul_le_mul_of_nonneg_right hx (by positivity)
        _ = (w * 10 ^ q * 2 ^ u) * (4 * 10 ^ k * 2 ^ n) := by ring
        _ ≤ 2 ^ (F.mb + 1) * 2 ^ J * (4 * 10 ^ k * 2 ^ n) := mul_le_mul_of_nonneg_right hi2 (by positivity)
        _ = 2 ^ (F.mb + 3) * 5 ^ k * (2 ^ J * 2 ^ k * 2 ^ n) := by
            rw [show (10 : ℚ) ^ k = 5 ^ k * 2 ^ k by rw [← mul_pow]; norm_num, show F.mb + 3 = F.mb + 1 + 2 by ring, pow_add _ _ 2]
            ring
        _ = 2 ^ (F.mb + 3) * 5 ^ k * 2 ^ (u + 1) := by rw [← pow_add, ← pow_add, hn]
        _ = 2 ^ (F.mb + 4) * 5 ^ k * 2 ^ u := by rw [pow_succ 2 u, pow_succ 2 (F.mb + 3)]; ring
        _ ≤ 2 ^ (F.mb + 5) * 5 ^ k * 2 ^ u := by
            apply mul_le_mul_of_nonneg_right _ hup.le
            apply mul_le_mul_of_nonneg_right _ (by positivity)
            exact pow_le_pow_right₀ (by norm_num) (by omega)
    have := le_of_mul_le_mul_right hD2 hup
    exact_mod_cast this

/-- `to_float` of the truncated significand. -/
theorem roundDown_float {F : BinFmt} (G : GoodFmt F) {m : Nat} {te : Int} (h1 : 2 ^ 63 ≤ m) (h2 : m < 2 ^ 64)
    (fin : rJ F te * 2 ^ F.mb + m / 2 ^ rShift F te < infIdx F) :
    ∃ am, roundAm F { mantissa := m, power2 := te } roundDown = .ok am ∧
      toFloat F false am = rJ F te * 2 ^ F.mb + m / 2 ^ rShift F te := by
  obtain ⟨b1, b2, b3, b4⟩ := rShift_bounds G (te := te) h1 h2
  obtain ⟨am, ha, hrep⟩ := roundAm_spec G (am := { mantissa := m, power2 := te }) (r := m / 2 ^ rShift F te)
    (roundDown_eq G.mb52 { mantissa := m, power2 := te } h2) (fun h => (b3 h).le) (fun h => ⟨b4 h, b2.le⟩)
  refine ⟨am, ha, ?_⟩
  have := toFloat_eq G hrep false
  rw [this]
  simp only [Bool.false_eq_true, if_false, Nat.add_zero]
  exact Nat.min_eq_left fin.le

/-- The halfway point is a multiple of the truncation unit. -/
theorem sticky_multiple {F : BinFmt} (G : GoodFmt F) (S : GoodSlow F) {w q m te x} (h : SlowCtx F w q m te x) {K : Nat}
    (hK : (K : Int) = F.maxDigits - 19 - q)
    {B J u : Nat} (hB : m / 2 ^ rShift F te = B) (hJ : rJ F te = J) (hu : ulpExp F = u) :
    ∃ H, (2 * B + 1) * 2 ^ J * 10 ^ K = H * 2 ^ (u + 1) := by
  obtain ⟨b1, b2, _, _⟩ := rShift_bounds G (te := te) h.m1 h.m2
  have hi := h.hi
  rw [hB, hJ] at hi
  rw [hB] at b2
  unfold scaled at hi
  rw [hu] at hi
  have st := S.sticky
  rw [hu] at st
  by_cases hc : u + 1 ≤ J + K
  · obtain ⟨n, hn⟩ := Nat.exists_eq_add_of_le hc
    refine ⟨(2 * B + 1) * 5 ^ K * 2 ^ n, ?_⟩
    have : 2 ^ J * 2 ^ K = 2 ^ n * 2 ^ (u + 1) := by rw [← pow_add, ← pow_add]; congr 1; omega
    rw [show (10 : Nat) ^ K = 5 ^ K * 2 ^ K by rw [← Nat.mul_pow]]
    calc (2 * B + 1) * 2 ^ J * (5 ^ K * 2 ^ K) = (2 * B + 1) * 5 ^ K * (2 ^ J * 2 ^ K) := by ring
      _ = _ := by rw [this]; ring
  · exfalso
    have hKu : J + K ≤ u := by omega
    have hw : (10 : ℚ) ^ (18 : Nat) ≤ w := by exact_mod_cast h.w1
    have hq : (0 : ℚ) < 10 ^ q := by positivity
    have hup : (0 : ℚ) < 2 ^ u := by positivity
    have hJp : (0 : ℚ) < 2 ^ J := by positivity
    have hBq : (B : ℚ) + 1 ≤ 2 ^ (F.mb + 1) := by exact_mod_cast b2
    have h10 : (0 : ℚ) < 10 ^ K := by positivity
    have e1 : (10 : ℚ) ^ (F.maxDigits - 1) = 10 ^ (18 : Nat) * 10 ^ q * 10 ^ K := by
      rw [← zpow_natCast, ← zpow_natCast, ← zpow_natCast, ← zpow_add₀ (by norm_num), ← zpow_add₀ (by norm_num)]
      congr 1
      have := S.md1
      push_cast [Nat.cast_sub (show 1 ≤ F.maxDigits by omega)]
      omega
    have e2 : (10 : ℚ) ^ (F.maxDigits - 1) * 2 ^ u < 2 ^ (F.mb + 1) * 5 ^ u * 2 ^ u := by
      calc (10 : ℚ) ^ (F.maxDigits - 1) * 2 ^ u = 10 ^ (18 : Nat) * 10 ^ q * 2 ^ u * 10 ^ K := by rw [e1]; ring
        _ ≤ w * 10 ^ q * 2 ^ u * 10 ^ K := by
            apply mul_le_mul_of_nonneg_right _ h10.le
            apply mul_le_mul_of_nonneg_right _ hup.le
            exact mul_le_mul_of_nonneg_right hw hq.le
        _ < (B + 1) * 2 ^ J * 10 ^ K := mul_lt_mul_of_pos_right hi h10
        _ ≤ 2 ^ (F.mb + 1) * 2 ^ J * 10 ^ K := by
            apply mul_le_mul_of_nonneg_right _ h10.le
            exact mul_le_mul_of_nonneg_right hBq hJp.le
        _ = 2 ^ (F.mb + 1) * 5 ^ K * 2 ^ (J + K) := by
            rw [show (10 : ℚ) ^ K = 5 ^ K * 2 ^ K by rw [← mul_pow]; norm_num, pow_add]; ring
        _ ≤ 2 ^ (F.mb + 1) * 5 ^ u * 2 ^ u := by
            apply mul_le_mul _ (pow_le_pow_right₀ (by norm_num) hKu) (by positivity) (by positivity)
            apply mul_le_mul_of_nonneg_left _ (by positivity)
            exact pow_le_pow_right₀ (by norm_num) (by omega)
    have e3 := lt_of_mul_lt_mul_right e2 hup.le
    have e4 : (10 : Nat) ^ (F.maxDigits - 1) < 2 ^ (F.mb + 1) * 5 ^ u := by exact_mod_cast e3
    omega

/-- `negative_digit_comp`: the exact comparison with the halfway point gives the correctly rounded result. -/
theorem negativeDigitComp_spec (c : Cfg) {F : BinFmt} (G : GoodFmt F) (S : GoodSlow F) {w q m te x} (h : SlowCtx F w q m te x)
    (big : Limbs) (d k : Nat) (hv : LimbsOK (limbBits c) big) (hn : Norm (limbBits c) big) (hpos : 0 < bval (limbBits c) big)
    (hk : (k : Int) = d - 19 - q) (hk0 : k ≠ 0) (hM : MantOK F.maxDigits x (bval (limbBits c) big) d (-(k : Int))) :
    ∃ am n, negativeDigitComp c F big { mantissa := m, power2 := te } (-(k : Int)) = .ok am ∧
      RN F.mb (x * 2 ^ ulpExp F) n ∧ AmRep F am (min n (infIdx F)) := by
  have hmb := G.mb52
  have hmb1 := G.mb1
  obtain ⟨b1, b2, b3, b4⟩ := rShift_bounds G (te := te) h.m1 h.m2
  obtain ⟨amB, hamB, hfl⟩ := roundDown_float G (te := te) h.m1 h.m2 h.fin
  have hhalf := toExtendedHalfway_eq G b1 b2 h.fin
  have lo := h.lo
  have hi := h.hi
  have hJte : rJ F te ≤ 3100 := by have := h.te2; unfold rJ; omega
  have hrnd := fun cb => roundNearestTieEven_eq (F := F) hmb cb { mantissa := m, power2 := te } h.m2 (rShift F te) rfl
  have hstick := fun K hK => sticky_multiple G S h (K := K) hK rfl rfl rfl
  obtain ⟨D, hD⟩ : ∃ D, bval (limbBits c) big = D := ⟨_, rfl⟩
  rw [hD] at hM
  have h10k : (0 : ℚ) < 10 ^ k := by positivity
  have zk : (10 : ℚ) ^ (-(k : Int)) = 1 / 10 ^ k := by rw [zpow_neg, zpow_natCast, one_div]
  have hdle : d ≤ F.maxDigits + 1 := by
    rcases hM with h | h
    · omega
    · omega
  have hD2x : (D : ℚ) ≤ 2 * x * 10 ^ k := by
    have hx0 : 0 ≤ x := by
      refine le_trans ?_ h.x1
      have : (0 : ℚ) < 10 ^ q := by positivity
      positivity
    rcases hM with ⟨_, h1⟩ | ⟨_, D0, g0, g1, g2, _⟩
    · rw [zk, mul_one_div, div_eq_iff h10k.ne'] at h1
      rw [h1]
      have := mul_nonneg hx0 h10k.le
      linarith
    · obtain ⟨K, rfl⟩ : ∃ K, k = K + 1 := ⟨k - 1, by omega⟩
      have hK : (0 : ℚ) < 10 ^ K := by positivity
      rw [show -((K + 1 : Nat) : Int) + 1 = -(K : Int) by push_cast; ring, zpow_neg, zpow_natCast, ← div_eq_mul_inv,
        div_lt_iff₀ hK] at g2
      have : (1 : ℚ) ≤ D0 := by exact_mod_cast g0
      rw [g1, pow_succ]; push_cast
      linarith
  obtain ⟨capT, capT', capR⟩ := neg_caps G S h hk hdle hD2x rfl rfl rfl
  obtain ⟨B, hB⟩ : ∃ B, m / 2 ^ rShift F te = B := ⟨_, rfl⟩
  obtain ⟨J, hJ⟩ : ∃ J, rJ F te = J := ⟨_, rfl⟩
  obtain ⟨u, hu⟩ : ∃ u, ulpExp F = u := ⟨_, rfl⟩
  have hB64 : 2 * B + 1 < 2 ^ 64 := by
    have : 2 ^ (F.mb + 1) ≤ 2 ^ 53 := Nat.pow_le_pow_right (by norm_num) (by omega)
    rw [hB] at b2; omega
  rw [hB, hJ] at hfl hhalf lo hi b1
  simp only [hB] at hrnd b2 b3 b4
  rw [hB, hJ, hu] at capT
  rw [hJ, hu] at capR
  rw [hB] at capT'
  simp only [hB, hJ, hu] at hstick
  rw [hu] at hhalf ⊢
  rw [← hD] at capR
  obtain ⟨t0, t, r, f, hf, e1, e2, e3, t1, r1, t2, r2, hR, hT⟩ :=
    negCompare_spec c big B J u k hv hn hpos hB64 capT capT' capR
  rw [hD] at hR
  -- the comparison
  have hcmp : (bval (limbBits c) t < bval (limbBits c) r ↔ (2 * B + 1 : ℚ) * 2 ^ J < 2 * (x * 2 ^ u)) ∧
      (bval (limbBits c) r < bval (limbBits c) t ↔ 2 * (x * 2 ^ u) < (2 * B + 1 : ℚ) * 2 ^ J) := by
    rcases hM with ⟨_, h1⟩ | ⟨hd, D0, g0, g1, g2, g3⟩
    · refine cmp_exact hf ?_ hR hT
      rw [zk, mul_one_div, div_eq_iff h10k.ne'] at h1
      exact h1
    · obtain ⟨K, rfl⟩ : ∃ K, k = K + 1 := ⟨k - 1, by omega⟩
      have hK : (0 : ℚ) < 10 ^ K := by positivity
      rw [show -((K + 1 : Nat) : Int) + 1 = -(K : Int) by push_cast; ring, zpow_neg, zpow_natCast, ← div_eq_mul_inv] at g2 g3
      rw [div_lt_iff₀ hK] at g2
      rw [lt_div_iff₀ hK] at g3
      obtain ⟨H, hH⟩ := hstick K (by push_cast at hk; omega)
      exact cmp_sticky hf g2 g3 hH (by rw [hR, g1]) hT
  obtain ⟨c1, c2⟩ := bigCompare_spec (limbBits c) r t r1 t1 r2 t2
  obtain ⟨ord, hord⟩ : ∃ ord, bigCompare r t = ord := ⟨_, rfl⟩
  rw [hord] at c1 c2
  have o1 : 0 < ord ↔ (2 * B + 1 : ℚ) * 2 ^ J < 2 * (x * 2 ^ u) := c1.trans hcmp.1
  have o2 : ord < 0 ↔ 2 * (x * 2 ^ u) < (2 * B + 1 : ℚ) * 2 ^ J := c2.trans hcmp.2
  -- run the function
  have hchk : chk32 ((J : Int) - u - 1 - -(k : Int)) = .ok ((J : Int) - u - 1 + k) := by
    unfold chk32
    have q1 := h.q1
    have q2 := h.q2
    have := G.minPow
    have := S.md2
    have := S.ulp1
    have := G.maxPow
    rw [if_pos (by constructor <;> omega)]
    congr 1; ring
  obtain ⟨up, hup⟩ : ∃ up : Bool, (if ord > 0 then true else if ord < 0 then false else decide (B % 2 = 1)) = up := ⟨_, rfl⟩
  have hrnd' := hrnd (fun isOdd _ _ => if ord > 0 then true else if ord < 0 then false else isOdd)
  simp only [hup] at hrnd'
  obtain ⟨am', ha, hrep⟩ := roundAm_spec G (am := { mantissa := m, power2 := te }) (r := B + (if up then 1 else 0)) hrnd'
    (fun h => by have := b3 h; split <;> omega) (fun h => by have := b4 h; constructor <;> split <;> omega)
  have hrun : negativeDigitComp c F big { mantissa := m, power2 := te } (-(k : Int)) = .ok am' := by
    unfold negativeDigitComp
    simp only [bind, Except.bind, pure, Except.pure, hamB, hfl, hhalf, hchk, neg_neg, Int.toNat_natCast]
    rw [if_pos hk0, e1]
    simp only
    by_cases hp : (J : Int) - u - 1 + k > 0
    · rw [if_pos hp] at e2 ⊢
      rw [if_neg (by omega)] at e3
      rw [e2]
      simp only
      rw [if_neg (by omega)]
      injection e3 with e3
      rw [e3, hord]
      exact ha
    · rw [if_neg hp] at e2 ⊢
      injection e2 with e2
      subst e2
      by_cases hp' : (J : Int) - u - 1 + k < 0
      · rw [if_pos hp'] at e3 ⊢
        rw [e3]
        simp only [hord]
        exact ha
      · rw [if_neg hp'] at e3 ⊢
        injection e3 with e3
        rw [e3, hord]
        exact ha
  refine ⟨am', _, hrun, ?_, hrep⟩
  simp only [hJ]
  have hJp : (0 : ℚ) < 2 ^ J := by positivity
  have hup' : (0 : ℚ) < 2 ^ u := by positivity
  have hq : (0 : ℚ) < 10 ^ q := by positivity
  unfold scaled at lo hi
  rw [hu] at lo hi
  apply RN_between hmb1 b1 b2
  · exact le_trans lo (mul_le_mul_of_nonneg_right h.x1 hup'.le)
  · have h2 := mul_lt_mul_of_pos_right h.x2 hup'
    have hw : (10 : ℚ) ^ 18 ≤ w := by exact_mod_cast h.w1
    have hBq : (B : ℚ) + 1 ≤ 2 ^ 53 := by
      have : 2 ^ (F.mb + 1) ≤ 2 ^ 53 := Nat.pow_le_pow_right (by norm_num) (by omega)
      have : B + 1 ≤ 2 ^ 53 := by omega
      exact_mod_cast this
    have h3 : (10 : ℚ) ^ 18 * (10 ^ q * 2 ^ u) ≤ w * (10 ^ q * 2 ^ u) := mul_le_mul_of_nonneg_right hw (by positivity)
    have h4 : (B + 1 : ℚ) * 2 ^ J ≤ 2 ^ 53 * 2 ^ J := mul_le_mul_of_nonneg_right hBq hJp.le
    have h5 : 2 * (10 ^ q * 2 ^ u) < (2 : ℚ) ^ J := by
      have : (10 : ℚ) ^ 18 * (10 ^ q * 2 ^ u) < 2 ^ 53 * 2 ^ J := by
        calc (10 : ℚ) ^ 18 * (10 ^ q * 2 ^ u) ≤ w * (10 ^ q * 2 ^ u) := h3
          _ = w * 10 ^ q * 2 ^ u := by ring
          _ < _ := lt_of_lt_of_le hi h4
      norm_num at this
      linarith
    calc 2 * (x * 2 ^ u) < 2 * ((w + 1) * 10 ^ q * 2 ^ u) := by linarith
      _ = 2 * (w * 10 ^ q * 2 ^ u) + 2 * (10 ^ q * 2 ^ u) := by ring
      _ < 2 * ((B + 1) * 2 ^ J) + 2 ^ J := by linarith
      _ = _ := by ring
  · intro hu1
    rw [hu1] at hup
    by_cases g : ord > 0
    · have := o1.1 g
      exact ⟨this.le, fun _ => this⟩
    · rw [if_neg g] at hup
      by_cases g2 : ord < 0
      · rw [if_pos g2] at hup; simp at hup
      · rw [if_neg g2] at hup
        have := of_decide_eq_true hup
        have hn : ¬ 2 * (x * 2 ^ u) < (2 * B + 1 : ℚ) * 2 ^ J := fun hh => g2 (o2.2 hh)
        exact ⟨not_lt.1 hn, fun _ => by omega⟩
  · intro hu1
    rw [hu1] at hup
    by_cases g : ord > 0
    · rw [if_pos g] at hup; simp at hup
    · rw [if_neg g] at hup
      by_cases g2 : ord < 0
      · have := o2.1 g2
        exact ⟨this.le, fun _ => this⟩
      · rw [if_neg g2] at hup
        have := decide_eq_false_iff_not.1 hup
        have hn : ¬ (2 * B + 1 : ℚ) * 2 ^ J < 2 * (x * 2 ^ u) := fun hh => g (o1.2 hh)
        exact ⟨not_lt.1 hn, fun _ => by omega⟩

end FastFloat
