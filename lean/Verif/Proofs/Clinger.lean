import Verif.Proofs.ComputeFloat
import Verif.Proofs.DoubleRound
import Verif.Model.ParseNumber
/-
# The fast path (`clinger_fast_path_impl`) rounds correctly
-/
namespace FastFloat

theorem log2_shift (m j : Nat) (h : m ≠ 0) : Nat.log2 (m * 2 ^ j) = Nat.log2 m + j := by
  rw [Nat.log2_eq_iff (by positivity)]
  have h1 := Nat.log2_self_le h
  have h2 := Nat.lt_log2_self (n := m)
  constructor
  · rw [pow_add]; exact Nat.mul_le_mul_right _ h1
  · rw [show m.log2 + j + 1 = m.log2 + 1 + j by ring, pow_add]
    exact Nat.mul_lt_mul_of_pos_right h2 (Nat.two_pow_pos j)

theorem roundsUp_zero (mode : RoundMode) (q d : Nat) (hd : 0 < d) : roundsUp mode q 0 d = false := by
  cases mode <;> simp [roundsUp]
  omega

/-- An exactly representable finite value is returned unchanged in every rounding mode. -/
theorem fpRound_exact (F : BinFmt) (mode : RoundMode) (n den : Nat) (hd : 0 < den) (hn : n < infIdx F) :
    fpRound F mode (fpVal F.mb n * den) den = n := by
  obtain ⟨j, m, rfl, h1, h2⟩ := idx_pos F.mb n
  rw [fpVal_lin F.mb j m h1 h2]
  have hj : Nat.log2 (m * 2 ^ j * den / den) - F.mb = j := by
    rw [Nat.mul_div_cancel _ hd]
    by_cases hm : m = 0
    · have hj0 : j = 0 := by
        rcases h1 with h | h
        · exact h
        · have := Nat.two_pow_pos F.mb; omega
      subst hj0; subst hm; simp [Nat.log2]
    · rw [log2_shift m j hm]
      have hlt : Nat.log2 m < F.mb + 1 := (Nat.log2_lt hm).2 h2
      rcases h1 with h | h
      · omega
      · have : F.mb ≤ Nat.log2 m := (Nat.le_log2 hm).2 h
        omega
  have hd' : 0 < den * 2 ^ j := Nat.mul_pos hd (Nat.two_pow_pos j)
  have e : m * 2 ^ j * den = m * (den * 2 ^ j) := by ring
  have hq : m * 2 ^ j * den / (den * 2 ^ j) = m := by rw [e, Nat.mul_div_cancel _ hd']
  have hr : m * 2 ^ j * den % (den * 2 ^ j) = 0 := by rw [e, Nat.mul_mod_left]
  unfold fpRound
  simp only [hj, hq, hr, roundsUp_zero mode m _ hd']
  rw [if_pos (by simpa using hn)]
  simp

/-- What makes an evaluation format harmless for exactly representable products. -/
structure WideFast (F W : BinFmt) : Prop where
  mb : F.mb + 2 ≤ W.mb
  ulp : ulpExp F < ulpExp W
  fin : 2 ^ (F.mb + 1) * 10 ^ F.maxFast.toNat * 2 ^ ulpExp W < fpVal W.mb (infIdx W)

/-- What makes an evaluation format harmless for the rounded products and quotients of the fast path. -/
structure WideNear (F W : BinFmt) : Prop where
  mul5 : 2 ^ (F.mb + 1) * 5 ^ F.maxFast.toNat ≤ 2 ^ (W.mb + 1)
  gap : 2 ^ (F.mb + 2) * 5 ^ (-F.minFast).toNat ≤ 2 ^ (W.mb + 1)
  big : 2 ^ W.mb * 10 ^ (-F.minFast).toNat ≤ 2 ^ ulpExp W
  minU : (-F.minFast).toNat ≤ ulpExp F

/-- The numeric facts about a format that the fast path relies on. -/
structure GoodFast (F : BinFmt) : Prop where
  mb1 : 1 ≤ F.mb
  pow5 : ∀ k < F.powLen, 5 ^ k ≤ 2 ^ (F.mb + 1) ∧ 10 ^ k * 2 ^ ulpExp F < fpVal F.mb (infIdx F)
  maxF : 0 ≤ F.maxFast ∧ F.maxFast.toNat < F.powLen
  minF : F.minFast ≤ 0 ∧ (-F.minFast).toNat < F.powLen
  minU : 10 ^ (-F.minFast).toNat ≤ 2 ^ ulpExp F
  mant : 2 ^ (F.mb + 1) * 2 ^ ulpExp F < fpVal F.mb (infIdx F)
  table : ∀ k ≤ F.maxFast.toNat, ∃ mm, F.maxMantissa[k]? = some mm ∧ mm * 5 ^ k ≤ 2 ^ (F.mb + 1) ∧
    mm * 10 ^ k * 2 ^ ulpExp F < fpVal F.mb (infIdx F)
  wide : ∀ ev W, widerFmt ev F = some W → WideFast F W
  near : ∀ ev W, ev.is01 = true → widerFmt ev F = some W → WideNear F W

/-- The fast path of this format never overflows. -/
def FastFinite (F : BinFmt) : Prop :=
  2 ^ (F.mb + 1) * 10 ^ F.maxFast.toNat * 2 ^ ulpExp F ≤ fpVal F.mb (infIdx F - 1)

theorem table_ok {t : List Nat} {L N u V : Nat} (h : ∀ k < N, ∃ h : k < t.length, t[k] * 5 ^ k ≤ L ∧ t[k] * 10 ^ k * 2 ^ u < V)
    (k : Nat) (hk : k < N) : ∃ mm, t[k]? = some mm ∧ mm * 5 ^ k ≤ L ∧ mm * 10 ^ k * 2 ^ u < V := by
  obtain ⟨h1, h2⟩ := h k hk
  exact ⟨_, List.getElem?_eq_getElem h1, h2⟩

theorem fast64 : GoodFast binary64 := by
  refine ⟨by decide +kernel, by decide +kernel, by decide +kernel, by decide +kernel, by decide +kernel, by decide +kernel, ?_, ?_, ?_⟩
  · intro k hk
    exact table_ok (by decide +kernel) k (Nat.lt_succ_of_le hk)
  · intro ev W h
    cases ev <;> simp only [widerFmt, reduceCtorEq] at h <;> first
      | (cases h; done)
      | (cases h; exact ⟨by decide +kernel, by decide +kernel, by decide +kernel⟩)
  · intro ev W h0 h
    cases ev <;> simp only [widerFmt, reduceCtorEq] at h <;> first
      | (cases h; done)
      | exact absurd h0 (by decide)
      | (cases h; exact ⟨by decide +kernel, by decide +kernel, by decide +kernel, by decide +kernel⟩)
theorem fast32 : GoodFast binary32 := by
  refine ⟨by decide +kernel, by decide +kernel, by decide +kernel, by decide +kernel, by decide +kernel, by decide +kernel, ?_, ?_, ?_⟩
  · intro k hk
    exact table_ok (by decide +kernel) k (Nat.lt_succ_of_le hk)
  · intro ev W h
    cases ev <;> simp only [widerFmt, reduceCtorEq] at h <;> first
      | (cases h; done)
      | (cases h; exact ⟨by decide +kernel, by decide +kernel, by decide +kernel⟩)
  · intro ev W h0 h
    cases ev <;> simp only [widerFmt, reduceCtorEq] at h <;> first
      | (cases h; done)
      | exact absurd h0 (by decide)
      | (cases h; exact ⟨by decide +kernel, by decide +kernel, by decide +kernel, by decide +kernel⟩)
theorem fast16 : GoodFast binary16 := by
  refine ⟨by decide +kernel, by decide +kernel, by decide +kernel, by decide +kernel, by decide +kernel, by decide +kernel, ?_, ?_, ?_⟩
  · intro k hk
    exact table_ok (by decide +kernel) k (Nat.lt_succ_of_le hk)
  · intro ev W h
    cases ev <;> simp only [widerFmt, reduceCtorEq] at h <;> first
      | (cases h; done)
      | (cases h; exact ⟨by decide +kernel, by decide +kernel, by decide +kernel⟩)
  · intro ev W h0 h
    cases ev <;> simp only [widerFmt, reduceCtorEq] at h <;> first
      | (cases h; done)
      | exact absurd h0 (by decide)
      | (cases h; exact ⟨by decide +kernel, by decide +kernel, by decide +kernel, by decide +kernel⟩)
theorem fastB16 : GoodFast bfloat16 := by
  refine ⟨by decide +kernel, by decide +kernel, by decide +kernel, by decide +kernel, by decide +kernel, by decide +kernel, ?_, ?_, ?_⟩
  · intro k hk
    exact table_ok (by decide +kernel) k (Nat.lt_succ_of_le hk)
  · intro ev W h
    cases ev <;> simp only [widerFmt, reduceCtorEq] at h <;> first
      | (cases h; done)
      | (cases h; exact ⟨by decide +kernel, by decide +kernel, by decide +kernel⟩)
  · intro ev W h0 h
    cases ev <;> simp only [widerFmt, reduceCtorEq] at h <;> first
      | (cases h; done)
      | exact absurd h0 (by decide)
      | (cases h; exact ⟨by decide +kernel, by decide +kernel, by decide +kernel, by decide +kernel⟩)

theorem finite64 : FastFinite binary64 := by unfold FastFinite; decide +kernel
theorem finite32 : FastFinite binary32 := by unfold FastFinite; decide +kernel
theorem finiteB16 : FastFinite bfloat16 := by unfold FastFinite; decide +kernel

/-- `rounds_to_nearest` detects the rounding mode whenever the evaluation method is 0 or 1. -/
theorem roundsToNearest_eq (c : Cfg) : roundsToNearest c = (c.evalMethod.is01 && decide (c.mode = .nearest)) := by
  unfold roundsToNearest fpAdd fpSub evalFmt
  generalize c.mode = m
  generalize c.evalMethod = ev
  cases ev <;> cases m <;> decide +kernel

theorem roundsToNearest_mode (c : Cfg) (h : roundsToNearest c = true) : c.mode = .nearest := by
  rw [roundsToNearest_eq] at h
  simp at h
  exact h.2

theorem idx_lt_inf {F : BinFmt} {n : Nat} (h : fpVal F.mb n < fpVal F.mb (infIdx F)) : n < infIdx F := by
  by_contra hc
  have := fpVal_mono (mb := F.mb) (show infIdx F ≤ n by omega)
  omega

/-- `T(m)` is exact for the mantissas of the fast path. -/
theorem fpOfNat_exact {F : BinFmt} (mode : RoundMode) (m M t : Nat) (hM : M ≤ 2 ^ (F.mb + 1)) (he : m = M * 2 ^ t)
    (hfin : m * 2 ^ ulpExp F < fpVal F.mb (infIdx F)) :
    ∃ n, fpOfNat F mode m = n ∧ n < infIdx F ∧ fpVal F.mb n = m * 2 ^ ulpExp F := by
  obtain ⟨n, hn⟩ := exact_idx F.mb (t + ulpExp F) M hM
  have hv : fpVal F.mb n = m * 2 ^ ulpExp F := by rw [hn, he, pow_add, Nat.mul_assoc]
  have hlt : n < infIdx F := idx_lt_inf (by rw [hv]; exact hfin)
  refine ⟨n, ?_, hlt, hv⟩
  unfold fpOfNat
  have := fpRound_exact F mode n 1 (by norm_num) hlt
  rw [Nat.mul_one] at this
  rw [← hv]; exact this

theorem exactPowerOfTen_spec {F : BinFmt} (G : GoodFast F) (k : Nat) (hk : k < F.powLen) :
    ∃ n, exactPowerOfTen F k = .ok n ∧ fpVal F.mb n = 10 ^ k * 2 ^ ulpExp F := by
  obtain ⟨h5, hi⟩ := G.pow5 k hk
  obtain ⟨n, e, _, hv⟩ := fpOfNat_exact (F := F) .nearest (10 ^ k) (5 ^ k) k h5 (by rw [← Nat.mul_pow]) hi
  refine ⟨n, ?_, hv⟩
  unfold exactPowerOfTen
  rw [if_pos hk, e]

/-- Evaluating in a wider format does not change a result that the wider format represents exactly. -/
theorem fpEval_exact (c : Cfg) {F : BinFmt} (num den : Nat) (hden : 0 < den)
    (h : ∀ W, widerFmt c.evalMethod F = some W → ∃ n < infIdx W, fpVal W.mb n * den = num * 2 ^ (ulpExp W - ulpExp F)) :
    fpEval c F num den = fpRound F c.mode num den := by
  unfold fpEval
  cases hw : widerFmt c.evalMethod F with
  | none => rfl
  | some W =>
    obtain ⟨n, hn, e⟩ := h W hw
    simp only []
    rw [← e, fpRound_exact W c.mode n den hden hn, if_pos hn]
    exact fpRound_congr F c.mode (Nat.two_pow_pos _) hden e

/-- The product of a mantissa and a power of ten, if it fits the wider format. -/
theorem fpMul_eval (c : Cfg) {F : BinFmt} (G : GoodFast F) {a b m k : Nat} (ha : fpVal F.mb a = m * 2 ^ ulpExp F)
    (hb : fpVal F.mb b = 10 ^ k * 2 ^ ulpExp F) (hm : m ≤ 2 ^ (F.mb + 1)) (hk : k ≤ F.maxFast.toNat)
    (h5 : m * 5 ^ k ≤ 2 ^ (F.mb + 1) ∨ c.evalMethod.is01 = true) :
    fpMul c F a b = fpRound F c.mode (fpVal F.mb a * fpVal F.mb b) (2 ^ ulpExp F) := by
  unfold fpMul
  apply fpEval_exact c _ _ (Nat.two_pow_pos _)
  intro W hW
  have wf := G.wide _ W hW
  have hM : m * 5 ^ k ≤ 2 ^ (W.mb + 1) := by
    rcases h5 with h | h
    · exact le_trans h (Nat.pow_le_pow_right (by norm_num) (by have := wf.mb; omega))
    · exact le_trans (Nat.mul_le_mul hm (Nat.pow_le_pow_right (by norm_num) hk)) (G.near _ W h hW).mul5
  obtain ⟨n, hn⟩ := exact_idx W.mb (k + ulpExp W) (m * 5 ^ k) hM
  have hval : fpVal W.mb n = m * 10 ^ k * 2 ^ ulpExp W := by
    rw [hn, pow_add, show (10 : Nat) = 5 * 2 by norm_num, Nat.mul_pow]; ring
  refine ⟨n, idx_lt_inf ?_, ?_⟩
  · rw [hval]
    refine lt_of_le_of_lt (Nat.mul_le_mul_right _ ?_) wf.fin
    exact Nat.mul_le_mul hm (Nat.pow_le_pow_right (by norm_num) hk)
  · rw [hval, ha, hb]
    obtain ⟨d, hd⟩ := Nat.exists_eq_add_of_le wf.ulp.le
    rw [hd, Nat.add_sub_cancel_left, pow_add]; ring

/-- The quotient of a mantissa by a power of ten is correctly rounded although it may be rounded twice. -/
theorem fpDiv_eval (c : Cfg) {F : BinFmt} (G : GoodFast F) {a b m k : Nat} (ha : fpVal F.mb a = m * 2 ^ ulpExp F)
    (hb : fpVal F.mb b = 10 ^ k * 2 ^ ulpExp F) (hm : m ≤ 2 ^ (F.mb + 1)) (hk : k ≤ (-F.minFast).toNat)
    (hev : c.evalMethod.is01 = true) (hmode : c.mode = .nearest) :
    ∃ n, RN F.mb (((m * 2 ^ ulpExp F : Nat) : ℚ) / ((10 ^ k : Nat) : ℚ)) n ∧ fpDiv c F a b = min n (infIdx F) := by
  have hu := Nat.two_pow_pos (ulpExp F)
  have hden : 0 < fpVal F.mb b := by rw [hb]; positivity
  have hq : (((fpVal F.mb a * 2 ^ ulpExp F : Nat) : ℚ) / ((fpVal F.mb b : Nat) : ℚ)) =
      ((m * 2 ^ ulpExp F : Nat) : ℚ) / ((10 ^ k : Nat) : ℚ) := by
    rw [ha, hb]; push_cast; field_simp
  have plain : ∃ n, RN F.mb (((m * 2 ^ ulpExp F : Nat) : ℚ) / ((10 ^ k : Nat) : ℚ)) n ∧
      fpRound F c.mode (fpVal F.mb a * 2 ^ ulpExp F) (fpVal F.mb b) = min n (infIdx F) :=
    ⟨_, by rw [← hq]; exact RN_fpRoundIdx G.mb1 _ _ hden, by rw [hmode, fpRound_nearest]⟩
  unfold fpDiv
  cases hW : widerFmt c.evalMethod F with
  | none =>
    unfold fpEval; rw [hW]; exact plain
  | some W =>
    have wf := G.wide _ W hW
    have wn := G.near _ W hev hW
    obtain ⟨d, hd⟩ := Nat.exists_eq_add_of_lt wf.ulp
    have hsub : ulpExp W - ulpExp F = d + 1 := by omega
    have hinfW : 0 < infIdx W := by
      by_contra hc
      have h0 : infIdx W = 0 := by omega
      have := wf.fin
      rw [h0] at this; simp [fpVal] at this
    by_cases hm0 : m = 0
    · rw [fpEval_exact c _ _ hden (by
        intro W' hW'
        rw [hW] at hW'; cases hW'
        refine ⟨0, hinfW, ?_⟩
        rw [ha, hm0]; simp [fpVal])]
      exact plain
    · unfold fpEval
      rw [hW]
      simp only [hsub, hmode]
      rw [fpRound_nearest, fpRound_nearest]
      obtain ⟨y, hy⟩ : ∃ y, fpRoundIdx W.mb (fpVal F.mb a * 2 ^ ulpExp F * 2 ^ (d + 1)) (fpVal F.mb b) = y := ⟨_, rfl⟩
      rw [hy]
      have hW1 : 1 ≤ W.mb := by have := wf.mb; omega
      have hRNy : RN W.mb ((m * 2 ^ (ulpExp F + (d + 1)) : ℚ) / 10 ^ k) y := by
        have := RN_fpRoundIdx hW1 (fpVal F.mb a * 2 ^ ulpExp F * 2 ^ (d + 1)) (fpVal F.mb b) hden
        rw [hy] at this
        convert this using 1
        rw [ha, hb]; push_cast; rw [pow_add]; field_simp
      have hfin : y < infIdx W := by
        obtain ⟨z, hz⟩ := exact_idx W.mb (ulpExp W) m (le_trans hm (Nat.pow_le_pow_right (by norm_num) (by have := wf.mb; omega)))
        have hzlt : z < infIdx W := by
          apply idx_lt_inf
          rw [hz]
          refine lt_of_le_of_lt (Nat.mul_le_mul_right _ ?_) wf.fin
          exact le_trans hm (Nat.le_mul_of_pos_right _ (by positivity))
        refine lt_of_le_of_lt (hRNy.le_of_ge ?_) hzlt
        rw [hz, hd]
        push_cast
        rw [div_le_iff₀ (by positivity)]
        have h1 : (1 : ℚ) ≤ 10 ^ k := one_le_pow₀ (by norm_num)
        have h2 : (0 : ℚ) ≤ m * 2 ^ (ulpExp F + (d + 1)) := by positivity
        calc (m * 2 ^ (ulpExp F + (d + 1)) : ℚ) = m * 2 ^ (ulpExp F + (d + 1)) * 1 := by ring
          _ ≤ m * 2 ^ (ulpExp F + (d + 1)) * 10 ^ k := mul_le_mul_of_nonneg_left h1 h2
          _ = m * 2 ^ (ulpExp F + d + 1) * 10 ^ k := by rw [Nat.add_assoc]
      rw [Nat.min_eq_left hfin.le, if_pos hfin]
      refine ⟨_, ?_, rfl⟩
      have hn := RN_fpRoundIdx G.mb1 (fpVal W.mb y) (2 ^ (d + 1)) (Nat.two_pow_pos _)
      have := RN_double (p := F.mb) (P := W.mb) (uF := ulpExp F) (d := d + 1) (m := m) (k := k) wf.mb (by omega)
        (Nat.pos_of_ne_zero hm0) hm (le_trans hk wn.minU)
        (le_trans (Nat.mul_le_mul_left _ (Nat.pow_le_pow_right (by norm_num) hk)) wn.gap)
        (by
          have := wn.big
          rw [hd, Nat.add_assoc] at this
          exact le_trans (Nat.mul_le_mul_left _ (Nat.pow_le_pow_right (by norm_num) hk)) this)
        hRNy (by push_cast at hn; exact hn)
      push_cast
      exact this

theorem scaled_nat (F : BinFmt) (w k : Nat) : scaled F w (k : Int) = ((w * 10 ^ k * 2 ^ ulpExp F : Nat) : ℚ) := by
  unfold scaled; push_cast; rw [zpow_natCast]

theorem scaled_neg (F : BinFmt) (w k : Nat) : scaled F w (-(k : Int)) = ((w * 2 ^ ulpExp F : Nat) : ℚ) / ((10 ^ k : Nat) : ℚ) := by
  unfold scaled; push_cast; rw [zpow_neg, zpow_natCast]; field_simp

theorem clinger_spec (c : Cfg) {F : BinFmt} (G : GoodFast F) (m : Nat) (e : Int) (neg : Bool) :
    ∃ o, clingerFastPath c F m e neg = .ok o ∧
      ∀ v, o = some v → ∃ n, RN F.mb (scaled F m e) n ∧ v = min n (infIdx F) + (if neg then 2 ^ F.signIdx else 0) ∧
        (m ≠ 0 → n ≠ 0) ∧ (FastFinite F → n < infIdx F) := by
  have hub := Nat.two_pow_pos (ulpExp F)
  have hinf : 0 < infIdx F := by
    by_contra hc
    have h0 : infIdx F = 0 := by omega
    have := G.mant
    rw [h0] at this; simp at this
  unfold clingerFastPath
  by_cases hr : minExponentFastPath c F ≤ e ∧ e ≤ F.maxFast
  swap
  · rw [if_neg hr]; exact ⟨none, rfl, by intro v h; cases h⟩
  rw [if_pos hr]
  have hmin : F.minFast ≤ e := by
    have := G.minF.1
    have h1 := hr.1
    unfold minExponentFastPath at h1
    split at h1 <;> omega
  -- the two general facts about the rounded index
  have nz : ∀ n, RN F.mb (scaled F m e) n → m ≠ 0 → n ≠ 0 := by
    intro n hn hm
    have h1 : (1 : ℚ) ≤ scaled F m e := by
      have hm1 : (1 : ℚ) ≤ m := by exact_mod_cast Nat.one_le_iff_ne_zero.2 hm
      have hu : (10 : ℚ) ^ (-F.minFast).toNat ≤ 2 ^ ulpExp F := by exact_mod_cast G.minU
      have hz : (10 : ℚ) ^ F.minFast ≤ 10 ^ e := zpow_le_zpow_right₀ (by norm_num) hmin
      have hz2 : (10 : ℚ) ^ F.minFast * 10 ^ (-F.minFast).toNat = 1 := by
        rw [← zpow_natCast, Int.toNat_of_nonneg (by have := G.minF.1; omega), ← zpow_add₀ (by norm_num)]
        simp
      unfold scaled
      have hp : (0 : ℚ) < 10 ^ F.minFast := by positivity
      calc (1 : ℚ) = 10 ^ F.minFast * 10 ^ (-F.minFast).toNat := hz2.symm
        _ ≤ 10 ^ F.minFast * 2 ^ ulpExp F := mul_le_mul_of_nonneg_left hu hp.le
        _ ≤ 10 ^ e * 2 ^ ulpExp F := mul_le_mul_of_nonneg_right hz (by positivity)
        _ = 1 * 10 ^ e * 2 ^ ulpExp F := by ring
        _ ≤ m * 10 ^ e * 2 ^ ulpExp F := by
          apply mul_le_mul_of_nonneg_right _ (by positivity)
          exact mul_le_mul_of_nonneg_right hm1 (by positivity)
    have h2 : fpVal F.mb 1 = 1 := by
      have := fpVal_lin' F.mb 0 1 (Or.inl rfl) (Nat.one_le_two_pow)
      simpa using this
    have := hn.ge_of_le (k := 1) (by rw [h2]; exact_mod_cast h1)
    omega
  have fin : ∀ n, m ≤ 2 ^ (F.mb + 1) → RN F.mb (scaled F m e) n → FastFinite F → n < infIdx F := by
    intro n hm hn hf
    unfold FastFinite at hf
    have h1 : scaled F m e ≤ (fpVal F.mb (infIdx F - 1) : ℚ) := by
      refine le_trans ?_ (Nat.cast_le.2 hf)
      unfold scaled
      push_cast
      have hz : (10 : ℚ) ^ e ≤ 10 ^ F.maxFast.toNat := by
        rw [← zpow_natCast, Int.toNat_of_nonneg G.maxF.1]
        exact zpow_le_zpow_right₀ (by norm_num) hr.2
      have hmq : (m : ℚ) ≤ 2 ^ (F.mb + 1) := by exact_mod_cast hm
      apply mul_le_mul_of_nonneg_right _ (by positivity)
      exact mul_le_mul hmq hz (by positivity) (by positivity)
    have := hn.le_of_ge h1
    omega
  by_cases hm : (!c.constEval && roundsToNearest c) = true
  · rw [if_pos hm]
    rw [Bool.and_eq_true] at hm
    have hmode := roundsToNearest_mode c hm.2
    have hev : c.evalMethod.is01 = true := by
      have := hm.2
      rw [roundsToNearest_eq, Bool.and_eq_true] at this
      exact this.1
    by_cases hmm : m ≤ maxMantissaFastPath F
    swap
    · rw [if_neg hmm]; exact ⟨none, rfl, by intro v h; cases h⟩
    rw [if_pos hmm]
    have hmm' : m ≤ 2 ^ (F.mb + 1) := by unfold maxMantissaFastPath at hmm; rw [pow_succ]; omega
    obtain ⟨v, hv1, hv2, hv3⟩ := fpOfNat_exact (F := F) c.mode m m 0 hmm' (by simp)
      (lt_of_le_of_lt (Nat.mul_le_mul_right _ hmm') G.mant)
    rw [hv1]
    simp only [bind, Except.bind, pure, Except.pure]
    by_cases he : e < 0
    · rw [if_pos he]
      obtain ⟨k, hk⟩ : ∃ k : Nat, e = -(k : Int) := ⟨(-e).toNat, by omega⟩
      have hkn : (-e).toNat = k := by omega
      obtain ⟨t, ht1, ht2⟩ := exactPowerOfTen_spec G k (by have := G.minF.2; omega)
      rw [hkn, ht1]
      refine ⟨_, rfl, ?_⟩
      intro w hw
      obtain ⟨n, hRN, hd⟩ := fpDiv_eval c G hv3 ht2 hmm' (by omega) hev hmode
      rw [← scaled_neg, ← hk] at hRN
      refine ⟨n, hRN, ?_, nz _ hRN, fin _ hmm' hRN⟩
      rw [hd] at hw
      have := (Option.some.inj hw).symm
      rw [this]
      cases neg <;> simp [fpNeg]
    · rw [if_neg he]
      obtain ⟨k, hk⟩ := Int.eq_ofNat_of_zero_le (show 0 ≤ e by omega)
      have hkn : e.toNat = k := by omega
      obtain ⟨t, ht1, ht2⟩ := exactPowerOfTen_spec G k (by have := G.maxF; omega)
      rw [hkn, ht1]
      refine ⟨_, rfl, ?_⟩
      intro w hw
      have hRN : RN F.mb (scaled F m e) (fpRoundIdx F.mb (fpVal F.mb v * fpVal F.mb t) (2 ^ ulpExp F)) := by
        have := RN_fpRoundIdx G.mb1 (fpVal F.mb v * fpVal F.mb t) (2 ^ ulpExp F) (by positivity)
        rw [hk, scaled_nat]
        convert this using 1
        rw [hv3, ht2]; push_cast
        field_simp
      refine ⟨_, hRN, ?_, nz _ hRN, fin _ hmm' hRN⟩
      have hd : fpMul c F v t = min (fpRoundIdx F.mb (fpVal F.mb v * fpVal F.mb t) (2 ^ ulpExp F)) (infIdx F) := by
        rw [fpMul_eval c G hv3 ht2 hmm' (by omega) (Or.inr hev), hmode, fpRound_nearest]
      rw [hd] at hw
      have := (Option.some.inj hw).symm
      rw [this]
      cases neg <;> simp [fpNeg]
  · rw [if_neg hm]
    by_cases he : e ≥ 0
    swap
    · rw [if_neg he]; exact ⟨none, rfl, by intro v h; cases h⟩
    rw [if_pos he]
    obtain ⟨k, hk⟩ := Int.eq_ofNat_of_zero_le (show 0 ≤ e by omega)
    have hkn : e.toNat = k := by omega
    obtain ⟨mm, tm1, tm2, tm3⟩ := G.table k (by have := G.maxF; omega)
    have htab : maxMantissaFastPathAt F k = .ok mm := by unfold maxMantissaFastPathAt tableGet; rw [tm1]
    simp only [bind, Except.bind, pure, Except.pure, hkn, htab]
    by_cases hmm : m ≤ mm
    swap
    · rw [if_neg hmm]; exact ⟨none, rfl, by intro v h; cases h⟩
    rw [if_pos hmm]
    have hm5 : m * 5 ^ k ≤ 2 ^ (F.mb + 1) := le_trans (Nat.mul_le_mul_right _ hmm) tm2
    have hmm' : m ≤ 2 ^ (F.mb + 1) := le_trans (Nat.le_mul_of_pos_right _ (by positivity)) hm5
    have e1 : scaled F m e = ((m * 10 ^ k * 2 ^ ulpExp F : Nat) : ℚ) := by rw [hk]; exact scaled_nat F m k
    by_cases hz : ((c.clang || c.sys32) && m == 0) = true
    · rw [if_pos hz]
      refine ⟨_, rfl, ?_⟩
      intro w hw
      have hm0 : m = 0 := by simp at hz; exact hz.2
      have hRN : RN F.mb (scaled F m e) 0 := by
        rw [e1, hm0]; have := RN_exact F.mb 0; simpa using this
      refine ⟨0, hRN, ?_, nz _ hRN, fin _ hmm' hRN⟩
      have := (Option.some.inj hw).symm
      rw [this]
      cases neg <;> simp [fpNeg]
    · rw [if_neg hz]
      obtain ⟨t, ht1, ht2⟩ := exactPowerOfTen_spec G k (by have := G.maxF; omega)
      rw [ht1]
      obtain ⟨v, hv1, hv2, hv3⟩ := fpOfNat_exact (F := F) c.mode m m 0 hmm' (by simp)
        (lt_of_le_of_lt (Nat.mul_le_mul_right _ hmm') G.mant)
      rw [hv1]
      refine ⟨_, rfl, ?_⟩
      intro w hw
      obtain ⟨n, hn⟩ := exact_idx F.mb (k + ulpExp F) (m * 5 ^ k) hm5
      have hval : fpVal F.mb n = m * 10 ^ k * 2 ^ ulpExp F := by
        rw [hn, pow_add, show (10 : Nat) = 5 * 2 by norm_num, Nat.mul_pow]; ring
      have hlt : n < infIdx F := by
        apply idx_lt_inf
        rw [hval]
        exact lt_of_le_of_lt (Nat.mul_le_mul_right _ (Nat.mul_le_mul_right _ hmm)) tm3
      have hRN : RN F.mb (scaled F m e) n := by rw [e1, ← hval]; exact RN_exact F.mb n
      refine ⟨n, hRN, ?_, nz _ hRN, fin _ hmm' hRN⟩
      have hd : fpMul c F v t = n := by
        rw [fpMul_eval c G hv3 ht2 hmm' (by omega) (Or.inl hm5)]
        have : fpVal F.mb v * fpVal F.mb t = fpVal F.mb n * 2 ^ ulpExp F := by
          rw [hv3, ht2, hval]; ring
        rw [this, fpRound_exact F c.mode n _ hub hlt]
      rw [hd] at hw
      have := (Option.some.inj hw).symm
      rw [this, Nat.min_eq_left hlt.le]
      cases neg <;> simp [fpNeg]

end FastFloat
