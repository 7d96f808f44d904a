import Verif.Proofs.ErrorSpec
/-
# The numeric part of `digit_comp`
-/
namespace FastFloat

/-- Facts about a format needed by the slow path. -/
structure GoodSlow (F : BinFmt) : Prop where
  md1 : 20 ≤ F.maxDigits
  md2 : F.maxDigits ≤ 1000
  over : F.maxPow10 + 1 ≤ F.maxDigits
  sticky : 2 ^ (F.mb + 1) * 5 ^ ulpExp F ≤ 10 ^ (F.maxDigits - 1)
  capA : 2 ^ (F.mb + 2) * 5 ^ (F.maxDigits - 18 - F.minPow10).toNat * 2 ^ ((F.maxDigits - 18 - F.minPow10).toNat - ulpExp F) < 2 ^ 3200
  capB : 2 ^ (F.mb + 5) * 5 ^ (F.maxDigits - 18 - F.minPow10).toNat < 2 ^ 3200
  capC : 4 * 10 ^ (F.maxDigits + 1) < 2 ^ 3200
  ulp1 : ulpExp F ≤ 1100

theorem slow64 : GoodSlow binary64 := by constructor <;> decide +kernel
theorem slow32 : GoodSlow binary32 := by constructor <;> decide +kernel
theorem slow16 : GoodSlow binary16 := by constructor <;> decide +kernel
theorem slowB16 : GoodSlow bfloat16 := by constructor <;> decide +kernel

/-- What `parse_mantissa` delivers: `D` and the digit count `d` such that, with `e = (sci+1) - d`, `D·10^e` is the exact value, or
(more than `md` significant digits) `D` is the first `md` digits followed by a sticky digit `1`. -/
def MantOK (md : Nat) (x : ℚ) (D d : Nat) (e : Int) : Prop :=
  (d ≤ md ∧ (D : ℚ) * 10 ^ e = x) ∨
  (d = md + 1 ∧ ∃ D0 : Nat, 1 ≤ D0 ∧ D = 10 * D0 + 1 ∧ (D0 : ℚ) * 10 ^ (e + 1) < x ∧ x < (D0 + 1 : ℚ) * 10 ^ (e + 1))

/-- Rounding a 64-bit significand with a sticky flag. -/
theorem RNInt_sticky {Z : ℚ} {m s : Nat} {tr : Bool} (hs : 1 ≤ s) (h1 : (m : ℚ) ≤ Z) (h2 : Z < m + 1)
    (htr : tr = true ↔ (m : ℚ) < Z) :
    RNInt (Z / 2 ^ s) (m / 2 ^ s +
      (if (decide (m % 2 ^ s > 2 ^ (s - 1)) || (decide (m % 2 ^ s = 2 ^ (s - 1)) && tr) ||
        (decide (m / 2 ^ s % 2 = 1) && decide (m % 2 ^ s = 2 ^ (s - 1)))) = true then 1 else 0)) := by
  obtain ⟨t, rfl⟩ : ∃ t, s = t + 1 := ⟨s - 1, by omega⟩
  simp only [Nat.add_sub_cancel]
  have hA := Nat.two_pow_pos t
  have hA2 : 2 ^ (t + 1) = 2 * 2 ^ t := by ring
  obtain ⟨A, hAe⟩ : ∃ A, 2 ^ t = A := ⟨_, rfl⟩
  rw [hAe] at hA hA2 ⊢
  have hAQ : (2 : ℚ) ^ (t + 1) = 2 * (A : ℚ) := by rw [← hAe]; push_cast; ring
  rw [hAQ, hA2]
  have hdm := Nat.div_add_mod m (2 * A)
  have hlt := Nat.mod_lt m (show 0 < 2 * A by omega)
  obtain ⟨B, hB⟩ : ∃ B, m / (2 * A) = B := ⟨_, rfl⟩
  obtain ⟨r, hr⟩ : ∃ r, m % (2 * A) = r := ⟨_, rfl⟩
  rw [hB, hr] at hdm ⊢
  rw [hr] at hlt
  have hAq : (0 : ℚ) < A := by exact_mod_cast hA
  have hm : (m : ℚ) = 2 * A * B + r := by exact_mod_cast hdm.symm
  -- y = B + (r + δ)/(2A)
  obtain ⟨y, hy⟩ : ∃ y, y = Z / (2 * A) := ⟨_, rfl⟩
  have hZ : Z = y * (2 * A) := by rw [hy]; field_simp
  rw [← hy]
  have hrq : (r : ℚ) + 1 ≤ 2 * A := by exact_mod_cast hlt
  have hr0 : (0 : ℚ) ≤ r := by positivity
  have hylo : (B : ℚ) ≤ y := by
    have : (B : ℚ) * (2 * A) ≤ y * (2 * A) := by rw [← hZ]; linarith
    exact le_of_mul_le_mul_right this (by linarith)
  have hyhi : y < B + 1 := by
    have : y * (2 * A) < (B + 1 : ℚ) * (2 * A) := by rw [← hZ]; linarith
    exact lt_of_mul_lt_mul_right this (by linarith)
  have cmp_gt : (2 * B + 1 : ℚ) < 2 * y ↔ (2 * A * B + A : ℚ) < Z := by
    rw [hZ]
    constructor <;> intro h
    · have := mul_lt_mul_of_pos_right h hAq; linarith
    · have : (2 * B + 1 : ℚ) * A < 2 * y * A := by linarith
      exact lt_of_mul_lt_mul_right this hAq.le
  have cmp_lt : 2 * y < (2 * B + 1 : ℚ) ↔ Z < (2 * A * B + A : ℚ) := by
    rw [hZ]
    constructor <;> intro h
    · have := mul_lt_mul_of_pos_right h hAq; linarith
    · have : 2 * y * A < (2 * B + 1 : ℚ) * A := by linarith
      exact lt_of_mul_lt_mul_right this hAq.le
  rcases lt_trichotomy r A with hlt' | heq | hgt
  · -- below half
    have e1 : decide (r > A) = false := by simp; omega
    have e2 : decide (r = A) = false := by simp; omega
    rw [e1, e2]
    simp only [Bool.false_and, Bool.and_false, Bool.or_self, Bool.false_eq_true, if_false, Nat.add_zero]
    have : Z < (2 * A * B + A : ℚ) := by
      have : (r : ℚ) + 1 ≤ A := by exact_mod_cast hlt'
      linarith
    have h3 := cmp_lt.2 this
    exact ⟨by linarith, by linarith, fun _ => ⟨by linarith, by linarith⟩⟩
  · subst heq
    have e1 : decide (r > r) = false := by simp
    have e2 : decide (r = r) = true := by simp
    rw [e1, e2]
    cases tr with
    | true =>
      simp only [Bool.and_true, Bool.false_or, Bool.true_or, if_true]
      have h3 := cmp_gt.2 (by have := htr.1 rfl; linarith)
      refine ⟨by push_cast; linarith, by push_cast; linarith, fun _ => ⟨by push_cast; linarith, by push_cast; linarith⟩⟩
    | false =>
      have hZm : Z = m := by
        rcases lt_or_eq_of_le h1 with h | h
        · exact absurd (htr.2 h) (by simp)
        · exact h.symm
      have hy' : 2 * y = 2 * B + 1 := by
        apply le_antisymm
        · by_contra hc; push Not at hc; have := cmp_gt.1 hc; linarith
        · by_contra hc; push Not at hc; have := cmp_lt.1 hc; linarith
      by_cases ho : B % 2 = 1
      · have : (B + 1) % 2 = 0 := by omega
        simp only [ho, decide_true, Bool.and_true, Bool.or_true, if_true]
        refine ⟨by push_cast; linarith, by push_cast; linarith, fun h => by omega⟩
      · simp only [ho, decide_false, Bool.false_and, Bool.and_false, Bool.or_self, Bool.false_eq_true, if_false, Nat.add_zero]
        exact ⟨by linarith, by linarith, fun h => by omega⟩
  · have e1 : decide (r > A) = true := by simp; omega
    rw [e1]
    simp only [Bool.true_or, if_true]
    have h3 := cmp_gt.2 (by
      have : (A : ℚ) + 1 ≤ r := by exact_mod_cast hgt
      linarith)
    refine ⟨by push_cast; linarith, by push_cast; linarith, fun _ => ⟨by push_cast; linarith, by push_cast; linarith⟩⟩

/-- `positive_digit_comp`: an exact big integer is rounded correctly. -/
theorem positiveDigitComp_spec (c : Cfg) {F : BinFmt} (G : GoodFmt F) (big : Limbs) (k : Nat) (hv : LimbsOK (limbBits c) big)
    (hn : Norm (limbBits c) big) (hpos : 0 < bval (limbBits c) big) (hb : bval (limbBits c) big * 10 ^ k < 2 ^ 3200) :
    ∃ am n, positiveDigitComp c F big k = .ok am ∧ RN F.mb ((bval (limbBits c) big * 10 ^ k : Nat) * 2 ^ ulpExp F) n ∧
      AmRep F am (min n (infIdx F)) := by
  have hmb := G.mb52
  have hmb1 := G.mb1
  obtain ⟨r, hr, r1, r2, r3⟩ := bigPow10_spec c big k hv hn hpos hb
  obtain ⟨V, hV⟩ : ∃ V, bval (limbBits c) big * 10 ^ k = V := ⟨_, rfl⟩
  rw [hV] at r1 hb ⊢
  have hV0 : 0 < V := by rw [← hV]; positivity
  obtain ⟨m, tr, L, e1, e2, T⟩ := hi64_spec c r r2 r3 (by rw [r1]; exact hV0)
  rw [r1] at T
  unfold positiveDigitComp
  simp only [bind, Except.bind, hr, e1, e2]
  have hL : 1 ≤ L := by
    by_contra hc
    have : L = 0 := by omega
    have := T.lt
    have := T.hi
    subst L
    simp at *
    have : 2 ^ 64 ≤ V * 2 ^ 64 := Nat.le_mul_of_pos_left _ hV0
    omega
  obtain ⟨te, hte⟩ : ∃ te : Int, (L : Int) - 64 + ((F.mb : Int) - F.minExp) = te := ⟨_, rfl⟩
  rw [hte]
  have hulp := G.ulp
  have hmbulp := G.mbulp
  have hs : rShift F te = 63 - F.mb := by unfold rShift; rw [if_neg (by omega)]; omega
  have hJ : (rJ F te : Int) = L + ulpExp F - F.mb - 1 := by unfold rJ; omega
  obtain ⟨b1, b2, b3, b4⟩ := rShift_bounds G (te := te) T.lo T.hi
  have hB4 := b4 (by omega)
  have hrnd := roundNearestTieEven_eq (F := F) hmb (fun isOdd isHalfway isAbove =>
    isAbove || (isHalfway && tr) || (isOdd && isHalfway)) { mantissa := m, power2 := te } T.hi (rShift F te) rfl
  obtain ⟨rr, hrr⟩ : ∃ rr, m / 2 ^ rShift F te +
      (if (decide (m % 2 ^ rShift F te > 2 ^ (rShift F te - 1)) || (decide (m % 2 ^ rShift F te = 2 ^ (rShift F te - 1)) && tr) ||
        (decide (m / 2 ^ rShift F te % 2 = 1) && decide (m % 2 ^ rShift F te = 2 ^ (rShift F te - 1)))) = true then 1 else 0) = rr := ⟨_, rfl⟩
  simp only at hrnd
  rw [hrr] at hrnd
  have hrr2 : m / 2 ^ rShift F te ≤ rr ∧ rr ≤ m / 2 ^ rShift F te + 1 := by
    rw [← hrr]; split <;> omega
  obtain ⟨am', ha, hrep⟩ := roundAm_spec G (am := { mantissa := m, power2 := te }) (r := rr) hrnd
    (fun h => absurd h (by simp only; omega)) (fun _ => ⟨by omega, by omega⟩)
  refine ⟨am', _, ha, ?_, hrep⟩
  simp only at hrep ⊢
  obtain ⟨Z, hZ⟩ : ∃ Z : ℚ, Z = (V : ℚ) * 2 ^ 64 / 2 ^ L := ⟨_, rfl⟩
  have hLp : (0 : ℚ) < 2 ^ L := by positivity
  have z1 : (m : ℚ) ≤ Z := by rw [hZ, le_div_iff₀ hLp]; exact_mod_cast T.le
  have z2 : Z < m + 1 := by rw [hZ, div_lt_iff₀ hLp]; exact_mod_cast T.lt
  have z3 : tr = true ↔ (m : ℚ) < Z := by
    rw [T.tr_iff, hZ, lt_div_iff₀ hLp]
    constructor <;> intro h
    · exact_mod_cast h
    · exact_mod_cast h
  have key := RNInt_sticky (s := rShift F te) (by omega) z1 z2 z3
  rw [hrr] at key
  have hXJ : ((V : Nat) : ℚ) * 2 ^ ulpExp F = Z / 2 ^ rShift F te * 2 ^ rJ F te := by
    rw [hZ]
    have : (2 : ℚ) ^ ulpExp F * (2 ^ L * 2 ^ rShift F te) = 2 ^ 64 * 2 ^ rJ F te := by
      rw [← pow_add, ← pow_add, ← pow_add]; congr 1; omega
    rw [div_div, div_mul_eq_mul_div, eq_div_iff (by positivity)]
    linear_combination (V : ℚ) * this
  have hJp : (0 : ℚ) < 2 ^ rJ F te := by positivity
  have hs1 : (0 : ℚ) < 2 ^ rShift F te := by positivity
  have zlo : (2 : ℚ) ^ F.mb ≤ Z / 2 ^ rShift F te := by
    rw [le_div_iff₀ hs1, ← pow_add, show F.mb + rShift F te = 63 by omega]
    refine le_trans ?_ z1
    exact_mod_cast T.lo
  have zhi : Z / 2 ^ rShift F te < (2 : ℚ) ^ (F.mb + 1) := by
    rw [div_lt_iff₀ hs1, ← pow_add, show F.mb + 1 + rShift F te = 64 by omega]
    refine lt_of_lt_of_le z2 ?_
    have := T.hi
    exact_mod_cast this
  apply RN_of_scaled hmb1
  · right
    rw [hXJ, pow_add]
    exact mul_le_mul_of_nonneg_right zlo hJp.le
  · rw [hXJ, pow_add]
    exact mul_lt_mul_of_pos_right zhi hJp
  · rw [hXJ]; exact mul_nonneg (le_trans (pow_nonneg (by norm_num) _) zlo) hJp.le
  · rw [hXJ, mul_div_assoc, div_self hJp.ne', mul_one]; exact key

/-- `to_extended_halfway` of the float just below. -/
theorem toExtendedHalfway_eq {F : BinFmt} (G : GoodFmt F) {J B : Nat} (h1 : J = 0 ∨ 2 ^ F.mb ≤ B) (h2 : B < 2 ^ (F.mb + 1))
    (h3 : J * 2 ^ F.mb + B < infIdx F) :
    toExtendedHalfway F (J * 2 ^ F.mb + B) = { mantissa := 2 * B + 1, power2 := (J : Int) - ulpExp F - 1 } := by
  have hmb := G.mb52
  have hp := Nat.two_pow_pos F.mb
  have hulp := G.ulp
  have hinf := G.infPow1
  have hB : B < 2 ^ 53 := lt_of_lt_of_le h2 (Nat.pow_le_pow_right (by norm_num) (by omega))
  have hm : (B * 2 % 2 ^ 64 + 1) % 2 ^ 64 = 2 * B + 1 := by omega
  rw [pow_succ] at h2
  unfold infIdx at h3
  unfold toExtendedHalfway toExtended
  rcases Nat.lt_or_ge B (2 ^ F.mb) with h | h
  · have hJ : J = 0 := by omega
    subst hJ
    simp only [Nat.zero_mul, Nat.zero_add, Nat.div_eq_of_lt h, Nat.mod_eq_of_lt h, Nat.zero_mod, if_true, hm]
    congr 1
    push_cast; omega
  · obtain ⟨r, hr⟩ := Nat.exists_eq_add_of_le h
    have hr2 : r < 2 ^ F.mb := by omega
    have e : J * 2 ^ F.mb + B = r + (J + 1) * 2 ^ F.mb := by rw [hr]; ring
    have hJ : J + 1 < F.infPow := by
      rw [e] at h3
      by_contra hc
      have := Nat.mul_le_mul_right (2 ^ F.mb) (show F.infPow ≤ J + 1 by omega)
      omega
    rw [e, Nat.add_mul_div_right _ _ hp, Nat.div_eq_of_lt hr2, Nat.zero_add, Nat.add_mul_mod_self_right, Nat.mod_eq_of_lt hr2,
      Nat.mod_eq_of_lt (by omega), if_neg (by omega)]
    simp only
    have e2 : r + 2 ^ F.mb = B := by omega
    rw [e2, hm]
    congr 1
    push_cast; omega

/-- The two big integers compared by `negative_digit_comp`, with `k = -exponent`. -/
theorem negCompare_spec (c : Cfg) (big : Limbs) (B J u k : Nat) (hv : LimbsOK (limbBits c) big) (hn : Norm (limbBits c) big)
    (hpos : 0 < bval (limbBits c) big) (hB : 2 * B + 1 < 2 ^ 64)
    (hcapT : ∀ n : Nat, n + u + 1 = J + k → (2 * B + 1) * 5 ^ k * 2 ^ n < 2 ^ 3200) (hcapT' : (2 * B + 1) * 5 ^ k < 2 ^ 3200)
    (hcapR : ∀ n : Nat, J + k + n = u + 1 → bval (limbBits c) big * 2 ^ n < 2 ^ 3200) :
    ∃ t0 t r : Limbs, ∃ f : Nat, 0 < f ∧ bigPow5 c (bigOfU64 c (2 * B + 1)) k = .ok t0 ∧
      (if (J : Int) - u - 1 + k > 0 then bigShl c t0 ((J : Int) - u - 1 + k).toNat else .ok t0) = .ok t ∧
      (if (J : Int) - u - 1 + k < 0 then bigShl c big (-((J : Int) - u - 1 + k)).toNat else .ok big) = .ok r ∧
      LimbsOK (limbBits c) t ∧ LimbsOK (limbBits c) r ∧ Norm (limbBits c) t ∧ Norm (limbBits c) r ∧
      bval (limbBits c) r = bval (limbBits c) big * f ∧
      bval (limbBits c) t * 2 ^ (u + 1) = (2 * B + 1) * 2 ^ J * 10 ^ k * f := by
  obtain ⟨o1, o2, o3⟩ := bigOfU64_spec c (2 * B + 1) hB
  obtain ⟨t0, ht0, a1, a2, a3⟩ := bigPow5_spec c (bigOfU64 c (2 * B + 1)) k o2 o3 (by rw [o1]; exact hcapT')
  rw [o1] at a1
  have hp0 : 0 < bval (limbBits c) t0 := by
    rw [a1]; exact Nat.mul_pos (Nat.succ_pos _) (Nat.pow_pos (by norm_num))
  have e10 : (10 : Nat) ^ k = 5 ^ k * 2 ^ k := by rw [← Nat.mul_pow]
  rcases lt_trichotomy ((J : Int) - u - 1 + k) 0 with h | h | h
  · obtain ⟨n, hn'⟩ : ∃ n : Nat, (J : Int) - u - 1 + k = -(n : Int) := ⟨(-((J : Int) - u - 1 + k)).toNat, by omega⟩
    rw [hn'] at h ⊢
    obtain ⟨r, hr, b1, b2, b3⟩ := bigShl_spec c big n hv hn hpos (hcapR n (by omega))
    refine ⟨t0, t0, r, 2 ^ n, Nat.two_pow_pos n, ht0, if_neg (by omega), ?_, a2, b2, a3, b3, b1, ?_⟩
    · rw [if_pos h]
      simp only [neg_neg, Int.toNat_natCast, hr]
    · rw [a1, e10, show u + 1 = J + k + n by omega, pow_add, pow_add]; ring
  · refine ⟨t0, t0, big, 1, by norm_num, ht0, if_neg (by omega), if_neg (by omega), a2, hv, a3, hn, by simp, ?_⟩
    rw [a1, e10, show u + 1 = J + k by omega, pow_add]; ring
  · obtain ⟨n, hn'⟩ : ∃ n : Nat, (J : Int) - u - 1 + k = (n : Int) := ⟨((J : Int) - u - 1 + k).toNat, by omega⟩
    rw [hn'] at h ⊢
    obtain ⟨t, ht, b1, b2, b3⟩ := bigShl_spec c t0 n a2 a3 hp0 (by rw [a1]; exact hcapT n (by omega))
    refine ⟨t0, t, big, 1, by norm_num, ht0, ?_, if_neg (by omega), b2, hv, b3, hn, by simp, ?_⟩
    · rw [if_pos h, Int.toNat_natCast, ht]
    · have : 2 ^ n * 2 ^ (u + 1) = 2 ^ J * 2 ^ k := by rw [← pow_add, ← pow_add]; congr 1; omega
      rw [b1, a1, e10]
      calc (2 * B + 1) * 5 ^ k * 2 ^ n * 2 ^ (u + 1) = (2 * B + 1) * 5 ^ k * (2 ^ n * 2 ^ (u + 1)) := by ring
        _ = _ := by rw [this]; ring

/-- Deciding between the two neighbours. -/
theorem RN_between {mb J B : Nat} (hmb : 1 ≤ mb) {X : ℚ} (h1 : J = 0 ∨ 2 ^ mb ≤ B) (h2 : B < 2 ^ (mb + 1))
    (hlo : (B : ℚ) * 2 ^ J ≤ X) (hhi : 2 * X < (2 * B + 3) * 2 ^ J) (up : Bool)
    (hup : up = true → (2 * B + 1 : ℚ) * 2 ^ J ≤ 2 * X ∧ (B % 2 = 0 → (2 * B + 1 : ℚ) * 2 ^ J < 2 * X))
    (hdn : up = false → 2 * X ≤ (2 * B + 1 : ℚ) * 2 ^ J ∧ (B % 2 = 1 → 2 * X < (2 * B + 1 : ℚ) * 2 ^ J)) :
    RN mb X (J * 2 ^ mb + (B + (if up then 1 else 0))) := by
  have v0 : (fpVal mb (J * 2 ^ mb + B) : ℚ) = B * 2 ^ J := by rw [fpVal_lin mb J B h1 h2]; push_cast; ring
  have v1 : (fpVal mb (J * 2 ^ mb + B + 1) : ℚ) = (B + 1) * 2 ^ J := by rw [fpVal_succ mb J B h1 h2]; push_cast; ring
  have par : (J * 2 ^ mb + B) % 2 = B % 2 := by
    obtain ⟨k, rfl⟩ : ∃ k, mb = k + 1 := ⟨mb - 1, by omega⟩
    rw [pow_succ, ← Nat.mul_assoc]; omega
  have hp : (0 : ℚ) < 2 ^ J := by positivity
  cases up with
  | true =>
    obtain ⟨u1, u2⟩ := hup rfl
    simp only [if_true]
    rw [← Nat.add_assoc]
    constructor
    · intro k hk
      have : k = J * 2 ^ mb + B := by omega
      subst this
      rw [v0, v1]
      exact ⟨by linarith, fun ho => by have := u2 (by omega); linarith⟩
    · have v2 : ((B : ℚ) + 2) * 2 ^ J ≤ fpVal mb (J * 2 ^ mb + B + 1 + 1) := by
        obtain ⟨j, m, hjm, g1, g2⟩ := idx_pos mb (J * 2 ^ mb + B + 1)
        have e1 : (fpVal mb (J * 2 ^ mb + B + 1) : ℚ) = m * 2 ^ j := by
          rw [hjm, fpVal_lin mb j m g1 g2]; push_cast; ring
        have e2 : (fpVal mb (J * 2 ^ mb + B + 1 + 1) : ℚ) = (m + 1) * 2 ^ j := by
          rw [hjm, fpVal_succ mb j m g1 g2]; push_cast; ring
        have hj : J ≤ j := by
          by_contra hc
          have hJ1 : 1 ≤ J := by omega
          have hB : 2 ^ mb ≤ B := by omega
          have := Nat.mul_le_mul_right (2 ^ mb) (show j + 1 ≤ J by omega)
          rw [pow_succ] at g2
          have : (j + 1) * 2 ^ mb = j * 2 ^ mb + 2 ^ mb := by ring
          omega
        have : (2 : ℚ) ^ J ≤ 2 ^ j := pow_le_pow_right₀ (by norm_num) hj
        rw [e2]; rw [e1] at v1; linarith
      rw [v1]
      exact ⟨by linarith, fun _ => by linarith⟩
  | false =>
    obtain ⟨d1, d2⟩ := hdn rfl
    simp only [Bool.false_eq_true, if_false, Nat.add_zero]
    constructor
    · intro k hk
      have : (fpVal mb k : ℚ) < fpVal mb (J * 2 ^ mb + B) := by exact_mod_cast fpVal_strictMono (by omega)
      rw [v0] at this ⊢
      exact ⟨by linarith, fun _ => by linarith⟩
    · rw [v0, v1]
      exact ⟨by linarith, fun ho => by have := d2 (by omega); linarith⟩

end FastFloat
