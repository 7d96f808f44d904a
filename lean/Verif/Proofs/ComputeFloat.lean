import Verif.Proofs.Product
import Verif.Proofs.FpuRN
import Mathlib.Algebra.Order.Field.Power
/-
# `compute_float` rounds correctly
-/
namespace FastFloat

/-- The numeric facts about a format that the Eisel-Lemire part relies on. -/
structure GoodFmt (F : BinFmt) : Prop where
  mb1 : 1 ≤ F.mb
  mb52 : F.mb ≤ 52
  minRte1 : -24 ≤ F.minRte
  minRte2 : F.minRte ≤ 0
  maxRte1 : 0 ≤ F.maxRte
  maxRte2 : F.maxRte ≤ 27
  rteHi : 2 ^ (F.mb + 2) ≤ 5 ^ (F.maxRte.toNat + 1)
  rteLo : 2 ^ (63 - F.mb) ≤ 5 ^ ((-F.minRte).toNat + 1)
  minPow : -342 ≤ F.minPow10
  minPow0 : F.minPow10 ≤ 0
  maxPow0 : 0 ≤ F.maxPow10
  maxPow : F.maxPow10 ≤ 308
  minExp1 : -1023 ≤ F.minExp
  ulp : (ulpExp F : Int) = F.mb - 1 - F.minExp
  mbulp : F.mb ≤ ulpExp F
  under : 2 ^ 64 * 2 ^ (ulpExp F + 1) ≤ 10 ^ ((-F.minPow10).toNat + 1)
  over : fpVal F.mb (infIdx F) ≤ 10 ^ (F.maxPow10.toNat + 1) * 2 ^ ulpExp F
  infPow1 : 2 ≤ F.infPow
  infPow2 : F.infPow < 2 ^ 15
  signIdx : (F.infPow + 1) * 2 ^ F.mb = 2 ^ F.signIdx

theorem good64 : GoodFmt binary64 := by constructor <;> decide +kernel
theorem good32 : GoodFmt binary32 := by constructor <;> decide +kernel
theorem good16 : GoodFmt binary16 := by constructor <;> decide +kernel
theorem goodB16 : GoodFmt bfloat16 := by constructor <;> decide +kernel

/-- The value `w * 10^q` in units of the smallest subnormal. -/
def scaled (F : BinFmt) (w : Nat) (q : Int) : ℚ := (w : ℚ) * (10 : ℚ) ^ q * 2 ^ ulpExp F

theorem scaled_nonneg (F : BinFmt) (w : Nat) (q : Int) : 0 ≤ scaled F w q := by
  unfold scaled; positivity

theorem tExp_neg {q : Int} (h1 : -342 ≤ q) (h : q < 0) : tExp q ≤ 0 := by
  unfold tExp
  rw [Int.fdiv_eq_ediv_of_nonneg _ (by norm_num)]; omega

/-- The table approximates `5^q / 2^(tExp q) = tNum q / tDen q`. -/
theorem five_zpow {q : Int} (h1 : -342 ≤ q) : (5 : ℚ) ^ q = (tNum q : ℚ) / tDen q * (2 : ℚ) ^ tExp q := by
  unfold tNum tDen
  by_cases h : 0 ≤ q
  · rw [if_pos h, if_pos h]
    push_cast
    obtain ⟨k, hk⟩ := Int.eq_ofNat_of_zero_le h
    rw [hk]
    simp only [Int.toNat_natCast, zpow_natCast]
    rw [← hk]
    rcases le_or_gt 0 (tExp q) with he | he
    · obtain ⟨e, he'⟩ := Int.eq_ofNat_of_zero_le he
      rw [he']
      have : (-(e : Int)).toNat = 0 := by omega
      simp [this]
    · obtain ⟨e, he'⟩ : ∃ e : Nat, tExp q = -(e : Int) := ⟨(-tExp q).toNat, by omega⟩
      rw [he']
      have : (-(e : Int)).toNat = 0 := by omega
      simp
  · rw [if_neg h, if_neg h]
    have ht := tExp_neg h1 (by omega)
    obtain ⟨e, he'⟩ : ∃ e : Nat, tExp q = -(e : Int) := ⟨(-tExp q).toNat, by omega⟩
    obtain ⟨k, hk⟩ : ∃ k : Nat, q = -(k : Int) := ⟨(-q).toNat, by omega⟩
    rw [he', hk]
    push_cast
    simp only [neg_neg, Int.toNat_natCast, zpow_neg, zpow_natCast]
    field_simp

/-- `n` is the index (bit pattern without sign) that `to_float` produces from `am`. -/
def AmRep (F : BinFmt) (am : AdjustedMantissa) (n : Nat) : Prop :=
  n ≤ infIdx F ∧ ((am.power2 = (n / 2 ^ F.mb : Nat) ∧ am.mantissa = n % 2 ^ F.mb) ∨
    (n = 2 ^ F.mb ∧ am.power2 = 1 ∧ am.mantissa = 2 ^ F.mb))

theorem AmRep.unique {F : BinFmt} {am : AdjustedMantissa} {n m : Nat} (h1 : AmRep F am n) (h2 : AmRep F am m) : n = m := by
  have hp := Nat.two_pow_pos F.mb
  obtain ⟨_, h1⟩ := h1
  obtain ⟨_, h2⟩ := h2
  have hn := Nat.div_add_mod n (2 ^ F.mb)
  have hm := Nat.div_add_mod m (2 ^ F.mb)
  have hnl := Nat.mod_lt n hp
  have hml := Nat.mod_lt m hp
  rcases h1 with ⟨a, b⟩ | ⟨a, b, c'⟩ <;> rcases h2 with ⟨a', b'⟩ | ⟨a'', b'', c''⟩
  · have : n / 2 ^ F.mb = m / 2 ^ F.mb := by omega
    rw [← hn, ← hm, this, ← b, ← b']
  · omega
  · omega
  · omega

theorem or_of_parts (a b k : Nat) (h : b < 2 ^ k) : b ||| a * 2 ^ k = a * 2 ^ k + b := by
  rw [Nat.or_comm, ← Nat.shiftLeft_eq, Nat.shiftLeft_add_eq_or_of_lt h]

theorem toFloat_eq {F : BinFmt} (G : GoodFmt F) {am : AdjustedMantissa} {n : Nat} (h : AmRep F am n) (neg : Bool) :
    toFloat F neg am = n + (if neg then 2 ^ F.signIdx else 0) := by
  have hp := Nat.two_pow_pos F.mb
  have hs := G.signIdx
  obtain ⟨hn, h⟩ := h
  have hnlt : n < 2 ^ F.signIdx := by
    unfold infIdx at hn
    have : (F.infPow + 1) * 2 ^ F.mb = F.infPow * 2 ^ F.mb + 2 ^ F.mb := by ring
    omega
  have hmbs : 2 ^ F.mb ≤ 2 ^ F.signIdx := by
    rw [← hs]; exact Nat.le_mul_of_pos_left _ (by omega)
  have hp2 : 0 ≤ am.power2 ∧ am.power2 ≤ F.infPow := by
    rcases h with ⟨a, _⟩ | ⟨_, a, _⟩
    · refine ⟨by rw [a]; exact Int.natCast_nonneg _, ?_⟩
      have : n / 2 ^ F.mb ≤ F.infPow := by
        calc n / 2 ^ F.mb ≤ infIdx F / 2 ^ F.mb := Nat.div_le_div_right hn
          _ = F.infPow := by unfold infIdx; rw [Nat.mul_div_cancel _ hp]
      omega
    · have := G.infPow1; omega
  have hinf : F.infPow < 2 ^ F.signIdx := by
    rw [← hs]
    calc F.infPow < F.infPow + 1 := Nat.lt_succ_self _
      _ ≤ _ := Nat.le_mul_of_pos_right _ hp
  have e1 : (am.power2 % ((2 ^ (F.signIdx + 1) : Nat) : Int)).toNat = am.power2.toNat := by
    rw [Int.emod_eq_of_lt hp2.1]
    have : ((2 ^ (F.signIdx + 1) : Nat) : Int) = 2 * (2 ^ F.signIdx : Nat) := by push_cast; ring
    omega
  have word : (am.mantissa % 2 ^ (F.signIdx + 1) ||| am.power2.toNat * 2 ^ F.mb) = n := by
    have h2 : 2 ^ (F.signIdx + 1) = 2 * 2 ^ F.signIdx := by ring
    rcases h with ⟨a, b⟩ | ⟨a, b, c⟩
    · have hm := Nat.mod_lt n hp
      rw [b, Nat.mod_eq_of_lt (by omega), a, Int.toNat_natCast, or_of_parts _ _ _ hm]
      exact Nat.div_add_mod' n _
    · rw [c, b, Nat.mod_eq_of_lt (by omega)]
      simp [a]
  unfold toFloat
  simp only
  rw [e1, word]
  have hlt2 : n < 2 ^ (F.signIdx + 1) := by rw [pow_succ]; omega
  rw [Nat.mod_eq_of_lt hlt2]
  cases neg
  · simp [Nat.mod_eq_of_lt hlt2]
  · simp only [if_true]
    rw [or_of_parts _ _ _ hnlt, Nat.mod_eq_of_lt (by rw [pow_succ]; omega)]
    ring

/-- Round-half-even of a truncated value: `y ∈ [M/2, (M+1)/2)`. -/
theorem RNInt_of_floor {Y : ℚ} {M : Nat} (h1 : (M : ℚ) ≤ Y) (h2 : Y < M + 1) (m' : Nat)
    (hm' : (M % 4 = 1 → ((Y = M ∧ m' = M - 1) ∨ (Y ≠ M ∧ m' = M))) ∧ (M % 4 ≠ 1 → m' = M)) :
    RNInt (Y / 2) ((m' + m' % 2) / 2) := by
  unfold RNInt
  obtain ⟨k, hk⟩ : ∃ k, M = 2 * k ∨ M = 2 * k + 1 := ⟨M / 2, by omega⟩
  rcases hk with hk | hk
  · have e : m' = 2 * k := by have := hm'.2 (by omega); omega
    have e2 : (m' + m' % 2) / 2 = k := by omega
    have hM : (M : ℚ) = 2 * k := by rw [hk]; push_cast; ring
    rw [e2]
    refine ⟨by linarith, by linarith, fun ho => ⟨by linarith, by linarith⟩⟩
  · have hM : (M : ℚ) = 2 * k + 1 := by rw [hk]; push_cast; ring
    by_cases h4 : M % 4 = 1
    · rcases hm'.1 h4 with ⟨a, b⟩ | ⟨a, b⟩
      · have e2 : (m' + m' % 2) / 2 = k := by omega
        rw [e2]
        refine ⟨by linarith, by linarith, fun ho => by omega⟩
      · have e2 : (m' + m' % 2) / 2 = k + 1 := by omega
        have hgt : (M : ℚ) < Y := lt_of_le_of_ne h1 (Ne.symm a)
        rw [e2]; push_cast
        refine ⟨by linarith, by linarith, fun ho => ⟨by linarith, by linarith⟩⟩
    · have e := hm'.2 h4
      have e2 : (m' + m' % 2) / 2 = k + 1 := by omega
      rw [e2]; push_cast
      refine ⟨by linarith, by linarith, fun ho => by omega⟩

/-- The final rounding of the normal branch. -/
theorem finish_spec {F : BinFmt} (G : GoodFmt F) {m' : Nat} {p2 : Int} (hp : 1 ≤ p2)
    (h1 : 2 ^ (F.mb + 1) ≤ m' + m' % 2) (h2 : m' < 2 ^ (F.mb + 2)) :
    AmRep F (computeFloatFinish F m' p2)
      (min ((p2 - 1).toNat * 2 ^ F.mb + (m' + m' % 2) / 2) (infIdx F)) := by
  have hb := Nat.two_pow_pos F.mb
  have hbig : 2 ^ (F.mb + 2) ≤ 2 ^ 54 := Nat.pow_le_pow_right (by norm_num) (by have := G.mb52; omega)
  have e1 : 2 ^ (F.mb + 1) = 2 * 2 ^ F.mb := by ring
  have e2 : 2 ^ (F.mb + 2) = 4 * 2 ^ F.mb := by ring
  obtain ⟨k, hk⟩ : ∃ k : Nat, p2 = k + 1 := ⟨(p2 - 1).toNat, by omega⟩
  subst hk
  have e3 : ((k : Int) + 1 - 1).toNat = k := by omega
  rw [e3]
  unfold computeFloatFinish
  have em : (m' + m' % 2) % 2 ^ 64 = m' + m' % 2 := Nat.mod_eq_of_lt (by omega)
  simp only [em]
  obtain ⟨r, hr⟩ : ∃ r, (m' + m' % 2) / 2 = r := ⟨_, rfl⟩
  simp only [hr]
  have r1 : 2 ^ F.mb ≤ r := by omega
  have r2 : r ≤ 2 * 2 ^ F.mb := by omega
  have key : ∀ (P : Nat) (mm : Nat), mm < 2 ^ F.mb → ∀ N, N = P * 2 ^ F.mb + mm →
      AmRep F (if (P : Int) ≥ F.infPow then { mantissa := 0, power2 := F.infPow } else { mantissa := mm, power2 := P })
        (min N (infIdx F)) := by
    intro P mm hmm N hN
    by_cases hP : (P : Int) ≥ F.infPow
    · rw [if_pos hP]
      have hge : infIdx F ≤ N := by
        unfold infIdx
        have := Nat.mul_le_mul_right (2 ^ F.mb) (show F.infPow ≤ P by omega)
        omega
      rw [Nat.min_eq_right hge]
      refine ⟨le_rfl, Or.inl ⟨?_, ?_⟩⟩
      · unfold infIdx; rw [Nat.mul_div_cancel _ hb]
      · unfold infIdx; rw [Nat.mul_mod_left]
    · rw [if_neg hP]
      have hlt : N < infIdx F := by
        unfold infIdx
        have := Nat.mul_le_mul_right (2 ^ F.mb) (show P + 1 ≤ F.infPow by omega)
        have e : (P + 1) * 2 ^ F.mb = P * 2 ^ F.mb + 2 ^ F.mb := by ring
        omega
      rw [Nat.min_eq_left hlt.le]
      refine ⟨hlt.le, Or.inl ⟨?_, ?_⟩⟩
      · rw [hN, Nat.add_comm, Nat.add_mul_div_right _ _ hb, Nat.div_eq_of_lt hmm, Nat.zero_add]
      · rw [hN, Nat.add_comm, Nat.add_mul_mod_self_right, Nat.mod_eq_of_lt hmm]
  by_cases hc : r ≥ 2 * 2 ^ F.mb
  · simp only [hc, decide_true, if_true]
    have e4 : 2 ^ F.mb / 2 ^ F.mb = 1 := Nat.div_self hb
    simp only [e4]
    have := key (k + 2) 0 hb (k * 2 ^ F.mb + r) (by have : (k + 2) * 2 ^ F.mb = k * 2 ^ F.mb + 2 * 2 ^ F.mb := by ring
                                                    omega)
    have e5 : ((k + 2 : Nat) : Int) = (k : Int) + 1 + 1 := by push_cast; ring
    rw [e5] at this
    simpa using this
  · simp only [hc, decide_false, Bool.false_eq_true, if_false]
    have e4 : r / 2 ^ F.mb = 1 := by
      apply Nat.div_eq_of_lt_le <;> omega
    simp only [e4]
    have := key (k + 1) (r - 2 ^ F.mb) (by omega) (k * 2 ^ F.mb + r)
      (by have : (k + 1) * 2 ^ F.mb = k * 2 ^ F.mb + 2 ^ F.mb := by ring
          omega)
    have e5 : ((k + 1 : Nat) : Int) = (k : Int) + 1 := by push_cast; ring
    rw [e5] at this
    simpa using this

/-- Outcome of rounding `X` (in units of the smallest subnormal): correctly rounded index, or the one known deviation,
a tie between subnormals that is rounded up although the even neighbour is below. -/
def Rounded (F : BinFmt) (X : ℚ) (n : Nat) : Prop :=
  RN F.mb X n ∨ (∃ k : Nat, k % 2 = 0 ∧ k < 2 ^ F.mb ∧ 2 * X = 2 * (k : ℚ) + 1 ∧ n = k + 1)

/-- On a tie between subnormals (or the largest subnormal and the smallest normal) the result is the upper neighbour. -/
def TieUp (F : BinFmt) (X : ℚ) (n : Nat) : Prop := ∀ k : Nat, k < 2 ^ F.mb → 2 * X = 2 * (k : ℚ) + 1 → n = k + 1

theorem TieUp.of_ge {F : BinFmt} {X : ℚ} {n : Nat} (h : (2 : ℚ) ^ F.mb ≤ X) : TieUp F X n := by
  intro k hk he
  exfalso
  have : (k : ℚ) + 1 ≤ 2 ^ F.mb := by exact_mod_cast hk
  linarith

theorem subnormal_spec {F : BinFmt} (G : GoodFmt F) {Y X : ℚ} {M : Nat} {p2 : Int} (hp : p2 ≤ 0)
    (h1 : (M : ℚ) ≤ Y) (h2 : Y < M + 1) (hM2 : M < 2 ^ (F.mb + 2)) (hX : X = Y * (2 : ℚ) ^ (p2 - 2)) :
    ∃ am n, computeFloatSubnormal F M p2 = .ok am ∧ AmRep F am n ∧ Rounded F X n ∧ TieUp F X n := by
  have hb := Nat.two_pow_pos F.mb
  have hY0 : 0 ≤ Y := le_trans (by positivity) h1
  obtain ⟨k, hk⟩ : ∃ k : Nat, p2 = -(k : Int) := ⟨(-p2).toNat, by omega⟩
  subst hk
  have hX2 : X = Y / 2 ^ (k + 2) := by
    rw [hX, show (-(k : Int) - 2) = -((k + 2 : Nat) : Int) by push_cast; ring, zpow_neg, zpow_natCast]
    rfl
  have hX0 : 0 ≤ X := by rw [hX2]; positivity
  have hYlt : Y < 2 ^ (F.mb + 2) := by
    have : (M : ℚ) + 1 ≤ 2 ^ (F.mb + 2) := by exact_mod_cast hM2
    linarith
  have h0inf : (0 : Nat) ≤ infIdx F := Nat.zero_le _
  unfold computeFloatSubnormal
  by_cases h64 : - -(k : Int) + 1 ≥ 64
  · rw [if_pos h64]
    have hX1 : X < 1 / 2 := by
      have a : (2 : ℚ) ^ (F.mb + 2) ≤ 2 ^ 54 := pow_le_pow_right₀ (by norm_num) (by have := G.mb52; omega)
      have b : (2 : ℚ) ^ 55 ≤ 2 ^ (k + 2) := pow_le_pow_right₀ (by norm_num) (by omega)
      rw [hX2, div_lt_iff₀ (by positivity)]
      have : (2 : ℚ) ^ 55 = 2 * 2 ^ 54 := by ring
      linarith
    refine ⟨_, 0, rfl, ⟨h0inf, Or.inl ⟨by simp, by simp⟩⟩, Or.inl ⟨by intro j hj; omega, ?_⟩, ?_⟩
    swap
    · intro j _ he
      have : (0 : ℚ) ≤ j := by positivity
      linarith
    have hv : fpVal F.mb (0 + 1) = 1 := by
      have := fpVal_lin F.mb 0 1 (Or.inl rfl) (by
        calc 1 < 2 ^ 1 := by norm_num
          _ ≤ 2 ^ (F.mb + 1) := Nat.pow_le_pow_right (by norm_num) (by omega))
      simpa using this
    rw [hv]; simp
    linarith
  · rw [if_neg h64]
    have hsh : (- -(k : Int) + 1).toNat = k + 1 := by omega
    rw [hsh]
    unfold shr64
    rw [if_pos (by omega)]
    simp only [bind, Except.bind, pure, Except.pure]
    obtain ⟨M', hM'⟩ : ∃ M', M / 2 ^ (k + 1) = M' := ⟨_, rfl⟩
    rw [hM']
    have hkp : 0 < 2 ^ (k + 1) := Nat.two_pow_pos _
    have hM'lt : M' < 2 ^ (F.mb + 1) := by
      rw [← hM', Nat.div_lt_iff_lt_mul hkp]
      calc M < 2 ^ (F.mb + 2) := hM2
        _ = 2 ^ (F.mb + 1) * 2 ^ 1 := by ring
        _ ≤ 2 ^ (F.mb + 1) * 2 ^ (k + 1) := Nat.mul_le_mul_left _ (Nat.pow_le_pow_right (by norm_num) (by omega))
    have hbig : 2 ^ (F.mb + 1) ≤ 2 ^ 53 := Nat.pow_le_pow_right (by norm_num) (by have := G.mb52; omega)
    have em : (M' + M' % 2) % 2 ^ 64 = M' + M' % 2 := Nat.mod_eq_of_lt (by omega)
    rw [em]
    -- floor of `2X`
    have hfl1 : (M' : ℚ) ≤ 2 * X := by
      have : M' * 2 ^ (k + 1) ≤ M := by rw [← hM']; exact Nat.div_mul_le_self _ _
      have : (M' : ℚ) * 2 ^ (k + 1) ≤ M := by exact_mod_cast this
      rw [hX2, show (2 : ℚ) ^ (k + 2) = 2 ^ (k + 1) * 2 by ring]
      rw [show 2 * (Y / (2 ^ (k + 1) * 2)) = Y / 2 ^ (k + 1) by field_simp, le_div_iff₀ (by positivity)]
      linarith
    have hfl2 : 2 * X < M' + 1 := by
      have : M + 1 ≤ (M' + 1) * 2 ^ (k + 1) := by
        rw [← hM']
        have := Nat.lt_div_mul_add hkp (a := M)
        have e : (M / 2 ^ (k + 1) + 1) * 2 ^ (k + 1) = M / 2 ^ (k + 1) * 2 ^ (k + 1) + 2 ^ (k + 1) := by ring
        omega
      have : (M : ℚ) + 1 ≤ (M' + 1) * 2 ^ (k + 1) := by exact_mod_cast this
      rw [hX2, show (2 : ℚ) ^ (k + 2) = 2 ^ (k + 1) * 2 by ring]
      rw [show 2 * (Y / (2 ^ (k + 1) * 2)) = Y / 2 ^ (k + 1) by field_simp, div_lt_iff₀ (by positivity)]
      linarith
    obtain ⟨r, hr⟩ : ∃ r, (M' + M' % 2) / 2 = r := ⟨_, rfl⟩
    rw [hr]
    have e1 : 2 ^ (F.mb + 1) = 2 * 2 ^ F.mb := by ring
    have hrle : r ≤ 2 ^ F.mb := by omega
    refine ⟨_, r, rfl, ⟨?_, ?_⟩, ?_, ?_⟩
    rotate_right
    · intro j _ he
      rw [he] at hfl1 hfl2
      have g1 : M' ≤ 2 * j + 1 := by exact_mod_cast hfl1
      have g2 : 2 * j + 1 < M' + 1 := by exact_mod_cast hfl2
      omega
    · unfold infIdx
      have : 1 * 2 ^ F.mb ≤ F.infPow * 2 ^ F.mb := Nat.mul_le_mul_right _ (by have := G.infPow1; omega)
      omega
    · by_cases hlt : r < 2 ^ F.mb
      · left
        simp only [if_pos hlt, Nat.div_eq_of_lt hlt, Nat.mod_eq_of_lt hlt]
        simp
      · right
        have : r = 2 ^ F.mb := by omega
        simp only [if_neg hlt]
        exact ⟨this, by simp, this⟩
    · -- rounding
      have hXlt : X < 2 ^ F.mb := by
        have h7 : (M' : ℚ) + 1 ≤ 2 ^ (F.mb + 1) := by exact_mod_cast hM'lt
        rw [pow_succ] at h7
        linarith
      by_cases htie : M' % 4 = 1 ∧ 2 * X = M'
      · right
        refine ⟨r - 1, by omega, by omega, ?_, by omega⟩
        rw [htie.2]
        have : M' = 2 * (r - 1) + 1 := by omega
        exact_mod_cast this
      · left
        have := RNInt_of_floor (Y := 2 * X) hfl1 hfl2 M' ⟨fun h4 => Or.inr ⟨fun he => htie ⟨h4, he⟩, rfl⟩, fun _ => rfl⟩
        have h3 := RN_of_scaled (mb := F.mb) G.mb1 (X := X) (j := 0) (m := (M' + M' % 2) / 2) (Or.inl rfl)
          (by rw [Nat.add_zero, pow_succ]; linarith [show (0 : ℚ) < 2 ^ F.mb by positivity]) hX0
          (by rw [pow_zero, div_one]; rwa [show 2 * X / 2 = X by ring] at this)
        rw [hr] at h3
        simpa using h3

/-- An exact tie in the normal range forces a small power of five. -/
theorem tie_range {F : BinFmt} (G : GoodFmt F) {q : Int} {w W lz M s : Nat} (hw0 : w ≠ 0) (hw : w < 2 ^ 64)
    (hW : w * 2 ^ lz = W) (hodd : M % 2 = 1) (hM1 : 2 ^ (F.mb + 1) ≤ M) (hM2 : M < 2 ^ (F.mb + 2))
    (heq : W * tNum q = M * 2 ^ s * 2 ^ 128 * tDen q) : F.minRte ≤ q ∧ q ≤ F.maxRte := by
  have hMo : Odd M := Nat.odd_iff.2 hodd
  rcases le_or_gt 0 q with h0 | h0
  · refine ⟨le_trans G.minRte2 h0, ?_⟩
    unfold tNum tDen at heq
    rw [if_pos h0, if_pos h0] at heq
    have hd : 5 ^ q.toNat ∣ M * 2 ^ (s + 128 + (tExp q).toNat) := by
      refine ⟨W * 2 ^ (-tExp q).toNat, ?_⟩
      rw [pow_add, pow_add]
      calc M * (2 ^ s * 2 ^ 128 * 2 ^ (tExp q).toNat) = M * 2 ^ s * 2 ^ 128 * 2 ^ (tExp q).toNat := by ring
        _ = _ := by rw [← heq]; ring
    have hco : Nat.Coprime (5 ^ q.toNat) (2 ^ (s + 128 + (tExp q).toNat)) := Nat.Coprime.pow _ _ (Nat.coprime_two_right.2 (by decide))
    have hd2 := Nat.le_of_dvd (by omega) (hco.dvd_of_dvd_mul_right hd)
    have h5 : 5 ^ q.toNat < 5 ^ (F.maxRte.toNat + 1) := lt_of_le_of_lt hd2 (lt_of_lt_of_le hM2 G.rteHi)
    have := (Nat.pow_lt_pow_iff_right (by norm_num)).1 h5
    have := G.maxRte1
    omega
  · refine ⟨?_, le_trans h0.le G.maxRte1⟩
    unfold tNum tDen at heq
    rw [if_neg (by omega), if_neg (by omega), ← hW] at heq
    have hd : M * 5 ^ (-q).toNat ∣ w * 2 ^ (lz + (-tExp q).toNat) := by
      refine ⟨2 ^ s * 2 ^ 128, ?_⟩
      rw [pow_add]
      calc w * (2 ^ lz * 2 ^ (-tExp q).toNat) = w * 2 ^ lz * 2 ^ (-tExp q).toNat := by ring
        _ = _ := by rw [heq]; ring
    have hco : Nat.Coprime (M * 5 ^ (-q).toNat) (2 ^ (lz + (-tExp q).toNat)) := by
      apply Nat.Coprime.pow_right
      rw [Nat.coprime_two_right]
      exact hMo.mul (Odd.pow (by decide))
    have hd2 := Nat.le_of_dvd (by omega) (hco.dvd_of_dvd_mul_right hd)
    have hmb := G.mb52
    have h64 : (2 : Nat) ^ 64 = 2 ^ (F.mb + 1) * 2 ^ (63 - F.mb) := by rw [← pow_add]; congr 1; omega
    have h5 : 2 ^ (F.mb + 1) * 5 ^ (-q).toNat < 2 ^ (F.mb + 1) * 2 ^ (63 - F.mb) := by
      rw [← h64]
      exact lt_of_le_of_lt (le_trans (Nat.mul_le_mul_right _ hM1) hd2) hw
    have h6 := lt_of_lt_of_le (Nat.lt_of_mul_lt_mul_left h5) G.rteLo
    have := (Nat.pow_lt_pow_iff_right (by norm_num)).1 h6
    have := G.minRte2
    omega

/-- Main theorem about the numeric core: for every 64-bit significand and every exponent. -/
theorem computeFloat_spec' (c : Cfg) {F : BinFmt} (G : GoodFmt F) (q : Int) (w : Nat) (hw : w < 2 ^ 64) :
    ∃ am n, computeFloat c F q w = .ok am ∧ Rounded F (scaled F w q) n ∧ AmRep F am (min n (infIdx F)) ∧ TieUp F (scaled F w q) n := by
  have hb := Nat.two_pow_pos F.mb
  have hzero : AmRep F { mantissa := 0, power2 := 0 } (min 0 (infIdx F)) := by
    refine ⟨by simp, Or.inl ⟨by simp, by simp⟩⟩
  have hv1 : fpVal F.mb (0 + 1) = 1 := by
    have := fpVal_lin F.mb 0 1 (Or.inl rfl) (by
      calc 1 < 2 ^ 1 := by norm_num
        _ ≤ 2 ^ (F.mb + 1) := Nat.pow_le_pow_right (by norm_num) (by omega))
    simpa using this
  unfold computeFloat
  by_cases h0 : w = 0 ∨ q < F.minPow10
  · rw [if_pos h0]
    have hle : 2 * scaled F w q < 1 := by
      unfold scaled
      rcases h0 with h0 | h0
      · subst h0; simp
      · obtain ⟨k, hk⟩ : ∃ k : Nat, F.minPow10 = -(k : Int) := ⟨(-F.minPow10).toNat, by have := G.minPow0; omega⟩
        have hun := G.under
        rw [hk] at hun h0
        simp only [neg_neg, Int.toNat_natCast] at hun
        have hq : (10 : ℚ) ^ q ≤ 10 ^ (-((k + 1 : Nat) : Int)) := zpow_le_zpow_right₀ (by norm_num) (by push_cast; omega)
        rw [zpow_neg, zpow_natCast] at hq
        have hun' : (2 : ℚ) ^ 64 * 2 ^ (ulpExp F + 1) ≤ 10 ^ (k + 1) := by exact_mod_cast hun
        have hwq : (w : ℚ) < 2 ^ 64 := by exact_mod_cast hw
        have hten : (0 : ℚ) < 10 ^ (k + 1) := by positivity
        have hz : (0 : ℚ) < (10 : ℚ) ^ q := by positivity
        calc 2 * ((w : ℚ) * 10 ^ q * 2 ^ ulpExp F) = (w : ℚ) * 2 ^ (ulpExp F + 1) * 10 ^ q := by rw [pow_succ]; ring
          _ < 2 ^ 64 * 2 ^ (ulpExp F + 1) * 10 ^ q := by gcongr
          _ ≤ 10 ^ (k + 1) * (10 ^ (k + 1))⁻¹ := by gcongr
          _ = 1 := mul_inv_cancel₀ hten.ne'
    refine ⟨_, 0, rfl, Or.inl ⟨by intro k hk; omega, ?_⟩, hzero, ?_⟩
    · rw [hv1]; simp; exact hle.le
    · intro j _ he
      have : (0 : ℚ) ≤ j := by positivity
      linarith
  · rw [if_neg h0]
    push Not at h0
    obtain ⟨hw0, hq0⟩ := h0
    by_cases h1 : q > F.maxPow10
    · rw [if_pos h1]
      obtain ⟨n, hn⟩ := RN_exists G.mb1 (scaled F w q) (scaled_nonneg F w q)
      have hXge : ((fpVal F.mb (infIdx F) : Nat) : ℚ) ≤ scaled F w q := by
        have hov : ((fpVal F.mb (infIdx F) : Nat) : ℚ) ≤ 10 ^ (F.maxPow10.toNat + 1) * 2 ^ ulpExp F := by exact_mod_cast G.over
        refine le_trans hov ?_
        unfold scaled
        have hq : (10 : ℚ) ^ ((F.maxPow10.toNat + 1 : Nat) : Int) ≤ 10 ^ q :=
          zpow_le_zpow_right₀ (by norm_num) (by have := G.maxPow0; push_cast; omega)
        rw [zpow_natCast] at hq
        have hw1 : (1 : ℚ) ≤ w := by exact_mod_cast (show 1 ≤ w by omega)
        have hz : (0 : ℚ) ≤ (10 : ℚ) ^ q := by positivity
        calc (10 : ℚ) ^ (F.maxPow10.toNat + 1) * 2 ^ ulpExp F ≤ 10 ^ q * 2 ^ ulpExp F := by gcongr
          _ = 1 * 10 ^ q * 2 ^ ulpExp F := by ring
          _ ≤ _ := by gcongr
      have hge : infIdx F ≤ n := hn.ge_of_le hXge
      have hpow : (2 : ℚ) ^ F.mb ≤ scaled F w q := by
        refine le_trans ?_ hXge
        have h1 : fpVal F.mb (2 ^ F.mb) = 2 ^ F.mb := by
          have := fpVal_lin F.mb 0 (2 ^ F.mb) (Or.inl rfl) (by rw [pow_succ]; omega); simpa using this
        have h2 : fpVal F.mb (2 ^ F.mb) ≤ fpVal F.mb (infIdx F) := fpVal_mono (by
          unfold infIdx
          exact Nat.le_mul_of_pos_left _ (by have := G.infPow1; omega))
        rw [h1] at h2
        exact_mod_cast h2
      refine ⟨_, n, rfl, Or.inl hn, ?_, TieUp.of_ge hpow⟩
      rw [Nat.min_eq_right hge]
      refine ⟨le_rfl, Or.inl ⟨?_, ?_⟩⟩
      · unfold infIdx; rw [Nat.mul_div_cancel _ hb]
      · unfold infIdx; rw [Nat.mul_mod_left]
    · rw [if_neg h1]
      have hqlo : -342 ≤ q := by have := G.minPow; omega
      have hqhi : q ≤ 308 := by have := G.maxPow; omega
      rw [leadingZeroes_eq c w hw0 hw]
      simp only [bind, Except.bind, pure, Except.pure]
      rw [shl64_norm w hw0 hw]
      simp only
      obtain ⟨hn1, hn2, hlog⟩ := normalise w hw0 hw
      obtain ⟨lz, hlz⟩ : ∃ lz, 63 - Nat.log2 w = lz := ⟨_, rfl⟩
      rw [hlz] at hn1 hn2 ⊢
      obtain ⟨W, hW⟩ : ∃ W, w * 2 ^ lz = W := ⟨_, rfl⟩
      rw [hW] at hn1 hn2 ⊢
      obtain ⟨hi, lo, cert, t1, t2, hE⟩ := table_entry q hqlo hqhi
      obtain ⟨pr, hpr, hH, hL, hcase⟩ := product_cases c q F.mb W hi lo G.mb52 hn2 hE.1 hE.2.1 t1 t2
      rw [hpr]
      simp only
      obtain ⟨H, hHe⟩ : ∃ H, pr.high = H := ⟨_, rfl⟩
      obtain ⟨L, hLe⟩ : ∃ L, pr.low = L := ⟨_, rfl⟩
      rw [hHe, hLe] at hcase
      rw [hHe] at hH
      rw [hLe] at hL
      rw [hHe]
      obtain ⟨up, hup⟩ : ∃ up, H / 2 ^ 63 = up := ⟨_, rfl⟩
      rw [hup]
      have hmb := G.mb52
      obtain ⟨s, hs⟩ : ∃ s, up + 64 - F.mb - 3 = s := ⟨_, rfl⟩
      rw [hs]
      have hup1 : up ≤ 1 := by omega
      have hs' : s = up + (61 - F.mb) := by omega
      unfold shr64
      rw [if_pos (by omega)]
      simp only
      obtain ⟨M, hM⟩ : ∃ M, H / 2 ^ s = M := ⟨_, rfl⟩
      rw [hM]
      have hfl := product_floor G.mb52 hn2 hE hL hcase
      have hMfl : W * tNum q / (tDen q * 2 ^ (128 + s)) = M := by
        rw [← hM, hs', show 128 + (up + (61 - F.mb)) = 128 + (61 - F.mb) + up by ring, Nat.add_comm up,
          pow_add 2 (128 + (61 - F.mb)) up, ← Nat.mul_assoc, ← Nat.div_div_eq_div_mul, hfl, Nat.div_div_eq_div_mul, ← pow_add]
      -- size of `H`
      have hH62 : 2 ^ 62 ≤ H := by
        have h63 := hE.2.2.1
        have hWhi : 2 ^ 63 * 2 ^ 63 ≤ W * hi := Nat.mul_le_mul hn1 h63
        have : W * hi ≤ H * 2 ^ 64 + L := by
          rcases hcase with ⟨_, h⟩ | h
          · exact h.ge
          · rw [h, Nat.mul_add, ← Nat.mul_assoc, Nat.add_comm, Nat.add_mul_div_right _ _ (by norm_num)]; omega
        omega
      have hM1 : 2 ^ (F.mb + 1) ≤ M := by
        rw [← hM, Nat.le_div_iff_mul_le (Nat.two_pow_pos s), ← pow_add]
        rcases Nat.le_one_iff_eq_zero_or_eq_one.1 hup1 with h | h
        · rw [show F.mb + 1 + s = 62 by omega]; exact hH62
        · rw [show F.mb + 1 + s = 63 by omega]; omega
      have hM2 : M < 2 ^ (F.mb + 2) := by
        rw [← hM, Nat.div_lt_iff_lt_mul (Nat.two_pow_pos s), ← pow_add]
        rcases Nat.le_one_iff_eq_zero_or_eq_one.1 hup1 with h | h
        · rw [show F.mb + 2 + s = 63 by omega]; omega
        · rw [show F.mb + 2 + s = 64 by omega]; omega
      -- the exponent
      have hfd : ((152170 + 65536) * q).fdiv 65536 = tExp q + q + 127 := by unfold tExp; ring_nf
      have hfd2 : -1200 ≤ tExp q + q + 127 ∧ tExp q + q + 127 ≤ 1100 := by
        rw [← hfd, Int.fdiv_eq_ediv_of_nonneg _ (by norm_num)]; omega
      have hpow : power q = .ok (tExp q + q + 190) := by
        unfold power chk32
        simp only [bind, Except.bind]
        rw [if_pos (by constructor <;> omega)]
        simp only [hfd]
        rw [if_pos (by constructor <;> omega)]
        congr 1; ring
      rw [hpow]
      simp only
      have hminE := G.minExp1
      have hulp := G.ulp
      have hmbulp := G.mbulp
      unfold chk32
      rw [if_pos (by omega)]
      simp only
      obtain ⟨p2, hp2⟩ : ∃ p2 : Int, tExp q + q + 190 + (up : Int) - (lz : Int) - F.minExp = p2 := ⟨_, rfl⟩
      rw [hp2]
      -- the exact value
      have hD : (0 : ℚ) < tDen q := by exact_mod_cast tDen_pos q
      obtain ⟨Y, hY⟩ : ∃ Y : ℚ, (W * tNum q : Nat) / ((tDen q * 2 ^ (128 + s) : Nat) : ℚ) = Y := ⟨_, rfl⟩
      have hXY : scaled F w q = Y * (2 : ℚ) ^ (p2 - 2) := by
        unfold scaled
        rw [← hY, ← hW]
        have h10 : (10 : ℚ) ^ q = 5 ^ q * 2 ^ q := by rw [← mul_zpow]; norm_num
        rw [h10, five_zpow hqlo]
        push_cast
        have e : (2 : ℚ) ^ tExp q * 2 ^ q * 2 ^ ulpExp F = 2 ^ (p2 - 2) * 2 ^ lz / 2 ^ (128 + s) := by
          rw [← zpow_natCast (2 : ℚ) (ulpExp F), ← zpow_natCast (2 : ℚ) lz, ← zpow_natCast (2 : ℚ) (128 + s),
            ← zpow_add₀ (by norm_num), ← zpow_add₀ (by norm_num), ← zpow_add₀ (by norm_num), ← zpow_sub₀ (by norm_num)]
          congr 1
          push_cast
          omega
        calc (w : ℚ) * ((tNum q : ℚ) / tDen q * 2 ^ tExp q * 2 ^ q) * 2 ^ ulpExp F
            = (w : ℚ) * ((tNum q : ℚ) / tDen q) * (2 ^ tExp q * 2 ^ q * 2 ^ ulpExp F) := by ring
          _ = (w : ℚ) * ((tNum q : ℚ) / tDen q) * (2 ^ (p2 - 2) * 2 ^ lz / 2 ^ (128 + s)) := by rw [e]
          _ = _ := by field_simp
      have hDp : 0 < tDen q * 2 ^ (128 + s) := Nat.mul_pos (tDen_pos q) (Nat.two_pow_pos _)
      obtain ⟨y1, y2, _⟩ := div_bounds (W * tNum q) (tDen q * 2 ^ (128 + s)) hDp
      rw [hMfl, hY] at y1 y2
      have hYM : Y = M ↔ W * tNum q = M * 2 ^ s * 2 ^ 128 * tDen q := by
        rw [← hY, div_eq_iff (by exact_mod_cast hDp.ne')]
        rw [show M * 2 ^ s * 2 ^ 128 * tDen q = M * (tDen q * 2 ^ (128 + s)) by rw [pow_add]; ring]
        constructor
        · intro h; exact_mod_cast h
        · intro h; exact_mod_cast h
      have hWpos : 0 < W := by omega
      by_cases hsub : p2 ≤ 0
      · rw [if_pos hsub]
        obtain ⟨am, n, a1, a2, a3, a4⟩ := subnormal_spec G hsub y1 y2 hM2 hXY
        refine ⟨am, n, a1, a3, ?_, a4⟩
        rw [Nat.min_eq_left a2.1]; exact a2
      · rw [if_neg hsub]
        -- tie handling
        have htie : ∃ m', computeFloatTie F q pr M s = .ok m' ∧
            ((M % 4 = 1 → ((Y = M ∧ m' = M - 1) ∨ (Y ≠ M ∧ m' = M))) ∧ (M % 4 ≠ 1 → m' = M)) := by
          have hMs : M * 2 ^ s ≤ H := by rw [← hM]; exact Nat.div_mul_le_self _ _
          unfold computeFloatTie
          rw [hHe, hLe]
          by_cases hcond : L ≤ 1 ∧ q ≥ F.minRte ∧ q ≤ F.maxRte ∧ M % 4 = 1
          · rw [if_pos hcond]
            obtain ⟨c1, c2, c3, c4⟩ := hcond
            have hiff := product_tie (M := M) (s := s) G.mb52 hWpos hn2 hE hL hcase (by have := G.minRte1; omega)
              (by have := G.maxRte2; omega) (by omega)
            unfold shl64
            rw [if_pos (by omega), Nat.mod_eq_of_lt (by omega)]
            simp only [bind, Except.bind, pure, Except.pure]
            by_cases hback : M * 2 ^ s = H
            · rw [if_pos hback]
              refine ⟨_, rfl, fun _ => Or.inl ⟨hYM.2 (hiff.1 ⟨c1, hback⟩), by omega⟩, fun h => absurd c4 h⟩
            · rw [if_neg hback]
              refine ⟨_, rfl, fun _ => Or.inr ⟨fun hc => hback (hiff.2 (hYM.1 hc)).2, rfl⟩, fun h => absurd c4 h⟩
          · rw [if_neg hcond]
            refine ⟨M, rfl, fun h4 => Or.inr ⟨fun hc => hcond ?_, rfl⟩, fun _ => rfl⟩
            have heq := hYM.1 hc
            -- a tie forces the exponent range
            have hrange : F.minRte ≤ q ∧ q ≤ F.maxRte :=
              tie_range G hw0 hw hW (by omega) hM1 hM2 heq
            have hiff := product_tie (M := M) (s := s) G.mb52 hWpos hn2 hE hL hcase (by have := G.minRte1; omega)
              (by have := G.maxRte2; omega) (by omega)
            exact ⟨(hiff.2 heq).1, hrange.1, hrange.2, h4⟩
        obtain ⟨m', hm', hmc⟩ := htie
        rw [hm']
        simp only
        have hr := RNInt_of_floor y1 y2 m' hmc
        have hm'M : m' = M ∨ (m' = M - 1 ∧ M % 4 = 1) := by
          by_cases h4 : M % 4 = 1
          · rcases hmc.1 h4 with ⟨_, h⟩ | ⟨_, h⟩
            · exact Or.inr ⟨h, h4⟩
            · exact Or.inl h
          · exact Or.inl (hmc.2 h4)
        have e1 : 2 ^ (F.mb + 1) = 2 * 2 ^ F.mb := by ring
        have e2 : 2 ^ (F.mb + 2) = 4 * 2 ^ F.mb := by ring
        refine ⟨_, (p2 - 1).toNat * 2 ^ F.mb + (m' + m' % 2) / 2, rfl, Or.inl ?_,
          finish_spec G (by omega) (by omega) (by omega), TieUp.of_ge ?_⟩
        rotate_left
        · have hp21 : (2 : ℚ) ^ (-1 : Int) ≤ 2 ^ (p2 - 2) := zpow_le_zpow_right₀ (by norm_num) (by omega)
          have hMl : (2 : ℚ) ^ (F.mb + 1) ≤ M := by exact_mod_cast hM1
          have hMY : (2 : ℚ) ^ (F.mb + 1) ≤ Y := le_trans hMl y1
          have hY0 : (0 : ℚ) ≤ Y := le_trans (by positivity) hMY
          rw [hXY]
          calc (2 : ℚ) ^ F.mb = 2 ^ (F.mb + 1) * 2 ^ (-1 : Int) := by rw [pow_succ, zpow_neg_one]; ring
            _ ≤ Y * 2 ^ (p2 - 2) := by gcongr
        obtain ⟨j, hj⟩ : ∃ j : Nat, p2 = j + 1 := ⟨(p2 - 1).toNat, by omega⟩
        have hjj : (p2 - 1).toNat = j := by omega
        rw [hjj]
        have hX : scaled F w q = Y / 2 * 2 ^ j := by
          rw [hXY, hj, show ((j : Int) + 1 - 2) = (j : Int) - 1 by ring, zpow_sub₀ (by norm_num), zpow_natCast]
          ring
        have hjp : (0 : ℚ) < 2 ^ j := by positivity
        have hMl : (2 : ℚ) ^ (F.mb + 1) ≤ M := by exact_mod_cast hM1
        have hMu : (M : ℚ) + 1 ≤ 2 ^ (F.mb + 2) := by exact_mod_cast hM2
        refine RN_of_scaled G.mb1 (Or.inr ?_) ?_ (scaled_nonneg F w q) ?_
        · rw [hX, pow_add]
          have : (2 : ℚ) ^ F.mb ≤ Y / 2 := by rw [pow_succ] at hMl; linarith
          gcongr
        · rw [hX, pow_add]
          have : Y / 2 < (2 : ℚ) ^ (F.mb + 1) := by rw [pow_succ] at hMu; linarith
          gcongr
        · rw [hX, mul_div_assoc, div_self hjp.ne', mul_one]
          exact hr

theorem computeFloat_spec (c : Cfg) {F : BinFmt} (G : GoodFmt F) (q : Int) (w : Nat) (hw : w < 2 ^ 64) :
    ∃ am n, computeFloat c F q w = .ok am ∧ Rounded F (scaled F w q) n ∧ AmRep F am (min n (infIdx F)) := by
  obtain ⟨am, n, h1, h2, h3, _⟩ := computeFloat_spec' c G q w hw
  exact ⟨am, n, h1, h2, h3⟩

/-- With enough exponent range no 19-digit decimal is a tie between subnormals. -/
theorem Rounded.rn {F : BinFmt} (hulp : F.mb + 27 ≤ ulpExp F) {w : Nat} (hw : w < 2 ^ 64) {q : Int} {n : Nat}
    (h : Rounded F (scaled F w q) n) : RN F.mb (scaled F w q) n := by
  rcases h with h | ⟨k, _, hk, he, _⟩
  · exact h
  · exfalso
    have hlt : scaled F w q < 2 ^ F.mb := by
      have : (k : ℚ) + 1 ≤ 2 ^ F.mb := by exact_mod_cast hk
      linarith
    have hw1 : 1 ≤ w := by
      by_contra hc
      have : w = 0 := by omega
      subst this
      unfold scaled at he
      have : (0 : ℚ) ≤ k := by positivity
      simp at he; linarith
    have hwq : (1 : ℚ) ≤ w := by exact_mod_cast hw1
    unfold scaled at he hlt
    rcases le_or_gt 0 q with h0 | h0
    · have h1 : (1 : ℚ) ≤ (10 : ℚ) ^ q := one_le_zpow₀ (by norm_num) h0
      have h2 : (2 : ℚ) ^ F.mb ≤ 2 ^ ulpExp F := pow_le_pow_right₀ (by norm_num) (by omega)
      have h3 : (1 : ℚ) ≤ w * 10 ^ q := by
        calc (1 : ℚ) = 1 * 1 := by ring
          _ ≤ w * 10 ^ q := by gcongr
      have : (2 : ℚ) ^ ulpExp F ≤ w * 10 ^ q * 2 ^ ulpExp F := by
        calc (2 : ℚ) ^ ulpExp F = 1 * 2 ^ ulpExp F := by ring
          _ ≤ _ := by gcongr
      linarith
    · obtain ⟨a, ha⟩ : ∃ a : Nat, q = -(a : Int) := ⟨(-q).toNat, by omega⟩
      subst ha
      rw [zpow_neg, zpow_natCast] at he hlt
      have he2 : w * 2 ^ (ulpExp F + 1) = (2 * k + 1) * 10 ^ a := by
        have : (w : ℚ) * 2 ^ (ulpExp F + 1) = (2 * k + 1) * 10 ^ a := by
          rw [← he, pow_succ]; field_simp
        exact_mod_cast this
      have hd : 5 ^ a ∣ w * 2 ^ (ulpExp F + 1) := by
        rw [he2, show (10 : Nat) = 5 * 2 by norm_num, mul_pow]
        exact ⟨(2 * k + 1) * 2 ^ a, by ring⟩
      have hco : Nat.Coprime (5 ^ a) (2 ^ (ulpExp F + 1)) := Nat.Coprime.pow _ _ (Nat.coprime_two_right.2 (by decide))
      have hle := Nat.le_of_dvd hw1 (hco.dvd_of_dvd_mul_right hd)
      have ha27 : a ≤ 27 := by
        by_contra hc
        have : 5 ^ 28 ≤ 5 ^ a := Nat.pow_le_pow_right (by norm_num) (by omega)
        have : (2 : Nat) ^ 64 ≤ 5 ^ 28 := by norm_num
        omega
      -- then the value is at least `2^-27`
      have hleq : (5 : ℚ) ^ a ≤ w := by exact_mod_cast hle
      have h10 : (10 : ℚ) ^ a = 5 ^ a * 2 ^ a := by rw [← mul_pow]; norm_num
      have h1 : (2 : ℚ) ^ ulpExp F ≤ w * (10 ^ a)⁻¹ * 2 ^ ulpExp F * 2 ^ a := by
        rw [h10]
        have h5 : (0 : ℚ) < 5 ^ a := by positivity
        calc (2 : ℚ) ^ ulpExp F = 5 ^ a * (5 ^ a)⁻¹ * 2 ^ ulpExp F := by rw [mul_inv_cancel₀ h5.ne']; ring
          _ ≤ w * (5 ^ a)⁻¹ * 2 ^ ulpExp F := by gcongr
          _ = _ := by field_simp
      have h2 : (2 : ℚ) ^ F.mb * 2 ^ 27 ≤ 2 ^ ulpExp F := by
        rw [← pow_add]; exact pow_le_pow_right₀ (by norm_num) hulp
      have h3 : (2 : ℚ) ^ a ≤ 2 ^ 27 := pow_le_pow_right₀ (by norm_num) ha27
      have h4 : (w : ℚ) * (10 ^ a)⁻¹ * 2 ^ ulpExp F * 2 ^ a < 2 ^ F.mb * 2 ^ 27 := by
        have : (0 : ℚ) ≤ w * (10 ^ a)⁻¹ * 2 ^ ulpExp F := by positivity
        calc (w : ℚ) * (10 ^ a)⁻¹ * 2 ^ ulpExp F * 2 ^ a ≤ w * (10 ^ a)⁻¹ * 2 ^ ulpExp F * 2 ^ 27 := by gcongr
          _ < _ := by gcongr
      linarith

end FastFloat
