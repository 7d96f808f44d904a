import Verif.Proofs.TableFacts
import Verif.Proofs.Words
import Mathlib.Tactic.Zify
import Mathlib.Data.Nat.Prime.Basic
import Mathlib.Tactic.LinearCombination
import Mathlib.Tactic.Positivity
/-
# The product with the table: exact floor and exact tie detection
-/
namespace FastFloat

theorem precisionMask_eq (mb : Nat) (h : mb ≤ 52) : precisionMask (mb + 3) = 2 ^ (61 - mb) - 1 := by
  unfold precisionMask
  rw [if_pos (by omega)]
  have e : (2 : Nat) ^ 64 = 2 ^ (61 - mb) * 2 ^ (mb + 3) := by rw [← pow_add]; congr 1; omega
  have h1 : 0xFFFFFFFFFFFFFFFF = 2 ^ 64 - 1 := by norm_num
  rw [h1, e]
  have hp := Nat.two_pow_pos (mb + 3)
  have hq := Nat.two_pow_pos (61 - mb)
  generalize 2 ^ (mb + 3) = a at *
  generalize 2 ^ (61 - mb) = b at *
  apply Nat.div_eq_of_lt_le
  · rw [Nat.sub_mul]; omega
  · rw [Nat.sub_add_cancel hq]
    have : 0 < b * a := Nat.mul_pos hq hp
    omega

/-- What `compute_product_approximation` returns. -/
theorem product_cases (c : Cfg) (q : Int) (mb W hi lo : Nat) (hmb : mb ≤ 52) (hW : W < 2 ^ 64)
    (hhi : hi < 2 ^ 64) (hlo : lo < 2 ^ 64)
    (t1 : tableGetInt powerOfFive128 (2 * (q - smallestPowerOfFive)) = .ok hi)
    (t2 : tableGetInt powerOfFive128 (2 * (q - smallestPowerOfFive) + 1) = .ok lo) :
    ∃ pr, computeProductApproximation c (mb + 3) q W = .ok pr ∧ pr.high < 2 ^ 64 ∧ pr.low < 2 ^ 64 ∧
      ((pr.high % 2 ^ (61 - mb) ≠ 2 ^ (61 - mb) - 1 ∧ pr.high * 2 ^ 64 + pr.low = W * hi) ∨
       pr.high * 2 ^ 64 + pr.low = W * (hi * 2 ^ 64 + lo) / 2 ^ 64) := by
  have b1 : W * hi ≤ (2 ^ 64 - 1) * (2 ^ 64 - 1) := Nat.mul_le_mul (by omega) (by omega)
  have b2 : W * lo ≤ (2 ^ 64 - 1) * (2 ^ 64 - 1) := Nat.mul_le_mul (by omega) (by omega)
  have e3 : W * (hi * 2 ^ 64 + lo) / 2 ^ 64 = W * hi + W * lo / 2 ^ 64 := by
    rw [Nat.mul_add, ← Nat.mul_assoc, Nat.add_comm, Nat.add_mul_div_right _ _ (by norm_num), Nat.add_comm]
  unfold computeProductApproximation
  simp only [t1, bind, Except.bind, pure, Except.pure]
  rw [fullMultiplication_eq c W hi hW hhi, precisionMask_eq mb hmb]
  have hp := Nat.two_pow_pos (61 - mb)
  have e4 : 2 ^ (61 - mb) - 1 + 1 = 2 ^ (61 - mb) := by omega
  rw [e4, e3]
  generalize W * hi = A at *
  by_cases hm : A / 2 ^ 64 % 2 ^ (61 - mb) = 2 ^ (61 - mb) - 1
  · simp only [hm, if_true, t2]
    rw [fullMultiplication_eq c W lo hW hlo]
    generalize W * lo = B at *
    simp only
    split
    · refine ⟨_, rfl, ?_, ?_, Or.inr ?_⟩ <;> simp only <;> omega
    · refine ⟨_, rfl, ?_, ?_, Or.inr ?_⟩ <;> simp only <;> omega
  · simp only [hm, if_false]
    refine ⟨_, rfl, ?_, ?_, Or.inl ⟨hm, ?_⟩⟩ <;> simp only <;> omega

/-- Neighbouring fractions leave a gap (the argument of Mushtak and Lemire). -/
theorem cert_gap {T M w1 p1 w2 p2 w p B G : Nat} (hdet : p1 * w2 = p2 * w1 + 1) (h1 : T * w1 + G ≤ p1 * M)
    (h2 : p2 * M ≤ T * w2) (hsum : B ≤ w1 + w2) (hw : w < B) (hp : T * w < p * M) : T * w + G ≤ p * M := by
  zify at *
  obtain ⟨a, ha⟩ : ∃ a : ℤ, a = p * w2 - p2 * w := ⟨_, rfl⟩
  obtain ⟨b, hb⟩ : ∃ b : ℤ, b = p1 * w - p * w1 := ⟨_, rfl⟩
  have hdet' : (p1 : ℤ) * w2 - p2 * w1 = 1 := by linarith
  have ew : (w : ℤ) = a * w1 + b * w2 := by
    rw [ha, hb]; linear_combination (-(w : ℤ)) * hdet'
  have ep : (p : ℤ) = a * p1 + b * p2 := by
    rw [ha, hb]; linear_combination (-(p : ℤ)) * hdet'
  have ed : (p : ℤ) * M - T * w = a * (p1 * M - T * w1) + b * (p2 * M - T * w2) := by
    rw [ep, ew]; ring
  have w0 : (0 : ℤ) ≤ w := Int.natCast_nonneg w
  have w10 : (0 : ℤ) ≤ w1 := Int.natCast_nonneg w1
  have w20 : (0 : ℤ) ≤ w2 := Int.natCast_nonneg w2
  have G0 : (0 : ℤ) ≤ G := Int.natCast_nonneg G
  have ha1 : 1 ≤ a := by
    by_contra hc
    have hc' : a ≤ 0 := by omega
    rcases le_or_gt b 0 with hb0 | hb0
    · -- then w ≤ 0, both parts vanish
      have x1 : a * w1 ≤ 0 := mul_nonpos_of_nonpos_of_nonneg hc' w10
      have x2 : b * w2 ≤ 0 := mul_nonpos_of_nonpos_of_nonneg hb0 w20
      have p10 : (0 : ℤ) ≤ p1 := Int.natCast_nonneg p1
      have p20 : (0 : ℤ) ≤ p2 := Int.natCast_nonneg p2
      have y1 : a * p1 ≤ 0 := mul_nonpos_of_nonpos_of_nonneg hc' p10
      have y2 : b * p2 ≤ 0 := mul_nonpos_of_nonpos_of_nonneg hb0 p20
      have pz : (p : ℤ) ≤ 0 := by linarith
      have M0 : (0 : ℤ) ≤ M := Int.natCast_nonneg M
      have T0 : (0 : ℤ) ≤ T := Int.natCast_nonneg T
      have : (p : ℤ) * M ≤ 0 := mul_nonpos_of_nonpos_of_nonneg pz M0
      have : (0 : ℤ) ≤ T * w := mul_nonneg T0 w0
      linarith
    · have x1 : a * ((p1 : ℤ) * M - T * w1) ≤ 0 := mul_nonpos_of_nonpos_of_nonneg hc' (by linarith)
      have x2 : b * ((p2 : ℤ) * M - T * w2) ≤ 0 := mul_nonpos_of_nonneg_of_nonpos hb0.le (by linarith)
      linarith
  have hb1 : b ≤ 0 := by
    by_contra hc
    have hc' : 1 ≤ b := by omega
    have x1 : (w1 : ℤ) ≤ a * w1 := le_mul_of_one_le_left w10 ha1
    have x2 : (w2 : ℤ) ≤ b * w2 := le_mul_of_one_le_left w20 hc'
    linarith
  have x1 : ((p1 : ℤ) * M - T * w1) ≤ a * (p1 * M - T * w1) := le_mul_of_one_le_left (by linarith) ha1
  have x2 : 0 ≤ b * ((p2 : ℤ) * M - T * w2) := mul_nonneg_of_nonpos_of_nonpos hb1 (by linarith)
  linarith

theorem tDen_pos (q : Int) : 0 < tDen q := by
  unfold tDen; split <;> positivity

/-- Two different multiples of `2^k` are at least `2^k` apart. -/
theorem mult_gap {a b k : Nat} (ha : 2 ^ k ∣ a) (hb : 2 ^ k ∣ b) (h : a < b) : a + 2 ^ k ≤ b := by
  obtain ⟨x, rfl⟩ := ha
  obtain ⟨y, rfl⟩ := hb
  have hxy : x < y := Nat.lt_of_mul_lt_mul_left h
  calc 2 ^ k * x + 2 ^ k = 2 ^ k * (x + 1) := by ring
    _ ≤ 2 ^ k * y := Nat.mul_le_mul_left _ hxy

/-- The truncated product is the truncated exact product, whatever the format's precision. -/
theorem product_floor {q : Int} {mb W hi lo H L : Nat} {c : Cert} (hmb : mb ≤ 52) (hW : W < 2 ^ 64)
    (hE : EntryOK q hi lo c) (hL : L < 2 ^ 64)
    (hcase : (H % 2 ^ (61 - mb) ≠ 2 ^ (61 - mb) - 1 ∧ H * 2 ^ 64 + L = W * hi) ∨
       H * 2 ^ 64 + L = W * (hi * 2 ^ 64 + lo) / 2 ^ 64) :
    W * tNum q / (tDen q * 2 ^ (128 + (61 - mb))) = H / 2 ^ (61 - mb) := by
  obtain ⟨g, hg, hg9⟩ : ∃ g, 61 - mb = g ∧ 9 ≤ g := ⟨61 - mb, rfl, by omega⟩
  rw [hg] at hcase ⊢
  have hgp : 0 < 2 ^ g := Nat.two_pow_pos g
  have hg2 : 2 ≤ 2 ^ g := by
    calc 2 = 2 ^ 1 := rfl
      _ ≤ 2 ^ g := Nat.pow_le_pow_right (by norm_num) (by omega)
  have hD := tDen_pos q
  have hmodlt := Nat.mod_lt H hgp
  have hdm := Nat.div_add_mod H (2 ^ g)
  obtain ⟨e1, e2, e3, e4, eup, _, edown, _⟩ := hE
  -- It is enough to bound the exact product.
  suffices hs : H / 2 ^ g * 2 ^ g * (2 ^ 128 * tDen q) ≤ W * tNum q ∧
      W * tNum q < (H / 2 ^ g + 1) * 2 ^ g * (2 ^ 128 * tDen q) by
    apply Nat.div_eq_of_lt_le
    · calc _ = H / 2 ^ g * 2 ^ g * (2 ^ 128 * tDen q) := by rw [pow_add]; ring
        _ ≤ _ := hs.1
    · calc _ < (H / 2 ^ g + 1) * 2 ^ g * (2 ^ 128 * tDen q) := hs.2
        _ = _ := by rw [pow_add]; ring
  have hKlow : H / 2 ^ g * 2 ^ g ≤ H := Nat.div_mul_le_self H _
  have hKhigh : H + 1 ≤ (H / 2 ^ g + 1) * 2 ^ g := by
    have : (H / 2 ^ g + 1) * 2 ^ g = 2 ^ g * (H / 2 ^ g) + 2 ^ g := by ring
    omega
  have hNdvd : -27 ≤ q ∧ q < 0 → 2 ^ (min 137 (-tExp q).toNat) ∣ W * tNum q := by
    intro hq
    have : tNum q = 2 ^ (-tExp q).toNat := by unfold tNum; rw [if_neg (by omega)]
    rw [this]
    exact Dvd.dvd.mul_left (pow_dvd_pow 2 (Nat.min_le_right _ _)) _
  obtain ⟨T, hT⟩ : ∃ T, hi * 2 ^ 64 + lo = T := ⟨_, rfl⟩
  rw [hT] at hcase
  simp only [EntryUp, EntryDown, hT] at eup edown
  generalize tNum q = N at hNdvd e4 eup edown ⊢
  have hWD : W * tDen q ≤ 2 ^ 64 * tDen q := Nat.mul_le_mul_right _ hW.le
  -- `W*T` against `W*N`
  have hbounds : W * T * tDen q ≤ W * N + W * tDen q ∧ W * N ≤ W * T * tDen q + W * tDen q := by
    by_cases hq : -27 ≤ q ∧ q < 0
    · obtain ⟨u1, u2, _⟩ := eup hq
      have := Nat.mul_le_mul_left W u1.le
      have := Nat.mul_le_mul_left W u2.le
      constructor <;> linarith
    · obtain ⟨u1, u2, _⟩ := edown hq
      have := Nat.mul_le_mul_left W u1
      have := Nat.mul_le_mul_left W u2.le
      constructor <;> linarith
  rcases hcase with ⟨hm, hA⟩ | hA
  · -- first product only
    have hKhigh2 : H + 2 ≤ (H / 2 ^ g + 1) * 2 ^ g := by
      have : (H / 2 ^ g + 1) * 2 ^ g = 2 ^ g * (H / 2 ^ g) + 2 ^ g := by ring
      omega
    have hWT : W * T = H * 2 ^ 128 + L * 2 ^ 64 + W * lo := by
      rw [← hT]
      calc W * (hi * 2 ^ 64 + lo) = (W * hi) * 2 ^ 64 + W * lo := by ring
        _ = (H * 2 ^ 64 + L) * 2 ^ 64 + W * lo := by rw [hA]
        _ = _ := by ring
    have b2 : W * lo ≤ (2 ^ 64 - 1) * (2 ^ 64 - 1) := Nat.mul_le_mul (by omega) (by omega)
    have hlowW : H * 2 ^ 128 * tDen q ≤ W * N := by
      by_cases hq : -27 ≤ q ∧ q < 0
      · obtain ⟨u1, _, u3, _⟩ := eup hq
        have hWlo : W ≤ W * lo := Nat.le_mul_of_pos_right W (by omega)
        have h5 : H * 2 ^ 128 + W ≤ W * T := by linarith [Nat.zero_le L]
        have := Nat.mul_le_mul_right (tDen q) h5
        have := Nat.mul_le_mul_left W u1.le
        linarith
      · obtain ⟨u1, _, _⟩ := edown hq
        have h5 : H * 2 ^ 128 ≤ W * T := by omega
        have := Nat.mul_le_mul_right (tDen q) h5
        have := Nat.mul_le_mul_left W u1
        linarith
    have hhighW : W * N < (H + 2) * 2 ^ 128 * tDen q := by
      have h5 : W * T + 2 ^ 64 < (H + 2) * 2 ^ 128 := by omega
      have := Nat.mul_lt_mul_of_pos_right h5 hD
      linarith [hbounds.2]
    constructor
    · calc _ ≤ H * (2 ^ 128 * tDen q) := Nat.mul_le_mul_right _ hKlow
        _ = H * 2 ^ 128 * tDen q := by ring
        _ ≤ _ := hlowW
    · calc _ < (H + 2) * 2 ^ 128 * tDen q := hhighW
        _ = (H + 2) * (2 ^ 128 * tDen q) := by ring
        _ ≤ _ := Nat.mul_le_mul_right _ hKhigh2
  · have hWT1 : H * 2 ^ 128 ≤ W * T := by omega
    have hWT2 : W * T < (H + 1) * 2 ^ 128 := by omega
    have e137 : ∀ K : Nat, K * 2 ^ g * 2 ^ 128 = K * 2 ^ (g - 9) * 2 ^ 137 := by
      intro K
      obtain ⟨g', rfl⟩ : ∃ g', g = g' + 9 := ⟨g - 9, by omega⟩
      rw [Nat.add_sub_cancel, pow_add]; ring
    by_cases hq : -27 ≤ q ∧ q < 0
    · obtain ⟨u1, u2, u3, u4⟩ := eup hq
      constructor
      · by_contra hc
        push Not at hc
        have hd1 : 2 ^ (min 137 (-tExp q).toNat) ∣ W * N := hNdvd hq
        have hd2 : 2 ^ (min 137 (-tExp q).toNat) ∣ H / 2 ^ g * 2 ^ g * (2 ^ 128 * tDen q) := by
          have : H / 2 ^ g * 2 ^ g * (2 ^ 128 * tDen q) = 2 ^ 137 * (H / 2 ^ g * 2 ^ (g - 9) * tDen q) := by
            rw [← Nat.mul_assoc, e137]; ring
          rw [this]
          exact Dvd.dvd.mul_right (pow_dvd_pow 2 (Nat.min_le_left _ _)) _
        have hgap := mult_gap hd1 hd2 hc
        have h6 : H / 2 ^ g * 2 ^ g * (2 ^ 128 * tDen q) ≤ W * T * tDen q := by
          calc _ ≤ H * (2 ^ 128 * tDen q) := Nat.mul_le_mul_right _ hKlow
            _ = H * 2 ^ 128 * tDen q := by ring
            _ ≤ _ := Nat.mul_le_mul_right _ hWT1
        have h7 := Nat.mul_lt_mul_of_pos_left u1 (show 0 < W by
          by_contra h0
          have : W = 0 := by omega
          subst this
          simp at hc h6
          omega)
        linarith
      · calc W * N ≤ W * (T * tDen q) := Nat.mul_le_mul_left _ u2.le
          _ = W * T * tDen q := by ring
          _ < (H + 1) * 2 ^ 128 * tDen q := Nat.mul_lt_mul_of_pos_right hWT2 hD
          _ = (H + 1) * (2 ^ 128 * tDen q) := by ring
          _ ≤ _ := Nat.mul_le_mul_right _ hKhigh
    · obtain ⟨u1, u2, k1, k2, k3, k4⟩ := edown hq
      constructor
      · calc _ ≤ H * (2 ^ 128 * tDen q) := Nat.mul_le_mul_right _ hKlow
          _ = H * 2 ^ 128 * tDen q := by ring
          _ ≤ W * T * tDen q := Nat.mul_le_mul_right _ hWT1
          _ = W * (T * tDen q) := by ring
          _ ≤ _ := Nat.mul_le_mul_left _ u1
      · have h5 : T * W < (H / 2 ^ g + 1) * 2 ^ (g - 9) * 2 ^ 137 := by
          rw [← e137, Nat.mul_comm]
          exact lt_of_lt_of_le hWT2 (Nat.mul_le_mul_right _ hKhigh)
        have h6 := cert_gap k1 k2 k3 k4 hW h5
        rw [← e137] at h6
        have h7 := Nat.mul_le_mul_right (tDen q) h6
        have h8 := Nat.mul_le_mul_left W u2.le
        have hWD' : W * tDen q < 2 ^ 64 * tDen q := Nat.mul_lt_mul_of_pos_right hW hD
        linarith

/-- The high word alone never yields a product that looks like a tie (`-24 ≤ q < 0`). -/
theorem tie_no_first {q : Int} {hi W : Nat} {c : Cert} (hE : EntryTie q hi c) (h0 : 0 < W) (hW : W < 2 ^ 64)
    (h : W * hi % 2 ^ 73 ≤ 1) : False := by
  obtain ⟨_, h1 | h1⟩ := hE
  · obtain ⟨hodd, hinv, hge, hlt⟩ := h1
    rcases Nat.le_one_iff_eq_zero_or_eq_one.1 h with hz | hz
    · have hd : 2 ^ 73 ∣ W * hi := Nat.dvd_of_mod_eq_zero hz
      have hco : Nat.Coprime (2 ^ 73) hi := Nat.Coprime.pow_left 73 ((Nat.coprime_two_left).2 (Nat.odd_iff.2 hodd))
      have := Nat.le_of_dvd h0 (hco.dvd_of_dvd_mul_right hd)
      have : (2 : Nat) ^ 64 ≤ 2 ^ 73 := by norm_num
      omega
    · have e1 : (W * hi) * c.w1 % 2 ^ 73 = c.w1 := by
        rw [Nat.mul_mod, hz, Nat.one_mul, Nat.mod_mod, Nat.mod_eq_of_lt hlt]
      have e2 : W * (c.w1 * hi) % 2 ^ 73 = W := by
        rw [Nat.mul_mod, hinv, Nat.mul_one, Nat.mod_mod, Nat.mod_eq_of_lt (lt_trans hW (by norm_num))]
      have e3 : (W * hi) * c.w1 = W * (c.w1 * hi) := by ring
      rw [e3, e2] at e1
      omega
  · obtain ⟨heven, h8⟩ := h1
    rcases Nat.le_one_iff_eq_zero_or_eq_one.1 h with hz | hz
    · obtain ⟨y, hy, hyo⟩ : ∃ y, (hi = 2 * y ∨ hi = 4 * y) ∧ y % 2 = 1 := by
        rcases Nat.mod_two_eq_zero_or_one (hi / 2) with hh | hh
        · exact ⟨hi / 4, Or.inr (by omega), by omega⟩
        · exact ⟨hi / 2, Or.inl (by omega), hh⟩
      have hd : 2 ^ 73 ∣ W * hi := Nat.dvd_of_mod_eq_zero hz
      have hd' : 2 ^ 71 ∣ W * y := by
        obtain ⟨k, hk⟩ := hd
        rcases hy with hy | hy
        · refine ⟨2 * k, ?_⟩
          have : 2 * (W * y) = 2 * (2 ^ 71 * (2 * k)) := by
            calc 2 * (W * y) = W * (2 * y) := by ring
              _ = 2 ^ 73 * k := by rw [← hy, hk]
              _ = _ := by ring
          exact Nat.eq_of_mul_eq_mul_left (by norm_num) this
        · refine ⟨k, ?_⟩
          have : 4 * (W * y) = 4 * (2 ^ 71 * k) := by
            calc 4 * (W * y) = W * (4 * y) := by ring
              _ = 2 ^ 73 * k := by rw [← hy, hk]
              _ = _ := by ring
          exact Nat.eq_of_mul_eq_mul_left (by norm_num) this
      have hco : Nat.Coprime (2 ^ 71) y := Nat.Coprime.pow_left 71 ((Nat.coprime_two_left).2 (Nat.odd_iff.2 hyo))
      have := Nat.le_of_dvd h0 (hco.dvd_of_dvd_mul_right hd')
      have : (2 : Nat) ^ 64 ≤ 2 ^ 71 := by norm_num
      omega
    · have h2 : W * hi % 2 = 1 := by
        rw [← Nat.mod_mod_of_dvd (W * hi) (show 2 ∣ 2 ^ 73 from dvd_pow_self 2 (by norm_num)), hz]
      rw [Nat.mul_mod, heven] at h2
      simp at h2

theorem tie_ar1 {H L Z : Nat} (hL : L < 2 ^ 64) (hev : (H * 2 ^ 64 + L) % 2 = 0) :
    (L ≤ 1 ∧ Z = H) ↔ (H * 2 ^ 64 + L) * 2 ^ 64 = Z * 2 ^ 128 := by
  constructor
  · rintro ⟨h1, rfl⟩; omega
  · intro h; constructor <;> omega

theorem tie_ar2 {Q L Z : Nat} (hL : L ≤ 1) (h : Z * 2 ^ 64 + L = Q / 2 ^ 64) :
    Z * 2 ^ 128 ≤ Q ∧ Q < Z * 2 ^ 128 + 2 ^ 65 := by omega

/-- Tie detection is exact on the exponent range in which it is attempted. -/
theorem product_tie {q : Int} {mb W hi lo H L M s : Nat} {c : Cert} (hmb : mb ≤ 52) (hW0 : 0 < W) (hW : W < 2 ^ 64)
    (hE : EntryOK q hi lo c) (hL : L < 2 ^ 64)
    (hcase : (H % 2 ^ (61 - mb) ≠ 2 ^ (61 - mb) - 1 ∧ H * 2 ^ 64 + L = W * hi) ∨
       H * 2 ^ 64 + L = W * (hi * 2 ^ 64 + lo) / 2 ^ 64)
    (hq1 : -24 ≤ q) (hq2 : q ≤ 27) (hs : 61 - mb ≤ s) :
    (L ≤ 1 ∧ M * 2 ^ s = H) ↔ W * tNum q = M * 2 ^ s * 2 ^ 128 * tDen q := by
  obtain ⟨e1, e2, e3, e4, eup, etie, _, eex⟩ := hE
  have hg9 : 9 ≤ 61 - mb := by omega
  rcases le_or_gt 0 q with h0 | h0
  · obtain ⟨x1, x2, x3, x4⟩ := eex ⟨h0, hq2⟩
    subst x1
    rw [x3, x4, Nat.mul_one, ← Nat.mul_assoc]
    have hA : H * 2 ^ 64 + L = W * hi := by
      rcases hcase with ⟨_, h⟩ | h
      · exact h
      · rw [h, Nat.add_zero, ← Nat.mul_assoc, Nat.mul_div_cancel _ (by norm_num)]
    rw [← hA]
    have hev : (H * 2 ^ 64 + L) % 2 = 0 := by rw [hA, Nat.mul_mod, x2]; simp
    exact tie_ar1 hL hev
  · have hq27 : -27 ≤ q ∧ q < 0 := ⟨by omega, h0⟩
    obtain ⟨u1, u2, u3, u4⟩ := eup hq27
    have ht := etie ⟨hq1, h0⟩
    have hD := tDen_pos q
    have hs9 : 9 ≤ s := by omega
    have hNeq : tNum q = 2 ^ (-tExp q).toNat := by unfold tNum; rw [if_neg (by omega)]
    have hdvN : 2 ^ (min 137 (-tExp q).toNat) ∣ W * tNum q := by
      rw [hNeq]; exact Dvd.dvd.mul_left (pow_dvd_pow 2 (Nat.min_le_right _ _)) _
    have e137 : M * 2 ^ s * 2 ^ 128 = 2 ^ 137 * (M * 2 ^ (s - 9)) := by
      obtain ⟨s', rfl⟩ : ∃ s', s = s' + 9 := ⟨s - 9, by omega⟩
      rw [Nat.add_sub_cancel, pow_add]; ring
    have hdvM : 2 ^ (min 137 (-tExp q).toNat) ∣ M * 2 ^ s * 2 ^ 128 * tDen q := by
      rw [e137]
      exact Dvd.dvd.mul_right (Dvd.dvd.mul_right (pow_dvd_pow 2 (Nat.min_le_left _ _)) _) _
    obtain ⟨T, hT⟩ : ∃ T, hi * 2 ^ 64 + lo = T := ⟨_, rfl⟩
    rw [hT] at hcase u1 u2
    generalize tNum q = N at *
    have hWD' : W * tDen q < 2 ^ 64 * tDen q := Nat.mul_lt_mul_of_pos_right hW hD
    have v1 := Nat.mul_lt_mul_of_pos_left u1 hW0
    have v2 := Nat.mul_lt_mul_of_pos_left u2 hW0
    constructor
    · rintro ⟨hL1, hH⟩
      rcases hcase with ⟨_, hA⟩ | hA
      · exfalso
        refine tie_no_first ht hW0 hW ?_
        rw [← hA, ← hH]
        have : M * 2 ^ s * 2 ^ 64 = M * 2 ^ (s - 9) * 2 ^ 73 := by
          obtain ⟨s', rfl⟩ : ∃ s', s = s' + 9 := ⟨s - 9, by omega⟩
          rw [Nat.add_sub_cancel, pow_add]; ring
        rw [this, Nat.mul_add_mod_self_right]
        exact le_trans (Nat.mod_le _ _) hL1
      · rw [← hH] at hA
        obtain ⟨w1, w2⟩ := tie_ar2 hL1 hA
        have w3 := Nat.mul_le_mul_right (tDen q) w1
        have w4 := Nat.mul_lt_mul_of_pos_right w2 hD
        have g := ht.1
        rcases Nat.lt_trichotomy (W * N) (M * 2 ^ s * 2 ^ 128 * tDen q) with h | h | h
        · have := mult_gap hdvN hdvM h
          linarith
        · exact h
        · have := mult_gap hdvM hdvN h
          linarith
    · intro heq
      have w1 : M * 2 ^ s * 2 ^ 128 < W * T := by
        have : M * 2 ^ s * 2 ^ 128 * tDen q < W * T * tDen q := by linarith
        exact Nat.lt_of_mul_lt_mul_right this
      have w2 : W * T < M * 2 ^ s * 2 ^ 128 + 2 ^ 64 := by
        have : W * T * tDen q < (M * 2 ^ s * 2 ^ 128 + 2 ^ 64) * tDen q := by linarith
        exact Nat.lt_of_mul_lt_mul_right this
      rcases hcase with ⟨hm, hA⟩ | hA
      · have hWT : W * T = H * 2 ^ 128 + L * 2 ^ 64 + W * lo := by
          rw [← hT]
          calc W * (hi * 2 ^ 64 + lo) = (W * hi) * 2 ^ 64 + W * lo := by ring
            _ = (H * 2 ^ 64 + L) * 2 ^ 64 + W * lo := by rw [hA]
            _ = _ := by ring
        have b2 : W * lo ≤ (2 ^ 64 - 1) * (2 ^ 64 - 1) := Nat.mul_le_mul (by omega) (by omega)
        have hne : H + 1 ≠ M * 2 ^ s := by
          intro hc
          apply hm
          obtain ⟨s', hs'⟩ : ∃ s', s = s' + (61 - mb) := ⟨s - (61 - mb), by omega⟩
          have hgp := Nat.two_pow_pos (61 - mb)
          rw [hs', pow_add, ← Nat.mul_assoc] at hc
          generalize 2 ^ (61 - mb) = G at *
          generalize M * 2 ^ s' = K at *
          have hK : 1 ≤ K := by
            by_contra hk
            have : K = 0 := by omega
            subst this; simp at hc
          obtain ⟨K', rfl⟩ : ∃ K', K = K' + 1 := ⟨K - 1, by omega⟩
          have : H = K' * G + (G - 1) := by
            have : (K' + 1) * G = K' * G + G := by ring
            omega
          rw [this, Nat.mul_add_mod_self_right]
          exact Nat.mod_eq_of_lt (by omega)
        generalize W * lo = B at *
        generalize M * 2 ^ s = Z at *
        generalize W * T = Q at *
        constructor <;> omega
      · generalize M * 2 ^ s = Z at *
        generalize W * T = Q at *
        constructor <;> omega

end FastFloat
