import Verif.Model.Scripts
import Verif.Model.Table
import Mathlib.Tactic.Linarith
import Mathlib.Tactic.Ring
import Mathlib.Tactic.LinearCombination
import Mathlib.Tactic.Positivity
/-
# The scripts behind the power table
-/
set_option autoImplicit false
namespace FastFloat.Script

theorem while_iterate {σ : Type} (cond : σ → Bool) (body : σ → σ) : ∀ (k fuel : Nat) (x : σ), k < fuel → (∀ j < k, cond (body^[j] x) = true) →
    cond (body^[k] x) = false → while_ cond body fuel x = .ok (body^[k] x) := by
  intro k
  induction k with
  | zero =>
    intro fuel x hf _ h
    obtain ⟨f, rfl⟩ : ∃ f, fuel = f + 1 := ⟨fuel - 1, by omega⟩
    unfold while_
    rw [if_neg (by rw [show cond x = false from h]; exact Bool.false_ne_true)]
    rfl
  | succ k ih =>
    intro fuel x hf h1 h2
    obtain ⟨f, rfl⟩ : ∃ f, fuel = f + 1 := ⟨fuel - 1, by omega⟩
    unfold while_
    rw [if_pos (show cond x = true from h1 0 (by omega))]
    exact ih f (body x) (by omega) (fun j hj => h1 (j + 1) (by omega)) h2

theorem iterate_succ (k z : Nat) : (fun x => x + 1)^[k] z = z + k := by
  induction k generalizing z with
  | zero => rfl
  | succ k ih => rw [Function.iterate_succ_apply, ih]; omega

theorem iterate_double (k x : Nat) : (fun x => x * 2)^[k] x = x * 2 ^ k := by
  induction k generalizing x with
  | zero => simp
  | succ k ih => rw [Function.iterate_succ_apply, ih, pow_succ]; ring

theorem iterate_halve (k x : Nat) : (fun x => x / 2)^[k] x = x / 2 ^ k := by
  induction k generalizing x with
  | zero => simp
  | succ k ih => rw [Function.iterate_succ_apply, ih, Nat.div_div_eq_div_mul, pow_succ, Nat.mul_comm]

/-- `log2` is the least `z` with `x ≤ 2^z`. -/
theorem log2_eq {x z : Nat} (h1 : x ≤ 2 ^ z) (h2 : ∀ y < z, 2 ^ y < x) (hz : z < rounds) : log2 x = .ok z := by
  have := while_iterate (fun z => decide (2 ^ z < x)) (fun x => x + 1) z rounds 0 hz
    (fun j hj => by rw [iterate_succ, Nat.zero_add]; exact decide_eq_true (h2 j hj))
    (by rw [iterate_succ, Nat.zero_add]; exact decide_eq_false (by omega))
  rw [iterate_succ, Nat.zero_add] at this
  exact this

set_option exponentiation.threshold 5000 in
theorem log2_pow5 {n : Nat} (h : n ≤ 344) (h0 : 0 < n) : log2 (5 ^ n) = .ok (Nat.log2 (5 ^ n - 1) + 1) ∧ Nat.log2 (5 ^ n - 1) < 1032 := by
  have h5 : 5 ≤ 5 ^ n := by
    calc 5 = 5 ^ 1 := rfl
      _ ≤ 5 ^ n := Nat.pow_le_pow_right (by decide) h0
  have hp : 5 ^ n - 1 ≠ 0 := by omega
  have hlt : 5 ^ n - 1 < 2 ^ (Nat.log2 (5 ^ n - 1) + 1) := Nat.lt_log2_self
  have hge : 2 ^ Nat.log2 (5 ^ n - 1) ≤ 5 ^ n - 1 := Nat.log2_self_le hp
  have hL : Nat.log2 (5 ^ n - 1) < 1032 := by
    have : 2 ^ Nat.log2 (5 ^ n - 1) < 2 ^ 1032 := by
      calc 2 ^ Nat.log2 (5 ^ n - 1) ≤ 5 ^ n - 1 := hge
        _ < 5 ^ n := by omega
        _ ≤ 8 ^ n := Nat.pow_le_pow_left (by decide) n
        _ = 2 ^ (3 * n) := by rw [pow_mul]; rfl
        _ ≤ 2 ^ 1032 := Nat.pow_le_pow_right (by decide) (by omega)
    exact (Nat.pow_lt_pow_iff_right (a := 2) (by decide)).1 this
  refine ⟨log2_eq (by omega) (fun y hy => ?_) (by unfold rounds; omega), hL⟩
  · have : 2 ^ y ≤ 2 ^ Nat.log2 (5 ^ n - 1) := Nat.pow_le_pow_right (by decide) (by omega)
    omega

theorem truncate_eq {x k : Nat} (h1 : x / 2 ^ k < 2 ^ 128) (h2 : ∀ j < k, 2 ^ 128 ≤ x / 2 ^ j) (hk : k < rounds) : truncate x = .ok (x / 2 ^ k) := by
  have := while_iterate (fun c => decide (c ≥ 2 ^ 128)) (fun x => x / 2) k rounds x hk
    (fun j hj => by rw [iterate_halve]; exact decide_eq_true (h2 j hj))
    (by rw [iterate_halve]; exact decide_eq_false (by omega))
  rw [iterate_halve] at this
  exact this

theorem normalize_eq {x k : Nat} (h1 : 2 ^ 127 ≤ x * 2 ^ k) (h2 : ∀ j < k, x * 2 ^ j < 2 ^ 127) (hk : k < rounds) : normalize x = .ok (x * 2 ^ k) := by
  have := while_iterate (fun p => decide (p < 2 ^ 127)) (fun x => x * 2) k rounds x hk
    (fun j hj => by rw [iterate_double]; exact decide_eq_true (h2 j hj))
    (by rw [iterate_double]; exact decide_eq_false (by omega))
  rw [iterate_double] at this
  exact this

set_option exponentiation.threshold 5000 in
/-- `truncate` keeps the 128 most significant bits. -/
theorem truncate_bits {x : Nat} (h : x ≠ 0) (hx : x < 2 ^ 2000) : truncate x = .ok (x / 2 ^ (Nat.log2 x - 127)) := by
  have hlt : x < 2 ^ (Nat.log2 x + 1) := Nat.lt_log2_self
  have hge : 2 ^ Nat.log2 x ≤ x := Nat.log2_self_le h
  have hL : Nat.log2 x < 2000 := (Nat.pow_lt_pow_iff_right (a := 2) (by decide)).1 (lt_of_le_of_lt hge hx)
  refine truncate_eq ?_ (fun j hj => ?_) (by unfold rounds; omega)
  · rw [Nat.div_lt_iff_lt_mul (by positivity), ← pow_add]
    exact lt_of_lt_of_le hlt (Nat.pow_le_pow_right (by decide) (by omega))
  · rw [Nat.le_div_iff_mul_le (by positivity), ← pow_add]
    exact le_trans (Nat.pow_le_pow_right (by decide) (by omega)) hge

/-- `normalize` moves the most significant bit to position 127 (or leaves it beyond). -/
theorem normalize_bits {x : Nat} (h : x ≠ 0) : normalize x = .ok (x * 2 ^ (127 - Nat.log2 x)) := by
  have hlt : x < 2 ^ (Nat.log2 x + 1) := Nat.lt_log2_self
  have hge : 2 ^ Nat.log2 x ≤ x := Nat.log2_self_le h
  refine normalize_eq ?_ (fun j hj => ?_) (by unfold rounds; omega)
  · calc 2 ^ 127 ≤ 2 ^ (Nat.log2 x + (127 - Nat.log2 x)) := Nat.pow_le_pow_right (by decide) (by omega)
      _ = 2 ^ Nat.log2 x * 2 ^ (127 - Nat.log2 x) := pow_add _ _ _
      _ ≤ _ := Nat.mul_le_mul_right _ hge
  · calc x * 2 ^ j < 2 ^ (Nat.log2 x + 1) * 2 ^ j := Nat.mul_lt_mul_of_pos_right hlt (by positivity)
      _ = 2 ^ (Nat.log2 x + 1 + j) := (pow_add _ _ _).symm
      _ ≤ 2 ^ 127 := Nat.pow_le_pow_right (by decide) (by omega)

/-! ### The entries in closed form -/

/-- `negativeEntry` in closed form. -/
def negEntry (q : Int) : Nat :=
  let p := 5 ^ (-q).toNat
  let z := Nat.log2 (p - 1) + 1
  if q ≥ -27 then 2 ^ (z + 127) / p + 1
  else
    let c := 2 ^ (2 * z + 128) / p + 1
    c / 2 ^ (Nat.log2 c - 127)

/-- `positiveEntry` in closed form. -/
def posEntry (q : Int) : Nat :=
  let p := 5 ^ q.toNat
  let m := p * 2 ^ (127 - Nat.log2 p)
  m / 2 ^ (Nat.log2 m - 127)

set_option exponentiation.threshold 5000 in
theorem negativeEntry_eq {q : Int} (h1 : -342 ≤ q) (h2 : q < 0) : negativeEntry q = .ok (negEntry q) := by
  unfold negativeEntry negEntry
  obtain ⟨n, hn⟩ : ∃ n, (-q).toNat = n := ⟨_, rfl⟩
  have hz := log2_pow5 (n := n) (by omega) (by omega)
  have hp : 0 < 5 ^ n := by positivity
  rw [hn]
  simp only [hz.1, bind, Except.bind]
  by_cases h : q ≥ -27
  · rw [if_pos h, if_pos h]; rfl
  · rw [if_neg h, if_neg h]
    refine truncate_bits (Nat.succ_ne_zero _) ?_
    obtain ⟨L, hL⟩ : ∃ L, Nat.log2 (5 ^ n - 1) = L := ⟨_, rfl⟩
    rw [hL] at hz ⊢
    have : 2 ^ (2 * (L + 1) + 2 * 64) / 5 ^ n ≤ 2 ^ (L + 130) := by
      have hge : 2 ^ L ≤ 5 ^ n := by
        have h5 : 5 ^ n - 1 ≠ 0 := by
          have : 5 ^ 1 ≤ 5 ^ n := Nat.pow_le_pow_right (by decide) (by omega)
          omega
        have := Nat.log2_self_le h5
        rw [hL] at this; omega
      calc 2 ^ (2 * (L + 1) + 2 * 64) / 5 ^ n ≤ 2 ^ (2 * (L + 1) + 2 * 64) / 2 ^ L := Nat.div_le_div_left hge (by positivity)
        _ = 2 ^ (L + 130) := by rw [Nat.pow_div (by omega) (by decide)]; congr 1; omega
    calc 2 ^ (2 * (L + 1) + 2 * 64) / 5 ^ n + 1 ≤ 2 ^ (L + 130) + 1 := by omega
      _ ≤ 2 ^ 1162 + 1 := Nat.add_le_add_right (Nat.pow_le_pow_right (by decide) (by omega)) 1
      _ < 2 ^ 2000 := by norm_num

set_option exponentiation.threshold 5000 in
theorem positiveEntry_eq {q : Int} (h2 : q ≤ 308) : positiveEntry q = .ok (posEntry q) := by
  unfold positiveEntry posEntry
  obtain ⟨n, hn⟩ : ∃ n, q.toNat = n := ⟨_, rfl⟩
  rw [hn]
  have hp : 0 < 5 ^ n := by positivity
  simp only [normalize_bits (x := 5 ^ n) (by omega), bind, Except.bind]
  refine truncate_bits (by positivity) ?_
  calc 5 ^ n * 2 ^ (127 - Nat.log2 (5 ^ n)) ≤ 8 ^ 308 * 2 ^ 127 :=
        Nat.mul_le_mul (le_trans (Nat.pow_le_pow_left (by decide) n) (Nat.pow_le_pow_right (by decide) (by omega))) (Nat.pow_le_pow_right (by decide) (by omega))
    _ < 2 ^ 2000 := by norm_num

theorem mapM_ok {α β : Type} {f : α → Exec β} {g : α → β} : ∀ l : List α, (∀ x ∈ l, f x = .ok (g x)) → l.mapM f = .ok (l.map g) := by
  intro l
  induction l with
  | nil => intro _; rfl
  | cons a l ih =>
    intro h
    rw [List.mapM_cons, h a (by simp), ih fun x hx => h x (by simp [hx])]
    rfl

theorem mem_range {a b q : Int} : q ∈ range a b ↔ a ≤ q ∧ q < b := by
  unfold range
  rw [List.mem_map]
  constructor
  · rintro ⟨i, hi, rfl⟩
    rw [List.mem_range] at hi
    omega
  · intro h
    exact ⟨(q - a).toNat, by rw [List.mem_range]; omega, by omega⟩

theorem tableGeneration_closed : tableGeneration = .ok (((range (-342) 0).map negEntry ++ (range 0 309).map posEntry).flatMap format) := by
  unfold tableGeneration
  rw [mapM_ok (g := negEntry) _ fun q hq => negativeEntry_eq (mem_range.1 hq).1 (mem_range.1 hq).2,
    mapM_ok (g := posEntry) _ fun q hq => positiveEntry_eq (by have := (mem_range.1 hq).2; omega)]
  rfl

theorem table_regenerated : ((range (-342) 0).map negEntry ++ (range 0 309).map posEntry).flatMap format = powerOfFive128 := by decide +kernel

/-! ### The continued fractions -/

/-- Between two neighbouring convergents `p1/q1` and `p/q` of `T/N` (errors `d` and `r` of opposite signs) there is no good approximation `m/w` of `T/N` from
above other than multiples of the first. -/
theorem no_good_between {N T p1 q1 p q d r m w δ s σ : Int} (hs : s = 1 ∨ s = -1) (hσ : σ = 1 ∨ σ = -1) (hd : 0 ≤ d) (hr : 0 ≤ r) (hq1 : 0 ≤ q1)
    (e1 : T * q1 - N * p1 = -s * d) (e2 : T * q - N * p = s * r) (eN : q * d + q1 * r = N) (det : p * q1 - p1 * q = σ)
    (hw1 : q1 ≤ w) (hw : w < q) (hw0 : 0 < w) (hδ : m * N - T * w = δ) (hδ0 : 0 < δ) (hsmall : 2 * (δ * w) < N) :
    ∃ g : Int, w = g * q1 ∧ m = g * p1 := by
  obtain ⟨a, ha⟩ : ∃ a, σ * (p * w - m * q) = a := ⟨_, rfl⟩
  obtain ⟨b, hb⟩ : ∃ b, σ * (m * q1 - p1 * w) = b := ⟨_, rfl⟩
  have hσ2 : σ * σ = 1 := by rcases hσ with h | h <;> rw [h] <;> rfl
  have ew : w = a * q1 + b * q := by
    rw [← ha, ← hb]
    linear_combination (-σ * w) * det - w * hσ2
  have em : m = a * p1 + b * p := by
    rw [← ha, ← hb]
    linear_combination (-σ * m) * det - m * hσ2
  have eδ : δ = s * (a * d - b * r) := by
    rw [← hδ]
    have h1 : T * w - N * m = a * (T * q1 - N * p1) + b * (T * q - N * p) := by rw [ew, em]; ring
    rw [e1, e2] at h1
    linear_combination -h1
  have hq : 0 < q := by omega
  rcases lt_trichotomy b 0 with hb0 | hb0 | hb0
  · exfalso
    rcases hs with rfl | rfl
    · -- δ q1 ≥ N
      have h1 : δ * q1 = w * d + (-b) * N := by rw [eδ, ← eN, ew]; ring
      have h2 : 0 ≤ w * d := mul_nonneg hw0.le hd
      have h3 : δ * q1 ≤ δ * w := mul_le_mul_of_nonneg_left hw1 hδ0.le
      have h4 : 0 ≤ δ * w := mul_nonneg hδ0.le hw0.le
      have hN : 0 < N := by linarith
      nlinarith
    · have ha0 : 0 < a := by
        by_contra h
        have : a * q1 ≤ 0 := mul_nonpos_of_nonpos_of_nonneg (by omega) hq1
        have : b * q < 0 := mul_neg_of_neg_of_pos hb0 hq
        linarith
      have := mul_nonneg ha0.le hd
      have := mul_nonpos_of_nonpos_of_nonneg hb0.le hr
      linarith
  · exact ⟨a, by rw [ew, hb0]; ring, by rw [em, hb0]; ring⟩
  · exfalso
    have ha0 : a < 0 := by
      by_contra h
      have : 0 ≤ a * q1 := mul_nonneg (by omega) hq1
      have : q ≤ b * q := le_mul_of_one_le_left hq.le hb0
      linarith
    rcases hs with rfl | rfl
    · have := mul_nonpos_of_nonpos_of_nonneg ha0.le hd
      have := mul_nonneg hb0.le hr
      linarith
    · have h1 : w + (-a) * q1 = b * q := by rw [ew]; ring
      have h2 : q ≤ b * q := le_mul_of_one_le_left hq.le hb0
      have h3 : w ≤ (-a) * w := le_mul_of_one_le_left hw0.le (by omega)
      have h4 : (-a) * q1 ≤ (-a) * w := mul_le_mul_of_nonneg_left hw1 (by omega)
      have h5 : q ≤ 2 * ((-a) * w) := by linarith
      have h6 : q * d ≤ 2 * ((-a) * w) * d := mul_le_mul_of_nonneg_right h5 hd
      have h7 : q1 * r ≤ w * r := mul_le_mul_of_nonneg_right hw1 hr
      have h8 : w * r ≤ b * (w * r) := le_mul_of_one_le_left (mul_nonneg hw0.le hr) hb0
      have h9 : 2 * (δ * w) = 2 * ((-a) * w) * d + 2 * (b * (w * r)) := by rw [eδ]; ring
      have h10 : 0 ≤ w * r := mul_nonneg hw0.le hr
      linarith

/-- A multiple of a convergent that is a solution makes the convergent a solution. -/
theorem solution_of_multiple {T p q m w g : Nat} (hw0 : 0 < w) (ew : w = g * q) (em : m = g * p) {δ : Int}
    (hδ : (m : Int) * 2 ^ 137 - T * w = δ) (h0 : 0 < δ) (h1 : δ < 2 ^ 64) : T * q % 2 ^ 137 > 2 ^ 137 - 2 ^ 64 := by
  have hg : 0 < g := by
    rcases Nat.eq_zero_or_pos g with h | h
    · rw [h, Nat.zero_mul] at ew; omega
    · exact h
  obtain ⟨ε, hε⟩ : ∃ ε : Int, (p : Int) * 2 ^ 137 - T * q = ε := ⟨_, rfl⟩
  have e : δ = g * ε := by
    rw [← hδ, ← hε, ew, em]; push_cast; ring
  have hgi : (1 : Int) ≤ g := by exact_mod_cast hg
  have hε0 : 0 < ε := by
    by_contra h
    have := mul_nonpos_of_nonneg_of_nonpos (a := (g : Int)) (by omega) (by omega : ε ≤ 0)
    omega
  have hε1 : ε ≤ δ := by rw [e]; exact le_mul_of_one_le_left hε0.le hgi
  obtain ⟨k, hk⟩ : ∃ k : Nat, ε = k := ⟨ε.toNat, by omega⟩
  have hp : 0 < p := by
    rcases Nat.eq_zero_or_pos p with h | h
    · exfalso
      rw [h, hk] at hε
      have : (0 : Int) ≤ T * q := by positivity
      push_cast at hε
      omega
    · exact h
  have hn : T * q + k = p * 2 ^ 137 := by
    have : ((T * q + k : Nat) : Int) = ((p * 2 ^ 137 : Nat) : Int) := by push_cast; omega
    exact_mod_cast this
  obtain ⟨t, ht⟩ : ∃ t, T * q = t := ⟨_, rfl⟩
  rw [ht] at hn ⊢
  clear ht e hε hδ em ew
  omega

theorem solutions_sound (T m w : Nat) (δ : Int) (hw0 : 0 < w) (hw : w < 2 ^ 64) (hδ : (m : Int) * 2 ^ 137 - T * w = δ) (h0 : 0 < δ) (h1 : δ < 2 ^ 64) :
    ∀ (fuel numer denom : Nat) (cf : List Nat) (p2 q2 p1 q1 : Nat) (s σ : Int), continuedFraction fuel numer denom = .ok cf →
      solutions T (convergentsFrom p2 q2 p1 q1 cf) = [] → (s = 1 ∨ s = -1) → (σ = 1 ∨ σ = -1) →
      (T : Int) * q2 - 2 ^ 137 * p2 = s * numer → (T : Int) * q1 - 2 ^ 137 * p1 = -s * denom → q1 * numer + q2 * denom = 2 ^ 137 →
      (p1 : Int) * q2 - p2 * q1 = σ → q1 ≤ w → ∃ g : Nat, w = g * q1 ∧ m = g * p1 := by
  have hsmall : 2 * (δ * w) < 2 ^ 137 := by
    have : (w : Int) < 2 ^ 64 := by exact_mod_cast hw
    have h2 : δ * w ≤ 2 ^ 64 * 2 ^ 64 := mul_le_mul h1.le this.le (by positivity) (by norm_num)
    have h3 : (2 : Int) * (2 ^ 64 * 2 ^ 64) < 2 ^ 137 := by norm_num
    linarith
  intro fuel
  induction fuel with
  | zero => intro numer denom cf p2 q2 p1 q1 s σ h; cases h
  | succ fuel ih =>
    intro numer denom cf p2 q2 p1 q1 s σ hcf hsol hs hσ e2 e1 eN det hq1
    unfold continuedFraction at hcf
    by_cases hd : denom = 0
    · -- the fraction is exact: no approximation is this good
      exfalso
      rw [hd] at e1 eN
      have hq1p : 0 < q1 := by
        rcases Nat.eq_zero_or_pos q1 with h | h
        · rw [h] at eN; norm_num at eN
        · exact h
      have e3 : δ * q1 = (m * q1 - p1 * w) * 2 ^ 137 := by
        rw [← hδ]
        have : (T : Int) * q1 = 2 ^ 137 * p1 := by push_cast at e1; linarith
        linear_combination -(w : Int) * this
      have h3 : 0 < δ * q1 := mul_pos h0 (by exact_mod_cast hq1p)
      have h4 : δ * q1 ≤ δ * w := mul_le_mul_of_nonneg_left (by exact_mod_cast hq1) h0.le
      have h5 : (0 : Int) < m * q1 - p1 * w := by
        by_contra h
        have := mul_nonpos_of_nonpos_of_nonneg (not_lt.1 h) (by positivity : (0 : Int) ≤ 2 ^ 137)
        linarith
      have h6 : (2 : Int) ^ 137 ≤ (m * q1 - p1 * w) * 2 ^ 137 := le_mul_of_one_le_left (by positivity) h5
      linarith
    · rw [if_pos hd] at hcf
      cases hr : continuedFraction fuel denom (numer % denom) with
      | error e => rw [hr] at hcf; cases hcf
      | ok cf' =>
        rw [hr] at hcf
        have hcf' : cf = numer / denom :: cf' := by cases hcf; rfl
        rw [hcf'] at hsol
        unfold convergentsFrom at hsol
        obtain ⟨a, ha⟩ : ∃ a, numer / denom = a := ⟨_, rfl⟩
        obtain ⟨r, hr'⟩ : ∃ r, numer % denom = r := ⟨_, rfl⟩
        have hdiv : numer = a * denom + r := by rw [← ha, ← hr', Nat.mul_comm]; exact (Nat.div_add_mod _ _).symm
        obtain ⟨q, hq⟩ : ∃ q, a * q1 + q2 = q := ⟨_, rfl⟩
        obtain ⟨p, hp⟩ : ∃ p, a * p1 + p2 = p := ⟨_, rfl⟩
        rw [ha] at hsol
        simp only [hq, hp] at hsol
        rw [hr'] at hr
        have hqi : (q : Int) = a * q1 + q2 := by rw [← hq]; push_cast; ring
        have hpi : (p : Int) = a * p1 + p2 := by rw [← hp]; push_cast; ring
        have hni : (numer : Int) = a * denom + r := by rw [hdiv]; push_cast; ring
        have e3 : (T : Int) * q - 2 ^ 137 * p = s * r := by
          rw [hqi, hpi]
          rw [hni] at e2
          linear_combination (a : Int) * e1 + e2
        have eN' : q * denom + q1 * r = 2 ^ 137 := by rw [← eN, ← hq, hdiv]; ring
        have det' : (p : Int) * q1 - p1 * q = -σ := by rw [hqi, hpi, ← det]; ring
        by_cases hqw : q ≤ w
        · unfold solutions at hsol
          rw [if_neg (by omega)] at hsol
          by_cases ht : T * q % 2 ^ 137 > 2 ^ 137 - 2 ^ 64
          · rw [if_pos ht] at hsol; cases hsol
          · rw [if_neg ht] at hsol
            obtain ⟨g, hg1, hg2⟩ := ih denom r cf' p1 q1 p q (-s) (-σ) hr hsol (by rcases hs with h | h <;> rw [h] <;> simp)
              (by rcases hσ with h | h <;> rw [h] <;> simp) e1 (by rw [e3]; ring) eN' det' hqw
            exact absurd (solution_of_multiple hw0 hg1 hg2 hδ h0 h1) ht
        · have := no_good_between (N := 2 ^ 137) (T := T) (p1 := p1) (q1 := q1) (p := p) (q := q) (d := denom) (r := r) (m := m) (w := w) (δ := δ) (s := s)
            (σ := -σ) hs (by rcases hσ with h | h <;> rw [h] <;> simp) (by positivity) (by positivity) (by positivity) e1 e3 (by exact_mod_cast eN') det'
            (by exact_mod_cast hq1) (by omega) (by exact_mod_cast hw0) hδ h0 hsmall
          obtain ⟨g, hg1, hg2⟩ := this
          have hg : 0 ≤ g := by
            by_contra h
            have : g * (q1 : Int) ≤ 0 := mul_nonpos_of_nonpos_of_nonneg (by omega) (by positivity)
            omega
          obtain ⟨k, rfl⟩ : ∃ k : Nat, g = k := ⟨g.toNat, by omega⟩
          exact ⟨k, by exact_mod_cast hg1, by exact_mod_cast hg2⟩

/-- The method of mushtak_lemire.py is sound: if it finds no solution among the convergents there is none at all. -/
theorem solutionsOf_sound {T : Nat} (h : solutionsOf T = .ok []) {w : Nat} (hw0 : 0 < w) (hw : w < 2 ^ 64) : T * w % 2 ^ 137 ≤ 2 ^ 137 - 2 ^ 64 := by
  by_contra hc
  unfold solutionsOf at h
  cases hr : continuedFraction rounds T (2 ^ 137) with
  | error e => rw [hr] at h; cases h
  | ok cf =>
    rw [hr] at h
    have hs : solutions T (convergents cf) = [] := by
      have : (Except.ok (solutions T (convergents cf)) : Exec (List Nat)) = .ok [] := h
      cases hx : solutions T (convergents cf) with
      | nil => rfl
      | cons a l => rw [hx] at this; cases this
    have hlt : T * w % 2 ^ 137 < 2 ^ 137 := Nat.mod_lt _ (by positivity)
    have hdm := Nat.div_add_mod (T * w) (2 ^ 137)
    obtain ⟨m, hm⟩ : ∃ m, T * w / 2 ^ 137 + 1 = m := ⟨_, rfl⟩
    obtain ⟨x, hx⟩ : ∃ x, T * w % 2 ^ 137 = x := ⟨_, rfl⟩
    have e : (m : Int) * 2 ^ 137 - T * w = 2 ^ 137 - x := by
      rw [hx] at hdm
      have h1 : ((2 ^ 137 * (T * w / 2 ^ 137) + x : Nat) : Int) = ((T * w : Nat) : Int) := by rw [hdm]
      have h2 : ((T * w / 2 ^ 137 : Nat) : Int) = m - 1 := by rw [← hm]; push_cast; ring
      rw [Nat.cast_add, Nat.cast_mul, h2] at h1
      push_cast at h1
      linear_combination h1
    rw [hx] at hc hlt
    have hxi : (x : Int) < 2 ^ 137 := by exact_mod_cast hlt
    obtain ⟨g, hg, _⟩ := solutions_sound T m w (2 ^ 137 - x) hw0 hw e (by omega) (by omega) rounds T (2 ^ 137) cf 0 1 1 0 1 1 hr hs (.inl rfl) (.inl rfl)
      (by push_cast; ring) (by push_cast; ring) (by ring) (by norm_num) (Nat.zero_le _)
    omega

/-- All values of `T[q]` in closed form. -/
def entries : List Nat := (range (-342) (-27)).map negEntry ++ (range (-27) 0).map negEntry ++ (range 0 309).map posEntry

theorem allTqs_closed : allTqs = .ok entries := by
  unfold allTqs entries
  rw [mapM_ok (g := negEntry) _ fun q hq => negativeEntry_eq (mem_range.1 hq).1 (by have := (mem_range.1 hq).2; omega),
    mapM_ok (g := negEntry) _ fun q hq => negativeEntry_eq (by have := (mem_range.1 hq).1; omega) (mem_range.1 hq).2,
    mapM_ok (g := posEntry) _ fun q hq => positiveEntry_eq (by have := (mem_range.1 hq).2; omega)]
  rfl

/-- `x = .ok []` as a test. -/
def isNone (x : Exec (List Nat)) : Bool := match x with | .ok [] => true | _ => false

theorem isNone_iff {x : Exec (List Nat)} (h : isNone x = true) : x = .ok [] := by
  unfold isNone at h
  split at h
  · rfl
  · cases h

theorem no_solutions_checked : entries.all (fun t => isNone (solutionsOf t)) = true := by decide +kernel

theorem no_solutions : ∀ t ∈ entries, solutionsOf t = .ok [] := fun t ht => isNone_iff (List.all_eq_true.1 no_solutions_checked t ht)

theorem flatten_nils {α : Type} (l : List α) : (l.map fun _ => ([] : List Nat)).flatten = [] := by
  induction l with
  | nil => rfl
  | cons _ _ ih => rw [List.map_cons, List.flatten_cons, ih]; rfl

theorem collect_none {x : Exec (List Nat)} {l : List Nat} (hx : x = .ok l) (h : ∀ t ∈ l, solutionsOf t = .ok []) :
    (do let ts ← x; let s ← ts.mapM solutionsOf; pure s.flatten : Exec (List Nat)) = .ok [] := by
  simp only [hx, bind, Except.bind, mapM_ok (g := fun _ => []) _ h, flatten_nils]
  rfl

theorem mushtakLemire_eq : mushtakLemire = .ok [] := collect_none allTqs_closed no_solutions

/-! ### analysis.py -/

/-- `smallCheck` in closed form. -/
def smallOK (q : Nat) : Bool :=
  let d := 5 ^ q
  let t := 2 ^ (127 + (Nat.log2 (d - 1) + 1))
  let c := t / d + 1
  decide (c < 2 ^ 128) && decide (c ≥ 2 ^ 127) && decide (c * 2 ^ 127 * d ≤ (2 ^ 127 + 1) * t)

/-- `largeCheck` in closed form. -/
def largeOK (q : Nat) : Bool :=
  let d := 5 ^ q
  let z := Nat.log2 (d - 1) + 1
  let t := 2 ^ (64 + 2 * z)
  let c := t / d + 1
  decide (c > 2 ^ (64 + z)) && decide (c * 2 ^ 64 * d ≤ (2 ^ 64 + 1) * t)

theorem smallCheck_eq {q : Nat} (h : q ≤ 344) (h0 : 0 < q) : smallCheck q = .ok (smallOK q) := by
  unfold smallCheck smallOK
  simp only [(log2_pow5 h h0).1, bind, Except.bind]
  rfl

theorem largeCheck_eq {q : Nat} (h : q ≤ 344) (h0 : 0 < q) : largeCheck q = .ok (largeOK q) := by
  unfold largeCheck largeOK
  simp only [(log2_pow5 h h0).1, bind, Except.bind]
  rfl

theorem analysis_checked : ((range 1 18).map (fun q => smallOK q.toNat)).all id = true ∧ ((range 18 345).map (fun q => largeOK q.toNat)).all id = true := by
  decide +kernel

theorem analysis_eq : analysis = .ok true := by
  unfold analysis
  rw [mapM_ok (f := fun q : Int => smallCheck q.toNat) (g := fun q => smallOK q.toNat) _ fun q hq => smallCheck_eq (by have := mem_range.1 hq; omega) (by have := mem_range.1 hq; omega),
    mapM_ok (f := fun q : Int => largeCheck q.toNat) (g := fun q => largeOK q.toNat) _ fun q hq => largeCheck_eq (by have := mem_range.1 hq; omega) (by have := mem_range.1 hq; omega)]
  show (Except.ok (((range 1 18).map (fun q => smallOK q.toNat)).all id && ((range 18 345).map (fun q => largeOK q.toNat)).all id) : Exec Bool) = .ok true
  rw [analysis_checked.1, analysis_checked.2]
  rfl

/-- What the inequality of analysis.py means: multiplying by `c` and shifting divides exactly. -/
theorem division_by_reciprocal {c K d t w : Nat} (hd : 0 < d) (hc : c = t / d + 1) (h : c * K * d ≤ (K + 1) * t) (hw : w < K) : w * c / t = w / d := by
  have hct : t < c * d := by
    rw [hc, Nat.mul_comm]; exact Nat.lt_mul_div_succ t hd
  have ht : 0 < t := by
    rcases Nat.eq_zero_or_pos t with h0 | h0
    · rw [h0] at h hct
      have : 0 < c * K * d := by
        have : 0 < c * d := hct
        have hK : 0 < K := by omega
        calc 0 < c * d * K := Nat.mul_pos this hK
          _ = c * K * d := by ring
      omega
    · exact h0
  obtain ⟨u, hu⟩ : ∃ u, w / d = u := ⟨_, rfl⟩
  have h1 : u * d ≤ w := by rw [← hu]; exact Nat.div_mul_le_self w d
  have h2 : w + 1 ≤ (u + 1) * d := by
    have := Nat.lt_mul_div_succ w hd
    rw [hu] at this
    rw [Nat.mul_comm]; omega
  rw [hu]
  refine Nat.div_eq_of_lt_le ?_ ?_
  · -- u t ≤ w c
    have : u * t * d ≤ w * c * d := by
      calc u * t * d = (u * d) * t := by ring
        _ ≤ w * t := Nat.mul_le_mul_right _ h1
        _ ≤ w * (c * d) := Nat.mul_le_mul_left _ hct.le
        _ = w * c * d := by ring
    exact Nat.le_of_mul_le_mul_right this hd
  · -- w c < (u+1) t
    have hK : 0 < K := by omega
    have : w * c * (K * d) < (u + 1) * t * (K * d) := by
      calc w * c * (K * d) = w * (c * K * d) := by ring
        _ ≤ w * ((K + 1) * t) := Nat.mul_le_mul_left _ h
        _ = (w * K + w) * t := by ring
        _ < (w * K + K) * t := Nat.mul_lt_mul_of_pos_right (by omega) ht
        _ = (w + 1) * (K * t) := by ring
        _ ≤ (u + 1) * d * (K * t) := Nat.mul_le_mul_right _ h2
        _ = (u + 1) * t * (K * d) := by ring
    exact Nat.lt_of_mul_lt_mul_right this

end FastFloat.Script
