import Verif.Spec.Cell
import Verif.Props.Narrow
import Verif.Props.Pow10Order
/-!
# C91: which texts give which value
-/
set_option autoImplicit false

namespace FastFloat
open NumSpec FloatSpec ApiSpec

theorem inf_even (T : FloatTy) : T.spec.inf % 2 = 0 := by cases T <;> decide +kernel

theorem spec_inf_pos (T : FloatTy) : 0 < T.spec.inf := by cases T <;> decide +kernel

/-- The half-way points are in order. -/
theorem mid_lt (T : FloatTy) {a b : Nat} (h : a < b) : T.spec.mid a < T.spec.mid b := by
  unfold Format.mid
  have h1 := sval_lt T h
  have h2 := sval_lt T (show a + 1 < b + 1 by omega)
  linarith

theorem mid_le (T : FloatTy) {a b : Nat} (h : a ≤ b) : T.spec.mid a ≤ T.spec.mid b := by
  rcases Nat.lt_or_eq_of_le h with h | rfl
  · exact (mid_lt T h).le
  · exact le_rfl

/-- The last half-way point is the overflow threshold. -/
theorem mid_last (T : FloatTy) : T.spec.mid (T.spec.inf - 1) = T.spec.overflowThreshold := by
  unfold Format.mid
  have := val_inf_mid T
  rw [Nat.sub_add_cancel (spec_inf_pos T)]
  linarith

/-- No number belongs to two magnitudes. -/
theorem cell_unique (T : FloatTy) {x : ℚ} {a b : Nat} (ha : T.spec.Cell x a) (hb : T.spec.Cell x b) : a = b := by
  have key : ∀ {a b : Nat}, T.spec.Cell x a → T.spec.Cell x b → ¬ a < b := by
    intro a b ha hb hab
    have hfin := hb.finite
    obtain ⟨j, rfl⟩ : ∃ j, b = j + 1 := ⟨b - 1, by omega⟩
    have h1 := ha.below (by omega)
    have h2 := hb.above j rfl
    have h3 := mid_le T (show a ≤ j by omega)
    have h4 : x = T.spec.mid j := le_antisymm (h1.trans h3) h2
    rcases Nat.lt_or_ge a j with h | h
    · have := mid_lt T h; linarith
    · have : a = j := by omega
      subst this
      have := ha.onUpper (by omega) h4
      have := hb.onLower a rfl h4
      omega
  rcases Nat.lt_trichotomy a b with h | h | h
  · exact absurd h (key ha hb)
  · exact h
  · exact absurd h (key hb ha)

/-- **C91**: the cells cover the numbers and do not overlap: every number belongs to exactly one magnitude. -/
theorem C91_partition (T : FloatTy) (x : ℚ) : ∃! k, T.spec.Cell x k := by
  classical
  have hex : ∃ k, k = T.spec.inf ∨ x < T.spec.mid k ∨ (x = T.spec.mid k ∧ k % 2 = 0) := ⟨_, Or.inl rfl⟩
  have hle := Nat.find_min' hex (Or.inl rfl)
  have hspec := Nat.find_spec hex
  have hmin := fun {j : Nat} (h : j < Nat.find hex) => Nat.find_min hex h
  generalize Nat.find hex = K at hle hspec hmin
  have hc : T.spec.Cell x K := by
    refine ⟨hle, fun j hj => ?_, fun hK => ?_, fun j hj he => ?_, fun hK he => ?_⟩
    · have := hmin (show j < K by omega)
      rw [not_or, not_or, not_lt] at this
      exact this.2.1
    · rcases hspec with h | h | h
      · omega
      · exact h.le
      · exact h.1.le
    · have := hmin (show j < K by omega)
      rw [not_or, not_or, not_and] at this
      have := this.2.2 he
      omega
    · rcases hspec with h | h | h
      · omega
      · exact absurd he (ne_of_lt h)
      · exact h.2
  exact ⟨K, hc, fun k hk => cell_unique T hk hc⟩

/-- The correctly rounded magnitude is the one a number belongs to. -/
theorem cell_of_rounds (T : FloatTy) {x : ℚ} {k : Nat} (h : T.spec.RoundsTo x k) : T.spec.Cell x k := by
  rcases Nat.lt_or_ge k T.spec.inf with hk | hk
  · have hm := rounds_mids h hk
    have h0 := h
    rcases h with ⟨_, h⟩ | ⟨h1, _, h3⟩
    · omega
    refine ⟨hk.le, fun j hj => ?_, fun _ => ?_, fun j hj he => ?_, fun _ he => ?_⟩
    · have := hm.2 j hj
      unfold Format.mid; rw [hj]; linarith
    · have := hm.1
      unfold Format.mid; linarith
    · have hlt : j < k := by omega
      rcases h3 j (by omega) (by omega) with h | h
      · exfalso
        unfold Format.mid at he; rw [hj] at he
        have := sval_lt T hlt
        rw [abs_of_neg (by linarith), abs_of_pos (by linarith)] at h
        linarith
      · exact h.2
    · have hlt : k < k + 1 := by omega
      have hs := sval_lt T hlt
      rcases Nat.lt_or_ge (k + 1) T.spec.inf with hb | hb
      · rcases h3 (k + 1) hb (by omega) with h | h
        · exfalso
          unfold Format.mid at he
          rw [abs_of_pos (by linarith), abs_of_neg (by linarith)] at h
          linarith
        · exact h.2
      · have e : k = T.spec.inf - 1 := by omega
        rw [e, mid_last] at he
        linarith
  · have hinf : k = T.spec.inf := by
      rcases h with ⟨_, h⟩ | ⟨_, h, _⟩
      · exact h
      · omega
    have ht : T.spec.overflowThreshold ≤ x := (roundsTo_inf h).1 hinf
    refine ⟨hinf.le, fun j hj => ?_, fun h => by omega, fun _ _ _ => ?_, fun h => by omega⟩
    · rw [show j = T.spec.inf - 1 by omega, mid_last]; exact ht
    · rw [hinf]; exact inf_even T

/-- The two descriptions agree as soon as the number has a rounded magnitude. -/
theorem rounds_iff_cell (T : FloatTy) {x : ℚ} {k k' : Nat} (h : T.spec.RoundsTo x k') : T.spec.RoundsTo x k ↔ T.spec.Cell x k := by
  constructor
  · exact cell_of_rounds T
  · intro hc
    rw [cell_unique T hc (cell_of_rounds T h)]; exact h

theorem bits_inj (T : FloatTy) {neg neg' : Bool} {a b : Nat} (ha : a ≤ T.spec.inf) (hb : b ≤ T.spec.inf)
    (h : (if neg then T.spec.signBit else 0) + a = (if neg' then T.spec.signBit else 0) + b) : neg = neg' ∧ a = b := by
  have hs : T.spec.inf < T.spec.signBit := by cases T <;> decide +kernel
  cases neg <;> cases neg' <;> simp at h ⊢ <;> omega

theorem cells_of_bits (T : FloatTy) {neg : Bool} {x : ℚ} {v : Option Nat} (h : ∃ b, v = some b ∧ T.spec.RoundsToBits neg x b) (k : Nat) :
    (k ≤ T.spec.inf ∧ v = some ((if neg then T.spec.signBit else 0) + k)) ↔ T.spec.Cell x k := by
  obtain ⟨b, rfl, m, hm, rfl⟩ := h
  have hc := cell_of_rounds T hm
  constructor
  · rintro ⟨hk, h⟩
    have := (bits_inj T hc.finite hk (Option.some.inj h)).2
    rw [← this]; exact hc
  · intro h
    refine ⟨h.finite, ?_⟩
    rw [cell_unique T h hc]

/-- **C91**: an accepted number is stored as the magnitude `k`, with its sign, if and only if it belongs to `k`: it lies between the half-way points
around `k`, and not on one of them unless `k` is even.  From the last half-way point on it is infinity. -/
theorem C91_cells (c : Cfg) {ct : CharType} (T : FloatTy) (hT : T ≠ .float16) {s : List Nat} (opt : Options) (hin : Input ct s) (hp : (grammar c opt).PointOK)
    {n : Numeral} {rest : List Nat} {r : ApiFloat} (h : AcceptsNumber c ct T s opt n rest r) (hm : Moderate n) (k : Nat) :
    (k ≤ T.spec.inf ∧ r.value = some ((if n.neg then T.spec.signBit else 0) + k)) ↔ T.spec.Cell n.value k := by
  apply cells_of_bits
  cases T with
  | double => exact C01_double_correctly_rounded c opt hin hp h hm
  | float => exact C02_float_correctly_rounded c opt hin hp h hm
  | bfloat16 => exact C03_bfloat16_correctly_rounded c opt hin hp h hm
  | float16 => exact absurd rfl hT

/-- **C91 for float16**: the same, except on the nine half-way points of C04. -/
theorem C91_cells_float16 (c : Cfg) {ct : CharType} {s : List Nat} (opt : Options) (hin : Input ct s) (hp : (grammar c opt).PointOK)
    {n : Numeral} {rest : List Nat} {r : ApiFloat} (h : AcceptsNumber c ct .float16 s opt n rest r) (hm : Moderate n) (hx : ¬ HalfException 16 n.value) (k : Nat) :
    (k ≤ half.inf ∧ r.value = some ((if n.neg then half.signBit else 0) + k)) ↔ half.Cell n.value k :=
  cells_of_bits .float16 (C04_float16_correctly_rounded_partial c opt hin hp h hm hx) k

/-- **C91**: exactly half way between two neighbours the even one is stored; anything closer to one of them gives that one. -/
theorem C91_neighbours (c : Cfg) {ct : CharType} (T : FloatTy) (hT : T ≠ .float16) {s : List Nat} (opt : Options) (hin : Input ct s) (hp : (grammar c opt).PointOK)
    {n : Numeral} {rest : List Nat} {r : ApiFloat} (h : AcceptsNumber c ct T s opt n rest r) (hm : Moderate n) {k : Nat} (hk : k < T.spec.inf)
    (h1 : T.spec.val k ≤ n.value) (h2 : n.value ≤ T.spec.val (k + 1)) :
    r.value = some ((if n.neg then T.spec.signBit else 0) + if n.value < T.spec.mid k ∨ (n.value = T.spec.mid k ∧ k % 2 = 0) then k else k + 1) := by
  have hs := sval_lt T (show k < k + 1 by omega)
  refine ((C91_cells c T hT opt hin hp h hm _).2 ?_).2
  split
  · rename_i hc
    refine ⟨hk.le, fun j hj => ?_, fun _ => ?_, fun j hj he => ?_, fun _ he => ?_⟩
    · have := sval_lt T (show j < k by omega)
      unfold Format.mid; rw [hj]; linarith
    · rcases hc with hc | hc
      · exact hc.le
      · exact hc.1.le
    · have := sval_lt T (show j < k by omega)
      unfold Format.mid at he; rw [hj] at he; linarith
    · rcases hc with hc | hc
      · exact absurd he (ne_of_lt hc)
      · exact hc.2
  · rename_i hc
    rw [not_or, not_lt, not_and] at hc
    refine ⟨hk, fun j hj => ?_, fun hk1 => ?_, fun j hj he => ?_, fun hk1 he => ?_⟩
    · rw [show j = k by omega]; exact hc.1
    · have := sval_lt T (show k + 1 < k + 1 + 1 by omega)
      unfold Format.mid; linarith
    · rw [show j = k by omega] at he
      have := hc.2 he; omega
    · have := sval_lt T (show k + 1 < k + 1 + 1 by omega)
      unfold Format.mid at he; linarith

/-- **C91**: `integer_times_pow10` cuts the numbers at the same points. -/
theorem C91_integer_times_pow10 (T : FloatTy) (hT : T ≠ .float16) (c : Cfg) (I : IntType) {m : Int} (hm : Allowed I m) (e : Int) (k : Nat) :
    (k ≤ T.spec.inf ∧ integerTimesPow10Any c T.fmt I m e = .ok ((if m < 0 then T.spec.signBit else 0) + k)) ↔ T.spec.Cell (|(m : ℚ)| * 10 ^ e) k := by
  have key : ∃ b, integerTimesPow10Any c T.fmt I m e = .ok b ∧ T.spec.RoundsToBits (decide (m < 0)) (|(m : ℚ)| * 10 ^ e) b := by
    unfold Allowed at hm
    unfold integerTimesPow10Any
    by_cases hs : I.signed
    · rw [if_pos hs] at hm ⊢
      rw [toInt64_of_range hm.1.le hm.2]
      exact C33_integer_times_pow10_signed_partial c T hT m hm.1 hm.2 e
    · rw [if_neg hs] at hm ⊢
      rw [Int.emod_eq_of_lt hm.1 hm.2]
      obtain ⟨b, h1, h2⟩ := C32_integer_times_pow10_unsigned c T hT m.toNat (by omega) e
      have e1 : (m.toNat : ℚ) = |(m : ℚ)| := by
        rw [abs_of_nonneg (by exact_mod_cast hm.1)]
        exact_mod_cast Int.toNat_of_nonneg hm.1
      rw [e1] at h2
      exact ⟨b, h1, b, h2, by simp [not_lt.2 hm.1]⟩
  obtain ⟨b, hb, hr⟩ := key
  have := cells_of_bits T ⟨b, rfl, hr⟩ k (v := some b)
  rw [← this, hb]
  simp

/-- **C91**: `integer_times_pow10` for `float16_t`: the same, except on the sixteen half-way points of C32. -/
theorem C91_integer_times_pow10_float16 (c : Cfg) (I : IntType) {m : Int} (hm : Allowed I m) (e : Int) (hx : ¬ HalfException 30 (|(m : ℚ)| * 10 ^ e)) (k : Nat) :
    (k ≤ half.inf ∧ integerTimesPow10Any c binary16 I m e = .ok ((if m < 0 then half.signBit else 0) + k)) ↔ half.Cell (|(m : ℚ)| * 10 ^ e) k := by
  have key : ∃ b, integerTimesPow10Any c binary16 I m e = .ok b ∧ half.RoundsToBits (decide (m < 0)) (|(m : ℚ)| * 10 ^ e) b := by
    unfold Allowed at hm
    unfold integerTimesPow10Any
    by_cases hs : I.signed
    · rw [if_pos hs] at hm ⊢
      rw [toInt64_of_range hm.1.le hm.2]
      obtain ⟨b, h1, h2, _⟩ := C33_float16_sharp c m hm.1 hm.2 e
      exact ⟨b, h1, h2.2 hx⟩
    · rw [if_neg hs] at hm ⊢
      rw [Int.emod_eq_of_lt hm.1 hm.2]
      have e1 : (m.toNat : ℚ) = |(m : ℚ)| := by
        rw [abs_of_nonneg (by exact_mod_cast hm.1)]
        exact_mod_cast Int.toNat_of_nonneg hm.1
      obtain ⟨b, h1, h2⟩ := C32_integer_times_pow10_float16_partial c m.toNat (by omega) e (by rw [e1]; exact hx)
      rw [e1] at h2
      exact ⟨b, h1, b, h2, by simp [not_lt.2 hm.1]⟩
  obtain ⟨b, hb, hr⟩ := key
  have := cells_of_bits .float16 ⟨b, rfl, hr⟩ k (v := some b)
  have h2 : (k ≤ half.inf ∧ some b = some ((if decide (m < 0) = true then half.signBit else 0) + k)) ↔ half.Cell (|(m : ℚ)| * 10 ^ e) k := this
  rw [← h2, hb]
  simp

/-! ### The hypotheses are met -/

/-- `0.1` as `float`. -/
example : single.Cell tenthNumeral.value 1036831949 :=
  (C91_cells Cfg.x64 .float (by decide) {} tenth_input sample_point tenth_accepts (Or.inl (by decide)) 1036831949).1 ⟨by decide +kernel, rfl⟩
/-- `2049.0000000000000000000001` as `float16_t`. -/
example : (26625 ≤ half.inf ∧ (some 26625 : Option Nat) = some ((if halfNumeral.neg then half.signBit else 0) + 26625)) ↔ half.Cell halfNumeral.value 26625 :=
  C91_cells_float16 Cfg.x64 {} half_input sample_point half_accepts (Or.inl (by decide)) (by
    rintro ⟨j, _, h1, h2⟩
    rw [value_of (n := halfNumeral) (D := 20490000000000000000000001) (E := -22) (by decide) (by decide)] at h2
    have h3 : (2 * (j : ℚ) + 1) / 2 ^ 25 ≤ 33 / 2 ^ 25 := by
      have : (j : ℚ) ≤ 16 := by exact_mod_cast h1
      gcongr; linarith
    rw [← h2] at h3
    norm_num at h3) 26625
/-- `16777217.00000000000000000001` as `float`: just above the half-way point of `16777216` and `16777218`. -/
example : (some 1266679809 : Option Nat) = some (0 + if floatNumeral.value < single.mid 1266679808 ∨ (floatNumeral.value = single.mid 1266679808 ∧ 1266679808 % 2 = 0) then
    1266679808 else 1266679808 + 1) := by
  have hv : floatNumeral.value = 16777217 + 1 / 10 ^ 20 := by
    rw [value_of (n := floatNumeral) (D := 1677721700000000000000000001) (E := -20) (by decide) (by decide)]; norm_num
  refine C91_neighbours Cfg.x64 .float (by decide) {} float_input sample_point float_accepts (Or.inl (by decide)) (k := 1266679808) (by decide +kernel) ?_ ?_
  · rw [hv]; norm_num [FloatTy.spec, Format.val, single, Format.bias]
  · rw [hv]; norm_num [FloatTy.spec, Format.val, single, Format.bias]
example := C91_integer_times_pow10 .float (by decide) Cfg.x64 int64 (m := -15) (by unfold Allowed; decide) (-1) 0x3fc00000

/-- `-3·10^-6` as `float16_t`. -/
example : (50 ≤ half.inf ∧ integerTimesPow10Any Cfg.x64 binary16 int64 (-3) (-6) = .ok ((if (-3 : Int) < 0 then half.signBit else 0) + 50)) ↔ half.Cell (|((-3 : Int) : ℚ)| * 10 ^ (-6 : Int)) 50 :=
  C91_integer_times_pow10_float16 Cfg.x64 int64 (by unfold Allowed; decide) (-6) (by
    rintro ⟨j, _, hj, h⟩
    norm_num at h
    have h5 : (3 * 2 ^ 25 : ℚ) = (2 * j + 1) * 10 ^ 6 := by linarith
    have h6 : (3 * 2 ^ 25 : Nat) = (2 * j + 1) * 10 ^ 6 := by exact_mod_cast h5
    omega) 50

end FastFloat
