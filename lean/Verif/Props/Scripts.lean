import Verif.Proofs.Scripts
import Verif.Proofs.TableFacts
import Mathlib.Data.Rat.Floor
import Mathlib.Tactic.FieldSimp
/-
# C77, C78: the power table and the scripts that generate and check it
-/
set_option autoImplicit false
namespace FastFloat
open Script

/-- **C77**: table_generation.py prints exactly the table of fast_table.h. -/
theorem C77_table_regenerated : tableGeneration = .ok powerOfFive128 := by
  rw [tableGeneration_closed, table_regenerated]

theorem tRatioQ (q : Int) : (tNum q : ℚ) / tDen q = 5 ^ q * 2 ^ (-tExp q) := by
  unfold tNum tDen
  by_cases h : 0 ≤ q
  · rw [if_pos h, if_pos h]
    obtain ⟨n, rfl⟩ : ∃ n : Nat, q = n := ⟨q.toNat, by omega⟩
    rw [Int.toNat_natCast, zpow_natCast]
    obtain ⟨e, he⟩ : ∃ e, tExp n = e := ⟨_, rfl⟩
    rw [he]
    rcases le_total 0 e with h1 | h1
    · obtain ⟨k, rfl⟩ : ∃ k : Nat, e = k := ⟨e.toNat, by omega⟩
      rw [show (-(k : Int)).toNat = 0 by omega, Int.toNat_natCast, zpow_neg, zpow_natCast]
      push_cast
      rw [mul_one]; rfl
    · obtain ⟨k, rfl⟩ : ∃ k : Nat, e = -(k : Int) := ⟨(-e).toNat, by omega⟩
      rw [show (-(k : Int)).toNat = 0 by omega, neg_neg, Int.toNat_natCast, zpow_natCast]
      push_cast
      rw [div_one]
  · rw [if_neg h, if_neg h]
    have he : 0 ≤ -tExp q := by
      unfold tExp
      have : (217706 * q).fdiv 65536 ≤ q * 3 := by
        rw [Int.fdiv_eq_ediv_of_nonneg _ (by norm_num)]
        omega
      omega
    obtain ⟨n, rfl⟩ : ∃ n : Nat, q = -(n : Int) := ⟨(-q).toNat, by omega⟩
    obtain ⟨k, hk⟩ : ∃ k : Nat, -tExp (-(n : Int)) = k := ⟨(-tExp (-(n : Int))).toNat, by omega⟩
    rw [hk, neg_neg, Int.toNat_natCast, Int.toNat_natCast, zpow_neg, zpow_natCast, zpow_natCast]
    push_cast
    rw [div_eq_mul_inv, mul_comm]

theorem tDen_posQ (q : Int) : (0 : ℚ) < tDen q := by
  unfold tDen; split <;> exact_mod_cast Nat.pos_of_ne_zero (by positivity)

/-- **C77**: what the table contains.  For every `q` from -342 to 308 the two words are the 128 leading bits of `5^q`, scaled by a power of two into
`[2^127, 2^128)`: rounded up for the small negative powers (so that multiplying is an exact division), truncated for all others. -/
theorem C77_table_entries (q : Int) (h1 : -342 ≤ q) (h2 : q ≤ 308) :
    ∃ hi lo : Nat, powerOfFive128[2 * (q + 342).toNat]? = some hi ∧ powerOfFive128[2 * (q + 342).toNat + 1]? = some lo ∧ hi < 2 ^ 64 ∧ lo < 2 ^ 64 ∧
      ∃ k : Int, (2 : ℚ) ^ 127 ≤ 5 ^ q * 2 ^ k ∧ (5 : ℚ) ^ q * 2 ^ k < 2 ^ 128 ∧
        ((hi * 2 ^ 64 + lo : Nat) : Int) = if -27 ≤ q ∧ q < 0 then ⌈(5 : ℚ) ^ q * 2 ^ k⌉ else ⌊(5 : ℚ) ^ q * 2 ^ k⌋ := by
  obtain ⟨i, hi⟩ : ∃ i : Nat, q = -342 + i := ⟨(q + 342).toNat, by omega⟩
  obtain ⟨a, b, c, ha, hb, hc⟩ := checkTable_get certs powerOfFive128 (-342) table_checked i (by rw [certs_length]; omega)
  rw [← hi] at hc
  obtain ⟨c1, c2, _, ⟨c3, c4⟩, c5, _, c6, _⟩ := hc
  have hd := tDen_posQ q
  refine ⟨a, b, by rw [show (q + 342).toNat = i by omega]; exact ha, by rw [show (q + 342).toNat = i by omega]; exact hb, c1, c2, -tExp q, ?_, ?_, ?_⟩
  · rw [← tRatioQ, le_div_iff₀ hd]; exact_mod_cast c3
  · rw [← tRatioQ, div_lt_iff₀ hd]; exact_mod_cast c4
  · rw [← tRatioQ]
    by_cases h : -27 ≤ q ∧ q < 0
    · rw [if_pos h]
      obtain ⟨u1, u2, _⟩ := c5 h
      symm
      rw [Int.ceil_eq_iff, lt_div_iff₀ hd, div_le_iff₀ hd]
      have u1' : (((a * 2 ^ 64 + b) * tDen q : Nat) : ℚ) < ((tNum q + tDen q : Nat) : ℚ) := by exact_mod_cast u1
      have u2' : ((tNum q : Nat) : ℚ) < (((a * 2 ^ 64 + b) * tDen q : Nat) : ℚ) := by exact_mod_cast u2
      rw [Nat.cast_mul, Nat.cast_add (tNum q)] at u1'
      rw [Nat.cast_mul] at u2'
      rw [Int.cast_natCast]
      constructor <;> linarith
    · rw [if_neg h]
      obtain ⟨u1, u2, _⟩ := c6 h
      symm
      rw [Int.floor_eq_iff, le_div_iff₀ hd, div_lt_iff₀ hd]
      have u1' : (((a * 2 ^ 64 + b) * tDen q : Nat) : ℚ) ≤ ((tNum q : Nat) : ℚ) := by exact_mod_cast u1
      have u2' : ((tNum q : Nat) : ℚ) < (((a * 2 ^ 64 + b + 1) * tDen q : Nat) : ℚ) := by exact_mod_cast u2
      rw [Nat.cast_mul] at u1'
      rw [Nat.cast_mul, Nat.cast_add (a * 2 ^ 64 + b) 1] at u2'
      rw [Int.cast_natCast]
      exact ⟨u1', by exact_mod_cast u2'⟩

/-- **C78**: mushtak_lemire.py prints "No solutions!". -/
theorem C78_no_solutions : mushtakLemire = .ok [] := mushtakLemire_eq

/-- **C78**: the method of the script is sound, for every `T`: it looks at the denominators of the convergents of `T / 2^137` only, but if none of them is a
solution then no 64-bit `w` is. -/
theorem C78_method_sound (T : Nat) (h : solutionsOf T = .ok []) (w : Nat) (hw : w < 2 ^ 64) : ¬ T * w % 2 ^ 137 > 2 ^ 137 - 2 ^ 64 := by
  rcases Nat.eq_zero_or_pos w with h0 | h0
  · rw [h0]; norm_num
  · exact not_lt.2 (solutionsOf_sound h h0 hw)

theorem entries_table : entries.flatMap format = powerOfFive128 := by decide +kernel

theorem flatMap_format_get : ∀ (l : List Nat) (i : Nat), (l.flatMap format)[2 * i]? = l[i]?.map (· / 2 ^ 64) ∧ (l.flatMap format)[2 * i + 1]? = l[i]?.map (· % 2 ^ 64) := by
  intro l
  induction l with
  | nil => intro i; exact ⟨rfl, rfl⟩
  | cons x l ih =>
    intro i
    cases i with
    | zero => exact ⟨rfl, rfl⟩
    | succ i => exact ih i

/-- **C78**: so for every power of the table and every 64-bit significand `w`, replacing the 128-bit entry `T` by `T + 1` (the true power lies between the
two) does not change the bits of `w·T` above the lowest 137: the truncation of the table never changes the rounding. -/
theorem C78_no_carry (i hi lo : Nat) (h1 : powerOfFive128[2 * i]? = some hi) (h2 : powerOfFive128[2 * i + 1]? = some lo) (w : Nat) (hw : w < 2 ^ 64) :
    (hi * 2 ^ 64 + lo) * w / 2 ^ 137 = (hi * 2 ^ 64 + lo + 1) * w / 2 ^ 137 := by
  obtain ⟨g1, g2⟩ := flatMap_format_get entries i
  rw [entries_table, h1] at g1
  rw [entries_table, h2] at g2
  cases ht : entries[i]? with
  | none => rw [ht] at g1; cases g1
  | some T =>
    rw [ht] at g1 g2
    have e1 : hi = T / 2 ^ 64 := by simpa using g1
    have e2 : lo = T % 2 ^ 64 := by simpa using g2
    have eT : hi * 2 ^ 64 + lo = T := by rw [e1, e2, Nat.mul_comm]; exact Nat.div_add_mod T (2 ^ 64)
    rw [eT, Nat.succ_mul]
    have := C78_method_sound T (no_solutions T (List.mem_of_getElem? ht)) w hw
    obtain ⟨x, hx⟩ : ∃ x, T * w = x := ⟨_, rfl⟩
    rw [hx] at this ⊢
    clear g1 g2 e1 e2 eT hx
    omega

/-- **C78**: analysis.py prints "all good". -/
theorem C78_all_good : analysis = .ok true := analysis_eq

/-- **C78**: what that means.  With `z` the number of bits of `d = 5^q`, rounded up, multiplying by the integer `c` just above `2^(127+z) / d` and
shifting right divides by `5^q` exactly, for all 127-bit numbers if `q ≤ 17`; with `2^(64+2z)` it does so for all 64-bit numbers if `18 ≤ q ≤ 344`. -/
theorem C78_exact_division (q z : Nat) (h0 : 0 < q) (h : q ≤ 344) (hz1 : 5 ^ q ≤ 2 ^ z) (hz2 : 2 ^ (z - 1) < 5 ^ q) :
    (q ≤ 17 → ∀ w < 2 ^ 127, w * (2 ^ (127 + z) / 5 ^ q + 1) / 2 ^ (127 + z) = w / 5 ^ q) ∧
      (18 ≤ q → ∀ w < 2 ^ 64, w * (2 ^ (64 + 2 * z) / 5 ^ q + 1) / 2 ^ (64 + 2 * z) = w / 5 ^ q) := by
  have h5 : 5 ≤ 5 ^ q := by
    calc 5 = 5 ^ 1 := rfl
      _ ≤ 5 ^ q := Nat.pow_le_pow_right (by decide) h0
  have hz : Nat.log2 (5 ^ q - 1) + 1 = z := by
    have hlt : 5 ^ q - 1 < 2 ^ (Nat.log2 (5 ^ q - 1) + 1) := Nat.lt_log2_self
    have hge : 2 ^ Nat.log2 (5 ^ q - 1) ≤ 5 ^ q - 1 := Nat.log2_self_le (by omega)
    have a1 : 2 ^ Nat.log2 (5 ^ q - 1) < 2 ^ z := by omega
    have a2 : 2 ^ (z - 1) < 2 ^ (Nat.log2 (5 ^ q - 1) + 1) := by omega
    have b1 := (Nat.pow_lt_pow_iff_right (a := 2) (by decide)).1 a1
    have b2 := (Nat.pow_lt_pow_iff_right (a := 2) (by decide)).1 a2
    omega
  have hd : 0 < 5 ^ q := by positivity
  constructor
  · intro h17 w hw
    have := List.all_eq_true.1 analysis_checked.1 (smallOK q) (List.mem_map.2 ⟨(q : Int), mem_range.2 (by omega), by rw [Int.toNat_natCast]⟩)
    unfold smallOK at this
    simp only [hz, id, Bool.and_eq_true, decide_eq_true_eq] at this
    exact division_by_reciprocal hd rfl this.2 hw
  · intro h18 w hw
    have := List.all_eq_true.1 analysis_checked.2 (largeOK q) (List.mem_map.2 ⟨(q : Int), mem_range.2 (by omega), by rw [Int.toNat_natCast]⟩)
    unfold largeOK at this
    simp only [hz, id, Bool.and_eq_true, decide_eq_true_eq] at this
    exact division_by_reciprocal hd rfl this.2 hw

/-- Concrete cases: the entry for `5^-1` is `⌈2^130/5⌉` (the first word is 0xcccccccccccccccc), `solutionsOf` of a bad table entry does find a solution, and
dividing by 25. -/
example : powerOfFive128[2 * (-1 + 342 : Int).toNat]? = some 0xcccccccccccccccc ∧ solutionsOf (2 ^ 137 - 1) = .ok [1, 1] ∧
    (25 : Nat) ≤ 2 ^ 5 ∧ 1234567 * (2 ^ 132 / 25 + 1) / 2 ^ 132 = 49382 := by
  refine ⟨by decide +kernel, by rfl, by norm_num, by norm_num⟩

end FastFloat
