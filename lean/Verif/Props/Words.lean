import Verif.Proofs.IntFast
/-
# C69: the word helpers

`leading_zeroes`, `countr_zero_32`, `full_multiplication` and `byteswap` each have a portable implementation (used in constant evaluation and on compilers
without the intrinsic) and a native one.  All of them are stated here in plain arithmetic, for every word.
-/
set_option linter.unusedSimpArgs false
set_option autoImplicit false
namespace FastFloat

/-- The effect of one stage of the trailing zero count on `2^j * odd`. -/
theorem ctzStage_eq (k j m acc : Nat) :
    ctzStage k k (2 ^ j * (2 * m + 1), acc) = (2 ^ (if k ≤ j then j - k else j) * (2 * m + 1), if k ≤ j then acc ||| k else acc) := by
  by_cases h : k ≤ j
  · have e : 2 ^ j * (2 * m + 1) = 2 ^ k * (2 ^ (j - k) * (2 * m + 1)) := by
      rw [← Nat.mul_assoc, ← pow_add, Nat.add_sub_cancel' h]
    rw [if_pos h, if_pos h, ctzStage_pos (by rw [e]; exact Nat.mul_mod_right _ _), e, Nat.mul_div_cancel_left _ (Nat.two_pow_pos k)]
  · rw [if_neg h, if_neg h, ctzStage_neg]
    obtain ⟨d, rfl⟩ : ∃ d, k = j + 1 + d := ⟨k - j - 1, by omega⟩
    intro hm
    have h1 : 2 ^ (j + 1 + d) ∣ 2 ^ j * (2 * m + 1) := Nat.dvd_of_mod_eq_zero hm
    rw [show 2 ^ (j + 1 + d) = 2 ^ j * (2 * 2 ^ d) by rw [pow_add, pow_succ]; ring] at h1
    have h2 := Nat.dvd_of_mul_dvd_mul_left (Nat.two_pow_pos j) h1
    have h3 : 2 ∣ 2 * m + 1 := dvd_trans (Dvd.intro _ rfl) h2
    omega

theorem ctzGeneric_eq (j m : Nat) (hj : j < 32) : countrZeroGeneric32 (2 ^ j * (2 * m + 1)) = j := by
  rw [ctzGeneric_stages _ (by positivity)]
  simp only [ctzStage_eq]
  have key : ∀ j, j < 32 → (let j1 := if 16 ≤ j then j - 16 else j; let a1 := if 16 ≤ j then 0 ||| 16 else 0
      let j2 := if 8 ≤ j1 then j1 - 8 else j1; let a2 := if 8 ≤ j1 then a1 ||| 8 else a1
      let j3 := if 4 ≤ j2 then j2 - 4 else j2; let a3 := if 4 ≤ j2 then a2 ||| 4 else a2
      let j4 := if 2 ≤ j3 then j3 - 2 else j3; let a4 := if 2 ≤ j3 then a3 ||| 2 else a3
      if 1 ≤ j4 then a4 ||| 1 else a4) = j := by decide
  exact key j hj

/-- Every positive number is a power of two times an odd number. -/
theorem odd_part : ∀ x : Nat, 0 < x → ∃ j m, x = 2 ^ j * (2 * m + 1) := by
  intro x
  induction x using Nat.strong_induction_on with
  | _ x ih =>
    intro hx
    rcases Nat.even_or_odd' x with ⟨k, rfl | rfl⟩
    · obtain ⟨j, m, e⟩ := ih k (by omega) (by omega)
      exact ⟨j + 1, m, by rw [e, pow_succ]; ring⟩
    · exact ⟨0, k, by simp⟩

/-- **C69**, `leading_zeroes`: for a nonzero 64-bit word, the number of zero bits above the highest one bit. -/
theorem C69_leading_zeroes (c : Cfg) {x : Nat} (h0 : 0 < x) (h : x < 2 ^ 64) :
    ∃ n, leadingZeroes c x = .ok n ∧ n < 64 ∧ 2 ^ (63 - n) ≤ x ∧ x < 2 ^ (64 - n) := by
  refine ⟨_, leadingZeroes_eq c x (by omega) h, by omega, ?_, ?_⟩
  · obtain ⟨_, _, hl⟩ := normalise x (by omega) h
    rw [show 63 - (63 - Nat.log2 x) = Nat.log2 x by omega]
    exact Nat.log2_self_le (by omega)
  · obtain ⟨_, _, hl⟩ := normalise x (by omega) h
    rw [show 64 - (63 - Nat.log2 x) = Nat.log2 x + 1 by omega]
    exact Nat.lt_log2_self

/-- **C69**, `countr_zero_32`: the largest power of two that divides the word, and 32 for zero. -/
theorem C69_countr_zero (c : Cfg) {x : Nat} (h : x < 2 ^ 32) :
    (x = 0 → countrZero32 c x = 32) ∧ (0 < x → 2 ^ countrZero32 c x ∣ x ∧ ¬ 2 ^ (countrZero32 c x + 1) ∣ x) := by
  constructor
  · rintro rfl; exact countr_zero c
  · intro hx
    obtain ⟨j, m, rfl⟩ := odd_part x hx
    have hj : j < 32 := by
      by_contra hc
      have h1 : 2 ^ 32 ≤ 2 ^ j := Nat.pow_le_pow_right (by norm_num) (by omega)
      have h2 : 2 ^ j * 1 ≤ 2 ^ j * (2 * m + 1) := Nat.mul_le_mul_left _ (by omega)
      omega
    have e : countrZero32 c (2 ^ j * (2 * m + 1)) = j := by
      unfold countrZero32
      split
      · exact ctzGeneric_eq j m hj
      · rw [if_neg (by positivity)]; exact ctzNative_eq 32 j m hj
    rw [e]
    refine ⟨Dvd.intro _ rfl, ?_⟩
    rw [pow_succ]
    intro hd
    have := Nat.dvd_of_mul_dvd_mul_left (Nat.two_pow_pos j) hd
    omega

/-- **C69**, `full_multiplication`: the two words of the exact 128-bit product. -/
theorem C69_full_multiplication (c : Cfg) {a b : Nat} (ha : a < 2 ^ 64) (hb : b < 2 ^ 64) :
    (fullMultiplication c a b).low < 2 ^ 64 ∧ (fullMultiplication c a b).high < 2 ^ 64 ∧
      (fullMultiplication c a b).high * 2 ^ 64 + (fullMultiplication c a b).low = a * b := by
  rw [fullMultiplication_eq c a b ha hb]
  refine ⟨Nat.mod_lt _ (by norm_num), ?_, ?_⟩
  · rw [Nat.div_lt_iff_lt_mul (by norm_num)]
    exact Nat.mul_lt_mul'' ha hb
  · simp only [Nat.mul_comm (a * b / 2 ^ 64)]; exact Nat.div_add_mod _ _

/-- Eight bytes of a word, lowest first. -/
theorem bytes8 {x : Nat} (h : x < 2 ^ 64) : ∃ l : List Nat, l.length = 8 ∧ (∀ b ∈ l, b < 256) ∧ leWord 1 l = x := by
  refine ⟨[x % 256, x / 2 ^ 8 % 256, x / 2 ^ 16 % 256, x / 2 ^ 24 % 256, x / 2 ^ 32 % 256, x / 2 ^ 40 % 256, x / 2 ^ 48 % 256, x / 2 ^ 56 % 256], rfl, ?_, ?_⟩
  · intro b hb
    simp only [List.mem_cons, List.not_mem_nil, or_false] at hb
    omega
  · simp only [leWord]
    omega

theorem bytes4 {x : Nat} (h : x < 2 ^ 32) : ∃ l : List Nat, l.length = 4 ∧ (∀ b ∈ l, b < 256) ∧ leWord 1 l = x := by
  refine ⟨[x % 256, x / 2 ^ 8 % 256, x / 2 ^ 16 % 256, x / 2 ^ 24 % 256], rfl, ?_, ?_⟩
  · intro b hb
    simp only [List.mem_cons, List.not_mem_nil, or_false] at hb
    omega
  · simp only [leWord]
    omega

/-- **C69**, `byteswap`: byte `i` of the result is byte `7 - i` of the argument. -/
theorem C69_byteswap {x : Nat} (h : x < 2 ^ 64) : byteswap64 x < 2 ^ 64 ∧ ∀ i < 8, byteswap64 x / 2 ^ (8 * i) % 256 = x / 2 ^ (8 * (7 - i)) % 256 := by
  obtain ⟨l, hl, hb, rfl⟩ := bytes8 h
  have hr : ∀ b ∈ l.reverse, b < 256 := fun b hb' => hb b (List.mem_reverse.1 hb')
  have e : leWord 1 l = beWord 1 l.reverse := by unfold beWord; rw [List.reverse_reverse]
  have e2 : byteswap64 (leWord 1 l) = leWord 1 l.reverse := by rw [e, byteswap64_eq _ (by rw [List.length_reverse, hl]) hr]
  rw [e2]
  refine ⟨by have := leWord_lt _ hr; rwa [List.length_reverse, hl] at this, ?_⟩
  intro i hi
  rw [leWord_byte _ hr, leWord_byte _ hb, List.getD_eq_getElem?_getD, List.getD_eq_getElem?_getD, List.getElem?_reverse (by omega), hl]

/-- **C69**, `byteswap_32`. -/
theorem C69_byteswap32 {x : Nat} (h : x < 2 ^ 32) : byteswap32 x < 2 ^ 32 ∧ ∀ i < 4, byteswap32 x / 2 ^ (8 * i) % 256 = x / 2 ^ (8 * (3 - i)) % 256 := by
  obtain ⟨l, hl, hb, rfl⟩ := bytes4 h
  have hr : ∀ b ∈ l.reverse, b < 256 := fun b hb' => hb b (List.mem_reverse.1 hb')
  have e : leWord 1 l = beWord 1 l.reverse := by unfold beWord; rw [List.reverse_reverse]
  have e2 : byteswap32 (leWord 1 l) = leWord 1 l.reverse := by rw [e, byteswap32_eq _ (by rw [List.length_reverse, hl]) hr]
  rw [e2]
  refine ⟨by have := leWord_lt _ hr; rwa [List.length_reverse, hl] at this, ?_⟩
  intro i hi
  rw [leWord_byte _ hr, leWord_byte _ hb, List.getD_eq_getElem?_getD, List.getD_eq_getElem?_getD, List.getElem?_reverse (by omega), hl]

/-- **C69**, `read8_to_u64`: whatever the byte order of the machine, byte `i` of the word is the `i`-th unit of the text (units below 256). -/
theorem C69_read8 (c : Cfg) (ct : CharType) (p : List Nat) (hp : 8 ≤ p.length) (h : ∀ x ∈ p.take 8, x < 256) :
    ∃ w, read8ToU64 c ct p = .ok w ∧ w < 2 ^ 64 ∧ ∀ i (hi : i < 8), w / 2 ^ (8 * i) % 256 = p[i]'(by omega) := by
  have hl : (p.take 8).length = 8 := by rw [List.length_take]; omega
  refine ⟨_, read8_eq c ct p hp h, by have := leWord_lt _ h; rwa [hl] at this, ?_⟩
  intro i hi
  rw [leWord_byte _ h, List.getD_eq_getElem?_getD, List.getElem?_take, if_pos hi, List.getElem?_eq_getElem (by omega)]
  rfl

/-- **C69**, `read4_to_u32`. -/
theorem C69_read4 (c : Cfg) (ct : CharType) (p : List Nat) (hp : 4 ≤ p.length) (h : ∀ x ∈ p.take 4, x < 256) :
    ∃ w, read4ToU32 c ct p = .ok w ∧ w < 2 ^ 32 ∧ ∀ i (hi : i < 4), w / 2 ^ (8 * i) % 256 = p[i]'(by omega) := by
  have hl : (p.take 4).length = 4 := by rw [List.length_take]; omega
  refine ⟨_, read4_eq c ct p hp h, by have := leWord_lt _ h; rwa [hl] at this, ?_⟩
  intro i hi
  rw [leWord_byte _ h, List.getD_eq_getElem?_getD, List.getElem?_take, if_pos hi, List.getElem?_eq_getElem (by omega)]
  rfl

/-! Non-vacuity: concrete words. -/
example : leadingZeroesGeneric 1 = 63 ∧ leadingZeroesGeneric (2 ^ 63) = 0 ∧ leadingZeroesGeneric 0x12345 = 47 := by decide
example : countrZeroGeneric32 0x80000000 = 31 ∧ countrZeroGeneric32 0x00808000 = 15 := by decide
example : umul128Generic (2 ^ 64 - 1) (2 ^ 64 - 1) = { low := 1, high := 2 ^ 64 - 2 } := by decide
example : byteswap64 0x0102030405060708 = 0x0807060504030201 ∧ byteswap32 0x01020304 = 0x04030201 := by decide

end FastFloat
