import Verif.Model.DigitComp
import Verif.Proofs.Words
/-
# SWAR and SIMD digit blocks
-/
namespace FastFloat

/-- An ASCII digit. -/
def IsDig (ch : Nat) : Prop := 48 ≤ ch ∧ ch ≤ 57

instance (ch : Nat) : Decidable (IsDig ch) := by unfold IsDig; infer_instance

/-- Decimal value of a run of digits, continuing from `a`. -/
def dvalFrom (a : Nat) (l : List Nat) : Nat := l.foldl (fun a ch => a * 10 + (ch - 48)) a

/-- Decimal value of a run of digits. -/
def dval (l : List Nat) : Nat := dvalFrom 0 l

theorem dvalFrom_append (a : Nat) (l r : List Nat) : dvalFrom a (l ++ r) = dvalFrom (dvalFrom a l) r := by
  simp [dvalFrom, List.foldl_append]

theorem dvalFrom_eq (l : List Nat) : ∀ a, dvalFrom a l = a * 10 ^ l.length + dval l := by
  induction l with
  | nil => intro a; simp [dvalFrom, dval]
  | cons ch l ih =>
    intro a
    have e1 : ∀ b, dvalFrom b (ch :: l) = dvalFrom (b * 10 + (ch - 48)) l := fun b => rfl
    unfold dval
    rw [e1, e1, ih, ih (0 * 10 + (ch - 48))]
    simp only [List.length_cons, pow_succ]
    ring

theorem dval_append (l r : List Nat) : dval (l ++ r) = dval l * 10 ^ r.length + dval r := by
  rw [dval, dvalFrom_append, dvalFrom_eq]; rfl

theorem dval_cons (ch : Nat) (l : List Nat) : dval (ch :: l) = (ch - 48) * 10 ^ l.length + dval l := by
  have : ch :: l = [ch] ++ l := rfl
  rw [this, dval_append]; simp [dval, dvalFrom]

theorem dval_lt {l : List Nat} (h : ∀ c ∈ l, IsDig c) : dval l < 10 ^ l.length := by
  induction l with
  | nil => simp [dval, dvalFrom]
  | cons ch l ih =>
    rw [dval_cons, List.length_cons, pow_succ]
    have h1 := ih (fun c hc => h c (List.mem_cons_of_mem _ hc))
    have h2 := h ch List.mem_cons_self
    unfold IsDig at h2
    have : (ch - 48) * 10 ^ l.length ≤ 9 * 10 ^ l.length := Nat.mul_le_mul_right _ (by omega)
    omega

/-! ### masks -/

theorem and_split (a b m n k : Nat) (ha : a < 2 ^ k) (hm : m < 2 ^ k) :
    (a + 2 ^ k * b) &&& (m + 2 ^ k * n) = (a &&& m) + 2 ^ k * (b &&& n) := by
  have h1 : a &&& m < 2 ^ k := Nat.and_lt_two_pow a hm
  apply Nat.eq_of_testBit_eq
  intro i
  rw [Nat.add_comm a, Nat.add_comm m, Nat.add_comm (a &&& m), Nat.testBit_and, Nat.testBit_two_pow_mul_add _ ha,
    Nat.testBit_two_pow_mul_add _ hm, Nat.testBit_two_pow_mul_add _ h1]
  split
  · rw [Nat.testBit_and]
  · rw [Nat.testBit_and]

theorem or_split (a b m n k : Nat) (ha : a < 2 ^ k) (hm : m < 2 ^ k) :
    (a + 2 ^ k * b) ||| (m + 2 ^ k * n) = (a ||| m) + 2 ^ k * (b ||| n) := by
  have h1 : a ||| m < 2 ^ k := Nat.or_lt_two_pow ha hm
  apply Nat.eq_of_testBit_eq
  intro i
  rw [Nat.add_comm a, Nat.add_comm m, Nat.add_comm (a ||| m), Nat.testBit_or, Nat.testBit_two_pow_mul_add _ ha,
    Nat.testBit_two_pow_mul_add _ hm, Nat.testBit_two_pow_mul_add _ h1]
  split
  · rw [Nat.testBit_or]
  · rw [Nat.testBit_or]

/-- `n` bytes all equal to `x`. -/
def rep (x : Nat) : Nat → Nat
  | 0 => 0
  | n + 1 => x + 2 ^ 8 * rep x n

theorem rep8 (x : Nat) : rep x 8 = x * 0x0101010101010101 := by simp only [rep]; ring
theorem rep4 (x : Nat) : rep x 4 = x * 0x01010101 := by simp only [rep]; ring

/-- Low byte tests for bytes `< 2^8`: high bit clear. -/
theorem byte_and (y : Nat) (h : y < 2 ^ 8) : y &&& 0x80 = 0 ↔ y < 128 := by
  have : ∀ y : Fin 256, (y.val &&& 0x80 = 0 ↔ y.val < 128) := by decide +kernel
  exact this ⟨y, h⟩

/-- The digit test on `n` bytes: the two sums have all byte high bits clear iff all bytes are digits. -/
theorem swar_test : ∀ (l : List Nat), (∀ c ∈ l, c < 256) →
    (((leWord 1 l + rep 0x46 l.length) % 2 ^ (8 * l.length) |||
        (leWord 1 l + 2 ^ (8 * l.length) - rep 0x30 l.length) % 2 ^ (8 * l.length)) &&& rep 0x80 l.length = 0 ↔
      ∀ c ∈ l, IsDig c) := by
  intro l
  induction l with
  | nil => intro _; simp [rep, leWord]
  | cons b l ih =>
    intro h
    have hb := h b List.mem_cons_self
    have ih := ih (fun c hc => h c (List.mem_cons_of_mem _ hc))
    simp only [leWord, List.length_cons, rep, Nat.mul_add, Nat.mul_one, pow_add]
    rw [show 2 ^ (8 * l.length) * 2 ^ 8 = 2 ^ 8 * 2 ^ (8 * l.length) by ring]
    obtain ⟨P, hP⟩ : ∃ P, 2 ^ (8 * l.length) = P := ⟨_, rfl⟩
    obtain ⟨W, hW⟩ : ∃ W, leWord 1 l = W := ⟨_, rfl⟩
    obtain ⟨R, hR⟩ : ∃ R, rep 0x46 l.length = R := ⟨_, rfl⟩
    obtain ⟨S, hS⟩ : ∃ S, rep 0x30 l.length = S := ⟨_, rfl⟩
    have hPp : 0 < P := by rw [← hP]; positivity
    have hSP : S < P := by
      rw [← hS, ← hP]
      have : ∀ n, rep 0x30 n < 2 ^ (8 * n) := by
        intro n
        induction n with
        | zero => simp [rep]
        | succ n ih => simp only [rep, Nat.mul_add, Nat.mul_one, pow_add]; omega
      exact this _
    rw [hP, hW, hR, hS] at ih
    rw [hP, hW, hR, hS]
    simp only [List.mem_cons, forall_eq_or_imp]
    -- split off the low byte
    have e1 : (b + 2 ^ 8 * W + (70 + 2 ^ 8 * R)) % (2 ^ 8 * P) =
        (b + 70) % 2 ^ 8 + 2 ^ 8 * ((W + R + (b + 70) / 2 ^ 8) % P) := by
      rw [Nat.mod_mul]
      congr 1
      · omega
      · congr 2; omega
    have e2 : (b + 2 ^ 8 * W + 2 ^ 8 * P - (48 + 2 ^ 8 * S)) % (2 ^ 8 * P) =
        (b + 208) % 2 ^ 8 + 2 ^ 8 * ((W + P - S + (b + 208) / 2 ^ 8 - 1) % P) := by
      rw [Nat.mod_mul]
      congr 1
      · omega
      · congr 2; omega
    rw [e1, e2, or_split _ _ _ _ 8 (Nat.mod_lt _ (by norm_num)) (Nat.mod_lt _ (by norm_num)),
      and_split _ _ _ _ 8 (Nat.or_lt_two_pow (Nat.mod_lt _ (by norm_num)) (Nat.mod_lt _ (by norm_num))) (by norm_num),
      Nat.and_or_distrib_right]
    have k1 := byte_and ((b + 70) % 2 ^ 8) (Nat.mod_lt _ (by norm_num))
    have k2 := byte_and ((b + 208) % 2 ^ 8) (Nat.mod_lt _ (by norm_num))
    constructor
    · intro h0
      obtain ⟨h1, h0⟩ := Nat.add_eq_zero_iff.1 h0
      have h0 := (Nat.mul_eq_zero.1 h0).resolve_left (by norm_num)
      rw [Nat.or_eq_zero_iff] at h1
      have c1 := k1.1 h1.1
      have c2 := k2.1 h1.2
      have hd : IsDig b := by unfold IsDig; omega
      unfold IsDig at hd
      refine ⟨hd, ih.1 ?_⟩
      have q1 : (b + 70) / 2 ^ 8 = 0 := by omega
      have q2 : (b + 208) / 2 ^ 8 = 1 := by omega
      rw [q1, q2, Nat.add_zero, Nat.add_sub_cancel] at h0
      exact h0
    · rintro ⟨hd, hl⟩
      unfold IsDig at hd
      have h2 := ih.2 hl
      have q1 : (b + 70) / 2 ^ 8 = 0 := by omega
      have q2 : (b + 208) / 2 ^ 8 = 1 := by omega
      rw [q1, q2, Nat.add_sub_cancel, k1.2 (by omega), k2.2 (by omega)]
      have h2' : ((W + R + 0) % P ||| (W + P - S) % P) &&& rep 128 l.length = 0 := h2
      rw [h2']
      rfl

/-- `is_made_of_eight_digits_fast` accepts exactly eight ASCII digits. -/
theorem isMadeOfEight_iff (l : List Nat) (hl : l.length = 8) (h : ∀ c ∈ l, c < 256) :
    isMadeOfEightDigitsFast (leWord 1 l) = true ↔ ∀ c ∈ l, IsDig c := by
  rw [← swar_test l h, hl]
  unfold isMadeOfEightDigitsFast
  rw [beq_iff_eq, rep8 0x46, rep8 0x30, rep8 0x80]

theorem isMadeOfFour_iff (l : List Nat) (hl : l.length = 4) (h : ∀ c ∈ l, c < 256) :
    isMadeOfFourDigitsFast (leWord 1 l) = true ↔ ∀ c ∈ l, IsDig c := by
  rw [← swar_test l h, hl]
  unfold isMadeOfFourDigitsFast
  rw [beq_iff_eq, rep4 0x46, rep4 0x30, rep4 0x80]

theorem split_lo {k a : Nat} (Y : Nat) (ha : a < 2 ^ k) : (a + 2 ^ k * Y) / 2 ^ k = Y ∧ (a + 2 ^ k * Y) % 2 ^ k = a := by
  rw [Nat.add_mul_div_left _ _ (Nat.two_pow_pos k), Nat.div_eq_of_lt ha, Nat.add_mul_mod_self_left, Nat.mod_eq_of_lt ha]
  simp

theorem mask8 (lo hi : Nat) (hlo : lo < 2 ^ 32) :
    (lo + 2 ^ 32 * hi) &&& 0x000000FF000000FF = lo % 2 ^ 8 + 2 ^ 32 * (hi % 2 ^ 8) := by
  have h1 : lo &&& 255 = lo % 2 ^ 8 := and_low_mask lo 8
  have h2 : hi &&& 255 = hi % 2 ^ 8 := and_low_mask hi 8
  have := and_split lo hi 255 255 32 hlo (by norm_num)
  rw [h1, h2] at this
  rw [← this]
  norm_num

/-- Last step of the block conversion: four two-digit groups in bytes 0, 2, 4, 6. -/
theorem eight_last (e0 e1 e2 e3 e4 e5 e6 e7 : Nat) (b0 : e0 < 100) (b1 : e1 < 100) (b2 : e2 < 100) (b3 : e3 < 100)
    (b4 : e4 < 100) (b5 : e5 < 100) (b6 : e6 < 100) (v : Nat)
    (hv : v = (e0 + 2 ^ 8 * (e1 + 2 ^ 8 * (e2 + 2 ^ 8 * e3))) + 2 ^ 32 * (e4 + 2 ^ 8 * (e5 + 2 ^ 8 * (e6 + 2 ^ 8 * e7)))) :
    (((v &&& 0x000000FF000000FF) * 0x000F424000000064 % 2 ^ 64 +
      (v / 2 ^ 16 &&& 0x000000FF000000FF) * 0x0000271000000001 % 2 ^ 64) % 2 ^ 64) / 2 ^ 32 % 2 ^ 32 =
    1000000 * e0 + 10000 * e2 + 100 * e4 + e6 := by
  have s3 : v / 2 ^ 16 = (e2 + 2 ^ 8 * (e3 + 2 ^ 8 * (e4 + 2 ^ 8 * e5))) + 2 ^ 32 * (e6 + 2 ^ 8 * e7) := by
    rw [hv, show (e0 + 2 ^ 8 * (e1 + 2 ^ 8 * (e2 + 2 ^ 8 * e3))) + 2 ^ 32 * (e4 + 2 ^ 8 * (e5 + 2 ^ 8 * (e6 + 2 ^ 8 * e7))) =
      (e0 + 2 ^ 8 * e1) + 2 ^ 16 * ((e2 + 2 ^ 8 * (e3 + 2 ^ 8 * (e4 + 2 ^ 8 * e5))) + 2 ^ 32 * (e6 + 2 ^ 8 * e7)) by ring]
    exact (split_lo (k := 16) _ (by omega)).1
  have c1 : v &&& 0x000000FF000000FF = e0 + 2 ^ 32 * e4 := by
    rw [hv, mask8 _ _ (by omega), (split_lo (k := 8) _ (show e0 < 2 ^ 8 by omega)).2,
      (split_lo (k := 8) _ (show e4 < 2 ^ 8 by omega)).2]
  have c2 : v / 2 ^ 16 &&& 0x000000FF000000FF = e2 + 2 ^ 32 * e6 := by
    rw [s3, mask8 _ _ (by clear s3 hv c1; omega), (split_lo (k := 8) _ (show e2 < 2 ^ 8 by clear s3 hv c1; omega)).2,
      (split_lo (k := 8) _ (show e6 < 2 ^ 8 by clear s3 hv c1; omega)).2]
  rw [c1, c2]
  clear c1 c2 s3 hv v b1 b3 b5
  have m1 : (e0 + 2 ^ 32 * e4) * 0x000F424000000064 % 2 ^ 64 = 100 * e0 + 2 ^ 32 * (100 * e4 + 1000000 * e0) := by
    rw [show (e0 + 2 ^ 32 * e4) * 0x000F424000000064 = 100 * e0 + 2 ^ 32 * (100 * e4 + 1000000 * e0) + 2 ^ 64 * (1000000 * e4) by ring,
      Nat.add_mul_mod_self_left, Nat.mod_eq_of_lt (by omega)]
  have m2 : (e2 + 2 ^ 32 * e6) * 0x0000271000000001 % 2 ^ 64 = e2 + 2 ^ 32 * (e6 + 10000 * e2) := by
    rw [show (e2 + 2 ^ 32 * e6) * 0x0000271000000001 = e2 + 2 ^ 32 * (e6 + 10000 * e2) + 2 ^ 64 * (10000 * e6) by ring,
      Nat.add_mul_mod_self_left, Nat.mod_eq_of_lt (by clear m1; omega)]
  rw [m1, m2]
  clear m1 m2
  rw [show 100 * e0 + 2 ^ 32 * (100 * e4 + 1000000 * e0) + (e2 + 2 ^ 32 * (e6 + 10000 * e2)) =
    (100 * e0 + e2) + 2 ^ 32 * (1000000 * e0 + 10000 * e2 + 100 * e4 + e6) by ring,
    Nat.mod_eq_of_lt (show (100 * e0 + e2) + 2 ^ 32 * (1000000 * e0 + 10000 * e2 + 100 * e4 + e6) < 2 ^ 64 by omega),
    (split_lo (k := 32) _ (show 100 * e0 + e2 < 2 ^ 32 by omega)).1, Nat.mod_eq_of_lt (by omega)]

/-- First step: pair up digits. -/
theorem eight_pairs (d0 d1 d2 d3 d4 d5 d6 d7 V : Nat) (h0 : d0 < 10) (h1 : d1 < 10) (h2 : d2 < 10) (h3 : d3 < 10) (h4 : d4 < 10)
    (h5 : d5 < 10) (h6 : d6 < 10) (h7 : d7 < 10)
    (hV : V = d0 + 2 ^ 8 * (d1 + 2 ^ 8 * (d2 + 2 ^ 8 * (d3 + 2 ^ 8 * (d4 + 2 ^ 8 * (d5 + 2 ^ 8 * (d6 + 2 ^ 8 * d7))))))) :
    (V * 10 % 2 ^ 64 + V / 2 ^ 8) % 2 ^ 64 =
      ((10 * d0 + d1) + 2 ^ 8 * ((10 * d1 + d2) + 2 ^ 8 * ((10 * d2 + d3) + 2 ^ 8 * (10 * d3 + d4)))) +
      2 ^ 32 * ((10 * d4 + d5) + 2 ^ 8 * ((10 * d5 + d6) + 2 ^ 8 * ((10 * d6 + d7) + 2 ^ 8 * (10 * d7)))) ∧ V < 2 ^ 60 := by
  have hVlt : V < 2 ^ 60 := by rw [hV]; clear hV; omega
  have hd : V / 2 ^ 8 = d1 + 2 ^ 8 * (d2 + 2 ^ 8 * (d3 + 2 ^ 8 * (d4 + 2 ^ 8 * (d5 + 2 ^ 8 * (d6 + 2 ^ 8 * d7))))) := by
    rw [hV]; exact (split_lo (k := 8) _ (by clear hV hVlt; omega)).1
  have hle : V / 2 ^ 8 ≤ V := Nat.div_le_self _ _
  have hA : V * 10 < 2 ^ 64 := by clear hd hV hle; omega
  have hB : V * 10 + V / 2 ^ 8 < 2 ^ 64 := by
    clear hd hV
    have : ∀ A B : Nat, A < 2 ^ 60 → B ≤ A → A * 10 + B < 2 ^ 64 := by intro A B _ _; omega
    exact this _ _ hVlt hle
  refine ⟨?_, hVlt⟩
  rw [Nat.mod_eq_of_lt hA, Nat.mod_eq_of_lt hB, hd, hV]
  ring

/-- `parse_eight_digits_unrolled` on eight digits. -/
theorem parseEight_eq (l : List Nat) (hl : l.length = 8) (h : ∀ c ∈ l, IsDig c) :
    parseEightDigitsUnrolled (leWord 1 l) = dval l := by
  match l, hl with
  | [a0, a1, a2, a3, a4, a5, a6, a7], _ =>
  simp only [List.mem_cons, List.not_mem_nil, or_false, forall_eq_or_imp, forall_eq, IsDig] at h
  obtain ⟨h0, h1, h2, h3, h4, h5, h6, h7⟩ := h
  obtain ⟨d0, rfl⟩ := Nat.exists_eq_add_of_le h0.1
  obtain ⟨d1, rfl⟩ := Nat.exists_eq_add_of_le h1.1
  obtain ⟨d2, rfl⟩ := Nat.exists_eq_add_of_le h2.1
  obtain ⟨d3, rfl⟩ := Nat.exists_eq_add_of_le h3.1
  obtain ⟨d4, rfl⟩ := Nat.exists_eq_add_of_le h4.1
  obtain ⟨d5, rfl⟩ := Nat.exists_eq_add_of_le h5.1
  obtain ⟨d6, rfl⟩ := Nat.exists_eq_add_of_le h6.1
  obtain ⟨d7, rfl⟩ := Nat.exists_eq_add_of_le h7.1
  replace h0 : d0 < 10 := by omega
  replace h1 : d1 < 10 := by omega
  replace h2 : d2 < 10 := by omega
  replace h3 : d3 < 10 := by omega
  replace h4 : d4 < 10 := by omega
  replace h5 : d5 < 10 := by omega
  replace h6 : d6 < 10 := by omega
  replace h7 : d7 < 10 := by omega
  obtain ⟨V, hV⟩ : ∃ V, V = d0 + 2 ^ 8 * (d1 + 2 ^ 8 * (d2 + 2 ^ 8 * (d3 + 2 ^ 8 * (d4 + 2 ^ 8 * (d5 + 2 ^ 8 * (d6 + 2 ^ 8 * d7)))))) :=
    ⟨_, rfl⟩
  obtain ⟨s2, hVlt⟩ := eight_pairs d0 d1 d2 d3 d4 d5 d6 d7 V h0 h1 h2 h3 h4 h5 h6 h7 hV
  have s1 : (leWord 1 [48 + d0, 48 + d1, 48 + d2, 48 + d3, 48 + d4, 48 + d5, 48 + d6, 48 + d7] + 2 ^ 64 - 0x3030303030303030) % 2 ^ 64
      = V := by
    have e : leWord 1 [48 + d0, 48 + d1, 48 + d2, 48 + d3, 48 + d4, 48 + d5, 48 + d6, 48 + d7] = V + 0x3030303030303030 := by
      rw [hV]; simp only [leWord]; ring
    rw [e]
    clear e s2 hV
    have : ∀ A : Nat, A < 2 ^ 60 → (A + 0x3030303030303030 + 2 ^ 64 - 0x3030303030303030) % 2 ^ 64 = A := by intro A _; omega
    exact this V hVlt
  have s3 := eight_last _ _ _ _ _ _ _ _ (show 10 * d0 + d1 < 100 by clear hV s1 s2; omega) (show 10 * d1 + d2 < 100 by clear hV s1 s2; omega)
    (show 10 * d2 + d3 < 100 by clear hV s1 s2; omega) (show 10 * d3 + d4 < 100 by clear hV s1 s2; omega)
    (show 10 * d4 + d5 < 100 by clear hV s1 s2; omega) (show 10 * d5 + d6 < 100 by clear hV s1 s2; omega)
    (show 10 * d6 + d7 < 100 by clear hV s1 s2; omega) _ s2
  unfold parseEightDigitsUnrolled
  simp only [s1]
  rw [s3]
  simp only [dval, dvalFrom, List.foldl_cons, List.foldl_nil, Nat.add_sub_cancel_left]
  ring

/-- `parse_four_digits_unrolled` on four digits. -/
theorem parseFour_eq (l : List Nat) (hl : l.length = 4) (h : ∀ c ∈ l, IsDig c) :
    parseFourDigitsUnrolled (leWord 1 l) = dval l := by
  match l, hl with
  | [a0, a1, a2, a3], _ =>
  simp only [List.mem_cons, List.not_mem_nil, or_false, forall_eq_or_imp, forall_eq, IsDig] at h
  obtain ⟨h0, h1, h2, h3⟩ := h
  obtain ⟨d0, rfl⟩ := Nat.exists_eq_add_of_le h0.1
  obtain ⟨d1, rfl⟩ := Nat.exists_eq_add_of_le h1.1
  obtain ⟨d2, rfl⟩ := Nat.exists_eq_add_of_le h2.1
  obtain ⟨d3, rfl⟩ := Nat.exists_eq_add_of_le h3.1
  have hm : ∀ lo hi : Nat, lo < 2 ^ 16 → (lo + 2 ^ 16 * hi) &&& 0x00FF00FF = lo % 2 ^ 8 + 2 ^ 16 * (hi % 2 ^ 8) := by
    intro lo hi hlo
    have h1 : lo &&& 255 = lo % 2 ^ 8 := and_low_mask lo 8
    have h2 : hi &&& 255 = hi % 2 ^ 8 := and_low_mask hi 8
    have := and_split lo hi 255 255 16 hlo (by norm_num)
    rw [h1, h2] at this
    rw [← this]
    norm_num
  have hdiv : ∀ k a Y : Nat, a < 2 ^ k → (a + 2 ^ k * Y) / 2 ^ k = Y ∧ (a + 2 ^ k * Y) % 2 ^ k = a := by
    intro k a Y ha
    rw [Nat.add_mul_div_left _ _ (Nat.two_pow_pos k), Nat.div_eq_of_lt ha, Nat.add_mul_mod_self_left, Nat.mod_eq_of_lt ha]
    simp
  have hf : ∀ x : Nat, x &&& 0xFFFF = x % 2 ^ 16 := fun x => and_low_mask x 16
  obtain ⟨V, hV⟩ : ∃ V, d0 + 2 ^ 8 * (d1 + 2 ^ 8 * (d2 + 2 ^ 8 * d3)) = V := ⟨_, rfl⟩
  have hVlt : V < 2 ^ 28 := by rw [← hV]; omega
  have s1 : (leWord 1 [48 + d0, 48 + d1, 48 + d2, 48 + d3] + 2 ^ 32 - 0x30303030) % 2 ^ 32 = V := by
    have : leWord 1 [48 + d0, 48 + d1, 48 + d2, 48 + d3] = V + 0x30303030 := by
      rw [← hV]; simp only [leWord]; ring
    rw [this, show V + 0x30303030 + 2 ^ 32 - 0x30303030 = V + 2 ^ 32 by omega, Nat.add_mod_right, Nat.mod_eq_of_lt (by omega)]
  have s2 : (V * 10 % 2 ^ 32 + V / 2 ^ 8) % 2 ^ 32 =
      ((10 * d0 + d1) + 2 ^ 8 * (10 * d1 + d2)) + 2 ^ 16 * ((10 * d2 + d3) + 2 ^ 8 * (10 * d3)) := by
    have hd : V / 2 ^ 8 = d1 + 2 ^ 8 * (d2 + 2 ^ 8 * d3) := by
      rw [← hV]; exact (hdiv 8 _ _ (by omega)).1
    have hle : V / 2 ^ 8 ≤ V := Nat.div_le_self _ _
    rw [Nat.mod_eq_of_lt (show V * 10 < 2 ^ 32 by omega), Nat.mod_eq_of_lt (show V * 10 + V / 2 ^ 8 < 2 ^ 32 by omega), hd, ← hV]
    ring
  unfold parseFourDigitsUnrolled
  simp only [s1, s2]
  rw [hm _ _ (by omega), (hdiv 8 (10 * d0 + d1) _ (by omega)).2, (hdiv 8 (10 * d2 + d3) _ (by omega)).2, hf]
  have m1 : (10 * d0 + d1 + 2 ^ 16 * (10 * d2 + d3)) * 0x00640001 % 2 ^ 32 =
      (10 * d0 + d1) + 2 ^ 16 * (10 * d2 + d3 + 100 * (10 * d0 + d1)) := by
    rw [show (10 * d0 + d1 + 2 ^ 16 * (10 * d2 + d3)) * 0x00640001 =
      (10 * d0 + d1) + 2 ^ 16 * (10 * d2 + d3 + 100 * (10 * d0 + d1)) + 2 ^ 32 * (100 * (10 * d2 + d3)) by ring,
      Nat.add_mul_mod_self_left, Nat.mod_eq_of_lt (by omega)]
  rw [m1, (hdiv 16 (10 * d0 + d1) _ (by omega)).1, Nat.mod_eq_of_lt (by omega)]
  simp only [dval, dvalFrom, List.foldl_cons, List.foldl_nil, Nat.add_sub_cancel_left]
  ring

/-! ### loading a block -/

theorem or_high (a x k : Nat) (h : a < 2 ^ k) : a ||| x * 2 ^ k = a + x * 2 ^ k := by
  have := or_split a 0 0 x k h (Nat.two_pow_pos k)
  simp only [Nat.mul_zero, Nat.add_zero, Nat.zero_add, Nat.or_zero, Nat.zero_or] at this
  rw [Nat.mul_comm x]; exact this

theorem leWord_lt : ∀ (l : List Nat), (∀ c ∈ l, c < 256) → leWord 1 l < 2 ^ (8 * l.length) := by
  intro l
  induction l with
  | nil => intro _; simp [leWord]
  | cons b l ih =>
    intro h
    have hb := h b List.mem_cons_self
    have := ih (fun c hc => h c (List.mem_cons_of_mem _ hc))
    simp only [leWord, List.length_cons, Nat.mul_add, Nat.mul_one, pow_add]
    omega

theorem leWord_byte : ∀ (l : List Nat), (∀ c ∈ l, c < 256) → ∀ i, leWord 1 l / 2 ^ (8 * i) % 256 = l.getD i 0 := by
  intro l
  induction l with
  | nil => intro _ i; simp [leWord]
  | cons b l ih =>
    intro h i
    have hb := h b List.mem_cons_self
    have ih := ih (fun c hc => h c (List.mem_cons_of_mem _ hc))
    cases i with
    | zero => simp [leWord]; omega
    | succ i =>
      rw [List.getD_cons_succ, ← ih i]
      simp only [leWord, Nat.mul_add, Nat.mul_one, pow_add]
      rw [Nat.mul_comm (2 ^ (8 * i)), ← Nat.div_div_eq_div_mul, (split_lo (k := 8) _ (show b < 2 ^ 8 by omega)).1]

theorem and_byte (x k : Nat) : x &&& (255 * 2 ^ k) = x / 2 ^ k % 256 * 2 ^ k := by
  have h1 := Nat.div_add_mod x (2 ^ k)
  have h2 := Nat.mod_lt x (Nat.two_pow_pos k)
  have := and_split (x % 2 ^ k) (x / 2 ^ k) 0 255 k h2 (Nat.two_pow_pos k)
  rw [Nat.add_comm (x % 2 ^ k), h1, Nat.and_zero, Nat.zero_add, Nat.zero_add, Nat.mul_comm (2 ^ k) 255] at this
  rw [this, show x / 2 ^ k &&& 255 = x / 2 ^ k % 2 ^ 8 from and_low_mask _ 8]; ring_nf

theorem orBytes_eq : ∀ (l : List Nat) (i val : Nat), val < 2 ^ (i * 8) →
    orBytes i l val = val + 2 ^ (i * 8) * leWord 1 (l.map (· % 256)) := by
  intro l
  induction l with
  | nil => intro i val _; simp [orBytes, leWord]
  | cons b l ih =>
    intro i val h
    simp only [orBytes, List.map_cons, leWord]
    have hb : b % 256 < 256 := Nat.mod_lt _ (by norm_num)
    rw [or_high _ _ _ h, ih (i + 1) _ ?_]
    · rw [Nat.add_mul, pow_add]; ring
    · rw [Nat.add_mul, pow_add]
      have : b % 256 * 2 ^ (i * 8) ≤ 255 * 2 ^ (i * 8) := Nat.mul_le_mul_right _ (by omega)
      omega

theorem byteswap64_eq (l : List Nat) (hl : l.length = 8) (h : ∀ c ∈ l, c < 256) : byteswap64 (beWord 1 l) = leWord 1 l := by
  match l, hl with
  | [a0, a1, a2, a3, a4, a5, a6, a7], _ =>
  have hr : ∀ c ∈ [a7, a6, a5, a4, a3, a2, a1, a0], c < 256 := by
    intro c hc; apply h; simp at hc ⊢; tauto
  have g := leWord_byte [a7, a6, a5, a4, a3, a2, a1, a0] hr
  simp only [List.mem_cons, List.not_mem_nil, or_false, forall_eq_or_imp, forall_eq] at h
  obtain ⟨h0, h1, h2, h3, h4, h5, h6, h7⟩ := h
  have e : beWord 1 [a0, a1, a2, a3, a4, a5, a6, a7] = leWord 1 [a7, a6, a5, a4, a3, a2, a1, a0] := rfl
  rw [e]
  obtain ⟨v, hv⟩ : ∃ v, leWord 1 [a7, a6, a5, a4, a3, a2, a1, a0] = v := ⟨_, rfl⟩
  rw [hv] at g ⊢
  have g0 := g 0
  have g1 := g 1
  have g2 := g 2
  have g3 := g 3
  have g4 := g 4
  have g5 := g 5
  have g6 := g 6
  have g7 := g 7
  simp only [List.getD_cons_zero, List.getD_cons_succ] at g0 g1 g2 g3 g4 g5 g6 g7
  unfold byteswap64
  have m7 := and_byte v 56
  have m6 := and_byte v 48
  have m5 := and_byte v 40
  have m4 := and_byte v 32
  have m3 := and_byte v 24
  have m2 := and_byte v 16
  have m1 := and_byte v 8
  have m0 := and_byte v 0
  norm_num only at m0 m1 m2 m3 m4 m5 m6 m7 g0 g1 g2 g3 g4 g5 g6 g7 ⊢
  rw [m0, m1, m2, m3, m4, m5, m6, m7, g0, g1, g2, g3, g4, g5, g6, g7]
  clear m0 m1 m2 m3 m4 m5 m6 m7 g0 g1 g2 g3 g4 g5 g6 g7 g hv e hr
  have c0 : a0 * 72057594037927936 / 72057594037927936 = a0 := Nat.mul_div_cancel _ (by norm_num)
  have c1 : a1 * 281474976710656 / 1099511627776 = a1 * 2 ^ 8 := by
    rw [show 281474976710656 = 2 ^ 8 * 1099511627776 by norm_num, ← Nat.mul_assoc, Nat.mul_div_cancel _ (by norm_num)]
  have c2 : a2 * 1099511627776 / 16777216 = a2 * 2 ^ 16 := by
    rw [show 1099511627776 = 2 ^ 16 * 16777216 by norm_num, ← Nat.mul_assoc, Nat.mul_div_cancel _ (by norm_num)]
  have c3 : a3 * 4294967296 / 256 = a3 * 2 ^ 24 := by
    rw [show 4294967296 = 2 ^ 24 * 256 by norm_num, ← Nat.mul_assoc, Nat.mul_div_cancel _ (by norm_num)]
  have c4 : a4 * 16777216 * 256 = a4 * 2 ^ 32 := by
    rw [Nat.mul_assoc]; congr 1
  have c5 : a5 * 65536 * 16777216 = a5 * 2 ^ 40 := by
    rw [Nat.mul_assoc]; congr 1
  have c6 : a6 * 256 * 1099511627776 = a6 * 2 ^ 48 := by
    rw [Nat.mul_assoc]; congr 1
  have c7 : a7 * 1 * 72057594037927936 = a7 * 2 ^ 56 := by
    rw [Nat.mul_assoc]; congr 1
  rw [c0, c1, c2, c3, c4, c5, c6, c7]
  clear c0 c1 c2 c3 c4 c5 c6 c7
  rw [or_high a0 a1 8 (by omega), or_high _ a2 16 (by omega), or_high _ a3 24 (by omega), or_high _ a4 32 (by omega),
    or_high _ a5 40 (by omega), or_high _ a6 48 (by omega), or_high _ a7 56 (by omega)]
  simp only [leWord]
  ring

theorem byteswap32_eq (l : List Nat) (hl : l.length = 4) (h : ∀ c ∈ l, c < 256) : byteswap32 (beWord 1 l) = leWord 1 l := by
  match l, hl with
  | [a0, a1, a2, a3], _ =>
  simp only [List.mem_cons, List.not_mem_nil, or_false, forall_eq_or_imp, forall_eq] at h
  obtain ⟨h0, h1, h2, h3⟩ := h
  have e : beWord 1 [a0, a1, a2, a3] = a3 + 2 ^ 8 * a2 + 2 ^ 16 * a1 + 2 ^ 24 * a0 := by
    show leWord 1 [a3, a2, a1, a0] = _
    simp only [leWord]; ring
  rw [e]
  unfold byteswap32
  have m1 := and_byte ((a3 + 2 ^ 8 * a2 + 2 ^ 16 * a1 + 2 ^ 24 * a0) / 2 ^ 8) 8
  have m2 := and_byte ((a3 + 2 ^ 8 * a2 + 2 ^ 16 * a1 + 2 ^ 24 * a0) * 2 ^ 8 % 2 ^ 32) 16
  rw [show 255 * 2 ^ 8 = 0x0000FF00 by norm_num] at m1
  rw [show 255 * 2 ^ 16 = 0x00FF0000 by norm_num] at m2
  rw [m1, m2]
  clear m1 m2 e
  have c0 : (a3 + 2 ^ 8 * a2 + 2 ^ 16 * a1 + 2 ^ 24 * a0) / 2 ^ 24 = a0 := by omega
  have c1 : (a3 + 2 ^ 8 * a2 + 2 ^ 16 * a1 + 2 ^ 24 * a0) / 2 ^ 8 / 2 ^ 8 % 256 = a1 := by clear c0; omega
  have c2 : (a3 + 2 ^ 8 * a2 + 2 ^ 16 * a1 + 2 ^ 24 * a0) * 2 ^ 8 % 2 ^ 32 / 2 ^ 16 % 256 = a2 := by clear c0 c1; omega
  have c3 : (a3 + 2 ^ 8 * a2 + 2 ^ 16 * a1 + 2 ^ 24 * a0) * 2 ^ 24 % 2 ^ 32 = a3 * 2 ^ 24 := by clear c0 c1 c2; omega
  rw [c0, c1, c2, c3]
  clear c0 c1 c2 c3
  rw [or_high a0 a1 8 (by omega), or_high _ a2 16 (by omega), or_high _ a3 24 (by omega)]
  simp only [leWord]
  ring

theorem map_mod_eq {l : List Nat} (h : ∀ c ∈ l, c < 256) : l.map (· % 256) = l := by
  conv_rhs => rw [← List.map_id l]
  apply List.map_congr_left
  intro c hc
  exact Nat.mod_eq_of_lt (h c hc)

theorem readBlock_ok {n : Nat} {p : List Nat} (h : n ≤ p.length) : readBlock n p = .ok (p.take n) := by
  unfold readBlock; rw [if_pos h]

theorem skipN_ok {n : Nat} {p : List Nat} (h : n ≤ p.length) : skipN n p = .ok (p.drop n) := by
  unfold skipN; rw [if_pos h]

/-- Reading eight one-byte units (or any units whose low bytes matter) gives the little-endian word. -/
theorem read8_eq (c : Cfg) (ct : CharType) (p : List Nat) (hp : 8 ≤ p.length) (h : ∀ x ∈ p.take 8, x < 256) :
    read8ToU64 c ct p = .ok (leWord 1 (p.take 8)) := by
  have hl : (p.take 8).length = 8 := by rw [List.length_take]; omega
  unfold read8ToU64
  rw [readBlock_ok hp]
  simp only
  split
  · rw [orBytes_eq _ 0 0 (by norm_num), map_mod_eq h]; simp
  · cases hb : c.bigEndian
    · simp [memWord, hb]
    · simp only [if_true, memWord, hb]
      rw [byteswap64_eq _ hl h]

theorem read4_eq (c : Cfg) (ct : CharType) (p : List Nat) (hp : 4 ≤ p.length) (h : ∀ x ∈ p.take 4, x < 256) :
    read4ToU32 c ct p = .ok (leWord 1 (p.take 4)) := by
  have hl : (p.take 4).length = 4 := by rw [List.length_take]; omega
  unfold read4ToU32
  rw [readBlock_ok hp]
  simp only
  split
  · rw [orBytes_eq _ 0 0 (by norm_num), map_mod_eq h]; simp
  · cases hb : c.bigEndian
    · simp [memWord, hb]
    · simp only [if_true, memWord, hb]
      rw [byteswap32_eq _ hl h]

theorem IsDig.lt256 {c : Nat} (h : IsDig c) : c < 256 := by unfold IsDig at h; omega

theorem simdRead8_eq (c : Cfg) (hs : c.simd ≠ .none) (l : List Nat) (h : ∀ x ∈ l, IsDig x) : simdRead8 c l = leWord 1 l := by
  unfold simdRead8
  cases hc : c.simd with
  | none => exact absurd hc hs
  | sse2 =>
    simp only
    congr 1
    conv_rhs => rw [← List.map_id l]
    apply List.map_congr_left
    intro x hx
    have := h x hx
    unfold IsDig at this
    unfold packusLane
    rw [if_neg (by omega), if_neg (by omega)]; rfl
  | neon =>
    simp only
    rw [map_mod_eq (fun x hx => (h x hx).lt256)]

theorem simdLaneDigit_iff (s : Simd) (hs : s ≠ .none) (x : Nat) (hx : x < 2 ^ 16) : simdLaneDigit s x = true ↔ IsDig x := by
  unfold simdLaneDigit IsDig lane16
  cases s with
  | none => exact absurd rfl hs
  | sse2 =>
    simp only [Bool.not_eq_true', decide_eq_false_iff_not]
    split <;> omega
  | neon =>
    simp only [decide_eq_true_eq]
    omega

/-- Reading and converting eight known digits, in every configuration. -/
theorem parseEightAt_eq (c : Cfg) (ct : CharType) (p : List Nat) (hp : 8 ≤ p.length) (h : ∀ x ∈ p.take 8, IsDig x) :
    parseEightDigitsUnrolledAt c ct p = .ok (dval (p.take 8)) := by
  have hl : (p.take 8).length = 8 := by rw [List.length_take]; omega
  unfold parseEightDigitsUnrolledAt
  by_cases hc : (c.constEval || !hasSimdOpt c ct) = true
  · rw [if_pos hc]
    simp only [bind, Except.bind, pure, Except.pure]
    rw [read8_eq c ct p hp (fun x hx => (h x hx).lt256)]
    simp only
    rw [parseEight_eq _ hl h]
  · rw [if_neg hc]
    have hs : c.simd ≠ .none := by
      intro he
      apply hc
      simp [hasSimdOpt, he]
    simp only [bind, Except.bind, pure, Except.pure, readBlock_ok hp]
    rw [simdRead8_eq c hs _ h, parseEight_eq _ hl h]

end FastFloat
