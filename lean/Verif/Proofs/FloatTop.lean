import Verif.Proofs.ParseSpec
/-
# from_chars on an accepted numeral: value and error code
-/
set_option linter.unusedSimpArgs false

namespace FastFloat
open NumSpec FloatSpec

theorem rangeErrc_eq {F : BinFmt} (G : GoodFmt F) {am : AdjustedMantissa} {N m : Nat} (h : AmRep F am N) :
    (rangeErrc F m am = .outOfRange ↔ (m ≠ 0 ∧ N = 0) ∨ N = infIdx F) ∧ (rangeErrc F m am = .outOfRange ∨ rangeErrc F m am = .ok) := by
  have hp := Nat.two_pow_pos F.mb
  have h2 := G.infPow1
  have key : (am.mantissa = 0 ∧ am.power2 = 0 ↔ N = 0) ∧ (am.power2 = F.infPow ↔ N = infIdx F) := by
    obtain ⟨hN, h⟩ := h
    have hd := Nat.div_add_mod N (2 ^ F.mb)
    have hm := Nat.mod_lt N hp
    rcases h with ⟨a, b⟩ | ⟨a, b, c⟩
    · rw [a, b]
      constructor
      · constructor
        · rintro ⟨h1, h2⟩
          have h2 : N / 2 ^ F.mb = 0 := by exact_mod_cast h2
          rw [h1, h2] at hd; omega
        · rintro rfl; simp
      · constructor
        · intro h
          have h : N / 2 ^ F.mb = F.infPow := by exact_mod_cast h
          rw [h] at hd
          unfold infIdx at hN ⊢
          rw [Nat.mul_comm] at hd
          omega
        · rintro rfl
          unfold infIdx
          rw [Nat.mul_div_cancel _ hp]
    · have hi := infIdx_gt G
      constructor
      · constructor
        · rintro ⟨h1, _⟩; omega
        · intro h; omega
      · constructor
        · intro h; rw [b] at h; exfalso; omega
        · intro h; omega
  unfold rangeErrc
  constructor
  · constructor
    · intro h
      split at h
      · rename_i hc
        rcases hc with ⟨h1, h3⟩ | h1
        · exact Or.inl ⟨h1, key.1.1 h3⟩
        · exact Or.inr (key.2.1 h1)
      · cases h
    · intro h
      rw [if_pos]
      rcases h with ⟨h1, h3⟩ | h1
      · exact Or.inl ⟨h1, key.1.2 h3⟩
      · exact Or.inr (key.2.2 h1)
  · split
    · exact Or.inl rfl
    · exact Or.inr rfl

/-- The value as accumulated by the code (with the saturated exponent). -/
def codeValue (n : Numeral) : ℚ := (dval n.digits : ℚ) * (10 : ℚ) ^ (satExp n.exp - ((n.frac.getD []).length : Int))

/-- A decimal that is a tie of float16 subnormals. -/
theorem tie16_form {D : Nat} {e : Int} {j : Nat} (h : 2 * ((D : ℚ) * 10 ^ e * 2 ^ 24) = 2 * (j : ℚ) + 1) :
    ∃ a : Nat, e = -((25 + a : Nat) : Int) ∧ D = (2 * j + 1) * 5 ^ 25 * 10 ^ a := by
  rcases le_or_gt 0 e with h0 | h0
  · exfalso
    obtain ⟨b, rfl⟩ := Int.eq_ofNat_of_zero_le h0
    rw [zpow_natCast] at h
    have h : 2 * (D * 10 ^ b * 2 ^ 24) = 2 * j + 1 := by exact_mod_cast h
    omega
  · obtain ⟨b, rfl⟩ : ∃ b : Nat, e = -(b : Int) := ⟨(-e).toNat, by omega⟩
    rw [zpow_neg, zpow_natCast] at h
    have h2 : D * 2 ^ 25 = (2 * j + 1) * 10 ^ b := by
      have : (D : ℚ) * 2 ^ 25 = (2 * j + 1) * 10 ^ b := by
        rw [← h]; field_simp
      exact_mod_cast this
    have hb : 25 ≤ b := by
      by_contra hc
      obtain ⟨d, hd⟩ : ∃ d, 25 = b + (d + 1) := ⟨24 - b, by omega⟩
      have h3 : D * 2 ^ (d + 1) * 2 ^ b = (2 * j + 1) * 5 ^ b * 2 ^ b := by
        rw [mul_assoc, ← pow_add, Nat.add_comm (d + 1) b, ← hd, h2, mul_assoc (2 * j + 1), ← mul_pow, show 5 * 2 = 10 from rfl]
      have h4 := Nat.eq_of_mul_eq_mul_right (Nat.two_pow_pos b) h3
      have h5 : ((2 * j + 1) * 5 ^ b) % 2 = 1 := by
        rw [Nat.mul_mod, Nat.pow_mod]; simp
      rw [← h4, pow_succ, ← mul_assoc] at h5
      omega
    obtain ⟨a, rfl⟩ : ∃ a, b = 25 + a := ⟨b - 25, by omega⟩
    refine ⟨a, rfl, ?_⟩
    have h3 : D * 2 ^ 25 = (2 * j + 1) * 5 ^ 25 * 10 ^ a * 2 ^ 25 := by
      rw [h2, pow_add, show (10 : Nat) ^ 25 = 5 ^ 25 * 2 ^ 25 by norm_num]; ring
    exact Nat.eq_of_mul_eq_mul_right (Nat.two_pow_pos 25) h3

theorem tie16_small {D : Nat} {e : Int} {j : Nat} (h : 2 * ((D : ℚ) * 10 ^ e * 2 ^ 24) = 2 * (j : ℚ) + 1) (hD : D < 10 ^ 19) : j ≤ 16 := by
  obtain ⟨a, _, h2⟩ := tie16_form h
  by_contra hc
  have h3 : 35 * 5 ^ 25 ≤ (2 * j + 1) * 5 ^ 25 := Nat.mul_le_mul_right _ (by omega)
  have h4 : (2 * j + 1) * 5 ^ 25 * 1 ≤ D := by rw [h2]; exact Nat.mul_le_mul_left _ (Nat.one_le_iff_ne_zero.2 (by positivity))
  norm_num at h3 h4 hD
  omega

theorem no_tie_huge {x : ℚ} {j : Nat} (hx : 10 ^ 400 ≤ x) (hj : j < 2 ^ 10) : 2 * (x * 2 ^ 24) ≠ 2 * (j : ℚ) + 1 := by
  obtain ⟨B, hB⟩ : ∃ B : ℚ, (10 : ℚ) ^ 400 = B := ⟨_, rfl⟩
  have h1 : (10 : ℚ) ^ 10 ≤ B := by rw [← hB]; exact pow_le_pow_right₀ (by norm_num) (by norm_num)
  rw [hB] at hx
  intro h
  have h2 : (j : ℚ) + 1 ≤ 2 ^ 10 := by exact_mod_cast hj
  norm_num at h1 h2 h
  clear hB hj
  linarith

theorem no_tie_tiny {x : ℚ} (hx : x * 10 ^ 400 ≤ 1) (h0 : 0 ≤ x) (j : Nat) : 2 * (x * 2 ^ 24) ≠ 2 * (j : ℚ) + 1 := by
  obtain ⟨B, hB⟩ : ∃ B : ℚ, (10 : ℚ) ^ 400 = B := ⟨_, rfl⟩
  have h1 : (10 : ℚ) ^ 10 ≤ B := by rw [← hB]; exact pow_le_pow_right₀ (by norm_num) (by norm_num)
  rw [hB] at hx
  intro h
  have h2 : (0 : ℚ) ≤ j := by positivity
  have h3 : x * 10 ^ 10 ≤ x * B := mul_le_mul_of_nonneg_left h1 h0
  norm_num at h3 h
  clear hB
  linarith

/-- What happens on a tie of float16 subnormals: rounded up if the tie is one of the 17 smallest, else correctly. -/
def Tie16 (T : FloatTy) (x : ℚ) (k : Nat) : Prop := T = .float16 → ∀ j : Nat, j < 2 ^ 10 → 2 * (x * 2 ^ 24) = 2 * (j : ℚ) + 1 →
  (j ≤ 16 → k = j + 1) ∧ (17 ≤ j → RN 10 (x * 2 ^ 24) k)

/-- Description of what the code stores and reports, with respect to `x`. -/
structure CodeOut (T : FloatTy) (neg : Bool) (x : ℚ) (k b : Nat) (ec : Errc) : Prop where
  rounded : Rounded T.fmt (x * 2 ^ ulpExp T.fmt) k
  rn : T ≠ .float16 → RN T.fmt.mb (x * 2 ^ ulpExp T.fmt) k
  tie : Tie16 T x k
  bits : b = min k (infIdx T.fmt) + (if neg then 2 ^ T.fmt.signIdx else 0)
  ecs : ec = .ok ∨ ec = .outOfRange
  ec1 : ec = .outOfRange → (x ≠ 0 ∧ k = 0) ∨ infIdx T.fmt ≤ k
  ec2 : x ≠ 0 → k = 0 → ec = .outOfRange
  ec3 : T ≠ .float16 → infIdx T.fmt ≤ k → ec = .outOfRange

theorem codeOut_am {T : FloatTy} {neg : Bool} {x : ℚ} {k m : Nat} {am : AdjustedMantissa} (hr : Rounded T.fmt (x * 2 ^ ulpExp T.fmt) k)
    (hrn : T ≠ .float16 → RN T.fmt.mb (x * 2 ^ ulpExp T.fmt) k) (ht : Tie16 T x k) (ha : AmRep T.fmt am (min k (infIdx T.fmt))) (hm : m ≠ 0 ↔ x ≠ 0) :
    CodeOut T neg x k (toFloat T.fmt neg am) (rangeErrc T.fmt m am) := by
  obtain ⟨e1, e2⟩ := rangeErrc_eq T.good (m := m) ha
  have hi := infIdx_gt T.good
  have hp := Nat.two_pow_pos T.fmt.mb
  refine ⟨hr, hrn, ht, toFloat_eq T.good ha neg, e2.symm, ?_, ?_, ?_⟩
  · intro h
    rcases e1.1 h with ⟨h1, h2⟩ | h1
    · exact Or.inl ⟨hm.1 h1, by omega⟩
    · exact Or.inr (by omega)
  · intro h1 h2
    exact e1.2 (Or.inl ⟨hm.2 h1, by omega⟩)
  · intro _ h
    exact e1.2 (Or.inr (by omega))

/-- An overflow found by the general path is reported, for every type. -/
theorem rangeErrc_over {T : FloatTy} {k m : Nat} {am : AdjustedMantissa} (ha : AmRep T.fmt am (min k (infIdx T.fmt))) (hk : infIdx T.fmt ≤ k) :
    rangeErrc T.fmt m am = .outOfRange := (rangeErrc_eq T.good (m := m) ha).1.2 (Or.inr (by omega))

theorem dval_take19 {D : List Nat} (hD : ∀ c ∈ D, IsDigit c) (hL : 19 < (dz D).length) :
    10 ^ 18 ≤ dval ((dz D).take 19) ∧ dval ((dz D).take 19) < 10 ^ 19 := by
  have hl : ((dz D).take 19).length = 19 := by rw [List.length_take]; omega
  have hd : ∀ c ∈ dz D, IsDigit c := dz_mem hD
  have hlt := dval_lt (fun c hc => hd c (List.mem_of_mem_take hc) : ∀ c ∈ (dz D).take 19, IsDig c)
  rw [hl] at hlt
  refine ⟨?_, hlt⟩
  have hz : dz ((dz D).take 19) = (dz D).take 19 := by
    have hid := dz_idem D
    cases hc : dz D with
    | nil => rw [hc] at hL; simp at hL
    | cons a t =>
      rw [hc] at hid
      have ha : (a == 48) = false := by
        by_contra h
        have h : a = 48 := by simpa using h
        subst h
        have := congrArg List.length hid
        have h2 : (dz t).length ≤ t.length := (List.dropWhile_sublist _).length_le
        simp [dz] at this
        unfold dz at h2
        omega
      simp [dz, List.dropWhile_cons, ha]
  have := dval_ge (fun c hc => hd c (List.mem_of_mem_take hc) : ∀ c ∈ (dz D).take 19, IsDig c)
    (by intro h; rw [h] at hl; simp at hl) hz
  rw [hl] at this
  exact this

/-- The slow path's input. -/
theorem pnsOf_bigNum {n : Numeral} {rest : List Nat} (hd : ∀ c ∈ n.digits, IsDigit c) (hL : 19 < (dz n.digits).length) :
    BigNum (pnsOf true n rest) (codeValue n) (satExp n.exp - ((n.frac.getD []).length : Int)) := by
  have hm : (pnsOf true n rest).mantissa = dval ((dz n.digits).take 19) := by
    unfold pnsOf pnsGen; simp [hL]
  have he : (pnsOf true n rest).exponent = satExp n.exp - ((n.frac.getD []).length : Int) + (dz n.digits).length - 19 := by
    unfold pnsOf pnsGen; simp [hL]
  have hi : (pnsOf true n rest).integer.getD [] = n.int := rfl
  have hf : (pnsOf true n rest).fraction.getD [] = n.frac.getD [] := rfl
  have hii : (pnsOf true n rest).integer.getD [] ++ (pnsOf true n rest).fraction.getD [] = n.digits := rfl
  obtain ⟨t1, t2⟩ := dval_take19 hd hL
  have hsplit : dval n.digits = dval ((dz n.digits).take 19) * 10 ^ ((dz n.digits).length - 19) + dval ((dz n.digits).drop 19) := by
    rw [← dval_dz n.digits]
    conv_lhs => rw [← List.take_append_drop 19 (dz n.digits)]
    rw [dval_append, List.length_drop]
  have hlt : dval ((dz n.digits).drop 19) < 10 ^ ((dz n.digits).length - 19) := by
    have := dval_lt (fun c hc => (dz_mem hd) c (List.mem_of_mem_drop hc) : ∀ c ∈ (dz n.digits).drop 19, IsDig c)
    rw [List.length_drop] at this; exact this
  have hpow : (10 : ℚ) ^ (satExp n.exp - ((n.frac.getD []).length : Int) + (dz n.digits).length - 19) =
      10 ^ ((dz n.digits).length - 19) * 10 ^ (satExp n.exp - ((n.frac.getD []).length : Int)) := by
    rw [← zpow_natCast, ← zpow_add₀ (by norm_num)]
    congr 1
    push_cast [hL.le]
    ring
  have hpos : (0 : ℚ) < 10 ^ (satExp n.exp - ((n.frac.getD []).length : Int)) := by positivity
  constructor
  · intro d hd'; exact hd d (List.mem_append_left _ hd')
  · intro d hd'; exact hd d (List.mem_append_right _ hd')
  · rw [hm]; exact t1
  · rw [hm]; exact t2
  · rw [hm, he, hpow, ← mul_assoc]
    unfold codeValue
    apply mul_le_mul_of_nonneg_right _ hpos.le
    rw [hsplit]; push_cast
    have : (0 : ℚ) ≤ dval ((dz n.digits).drop 19) := by positivity
    linarith
  · rw [hm, he, hpow, ← mul_assoc]
    unfold codeValue
    apply mul_lt_mul_of_pos_right _ hpos
    rw [hsplit]; push_cast
    have : (dval ((dz n.digits).drop 19) : ℚ) < 10 ^ ((dz n.digits).length - 19) := by exact_mod_cast hlt
    nlinarith
  · rw [hii]; rfl
  · rw [hii, he]; ring

/-- Ties of float16 subnormals in the slow path. -/
theorem slow_tie {T : FloatTy} {n : Numeral} {rest : List Nat} (hd : ∀ c ∈ n.digits, IsDigit c) (hL : 19 < (dz n.digits).length) {k : Nat}
    (h2 : (codeValue n = (pnsOf true n rest).mantissa * 10 ^ (pnsOf true n rest).exponent ∧ Rounded T.fmt (codeValue n * 2 ^ ulpExp T.fmt) k) ∨
      RN T.fmt.mb (codeValue n * 2 ^ ulpExp T.fmt) k)
    (h4 : codeValue n = (pnsOf true n rest).mantissa * 10 ^ (pnsOf true n rest).exponent → TieUp T.fmt (codeValue n * 2 ^ ulpExp T.fmt) k) :
    Tie16 T (codeValue n) k := by
  rintro rfl j hj ht
  have hu : ulpExp FloatTy.float16.fmt = 24 := by decide
  have hmb : FloatTy.float16.fmt.mb = 10 := rfl
  have B := pnsOf_bigNum (rest := rest) hd hL
  have hm : (pnsOf true n rest).mantissa = dval ((dz n.digits).take 19) := by
    unfold pnsOf pnsGen; simp [hL]
  have he : (pnsOf true n rest).exponent = satExp n.exp - ((n.frac.getD []).length : Int) + (dz n.digits).length - 19 := by
    unfold pnsOf pnsGen; simp [hL]
  rw [hu, hmb] at h2
  rw [hu] at h4
  have heq : j ≤ 16 → codeValue n = (pnsOf true n rest).mantissa * 10 ^ (pnsOf true n rest).exponent := by
    intro hj16
    obtain ⟨a, _, hD⟩ := tie16_form (D := dval n.digits) (e := satExp n.exp - ((n.frac.getD []).length : Int)) ht
    have hsplit : dval n.digits = dval ((dz n.digits).take 19) * 10 ^ ((dz n.digits).length - 19) + dval ((dz n.digits).drop 19) := by
      rw [← dval_dz n.digits]
      conv_lhs => rw [← List.take_append_drop 19 (dz n.digits)]
      rw [dval_append, List.length_drop]
    have hlt : dval ((dz n.digits).drop 19) < 10 ^ ((dz n.digits).length - 19) := by
      have := dval_lt (fun c hc => (dz_mem hd) c (List.mem_of_mem_drop hc) : ∀ c ∈ (dz n.digits).drop 19, IsDig c)
      rw [List.length_drop] at this; exact this
    obtain ⟨t1, _⟩ := dval_take19 hd hL
    obtain ⟨l, hl⟩ : ∃ l, (dz n.digits).length - 19 = l := ⟨_, rfl⟩
    rw [hl] at hsplit hlt
    have hal : l ≤ a := by
      by_contra hc
      have h5 : 10 ^ 18 * 10 ^ l ≤ dval n.digits := by rw [hsplit]; exact le_trans (Nat.mul_le_mul_right _ t1) (Nat.le_add_right _ _)
      have h6 : (2 * j + 1) * 5 ^ 25 < 10 ^ 19 := lt_of_le_of_lt (Nat.mul_le_mul_right _ (show 2 * j + 1 ≤ 33 by omega)) (by norm_num)
      have h7 : dval n.digits < 10 ^ 19 * 10 ^ a := by rw [hD]; exact Nat.mul_lt_mul_of_pos_right h6 (by positivity)
      have h8 : 10 ^ 19 * 10 ^ a ≤ 10 ^ 18 * 10 ^ l := by
        rw [← pow_add, ← pow_add]; exact Nat.pow_le_pow_right (by norm_num) (by omega)
      omega
    have hz : dval ((dz n.digits).drop 19) = 0 := by
      have hdv : 10 ^ l ∣ dval n.digits := by rw [hD]; exact Dvd.dvd.mul_left (pow_dvd_pow 10 hal) _
      rw [hsplit] at hdv
      have := (Nat.dvd_add_right (Nat.dvd_mul_left (10 ^ l) (dval ((dz n.digits).take 19)))).1 hdv
      exact Nat.eq_zero_of_dvd_of_lt this hlt
    rw [hm, he]
    unfold codeValue
    rw [hsplit, hz]
    push_cast
    rw [add_zero, mul_assoc]
    congr 1
    rw [← zpow_natCast, ← zpow_add₀ (by norm_num)]
    congr 1
    have : ((l : Nat) : Int) = ((dz n.digits).length : Int) - 19 := by omega
    rw [this]; ring
  refine ⟨fun h16 => h4 (heq h16) j hj ht, fun h17 => ?_⟩
  rcases h2 with ⟨h, _⟩ | h
  · exfalso
    rw [h] at ht
    have := tie16_small ht (by rw [hm]; exact (dval_take19 hd hL).2)
    omega
  · exact h

/-- Ties of float16 subnormals with at most 19 significant digits. -/
theorem few_tie {T : FloatTy} {w : Nat} {q : Int} (hw : w < 10 ^ 19) {k : Nat} (h : TieUp T.fmt (scaled T.fmt w q) k) :
    Tie16 T ((w : ℚ) * 10 ^ q) k := by
  rintro rfl j hj ht
  exact ⟨fun _ => h j hj ht, fun h17 => absurd (tie16_small ht hw) (by omega)⟩

/-- No fast path on such ties. -/
theorem clinger_tie (c : Cfg) {T : FloatTy} {w : Nat} {q : Int} {neg : Bool} {v k : Nat} (h : clingerFastPath c T.fmt w q neg = .ok (some v)) :
    Tie16 T ((w : ℚ) * 10 ^ q) k := by
  rintro rfl j hj ht
  exfalso
  obtain ⟨a, ha, _⟩ := tie16_form ht
  unfold clingerFastPath at h
  rw [if_neg] at h
  · cases h
  · rintro ⟨h1, _⟩
    unfold minExponentFastPath at h1
    have h2 : FloatTy.float16.fmt.minFast = 0 := rfl
    rw [h2] at h1
    split at h1 <;> omega

/-- The slow path on a numeral with more than 19 significant digits. -/
theorem slow_spec (c : Cfg) {ct : CharType} (hw : ct.WF) (T : FloatTy) {n : Numeral} {rest : List Nat} (hd : ∀ c ∈ n.digits, IsDigit c)
    (hL : 19 < (dz n.digits).length) :
    ∃ k b ec, fromCharsAdvancedPns c ct T.fmt (pnsOf true n rest) = .ok ⟨rest, ec, some b⟩ ∧ CodeOut T n.neg (codeValue n) k b ec ∧
      (infIdx T.fmt ≤ k → ec = .outOfRange) := by
  have B := pnsOf_bigNum (rest := rest) hd hL
  have htm : (pnsOf true n rest).tooManyDigits = true := by unfold pnsOf pnsGen; simpa using hL
  obtain ⟨am, k, h1, h2, h3, _, h4⟩ := fromCharsAdvancedPns_big' c ct hw T.good T.slow _ B htm
  have hmne : (pnsOf true n rest).mantissa ≠ 0 := by have := B.w1; omega
  have hxne : codeValue n ≠ 0 := by
    have h1 := B.x1
    have : (0 : ℚ) < (pnsOf true n rest).mantissa := by exact_mod_cast Nat.pos_of_ne_zero hmne
    have : (0 : ℚ) < (pnsOf true n rest).mantissa * 10 ^ (pnsOf true n rest).exponent := by positivity
    intro hc; rw [hc] at h1; linarith
  refine ⟨k, _, _, h1, codeOut_am ?_ ?_ (slow_tie hd hL h2 h4) h3 ⟨fun _ => hxne, fun _ => hmne⟩, rangeErrc_over h3⟩
  · rcases h2 with ⟨_, h⟩ | h
    · exact h
    · exact Or.inl h
  · intro hT
    rcases h2 with ⟨he, h⟩ | h
    · rw [he] at h ⊢
      exact Rounded.rn (T.ulpWide hT) (lt_trans B.w2 (by norm_num)) h
    · exact h

/-- What the call does once the scan has found a numeral. -/
theorem parsed_spec (c : Cfg) {ct : CharType} (hw : ct.WF) (T : FloatTy) {s : List Nat} (opt : Options) {fmt : Fmt} {bjf : Bool}
    {n : Numeral} {rest : List Nat} (hd : ∀ c ∈ n.digits, IsDigit c)
    (hstore : parseNumberString c ct bjf s opt true = .ok (pnsOf true n rest)) :
    ∃ k b ec, fromCharsFloatParsed c ct T.fmt s opt fmt bjf (pnsOf false n rest) = .ok ⟨rest, ec, some b⟩ ∧
      CodeOut T n.neg (codeValue n) k b ec := by
  have hslow : parseNumberSlowPath c ct T.fmt s opt bjf = fromCharsAdvancedPns c ct T.fmt (pnsOf true n rest) := by
    unfold parseNumberSlowPath
    rw [hstore, ok_bind]
  unfold fromCharsFloatParsed
  have hv : (pnsOf false n rest).valid = true := rfl
  have hlm : (pnsOf false n rest).lastmatch = rest := rfl
  have hneg : (pnsOf false n rest).negative = n.neg := rfl
  rw [hv]
  simp only [Bool.not_true, Bool.false_eq_true, if_false]
  by_cases hL : 19 < (dz n.digits).length
  · have htm : (pnsOf false n rest).tooManyDigits = true := by unfold pnsOf pnsGen; simpa using hL
    rw [htm]
    simp only [if_true]
    rw [hslow]
    obtain ⟨k, b, ec, h1, h2, _⟩ := slow_spec c hw T hd hL (rest := rest)
    exact ⟨k, b, ec, h1, h2⟩
  · have htm : (pnsOf false n rest).tooManyDigits = false := by unfold pnsOf pnsGen; simpa using hL
    have hlt : dval n.digits < 10 ^ 19 := by
      rw [← dval_dz]
      have := dval_lt (fun c hc => (dz_mem hd) c hc : ∀ c ∈ dz n.digits, IsDig c)
      exact lt_of_lt_of_le this (Nat.pow_le_pow_right (by norm_num) (by omega))
    have hlt64 : dval n.digits < 2 ^ 64 := lt_trans hlt (by norm_num)
    have hm : (pnsOf false n rest).mantissa = dval n.digits := by
      unfold pnsOf pnsGen; simp only [Bool.and_false, Bool.false_eq_true, if_false]; exact Nat.mod_eq_of_lt hlt64
    have he : (pnsOf false n rest).exponent = satExp n.exp - ((n.frac.getD []).length : Int) := by
      unfold pnsOf pnsGen; simp
    rw [htm, hm, he, hneg, hlm]
    simp only [Bool.false_eq_true, if_false]
    have hxs : scaled T.fmt (dval n.digits) (satExp n.exp - ((n.frac.getD []).length : Int)) = codeValue n * 2 ^ ulpExp T.fmt := rfl
    have hmx : dval n.digits ≠ 0 ↔ codeValue n ≠ 0 := by
      unfold codeValue
      rw [mul_ne_zero_iff, Nat.cast_ne_zero]
      constructor
      · intro h; exact ⟨h, by positivity⟩
      · intro h; exact h.1
    obtain ⟨o, ho, hv⟩ := clinger_spec c T.fast (dval n.digits) (satExp n.exp - ((n.frac.getD []).length : Int)) n.neg
    rw [ho, ok_bind]
    cases o with
    | some v =>
      obtain ⟨k, r1, r2, r3, r4⟩ := hv v rfl
      rw [hxs] at r1
      have hi := infIdx_gt T.good
      refine ⟨k, v, .ok, rfl, ⟨Or.inl r1, fun _ => r1, clinger_tie c ho, r2, Or.inl rfl, (by intro h; cases h), ?_, ?_⟩⟩
      · intro h1 h2; exact absurd h2 (r3 (hmx.2 h1))
      · intro hT h; exact absurd (r4 (T.finite hT)) (by omega)
    | none =>
      obtain ⟨am, k, h1, h2, h3, h4⟩ := computeFloat_spec' c T.good (satExp n.exp - ((n.frac.getD []).length : Int)) (dval n.digits) hlt64
      have hp0 : ¬ am.power2 < 0 := by
        rcases h3.2 with ⟨h, _⟩ | ⟨_, h, _⟩ <;> rw [h] <;> exact not_lt.2 (Int.natCast_nonneg _)
      simp only [h1, ok_bind]
      rw [if_neg hp0]
      refine ⟨k, _, _, rfl, codeOut_am (hxs ▸ h2) (fun hT => hxs ▸ Rounded.rn (T.ulpWide hT) hlt64 h2) (few_tie hlt h4) h3 hmx⟩

theorem tiny_bound (T : FloatTy) : (2 : ℚ) ^ ulpExp T.fmt * 2 < 10 ^ 400 := by
  have h1 := T.good.under
  have h2 := T.good.minPow
  have h3 : (10 : Nat) ^ ((-T.fmt.minPow10).toNat + 1) ≤ 10 ^ 400 := Nat.pow_le_pow_right (by norm_num) (by omega)
  have hp := Nat.two_pow_pos (ulpExp T.fmt + 1)
  have h4 : 2 ^ (ulpExp T.fmt + 1) < 2 ^ 64 * 2 ^ (ulpExp T.fmt + 1) := by
    rw [← one_mul (2 ^ (ulpExp T.fmt + 1)), ← mul_assoc]
    exact Nat.mul_lt_mul_of_pos_right (by norm_num) hp
  have h5 : 2 ^ ulpExp T.fmt * 2 < 10 ^ 400 := by
    rw [← pow_succ]; exact lt_of_lt_of_le h4 (le_trans h1 h3)
  exact_mod_cast h5

theorem huge_bound (T : FloatTy) : (fpVal T.fmt.mb (infIdx T.fmt) : ℚ) ≤ 10 ^ 400 * 2 ^ ulpExp T.fmt := by
  have h1 := T.good.over
  have h2 := T.good.maxPow
  have h3 : (10 : Nat) ^ (T.fmt.maxPow10.toNat + 1) ≤ 10 ^ 400 := Nat.pow_le_pow_right (by norm_num) (by omega)
  have h5 : fpVal T.fmt.mb (infIdx T.fmt) ≤ 10 ^ 400 * 2 ^ ulpExp T.fmt := le_trans h1 (Nat.mul_le_mul_right _ h3)
  exact_mod_cast h5

theorem rounded_huge (T : FloatTy) {x : ℚ} {k : Nat} (hx : 10 ^ 400 ≤ x) (h : Rounded T.fmt (x * 2 ^ ulpExp T.fmt) k) : infIdx T.fmt ≤ k := by
  by_contra hc
  push Not at hc
  have h1 := h.high
  have hb := huge_bound T
  have h2 : (fpVal T.fmt.mb (k + 1) : ℚ) ≤ fpVal T.fmt.mb (infIdx T.fmt) := by exact_mod_cast fpVal_mono (by omega)
  have h3 : (fpVal T.fmt.mb k : ℚ) < fpVal T.fmt.mb (infIdx T.fmt) := by exact_mod_cast fpVal_strictMono hc
  have h4 : (10 : ℚ) ^ 400 * 2 ^ ulpExp T.fmt ≤ x * 2 ^ ulpExp T.fmt := mul_le_mul_of_nonneg_right hx (by positivity)
  linarith

theorem rounded_tiny (T : FloatTy) {x : ℚ} {k : Nat} (hx : x * 10 ^ 400 ≤ 1) (h0 : 0 ≤ x) (h : Rounded T.fmt (x * 2 ^ ulpExp T.fmt) k) : k = 0 := by
  by_contra hc
  obtain ⟨j, rfl⟩ := Nat.exists_eq_succ_of_ne_zero hc
  have h1 := h.low
  have hb := tiny_bound T
  have h3 : (1 : ℚ) ≤ fpVal T.fmt.mb (j + 1) := by
    have h := fpVal_lt_succ T.fmt.mb j
    have : 1 ≤ fpVal T.fmt.mb (j + 1) := by omega
    exact_mod_cast this
  have h4 : (0 : ℚ) ≤ fpVal T.fmt.mb j := by positivity
  have h5 : 1 ≤ x * (2 ^ ulpExp T.fmt * 2) := by linarith
  rcases lt_or_eq_of_le h0 with hp | hp
  · have := mul_lt_mul_of_pos_left hb hp
    linarith
  · rw [← hp] at h5; norm_num at h5

/-- What saturation does to the exponent literal. -/
theorem sat_cases {n : Numeral} {g : Rules} (hwf : n.WF g) :
    satExp n.exp = n.expVal ∨ (0x10000000 ≤ satExp n.exp ∧ satExp n.exp ≤ n.expVal) ∨ (n.expVal ≤ satExp n.exp ∧ satExp n.exp ≤ -0x10000000) := by
  have hok := hwf.2.2.2
  unfold Numeral.expVal
  cases he : n.exp with
  | none => left; rfl
  | some e =>
    rw [he] at hok
    have := (satFold_zero e.digits hok.2.1).1
    simp only [satExp, Exponent.val]
    by_cases hs : e.sign = some 45
    · rw [if_pos hs, if_pos hs]
      rcases this with h | ⟨h1, h2⟩
      · left; rw [h]
      · right; right; constructor <;> omega
    · rw [if_neg hs, if_neg hs]
      rcases this with h | ⟨h1, h2⟩
      · left; rw [h]
      · right; left; constructor <;> omega

theorem sat_le4 {n : Numeral} {g : Rules} (hwf : n.WF g) (hmod : Moderate n) :
    satExp n.exp - ((n.frac.getD []).length : Int) ≤ 4 ↔ n.expVal - ((n.frac.getD []).length : Int) ≤ 4 := by
  obtain ⟨f, hf⟩ : ∃ f : Nat, (n.frac.getD []).length = f := ⟨_, rfl⟩
  have hfL : f ≤ n.digits.length := by
    rw [← hf]; unfold Numeral.digits; rw [List.length_append]; omega
  rw [hf]
  rcases sat_cases hwf with hs | ⟨h1, h2⟩ | ⟨h1, h2⟩
  · rw [hs]
  · rcases hmod with hm | hm
    · omega
    · rw [abs_lt] at hm; omega
  · omega

/-- Saturation of the exponent literal is invisible. -/
theorem CodeOut.moderate {T : FloatTy} {n : Numeral} {g : Rules} (hwf : n.WF g) (hmod : Moderate n) {k b : Nat} {ec : Errc}
    (h : CodeOut T n.neg (codeValue n) k b ec) : ∃ k', CodeOut T n.neg n.value k' b ec := by
  have hdig : ∀ c ∈ n.digits, IsDigit c := hwf.2.1
  obtain ⟨f, hf⟩ : ∃ f : Nat, (n.frac.getD []).length = f := ⟨_, rfl⟩
  have hfL : f ≤ n.digits.length := by
    rw [← hf]; unfold Numeral.digits; rw [List.length_append]; omega
  have hDlt : dval n.digits < 10 ^ n.digits.length := dval_lt (fun c hc => hdig c hc : ∀ c ∈ n.digits, IsDig c)
  have hcv : codeValue n = (dval n.digits : ℚ) * 10 ^ (satExp n.exp - (f : Int)) := by unfold codeValue; rw [hf]
  have hnv : n.value = (dval n.digits : ℚ) * 10 ^ (n.expVal - (f : Int)) := by
    unfold Numeral.value; rw [hf]; rfl
  have hsat := sat_cases hwf
  by_cases hD : dval n.digits = 0
  · refine ⟨k, ?_⟩
    have : n.value = codeValue n := by rw [hnv, hcv, hD]; simp
    rw [this]; exact h
  have hD1 : (1 : ℚ) ≤ dval n.digits := by exact_mod_cast Nat.pos_of_ne_zero hD
  have hDu : (dval n.digits : ℚ) ≤ 10 ^ (n.digits.length : Int) := by rw [zpow_natCast]; exact_mod_cast hDlt.le
  have hhi : ∀ e : Int, 400 ≤ e → (10 : ℚ) ^ 400 ≤ (dval n.digits : ℚ) * 10 ^ e := by
    intro e he
    have : (10 : ℚ) ^ (400 : Int) ≤ 10 ^ e := zpow_le_zpow_right₀ (by norm_num) he
    have h2 : (10 : ℚ) ^ (400 : Int) = 10 ^ 400 := by norm_cast
    rw [h2] at this
    have hp : (0 : ℚ) < 10 ^ e := by positivity
    have h3 : 1 * (10 : ℚ) ^ e ≤ (dval n.digits : ℚ) * 10 ^ e := mul_le_mul_of_nonneg_right hD1 hp.le
    rw [one_mul] at h3
    exact le_trans this h3
  have hlo : ∀ e : Int, e + n.digits.length + 400 ≤ 0 → (dval n.digits : ℚ) * 10 ^ e * 10 ^ 400 ≤ 1 := by
    intro e he
    have h2 : (10 : ℚ) ^ 400 = 10 ^ (400 : Int) := by norm_cast
    have hp : (0 : ℚ) < 10 ^ (e + 400) := by positivity
    calc (dval n.digits : ℚ) * 10 ^ e * 10 ^ 400 = (dval n.digits : ℚ) * 10 ^ (e + 400) := by
          rw [h2, mul_assoc, ← zpow_add₀ (by norm_num)]
      _ ≤ 10 ^ (n.digits.length : Int) * 10 ^ (e + 400) := mul_le_mul_of_nonneg_right hDu hp.le
      _ = 10 ^ (n.digits.length + (e + 400)) := by rw [← zpow_add₀ (by norm_num)]
      _ ≤ 1 := zpow_le_one_of_nonpos₀ (by norm_num) (by omega)
  have hx0 : 0 ≤ codeValue n := by rw [hcv]; positivity
  have hy0 : 0 ≤ n.value := by rw [hnv]; positivity
  have hxne : codeValue n ≠ 0 := by rw [hcv]; positivity
  have hyne : n.value ≠ 0 := by rw [hnv]; positivity
  have hi := infIdx_gt T.good
  obtain ⟨k', hk'⟩ := RN_exists (mb := T.fmt.mb) T.good.mb1 (n.value * 2 ^ ulpExp T.fmt) (by positivity)
  rcases hsat with hs | ⟨h1, h2⟩ | ⟨h1, h2⟩
  · refine ⟨k, ?_⟩
    have : n.value = codeValue n := by rw [hnv, hcv, hs]
    rw [this]; exact h
  · have hm : n.digits.length + 400 ≤ 2 ^ 28 := by
      rcases hmod with hm | hm
      · exact hm
      · rw [abs_lt] at hm; omega
    have a1 := rounded_huge T (by rw [hcv]; exact hhi _ (by omega)) h.rounded
    have a2 := rounded_huge T (x := n.value) (by rw [hnv]; exact hhi _ (by omega)) (Or.inl hk')
    refine ⟨k', Or.inl hk', fun _ => hk', ?_, ?_, h.ecs, fun _ => Or.inr a2, fun _ h0 => ?_, fun hT _ => h.ec3 hT a1⟩
    · rintro rfl j hj ht
      exact absurd ht (no_tie_huge (by rw [hnv]; exact hhi _ (by omega)) hj)
    · rw [h.bits, Nat.min_eq_right a1, Nat.min_eq_right a2]
    · have := Nat.two_pow_pos T.fmt.mb; omega
  · have hm : n.digits.length + 400 ≤ 2 ^ 28 := by
      rcases hmod with hm | hm
      · exact hm
      · rw [abs_lt] at hm; omega
    have a1 := rounded_tiny T (by rw [hcv]; exact hlo _ (by omega)) hx0 h.rounded
    have a2 := rounded_tiny T (x := n.value) (by rw [hnv]; exact hlo _ (by omega)) hy0 (Or.inl hk')
    refine ⟨k', Or.inl hk', fun _ => hk', ?_, ?_, h.ecs, fun _ => Or.inl ⟨hyne, a2⟩, fun _ _ => h.ec2 hxne a1, fun hT h0 => ?_⟩
    · rintro rfl j hj ht
      exact absurd ht (no_tie_tiny (by rw [hnv]; exact hlo _ (by omega)) hy0 j)
    · rw [h.bits, a1, a2]
    · have := Nat.two_pow_pos T.fmt.mb; omega

end FastFloat
