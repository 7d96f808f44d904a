import Verif.Props.Complete
import Verif.Props.Pow10
/-
# C61: a `parsed_number_string_t` filled in by the caller

`from_chars_advanced(parsed_number_string_t&, T&)` is public (parse_number.h:249-290, "internally used, but exposed for advanced
use"): a caller with another scanner fills in the decimal significand and exponent and lets the library round.
-/
namespace FastFloat
open FloatSpec ApiSpec NumSpec

theorem amRep_nonneg {F : BinFmt} {am : AdjustedMantissa} {n : Nat} (h : AmRep F am n) : 0 ≤ am.power2 := by
  obtain ⟨_, ⟨h, _⟩ | ⟨_, h, _⟩⟩ := h
  · rw [h]; exact Int.natCast_nonneg _
  · omega

/-- What the overload does when `too_many_digits` is not set, in terms of the internal rounding relation. -/
theorem pns_core (c : Cfg) (ct : CharType) (T : FloatTy) (p : ParsedNumber) (hm : p.mantissa < 2 ^ 64) (ht : p.tooManyDigits = false) :
    ∃ b n ec, fromCharsAdvancedPns c ct T.fmt p = .ok ⟨p.lastmatch, ec, some b⟩ ∧
      Rounded T.fmt (scaled T.fmt p.mantissa p.exponent) n ∧ b = (if p.negative then T.spec.signBit else 0) + min n (infIdx T.fmt) ∧
      (T = .float16 → ∀ j : Nat, j < 2 ^ 10 → 2 * ((p.mantissa : ℚ) * 10 ^ p.exponent * 2 ^ 24) = 2 * (j : ℚ) + 1 → j ≤ 30 ∧ n = j + 1) ∧
      (ec = .ok ∨ ec = .outOfRange) ∧ (ec = .outOfRange → (p.mantissa ≠ 0 ∧ n = 0) ∨ infIdx T.fmt ≤ n) ∧
      (p.mantissa ≠ 0 → n = 0 → ec = .outOfRange) ∧ (T ≠ .float16 → infIdx T.fmt ≤ n → ec = .outOfRange) := by
  obtain ⟨o, ho, hv⟩ := clinger_spec c T.fast p.mantissa p.exponent p.negative
  unfold fromCharsAdvancedPns
  rw [T.signBit_eq]
  simp only [ht, Bool.not_false, if_true, bind, Except.bind, pure, Except.pure, ho]
  cases o with
  | some v =>
    obtain ⟨n, h1, h2, h3, h4⟩ := hv v rfl
    refine ⟨v, n, .ok, rfl, Or.inl h1, by rw [h2, Nat.add_comm], ?_, Or.inl rfl, by rintro ⟨⟩, fun a b => absurd b (h3 a), ?_⟩
    · rintro rfl j _ h
      exact absurd (clinger16_no_tie ho h) id
    · intro hT h
      have := h4 (T.finite hT)
      omega
  | none =>
    obtain ⟨am, n, h1, h2, h3, h4⟩ := computeFloat_spec' c T.good p.exponent p.mantissa hm
    have hp := amRep_nonneg h3
    simp only [h1, Bool.false_and, Bool.false_eq_true, if_false]
    rw [if_neg (by omega)]
    obtain ⟨e1, e2⟩ := rangeErrc_eq T.good (m := p.mantissa) h3
    have hi := infIdx_gt T.good
    have hpp := Nat.two_pow_pos T.fmt.mb
    refine ⟨_, n, _, rfl, h2, by rw [toFloat_eq T.good h3, Nat.add_comm], ?_, e2.symm, ?_, ?_, ?_⟩
    · rintro rfl j hj h
      exact ⟨tie16_small64 h hm, h4 j hj h⟩
    · intro h
      rcases e1.1 h with ⟨a, b⟩ | b
      · exact Or.inl ⟨a, by omega⟩
      · exact Or.inr (by omega)
    · intro a b
      exact e1.2 (Or.inl ⟨a, by omega⟩)
    · intro _ h
      exact e1.2 (Or.inr (by omega))

/-- **C61**: the caller fills in the significand (any 64-bit number) and the decimal exponent (any) and leaves `too_many_digits` unset: the
overload stores the correctly rounded `±mantissa·10^exponent`, reports a range error exactly when that over- or underflows, and returns
`lastmatch`.  Nothing else in the structure matters (not even `valid`). -/
theorem C61_pns_value (c : Cfg) (ct : CharType) (T : FloatTy) (hT : T ≠ .float16) (p : ParsedNumber) (hm : p.mantissa < 2 ^ 64)
    (ht : p.tooManyDigits = false) :
    ∃ ec b, fromCharsAdvancedPns c ct T.fmt p = .ok ⟨p.lastmatch, ec, some b⟩ ∧
      T.spec.RoundsToBits p.negative ((p.mantissa : ℚ) * 10 ^ p.exponent) b ∧
      ((ec.code = .range ∧ OutOfRange T.spec ((p.mantissa : ℚ) * 10 ^ p.exponent)) ∨
       (ec.code = .success ∧ ¬ OutOfRange T.spec ((p.mantissa : ℚ) * 10 ^ p.exponent))) := by
  obtain ⟨b, n, ec, h1, h2, h3, _, h4, h5, h6, h7⟩ := pns_core c ct T p hm ht
  have hx : (p.mantissa : ℚ) * 10 ^ p.exponent ≠ 0 ↔ p.mantissa ≠ 0 := by
    rw [mul_ne_zero_iff]
    exact ⟨fun h => by exact_mod_cast h.1, fun h => ⟨by exact_mod_cast h, by positivity⟩⟩
  have hc : CodeOut T p.negative ((p.mantissa : ℚ) * 10 ^ p.exponent) n b ec :=
    ⟨h2, fun hT => h2.rn (T.ulpWide hT) hm, fun h => absurd h hT, by rw [h3, T.signBit_eq, Nat.add_comm], h4,
      fun h => (h5 h).imp (fun a => ⟨hx.2 a.1, a.2⟩) id, fun a b => h6 (hx.1 a) b, h7⟩
  exact ⟨ec, b, h1, hc.roundsTo hT, codeOut_range hT (by positivity) hc⟩

/-- `-123456789·10^-400` in `double` (underflow), with a nonsense `valid`. -/
example : ∃ ec b, fromCharsAdvancedPns Cfg.x64 CharType.char binary64 { mantissa := 123456789, exponent := -400, negative := true, valid := false } =
      .ok ⟨[], ec, some b⟩ ∧ ec = .outOfRange ∧ b = 2 ^ 63 := ⟨.outOfRange, 2 ^ 63, by decide +kernel, rfl, rfl⟩

/-- **C61 for float16**: the same, except on the sixteen ties of `C32_float16_sharp`, where the upper neighbour is stored. -/
theorem C61_pns_float16 (c : Cfg) (ct : CharType) (p : ParsedNumber) (hm : p.mantissa < 2 ^ 64) (ht : p.tooManyDigits = false) :
    ∃ ec b, fromCharsAdvancedPns c ct binary16 p = .ok ⟨p.lastmatch, ec, some b⟩ ∧
      (half.RoundsToBits p.negative ((p.mantissa : ℚ) * 10 ^ p.exponent) b ↔ ¬ HalfException 30 ((p.mantissa : ℚ) * 10 ^ p.exponent)) ∧
      ∀ j : Nat, j % 2 = 0 → j ≤ 30 → (p.mantissa : ℚ) * 10 ^ p.exponent = (2 * j + 1) / 2 ^ 25 →
        b = (if p.negative then half.signBit else 0) + (j + 1) := by
  obtain ⟨b, n, ec, e1, g2, e3, g4, _⟩ := pns_core c ct .float16 p hm ht
  have e2 := half_split (J := 30) (by norm_num) g2 (by
    intro j hj ht
    obtain ⟨a1, a2⟩ := g4 rfl j hj ht
    exact ⟨fun _ => a2, fun h => absurd h (by omega)⟩)
  have hi : infIdx FloatTy.float16.fmt = 31744 := by decide
  have e3 : b = (if p.negative then half.signBit else 0) + min n 31744 := by rw [← hi]; exact e3
  refine ⟨ec, b, e1, ⟨?_, fun hx => ?_⟩, ?_⟩
  · rintro ⟨b', hr, hb⟩
    rcases e2 with ⟨h2, _⟩ | ⟨j, a1, a2, a3, a4⟩
    · exact h2
    · exfalso
      rw [a3] at hr
      rw [e3, a4, Nat.min_eq_left (by omega)] at hb
      have hb : b' = j + 1 := by omega
      rw [hb] at hr
      exact exception_not_rounded (by omega) a1 hr
  · rcases e2 with ⟨_, h2⟩ | ⟨j, a1, a2, a3, a4⟩
    · refine ⟨_, ?_, e3⟩
      have := roundsTo_of_RN FloatTy.float16.fmatch (x := (p.mantissa : ℚ) * 10 ^ p.exponent) (by rw [ulp16]; exact h2)
      rw [hi] at this
      exact this
    · exact absurd ⟨j, a1, a2, a3⟩ hx
  · intro j i1 i2 i3
    have : n = j + 1 := half_split_unique e2 (Or.inr ⟨j, i1, i2, i3, rfl⟩)
    rw [e3, this, Nat.min_eq_left (by omega)]

/-- `298023223876953125·10^-25 = 1/2^25` is one of them. -/
example : ∃ ec b, fromCharsAdvancedPns Cfg.x64 CharType.char binary16 { mantissa := 298023223876953125, exponent := -25 } = .ok ⟨[], ec, some b⟩ ∧
    b = 0 + (0 + 1) := by
  obtain ⟨ec, b, h1, _, h2⟩ := C61_pns_float16 Cfg.x64 CharType.char { mantissa := 298023223876953125, exponent := -25 } (by norm_num) rfl
  exact ⟨ec, b, h1, h2 0 (by norm_num) (by norm_num) (by norm_num)⟩

theorem dz_length {l : List Nat} (hl : ∀ d ∈ l, IsDig d) {L : Nat} (h1 : 10 ^ L ≤ dval l) (h2 : dval l < 10 ^ (L + 1)) : (dz l).length = L + 1 := by
  have hne : dz l ≠ [] := by
    intro h
    have := dval_dz l
    rw [h] at this
    have h3 : dval [] = 0 := rfl
    have := Nat.pos_of_ne_zero (pow_ne_zero L (show (10 : Nat) ≠ 0 by norm_num))
    omega
  have h3 := dval_ge (dz_mem hl) hne (dz_idem l)
  have h4 := dval_lt (dz_mem hl)
  rw [dval_dz] at h3 h4
  have h5 : (dz l).length - 1 < L + 1 := (Nat.pow_lt_pow_iff_right (show 1 < 10 by norm_num)).1 (lt_of_le_of_lt h3 h2)
  have h6 : L < (dz l).length := (Nat.pow_lt_pow_iff_right (show 1 < 10 by norm_num)).1 (lt_of_le_of_lt h1 h4)
  omega

/-- What the overload does with more than nineteen digits, for every type. -/
theorem pns_long_core (c : Cfg) {ct : CharType} (hw : ct.WF) (T : FloatTy) (p : ParsedNumber) (ex : Int) (L : Nat) (hL : 19 ≤ L)
    (hi : ∀ d ∈ p.integer.getD [], IsDigit d) (hf : ∀ d ∈ p.fraction.getD [], IsDigit d)
    (h1 : 10 ^ (L - 1) ≤ digitsVal (p.integer.getD [] ++ p.fraction.getD [])) (h2 : digitsVal (p.integer.getD [] ++ p.fraction.getD []) < 10 ^ L)
    (hm : p.mantissa = digitsVal (p.integer.getD [] ++ p.fraction.getD []) / 10 ^ (L - 19)) (he : p.exponent = ex + (L - 19 : Nat))
    (ht : p.tooManyDigits = true) :
    ∃ ec b k, fromCharsAdvancedPns c ct T.fmt p = .ok ⟨p.lastmatch, ec, some b⟩ ∧
      CodeOut T p.negative ((digitsVal (p.integer.getD [] ++ p.fraction.getD []) : ℚ) * 10 ^ ex) k b ec := by
  have hdig : ∀ d ∈ p.integer.getD [] ++ p.fraction.getD [], IsDig d := by
    intro d hd
    rcases List.mem_append.1 hd with h | h
    · exact hi d h
    · exact hf d h
  have hlen := dz_length hdig (L := L - 1) h1 (by rw [Nat.sub_add_cancel (by omega)]; exact h2)
  obtain ⟨D, hD⟩ : ∃ D, digitsVal (p.integer.getD [] ++ p.fraction.getD []) = D := ⟨_, rfl⟩
  have hD' : dval (p.integer.getD [] ++ p.fraction.getD []) = D := hD
  rw [hD] at h1 h2 hm ⊢
  obtain ⟨k, rfl⟩ : ∃ k, L = k + 19 := ⟨L - 19, by omega⟩
  have hk : k + 19 - 19 = k := by omega
  rw [hk] at hm he
  have hkp : 0 < 10 ^ k := Nat.pos_of_ne_zero (pow_ne_zero _ (by norm_num))
  have e18 : k + 19 - 1 = 18 + k := by omega
  rw [e18, pow_add] at h1
  rw [Nat.add_comm, pow_add] at h2
  have hz : (10 : ℚ) ^ p.exponent = 10 ^ k * 10 ^ ex := by
    rw [he, zpow_add₀ (by norm_num), zpow_natCast, mul_comm]
  have hpe : (0 : ℚ) < 10 ^ ex := by positivity
  have B : BigNum p ((D : ℚ) * 10 ^ ex) ex := by
    refine ⟨hi, hf, ?_, ?_, ?_, ?_, by rw [hD'], ?_⟩
    · rw [hm]; exact (Nat.le_div_iff_mul_le hkp).2 h1
    · rw [hm]; exact (Nat.div_lt_iff_lt_mul hkp).2 h2
    · rw [hz, ← mul_assoc, hm]
      have : ((D / 10 ^ k * 10 ^ k : Nat) : ℚ) ≤ D := by exact_mod_cast Nat.div_mul_le_self D _
      push_cast at this
      exact mul_le_mul_of_nonneg_right (by exact_mod_cast this) hpe.le
    · rw [hz, ← mul_assoc, hm]
      have h3 : D < (D / 10 ^ k + 1) * 10 ^ k := by
        have := Nat.lt_mul_of_div_lt (Nat.lt_succ_self (D / 10 ^ k)) hkp
        simpa [Nat.succ_eq_add_one, Nat.mul_comm] using this
      have h4 : (D : ℚ) < ((D / 10 ^ k + 1) * 10 ^ k : Nat) := by exact_mod_cast h3
      push_cast at h4
      exact mul_lt_mul_of_pos_right (by exact_mod_cast h4) hpe
    · rw [hlen, he]; push_cast; omega
  obtain ⟨am, n, g1, g2, g3, _, g4⟩ := fromCharsAdvancedPns_big' c ct hw T.good T.slow p B ht
  have hm0 : p.mantissa ≠ 0 := by have := B.w1; omega
  have hx0 : (D : ℚ) * 10 ^ ex ≠ 0 := by
    have : (0 : ℚ) < D := by
      have : 0 < D := lt_of_lt_of_le (by positivity) h1
      exact_mod_cast this
    positivity
  have htie : Tie16 T ((D : ℚ) * 10 ^ ex) n := by
    rintro rfl j hj ht
    have hu : ulpExp FloatTy.float16.fmt = 24 := by decide
    have hmb : FloatTy.float16.fmt.mb = 10 := rfl
    rw [hu, hmb] at g2
    rw [hu] at g4
    have heq : j ≤ 16 → (D : ℚ) * 10 ^ ex = p.mantissa * 10 ^ p.exponent := by
      intro hj16
      obtain ⟨a, _, hDa⟩ := tie16_form (D := D) (e := ex) ht
      have hal : k ≤ a := by
        by_contra hc
        have h6 : (2 * j + 1) * 5 ^ 25 < 10 ^ 19 := lt_of_le_of_lt (Nat.mul_le_mul_right _ (show 2 * j + 1 ≤ 33 by omega)) (by norm_num)
        have h7 : D < 10 ^ 19 * 10 ^ a := by rw [hDa]; exact Nat.mul_lt_mul_of_pos_right h6 (by positivity)
        have h8 : 10 ^ 19 * 10 ^ a ≤ 10 ^ 18 * 10 ^ k := by
          rw [← pow_add, ← pow_add]; exact Nat.pow_le_pow_right (by norm_num) (by omega)
        omega
      have hdv : 10 ^ k ∣ D := by rw [hDa]; exact Dvd.dvd.mul_left (pow_dvd_pow 10 hal) _
      have hq : D = p.mantissa * 10 ^ k := by rw [hm, Nat.div_mul_cancel hdv]
      rw [hz, ← mul_assoc]
      congr 1
      exact_mod_cast hq
    refine ⟨fun h16 => g4 (heq h16) j hj ht, fun h17 => ?_⟩
    rcases g2 with ⟨h, _⟩ | h
    · exfalso
      rw [h] at ht
      have := tie16_small ht B.w2
      omega
    · exact h
  have hrn : T ≠ .float16 → RN T.fmt.mb ((D : ℚ) * 10 ^ ex * 2 ^ ulpExp T.fmt) n := by
    intro hT
    rcases g2 with ⟨e, h⟩ | h
    · rw [e] at h ⊢
      exact Rounded.rn (T.ulpWide hT) (lt_trans B.w2 (by norm_num)) h
    · exact h
  have hro : Rounded T.fmt ((D : ℚ) * 10 ^ ex * 2 ^ ulpExp T.fmt) n := by
    rcases g2 with ⟨_, h⟩ | h
    · exact h
    · exact Or.inl h
  exact ⟨_, _, n, g1, codeOut_am (neg := p.negative) hro hrn htie g3 (m := p.mantissa) ⟨fun _ => hx0, fun _ => hm0⟩⟩

/-- **C61, more than nineteen digits**: the caller provides the digit runs, the first nineteen significant digits as `mantissa`, the matching
`exponent`, and sets `too_many_digits`.  The overload stores the correct rounding of the whole decimal number
`±(digits)·10^ex`.  `L` is the number of significant digits. -/
theorem C61_pns_long (c : Cfg) {ct : CharType} (hw : ct.WF) (T : FloatTy) (hT : T ≠ .float16) (p : ParsedNumber) (ex : Int) (L : Nat) (hL : 19 ≤ L)
    (hi : ∀ d ∈ p.integer.getD [], IsDigit d) (hf : ∀ d ∈ p.fraction.getD [], IsDigit d)
    (h1 : 10 ^ (L - 1) ≤ digitsVal (p.integer.getD [] ++ p.fraction.getD [])) (h2 : digitsVal (p.integer.getD [] ++ p.fraction.getD []) < 10 ^ L)
    (hm : p.mantissa = digitsVal (p.integer.getD [] ++ p.fraction.getD []) / 10 ^ (L - 19)) (he : p.exponent = ex + (L - 19 : Nat))
    (ht : p.tooManyDigits = true) :
    ∃ ec b, fromCharsAdvancedPns c ct T.fmt p = .ok ⟨p.lastmatch, ec, some b⟩ ∧
      T.spec.RoundsToBits p.negative ((digitsVal (p.integer.getD [] ++ p.fraction.getD []) : ℚ) * 10 ^ ex) b ∧
      ((ec.code = .range ∧ OutOfRange T.spec ((digitsVal (p.integer.getD [] ++ p.fraction.getD []) : ℚ) * 10 ^ ex)) ∨
       (ec.code = .success ∧ ¬ OutOfRange T.spec ((digitsVal (p.integer.getD [] ++ p.fraction.getD []) : ℚ) * 10 ^ ex))) := by
  obtain ⟨ec, b, k, g1, hc⟩ := pns_long_core c hw T p ex L hL hi hf h1 h2 hm he ht
  exact ⟨ec, b, g1, hc.roundsTo hT, codeOut_range hT (by positivity) hc⟩

/-- **C61, more than nineteen digits, for float16**: correctly rounded except on the nine ties of `C04_float16_sharp`, where the upper neighbour is stored. -/
theorem C61_pns_long_float16 (c : Cfg) {ct : CharType} (hw : ct.WF) (p : ParsedNumber) (ex : Int) (L : Nat) (hL : 19 ≤ L)
    (hi : ∀ d ∈ p.integer.getD [], IsDigit d) (hf : ∀ d ∈ p.fraction.getD [], IsDigit d)
    (h1 : 10 ^ (L - 1) ≤ digitsVal (p.integer.getD [] ++ p.fraction.getD [])) (h2 : digitsVal (p.integer.getD [] ++ p.fraction.getD []) < 10 ^ L)
    (hm : p.mantissa = digitsVal (p.integer.getD [] ++ p.fraction.getD []) / 10 ^ (L - 19)) (he : p.exponent = ex + (L - 19 : Nat))
    (ht : p.tooManyDigits = true) :
    ∃ ec b, fromCharsAdvancedPns c ct binary16 p = .ok ⟨p.lastmatch, ec, some b⟩ ∧
      (¬ HalfException 16 ((digitsVal (p.integer.getD [] ++ p.fraction.getD []) : ℚ) * 10 ^ ex) →
        half.RoundsToBits p.negative ((digitsVal (p.integer.getD [] ++ p.fraction.getD []) : ℚ) * 10 ^ ex) b) ∧
      ∀ j : Nat, j % 2 = 0 → j ≤ 16 → (digitsVal (p.integer.getD [] ++ p.fraction.getD []) : ℚ) * 10 ^ ex = (2 * j + 1) / 2 ^ 25 →
        b = (if p.negative then half.signBit else 0) + (j + 1) := by
  obtain ⟨ec, b, k, g1, hc⟩ := pns_long_core c hw .float16 p ex L hL hi hf h1 h2 hm he ht
  refine ⟨ec, b, g1, fun hx => hc.roundsTo' (fun _ => hx), fun j i1 i2 i3 => ?_⟩
  have hk : k = j + 1 := half_split_unique hc.split16 (Or.inr ⟨j, i1, i2, i3, rfl⟩)
  have hi : infIdx FloatTy.float16.fmt = 31744 := by decide
  have e1 : half.signBit = 2 ^ FloatTy.float16.fmt.signIdx := FloatTy.float16.signBit_eq
  rw [hc.bits, hk, Nat.min_eq_left (by omega), e1, Nat.add_comm]

/-- The number `9007199254740993.000001`, just above a tie of `double`, handed over with its digits. -/
def longPns : ParsedNumber :=
  { integer := some [57, 48, 48, 55, 49, 57, 57, 50, 53, 52, 55, 52, 48, 57, 57, 51], fraction := some [48, 48, 48, 48, 48, 49],
    mantissa := 9007199254740993000, exponent := -3, tooManyDigits := true }

example : ∃ ec b, fromCharsAdvancedPns Cfg.x64 CharType.char binary64 longPns = .ok ⟨[], ec, some b⟩ ∧
      double.RoundsToBits false (((9007199254740993000001 : Nat) : ℚ) * 10 ^ (-6 : Int)) b := by
  obtain ⟨ec, b, h1, h2, _⟩ := C61_pns_long Cfg.x64 (ct := CharType.char) (by decide) .double (by decide) longPns (-6) 22 (by norm_num) (by decide)
    (by decide) (by decide) (by decide) (by decide) (by decide) rfl
  exact ⟨ec, b, h1, h2⟩

/-- `2048.00000000000000001`, handed over to `float16_t` with its digits. -/
example : ∃ ec b, fromCharsAdvancedPns Cfg.x64 CharType.char binary16
      { integer := some [50, 48, 52, 57], fraction := some [48, 48, 48, 48, 48, 48, 48, 48, 48, 48, 48, 48, 48, 48, 48, 48, 49],
        mantissa := 2049000000000000000, exponent := -15, tooManyDigits := true } = .ok ⟨[], ec, some b⟩ ∧
      (¬ HalfException 16 (((204900000000000000001 : Nat) : ℚ) * 10 ^ (-17 : Int)) →
        half.RoundsToBits false (((204900000000000000001 : Nat) : ℚ) * 10 ^ (-17 : Int)) b) := by
  obtain ⟨ec, b, h1, h2, _⟩ := C61_pns_long_float16 Cfg.x64 (ct := CharType.char) (by decide)
    { integer := some [50, 48, 52, 57], fraction := some [48, 48, 48, 48, 48, 48, 48, 48, 48, 48, 48, 48, 48, 48, 48, 48, 49],
      mantissa := 2049000000000000000, exponent := -15, tooManyDigits := true } (-17) 21 (by norm_num) (by decide)
    (by decide) (by decide) (by decide) (by decide) (by decide) rfl
  exact ⟨ec, b, h1, h2⟩

end FastFloat
