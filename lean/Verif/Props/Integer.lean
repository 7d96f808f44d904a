import Verif.Proofs.IntCall
import Verif.Props.Delim
/-
# Integer parsing: C25, C27 - C31, C40, C43, C46 - C49

`fromCharsIntApi c ct T s opt` is `from_chars_advanced(first, last, value, options)` for an integer type `T`;
`fromCharsInt c ct T s base` is `from_chars(first, last, value, base)`.
-/
set_option linter.unusedSimpArgs false

namespace FastFloat
open IntSpec ApiSpec

instance (ct : CharType) (u : Nat) : Decidable (GoodUnit ct u) := by unfold GoodUnit; infer_instance

theorem fits_iff {T : IntType} (_ : T.WF) {neg : Bool} (hs : neg = true → T.signed = true) (V : Nat) :
    Fits T.bits T.signed (IntSpec.signedValue neg V) ↔ V ≤ T.max + (if neg then 1 else 0) := by
  unfold Fits minValue maxValue IntSpec.signedValue IntType.max
  have h1 : (2 : Int) ^ (T.bits - 1) = ((2 ^ (T.bits - 1) : Nat) : Int) := by push_cast; rfl
  have h2 : (2 : Int) ^ T.bits = ((2 ^ T.bits : Nat) : Int) := by push_cast; rfl
  have p1 : 0 < 2 ^ (T.bits - 1) := by positivity
  have p2 : 0 < 2 ^ T.bits := by positivity
  rw [h1, h2]
  obtain ⟨A, hA⟩ : ∃ A, 2 ^ (T.bits - 1) = A := ⟨_, rfl⟩
  obtain ⟨B, hB⟩ : ∃ B, 2 ^ T.bits = B := ⟨_, rfl⟩
  rw [hA] at p1
  rw [hB] at p2
  rw [hA, hB]
  cases neg with
  | true => rw [hs rfl]; simp only [if_true]; omega
  | false => cases T.signed <;> simp <;> omega

theorem call_of_literal {c : Cfg} {ct : CharType} {T : IntType} {s : List Nat} {opt : Options} {b : Nat} {neg : Bool} {ds rest : List Nat}
    (hin : Input ct s) (hT : T.WF) (h : IntLiteral c T s opt b neg ds rest) :
    (Overflow T b neg (core b (ds ++ rest)).length (value b ds % 2 ^ 64) → fromCharsIntApi c ct T s opt = .ok ⟨s.length - rest.length, .outOfRange, none⟩) ∧
    (¬ Overflow T b neg (core b (ds ++ rest)).length (value b ds % 2 ^ 64) →
      fromCharsIntApi c ct T s opt = .ok ⟨s.length - rest.length, .ok, some (IntSpec.signedValue neg (value b ds % 2 ^ 64))⟩) :=
  intCall_literal c hin.wf hT (fun u hu => (hin.units u hu).1) h.base h.two h.max (by rw [hin.body_eq]; exact h.literal) h.sign

theorem core_value {c : Cfg} {T : IntType} {s : List Nat} {opt : Options} {b : Nat} {neg : Bool} {ds rest : List Nat}
    (h : IntLiteral c T s opt b neg ds rest) : value b (core b (ds ++ rest)) = value b ds := by
  rw [(core_facts h.two (ds ++ rest)).1, (literal_split h.max h.literal).2.1]

/-! ### C25 -/

/-- **C25**: for every integer type, every sequence of code units of every character type (negative `wchar_t` included), every base and every option
value, the integer overloads have no undefined behaviour and terminate; the pointer stays in the input. -/
theorem C25_int_defined (c : Cfg) {ct : CharType} (hw : ct.WF) {T : IntType} (hT : T.WF) {s : List Nat} (hu : ∀ u ∈ s, u < 2 ^ (8 * ct.width)) (opt : Options) :
    ∃ r, fromCharsIntApi c ct T s opt = .ok r ∧ r.off ≤ s.length := by
  rcases literal_or_not c ct T s opt with ⟨neg, ds, rest, h1, h2, h3, h4⟩ | h
  · have hb : opt.base = (opt.base.toNat : Int) := by omega
    have := intCall_literal c hw hT hu hb (by omega) (by omega) h3 h4
    by_cases ho : Overflow T opt.base.toNat neg (core opt.base.toNat (ds ++ rest)).length (value opt.base.toNat ds % 2 ^ 64)
    · exact ⟨_, this.1 ho, Nat.sub_le _ _⟩
    · exact ⟨_, this.2 ho, Nat.sub_le _ _⟩
  · exact ⟨_, intCall_bad c hw hT hu opt h, Nat.sub_le _ _⟩

/-- "-1" in base 37 with a 4-byte signed `wchar_t` -/
example : ∃ r, fromCharsIntApi Cfg.x64 ⟨4, true, false, false⟩ int64 [45, 2 ^ 31 + 5] { base := 37 } = .ok r ∧ r.off ≤ 2 :=
  C25_int_defined Cfg.x64 (by decide) (by decide) (by decide) _

/-! ### C27 -/

/-- **C27**: if the text starts with a literal whose value is a value of the type, the value is stored, there is no error and the pointer is
just after the digits. -/
theorem C27_int_exact (c : Cfg) {ct : CharType} {T : IntType} (hT : T.WF) {s : List Nat} (opt : Options) (hin : Input ct s) {b : Nat} {neg : Bool}
    {ds rest : List Nat} (h : IntLiteral c T s opt b neg ds rest) (hf : Fits T.bits T.signed (IntSpec.signedValue neg (value b ds))) :
    fromCharsIntApi c ct T s opt = .ok ⟨s.length - rest.length, .ok, some (IntSpec.signedValue neg (value b ds))⟩ := by
  have hv := core_value h
  rw [fits_iff hT h.sign] at hf
  have hlt : value b ds < 2 ^ 64 := by
    have := IntType.max_lt hT
    cases hn : neg with
    | true => rw [hn] at hf; have := this.2 (h.sign hn); simp at hf; omega
    | false => rw [hn] at hf; simp at hf; omega
  have ho := overflow_iff hT h.two h.max (t := ds ++ rest) neg h.sign (Or.inl (by rw [hv]; exact hlt))
  rw [hv, Nat.mod_eq_of_lt hlt] at ho
  have := (call_of_literal hin hT h).2
  rw [Nat.mod_eq_of_lt hlt] at this
  exact this (by rw [ho]; omega)

/-- "-7fx" in base 16 as `int32_t` -/
example : fromCharsInt Cfg.x64 CharType.char int32 [45, 55, 102, 120] 16 = .ok ⟨3, .ok, some (-127)⟩ :=
  C27_int_exact Cfg.x64 (ct := CharType.char) (T := int32) (by decide) { base := 16 } ⟨by decide, by decide, by decide⟩ (b := 16) (neg := true)
    (ds := [55, 102]) (rest := [120]) ⟨rfl, by decide, by decide, ⟨Or.inl ⟨rfl, rfl⟩, by decide, by decide, by intro u h; cases h; decide⟩, fun _ => rfl⟩ (by decide)

/-! ### C28, C29: overflow -/


theorem maxDigits_unique {b k : Nat} (hb : 2 ≤ b) (h36 : b ≤ 36) (h1 : b ^ k < 2 ^ 64) (h2 : 2 ^ 64 ≤ b ^ (k + 1)) : maxDigitsOf b = k + 1 := by
  obtain ⟨_, _, t3, t4, _, t6⟩ := digitTables (base := (b : Int)) rfl hb h36
  rcases Nat.lt_trichotomy (maxDigitsOf b) (k + 1) with h | h | h
  · have : b ^ maxDigitsOf b ≤ b ^ k := Nat.pow_le_pow_right (by omega) (by omega)
    omega
  · exact h
  · have : b ^ (k + 1) ≤ b ^ (maxDigitsOf b - 1) := Nat.pow_le_pow_right (by omega) (by omega)
    omega

/-- What the code's check means for a literal. -/
theorem overflow_exact {T : IntType} (hT : T.WF) {b : Nat} (hb : 2 ≤ b) (h36 : b ≤ 36) {t : List Nat} (neg : Bool) (hneg : neg = true → T.signed = true)
    (hV : 2 ^ 64 ≤ value b (core b t)) :
    ¬ Overflow T b neg (core b t).length (value b (core b t) % 2 ^ 64) ↔
      Escapes b (value b (core b t)) ∧ Fits T.bits T.signed (IntSpec.signedValue neg (value b (core b t) % 2 ^ 64)) := by
  obtain ⟨_, _, t3, t4, t5, t6⟩ := digitTables (base := (b : Int)) rfl hb h36
  rw [fits_iff hT hneg]
  obtain ⟨V, hV'⟩ : ∃ V, value b (core b t) = V := ⟨_, rfl⟩
  obtain ⟨n, hn⟩ : ∃ n, (core b t).length = n := ⟨_, rfl⟩
  obtain ⟨md, hmd⟩ : ∃ md, maxDigitsOf b = md := ⟨_, rfl⟩
  have hne : core b t ≠ [] := by
    intro h
    rw [h] at hV; simp [value] at hV
  obtain ⟨b1, b2⟩ := core_bounds hb hne
  have hU : T.isU64 = true → V % 2 ^ 64 ≤ T.max + (if neg then 1 else 0) := by
    intro hu
    obtain ⟨k1, k2⟩ := hT.2.2.2 hu
    have : T.max = 2 ^ 64 - 1 := by unfold IntType.max; rw [k1, k2]; rfl
    have := Nat.mod_lt V (show 2 ^ 64 > 0 by norm_num)
    omega
  unfold Overflow Escapes
  rw [hV'] at hV b1 b2 ⊢
  rw [hn] at b1 b2 ⊢
  rw [hmd] at t3 t4 t5 t6 ⊢
  have hn1 : 1 ≤ n := by rw [← hn]; exact List.length_pos_iff.2 hne
  push Not
  constructor
  · rintro ⟨o1, o2, o3⟩
    have hnm : n = md := by
      rcases Nat.lt_or_ge n md with h | h
      · have : b ^ n ≤ b ^ (md - 1) := Nat.pow_le_pow_right (by omega) (by omega)
        omega
      · omega
    refine ⟨⟨hV, md - 1, t4, by rw [show md - 1 + 1 = md by omega]; exact t3, by rw [show md - 1 + 1 = md by omega, ← hnm]; exact b2, o2 hnm⟩, ?_⟩
    cases hu : T.isU64 with
    | true => exact hU hu
    | false => exact o3 hu
  · rintro ⟨⟨_, k, g1, g2, g3, g4⟩, hf⟩
    have hk := maxDigits_unique hb h36 g1 g2
    rw [hmd] at hk
    have hnk : n ≤ k + 1 := by
      by_contra hc
      have : b ^ (k + 1) ≤ b ^ (n - 1) := Nat.pow_le_pow_right (by omega) (by omega)
      omega
    refine ⟨by omega, fun _ => ?_, fun _ => hf⟩
    rw [hk, Nat.add_sub_cancel]; exact g4

/-- **C28, partial**: a literal whose value is not a value of the type is reported as `result_out_of_range`, nothing is stored and the pointer is after
all the digits - unless the value falls into the gap of the check (`Escapes`) and its residue modulo `2^64` happens to be a value of the type.
Missing: exactly that case, where the code is wrong (`C28_undetected`). -/
theorem C28_overflow_partial (c : Cfg) {ct : CharType} {T : IntType} (hT : T.WF) {s : List Nat} (opt : Options) (hin : Input ct s) {b : Nat} {neg : Bool}
    {ds rest : List Nat} (h : IntLiteral c T s opt b neg ds rest) (hf : ¬ Fits T.bits T.signed (IntSpec.signedValue neg (value b ds)))
    (hx : ¬ (Escapes b (value b ds) ∧ Fits T.bits T.signed (IntSpec.signedValue neg (value b ds % 2 ^ 64)))) :
    fromCharsIntApi c ct T s opt = .ok ⟨s.length - rest.length, .outOfRange, none⟩ := by
  have hv := core_value h
  refine (call_of_literal hin hT h).1 ?_
  by_cases hV : value b ds < 2 ^ 64
  · have ho := overflow_iff hT h.two h.max (t := ds ++ rest) neg h.sign (Or.inl (by rw [hv]; exact hV))
    rw [hv] at ho
    rw [ho]
    rw [fits_iff hT h.sign] at hf
    omega
  · have ho := overflow_exact hT h.two h.max (t := ds ++ rest) neg h.sign (by rw [hv]; omega)
    rw [hv] at ho
    by_contra hc
    exact hx (ho.1 hc)

/-- **C28 is false in that case**: the code accepts the literal and stores the residue. -/
theorem C28_undetected (c : Cfg) {ct : CharType} {T : IntType} (hT : T.WF) {s : List Nat} (opt : Options) (hin : Input ct s) {b : Nat} {neg : Bool}
    {ds rest : List Nat} (h : IntLiteral c T s opt b neg ds rest) (he : Escapes b (value b ds))
    (hf : Fits T.bits T.signed (IntSpec.signedValue neg (value b ds % 2 ^ 64))) :
    fromCharsIntApi c ct T s opt = .ok ⟨s.length - rest.length, .ok, some (IntSpec.signedValue neg (value b ds % 2 ^ 64))⟩ ∧
      ¬ Fits T.bits T.signed (IntSpec.signedValue neg (value b ds)) := by
  have hv := core_value h
  have ho := overflow_exact hT h.two h.max (t := ds ++ rest) neg h.sign (by rw [hv]; exact he.1)
  rw [hv] at ho
  refine ⟨(call_of_literal hin hT h).2 (ho.2 ⟨he, hf⟩), ?_⟩
  rw [fits_iff hT h.sign]
  have h64 := he.1
  have := IntType.max_lt hT
  cases hn : neg with
  | true => have := this.2 (h.sign hn); simp; omega
  | false => simp; omega

/-- "30000000000000000000" as `uint64_t` in base 10 is accepted as 11553255926290448384; "-3000000000000000000000" as `int64_t` in base 8 is accepted
as the minimum. -/
theorem C28_counterexample :
    fromCharsInt Cfg.x64 CharType.char uint64 [51, 48, 48, 48, 48, 48, 48, 48, 48, 48, 48, 48, 48, 48, 48, 48, 48, 48, 48, 48] 10 =
      .ok ⟨20, .ok, some 11553255926290448384⟩ ∧
    fromCharsInt Cfg.x64 CharType.char int64 ([45, 51] ++ List.replicate 21 48) 8 = .ok ⟨23, .ok, some (-9223372036854775808)⟩ :=
  ⟨by decide +kernel, by decide +kernel⟩

/-- Whether base `b` has a gap at all for 64-bit types: `true` if no value escapes the check. -/
theorem not_escapes {b V : Nat} (h : b = 2 ∨ b = 4 ∨ b = 16) : ¬ Escapes b V := by
  rintro ⟨h1, k, g1, g2, g3, g4⟩
  have key : ∀ j m, 1 ≤ j → 64 = j * m → b = 2 ^ j → False := by
    intro j m hj hm hb
    rw [hb, ← pow_mul] at g1 g2 g3 g4
    have hk1 : j * k < 64 := (Nat.pow_lt_pow_iff_right (by norm_num)).1 g1
    have hk2 : 64 ≤ j * (k + 1) := (Nat.pow_le_pow_iff_right (by norm_num)).1 g2
    have hkm : k + 1 = m := by
      have a1 : j * k < j * m := by omega
      have a2 : j * m ≤ j * (k + 1) := by omega
      have := Nat.lt_of_mul_lt_mul_left a1
      have := Nat.le_of_mul_le_mul_left a2 (by omega)
      omega
    rw [hkm, ← hm] at g3
    omega
  rcases h with rfl | rfl | rfl
  · exact key 1 64 (by norm_num) (by norm_num) (by norm_num)
  · exact key 2 32 (by norm_num) (by norm_num) (by norm_num)
  · exact key 4 16 (by norm_num) (by norm_num) (by norm_num)

/-- Bases whose `b^k` (the least number with as many digits as `2^64-1`) exceeds `2^63`. -/
theorem not_fits_signed {T : IntType} (hT : T.WF) (hs : T.signed = true) {neg : Bool} {b V : Nat}
    (h : b = 3 ∨ b = 9 ∨ b = 10 ∨ b = 19 ∨ b = 23 ∨ b = 29 ∨ b = 30) (he : Escapes b V) : ¬ Fits T.bits T.signed (IntSpec.signedValue neg (V % 2 ^ 64)) := by
  obtain ⟨h1, k, g1, g2, g3, g4⟩ := he
  have hk := maxDigits_unique (by omega) (by omega) g1 g2
  have : 2 ^ 63 < b ^ (maxDigitsOf b - 1) := by
    rcases h with rfl | rfl | rfl | rfl | rfl | rfl | rfl <;> decide
  rw [hk, Nat.add_sub_cancel] at this
  rw [fits_iff hT (fun _ => hs)]
  have := (IntType.max_lt hT).2 hs
  cases neg <;> simp <;> omega

/-- **C29**: overflow is always detected for types of at most 32 bits, in bases 2, 4 and 16, and for signed types also in bases 3, 9, 10, 19, 23, 29, 30. -/
theorem C29_overflow (c : Cfg) {ct : CharType} {T : IntType} (hT : T.WF) {s : List Nat} (opt : Options) (hin : Input ct s) {b : Nat} {neg : Bool}
    {ds rest : List Nat} (h : IntLiteral c T s opt b neg ds rest) (hf : ¬ Fits T.bits T.signed (IntSpec.signedValue neg (value b ds)))
    (hx : T.bits ≤ 32 ∨ (b = 2 ∨ b = 4 ∨ b = 16) ∨ (T.signed = true ∧ (b = 3 ∨ b = 9 ∨ b = 10 ∨ b = 19 ∨ b = 23 ∨ b = 29 ∨ b = 30))) :
    fromCharsIntApi c ct T s opt = .ok ⟨s.length - rest.length, .outOfRange, none⟩ := by
  have hv := core_value h
  rcases hx with hx | hx | ⟨hx, hx'⟩
  · refine (call_of_literal hin hT h).1 ?_
    have ho := overflow_iff hT h.two h.max (t := ds ++ rest) neg h.sign (Or.inr hx)
    rw [hv] at ho
    rw [ho]
    rw [fits_iff hT h.sign] at hf
    omega
  · exact C28_overflow_partial c hT opt hin h hf (fun hc => not_escapes hx hc.1)
  · exact C28_overflow_partial c hT opt hin h hf (fun hc => not_fits_signed hT hx hx' hc.1 hc.2)

/-- "256" as `uint8_t` -/
example : fromCharsInt Cfg.x64 CharType.char uint8 [50, 53, 54] 10 = .ok ⟨3, .outOfRange, none⟩ :=
  C29_overflow Cfg.x64 (ct := CharType.char) (T := uint8) (by decide) {} ⟨by decide, by decide, by decide⟩ (b := 10) (neg := false)
    (ds := [50, 53, 54]) (rest := []) ⟨rfl, by decide, by decide, ⟨Or.inr (Or.inl ⟨rfl, rfl⟩), by decide, by decide, by intro u h; cases h⟩, by simp⟩ (by decide)
    (Or.inl (by decide))

/-! ### C30, C31 -/

/-- **C30**: no literal of the base (or a base outside 2..36, or a minus sign before an unsigned type) gives `invalid_argument`; the pointer is at the
start of the text and nothing is stored. -/
theorem C30_int_rejected (c : Cfg) {ct : CharType} {T : IntType} (hT : T.WF) {s : List Nat} (opt : Options) (hin : Input ct s)
    (h : ¬ ∃ b neg ds rest, IntLiteral c T s opt b neg ds rest) :
    fromCharsIntApi c ct T s opt = .ok ⟨s.length - (textOf c opt s).length, .invalidArgument, none⟩ := by
  have := intCall_bad c hin.wf hT (fun u hu => (hin.units u hu).1) opt (by
    intro neg ds rest h1 h2 h3
    rw [hin.body_eq] at h3
    by_contra hc
    apply h
    refine ⟨opt.base.toNat, neg, ds, rest, by omega, by omega, by omega, h3, fun hn => ?_⟩
    cases hs : T.signed with
    | true => rfl
    | false => exact absurd ⟨hn, hs⟩ hc)
  rw [hin.body_eq] at this
  exact this

/-- "-5" as `uint16_t`. -/
example : fromCharsInt Cfg.x64 CharType.char uint16 [45, 53] 10 = .ok ⟨0, .invalidArgument, none⟩ :=
  C30_int_rejected Cfg.x64 (ct := CharType.char) (T := uint16) (by decide) {} ⟨by decide, by decide, by decide⟩ (by
    rintro ⟨b, neg, ds, rest, h⟩
    have hb : b = 10 := by have := h.base; simp at this; omega
    subst hb
    obtain ⟨u, l, e⟩ := List.exists_cons_of_ne_nil h.literal.nonempty
    have hd := h.literal.digits u (by rw [e]; simp)
    rcases h.literal.text with ⟨hn, _⟩ | ⟨_, ht⟩ | ⟨_, hp, _⟩
    · exact absurd (h.sign hn) (by decide)
    · rw [e] at ht
      have : (45 : Nat) = u := (List.cons.inj ht).1
      rw [← this] at hd
      exact absurd hd (by decide)
    · exact absurd hp (by decide))

/-- **C31**: a call that reports an error does not store anything; a call that reports none stores a value of the type. -/
theorem C31_error_leaves_value (c : Cfg) {ct : CharType} {T : IntType} (hT : T.WF) {s : List Nat} (opt : Options) (hin : Input ct s) {r : ApiInt}
    (h : fromCharsIntApi c ct T s opt = .ok r) :
    (r.ec ≠ .ok → r.value = none) ∧ (r.ec = .ok → ∃ v, r.value = some v ∧ Fits T.bits T.signed v) := by
  have hu : ∀ u ∈ s, u < 2 ^ (8 * ct.width) := fun u hu => (hin.units u hu).1
  rcases literal_or_not c ct T s opt with ⟨neg, ds, rest, h1, h2, h3, h4⟩ | h'
  · have hb : opt.base = (opt.base.toNat : Int) := by omega
    obtain ⟨g1, g2⟩ := intCall_literal c hin.wf hT hu hb (by omega) (by omega) h3 h4
    by_cases ho : Overflow T opt.base.toNat neg (core opt.base.toNat (ds ++ rest)).length (value opt.base.toNat ds % 2 ^ 64)
    · rw [g1 ho] at h; cases h; simp
    · rw [g2 ho] at h; cases h
      refine ⟨fun hh => absurd rfl hh, fun _ => ⟨_, rfl, ?_⟩⟩
      rw [fits_iff hT h4]
      cases hu64 : T.isU64 with
      | true =>
        obtain ⟨k1, k2⟩ := hT.2.2.2 hu64
        have : T.max = 2 ^ 64 - 1 := by unfold IntType.max; rw [k1, k2]; rfl
        have := Nat.mod_lt (value opt.base.toNat ds) (show 2 ^ 64 > 0 by norm_num)
        omega
      | false =>
        by_contra hc
        exact ho (Or.inr (Or.inr ⟨hu64, by omega⟩))
  · rw [intCall_bad c hin.wf hT hu opt h'] at h; cases h; simp

example : (none : Option Int) = none :=
  (C31_error_leaves_value Cfg.x64 (ct := CharType.char) (T := uint8) (by decide) (s := [50, 53, 54]) {} (input_of_bytes (by decide) (by decide))
    (r := ⟨3, .outOfRange, none⟩) (by decide +kernel)).1 (by decide)

/-! ### C40, C46: the result is determined by the text and the range of the type -/

/-- Two integer types with the same values. -/
def SameRange (T T' : IntType) : Prop := T.bits = T'.bits ∧ T.signed = T'.signed

theorem overflow_congr {T T' : IntType} (hT : T.WF) (hT' : T'.WF) (h : SameRange T T') {b : Nat} {neg : Bool} (hneg : neg = true → T.signed = true) {n i : Nat}
    (hi : i < 2 ^ 64) : Overflow T b neg n i ↔ Overflow T' b neg n i := by
  have hm : T.max = T'.max := by unfold IntType.max; rw [h.1, h.2]
  have key : ∀ {S S' : IntType}, S.WF → S'.WF → SameRange S S' → S.max = S'.max → (neg = true → S.signed = true) → Overflow S b neg n i → Overflow S' b neg n i := by
    intro S S' hS hS' hr hmax hng ho
    rcases ho with h1 | h1 | ⟨h1, h2⟩
    · exact Or.inl h1
    · exact Or.inr (Or.inl h1)
    · refine Or.inr (Or.inr ⟨?_, by rw [← hmax]; exact h2⟩)
      cases hu : S'.isU64 with
      | false => rfl
      | true =>
        obtain ⟨k1, k2⟩ := hS'.2.2.2 hu
        have : S.max = 2 ^ 64 - 1 := by rw [hmax]; unfold IntType.max; rw [k1, k2]; rfl
        omega
  exact ⟨key hT hT' h hm hneg, key hT' hT ⟨h.1.symm, h.2.symm⟩ hm.symm (by rw [← h.2]; exact hneg)⟩

/-- The result of an integer call depends only on the text, the effective flags, the base and the range of the type. -/
theorem int_transport (c c' : Cfg) {ct ct' : CharType} {T T' : IntType} (hT : T.WF) (hT' : T'.WF) (hr : SameRange T T') {s : List Nat} {opt opt' : Options}
    (hin : Input ct s) (hin' : Input ct' s) (heff : c.eff opt = c'.eff opt') (hbase : opt.base = opt'.base) :
    fromCharsIntApi c ct T s opt = fromCharsIntApi c' ct' T' s opt' := by
  have ht : textOf c opt s = textOf c' opt' s := by unfold textOf; rw [heff]
  by_cases h : ∃ b neg ds rest, IntLiteral c T s opt b neg ds rest
  · obtain ⟨b, neg, ds, rest, h⟩ := h
    have h' : IntLiteral c' T' s opt' b neg ds rest := ⟨hbase ▸ h.base, h.two, h.max, by rw [← heff, ← ht]; exact h.literal, by rw [← hr.2]; exact h.sign⟩
    obtain ⟨a1, a2⟩ := call_of_literal hin hT h
    obtain ⟨b1, b2⟩ := call_of_literal hin' hT' h'
    have hc := overflow_congr hT hT' hr (b := b) (n := (core b (ds ++ rest)).length) h.sign (Nat.mod_lt (value b ds) (show 2 ^ 64 > 0 by norm_num))
    by_cases ho : Overflow T b neg (core b (ds ++ rest)).length (value b ds % 2 ^ 64)
    · rw [a1 ho, b1 (hc.1 ho)]
    · rw [a2 ho, b2 (fun h => ho (hc.2 h))]
  · rw [C30_int_rejected c hT opt hin h, C30_int_rejected c' hT' opt' hin' (by
      rintro ⟨b, neg, ds, rest, h'⟩
      exact h ⟨b, neg, ds, rest, hbase ▸ h'.base, h'.two, h'.max, by rw [heff, ht]; exact h'.literal, by rw [hr.2]; exact h'.sign⟩), ht]

/-- **C40**: the specialised code for `uint8_t` and `uint16_t` returns what the generic digit loop returns for an integer type of the same range that is not
specialised. -/
theorem C40_fast_paths (c : Cfg) {ct : CharType} {T : IntType} (hT : T.WF) {s : List Nat} (opt : Options) (hin : Input ct s) :
    fromCharsIntApi c ct T s opt = fromCharsIntApi c ct { T with isU8 := false, isU16 := false } s opt := by
  refine int_transport c c (T' := { T with isU8 := false, isU16 := false }) hT ⟨hT.1, ?_, ?_, hT.2.2.2⟩ ⟨rfl, rfl⟩ hin hin rfl rfl
  · intro h; cases h
  · intro h; cases h

/-- "0255x" as `uint8_t` through both. -/
example : fromCharsInt Cfg.x64 CharType.char uint8 [48, 50, 53, 53, 120] 10 = .ok ⟨4, .ok, some 255⟩ ∧
    fromCharsInt Cfg.x64 CharType.char { uint8 with isU8 := false, isU16 := false } [48, 50, 53, 53, 120] 10 = .ok ⟨4, .ok, some 255⟩ :=
  ⟨by decide +kernel, by decide +kernel⟩

/-- **C46**: the result of an integer call does not depend on the configuration (endianness, SIMD, compiler, evaluation time, ...) as long as the
feature macros agree, nor on the character type. -/
theorem C46_int_independence {c c' : Cfg} (hm : c.plusMacro = c'.plusMacro ∧ c.wsMacro = c'.wsMacro) {ct ct' : CharType} {T : IntType} (hT : T.WF) {s : List Nat}
    (opt : Options) (hin : Input ct s) (hin' : Input ct' s) : fromCharsIntApi c ct T s opt = fromCharsIntApi c' ct' T s opt :=
  int_transport c c' hT hT ⟨rfl, rfl⟩ hin hin' (by unfold Cfg.eff; rw [hm.1, hm.2]) rfl

/-- **C46** for macros: a build with the feature macros is the same as passing the flags. -/
theorem C46_int_macros (c : Cfg) {ct : CharType} {T : IntType} (hT : T.WF) {s : List Nat} (opt : Options) (hin : Input ct s) :
    fromCharsIntApi c ct T s opt = fromCharsIntApi { c with plusMacro := false, wsMacro := false } ct T s
      { opt with format := opt.format ||| ((if c.plusMacro then 128 else 0) ||| (if c.wsMacro then 256 else 0)) } :=
  int_transport c _ hT hT ⟨rfl, rfl⟩ hin hin (by unfold Cfg.eff effective; simp) rfl

example : fromCharsIntApi Cfg.x64 CharType.char int32 [45, 49] {} =
    fromCharsIntApi { Cfg.x64 with bigEndian := true, constEval := true, simd := .none } ⟨2, false, false, true⟩ int32 [45, 49] {} :=
  C46_int_independence (c := Cfg.x64) (c' := { Cfg.x64 with bigEndian := true, constEval := true, simd := .none }) (ct := CharType.char)
    (ct' := ⟨2, false, false, true⟩) (T := int32) (s := [45, 49]) ⟨rfl, rfl⟩ (by decide) {} ⟨by decide, by decide, by decide⟩
    ⟨by decide, by decide, by decide⟩

/-! ### C43: round trip -/

theorem digit_digitChar {up : Bool} {d : Nat} (h : d < 36) : digit (digitChar up d) = d := by
  have : ∀ up : Bool, ∀ d : Fin 36, digit (digitChar up d.val) = d.val := by decide
  exact this up ⟨d, h⟩

theorem digitChar_range {up : Bool} {d : Nat} (h : d < 36) : 48 ≤ digitChar up d ∧ digitChar up d < 128 := by
  have : ∀ up : Bool, ∀ d : Fin 36, 48 ≤ digitChar up d.val ∧ digitChar up d.val < 128 := by decide
  exact this up ⟨d, h⟩

theorem render_facts {b : Nat} (hb : 2 ≤ b) (h36 : b ≤ 36) (caps : Nat → Bool) :
    ∀ n, value b (render b caps n) = n ∧ (∀ u ∈ render b caps n, digit u < b ∧ 48 ≤ u ∧ u < 128) ∧ render b caps n ≠ [] := by
  intro n
  induction n using Nat.strong_induction_on with
  | _ n ih =>
    rw [render]
    by_cases h : 2 ≤ b ∧ b ≤ n
    · rw [dif_pos h]
      obtain ⟨i1, i2, i3⟩ := ih (n / b) (Nat.div_lt_self (by omega) (by omega))
      have hm : n % b < b := Nat.mod_lt _ (by omega)
      refine ⟨?_, ?_, by simp⟩
      · rw [value_append, i1]
        simp only [value, List.foldl, List.length_cons, List.length_nil]
        rw [digit_digitChar (by omega)]
        have := Nat.div_add_mod n b
        rw [Nat.mul_comm] at this
        simp; omega
      · intro u hu
        rcases List.mem_append.1 hu with h' | h'
        · exact i2 u h'
        · rw [List.mem_singleton] at h'
          rw [h', digit_digitChar (by omega)]
          exact ⟨hm, digitChar_range (by omega)⟩
    · rw [dif_neg h]
      have hn : n < b := by omega
      refine ⟨by simp [value, digit_digitChar (show n < 36 by omega)], ?_, by simp⟩
      intro u hu
      rw [List.mem_singleton] at hu
      rw [hu, digit_digitChar (by omega)]
      exact ⟨hn, digitChar_range (by omega)⟩

theorem textOf_head (c : Cfg) (opt : Options) {s : List Nat} {u : Nat} (hs : s.head? = some u) (h : ApiSpec.isSpace u = false) : textOf c opt s = s := by
  cases s with
  | nil => cases hs
  | cons a l =>
    cases hs
    unfold textOf body
    split
    · rw [List.dropWhile_cons_of_neg (by simp [h])]
    · rfl

/-- **C43**: a value of the type, printed in any base from 2 to 36 with digits in either letter case, and followed by anything that is not
a digit of the base, is read back. -/
theorem C43_round_trip (c : Cfg) {ct : CharType} {T : IntType} (hT : T.WF) (opt : Options) {b : Nat} (hbase : opt.base = (b : Int)) (h2 : 2 ≤ b) (h36 : b ≤ 36)
    (caps : Nat → Bool) {x : Int} (hx : Fits T.bits T.signed x) {rest : List Nat} (hrest : ∀ u, rest.head? = some u → ¬ IsDigit b u)
    (hin : Input ct (print b caps x ++ rest)) :
    fromCharsIntApi c ct T (print b caps x ++ rest) opt = .ok ⟨(print b caps x).length, .ok, some x⟩ := by
  obtain ⟨v1, v2, v3⟩ := render_facts h2 h36 caps x.natAbs
  obtain ⟨ds, hds⟩ : ∃ ds, render b caps x.natAbs = ds := ⟨_, rfl⟩
  obtain ⟨neg, hneg⟩ : ∃ neg, decide (x < 0) = neg := ⟨_, rfl⟩
  rw [hds] at v1 v2 v3
  have hxv : IntSpec.signedValue neg (value b ds) = x := by
    rw [v1, ← hneg]; unfold IntSpec.signedValue
    by_cases h : x < 0
    · simp only [h, decide_true, if_true]; omega
    · simp only [h, decide_false]; simp; omega
  have hpr : print b caps x = (if neg then [45] else []) ++ ds := by
    unfold print
    rw [hds, ← hneg]
    by_cases h : x < 0
    · simp [h]
    · simp [h]
  have hhead : ∃ u, (print b caps x ++ rest).head? = some u ∧ ApiSpec.isSpace u = false := by
    obtain ⟨u, l, e⟩ := List.exists_cons_of_ne_nil v3
    rw [hpr, e]
    cases neg with
    | true => exact ⟨45, rfl, by decide⟩
    | false =>
      refine ⟨u, rfl, ?_⟩
      have := (v2 u (by rw [e]; simp)).2.1
      unfold ApiSpec.isSpace
      simp; omega
  obtain ⟨u, hu1, hu2⟩ := hhead
  have ht := textOf_head c opt hu1 hu2
  have hs : neg = true → T.signed = true := by
    intro hn
    cases hs : T.signed with
    | true => rfl
    | false =>
      have hlt : x < 0 := by rw [hn] at hneg; exact of_decide_eq_true hneg
      have h0 := hx.1
      unfold minValue at h0
      rw [hs] at h0
      simp at h0
      omega
  have hl : IntLiteral c T (print b caps x ++ rest) opt b neg ds rest := by
    refine ⟨hbase, h2, h36, ?_, hs⟩
    rw [ht]
    refine ⟨?_, fun u hu => (v2 u hu).1, v3, hrest⟩
    rw [hpr]
    cases neg with
    | true => exact Or.inl ⟨rfl, rfl⟩
    | false => exact Or.inr (Or.inl ⟨rfl, rfl⟩)
  have := C27_int_exact c hT opt hin hl (by rw [hxv]; exact hx)
  rw [this, hxv]
  simp

/-- The minimum of `int64_t` in base 36. -/
example : print 36 (fun _ => false) (-9223372036854775808) = [45, 49, 121, 50, 112, 48, 105, 106, 51, 50, 101, 56, 101, 56] ∧
    fromCharsInt Cfg.x64 CharType.char int64 [45, 49, 121, 50, 112, 48, 105, 106, 51, 50, 101, 56, 101, 56] 36 = .ok ⟨14, .ok, some (-9223372036854775808)⟩ :=
  ⟨by decide +kernel, by decide +kernel⟩

/-! ### C47: spelling independence -/

/-- **C47**: leading zeros and letter case do not matter: two literals of the same sign and value, in the same base, give the same error code and value,
whatever follows them. -/
theorem C47_int_spelling (c : Cfg) {ct : CharType} {T : IntType} (hT : T.WF) {s s' : List Nat} (opt : Options) (hin : Input ct s) (hin' : Input ct s') {b : Nat}
    {neg : Bool} {ds ds' rest rest' : List Nat} (h : IntLiteral c T s opt b neg ds rest) (h' : IntLiteral c T s' opt b neg ds' rest')
    (hv : value b ds = value b ds') :
    ∃ ec v, fromCharsIntApi c ct T s opt = .ok ⟨s.length - rest.length, ec, v⟩ ∧ fromCharsIntApi c ct T s' opt = .ok ⟨s'.length - rest'.length, ec, v⟩ := by
  obtain ⟨a1, a2⟩ := call_of_literal hin hT h
  obtain ⟨b1, b2⟩ := call_of_literal hin' hT h'
  have c1 := core_value h
  have c2 := core_value h'
  have hlen : (core b (ds ++ rest)).length = (core b (ds' ++ rest')).length := by
    have ha := h.two
    have aux : ∀ {t t' : List Nat}, value b (core b t) = value b (core b t') → (core b t).length ≤ (core b t').length := by
      intro t t' he
      by_cases hz : core b t = []
      · rw [hz]; simp
      · obtain ⟨l1, _⟩ := core_bounds ha hz
        have l2 : value b (core b t') < b ^ (core b t').length := value_lt (fun u h => brun_digit h)
        rw [he] at l1
        have := (Nat.pow_lt_pow_iff_right (show 1 < b by omega)).1 (lt_of_le_of_lt l1 l2)
        omega
    exact Nat.le_antisymm (aux (by rw [c1, c2, hv])) (aux (by rw [c1, c2, hv]))
  rw [← hlen, ← hv] at b1 b2
  by_cases ho : Overflow T b neg (core b (ds ++ rest)).length (value b ds % 2 ^ 64)
  · exact ⟨_, _, a1 ho, b1 ho⟩
  · exact ⟨_, _, a2 ho, b2 ho⟩

/-- "00ff" and "FFz" in base 16. -/
example : ∃ ec v, fromCharsInt Cfg.x64 CharType.char int32 [48, 48, 102, 102] 16 = .ok ⟨4, ec, v⟩ ∧ fromCharsInt Cfg.x64 CharType.char int32 [70, 70, 122] 16 = .ok ⟨2, ec, v⟩ :=
  C47_int_spelling Cfg.x64 (ct := CharType.char) (T := int32) (by decide) { base := 16 } ⟨by decide, by decide, by decide⟩ ⟨by decide, by decide, by decide⟩
    (b := 16) (neg := false) (ds := [48, 48, 102, 102]) (ds' := [70, 70]) (rest := []) (rest' := [122])
    ⟨rfl, by decide, by decide, ⟨Or.inr (Or.inl ⟨rfl, rfl⟩), by decide, by decide, by intro u h; cases h⟩, by simp⟩
    ⟨rfl, by decide, by decide, ⟨Or.inr (Or.inl ⟨rfl, rfl⟩), by decide, by decide, by intro u h; cases h; decide⟩, by simp⟩ (by decide)

/-! ### C28: how far the failure reaches -/

theorem undetected_witness {T : IntType} (hT : T.WF) {b : Nat} (hb : 2 ≤ b) (h36 : b ≤ 36) (hlt : 2 ^ 64 + b ^ (maxDigitsOf b - 1) < b ^ maxDigitsOf b)
    (neg : Bool) (hs : neg = true → T.signed = true) (hf : Fits T.bits T.signed (IntSpec.signedValue neg (b ^ (maxDigitsOf b - 1)))) (c : Cfg) :
    ∃ x : Int, ¬ Fits T.bits T.signed x ∧ ∃ v, fromCharsInt c CharType.char T (print b (fun _ => false) x) b =
      .ok ⟨(print b (fun _ => false) x).length, .ok, some v⟩ := by
  obtain ⟨_, _, t3, t4, t5, t6⟩ := digitTables (base := (b : Int)) rfl hb h36
  obtain ⟨V, hV⟩ : ∃ V, 2 ^ 64 + b ^ (maxDigitsOf b - 1) = V := ⟨_, rfl⟩
  refine ⟨IntSpec.signedValue neg V, ?_⟩
  have hmod : V % 2 ^ 64 = b ^ (maxDigitsOf b - 1) := by rw [← hV, Nat.add_mod_left, Nat.mod_eq_of_lt t4]
  have hpr : print b (fun _ => false) (IntSpec.signedValue neg V) = (if neg then [45] else []) ++ render b (fun _ => false) V := by
    unfold print IntSpec.signedValue
    have : 0 < V := by omega
    cases neg with
    | true => simp [this]
    | false => simp
  rw [hpr]
  obtain ⟨v1, v2, v3⟩ := render_facts hb h36 (fun _ => false) V
  have hlen : (render b (fun _ => false) V).length < 2 ^ 60 := by
    have : ∀ b : Fin 37, (render b.val (fun _ => false) (2 ^ 64 + b.val ^ (maxDigitsOf b.val - 1))).length < 2 ^ 60 := by decide +kernel
    have := this ⟨b, by omega⟩
    simp only at this
    rw [hV] at this
    exact this
  obtain ⟨ds, hds⟩ : ∃ ds, render b (fun _ => false) V = ds := ⟨_, rfl⟩
  rw [hds] at v1 v2 v3 hlen ⊢
  obtain ⟨s, hsd⟩ : ∃ s, (if neg then [45] else []) ++ ds = s := ⟨_, rfl⟩
  rw [hsd]
  have hunits : ∀ u ∈ s, 45 ≤ u ∧ u < 128 := by
    intro u hu
    rw [← hsd] at hu
    rcases List.mem_append.1 hu with h | h
    · cases neg with
      | true => simp at h; omega
      | false => simp at h
    · have := v2 u h; omega
  have hin : Input CharType.char s := by
    refine ⟨by decide, fun u hu => ⟨by have := (hunits u hu).2; simp [CharType.char]; omega, fun _ => Or.inl rfl⟩, ?_⟩
    rw [← hsd]
    cases neg <;> simp <;> omega
  have hne : s ≠ [] := by rw [← hsd]; simp [v3]
  have ht : textOf c { base := (b : Int) } s = s := by
    obtain ⟨u, l, e⟩ := List.exists_cons_of_ne_nil hne
    refine textOf_head c _ (u := u) (by rw [e]; rfl) ?_
    have := hunits u (by rw [e]; simp)
    unfold ApiSpec.isSpace; simp; omega
  have hl : IntLiteral c T s { base := (b : Int) } b neg ds [] := by
    refine ⟨rfl, hb, h36, ?_, hs⟩
    rw [ht, ← hsd]
    refine ⟨?_, fun u hu => (v2 u hu).1, v3, by simp⟩
    cases neg with
    | true => exact Or.inl ⟨rfl, by simp⟩
    | false => exact Or.inr (Or.inl ⟨rfl, by simp⟩)
  have he : Escapes b (value b ds) := by
    rw [v1]
    refine ⟨by omega, maxDigitsOf b - 1, t4, ?_, ?_, by omega⟩
    · rw [show maxDigitsOf b - 1 + 1 = maxDigitsOf b by omega]; exact t3
    · rw [show maxDigitsOf b - 1 + 1 = maxDigitsOf b by omega]; omega
  have := C28_undetected c hT { base := (b : Int) } hin hl he (by rw [v1, hmod]; exact hf)
  rw [v1] at this
  exact ⟨this.2, _, this.1⟩

/-- **C29 cannot be extended**: for `uint64_t` every base other than 2, 4 and 16 has a value outside the type that, printed in that base, is accepted
without error; for `int64_t` so does every base other than 2, 3, 4, 9, 10, 16, 19, 23, 29 and 30. -/
theorem C29_sharp (c : Cfg) {b : Nat} (hb : 2 ≤ b) (h36 : b ≤ 36) :
    (b ∉ [2, 4, 16] → ∃ x : Int, ¬ Fits 64 false x ∧ ∃ v, fromCharsInt c CharType.char uint64 (print b (fun _ => false) x) b =
      .ok ⟨(print b (fun _ => false) x).length, .ok, some v⟩) ∧
    (b ∉ [2, 3, 4, 9, 10, 16, 19, 23, 29, 30] → ∃ x : Int, ¬ Fits 64 true x ∧ ∃ v, fromCharsInt c CharType.char int64 (print b (fun _ => false) x) b =
      .ok ⟨(print b (fun _ => false) x).length, .ok, some v⟩) := by
  have key : ∀ b : Fin 37, 2 ≤ b.val → (b.val ∉ [2, 4, 16] → 2 ^ 64 + b.val ^ (maxDigitsOf b.val - 1) < b.val ^ maxDigitsOf b.val ∧
      Fits 64 false (IntSpec.signedValue false (b.val ^ (maxDigitsOf b.val - 1)))) ∧ (b.val ∉ [2, 3, 4, 9, 10, 16, 19, 23, 29, 30] →
      2 ^ 64 + b.val ^ (maxDigitsOf b.val - 1) < b.val ^ maxDigitsOf b.val ∧ Fits 64 true (IntSpec.signedValue true (b.val ^ (maxDigitsOf b.val - 1)))) := by decide +kernel
  obtain ⟨k1, k2⟩ := key ⟨b, by omega⟩ hb
  exact ⟨fun h => undetected_witness (T := uint64) (by decide) hb h36 (k1 h).1 false (by simp) (k1 h).2 c,
    fun h => undetected_witness (T := int64) (by decide) hb h36 (k2 h).1 true (fun _ => rfl) (k2 h).2 c⟩

/-! ### C48: plus sign and white space -/

/-- If the texts of two calls have the same literal the results agree up to the pointer; the pointers are after the literals. -/
theorem int_same_literal (c : Cfg) {ct : CharType} {T : IntType} (hT : T.WF) {s s' : List Nat} (opt : Options) (hin : Input ct s) (hin' : Input ct s') {b : Nat}
    {neg : Bool} {ds rest rest' : List Nat} (h : IntLiteral c T s opt b neg ds rest) (h' : IntLiteral c T s' opt b neg ds rest') {r : ApiInt}
    (hr : fromCharsIntApi c ct T s opt = .ok r) : r.off = s.length - rest.length ∧ r.ec ≠ .invalidArgument ∧
      fromCharsIntApi c ct T s' opt = .ok ⟨s'.length - rest'.length, r.ec, r.value⟩ := by
  obtain ⟨ec, v, h1, h2⟩ := C47_int_spelling c hT opt hin hin' h h' rfl
  have hne : ec ≠ .invalidArgument := by
    obtain ⟨a1, a2⟩ := call_of_literal hin hT h
    by_cases ho : Overflow T b neg (core b (ds ++ rest)).length (value b ds % 2 ^ 64)
    · rw [a1 ho] at h1; cases h1; decide
    · rw [a2 ho] at h1; cases h1; decide
  rw [h1] at hr
  cases hr
  exact ⟨rfl, hne, h2⟩

/-- **C48**: with `allow_leading_plus`, a plus sign in front of an unsigned text is transparent. -/
theorem C48_plus_transparent (c : Cfg) {ct : CharType} {T : IntType} (hT : T.WF) {s : List Nat} (opt : Options) (hin : Input ct s) (hl : s.length + 1 < 2 ^ 62)
    (hf : plusFlag (c.eff opt) = true) (h45 : ∀ u, s ≠ 45 :: u) (h43 : ∀ u, s ≠ 43 :: u) (hws : textOf c opt s = s) {r : ApiInt}
    (hr : fromCharsIntApi c ct T s opt = .ok r) :
    fromCharsIntApi c ct T (43 :: s) opt = if r.ec = .invalidArgument then .ok ⟨0, .invalidArgument, none⟩ else .ok ⟨r.off + 1, r.ec, r.value⟩ := by
  have hin' : Input ct (43 :: s) := hin.cons (by norm_num) hl
  have hws' : textOf c opt (43 :: s) = 43 :: s := textOf_cons (by decide)
  by_cases h : ∃ b neg ds rest, IntLiteral c T s opt b neg ds rest
  · obtain ⟨b, neg, ds, rest, h⟩ := h
    have hx := h.literal.text
    rw [hws, hf] at hx
    obtain ⟨hn, hs⟩ := signed_plus h45 h43 hx
    have h' : IntLiteral c T (43 :: s) opt b neg ds rest := by
      refine ⟨h.base, h.two, h.max, ⟨?_, h.literal.digits, h.literal.nonempty, h.literal.maximal⟩, h.sign⟩
      rw [hws', ← hs]
      exact Or.inr (Or.inr ⟨hn, hf, rfl⟩)
    obtain ⟨g1, g2, g3⟩ := int_same_literal c hT opt hin hin' h h' hr
    rw [if_neg g2, g3, g1]
    have : rest.length ≤ s.length := by rw [hs]; simp
    congr 2
    simp; omega
  · rw [C30_int_rejected c hT opt hin h] at hr
    cases hr
    rw [if_pos rfl, C30_int_rejected c hT opt hin' ?_, hws']
    · simp
    · rintro ⟨b, neg, ds, rest, h'⟩
      apply h
      refine ⟨b, neg, ds, rest, h'.base, h'.two, h'.max, ⟨?_, h'.literal.digits, h'.literal.nonempty, h'.literal.maximal⟩, h'.sign⟩
      rw [hws]
      have hx := h'.literal.text
      rw [hws'] at hx
      rcases hx with ⟨_, hx⟩ | ⟨_, hx⟩ | ⟨hn, _, hx⟩
      · cases hx
      · exfalso
        obtain ⟨u, l, e⟩ := List.exists_cons_of_ne_nil h'.literal.nonempty
        have hd := h'.literal.digits u (by rw [e]; simp)
        rw [e] at hx
        cases hx
        have := h'.max
        unfold IntSpec.IsDigit at hd
        have h36 : digit 43 = 36 := by decide
        omega
      · cases hx; exact Or.inr (Or.inl ⟨hn, rfl⟩)

/-- "+42" with the flag. -/
example : fromCharsIntApi Cfg.x64 CharType.char int32 [43, 52, 50] { format := 133 } = .ok ⟨3, .ok, some 42⟩ := by
  have := C48_plus_transparent Cfg.x64 (ct := CharType.char) (T := int32) (by decide) (s := [52, 50]) { format := 133 } ⟨by decide, by decide, by decide⟩ (by decide)
    (by decide) (by intro u h; cases h) (by intro u h; cases h) (by decide) (r := ⟨2, .ok, some 42⟩) (by decide +kernel)
  simpa using this

/-- A text that starts with a character that is neither a digit of any base nor an allowed sign is rejected. -/
theorem int_bad_head (c : Cfg) {ct : CharType} {T : IntType} (hT : T.WF) {s u : List Nat} {a : Nat} (opt : Options) (hin : Input ct s)
    (ht : textOf c opt s = a :: u) (ha : digit a = 36) (h45 : a ≠ 45) (h43 : plusFlag (c.eff opt) = true → a ≠ 43) :
    fromCharsIntApi c ct T s opt = .ok ⟨s.length - (textOf c opt s).length, .invalidArgument, none⟩ := by
  refine C30_int_rejected c hT opt hin ?_
  rintro ⟨b, neg, ds, rest, h⟩
  have hx := h.literal.text
  rw [ht] at hx
  rcases hx with ⟨_, hx⟩ | ⟨_, hx⟩ | ⟨_, hp, hx⟩
  · cases hx; exact h45 rfl
  · obtain ⟨v, l, e⟩ := List.exists_cons_of_ne_nil h.literal.nonempty
    have hd := h.literal.digits v (by rw [e]; simp)
    rw [e] at hx
    cases hx
    have := h.max
    unfold IntSpec.IsDigit at hd
    omega
  · cases hx; exact h43 hp rfl

/-- **C48**: without `allow_leading_plus` a plus sign is rejected. -/
theorem C48_plus_rejected (c : Cfg) {ct : CharType} {T : IntType} (hT : T.WF) {s u : List Nat} (opt : Options) (hin : Input ct s)
    (hf : plusFlag (c.eff opt) = false) (ht : textOf c opt s = 43 :: u) :
    fromCharsIntApi c ct T s opt = .ok ⟨s.length - (textOf c opt s).length, .invalidArgument, none⟩ :=
  int_bad_head c hT opt hin ht (by decide) (by decide) (by rw [hf]; simp)

example : fromCharsIntApi Cfg.x64 CharType.char int32 [43, 52] {} = .ok ⟨0, .invalidArgument, none⟩ :=
  C48_plus_rejected Cfg.x64 (by decide) {} (input_of_bytes (by decide) (by decide)) (by decide) (u := [52]) rfl

/-- **C48**: without `skip_white_space` a leading blank is rejected. -/
theorem C48_blank_rejected (c : Cfg) {ct : CharType} {T : IntType} (hT : T.WF) {s : List Nat} {a : Nat} (opt : Options) (hin : Input ct (a :: s))
    (hf : wsFlag (c.eff opt) = false) (hb : ApiSpec.isSpace a = true) :
    fromCharsIntApi c ct T (a :: s) opt = .ok ⟨0, .invalidArgument, none⟩ := by
  have ht : textOf c opt (a :: s) = a :: s := by unfold textOf body; rw [hf]; rfl
  have ha : a = 32 ∨ (9 ≤ a ∧ a ≤ 13) := by
    unfold ApiSpec.isSpace at hb
    simpa using hb
  have := int_bad_head c hT opt hin ht (by unfold digit; rw [if_neg, if_neg, if_neg] <;> omega) (by omega) (fun _ => by omega)
  rw [this, ht]
  simp

example : fromCharsIntApi Cfg.x64 CharType.char int32 [32, 52] {} = .ok ⟨0, .invalidArgument, none⟩ :=
  C48_blank_rejected Cfg.x64 (by decide) {} (input_of_bytes (by decide) (by decide)) (by decide) (by decide)

/-- **C48**: with `skip_white_space` leading blanks only move the pointer. -/
theorem C48_blanks_skipped (c : Cfg) {ct : CharType} {T : IntType} (hT : T.WF) {s ws : List Nat} (opt : Options) (hin : Input ct (ws ++ s))
    (hf : wsFlag (c.eff opt) = true) (hb : ∀ u ∈ ws, ApiSpec.isSpace u = true) {r : ApiInt} (hr : fromCharsIntApi c ct T s opt = .ok r) :
    fromCharsIntApi c ct T (ws ++ s) opt = .ok ⟨ws.length + r.off, r.ec, r.value⟩ := by
  have hin' : Input ct s := ⟨hin.wf, fun u hu => hin.units u (List.mem_append_right _ hu), by have := hin.len; rw [List.length_append] at this; omega⟩
  have ht : textOf c opt (ws ++ s) = textOf c opt s := by
    unfold textOf body
    rw [hf]
    simp only [if_true]
    rw [List.dropWhile_append_of_pos hb]
  have hle : (textOf c opt s).length ≤ s.length := by
    obtain ⟨w, w1, _⟩ := textOf_suffix c opt s
    have := congrArg List.length w1
    rw [List.length_append] at this; omega
  by_cases h : ∃ b neg ds rest, IntLiteral c T s opt b neg ds rest
  · obtain ⟨b, neg, ds, rest, h⟩ := h
    obtain ⟨g1, _, g3⟩ := int_same_literal c hT opt hin' hin h (s' := ws ++ s) (rest' := rest)
      ⟨h.base, h.two, h.max, by rw [ht]; exact h.literal, h.sign⟩ hr
    have : rest.length ≤ (textOf c opt s).length := by
      rcases h.literal.text with ⟨_, hx⟩ | ⟨_, hx⟩ | ⟨_, _, hx⟩ <;> rw [hx] <;> simp <;> omega
    rw [g3, g1]
    congr 2
    simp; omega
  · rw [C30_int_rejected c hT opt hin' h] at hr
    cases hr
    rw [C30_int_rejected c hT opt hin (by
      rintro ⟨b, neg, ds, rest, h'⟩
      exact h ⟨b, neg, ds, rest, h'.base, h'.two, h'.max, by rw [← ht]; exact h'.literal, h'.sign⟩), ht]
    congr 2
    simp; omega

/-- " \t-8" as `int32_t` with the flag. -/
example : fromCharsIntApi Cfg.x64 CharType.char int32 [32, 9, 45, 56] { format := 261 } = .ok ⟨4, .ok, some (-8)⟩ :=
  C48_blanks_skipped Cfg.x64 (ct := CharType.char) (T := int32) (by decide) (ws := [32, 9]) (s := [45, 56]) { format := 261 } ⟨by decide, by decide, by decide⟩
    (by decide) (by decide) (r := ⟨2, .ok, some (-8)⟩) (by decide +kernel)

/-! ### C49: delimiters -/

/-- **C49**: what follows a character that is no digit of the base (and no sign) does not matter. -/
theorem C49_int_delimiter (c : Cfg) {ct : CharType} {T : IntType} (hT : T.WF) {s u : List Nat} {d : Nat} (opt : Options) (hin : Input ct (s ++ d :: u))
    (hd : ¬ IntSpec.IsDigit opt.base.toNat d) (h45 : d ≠ 45) (h43 : d ≠ 43) (hsp : ApiSpec.isSpace d = false ∨ textOf c opt s ≠ []) :
    fromCharsIntApi c ct T (s ++ d :: u) opt = fromCharsIntApi c ct T s opt := by
  have hin' : Input ct s := ⟨hin.wf, fun x hx => hin.units x (List.mem_append_left _ hx), by have := hin.len; rw [List.length_append] at this; omega⟩
  have ht : textOf c opt (s ++ d :: u) = textOf c opt s ++ d :: u := by
    unfold textOf body
    split
    · rename_i hw
      rw [List.dropWhile_append]
      split
      · rename_i he
        have he : s.dropWhile ApiSpec.isSpace = [] := by simpa using he
        rcases hsp with h | h
        · rw [List.dropWhile_cons_of_neg (by rw [h]; simp), he]; rfl
        · exfalso; apply h; unfold textOf body; rw [if_pos hw]; exact he
      · rfl
    · rfl
  by_cases h : ∃ b neg ds rest, IntLiteral c T s opt b neg ds rest
  · obtain ⟨b, neg, ds, rest, h⟩ := h
    have hb : opt.base.toNat = b := by have := h.base; omega
    rw [hb] at hd
    obtain ⟨r, hr, _⟩ := C25_int_defined c hin'.wf hT (fun u hu => (hin'.units u hu).1) opt (s := s)
    obtain ⟨g1, _, g3⟩ := int_same_literal c hT opt hin' hin h (s' := s ++ d :: u) (rest' := rest ++ d :: u) (by
      refine ⟨h.base, h.two, h.max, ⟨?_, h.literal.digits, h.literal.nonempty, ?_⟩, h.sign⟩
      · rw [ht, ← List.append_assoc]; exact signed_delim h.literal.text
      · intro x hx
        cases rest with
        | nil => cases hx; exact hd
        | cons y l => exact h.literal.maximal x hx) hr
    obtain ⟨o, e, v⟩ := r
    simp only at g1 g3
    rw [g3, hr, g1]
    congr 2
    simp; omega
  · rw [C30_int_rejected c hT opt hin' h, C30_int_rejected c hT opt hin ?_, ht]
    · congr 2
      simp; omega
    · rintro ⟨b, neg, ds, rest, h'⟩
      have hb : opt.base.toNat = b := by have := h'.base; omega
      rw [hb] at hd
      have hnd : d ∉ ds := fun hm => hd (h'.literal.digits d hm)
      have hx := h'.literal.text
      rw [ht] at hx
      have key : ∃ y, rest = y ++ d :: u ∧ Signed (plusFlag (c.eff opt)) (textOf c opt s) neg (ds ++ y) := by
        rcases hx with ⟨hn, hx⟩ | ⟨hn, hx⟩ | ⟨hn, hp, hx⟩
        · cases htx : textOf c opt s with
          | nil => rw [htx] at hx; cases hx; exact absurd rfl h45
          | cons a l =>
            rw [htx] at hx
            rw [List.cons_append] at hx
            obtain ⟨rfl, hx'⟩ := List.cons.inj hx
            obtain ⟨y, e1, e2⟩ := split_delim hnd hx'
            exact ⟨y, e1, Or.inl ⟨hn, by rw [e2]⟩⟩
        · obtain ⟨y, e1, e2⟩ := split_delim hnd hx
          exact ⟨y, e1, Or.inr (Or.inl ⟨hn, e2⟩)⟩
        · cases htx : textOf c opt s with
          | nil => rw [htx] at hx; cases hx; exact absurd rfl h43
          | cons a l =>
            rw [htx] at hx
            rw [List.cons_append] at hx
            obtain ⟨rfl, hx'⟩ := List.cons.inj hx
            obtain ⟨y, e1, e2⟩ := split_delim hnd hx'
            exact ⟨y, e1, Or.inr (Or.inr ⟨hn, hp, by rw [e2]⟩)⟩
      obtain ⟨y, e1, e2⟩ := key
      apply h
      refine ⟨b, neg, ds, y, h'.base, h'.two, h'.max, ⟨e2, h'.literal.digits, h'.literal.nonempty, ?_⟩, h'.sign⟩
      intro x hx
      apply h'.literal.maximal x
      rw [e1]
      cases y with
      | nil => cases hx
      | cons a l => exact hx

/-- "12," then anything. -/
example (u : List Nat) (hu : ∀ x ∈ u, x < 2 ^ 8) (hl : u.length < 2 ^ 32) :
    fromCharsInt Cfg.x64 CharType.char uint8 ([49, 50] ++ 44 :: u) 10 = .ok ⟨2, .ok, some 12⟩ := by
  have := C49_int_delimiter Cfg.x64 (ct := CharType.char) (T := uint8) (by decide) (s := [49, 50]) (u := u) (d := 44) {}
    (input_of_bytes (by
      intro x hx
      simp only [List.cons_append, List.nil_append, List.mem_cons] at hx
      rcases hx with rfl | rfl | rfl | hx
      iterate 3 norm_num
      exact hu x hx) (by simp; omega)) (by decide) (by decide) (by decide) (Or.inl (by decide))
  unfold fromCharsInt
  rw [this]
  decide +kernel

end FastFloat
