import Verif.Props.EveryPoint
import Verif.Props.Flags
import Verif.Props.Build
import Verif.Props.Integer
import Verif.Props.Pow10
import Verif.Props.Hardware
import Verif.Props.Rounding
import Verif.Props.Complete
import Verif.Props.Total
import Verif.Props.CaseCompare
import Verif.Props.Pns
import Verif.Props.Lists
import Verif.Props.FormatBits
import Verif.Props.Digits10
import Verif.Props.BigIntExact
import Verif.Props.Words
import Verif.Props.Memory
import Verif.Props.Overloads
import Verif.Props.Operators
import Verif.Props.AnyPoint
import Verif.Props.CostPaid
import Verif.Props.CostBig
import Verif.Props.Scripts
import Verif.Props.Lookahead
import Verif.Props.ShortFast
import Verif.Props.Ipv4
import Verif.Props.Trimmed
import Verif.Props.Fields
import Verif.Props.Pow10Order
import Verif.Props.Standards
import Verif.Props.AmalgamateRepo
import Verif.Props.Notices
import Verif.Props.RandomString
import Verif.Props.WhichOverload

/-! # Concrete cases that meet the hypotheses

One concrete, non-trivial case for every theorem of the manifest that has hypotheses and whose case does not stand beside it.  Each `example` applies the
theorem itself, so that every hypothesis is discharged on the literals shown; where the statement of an example is omitted, it is the conclusion of the
theorem on these literals.  Nothing here is a property. -/

set_option autoImplicit false

namespace FastFloat

/-! ### Texts -/

/-- C14 with the digit `5` as decimal point. -/
example := C14_any_point Cfg.x64 (ct := CharType.char) .double (s := [97]) { decimalPoint := 53 } (input_of_bytes (by decide) (by decide))
  (r := ⟨0, .invalidArgument, none⟩) (by decide +kernel)
/-- C19: `-1.5x`, with and without `skip_white_space`. -/
example := C19_only_blanks Cfg.x64 (ct := CharType.char) .float (s := [45, 49, 46, 53, 120]) {} (input_of_bytes (by decide) (by decide)) (by decide)
  (by rintro a u ⟨rfl, _⟩; decide)
/-- C19: two blanks in front of `15`, the point being `5`. -/
example := C19_any_point Cfg.x64 (ct := CharType.char) .double (s := [49, 53]) (ws := [32, 9]) { format := 261, decimalPoint := 53 }
  (input_of_bytes (by decide) (by decide)) (by decide) (by decide) (r := ⟨2, .ok, some 0x402e000000000000⟩) (by decide +kernel)
/-- C20: `-InfinitYx`, the point being a blank. -/
theorem inst_inf : ApiSpec.InfText (ApiSpec.plusFlag (Cfg.x64.eff { decimalPoint := 32 })) [45, 73, 110, 102, 105, 110, 105, 116, 89, 120] true [120] :=
  ⟨[73, 110, 102, 105, 110, 105, 116, 89, 120], [105, 110, 105, 116, 89, 120], Or.inl ⟨rfl, rfl⟩, ⟨[73, 110, 102], rfl, rfl⟩, Or.inl ⟨[105, 110, 105, 116, 89], rfl, rfl⟩⟩
example : fromCharsFloat Cfg.x64 CharType.char binary32 [45, 73, 110, 102, 105, 110, 105, 116, 89, 120] { decimalPoint := 32 } = .ok ⟨9, .ok, some 0xff800000⟩ :=
  C20_infinity_any_point Cfg.x64 (ct := CharType.char) .float { decimalPoint := 32 } (input_of_bytes (by decide) (by decide)) (by decide) inst_inf
/-- C20: `-nan(_1)`, the point being `n`. -/
theorem inst_nan : ApiSpec.NanText (ApiSpec.plusFlag (Cfg.x64.eff { decimalPoint := 110 })) [45, 110, 97, 110, 40, 95, 49, 41] true [] :=
  ⟨[110, 97, 110, 40, 95, 49, 41], [40, 95, 49, 41], Or.inl ⟨rfl, rfl⟩, ⟨[110, 97, 110], rfl, rfl⟩, Or.inl ⟨[95, 49], by unfold ApiSpec.NanChar; decide, rfl⟩⟩
example := C20_nan_any_point Cfg.x64 (ct := CharType.char) .double (s := [45, 110, 97, 110, 40, 95, 49, 41]) { decimalPoint := 110 }
  (input_of_bytes (by decide) (by decide)) (by decide) inst_nan
example : fromCharsFloat Cfg.x64 CharType.char binary64 [45, 110, 97, 110, 40, 95, 49, 41] { decimalPoint := 110 } = .ok ⟨8, .ok, some 0xfff8000000000000⟩ :=
  C20_quiet_nan Cfg.x64 (ct := CharType.char) .double { decimalPoint := 110 } (input_of_bytes (by decide) (by decide)) (by decide) inst_nan
/-- C21: `15a` with `no_infnan` and the point `5`. -/
example := C21_any_point Cfg.x64 (ct := CharType.char) .double (s := [49, 53, 97]) { format := 21, decimalPoint := 53 } (input_of_bytes (by decide) (by decide))
  (by decide) (r := ⟨2, .ok, some 0x402e000000000000⟩) (by decide +kernel)
/-- C24: units above 255 in a `char16_t` text. -/
example := C24_float_defined Cfg.x64 (ct := ⟨2, false, false, true⟩) (by decide) .float (s := [0x2009, 49, 0xff11]) {}
  (by unfold UnitOK; decide) (by decide)
/-- C35, C36, C37, C38, C44 with the digit `5` as decimal point. -/
example := C35_any_point_float16 (c := Cfg.x64) (c' := { Cfg.x64 with bigEndian := true }) ⟨rfl, rfl⟩ Iff.rfl (ct := CharType.char) (s := [49, 53, 97]) { decimalPoint := 53 }
  (input_of_bytes (by decide) (by decide))
example := C36_any_point Cfg.x64 (ct := CharType.char) (ct' := ⟨4, false, false, false⟩) .double (s := [49, 53, 97]) { decimalPoint := 53 }
  (input_of_bytes (by decide) (by decide)) ⟨by decide, by unfold GoodUnit; decide, by decide⟩
example := C37_any_point (c := Cfg.x64) (c' := { Cfg.x64 with mode := .up }) ⟨rfl, rfl⟩ (ct := CharType.char) .float (s := [49, 53, 97]) { decimalPoint := 53 }
  (input_of_bytes (by decide) (by decide))
example := C38_any_point { Cfg.x64 with plusMacro := true } (ct := CharType.char) .float (s := [43, 49, 53, 97]) { decimalPoint := 53 } (input_of_bytes (by decide) (by decide))
example := C44_any_point Cfg.x64 (ct := CharType.char) .double (s := [110, 97, 110]) { decimalPoint := 110 } (input_of_bytes (by decide) (by decide))
  (r := ⟨3, .ok, some 0x7ff8000000000000⟩) (by decide +kernel)
/-- C37: a division, a subtraction and a literal of the hardware. -/
example := C37_hardware_div { Cfg.x64 with mode := .up } .double 0x3ff0000000000000 0x4008000000000000
  (by norm_num [FloatTy.spec, FloatSpec.Format.val, FloatSpec.double, FloatSpec.Format.bias])
example := C37_hardware_sub { Cfg.x64 with mode := .down } .double 0x4008000000000000 0x3ff0000000000000
  (sval_mono .double (by decide))
example := C37_hardware_literal .double (k := 22) (v := 0x4480f0cf064dd592) (by decide +kernel)
/-- C39: the wrapper for `float64_t` on `x`. -/
example := C39_alias_overwrites Cfg.x64 (ct := CharType.char) .double (s := [120]) 5 (input_of_bytes (by decide) (by decide)) (r := ⟨0, .invalidArgument, none⟩)
  (by decide +kernel) rfl
/-- C45: a parsed text passed on by hand. -/
example := C45_pns_overload Cfg.x64 (ct := CharType.char) .double (s := [49, 46, 53]) {} (input_of_bytes (by decide) (by decide)) (by decide) (by decide)
  (p := { exponent := -1, mantissa := 15, valid := true, integer := some [49], fraction := some [53] }) (by decide +kernel) rfl
example := C50_complete Cfg.x64 (ct := CharType.char) .double (by decide) {} sample_input sample_point
  (fun _ _ h => short_moderate (s := textOf Cfg.x64 {} sampleText) (by decide) h.text)
example := C71_from_chars_float16 Cfg.x64 (ct := CharType.char) 5 half_input (fun _ _ h => short_moderate (s := ApiSpec.body 5 halfText) (by decide) h.text)
/-- C50, C71: every text that is shorter than 2^28 - 400. -/
example := C71_default_float Cfg.x64 (ct := CharType.char) .double (by decide) sample_input (by decide)
example := C71_default_int Cfg.x64 (ct := CharType.char) (T := int32) (by decide) (s := [45, 49, 50]) (input_of_bytes (by decide) (by decide))
example := C71_from_chars_base_wide Cfg.x64 (ct := CharType.char) (T := ⟨128, true, false, false, false⟩) (by unfold IntType.Wide; decide) (s := [45, 49, 50]) 10
  (input_of_bytes (by decide) (by decide))
/-- C42: there is such a number of digits. -/
example := C42_limit 9999999998 rfl
/-- C55: the exponent of `-7e-46`. -/
example := C55_nine_digit_exponent under_accepts.longest.1 (by unfold underNumeral; simp)
example := C55_small_exponent under_accepts.longest.1 (by decide)
/-- C58: `INF` against `inf`, on three units. -/
example := C58_bit_five Cfg.x64 (ct := CharType.char) (by decide) (actual := [73, 78, 70]) (expected := [105, 110, 102]) 3 (by decide) (by decide) (by decide) (by decide)
/-- C61: a number without text. -/
example := C61_pns_value Cfg.x64 CharType.char .double (by decide) { mantissa := 123456789, exponent := -400, negative := true, valid := false } (by norm_num) rfl
/-- C64: `-128;+127`. -/
example : readList (intField Cfg.x64 CharType.char ⟨8, true, false, false, false⟩ { format := 133 }) 59 2 [45, 49, 50, 56, 59, 43, 49, 50, 55] = .ok ([-128, 127], []) :=
  C64_int_list Cfg.x64 (ct := CharType.char) (by decide) { format := 133 } (d := 59) (by decide) (by decide) (by decide)
    [([45, 49, 50, 56], -128), ([43, 49, 50, 55], 127)] (by simp) (input_of_bytes (by decide) (by decide)) (by decide +kernel)
/-- C65: `hex` and an unnamed bit. -/
example := C65_float_format_bits Cfg.x64 CharType.char .double sampleText (o := {}) (o' := { format := 5 + 8 + 1024 }) (by unfold SameFlags; decide) rfl
example := C65_int_format_bits Cfg.x64 CharType.char int32 [45, 49, 50] (o := {}) (o' := { format := 32 }) (by decide) (by decide) rfl
/-- C67: `0.1` and `16777217.00...01` as `float` differ. -/
example {s s' : List Nat} {n n' : NumSpec.Numeral} {rest rest' : List Nat} {r r' : ApiFloat} (hin : Input CharType.char s) (hin' : Input CharType.char s')
    (h : AcceptsNumber Cfg.x64 CharType.char .float s {} n rest r) (h' : AcceptsNumber Cfg.x64 CharType.char .float s' {} n' rest' r') (hm : NumSpec.Moderate n) (hm' : NumSpec.Moderate n')
    (hv : n.value = 1 / 10) (hv' : n'.value = 11 / 100) : r.value ≠ r'.value :=
  C67_distinct Cfg.x64 .float {} {} hin hin' sample_point sample_point h h' hm hm' ⟨1, -1, by decide, by rw [hv]; norm_num⟩ ⟨11, -2, by decide, by rw [hv']; norm_num⟩
    (by rw [hv]; norm_num [FloatTy.spec, FloatSpec.Format.val, FloatSpec.single, FloatSpec.Format.bias])
    (by rw [hv]; norm_num [FloatTy.spec, FloatSpec.Format.overflowThreshold, FloatSpec.Format.val, FloatSpec.single, FloatSpec.Format.bias])
    (by rw [hv']; norm_num [FloatTy.spec, FloatSpec.Format.val, FloatSpec.single, FloatSpec.Format.bias])
    (by rw [hv']; norm_num [FloatTy.spec, FloatSpec.Format.overflowThreshold, FloatSpec.Format.val, FloatSpec.single, FloatSpec.Format.bias])
    (by rw [hv, hv']; norm_num)
/-- C74: the default decimal point. -/
example := C74_nondigit_point_float16 Cfg.x64 (ct := CharType.char) {} half_input (by decide)
example := (C74_greedy_iff_munch sample_point (s := sampleText) (n := sampleNumeral) (rest := [120])).2
/-- C75, C76: the sample text of 31 units. -/
example : 31 ≤ (fromCharsFloatT Cfg.x64 CharType.char binary64 sampleText {}).steps + 4 :=
  C75_every_unit_is_paid Cfg.x64 CharType.char .double sampleText {} ⟨31, .ok, some (2 ^ 63 + 0x4340000000000001)⟩ (by decide +kernel)
example : 3 ≤ (fromCharsIntApiT Cfg.x64 CharType.char int32 [45, 49, 50] {}).steps + 1 :=
  C76_every_unit_is_paid Cfg.x64 CharType.char int32 [45, 49, 50] {} ⟨3, .ok, some (-12)⟩ (by decide +kernel)
/-- C79: five units behind `1.5` decide. -/
example : fromCharsFloat Cfg.x64 CharType.char binary64 ([49, 46, 53, 32, 49, 101, 43, 120] ++ [57]) {} = .ok ⟨3, .ok, some 0x3ff8000000000000⟩ :=
  C79_more_input Cfg.x64 (ct := CharType.char) .double {} (input_of_bytes (by decide) (by decide)) (by decide +kernel) (by unfold ApiSpec.IsNaN; decide) (by decide)
example : fromCharsFloat Cfg.x64 CharType.char binary64 [49, 46, 53, 32, 49, 101, 43, 57] {} = .ok ⟨3, .ok, some 0x3ff8000000000000⟩ :=
  C79_lookahead Cfg.x64 (ct := CharType.char) .double (s := [49, 46, 53, 32, 49, 101, 43, 57, 57]) {} (input_of_bytes (by decide) (by decide)) (input_of_bytes (by decide) (by decide))
    (by decide +kernel) (by unfold ApiSpec.IsNaN; decide) (by decide)
/-- C80: nothing is read again. -/
example := C80_parsed Cfg.x64 CharType.char .double { mantissa := 123456789, exponent := -400, negative := true, valid := true } (by norm_num) rfl

/-! ### Integers -/

/-- The literal `30000000000000000000` as `uint64_t`, which the check misses. -/
theorem inst_literal : IntLiteral Cfg.x64 uint64 (51 :: List.replicate 19 48) {} 10 false (51 :: List.replicate 19 48) [] :=
  ⟨rfl, by decide, by decide, ⟨Or.inr (Or.inl ⟨rfl, rfl⟩), by decide, by decide, by intro u h; cases h⟩, by simp⟩
/-- `300` as `uint8_t`, outside of the exception. -/
example : fromCharsIntApi Cfg.x64 CharType.char uint8 [51, 48, 48, 120] {} = .ok ⟨3, .outOfRange, none⟩ :=
  C28_overflow_partial Cfg.x64 (ct := CharType.char) (T := uint8) (by decide) {} (input_of_bytes (by decide) (by decide)) (b := 10) (neg := false) (ds := [51, 48, 48]) (rest := [120])
    ⟨rfl, by decide, by decide, ⟨Or.inr (Or.inl ⟨rfl, rfl⟩), by decide, by decide, by decide⟩, by simp⟩ (by decide) (by rintro ⟨⟨h, _⟩, _⟩; revert h; decide)
example := C28_undetected Cfg.x64 (ct := CharType.char) (T := uint64) (by decide) {} (input_of_bytes (by decide) (by decide)) inst_literal
  ⟨by decide, 19, by decide, by decide, by decide, by decide⟩ (by decide)
example := C29_sharp Cfg.x64 (b := 10) (by decide) (by decide)
example := C40_fast_paths Cfg.x64 (ct := CharType.char) (T := uint8) (by decide) (s := [50, 53, 54]) {} (input_of_bytes (by decide) (by decide))
example := C46_int_macros { Cfg.x64 with plusMacro := true } (ct := CharType.char) (T := int32) (by decide) (s := [43, 52]) {} (input_of_bytes (by decide) (by decide))
/-- C43: `-zz` in base 36. -/
example := C43_round_trip Cfg.x64 (ct := CharType.char) (T := int32) (by decide) { base := 36 } (b := 36) rfl (by decide) (by decide) (fun _ => true) (x := -1295) (by decide)
  (rest := [33]) (by decide) (input_of_bytes (by decide +kernel) (by decide +kernel))

/-! ### integer_times_pow10 -/

example := C32_integer_times_pow10_unsigned Cfg.x64 .double (by decide) 18446744073709551615 (by decide) (-400)
example := C33_integer_times_pow10_signed_partial Cfg.x64 .float (by decide) (-123) (by decide) (by decide) 45
example := C86_monotone .float (c₁ := Cfg.x64) (c₂ := Cfg.x64) (I₁ := int64) (I₂ := uint64) (m₁ := -5) (m₂ := 7) (by unfold Allowed; decide) (by unfold Allowed; decide) 3 (-2) (by norm_num)
example := C86_product_only .float (c₁ := Cfg.x64) (c₂ := Cfg.x64) (I₁ := int64) (I₂ := uint64) (m₁ := 7) (m₂ := 7000) (by unfold Allowed; decide) (by unfold Allowed; decide)
  (e₁ := 3) (e₂ := 0) (by norm_num)
example := C86_monotone_integer .float (c₁ := Cfg.x64) (c₂ := Cfg.x64) (I₁ := int64) (I₂ := uint64) (m₁ := -5) (m₂ := 7) (by unfold Allowed; decide) (by unfold Allowed; decide) (by decide) 300
example := C86_monotone_power .float (c₁ := Cfg.x64) (c₂ := Cfg.x64) (I₁ := int64) (I₂ := uint64) (m := 7) (by unfold Allowed; decide) (by unfold Allowed; decide) (by decide) (e₁ := -50) (e₂ := 50) (by decide)
example := C86_odd .float (c₁ := Cfg.x64) (c₂ := Cfg.x64) (I₁ := uint64) (I₂ := int64) (m := 7) (by decide) (by unfold Allowed; decide) (by unfold Allowed; decide) (-3)
example : integerTimesPow10Any Cfg.x64 FloatTy.float.fmt int64 (-15) (-1) = .ok 0xbfc00000 :=
  C86_exact .float Cfg.x64 int64 (m := -15) (by unfold Allowed; decide) (-1) (k := 0x3fc00000) (by decide)
    (by norm_num [FloatTy.spec, FloatSpec.Format.val, FloatSpec.single, FloatSpec.Format.bias])

/-! ### Words, big integers and memory -/

example := C41_eight_test [49, 50, 51, 52, 53, 54, 55, 58] rfl (by decide)
example := C41_four_test [49, 50, 51, 47] rfl (by decide)
example := C41_eight_value [49, 50, 51, 52, 53, 54, 55, 56] rfl (by decide)
example := C41_four_value [49, 50, 51, 52] rfl (by decide)
example := C41_simd_test .sse2 (by decide) 58 (by decide)
example := C69_leading_zeroes { Cfg.x64 with nativeMul := false } (x := 12345) (by decide) (by decide)
example := C69_countr_zero Cfg.x64 (x := 0x00808000) (by decide)
example := C69_full_multiplication Cfg.x64 (a := 2 ^ 64 - 1) (b := 2 ^ 64 - 59) (by decide) (by decide)
example := C69_byteswap (x := 0x0102030405060708) (by decide)
example := C69_byteswap32 (x := 0x01020304) (by decide)
example := C69_read8 { Cfg.x64 with bigEndian := true } CharType.char [1, 2, 3, 4, 5, 6, 7, 8, 9] (by decide) (by decide)
example := C69_read4 { Cfg.x64 with bigEndian := true } CharType.char [1, 2, 3, 4, 5] (by decide) (by decide)
example := C68_unique (C68_of_u64 Cfg.x64 (x := 7) (by norm_num)) (C68_of_u64 Cfg.x64 (x := 7) (by norm_num))
example := C68_long_mul (C68_of_u64 Cfg.x64 (x := 2 ^ 63) (by norm_num)) (C68_of_u64 Cfg.x64 (x := 7) (by norm_num)) (by norm_num) (by norm_num)
example := C68_pow5 400 (C68_of_u64 Cfg.x64 (x := 7) (by norm_num)) (by norm_num)
example := C68_pow10 400 (C68_of_u64 Cfg.x64 (x := 7) (by norm_num)) (by norm_num)
example := C68_compare (C68_of_u64 Cfg.x64 (x := 2 ^ 63) (by norm_num)) (C68_of_u64 Cfg.x64 (x := 7) (by norm_num))
example := C68_hi64 (C68_of_u64 Cfg.x64 (x := 2 ^ 63 + 5) (by norm_num)) (by norm_num)
/-- Two vectors in memory, and every operation on them. -/
example (c : Cfg) : ∃ v w, Stores c v 7 ∧ Stores c w (2 ^ 31 + 5) := by
  obtain ⟨v, _, hv⟩ := C70_of_u64 c (x := 7) (by norm_num)
  obtain ⟨w, _, hw⟩ := C70_of_u64 c (x := 2 ^ 31 + 5) (by norm_num)
  have hl : 32 ≤ limbBits c := by unfold limbBits; cases c.limb64 <;> simp
  have hb : 2 ^ 32 ≤ 2 ^ limbBits c := Nat.pow_le_pow_right (by norm_num) hl
  have u := (C70_stores hv).1
  have := C70_safe c u 9 100
  have := C70_safe_two c u (C70_stores hw).1 0
  have := C70_small_mul hw (y := 2 ^ 31) (by omega) (by norm_num)
  have := C70_small_add hw (y := 2 ^ 31) (by omega)
  have := C70_long_mul hv hw (by norm_num) (by norm_num)
  have := C70_compare hv hw
  have := C70_hi64 hw (by norm_num)
  exact ⟨v, w, hv, hw⟩
example := C70_faults_fresh 62 61 (by decide)
example := C72_laws (f := 5) (g := 2 ^ 63 + 1) (by decide) (by decide)
example := C72_flag_idioms (f := 53) (by decide) (k := 4) (by decide)

/-! ### Scripts -/

example := C77_table_entries (-300) (by decide) (by decide)
example := C78_exact_division 100 233 (by decide) (by decide) (by decide) (by decide)
example := C78_method_sound 12345 (by decide +kernel) (2 ^ 63 + 12345) (by decide)
example := C78_no_carry 342 0x8000000000000000 0 (by decide +kernel) (by decide +kernel) (2 ^ 63 + 12345) (by decide)

/-! ### Programs around the library -/

example : Client.parseIp Cfg.x64 CharType.char ((Client.ipv4Buffer 3232235521).dropLast ++ [32]) = .ok (some (3232235521, [32])) :=
  C82_ipv4_round_trip (c := Cfg.x64) ⟨rfl, rfl⟩ (ct := CharType.char) (ip := 3232235521) (by decide) (rest := [32]) (by decide)
    (input_of_bytes (by simp [Client.ipv4Buffer, Client.octets, Client.printLoop, Client.u8ToChars, Client.u8DigitsLoop]) (by simp [Client.ipv4Buffer, Client.octets, Client.printLoop, Client.u8ToChars, Client.u8DigitsLoop]))
example := C82_ipv4_print 3232235521 (by decide)
example := C82_ipv4_buffer 3232235521 (by decide)
example := C82_seek (c := Cfg.x64) ⟨rfl, rfl⟩ sample_ip_input (ip := 3232235521) (rest := [32, 120]) (by decide +kernel)
/-- A text without a dot is no address. -/
example : Client.parseIp Cfg.x64 CharType.char [49] = .ok none :=
  C82_ipv4_rejects (c := Cfg.x64) ⟨rfl, rfl⟩ (ct := CharType.char) (s := [49]) (input_of_bytes (by decide) (by decide)) (by
    rintro ⟨a, b, d, e, rest, A, B, D, E, h, _⟩
    have : 46 ∈ [49] := by rw [h]; simp
    revert this; decide)
example := C84_rcpp Cfg.x64 (ct := CharType.char) .double (by decide) (s := [32, 49, 46, 53, 32]) (input_of_bytes (by decide) (by decide)) (by decide)
example := C84_trimmed_float16 Cfg.x64 (ct := CharType.char) (s := [32, 49, 46, 53, 32]) (opt := Client.rcppOptions) (input_of_bytes (by decide) (by decide))
  (by unfold NumSpec.Rules.PointOK NumSpec.IsDigit; decide) (by decide) (rcpp_ws _)
/-- No field without a digit or a letter. -/
example : Client.rcppField Cfg.x64 CharType.char FloatTy.double.fmt [32, 35] Client.rcppOptions = .ok none :=
  C84_rejects Cfg.x64 (ct := CharType.char) .double (by decide) (opt := Client.rcppOptions) (input_of_bytes (by decide) (by decide))
    (by unfold NumSpec.Rules.PointOK NumSpec.IsDigit; decide) (by decide) (rcpp_ws _) (by decide) (by
      rintro ⟨before, t, after, v, h⟩
      have := (C84_trimmed Cfg.x64 (ct := CharType.char) .double (by decide) (s := [32, 35]) (opt := Client.rcppOptions) (input_of_bytes (by decide) (by decide))
        (by unfold NumSpec.Rules.PointOK NumSpec.IsDigit; decide) (by decide) (rcpp_ws _) (by decide) v).2 ⟨before, t, after, h⟩
      rw [show Client.rcppField Cfg.x64 CharType.char FloatTy.double.fmt [32, 35] Client.rcppOptions = .ok none by decide +kernel] at this
      cases this)
example := C85_validate_total (c := Cfg.x64) ⟨rfl, rfl⟩ sample_list_input [65535, 8] (d := 44) (by decide)
example := C85_sum (c := Cfg.x64) ⟨rfl, rfl⟩ sample_list_input 3 (d := 44) (by decide)
example := C85_round_trip (c := Cfg.x64) ⟨rfl, rfl⟩ (ct := CharType.char) (vs := [65535, 7]) (by decide) (by decide) (d := 44) (by decide)
  (input_of_bytes (by simp [Client.buildBuffer, Client.u8ToChars, Client.u8DigitsLoop]) (by simp [Client.buildBuffer, Client.u8ToChars, Client.u8DigitsLoop]))
example := C87_whole Cfg.x64 (ct := CharType.char) .double {} sample_input sample_point
example := C87_json_or_infnan (c := Cfg.x64) ⟨rfl, rfl⟩ .double sample_input
example := C87_general (c := Cfg.x64) ⟨rfl, rfl⟩ .double sample_input
example := C87_scientific (c := Cfg.x64) ⟨rfl, rfl⟩ .double sample_input
example := C87_fixed (c := Cfg.x64) ⟨rfl, rfl⟩ .double sample_input
example := C87_fortran (c := Cfg.x64) ⟨rfl, rfl⟩ .double sample_input
/-- The skeleton of the repository: its directives and nothing else, with the blank line at the top of fast_float.h. -/
theorem inst_headers : Script.HeadersAre (fun h => Script.joinLines (repoSkeleton.headerLines (fun h => if h = .api then [[]] else []) (fun _ => []) h)) repoSkeleton
    (fun h => if h = .api then [[]] else []) (fun _ => []) where
  text _ := rfl
  own := C88_repository repoSkeleton_repo
  lead := by intro h l hl; cases h <;> simp_all [PrepSpec.blank]
  close := by simp
/-- The sources with these headers. -/
def instSources : Script.Sources := { Script.sampleLinesSources with
  header := fun h => Script.joinLines (repoSkeleton.headerLines (fun h => if h = .api then [[]] else []) (fun _ => []) h) }
/-- The directory of the headers. -/
def instFiles (name : PrepSpec.Text) : Option PrepSpec.Text :=
  ([.cfd, .common, .api, .ascii, .table, .binary, .bigint, .digits, .parse].find? fun h => Script.Hdr.file h = name).map instSources.header
theorem instFiles_ok (h : Script.Hdr) : instFiles h.file = some (instSources.header h) := by cases h <;> rfl
example := C88_single_header (s := instSources) inst_headers .dual
example := C88_headers inst_headers instFiles instFiles_ok 6 (by decide)
example := C88_any_order inst_headers instFiles instFiles_ok 6 (by decide) [.bigint, .api] (by decide)
example := C88_again inst_headers instFiles instFiles_ok 6 (by decide) [.bigint, .api]
example := C88_mixed (s := instSources) inst_headers instFiles instFiles_ok 1 (by decide) .mit .dual [.bigint] (by decide)
/-- A compiler that only counts the lines does not see the order. -/
example := C88_same_meaning repoSkeleton (fun n _ => n + 1) (by intro s; simp; omega) (by intro s; simp; omega) 0
example := Script.C88_notices Script.sampleLines_of .triple
example := Script.C88_authors Script.sampleLines_of .mit (name := [65, 66]) (by decide)
example := Script.C88_not_offered Script.sampleLinesSources (a := .mit) (f := .boost) (by decide) [66]
example := Script.C88_apache_last_line Script.sampleLinesSources .apache (ls := List.replicate 200 [32]) (by unfold Script.Plain; intro l hl; rw [List.eq_of_mem_replicate hl]; decide)
  (l := [65]) (l' := [66]) (by decide) (by decide) (by rw [List.length_replicate]; decide)
example := C89_text Cfg.x64 true (fuel := 2 ^ 64 + 1) (x := 1234) le_rfl (by decide)
example := C89_any_source Cfg.x64 false (rng := fun x => (x % 2 ^ 64, x + 1)) (fun x => Nat.mod_lt _ (by norm_num)) 100 7
example := C89_short Cfg.x64 Cfg.x64 .double {} rfl (by decide) (by decide) (fuel := 2 ^ 64 + 1) (x := 1234) le_rfl (by decide)
example := C89_range Cfg.x64 (lo := -308) (hi := 308) (by decide) (by decide) (by decide) (by decide) (rng := fun x => (x % 2 ^ 64, x + 1)) (fun x => Nat.mod_lt _ (by norm_num)) 100 7
example := C89_first Cfg.x64 (lo := -308) (hi := 308) (by decide) (by decide) (by decide) (by decide) (rng := fun x => (x % 2 ^ 64, x + 1)) (fun x => Nat.mod_lt _ (by norm_num)) 100 7
example := Overload.C90_integer_times_pow10_wide Overload.linux Cfg.x64 (a := .int128) (by decide) (2 ^ 64 + 5) 3 .float binary32 rfl
example := Overload.C90_without_the_forwarders Overload.linux (b1 := 1) (b2 := 2) (a := .int) (by decide) (by decide) (by decide)
example := Overload.C90_formats Overload.linux .float16 binary16 rfl
example (f : CppSpec.Candidate Overload.Entry) : ¬ Overload.linux.Means [.int] (Overload.fromCharsCands Overload.linux { ty := .double } [.int]) f :=
  (Overload.C90_no_mixed_call Overload.linux { ty := .double } f).2 (by decide) .int (by decide)

end FastFloat
