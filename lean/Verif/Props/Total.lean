import Verif.Props.HalfExact
/-
# C55: the complete specification without any bound on the numeral

The code stops accumulating the digits of the exponent once the number read reaches `2^28`.  So the numeral it evaluates is `n.clip`.  With that the
complete specification holds for every text.
-/
set_option linter.unusedSimpArgs false
namespace FastFloat
open NumSpec FloatSpec ApiSpec

theorem digitsVal_clip (ds : List Nat) : ∀ a : Nat, (clipDigits a ds).foldl (fun x d => x * 10 + (d - 48)) a = satFold a ds := by
  induction ds with
  | nil => intro a; rfl
  | cons d ds ih =>
    intro a
    rw [satFold_cons]
    unfold clipDigits satStep
    by_cases h : a < 2 ^ 28
    · rw [if_pos h, if_pos (by omega)]
      rw [List.foldl_cons, show a * 10 + (d - 48) = 10 * a + (d - 48) by ring]
      exact ih _
    · rw [if_neg h, if_neg (by omega)]
      clear ih
      induction ds with
      | nil => rfl
      | cons d' ds ih' =>
        rw [satFold_cons]
        unfold satStep
        rw [if_neg (by omega)]
        exact ih'

theorem clip_expVal (n : Numeral) : n.clip.expVal = satExp n.exp := by
  unfold Numeral.clip Numeral.expVal satExp
  cases n.exp with
  | none => rfl
  | some e =>
    have h : digitsVal (clipDigits 0 e.digits) = satFold 0 e.digits := digitsVal_clip e.digits 0
    simp only [Option.map_some, Exponent.val, h]

theorem clip_value (n : Numeral) : n.clip.value = codeValue n := by
  unfold Numeral.value codeValue
  rw [clip_expVal]
  rfl

theorem ieee_total {c : Cfg} {ct : CharType} {T : FloatTy} (hT : T ≠ .float16) {s : List Nat} {opt : Options} (hin : Input ct s)
    (hp : (grammar c opt).PointOK) : NumberSpec c ct T s opt (fun n => IeeeNumber T.spec n.clip) := by
  refine ⟨fun n rest ec b hmu hr => ?_, fun n a b x y => ieee_unique T⟩
  have hs := munch_scan hp hmu
  obtain ⟨k, b', ec', h1, h2⟩ := scan_accepts (T := T) hin hp hs
  have := h1.result.symm.trans hr
  cases this
  rw [← clip_value] at h2
  exact codeOut_ieee hT (n := n.clip) h2

theorem half_total {c : Cfg} {ct : CharType} {s : List Nat} {opt : Options} (hin : Input ct s)
    (hp : (grammar c opt).PointOK) : NumberSpec c ct .float16 s opt (fun n => HalfNumber (Runtime c) n.clip) := by
  refine ⟨fun n rest ec b hmu hr => ?_, fun n a b x y h1 h2 => half_unique h1 h2⟩
  obtain ⟨k, hco, h5⟩ := half_call hin hp hmu hr
  rw [← clip_value] at hco
  rw [← clip_expVal] at h5
  exact half_core (m := n.clip) hco h5

/-- **C55**: the complete specification for `double`, `float` and `bfloat16_t` for every text, however long: the value of the numeral is computed with the
digits of the exponent cut off where the exponent reaches `2^28`. -/
theorem C55_total (c : Cfg) {ct : CharType} (T : FloatTy) (hT : T ≠ .float16) {s : List Nat} (opt : Options) (hin : Input ct s)
    (hp : (grammar c opt).PointOK) (r : ApiFloat) :
    fromCharsFloat c ct T.fmt s opt = .ok r ↔
      r.off ≤ s.length ∧
        FloatCall T.spec (fun n => IeeeNumber T.spec n.clip) (c.eff opt) opt.decimalPoint (textOf c opt s) (s.drop r.off) r.ec.code r.value :=
  complete_of hin hp (ieee_total hT hin hp) r

/-- **C55** for `float16_t`. -/
theorem C55_total_float16 (c : Cfg) {ct : CharType} {s : List Nat} (opt : Options) (hin : Input ct s) (hp : (grammar c opt).PointOK) (r : ApiFloat) :
    fromCharsFloat c ct binary16 s opt = .ok r ↔
      r.off ≤ s.length ∧
        FloatCall half (fun n => HalfNumber (Runtime c) n.clip) (c.eff opt) opt.decimalPoint (textOf c opt s) (s.drop r.off) r.ec.code r.value :=
  complete_of (T := .float16) hin hp (half_total hin hp) r

theorem clipDigits_short : ∀ (ds : List Nat) (a : Nat), (∀ d ∈ ds, IsDigit d) → (∀ k < ds.length, (a + 1) * 10 ^ k ≤ 2 ^ 28) → clipDigits a ds = ds := by
  intro ds
  induction ds with
  | nil => intro a _ _; rfl
  | cons d ds ih =>
    intro a hd h
    have h0 := h 0 (by simp)
    unfold clipDigits
    rw [if_pos (by omega), ih _ (fun x hx => hd x (by simp [hx]))]
    intro k hk
    have h1 := h (k + 1) (by simpa using hk)
    have h2 := hd d (by simp)
    unfold IsDigit at h2
    calc (10 * a + (d - 48) + 1) * 10 ^ k ≤ ((a + 1) * 10) * 10 ^ k := Nat.mul_le_mul_right _ (by omega)
      _ = (a + 1) * 10 ^ (k + 1) := by ring
      _ ≤ 2 ^ 28 := h1

/-- **C55**: an exponent of at most nine digits is never cut off. -/
theorem C55_nine_digit_exponent {g : Rules} {n : Numeral} (hn : n.WF g) (h : ∀ e, n.exp = some e → e.digits.length ≤ 9) : n.clip = n := by
  obtain ⟨sg, i, f, x⟩ := n
  cases x with
  | none => rfl
  | some e =>
    have h1 : clipDigits 0 e.digits = e.digits := by
      apply clipDigits_short
      · exact hn.2.2.2.2.1
      · intro k hk
        have := h e rfl
        calc (0 + 1) * 10 ^ k = 10 ^ k := by ring
          _ ≤ 10 ^ 8 := Nat.pow_le_pow_right (by norm_num) (by omega)
          _ ≤ 2 ^ 28 := by norm_num
    show (⟨sg, i, f, some { e with digits := clipDigits 0 e.digits }⟩ : Numeral) = _
    rw [h1]

/-- **C55**: nor does the cut change the value when the exponent is below `2^28` in magnitude (leading zeros included). -/
theorem C55_small_exponent {g : Rules} {n : Numeral} (hn : n.WF g) (h : |n.expVal| < 2 ^ 28) : n.clip.value = n.value := by
  have h1 : n.clip.expVal = n.expVal := by
    rw [clip_expVal]
    rw [abs_lt] at h
    rcases sat_cases hn with h1 | ⟨h1, h2⟩ | ⟨h1, h2⟩
    · exact h1
    · omega
    · omega
  unfold Numeral.value
  rw [h1]
  rfl

/-- The specification applied to the sample text. -/
example : FloatCall double (fun n => IeeeNumber double n.clip) 5 46 sampleText [120] .success (some (2 ^ 63 + 0x4340000000000001)) :=
  ((C55_total Cfg.x64 .double (by decide) {} sample_input sample_point ⟨31, .ok, some (2 ^ 63 + 0x4340000000000001)⟩).1 sample_accepts.result).2

example : FloatCall half (fun n => HalfNumber (Runtime Cfg.x64) n.clip) (Cfg.x64.eff {}) 46 halfOverText [] .success (some 31744) :=
  ((C55_total_float16 Cfg.x64 {} halfOver_input sample_point ⟨6, .ok, some 31744⟩).1 halfOver_accepts.result).2

/-- The exponent 99999999999 is read as 999999999. -/
example : (Numeral.clip ⟨none, [49], none, some ⟨some 101, none, List.replicate 11 57⟩⟩).expVal = 999999999 := by decide

end FastFloat
