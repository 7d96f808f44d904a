import Verif.Model.Format
import Verif.Props.FormatBits
import Verif.Props.Overloads
import Verif.Props.Total
/-
# C72: `if (result)` and the operators of `chars_format`
-/
set_option autoImplicit false
namespace FastFloat
open NumSpec FloatSpec ApiSpec IntSpec

/-- **C72**: the operators of `chars_format` act bit by bit on 64-bit words, and stay 64-bit words. -/
theorem C72_bitwise {f g : Nat} (hf : f < 2 ^ 64) (hg : g < 2 ^ 64) :
    (∀ i < 64, (fmtNot f).testBit i = !(f.testBit i)) ∧ (∀ i, (fmtAnd f g).testBit i = (f.testBit i && g.testBit i)) ∧
    (∀ i, (fmtOr f g).testBit i = (f.testBit i || g.testBit i)) ∧ (∀ i, (fmtXor f g).testBit i = (f.testBit i != g.testBit i)) ∧
    fmtNot f < 2 ^ 64 ∧ fmtAnd f g < 2 ^ 64 ∧ fmtOr f g < 2 ^ 64 ∧ fmtXor f g < 2 ^ 64 := by
  refine ⟨fun i hi => ?_, fun i => Nat.testBit_and f g i, fun i => Nat.testBit_or f g i, fun i => Nat.testBit_xor f g i, ?_, ?_, ?_, ?_⟩
  · unfold fmtNot fmtBits
    rw [Nat.testBit_xor, Nat.testBit_two_pow_sub_one]
    simp [hi]
  · exact Nat.xor_lt_two_pow (by unfold fmtBits; omega) hf
  · exact Nat.and_lt_two_pow f hg
  · exact Nat.or_lt_two_pow hf hg
  · exact Nat.xor_lt_two_pow hf hg

/-- **C72**: the assigning operators leave in the left operand what the plain operator gives. -/
theorem C72_assign (f g : Nat) : fmtAndAssign f g = f &&& g ∧ fmtOrAssign f g = f ||| g ∧ fmtXorAssign f g = f ^^^ g := ⟨rfl, rfl, rfl⟩

/-- **C72**: a double complement, De Morgan, and toggling twice give the operand back: combinations can be rewritten as with booleans. -/
theorem C72_laws {f g : Nat} (hf : f < 2 ^ 64) (hg : g < 2 ^ 64) :
    fmtNot (fmtNot f) = f ∧ fmtNot (fmtAnd f g) = fmtOr (fmtNot f) (fmtNot g) ∧ fmtNot (fmtOr f g) = fmtAnd (fmtNot f) (fmtNot g) ∧
    fmtXor (fmtXor f g) g = f ∧ fmtAnd (fmtOr f g) (fmtNot g) = fmtAnd f (fmtNot g) := by
  have big : ∀ {x : Nat} {i : Nat}, x < 2 ^ 64 → ¬ i < 64 → x.testBit i = false := fun hx hi =>
    Nat.testBit_lt_two_pow (lt_of_lt_of_le hx (Nat.pow_le_pow_right (by norm_num) (by omega)))
  have nt : ∀ (x i : Nat), (fmtNot x).testBit i = (decide (i < 64) != x.testBit i) := fun x i => by
    unfold fmtNot fmtBits
    rw [Nat.testBit_xor, Nat.testBit_two_pow_sub_one]
  refine ⟨?_, ?_, ?_, ?_, ?_⟩ <;> apply Nat.eq_of_testBit_eq <;> intro i <;>
    simp only [nt, fmtAnd, fmtOr, fmtXor, Nat.testBit_and, Nat.testBit_or, Nat.testBit_xor] <;>
    by_cases hi : i < 64 <;>
    first
    | simp only [hi, decide_true]; cases f.testBit i <;> cases g.testBit i <;> rfl
    | simp only [hi, decide_false, big hf hi, big hg hi]; rfl
    | (cases f.testBit i <;> cases g.testBit i <;> rfl)

/-- **C72**, what the idioms `fmt | flag`, `fmt & ~flag` and `fmt ^ flag` do to a call: they set, clear and toggle this one flag, and change no other flag. -/
theorem C72_flag_idioms {f : Nat} (hf : f < 2 ^ 64) {k : Nat} (hk : k < 64) :
    (∀ j < 64, Fmt.has (fmtOr f (2 ^ k)) (2 ^ j) = (Fmt.has f (2 ^ j) || decide (k = j))) ∧
    (∀ j < 64, Fmt.has (fmtAnd f (fmtNot (2 ^ k))) (2 ^ j) = (Fmt.has f (2 ^ j) && !decide (k = j))) ∧
    (∀ j < 64, Fmt.has (fmtXor f (2 ^ k)) (2 ^ j) = (Fmt.has f (2 ^ j) != decide (k = j))) := by
  have hk' : 2 ^ k < 2 ^ 64 := Nat.pow_lt_pow_right (by norm_num) hk
  obtain ⟨_, _, h3, h4, _⟩ := C72_bitwise hf hk'
  obtain ⟨h1, _⟩ := C72_bitwise hk' hf
  refine ⟨fun j hj => ?_, fun j hj => ?_, fun j hj => ?_⟩
  · rw [has_pow, has_pow, h3, Nat.testBit_two_pow]
  · rw [has_pow, has_pow]
    unfold fmtAnd
    rw [Nat.testBit_and, h1 j hj, Nat.testBit_two_pow]
  · rw [has_pow, has_pow, h4, Nat.testBit_two_pow]

/-- **C72**: the named formats and the operators: `json & ~no_infnan` is `json_or_infnan`, and so on. -/
theorem C72_named : fmtAnd Fmt.json (fmtNot Fmt.noInfnan) = Fmt.jsonOrInfnan ∧ fmtOr Fmt.jsonOrInfnan Fmt.noInfnan = Fmt.json ∧
    fmtOr Fmt.fixed Fmt.scientific = Fmt.general ∧ fmtAnd Fmt.json Fmt.general = Fmt.general ∧ fmtAnd Fmt.fortran Fmt.general = Fmt.general ∧
    fmtXor Fmt.general Fmt.scientific = Fmt.fixed ∧ fmtAnd Fmt.general (fmtNot Fmt.fixed) = Fmt.scientific := by decide

/-- **C72**, its effect on calls: clearing `no_infnan` in `json` gives the calls of `json_or_infnan`, for every text and type. -/
theorem C72_json_call (c : Cfg) (ct : CharType) (T : FloatTy) (s : List Nat) :
    fromChars c ct T.fmt s (fmtAnd Fmt.json (fmtNot Fmt.noInfnan)) = fromChars c ct T.fmt s Fmt.jsonOrInfnan := by
  rw [C72_named.1]

theorem rounds_small {T : FloatTy} {x : ℚ} {b : Nat} (h : T.spec.RoundsTo x b) (h0 : 0 < x) (h1 : x ≤ T.spec.val 1 / 2) : b = 0 := by
  rcases h with ⟨a, _⟩ | ⟨_, h2, h3⟩
  · have := val_one_lt_threshold T
    exact absurd (lt_of_le_of_lt a (lt_of_le_of_lt h1 this)) (lt_irrefl _)
  · by_contra hb
    have hv0 : T.spec.val 0 = 0 := by rw [val_eq T.fmatch]; simp [fpVal]
    have hb1 : T.spec.val 1 ≤ T.spec.val b := by
      rcases Nat.lt_or_eq_of_le (show 1 ≤ b by omega) with h | h
      · exact le_of_lt (sval_lt T h)
      · rw [h]
    have hpos : |x - T.spec.val b| = T.spec.val b - x := by
      rw [abs_sub_comm]; exact abs_of_nonneg (by linarith)
    have hx : |x - T.spec.val 0| = x := by rw [hv0, sub_zero]; exact abs_of_pos h0
    rcases h3 0 (by omega) (fun h => hb h.symm) with u | ⟨u, u'⟩
    · rw [hpos, hx] at u; linarith
    · rw [hpos, hx] at u
      have : 1 < b := by omega
      have := sval_lt T this
      linarith

theorem munch_consumes {g : Rules} {t : List Nat} {n : Numeral} {rest : List Nat} (h : Munch g t n rest) : rest.length < t.length := by
  have hd : n.digits ≠ [] := by
    have h3 := h.wf.2.2.1
    split at h3
    · intro hc
      unfold Numeral.digits at hc
      exact h3.1 (List.append_eq_nil_iff.1 hc).1
    · exact h3
  rw [h.text, List.length_append]
  have : 0 < (n.text g.point).length := by
    unfold Numeral.text
    simp only [List.length_append]
    by_contra hc
    apply hd
    unfold Numeral.digits
    have h1 : n.int = [] := List.length_eq_zero_iff.1 (by omega)
    rw [h1]
    cases hf : n.frac with
    | none => rfl
    | some ds => rw [hf] at hc; simp [Numeral.fracText] at hc
  omega

theorem startsWith_consumes {w t r : List Nat} (h : StartsWith w t r) (hw : w ≠ []) : r.length < t.length := by
  obtain ⟨v, rfl, h2⟩ := h
  rw [List.length_append]
  have : v ≠ [] := by rintro rfl; exact hw h2.symm
  have := List.length_pos_iff.2 this
  omega

theorem signed_length {plus : Bool} {s : List Nat} {neg : Bool} {t : List Nat} (h : Signed plus s neg t) : t.length ≤ s.length := by
  rcases h with ⟨_, rfl⟩ | ⟨_, rfl⟩ | ⟨_, _, rfl⟩ <;> simp

theorem infText_consumes {plus : Bool} {t rest : List Nat} {neg : Bool} (h : InfText plus t neg rest) : rest.length < t.length := by
  obtain ⟨u, r, h1, h2, h3⟩ := h
  have := signed_length h1
  have := startsWith_consumes h2 (by decide)
  rcases h3 with h3 | ⟨_, rfl⟩
  · have := startsWith_consumes h3 (by decide); omega
  · omega

theorem nanText_consumes {plus : Bool} {t rest : List Nat} {neg : Bool} (h : NanText plus t neg rest) : rest.length < t.length := by
  obtain ⟨u, r, h1, h2, h3⟩ := h
  have := signed_length h1
  have := startsWith_consumes h2 (by decide)
  rcases h3 with ⟨q, _, rfl⟩ | ⟨_, rfl⟩
  · simp only [List.length_cons, List.length_append] at this; omega
  · omega

theorem body_le (fmt : Nat) (s : List Nat) : (body fmt s).length ≤ s.length := by
  unfold body
  split
  · exact List.length_dropWhile_le _ _
  · exact le_refl _

theorem if_result {T : FloatTy} {number : Numeral → Code → Nat → Prop}
    (hn : ∀ n code bits, number n code bits → code = .success ∨ (code = .range ∧ ∃ neg : Bool, bits = (if neg then T.spec.signBit else 0) ∨
      bits = (if neg then T.spec.signBit else 0) + T.spec.inf))
    {fmt point : Nat} {s : List Nat} {r : ApiFloat} (hc : FloatCall T.spec number fmt point (body fmt s) (s.drop r.off) r.ec.code r.value) :
    (r.toBool = true → 0 < r.off ∧ ∃ v, r.value = some v) ∧
    (r.toBool = false → (r.ec = .invalidArgument ∧ r.value = none ∧ s.drop r.off = body fmt s) ∨
      (r.ec = .outOfRange ∧ 0 < r.off ∧ ∃ neg : Bool, r.value = some (if neg then T.spec.signBit else 0) ∨
        r.value = some ((if neg then T.spec.signBit else 0) + T.spec.inf))) := by
  have hpos : (s.drop r.off).length < (body fmt s).length → 0 < r.off := fun hl => by
    have := body_le fmt s
    rw [List.length_drop] at hl
    omega
  have htb : r.toBool = true ↔ r.ec.code = .success := by
    unfold ApiFloat.toBool Errc.toBool
    cases r.ec <;> simp [Errc.code]
  have htb' : r.toBool = false ↔ ¬ r.ec.code = .success := by rw [← htb]; simp
  generalize hco : r.ec.code = code at hc htb htb'
  generalize hv : r.value = v at hc ⊢
  generalize hd : s.drop r.off = d at hc hpos ⊢
  rw [htb, htb']
  cases hc with
  | number text result =>
    have hl := hpos (munch_consumes text)
    refine ⟨fun _ => ⟨hl, _, rfl⟩, fun hs => Or.inr ?_⟩
    rcases hn _ _ _ result with e | ⟨e, neg, h⟩
    · exact absurd e hs
    · refine ⟨by revert hco; rw [e]; cases r.ec <;> simp [Errc.code], hl, neg, ?_⟩
      rcases h with h | h
      · exact Or.inl (by rw [h])
      · exact Or.inr (by rw [h])
  | infinity a text => exact ⟨fun _ => ⟨hpos (infText_consumes text), _, rfl⟩, fun hn => absurd rfl hn⟩
  | nan a text => exact ⟨fun _ => ⟨hpos (nanText_consumes text), _, rfl⟩, fun hn => absurd rfl hn⟩
  | invalid a b =>
    refine ⟨fun hn => (by cases hn), fun _ => Or.inl ⟨?_, rfl, rfl⟩⟩
    revert hco; cases r.ec <;> simp [Errc.code]

/-- **C72**: `if (from_chars(...))` for a floating-point type (`float16_t` included).  If the result is true, characters were consumed and a value was stored.
If it is false, either the text is no number, nothing is stored and the pointer is at the start of the text, or the number is out of range and a zero or an
infinity is stored. -/
theorem C72_if_result (c : Cfg) {ct : CharType} (T : FloatTy) {s : List Nat} (opt : Options) (hin : Input ct s)
    (hp : (grammar c opt).PointOK) {r : ApiFloat} (h : fromCharsFloat c ct T.fmt s opt = .ok r) :
    (r.toBool = true → 0 < r.off ∧ ∃ v, r.value = some v) ∧
    (r.toBool = false → (r.ec = .invalidArgument ∧ r.value = none ∧ s.drop r.off = textOf c opt s) ∨
      (r.ec = .outOfRange ∧ 0 < r.off ∧ ∃ neg : Bool, r.value = some (if neg then T.spec.signBit else 0) ∨
        r.value = some ((if neg then T.spec.signBit else 0) + T.spec.inf))) := by
  by_cases hT : T = .float16
  · subst hT
    obtain ⟨hoff, hc⟩ := (C55_total_float16 c opt hin hp r).1 h
    refine if_result (T := .float16) (fun n code bits hn => ?_) hc
    rcases hn.error with e | e
    · right
      refine ⟨e, n.clip.neg, ?_⟩
      have hex : ¬ HalfException 16 n.clip.value := by
        rintro ⟨j, _, i2, i3⟩
        have hj : ((j : ℕ) : ℚ) ≤ 16 := by exact_mod_cast i2
        have hj0 : (0 : ℚ) ≤ (j : ℚ) := by positivity
        rcases hn.range.1 e with ⟨_, a⟩ | ⟨a, _⟩
        · rw [i3, div_lt_div_iff_of_pos_right (by norm_num)] at a; linarith
        · rw [i3, le_div_iff₀ (by norm_num)] at a
          norm_num at a
          linarith
      obtain ⟨b, h1, h2⟩ := hn.rounded hex
      rcases hn.range.1 e with ⟨a, a'⟩ | ⟨a, _⟩
      · left
        have hb := rounds_small (T := .float16) h1 a (by
          have h3 : FloatTy.float16.spec.val 1 / 2 = 1 / 2 ^ 25 := by
            rw [val_one, show ulpExp FloatTy.float16.fmt = 24 by decide]; norm_num
          rw [h3]; exact le_of_lt a')
        rw [h2, hb]; rfl
      · right
        have hth : half.overflowThreshold = 65520 := by norm_num [Format.overflowThreshold, half, Format.bias]
        rw [h2, (roundsTo_inf h1).2 (by rw [hth]; exact a)]; rfl
    · exact Or.inl e
  · obtain ⟨hoff, hc⟩ := (C55_total c T hT opt hin hp r).1 h
    refine if_result (fun n code bits hn => ?_) hc
    rcases hn.error with ⟨e, ho⟩ | ⟨e, _⟩
    · right
      obtain ⟨b, h1, h2⟩ := hn.rounded
      refine ⟨e, n.clip.neg, ?_⟩
      rcases ho with ho | ⟨h0, ho⟩
      · exact Or.inr (by rw [h2, (roundsTo_inf h1).2 ho])
      · exact Or.inl (by rw [h2, rounds_small h1 h0 ho]; rfl)
    · exact Or.inl e

/-- **C72**: `if (from_chars(...))` for an integer type: true exactly when a value is stored; then characters were consumed. -/
theorem C72_if_result_int (c : Cfg) {ct : CharType} {T : IntType} (hT : T.WF) {s : List Nat} (opt : Options) (hin : Input ct s) {r : ApiInt}
    (h : fromCharsIntApi c ct T s opt = .ok r) : (r.toBool = true ↔ ∃ v, r.value = some v) ∧ (r.toBool = true → 0 < r.off) := by
  obtain ⟨h1, h2⟩ := C31_error_leaves_value c hT opt hin h
  have htb : r.toBool = true ↔ r.ec = .ok := by
    unfold ApiInt.toBool Errc.toBool
    cases r.ec <;> simp
  rw [htb]
  refine ⟨⟨fun he => ?_, fun ⟨v, hv⟩ => ?_⟩, fun he => ?_⟩
  · obtain ⟨v, hv, _⟩ := h2 he; exact ⟨v, hv⟩
  · by_contra hn
    rw [h1 hn] at hv; cases hv
  · obtain ⟨hoff, hc⟩ := (C53_actual_int c hT opt hin r).1 h
    have hl : (s.drop r.off).length < (textOf c opt s).length := by
      have hco : r.ec.code = .success := by rw [he]; rfl
      rw [hco] at hc
      generalize s.drop r.off = d at hc ⊢
      cases hc with
      | number hr _ =>
        have e := signed_length hr.literal.text
        have := List.length_pos_iff.2 hr.literal.nonempty
        rw [List.length_append] at e
        omega
    have := body_le (c.eff opt) s
    rw [List.length_drop] at hl
    unfold textOf at hl
    omega

/-! ### Concrete cases -/

example : (∀ i < 64, (fmtNot 16).testBit i = !((16 : Nat).testBit i)) ∧ fmtAnd 53 (fmtNot 16) = 37 := ⟨(C72_bitwise (f := 16) (g := 16) (by decide) (by decide)).1, by decide⟩

/-- `1e999` is false with an infinity, `x` is false with nothing, `1` is true. -/
example : (∀ r, fromCharsFloat Cfg.x64 CharType.char FloatTy.double.fmt [49, 101, 57, 57, 57] {} = .ok r → r.toBool = false ∧ r.ec = .outOfRange ∧ 0 < r.off) ∧
    (∀ r, fromCharsFloat Cfg.x64 CharType.char FloatTy.double.fmt [49] {} = .ok r → r.toBool = true ∧ 0 < r.off) := by
  have h1 : fromCharsFloat Cfg.x64 CharType.char FloatTy.double.fmt [49, 101, 57, 57, 57] {} = .ok ⟨5, .outOfRange, some 0x7FF0000000000000⟩ := by decide +kernel
  have h2 : fromCharsFloat Cfg.x64 CharType.char FloatTy.double.fmt [49] {} = .ok ⟨1, .ok, some 0x3FF0000000000000⟩ := by decide +kernel
  refine ⟨fun r hr => ?_, fun r hr => ?_⟩
  · rw [h1] at hr; cases hr
    rcases (C72_if_result Cfg.x64 .double {} (input_of_bytes (by decide) (by decide)) sample_point h1).2 rfl with ⟨h, _⟩ | ⟨h, h', _⟩
    · cases h
    · exact ⟨rfl, h, h'⟩
  · rw [h2] at hr; cases hr
    exact ⟨rfl, ((C72_if_result Cfg.x64 .double {} (input_of_bytes (by decide) (by decide)) sample_point h2).1 rfl).1⟩

example : ∀ r, fromCharsIntApi Cfg.x64 CharType.char int32 [55] {} = .ok r → r.toBool = true ∧ 0 < r.off := by
  intro r hr
  have h2 : fromCharsIntApi Cfg.x64 CharType.char int32 [55] {} = .ok ⟨1, .ok, some 7⟩ := by decide +kernel
  rw [h2] at hr; cases hr
  exact ⟨rfl, (C72_if_result_int Cfg.x64 (by decide) {} (input_of_bytes (by decide) (by decide)) h2).2 rfl⟩

end FastFloat
