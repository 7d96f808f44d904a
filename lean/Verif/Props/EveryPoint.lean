import Verif.Props.Lookahead
import Verif.Props.Reparse
import Verif.Props.Lists
/-
# C14, C19, C20, C21, C23, C35 - C38, C44, C56 for every decimal point

The theorems of these properties in the other files assume that the decimal point of the options is not a digit (or not a part of numerals at all).  The complete
specification for every options value (C74) makes that hypothesis unnecessary.
-/
set_option linter.unusedSimpArgs false
set_option autoImplicit false
namespace FastFloat
open NumSpec FloatSpec ApiSpec

theorem code_inj {a b : Errc} (h : a.code = b.code) : a = b := by cases a <;> cases b <;> first | rfl | cases h

/-- What `std::float16_t` gets for a numeral, for any point. -/
def HalfAny (runtime : Prop) (point : Nat) (n : Numeral) (code : Code) (b : Nat) : Prop :=
  (¬ Miscounted point n → HalfNumber runtime n.clip code b) ∧
  (Miscounted point n → HalfScaled runtime n.neg (digitsVal n.digits % 2 ^ 64) (n.clip.expVal - ((n.frac.getD []).length : Int)) code b)

/-- What a call that reads `n` stores and reports. -/
def NumberAny (c : Cfg) (T : FloatTy) (point : Nat) (n : Numeral) (code : Code) (b : Nat) : Prop :=
  (T ≠ .float16 → IeeeValue T.spec n.neg (valueRead point n) code b) ∧ (T = .float16 → HalfAny (Runtime c) point n code b)

theorem call_any (c : Cfg) {ct : CharType} (T : FloatTy) {s : List Nat} (opt : Options) (hin : Input ct s) (r : ApiFloat) :
    fromCharsFloat c ct T.fmt s opt = .ok r ↔ r.off ≤ s.length ∧
      AnyPointCall T.spec (NumberAny c T opt.decimalPoint) (c.eff opt) opt.decimalPoint (textOf c opt s) (s.drop r.off) r.ec.code r.value := by
  by_cases hT : T = .float16
  · subst hT
    have h := C74_every_option_float16 c opt hin r
    have e : NumberAny c .float16 opt.decimalPoint = HalfAny (Runtime c) opt.decimalPoint := by
      funext n code b
      exact propext ⟨fun h => h.2 rfl, fun h => ⟨fun h' => absurd rfl h', fun _ => h⟩⟩
    rw [e]
    exact h
  · have h := C74_every_option c T hT opt hin r
    have e : NumberAny c T opt.decimalPoint = fun n => IeeeValue T.spec n.neg (valueRead opt.decimalPoint n) := by
      funext n code b
      exact propext ⟨fun h => h.1 hT, fun h => ⟨fun _ => h, fun h' => absurd h' hT⟩⟩
    rw [e]
    exact h

theorem any_defined (c : Cfg) {ct : CharType} (T : FloatTy) {s : List Nat} (opt : Options) (hin : Input ct s) :
    ∃ r, fromCharsFloat c ct T.fmt s opt = .ok r := by
  obtain ⟨r, h, _⟩ := C24_float_defined c hin.wf T opt hin.ok hin.len
  exact ⟨r, h⟩

/-! ### C14 -/

/-- **C14** for every options value: on `invalid_argument` nothing is stored and the pointer is where the text starts; otherwise something is stored. -/
theorem C14_any_point (c : Cfg) {ct : CharType} (T : FloatTy) {s : List Nat} (opt : Options) (hin : Input ct s) {r : ApiFloat}
    (h : fromCharsFloat c ct T.fmt s opt = .ok r) :
    (r.ec = .invalidArgument → r.value = none ∧ s.drop r.off = textOf c opt s) ∧ (r.ec ≠ .invalidArgument → ∃ b, r.value = some b) := by
  obtain ⟨_, h⟩ := (call_any c T opt hin r).1 h
  obtain ⟨off, ec, value⟩ := r
  dsimp only at h ⊢
  generalize hr : s.drop off = rest at h ⊢
  generalize hc : ec.code = code at h
  cases h with
  | @number n _ _ b text result =>
    refine ⟨fun he => ?_, fun _ => ⟨b, rfl⟩⟩
    exfalso
    rw [he] at hc
    change Code.invalid = code at hc
    subst hc
    by_cases hT : T = .float16
    · by_cases hm : Miscounted opt.decimalPoint n
      · rcases ((result.2 hT).2 hm).error with h | h <;> cases h
      · rcases ((result.2 hT).1 hm).error with h | h <;> cases h
    · rcases (result.1 hT).error with h | h <;> cases h.1
  | infinity _ _ => exact ⟨fun he => (by rw [he] at hc; cases hc), fun _ => ⟨_, rfl⟩⟩
  | nan _ _ => exact ⟨fun he => (by rw [he] at hc; cases hc), fun _ => ⟨_, rfl⟩⟩
  | invalid _ _ => exact ⟨fun _ => ⟨rfl, rfl⟩, fun he => absurd (code_inj (b := .invalidArgument) hc) he⟩

/-! ### C35 - C38 -/

theorem any_transport {c c' : Cfg} {ct ct' : CharType} {T : FloatTy} {s : List Nat} {opt opt' : Options} (hin : Input ct s) (hin' : Input ct' s)
    (he : c.eff opt = c'.eff opt') (hp : opt.decimalPoint = opt'.decimalPoint) (hT : T = .float16 → (Runtime c ↔ Runtime c')) :
    fromCharsFloat c ct T.fmt s opt = fromCharsFloat c' ct' T.fmt s opt' := by
  obtain ⟨r, h⟩ := any_defined c T opt hin
  rw [h, eq_comm, call_any c' T opt' hin' r]
  have h := (call_any c T opt hin r).1 h
  have ht : textOf c opt s = textOf c' opt' s := by unfold textOf; rw [he]
  have e : NumberAny c T opt.decimalPoint = NumberAny c' T opt'.decimalPoint := by
    rw [hp]
    funext n code b
    unfold NumberAny
    by_cases h16 : T = .float16
    · rw [propext (hT h16)]
    · exact propext ⟨fun h => ⟨h.1, fun h' => absurd h' h16⟩, fun h => ⟨h.1, fun h' => absurd h' h16⟩⟩
  rwa [ht, he, e, hp] at h

/-- **C35** for every options value. -/
theorem C35_any_point {c c' : Cfg} (hm : SameMacros c c') {ct : CharType} (T : FloatTy) (hT : T ≠ .float16) {s : List Nat} (opt : Options)
    (hin : Input ct s) : fromCharsFloat c ct T.fmt s opt = fromCharsFloat c' ct T.fmt s opt :=
  any_transport hin hin (hm.eff opt) rfl (fun h => absurd h hT)

/-- **C35** for `float16_t`, every options value: configurations that agree on being at run time in the default mode give the same result. -/
theorem C35_any_point_float16 {c c' : Cfg} (hm : SameMacros c c') (hr : Runtime c ↔ Runtime c') {ct : CharType} {s : List Nat} (opt : Options)
    (hin : Input ct s) : fromCharsFloat c ct binary16 s opt = fromCharsFloat c' ct binary16 s opt :=
  any_transport (T := .float16) hin hin (hm.eff opt) rfl (fun _ => hr)

/-- **C36** for every options value and type. -/
theorem C36_any_point (c : Cfg) {ct ct' : CharType} (T : FloatTy) {s : List Nat} (opt : Options) (hin : Input ct s) (hin' : Input ct' s) :
    fromCharsFloat c ct T.fmt s opt = fromCharsFloat c ct' T.fmt s opt :=
  any_transport hin hin' rfl rfl (fun _ => Iff.rfl)

/-- **C38** for every options value and type. -/
theorem C38_any_point (c : Cfg) {ct : CharType} (T : FloatTy) {s : List Nat} (opt : Options) (hin : Input ct s) :
    fromCharsFloat c ct T.fmt s opt = fromCharsFloat { c with plusMacro := false, wsMacro := false } ct T.fmt s
      { opt with format := opt.format ||| ((if c.plusMacro then 128 else 0) ||| (if c.wsMacro then 256 else 0)) } :=
  any_transport hin hin (eff_macros c opt) rfl (fun _ => Iff.rfl)

/-! ### C56 -/

theorem greedy_prefix {g : Rules} {s : List Nat} {n : Numeral} {rest : List Nat} (h : Greedy g s n rest) : Greedy g (n.text g.point) n [] := by
  have hhead : ∀ (p : List Nat) (u : Nat) (t : List Nat), p ++ [] = u :: t → p ++ rest = u :: (t ++ rest) := by
    intro p u t hp
    rw [List.append_nil] at hp
    rw [hp]; rfl
  refine ⟨h.wf, by simp, ?_, ?_, ?_, ?_, ?_, ?_, ?_⟩
  · intro hs t
    have h1 := h.sign hs
    rw [h.text] at h1
    refine ⟨fun h2 => (h1 (t ++ rest)).1 (by rw [h2]; rfl), fun h3 h4 h2 => (h1 (t ++ rest)).2 h3 h4 (by rw [h2]; rfl)⟩
  · intro u t h1; exact h.int u _ (hhead _ _ _ h1)
  · intro hf t h1; exact h.point hf _ (hhead _ _ _ h1)
  · intro u t h1; exact h.frac u _ (hhead _ _ _ h1)
  · rintro _ ⟨e, q, h1, h2⟩
    have := congrArg List.length h2
    simp only [List.length_nil, List.length_append, Exponent.text] at this
    have h3 : e.digits = [] := by rw [← List.length_eq_zero_iff]; omega
    exact h1.1 h3
  · intro u t h1; cases h1
  · intro _ _ _ u t h1; cases h1

theorem infText_prefix {plus neg : Bool} {t rest : List Nat} (h : InfText plus t neg rest) : ∃ p, t = p ++ rest ∧ p ≠ [] ∧ InfText plus p neg [] := by
  obtain ⟨t', r, h1, ⟨w, rfl, h2⟩, h3⟩ := h
  have hw : w ≠ [] := by rintro rfl; cases h2
  rcases h3 with ⟨x, rfl, h4⟩ | ⟨h4, rfl⟩
  · obtain ⟨p, p1, p2, p3⟩ := signed_prefix (v := w ++ x) (rest := rest) h1 (by simp)
    exact ⟨p, p1, p3 (by simp [hw]), _, _, p2, ⟨w, rfl, h2⟩, Or.inl ⟨x, by simp, h4⟩⟩
  · obtain ⟨p, p1, p2, p3⟩ := signed_prefix (v := w) (rest := rest) h1 rfl
    refine ⟨p, p1, p3 hw, _, [], p2, ⟨w, by simp, h2⟩, Or.inr ⟨?_, rfl⟩⟩
    rintro ⟨q, x, h5, h6⟩
    have : x = [] := (List.append_eq_nil_iff.1 h5.symm).1
    rw [this] at h6; cases h6

theorem nanText_prefix {plus neg : Bool} {t rest : List Nat} (h : NanText plus t neg rest) : ∃ p, t = p ++ rest ∧ p ≠ [] ∧ NanText plus p neg [] := by
  obtain ⟨t', r, h1, ⟨w, rfl, h2⟩, h3⟩ := h
  have hw : w ≠ [] := by rintro rfl; cases h2
  rcases h3 with ⟨x, h4, rfl⟩ | ⟨h4, rfl⟩
  · obtain ⟨p, p1, p2, p3⟩ := signed_prefix (v := w ++ 40 :: (x ++ [41])) (rest := rest) h1 (by simp)
    exact ⟨p, p1, p3 (by simp), _, _, p2, ⟨w, rfl, h2⟩, Or.inl ⟨x, h4, rfl⟩⟩
  · obtain ⟨p, p1, p2, p3⟩ := signed_prefix (v := w) (rest := rest) h1 rfl
    refine ⟨p, p1, p3 hw, _, [], p2, ⟨w, by simp, h2⟩, Or.inr ⟨?_, rfl⟩⟩
    rintro ⟨q, x, _, h6⟩
    cases h6

theorem anyCall_prefix {f : Format} {number : Numeral → Code → Nat → Prop} {fmt point : Nat} {t rest : List Nat} {code : Code} {v : Option Nat}
    (h : AnyPointCall f number fmt point t rest code v) (hc : code ≠ .invalid) :
    ∃ p, t = p ++ rest ∧ p ≠ [] ∧ AnyPointCall f number fmt point p [] code v := by
  cases h with
  | number text result => exact ⟨_, text.text, greedy_text_ne_nil text.wf, .number (greedy_prefix text) result⟩
  | infinity allowed text =>
    obtain ⟨p, h1, h2, h3⟩ := infText_prefix text
    exact ⟨p, h1, h2, .infinity allowed h3⟩
  | nan allowed text =>
    obtain ⟨p, h1, h2, h3⟩ := nanText_prefix text
    exact ⟨p, h1, h2, .nan allowed h3⟩
  | invalid _ _ => exact absurd rfl hc

/-- **C56** for every options value. -/
theorem C56_any_point (c : Cfg) {ct : CharType} (T : FloatTy) {s : List Nat} (opt : Options) (hin : Input ct s) {r : ApiFloat}
    (h : fromCharsFloat c ct T.fmt s opt = .ok r) (hr : r.ec ≠ .invalidArgument) :
    fromCharsFloat c ct T.fmt (s.take r.off) opt = .ok r := by
  obtain ⟨h1, h2⟩ := (call_any c T opt hin r).1 h
  have hc : r.ec.code ≠ .invalid := by revert hr; cases r.ec <;> simp [Errc.code]
  obtain ⟨p, p1, p2, p3⟩ := anyCall_prefix h2 hc
  have hoff : s.length - (s.drop r.off).length = r.off := by rw [List.length_drop]; omega
  obtain ⟨_, e2⟩ := textOf_prefix p1 p2
  rw [hoff] at e2
  have hl : (s.take r.off).length = r.off := by rw [List.length_take]; omega
  refine (call_any c T opt (input_take hin _) r).2 ⟨by omega, ?_⟩
  rw [e2, List.drop_eq_nil_of_le (by omega)]
  exact p3

/-! ### C19 - C21, C44 -/

/-- **C19** for every options value: with `skip_white_space`, leading blanks only move the pointer. -/
theorem C19_any_point (c : Cfg) {ct : CharType} (T : FloatTy) {s ws : List Nat} (opt : Options) (hin : Input ct (ws ++ s))
    (hf : wsFlag (c.eff opt) = true) (hb : ∀ u ∈ ws, ApiSpec.isSpace u = true)
    {r : ApiFloat} (h : fromCharsFloat c ct T.fmt s opt = .ok r) :
    fromCharsFloat c ct T.fmt (ws ++ s) opt = .ok ⟨ws.length + r.off, r.ec, r.value⟩ := by
  have hs : Input ct s := ⟨hin.wf, fun u hu => hin.units u (by simp [hu]), by have := hin.len; rw [List.length_append] at this; omega⟩
  obtain ⟨h1, h2⟩ := (call_any c T opt hs r).1 h
  refine (call_any c T opt hin _).2 ⟨by simp; omega, ?_⟩
  have ht : textOf c opt (ws ++ s) = textOf c opt s := by
    unfold textOf body
    simp only [hf, if_true]
    exact List.dropWhile_append_of_pos hb
  rw [ht]
  show AnyPointCall _ _ _ _ _ ((ws ++ s).drop (ws.length + r.off)) _ _
  rw [List.drop_length_add_append]
  exact h2

/-- A reading that the specification allows is the one of the call. -/
theorem any_return {c : Cfg} {ct : CharType} {T : FloatTy} {s : List Nat} {opt : Options} (hin : Input ct s) {rest : List Nat} {ec : Errc} {v : Option Nat}
    (h : AnyPointCall T.spec (NumberAny c T opt.decimalPoint) (c.eff opt) opt.decimalPoint (textOf c opt s) rest ec.code v) :
    fromCharsFloat c ct T.fmt s opt = .ok ⟨s.length - rest.length, ec, v⟩ ∧ s.drop (s.length - rest.length) = rest := by
  have hsuf : ∃ p, textOf c opt s = p ++ rest := by
    have h' := h
    generalize ec.code = code at h'
    cases h' with
    | number text _ => exact ⟨_, text.text⟩
    | infinity _ text => exact infText_suffix text
    | nan _ text => exact nanText_suffix text
    | invalid _ _ => exact ⟨[], rfl⟩
  obtain ⟨p, hp⟩ := hsuf
  obtain ⟨ws, w1, _⟩ := textOf_suffix c opt s
  rw [hp, ← List.append_assoc] at w1
  have hd : s.drop (s.length - rest.length) = rest := by
    have : s.length - rest.length = (ws ++ p).length := by rw [w1]; simp; omega
    rw [this]
    conv_lhs => rw [w1, List.drop_left]
  refine ⟨(call_any c T opt hin _).2 ⟨by simp, ?_⟩, hd⟩
  show AnyPointCall _ _ _ _ _ (s.drop (s.length - rest.length)) _ _
  rw [hd]
  exact h

/-- **C20** for every options value: `inf` and `infinity`, in any letter case, with an optional sign. -/
theorem C20_infinity_any_point (c : Cfg) {ct : CharType} (T : FloatTy) {s : List Nat} (opt : Options) (hin : Input ct s)
    (hf : noInfNan (c.eff opt) = false) {neg : Bool} {rest : List Nat} (ht : InfText (plusFlag (c.eff opt)) (textOf c opt s) neg rest) :
    fromCharsFloat c ct T.fmt s opt = .ok ⟨s.length - rest.length, .ok, some ((if neg then T.spec.signBit else 0) + T.spec.inf)⟩ :=
  (any_return (ec := .ok) hin (.infinity hf ht)).1

theorem quietNaN_sign (T : FloatTy) (neg : Bool) : T.spec.signBit ≤ (if neg then T.spec.signBit else 0) + ApiSpec.quietNaN T.spec ↔ neg = true := by
  cases T <;> cases neg <;> decide +kernel

/-- **C20**, the exact bits: the NaN is the quiet one with an empty payload (`std::numeric_limits<T>::quiet_NaN()`), or its negative. -/
theorem C20_quiet_nan (c : Cfg) {ct : CharType} (T : FloatTy) {s : List Nat} (opt : Options) (hin : Input ct s)
    (hf : noInfNan (c.eff opt) = false) {neg : Bool} {rest : List Nat} (ht : NanText (plusFlag (c.eff opt)) (textOf c opt s) neg rest) :
    fromCharsFloat c ct T.fmt s opt = .ok ⟨s.length - rest.length, .ok, some ((if neg then T.spec.signBit else 0) + (T.spec.inf + 2 ^ (T.spec.fracBits - 1)))⟩ :=
  (any_return (ec := .ok) hin (.nan hf ht)).1

/-- **C20** for every options value: `nan` and `nan(...)`. -/
theorem C20_nan_any_point (c : Cfg) {ct : CharType} (T : FloatTy) {s : List Nat} (opt : Options) (hin : Input ct s)
    (hf : noInfNan (c.eff opt) = false) {neg : Bool} {rest : List Nat} (ht : NanText (plusFlag (c.eff opt)) (textOf c opt s) neg rest) :
    ∃ b, fromCharsFloat c ct T.fmt s opt = .ok ⟨s.length - rest.length, .ok, some b⟩ ∧ ApiSpec.IsNaN T.spec b ∧ (T.spec.signBit ≤ b ↔ neg = true) :=
  ⟨_, (any_return (ec := .ok) hin (.nan hf ht)).1, quietNaN_isNaN T neg, quietNaN_sign T neg⟩

theorem numberAny_not_nan {c : Cfg} {T : FloatTy} {point : Nat} {n : Numeral} {code : Code} {b : Nat} (h : NumberAny c T point n code b) :
    ¬ ApiSpec.IsNaN T.spec b := by
  by_cases hT : T = .float16
  · subst hT
    by_cases hm : Miscounted point n
    · exact halfScaled_not_nan ((h.2 rfl).2 hm)
    · exact half_not_nan ((h.2 rfl).1 hm)
  · exact rounded_not_nan T (h.1 hT).rounded

/-- **C21** and **C44** for every options value: a NaN is stored exactly if infinities and NaNs are not excluded and the text spells a NaN. -/
theorem C44_any_point (c : Cfg) {ct : CharType} (T : FloatTy) {s : List Nat} (opt : Options) (hin : Input ct s) {r : ApiFloat}
    (h : fromCharsFloat c ct T.fmt s opt = .ok r) :
    (∃ b, r.value = some b ∧ ApiSpec.IsNaN T.spec b) ↔
      noInfNan (c.eff opt) = false ∧ ∃ neg rest, NanText (plusFlag (c.eff opt)) (textOf c opt s) neg rest := by
  constructor
  · rintro ⟨b, hb, hn⟩
    obtain ⟨_, h⟩ := (call_any c T opt hin r).1 h
    obtain ⟨off, ec, value⟩ := r
    dsimp only at h hb
    subst hb
    generalize hr : s.drop off = rest at h
    generalize hc : ec.code = code at h
    generalize hv : some b = v at h
    cases h with
    | number _ result => cases hv; exact absurd hn (numberAny_not_nan result)
    | @infinity neg _ _ _ =>
      refine absurd hn ?_
      rw [Option.some.inj hv]
      exact inf_not_nan T neg
    | @nan neg rest a t => exact ⟨a, neg, rest, t⟩
    | invalid _ _ => cases hv
  · rintro ⟨hf, neg, rest, ht⟩
    obtain ⟨b, h1, h2, _⟩ := C20_nan_any_point c T opt hin hf ht
    rw [h1] at h
    cases h
    exact ⟨b, rfl, h2⟩

/-- **C21** for every options value: with `no_infnan` a call reads a number or reports `invalid_argument`, whatever the text spells. -/
theorem C21_any_point (c : Cfg) {ct : CharType} (T : FloatTy) {s : List Nat} (opt : Options) (hin : Input ct s) (hf : noInfNan (c.eff opt) = true) {r : ApiFloat}
    (h : fromCharsFloat c ct T.fmt s opt = .ok r) :
    (∃ n, Greedy (grammar c opt) (textOf c opt s) n (s.drop r.off)) ∨ (r.ec = .invalidArgument ∧ r.value = none) := by
  obtain ⟨_, h⟩ := (call_any c T opt hin r).1 h
  obtain ⟨off, ec, value⟩ := r
  dsimp only at h ⊢
  generalize hr : s.drop off = rest at h ⊢
  generalize hc : ec.code = code at h
  cases h with
  | @number n _ _ _ text _ => exact Or.inl ⟨n, text⟩
  | infinity a _ => rw [hf] at a; cases a
  | nan a _ => rw [hf] at a; cases a
  | invalid _ _ => exact Or.inr ⟨code_inj (b := .invalidArgument) hc, rfl⟩

/-! ### C37 -/

theorem numberAny_value {c : Cfg} (c' : Cfg) {T : FloatTy} {point : Nat} {n : Numeral} {code : Code} {b : Nat} (h : NumberAny c T point n code b) :
    ∃ ec' : Errc, ec' ≠ .invalidArgument ∧ NumberAny c' T point n ec'.code b := by
  classical
  have hcode : ∀ P : Prop, ∃ ec' : Errc, ec' ≠ .invalidArgument ∧ (ec'.code = .range ∨ ec'.code = .success) ∧ (ec'.code = .range ↔ P) := by
    intro P
    by_cases hP : P
    · exact ⟨.outOfRange, by simp, Or.inl rfl, fun _ => hP, fun _ => rfl⟩
    · exact ⟨.ok, by simp, Or.inr rfl, fun h => (by cases h), fun h => absurd h hP⟩
  by_cases hT : T = .float16
  · subst hT
    by_cases hm : Miscounted point n
    · have h1 := (h.2 rfl).2 hm
      obtain ⟨ec', e0, e1, e2⟩ := hcode _
      exact ⟨ec', e0, fun h' => absurd rfl h', fun _ => ⟨fun h' => absurd hm h', fun _ => ⟨h1.rounded, h1.exception, e1, e2⟩⟩⟩
    · have h1 := (h.2 rfl).1 hm
      obtain ⟨ec', e0, e1, e2⟩ := hcode _
      exact ⟨ec', e0, fun h' => absurd rfl h', fun _ => ⟨fun _ => ⟨h1.rounded, h1.exception, e1, e2⟩, fun h' => absurd h' hm⟩⟩
  · have h1 := h.1 hT
    rcases h1.error with ⟨e, _⟩ | ⟨e, _⟩
    · exact ⟨.outOfRange, by simp, fun _ => by rw [e] at h1; exact h1, fun h' => absurd h' hT⟩
    · exact ⟨.ok, by simp, fun _ => by rw [e] at h1; exact h1, fun h' => absurd h' hT⟩

/-- **C37** (and C35 for the value) for every options value and type: the pointer and the stored value are the same in all configurations with the same feature
macros; in particular they do not depend on the rounding mode. -/
theorem C37_any_point {c c' : Cfg} (hm : SameMacros c c') {ct : CharType} (T : FloatTy) {s : List Nat} (opt : Options) (hin : Input ct s) :
    ∃ r r', fromCharsFloat c ct T.fmt s opt = .ok r ∧ fromCharsFloat c' ct T.fmt s opt = .ok r' ∧ r.off = r'.off ∧ r.value = r'.value ∧
      (r.ec = .invalidArgument ↔ r'.ec = .invalidArgument) := by
  obtain ⟨r, h⟩ := any_defined c T opt hin
  have ht : textOf c opt s = textOf c' opt s := by unfold textOf; rw [hm.eff opt]
  suffices hx : ∃ ec', fromCharsFloat c' ct T.fmt s opt = .ok ⟨r.off, ec', r.value⟩ ∧ (r.ec = .invalidArgument ↔ ec' = .invalidArgument) by
    obtain ⟨ec', h1, h2⟩ := hx
    exact ⟨r, _, h, h1, rfl, rfl, h2⟩
  have hx := (C14_any_point c T opt hin h)
  obtain ⟨hoff, h⟩ := (call_any c T opt hin r).1 h
  obtain ⟨off, ec, value⟩ := r
  dsimp only at h hoff hx ⊢
  have fin : ∀ ec' : Errc, (ec = .invalidArgument ↔ ec' = .invalidArgument) →
      AnyPointCall T.spec (NumberAny c' T opt.decimalPoint) (c'.eff opt) opt.decimalPoint (textOf c' opt s) (s.drop off) ec'.code value →
      ∃ ec', fromCharsFloat c' ct T.fmt s opt = .ok ⟨off, ec', value⟩ ∧ (ec = .invalidArgument ↔ ec' = .invalidArgument) :=
    fun ec' h1 h2 => ⟨ec', (call_any c' T opt hin _).2 ⟨hoff, h2⟩, h1⟩
  rw [ht, hm.eff opt] at h
  generalize hr : s.drop off = rest at h fin hx
  generalize hc : ec.code = code at h
  cases h with
  | @number n _ _ b text result =>
    obtain ⟨ec', e0, e1⟩ := numberAny_value c' result
    refine fin ec' ⟨fun he => absurd (hx.1 he).1 (by simp), fun he => absurd he e0⟩ (.number text e1)
  | infinity a t =>
    have : ec = .ok := code_inj (b := .ok) hc
    exact fin .ok (by rw [this]) (.infinity a t)
  | nan a t =>
    have : ec = .ok := code_inj (b := .ok) hc
    exact fin .ok (by rw [this]) (.nan a t)
  | invalid a b =>
    have : ec = .invalidArgument := code_inj (b := .invalidArgument) hc
    exact fin .invalidArgument (by rw [this]) (.invalid a b)

/-! ### C23, C64 -/

theorem greedy_delim {g : Rules} {d : Nat} {u t x : List Nat} {n : Numeral} (hd : Neutral d) (hp : d ≠ g.point) :
    Greedy g (t ++ d :: u) n x ↔ ∃ y, x = y ++ d :: u ∧ Greedy g t n y := by
  constructor
  · intro h
    have h1 := greedy_scan h
    rw [scan_delim hd hp] at h1
    cases hs : scanNumeral g t with
    | none => rw [hs] at h1; cases h1
    | some z =>
      rw [hs] at h1
      cases h1
      exact ⟨_, rfl, scan_greedy hs⟩
  · rintro ⟨y, rfl, h⟩
    refine scan_greedy ?_
    rw [scan_delim hd hp, greedy_scan h]
    rfl

/-- **C23** for every options value: what follows a delimiter does not matter. -/
theorem C23_any_point (c : Cfg) {ct : CharType} (T : FloatTy) {s u : List Nat} {d : Nat} (opt : Options) (hin : Input ct (s ++ d :: u))
    (hd : Neutral d) (hpt : d ≠ opt.decimalPoint) (hsp : ApiSpec.isSpace d = false ∨ textOf c opt s ≠ []) :
    fromCharsFloat c ct T.fmt (s ++ d :: u) opt = fromCharsFloat c ct T.fmt s opt := by
  have hin' := input_before s u hin
  have ht : textOf c opt (s ++ d :: u) = textOf c opt s ++ d :: u := by
    unfold textOf body
    split
    · rename_i hw
      rw [List.dropWhile_append]
      split
      · rename_i he
        have he : s.dropWhile ApiSpec.isSpace = [] := by simpa using he
        rcases hsp with h | h
        · rw [List.dropWhile_cons_of_neg (by rw [h]; simp), he]; rfl
        · exfalso; apply h; unfold textOf body; rw [if_pos hw]; exact he
      · rfl
    · rfl
  obtain ⟨r, h⟩ := any_defined c T opt hin'
  rw [h]
  obtain ⟨hoff, h⟩ := (call_any c T opt hin' r).1 h
  refine (call_any c T opt hin r).2 ⟨by rw [List.length_append]; omega, ?_⟩
  rw [ht, List.drop_append_of_le_length hoff]
  obtain ⟨off, ec, value⟩ := r
  dsimp only at h ⊢
  generalize s.drop off = rest at h ⊢
  generalize ec.code = code at h ⊢
  cases h with
  | number text result => exact .number ((greedy_delim hd hpt).2 ⟨_, rfl, text⟩) result
  | infinity a t => exact .infinity a ((infText_delim hd).2 ⟨_, rfl, t⟩)
  | nan a t => exact .nan a ((nanText_delim hd).2 ⟨_, rfl, t⟩)
  | invalid hs hb =>
    refine .invalid ?_ ?_
    · rintro ⟨n, x, hg⟩
      obtain ⟨y, _, hg⟩ := (greedy_delim hd hpt).1 hg
      exact hs ⟨n, y, hg⟩
    · rcases hb with h | ⟨h1, h2⟩
      · exact Or.inl h
      · right
        constructor
        · rintro ⟨neg, x, h⟩
          obtain ⟨y, _, h⟩ := (infText_delim hd).1 h
          exact h1 ⟨neg, y, h⟩
        · rintro ⟨neg, x, h⟩
          obtain ⟨y, _, h⟩ := (nanText_delim hd).1 h
          exact h2 ⟨neg, y, h⟩

/-! ### Samples -/

/-- The point `5`: "15a" is read up to the `a` in every configuration. -/
example : fromCharsFloat Cfg.x64 CharType.char binary64 [49, 53, 97] { decimalPoint := 53 } =
    fromCharsFloat ⟨false, false, false, false, true, .none, true, true, true, false, false, .up, .ext⟩ CharType.char binary64 [49, 53, 97] { decimalPoint := 53 } :=
  C35_any_point (c := Cfg.x64) (c' := ⟨false, false, false, false, true, .none, true, true, true, false, false, .up, .ext⟩) ⟨rfl, rfl⟩ .double (by decide)
    { decimalPoint := 53 } (input_of_bytes (by decide) (by decide))

example : fromCharsFloat Cfg.x64 CharType.char binary64 [49, 53, 97] { decimalPoint := 53 } = .ok ⟨2, .ok, some 0x402e000000000000⟩ := by decide +kernel

/-- The consumed part "15" alone. -/
example : fromCharsFloat Cfg.x64 CharType.char binary64 [49, 53] { decimalPoint := 53 } = .ok ⟨2, .ok, some 0x402e000000000000⟩ :=
  C56_any_point Cfg.x64 .double { decimalPoint := 53 } (s := [49, 53, 97]) (ct := .char) (input_of_bytes (by decide) (by decide))
    (r := ⟨2, .ok, some 0x402e000000000000⟩) (by decide +kernel) (by decide)

/-- "15;x" with the point `5`. -/
example : fromCharsFloat Cfg.x64 CharType.char binary64 ([49, 53] ++ 59 :: [120]) { decimalPoint := 53 } = fromCharsFloat Cfg.x64 CharType.char binary64 [49, 53] { decimalPoint := 53 } :=
  C23_any_point Cfg.x64 .double { decimalPoint := 53 } (input_of_bytes (by decide) (by decide)) (by unfold Neutral NanChar; decide) (by decide) (Or.inl (by decide))

/-- "nan" and "inf" with the point `n`. -/
example : fromCharsFloat Cfg.x64 CharType.char binary64 [110, 97, 110] { decimalPoint := 110 } = .ok ⟨3, .ok, some 0x7ff8000000000000⟩ ∧
    fromCharsFloat Cfg.x64 CharType.char binary64 [105, 110, 102] { decimalPoint := 110 } = .ok ⟨3, .ok, some 0x7ff0000000000000⟩ := by decide +kernel

/-- "e" with the point `e`: rejected. -/
example : fromCharsFloat Cfg.x64 CharType.char binary64 [101] { decimalPoint := 101 } = .ok ⟨0, .invalidArgument, none⟩ := by decide +kernel

end FastFloat
