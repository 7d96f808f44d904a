import Verif.Props.Total
import Verif.Props.Wide
/-
# C56: parsing what was consumed

A call that accepts consumes exactly the characters `[first, ptr)`: parsing these alone gives the same error code and value, and the pointer is at the end.
-/
set_option linter.unusedSimpArgs false
namespace FastFloat
open NumSpec FloatSpec ApiSpec IntSpec

/-! ### About the specifications -/

theorem signed_prefix {plus neg : Bool} {s t v rest : List Nat} (h : Signed plus s neg t) (ht : t = v ++ rest) :
    ∃ p, s = p ++ rest ∧ Signed plus p neg v ∧ (v ≠ [] → p ≠ []) := by
  subst ht
  rcases h with ⟨h1, h2⟩ | ⟨h1, h2⟩ | ⟨h1, h2, h3⟩
  · exact ⟨45 :: v, by rw [h2]; rfl, Or.inl ⟨h1, rfl⟩, fun _ => by simp⟩
  · exact ⟨v, h2, Or.inr (Or.inl ⟨h1, rfl⟩), id⟩
  · exact ⟨43 :: v, by rw [h3]; rfl, Or.inr (Or.inr ⟨h1, h2, rfl⟩), fun _ => by simp⟩

theorem floatCall_prefix {f : Format} {number : Numeral → Code → Nat → Prop} {fmt point : Nat} {t rest : List Nat} {code : Code} {v : Option Nat}
    (h : FloatCall f number fmt point t rest code v) (hc : code ≠ .invalid) :
    ∃ p, t = p ++ rest ∧ p ≠ [] ∧ FloatCall f number fmt point p [] code v := by
  cases h with
  | number text result =>
    rename_i n bits
    refine ⟨_, text.text, ?_, .number ⟨text.wf, by simp [rules], ?_, ?_, ?_, ?_⟩ result⟩
    · obtain ⟨pre, d, post, h1, _⟩ := numeral_digit text.wf
      rw [show point = (rules fmt point).point from rfl] at *
      rw [h1]; simp
    · intro u t h; cases h
    · intro _ _ t h; cases h
    · rintro _ ⟨e, q, h1, h2⟩
      have := congrArg List.length h2
      simp only [List.length_nil, List.length_append, Exponent.text] at this
      have h3 : e.digits = [] := by rw [← List.length_eq_zero_iff]; omega
      exact h1.1 h3
    · intro _ _ _ u t h; cases h
  | infinity allowed text =>
    obtain ⟨t', r, h1, ⟨w, rfl, h2⟩, h3⟩ := text
    have hw : w ≠ [] := by rintro rfl; cases h2
    rcases h3 with ⟨x, rfl, h4⟩ | ⟨h4, rfl⟩
    · obtain ⟨p, p1, p2, p3⟩ := signed_prefix (v := w ++ x) (rest := rest) h1 (by simp)
      exact ⟨p, p1, p3 (by simp [hw]), .infinity allowed ⟨_, _, p2, ⟨w, rfl, h2⟩, Or.inl ⟨x, by simp, h4⟩⟩⟩
    · obtain ⟨p, p1, p2, p3⟩ := signed_prefix (v := w) (rest := rest) h1 rfl
      refine ⟨p, p1, p3 hw, .infinity allowed ⟨_, [], p2, ⟨w, by simp, h2⟩, Or.inr ⟨?_, rfl⟩⟩⟩
      rintro ⟨q, x, h5, h6⟩
      have : x = [] := (List.append_eq_nil_iff.1 h5.symm).1
      rw [this] at h6; cases h6
  | nan allowed text =>
    obtain ⟨t', r, h1, ⟨w, rfl, h2⟩, h3⟩ := text
    have hw : w ≠ [] := by rintro rfl; cases h2
    rcases h3 with ⟨x, h4, rfl⟩ | ⟨h4, rfl⟩
    · obtain ⟨p, p1, p2, p3⟩ := signed_prefix (v := w ++ 40 :: (x ++ [41])) (rest := rest) h1 (by simp)
      exact ⟨p, p1, p3 (by simp), .nan allowed ⟨_, _, p2, ⟨w, rfl, h2⟩, Or.inl ⟨x, h4, rfl⟩⟩⟩
    · obtain ⟨p, p1, p2, p3⟩ := signed_prefix (v := w) (rest := rest) h1 rfl
      refine ⟨p, p1, p3 hw, .nan allowed ⟨_, [], p2, ⟨w, by simp, h2⟩, Or.inr ⟨?_, rfl⟩⟩⟩
      rintro ⟨q, x, _, h6⟩
      cases h6
  | invalid _ _ => exact absurd rfl hc

theorem intCall_prefix {signed : Bool} {number : Bool → Nat → Code → Option Int → Prop} {fmt : Nat} {base : Int} {t rest : List Nat} {code : Code} {v : Option Int}
    (h : IntCall signed number fmt base t rest code v) (hc : code ≠ .invalid) :
    ∃ p, t = p ++ rest ∧ p ≠ [] ∧ IntCall signed number fmt base p [] code v := by
  cases h with
  | number h result =>
    rename_i neg ds
    obtain ⟨p, p1, p2, p3⟩ := signed_prefix h.literal.text rfl
    exact ⟨p, p1, p3 h.literal.nonempty, .number ⟨h.two, h.max, ⟨by simpa using p2, h.literal.digits, h.literal.nonempty, by simp⟩, h.sign⟩ result⟩
  | invalid h => exact absurd rfl hc

/-! ### White space -/

theorem textOf_prefix {c : Cfg} {opt : Options} {s p rest : List Nat} (h : textOf c opt s = p ++ rest) (hp : p ≠ []) :
    s.take (s.length - rest.length) = s.take (s.length - (textOf c opt s).length) ++ p ∧ textOf c opt (s.take (s.length - rest.length)) = p := by
  obtain ⟨ws, w1, w2, w3⟩ := textOf_suffix c opt s
  have hl : s.length = ws.length + (p.length + rest.length) := by rw [w1, List.length_append, h, List.length_append]
  have e1 : s.take (s.length - rest.length) = ws ++ p := by
    have : s.length - rest.length = (ws ++ p).length := by rw [List.length_append]; omega
    rw [this]
    conv_lhs => rw [w1, h, ← List.append_assoc, List.take_left]
  have e2 : s.take (s.length - (textOf c opt s).length) = ws := by
    have : s.length - (textOf c opt s).length = ws.length := by rw [h, List.length_append]; omega
    rw [this]
    conv_lhs => rw [w1, List.take_left]
  refine ⟨by rw [e1, e2], ?_⟩
  rw [e1]
  obtain ⟨u, l, rfl⟩ := List.exists_cons_of_ne_nil hp
  unfold textOf body at h ⊢
  cases hw : wsFlag (c.eff opt) with
  | false => rw [w3 hw]; rfl
  | true =>
    rw [hw] at h
    simp only [if_true] at h ⊢
    have hu : ApiSpec.isSpace u = false := by
      have := List.head?_dropWhile_not ApiSpec.isSpace s
      rw [h] at this
      simpa using this
    rw [List.dropWhile_append_of_pos w2, List.dropWhile_cons_of_neg (by rw [hu]; simp)]

theorem input_take {ct : CharType} {s : List Nat} (hin : Input ct s) (k : Nat) : Input ct (s.take k) :=
  ⟨hin.wf, fun u hu => hin.units u (List.mem_of_mem_take hu), by have := hin.len; rw [List.length_take]; omega⟩

/-! ### C56 -/

theorem reparse_of {c : Cfg} {ct : CharType} {T : FloatTy} {s : List Nat} {opt : Options} (hin : Input ct s) (hp : (grammar c opt).PointOK)
    {number : Numeral → Code → Nat → Prop} (hN : ∀ {s : List Nat}, Input ct s → NumberSpec c ct T s opt number) {r : ApiFloat}
    (h : fromCharsFloat c ct T.fmt s opt = .ok r) (hr : r.ec ≠ .invalidArgument) :
    fromCharsFloat c ct T.fmt (s.take r.off) opt = .ok r := by
  obtain ⟨h1, h2⟩ := (complete_of hin hp (hN hin) r).1 h
  have hc : r.ec.code ≠ .invalid := by revert hr; cases r.ec <;> simp [Errc.code]
  obtain ⟨p, p1, p2, p3⟩ := floatCall_prefix h2 hc
  have hoff : s.length - (s.drop r.off).length = r.off := by rw [List.length_drop]; omega
  obtain ⟨_, e2⟩ := textOf_prefix p1 p2
  rw [hoff] at e2
  have hl : (s.take r.off).length = r.off := by rw [List.length_take]; omega
  refine (complete_of (input_take hin _) hp (hN (input_take hin _)) r).2 ⟨by omega, ?_⟩
  rw [e2, List.drop_eq_nil_of_le (by omega)]
  exact p3

/-- **C56**: parsing exactly the characters that a call has consumed gives the same value and error code, and consumes all of them - for every
floating-point type, text, option and configuration. -/
theorem C56_reparse (c : Cfg) {ct : CharType} (T : FloatTy) {s : List Nat} (opt : Options) (hin : Input ct s) (hp : (grammar c opt).PointOK) {r : ApiFloat}
    (h : fromCharsFloat c ct T.fmt s opt = .ok r) (hr : r.ec ≠ .invalidArgument) :
    fromCharsFloat c ct T.fmt (s.take r.off) opt = .ok r := by
  by_cases hT : T = .float16
  · subst hT
    exact reparse_of hin hp (fun h => half_total h hp) h hr
  · exact reparse_of hin hp (fun h => ieee_total hT h hp) h hr

/-- **C56** for integers of any type. -/
theorem C56_reparse_int (c : Cfg) {ct : CharType} {T : IntType} (hT : T.WF ∨ T.Wide) {s : List Nat} (opt : Options) (hin : Input ct s) {r : ApiInt}
    (h : fromCharsIntApi c ct T s opt = .ok r) (hr : r.ec ≠ .invalidArgument) :
    fromCharsIntApi c ct T (s.take r.off) opt = .ok r := by
  obtain ⟨number, hs, hn⟩ : ∃ number, IntRejects c ct T opt ∧ IntNumberSpec c ct T opt number := by
    rcases hT with hT | hT
    · exact ⟨_, rejects_of_wf hT, actual_numberSpec hT⟩
    · exact ⟨_, wide_rejects hT, wide_numberSpec hT⟩
  obtain ⟨h1, h2⟩ := (int_complete_of c opt hs hin hn r).1 h
  have hc : r.ec.code ≠ .invalid := by revert hr; cases r.ec <;> simp [Errc.code]
  obtain ⟨p, p1, p2, p3⟩ := intCall_prefix h2 hc
  have hoff : s.length - (s.drop r.off).length = r.off := by rw [List.length_drop]; omega
  obtain ⟨_, e2⟩ := textOf_prefix p1 p2
  rw [hoff] at e2
  have hl : (s.take r.off).length = r.off := by rw [List.length_take]; omega
  refine (int_complete_of c opt hs (input_take hin _) hn r).2 ⟨by omega, ?_⟩
  rw [e2, List.drop_eq_nil_of_le (by omega)]
  exact p3

/-- The 31 characters before the `x` of the sample text. -/
example : ∃ r, fromCharsFloat Cfg.x64 CharType.char FloatTy.double.fmt sampleText {} = .ok r ∧ r.off = 31 ∧
    fromCharsFloat Cfg.x64 CharType.char FloatTy.double.fmt (sampleText.take r.off) {} = .ok r :=
  ⟨_, sample_accepts.result, rfl, C56_reparse Cfg.x64 .double {} sample_input sample_point sample_accepts.result (by decide)⟩

/-- "-7fx" in base 16 -/
example : ∃ r, fromCharsIntApi Cfg.x64 CharType.char int32 [45, 55, 102, 120] { base := 16 } = .ok r ∧ r.off = 3 ∧ r.value = some (-127) ∧
    fromCharsIntApi Cfg.x64 CharType.char int32 ([45, 55, 102, 120].take r.off) { base := 16 } = .ok r := by
  have h : fromCharsIntApi Cfg.x64 CharType.char int32 [45, 55, 102, 120] { base := 16 } = .ok ⟨3, .ok, some (-127)⟩ := by decide +kernel
  exact ⟨_, h, rfl, rfl, C56_reparse_int Cfg.x64 (Or.inl (by decide)) _ (input_of_bytes (by decide) (by decide)) h (by decide)⟩

end FastFloat
