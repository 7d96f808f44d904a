import Verif.Proofs.Indep
/-
# The outcome of a float call as a relation on the text
-/
set_option linter.unusedSimpArgs false
namespace FastFloat
open NumSpec FloatSpec ApiSpec

/-- Text `t` under format `fmt` and point `point` leads to the rest, error code and stored bits given. -/
inductive Outcome (c : Cfg) (ct : CharType) (T : FloatTy) (fmt point : Nat) (t : List Nat) : List Nat → Errc → Option Nat → Prop
  | num {n : Numeral} {rest : List Nat} {ec : Errc} {b : Nat} (hs : scanNumeral (rules fmt point) t = some (n, rest))
      (ho : numOut c ct T n = .ok (ec, b)) : Outcome c ct T fmt point t rest ec (some (b + if n.neg then 2 ^ T.fmt.signIdx else 0))
  | inf {neg : Bool} {rest : List Nat} (hn : noInfNan fmt = false) (h : InfText (plusFlag fmt) t neg rest) :
      Outcome c ct T fmt point t rest .ok (some (infBits T.fmt neg))
  | nan {neg : Bool} {rest : List Nat} (hn : noInfNan fmt = false) (h : NanText (plusFlag fmt) t neg rest) :
      Outcome c ct T fmt point t rest .ok (some (nanBits T.fmt neg))
  | bad (hs : scanNumeral (rules fmt point) t = none)
      (h : noInfNan fmt = true ∨ ((¬ ∃ neg rest, InfText (plusFlag fmt) t neg rest) ∧ ¬ ∃ neg rest, NanText (plusFlag fmt) t neg rest)) :
      Outcome c ct T fmt point t t .invalidArgument none

theorem infText_rest {plus : Bool} {t rest : List Nat} {neg : Bool} (h : InfText plus t neg rest) : rest.length ≤ t.length := by
  obtain ⟨u, r, h1, ⟨v, rfl, _⟩, h3⟩ := h
  have : rest.length ≤ r.length := by
    rcases h3 with ⟨w, rfl, _⟩ | ⟨_, rfl⟩ <;> simp
  rcases h1 with ⟨_, rfl⟩ | ⟨_, rfl⟩ | ⟨_, _, rfl⟩ <;> simp <;> omega

theorem nanText_rest {plus : Bool} {t rest : List Nat} {neg : Bool} (h : NanText plus t neg rest) : rest.length ≤ t.length := by
  obtain ⟨u, r, h1, ⟨v, rfl, _⟩, h3⟩ := h
  have : rest.length ≤ r.length := by
    rcases h3 with ⟨w, _, rfl⟩ | ⟨_, rfl⟩ <;> simp; omega
  rcases h1 with ⟨_, rfl⟩ | ⟨_, rfl⟩ | ⟨_, _, rfl⟩ <;> simp <;> omega

theorem scan_rest {g : Rules} {t rest : List Nat} {n : Numeral} (h : scanNumeral g t = some (n, rest)) : rest.length ≤ t.length := by
  have := congrArg List.length (scan_sound h).2
  rw [List.length_append] at this; omega

theorem Outcome.rest_le {c : Cfg} {ct : CharType} {T : FloatTy} {fmt point : Nat} {t rest : List Nat} {ec : Errc} {v : Option Nat}
    (h : Outcome c ct T fmt point t rest ec v) : rest.length ≤ t.length := by
  cases h with
  | num hs ho => exact scan_rest hs
  | inf hn h => exact infText_rest h
  | nan hn h => exact nanText_rest h
  | bad hs h => exact le_rfl

theorem scan_none_of_infnan {fmt point : Nat} {t : List Nat} {neg : Bool} {rest : List Nat}
    (h : InfText (plusFlag fmt) t neg rest ∨ NanText (plusFlag fmt) t neg rest) : scanNumeral (rules fmt point) t = none := by
  cases hs : scanNumeral (rules fmt point) t with
  | none => rfl
  | some x =>
    exfalso
    obtain ⟨n, r⟩ := x
    obtain ⟨hwf, ht⟩ := scan_sound hs
    rcases h with ⟨u, q, h1, h2, _⟩ | ⟨u, q, h1, h2, _⟩
    · exact numeral_not_infnan hwf ht h1 letters_inf rfl h2
    · exact numeral_not_infnan hwf ht h1 letters_nan rfl h2

/-- Every text has an outcome. -/
theorem outcome_exists (c : Cfg) {ct : CharType} (hw : ct.WF) (T : FloatTy) (fmt point : Nat) (t : List Nat) :
    ∃ rest ec v, Outcome c ct T fmt point t rest ec v := by
  cases hs : scanNumeral (rules fmt point) t with
  | some x =>
    obtain ⟨n, rest⟩ := x
    obtain ⟨ec, v, k, h1, h2⟩ := numCore_spec c hw T (scan_sound hs).1.2.1
    refine ⟨_, _, _, Outcome.num hs (b := coreBits T.fmt false v) (ec := ec) ?_⟩
    unfold numOut; rw [h1]; rfl
  | none =>
    by_cases hn : noInfNan fmt = true
    · exact ⟨_, _, _, Outcome.bad hs (Or.inl hn)⟩
    · have hn : noInfNan fmt = false := by simpa using hn
      by_cases h1 : ∃ neg rest, InfText (plusFlag fmt) t neg rest
      · obtain ⟨neg, rest, h1⟩ := h1
        exact ⟨_, _, _, Outcome.inf hn h1⟩
      · by_cases h2 : ∃ neg rest, NanText (plusFlag fmt) t neg rest
        · obtain ⟨neg, rest, h2⟩ := h2
          exact ⟨_, _, _, Outcome.nan hn h2⟩
        · exact ⟨_, _, _, Outcome.bad hs (Or.inr ⟨h1, h2⟩)⟩

/-- The outcome relation determines the call (white space as the code sees it). -/
theorem Outcome.callc {c : Cfg} {ct : CharType} {T : FloatTy} {s : List Nat} {opt : Options} (hw : ct.WF)
    (hu : ∀ u ∈ s, UnitOK ct u) (hlen : s.length < 2 ^ 62) (hdp : ¬ IsDigit opt.decimalPoint)
    {rest : List Nat} {ec : Errc} {v : Option Nat} (h : Outcome c ct T (c.eff opt) opt.decimalPoint (codeBody ct (c.eff opt) s) rest ec v) :
    fromCharsFloat c ct T.fmt s opt = .ok ⟨s.length - rest.length, ec, v⟩ := by
  obtain ⟨_, hN⟩ := float_cases c hw T opt hu hlen hdp
  cases h with
  | num hs ho =>
    rename_i n b
    rw [call_number c hw T opt hu hlen hdp hs]
    obtain ⟨ec', w, k, h1, h2⟩ := numCore_spec c hw T (scan_sound hs).1.2.1
    unfold numOut at ho
    rw [h1] at ho ⊢
    have ho : (ec', coreBits T.fmt false w) = (ec, b) := Except.ok.inj ho
    obtain ⟨rfl, rfl⟩ := Prod.mk.inj ho
    show Except.ok _ = _
    simp only
    cases hn : n.neg
    · simp
    · simp only [if_true]; rw [advCore_bits h2]
  | inf hn h => exact ((hN (scan_none_of_infnan (Or.inl h))).2 hn).1 _ _ h
  | nan hn h => exact ((hN (scan_none_of_infnan (Or.inr h))).2 hn).2.1 _ _ h
  | bad hs h =>
    rcases h with h | ⟨h1, h2⟩
    · exact (hN hs).1 h
    · by_cases hn : noInfNan (c.eff opt) = true
      · exact (hN hs).1 hn
      · exact ((hN hs).2 (by simpa using hn)).2.2 h1 h2

theorem Outcome.call {c : Cfg} {ct : CharType} {T : FloatTy} {s : List Nat} {opt : Options} (hin : Input ct s)
    (hdp : ¬ IsDigit opt.decimalPoint)
    {rest : List Nat} {ec : Errc} {v : Option Nat} (h : Outcome c ct T (c.eff opt) opt.decimalPoint (textOf c opt s) rest ec v) :
    fromCharsFloat c ct T.fmt s opt = .ok ⟨s.length - rest.length, ec, v⟩ :=
  Outcome.callc hin.wf hin.ok hin.len hdp (by rw [hin.body_eq]; exact h)

/-- Every call has an outcome. -/
theorem call_outcome {c : Cfg} {ct : CharType} {T : FloatTy} {s : List Nat} {opt : Options} (hin : Input ct s)
    (hdp : ¬ IsDigit opt.decimalPoint) {r : ApiFloat} (h : fromCharsFloat c ct T.fmt s opt = .ok r) :
    ∃ rest, Outcome c ct T (c.eff opt) opt.decimalPoint (textOf c opt s) rest r.ec r.value ∧ r.off = s.length - rest.length := by
  obtain ⟨rest, ec, v, ho⟩ := outcome_exists c hin.wf T (c.eff opt) opt.decimalPoint (textOf c opt s)
  have := (Outcome.call hin hdp ho).symm.trans h
  cases this
  exact ⟨rest, ho, rfl⟩

end FastFloat
