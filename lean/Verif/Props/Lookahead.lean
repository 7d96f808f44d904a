import Verif.Props.HalfScaled
import Verif.Props.CompleteInt
import Verif.Props.Wide
/-
# C79: how far a call looks ahead
-/
set_option linter.unusedSimpArgs false
set_option autoImplicit false
namespace FastFloat
open NumSpec FloatSpec ApiSpec

/-! ### White space -/

theorem body_split {fmt : Nat} {s x rest : List Nat} (h : body fmt s = x ++ rest) (hx : x ≠ []) :
    ∃ w, s = w ++ x ++ rest ∧ ∀ r, body fmt (w ++ x ++ r) = x ++ r := by
  unfold body at h ⊢
  by_cases hf : wsFlag fmt = true
  · simp only [hf, if_true] at h ⊢
    refine ⟨s.takeWhile ApiSpec.isSpace, ?_, fun r => ?_⟩
    · rw [List.append_assoc, ← h, List.takeWhile_append_dropWhile]
    · obtain ⟨a, x', rfl⟩ := List.exists_cons_of_ne_nil hx
      have ha : ApiSpec.isSpace a = false := by
        have h1 := List.dropWhile_get_zero_not ApiSpec.isSpace s (by rw [h]; simp)
        simpa [h] using h1
      rw [List.append_assoc, List.dropWhile_append_of_pos (fun u hu => List.mem_takeWhile_imp hu)]
      simp [List.dropWhile_cons, ha]
  · simp only [hf, if_false, Bool.false_eq_true] at h ⊢
    exact ⟨[], by simpa using h, fun r => by simp⟩

/-- What is known of a text that agrees with `s` on what a call consumed and on `L` units more. -/
theorem agree_split {fmt off L : Nat} {s s' x rest : List Nat} (h : body fmt s = x ++ rest) (hx : x ≠ []) (hoff : off ≤ s.length)
    (hd : s.drop off = rest) (ha : s.take (off + L) = s'.take (off + L)) :
    off ≤ s'.length ∧ body fmt s' = x ++ s'.drop off ∧ (s'.drop off).take L = rest.take L := by
  obtain ⟨w, hs, hw⟩ := body_split h hx
  have h1 : s.take off = s'.take off := by
    have := congrArg (List.take off) ha
    simpa [List.take_take] using this
  have h2 : s.take off = w ++ x := by
    have h3 : s.take off ++ rest = (w ++ x) ++ rest := by rw [← hd, List.take_append_drop, hd]; exact hs
    exact List.append_cancel_right h3
  have h3 : off ≤ s'.length := by
    have := congrArg List.length h1
    simp at this; omega
  refine ⟨h3, ?_, ?_⟩
  · rw [← hw, ← h2, h1, List.take_append_drop]
  · have := congrArg (List.drop off) ha
    rw [← List.take_drop, ← List.take_drop] at this
    rw [← this, hd]

theorem agree_head {L : Nat} {a b : List Nat} (hL : 0 < L) (h : a.take L = b.take L) {u : Nat} {t : List Nat} (ha : a = u :: t) : ∃ t', b = u :: t' := by
  obtain ⟨k, rfl⟩ : ∃ k, L = k + 1 := ⟨L - 1, by omega⟩
  subst ha
  cases b with
  | nil => simp at h
  | cons v b => simp at h; exact ⟨b, by rw [h.1]⟩

theorem agree_prefix {L : Nat} {a b v q : List Nat} (hL : v.length ≤ L) (h : a.take L = b.take L) (ha : a = v ++ q) : ∃ q', b = v ++ q' := by
  have h1 := congrArg (List.take v.length) h
  rw [List.take_take, List.take_take, Nat.min_eq_left hL, ha, List.take_left] at h1
  exact ⟨b.drop v.length, by conv_lhs => rw [← List.take_append_drop v.length b, ← h1]⟩

/-! ### Numerals: three units -/

theorem exponent_local {g : Rules} {a b q : List Nat} {e : Exponent} (he : e.WF g) (ha : a = e.text ++ q) (h : a.take 3 = b.take 3) :
    ∃ (e' : Exponent) (q' : List Nat), e'.WF g ∧ b = e'.text ++ q' := by
  obtain ⟨mk, sg, ds⟩ := e
  obtain ⟨h1, h2, h3, h4⟩ := he
  obtain ⟨d, ds, rfl⟩ := List.exists_cons_of_ne_nil h1
  have hwf : Exponent.WF g ⟨mk, sg, [d]⟩ := ⟨by simp, by simpa using h2 d (by simp), h3, h4⟩
  have hlen : (Exponent.text ⟨mk, sg, [d]⟩).length ≤ 3 := by
    cases mk <;> cases sg <;> simp [Exponent.text]
  obtain ⟨q', hq⟩ := agree_prefix (v := Exponent.text ⟨mk, sg, [d]⟩) (q := ds ++ q) hlen h (by rw [ha]; simp [Exponent.text])
  exact ⟨_, q', hwf, hq⟩

theorem greedy_text_ne_nil {g : Rules} {n : Numeral} (h : n.WF g) : n.text g.point ≠ [] := by
  intro h0
  have h1 : n.int = [] ∧ n.frac = none := by
    unfold Numeral.text at h0
    simp only [List.append_eq_nil_iff] at h0
    refine ⟨h0.1.1.2, ?_⟩
    have h2 := h0.1.2
    cases hf : n.frac with
    | none => rfl
    | some ds => rw [hf] at h2; simp [Numeral.fracText] at h2
  have h3 := h.2.2.1
  have h4 : n.digits = [] := by simp [Numeral.digits, h1.1, h1.2]
  split at h3
  · exact h3.1 h1.1
  · exact h3 h4

theorem greedy_local {g : Rules} {s : List Nat} {n : Numeral} {rest rest' : List Nat} (h : Greedy g s n rest) (ha : rest'.take 3 = rest.take 3) :
    Greedy g (n.text g.point ++ rest') n rest' := by
  have hhead : ∀ (p : List Nat) (u : Nat) (t : List Nat), p ++ rest' = u :: t → ∃ t', p ++ rest = u :: t' := by
    intro p u t hp
    cases p with
    | nil => exact agree_head (L := 3) (by omega) ha hp
    | cons v p => simp at hp ⊢; exact hp.1
  have htx := greedy_text_ne_nil h.wf
  refine ⟨h.wf, rfl, ?_, ?_, ?_, ?_, ?_, ?_, ?_⟩
  · intro hs t
    have h1 := h.sign hs
    refine ⟨fun h2 => ?_, fun h3 h4 h2 => ?_⟩ <;>
    · obtain ⟨t', ht'⟩ := hhead _ _ _ h2
      rw [← h.text] at ht'
      first
      | exact (h1 t').1 ht'
      | exact (h1 t').2 h3 h4 ht'
  · intro u t h1
    obtain ⟨t', ht'⟩ := hhead _ _ _ h1
    exact h.int u t' ht'
  · intro hf t h1
    obtain ⟨t', ht'⟩ := hhead _ _ _ h1
    exact h.point hf t' ht'
  · intro u t h1
    obtain ⟨t', ht'⟩ := hhead _ _ _ h1
    exact h.frac u t' ht'
  · rintro hf ⟨e, q, he, hq⟩
    exact h.exp hf (exponent_local he hq ha)
  · intro u t h1
    obtain ⟨t', ht'⟩ := hhead [] _ _ h1
    exact h.expDigits u t' ht'
  · intro h1 h2 h3 u t h4
    obtain ⟨t', ht'⟩ := hhead [] _ _ h4
    exact h.noBeginning h1 h2 h3 u t' ht'

/-! ### Infinities: five units; NaNs: none -/

theorem signed_append {plus neg : Bool} {t x : List Nat} (h : Signed plus t neg x) :
    ∃ p, t = p ++ x ∧ ∀ y, Signed plus (p ++ y) neg y := by
  rcases h with ⟨h1, h2⟩ | ⟨h1, h2⟩ | ⟨h1, h2, h3⟩
  · exact ⟨[45], by simpa using h2, fun y => Or.inl ⟨h1, rfl⟩⟩
  · exact ⟨[], by simpa using h2, fun y => Or.inr (Or.inl ⟨h1, rfl⟩)⟩
  · exact ⟨[43], by simpa using h3, fun y => Or.inr (Or.inr ⟨h1, h2, rfl⟩)⟩

theorem startsWith_local {w a b q : List Nat} (h : StartsWith w a q) (ha : a.take w.length = b.take w.length) : ∃ q', StartsWith w b q' := by
  obtain ⟨v, h1, h2⟩ := h
  have hl : v.length = w.length := by rw [← h2]; simp
  obtain ⟨q', hq⟩ := agree_prefix (v := v) (by omega) ha h1
  exact ⟨q', v, hq, h2⟩

theorem startsWith_append {w t r : List Nat} (h : StartsWith w t r) : ∃ v, t = v ++ r ∧ v.length = w.length ∧ ∀ y, StartsWith w (v ++ y) y := by
  obtain ⟨v, h1, h2⟩ := h
  exact ⟨v, h1, by rw [← h2]; simp, fun y => ⟨v, rfl, h2⟩⟩

theorem inf_local {plus neg : Bool} {t rest : List Nat} (h : InfText plus t neg rest) :
    ∃ x, x ≠ [] ∧ t = x ++ rest ∧ ∀ rest', rest'.take 5 = rest.take 5 → InfText plus (x ++ rest') neg rest' := by
  obtain ⟨t1, r, h1, h2, h3⟩ := h
  obtain ⟨p, e1, hp⟩ := signed_append h1
  obtain ⟨v, e2, hl, hv⟩ := startsWith_append h2
  have hne : v ≠ [] := by intro h0; rw [h0] at hl; simp [wInf] at hl
  rcases h3 with h3 | ⟨h3, rfl⟩
  · obtain ⟨v', e3, _, hv'⟩ := startsWith_append h3
    refine ⟨p ++ v ++ v', by simp [hne], by rw [e1, e2, e3]; simp, fun rest' _ => ?_⟩
    exact ⟨v ++ (v' ++ rest'), v' ++ rest', by simpa using hp (v ++ (v' ++ rest')), hv _, Or.inl (hv' _)⟩
  · refine ⟨p ++ v, by simp [hne], by rw [e1, e2]; simp, fun rest' ha => ?_⟩
    exact ⟨v ++ rest', rest', by simpa using hp (v ++ rest'), hv _, Or.inr ⟨fun ⟨q, hq⟩ => h3 (startsWith_local hq ha), rfl⟩⟩

theorem nan_local {plus neg : Bool} {t rest : List Nat} (h : NanText plus t neg rest) :
    ∃ x, x ≠ [] ∧ t = x ++ rest ∧ ∀ rest', ∃ y r', rest' = y ++ r' ∧ NanText plus (x ++ rest') neg r' := by
  obtain ⟨t1, r, h1, h2, h3⟩ := h
  obtain ⟨p, e1, hp⟩ := signed_append h1
  obtain ⟨v, e2, hl, hv⟩ := startsWith_append h2
  have hne : v ≠ [] := by intro h0; rw [h0] at hl; simp [wNan] at hl
  rcases h3 with ⟨q, hq, e3⟩ | ⟨h3, rfl⟩
  · refine ⟨p ++ v ++ (40 :: (q ++ [41])), by simp [hne], by rw [e1, e2, e3]; simp, fun rest' => ⟨[], rest', rfl, ?_⟩⟩
    exact ⟨v ++ (40 :: (q ++ 41 :: rest')), 40 :: (q ++ 41 :: rest'), by simpa using hp (v ++ (40 :: (q ++ 41 :: rest'))), hv _, Or.inl ⟨q, hq, rfl⟩⟩
  · refine ⟨p ++ v, by simp [hne], by rw [e1, e2]; simp, fun rest' => ?_⟩
    by_cases hpar : ∃ q, Paren rest' q
    · obtain ⟨r', hr'⟩ := hpar
      obtain ⟨q, _, e⟩ := id hr'
      exact ⟨40 :: (q ++ [41]), r', by rw [e]; simp, v ++ rest', rest', by simpa using hp (v ++ rest'), hv _, Or.inl hr'⟩
    · exact ⟨[], rest', rfl, v ++ rest', rest', by simpa using hp (v ++ rest'), hv _, Or.inr ⟨hpar, rfl⟩⟩

/-! ### Calls -/

theorem quietNaN_isNaN (T : FloatTy) (neg : Bool) : ApiSpec.IsNaN T.spec ((if neg then T.spec.signBit else 0) + ApiSpec.quietNaN T.spec) := by
  unfold ApiSpec.IsNaN; cases T <;> cases neg <;> decide +kernel

theorem inf_not_nan (T : FloatTy) (neg : Bool) : ¬ ApiSpec.IsNaN T.spec ((if neg then T.spec.signBit else 0) + T.spec.inf) := by
  unfold ApiSpec.IsNaN; cases T <;> cases neg <;> decide +kernel

theorem rounded_not_nan (T : FloatTy) {neg : Bool} {x : ℚ} {b : Nat} (h : T.spec.RoundsToBits neg x b) : ¬ ApiSpec.IsNaN T.spec b := by
  obtain ⟨k, h1, h2⟩ := h
  have hk : k ≤ T.spec.inf := by
    rcases h1 with ⟨_, h3⟩ | ⟨_, h3, _⟩ <;> omega
  rintro ⟨h3, h4⟩
  have h5 : T.spec.inf < T.spec.signBit := by cases T <;> decide +kernel
  have h6 : b % T.spec.signBit = k := by
    rw [h2]
    split
    · rw [Nat.add_mod_left, Nat.mod_eq_of_lt (by omega)]
    · rw [Nat.zero_add, Nat.mod_eq_of_lt (by omega)]
  omega

theorem half_not_nan {p : Prop} {n : Numeral} {code : Code} {b : Nat} (h : HalfNumber p n code b) : ¬ ApiSpec.IsNaN half b := by
  by_cases hx : HalfException 16 n.value
  · obtain ⟨j, h1, h2, h3⟩ := hx
    have h4 := h.exception j h1 h2 h3
    rintro ⟨h5, h6⟩
    have e1 : half.inf = 31744 := by decide +kernel
    have e2 : half.signBit = 32768 := by decide +kernel
    rw [e1, e2] at h5
    rw [e2] at h4
    split at h4 <;> omega
  · exact rounded_not_nan .float16 (h.rounded hx)

theorem halfScaled_not_nan {p : Prop} {neg : Bool} {m : Nat} {e : Int} {code : Code} {b : Nat} (h : HalfScaled p neg m e code b) : ¬ ApiSpec.IsNaN half b := by
  by_cases hx : HalfException 30 ((m : ℚ) * 10 ^ e)
  · obtain ⟨j, h1, h2, h3⟩ := hx
    have h4 := h.exception j h1 h2 h3
    rintro ⟨h5, h6⟩
    have e1 : half.inf = 31744 := by decide +kernel
    have e2 : half.signBit = 32768 := by decide +kernel
    rw [e1, e2] at h5
    rw [e2] at h4
    split at h4 <;> omega
  · exact rounded_not_nan .float16 (h.rounded hx)

/-- The specification of a call. -/
theorem call_spec (c : Cfg) {ct : CharType} (T : FloatTy) (opt : Options) :
    ∃ number : Numeral → Code → Nat → Prop, (∀ n code b, number n code b → ¬ ApiSpec.IsNaN T.spec b) ∧
      ∀ {s : List Nat}, Input ct s → ∀ r : ApiFloat, fromCharsFloat c ct T.fmt s opt = .ok r ↔
      r.off ≤ s.length ∧ AnyPointCall T.spec number (c.eff opt) opt.decimalPoint (textOf c opt s) (s.drop r.off) r.ec.code r.value := by
  by_cases hT : T = .float16
  · subst hT
    refine ⟨_, fun n code b h => ?_, fun hin r => C74_every_option_float16 c opt hin r⟩
    by_cases hm : Miscounted opt.decimalPoint n
    · exact halfScaled_not_nan (h.2 hm)
    · exact half_not_nan (h.1 hm)
  · exact ⟨_, fun n code b h => rounded_not_nan T h.rounded, fun hin r => C74_every_option c T hT opt hin r⟩

/-- **C79**: three units of lookahead are enough to read a number.  If a call accepts a number and another text has the same beginning, up to three units past
the end of that number, then the call gives the same result - same end, same error code, same value - for the other text. -/
theorem C79_lookahead_number (c : Cfg) {ct : CharType} (T : FloatTy) {s s' : List Nat} (opt : Options) (hin : Input ct s) (hin' : Input ct s')
    {r : ApiFloat} (h : fromCharsFloat c ct T.fmt s opt = .ok r)
    (hr : r.ec ≠ .invalidArgument) (hn : ¬ InfNanText c opt s) (ha : s.take (r.off + 3) = s'.take (r.off + 3)) :
    fromCharsFloat c ct T.fmt s' opt = .ok r := by
  obtain ⟨number, hnum, hspec⟩ := call_spec c (ct := ct) T opt
  obtain ⟨off, ec, value⟩ := r
  obtain ⟨hoff, hcall⟩ := (hspec hin _).1 h
  refine (hspec hin' _).2 ?_
  dsimp only at hoff hcall hr ha ⊢
  generalize hrest : s.drop off = rest at hcall
  generalize hec : ec.code = code at hcall ⊢
  cases hcall with
  | @number n _ _ bits text result =>
    obtain ⟨h1, h2, h3⟩ := agree_split text.text (greedy_text_ne_nil text.wf) hoff hrest ha
    refine ⟨h1, .number (n := n) ?_ result⟩
    rw [textOf, h2]
    exact greedy_local text h3
  | infinity allowed text => exact absurd (Or.inl ⟨_, _, text⟩) hn
  | nan allowed text => exact absurd (Or.inr ⟨_, _, text⟩) hn
  | invalid => exfalso; cases ec <;> simp_all [Errc.code]

/-- **C79**: five units are enough for everything but NaNs ("inf" may continue as "infinity"). -/
theorem C79_lookahead (c : Cfg) {ct : CharType} (T : FloatTy) {s s' : List Nat} (opt : Options) (hin : Input ct s) (hin' : Input ct s')
    {off b : Nat} {ec : Errc} (h : fromCharsFloat c ct T.fmt s opt = .ok ⟨off, ec, some b⟩)
    (hb : ¬ ApiSpec.IsNaN T.spec b) (ha : s.take (off + 5) = s'.take (off + 5)) :
    fromCharsFloat c ct T.fmt s' opt = .ok ⟨off, ec, some b⟩ := by
  obtain ⟨number, hnum, hspec⟩ := call_spec c (ct := ct) T opt
  obtain ⟨hoff, hcall⟩ := (hspec hin _).1 h
  refine (hspec hin' _).2 ?_
  dsimp only at hoff hcall ha ⊢
  generalize hrest : s.drop off = rest at hcall
  generalize hec : ec.code = code at hcall ⊢
  generalize hbb : some b = value at hcall ⊢
  cases hcall with
  | @number n _ _ bits text result =>
    obtain ⟨h1, h2, h3⟩ := agree_split text.text (greedy_text_ne_nil text.wf) hoff hrest ha
    refine ⟨h1, .number (n := n) ?_ result⟩
    rw [textOf, h2]
    refine greedy_local text ?_
    have := congrArg (List.take 3) h3
    simpa [List.take_take] using this
  | @infinity neg _ allowed text =>
    obtain ⟨x, hx, e, hl⟩ := inf_local text
    obtain ⟨h1, h2, h3⟩ := agree_split e hx hoff hrest ha
    refine ⟨h1, .infinity (neg := neg) allowed ?_⟩
    rw [textOf, h2]
    exact hl _ h3
  | @nan neg rest allowed text =>
    refine absurd (quietNaN_isNaN T neg) ?_
    cases hbb
    exact hb
  | invalid => cases hbb

/-- **C79** for NaNs: no bounded lookahead finds the end of a NaN (its parentheses may be closed arbitrarily far away), but what follows the characters
consumed can only make the NaN longer; the value and the error code stay the same. -/
theorem C79_lookahead_nan (c : Cfg) {ct : CharType} (T : FloatTy) {s s' : List Nat} (opt : Options) (hin : Input ct s) (hin' : Input ct s')
    {off b : Nat} {ec : Errc} (h : fromCharsFloat c ct T.fmt s opt = .ok ⟨off, ec, some b⟩)
    (hb : ApiSpec.IsNaN T.spec b) (ha : s.take off = s'.take off) :
    ∃ off', off ≤ off' ∧ fromCharsFloat c ct T.fmt s' opt = .ok ⟨off', ec, some b⟩ := by
  obtain ⟨number, hnum, hspec⟩ := call_spec c (ct := ct) T opt
  obtain ⟨hoff, hcall⟩ := (hspec hin _).1 h
  dsimp only at hoff hcall
  have hT : ∃ neg rest, noInfNan (c.eff opt) = false ∧ NanText (plusFlag (c.eff opt)) (textOf c opt s) neg rest ∧ s.drop off = rest ∧ ec.code = .success ∧
      b = (if neg then T.spec.signBit else 0) + ApiSpec.quietNaN T.spec := by
    generalize hrest : s.drop off = rest at hcall
    generalize hec : ec.code = code at hcall
    generalize hbb : some b = value at hcall
    cases hcall with
    | @number n _ _ bits text result => cases hbb; exact absurd hb (hnum _ _ _ result)
    | @infinity neg _ allowed text =>
      cases hbb
      exact absurd hb (inf_not_nan T neg)
    | @nan neg rest allowed text => cases hbb; exact ⟨neg, _, allowed, text, rfl, rfl, rfl⟩
    | invalid => cases hbb
  obtain ⟨neg, rest, allowed, text, hrest, hec, rfl⟩ := hT
  obtain ⟨x, hx, e, hl⟩ := nan_local text
  obtain ⟨h1, h2, _⟩ := agree_split (L := 0) e hx hoff hrest ha
  obtain ⟨y, r', e1, e2⟩ := hl (s'.drop off)
  have hlen : s'.length = off + y.length + r'.length := by
    have := congrArg List.length e1
    simp at this; omega
  refine ⟨off + y.length, by omega, (hspec hin' _).2 ⟨by simp only; omega, ?_⟩⟩
  dsimp only
  have e3 : s'.drop (off + y.length) = r' := by rw [← List.drop_drop, e1, List.drop_left]
  rw [e3, hec]
  refine .nan (neg := neg) allowed ?_
  rw [textOf, h2]
  exact e2

/-- **C79**: appending to a buffer.  Whatever is appended to a text does not change the result of a call that stored something other than a NaN and left at least
five units unread. -/
theorem C79_more_input (c : Cfg) {ct : CharType} (T : FloatTy) {s more : List Nat} (opt : Options) (hin : Input ct (s ++ more))
    {off b : Nat} {ec : Errc} (h : fromCharsFloat c ct T.fmt s opt = .ok ⟨off, ec, some b⟩)
    (hb : ¬ ApiSpec.IsNaN T.spec b) (hl : off + 5 ≤ s.length) :
    fromCharsFloat c ct T.fmt (s ++ more) opt = .ok ⟨off, ec, some b⟩ :=
  C79_lookahead c T opt ⟨hin.wf, fun u hu => hin.units u (by simp [hu]), by have := hin.len; simp at this; omega⟩ hin h hb (by rw [List.take_append_of_le_length hl])

/-- **C79**: three units and five units are needed: "1e+x" and "1e+5" agree on two units after the "1", and "infinit" and "infinity" agree on four units after
"inf". -/
theorem C79_sharp :
    fromCharsFloat Cfg.x64 CharType.char binary64 [49, 101, 43, 120] {} = .ok ⟨1, .ok, some 0x3ff0000000000000⟩ ∧
    fromCharsFloat Cfg.x64 CharType.char binary64 [49, 101, 43, 53] {} = .ok ⟨4, .ok, some 0x40f86a0000000000⟩ ∧
    fromCharsFloat Cfg.x64 CharType.char binary64 [105, 110, 102, 105, 110, 105, 116, 120] {} = .ok ⟨3, .ok, some 0x7ff0000000000000⟩ ∧
    fromCharsFloat Cfg.x64 CharType.char binary64 [105, 110, 102, 105, 110, 105, 116, 121] {} = .ok ⟨8, .ok, some 0x7ff0000000000000⟩ := by decide +kernel

/-! ### Integers: one unit -/

theorem int_agree {signed : Bool} {number : Bool → Nat → Code → Option Int → Prop} {fmt off : Nat} {base : Int} {s s' rest : List Nat} {code : Code} {v : Option Int}
    (h : IntSpec.IntCall signed number fmt base (body fmt s) rest code v) (hc : code ≠ .invalid) (hoff : off ≤ s.length) (hd : s.drop off = rest)
    (ha : s.take (off + 1) = s'.take (off + 1)) :
    off ≤ s'.length ∧ IntSpec.IntCall signed number fmt base (body fmt s') (s'.drop off) code v := by
  cases h with
  | @number neg ds _ _ _ h result =>
    obtain ⟨p, e1, hp⟩ := signed_append h.literal.text
    have hne : p ++ ds ≠ [] := by simp [h.literal.nonempty]
    obtain ⟨h1, h2, h3⟩ := agree_split (x := p ++ ds) (by rw [e1]; simp) hne hoff hd ha
    refine ⟨h1, .number (neg := neg) (ds := ds) ⟨h.two, h.max, ⟨?_, h.literal.digits, h.literal.nonempty, fun u hu => ?_⟩, h.sign⟩ result⟩
    · rw [h2, List.append_assoc]; exact hp _
    · obtain ⟨t, ht⟩ : ∃ t, s'.drop off = u :: t := by
        cases hs : s'.drop off with
        | nil => rw [hs] at hu; simp at hu
        | cons a t => rw [hs] at hu; simp at hu; exact ⟨t, by rw [hu]⟩
      obtain ⟨t', ht'⟩ := agree_head (by omega) h3 ht
      exact h.literal.maximal u (by rw [ht']; rfl)
  | invalid => exact absurd rfl hc

/-- **C79** for integers: one unit of lookahead is enough, for every integer type, base and options value. -/
theorem C79_lookahead_int (c : Cfg) {ct : CharType} {T : IntType} (hT : T.WF ∨ T.Wide) {s s' : List Nat} (opt : Options) (hin : Input ct s) (hin' : Input ct s')
    {r : ApiInt} (h : fromCharsIntApi c ct T s opt = .ok r) (hr : r.ec ≠ .invalidArgument) (ha : s.take (r.off + 1) = s'.take (r.off + 1)) :
    fromCharsIntApi c ct T s' opt = .ok r := by
  have hc : r.ec.code ≠ .invalid := by obtain ⟨_, ec, _⟩ := r; cases ec <;> simp_all [Errc.code]
  rcases hT with hT | hT
  · obtain ⟨h1, h2⟩ := (C53_actual_int c hT opt hin r).1 h
    exact (C53_actual_int c hT opt hin' r).2 (int_agree h2 hc h1 rfl ha)
  · obtain ⟨h1, h2⟩ := (C54_int128 c hT opt hin r).1 h
    exact (C54_int128 c hT opt hin' r).2 (int_agree h2 hc h1 rfl ha)

/-! ### Samples -/

/-- "1.5e,": reading stops after "1.5", and no text that begins with "1.5e, " reads differently. -/
example (t : List Nat) (h : Input .char ([49, 46, 53, 101, 44, 32] ++ t)) :
    fromCharsFloat Cfg.x64 CharType.char binary64 ([49, 46, 53, 101, 44, 32] ++ t) {} = .ok ⟨3, .ok, some 0x3ff8000000000000⟩ :=
  C79_lookahead_number Cfg.x64 .double {} (s := [49, 46, 53, 101, 44, 32]) (input_of_bytes (by decide) (by decide)) h (r := ⟨3, .ok, some 0x3ff8000000000000⟩)
    (by decide +kernel) (by decide) (by
      rintro (⟨_, _, t1, _, h1, ⟨v, h2, h3⟩, _⟩ | ⟨_, _, t1, _, h1, ⟨v, h2, h3⟩, _⟩) <;>
      · have e : textOf Cfg.x64 {} [49, 46, 53, 101, 44, 32] = [49, 46, 53, 101, 44, 32] := by decide
        rw [e] at h1
        have ht : t1 = [49, 46, 53, 101, 44, 32] := by
          rcases h1 with ⟨_, h1⟩ | ⟨_, h1⟩ | ⟨_, _, h1⟩
          · simp at h1
          · exact h1.symm
          · simp at h1
        subst ht
        cases v with
        | nil => simp [wInf, wNan] at h3
        | cons a v =>
          simp only [List.cons_append, List.cons.injEq] at h2
          rw [← h2.1] at h3
          simp [wInf, wNan, lower] at h3) (by simp)

/-- The parentheses of a NaN may be closed arbitrarily far away. -/
example : fromCharsFloat Cfg.x64 CharType.char binary64 [110, 97, 110, 40, 97, 97, 97, 97, 97, 97] {} = .ok ⟨3, .ok, some 0x7ff8000000000000⟩ ∧
    fromCharsFloat Cfg.x64 CharType.char binary64 [110, 97, 110, 40, 97, 97, 97, 97, 97, 97, 41] {} = .ok ⟨11, .ok, some 0x7ff8000000000000⟩ := by decide +kernel

example (s' : List Nat) (h : Input .char s') (h' : [110, 97, 110] = s'.take 3) :
    ∃ off', 3 ≤ off' ∧ fromCharsFloat Cfg.x64 CharType.char binary64 s' {} = .ok ⟨off', .ok, some 0x7ff8000000000000⟩ :=
  C79_lookahead_nan Cfg.x64 .double {} (s := [110, 97, 110]) (input_of_bytes (by decide) (by decide)) h (by decide +kernel) (by unfold ApiSpec.IsNaN; decide +kernel) h'

/-- "-12;" as an `int32_t`. -/
example (t : List Nat) (h : Input .char ([45, 49, 50, 59] ++ t)) :
    fromCharsIntApi Cfg.x64 CharType.char int32 ([45, 49, 50, 59] ++ t) {} = .ok ⟨3, .ok, some (-12)⟩ :=
  C79_lookahead_int Cfg.x64 (Or.inl (by decide)) {} (s := [45, 49, 50, 59]) (input_of_bytes (by decide) (by decide)) h (r := ⟨3, .ok, some (-12)⟩)
    (by decide +kernel) (by decide) (by simp)

end FastFloat
