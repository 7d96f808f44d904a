import Verif.Proofs.ScanText
/-
# C08, C12-C21: which texts are accepted, and where the pointer ends up
-/
set_option linter.unusedSimpArgs false
namespace FastFloat
open NumSpec FloatSpec ApiSpec

section helpers

theorem textOf_suffix (c : Cfg) (opt : Options) (s : List Nat) :
    ∃ ws, s = ws ++ textOf c opt s ∧ (∀ u ∈ ws, ApiSpec.isSpace u = true) ∧ (wsFlag (c.eff opt) = false → ws = []) := by
  unfold textOf body
  cases h : wsFlag (c.eff opt)
  · exact ⟨[], rfl, by simp, fun _ => rfl⟩
  · simp only [if_true]
    refine ⟨s.takeWhile ApiSpec.isSpace, List.takeWhile_append_dropWhile.symm, fun u hu => List.mem_takeWhile_imp hu, ?_⟩
    simp

theorem textOf_cons {c : Cfg} {opt : Options} {a : Nat} {s : List Nat} (ha : ApiSpec.isSpace a = false) : textOf c opt (a :: s) = a :: s := by
  unfold textOf body
  split
  · rw [List.dropWhile_cons_of_neg (by rw [ha]; simp)]
  · rfl

theorem Input.cons {ct : CharType} {s : List Nat} (h : Input ct s) {a : Nat} (ha : a < 128) (hl : s.length + 1 < 2 ^ 62) : Input ct (a :: s) := by
  refine ⟨h.wf, ?_, by simpa using hl⟩
  intro u hu
  rcases List.mem_cons.1 hu with rfl | hu
  · rcases h.wf.1 with hw | hw | hw <;> unfold GoodUnit <;> rw [hw] <;> norm_num <;> omega
  · exact h.units u hu

theorem scan_signed {g : Rules} {t rest : List Nat} {n : Numeral} (h : scanNumeral g t = some (n, rest)) (hs : n.sign = none) :
    refSign g t = (none, t) := by
  unfold scanNumeral at h
  simp only at h
  split at h
  swap
  · cases h
  split at h
  · cases h
  rename_i e r he
  simp only [Option.some.injEq, Prod.mk.injEq] at h
  have h1 : (refSign g t).1 = none := by rw [← hs, ← h.1]
  unfold refSign at h1 ⊢
  split at h1
  · cases h1
  · rename_i hc
    split at h1
    · cases h1
    · rename_i hd
      rw [if_neg hc, if_neg hd]

/-- The scanner on a text without sign, with a sign put in front. -/
theorem scan_cons_sign {g : Rules} {t : List Nat} {a : Nat} (h1 : refSign g t = (none, t)) (h2 : refSign g (a :: t) = (some a, t)) :
    scanNumeral g (a :: t) = (scanNumeral g t).map (fun x => ({ x.1 with sign := some a }, x.2)) := by
  unfold scanNumeral
  simp only [h1, h2]
  split
  · cases refExp g (refFrac g (afterRun t)).2 with
    | none => rfl
    | some y => rfl
  · rfl

end helpers

/-! ### C08 -/

/-- **C08**: putting a minus sign in front of an accepted unsigned numeral moves the pointer by one, sets the sign bit, and changes
nothing else. -/
theorem C08_minus_sign (c : Cfg) {ct : CharType} (T : FloatTy) {s : List Nat} (opt : Options) (hin : Input ct s)
    (hl : s.length + 1 < 2 ^ 62) (hp : (grammar c opt).PointOK) {n : Numeral} {rest : List Nat} {r : ApiFloat}
    (h : AcceptsNumber c ct T s opt n rest r) (hsign : n.sign = none) (hws : textOf c opt s = s) :
    ∃ b, r.value = some b ∧ b < T.spec.signBit ∧
      fromCharsFloat c ct T.fmt (45 :: s) opt = .ok ⟨r.off + 1, r.ec, some (T.spec.signBit + b)⟩ := by
  have hs := accepts_scan hin hp h
  obtain ⟨ec, v, k, h1, h2, h3⟩ := call_number' c T opt hin hp.1 hs
  have hneg : n.neg = false := by unfold Numeral.neg; rw [hsign]; rfl
  rw [hneg] at h3
  have hr := h3.symm.trans h.result
  cases hr
  rw [hws] at hs
  have hsg := scan_signed hs hsign
  have hin' : Input ct (45 :: s) := hin.cons (by norm_num) hl
  have hscan : scanNumeral (grammar c opt) (textOf c opt (45 :: s)) = some ({ n with sign := some 45 }, rest) := by
    rw [textOf_cons (by decide), scan_cons_sign hsg (by unfold refSign; exact if_pos rfl), hs]; rfl
  obtain ⟨ec', v', k', g1, g2, g3⟩ := call_number' c T opt hin' hp.1 hscan
  have hc : numCore c ct T { n with sign := some 45 } = numCore c ct T n := rfl
  rw [hc, h1] at g1
  cases g1
  refine ⟨_, rfl, ?_, ?_⟩
  · simp only [Bool.false_eq_true, if_false, Nat.add_zero]
    have hb := h2.bits
    simp only [Bool.false_eq_true, if_false, Nat.add_zero] at hb
    have := infIdx_lt_sign T
    rw [hb, T.signBit_eq]; omega
  · rw [g3]
    have hn2 : Numeral.neg { n with sign := some 45 } = true := rfl
    have hle : rest.length ≤ s.length := scan_rest hs
    rw [hn2, T.signBit_eq]
    simp only [if_true, Bool.false_eq_true, if_false, Nat.add_zero, List.length_cons]
    congr 2
    · omega
    · rw [Nat.add_comm]

/-- "0" and "-0". -/
example : ∃ b, (some 0 : Option Nat) = some b ∧ b < double.signBit ∧
    fromCharsFloat Cfg.x64 CharType.char binary64 [45, 48] {} = .ok ⟨2, .ok, some (2 ^ 63 + b)⟩ :=
  C08_minus_sign (s := [48]) Cfg.x64 .double {} ⟨by decide, by intro u hu; simp at hu; subst hu; unfold GoodUnit; decide, by decide⟩ (by decide) sample_point
    (n := ⟨none, [48], none, none⟩) (rest := []) (r := ⟨1, .ok, some 0⟩) ⟨by decide +kernel, by decide, scan_longest sample_point (by decide +kernel)⟩ rfl rfl

/-! ### C12, C13 -/

/-- **C12**: whenever the call does not report `invalid_argument`, and the text is not an infinity or a NaN, the characters before the
returned pointer are skipped white space followed by a numeral of the grammar, and no longer numeral starts there. -/
theorem C12_longest_numeral (c : Cfg) {ct : CharType} (T : FloatTy) {s : List Nat} (opt : Options) (hin : Input ct s)
    (hp : (grammar c opt).PointOK) {r : ApiFloat} (h : fromCharsFloat c ct T.fmt s opt = .ok r) (ha : r.ec ≠ .invalidArgument)
    (hi : ¬ InfNanText c opt s) :
    ∃ (ws : List Nat) (n : Numeral) (rest : List Nat), s = ws ++ (n.text opt.decimalPoint ++ rest) ∧ (∀ u ∈ ws, ApiSpec.isSpace u = true) ∧
      (wsFlag (c.eff opt) = false → ws = []) ∧
      LongestNumeral (grammar c opt) (n.text opt.decimalPoint ++ rest) n rest ∧ s.take r.off = ws ++ n.text opt.decimalPoint := by
  obtain ⟨rest, ho, hoff⟩ := call_outcome hin hp.1 h
  obtain ⟨ws, w1, w2, w3⟩ := textOf_suffix c opt s
  obtain ⟨ec, hec⟩ : ∃ ec, r.ec = ec := ⟨_, rfl⟩
  obtain ⟨v, hv⟩ : ∃ v, r.value = v := ⟨_, rfl⟩
  rw [hec] at ha ho
  rw [hv] at ho
  cases ho with
  | num hs hno =>
    rename_i n b
    have hl := scan_longest hp hs
    have ht := hl.2.1
    change textOf c opt s = n.text opt.decimalPoint ++ rest at ht
    refine ⟨ws, n, rest, by rw [← ht]; exact w1, w2, w3, by rw [← ht]; exact hl, ?_⟩
    rw [hoff, w1, ht]
    have : (ws ++ (n.text opt.decimalPoint ++ rest)).length - rest.length = (ws ++ n.text opt.decimalPoint).length := by
      simp; omega
    rw [this, ← List.append_assoc, List.take_left]
  | inf hn ht => exact absurd (Or.inl ⟨_, _, ht⟩) hi
  | nan hn ht => exact absurd (Or.inr ⟨_, _, ht⟩) hi
  | bad hs hb => exact absurd rfl ha

/-- The sample text is accepted up to, and not including, its final `x`. -/
example : ∃ (ws : List Nat) (n : Numeral) (rest : List Nat), sampleText = ws ++ (n.text 46 ++ rest) ∧ (∀ u ∈ ws, ApiSpec.isSpace u = true) ∧
    (wsFlag (Cfg.x64.eff {}) = false → ws = []) ∧ LongestNumeral (grammar Cfg.x64 {}) (n.text 46 ++ rest) n rest ∧ sampleText.take 31 = ws ++ n.text 46 :=
  C12_longest_numeral Cfg.x64 .double {} sample_input sample_point sample_accepts.result sample_accepts.accepted sample_not_infnan

/-- **C13**: a number is accepted if and only if some prefix of the text is a numeral of the grammar. -/
theorem C13_acceptance_complete (c : Cfg) {ct : CharType} (T : FloatTy) {s : List Nat} (opt : Options) (hin : Input ct s)
    (hp : (grammar c opt).PointOK) (hg : RegularFormat (c.eff opt)) :
    (∃ r, fromCharsFloat c ct T.fmt s opt = .ok r ∧ r.ec ≠ .invalidArgument ∧ ¬ InfNanText c opt s) ↔
      ∃ (m : Numeral) (q : List Nat), m.WF (grammar c opt) ∧ textOf c opt s = m.text opt.decimalPoint ++ q := by
  constructor
  · rintro ⟨r, h, ha, hi⟩
    obtain ⟨rest, ho, hoff⟩ := call_outcome hin hp.1 h
    obtain ⟨ec, hec⟩ : ∃ ec, r.ec = ec := ⟨_, rfl⟩
    obtain ⟨v, hv⟩ : ∃ v, r.value = v := ⟨_, rfl⟩
    rw [hec] at ha ho
    rw [hv] at ho
    cases ho with
    | num hs hno => exact ⟨_, _, (scan_sound hs).1, (scan_sound hs).2⟩
    | inf hn ht => exact absurd (Or.inl ⟨_, _, ht⟩) hi
    | nan hn ht => exact absurd (Or.inr ⟨_, _, ht⟩) hi
    | bad hs hb => exact absurd rfl ha
  · rintro ⟨m, q, h1, h2⟩
    obtain ⟨n, rest, hs⟩ := scan_complete hp hg h1 h2
    obtain ⟨k, b, ec, h3, _⟩ := scan_accepts (T := T) hin hp hs
    exact ⟨_, h3.result, h3.accepted, numeral_not_infnan' h1 h2⟩

/-- The sample text is accepted because a prefix of it is a numeral. -/
example : ∃ r, fromCharsFloat Cfg.x64 CharType.char binary64 sampleText {} = .ok r ∧ r.ec ≠ .invalidArgument ∧ ¬ InfNanText Cfg.x64 {} sampleText :=
  (C13_acceptance_complete Cfg.x64 .double {} sample_input sample_point ⟨by decide, Or.inl (by decide)⟩).2
    ⟨sampleNumeral, [120], sample_accepts.longest.1, sample_accepts.longest.2.1⟩

/-- **C13**, the other half: if no prefix is a numeral and the text is not an infinity or a NaN, `invalid_argument` is reported. -/
theorem C13_rejection (c : Cfg) {ct : CharType} (T : FloatTy) {s : List Nat} (opt : Options) (hin : Input ct s)
    (hdp : ¬ IsDigit opt.decimalPoint) (hno : ¬ ∃ (m : Numeral) (q : List Nat), m.WF (grammar c opt) ∧ textOf c opt s = m.text opt.decimalPoint ++ q)
    (hi : ¬ InfNanText c opt s) :
    fromCharsFloat c ct T.fmt s opt = .ok ⟨s.length - (textOf c opt s).length, .invalidArgument, none⟩ := by
  apply Outcome.call hin hdp
  apply Outcome.bad
  · cases hs : scanNumeral (rules (c.eff opt) opt.decimalPoint) (textOf c opt s) with
    | none => rfl
    | some x => exact absurd ⟨x.1, x.2, (scan_sound (n := x.1) (rest := x.2) hs).1, (scan_sound (n := x.1) (rest := x.2) hs).2⟩ hno
  · exact Or.inr ⟨fun h => hi (Or.inl h), fun h => hi (Or.inr h)⟩

/-- `-.` is rejected. -/
example : fromCharsFloat Cfg.x64 CharType.char binary64 [45, 46] {} = .ok ⟨0, .invalidArgument, none⟩ :=
  C13_rejection Cfg.x64 .double {} (input_of_bytes (by decide) (by decide)) sample_point.1 (by
    rintro ⟨m, q, h1, h2⟩
    obtain ⟨n, rest, h⟩ := scan_complete sample_point (show RegularFormat (Cfg.x64.eff {}) from ⟨by decide, Or.inl (by decide)⟩) h1 h2
    exact absurd h (by rw [show scanNumeral (grammar Cfg.x64 {}) (textOf Cfg.x64 {} [45, 46]) = none by decide +kernel]; simp))
    (short_not_infnan (by decide))

/-- Outside the regular formats completeness fails: with only the Fortran bit set, "1+" is rejected although "1" is a numeral. -/
theorem C13_irregular_format : ∃ (m : Numeral) (q : List Nat), m.WF (grammar Cfg.x64 { format := 64 }) ∧ textOf Cfg.x64 { format := 64 } [49, 43] = m.text 46 ++ q ∧
    fromCharsFloat Cfg.x64 CharType.char binary64 [49, 43] { format := 64 } = .ok ⟨0, .invalidArgument, none⟩ := by
  refine ⟨⟨none, [49], none, none⟩, [43], ⟨Or.inl rfl, ?_, ?_, ?_⟩, rfl, by decide +kernel⟩
  · intro u hu; simp [Numeral.digits] at hu; subst hu; unfold IsDigit; omega
  · simp [grammar, rules, Numeral.digits, Cfg.eff, effective, Cfg.x64, Nat.testBit]
  · unfold Numeral.ExpOK
    rintro ⟨h, _⟩
    revert h; decide

/-! ### C14 -/

/-- **C14**: on `invalid_argument` nothing is stored and the pointer is where the text starts (`first`, or after the skipped white
space). -/
theorem C14_failure_leaves_value (c : Cfg) {ct : CharType} (T : FloatTy) {s : List Nat} (opt : Options) (hin : Input ct s)
    (hdp : ¬ IsDigit opt.decimalPoint) {r : ApiFloat} (h : fromCharsFloat c ct T.fmt s opt = .ok r) (he : r.ec = .invalidArgument) :
    r.value = none ∧ s.drop r.off = textOf c opt s := by
  obtain ⟨rest, ho, hoff⟩ := call_outcome hin hdp h
  obtain ⟨ws, w1, w2, w3⟩ := textOf_suffix c opt s
  obtain ⟨v, hv⟩ : ∃ v, r.value = v := ⟨_, rfl⟩
  rw [he, hv] at ho
  rw [hv]
  have key : v = none ∧ rest = textOf c opt s := by
    cases ho with
    | num hs hno =>
      rename_i n b
      exfalso
      obtain ⟨ec, v, k, h1, h2⟩ := numCore_spec c hin.wf T (scan_sound hs).1.2.1
      unfold numOut at hno
      rw [h1] at hno
      have hno : (ec, coreBits T.fmt false v) = (.invalidArgument, b) := Except.ok.inj hno
      have := (Prod.mk.inj hno).1
      rcases h2.ecs with h | h <;> rw [h] at this <;> cases this
    | bad hs hb => exact ⟨rfl, rfl⟩
  refine ⟨key.1, ?_⟩
  have hw : s.length - (textOf c opt s).length = ws.length := by
    have := congrArg List.length w1
    rw [List.length_append] at this; omega
  rw [hoff, key.2, hw]
  conv_lhs => rw [w1, List.drop_left]

/-- `-x` is rejected without moving the pointer. -/
example : (none : Option Nat) = none ∧ [45, 120].drop 0 = [45, 120] :=
  C14_failure_leaves_value Cfg.x64 .double {} (input_of_bytes (s := [45, 120]) (by decide) (by decide)) sample_point.1
    (r := ⟨0, .invalidArgument, none⟩) (by decide +kernel) rfl

/-- **C14**: conversely, whenever something is accepted a value is stored. -/
theorem C14_success_stores (c : Cfg) {ct : CharType} (T : FloatTy) {s : List Nat} (opt : Options) (hin : Input ct s)
    (hdp : ¬ IsDigit opt.decimalPoint) {r : ApiFloat} (h : fromCharsFloat c ct T.fmt s opt = .ok r) (he : r.ec ≠ .invalidArgument) :
    r.value ≠ none := by
  obtain ⟨rest, ho, hoff⟩ := call_outcome hin hdp h
  obtain ⟨ec, hec⟩ : ∃ ec, r.ec = ec := ⟨_, rfl⟩
  obtain ⟨v, hv⟩ : ∃ v, r.value = v := ⟨_, rfl⟩
  rw [hec, hv] at ho
  rw [hec] at he
  rw [hv]
  cases ho with
  | num hs hno => simp
  | inf hn ht => simp
  | nan hn ht => simp
  | bad hs hb => exact absurd rfl he

/-- Even an underflow stores a value. -/
example : (some 2147483648 : Option Nat) ≠ none :=
  C14_success_stores Cfg.x64 .float {} under_input sample_point.1 under_accepts.result under_accepts.accepted

/-- "-x" is rejected. -/
example : fromCharsFloat Cfg.x64 CharType.char binary64 [45, 120] {} = .ok ⟨0, .invalidArgument, none⟩ := by decide +kernel

/-! ### C15 -/

/-- **C15**: with scientific but not fixed, a number is accepted only with an exponent, and the exponent is consumed. -/
theorem C15_scientific_only (c : Cfg) {ct : CharType} {T : FloatTy} {s : List Nat} {opt : Options} (hin : Input ct s)
    (hp : (grammar c opt).PointOK) {r : ApiFloat} (h : fromCharsFloat c ct T.fmt s opt = .ok r) (ha : r.ec ≠ .invalidArgument)
    (hi : ¬ InfNanText c opt s) (h1 : (c.eff opt).testBit 0 = true) (h2 : (c.eff opt).testBit 2 = false) :
    ∃ (n : Numeral) (e : Exponent) (rest : List Nat), Consumed c opt s r.off n rest ∧ n.exp = some e ∧ e.WF (grammar c opt) := by
  obtain ⟨ws, n, rest, h3, h4, h5, h6, h7⟩ := C12_longest_numeral c T opt hin hp h ha hi
  have := h6.1.2.2.2
  cases he : n.exp with
  | none => rw [he] at this; exact absurd ⟨h1, h2⟩ this
  | some e => rw [he] at this; exact ⟨n, e, rest, ⟨ws, h3, h4, h5, h7⟩, he, this⟩

/-- `1e2` with scientific only. -/
example : ∃ (n : Numeral) (e : Exponent) (rest : List Nat), Consumed Cfg.x64 { format := 1 } hundredAText 3 n rest ∧ n.exp = some e ∧
    e.WF (grammar Cfg.x64 { format := 1 }) :=
  C15_scientific_only Cfg.x64 (T := .double) (opt := { format := 1 }) hundredA_input sample_point (r := ⟨3, .ok, some 4636737291354636288⟩) (by decide +kernel) (by decide)
    (numeral_not_infnan' (c := Cfg.x64) (opt := { format := 1 }) (s := hundredAText) (n := hundredANumeral) (rest := [])
      (scan_sound (g := grammar Cfg.x64 { format := 1 }) (s := hundredAText) (rest := []) (by decide +kernel)).1 rfl) (by decide) (by decide)

/-- **C15**: with fixed but not scientific (and no Fortran bit), no exponent is consumed. -/
theorem C15_fixed_only (c : Cfg) {ct : CharType} {T : FloatTy} {s : List Nat} {opt : Options} (hin : Input ct s)
    (hp : (grammar c opt).PointOK) {r : ApiFloat} (h : fromCharsFloat c ct T.fmt s opt = .ok r) (ha : r.ec ≠ .invalidArgument)
    (hi : ¬ InfNanText c opt s) (h1 : (c.eff opt).testBit 0 = false) (h2 : (c.eff opt).testBit 6 = false) :
    ∃ (n : Numeral) (rest : List Nat), Consumed c opt s r.off n rest ∧ n.exp = none := by
  obtain ⟨ws, n, rest, h3, h4, h5, h6, h7⟩ := C12_longest_numeral c T opt hin hp h ha hi
  refine ⟨n, rest, ⟨ws, h3, h4, h5, h7⟩, ?_⟩
  cases he : n.exp with
  | none => rfl
  | some e =>
    have := h6.1.2.2.2
    rw [he] at this
    rcases this.2.2.2 with ⟨h, _⟩ | ⟨h, _⟩ | ⟨h, _⟩
    · change (c.eff opt).testBit 0 = true at h; rw [h1] at h; cases h
    · change (c.eff opt).testBit 6 = true at h; rw [h2] at h; cases h
    · change (c.eff opt).testBit 6 = true at h; rw [h2] at h; cases h

/-- `100.0` with fixed only. -/
example : ∃ (n : Numeral) (rest : List Nat), Consumed Cfg.x64 { format := 4 } hundredBText 5 n rest ∧ n.exp = none :=
  C15_fixed_only Cfg.x64 (T := .double) (opt := { format := 4 }) hundredB_input sample_point (r := ⟨5, .ok, some 4636737291354636288⟩) (by decide +kernel) (by decide)
    (numeral_not_infnan' (c := Cfg.x64) (opt := { format := 4 }) (s := hundredBText) (n := hundredBNumeral) (rest := [])
      (scan_sound (g := grammar Cfg.x64 { format := 4 }) (s := hundredBText) (rest := []) (by decide +kernel)).1 rfl) (by decide) (by decide)

/-- The pointer after accepting `n`. -/
theorem number_pointer (c : Cfg) {ct : CharType} (T : FloatTy) {s : List Nat} {opt : Options} (hin : Input ct s)
    (hp : (grammar c opt).PointOK) {n : Numeral} {rest : List Nat} (hs : scanNumeral (grammar c opt) (textOf c opt s) = some (n, rest)) :
    ∃ r, fromCharsFloat c ct T.fmt s opt = .ok r ∧ r.ec ≠ .invalidArgument ∧ s.drop r.off = rest := by
  obtain ⟨k, b, ec, h3, _⟩ := scan_accepts (T := T) hin hp hs
  refine ⟨_, h3.result, h3.accepted, ?_⟩
  obtain ⟨ws, w1, w2, w3⟩ := textOf_suffix c opt s
  have ht := (scan_sound hs).2
  rw [ht] at w1
  have : s.length - rest.length = (ws ++ n.text (grammar c opt).point).length := by
    rw [w1]; simp; omega
  simp only
  rw [this]
  conv_lhs => rw [w1, ← List.append_assoc, List.drop_left]

/-- **C15**: with scientific set, a significand followed by a well-formed exponent is accepted together with the exponent. -/
theorem C15_exponent_consumed (c : Cfg) {ct : CharType} (T : FloatTy) {s : List Nat} {opt : Options} (hin : Input ct s)
    (hp : (grammar c opt).PointOK) {n : Numeral} {e : Exponent} {rest : List Nat} (hn : n.WF (grammar c opt)) (he : n.exp = some e)
    (ht : textOf c opt s = n.text opt.decimalPoint ++ rest) (hr : ∀ u t, rest = u :: t → ¬ IsDigit u) :
    ∃ r, fromCharsFloat c ct T.fmt s opt = .ok r ∧ r.ec ≠ .invalidArgument ∧ s.drop r.off = rest :=
  number_pointer c T hin hp (n := n) (by rw [ht]; exact scan_text hp hn (Or.inl ⟨by rw [he]; simp, hr⟩))

/-- `-7e-46` -/
example : ∃ r, fromCharsFloat Cfg.x64 CharType.char binary32 underText {} = .ok r ∧ r.ec ≠ .invalidArgument ∧ underText.drop r.off = [] :=
  C15_exponent_consumed Cfg.x64 .float under_input sample_point (n := underNumeral) (e := ⟨some 101, some 45, [52, 54]⟩) under_accepts.longest.1 rfl rfl
    (by intro u t h; cases h)

/-- **C15**: with fixed set, a significand followed by something that is neither a continuation of it nor a well-formed exponent is
accepted, and the pointer is right after the significand. -/
theorem C15_exponent_left (c : Cfg) {ct : CharType} (T : FloatTy) {s : List Nat} {opt : Options} (hin : Input ct s)
    (hp : (grammar c opt).PointOK) (hf : (c.eff opt).testBit 2 = true) {n : Numeral} {rest : List Nat} (hn : n.WF (grammar c opt))
    (he : n.exp = none) (ht : textOf c opt s = n.text opt.decimalPoint ++ rest)
    (hr : ∀ u t, rest = u :: t → ¬ IsDigit u ∧ (n.frac = none → u ≠ opt.decimalPoint))
    (hx : ¬ ∃ (e : Exponent) (q : List Nat), e.WF (grammar c opt) ∧ rest = e.text ++ q) :
    ∃ r, fromCharsFloat c ct T.fmt s opt = .ok r ∧ r.ec ≠ .invalidArgument ∧ s.drop r.off = rest := by
  apply number_pointer c T hin hp (n := n)
  rw [ht]
  apply scan_text_noExp hp hn he hf (fun u t h => (hr u t h).1) _ hx
  intro hfr
  cases rest with
  | nil => rfl
  | cons u t =>
    have := (hr u t rfl).2 hfr
    simp only [headIs]
    exact beq_false_of_ne this

/-- The significand of the sample text is accepted although an `x` follows. -/
example : ∃ r, fromCharsFloat Cfg.x64 CharType.char binary64 sampleText {} = .ok r ∧ r.ec ≠ .invalidArgument ∧ sampleText.drop r.off = [120] :=
  C15_exponent_left Cfg.x64 .double sample_input sample_point (by decide) (n := sampleNumeral) sample_accepts.longest.1 rfl rfl
    (by intro u t h; cases h; exact ⟨by unfold IsDigit; omega, by decide⟩)
    (by
      rintro ⟨e, q, h1, h2⟩
      have hm := h1.2.2.2
      have hs := h1.2.2.1
      unfold Exponent.text at h2
      rcases hm with ⟨_, h | h⟩ | ⟨h, _⟩ | ⟨h, _⟩
      · rw [h] at h2; simp at h2
      · rw [h] at h2; simp at h2
      · exact absurd h (by decide)
      · exact absurd h (by decide))

/-- With both fixed and scientific "1e+" is the number 1; with scientific alone it is rejected; with fixed alone "1e2" is the number 1. -/
example : fromCharsFloat Cfg.x64 CharType.char binary64 [49, 101, 43] {} = .ok ⟨1, .ok, some 0x3FF0000000000000⟩ := by decide +kernel
example : fromCharsFloat Cfg.x64 CharType.char binary64 [49, 101, 43] { format := 1 } = .ok ⟨0, .invalidArgument, none⟩ := by decide +kernel
example : fromCharsFloat Cfg.x64 CharType.char binary64 [49, 101, 50] { format := 4 } = .ok ⟨1, .ok, some 0x3FF0000000000000⟩ := by decide +kernel

end FastFloat
