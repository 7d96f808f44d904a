import Verif.Proofs.Scanner
/-
# Specification of `parse_number_string` by the reference scanner
-/
set_option linter.unusedSimpArgs false

namespace FastFloat
open NumSpec

/-- The grammar selected by the (macro-adjusted) format bits. -/
def scanRules (json : Bool) (fmt : Fmt) (dp : Nat) : Rules :=
  ⟨dp, json, fmt.has Fmt.allowLeadingPlus, fmt.has Fmt.fixed, fmt.has Fmt.scientific, fmt.has Fmt.basicFortran⟩

theorem run_len (s : List Nat) : s.length - (afterRun s).length = (run s).length := by
  have := congrArg List.length (run_append s)
  rw [List.length_append] at this; omega

theorem take_run (s : List Nat) : s.take (run s).length = run s := by
  obtain ⟨r, hr⟩ : ∃ r, run s = r := ⟨_, rfl⟩
  have := run_append s
  rw [hr] at this ⊢
  rw [← this, List.take_left']
  rfl

theorem mem_afterRun {s : List Nat} {u : Nat} (h : u ∈ afterRun s) : u ∈ s := by
  rw [← run_append s]; exact List.mem_append_right _ h

theorem refSign_mem {g : Rules} {s : List Nat} {u : Nat} (h : u ∈ (refSign g s).2) : u ∈ s := by
  rw [← refSign_append g s]; exact List.mem_append_right _ h

theorem refFrac_mem {g : Rules} {s : List Nat} {u : Nat} (h : u ∈ (refFrac g s).2) : u ∈ s := by
  rw [← refFrac_append g s]; exact List.mem_append_right _ h

theorem peekIs_eq (s : List Nat) (c : Nat) : peekIs s c = headIs s c := rfl

theorem refSign_neg (g : Rules) (s : List Nat) : ((refSign g s).1 == some 45) = headIs s 45 := by
  unfold refSign
  split
  · rename_i h; rw [h]; rfl
  · rename_i h
    have h : headIs s 45 = false := by simpa using h
    rw [h]
    split <;> rfl

theorem mant_false_of {g : Rules} {t : List Nat} (h1 : run t = []) (h2 : g.json = true ∨ headIs t g.point = false) :
    mantOK g (run t) (refFrac g (afterRun t)).1 = false := by
  have hat : afterRun t = t := by have := run_append t; rw [h1] at this; exact this
  unfold mantOK
  rw [h1, hat]
  by_cases hj : g.json = true
  · rw [if_pos hj]; rfl
  · rw [if_neg hj]
    have h2 := h2.resolve_left hj
    unfold refFrac
    rw [h2]; rfl

theorem run_eq_nil_of {a : Nat} {t : List Nat} (h : isDigB a = false) : run (a :: t) = [] := (run_cons_neg h).1

theorem signStep_spec {ct : CharType} (hw : ct.WF) (json : Bool) (fmt : Fmt) (dp : Nat) {s : List Nat} (hs : s ≠ [])
    (hu : ∀ u ∈ s, UnitOK ct u) :
    (∃ r, signStep ct json fmt dp s = .ok (.fail r) ∧ r.valid = false ∧
      mantOK (scanRules json fmt dp) (run (refSign (scanRules json fmt dp) s).2)
        (refFrac (scanRules json fmt dp) (afterRun (refSign (scanRules json fmt dp) s).2)).1 = false) ∨
    signStep ct json fmt dp s = .ok (.go (headIs s 45, (refSign (scanRules json fmt dp) s).2)) := by
  cases s with
  | nil => exact absurd rfl hs
  | cons a t =>
    unfold signStep
    simp only [deref, bind, Except.bind]
    have hneg : (a == chMinus) = headIs (a :: t) 45 := rfl
    have hplus : (a == chPlus) = headIs (a :: t) 43 := rfl
    rw [hneg, hplus]
    by_cases hc : (headIs (a :: t) 45 || (fmt.has Fmt.allowLeadingPlus && !json && headIs (a :: t) 43)) = true
    · rw [if_pos hc]
      have hr : (refSign (scanRules json fmt dp) (a :: t)).2 = t := by
        unfold refSign
        by_cases h1 : headIs (a :: t) 45 = true
        · rw [if_pos h1]; rfl
        · rw [if_neg h1]
          have h1 : headIs (a :: t) 45 = false := by simpa using h1
          rw [h1, Bool.false_or] at hc
          rw [if_pos (by exact hc)]; rfl
      rw [hr]
      simp only [advance]
      cases t with
      | nil =>
        left
        refine ⟨_, rfl, rfl, mant_false_of rfl (Or.inr rfl)⟩
      | cons b t =>
        simp only
        rw [isInteger_eq hw (hu b (by simp))]
        simp only
        cases hd : isDigB b with
        | true =>
          right
          cases json <;> simp [pure, Except.pure]
        | false =>
          cases hj : json with
          | true =>
            left
            exact ⟨_, rfl, rfl, mant_false_of (run_eq_nil_of hd) (Or.inl rfl)⟩
          | false =>
            by_cases hb : b = dp
            · right
              subst hb
              simp [pure, Except.pure]
            · left
              refine ⟨reportParseError (b :: t) .missingIntegerOrDotAfterSign, by simp [hb, pure, Except.pure], rfl,
                mant_false_of (run_eq_nil_of hd) (Or.inr ?_)⟩
              simp [headIs, scanRules, hb]
    · rw [if_neg hc]
      right
      have hr : (refSign (scanRules json fmt dp) (a :: t)).2 = a :: t := by
        unfold refSign
        simp only [Bool.or_eq_true, not_or] at hc
        rw [if_neg hc.1, if_neg (by exact hc.2)]
      rw [hr]
      rfl

theorem intStep_spec {ct : CharType} (hw : ct.WF) (g : Rules) {t : List Nat} (hu : ∀ u ∈ t, UnitOK ct u) :
    (∃ r, intStep ct g.json t = .ok (.fail r) ∧ r.valid = false ∧ mantOK g (run t) (refFrac g (afterRun t)).1 = false) ∨
    (intStep ct g.json t = .ok (.go (dval (run t) % 2 ^ 64, afterRun t)) ∧
      (g.json = true → run t ≠ [] ∧ (headIs (run t) 48 && decide ((run t).length > 1)) = false)) := by
  unfold intStep
  have := digitLoop_eq hw t 0 hu
  rw [show (0 : Nat) % 2 ^ 64 = 0 from rfl] at this
  simp only [bind, Except.bind, intDigits_eq_loop, this, run_len]
  cases hj : g.json with
  | false =>
    right
    refine ⟨rfl, by simp⟩
  | true =>
    simp only [if_true]
    by_cases h0 : (run t).length = 0
    · rw [if_pos h0]
      left
      refine ⟨_, rfl, rfl, mant_false_of (List.length_eq_zero_iff.1 h0) (Or.inl hj)⟩
    · rw [if_neg h0]
      cases t with
      | nil => exact absurd rfl h0
      | cons a t =>
        have hd : isDigB a = true := by
          by_contra hc
          have hc : isDigB a = false := by simpa using hc
          rw [run_eq_nil_of hc] at h0; exact h0 rfl
        have hh : (a == ch0) = headIs (run (a :: t)) 48 := by rw [(run_cons_pos hd).1]; rfl
        simp only [deref]
        rw [hh]
        by_cases hz : (headIs (run (a :: t)) 48 && decide ((run (a :: t)).length > 1)) = true
        · rw [if_pos hz]
          left
          refine ⟨_, rfl, rfl, ?_⟩
          unfold mantOK
          rw [if_pos hj, hz]
          simp
        · rw [if_neg hz]
          right
          refine ⟨rfl, fun _ => ⟨?_, by simpa using hz⟩⟩
          intro hc; rw [hc] at h0; exact h0 rfl

theorem fracStep_spec (c : Cfg) {ct : CharType} (hw : ct.WF) (g : Rules) {t : List Nat} (i : Nat) (hu : ∀ u ∈ t, UnitOK ct u) :
    fracStep c ct g.point (i % 2 ^ 64) t = .ok ⟨dvalFrom i ((refFrac g t).1.getD []) % 2 ^ 64, (refFrac g t).2, ((refFrac g t).1.getD []).length,
      (refFrac g t).1⟩ := by
  unfold fracStep refFrac
  rw [peekIs_eq]
  by_cases hh : headIs t g.point = true
  · rw [if_pos hh, if_pos hh]
    obtain ⟨u, rfl⟩ := headIs_iff.1 hh
    simp only [advance, bind, Except.bind, List.drop_succ_cons, List.drop_zero]
    obtain ⟨r, e1, e2⟩ := loops_eq c hw u i (fun x hx => hu x (List.mem_cons_of_mem _ hx))
    rw [e1]
    simp only [e2, pure, Except.pure, run_len, take_run, Option.getD_some]
  · rw [if_neg hh, if_neg hh]
    rfl

theorem expSign_eq (s : List Nat) : (expSign s).2 = (refExpSign s).2 ∧ ((expSign s).1 = true ↔ (refExpSign s).1 = some 45) := by
  cases s with
  | nil => simp [expSign, refExpSign, headIs]
  | cons a s =>
    unfold expSign refExpSign headIs
    simp only
    by_cases h1 : (a == 45) = true
    · rw [if_pos h1]; simp [h1]
    · rw [if_neg h1]
      have h1 : (a == 45) = false := by simpa using h1
      by_cases h2 : (a == 43) = true
      · simp [h1, h2]
      · have h2 : (a == 43) = false := by simpa using h2
        simp [h1, h2]

theorem refExpSign_mem {s : List Nat} {u : Nat} (h : u ∈ (refExpSign s).2) : u ∈ s := by
  rw [← refExpSign_append s]; exact List.mem_append_right _ h

theorem expDigits_spec {ct : CharType} (hw : ct.WF) (p2 : List Nat) (hu : ∀ u ∈ p2, UnitOK ct u) :
    peekDigit ct p2 = .ok (!(run p2).isEmpty) := by
  cases p2 with
  | nil => rfl
  | cons a t =>
    simp only [peekDigit]
    rw [isInteger_eq hw (hu a List.mem_cons_self)]
    cases hd : isDigB a with
    | true => rw [(run_cons_pos hd).1]; rfl
    | false => rw [(run_cons_neg hd).1]; rfl

theorem marker_code (g : Rules) (fmt : Fmt) (hsci : g.scientific = fmt.has Fmt.scientific) (hfor : g.fortran = fmt.has Fmt.basicFortran)
    (p : List Nat) :
    (startsExponent fmt p = false ∧ refMarker g p = none) ∨
    (startsExponent fmt p = true ∧ ∃ mk p1, refMarker g p = some (mk, p1) ∧
      skipMarker p = .ok p1) := by
  unfold startsExponent refMarker skipMarker
  rw [← hsci, ← hfor]
  have hE : peekE p = (headIs p 101 || headIs p 69) := rfl
  have hD : peekD p = (headIs p 100 || headIs p 68) := rfl
  have hS : peekSign p = (headIs p 43 || headIs p 45) := rfl
  rw [← hE, ← hD, ← hS]
  cases p with
  | nil => left; exact ⟨by simp [peekE, peekD, peekSign, peekIs], by simp [peekE, peekD, peekSign, peekIs]⟩
  | cons a t =>
    by_cases h1 : (g.scientific && peekE (a :: t)) = true
    · right
      rw [if_pos h1]
      refine ⟨by rw [h1]; rfl, some a, t, rfl, ?_⟩
      simp only [Bool.and_eq_true] at h1
      rw [h1.2]; rfl
    · have h1' : (g.scientific && peekE (a :: t)) = false := by simpa using h1
      rw [if_neg h1, h1', Bool.false_or]
      by_cases h2 : (g.fortran && peekD (a :: t)) = true
      · right
        rw [if_pos h2]
        simp only [Bool.and_eq_true] at h2
        refine ⟨by rw [h2.1, h2.2]; simp, some a, t, rfl, ?_⟩
        rw [h2.2]; simp; rfl
      · rw [if_neg h2]
        have h2' : (g.fortran && peekD (a :: t)) = false := by simpa using h2
        by_cases h3 : (g.fortran && peekSign (a :: t)) = true
        · right
          rw [if_pos h3]
          simp only [Bool.and_eq_true] at h3
          refine ⟨by rw [h3.1, h3.2]; simp, none, a :: t, rfl, ?_⟩
          have hs := h3.2
          simp only [peekSign, peekIs, Bool.or_eq_true, beq_iff_eq] at hs
          rw [if_neg]
          · simp only [peekE, peekD, peekIs, Bool.or_eq_true, beq_iff_eq]; omega
        · rw [if_neg h3]
          left
          refine ⟨?_, rfl⟩
          have h3' : (g.fortran && peekSign (a :: t)) = false := by simpa using h3
          rw [Bool.and_or_distrib_left, h2', h3']; rfl

theorem expStep_spec {ct : CharType} (hw : ct.WF) (json : Bool) (fmt : Fmt) (dp : Nat) {p : List Nat} (hu : ∀ u ∈ p, UnitOK ct u) :
    (∃ r, expStep ct fmt p = .ok (.fail r) ∧ r.valid = false ∧ refExp (scanRules json fmt dp) p = none) ∨
    (∃ e rest, refExp (scanRules json fmt dp) p = some (e, rest) ∧ expStep ct fmt p = .ok (.go (satExp e, rest))) := by
  unfold expStep refExp
  rcases marker_code (scanRules json fmt dp) fmt rfl rfl p with ⟨h1, h2⟩ | ⟨h1, mk, p1, h2, h3⟩
  · rw [h1, h2]
    simp only [Bool.false_eq_true, if_false]
    by_cases hc : (fmt.has Fmt.scientific && !fmt.has Fmt.fixed) = true
    · left
      rw [if_pos hc, if_pos (by exact hc)]
      exact ⟨_, rfl, rfl, rfl⟩
    · right
      rw [if_neg hc, if_neg (by exact hc)]
      exact ⟨_, _, rfl, rfl⟩
  · rw [h1, h2]
    simp only [if_true]
    have hmem : ∀ u ∈ p1, UnitOK ct u := fun u hx => hu u (by rw [← refMarker_append h2]; exact List.mem_append_right _ hx)
    obtain ⟨e1, e2⟩ := expSign_eq p1
    obtain ⟨ng, hng⟩ : ∃ ng, (expSign p1).1 = ng := ⟨_, rfl⟩
    obtain ⟨p2, hp2⟩ : ∃ p2, (expSign p1).2 = p2 := ⟨_, rfl⟩
    have hp : expSign p1 = (ng, p2) := by rw [← hng, ← hp2]
    rw [hng] at e2
    rw [hp2] at e1
    have hmem2 : ∀ u ∈ p2, UnitOK ct u := fun u hx => hmem u (refExpSign_mem (by rw [← e1]; exact hx))
    simp only [bind, Except.bind, h3, hp]
    rw [← e1, expDigits_spec hw p2 hmem2]
    simp only [Bool.not_not]
    by_cases hr : (run p2).isEmpty = true
    · rw [if_pos hr, if_pos hr]
      have hff : (scanRules json fmt dp).fixed = fmt.has Fmt.fixed := rfl
      rw [hff]
      cases hf : fmt.has Fmt.fixed with
      | true => right; exact ⟨_, _, rfl, rfl⟩
      | false => left; exact ⟨_, rfl, rfl, rfl⟩
    · rw [if_neg hr, if_neg hr]
      right
      refine ⟨_, _, rfl, ?_⟩
      have := expDigitLoop_eq hw p2 0 hmem2 (by norm_num)
      rw [Nat.cast_zero] at this
      rw [this]
      simp only [pure, Except.pure, satExp]
      by_cases hn : ng = true
      · rw [if_pos hn, if_pos (e2.1 hn)]
      · rw [if_neg hn, if_neg (fun h => hn (e2.2 h))]

/-! ### Leading zeros and the 19-digit truncation -/

theorem lz_digits (dp : Nat) (hdp : ¬ IsDigit dp) : ∀ (l r : List Nat), (∀ c ∈ l, IsDigit c) →
    (dz l = [] → leadingZeroRun dp (l ++ r) = l.length + leadingZeroRun dp r) ∧
    (dz l ≠ [] → leadingZeroRun dp (l ++ r) = l.length - (dz l).length) := by
  intro l
  induction l with
  | nil => intro r _; simp [dz]
  | cons a l ih =>
    intro r hd
    have ha := hd a List.mem_cons_self
    have ih := ih r (fun c hc => hd c (List.mem_cons_of_mem _ hc))
    have hne : a ≠ dp := by rintro rfl; exact hdp ha
    rw [List.cons_append]
    have hstep : leadingZeroRun dp (a :: (l ++ r)) = if a == ch0 || a == dp then (if a == ch0 then 1 else 0) + leadingZeroRun dp (l ++ r) else 0 := rfl
    rw [hstep]
    unfold dz
    by_cases hz : a = 48
    · subst hz
      simp only [List.cons_append, List.dropWhile_cons, beq_self_eq_true, if_true, ch0, Bool.true_or, List.length_cons]
      unfold dz at ih
      constructor
      · intro h; rw [ih.1 h]; omega
      · intro h
        rw [ih.2 h]
        have : (List.dropWhile (fun x => x == 48) l).length ≤ l.length := (List.dropWhile_sublist _).length_le
        omega
    · have h48 : (a == 48) = false := by simp [hz]
      have hdp' : (a == dp) = false := by simp [hne]
      simp [List.cons_append, List.dropWhile_cons, h48, ch0, hdp']

theorem leadingZeroRun_dp (dp : Nat) (hdp : ¬ IsDigit dp) (r : List Nat) : leadingZeroRun dp (dp :: r) = leadingZeroRun dp r := by
  have : (dp == 48) = false := by
    simp; rintro rfl; exact hdp (by unfold IsDigit; omega)
  simp [leadingZeroRun, ch0, this]

theorem leadingZeroRun_nz {dp : Nat} (hdp : ¬ IsDigit dp) {l : List Nat} (hl : ∀ c ∈ l, IsDigit c) (hne : dz l ≠ []) (r : List Nat) :
    leadingZeroRun dp (l ++ r) = l.length - (dz l).length := (lz_digits dp hdp l r hl).2 hne

/-- The digit count test: more than 19 digits after dropping leading zeros. -/
theorem lzr_spec {dp : Nat} (hdp : ¬ IsDigit dp) (int : List Nat) (frac : Option (List Nat)) (rest : List Nat)
    (hd : ∀ c ∈ int ++ frac.getD [], IsDigit c) :
    ((int ++ frac.getD []).length > 19 ∧
      (((int ++ frac.getD []).length : Int) - leadingZeroRun dp (int ++ (Numeral.fracText dp frac ++ rest)) > 19)) ↔
    (dz (int ++ frac.getD [])).length > 19 := by
  have hi : ∀ c ∈ int, IsDigit c := fun c hc => hd c (List.mem_append_left _ hc)
  have hf : ∀ c ∈ frac.getD [], IsDigit c := fun c hc => hd c (List.mem_append_right _ hc)
  have hle : ∀ l : List Nat, (dz l).length ≤ l.length := fun l => (List.dropWhile_sublist _).length_le
  have hL := hle (int ++ frac.getD [])
  have hLi := hle int
  have hLf := hle (frac.getD [])
  rw [dz_append] at hL ⊢
  rw [List.length_append] at hL ⊢
  obtain ⟨h1, h2⟩ := lz_digits dp hdp int (Numeral.fracText dp frac ++ rest) hi
  by_cases hz : dz int = []
  · rw [if_pos hz] at hL ⊢
    rw [h1 hz]
    cases frac with
    | none =>
      simp only [Option.getD_none, fracText_none, List.nil_append, List.length_nil] at *
      simp only [show dz [] = [] from rfl, List.length_nil]
      omega
    | some ds =>
      simp only [Option.getD_some, fracText_some, List.cons_append] at *
      rw [leadingZeroRun_dp dp hdp]
      obtain ⟨h3, h4⟩ := lz_digits dp hdp ds rest hf
      by_cases hz2 : dz ds = []
      · rw [h3 hz2, hz2]; simp only [List.length_nil]; omega
      · rw [h4 hz2]; omega
  · rw [if_neg hz] at hL ⊢
    rw [h2 hz, List.length_append]
    omega

theorem truncLoop_pos : ∀ (l : List Nat) (k i : Nat), (∀ c ∈ l, IsDigit c) → 1 ≤ k → k ≤ 19 → 10 ^ (k - 1) ≤ i → i < 10 ^ k →
    truncLoop l i = (dvalFrom i (l.take (19 - k)), l.length - (19 - k)) := by
  intro l
  induction l with
  | nil => intro k i _ _ _ _ _; simp [truncLoop, dvalFrom]
  | cons a l ih =>
    intro k i hd hk1 hk hi1 hi2
    have ha := hd a List.mem_cons_self
    unfold IsDigit at ha
    unfold truncLoop
    by_cases hc : k = 19
    · subst hc
      rw [if_neg (by norm_num at hi1; omega)]
      simp [dvalFrom]
    · have hlt : i < 1000000000000000000 := by
        have : (10 : Nat) ^ k ≤ 10 ^ 18 := Nat.pow_le_pow_right (by norm_num) (by omega)
        omega
      rw [if_pos hlt]
      have hmod : (i * 10 + (a - 48)) % 2 ^ 64 = i * 10 + (a - 48) := Nat.mod_eq_of_lt (by omega)
      rw [hmod, ih (k + 1) _ (fun c hc => hd c (List.mem_cons_of_mem _ hc)) (by omega) (by omega)]
      · have e : 19 - k = (19 - (k + 1)) + 1 := by omega
        rw [e, List.take_succ_cons, List.length_cons]
        simp only [dvalFrom, List.foldl_cons]
        congr 1; omega
      · rw [show k + 1 - 1 = (k - 1) + 1 from by omega, pow_succ]; omega
      · rw [pow_succ]; omega

theorem truncLoop_zero (l : List Nat) (hd : ∀ c ∈ l, IsDigit c) :
    truncLoop l 0 = (dval ((dz l).take 19), (dz l).length - 19) := by
  induction l with
  | nil => rfl
  | cons a l ih =>
    have ha := hd a List.mem_cons_self
    have hd' : ∀ c ∈ l, IsDigit c := fun c hc => hd c (List.mem_cons_of_mem _ hc)
    unfold IsDigit at ha
    by_cases hz : a = 48
    · subst hz
      have : dz (48 :: l) = dz l := by simp [dz]
      rw [this, ← ih hd']
      conv_lhs => unfold truncLoop
      simp
    · have hdz : dz (a :: l) = a :: l := by simp [dz, List.dropWhile_cons, hz]
      rw [hdz]
      conv_lhs => unfold truncLoop
      rw [if_pos (by norm_num)]
      have hmod : (0 * 10 + (a - 48)) % 2 ^ 64 = a - 48 := by rw [Nat.zero_mul, Nat.zero_add]; exact Nat.mod_eq_of_lt (by omega)
      rw [hmod, truncLoop_pos l 1 (a - 48) hd' le_rfl (by norm_num) (by simp; omega) (by omega)]
      simp [dval, dvalFrom]

/-- The recomputation yields the first 19 significant digits. -/
theorem recompute_spec (int : List Nat) (frac : Option (List Nat)) (E : Int) (hd : ∀ c ∈ int ++ frac.getD [], IsDigit c)
    (hL : (dz (int ++ frac.getD [])).length > 19) :
    recompute int frac E = (E - (frac.getD []).length + (dz (int ++ frac.getD [])).length - 19, dval ((dz (int ++ frac.getD [])).take 19)) := by
  have hi : ∀ c ∈ int, IsDigit c := fun c hc => hd c (List.mem_append_left _ hc)
  have hf : ∀ c ∈ frac.getD [], IsDigit c := fun c hc => hd c (List.mem_append_right _ hc)
  have hdi : ∀ c ∈ dz int, IsDigit c := dz_mem hi
  unfold recompute
  simp only
  rw [truncLoop_zero int hi]
  simp only
  obtain ⟨f, hf'⟩ : ∃ f, frac.getD [] = f := ⟨_, rfl⟩
  rw [hf'] at hL hf ⊢
  have hle : ∀ l : List Nat, (dz l).length ≤ l.length := fun l => (List.dropWhile_sublist _).length_le
  have hlef := hle f
  rw [dz_append] at hL ⊢
  by_cases h19 : 19 ≤ (dz int).length
  · have hne : dz int ≠ [] := by intro h; rw [h] at h19; simp at h19
    rw [if_neg hne] at hL ⊢
    have hge : dval ((dz int).take 19) ≥ 1000000000000000000 := by
      have hl : ((dz int).take 19).length = 19 := by rw [List.length_take]; omega
      have hz : dz ((dz int).take 19) = (dz int).take 19 := by
        have := dz_idem int
        cases hc : dz int with
        | nil => exact absurd hc hne
        | cons a t =>
          rw [hc] at this
          have ha : (a == 48) = false := by
            by_contra h
            have h : a = 48 := by simpa using h
            subst h
            have := congrArg List.length this
            have h2 := hle t
            simp [dz] at this
            unfold dz at h2
            omega
          simp [dz, List.dropWhile_cons, ha]
      have := dval_ge (fun c hc => hdi c (List.mem_of_mem_take hc)) (by intro h; rw [h] at hl; simp at hl) hz
      rw [hl] at this
      exact this
    rw [if_pos hge, List.take_append_of_le_length h19, List.length_append]
    congr 1
    push_cast
    omega
  · have htake : (dz int).take 19 = dz int := List.take_of_length_le (by omega)
    rw [htake]
    have hlt : ¬ dval (dz int) ≥ 1000000000000000000 := by
      have := dval_lt hdi
      have h2 : (10 : Nat) ^ (dz int).length ≤ 10 ^ 18 := Nat.pow_le_pow_right (by norm_num) (by omega)
      omega
    rw [if_neg hlt]
    by_cases hz : dz int = []
    · rw [if_pos hz] at hL ⊢
      rw [hz, dval_nil, truncLoop_zero f hf]
      simp only
      congr 1
      omega
    · rw [if_neg hz] at hL ⊢
      have hk1 : 1 ≤ (dz int).length := List.length_pos_iff.2 hz
      have hge := dval_ge hdi hz (dz_idem int)
      rw [truncLoop_pos f (dz int).length (dval (dz int)) hf hk1 (by omega) hge (dval_lt hdi)]
      simp only
      rw [List.length_append] at hL ⊢
      refine Prod.ext ?_ ?_
      · simp only; push_cast; omega
      · simp only
        rw [List.take_append, List.take_of_length_le (by omega : (dz int).length ≤ 19)]
        conv_rhs => rw [dval, dvalFrom_append]
        rfl

/-! ### The whole scanner -/

/-- What `parse_number_string` returns for a numeral when the test for more than 19 significant digits comes out as `tm`. -/
def pnsGen (tm store : Bool) (n : Numeral) (rest : List Nat) : ParsedNumber :=
  let f := n.frac.getD []
  let em : Int × Nat :=
    if tm && store then (satExp n.exp - f.length + (dz n.digits).length - 19, dval ((dz n.digits).take 19))
    else (satExp n.exp - f.length, dval n.digits % 2 ^ 64)
  ⟨em.1, em.2, rest, n.neg, true, tm, if store then some n.int else none, if store then n.frac else none, .noError⟩

/-- What `parse_number_string` returns for a numeral (decimal point not a digit). -/
def pnsOf (store : Bool) (n : Numeral) (rest : List Nat) : ParsedNumber := pnsGen (decide ((dz n.digits).length > 19)) store n rest

theorem satExp_bound {g : Rules} {e : Option Exponent} (h : Numeral.ExpOK g e) : -(10 * 0x10000000) < satExp e ∧ satExp e < 10 * 0x10000000 := by
  cases e with
  | none => simp [satExp]
  | some e =>
    have := (satFold_zero e.digits h.2.1).2
    unfold satExp
    simp only
    split <;> constructor <;> omega

/-- Monadic step; deliberately not a `rfl`-lemma, to keep kernel conversion checks small. -/
theorem ok_bind {α β : Type} (x : α) (f : α → Exec β) : ((Except.ok x : Exec α) >>= f) = f x := id rfl

/-- The digit test of the code: digits minus the run of zeros and points at the start (taken over the whole rest of the text). -/
def manyTest (dp : Nat) (n : Numeral) (l : List Nat) : Bool :=
  decide ((n.int.length : Int) + (n.frac.getD []).length > 19) &&
    decide ((if (n.int.length : Int) + (n.frac.getD []).length > 19 then
      (n.int.length : Int) + (n.frac.getD []).length - (leadingZeroRun dp l : Int)
      else (n.int.length : Int) + (n.frac.getD []).length) > 19)

theorem leadingZeroRun_ge (dp : Nat) (int l : List Nat) : int.length - (dz int).length ≤ leadingZeroRun dp (int ++ l) := by
  induction int with
  | nil => simp
  | cons a int ih =>
    by_cases ha : a = 48
    · subst ha
      have h1 : dz (48 :: int) = dz int := by simp [dz]
      have h2 : leadingZeroRun dp (48 :: int ++ l) = 1 + leadingZeroRun dp (int ++ l) := by
        rw [List.cons_append]
        conv_lhs => unfold leadingZeroRun
        rw [if_pos (by simp [ch0]), if_pos (by simp [ch0])]
      rw [h1, h2, List.length_cons]
      omega
    · have : dz (a :: int) = a :: int := by simp [dz, List.dropWhile_cons, ha]
      rw [this]; simp

/-- Whatever the decimal point is, the test can only succeed when there are more than 19 significant digits. -/
theorem manyTest_le {dp : Nat} {n : Numeral} {rest : List Nat} (hd : ∀ c ∈ n.digits, IsDigit c)
    (h : manyTest dp n (n.int ++ (Numeral.fracText dp n.frac ++ rest)) = true) (hf : IsDigit dp → n.frac = none) : (dz n.digits).length > 19 := by
  by_cases hdp : IsDigit dp
  · unfold manyTest at h
    rw [Bool.and_eq_true, decide_eq_true_iff, decide_eq_true_iff] at h
    obtain ⟨h1, h2⟩ := h
    rw [if_pos h1] at h2
    rw [hf hdp] at h2
    have h3 := leadingZeroRun_ge dp n.int (Numeral.fracText dp none ++ rest)
    unfold Numeral.digits
    rw [hf hdp]
    simp only [Option.getD_none, List.append_nil, List.length_nil] at h2 ⊢
    push_cast at h2
    omega
  · have hz := lzr_spec hdp n.int n.frac rest hd
    unfold manyTest at h
    rw [Bool.and_eq_true, decide_eq_true_iff, decide_eq_true_iff] at h
    obtain ⟨h1, h2⟩ := h
    rw [if_pos h1] at h2
    refine hz.1 ⟨?_, ?_⟩
    · rw [List.length_append]; omega
    · rw [List.length_append]; push_cast; exact h2

theorem manyTest_eq {dp : Nat} {n : Numeral} {rest : List Nat} (hdp : ¬ IsDigit dp) (hd : ∀ c ∈ n.digits, IsDigit c) :
    manyTest dp n (n.int ++ (Numeral.fracText dp n.frac ++ rest)) = decide ((dz n.digits).length > 19) := by
  have hz := lzr_spec hdp n.int n.frac rest hd
  rw [List.length_append] at hz
  push_cast at hz
  unfold manyTest Numeral.digits
  rw [Bool.eq_iff_iff, Bool.and_eq_true, decide_eq_true_iff, decide_eq_true_iff, decide_eq_true_iff, ← hz]
  constructor
  · rintro ⟨a1, a2⟩
    rw [if_pos a1] at a2
    exact ⟨by omega, a2⟩
  · rintro ⟨a1, a2⟩
    have a1' : (n.int.length : Int) + ((n.frac.getD []).length : Int) > 19 := by omega
    exact ⟨a1', by rw [if_pos a1']; exact a2⟩

/-- `parse_number_string` in terms of the reference scanner, for every decimal point. -/
theorem parse_spec_gen (c : Cfg) {ct : CharType} (hw : ct.WF) (json : Bool) {s : List Nat} (opt : Options) (store : Bool) (hs : s ≠ [])
    (hu : ∀ u ∈ s, UnitOK ct u) (hlen : s.length < 2 ^ 62) :
    (scanNumeral (scanRules json (adjustForFeatureMacros c opt.format) opt.decimalPoint) s = none →
      ∃ r, parseNumberString c ct json s opt store = .ok r ∧ r.valid = false) ∧
    (∀ n rest, scanNumeral (scanRules json (adjustForFeatureMacros c opt.format) opt.decimalPoint) s = some (n, rest) →
      parseNumberString c ct json s opt store =
        .ok (pnsGen (manyTest opt.decimalPoint n (refSign (scanRules json (adjustForFeatureMacros c opt.format) opt.decimalPoint) s).2) store n rest) ∧
      (manyTest opt.decimalPoint n (refSign (scanRules json (adjustForFeatureMacros c opt.format) opt.decimalPoint) s).2 = true →
        (dz n.digits).length > 19) ∧
      (¬ IsDigit opt.decimalPoint → manyTest opt.decimalPoint n (refSign (scanRules json (adjustForFeatureMacros c opt.format) opt.decimalPoint) s).2 =
        decide ((dz n.digits).length > 19))) := by
  obtain ⟨fmt, hfmt⟩ : ∃ fmt, adjustForFeatureMacros c opt.format = fmt := ⟨_, rfl⟩
  obtain ⟨dp, hdpe⟩ : ∃ dp, opt.decimalPoint = dp := ⟨_, rfl⟩
  obtain ⟨g, hg⟩ : ∃ g, scanRules json fmt dp = g := ⟨_, rfl⟩
  have hgj : g.json = json := by rw [← hg]; rfl
  have hgp : g.point = dp := by rw [← hg]; rfl
  unfold parseNumberString scanNumeral
  simp only [hfmt, hdpe, hg]
  obtain ⟨t, ht⟩ : ∃ t, (refSign g s).2 = t := ⟨_, rfl⟩
  have hsg := signStep_spec hw json fmt dp hs hu
  rw [hg, ht] at hsg
  simp only [ht]
  have hut : ∀ u ∈ t, UnitOK ct u := fun u h => hu u (refSign_mem (g := g) (by rw [ht]; exact h))
  have htl : t.length ≤ s.length := by
    have := congrArg List.length (refSign_append g s); rw [ht, List.length_append] at this; omega
  rcases hsg with ⟨r, h1, h2, h3⟩ | h1
  · -- rejected at the sign
    rw [h1, h3]
    simp only [ok_bind, Bool.false_eq_true, if_false]
    exact ⟨fun _ => ⟨r, rfl, h2⟩, by simp⟩
  rw [h1]
  simp only [ok_bind]
  have hint := intStep_spec hw g hut
  rw [hgj] at hint
  rcases hint with ⟨r, h4, h5, h6⟩ | ⟨h4, hjs⟩
  · rw [h4, h6]
    simp only [ok_bind, Bool.false_eq_true, if_false]
    exact ⟨fun _ => ⟨r, rfl, h5⟩, by simp⟩
  rw [h4]
  simp only [ok_bind]
  have hua : ∀ u ∈ afterRun t, UnitOK ct u := fun u h => hut u (mem_afterRun h)
  have hfr := fracStep_spec c hw g (dval (run t)) hua
  rw [hgp] at hfr
  rw [hfr]
  simp only [ok_bind, run_len]
  obtain ⟨fr, hfre⟩ : ∃ fr, refFrac g (afterRun t) = fr := ⟨_, rfl⟩
  have hfrd : ∀ c ∈ fr.1.getD [], IsDigit c := by
    rw [← hfre]; unfold refFrac
    split
    · exact run_digits _
    · simp
  have hapf := refFrac_append g (afterRun t)
  have huf : ∀ u ∈ fr.2, UnitOK ct u := fun u h => hua u (refFrac_mem (g := g) (by rw [hfre]; exact h))
  rw [hfre] at hapf ⊢
  have htt := run_append t
  have hlt : (run t).length + (fr.1.getD []).length ≤ t.length := by
    have e1 := congrArg List.length htt
    have e2 := congrArg List.length hapf
    rw [List.length_append] at e1 e2
    cases hf : fr.1 with
    | none => rw [hf] at e2; simp at e2 ⊢; omega
    | some ds => rw [hf] at e2; simp at e2 ⊢; omega
  have hchk : chk64 (((run t).length : Int) + ((fr.1.getD []).length : Int)) = .ok (((run t).length : Int) + ((fr.1.getD []).length : Int)) := by
    unfold chk64; rw [if_pos (by constructor <;> omega)]
  rw [hchk]
  simp only [ok_bind]
  have hjeq : (json && fr.1.isSome && (fr.1.getD []).length == 0) = (json && fr.1 == some []) := by
    cases json <;> cases hf : fr.1 with
    | none => simp
    | some ds => cases ds <;> simp
  rw [hjeq]
  by_cases hbad : (json && fr.1 == some []) = true
  · rw [if_pos hbad]
    have hm : mantOK g (run t) fr.1 = false := by
      simp only [Bool.and_eq_true] at hbad
      unfold mantOK; rw [hgj, hbad.1, hbad.2]; simp
    rw [hm]
    exact ⟨fun _ => ⟨_, rfl, rfl⟩, by simp⟩
  rw [if_neg hbad]
  have h0eq : (!json && ((run t).length : Int) + ((fr.1.getD []).length : Int) == 0) = (!json && (run t ++ fr.1.getD []).isEmpty) := by
    refine congrArg (fun b => !json && b) ?_
    rw [Bool.eq_iff_iff, beq_iff_eq, List.isEmpty_iff, ← List.length_eq_zero_iff, List.length_append]
    omega
  rw [h0eq]
  by_cases hbad2 : (!json && (run t ++ fr.1.getD []).isEmpty) = true
  · rw [if_pos hbad2]
    have hm : mantOK g (run t) fr.1 = false := by
      simp only [Bool.and_eq_true, Bool.not_eq_true'] at hbad2
      unfold mantOK; rw [hgj, hbad2.1, hbad2.2]; simp
    rw [hm]
    exact ⟨fun _ => ⟨_, rfl, rfl⟩, by simp⟩
  rw [if_neg hbad2]
  have hm : mantOK g (run t) fr.1 = true := by
    unfold mantOK
    rw [hgj]
    cases hj : json with
    | true =>
      obtain ⟨j1, j2⟩ := hjs hj
      rw [hj] at hbad
      simp only [if_true, j2]
      simp at hbad
      simp [j1, hbad]
    | false =>
      rw [hj] at hbad2
      simp at hbad2
      simp only [Bool.false_eq_true, if_false]
      simp
      exact hbad2
  rw [hm]
  simp only [if_true]
  have hE := expStep_spec hw json fmt dp huf
  rw [hg] at hE
  rcases hE with ⟨r, e1, e2, e3⟩ | ⟨e, rest, e1, e2⟩
  · rw [e1, e3]
    simp only [ok_bind]
    exact ⟨fun _ => ⟨r, rfl, e2⟩, by simp⟩
  rw [e1, e2]
  simp only [ok_bind]
  refine ⟨by simp, ?_⟩
  intro n rest' hn
  simp only [Option.some.injEq, Prod.mk.injEq] at hn
  obtain ⟨hn, rfl⟩ := hn
  subst hn
  have hb := satExp_bound (refExp_WF e1)
  have hchk2 : chk64 (-((fr.1.getD []).length : Int) + satExp e) = .ok (-((fr.1.getD []).length : Int) + satExp e) := by
    unfold chk64; rw [if_pos (by constructor <;> omega)]
  rw [hchk2]
  simp only [ok_bind, pure, Except.pure]
  have hD : ∀ c ∈ run t ++ fr.1.getD [], IsDigit c := by
    intro c hc
    rcases List.mem_append.1 hc with hc | hc
    · exact run_digits t c hc
    · exact hfrd c hc
  have hnone : IsDigit dp → fr.1 = none := by
    intro hdp
    rw [← hfre]
    unfold refFrac
    have hnd := afterRun_noDigit t
    cases hat : afterRun t with
    | nil => rfl
    | cons a u =>
      rw [hat] at hnd
      rw [if_neg]
      rw [hgp]
      intro h
      have h : a = dp := by simpa [headIs] using h
      subst h
      exact hnd _ _ rfl hdp
  obtain ⟨N, hN⟩ : ∃ N : Numeral, (⟨(refSign g s).1, run t, fr.1, e⟩ : Numeral) = N := ⟨_, rfl⟩
  have htext : t = N.int ++ (Numeral.fracText dp N.frac ++ fr.2) := by rw [← hN, ← hgp]; simp only; rw [hapf, htt]
  have hND : ∀ c ∈ N.digits, IsDigit c := by rw [← hN]; exact hD
  have hmany : manyTest dp N t = (decide (((run t).length : Int) + ((fr.1.getD []).length : Int) > 19) &&
      decide ((if ((run t).length : Int) + ((fr.1.getD []).length : Int) > 19 then
        ((run t).length : Int) + ((fr.1.getD []).length : Int) - (leadingZeroRun dp t : Int)
        else ((run t).length : Int) + ((fr.1.getD []).length : Int)) > 19)) := by
    rw [← hN]
    rfl
  have hle : manyTest dp N t = true → (dz N.digits).length > 19 := fun h =>
    manyTest_le hND (by rw [← htext]; exact h) (by rw [← hN]; exact hnone)
  have heq : ¬ IsDigit dp → manyTest dp N t = decide ((dz N.digits).length > 19) := fun h => by
    rw [htext]; exact manyTest_eq h hND
  rw [← hmany]
  have hem : (if manyTest dp N t && store then recompute (run t) fr.1 (satExp e)
      else (-((fr.1.getD []).length : Int) + satExp e, dvalFrom (dval (run t)) (fr.1.getD []) % 2 ^ 64)) =
      (if manyTest dp N t && store then
        (satExp e - ((fr.1.getD []).length : Int) + ((dz (run t ++ fr.1.getD [])).length : Int) - 19,
          dval ((dz (run t ++ fr.1.getD [])).take 19))
      else (satExp e - ((fr.1.getD []).length : Int), dval (run t ++ fr.1.getD []) % 2 ^ 64)) := by
    by_cases hc : (manyTest dp N t && store) = true
    · rw [if_pos hc, if_pos hc]
      simp only [Bool.and_eq_true] at hc
      have := hle hc.1
      rw [← hN] at this
      exact recompute_spec _ _ _ hD this
    · rw [if_neg hc, if_neg hc]
      refine Prod.ext ?_ ?_
      · simp only; omega
      · simp only; rw [dval, dval, dvalFrom_append]
  refine ⟨?_, by rw [hN]; exact hle, by rw [hN]; exact heq⟩
  rw [hN]
  obtain ⟨M, hM⟩ : ∃ M, manyTest dp N t = M := ⟨_, rfl⟩
  rw [hM] at hem ⊢
  subst hN
  unfold pnsGen
  simp only [Numeral.digits, Numeral.neg, refSign_neg, take_run]
  rw [hem]

/-- The same for a decimal point that is not a digit. -/
theorem parse_spec (c : Cfg) {ct : CharType} (hw : ct.WF) (json : Bool) {s : List Nat} (opt : Options) (store : Bool) (hs : s ≠ [])
    (hu : ∀ u ∈ s, UnitOK ct u) (hlen : s.length < 2 ^ 62) (hdp : ¬ IsDigit opt.decimalPoint) :
    (scanNumeral (scanRules json (adjustForFeatureMacros c opt.format) opt.decimalPoint) s = none →
      ∃ r, parseNumberString c ct json s opt store = .ok r ∧ r.valid = false) ∧
    (∀ n rest, scanNumeral (scanRules json (adjustForFeatureMacros c opt.format) opt.decimalPoint) s = some (n, rest) →
      parseNumberString c ct json s opt store = .ok (pnsOf store n rest)) := by
  obtain ⟨h1, h2⟩ := parse_spec_gen c hw json opt store hs hu hlen
  refine ⟨h1, fun n rest h => ?_⟩
  obtain ⟨h3, _, h4⟩ := h2 n rest h
  rw [h3, h4 hdp]
  rfl

end FastFloat
