import Verif.Props.Flags
/-
# C22, C23: custom decimal point, delimiters
-/
set_option linter.unusedSimpArgs false
namespace FastFloat
open NumSpec FloatSpec ApiSpec

instance (d : Nat) : Decidable (Neutral d) := by unfold Neutral NanChar; infer_instance

theorem Neutral.notDigit {d : Nat} (h : Neutral d) : ¬ IsDigit d := by
  have := h.1; unfold NanChar at this; unfold IsDigit; omega

theorem Neutral.lower {d : Nat} (h : Neutral d) : lower d = d := by
  have := h.1; unfold NanChar at this; unfold ApiSpec.lower; rw [if_neg]; omega

/-! ### C23 -/

section delim
variable {g : Rules} {d : Nat} {u : List Nat}

theorem run_delim (hd : ¬ IsDigit d) (t : List Nat) : run (t ++ d :: u) = run t ∧ afterRun (t ++ d :: u) = afterRun t ++ d :: u := by
  induction t with
  | nil =>
    have := run_of_noDigit (s := d :: u) (by intro x y h; cases h; exact hd)
    exact this
  | cons a t ih =>
    by_cases ha : isDigB a = true
    · rw [List.cons_append, (run_cons_pos ha).1, (run_cons_pos ha).2, (run_cons_pos ha).1, (run_cons_pos ha).2, ih.1, ih.2]
      exact ⟨rfl, rfl⟩
    · have ha : isDigB a = false := by simpa using ha
      rw [List.cons_append, (run_cons_neg ha).1, (run_cons_neg ha).2, (run_cons_neg ha).1, (run_cons_neg ha).2]
      exact ⟨rfl, rfl⟩

theorem headIs_delim {x : Nat} (h : d ≠ x) (t : List Nat) : headIs (t ++ d :: u) x = headIs t x := by
  cases t with
  | nil => simp [headIs, h]
  | cons a t => rfl

theorem drop_delim {x : Nat} {t : List Nat} (h : headIs t x = true) : (t ++ d :: u).drop 1 = t.drop 1 ++ d :: u := by
  obtain ⟨q, rfl⟩ := headIs_iff.1 h; rfl

theorem head_delim {x : Nat} {t : List Nat} (h : headIs t x = true) : (t ++ d :: u).head? = t.head? := by
  obtain ⟨q, rfl⟩ := headIs_iff.1 h; rfl

theorem refSign_delim (hd : Neutral d) (t : List Nat) :
    refSign g (t ++ d :: u) = ((refSign g t).1, (refSign g t).2 ++ d :: u) := by
  unfold refSign
  rw [headIs_delim hd.2.2.2.2, headIs_delim hd.2.2.2.1]
  by_cases h1 : headIs t 45 = true
  · rw [if_pos h1, if_pos h1, drop_delim h1]
  · rw [if_neg h1, if_neg h1]
    by_cases h2 : (g.plus && !g.json && headIs t 43) = true
    · rw [if_pos h2, if_pos h2]
      rw [Bool.and_eq_true] at h2
      rw [drop_delim h2.2]
    · rw [if_neg h2, if_neg h2]

theorem refFrac_delim (hd : Neutral d) (hp : d ≠ g.point) (t : List Nat) :
    refFrac g (t ++ d :: u) = ((refFrac g t).1, (refFrac g t).2 ++ d :: u) := by
  unfold refFrac
  rw [headIs_delim hp]
  by_cases h1 : headIs t g.point = true
  · rw [if_pos h1, if_pos h1, drop_delim h1, (run_delim hd.notDigit _).1, (run_delim hd.notDigit _).2]
  · rw [if_neg h1, if_neg h1]

theorem refExpSign_delim (hd : Neutral d) (t : List Nat) :
    refExpSign (t ++ d :: u) = ((refExpSign t).1, (refExpSign t).2 ++ d :: u) := by
  unfold refExpSign
  rw [headIs_delim hd.2.2.2.2, headIs_delim hd.2.2.2.1]
  by_cases h1 : headIs t 45 = true
  · rw [if_pos h1, if_pos h1, drop_delim h1]
  · rw [if_neg h1, if_neg h1]
    by_cases h2 : headIs t 43 = true
    · rw [if_pos h2, if_pos h2, drop_delim h2]
    · rw [if_neg h2, if_neg h2]

theorem Neutral.letters {d : Nat} (h : Neutral d) : d ≠ 101 ∧ d ≠ 69 ∧ d ≠ 100 ∧ d ≠ 68 := by
  have := h.1; unfold NanChar at this; omega

theorem refMarker_delim (hd : Neutral d) (t : List Nat) :
    refMarker g (t ++ d :: u) = (refMarker g t).map (fun x => (x.1, x.2 ++ d :: u)) := by
  obtain ⟨l1, l2, l3, l4⟩ := hd.letters
  unfold refMarker
  rw [headIs_delim hd.2.2.2.2, headIs_delim hd.2.2.2.1, headIs_delim l1, headIs_delim l2, headIs_delim l3, headIs_delim l4]
  have aux : ∀ x y, (headIs t x || headIs t y) = true → (t ++ d :: u).head? = t.head? ∧ (t ++ d :: u).drop 1 = t.drop 1 ++ d :: u := by
    intro x y h
    rw [Bool.or_eq_true] at h
    rcases h with h | h
    · exact ⟨head_delim h, drop_delim h⟩
    · exact ⟨head_delim h, drop_delim h⟩
  by_cases h1 : (g.scientific && (headIs t 101 || headIs t 69)) = true
  · rw [if_pos h1, if_pos h1]
    rw [Bool.and_eq_true] at h1
    rw [(aux _ _ h1.2).1, (aux _ _ h1.2).2]; rfl
  · rw [if_neg h1, if_neg h1]
    by_cases h2 : (g.fortran && (headIs t 100 || headIs t 68)) = true
    · rw [if_pos h2, if_pos h2]
      rw [Bool.and_eq_true] at h2
      rw [(aux _ _ h2.2).1, (aux _ _ h2.2).2]; rfl
    · rw [if_neg h2, if_neg h2]
      by_cases h3 : (g.fortran && (headIs t 43 || headIs t 45)) = true
      · rw [if_pos h3, if_pos h3]; rfl
      · rw [if_neg h3, if_neg h3]; rfl

theorem refExp_delim (hd : Neutral d) (t : List Nat) :
    refExp g (t ++ d :: u) = (refExp g t).map (fun x => (x.1, x.2 ++ d :: u)) := by
  unfold refExp
  rw [refMarker_delim hd]
  cases refMarker g t with
  | none =>
    simp only [Option.map_none]
    split <;> rfl
  | some x =>
    obtain ⟨mk, s1⟩ := x
    simp only [Option.map_some]
    rw [refExpSign_delim hd]
    simp only
    rw [(run_delim hd.notDigit _).1, (run_delim hd.notDigit _).2]
    split
    · split <;> rfl
    · rfl

theorem scan_delim (hd : Neutral d) (hp : d ≠ g.point) (t : List Nat) :
    scanNumeral g (t ++ d :: u) = (scanNumeral g t).map (fun x => (x.1, x.2 ++ d :: u)) := by
  unfold scanNumeral
  simp only
  rw [refSign_delim hd]
  simp only
  rw [(run_delim hd.notDigit _).1, (run_delim hd.notDigit _).2, refFrac_delim hd hp]
  simp only
  rw [refExp_delim hd]
  split
  · cases refExp g (refFrac g (afterRun (refSign g t).2)).2 with
    | none => rfl
    | some y => rfl
  · rfl

end delim

/-- Splitting `v ++ t = r ++ d :: u` when `d` does not occur in `v`. -/
theorem split_delim {d : Nat} {u : List Nat} : ∀ {v t r : List Nat}, d ∉ v → r ++ d :: u = v ++ t → ∃ y, t = y ++ d :: u ∧ r = v ++ y := by
  intro v
  induction v with
  | nil => intro t r _ h; exact ⟨r, h.symm, rfl⟩
  | cons a v ih =>
    intro t r hd h
    cases r with
    | nil =>
      simp at h
      exact absurd h.1 (by intro e; apply hd; rw [e]; simp)
    | cons b r =>
      simp only [List.cons_append, List.cons.injEq] at h
      obtain ⟨y, h1, h2⟩ := ih (fun hm => hd (List.mem_cons_of_mem _ hm)) h.2
      exact ⟨y, h1, by rw [h.1, h2]; rfl⟩

theorem startsWith_delim {d : Nat} {u w r x : List Nat} (hd : Neutral d) (hw : Letters w) :
    StartsWith w (r ++ d :: u) x ↔ ∃ y, x = y ++ d :: u ∧ StartsWith w r y := by
  constructor
  · rintro ⟨v, h1, h2⟩
    have hv : d ∉ v := by
      intro hm
      have := hw (lower d) (by rw [← h2]; exact List.mem_map_of_mem hm)
      rw [hd.lower] at this
      have h3 := hd.1
      unfold NanChar at h3
      omega
    obtain ⟨y, h3, h4⟩ := split_delim hv h1
    exact ⟨y, h3, v, h4, h2⟩
  · rintro ⟨y, rfl, v, rfl, h2⟩
    exact ⟨v, by simp, h2⟩

theorem paren_delim {d : Nat} {u r x : List Nat} (hd : Neutral d) : Paren (r ++ d :: u) x ↔ ∃ y, x = y ++ d :: u ∧ Paren r y := by
  constructor
  · rintro ⟨q, h1, h2⟩
    have hv : d ∉ (40 :: (q ++ [41])) := by
      intro hm
      simp only [List.mem_cons, List.mem_append, List.not_mem_nil, or_false] at hm
      rcases hm with h | h | h
      · exact hd.2.1 h
      · exact hd.1 (h1 d h)
      · exact hd.2.2.1 h
    obtain ⟨y, h3, h4⟩ := split_delim hv (t := x) (r := r) (by rw [h2]; simp)
    exact ⟨y, h3, q, h1, by rw [h4]; simp⟩
  · rintro ⟨y, rfl, q, h1, rfl⟩
    exact ⟨q, h1, by simp⟩

theorem append_delim_inj {d : Nat} {u x y : List Nat} (h : x ++ d :: u = y ++ d :: u) : x = y := List.append_cancel_right h

theorem signed_delim {plus neg : Bool} {d : Nat} {u t r : List Nat} (h : Signed plus t neg r) : Signed plus (t ++ d :: u) neg (r ++ d :: u) := by
  rcases h with ⟨a, rfl⟩ | ⟨a, rfl⟩ | ⟨a, b, rfl⟩
  · exact Or.inl ⟨a, rfl⟩
  · exact Or.inr (Or.inl ⟨a, rfl⟩)
  · exact Or.inr (Or.inr ⟨a, b, rfl⟩)

theorem signed_delim' {plus neg : Bool} {d : Nat} {u t r : List Nat} (hd : Neutral d) (h : Signed plus (t ++ d :: u) neg (r ++ d :: u)) : Signed plus t neg r := by
  rcases h with ⟨a, h⟩ | ⟨a, h⟩ | ⟨a, b, h⟩
  · exact Or.inl ⟨a, append_delim_inj (d := d) (u := u) (by rw [h]; rfl)⟩
  · exact Or.inr (Or.inl ⟨a, append_delim_inj h⟩)
  · exact Or.inr (Or.inr ⟨a, b, append_delim_inj (d := d) (u := u) (by rw [h]; rfl)⟩)

theorem infText_delim {plus neg : Bool} {d : Nat} {u t x : List Nat} (hd : Neutral d) :
    InfText plus (t ++ d :: u) neg x ↔ ∃ y, x = y ++ d :: u ∧ InfText plus t neg y := by
  constructor
  · rintro ⟨t', r, h1, h2, h3⟩
    have hsplit : ∃ t'', t' = t'' ++ d :: u := by
      rcases h1 with ⟨_, h⟩ | ⟨_, h⟩ | ⟨_, _, h⟩
      · obtain ⟨y, e, _⟩ := split_delim (v := [45]) (t := t') (r := t) (d := d) (u := u) (by simpa using hd.2.2.2.2) h
        exact ⟨y, e⟩
      · exact ⟨t, h.symm⟩
      · obtain ⟨y, e, _⟩ := split_delim (v := [43]) (t := t') (r := t) (d := d) (u := u) (by simpa using hd.2.2.2.1) h
        exact ⟨y, e⟩
    obtain ⟨t'', rfl⟩ := hsplit
    obtain ⟨r', rfl, h2'⟩ := (startsWith_delim hd letters_inf).1 h2
    rcases h3 with h3 | ⟨h3, rfl⟩
    · obtain ⟨y, rfl, h3'⟩ := (startsWith_delim hd letters_inity).1 h3
      exact ⟨y, rfl, t'', r', signed_delim' hd h1, h2', Or.inl h3'⟩
    · refine ⟨r', rfl, t'', r', signed_delim' hd h1, h2', Or.inr ⟨?_, rfl⟩⟩
      rintro ⟨q, hq⟩
      exact h3 ⟨q ++ d :: u, (startsWith_delim hd letters_inity).2 ⟨q, rfl, hq⟩⟩
  · rintro ⟨y, rfl, t', r, h1, h2, h3⟩
    refine ⟨t' ++ d :: u, r ++ d :: u, signed_delim h1, (startsWith_delim hd letters_inf).2 ⟨r, rfl, h2⟩, ?_⟩
    rcases h3 with h3 | ⟨h3, rfl⟩
    · exact Or.inl ((startsWith_delim hd letters_inity).2 ⟨y, rfl, h3⟩)
    · refine Or.inr ⟨?_, rfl⟩
      rintro ⟨q, hq⟩
      obtain ⟨q', _, hq'⟩ := (startsWith_delim hd letters_inity).1 hq
      exact h3 ⟨q', hq'⟩

theorem nanText_delim {plus neg : Bool} {d : Nat} {u t x : List Nat} (hd : Neutral d) :
    NanText plus (t ++ d :: u) neg x ↔ ∃ y, x = y ++ d :: u ∧ NanText plus t neg y := by
  constructor
  · rintro ⟨t', r, h1, h2, h3⟩
    have hsplit : ∃ t'', t' = t'' ++ d :: u := by
      rcases h1 with ⟨_, h⟩ | ⟨_, h⟩ | ⟨_, _, h⟩
      · obtain ⟨y, e, _⟩ := split_delim (v := [45]) (t := t') (r := t) (d := d) (u := u) (by simpa using hd.2.2.2.2) h
        exact ⟨y, e⟩
      · exact ⟨t, h.symm⟩
      · obtain ⟨y, e, _⟩ := split_delim (v := [43]) (t := t') (r := t) (d := d) (u := u) (by simpa using hd.2.2.2.1) h
        exact ⟨y, e⟩
    obtain ⟨t'', rfl⟩ := hsplit
    obtain ⟨r', rfl, h2'⟩ := (startsWith_delim hd letters_nan).1 h2
    rcases h3 with h3 | ⟨h3, rfl⟩
    · obtain ⟨y, rfl, h3'⟩ := (paren_delim hd).1 h3
      exact ⟨y, rfl, t'', r', signed_delim' hd h1, h2', Or.inl h3'⟩
    · refine ⟨r', rfl, t'', r', signed_delim' hd h1, h2', Or.inr ⟨?_, rfl⟩⟩
      rintro ⟨q, hq⟩
      exact h3 ⟨q ++ d :: u, (paren_delim hd).2 ⟨q, rfl, hq⟩⟩
  · rintro ⟨y, rfl, t', r, h1, h2, h3⟩
    refine ⟨t' ++ d :: u, r ++ d :: u, signed_delim h1, (startsWith_delim hd letters_nan).2 ⟨r, rfl, h2⟩, ?_⟩
    rcases h3 with h3 | ⟨h3, rfl⟩
    · exact Or.inl ((paren_delim hd).2 ⟨y, rfl, h3⟩)
    · refine Or.inr ⟨?_, rfl⟩
      rintro ⟨q, hq⟩
      obtain ⟨q', _, hq'⟩ := (paren_delim hd).1 hq
      exact h3 ⟨q', hq'⟩

/-- **C23**: what follows a delimiter does not matter.  If `d` is part of no numeral, infinity or NaN spelling and is not the decimal
point (nor a blank, when everything before it is skipped blanks), then parsing `s ++ d :: u` gives exactly the result of parsing `s`. -/
theorem C23_delimiter (c : Cfg) {ct : CharType} (T : FloatTy) {s u : List Nat} {d : Nat} (opt : Options) (hin : Input ct (s ++ d :: u))
    (hdp : ¬ IsDigit opt.decimalPoint) (hd : Neutral d) (hpt : d ≠ opt.decimalPoint) (hsp : ApiSpec.isSpace d = false ∨ textOf c opt s ≠ []) :
    fromCharsFloat c ct T.fmt (s ++ d :: u) opt = fromCharsFloat c ct T.fmt s opt := by
  have hin' : Input ct s := ⟨hin.wf, fun x hx => hin.units x (List.mem_append_left _ hx), by have := hin.len; rw [List.length_append] at this; omega⟩
  have ht : textOf c opt (s ++ d :: u) = textOf c opt s ++ d :: u := by
    unfold textOf body
    split
    · rename_i hw
      rw [List.dropWhile_append]
      split
      · rename_i he
        have he : s.dropWhile ApiSpec.isSpace = [] := by simpa using he
        rcases hsp with h | h
        · rw [List.dropWhile_cons_of_neg (by rw [h]; simp), he]; rfl
        · exfalso; apply h; unfold textOf body; rw [if_pos hw]; exact he
      · rfl
    · rfl
  obtain ⟨rest, ec, v, ho⟩ := outcome_exists c hin.wf T (c.eff opt) opt.decimalPoint (textOf c opt s)
  rw [Outcome.call hin' hdp ho]
  have key : Outcome c ct T (c.eff opt) opt.decimalPoint (textOf c opt (s ++ d :: u)) (rest ++ d :: u) ec v := by
    rw [ht]
    cases ho with
    | num hs hno =>
      refine Outcome.num ?_ hno
      rw [scan_delim hd hpt, hs]; rfl
    | inf hn h => exact Outcome.inf hn ((infText_delim hd).2 ⟨rest, rfl, h⟩)
    | nan hn h => exact Outcome.nan hn ((nanText_delim hd).2 ⟨rest, rfl, h⟩)
    | bad hs hb =>
      refine Outcome.bad ?_ ?_
      · rw [scan_delim hd hpt, hs]; rfl
      · rcases hb with h | ⟨h1, h2⟩
        · exact Or.inl h
        · right
          constructor
          · rintro ⟨neg, x, h⟩
            obtain ⟨y, _, h⟩ := (infText_delim hd).1 h
            exact h1 ⟨neg, y, h⟩
          · rintro ⟨neg, x, h⟩
            obtain ⟨y, _, h⟩ := (nanText_delim hd).1 h
            exact h2 ⟨neg, y, h⟩
  rw [Outcome.call hin hdp key]
  congr 2
  simp; omega

/-- "1.5e," then anything. -/
example (u : List Nat) (hu : ∀ x ∈ u, x < 2 ^ 8) (hl : u.length < 2 ^ 32) :
    fromCharsFloat Cfg.x64 CharType.char binary64 ([49, 46, 53, 101] ++ 44 :: u) {} = .ok ⟨3, .ok, some 0x3FF8000000000000⟩ := by
  have := C23_delimiter Cfg.x64 (ct := CharType.char) .double (s := [49, 46, 53, 101]) (u := u) (d := 44) {}
    (input_of_bytes (by
      intro x hx
      simp only [List.cons_append, List.nil_append, List.mem_cons] at hx
      rcases hx with rfl | rfl | rfl | rfl | rfl | hx
      iterate 5 norm_num
      exact hu x hx) (by simp; omega)) sample_point.1 (by decide) (by decide) (Or.inl (by decide))
  rw [show binary64 = FloatTy.double.fmt from rfl, this]
  decide +kernel

/-! ### C22 -/

section swap
variable {p q : Nat}

theorem swapCh_invol (u : Nat) : swapCh p q (swapCh p q u) = u := by
  unfold swapCh; split
  · split
    · omega
    · rename_i h1 h2; rw [if_pos rfl]; exact h1.symm
  · split
    · rw [if_pos rfl]; omega
    · rfl

theorem map_swap_invol (s : List Nat) : (s.map (swapCh p q)).map (swapCh p q) = s := by
  rw [List.map_map]
  conv_rhs => rw [← List.map_id s]
  apply List.map_congr_left
  intro u _; exact swapCh_invol u

theorem swapCh_fix {u : Nat} (h1 : u ≠ p) (h2 : u ≠ q) : swapCh p q u = u := by
  unfold swapCh; rw [if_neg h1, if_neg h2]

theorem swapCh_neutral (hp : Neutral p) (hq : Neutral q) {u : Nat} (h : ¬ Neutral u) : swapCh p q u = u :=
  swapCh_fix (fun e => h (e ▸ hp)) (fun e => h (e ▸ hq))

theorem swapCh_digit (hp : Neutral p) (hq : Neutral q) (u : Nat) : IsDigit (swapCh p q u) ↔ IsDigit u := by
  have h1 := hp.notDigit
  have h2 := hq.notDigit
  unfold swapCh; split
  · rename_i h; rw [h]; exact ⟨fun h => absurd h h2, fun h => absurd h h1⟩
  · split
    · rename_i h; rw [h]; exact ⟨fun h => absurd h h1, fun h => absurd h h2⟩
    · rfl

theorem neutral_of_digit {u : Nat} (h : IsDigit u) : ¬ Neutral u := fun hn => hn.notDigit h

theorem isDigB_swap (hp : Neutral p) (hq : Neutral q) (u : Nat) : isDigB (swapCh p q u) = isDigB u := by
  unfold isDigB; exact decide_eq_decide.2 (swapCh_digit hp hq u)

theorem run_swap (hp : Neutral p) (hq : Neutral q) (t : List Nat) :
    run (t.map (swapCh p q)) = run t ∧ afterRun (t.map (swapCh p q)) = (afterRun t).map (swapCh p q) := by
  induction t with
  | nil => exact ⟨rfl, rfl⟩
  | cons a t ih =>
    rw [List.map_cons]
    by_cases ha : isDigB a = true
    · have ha' : isDigB (swapCh p q a) = true := by rw [isDigB_swap hp hq]; exact ha
      rw [(run_cons_pos ha).1, (run_cons_pos ha).2, (run_cons_pos ha').1, (run_cons_pos ha').2, ih.1, ih.2]
      rw [swapCh_neutral hp hq (neutral_of_digit (of_decide_eq_true ha))]
      exact ⟨rfl, rfl⟩
    · have ha : isDigB a = false := by simpa using ha
      have ha' : isDigB (swapCh p q a) = false := by rw [isDigB_swap hp hq]; exact ha
      rw [(run_cons_neg ha).1, (run_cons_neg ha).2, (run_cons_neg ha').1, (run_cons_neg ha').2]
      exact ⟨rfl, rfl⟩

theorem headIs_swap (hp : Neutral p) (hq : Neutral q) {x : Nat} (hx : ¬ Neutral x) (t : List Nat) :
    headIs (t.map (swapCh p q)) x = headIs t x := by
  cases t with
  | nil => rfl
  | cons a t =>
    simp only [List.map_cons, headIs]
    by_cases h : a = x
    · rw [h, swapCh_neutral hp hq hx]
    · have : swapCh p q a ≠ x := by
        intro e
        apply h
        have := congrArg (swapCh p q) e
        rw [swapCh_invol, swapCh_neutral hp hq hx] at this
        exact this
      rw [beq_false_of_ne this, beq_false_of_ne h]

theorem headIs_point (t : List Nat) : headIs (t.map (swapCh p q)) q = headIs t p := by
  cases t with
  | nil => rfl
  | cons a t =>
    simp only [List.map_cons, headIs]
    by_cases h : a = p
    · rw [h]; unfold swapCh; rw [if_pos rfl]; simp
    · have : swapCh p q a ≠ q := by
        intro e
        apply h
        have := congrArg (swapCh p q) e
        rw [swapCh_invol] at this
        rw [this]; unfold swapCh
        split
        · rename_i h; exact h
        · rw [if_pos rfl]
      rw [beq_false_of_ne this, beq_false_of_ne h]

theorem drop_map1 (t : List Nat) : (t.map (swapCh p q)).drop 1 = (t.drop 1).map (swapCh p q) := by
  rw [List.map_drop]

theorem refSign_swap (hp : Neutral p) (hq : Neutral q) {g g' : Rules} (hg : g' = { g with point := q }) (t : List Nat) :
    refSign g' (t.map (swapCh p q)) = ((refSign g t).1, (refSign g t).2.map (swapCh p q)) := by
  subst hg
  unfold refSign
  rw [headIs_swap hp hq (by decide), headIs_swap hp hq (by decide), drop_map1]
  by_cases h1 : headIs t 45 = true
  · rw [if_pos h1, if_pos h1]
  · rw [if_neg h1, if_neg h1]
    by_cases h2 : (g.plus && !g.json && headIs t 43) = true
    · rw [if_pos h2, if_pos h2]
    · rw [if_neg h2, if_neg h2]

theorem refFrac_swap (hp : Neutral p) (hq : Neutral q) {g g' : Rules} (hgp : g.point = p) (hg : g' = { g with point := q }) (t : List Nat) :
    refFrac g' (t.map (swapCh p q)) = ((refFrac g t).1, (refFrac g t).2.map (swapCh p q)) := by
  subst hg
  unfold refFrac
  rw [hgp, headIs_point, drop_map1, (run_swap hp hq _).1, (run_swap hp hq _).2]
  split <;> rfl

theorem refExpSign_swap (hp : Neutral p) (hq : Neutral q) (t : List Nat) :
    refExpSign (t.map (swapCh p q)) = ((refExpSign t).1, (refExpSign t).2.map (swapCh p q)) := by
  unfold refExpSign
  rw [headIs_swap hp hq (by decide), headIs_swap hp hq (by decide), drop_map1]
  split
  · rfl
  · split <;> rfl

theorem refMarker_swap (hp : Neutral p) (hq : Neutral q) {g g' : Rules} (hg : g' = { g with point := q }) (t : List Nat) :
    refMarker g' (t.map (swapCh p q)) = (refMarker g t).map (fun x => (x.1, x.2.map (swapCh p q))) := by
  subst hg
  unfold refMarker
  rw [headIs_swap hp hq (by decide), headIs_swap hp hq (by decide), headIs_swap hp hq (by decide), headIs_swap hp hq (by decide),
    headIs_swap hp hq (by decide), headIs_swap hp hq (by decide), drop_map1]
  have aux : ∀ x y, ¬ Neutral x → ¬ Neutral y → (headIs t x || headIs t y) = true → (t.map (swapCh p q)).head? = t.head? := by
    intro x y hx hy h
    rw [Bool.or_eq_true] at h
    rcases h with h | h <;> obtain ⟨r, rfl⟩ := headIs_iff.1 h
    · simp [swapCh_neutral hp hq hx]
    · simp [swapCh_neutral hp hq hy]
  simp only
  by_cases h1 : (g.scientific && (headIs t 101 || headIs t 69)) = true
  · rw [if_pos h1, if_pos h1]
    rw [Bool.and_eq_true] at h1
    rw [aux _ _ (by decide) (by decide) h1.2]; rfl
  · rw [if_neg h1, if_neg h1]
    by_cases h2 : (g.fortran && (headIs t 100 || headIs t 68)) = true
    · rw [if_pos h2, if_pos h2]
      rw [Bool.and_eq_true] at h2
      rw [aux _ _ (by decide) (by decide) h2.2]; rfl
    · rw [if_neg h2, if_neg h2]
      by_cases h3 : (g.fortran && (headIs t 43 || headIs t 45)) = true
      · rw [if_pos h3, if_pos h3]; rfl
      · rw [if_neg h3, if_neg h3]; rfl

theorem refExp_swap (hp : Neutral p) (hq : Neutral q) {g g' : Rules} (hg : g' = { g with point := q }) (t : List Nat) :
    refExp g' (t.map (swapCh p q)) = (refExp g t).map (fun x => (x.1, x.2.map (swapCh p q))) := by
  unfold refExp
  rw [refMarker_swap hp hq hg]
  subst hg
  cases refMarker g t with
  | none =>
    simp only [Option.map_none]
    split <;> rfl
  | some x =>
    obtain ⟨mk, s1⟩ := x
    simp only [Option.map_some]
    rw [refExpSign_swap hp hq]
    simp only
    rw [(run_swap hp hq _).1, (run_swap hp hq _).2]
    split
    · split <;> rfl
    · rfl

theorem scan_swap (hp : Neutral p) (hq : Neutral q) {g g' : Rules} (hgp : g.point = p) (hg : g' = { g with point := q }) (t : List Nat) :
    scanNumeral g' (t.map (swapCh p q)) = (scanNumeral g t).map (fun x => (x.1, x.2.map (swapCh p q))) := by
  unfold scanNumeral
  simp only
  rw [refSign_swap hp hq hg]
  simp only
  rw [(run_swap hp hq _).1, (run_swap hp hq _).2, refFrac_swap hp hq hgp hg]
  simp only
  rw [refExp_swap hp hq hg]
  have hm : ∀ a b, mantOK g' a b = mantOK g a b := by intro a b; subst hg; rfl
  rw [hm]
  split
  · cases refExp g (refFrac g (afterRun (refSign g t).2)).2 with
    | none => rfl
    | some y => rfl
  · rfl

theorem letters_swap (hp : Neutral p) (hq : Neutral q) {v w : List Nat} (hw : Letters w) (h : v.map lower = w) : v.map (swapCh p q) = v := by
  conv_rhs => rw [← List.map_id v]
  apply List.map_congr_left
  intro u hu
  apply swapCh_neutral hp hq
  intro hn
  have := hw (lower u) (by rw [← h]; exact List.mem_map_of_mem hu)
  rw [hn.lower] at this
  have h3 := hn.1
  unfold NanChar at h3
  omega

theorem startsWith_swap (hp : Neutral p) (hq : Neutral q) {w r x : List Nat} (hw : Letters w) (h : StartsWith w r x) :
    StartsWith w (r.map (swapCh p q)) (x.map (swapCh p q)) := by
  obtain ⟨v, rfl, h2⟩ := h
  exact ⟨v, by rw [List.map_append, letters_swap hp hq hw h2], h2⟩

theorem startsWith_swap' (hp : Neutral p) (hq : Neutral q) {w r : List Nat} (hw : Letters w) (h : ∃ x, StartsWith w (r.map (swapCh p q)) x) :
    ∃ x, StartsWith w r x := by
  obtain ⟨x, h⟩ := h
  have := startsWith_swap hp hq hw h
  rw [map_swap_invol] at this
  exact ⟨_, this⟩

theorem paren_swap (hp : Neutral p) (hq : Neutral q) {r x : List Nat} (h : Paren r x) : Paren (r.map (swapCh p q)) (x.map (swapCh p q)) := by
  obtain ⟨v, h1, rfl⟩ := h
  refine ⟨v, h1, ?_⟩
  rw [List.map_cons, List.map_append, List.map_cons, swapCh_neutral hp hq (by decide), swapCh_neutral hp hq (u := 41) (by decide)]
  have : v.map (swapCh p q) = v := by
    conv_rhs => rw [← List.map_id v]
    apply List.map_congr_left
    intro u hu
    apply swapCh_neutral hp hq
    exact fun hn => hn.1 (h1 u hu)
  rw [this]

theorem paren_swap' (hp : Neutral p) (hq : Neutral q) {r : List Nat} (h : ∃ x, Paren (r.map (swapCh p q)) x) : ∃ x, Paren r x := by
  obtain ⟨x, h⟩ := h
  have := paren_swap hp hq h
  rw [map_swap_invol] at this
  exact ⟨_, this⟩

theorem signed_swap (hp : Neutral p) (hq : Neutral q) {plus neg : Bool} {t r : List Nat} (h : Signed plus t neg r) :
    Signed plus (t.map (swapCh p q)) neg (r.map (swapCh p q)) := by
  rcases h with ⟨a, rfl⟩ | ⟨a, rfl⟩ | ⟨a, b, rfl⟩
  · exact Or.inl ⟨a, by rw [List.map_cons, swapCh_neutral hp hq (by decide)]⟩
  · exact Or.inr (Or.inl ⟨a, rfl⟩)
  · exact Or.inr (Or.inr ⟨a, b, by rw [List.map_cons, swapCh_neutral hp hq (by decide)]⟩)

theorem infText_swap (hp : Neutral p) (hq : Neutral q) {plus neg : Bool} {t x : List Nat} (h : InfText plus t neg x) :
    InfText plus (t.map (swapCh p q)) neg (x.map (swapCh p q)) := by
  obtain ⟨t', r, h1, h2, h3⟩ := h
  refine ⟨_, _, signed_swap hp hq h1, startsWith_swap hp hq letters_inf h2, ?_⟩
  rcases h3 with h3 | ⟨h3, rfl⟩
  · exact Or.inl (startsWith_swap hp hq letters_inity h3)
  · exact Or.inr ⟨fun h => h3 (startsWith_swap' hp hq letters_inity h), rfl⟩

theorem nanText_swap (hp : Neutral p) (hq : Neutral q) {plus neg : Bool} {t x : List Nat} (h : NanText plus t neg x) :
    NanText plus (t.map (swapCh p q)) neg (x.map (swapCh p q)) := by
  obtain ⟨t', r, h1, h2, h3⟩ := h
  refine ⟨_, _, signed_swap hp hq h1, startsWith_swap hp hq letters_nan h2, ?_⟩
  rcases h3 with h3 | ⟨h3, rfl⟩
  · exact Or.inl (paren_swap hp hq h3)
  · exact Or.inr ⟨fun h => h3 (paren_swap' hp hq h), rfl⟩

theorem isSpace_swap (hp : ApiSpec.isSpace p = false) (hq : ApiSpec.isSpace q = false) (u : Nat) : ApiSpec.isSpace (swapCh p q u) = ApiSpec.isSpace u := by
  unfold swapCh; split
  · rename_i h; rw [h, hp, hq]
  · split
    · rename_i h; rw [h, hp, hq]
    · rfl

theorem dropWhile_swap (hp : ApiSpec.isSpace p = false) (hq : ApiSpec.isSpace q = false) (s : List Nat) :
    (s.map (swapCh p q)).dropWhile ApiSpec.isSpace = (s.dropWhile ApiSpec.isSpace).map (swapCh p q) := by
  induction s with
  | nil => rfl
  | cons a s ih =>
    rw [List.map_cons, List.dropWhile_cons, List.dropWhile_cons, isSpace_swap hp hq]
    split
    · exact ih
    · rfl

end swap

/-- **C22**: with the decimal point `p` the call behaves on `s` exactly as with the decimal point `q` on `s` with `p` and `q` exchanged
(in particular `q` = '.'), for `p`, `q` that are part of no numeral, infinity or NaN spelling and not blanks. -/
theorem C22_decimal_point (c : Cfg) {ct : CharType} (T : FloatTy) {s : List Nat} {p q : Nat} (opt : Options) (hin : Input ct s)
    (hgp : GoodUnit ct p) (hgq : GoodUnit ct q) (hp : Neutral p) (hq : Neutral q) (hps : ApiSpec.isSpace p = false) (hqs : ApiSpec.isSpace q = false) :
    fromCharsFloat c ct T.fmt s { opt with decimalPoint := p } =
      fromCharsFloat c ct T.fmt (s.map (swapCh p q)) { opt with decimalPoint := q } := by
  have hin' : Input ct (s.map (swapCh p q)) := by
    refine ⟨hin.wf, ?_, by rw [List.length_map]; exact hin.len⟩
    intro u hu
    obtain ⟨v, hv, rfl⟩ := List.mem_map.1 hu
    unfold swapCh; split
    · exact hgq
    · split
      · exact hgp
      · exact hin.units v hv
  have ht : textOf c { opt with decimalPoint := q } (s.map (swapCh p q)) = (textOf c { opt with decimalPoint := p } s).map (swapCh p q) := by
    unfold textOf body
    have : c.eff { opt with decimalPoint := q } = c.eff { opt with decimalPoint := p } := rfl
    rw [this]
    split
    · exact dropWhile_swap hps hqs s
    · rfl
  obtain ⟨fmt, hfmt⟩ : ∃ fmt, c.eff opt = fmt := ⟨_, rfl⟩
  obtain ⟨rest, ec, v, ho⟩ := outcome_exists c hin.wf T fmt p (textOf c { opt with decimalPoint := p } s)
  have hfp : c.eff { opt with decimalPoint := p } = fmt := hfmt
  have hfq : c.eff { opt with decimalPoint := q } = fmt := hfmt
  rw [Outcome.call (opt := { opt with decimalPoint := p }) hin hp.notDigit (by rw [hfp]; exact ho)]
  have key : Outcome c ct T fmt q (textOf c { opt with decimalPoint := q } (s.map (swapCh p q))) (rest.map (swapCh p q)) ec v := by
    rw [ht]
    obtain ⟨t, hte⟩ : ∃ t, textOf c { opt with decimalPoint := p } s = t := ⟨_, rfl⟩
    rw [hte] at ho ⊢
    have hsw := scan_swap hp hq (g := rules fmt p) (g' := rules fmt q) rfl rfl t
    cases ho with
    | num hs hno =>
      refine Outcome.num ?_ hno
      rw [hsw, hs]; rfl
    | inf hn h => exact Outcome.inf hn (infText_swap hp hq h)
    | nan hn h => exact Outcome.nan hn (nanText_swap hp hq h)
    | bad hs hb =>
      refine Outcome.bad ?_ ?_
      · rw [hsw, hs]; rfl
      · rcases hb with h | ⟨h1, h2⟩
        · exact Or.inl h
        · right
          constructor
          · rintro ⟨neg, x, h⟩
            have := infText_swap hp hq h
            rw [map_swap_invol] at this
            exact h1 ⟨neg, _, this⟩
          · rintro ⟨neg, x, h⟩
            have := nanText_swap hp hq h
            rw [map_swap_invol] at this
            exact h2 ⟨neg, _, this⟩
  rw [Outcome.call (opt := { opt with decimalPoint := q }) hin' hq.notDigit (by rw [hfq]; exact key)]
  rw [List.length_map, List.length_map]

/-- "1,5" with the point ','. -/
example : fromCharsFloat Cfg.x64 CharType.char binary64 [49, 44, 53] { decimalPoint := 44 } = .ok ⟨3, .ok, some 0x3FF8000000000000⟩ := by
  have := C22_decimal_point Cfg.x64 (ct := CharType.char) .double (s := [49, 44, 53]) (p := 44) (q := 46) {} (input_of_bytes (by decide) (by decide))
    ⟨by decide, fun _ => Or.inl rfl⟩ ⟨by decide, fun _ => Or.inl rfl⟩ (by decide) (by decide) (by decide) (by decide)
  rw [show binary64 = FloatTy.double.fmt from rfl]
  refine this.trans ?_
  decide +kernel

end FastFloat
