import Verif.Spec.Numeral
import Mathlib.Data.List.TakeWhile
import Mathlib.Tactic.Ring
/-
# A reference scanner on lists, and its agreement with the declarative grammar
-/
set_option linter.unusedSimpArgs false

namespace FastFloat
open NumSpec

instance (c : Nat) : Decidable (IsDigit c) := by unfold IsDigit; infer_instance

/-- Boolean digit test. -/
def isDigB (c : Nat) : Bool := decide (IsDigit c)

/-- The maximal digit run at the front. -/
def run (s : List Nat) : List Nat := s.takeWhile isDigB
/-- What follows it. -/
def afterRun (s : List Nat) : List Nat := s.dropWhile isDigB

theorem run_append (s : List Nat) : run s ++ afterRun s = s := List.takeWhile_append_dropWhile

theorem run_digits (s : List Nat) : ∀ c ∈ run s, IsDigit c := by
  intro c hc
  have := List.mem_takeWhile_imp hc
  exact of_decide_eq_true this

/-- `s` does not start with a digit. -/
def NoDigit (s : List Nat) : Prop := ∀ c t, s = c :: t → ¬ IsDigit c

theorem afterRun_noDigit (s : List Nat) : NoDigit (afterRun s) := by
  induction s with
  | nil => intro c t h; simp [afterRun] at h
  | cons a s ih =>
    intro c t h
    unfold afterRun at h
    by_cases ha : isDigB a = true
    · rw [List.dropWhile_cons_of_pos ha] at h; exact ih c t h
    · rw [List.dropWhile_cons_of_neg ha] at h
      cases h
      intro hc; exact ha (decide_eq_true hc)

theorem run_of_noDigit {s : List Nat} (h : NoDigit s) : run s = [] ∧ afterRun s = s := by
  cases s with
  | nil => exact ⟨rfl, rfl⟩
  | cons a s =>
    have : ¬ isDigB a = true := fun hc => h a s rfl (of_decide_eq_true hc)
    exact ⟨List.takeWhile_cons_of_neg this, List.dropWhile_cons_of_neg this⟩

theorem run_digits_append {l s : List Nat} (hl : ∀ c ∈ l, IsDigit c) : run (l ++ s) = l ++ run s ∧ afterRun (l ++ s) = afterRun s := by
  induction l with
  | nil => exact ⟨rfl, rfl⟩
  | cons a l ih =>
    have ha : isDigB a = true := decide_eq_true (hl a List.mem_cons_self)
    have ih := ih (fun c hc => hl c (List.mem_cons_of_mem _ hc))
    unfold run afterRun at *
    rw [List.cons_append, List.takeWhile_cons_of_pos ha, List.dropWhile_cons_of_pos ha, ih.1, ih.2]
    exact ⟨rfl, rfl⟩

/-- Does the list start with `c`? -/
def headIs (s : List Nat) (c : Nat) : Bool :=
  match s with
  | [] => false
  | x :: _ => x == c

/-- Optional leading sign. -/
def refSign (g : Rules) (s : List Nat) : Option Nat × List Nat :=
  if headIs s 45 then (some 45, s.drop 1)
  else if g.plus && !g.json && headIs s 43 then (some 43, s.drop 1)
  else (none, s)

/-- Optional point and fraction. -/
def refFrac (g : Rules) (s : List Nat) : Option (List Nat) × List Nat :=
  if headIs s g.point then (some (run (s.drop 1)), afterRun (s.drop 1)) else (none, s)

/-- The condition on the significand. -/
def mantOK (g : Rules) (int : List Nat) (frac : Option (List Nat)) : Bool :=
  if g.json then !int.isEmpty && !(headIs int 48 && decide (int.length > 1)) && !(frac == some []) else !(int ++ frac.getD []).isEmpty

/-- Optional sign of the exponent. -/
def refExpSign (s : List Nat) : Option Nat × List Nat :=
  if headIs s 45 then (some 45, s.drop 1) else if headIs s 43 then (some 43, s.drop 1) else (none, s)

/-- The exponent marker: `none` = there is no exponent part here. -/
def refMarker (g : Rules) (s : List Nat) : Option (Option Nat × List Nat) :=
  if g.scientific && (headIs s 101 || headIs s 69) then some (s.head?, s.drop 1)
  else if g.fortran && (headIs s 100 || headIs s 68) then some (s.head?, s.drop 1)
  else if g.fortran && (headIs s 43 || headIs s 45) then some (none, s)
  else none

/-- Optional exponent part; `none` = reject. -/
def refExp (g : Rules) (s : List Nat) : Option (Option Exponent × List Nat) :=
  match refMarker g s with
  | none => if g.scientific && !g.fixed then none else some (none, s)
  | some (mk, s1) =>
    if (run (refExpSign s1).2).isEmpty then (if g.fixed then some (none, s) else none)
    else some (some ⟨mk, (refExpSign s1).1, run (refExpSign s1).2⟩, afterRun (refExpSign s1).2)

/-- The reference scanner. -/
def scanNumeral (g : Rules) (s : List Nat) : Option (Numeral × List Nat) :=
  let sg := refSign g s
  let int := run sg.2
  let fr := refFrac g (afterRun sg.2)
  if mantOK g int fr.1 then
    match refExp g fr.2 with
    | none => none
    | some (e, rest) => some (⟨sg.1, int, fr.1, e⟩, rest)
  else none

@[simp] theorem fracText_none (p : Nat) : Numeral.fracText p none = [] := rfl
@[simp] theorem fracText_some (p : Nat) (ds : List Nat) : Numeral.fracText p (some ds) = p :: ds := rfl
@[simp] theorem expText_none : Numeral.expText none = [] := rfl
@[simp] theorem expText_some (e : Exponent) : Numeral.expText (some e) = e.text := rfl

/-! ### Soundness -/

theorem headIs_iff {s : List Nat} {c : Nat} : headIs s c = true ↔ ∃ t, s = c :: t := by
  cases s with
  | nil => simp [headIs]
  | cons a s => simp [headIs]

theorem refSign_append (g : Rules) (s : List Nat) : (refSign g s).1.toList ++ (refSign g s).2 = s := by
  unfold refSign
  split
  · rename_i h; obtain ⟨t, rfl⟩ := headIs_iff.1 h; rfl
  · split
    · rename_i h
      simp only [Bool.and_eq_true] at h
      obtain ⟨t, rfl⟩ := headIs_iff.1 h.2; rfl
    · rfl

theorem refFrac_append (g : Rules) (s : List Nat) :
    Numeral.fracText g.point (refFrac g s).1 ++ (refFrac g s).2 = s := by
  unfold refFrac
  split
  · rename_i h; obtain ⟨t, rfl⟩ := headIs_iff.1 h
    simp only [List.drop_succ_cons, List.drop_zero, Numeral.fracText, List.cons_append, run_append]
  · rfl

theorem refExpSign_append (s : List Nat) : (refExpSign s).1.toList ++ (refExpSign s).2 = s := by
  unfold refExpSign
  split
  · rename_i h; obtain ⟨t, rfl⟩ := headIs_iff.1 h; rfl
  · split
    · rename_i h; obtain ⟨t, rfl⟩ := headIs_iff.1 h; rfl
    · rfl

theorem refMarker_append {g : Rules} {s : List Nat} {mk s1} (h : refMarker g s = some (mk, s1)) : mk.toList ++ s1 = s := by
  unfold refMarker at h
  split at h
  · rename_i hc
    simp only [Bool.and_eq_true, Bool.or_eq_true] at hc
    rcases hc.2 with hc | hc <;> obtain ⟨t, rfl⟩ := headIs_iff.1 hc <;> simp at h <;> obtain ⟨rfl, rfl⟩ := h <;> rfl
  · split at h
    · rename_i hc
      simp only [Bool.and_eq_true, Bool.or_eq_true] at hc
      rcases hc.2 with hc | hc <;> obtain ⟨t, rfl⟩ := headIs_iff.1 hc <;> simp at h <;> obtain ⟨rfl, rfl⟩ := h <;> rfl
    · split at h
      · simp at h; obtain ⟨rfl, rfl⟩ := h; rfl
      · simp at h

theorem refExp_append {g : Rules} {s : List Nat} {e rest} (h : refExp g s = some (e, rest)) :
    Numeral.expText e ++ rest = s := by
  unfold refExp at h
  split at h
  · split at h
    · simp at h
    · simp at h; obtain ⟨rfl, rfl⟩ := h; rfl
  · rename_i mk s1 hm
    split at h
    · split at h
      · simp at h; obtain ⟨rfl, rfl⟩ := h; rfl
      · simp at h
    · simp at h; obtain ⟨rfl, rfl⟩ := h
      simp only [Numeral.expText, Exponent.text]
      rw [List.append_assoc, List.append_assoc, run_append, refExpSign_append, refMarker_append hm]

theorem refExp_WF {g : Rules} {s : List Nat} {e rest} (h : refExp g s = some (e, rest)) :
    Numeral.ExpOK g e := by
  unfold refExp at h
  split at h
  · rename_i hm
    split at h
    · simp at h
    · rename_i hc
      simp at h; obtain ⟨rfl, rfl⟩ := h
      rintro ⟨h1, h2⟩; simp [h1, h2] at hc
  · rename_i mk s1 hm
    split at h
    · split at h
      · rename_i hf
        simp at h; obtain ⟨rfl, rfl⟩ := h
        rintro ⟨_, h2⟩; rw [h2] at hf; simp at hf
      · simp at h
    · rename_i hr
      simp at h; obtain ⟨rfl, rfl⟩ := h
      refine ⟨by simpa using hr, run_digits _, ?_, ?_⟩
      · unfold refExpSign
        split
        · exact Or.inr (Or.inr rfl)
        · split
          · exact Or.inr (Or.inl rfl)
          · exact Or.inl rfl
      · unfold refMarker at hm
        split at hm
        · rename_i hc
          simp only [Bool.and_eq_true, Bool.or_eq_true] at hc
          refine Or.inl ⟨hc.1, ?_⟩
          rcases hc.2 with hc | hc <;> obtain ⟨t, rfl⟩ := headIs_iff.1 hc <;> simp at hm <;> obtain ⟨rfl, rfl⟩ := hm
          · exact Or.inl rfl
          · exact Or.inr rfl
        · split at hm
          · rename_i hc
            simp only [Bool.and_eq_true, Bool.or_eq_true] at hc
            refine Or.inr (Or.inl ⟨hc.1, ?_⟩)
            rcases hc.2 with hc | hc <;> obtain ⟨t, rfl⟩ := headIs_iff.1 hc <;> simp at hm <;> obtain ⟨rfl, rfl⟩ := hm
            · exact Or.inl rfl
            · exact Or.inr rfl
          · split at hm
            · rename_i hc
              simp only [Bool.and_eq_true, Bool.or_eq_true] at hc
              simp at hm; obtain ⟨rfl, rfl⟩ := hm
              refine Or.inr (Or.inr ⟨hc.1, rfl, ?_⟩)
              simp only
              rcases hc.2 with hc | hc <;> obtain ⟨t, rfl⟩ := headIs_iff.1 hc <;> simp [refExpSign, headIs]
            · simp at hm

/-- The reference scanner returns a well-formed numeral that is a prefix of its input. -/
theorem scan_sound {g : Rules} {s : List Nat} {n : Numeral} {rest : List Nat} (h : scanNumeral g s = some (n, rest)) :
    n.WF g ∧ s = n.text g.point ++ rest := by
  unfold scanNumeral at h
  simp only at h
  split at h
  swap
  · simp at h
  rename_i hm
  split at h
  · simp at h
  rename_i e rest' he
  simp at h
  obtain ⟨rfl, rfl⟩ := h
  have h1 := refExp_append he
  have h2 := refFrac_append g (afterRun (refSign g s).2)
  have h3 := run_append (refSign g s).2
  have h4 := refSign_append g s
  constructor
  · refine ⟨?_, ?_, ?_, ?_⟩
    · simp only
      unfold refSign
      split
      · exact Or.inr (Or.inl rfl)
      · split
        · rename_i hc
          simp only [Bool.and_eq_true, Bool.not_eq_true'] at hc
          exact Or.inr (Or.inr ⟨rfl, hc.1⟩)
        · exact Or.inl rfl
    · intro c hc
      simp only [Numeral.digits] at hc
      rcases List.mem_append.1 hc with hc | hc
      · exact run_digits _ c hc
      · unfold refFrac at hc
        split at hc
        · exact run_digits _ c (by simpa using hc)
        · simp at hc
    · unfold mantOK at hm
      simp only [Numeral.digits]
      split
      · rename_i hj
        rw [if_pos hj] at hm
        simp only [Bool.and_eq_true, Bool.not_eq_true', Bool.and_eq_false_iff] at hm
        refine ⟨by simpa using hm.1.1, fun ds hds => ?_, by simpa using hm.2⟩
        rcases hm.1.2 with h | h
        · rw [hds] at h; simp [headIs] at h
        · rw [hds] at h; simpa using h
      · rename_i hj
        rw [if_neg hj] at hm
        intro hc
        rw [hc] at hm
        simp at hm
    · exact refExp_WF he
  · simp only [Numeral.text]
    rw [List.append_assoc, List.append_assoc, List.append_assoc, h1, h2, h3, h4]

/-! ### Every other numeral at the front is a prefix of the one found -/

theorem digits_prefix {l r s : List Nat} (hl : ∀ c ∈ l, IsDigit c) (h : s = l ++ r) :
    (l = run s ∧ r = afterRun s) ∨ (l.length < (run s).length ∧ ∃ c t, r = c :: t ∧ IsDigit c) := by
  subst h
  obtain ⟨h1, h2⟩ := run_digits_append (s := r) hl
  rw [h1, h2]
  by_cases hr : NoDigit r
  · left; rw [(run_of_noDigit hr).1, (run_of_noDigit hr).2]; simp
  · right
    unfold NoDigit at hr
    push Not at hr
    obtain ⟨c, t, rfl, hc⟩ := hr
    refine ⟨?_, c, t, rfl, hc⟩
    have : isDigB c = true := decide_eq_true hc
    unfold run
    rw [List.takeWhile_cons_of_pos this]; simp

/-- The first unit of a well-formed exponent part is a letter or a sign. -/
theorem exp_head {g : Rules} {e : Exponent} (h : e.WF g) : ∃ c t, e.text = c :: t ∧
    (c = 101 ∨ c = 69 ∨ c = 100 ∨ c = 68 ∨ c = 43 ∨ c = 45) := by
  obtain ⟨h1, h2, h3, h4⟩ := h
  unfold Exponent.text
  rcases h4 with ⟨_, h | h⟩ | ⟨_, h | h⟩ | ⟨_, h, hs⟩ <;> rw [h]
  · exact ⟨101, _, rfl, by simp⟩
  · exact ⟨69, _, rfl, by simp⟩
  · exact ⟨100, _, rfl, by simp⟩
  · exact ⟨68, _, rfl, by simp⟩
  · rcases h3 with h3 | h3 | h3
    · exact absurd h3 hs
    · rw [h3]; exact ⟨43, _, rfl, by simp⟩
    · rw [h3]; exact ⟨45, _, rfl, by simp⟩

theorem expSign_of {sg : Option Nat} {ds r : List Nat} (hs : sg = none ∨ sg = some 43 ∨ sg = some 45) (hd : ∀ c ∈ ds, IsDigit c)
    (hne : ds ≠ []) : refExpSign (sg.toList ++ ds ++ r) = (sg, ds ++ r) := by
  rcases hs with rfl | rfl | rfl
  · cases ds with
    | nil => exact absurd rfl hne
    | cons a ds =>
      have ha := hd a List.mem_cons_self
      unfold IsDigit at ha
      have h1 : a ≠ 45 := by omega
      have h2 : a ≠ 43 := by omega
      simp [refExpSign, headIs, h1, h2]
  · simp [refExpSign, headIs]
  · simp [refExpSign, headIs]

theorem marker_of {g : Rules} {e : Exponent} (h : e.WF g) (r : List Nat) :
    refMarker g (e.text ++ r) = some (e.marker, e.sign.toList ++ e.digits ++ r) := by
  obtain ⟨h1, h2, h3, h4⟩ := h
  unfold Exponent.text refMarker
  rcases h4 with ⟨hg, h | h⟩ | ⟨hg, h | h⟩ | ⟨hg, h, hs⟩ <;> rw [h]
  · simp [headIs, hg]
  · simp [headIs, hg]
  · simp [headIs, hg]
  · simp [headIs, hg]
  · rcases h3 with h3 | h3 | h3
    · exact absurd h3 hs
    · rw [h3]; simp [headIs, hg]
    · rw [h3]; simp [headIs, hg]

/-- A well-formed exponent part at the front makes the scanner find one at least as long; equally long only if the same. -/
theorem refExp_of {g : Rules} {e : Exponent} (h : e.WF g) (r : List Nat) :
    ∃ ds rest, refExp g (e.text ++ r) = some (some ⟨e.marker, e.sign, e.digits ++ ds⟩, rest) ∧ r = ds ++ rest := by
  unfold refExp
  rw [marker_of h]
  simp only
  rw [expSign_of h.2.2.1 h.2.1 h.1]
  simp only
  obtain ⟨r1, r2⟩ := run_digits_append (s := r) h.2.1
  rw [r1, r2, if_neg (by have := h.1; simp [this])]
  exact ⟨run r, afterRun r, rfl, (run_append r).symm⟩

theorem sign_of {g : Rules} (hp : g.PointOK) {n : Numeral} (h : n.WF g) (hne : n.digits ≠ []) (r : List Nat) :
    refSign g (n.text g.point ++ r) = (n.sign, n.int ++ Numeral.fracText g.point n.frac ++
      Numeral.expText n.exp ++ r) := by
  obtain ⟨h1, h2, h3, h4⟩ := h
  unfold Numeral.text
  rcases h1 with h | h | ⟨h, hpl, hj⟩
  · rw [h]
    simp only [Option.toList, List.nil_append]
    -- first unit is a digit or the point
    have hfirst : ∃ c t, n.int ++ Numeral.fracText g.point n.frac ++
      Numeral.expText n.exp ++ r = c :: t ∧ c ≠ 45 ∧ c ≠ 43 := by
      cases hi : n.int with
      | cons a t =>
        have ha := h2 a (by simp [Numeral.digits, hi])
        unfold IsDigit at ha
        exact ⟨a, _, rfl, by omega, by omega⟩
      | nil =>
        cases hf : n.frac with
        | none => exfalso; apply hne; simp [Numeral.digits, hi, hf]
        | some ds => exact ⟨g.point, _, rfl, hp.2.2.1, hp.2.1⟩
    obtain ⟨c, t, he, hc1, hc2⟩ := hfirst
    rw [he]
    unfold refSign headIs
    simp [hc1, hc2]
  · rw [h]; simp [refSign, headIs]
  · rw [h]; simp [refSign, headIs, hpl, hj]

/-- Whatever well-formed numeral the input starts with, the scanner's pieces extend it. -/
theorem scan_extends {g : Rules} (hp : g.PointOK) {s : List Nat} {m : Numeral} {r : List Nat} (hm : m.WF g)
    (hs : s = m.text g.point ++ r) {n : Numeral} {rest : List Nat} (hn : scanNumeral g s = some (n, rest)) :
    n = m ∨ (m.text g.point).length < (n.text g.point).length := by
  have hne : m.digits ≠ [] := by
    have := hm.2.2.1
    split at this
    · intro hc; simp [Numeral.digits] at hc; exact this.1 hc.1
    · exact this
  have hsg := sign_of hp hm hne r
  rw [← hs] at hsg
  obtain ⟨T, hT⟩ : ∃ T, m.int ++ Numeral.fracText g.point m.frac ++
      Numeral.expText m.exp ++ r = T := ⟨_, rfl⟩
  rw [hT] at hsg
  unfold scanNumeral at hn
  simp only [hsg] at hn
  split at hn
  swap
  · simp at hn
  split at hn
  · simp at hn
  rename_i e rest' he
  simp at hn
  obtain ⟨hn, hrest⟩ := hn
  subst hrest
  have hint : ∀ c ∈ m.int, IsDigit c := fun c hc => hm.2.1 c (by simp [Numeral.digits, hc])
  have hlenm : (m.text g.point).length = m.sign.toList.length + m.int.length +
      (Numeral.fracText g.point m.frac).length + (Numeral.expText m.exp).length := by
    simp [Numeral.text, Nat.add_assoc]
  have hlenn : (n.text g.point).length = m.sign.toList.length + (run T).length +
      (Numeral.fracText g.point (refFrac g (afterRun T)).1).length + (Numeral.expText e).length := by
    subst hn; simp [Numeral.text, Nat.add_assoc]
  rw [hlenm, hlenn]
  rw [List.append_assoc, List.append_assoc] at hT
  rcases digits_prefix hint hT.symm with ⟨h1, h2⟩ | ⟨h1, c, t, h2, hc⟩
  swap
  · -- the numeral stops inside the digit run
    right
    have hf : m.frac = none := by
      cases hf : m.frac with
      | none => rfl
      | some ds =>
        rw [hf] at h2; simp [Numeral.fracText] at h2
        exact absurd (h2.1 ▸ hc) hp.1
    have hx : m.exp = none := by
      cases hx : m.exp with
      | none => rfl
      | some ex =>
        have hw := hm.2.2.2
        rw [hx] at hw
        obtain ⟨c', t', e1, e2⟩ := exp_head hw
        rw [hf, hx] at h2
        simp only [fracText_none, fracText_some, expText_none, expText_some, List.nil_append, e1, List.cons_append] at h2
        have : c' = c := by simp at h2; exact h2.1
        subst this
        unfold IsDigit at hc; omega
    rw [hf, hx]
    simp only [fracText_none, fracText_some, expText_none, expText_some, List.length_nil]
    omega
  · rw [← h2] at he hn hlenn
    rw [← h2, ← h1]
    rw [← h1] at hn
    -- same integer part
    cases hf : m.frac with
    | none =>
      rw [hf] at he hn
      simp only [fracText_none, fracText_some, expText_none, expText_some, List.nil_append] at he hn ⊢
      cases hx : m.exp with
      | none =>
        -- the text of m is over
        rw [hx] at he hn
        simp only [fracText_none, fracText_some, expText_none, expText_some, List.nil_append] at he hn ⊢
        simp only [fracText_none, fracText_some, expText_none, expText_some, List.length_nil]
        cases hff : (refFrac g r).1 with
        | some ds => right; simp only [fracText_none, fracText_some, expText_none, expText_some, List.length_cons]; omega
        | none =>
          cases e with
          | none =>
            left; rw [← hn, hff]
            cases m; simp only at hf hx; subst hf hx; rfl
          | some ex =>
            right
            have hw := refExp_WF he
            obtain ⟨c', t', e1, e2⟩ := exp_head hw
            simp only [fracText_none, fracText_some, expText_none, expText_some, e1, List.length_cons, List.length_nil]; omega
      | some ex =>
        have hw := hm.2.2.2
        rw [hx] at hw he hn
        change ex.WF g at hw
        obtain ⟨c', t', e1, e2⟩ := exp_head hw
        have hpt : c' ≠ g.point := by
          obtain ⟨_, p1, p2, p3, p4, p5, p6⟩ := hp
          rcases e2 with h | h | h | h | h | h <;> rw [h] <;> omega
        have hrf : refFrac g (ex.text ++ r) = (none, ex.text ++ r) := by
          unfold refFrac; rw [if_neg]; rw [e1]; simp [headIs, hpt]
        simp only [expText_some, hrf] at he hn ⊢
        obtain ⟨ds, rest2, hE, hr⟩ := refExp_of hw r
        rw [hE] at he
        simp at he
        obtain ⟨he1, he2⟩ := he
        cases ds with
        | nil =>
          left; rw [← hn, ← he1]
          cases m; cases ex; simp only at hf hx; subst hf hx; simp
        | cons a ds =>
          right; rw [← he1]; simp [fracText_none, fracText_some, expText_none, expText_some, Exponent.text, hf]
    | some ds =>
      rw [hf] at he hn
      simp only [fracText_none, fracText_some, expText_none, expText_some, List.cons_append] at he hn ⊢
      have hrf : ∀ y, refFrac g (g.point :: y) = (some (run y), afterRun y) := by
        intro y; simp [refFrac, headIs]
      simp only [hrf] at he hn ⊢
      have hfd : ∀ c ∈ ds, IsDigit c := fun c hc => hm.2.1 c (by simp [Numeral.digits, hf, hc])
      rcases digits_prefix hfd (rfl : ds ++ (Numeral.expText m.exp ++ r) = ds ++ (Numeral.expText m.exp ++ r)) with ⟨g1, g2⟩ | ⟨g1, c, t, g2, hc⟩
      swap
      · right
        have hx : m.exp = none := by
          cases hx : m.exp with
          | none => rfl
          | some ex =>
            have hw := hm.2.2.2
            rw [hx] at hw g2
            obtain ⟨c', t', e1, e2⟩ := exp_head hw
            simp only [fracText_none, fracText_some, expText_none, expText_some, e1, List.cons_append] at g2
            have : c' = c := by simp at g2; exact g2.1
            subst this
            unfold IsDigit at hc; omega
        rw [hx] at g1 ⊢
        simp only [fracText_none, fracText_some, expText_none, expText_some, List.length_cons, List.length_nil] at g1 ⊢
        omega
      · rw [← g2] at he
        rw [← g1] at hn ⊢
        cases hx : m.exp with
        | none =>
          rw [hx] at he
          simp only [fracText_none, fracText_some, expText_none, expText_some, List.nil_append] at he ⊢
          cases e with
          | none =>
            left; rw [← hn]
            cases m; simp only at hf hx; subst hf hx; rfl
          | some ex =>
            right
            have hw := refExp_WF he
            obtain ⟨c', t', e1, e2⟩ := exp_head hw
            simp only [fracText_none, fracText_some, expText_none, expText_some, e1, List.length_cons, List.length_nil]; omega
        | some ex =>
          have hw := hm.2.2.2
          rw [hx] at hw he
          change ex.WF g at hw; simp only [expText_some] at he
          obtain ⟨ds2, rest2, hE, hr⟩ := refExp_of hw r
          rw [hE] at he
          simp at he
          obtain ⟨he1, he2⟩ := he
          cases ds2 with
          | nil =>
            left; rw [← hn, ← he1]
            cases m; cases ex; simp only at hf hx; subst hf hx; simp
          | cons a ds2 =>
            right; rw [← he1]; simp [fracText_none, fracText_some, expText_none, expText_some, Exponent.text]

/-- The scanner finds the longest numeral. -/
theorem scan_longest {g : Rules} (hp : g.PointOK) {s : List Nat} {n : Numeral} {rest : List Nat} (h : scanNumeral g s = some (n, rest)) :
    LongestNumeral g s n rest := by
  obtain ⟨h1, h2⟩ := scan_sound h
  refine ⟨h1, h2, fun m r hm hs => ?_⟩
  rcases scan_extends hp hm hs h with rfl | hlt
  · exact le_rfl
  · exact hlt.le

/-- The longest numeral is unique. -/
theorem longest_eq {g : Rules} (hp : g.PointOK) {s : List Nat} {n m : Numeral} {rest r : List Nat} (h : scanNumeral g s = some (n, rest))
    (hm : LongestNumeral g s m r) : m = n ∧ r = rest := by
  obtain ⟨h1, h2⟩ := scan_sound h
  rcases scan_extends hp hm.1 hm.2.1 h with rfl | hlt
  · exact ⟨rfl, by have := hm.2.1.symm.trans h2; exact List.append_cancel_left this⟩
  · exact absurd (hm.2.2 n rest h1 h2) (by omega)

/-- Formats on which a numeral prefix always leads to acceptance: not JSON, and not "Fortran exponents but neither fixed nor scientific". -/
def Rules.Regular (g : Rules) : Prop := g.json = false ∧ (g.fixed = true ∨ g.scientific = true ∨ g.fortran = false)

/-- Completeness: if some numeral is a prefix of the input, the scanner accepts. -/
theorem scan_complete {g : Rules} (hp : g.PointOK) (hg : Rules.Regular g) {s : List Nat} {m : Numeral} {r : List Nat} (hm : m.WF g)
    (hs : s = m.text g.point ++ r) : ∃ n rest, scanNumeral g s = some (n, rest) := by
  have hj := hg.1
  have hne : m.digits ≠ [] := by
    have := hm.2.2.1
    rw [if_neg (by rw [hj]; simp)] at this
    exact this
  have hsg := sign_of hp hm hne r
  rw [← hs] at hsg
  unfold scanNumeral
  simp only [hsg]
  obtain ⟨T, hT⟩ : ∃ T, m.int ++ Numeral.fracText g.point m.frac ++
      Numeral.expText m.exp ++ r = T := ⟨_, rfl⟩
  rw [hT]
  have hint : ∀ c ∈ m.int, IsDigit c := fun c hc => hm.2.1 c (by simp [Numeral.digits, hc])
  rw [List.append_assoc, List.append_assoc] at hT
  have hmant : mantOK g (run T) (refFrac g (afterRun T)).1 = true := by
    unfold mantOK
    rw [hj]
    simp only [Bool.false_eq_true, if_false, Bool.not_eq_true', List.isEmpty_eq_false_iff]
    intro hc
    apply hne
    have hc := List.append_eq_nil_iff.1 hc
    have hT' := digits_prefix hint hT.symm
    rcases hT' with ⟨h1, h2⟩ | ⟨h1, _⟩
    · rw [hc.1] at h1
      cases hf : m.frac with
      | none => simp [Numeral.digits, hf, h1]
      | some ds =>
        rw [hf] at h2
        have hfd : ∀ c ∈ ds, IsDigit c := fun c hc => hm.2.1 c (by simp [Numeral.digits, hf, hc])
        have h3 := hc.2
        rw [← h2] at h3
        simp only [refFrac, headIs, Numeral.fracText, List.cons_append, beq_self_eq_true, if_true, List.drop_succ_cons, List.drop_zero,
          Option.getD_some, (run_digits_append hfd).1, List.append_eq_nil_iff] at h3
        simp [Numeral.digits, hf, h1, h3.1]
    · rw [hc.1] at h1; simp at h1
  rw [if_pos hmant]
  -- the exponent step does not reject
  suffices hE : ∃ e rest, refExp g (refFrac g (afterRun T)).2 = some (e, rest) by
    obtain ⟨e, rest, hE⟩ := hE
    rw [hE]; exact ⟨_, _, rfl⟩
  by_cases hfix : g.fixed = true
  · unfold refExp
    split
    · rw [if_neg (by simp [hfix])]; exact ⟨_, _, rfl⟩
    · split
      · exact ⟨_, _, rfl⟩
      · exact ⟨_, _, rfl⟩
  have hfix : g.fixed = false := by simpa using hfix
  by_cases hsci : g.scientific = true
  · -- the exponent is mandatory: m has one
    have hw := hm.2.2.2
    cases hx : m.exp with
    | none => rw [hx] at hw; exact absurd ⟨hsci, hfix⟩ hw
    | some ex =>
      rw [hx] at hw hT
      simp only [Numeral.ExpOK, expText_some] at hw hT
      obtain ⟨c', t', e1, e2⟩ := exp_head hw
      have hnd : ¬ IsDigit c' := by unfold IsDigit; omega
      have hpt : c' ≠ g.point := by
        obtain ⟨_, p1, p2, p3, p4, p5, p6⟩ := hp
        rcases e2 with h | h | h | h | h | h <;> rw [h] <;> omega
      have hnoD : NoDigit (ex.text ++ r) := by rw [e1]; intro c t h; simp at h; rw [← h.1]; exact hnd
      have hrest : (refFrac g (afterRun T)).2 = ex.text ++ r := by
        rcases digits_prefix hint hT.symm with ⟨h1, h2⟩ | ⟨h1, c, t, h2, hc⟩
        · rw [← h2]
          cases hf : m.frac with
          | none =>
            simp only [fracText_none, fracText_some, expText_none, expText_some, List.nil_append]
            unfold refFrac; rw [if_neg]; rw [e1]; simp [headIs, hpt]
          | some ds =>
            have hfd : ∀ c ∈ ds, IsDigit c := fun c hc => hm.2.1 c (by simp [Numeral.digits, hf, hc])
            simp only [refFrac, headIs, Numeral.fracText, List.cons_append, beq_self_eq_true, if_true, List.drop_succ_cons, List.drop_zero,
              (run_digits_append hfd).2, (run_of_noDigit hnoD).2]
        · exfalso
          cases hf : m.frac with
          | none =>
            rw [hf] at h2
            simp only [fracText_none, fracText_some, expText_none, expText_some, List.nil_append] at h2
            exact hnoD c t h2 hc
          | some ds =>
            rw [hf] at h2; simp [Numeral.fracText] at h2
            exact absurd (h2.1 ▸ hc) hp.1
      rw [hrest]
      obtain ⟨ds, rest, hE, _⟩ := refExp_of hw r
      exact ⟨_, _, hE⟩
  · have hsci : g.scientific = false := by simpa using hsci
    have hfo : g.fortran = false := by
      rcases hg.2 with h | h | h
      · rw [hfix] at h; simp at h
      · rw [hsci] at h; simp at h
      · exact h
    unfold refExp refMarker
    simp [hsci, hfo]

end FastFloat
