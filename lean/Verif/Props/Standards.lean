import Verif.Spec.Standards
import Verif.Props.Whole
import Verif.Props.Lookahead
/-
# C87: the accepted texts are the regular languages of the standards
-/
set_option autoImplicit false
namespace FastFloat
open NumSpec FloatSpec ApiSpec Standards RegularExpression

/-! ### Membership -/

theorem mem_oneOf {l t : List Nat} : t ∈ (oneOf l).matches' ↔ ∃ a ∈ l, t = [a] := by
  induction l with
  | nil =>
    constructor
    · intro h; exact absurd h (Language.notMem_zero t)
    · rintro ⟨a, h, _⟩; cases h
  | cons b l ih =>
    show t ∈ (char b).matches' + (oneOf l).matches' ↔ _
    rw [Language.mem_add, ih]
    constructor
    · rintro (h | ⟨a, ha, rfl⟩)
      · exact ⟨b, List.mem_cons_self, h⟩
      · exact ⟨a, List.mem_cons_of_mem _ ha, rfl⟩
    · rintro ⟨a, ha, rfl⟩
      rcases List.mem_cons.1 ha with rfl | ha
      · exact Or.inl rfl
      · exact Or.inr ⟨a, ha, rfl⟩

theorem mem_opt {P : Pattern} {t : List Nat} : t ∈ (Standards.opt P).matches' ↔ t = [] ∨ t ∈ P.matches' := by
  show t ∈ (1 : Language Nat) + P.matches' ↔ _
  rw [Language.mem_add, Language.mem_one]

theorem mem_seq {P Q : Pattern} {t : List Nat} : t ∈ (P * Q).matches' ↔ ∃ a b, t = a ++ b ∧ a ∈ P.matches' ∧ b ∈ Q.matches' := by
  show t ∈ P.matches' * Q.matches' ↔ _
  rw [Language.mem_mul]
  constructor
  · rintro ⟨a, ha, b, hb, rfl⟩; exact ⟨a, b, rfl, ha, hb⟩
  · rintro ⟨a, b, rfl, ha, hb⟩; exact ⟨a, ha, b, hb, rfl⟩

theorem mem_alt {P Q : Pattern} {t : List Nat} : t ∈ (P + Q).matches' ↔ t ∈ P.matches' ∨ t ∈ Q.matches' := Language.mem_add _ _ _

theorem mem_char {a : Nat} {t : List Nat} : t ∈ (char a).matches' ↔ t = [a] := Iff.rfl

theorem mem_nil {t : List Nat} : t ∈ (1 : Pattern).matches' ↔ t = [] := Language.mem_one _

theorem mem_none {t : List Nat} : t ∈ (0 : Pattern).matches' ↔ False := ⟨fun h => absurd h (Language.notMem_zero t), False.elim⟩

theorem mem_star {l t : List Nat} : t ∈ (star (oneOf l)).matches' ↔ ∀ u ∈ t, u ∈ l := by
  show t ∈ KStar.kstar (oneOf l).matches' ↔ _
  rw [Language.mem_kstar]
  constructor
  · rintro ⟨L, rfl, hL⟩ u hu
    obtain ⟨y, hy, hu⟩ := List.mem_flatten.1 hu
    obtain ⟨a, ha, rfl⟩ := mem_oneOf.1 (hL y hy)
    rwa [List.mem_singleton.1 hu]
  · intro h
    refine ⟨t.map fun u => [u], ?_, ?_⟩
    · clear h
      induction t with
      | nil => rfl
      | cons a t ih => rw [List.map_cons, List.flatten_cons, ← ih]; rfl
    · intro y hy
      obtain ⟨u, hu, rfl⟩ := List.mem_map.1 hy
      exact mem_oneOf.2 ⟨u, h u hu, rfl⟩

theorem mem_many1 {l t : List Nat} : t ∈ (many1 (oneOf l)).matches' ↔ t ≠ [] ∧ ∀ u ∈ t, u ∈ l := by
  unfold many1
  rw [mem_seq]
  constructor
  · rintro ⟨a, b, rfl, ha, hb⟩
    obtain ⟨x, hx, rfl⟩ := mem_oneOf.1 ha
    refine ⟨by simp, ?_⟩
    intro u hu
    rcases List.mem_cons.1 hu with rfl | hu
    · exact hx
    · exact mem_star.1 hb u hu
  · rintro ⟨h1, h2⟩
    cases t with
    | nil => exact absurd rfl h1
    | cons a t =>
      exact ⟨[a], t, rfl, mem_oneOf.2 ⟨a, h2 a List.mem_cons_self, rfl⟩, mem_star.2 fun u hu => h2 u (List.mem_cons_of_mem _ hu)⟩

theorem mem_digitList {u : Nat} : u ∈ [48, 49, 50, 51, 52, 53, 54, 55, 56, 57] ↔ NumSpec.IsDigit u := by
  unfold NumSpec.IsDigit
  simp only [List.mem_cons, List.not_mem_nil, or_false]
  omega

theorem mem_digits0 {t : List Nat} : t ∈ (star digit).matches' ↔ ∀ u ∈ t, NumSpec.IsDigit u := by
  unfold digit
  rw [mem_star]
  exact forall₂_congr fun u _ => mem_digitList

theorem mem_digits1 {t : List Nat} : t ∈ (many1 digit).matches' ↔ t ≠ [] ∧ ∀ u ∈ t, NumSpec.IsDigit u := by
  unfold digit
  rw [mem_many1]
  exact and_congr_right fun _ => forall₂_congr fun u _ => mem_digitList

theorem mem_sign {t : List Nat} : t ∈ (Standards.opt (oneOf [43, 45])).matches' ↔ ∃ o : Option Nat, t = o.toList ∧ (o = none ∨ o = some 43 ∨ o = some 45) := by
  rw [mem_opt, mem_oneOf]
  constructor
  · rintro (rfl | ⟨a, ha, rfl⟩)
    · exact ⟨none, rfl, Or.inl rfl⟩
    · refine ⟨some a, rfl, Or.inr ?_⟩
      simpa using ha
  · rintro ⟨o, rfl, rfl | rfl | rfl⟩
    · exact Or.inl rfl
    · exact Or.inr ⟨43, by decide, rfl⟩
    · exact Or.inr ⟨45, by decide, rfl⟩

/-- The texts of exponents with one of two letters. -/
theorem mem_exponent {a b : Nat} {t : List Nat} :
    t ∈ (exponent [a, b]).matches' ↔ ∃ e : Exponent, t = e.text ∧ e.digits ≠ [] ∧ (∀ c ∈ e.digits, NumSpec.IsDigit c) ∧
      (e.sign = none ∨ e.sign = some 43 ∨ e.sign = some 45) ∧ (e.marker = some a ∨ e.marker = some b) := by
  unfold exponent
  rw [mem_seq]
  constructor
  · rintro ⟨m, q, rfl, hm, hq⟩
    obtain ⟨x, hx, rfl⟩ := mem_oneOf.1 hm
    obtain ⟨sg, ds, rfl, hsg, hds⟩ := mem_seq.1 hq
    obtain ⟨o, rfl, ho⟩ := mem_sign.1 hsg
    obtain ⟨h1, h2⟩ := mem_digits1.1 hds
    refine ⟨⟨some x, o, ds⟩, by simp [Exponent.text], h1, h2, ho, ?_⟩
    simpa using hx
  · rintro ⟨⟨m, o, ds⟩, rfl, h1, h2, h3, h4⟩
    simp only at h1 h2 h3 h4
    rcases h4 with rfl | rfl
    · exact ⟨[a], o.toList ++ ds, by simp [Exponent.text], mem_oneOf.2 ⟨a, by simp, rfl⟩,
        mem_seq.2 ⟨_, _, rfl, mem_sign.2 ⟨o, rfl, h3⟩, mem_digits1.2 ⟨h1, h2⟩⟩⟩
    · exact ⟨[b], o.toList ++ ds, by simp [Exponent.text], mem_oneOf.2 ⟨b, by simp, rfl⟩,
        mem_seq.2 ⟨_, _, rfl, mem_sign.2 ⟨o, rfl, h3⟩, mem_digits1.2 ⟨h1, h2⟩⟩⟩

theorem mem_bare {t : List Nat} :
    t ∈ (oneOf [43, 45] * many1 digit).matches' ↔ ∃ e : Exponent, t = e.text ∧ e.digits ≠ [] ∧ (∀ c ∈ e.digits, NumSpec.IsDigit c) ∧
      (e.sign = none ∨ e.sign = some 43 ∨ e.sign = some 45) ∧ e.marker = none ∧ e.sign ≠ none := by
  rw [mem_seq]
  constructor
  · rintro ⟨sg, ds, rfl, hsg, hds⟩
    obtain ⟨x, hx, rfl⟩ := mem_oneOf.1 hsg
    obtain ⟨h1, h2⟩ := mem_digits1.1 hds
    refine ⟨⟨none, some x, ds⟩, by simp [Exponent.text], h1, h2, ?_, rfl, by simp⟩
    right; simpa using hx
  · rintro ⟨⟨m, o, ds⟩, rfl, h1, h2, h3, h4, h5⟩
    simp only at h1 h2 h3 h4 h5
    subst h4
    rcases h3 with rfl | rfl | rfl
    · exact absurd rfl h5
    · exact ⟨[43], ds, by simp [Exponent.text], mem_oneOf.2 ⟨43, by simp, rfl⟩, mem_digits1.2 ⟨h1, h2⟩⟩
    · exact ⟨[45], ds, by simp [Exponent.text], mem_oneOf.2 ⟨45, by simp, rfl⟩, mem_digits1.2 ⟨h1, h2⟩⟩

/-- The texts of the exponents of a grammar. -/
theorem mem_expo {g : Rules} {t : List Nat} :
    t ∈ ((if g.scientific then exponent [101, 69] else 0) + (if g.fortran then exponent [100, 68] + oneOf [43, 45] * many1 digit else 0) : Pattern).matches' ↔
      ∃ e : Exponent, t = e.text ∧ e.WF g := by
  unfold Exponent.WF
  rw [mem_alt]
  have h1 : t ∈ ((if g.scientific then exponent [101, 69] else 0) : Pattern).matches' ↔ ∃ e : Exponent, t = e.text ∧ e.digits ≠ [] ∧ (∀ c ∈ e.digits, NumSpec.IsDigit c) ∧
      (e.sign = none ∨ e.sign = some 43 ∨ e.sign = some 45) ∧ (g.scientific = true ∧ (e.marker = some 101 ∨ e.marker = some 69)) := by
    cases g.scientific
    · simp
    · simp [mem_exponent]
  have h2 : t ∈ ((if g.fortran then exponent [100, 68] + oneOf [43, 45] * many1 digit else 0) : Pattern).matches' ↔ ∃ e : Exponent, t = e.text ∧ e.digits ≠ [] ∧ (∀ c ∈ e.digits, NumSpec.IsDigit c) ∧
      (e.sign = none ∨ e.sign = some 43 ∨ e.sign = some 45) ∧ ((g.fortran = true ∧ (e.marker = some 100 ∨ e.marker = some 68)) ∨ (g.fortran = true ∧ e.marker = none ∧ e.sign ≠ none)) := by
    cases g.fortran
    · simp
    · rw [if_pos rfl, mem_alt, mem_exponent, mem_bare, ← exists_or]
      refine exists_congr fun e => ?_
      constructor
      · rintro (⟨a, b, c, d, e⟩ | ⟨a, b, c, d, e⟩)
        · exact ⟨a, b, c, d, Or.inl ⟨rfl, e⟩⟩
        · exact ⟨a, b, c, d, Or.inr ⟨rfl, e⟩⟩
      · rintro ⟨a, b, c, d, ⟨_, e⟩ | ⟨_, e⟩⟩
        · exact Or.inl ⟨a, b, c, d, e⟩
        · exact Or.inr ⟨a, b, c, d, e⟩
  rw [h1, h2, ← exists_or]
  refine exists_congr fun e => ?_
  constructor
  · rintro (⟨a, b, c, d, e⟩ | ⟨a, b, c, d, e⟩)
    · exact ⟨a, b, c, d, Or.inl e⟩
    · exact ⟨a, b, c, d, Or.inr e⟩
  · rintro ⟨a, b, c, d, e | e⟩
    · exact Or.inl ⟨a, b, c, d, e⟩
    · exact Or.inr ⟨a, b, c, d, e⟩

theorem mem_expPart {g : Rules} {t : List Nat} :
    t ∈ (if g.scientific && !g.fixed then
          ((if g.scientific then exponent [101, 69] else 0) + (if g.fortran then exponent [100, 68] + oneOf [43, 45] * many1 digit else 0) : Pattern)
        else Standards.opt ((if g.scientific then exponent [101, 69] else 0) + (if g.fortran then exponent [100, 68] + oneOf [43, 45] * many1 digit else 0))).matches' ↔
      ∃ o : Option Exponent, t = Numeral.expText o ∧ Numeral.ExpOK g o := by
  constructor
  · intro h
    split at h
    · rename_i hc
      obtain ⟨e, h1, h2⟩ := mem_expo.1 h
      exact ⟨some e, h1, h2⟩
    · rename_i hc
      rcases mem_opt.1 h with rfl | h
      · refine ⟨none, rfl, ?_⟩
        simpa [Numeral.ExpOK] using hc
      · obtain ⟨e, h1, h2⟩ := mem_expo.1 h
        exact ⟨some e, h1, h2⟩
  · rintro ⟨o, h1, h2⟩
    split
    · rename_i hc
      cases o with
      | none => exact absurd (by simpa using hc) h2
      | some e => exact mem_expo.2 ⟨e, h1, h2⟩
    · cases o with
      | none => exact mem_opt.2 (Or.inl h1)
      | some e => exact mem_opt.2 (Or.inr (mem_expo.2 ⟨e, h1, h2⟩))

theorem mem_significand {point : Nat} {t : List Nat} :
    t ∈ (significand point).matches' ↔ ∃ (i : List Nat) (f : Option (List Nat)), t = i ++ Numeral.fracText point f ∧ (∀ c ∈ i ++ f.getD [], NumSpec.IsDigit c) ∧
      i ++ f.getD [] ≠ [] := by
  unfold significand
  rw [mem_alt, mem_seq, mem_seq]
  constructor
  · rintro (⟨a, b, rfl, ha, hb⟩ | ⟨a, b, rfl, ha, hb⟩)
    · obtain ⟨h1, h2⟩ := mem_digits1.1 ha
      rcases mem_opt.1 hb with rfl | hb
      · exact ⟨a, none, rfl, by simpa using h2, by simpa using h1⟩
      · obtain ⟨p, q, rfl, hp, hq⟩ := mem_seq.1 hb
        rw [mem_char.1 hp]
        refine ⟨a, some q, rfl, ?_, by simp [h1]⟩
        intro c hc
        rcases List.mem_append.1 hc with hc | hc
        · exact h2 c hc
        · exact mem_digits0.1 hq c hc
    · obtain ⟨h1, h2⟩ := mem_digits1.1 hb
      rw [mem_char.1 ha]
      exact ⟨[], some b, rfl, by simpa using h2, by simpa using h1⟩
  · rintro ⟨i, f, rfl, h1, h2⟩
    have hi : ∀ c ∈ i, NumSpec.IsDigit c := fun c hc => h1 c (List.mem_append_left _ hc)
    cases f with
    | none =>
      left
      exact ⟨i, [], rfl, mem_digits1.2 ⟨by simpa using h2, hi⟩, mem_opt.2 (Or.inl rfl)⟩
    | some q =>
      have hq : ∀ c ∈ q, NumSpec.IsDigit c := fun c hc => h1 c (List.mem_append_right _ hc)
      by_cases h3 : i = []
      · right
        subst h3
        exact ⟨[point], q, rfl, rfl, mem_digits1.2 ⟨by simpa using h2, hq⟩⟩
      · left
        exact ⟨i, point :: q, rfl, mem_digits1.2 ⟨h3, hi⟩, mem_opt.2 (Or.inr (mem_seq.2 ⟨[point], q, rfl, rfl, mem_digits0.2 hq⟩))⟩

theorem mem_jsonInt {t : List Nat} :
    t ∈ jsonInt.matches' ↔ t ≠ [] ∧ (∀ c ∈ t, NumSpec.IsDigit c) ∧ ∀ ds, t = 48 :: ds → ds = [] := by
  unfold jsonInt digit19
  rw [mem_alt, mem_seq]
  constructor
  · rintro (h | ⟨a, b, rfl, ha, hb⟩)
    · rw [mem_char.1 h]
      refine ⟨by simp, ?_, ?_⟩
      · intro c hc
        rw [List.mem_singleton.1 hc]; unfold NumSpec.IsDigit; omega
      · rintro ds h; cases h; rfl
    · obtain ⟨x, hx, rfl⟩ := mem_oneOf.1 ha
      refine ⟨by simp, ?_, ?_⟩
      · intro c hc
        rcases List.mem_cons.1 hc with rfl | hc
        · exact mem_digitList.1 (List.mem_cons_of_mem _ hx)
        · exact mem_digits0.1 hb c hc
      · rintro ds h
        cases h
        simp at hx
  · rintro ⟨h1, h2, h3⟩
    cases t with
    | nil => exact absurd rfl h1
    | cons a t =>
      by_cases ha : a = 48
      · subst ha
        rw [h3 t rfl]
        exact Or.inl rfl
      · right
        refine ⟨[a], t, rfl, mem_oneOf.2 ⟨a, ?_, rfl⟩, mem_digits0.2 fun c hc => h2 c (List.mem_cons_of_mem _ hc)⟩
        have := mem_digitList.2 (h2 a List.mem_cons_self)
        exact (List.mem_cons.1 this).resolve_left ha

theorem mem_jsonSignificand {point : Nat} {t : List Nat} :
    t ∈ (jsonInt * Standards.opt (char point * many1 digit)).matches' ↔ ∃ (i : List Nat) (f : Option (List Nat)), t = i ++ Numeral.fracText point f ∧
      (∀ c ∈ i ++ f.getD [], NumSpec.IsDigit c) ∧ i ≠ [] ∧ (∀ ds, i = 48 :: ds → ds = []) ∧ f ≠ some [] := by
  rw [mem_seq]
  constructor
  · rintro ⟨a, b, rfl, ha, hb⟩
    obtain ⟨h1, h2, h3⟩ := mem_jsonInt.1 ha
    rcases mem_opt.1 hb with rfl | hb
    · exact ⟨a, none, rfl, by simpa using h2, h1, h3, by simp⟩
    · obtain ⟨p, q, rfl, hp, hq⟩ := mem_seq.1 hb
      obtain ⟨h4, h5⟩ := mem_digits1.1 hq
      rw [mem_char.1 hp]
      refine ⟨a, some q, rfl, ?_, h1, h3, by simpa using h4⟩
      intro c hc
      rcases List.mem_append.1 hc with hc | hc
      · exact h2 c hc
      · exact h5 c hc
  · rintro ⟨i, f, rfl, h1, h2, h3, h4⟩
    have hi : ∀ c ∈ i, NumSpec.IsDigit c := fun c hc => h1 c (List.mem_append_left _ hc)
    refine ⟨i, _, rfl, mem_jsonInt.2 ⟨h2, hi, h3⟩, ?_⟩
    cases f with
    | none => exact mem_opt.2 (Or.inl rfl)
    | some q =>
      exact mem_opt.2 (Or.inr (mem_seq.2 ⟨[point], q, rfl, rfl, mem_digits1.2 ⟨by simpa using h4, fun c hc => h1 c (List.mem_append_right _ hc)⟩⟩))

theorem mem_signOf {plus : Bool} {t : List Nat} :
    t ∈ (Standards.opt (oneOf (if plus then [43, 45] else [45]))).matches' ↔
      ∃ o : Option Nat, t = o.toList ∧ (o = none ∨ o = some 45 ∨ (o = some 43 ∧ plus = true)) := by
  rw [mem_opt, mem_oneOf]
  constructor
  · rintro (rfl | ⟨a, ha, rfl⟩)
    · exact ⟨none, rfl, Or.inl rfl⟩
    · refine ⟨some a, rfl, Or.inr ?_⟩
      cases plus
      · left; simpa using ha
      · rcases (by simpa using ha : a = 43 ∨ a = 45) with rfl | rfl
        · exact Or.inr ⟨rfl, rfl⟩
        · exact Or.inl rfl
  · rintro ⟨o, rfl, rfl | rfl | ⟨rfl, rfl⟩⟩
    · exact Or.inl rfl
    · right; refine ⟨45, ?_, rfl⟩; cases plus <;> decide
    · exact Or.inr ⟨43, by decide, rfl⟩

/-- The number part of the pattern: the texts of the numerals of the grammar. -/
theorem mem_number {g : Rules} {t : List Nat} :
    t ∈ (Standards.opt (oneOf (if g.plus && !g.json then [43, 45] else [45])) *
      ((if g.json then jsonInt * Standards.opt (char g.point * many1 digit) else significand g.point) *
        (if g.scientific && !g.fixed then
          ((if g.scientific then exponent [101, 69] else 0) + (if g.fortran then exponent [100, 68] + oneOf [43, 45] * many1 digit else 0) : Pattern)
        else Standards.opt ((if g.scientific then exponent [101, 69] else 0) + (if g.fortran then exponent [100, 68] + oneOf [43, 45] * many1 digit else 0))))).matches' ↔
      ∃ n : Numeral, n.WF g ∧ t = n.text g.point := by
  have hS : ∀ q : List Nat, q ∈ (if g.json then jsonInt * Standards.opt (char g.point * many1 digit) else significand g.point).matches' ↔
      ∃ (i : List Nat) (f : Option (List Nat)), q = i ++ Numeral.fracText g.point f ∧ (∀ c ∈ i ++ f.getD [], NumSpec.IsDigit c) ∧
        (if g.json = true then i ≠ [] ∧ (∀ ds, i = 48 :: ds → ds = []) ∧ f ≠ some [] else i ++ f.getD [] ≠ []) := by
    intro q
    by_cases hj : g.json = true
    · simp only [hj, if_true]; exact mem_jsonSignificand
    · simp only [hj]; exact mem_significand
  rw [mem_seq]
  constructor
  · rintro ⟨sg, b, rfl, hsg, hb⟩
    obtain ⟨o, rfl, ho⟩ := mem_signOf.1 hsg
    obtain ⟨q, x, rfl, hq, hx⟩ := mem_seq.1 hb
    obtain ⟨i, f, rfl, h1, h2⟩ := (hS q).1 hq
    obtain ⟨e, rfl, he⟩ := mem_expPart.1 hx
    refine ⟨⟨o, i, f, e⟩, ⟨?_, h1, h2, he⟩, ?_⟩
    · rcases ho with ho | ho | ⟨ho, ho'⟩
      · exact Or.inl ho
      · exact Or.inr (Or.inl ho)
      · exact Or.inr (Or.inr ⟨ho, by simpa using ho'⟩)
    · simp [Numeral.text]
  · rintro ⟨⟨o, i, f, e⟩, ⟨h0, h1, h2, he⟩, rfl⟩
    refine ⟨o.toList, (i ++ Numeral.fracText g.point f) ++ Numeral.expText e, by simp [Numeral.text], mem_signOf.2 ⟨o, rfl, ?_⟩,
      mem_seq.2 ⟨_, _, rfl, (hS _).2 ⟨i, f, rfl, h1, h2⟩, mem_expPart.2 ⟨e, rfl, he⟩⟩⟩
    rcases h0 with ho | ho | ⟨ho, ho', ho''⟩
    · exact Or.inl ho
    · exact Or.inr (Or.inl ho)
    · exact Or.inr (Or.inr ⟨ho, by rw [ho', ho'']; rfl⟩)

theorem lower_eq_iff {a u : Nat} (h1 : 97 ≤ a) (h2 : a ≤ 122) : lower u = a ↔ u = a ∨ u = a - 32 := by
  unfold lower
  split <;> omega

theorem mem_word {w : List Nat} (hw : ∀ a ∈ w, 97 ≤ a ∧ a ≤ 122) {t : List Nat} : t ∈ (word w).matches' ↔ t.map lower = w := by
  induction w generalizing t with
  | nil =>
    show t ∈ (1 : Pattern).matches' ↔ _
    rw [mem_nil, List.map_eq_nil_iff]
  | cons a w ih =>
    have ha := hw a List.mem_cons_self
    show t ∈ (oneOf [a, a - 32] * word w).matches' ↔ _
    rw [mem_seq]
    constructor
    · rintro ⟨x, y, rfl, hx, hy⟩
      obtain ⟨u, hu, rfl⟩ := mem_oneOf.1 hx
      have hu : u = a ∨ u = a - 32 := by simpa using hu
      rw [List.map_append, (ih fun b hb => hw b (List.mem_cons_of_mem _ hb)).1 hy, List.map_singleton, (lower_eq_iff ha.1 ha.2).2 hu]
      rfl
    · intro h
      cases t with
      | nil => cases h
      | cons u t =>
        rw [List.map_cons, List.cons.injEq] at h
        refine ⟨[u], t, rfl, mem_oneOf.2 ⟨u, ?_, rfl⟩, (ih fun b hb => hw b (List.mem_cons_of_mem _ hb)).2 h.2⟩
        simpa using (lower_eq_iff ha.1 ha.2).1 h.1

theorem mem_infinity {t : List Nat} : t ∈ infinity.matches' ↔ t.map lower = wInf ∨ t.map lower = wInf ++ wInity := by
  unfold infinity
  rw [mem_alt, mem_word (by decide), mem_word (by decide)]
  exact Iff.rfl

theorem mem_nChar {u : Nat} : u ∈ (List.range' 48 10 ++ List.range' 65 26 ++ [95] ++ List.range' 97 26) ↔ NanChar u := by
  unfold NanChar
  simp only [List.mem_append, List.mem_range'_1, List.mem_singleton]
  omega

theorem mem_nan {t : List Nat} :
    t ∈ Standards.nan.matches' ↔ t.map lower = wNan ∨ ∃ v q, v.map lower = wNan ∧ (∀ u ∈ q, NanChar u) ∧ t = v ++ 40 :: (q ++ [41]) := by
  unfold Standards.nan nChar
  rw [mem_seq]
  constructor
  · rintro ⟨v, b, rfl, hv, hb⟩
    have hv := (mem_word (by decide)).1 hv
    rcases mem_opt.1 hb with rfl | hb
    · left; rwa [List.append_nil]
    · obtain ⟨x, y, rfl, hx, hy⟩ := mem_seq.1 hb
      obtain ⟨q, z, rfl, hq, hz⟩ := mem_seq.1 hy
      rw [mem_char.1 hx, mem_char.1 hz]
      exact Or.inr ⟨v, q, hv, fun u hu => mem_nChar.1 (mem_star.1 hq u hu), rfl⟩
  · rintro (h | ⟨v, q, hv, hq, rfl⟩)
    · exact ⟨t, [], by rw [List.append_nil], (mem_word (by decide)).2 h, mem_opt.2 (Or.inl rfl)⟩
    · exact ⟨v, _, rfl, (mem_word (by decide)).2 hv, mem_opt.2 (Or.inr (mem_seq.2 ⟨[40], q ++ [41], rfl, rfl,
        mem_seq.2 ⟨q, [41], rfl, mem_star.2 fun u hu => mem_nChar.2 (hq u hu), rfl⟩⟩))⟩

theorem mem_signed {plus : Bool} {t : List Nat} {P : Pattern} :
    t ∈ (Standards.opt (oneOf (if plus then [43, 45] else [45])) * P).matches' ↔ ∃ neg w, Signed plus t neg w ∧ w ∈ P.matches' := by
  rw [mem_seq]
  unfold Signed
  constructor
  · rintro ⟨a, b, rfl, ha, hb⟩
    obtain ⟨o, rfl, rfl | rfl | ⟨rfl, rfl⟩⟩ := mem_signOf.1 ha
    · exact ⟨false, b, Or.inr (Or.inl ⟨rfl, rfl⟩), hb⟩
    · exact ⟨true, b, Or.inl ⟨rfl, rfl⟩, hb⟩
    · exact ⟨false, b, Or.inr (Or.inr ⟨rfl, rfl, rfl⟩), hb⟩
  · rintro ⟨neg, w, ⟨rfl, rfl⟩ | ⟨rfl, rfl⟩ | ⟨rfl, rfl, rfl⟩, hb⟩
    · exact ⟨[45], w, rfl, mem_signOf.2 ⟨some 45, rfl, Or.inr (Or.inl rfl)⟩, hb⟩
    · exact ⟨[], t, rfl, mem_signOf.2 ⟨none, rfl, Or.inl rfl⟩, hb⟩
    · exact ⟨[43], w, rfl, mem_signOf.2 ⟨some 43, rfl, Or.inr (Or.inr ⟨rfl, rfl⟩)⟩, hb⟩

theorem mem_pattern {fmt point : Nat} {t : List Nat} :
    t ∈ (patternOf fmt point).matches' ↔ (∃ n : Numeral, n.WF (rules fmt point) ∧ t = n.text point) ∨
      (noInfNan fmt = false ∧ ∃ neg, InfText (plusFlag fmt) t neg [] ∨ NanText (plusFlag fmt) t neg []) := by
  unfold patternOf pattern
  rw [mem_alt]
  refine or_congr (mem_number (g := rules fmt point)) ?_
  show _ ∈ (if (!noInfNan fmt) = true then _ else _ : Pattern).matches' ↔ _
  cases hn : noInfNan fmt
  · rw [Bool.not_false, if_pos rfl]
    simp only [true_and]
    have := @mem_signed (plusFlag fmt) t (infinity + Standards.nan)
    refine this.trans ?_
    refine exists_congr fun neg => ?_
    rw [inf_whole, nan_whole, ← exists_or]
    refine exists_congr fun w => ?_
    rw [mem_alt, mem_infinity, mem_nan, and_or_left]
  · rw [Bool.not_true, if_neg (by decide), mem_none]
    simp

/-! ### Whole texts -/

/-- **C87**: whatever the flags, the type and the decimal point, the call accepts the whole text (after white space to be skipped) if and only if the text
matches the regular expression of the format. -/
theorem C87_whole (c : Cfg) {ct : CharType} (T : FloatTy) {s : List Nat} (opt : Options) (hin : Input ct s) (hp : (grammar c opt).PointOK) :
    (∃ ec v, fromCharsFloat c ct T.fmt s opt = .ok ⟨s.length, ec, v⟩ ∧ ec ≠ .invalidArgument) ↔
      textOf c opt s ∈ (patternOf (c.eff opt) opt.decimalPoint).matches' := by
  obtain ⟨f, N, hN⟩ : ∃ (f : Format) (N : Numeral → Code → Nat → Prop), ∀ r : ApiFloat, fromCharsFloat c ct T.fmt s opt = .ok r ↔
      r.off ≤ s.length ∧ FloatCall f N (c.eff opt) opt.decimalPoint (textOf c opt s) (s.drop r.off) r.ec.code r.value := by
    by_cases hT : T = .float16
    · subst hT; exact ⟨_, _, C55_total_float16 c opt hin hp⟩
    · exact ⟨_, _, C55_total c T hT opt hin hp⟩
  rw [mem_pattern]
  constructor
  · rintro ⟨ec, v, h, he⟩
    have h := ((hN _).1 h).2
    simp only [List.drop_length] at h
    have hc : ec.code ≠ .invalid := by cases ec <;> simp [Errc.code] at he ⊢
    obtain ⟨co, hco⟩ : ∃ co, ec.code = co := ⟨_, rfl⟩
    rw [hco] at h hc
    obtain ⟨d, hd⟩ : ∃ d, ([] : List Nat) = d := ⟨_, rfl⟩
    rw [hd] at h
    cases h with
    | number text result =>
      subst hd
      have := munch_whole.1 text
      exact Or.inl ⟨_, this⟩
    | infinity a text => subst hd; exact Or.inr ⟨a, _, Or.inl text⟩
    | nan a text => subst hd; exact Or.inr ⟨a, _, Or.inr text⟩
    | invalid a b => exact absurd rfl hc
  · rintro (⟨n, h1, h2⟩ | ⟨a, neg, h | h⟩)
    · have hm : Munch (grammar c opt) (textOf c opt s) n [] := munch_whole.2 ⟨h1, h2⟩
      obtain ⟨k, b, ec, h3, _⟩ := scan_accepts (T := T) hin hp (munch_scan hp hm)
      exact ⟨ec, some b, h3.result, h3.accepted⟩
    · exact ⟨.ok, _, (hN ⟨s.length, .ok, _⟩).2 ⟨le_refl _, by simp only [List.drop_length]; exact .infinity a h⟩, by decide⟩
    · exact ⟨.ok, _, (hN ⟨s.length, .ok, _⟩).2 ⟨le_refl _, by simp only [List.drop_length]; exact .nan a h⟩, by decide⟩

/-! ### The presets -/

theorem lang_opt1 (P : Pattern) (t : List Nat) : t ∈ (Standards.opt (P + 0)).matches' ↔ t ∈ (Standards.opt P).matches' := by
  rw [mem_opt, mem_opt, mem_alt, mem_none, or_false]

theorem seq_congr {P P' Q Q' : Pattern} (h1 : ∀ t, t ∈ P.matches' ↔ t ∈ P'.matches') (h2 : ∀ t, t ∈ Q.matches' ↔ t ∈ Q'.matches') (t : List Nat) :
    t ∈ (P * Q).matches' ↔ t ∈ (P' * Q').matches' := by
  rw [mem_seq, mem_seq]
  simp only [h1, h2]

theorem alt_congr {P P' Q Q' : Pattern} (h1 : ∀ t, t ∈ P.matches' ↔ t ∈ P'.matches') (h2 : ∀ t, t ∈ Q.matches' ↔ t ∈ Q'.matches') (t : List Nat) :
    t ∈ (P + Q).matches' ↔ t ∈ (P' + Q').matches' := by
  rw [mem_alt, mem_alt, h1, h2]

theorem opt_congr {P P' : Pattern} (h1 : ∀ t, t ∈ P.matches' ↔ t ∈ P'.matches') (t : List Nat) :
    t ∈ (Standards.opt P).matches' ↔ t ∈ (Standards.opt P').matches' := by
  rw [mem_opt, mem_opt, h1]

theorem char_oneOf (a : Nat) (t : List Nat) : t ∈ (oneOf [a]).matches' ↔ t ∈ (char a).matches' := by
  rw [mem_oneOf, mem_char]; simp

theorem alt_zero (P : Pattern) (t : List Nat) : t ∈ (P + 0).matches' ↔ t ∈ P.matches' := by
  rw [mem_alt, mem_none, or_false]

theorem seq_assoc (P Q R : Pattern) (t : List Nat) : t ∈ ((P * Q) * R).matches' ↔ t ∈ (P * (Q * R)).matches' := by
  show t ∈ P.matches' * Q.matches' * R.matches' ↔ t ∈ P.matches' * (Q.matches' * R.matches')
  rw [mul_assoc]

theorem lang_json (t : List Nat) : t ∈ (patternOf 53 46).matches' ↔ t ∈ rfc8259.matches' := by
  show t ∈ (Standards.opt (oneOf [45]) * ((jsonInt * Standards.opt (char 46 * many1 digit)) * Standards.opt (exponent [101, 69] + 0)) + 0).matches' ↔ _
  rw [alt_zero]
  refine seq_congr (opt_congr (char_oneOf 45)) (fun u => ?_) t
  rw [seq_assoc]
  exact seq_congr (fun _ => Iff.rfl) (seq_congr (fun _ => Iff.rfl) (lang_opt1 _)) u

theorem lang_jsonOrInfnan (t : List Nat) : t ∈ (patternOf 37 46).matches' ↔ t ∈ jsonOrInfnan.matches' := by
  show t ∈ (Standards.opt (oneOf [45]) * ((jsonInt * Standards.opt (char 46 * many1 digit)) * Standards.opt (exponent [101, 69] + 0)) +
    Standards.opt (oneOf [45]) * (infinity + Standards.nan)).matches' ↔ _
  refine alt_congr (fun t => ?_) (seq_congr (opt_congr (char_oneOf 45)) fun _ => Iff.rfl) t
  rw [← lang_json]
  exact (alt_zero _ t).symm

theorem lang_general (t : List Nat) : t ∈ (patternOf 5 46).matches' ↔ t ∈ general.matches' := by
  show t ∈ (Standards.opt (oneOf [45]) * (significand 46 * Standards.opt (exponent [101, 69] + 0)) +
    Standards.opt (oneOf [45]) * (infinity + Standards.nan)).matches' ↔ _
  exact alt_congr (seq_congr (opt_congr (char_oneOf 45)) (seq_congr (fun _ => Iff.rfl) (lang_opt1 _))) (seq_congr (opt_congr (char_oneOf 45)) fun _ => Iff.rfl) t

theorem lang_scientific (t : List Nat) : t ∈ (patternOf 1 46).matches' ↔ t ∈ scientific.matches' := by
  show t ∈ (Standards.opt (oneOf [45]) * (significand 46 * (exponent [101, 69] + 0)) +
    Standards.opt (oneOf [45]) * (infinity + Standards.nan)).matches' ↔ _
  exact alt_congr (seq_congr (opt_congr (char_oneOf 45)) (seq_congr (fun _ => Iff.rfl) (alt_zero _))) (seq_congr (opt_congr (char_oneOf 45)) fun _ => Iff.rfl) t

theorem lang_fixed (t : List Nat) : t ∈ (patternOf 4 46).matches' ↔ t ∈ fixed.matches' := by
  show t ∈ (Standards.opt (oneOf [45]) * (significand 46 * Standards.opt (0 + 0)) +
    Standards.opt (oneOf [45]) * (infinity + Standards.nan)).matches' ↔ _
  refine alt_congr (seq_congr (opt_congr (char_oneOf 45)) (fun u => ?_)) (seq_congr (opt_congr (char_oneOf 45)) fun _ => Iff.rfl) t
  rw [mem_seq]
  constructor
  · rintro ⟨a, b, rfl, ha, hb⟩
    rw [mem_opt, mem_alt, mem_none, or_false, or_false] at hb
    rwa [hb, List.append_nil]
  · intro h
    exact ⟨u, [], (List.append_nil _).symm, h, mem_opt.2 (Or.inl rfl)⟩

theorem lang_fortran (t : List Nat) : t ∈ (patternOf 69 46).matches' ↔ t ∈ fortran.matches' := by
  show t ∈ (Standards.opt (oneOf [45]) * (significand 46 * Standards.opt (exponent [101, 69] + (exponent [100, 68] + oneOf [43, 45] * many1 digit))) +
    Standards.opt (oneOf [45]) * (infinity + Standards.nan)).matches' ↔ _
  refine alt_congr (seq_congr (opt_congr (char_oneOf 45)) (seq_congr (fun _ => Iff.rfl) (opt_congr fun u => ?_))) (seq_congr (opt_congr (char_oneOf 45)) fun _ => Iff.rfl) t
  unfold fortranExponent
  rw [mem_alt, mem_alt, mem_alt, mem_alt, or_assoc]

/-- The call accepts the text from its first character to its last: it does not report `invalid_argument` and the pointer returned is the end. -/
def AcceptsWhole (c : Cfg) (ct : CharType) (T : FloatTy) (s : List Nat) (opt : Options) : Prop :=
  ∃ ec v, fromCharsFloat c ct T.fmt s opt = .ok ⟨s.length, ec, v⟩ ∧ ec ≠ .invalidArgument

/-- A build without the feature macros `FASTFLOAT_ALLOWS_LEADING_PLUS` and `FASTFLOAT_SKIP_WHITE_SPACE`. -/
def NoMacros (c : Cfg) : Prop := c.plusMacro = false ∧ c.wsMacro = false

theorem NoMacros.eff {c : Cfg} (h : NoMacros c) (opt : Options) : c.eff opt = opt.format := by
  unfold Cfg.eff effective
  rw [h.1, h.2]
  simp

theorem point_dot' {c : Cfg} {fmt : Fmt} : (grammar c { format := fmt }).PointOK := by
  show ¬ NumSpec.IsDigit 46 ∧ 46 ≠ 43 ∧ 46 ≠ 45 ∧ 46 ≠ 101 ∧ 46 ≠ 69 ∧ 46 ≠ 100 ∧ 46 ≠ 68
  unfold NumSpec.IsDigit
  decide

theorem preset_whole {c : Cfg} (hc : NoMacros c) {ct : CharType} (T : FloatTy) {s : List Nat} (hin : Input ct s) {fmt : Fmt} (hw : wsFlag fmt = false) {P : Pattern}
    (hP : ∀ t, t ∈ (patternOf fmt 46).matches' ↔ t ∈ P.matches') : AcceptsWhole c ct T s { format := fmt } ↔ s ∈ P.matches' := by
  have he := hc.eff { format := fmt }
  have ht : textOf c { format := fmt } s = s := by
    unfold textOf body; rw [he, hw]; rfl
  have h := C87_whole c T { format := fmt } hin (s := s)
    point_dot'
  rw [ht, he] at h
  exact h.trans (hP s)

/-- **C87**: with `chars_format::json` the accepted texts are exactly the numbers of RFC 8259. -/
theorem C87_json {c : Cfg} (hc : NoMacros c) {ct : CharType} (T : FloatTy) {s : List Nat} (hin : Input ct s) :
    AcceptsWhole c ct T s { format := Fmt.json } ↔ s ∈ rfc8259.matches' := preset_whole hc T hin (by decide) lang_json

/-- **C87**: with `chars_format::json_or_infnan`, and the infinities and NaNs. -/
theorem C87_json_or_infnan {c : Cfg} (hc : NoMacros c) {ct : CharType} (T : FloatTy) {s : List Nat} (hin : Input ct s) :
    AcceptsWhole c ct T s { format := Fmt.jsonOrInfnan } ↔ s ∈ jsonOrInfnan.matches' := preset_whole hc T hin (by decide) lang_jsonOrInfnan

/-- **C87**: with the default format the accepted texts are exactly those of `std::from_chars` (decimal). -/
theorem C87_general {c : Cfg} (hc : NoMacros c) {ct : CharType} (T : FloatTy) {s : List Nat} (hin : Input ct s) :
    AcceptsWhole c ct T s {} ↔ s ∈ general.matches' := preset_whole hc T hin (by decide) lang_general

/-- **C87**: with `chars_format::scientific` the exponent is mandatory. -/
theorem C87_scientific {c : Cfg} (hc : NoMacros c) {ct : CharType} (T : FloatTy) {s : List Nat} (hin : Input ct s) :
    AcceptsWhole c ct T s { format := Fmt.scientific } ↔ s ∈ scientific.matches' := preset_whole hc T hin (by decide) lang_scientific

/-- **C87**: with `chars_format::fixed` there is no exponent. -/
theorem C87_fixed {c : Cfg} (hc : NoMacros c) {ct : CharType} (T : FloatTy) {s : List Nat} (hin : Input ct s) :
    AcceptsWhole c ct T s { format := Fmt.fixed } ↔ s ∈ fixed.matches' := preset_whole hc T hin (by decide) lang_fixed

/-- **C87**: with `chars_format::fortran`, also the Fortran exponents. -/
theorem C87_fortran {c : Cfg} (hc : NoMacros c) {ct : CharType} (T : FloatTy) {s : List Nat} (hin : Input ct s) :
    AcceptsWhole c ct T s { format := Fmt.fortran } ↔ s ∈ fortran.matches' := preset_whole hc T hin (by decide) lang_fortran

/-- Mathlib's matcher decides the patterns: "-0.5e+3" is a number of RFC 8259, so the call accepts it; "01", "+1", ".5", "1.", "1e" and "inf" are not, so it
does not accept them as a whole. -/
example : AcceptsWhole Cfg.x64 CharType.char .double [45, 48, 46, 53, 101, 43, 51] { format := Fmt.json } :=
  (C87_json ⟨rfl, rfl⟩ .double (input_of_bytes (by decide) (by decide))).2 ((rmatch_iff_matches' _ _).1 (by decide +kernel))

example : ∀ s ∈ [[48, 49], [43, 49], [46, 53], [49, 46], [49, 101], [105, 110, 102]],
    ¬ AcceptsWhole Cfg.x64 CharType.char .double s { format := Fmt.json } := by
  have hno : ∀ s ∈ [[48, 49], [43, 49], [46, 53], [49, 46], [49, 101], [105, 110, 102]], rfc8259.rmatch s = false := by decide +kernel
  have hb : ∀ s ∈ [[48, 49], [43, 49], [46, 53], [49, 46], [49, 101], [105, 110, 102]], (∀ u ∈ s, u < 2 ^ 8) ∧ s.length < 2 ^ 62 := by decide
  intro s hs h
  have h1 := (C87_json (c := Cfg.x64) ⟨rfl, rfl⟩ .double (input_of_bytes (hb s hs).1 (hb s hs).2)).1 h
  have h2 := (rmatch_iff_matches' rfc8259 s).2 h1
  rw [hno s hs] at h2
  cases h2

/-! ### The longest match -/

theorem signed_prefix_letter {plus neg neg' : Bool} {t q w w' z : List Nat} (ht : Signed plus t neg w) (hq : Signed plus q neg' w') (hz : t = q ++ z)
    (hw : ∃ a u, w = a :: u ∧ 97 ≤ lower a) (hw' : ∃ a u, w' = a :: u ∧ 97 ≤ lower a) : w = w' ++ z := by
  obtain ⟨a, u, rfl, ha⟩ := hw
  obtain ⟨a', u', rfl, ha'⟩ := hw'
  have h45 : ¬ 97 ≤ lower 45 := by decide
  have h43 : ¬ 97 ≤ lower 43 := by decide
  subst hz
  rcases hq with ⟨_, rfl⟩ | ⟨_, rfl⟩ | ⟨_, _, rfl⟩ <;> rcases ht with ⟨_, h⟩ | ⟨_, h⟩ | ⟨_, _, h⟩ <;>
    simp only [List.cons_append, List.cons.injEq] at h ⊢ <;> (try omega) <;> (try (exact ⟨h.1.symm, h.2.symm⟩)) <;>
    (try (exact ⟨h.2.1.symm, h.2.2.symm⟩)) <;> (exfalso; obtain ⟨h, _⟩ := h; subst h; first | exact h45 ha | exact h43 ha | exact h45 ha' | exact h43 ha')

theorem paren_unique {t a b : List Nat} (h : Paren t a) (h' : Paren t b) : a = b := by
  obtain ⟨q, hq, rfl⟩ := h
  obtain ⟨q', hq', e⟩ := h'
  replace e : q ++ 41 :: a = q' ++ 41 :: b := (List.cons.inj e).2
  have h41 : ¬ NanChar 41 := by unfold NanChar; omega
  induction q generalizing q' with
  | nil =>
    cases q' with
    | nil => exact (List.cons.inj e).2
    | cons x q' =>
      have := (List.cons.inj e).1
      exact absurd (hq' x List.mem_cons_self) (by rw [← this]; exact h41)
  | cons y q ih =>
    cases q' with
    | nil =>
      have := (List.cons.inj e).1
      exact absurd (hq y List.mem_cons_self) (by rw [this]; exact h41)
    | cons x q' =>
      exact ih (fun u hu => hq u (List.mem_cons_of_mem _ hu)) q' (fun u hu => hq' u (List.mem_cons_of_mem _ hu)) (List.cons.inj e).2

theorem word_first {a : Nat} {w v : List Nat} (h : v.map lower = a :: w) : ∃ x u, v = x :: u ∧ lower x = a := by
  cases v with
  | nil => cases h
  | cons x u => exact ⟨x, u, rfl, (List.cons.inj h).1⟩

/-- The first letter of an infinity or a NaN. -/
theorem inf_first {plus neg : Bool} {t rest : List Nat} (h : InfText plus t neg rest) : ∃ w, Signed plus t neg w ∧ ∃ a u, w = a :: u ∧ lower a = 105 := by
  obtain ⟨w, r, h1, ⟨v, rfl, hv⟩, _⟩ := h
  obtain ⟨x, u, rfl, hx⟩ := word_first hv
  exact ⟨_, h1, x, u ++ r, rfl, hx⟩

theorem nan_first {plus neg : Bool} {t rest : List Nat} (h : NanText plus t neg rest) : ∃ w, Signed plus t neg w ∧ ∃ a u, w = a :: u ∧ lower a = 110 := by
  obtain ⟨w, r, h1, ⟨v, rfl, hv⟩, _⟩ := h
  obtain ⟨x, u, rfl, hx⟩ := word_first hv
  exact ⟨_, h1, x, u ++ r, rfl, hx⟩

theorem inf_not_nanText {plus neg neg' : Bool} {t q z rest rest' : List Nat} (hz : t = q ++ z) (h : InfText plus t neg rest) (h' : NanText plus q neg' rest') : False := by
  obtain ⟨w, h1, a, u, e, ha⟩ := inf_first h
  obtain ⟨w', h1', a', u', e', ha'⟩ := nan_first h'
  have := signed_prefix_letter h1 h1' hz ⟨a, u, e, by omega⟩ ⟨a', u', e', by omega⟩
  rw [e, e'] at this
  have := (List.cons.inj this).1
  rw [this] at ha; omega

theorem nan_not_infText {plus neg neg' : Bool} {t q z rest rest' : List Nat} (hz : t = q ++ z) (h : NanText plus t neg rest) (h' : InfText plus q neg' rest') : False := by
  obtain ⟨w, h1, a, u, e, ha⟩ := nan_first h
  obtain ⟨w', h1', a', u', e', ha'⟩ := inf_first h'
  have := signed_prefix_letter h1 h1' hz ⟨a, u, e, by omega⟩ ⟨a', u', e', by omega⟩
  rw [e, e'] at this
  have := (List.cons.inj this).1
  rw [this] at ha; omega

theorem append_same {α : Type} {a b c d : List α} (h : a ++ b = c ++ d) (hl : a.length = c.length) : a = c ∧ b = d := List.append_inj h hl

theorem inf_longest {plus neg neg' : Bool} {t q z rest : List Nat} (hz : t = q ++ z) (h : InfText plus t neg rest) (h' : InfText plus q neg' []) : rest.length ≤ z.length := by
  obtain ⟨w, r, h1, ⟨v, rfl, hv⟩, h3⟩ := h
  obtain ⟨w', h1', h2'⟩ := inf_whole.1 h'
  obtain ⟨x, u, rfl, hx⟩ := word_first hv
  have hw' : ∃ a u, w' = a :: u ∧ 97 ≤ lower a := by
    rcases h2' with h | h
    · obtain ⟨a, u, e, ha⟩ := word_first h; exact ⟨a, u, e, by omega⟩
    · obtain ⟨a, u, e, ha⟩ := word_first h; exact ⟨a, u, e, by omega⟩
  have e := signed_prefix_letter h1 h1' hz ⟨x, u ++ r, rfl, by omega⟩ hw'
  have hvl : (x :: u).length = 3 := by have := congrArg List.length hv; rw [List.length_map] at this; exact this
  have hr : rest.length ≤ r.length := by
    rcases h3 with ⟨y, rfl, _⟩ | ⟨_, rfl⟩
    · simp
    · exact le_refl _
  rcases h2' with h | h
  · have hl : w'.length = 3 := by have := congrArg List.length h; rw [List.length_map] at this; exact this
    obtain ⟨_, e2⟩ := append_same e (by omega)
    rw [← e2]; exact hr
  · obtain ⟨p, y, rfl, hp, hy⟩ := List.map_eq_append_iff.1 h
    have hl : p.length = 3 := by have := congrArg List.length hp; rw [List.length_map] at this; exact this
    rw [List.append_assoc] at e
    obtain ⟨_, e2⟩ := append_same e (by omega)
    have hs : StartsWith wInity r z := ⟨y, e2, hy⟩
    rcases h3 with ⟨y', e3, hy'⟩ | ⟨h3, _⟩
    · have hl1 : y.length = 5 := by have := congrArg List.length hy; rw [List.length_map] at this; exact this
      have hl2 : y'.length = 5 := by have := congrArg List.length hy'; rw [List.length_map] at this; exact this
      obtain ⟨_, e4⟩ := append_same (e2.symm.trans e3) (by omega)
      rw [e4]
    · exact absurd ⟨z, hs⟩ h3

theorem nan_longest {plus neg neg' : Bool} {t q z rest : List Nat} (hz : t = q ++ z) (h : NanText plus t neg rest) (h' : NanText plus q neg' []) : rest.length ≤ z.length := by
  obtain ⟨w, r, h1, ⟨v, rfl, hv⟩, h3⟩ := h
  obtain ⟨w', h1', h2'⟩ := nan_whole.1 h'
  obtain ⟨x, u, rfl, hx⟩ := word_first hv
  have hw' : ∃ a u, w' = a :: u ∧ 97 ≤ lower a := by
    rcases h2' with h | ⟨v', q', h, _, rfl⟩
    · obtain ⟨a, u, e, ha⟩ := word_first h; exact ⟨a, u, e, by omega⟩
    · obtain ⟨a, u, rfl, ha⟩ := word_first h; exact ⟨a, _, rfl, by omega⟩
  have e := signed_prefix_letter h1 h1' hz ⟨x, u ++ r, rfl, by omega⟩ hw'
  have hvl : (x :: u).length = 3 := by have := congrArg List.length hv; rw [List.length_map] at this; exact this
  have hr : rest.length ≤ r.length := by
    rcases h3 with ⟨y, _, rfl⟩ | ⟨_, rfl⟩
    · simp only [List.length_cons, List.length_append]; omega
    · exact le_refl _
  rcases h2' with h | ⟨v', q', h, hq', rfl⟩
  · have hl : w'.length = 3 := by have := congrArg List.length h; rw [List.length_map] at this; exact this
    obtain ⟨_, e2⟩ := append_same e (by omega)
    rw [← e2]; exact hr
  · have hl : v'.length = 3 := by have := congrArg List.length h; rw [List.length_map] at this; exact this
    rw [List.append_assoc] at e
    obtain ⟨_, e2⟩ := append_same e (by omega)
    have hs : Paren r z := ⟨q', hq', by rw [e2]; simp⟩
    rcases h3 with h3 | ⟨h3, _⟩
    · rw [paren_unique h3 hs]
    · exact absurd ⟨z, hs⟩ h3

theorem inf_extend {plus neg : Bool} {q : List Nat} (h : InfText plus q neg []) (z : List Nat) : ∃ rest, InfText plus (q ++ z) neg rest := by
  obtain ⟨w, r, h1, ⟨v, rfl, hv⟩, _⟩ := h
  obtain ⟨p, e1, hp⟩ := signed_append h1
  have h1' : Signed plus (q ++ z) neg (v ++ (r ++ z)) := by
    rw [e1, List.append_assoc, List.append_assoc]; exact hp _
  by_cases hx : ∃ y, StartsWith wInity (r ++ z) y
  · obtain ⟨y, hy⟩ := hx
    exact ⟨y, _, _, h1', ⟨v, rfl, hv⟩, Or.inl hy⟩
  · exact ⟨_, _, _, h1', ⟨v, rfl, hv⟩, Or.inr ⟨hx, rfl⟩⟩

theorem nan_extend {plus neg : Bool} {q : List Nat} (h : NanText plus q neg []) (z : List Nat) : ∃ rest, NanText plus (q ++ z) neg rest := by
  obtain ⟨w, r, h1, ⟨v, rfl, hv⟩, _⟩ := h
  obtain ⟨p, e1, hp⟩ := signed_append h1
  have h1' : Signed plus (q ++ z) neg (v ++ (r ++ z)) := by
    rw [e1, List.append_assoc, List.append_assoc]; exact hp _
  by_cases hx : ∃ y, Paren (r ++ z) y
  · obtain ⟨y, hy⟩ := hx
    exact ⟨y, _, _, h1', ⟨v, rfl, hv⟩, Or.inl hy⟩
  · exact ⟨_, _, _, h1', ⟨v, rfl, hv⟩, Or.inr ⟨hx, rfl⟩⟩

/-- **C87**: [charconv.from.chars] for the library: a call that does not report `invalid_argument` consumes exactly the longest prefix of the text (after white
space to be skipped) that matches the pattern of the format; and outside JSON (and the "Fortran only" formats) it reports `invalid_argument` exactly when no
prefix matches. -/
theorem C87_longest_match (c : Cfg) {ct : CharType} (T : FloatTy) {s : List Nat} (opt : Options) (hin : Input ct s) (hp : (grammar c opt).PointOK)
    {r : ApiFloat} (h : fromCharsFloat c ct T.fmt s opt = .ok r) :
    (r.ec ≠ .invalidArgument → ∃ p, LongestMatch (patternOf (c.eff opt) opt.decimalPoint) (textOf c opt s) p ∧ textOf c opt s = p ++ s.drop r.off) ∧
    (RegularFormat (c.eff opt) → (r.ec = .invalidArgument ↔ ∀ q, q <+: textOf c opt s → q ∉ (patternOf (c.eff opt) opt.decimalPoint).matches')) := by
  obtain ⟨f, N, hbad, hN⟩ : ∃ (f : Format) (N : Numeral → Code → Nat → Prop), (∀ n b, ¬ N n .invalid b) ∧ ∀ r : ApiFloat, fromCharsFloat c ct T.fmt s opt = .ok r ↔
      r.off ≤ s.length ∧ FloatCall f N (c.eff opt) opt.decimalPoint (textOf c opt s) (s.drop r.off) r.ec.code r.value := by
    by_cases hT : T = .float16
    · subst hT; exact ⟨_, _, (fun n b h => by rcases h.error with e | e <;> cases e), C55_total_float16 c opt hin hp⟩
    · exact ⟨_, _, (fun n b h => by rcases h.error with ⟨e, _⟩ | ⟨e, _⟩ <;> cases e), C55_total c T hT opt hin hp⟩
  have h := ((hN _).1 h).2
  obtain ⟨fmt, hfmt⟩ : ∃ fmt, c.eff opt = fmt := ⟨_, rfl⟩
  have hG : grammar c opt = rules fmt opt.decimalPoint := by unfold grammar; rw [hfmt]
  rw [hG] at hp
  rw [hfmt] at h ⊢
  clear hfmt hN hG
  obtain ⟨t, ht⟩ : ∃ t, textOf c opt s = t := ⟨_, rfl⟩
  rw [ht] at h ⊢
  clear ht
  obtain ⟨rest, hrest⟩ : ∃ rest, s.drop r.off = rest := ⟨_, rfl⟩
  obtain ⟨v, hv⟩ : ∃ v, r.value = v := ⟨_, rfl⟩
  obtain ⟨co, hco⟩ : ∃ co, r.ec.code = co := ⟨_, rfl⟩
  rw [hrest, hv, hco] at h
  rw [hrest]
  have hec : r.ec = .invalidArgument ↔ co = .invalid := by
    rw [← hco]; cases r.ec <;> simp [Errc.code]
  rw [hec, show (r.ec ≠ .invalidArgument ↔ co ≠ .invalid) from not_congr hec]
  clear hrest hv hco hec
  have key : co ≠ .invalid → ∃ p, LongestMatch (patternOf fmt opt.decimalPoint) t p ∧ t = p ++ rest := by
    intro hc
    cases h with
    | @number n _ _ _ text result =>
      have hl := scan_longest hp ((scan_iff_munch hp).2 text)
      refine ⟨n.text opt.decimalPoint, ⟨⟨rest, text.text.symm⟩, mem_pattern.2 (Or.inl ⟨n, text.wf, rfl⟩), ?_⟩, text.text⟩
      rintro q ⟨z, hz⟩ hq
      rcases mem_pattern.1 hq with ⟨m, h1, h2⟩ | ⟨_, neg, hi | hi⟩
      · rw [h2]
        exact hl.2.2 m z h1 (by rw [← hz, h2]; rfl)
      · exfalso
        obtain ⟨w, y, g1, g2, _⟩ := hi
        obtain ⟨p, g3, g4⟩ := signed_append g1
        obtain ⟨v, g5, g6⟩ := g2
        refine numeral_not_infnan text.wf text.text (u := w ++ z) (w := wInf) (r := y ++ z) (plus := plusFlag fmt) (neg := neg) ?_ letters_inf rfl ⟨v, by rw [g5, List.append_assoc], g6⟩
        rw [← hz, g3, List.append_assoc]; exact g4 _
      · exfalso
        obtain ⟨w, y, g1, g2, _⟩ := hi
        obtain ⟨p, g3, g4⟩ := signed_append g1
        obtain ⟨v, g5, g6⟩ := g2
        refine numeral_not_infnan text.wf text.text (u := w ++ z) (w := wNan) (r := y ++ z) (plus := plusFlag fmt) (neg := neg) ?_ letters_nan rfl ⟨v, by rw [g5, List.append_assoc], g6⟩
        rw [← hz, g3, List.append_assoc]; exact g4 _
    | infinity a text =>
      rename_i neg
      obtain ⟨x, _, e, _⟩ := inf_local text
      have hw : InfText (plusFlag fmt) x neg [] := by
        obtain ⟨t1, r1, h1, h2, h3⟩ := text
        obtain ⟨p, e1, hp1⟩ := signed_append h1
        obtain ⟨v, e2, hv⟩ := h2
        rcases h3 with ⟨v', e3, hv'⟩ | ⟨h3, rfl⟩
        · have : x = p ++ (v ++ v') := by
            apply List.append_cancel_right (bs := rest)
            rw [← e, e1, e2, e3]; simp
          rw [this]
          exact inf_whole.2 ⟨_, hp1 _, Or.inr (by rw [List.map_append, hv, hv'])⟩
        · have : x = p ++ v := by
            apply List.append_cancel_right (bs := rest)
            rw [← e, e1, e2]; simp
          rw [this]
          exact inf_whole.2 ⟨_, hp1 _, Or.inl hv⟩
      refine ⟨x, ⟨⟨rest, e.symm⟩, mem_pattern.2 (Or.inr ⟨a, neg, Or.inl hw⟩), ?_⟩, e⟩
      rintro q ⟨z, hz⟩ hq
      have hlen := congrArg List.length (e.symm.trans hz.symm)
      simp only [List.length_append] at hlen
      rcases mem_pattern.1 hq with ⟨m, h1, h2⟩ | ⟨_, neg', hi | hi⟩
      · exfalso
        obtain ⟨w, y, g1, g2, _⟩ := text
        exact numeral_not_infnan h1 (rest := z) (by rw [← hz, h2]; rfl) g1 letters_inf rfl g2
      · have := inf_longest hz.symm text hi
        omega
      · exact (inf_not_nanText hz.symm text hi).elim
    | nan a text =>
      rename_i neg
      obtain ⟨x, _, e, _⟩ := nan_local text
      have hw : NanText (plusFlag fmt) x neg [] := by
        obtain ⟨t1, r1, h1, h2, h3⟩ := text
        obtain ⟨p, e1, hp1⟩ := signed_append h1
        obtain ⟨v, e2, hv⟩ := h2
        rcases h3 with ⟨v', hv', e3⟩ | ⟨h3, rfl⟩
        · have : x = p ++ (v ++ 40 :: (v' ++ [41])) := by
            apply List.append_cancel_right (bs := rest)
            rw [← e, e1, e2, e3]; simp
          rw [this]
          exact nan_whole.2 ⟨_, hp1 _, Or.inr ⟨v, v', hv, hv', rfl⟩⟩
        · have : x = p ++ v := by
            apply List.append_cancel_right (bs := rest)
            rw [← e, e1, e2]; simp
          rw [this]
          exact nan_whole.2 ⟨_, hp1 _, Or.inl hv⟩
      refine ⟨x, ⟨⟨rest, e.symm⟩, mem_pattern.2 (Or.inr ⟨a, neg, Or.inr hw⟩), ?_⟩, e⟩
      rintro q ⟨z, hz⟩ hq
      have hlen := congrArg List.length (e.symm.trans hz.symm)
      simp only [List.length_append] at hlen
      rcases mem_pattern.1 hq with ⟨m, h1, h2⟩ | ⟨_, neg', hi | hi⟩
      · exfalso
        obtain ⟨w, y, g1, g2, _⟩ := text
        exact numeral_not_infnan h1 (rest := z) (by rw [← hz, h2]; rfl) g1 letters_nan rfl g2
      · exact (nan_not_infText hz.symm text hi).elim
      · have := nan_longest hz.symm text hi
        omega
    | invalid a b => exact absurd rfl hc
  refine ⟨key, fun hg => ⟨fun hc => ?_, fun hno => ?_⟩⟩
  · cases h with
    | number text result =>
      subst hc
      exact (hbad _ _ result).elim
    | infinity a text => cases hc
    | nan a text => cases hc
    | invalid a b =>
      rintro q ⟨z, hz⟩ hq
      rcases mem_pattern.1 hq with ⟨m, h1, h2⟩ | ⟨hn, neg', hi⟩
      · obtain ⟨n, rest, hs⟩ := scan_complete hp hg h1 (show t = m.text opt.decimalPoint ++ z by rw [← hz, h2])
        exact a ⟨n, rest, (scan_iff_munch hp).1 hs⟩
      · rcases b with b | ⟨b1, b2⟩
        · rw [hn] at b; cases b
        · rcases hi with hi | hi
          · exact b1 ⟨neg', hz ▸ inf_extend hi z⟩
          · exact b2 ⟨neg', hz ▸ nan_extend hi z⟩
  · by_contra hc
    obtain ⟨p, ⟨h1, h2, _⟩, _⟩ := key hc
    exact hno p h1 h2

/-- "-1.5e3e4": the pointer returned is after "-1.5e3", the longest match. -/
example : ∃ p, LongestMatch (patternOf 5 46) [45, 49, 46, 53, 101, 51, 101, 52] p ∧ [45, 49, 46, 53, 101, 51, 101, 52] = p ++ [101, 52] :=
  (C87_longest_match Cfg.x64 (ct := CharType.char) .double {} (input_of_bytes (by decide) (by decide)) sample_point
    (s := [45, 49, 46, 53, 101, 51, 101, 52]) (r := ⟨6, .ok, some 13877683922067783680⟩) (by decide +kernel)).1 (by decide)

/-! ### Integers -/

theorem mem_baseDigits {base u : Nat} (hb : base ≤ 36) : u ∈ baseDigits base ↔ IntSpec.IsDigit base u := by
  unfold baseDigits IntSpec.IsDigit
  rw [List.mem_flatMap]
  constructor
  · rintro ⟨d, hd, hu⟩
    have hd := List.mem_range.1 hd
    split at hu
    · rw [List.mem_singleton.1 hu]
      unfold IntSpec.digit
      rw [if_pos (by omega)]; omega
    · rcases (by simpa using hu : u = 87 + d ∨ u = 55 + d) with rfl | rfl
      · unfold IntSpec.digit
        rw [if_neg (by omega), if_pos (by omega)]; omega
      · unfold IntSpec.digit
        rw [if_neg (by omega), if_neg (by omega), if_pos (by omega)]; omega
  · intro h
    refine ⟨IntSpec.digit u, List.mem_range.2 h, ?_⟩
    unfold IntSpec.digit at h ⊢
    by_cases h1 : 48 ≤ u ∧ u ≤ 57
    · rw [if_pos h1, if_pos (by omega)]; simp; omega
    · rw [if_neg h1] at h ⊢
      by_cases h2 : 97 ≤ u ∧ u ≤ 122
      · rw [if_pos h2, if_neg (by omega)]; simp; omega
      · rw [if_neg h2] at h ⊢
        by_cases h3 : 65 ≤ u ∧ u ≤ 90
        · rw [if_pos h3, if_neg (by omega)]; simp; omega
        · rw [if_neg h3] at h; omega

theorem mem_integer {signed plus : Bool} {base : Nat} (hb : base ≤ 36) {t : List Nat} :
    t ∈ (integer signed plus base).matches' ↔
      ∃ neg ds, Signed plus t neg ds ∧ (∀ u ∈ ds, IntSpec.IsDigit base u) ∧ ds ≠ [] ∧ (neg = true → signed = true) := by
  unfold integer
  rw [mem_seq]
  constructor
  · rintro ⟨a, b, rfl, ha, hb'⟩
    obtain ⟨h1, h2⟩ := mem_many1.1 hb'
    have h2 : ∀ u ∈ b, IntSpec.IsDigit base u := fun u hu => (mem_baseDigits hb).1 (h2 u hu)
    rcases mem_opt.1 ha with rfl | ha
    · exact ⟨false, b, Or.inr (Or.inl ⟨rfl, rfl⟩), h2, h1, by simp⟩
    · obtain ⟨x, hx, rfl⟩ := mem_oneOf.1 ha
      rcases List.mem_append.1 hx with hx | hx
      · cases plus
        · cases hx
        · rw [List.mem_singleton.1 hx]
          exact ⟨false, b, Or.inr (Or.inr ⟨rfl, rfl, rfl⟩), h2, h1, by simp⟩
      · cases signed
        · cases hx
        · rw [List.mem_singleton.1 hx]
          exact ⟨true, b, Or.inl ⟨rfl, rfl⟩, h2, h1, by simp⟩
  · rintro ⟨neg, ds, hs, h2, h1, h3⟩
    have h2 : ds ∈ (many1 (oneOf (baseDigits base))).matches' := mem_many1.2 ⟨h1, fun u hu => (mem_baseDigits hb).2 (h2 u hu)⟩
    rcases hs with ⟨rfl, rfl⟩ | ⟨_, rfl⟩ | ⟨_, rfl, rfl⟩
    · exact ⟨[45], ds, rfl, mem_opt.2 (Or.inr (mem_oneOf.2 ⟨45, by rw [h3 rfl]; simp, rfl⟩)), h2⟩
    · exact ⟨[], t, rfl, mem_opt.2 (Or.inl rfl), h2⟩
    · exact ⟨[43], ds, rfl, mem_opt.2 (Or.inr (mem_oneOf.2 ⟨43, by simp, rfl⟩)), h2⟩

theorem sign_notDigit {base u : Nat} (hb : base ≤ 36) (h : u = 43 ∨ u = 45) : ¬ IntSpec.IsDigit base u := by
  unfold IntSpec.IsDigit
  rcases h with rfl | rfl
  · rw [show IntSpec.digit 43 = 36 from by decide]; omega
  · rw [show IntSpec.digit 45 = 36 from by decide]; omega

/-- Two readings of a text as a sign and digits agree on the sign. -/
theorem signed_digits {plus neg neg' : Bool} {base : Nat} (hb : base ≤ 36) {t q z x ds ds' : List Nat} (ht : Signed plus t neg (ds ++ x)) (hq : Signed plus q neg' ds')
    (hz : t = q ++ z) (h : ds ≠ [] ∧ ∀ u ∈ ds, IntSpec.IsDigit base u) (h' : ds' ≠ [] ∧ ∀ u ∈ ds', IntSpec.IsDigit base u) :
    neg = neg' ∧ ds ++ x = ds' ++ z := by
  obtain ⟨h1, h2⟩ := h
  obtain ⟨h1', h2'⟩ := h'
  cases ds with
  | nil => exact absurd rfl h1
  | cons a u =>
  cases ds' with
  | nil => exact absurd rfl h1'
  | cons a' u' =>
  have ha := h2 a List.mem_cons_self
  have ha' := h2' a' List.mem_cons_self
  have h45 := sign_notDigit hb (u := 45) (Or.inr rfl)
  have h43 := sign_notDigit hb (u := 43) (Or.inl rfl)
  subst hz
  rcases hq with ⟨rfl, rfl⟩ | ⟨rfl, rfl⟩ | ⟨rfl, _, rfl⟩ <;> rcases ht with ⟨rfl, h⟩ | ⟨rfl, h⟩ | ⟨rfl, _, h⟩ <;>
    simp only [List.cons_append, List.cons.injEq] at h
  · exact ⟨rfl, by simp [h.2.1, h.2.2]⟩
  · exact absurd ha (by rw [← h.1]; exact h45)
  · omega
  · exact absurd ha' (by rw [h.1]; exact h45)
  · exact ⟨rfl, by simp [h.1, h.2]⟩
  · exact absurd ha' (by rw [h.1]; exact h43)
  · omega
  · exact absurd ha (by rw [← h.1]; exact h43)
  · exact ⟨rfl, by simp [h.2.1, h.2.2]⟩

/-- **C87** for integers: in a base from 2 to 36, a call that does not report `invalid_argument` consumes exactly the longest prefix of the text that matches the
pattern of [charconv.from.chars], and it reports `invalid_argument` exactly when no prefix matches; in any other base it always reports `invalid_argument`. -/
theorem C87_int_longest_match (c : Cfg) {ct : CharType} {T : IntType} (hT : T.WF) {s : List Nat} (opt : Options) (hin : Input ct s) {r : ApiInt}
    (h : fromCharsIntApi c ct T s opt = .ok r) :
    (r.ec ≠ .invalidArgument → ∃ p, LongestMatch (integer T.signed (plusFlag (c.eff opt)) opt.base.toNat) (textOf c opt s) p ∧ textOf c opt s = p ++ s.drop r.off) ∧
    (r.ec = .invalidArgument ↔ ¬ (2 ≤ opt.base ∧ opt.base ≤ 36) ∨
      ∀ q, q <+: textOf c opt s → q ∉ (integer T.signed (plusFlag (c.eff opt)) opt.base.toNat).matches') := by
  have h := ((C53_actual_int c hT opt hin r).1 h).2
  obtain ⟨fmt, hfmt⟩ : ∃ fmt, c.eff opt = fmt := ⟨_, rfl⟩
  obtain ⟨base, hbase⟩ : ∃ base, opt.base = base := ⟨_, rfl⟩
  rw [hfmt, hbase] at h ⊢
  obtain ⟨t, ht⟩ : ∃ t, textOf c opt s = t := ⟨_, rfl⟩
  obtain ⟨rest, hrest⟩ : ∃ rest, s.drop r.off = rest := ⟨_, rfl⟩
  obtain ⟨v, hv⟩ : ∃ v, r.value = v := ⟨_, rfl⟩
  obtain ⟨co, hco⟩ : ∃ co, r.ec.code = co := ⟨_, rfl⟩
  rw [hrest, hv, hco, ht] at h
  rw [hrest, ht]
  have hec : r.ec = .invalidArgument ↔ co = .invalid := by
    rw [← hco]; cases r.ec <;> simp [Errc.code]
  rw [hec, show (r.ec ≠ .invalidArgument ↔ co ≠ .invalid) from not_congr hec]
  clear hrest hv hco hec hfmt hbase ht
  cases h with
  | @number neg ds _ _ _ hr result =>
    have hb : base.toNat ≤ 36 := by have := hr.max; omega
    have hlit := hr.literal
    have hc : co ≠ .invalid := by cases result <;> simp
    obtain ⟨p, e, hp⟩ := signed_append hlit.text
    have hmem : p ++ ds ∈ (integer T.signed (plusFlag fmt) base.toNat).matches' :=
      (mem_integer hb).2 ⟨neg, ds, hp ds, hlit.digits, hlit.nonempty, hr.sign⟩
    have hpre : p ++ ds <+: t := ⟨rest, by rw [e, List.append_assoc]⟩
    refine ⟨fun _ => ⟨p ++ ds, ⟨hpre, hmem, ?_⟩, by rw [e, List.append_assoc]⟩, ?_⟩
    · rintro q ⟨z, hz⟩ hq
      obtain ⟨neg', ds', h1, h2, h3, h4⟩ := (mem_integer hb).1 hq
      obtain ⟨_, e2⟩ := signed_digits hb hlit.text h1 hz.symm ⟨hlit.nonempty, hlit.digits⟩ ⟨h3, h2⟩
      have hlen := congrArg List.length (e.symm.trans hz.symm)
      have hlen2 := congrArg List.length e2
      simp only [List.length_append] at hlen hlen2 ⊢
      by_contra hlt
      -- a longer run of digits would continue into `rest`
      have hlt : ds.length < ds'.length := by omega
      have hg : (ds ++ rest)[ds.length]? = (ds' ++ z)[ds.length]? := by rw [e2]
      rw [List.getElem?_append_right (le_refl _), List.getElem?_append_left hlt, Nat.sub_self, List.getElem?_eq_getElem hlt] at hg
      have hhead : rest.head? = some ds'[ds.length] := by rw [List.head?_eq_getElem?]; exact hg
      exact hlit.maximal _ hhead (h2 _ (List.getElem_mem hlt))
    · refine ⟨fun h => absurd h hc, ?_⟩
      rintro (h | h)
      · exact absurd ⟨hr.two, hr.max⟩ h
      · exact absurd hmem (h _ hpre)
  | invalid hno =>
    refine ⟨fun h => absurd rfl h, ⟨fun _ => ?_, fun _ => rfl⟩⟩
    by_cases hb : 2 ≤ base ∧ base ≤ 36
    · right
      rintro q ⟨z, hz⟩ hq
      have hb' : base.toNat ≤ 36 := by omega
      obtain ⟨neg, ds, h1, h2, h3, h4⟩ := (mem_integer hb').1 hq
      obtain ⟨p, e, hp⟩ := signed_append h1
      -- extend the digits as far as possible
      have hsplit : z = z.takeWhile (fun u => decide (IntSpec.IsDigit base.toNat u)) ++ z.dropWhile (fun u => decide (IntSpec.IsDigit base.toNat u)) :=
        (List.takeWhile_append_dropWhile).symm
      refine hno ⟨neg, ds ++ z.takeWhile (fun u => decide (IntSpec.IsDigit base.toNat u)), z.dropWhile (fun u => decide (IntSpec.IsDigit base.toNat u)),
        hb.1, hb.2, ⟨?_, ?_, ?_, ?_⟩, h4⟩
      · rw [List.append_assoc, ← hsplit, ← hz, e, List.append_assoc]
        exact hp _
      · intro u hu
        rcases List.mem_append.1 hu with hu | hu
        · exact h2 u hu
        · have := List.mem_takeWhile_imp hu
          simpa using this
      · simp [h3]
      · intro u hu hd
        have := List.head?_dropWhile_not (fun u => decide (IntSpec.IsDigit base.toNat u)) z
        rw [hu] at this
        simp [hd] at this
    · exact Or.inl hb

/-- "-12x" in base 10 for `int`: the longest match is "-12". -/
example : ∃ p, LongestMatch (integer true false 10) [45, 49, 50, 120] p ∧ [45, 49, 50, 120] = p ++ [120] :=
  (C87_int_longest_match Cfg.x64 (ct := CharType.char) (T := int32) (by decide) {} (input_of_bytes (by decide) (by decide))
    (s := [45, 49, 50, 120]) (r := ⟨3, .ok, some (-12)⟩) (by decide +kernel)).1 (by decide)

end FastFloat
