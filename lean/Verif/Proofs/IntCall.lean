import Verif.Proofs.IntTop
/-
# The integer overloads, case by case
-/
set_option linter.unusedSimpArgs false

namespace FastFloat
open IntSpec ApiSpec

/-! ### The call -/

theorem intCall_eq (c : Cfg) (ct : CharType) (T : IntType) (s : List Nat) (opt : Options) :
    fromCharsIntApi c ct T s opt =
      (if (codeBody ct (c.eff opt) s).length = 0 ∨ opt.base < 2 ∨ opt.base > 36 then
        .ok ⟨s.length - (codeBody ct (c.eff opt) s).length, .invalidArgument, none⟩
      else (parseIntString c ct T (codeBody ct (c.eff opt) s) opt).map (fun r => ⟨s.length - r.ptr.length, r.ec, r.value⟩)) := by
  unfold fromCharsIntApi fromCharsIntAdvanced
  rw [dropSpaces_eq, ok_bind]
  split
  · rfl
  · cases parseIntString c ct T (codeBody ct (c.eff opt) s) opt <;> rfl

/-- Every text is a sign and a rest, the way the code splits it. -/
theorem sign_split (plus : Bool) (first : List Nat) :
    ∃ neg t, (neg = true ∧ first = 45 :: t) ∨ (neg = false ∧ plus = true ∧ first = 43 :: t) ∨
        (neg = false ∧ first = t ∧ first.head? ≠ some 45 ∧ (plus = true → first.head? ≠ some 43)) := by
  cases first with
  | nil => exact ⟨false, [], Or.inr (Or.inr ⟨rfl, rfl, by simp, by simp⟩)⟩
  | cons u l =>
    by_cases h : u = 45
    · exact ⟨true, l, Or.inl ⟨rfl, by rw [h]⟩⟩
    · by_cases h' : plus = true ∧ u = 43
      · exact ⟨false, l, Or.inr (Or.inl ⟨rfl, h'.1, by rw [h'.2]⟩)⟩
      · exact ⟨false, u :: l, Or.inr (Or.inr ⟨rfl, rfl, by simpa using h, fun hp hh => h' ⟨hp, by simpa using hh⟩⟩)⟩

/-- A literal, split the way the code does. -/
theorem literal_split {plus neg : Bool} {b : Nat} (h36 : b ≤ 36) {first ds rest : List Nat} (h : Literal plus b first neg ds rest) :
    ((neg = true ∧ first = 45 :: (ds ++ rest)) ∨ (neg = false ∧ plus = true ∧ first = 43 :: (ds ++ rest)) ∨
        (neg = false ∧ first = ds ++ rest ∧ first.head? ≠ some 45 ∧ (plus = true → first.head? ≠ some 43))) ∧
      brun b (ds ++ rest) = ds ∧ bafter b (ds ++ rest) = rest := by
  refine ⟨?_, brun_unique h.digits h.maximal⟩
  rcases h.text with h1 | ⟨h1, h2⟩ | ⟨h1, h2, h3⟩
  · exact Or.inl h1
  · right; right
    obtain ⟨u, l, e⟩ := List.exists_cons_of_ne_nil h.nonempty
    have hd := h.digits u (by rw [e]; simp)
    obtain ⟨n1, n2⟩ := not_digit_sign h36
    have hhead : first.head? = some u := by rw [h2, e]; rfl
    refine ⟨h1, h2, ?_, ?_⟩
    · rw [hhead]; intro hh; cases hh; exact n1 hd
    · intro _; rw [hhead]; intro hh; cases hh; exact n2 hd
  · exact Or.inr (Or.inl ⟨h1, h2, h3⟩)

theorem head_of_split {neg : Bool} {plus : Bool} {first t : List Nat} (h : (neg = true ∧ first = 45 :: t) ∨ (neg = false ∧ plus = true ∧ first = 43 :: t) ∨
        (neg = false ∧ first = t ∧ first.head? ≠ some 45 ∧ (plus = true → first.head? ≠ some 43))) : first.head? = some 45 ↔ neg = true := by
  rcases h with ⟨h1, h2⟩ | ⟨h1, _, h2⟩ | ⟨h1, _, h2, _⟩
  · rw [h1, h2]; simp
  · rw [h1, h2]; simp
  · rw [h1]; simpa using h2

/-- The call on a literal, in terms of the overflow check of the code. -/
theorem intCall_literal (c : Cfg) {ct : CharType} (hw : ct.WF) {T : IntType} (hT : T.WF) {s : List Nat} (hu : ∀ u ∈ s, u < 2 ^ (8 * ct.width)) {opt : Options}
    {b : Nat} (hb : opt.base = (b : Int)) (h2 : 2 ≤ b) (h36 : b ≤ 36) {neg : Bool} {ds rest : List Nat}
    (h : Literal (plusFlag (c.eff opt)) b (codeBody ct (c.eff opt) s) neg ds rest) (hneg : neg = true → T.signed = true) :
    (Overflow T b neg (core b (ds ++ rest)).length (value b ds % 2 ^ 64) → fromCharsIntApi c ct T s opt = .ok ⟨s.length - rest.length, .outOfRange, none⟩) ∧
    (¬ Overflow T b neg (core b (ds ++ rest)).length (value b ds % 2 ^ 64) →
      fromCharsIntApi c ct T s opt = .ok ⟨s.length - rest.length, .ok, some (IntSpec.signedValue neg (value b ds % 2 ^ 64))⟩) := by
  obtain ⟨hs, hr1, hr2⟩ := literal_split h36 h
  obtain ⟨first, hfirst⟩ : ∃ first, codeBody ct (c.eff opt) s = first := ⟨_, rfl⟩
  have huf : ∀ u ∈ first, u < 2 ^ (8 * ct.width) := by rw [← hfirst]; exact codeBody_mem hu
  rw [hfirst] at hs
  have hne : first ≠ [] := by
    rintro rfl
    rcases hs with ⟨_, h1⟩ | ⟨_, _, h1⟩ | ⟨_, h1, _⟩
    · cases h1
    · cases h1
    · exact h.nonempty (List.append_eq_nil_iff.1 h1.symm).1
  have hut : ∀ u ∈ ds ++ rest, u < 2 ^ (8 * ct.width) := by
    intro u hu'
    apply huf
    rcases hs with ⟨_, h1⟩ | ⟨_, _, h1⟩ | ⟨_, h1, _⟩ <;> rw [h1]
    · exact List.mem_cons_of_mem _ hu'
    · exact List.mem_cons_of_mem _ hu'
    · exact hu'
  have hp := (parseIntString_eq c (ct := ct) (T := T) first opt hne).2 neg (ds ++ rest) (by
    cases hn : neg with
    | true => exact Or.inl (hneg hn)
    | false => right; rw [Ne, head_of_split hs, hn]; simp) hs
  have hd := parseIntDigits_eq c hw hT hb h2 h36 first (ds ++ rest) hut neg hneg
  rw [← hp, hr1, hr2] at hd
  have hv : value b (core b (ds ++ rest)) = value b ds := by rw [(core_facts h2 (ds ++ rest)).1, hr1]
  rw [hv] at hd
  rw [intCall_eq, hfirst, if_neg (by
    rw [hb]
    intro h'
    rcases h' with h' | h' | h'
    · exact hne (List.length_eq_zero_iff.1 h')
    · omega
    · omega)]
  constructor
  · intro ho; rw [hd.2.1 h.nonempty ho]; rfl
  · intro ho; rw [hd.2.2 h.nonempty ho]; rfl

/-- The call on anything else. -/
theorem intCall_bad (c : Cfg) {ct : CharType} (hw : ct.WF) {T : IntType} (hT : T.WF) {s : List Nat} (hu : ∀ u ∈ s, u < 2 ^ (8 * ct.width)) (opt : Options)
    (h : ∀ neg ds rest, 2 ≤ opt.base → opt.base ≤ 36 →
      Literal (plusFlag (c.eff opt)) opt.base.toNat (codeBody ct (c.eff opt) s) neg ds rest → neg = true ∧ T.signed = false) :
    fromCharsIntApi c ct T s opt = .ok ⟨s.length - (codeBody ct (c.eff opt) s).length, .invalidArgument, none⟩ := by
  rw [intCall_eq]
  by_cases h0 : (codeBody ct (c.eff opt) s).length = 0 ∨ opt.base < 2 ∨ opt.base > 36
  · rw [if_pos h0]
  rw [if_neg h0]
  push Not at h0
  obtain ⟨g1, g2, g3⟩ := h0
  obtain ⟨b, hb⟩ : ∃ b : Nat, opt.base = (b : Int) := ⟨opt.base.toNat, by omega⟩
  have hbn : opt.base.toNat = b := by omega
  obtain ⟨first, hfirst⟩ : ∃ first, codeBody ct (c.eff opt) s = first := ⟨_, rfl⟩
  have huf : ∀ u ∈ first, u < 2 ^ (8 * ct.width) := by rw [← hfirst]; exact codeBody_mem hu
  rw [hfirst] at h g1 ⊢
  have hne : first ≠ [] := fun hh => g1 (by rw [hh]; rfl)
  obtain ⟨neg, t, hs⟩ := sign_split (plusFlag (c.eff opt)) first
  have hps := parseIntString_eq c (ct := ct) (T := T) first opt hne
  by_cases hn : neg = true ∧ T.signed = false
  · rw [hps.1 hn.2 ((head_of_split hs).2 hn.1)]; rfl
  have hneg : neg = true → T.signed = true := by
    intro h1
    cases h2 : T.signed with
    | true => rfl
    | false => exact absurd ⟨h1, h2⟩ hn
  have hut : ∀ u ∈ t, u < 2 ^ (8 * ct.width) := by
    intro u hu'
    apply huf
    rcases hs with ⟨_, h1⟩ | ⟨_, _, h1⟩ | ⟨_, h1, _⟩ <;> rw [h1]
    · exact List.mem_cons_of_mem _ hu'
    · exact List.mem_cons_of_mem _ hu'
    · exact hu'
  have hd := parseIntDigits_eq c hw hT hb (by omega) (by omega) first t hut neg hneg
  rw [← hps.2 neg t (by
    cases hn' : neg with
    | true => exact Or.inl (hneg hn')
    | false => right; rw [Ne, head_of_split hs, hn']; simp) hs] at hd
  have hrun : brun b t = [] := by
    by_contra hne'
    apply hn
    have := h neg (brun b t) (bafter b t) g2 g3 (by
      rw [hbn]
      refine ⟨?_, fun u h => brun_digit h, hne', fun u h => bafter_head h⟩
      rw [brun_append]
      rcases hs with h1 | ⟨h1, h2, h3⟩ | ⟨h1, h2, _⟩
      · exact Or.inl h1
      · exact Or.inr (Or.inr ⟨h1, h2, h3⟩)
      · exact Or.inr (Or.inl ⟨h1, h2⟩))
    exact this
  rw [hd.1 hrun]
  rfl

/-- A literal of the base in the text, or none. -/
theorem literal_or_not (c : Cfg) (ct : CharType) (T : IntType) (s : List Nat) (opt : Options) :
    (∃ neg ds rest, 2 ≤ opt.base ∧ opt.base ≤ 36 ∧ Literal (plusFlag (c.eff opt)) opt.base.toNat (codeBody ct (c.eff opt) s) neg ds rest ∧
      (neg = true → T.signed = true)) ∨
    (∀ neg ds rest, 2 ≤ opt.base → opt.base ≤ 36 →
      Literal (plusFlag (c.eff opt)) opt.base.toNat (codeBody ct (c.eff opt) s) neg ds rest → neg = true ∧ T.signed = false) := by
  by_cases h : ∃ neg ds rest, 2 ≤ opt.base ∧ opt.base ≤ 36 ∧ Literal (plusFlag (c.eff opt)) opt.base.toNat (codeBody ct (c.eff opt) s) neg ds rest ∧
      (neg = true → T.signed = true)
  · exact Or.inl h
  · right
    intro neg ds rest h1 h2 h3
    by_contra hc
    exact h ⟨neg, ds, rest, h1, h2, h3, fun hn => by
      cases hs : T.signed with
      | true => rfl
      | false => exact absurd ⟨hn, hs⟩ hc⟩

end FastFloat
