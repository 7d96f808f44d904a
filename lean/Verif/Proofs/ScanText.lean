import Verif.Proofs.Outcome
/-
# Scanning the text of a numeral
-/
set_option linter.unusedSimpArgs false
namespace FastFloat
open NumSpec FloatSpec ApiSpec

/-- `rest` starts with nothing that could continue a numeral. -/
def Stops (g : Rules) (rest : List Nat) : Prop :=
  ∀ c t, rest = c :: t → ¬ IsDigit c ∧ c ≠ g.point ∧ c ≠ 101 ∧ c ≠ 69 ∧ c ≠ 100 ∧ c ≠ 68 ∧ c ≠ 43 ∧ c ≠ 45

theorem Stops.noDigit {g : Rules} {r : List Nat} (h : Stops g r) : NoDigit r := fun c t e => (h c t e).1

theorem Stops.nil (g : Rules) : Stops g [] := by intro c t h; cases h

theorem mantOK_of {g : Rules} {n : Numeral} (h : n.WF g) : mantOK g n.int n.frac = true := by
  have h3 := h.2.2.1
  unfold mantOK
  split at h3
  · rename_i hj
    rw [if_pos hj]
    obtain ⟨a, b, d⟩ := h3
    have h1 : n.int.isEmpty = false := by cases hi : n.int with
      | nil => exact absurd hi a
      | cons x t => rfl
    have h2 : (headIs n.int 48 && decide (n.int.length > 1)) = false := by
      cases hi : n.int with
      | nil => rfl
      | cons x t =>
        by_cases hx : x = 48
        · subst hx
          have := b t hi
          subst this; simp
        · simp [headIs, hx]
    have h4 : (n.frac == some []) = false := by
      simpa using d
    rw [h1, h2, h4]; rfl
  · rename_i hj
    rw [if_neg hj]
    cases hd : n.int ++ n.frac.getD [] with
    | nil => exact absurd hd h3
    | cons x t => rfl

/-- Scanning a numeral text, given how the exponent scanner treats what follows the significand. -/
theorem scan_text' {g : Rules} (hp : g.PointOK) {n : Numeral} (h : n.WF g) {rest : List Nat}
    (hx : NoDigit (Numeral.expText n.exp ++ rest) ∧ (n.frac = none → headIs (Numeral.expText n.exp ++ rest) g.point = false) ∧
      refExp g (Numeral.expText n.exp ++ rest) = some (n.exp, rest)) : scanNumeral g (n.text g.point ++ rest) = some (n, rest) := by
  have hne : n.digits ≠ [] := by
    have := h.2.2.1
    split at this
    · intro hc; simp [Numeral.digits] at hc; exact this.1 hc.1
    · exact this
  have hint : ∀ c ∈ n.int, IsDigit c := fun c hc => h.2.1 c (by simp [Numeral.digits, hc])
  have hsg := sign_of hp h hne rest
  unfold scanNumeral
  simp only [hsg]
  rw [List.append_assoc, List.append_assoc]
  have hnd2 : NoDigit (Numeral.fracText g.point n.frac ++ (Numeral.expText n.exp ++ rest)) := by
    cases n.frac with
    | none => exact hx.1
    | some ds => intro c t h; simp at h; rw [← h.1]; exact hp.1
  obtain ⟨r1, r2⟩ := run_digits_append (s := Numeral.fracText g.point n.frac ++ (Numeral.expText n.exp ++ rest)) hint
  rw [r1, r2, (run_of_noDigit hnd2).1, (run_of_noDigit hnd2).2, List.append_nil]
  have hfr : refFrac g (Numeral.fracText g.point n.frac ++ (Numeral.expText n.exp ++ rest)) = (n.frac, Numeral.expText n.exp ++ rest) := by
    cases hf : n.frac with
    | none =>
      rw [fracText_none, List.nil_append]
      unfold refFrac
      exact if_neg (by rw [hx.2.1 hf]; simp)
    | some ds =>
      have hfd : ∀ c ∈ ds, IsDigit c := fun c hc => h.2.1 c (by simp [Numeral.digits, hf, hc])
      unfold refFrac
      simp only [fracText_some, headIs, List.cons_append, beq_self_eq_true, if_true, List.drop_succ_cons, List.drop_zero,
          (run_digits_append hfd).1, (run_digits_append hfd).2, (run_of_noDigit hx.1).1, (run_of_noDigit hx.1).2, List.append_nil]
  rw [hfr]
  simp only
  rw [if_pos (mantOK_of h), hx.2.2]

/-- Scanning the text of a numeral followed by something that can not continue it gives the numeral back. -/
theorem scan_text {g : Rules} (hp : g.PointOK) {n : Numeral} (h : n.WF g) {rest : List Nat}
    (hr : (n.exp ≠ none ∧ NoDigit rest) ∨ Stops g rest) : scanNumeral g (n.text g.point ++ rest) = some (n, rest) := by
  have hx : NoDigit (Numeral.expText n.exp ++ rest) ∧ headIs (Numeral.expText n.exp ++ rest) g.point = false ∧
      refExp g (Numeral.expText n.exp ++ rest) = some (n.exp, rest) := by
    have hw := h.2.2.2
    have hrd : NoDigit rest := by rcases hr with h | h; exact h.2; exact h.noDigit
    cases he : n.exp with
    | some e =>
      rw [he] at hw
      obtain ⟨c', t', e1, e2⟩ := exp_head hw
      have hnd : ¬ IsDigit c' := by unfold IsDigit; omega
      have hpt : c' ≠ g.point := by
        obtain ⟨_, p1, p2, p3, p4, p5, p6⟩ := hp
        rcases e2 with h | h | h | h | h | h <;> rw [h] <;> omega
      obtain ⟨ds, q, h1, h2⟩ := refExp_of hw rest
      refine ⟨?_, ?_, ?_⟩
      · rw [expText_some, e1]; intro c t h; simp at h; rw [← h.1]; exact hnd
      · rw [expText_some, e1]; simp [headIs, hpt]
      · rw [expText_some]
        have hm := marker_of hw rest
        unfold refExp
        rw [hm]
        simp only
        rw [expSign_of hw.2.2.1 hw.2.1 hw.1]
        simp only
        obtain ⟨r1, r2⟩ := run_digits_append (s := rest) hw.2.1
        rw [r1, r2, if_neg (by have := hw.1; simp [this]), (run_of_noDigit hrd).1, (run_of_noDigit hrd).2, List.append_nil]
    | none =>
      rw [he] at hw hr
      have hr : Stops g rest := by rcases hr with h | h; exact absurd rfl h.1; exact h
      simp only [expText_none, List.nil_append]
      refine ⟨hrd, ?_, ?_⟩
      · cases rest with
        | nil => rfl
        | cons c t => simp [headIs, (hr c t rfl).2.1]
      · have hm : refMarker g rest = none := by
          unfold refMarker
          cases rest with
          | nil => simp [headIs]
          | cons c t =>
            obtain ⟨_, _, a1, a2, a3, a4, a5, a6⟩ := hr c t rfl
            simp [headIs, a1, a2, a3, a4, a5, a6]
        unfold refExp
        rw [hm]
        simp only
        rw [if_neg]
        intro hc
        simp only [Bool.and_eq_true, Bool.not_eq_true'] at hc
        exact hw hc
  exact scan_text' hp h ⟨hx.1, fun _ => hx.2.1, hx.2.2⟩

/-- No exponent of the grammar starts here. -/
def NoExp (g : Rules) (rest : List Nat) : Prop := ¬ ∃ (e : Exponent) (q : List Nat), e.WF g ∧ rest = e.text ++ q

theorem refExp_noExp {g : Rules} {rest : List Nat} (hf : g.fixed = true) (h : NoExp g rest) : refExp g rest = some (none, rest) := by
  cases hr : refExp g rest with
  | none =>
    unfold refExp at hr
    rw [hf] at hr
    split at hr
    · simp at hr
    · split at hr <;> simp at hr
  | some x =>
    obtain ⟨e, q⟩ := x
    have h1 := refExp_append hr
    have h2 := refExp_WF hr
    cases e with
    | none => simp at h1; rw [h1]
    | some e => exact absurd ⟨e, q, h2, by simpa using h1.symm⟩ h

/-- Scanning a significand followed by something that neither continues it nor is an exponent. -/
theorem scan_text_noExp {g : Rules} (hp : g.PointOK) {n : Numeral} (h : n.WF g) (he : n.exp = none) (hf : g.fixed = true) {rest : List Nat}
    (h1 : NoDigit rest) (h2 : n.frac = none → headIs rest g.point = false) (h3 : NoExp g rest) :
    scanNumeral g (n.text g.point ++ rest) = some (n, rest) := by
  apply scan_text' hp h
  rw [he]
  exact ⟨h1, h2, refExp_noExp hf h3⟩

end FastFloat
