import Verif.Model.Cost
import Mathlib.Tactic.Linarith
/-
# The counted functions compute what the uncounted ones do, and how many steps they take
-/
set_option autoImplicit false
namespace FastFloat
open Timed

/-- `t` has the outcome `x`, takes at most `b` steps, and what it returns has the property `Q`. -/
structure TimedRuns {α : Type} (t : Timed α) (x : Exec α) (b : Nat) (Q : α → Prop) : Prop where
  out : t.out = x
  steps : t.steps ≤ b
  post : ∀ a, x = .ok a → Q a

namespace TimedRuns
variable {α β : Type}

theorem mono {t : Timed α} {x : Exec α} {b b' : Nat} {Q Q' : α → Prop} (h : TimedRuns t x b Q) (hb : b ≤ b') (hq : ∀ a, x = .ok a → Q a → Q' a) : TimedRuns t x b' Q' :=
  ⟨h.out, h.steps.trans hb, fun a ha => hq a ha (h.post a ha)⟩

theorem le {t : Timed α} {x : Exec α} {b b' : Nat} {Q : α → Prop} (h : TimedRuns t x b Q) (hb : b ≤ b') : TimedRuns t x b' Q := h.mono hb fun _ _ h => h

theorem pure {a : α} {b : Nat} {Q : α → Prop} (h : Q a) : TimedRuns (Pure.pure a : Timed α) (.ok a) b Q :=
  ⟨rfl, Nat.zero_le _, fun a' e => by cases e; exact h⟩

theorem run {x : Exec α} {b : Nat} {Q : α → Prop} (h : ∀ a, x = .ok a → Q a) : TimedRuns (Timed.run x) x b Q := ⟨rfl, Nat.zero_le _, h⟩

theorem runT (x : Exec α) {b : Nat} : TimedRuns (Timed.run x) x b (fun _ => True) := ⟨rfl, Nat.zero_le _, fun _ _ => trivial⟩

theorem err {e : UB} {b : Nat} {Q : α → Prop} : TimedRuns (Timed.run (.error e) : Timed α) (.error e) b Q := ⟨rfl, Nat.zero_le _, fun _ h => by cases h⟩

theorem bind {t : Timed α} {x : Exec α} {f : α → Timed β} {g : α → Exec β} {b b' B : Nat} {Q : α → Prop} {R : β → Prop} (h : TimedRuns t x b Q)
    (hf : ∀ a, x = .ok a → Q a → TimedRuns (f a) (g a) b' R) (hB : b + b' ≤ B) : TimedRuns (t >>= f) (x >>= g) B R := by
  obtain ⟨ho, hs, hq⟩ := h
  cases x with
  | error e =>
    refine ⟨?_, ?_, ?_⟩
    · show (Timed.bind t f).out = _
      simp only [Timed.bind, ho]; rfl
    · show (Timed.bind t f).steps ≤ _
      simp only [Timed.bind, ho]; omega
    · intro a ha; exact absurd ha (by intro h; cases h)
  | ok a =>
    have hfa := hf a rfl (hq a rfl)
    refine ⟨?_, ?_, ?_⟩
    · show (Timed.bind t f).out = _
      simp only [Timed.bind, ho]; exact hfa.out
    · show (Timed.bind t f).steps ≤ _
      simp only [Timed.bind, ho]; have := hfa.steps; omega
    · intro b hb; exact hfa.post b hb

/-- A counted computation whose uncounted counterpart is a plain value. -/
theorem bindv {t : Timed α} {a : α} {f : α → Timed β} {y : Exec β} {b b' B : Nat} {Q : α → Prop} {R : β → Prop} (h : TimedRuns t (.ok a) b Q)
    (hf : Q a → TimedRuns (f a) y b' R) (hB : b + b' ≤ B) : TimedRuns (t >>= f) y B R :=
  bind (g := fun _ => y) h (fun a' ha hq => by cases ha; exact hf hq) hB

theorem tick {n : Nat} {f : Unit → Timed β} {y : Exec β} {b B : Nat} {R : β → Prop} (hf : TimedRuns (f ()) y b R) (hB : n + b ≤ B) :
    TimedRuns (Timed.tick n >>= f) y B R :=
  bindv (Q := fun _ => True) (a := ()) ⟨rfl, le_refl n, fun _ _ => trivial⟩ (fun _ => hf) hB

theorem ite {p : Prop} [Decidable p] {t t' : Timed α} {x x' : Exec α} {b : Nat} {Q : α → Prop} (h : p → TimedRuns t x b Q) (h' : ¬p → TimedRuns t' x' b Q) :
    TimedRuns (if p then t else t') (if p then x else x') b Q := by
  by_cases hp : p
  · rw [if_pos hp, if_pos hp]; exact h hp
  · rw [if_neg hp, if_neg hp]; exact h' hp

end TimedRuns

/-! ### The scanner -/

theorem skipSpacesT_runs (ct : CharType) (p : List Nat) : TimedRuns (skipSpacesT ct p) (skipSpaces ct p) p.length (fun q => q.length ≤ p.length) := by
  induction p with
  | nil => exact TimedRuns.pure (le_refl _)
  | cons c p ih =>
      unfold skipSpacesT skipSpaces
      refine TimedRuns.tick (b := p.length) ?_ (by simp only [List.length_cons]; omega)
      cases isSpace ct c with
      | error e => exact TimedRuns.err
      | ok b => cases b with
        | true => exact (ih).mono (le_refl _) fun q _ h => by simp only [List.length_cons]; omega
        | false => exact TimedRuns.pure (le_refl _)

theorem skipN_okT {n : Nat} {p q : List Nat} (h : skipN n p = .ok q) : n ≤ p.length ∧ q.length = p.length - n := by
  unfold skipN at h
  split at h
  · cases h; exact ⟨by assumption, by simp⟩
  · cases h

theorem advance_ok {p q : List Nat} (h : advance p = .ok q) : q.length + 1 = p.length := by
  cases p with
  | nil => cases h
  | cons a p => cases h; rfl

theorem simdEightLoopT_runs (c : Cfg) (fuel : Nat) : ∀ p i, TimedRuns (simdEightLoopT c fuel p i) (simdEightLoop c fuel p i) p.length (fun r => r.1.length ≤ p.length) := by
  induction fuel with
  | zero => exact fun _ _ => TimedRuns.err
  | succ fuel ih =>
    intro p i
    unfold simdEightLoopT simdEightLoop
    refine TimedRuns.ite (fun h8 => ?_) (fun _ => TimedRuns.pure (le_refl _))
    refine TimedRuns.tick (b := p.length - 8) ?_ (by omega)
    refine TimedRuns.bind (TimedRuns.runT _ (b := 0)) (b' := p.length - 8) (fun a _ _ => ?_) (by omega)
    cases a with
    | none => exact TimedRuns.pure (le_refl _)
    | some i' =>
      refine TimedRuns.bind (TimedRuns.run (b := 0) (Q := fun q => q.length = p.length - 8) fun q hq => (skipN_okT hq).2) (b' := p.length - 8) (fun q _ hq => ?_) (by omega)
      exact (ih q i').mono (by omega) fun r _ h => by omega

theorem charEightLoopT_runs (c : Cfg) (ct : CharType) (fuel : Nat) : ∀ p i, TimedRuns (charEightLoopT c ct fuel p i) (charEightLoop c ct fuel p i) (2 * p.length) (fun r => r.1.length ≤ p.length) := by
  induction fuel with
  | zero => exact fun _ _ => TimedRuns.err
  | succ fuel ih =>
    intro p i
    unfold charEightLoopT charEightLoop
    refine TimedRuns.ite (fun h8 => ?_) (fun _ => TimedRuns.pure (le_refl _))
    refine TimedRuns.tick (b := 2 * p.length - 8) ?_ (by omega)
    refine TimedRuns.bind (TimedRuns.runT _ (b := 0)) (b' := 2 * p.length - 8) (fun v _ _ => ?_) (by omega)
    refine TimedRuns.ite (fun _ => ?_) (fun _ => TimedRuns.pure (le_refl _))
    refine TimedRuns.tick (b := 2 * p.length - 16) ?_ (by omega)
    refine TimedRuns.bind (TimedRuns.runT _ (b := 0)) (b' := 2 * p.length - 16) (fun v' _ _ => ?_) (by omega)
    refine TimedRuns.bind (TimedRuns.run (b := 0) (Q := fun q => q.length = p.length - 8) fun q hq => (skipN_okT hq).2) (b' := 2 * p.length - 16) (fun q _ hq => ?_) (by omega)
    exact (ih q _).mono (by omega) fun r _ h => by omega

theorem fst_le_of_bind {x : Exec (List Nat)} {f : List Nat → Nat} {r : List Nat × Nat} {n : Nat}
    (h : (x >>= fun p' => (Pure.pure (p', f p') : Exec (List Nat × Nat))) = .ok r) (hx : ∀ q, x = .ok q → q.length ≤ n) : r.1.length ≤ n := by
  cases x with
  | error e => cases h
  | ok q => cases h; exact hx q rfl

theorem bind_split {α β : Type} {x : Exec α} {g : α → Exec β} {r : β} (h : (x >>= g) = .ok r) : ∃ a, x = .ok a ∧ g a = .ok r := by
  cases x with
  | error e => cases h
  | ok a => exact ⟨a, rfl, h⟩

theorem clangFour_le {c : Cfg} {ct : CharType} {p : List Nat} {i : Nat} {r : List Nat × Nat} (h : clangFour c ct p i = .ok r) : r.1.length ≤ p.length := by
  unfold clangFour at h
  split at h
  · obtain ⟨v, -, h⟩ := bind_split h
    split at h
    · exact fst_le_of_bind h fun q hq => (skipN_okT hq).2 ▸ Nat.sub_le _ _
    · cases h; exact le_refl _
  · cases h; exact le_refl _

theorem loopEightT_runs (c : Cfg) (ct : CharType) (p : List Nat) (i : Nat) :
    TimedRuns (loopParseIfEightDigitsT c ct p i) (loopParseIfEightDigits c ct p i) (2 * p.length + 4) (fun r => r.1.length ≤ p.length) := by
  unfold loopParseIfEightDigitsT loopParseIfEightDigits
  refine TimedRuns.ite (fun _ => ?_) (fun _ => TimedRuns.ite (fun _ => ?_) (fun _ => TimedRuns.pure (le_refl _)))
  · refine TimedRuns.bind (charEightLoopT_runs c ct _ p i) (b' := 4) (fun r _ hr => ?_) (by omega)
    refine TimedRuns.tick (b := 0) ?_ (by omega)
    exact TimedRuns.run fun q hq => (clangFour_le hq).trans hr
  · exact (simdEightLoopT_runs c _ p i).le (by omega)

theorem digitLoopT_runs (ct : CharType) (p : List Nat) : ∀ i, TimedRuns (digitLoopT ct p i) (digitLoop ct p i) p.length (fun r => r.1.length ≤ p.length) := by
  induction p with
  | nil => exact fun _ => TimedRuns.pure (le_refl _)
  | cons ch p ih =>
      intro i
      unfold digitLoopT digitLoop
      refine TimedRuns.tick (b := p.length) ?_ (by simp only [List.length_cons]; omega)
      cases isInteger ct ch with
      | error e => exact TimedRuns.err
      | ok b => cases b with
        | true => exact (ih _).mono (le_refl _) fun q _ h => by simp only [List.length_cons]; omega
        | false => exact TimedRuns.pure (le_refl _)

theorem ifDigitT_runs (ct : CharType) (p : List Nat) (i : Nat) (f : Nat → Nat) {k : List Nat → Nat → Timed (List Nat × Nat)} {k' : List Nat → Nat → Exec (List Nat × Nat)}
    (hk : ∀ p i, TimedRuns (k p i) (k' p i) p.length (fun r => r.1.length ≤ p.length)) :
    TimedRuns (ifDigitT ct p i f k) (ifDigit ct p i f k') p.length (fun r => r.1.length ≤ p.length) := by
  cases p with
  | nil => exact TimedRuns.pure (le_refl _)
  | cons ch p =>
    unfold ifDigitT ifDigit
    dsimp only
    refine TimedRuns.tick (b := p.length) ?_ (by simp only [List.length_cons]; omega)
    cases isInteger ct ch with
    | error e => exact TimedRuns.err
    | ok b => cases b with
      | true => exact (hk p _).mono (le_refl _) fun q _ h => by simp only [List.length_cons]; omega
      | false => exact TimedRuns.pure (le_refl _)

theorem intDigitsT_runs (ct : CharType) (p : List Nat) : TimedRuns (intDigitsT ct p) (intDigits ct p) p.length (fun r => r.1.length ≤ p.length) :=
  ifDigitT_runs ct p _ _ fun p i => ifDigitT_runs ct p i _ fun p i => ifDigitT_runs ct p i _ fun p i => ifDigitT_runs ct p i _ fun p i =>
    ifDigitT_runs ct p i _ fun p i => digitLoopT_runs ct p i

/-- What a scanning step leaves is no longer than what it got; a failure carries no spans. -/
def Scan.Short {α : Type} (n : Nat) (len : α → Nat) : Scan α → Prop
  | .fail r => r.integer = none ∧ r.fraction = none
  | .go a => len a ≤ n

theorem intStepT_runs (ct : CharType) (json : Bool) (p : List Nat) :
    TimedRuns (intStepT ct json p) (intStep ct json p) p.length (Scan.Short p.length fun a => a.2.length) := by
  unfold intStepT intStep
  refine TimedRuns.bind (intDigitsT_runs ct p) (b' := 0) (fun r _ hr => ?_) (by omega)
  obtain ⟨q, i⟩ := r
  refine TimedRuns.ite (fun _ => TimedRuns.ite (fun _ => TimedRuns.pure ⟨rfl, rfl⟩) fun _ => ?_) (fun _ => TimedRuns.pure hr)
  refine TimedRuns.bind (TimedRuns.runT _ (b := 0)) (b' := 0) (fun c0 _ _ => ?_) (by omega)
  exact TimedRuns.ite (fun _ => TimedRuns.pure ⟨rfl, rfl⟩) (fun _ => TimedRuns.pure hr)

theorem fracStepT_runs (c : Cfg) (ct : CharType) (dp i : Nat) (p : List Nat) :
    TimedRuns (fracStepT c ct dp i p) (fracStep c ct dp i p) (3 * p.length + 4)
      (fun r => r.p.length ≤ p.length ∧ (∀ f, r.span = some f → f.length ≤ p.length)) := by
  unfold fracStepT fracStep
  refine TimedRuns.ite (fun _ => ?_) (fun _ => TimedRuns.pure ⟨le_refl _, by rintro f ⟨⟩⟩)
  refine TimedRuns.bind (TimedRuns.run (b := 0) (Q := fun q => q.length + 1 = p.length) fun q hq => advance_ok hq) (b' := 3 * p.length + 4) (fun q _ hq => ?_) (by omega)
  refine TimedRuns.bind (loopEightT_runs c ct q i) (b' := p.length) (fun r _ hr => ?_) (by omega)
  refine TimedRuns.bind (digitLoopT_runs ct r.1 r.2) (b' := 0) (fun s _ hs => ?_) (by omega)
  refine TimedRuns.pure ⟨by show s.1.length ≤ _; omega, fun f hf => ?_⟩
  cases hf
  rw [List.length_take]; omega

theorem expDigitLoopT_runs (ct : CharType) (p : List Nat) : ∀ n, TimedRuns (expDigitLoopT ct p n) (expDigitLoop ct p n) p.length (fun r => r.1.length ≤ p.length) := by
  induction p with
  | nil => exact fun _ => TimedRuns.pure (le_refl _)
  | cons ch p ih =>
      intro n
      unfold expDigitLoopT expDigitLoop
      refine TimedRuns.tick (b := p.length) ?_ (by simp only [List.length_cons]; omega)
      cases isInteger ct ch with
      | error e => exact TimedRuns.err
      | ok b => cases b with
        | true =>
          refine TimedRuns.bind (TimedRuns.runT _ (b := 0)) (b' := p.length) (fun n' _ _ => ?_) (by omega)
          exact (ih _).mono (le_refl _) fun q _ h => by simp only [List.length_cons]; omega
        | false => exact TimedRuns.pure (le_refl _)

theorem skipMarker_le {p q : List Nat} (h : skipMarker p = .ok q) : q.length ≤ p.length := by
  unfold skipMarker at h
  split at h
  · have := advance_ok h; omega
  · cases h; exact le_refl _

theorem expSign_le (p : List Nat) : (expSign p).2.length ≤ p.length := by
  unfold expSign
  split
  · exact le_refl _
  · split
    · simp
    · split
      · simp
      · exact le_refl _

theorem expStepT_runs (ct : CharType) (fmt : Fmt) (p : List Nat) :
    TimedRuns (expStepT ct fmt p) (expStep ct fmt p) p.length (Scan.Short p.length fun _ => 0) := by
  unfold expStepT expStep
  refine TimedRuns.ite (fun _ => ?_) (fun _ => TimedRuns.ite (fun _ => TimedRuns.pure ⟨rfl, rfl⟩) (fun _ => TimedRuns.pure (Nat.zero_le _)))
  refine TimedRuns.bind (TimedRuns.run (b := 0) (Q := fun q => q.length ≤ p.length) fun q hq => skipMarker_le hq) (b' := p.length) (fun q _ hq => ?_) (by omega)
  have hs := expSign_le q
  obtain ⟨T, hT⟩ : ∃ T, expSign q = T := ⟨_, rfl⟩
  rw [hT] at hs ⊢
  obtain ⟨neg, p2⟩ := T
  replace hs : p2.length ≤ q.length := hs
  refine TimedRuns.bind (TimedRuns.runT _ (b := 0)) (b' := p.length) (fun isInt _ _ => ?_) (by omega)
  refine TimedRuns.ite (fun _ => TimedRuns.ite (fun _ => TimedRuns.pure ⟨rfl, rfl⟩) (fun _ => TimedRuns.pure (Nat.zero_le _))) (fun _ => ?_)
  refine TimedRuns.bind (expDigitLoopT_runs ct p2 0) (b' := 0) (fun r _ _ => ?_) (by omega)
  exact TimedRuns.pure (Nat.zero_le _)

theorem leadingZeroRunT_runs (dp : Nat) (p : List Nat) : TimedRuns (leadingZeroRunT dp p) (.ok (leadingZeroRun dp p)) p.length (fun _ => True) := by
  induction p with
  | nil => exact TimedRuns.pure trivial
  | cons ch p ih =>
      unfold leadingZeroRunT leadingZeroRun
      refine TimedRuns.tick (b := p.length) ?_ (by simp only [List.length_cons]; omega)
      by_cases h : (ch == ch0 || ch == dp) = true
      · rw [if_pos h, if_pos h]
        exact TimedRuns.bindv (ih) (b' := 0) (fun _ => TimedRuns.pure trivial) (by omega)
      · rw [if_neg h, if_neg h]
        exact TimedRuns.pure trivial

theorem truncLoopT_runs (p : List Nat) : ∀ i, TimedRuns (truncLoopT p i) (.ok (truncLoop p i)) p.length (fun _ => True) := by
  induction p with
  | nil => exact fun _ => TimedRuns.pure trivial
  | cons ch p ih =>
      intro i
      unfold truncLoopT truncLoop
      refine TimedRuns.tick (b := p.length) ?_ (by simp only [List.length_cons]; omega)
      by_cases h : i < 1000000000000000000
      · rw [if_pos h, if_pos h]; exact ih _
      · rw [if_neg h, if_neg h]; exact TimedRuns.pure trivial

theorem recomputeT_runs (integer : List Nat) (fraction : Option (List Nat)) (e : Int) :
    TimedRuns (recomputeT integer fraction e) (.ok (recompute integer fraction e)) (integer.length + (fraction.getD []).length) (fun _ => True) := by
  unfold recomputeT recompute
  refine TimedRuns.bindv (truncLoopT_runs integer 0) (b' := (fraction.getD []).length) (fun _ => ?_) (le_refl _)
  by_cases h : (truncLoop integer 0).1 ≥ 1000000000000000000
  · rw [if_pos h]; simp only [if_pos h]; exact TimedRuns.pure trivial
  · rw [if_neg h]; simp only [if_neg h]
    exact TimedRuns.bindv (truncLoopT_runs _ _) (b' := 0) (fun _ => TimedRuns.pure trivial) (by omega)

theorem signStep_short {ct : CharType} {json : Bool} {fmt : Fmt} {dp : Nat} {p : List Nat} {r : Scan (Bool × List Nat)}
    (h : signStep ct json fmt dp p = .ok r) : Scan.Short p.length (fun a => a.2.length) r := by
  unfold signStep at h
  obtain ⟨c0, -, h⟩ := bind_split h
  split at h
  · obtain ⟨q, hq, h⟩ := bind_split h
    have hl := advance_ok hq
    cases q with
    | nil => cases h; exact ⟨rfl, rfl⟩
    | cons ch q' =>
      obtain ⟨isInt, -, h⟩ := bind_split h
      have hs : (ch :: q').length ≤ p.length := by omega
      split at h
      · split at h
        · cases h; exact ⟨rfl, rfl⟩
        · cases h; exact hs
      · split at h
        · cases h; exact ⟨rfl, rfl⟩
        · cases h; exact hs
  · cases h; exact le_refl _

/-- What the scanner hands on: spans no longer than the text. -/
def ParsedNumber.Short (n : Nat) (r : ParsedNumber) : Prop :=
  (r.integer.getD []).length ≤ n ∧ (r.fraction.getD []).length ≤ n

theorem short_none {n : Nat} {r : ParsedNumber} (h : r.integer = none ∧ r.fraction = none) : r.Short n := by
  unfold ParsedNumber.Short
  rw [h.1, h.2]; exact ⟨Nat.zero_le _, Nat.zero_le _⟩

theorem parseNumberStringT_runs (c : Cfg) (ct : CharType) (json : Bool) (p : List Nat) (opt : Options) (ss : Bool) :
    TimedRuns (parseNumberStringT c ct json p opt ss) (parseNumberString c ct json p opt ss) (8 * p.length + 4) (fun r => r.Short p.length) := by
  unfold parseNumberStringT parseNumberString
  refine TimedRuns.bind (TimedRuns.run (b := 0) fun r hr => signStep_short hr) (b' := 8 * p.length + 4) (fun r _ hr => ?_) (by omega)
  cases r with
  | fail r => exact TimedRuns.pure (short_none hr)
  | go a =>
    obtain ⟨negative, start⟩ := a
    replace hr : start.length ≤ p.length := hr
    refine TimedRuns.bind (intStepT_runs ct json start) (b' := 7 * p.length + 4) (fun r _ hr2 => ?_) (by omega)
    cases r with
    | fail r => exact TimedRuns.pure (short_none hr2)
    | go a =>
      obtain ⟨i, endInt⟩ := a
      replace hr2 : endInt.length ≤ start.length := hr2
      refine TimedRuns.bind (fracStepT_runs c ct _ i endInt) (b' := 4 * p.length) (fun fr _ hfr => ?_) (by omega)
      refine TimedRuns.bind (TimedRuns.runT _ (b := 0)) (b' := 4 * p.length) (fun dc _ _ => ?_) (by omega)
      refine TimedRuns.ite (fun _ => TimedRuns.pure (short_none ⟨rfl, rfl⟩)) (fun _ => TimedRuns.ite (fun _ => TimedRuns.pure (short_none ⟨rfl, rfl⟩)) (fun _ => ?_))
      refine TimedRuns.bind (expStepT_runs ct _ fr.p) (b' := 3 * p.length) (fun r _ hr3 => ?_) (by omega)
      cases r with
      | fail r => exact TimedRuns.pure (short_none hr3)
      | go a =>
        obtain ⟨expNumber, last⟩ := a
        refine TimedRuns.bind (TimedRuns.runT _ (b := 0)) (b' := 3 * p.length) (fun ex _ _ => ?_) (by omega)
        have hz : TimedRuns (countZerosT opt.decimalPoint dc start)
            (.ok (if dc > 19 then leadingZeroRun opt.decimalPoint start else 0)) p.length (fun _ => True) := by
          unfold countZerosT
          by_cases hd : dc > 19
          · rw [if_pos hd, if_pos hd]; exact (leadingZeroRunT_runs _ _).le hr
          · rw [if_neg hd, if_neg hd]; exact TimedRuns.pure trivial
        refine TimedRuns.bindv hz (b' := 2 * p.length) (fun _ => ?_) (by omega)
        have hZ : (if dc > 19 then dc - ((if dc > 19 then leadingZeroRun opt.decimalPoint start else 0 : Nat) : Int) else dc)
            = (if dc > 19 then dc - (leadingZeroRun opt.decimalPoint start : Int) else dc) := by split <;> rfl
        rw [hZ]
        have hi : (start.take (start.length - endInt.length)).length ≤ p.length := by rw [List.length_take]; omega
        have hf : (fr.span.getD []).length ≤ p.length := by
          cases hs : fr.span with
          | none => exact Nat.zero_le _
          | some f => exact (hfr.2 f hs).trans (hr2.trans hr)
        have hc : ∀ again, TimedRuns (chooseT again (start.take (start.length - endInt.length)) fr.span expNumber (ex, fr.i))
            (.ok (if again = true then recompute (start.take (start.length - endInt.length)) fr.span expNumber else (ex, fr.i))) (2 * p.length)
            (fun _ => True) := by
          intro again
          unfold chooseT
          cases again with
          | true => exact (recomputeT_runs _ _ _).le (by omega)
          | false => exact TimedRuns.pure trivial
        refine TimedRuns.bindv (hc _) (b' := 0) (fun _ => ?_) (by omega)
        refine TimedRuns.pure ⟨?_, ?_⟩
        · cases ss
          · exact Nat.zero_le _
          · exact hi
        · cases ss
          · exact Nat.zero_le _
          · exact hf

/-! ### Big integers -/

theorem bigintLimbs_le (c : Cfg) : bigintLimbs c ≤ 125 := by
  unfold bigintLimbs limbBits; split <;> decide

theorem dropZerosT_runs (v : Limbs) : TimedRuns (dropZerosT v) (.ok (dropZeros v)) v.length (fun r => r.length ≤ v.length) := by
  induction v with
  | nil => exact TimedRuns.pure (le_refl _)
  | cons x v ih =>
    unfold dropZerosT dropZeros
    refine TimedRuns.tick (b := v.length) ?_ (by simp only [List.length_cons]; omega)
    by_cases h : x = 0
    · rw [if_pos h, if_pos h]; exact ih.mono (le_refl _) fun q _ h => by simp only [List.length_cons]; omega
    · rw [if_neg h, if_neg h]; exact TimedRuns.pure (le_refl _)

theorem normalizeT_runs (v : Limbs) : TimedRuns (normalizeT v) (.ok (normalize v)) v.length (fun r => r.length ≤ v.length) := by
  unfold normalizeT normalize
  refine TimedRuns.bindv (dropZerosT_runs v.reverse) (b' := 0) (fun h => TimedRuns.pure ?_) (by rw [List.length_reverse]; omega)
  rw [List.length_reverse] at h ⊢; exact h

theorem anyNonzeroT_runs (v : Limbs) : TimedRuns (anyNonzeroT v) (.ok (v.any (· != 0))) v.length (fun _ => True) := by
  induction v with
  | nil => exact TimedRuns.pure trivial
  | cons x v ih =>
    unfold anyNonzeroT
    refine TimedRuns.tick (b := v.length) ?_ (by simp only [List.length_cons]; omega)
    rw [List.any_cons]
    by_cases h : (x != 0) = true
    · rw [if_pos h, h, Bool.true_or]; exact TimedRuns.pure trivial
    · rw [if_neg h, Bool.eq_false_of_not_eq_true h, Bool.false_or]; exact ih

theorem nonzeroFromT_runs (v : Limbs) (i : Nat) : TimedRuns (nonzeroFromT v i) (.ok (nonzeroFrom v i)) v.length (fun _ => True) := by
  unfold nonzeroFromT nonzeroFrom
  have h := anyNonzeroT_runs (v.take (v.length - i)).reverse
  rw [List.any_reverse] at h
  exact h.le (by rw [List.length_reverse, List.length_take]; omega)

theorem tryPush_le {c : Cfg} {v r : Limbs} {x : Nat} (h : tryPush c v x = .ok r) : r.length ≤ bigintLimbs c := by
  unfold tryPush at h
  split at h
  · cases h; rw [List.length_append]; simpa using by assumption
  · cases h

theorem addCarryLoopT_runs (c : Cfg) (v : Limbs) : ∀ y, TimedRuns (addCarryLoopT c v y) (.ok (addCarryLoop c v y)) v.length (fun r => r.1.length = v.length) := by
  induction v with
  | nil => exact fun _ => TimedRuns.pure rfl
  | cons x v ih =>
    intro y
    unfold addCarryLoopT addCarryLoop
    by_cases h : y = 0
    · rw [if_pos h, if_pos h]; exact TimedRuns.pure rfl
    · rw [if_neg h, if_neg h]
      refine TimedRuns.tick (b := v.length) ?_ (by simp only [List.length_cons]; omega)
      refine TimedRuns.bindv (ih _) (b' := 0) (fun h => TimedRuns.pure ?_) (by omega)
      simp only [List.length_cons, h]

theorem smallAddFromT_runs (c : Cfg) (v : Limbs) (y start : Nat) (hv : v.length ≤ bigintLimbs c) :
    TimedRuns (smallAddFromT c v y start) (smallAddFrom c v y start) 125 (fun r => r.length ≤ bigintLimbs c) := by
  have hL := bigintLimbs_le c
  unfold smallAddFromT smallAddFrom
  refine TimedRuns.bindv (addCarryLoopT_runs c (v.drop start) y) (b' := 0) (fun h => ?_) (by rw [List.length_drop]; omega)
  refine TimedRuns.ite (fun _ => TimedRuns.run fun r hr => tryPush_le hr) (fun _ => TimedRuns.pure ?_)
  rw [List.length_append, h, List.length_take, List.length_drop]; omega

theorem mulLoopT_runs (c : Cfg) (y : Nat) (v : Limbs) : ∀ k, TimedRuns (mulLoopT c y v k) (.ok (mulLoop c y v k)) v.length (fun r => r.1.length = v.length) := by
  induction v with
  | nil => exact fun _ => TimedRuns.pure rfl
  | cons x v ih =>
    intro k
    unfold mulLoopT mulLoop
    refine TimedRuns.tick (b := v.length) ?_ (by simp only [List.length_cons]; omega)
    refine TimedRuns.bindv (ih _) (b' := 0) (fun h => TimedRuns.pure ?_) (by omega)
    simp only [List.length_cons, h]

theorem smallMulT_runs (c : Cfg) (v : Limbs) (y : Nat) (hv : v.length ≤ bigintLimbs c) :
    TimedRuns (smallMulT c v y) (smallMul c v y) 125 (fun r => r.length ≤ bigintLimbs c) := by
  have hL := bigintLimbs_le c
  unfold smallMulT smallMul
  refine TimedRuns.bindv (mulLoopT_runs c y v 0) (b' := 0) (fun h => ?_) (by omega)
  refine TimedRuns.ite (fun _ => TimedRuns.run fun r hr => tryPush_le hr) (fun _ => TimedRuns.pure ?_)
  rw [h]; exact hv

theorem largeAddLoopT_runs (c : Cfg) (xs : Limbs) : ∀ ys k, TimedRuns (largeAddLoopT c xs ys k) (largeAddLoop c xs ys k) ys.length (fun r => r.1.length = xs.length) := by
  induction xs with
  | nil =>
    intro ys k
    cases ys with
    | nil => exact TimedRuns.pure rfl
    | cons y ys => exact TimedRuns.err
  | cons x xs ih =>
    intro ys k
    cases ys with
    | nil => exact TimedRuns.pure rfl
    | cons y ys =>
      unfold largeAddLoopT largeAddLoop
      refine TimedRuns.tick (b := ys.length) ?_ (by simp only [List.length_cons]; omega)
      refine TimedRuns.bind (ih _ _) (b' := 0) (fun r _ h => TimedRuns.pure ?_) (by omega)
      simp only [List.length_cons, h]

/-- The `try_resize` of `large_add_from`, as in the model. -/
theorem resizeForT_runs (c : Cfg) (x y : Limbs) (start : Nat) (hx : x.length ≤ bigintLimbs c) :
    TimedRuns (resizeForT c x y start)
      (if x.length < start ∨ y.length > x.length - start then
        (if y.length + start > bigintLimbs c then (.error .capacity : Exec Limbs)
         else .ok (x ++ List.replicate (y.length + start - x.length) 0))
      else .ok x) 125 (fun r => r.length ≤ bigintLimbs c) := by
  have hL := bigintLimbs_le c
  unfold resizeForT
  refine TimedRuns.ite (fun h1 => TimedRuns.ite (fun _ => TimedRuns.err) (fun h => ?_)) (fun _ => TimedRuns.pure hx)
  refine TimedRuns.tick (b := 0) (TimedRuns.pure ?_) (by omega)
  rw [List.length_append, List.length_replicate]; omega

theorem largeAddFromT_runs (c : Cfg) (x y : Limbs) (start : Nat) (hx : x.length ≤ bigintLimbs c) (hy : y.length ≤ bigintLimbs c) :
    TimedRuns (largeAddFromT c x y start) (largeAddFrom c x y start) 375 (fun r => r.length ≤ bigintLimbs c) := by
  have hL := bigintLimbs_le c
  have key : largeAddFrom c x y start = ((if x.length < start ∨ y.length > x.length - start then
        (if y.length + start > bigintLimbs c then (.error .capacity : Exec Limbs)
         else .ok (x ++ List.replicate (y.length + start - x.length) 0))
      else .ok x) >>= fun x => largeAddLoop c (x.drop start) y false >>= fun r =>
        if r.2 then smallAddFrom c (x.take start ++ r.1) 1 (y.length + start) else Pure.pure (x.take start ++ r.1)) := by
    unfold largeAddFrom
    split
    · split <;> rfl
    · rfl
  rw [key]
  unfold largeAddFromT
  refine TimedRuns.bind (resizeForT_runs c x y start hx) (b' := 250) (fun x _ hx => ?_) (by omega)
  refine TimedRuns.bind (largeAddLoopT_runs c _ y _) (b' := 125) (fun r _ hr => ?_) (by omega)
  have hl : (x.take start ++ r.1).length ≤ bigintLimbs c := by
    rw [List.length_append, hr, List.length_take, List.length_drop]; omega
  exact TimedRuns.ite (fun _ => smallAddFromT_runs c _ _ _ hl) (fun _ => TimedRuns.pure hl)

theorem longMulLoopT_runs (c : Cfg) (z : Limbs) (hz : z.length ≤ bigintLimbs c) (ys : Limbs) :
    ∀ i x, x.length ≤ bigintLimbs c → TimedRuns (longMulLoopT c z ys i x) (longMulLoop c z ys i x) (626 * ys.length) (fun r => r.length ≤ bigintLimbs c) := by
  have hL := bigintLimbs_le c
  induction ys with
  | nil => exact fun _ _ hx => TimedRuns.pure hx
  | cons y ys ih =>
    intro i x hx
    unfold longMulLoopT longMulLoop
    refine TimedRuns.tick (b := 625 + 626 * ys.length) ?_ (by simp only [List.length_cons]; omega)
    refine TimedRuns.ite (fun _ => ?_) (fun _ => ?_)
    · refine TimedRuns.tick (b := 500 + 626 * ys.length) ?_ (by omega)
      refine TimedRuns.bind (g := fun zi => largeAddFrom c x zi i >>= fun x => longMulLoop c z ys (i + 1) x) (smallMulT_runs c z y hz)
        (b' := 375 + 626 * ys.length) (fun zi _ hzi => ?_) (by omega)
      exact TimedRuns.bind (largeAddFromT_runs c x zi i hx hzi) (b' := 626 * ys.length) (fun x' _ hx' => ih _ _ hx') (by omega)
    · exact (ih _ _ hx).le (by omega)

theorem longMulT_runs (c : Cfg) (x y : Limbs) (hx : x.length ≤ bigintLimbs c) :
    TimedRuns (longMulT c x y) (longMul c x y) (626 * y.length + 250) (fun r => r.length ≤ bigintLimbs c) := by
  have hL := bigintLimbs_le c
  unfold longMulT longMul
  refine TimedRuns.tick (b := 626 * y.length + 125) ?_ (by omega)
  cases y with
  | nil => exact (normalizeT_runs x).mono (by simp only [List.length_nil]; omega) fun r _ h => by omega
  | cons y0 ys =>
    refine TimedRuns.bind (smallMulT_runs c x y0 hx) (b' := 626 * ys.length + 125) (fun x' _ hx' => ?_) (by simp only [List.length_cons]; omega)
    refine TimedRuns.bind (longMulLoopT_runs c x hx ys 1 x' hx') (b' := 125) (fun r _ hr => ?_) (by omega)
    exact (normalizeT_runs r).mono (by omega) fun q _ h => by omega

theorem largeMulT_runs (c : Cfg) (x y : Limbs) (hx : x.length ≤ bigintLimbs c) :
    TimedRuns (largeMulT c x y) (largeMul c x y) (626 * y.length + 250) (fun r => r.length ≤ bigintLimbs c) := by
  rcases y with _ | ⟨y0, _ | ⟨y1, ys⟩⟩
  · exact longMulT_runs c x [] hx
  · exact (smallMulT_runs c x _ hx).le (by omega)
  · exact longMulT_runs c x (y0 :: y1 :: ys) hx

theorem largePowerOf5_length (c : Cfg) : (largePowerOf5 c).length ≤ 10 := by
  unfold largePowerOf5; split <;> decide

theorem pow5LargeT_runs (c : Cfg) (fuel : Nat) : ∀ v e, v.length ≤ bigintLimbs c →
    TimedRuns (pow5LargeT c fuel v e) (pow5Large c fuel v e) (6511 * (e / 135)) (fun r => r.1.length ≤ bigintLimbs c ∧ r.2 < 135) := by
  induction fuel with
  | zero => exact fun _ _ _ => TimedRuns.err
  | succ fuel ih =>
    intro v e hv
    have hl := largePowerOf5_length c
    unfold pow5LargeT pow5Large
    refine TimedRuns.ite (fun he => ?_) (fun he => TimedRuns.pure ⟨hv, by simpa [largeStep] using he⟩)
    replace he : 135 ≤ e := he
    refine TimedRuns.tick (b := 6510 + 6511 * ((e - 135) / 135)) ?_ (by omega)
    refine TimedRuns.bind (largeMulT_runs c v _ hv) (b' := 6511 * ((e - 135) / 135)) (fun v' _ hv' => ?_) (by omega)
    exact ih v' (e - 135) hv'

theorem pow5SmallT_runs (c : Cfg) (fuel : Nat) : ∀ v e, v.length ≤ bigintLimbs c →
    TimedRuns (pow5SmallT c fuel v e) (pow5Small c fuel v e) (126 * (e / 13)) (fun r => r.1.length ≤ bigintLimbs c) := by
  induction fuel with
  | zero => exact fun _ _ _ => TimedRuns.err
  | succ fuel ih =>
    intro v e hv
    have hs : 13 ≤ smallStep c := by unfold smallStep; split <;> decide
    unfold pow5SmallT pow5Small
    refine TimedRuns.ite (fun he => ?_) (fun he => TimedRuns.pure hv)
    refine TimedRuns.tick (b := 125 + 126 * ((e - 13) / 13)) ?_ (by omega)
    refine TimedRuns.bind (smallMulT_runs c v _ hv) (b' := 126 * ((e - 13) / 13)) (fun v' _ hv' => ?_) (by omega)
    exact (ih v' (e - smallStep c) hv').le (by omega)

theorem bigPow5T_runs (c : Cfg) (v : Limbs) (e : Nat) (hv : v.length ≤ bigintLimbs c) :
    TimedRuns (bigPow5T c v e) (bigPow5 c v e) (6511 * (e / 135) + 1385) (fun r => r.length ≤ bigintLimbs c) := by
  unfold bigPow5T bigPow5
  refine TimedRuns.bind (pow5LargeT_runs c _ v e hv) (b' := 1385) (fun r _ hr => ?_) (by omega)
  obtain ⟨v1, e1⟩ := r
  obtain ⟨h1, h2⟩ := hr
  replace h2 : e1 < 135 := h2
  refine TimedRuns.bind (pow5SmallT_runs c _ v1 e1 h1) (b' := 125) (fun r _ hr => ?_) (by omega)
  obtain ⟨v2, e2⟩ := r
  refine TimedRuns.ite (fun _ => ?_) (fun _ => TimedRuns.pure hr)
  refine TimedRuns.bind (TimedRuns.runT _ (b := 0)) (b' := 125) (fun y _ _ => ?_) (by omega)
  exact smallMulT_runs c v2 _ hr

theorem shlBitsLoopT_runs (lb n : Nat) (v : Limbs) : ∀ k, TimedRuns (shlBitsLoopT lb n v k) (.ok (shlBitsLoop lb n v k)) v.length (fun r => r.1.length = v.length) := by
  induction v with
  | nil => exact fun _ => TimedRuns.pure rfl
  | cons x v ih =>
    intro k
    unfold shlBitsLoopT shlBitsLoop
    refine TimedRuns.tick (b := v.length) ?_ (by simp only [List.length_cons]; omega)
    refine TimedRuns.bindv (ih _) (b' := 0) (fun h => TimedRuns.pure ?_) (by omega)
    simp only [List.length_cons, h]

theorem shlBitsT_runs (c : Cfg) (v : Limbs) (n : Nat) (hv : v.length ≤ bigintLimbs c) :
    TimedRuns (shlBitsT c v n) (shlBits c v n) 125 (fun r => r.length ≤ bigintLimbs c) := by
  have hL := bigintLimbs_le c
  unfold shlBitsT shlBits
  refine TimedRuns.ite (fun _ => TimedRuns.err) (fun _ => ?_)
  refine TimedRuns.bindv (shlBitsLoopT_runs _ n v 0) (b' := 0) (fun h => ?_) (by omega)
  refine TimedRuns.ite (fun _ => TimedRuns.run fun r hr => tryPush_le hr) (fun _ => TimedRuns.pure ?_)
  rw [h]; exact hv

theorem shlLimbsT_runs (c : Cfg) (v : Limbs) (n : Nat) (hv : v.length ≤ bigintLimbs c) :
    TimedRuns (shlLimbsT c v n) (shlLimbs c v n) 125 (fun r => r.length ≤ bigintLimbs c) := by
  have hL := bigintLimbs_le c
  unfold shlLimbsT shlLimbs
  refine TimedRuns.ite (fun _ => TimedRuns.err) (fun h => TimedRuns.ite (fun _ => ?_) (fun _ => TimedRuns.pure hv))
  refine TimedRuns.tick (b := 0) (TimedRuns.pure ?_) (by omega)
  rw [List.length_append, List.length_replicate]; omega

theorem bigShlT_runs (c : Cfg) (v : Limbs) (n : Nat) (hv : v.length ≤ bigintLimbs c) :
    TimedRuns (bigShlT c v n) (bigShl c v n) 250 (fun r => r.length ≤ bigintLimbs c) := by
  unfold bigShlT bigShl
  refine TimedRuns.ite (fun _ => ?_) (fun _ => ?_)
  · refine TimedRuns.bind (shlBitsT_runs c v _ hv) (b' := 125) (fun v' _ hv' => ?_) (by omega)
    exact TimedRuns.ite (fun _ => shlLimbsT_runs c v' _ hv') (fun _ => TimedRuns.pure hv')
  · refine TimedRuns.bind (TimedRuns.pure (b := 0) (Q := fun r : Limbs => r.length ≤ bigintLimbs c) hv) (b' := 125) (fun v' _ hv' => ?_) (by omega)
    exact TimedRuns.ite (fun _ => shlLimbsT_runs c v' _ hv') (fun _ => TimedRuns.pure hv')

theorem bigPow10T_runs (c : Cfg) (v : Limbs) (e : Nat) (hv : v.length ≤ bigintLimbs c) :
    TimedRuns (bigPow10T c v e) (bigPow10 c v e) (6511 * (e / 135) + 1635) (fun r => r.length ≤ bigintLimbs c) := by
  unfold bigPow10T bigPow10
  exact TimedRuns.bind (bigPow5T_runs c v e hv) (b' := 250) (fun v' _ hv' => bigShlT_runs c v' e hv') (by omega)

theorem bigOfU64T_runs (c : Cfg) (x : Nat) : TimedRuns (bigOfU64T c x) (.ok (bigOfU64 c x)) 2 (fun r => r.length ≤ bigintLimbs c) := by
  have h2 : 2 ≤ bigintLimbs c := by unfold bigintLimbs limbBits; split <;> decide
  unfold bigOfU64T bigOfU64
  split
  · exact (normalizeT_runs _).mono (by simp) fun r _ h => by simp at h; omega
  · exact (normalizeT_runs _).mono (by simp) fun r _ h => by simp at h; omega

theorem hi64T_runs (c : Cfg) (v : Limbs) (hv : v.length ≤ bigintLimbs c) : TimedRuns (hi64T c v) (hi64 c v) 125 (fun _ => True) := by
  have hL := bigintLimbs_le c
  unfold hi64T hi64
  refine TimedRuns.ite (fun _ => ?_) (fun _ => ?_)
  · refine TimedRuns.ite (fun _ => TimedRuns.pure trivial) (fun _ => TimedRuns.ite (fun _ => ?_) (fun _ => ?_))
    · exact TimedRuns.bind (TimedRuns.runT _ (b := 0)) (b' := 0) (fun _ _ _ => TimedRuns.runT _) (by omega)
    · refine TimedRuns.bind (TimedRuns.runT _ (b := 0)) (b' := 125) (fun r0 _ _ => ?_) (by omega)
      refine TimedRuns.bind (TimedRuns.runT _ (b := 0)) (b' := 125) (fun r1 _ _ => ?_) (by omega)
      refine TimedRuns.bind (TimedRuns.runT _ (b := 0)) (b' := 125) (fun h _ _ => ?_) (by omega)
      exact TimedRuns.bindv (nonzeroFromT_runs v 2) (b' := 0) (fun _ => TimedRuns.pure trivial) (by omega)
  · refine TimedRuns.ite (fun _ => TimedRuns.pure trivial) (fun _ => TimedRuns.ite (fun _ => ?_) (fun _ => TimedRuns.ite (fun _ => ?_) (fun _ => ?_)))
    · exact TimedRuns.bind (TimedRuns.runT _ (b := 0)) (b' := 0) (fun _ _ _ => TimedRuns.runT _) (by omega)
    · refine TimedRuns.bind (TimedRuns.runT _ (b := 0)) (b' := 0) (fun _ _ _ => ?_) (by omega)
      exact TimedRuns.bind (TimedRuns.runT _ (b := 0)) (b' := 0) (fun _ _ _ => TimedRuns.runT _) (by omega)
    · refine TimedRuns.bind (TimedRuns.runT _ (b := 0)) (b' := 125) (fun r0 _ _ => ?_) (by omega)
      refine TimedRuns.bind (TimedRuns.runT _ (b := 0)) (b' := 125) (fun r1 _ _ => ?_) (by omega)
      refine TimedRuns.bind (TimedRuns.runT _ (b := 0)) (b' := 125) (fun r2 _ _ => ?_) (by omega)
      refine TimedRuns.bind (TimedRuns.runT _ (b := 0)) (b' := 125) (fun h _ _ => ?_) (by omega)
      exact TimedRuns.bindv (nonzeroFromT_runs v 3) (b' := 0) (fun _ => TimedRuns.pure trivial) (by omega)

theorem compareLoopT_runs (x : Limbs) : ∀ y, TimedRuns (compareLoopT x y) (.ok (compareLoop x y)) x.length (fun _ => True) := by
  induction x with
  | nil => exact fun y => by cases y <;> exact TimedRuns.pure trivial
  | cons a x ih =>
    intro y
    cases y with
    | nil => exact TimedRuns.pure trivial
    | cons b y =>
      unfold compareLoopT compareLoop
      refine TimedRuns.tick (b := x.length) ?_ (by simp only [List.length_cons]; omega)
      by_cases h : a > b
      · rw [if_pos h, if_pos h]; exact TimedRuns.pure trivial
      · rw [if_neg h, if_neg h]
        by_cases h : a < b
        · rw [if_pos h, if_pos h]; exact TimedRuns.pure trivial
        · rw [if_neg h, if_neg h]; exact ih y

theorem bigCompareT_runs (c : Cfg) (x y : Limbs) (hx : x.length ≤ bigintLimbs c) : TimedRuns (bigCompareT x y) (.ok (bigCompare x y)) 125 (fun _ => True) := by
  have hL := bigintLimbs_le c
  unfold bigCompareT bigCompare
  split
  · exact TimedRuns.pure trivial
  · split
    · exact TimedRuns.pure trivial
    · exact (compareLoopT_runs _ _).le (by rw [List.length_reverse]; omega)

/-! ### Digit comparison -/

theorem chk32_okT {x y : Int} (h : chk32 x = .ok y) : y = x := by
  unfold chk32 at h
  split at h
  · cases h; rfl
  · cases h

theorem sciLoopT_runs (bound : Nat) (step : Int) (hs : 0 ≤ step) (fuel : Nat) : ∀ m e,
    TimedRuns (sciLoopT bound step fuel m e) (sciLoop bound step fuel m e) fuel (fun r => e ≤ r.2 ∧ r.2 ≤ e + step * fuel) := by
  induction fuel with
  | zero => exact fun _ _ => TimedRuns.err
  | succ fuel ih =>
    intro m e
    have hn : (0 : Int) ≤ step * (fuel : Int) := Int.mul_nonneg hs (Int.natCast_nonneg _)
    have he : step * ((fuel + 1 : Nat) : Int) = step * fuel + step := by rw [Int.natCast_succ, Int.mul_add, Int.mul_one]
    unfold sciLoopT sciLoop
    rw [he]
    refine TimedRuns.ite (fun _ => ?_) (fun _ => TimedRuns.pure ⟨le_refl _, by show e ≤ _; omega⟩)
    refine TimedRuns.tick (b := fuel) ?_ (by omega)
    refine TimedRuns.bind (TimedRuns.run (b := 0) (Q := fun y => y = e + step) fun y hy => chk32_okT hy) (b' := fuel) (fun e' _ he' => ?_) (by omega)
    exact (ih _ e').mono (le_refl _) fun r _ h => by omega

theorem scientificExponentT_runs (m : Nat) (e : Int) :
    TimedRuns (scientificExponentT m e) (scientificExponent m e) 195 (fun r => e ≤ r ∧ r ≤ e + 455) := by
  unfold scientificExponentT scientificExponent
  refine TimedRuns.bind (sciLoopT_runs 10000 4 (by decide) 65 m e) (b' := 130) (fun a _ ha => ?_) (by omega)
  refine TimedRuns.bind (sciLoopT_runs 100 2 (by decide) 65 a.1 a.2) (b' := 65) (fun b _ hb => ?_) (by omega)
  refine TimedRuns.bind (sciLoopT_runs 10 1 (by decide) 65 b.1 b.2) (b' := 0) (fun d _ hd => TimedRuns.pure ?_) (by omega)
  push_cast at ha hb hd
  omega

theorem skipZerosBlocksT_runs (c : Cfg) (ct : CharType) (fuel : Nat) : ∀ p,
    TimedRuns (skipZerosBlocksT c ct fuel p) (skipZerosBlocks c ct fuel p) p.length (fun q => q.length ≤ p.length) := by
  induction fuel with
  | zero => exact fun _ => TimedRuns.err
  | succ fuel ih =>
    intro p
    unfold skipZerosBlocksT skipZerosBlocks
    refine TimedRuns.ite (fun h => ?_) (fun _ => TimedRuns.pure (le_refl _))
    have hl : intCmpLen ct ≤ p.length := by
      rw [Bool.and_eq_true, decide_eq_true_eq] at h; exact h.2
    refine TimedRuns.tick (b := p.length - intCmpLen ct) ?_ (by omega)
    refine TimedRuns.bind (TimedRuns.runT _ (b := 0)) (b' := p.length - intCmpLen ct) (fun b _ _ => ?_) (by omega)
    refine TimedRuns.ite (fun _ => TimedRuns.pure (le_refl _)) (fun _ => ?_)
    refine TimedRuns.bind (TimedRuns.run (b := 0) (Q := fun q => q.length = p.length - intCmpLen ct) fun q hq => (skipN_okT hq).2)
      (b' := p.length - intCmpLen ct) (fun q _ hq => ?_) (by omega)
    exact (ih q).mono (by omega) fun r _ h => by omega

theorem skipZerosUnitsT_runs (p : List Nat) : TimedRuns (skipZerosUnitsT p) (.ok (skipZerosUnits p)) p.length (fun q => q.length ≤ p.length) := by
  induction p with
  | nil => exact TimedRuns.pure (le_refl _)
  | cons ch p ih =>
    unfold skipZerosUnitsT skipZerosUnits
    refine TimedRuns.tick (b := p.length) ?_ (by simp only [List.length_cons]; omega)
    by_cases h : ch ≠ ch0
    · rw [if_pos h, if_pos h]; exact TimedRuns.pure (le_refl _)
    · rw [if_neg h, if_neg h]; exact ih.mono (le_refl _) fun q _ h => by simp only [List.length_cons]; omega

theorem skipZerosT_runs (c : Cfg) (ct : CharType) (p : List Nat) :
    TimedRuns (skipZerosT c ct p) (skipZeros c ct p) (2 * p.length) (fun q => q.length ≤ p.length) := by
  unfold skipZerosT skipZeros
  refine TimedRuns.bind (skipZerosBlocksT_runs c ct _ p) (b' := p.length) (fun q _ hq => ?_) (by omega)
  exact (skipZerosUnitsT_runs q).mono hq fun r _ h => by omega

theorem isTruncatedBlocksT_runs (c : Cfg) (ct : CharType) (fuel : Nat) : ∀ p,
    TimedRuns (isTruncatedBlocksT c ct fuel p) (isTruncatedBlocks c ct fuel p) p.length (fun q => (q.getD []).length ≤ p.length) := by
  induction fuel with
  | zero => exact fun _ => TimedRuns.err
  | succ fuel ih =>
    intro p
    unfold isTruncatedBlocksT isTruncatedBlocks
    refine TimedRuns.ite (fun h => ?_) (fun _ => TimedRuns.pure (le_refl _))
    have hl : intCmpLen ct ≤ p.length := by
      rw [Bool.and_eq_true, decide_eq_true_eq] at h; exact h.2
    refine TimedRuns.tick (b := p.length - intCmpLen ct) ?_ (by omega)
    refine TimedRuns.bind (TimedRuns.runT _ (b := 0)) (b' := p.length - intCmpLen ct) (fun b _ _ => ?_) (by omega)
    refine TimedRuns.ite (fun _ => TimedRuns.pure (Nat.zero_le _)) (fun _ => ?_)
    refine TimedRuns.bind (TimedRuns.run (b := 0) (Q := fun q => q.length = p.length - intCmpLen ct) fun q hq => (skipN_okT hq).2)
      (b' := p.length - intCmpLen ct) (fun q _ hq => ?_) (by omega)
    exact (ih q).mono (by omega) fun r _ h => by omega

theorem anyNotZeroDigitT_runs (v : List Nat) : TimedRuns (anyNotZeroDigitT v) (.ok (v.any (· != ch0))) v.length (fun _ => True) := by
  induction v with
  | nil => exact TimedRuns.pure trivial
  | cons x v ih =>
    unfold anyNotZeroDigitT
    refine TimedRuns.tick (b := v.length) ?_ (by simp only [List.length_cons]; omega)
    rw [List.any_cons]
    by_cases h : (x != ch0) = true
    · rw [if_pos h, h, Bool.true_or]; exact TimedRuns.pure trivial
    · rw [if_neg h, Bool.eq_false_of_not_eq_true h, Bool.false_or]; exact ih

theorem isTruncatedT_runs (c : Cfg) (ct : CharType) (p : List Nat) : TimedRuns (isTruncatedT c ct p) (isTruncated c ct p) (2 * p.length) (fun _ => True) := by
  unfold isTruncatedT isTruncated
  refine TimedRuns.bind (isTruncatedBlocksT_runs c ct _ p) (b' := p.length) (fun q _ hq => ?_) (by omega)
  cases q with
  | none => exact TimedRuns.pure trivial
  | some q => exact (anyNotZeroDigitT_runs q).le hq

theorem intTruncT_runs (c : Cfg) (ct : CharType) (fraction : Option (List Nat)) (q : List Nat) :
    TimedRuns (intTruncT c ct fraction q) (intTrunc c ct fraction q) (2 * q.length + 2 * (fraction.getD []).length) (fun _ => True) := by
  unfold intTruncT intTrunc
  refine TimedRuns.bind (isTruncatedT_runs c ct q) (b' := 2 * (fraction.getD []).length) (fun t _ _ => ?_) (by omega)
  cases fraction with
  | none => exact TimedRuns.pure trivial
  | some f => exact TimedRuns.bind (isTruncatedT_runs c ct f) (b' := 0) (fun t _ _ => TimedRuns.pure trivial) (by simp)

/-- The state of `parse_mantissa` after a chunk loop. -/
structure PMOk (step maxDigits : Nat) (s r : PMState) : Prop where
  len : r.p.length ≤ s.p.length
  counter : r.counter ≤ step
  digits : r.digits ≤ maxDigits
  sum : r.digits + s.counter = s.digits + r.counter
  grow : s.counter ≤ r.counter

theorem pmEightLoopT_runs (c : Cfg) (ct : CharType) (step maxDigits : Nat) (fuel : Nat) : ∀ s, s.counter ≤ step → s.digits ≤ maxDigits →
    TimedRuns (pmEightLoopT c ct step maxDigits fuel s) (pmEightLoop c ct step maxDigits fuel s) (step - s.counter) (fun r => PMOk step maxDigits s r ∧
      (0 < s.p.length → 0 < r.p.length ∨ s.counter < r.counter)) := by
  induction fuel with
  | zero => exact fun _ _ _ => TimedRuns.err
  | succ fuel ih =>
    intro s hc hd
    unfold pmEightLoopT pmEightLoop
    refine TimedRuns.ite (fun h => ?_) (fun _ => TimedRuns.pure ⟨⟨le_refl _, hc, hd, by omega, le_refl _⟩, fun h => Or.inl h⟩)
    refine TimedRuns.tick (b := step - s.counter - 8) ?_ (by omega)
    refine TimedRuns.bind (TimedRuns.runT _ (b := 0)) (b' := step - s.counter - 8) (fun v _ _ => ?_) (by omega)
    refine TimedRuns.bind (TimedRuns.run (b := 0) (Q := fun q => q.length = s.p.length - 8) fun q hq => (skipN_okT hq).2)
      (b' := step - s.counter - 8) (fun q _ hq => ?_) (by omega)
    refine (ih { p := q, value := _, counter := s.counter + 8, digits := s.digits + 8 } (by show s.counter + 8 ≤ step; omega)
      (by show s.digits + 8 ≤ maxDigits; omega)).mono (by show step - (s.counter + 8) ≤ _; omega) fun r _ hr => ?_
    obtain ⟨⟨h1, h2, h3, h4, h5⟩, h6⟩ := hr
    replace h1 : r.p.length ≤ q.length := h1
    replace h4 : r.digits + (s.counter + 8) = s.digits + 8 + r.counter := h4
    replace h5 : s.counter + 8 ≤ r.counter := h5
    exact ⟨⟨by omega, h2, h3, by omega, by omega⟩, fun _ => Or.inr (by omega)⟩

theorem pmOneLoopT_runs (c : Cfg) (step maxDigits : Nat) (fuel : Nat) : ∀ s, s.counter ≤ step → s.digits ≤ maxDigits →
    TimedRuns (pmOneLoopT c step maxDigits fuel s) (pmOneLoop c step maxDigits fuel s) (step - s.counter) (fun r => PMOk step maxDigits s r ∧
      (0 < r.p.length → r.digits < maxDigits → step ≤ r.counter)) := by
  induction fuel with
  | zero => exact fun _ _ _ => TimedRuns.err
  | succ fuel ih =>
    intro s hc hd
    unfold pmOneLoopT pmOneLoop
    obtain ⟨p, value, counter, digits⟩ := s
    replace hc : counter ≤ step := hc
    replace hd : digits ≤ maxDigits := hd
    cases p with
    | nil => exact TimedRuns.pure ⟨⟨le_refl _, hc, hd, rfl, le_refl _⟩, fun h => absurd h (lt_irrefl 0)⟩
    | cons ch p =>
      refine TimedRuns.ite (fun h => ?_) (fun h => TimedRuns.pure ⟨⟨le_refl _, hc, hd, by omega, le_refl _⟩, fun _ h' => ?_⟩)
      · replace h : counter < step ∧ digits < maxDigits := h
        refine TimedRuns.tick (b := step - counter - 1) ?_ (by show 1 + (step - counter - 1) ≤ step - counter; omega)
        refine (ih { p := p, value := _, counter := counter + 1, digits := digits + 1 } (by show counter + 1 ≤ step; omega)
          (by show digits + 1 ≤ maxDigits; omega)).mono (by show step - (counter + 1) ≤ _; omega) fun r _ hr => ?_
        obtain ⟨⟨h1, h2, h3, h4, h5⟩, h6⟩ := hr
        replace h1 : r.p.length ≤ p.length := h1
        replace h4 : r.digits + (counter + 1) = digits + 1 + r.counter := h4
        replace h5 : counter + 1 ≤ r.counter := h5
        exact ⟨⟨by show r.p.length ≤ p.length + 1; omega, h2, h3, by show r.digits + counter = digits + r.counter; omega, by show counter ≤ r.counter; omega⟩, h6⟩
      · replace h : ¬(counter < step ∧ digits < maxDigits) := h
        replace h' : digits < maxDigits := h'
        show step ≤ counter
        omega

theorem addNativeT_runs (c : Cfg) (v : Limbs) (pw x : Nat) (hv : v.length ≤ bigintLimbs c) :
    TimedRuns (addNativeT c v pw x) (addNative c v pw x) 250 (fun r => r.length ≤ bigintLimbs c) := by
  unfold addNativeT addNative
  exact TimedRuns.bind (smallMulT_runs c v pw hv) (b' := 125) (fun b _ hb => smallAddFromT_runs c b x 0 hb) (by omega)

theorem roundUpBigintT_runs (c : Cfg) (v : Limbs) (n : Nat) (hv : v.length ≤ bigintLimbs c) :
    TimedRuns (roundUpBigintT c v n) (roundUpBigint c v n) 250 (fun r => r.1.length ≤ bigintLimbs c ∧ r.2 = n + 1) := by
  unfold roundUpBigintT roundUpBigint
  exact TimedRuns.bind (addNativeT_runs c v 10 1 hv) (b' := 0) (fun b _ hb => TimedRuns.pure ⟨hb, rfl⟩) (by omega)

/-- What `parse_mantissa` has after a span. -/
def PMDone (c : Cfg) (maxDigits : Nat) : Sum (Limbs × Nat) (Limbs × Nat) → Prop
  | .inl r => r.1.length ≤ bigintLimbs c ∧ r.2 ≤ maxDigits + 1
  | .inr r => r.1.length ≤ bigintLimbs c ∧ r.2 ≤ maxDigits

theorem pmLoopT_runs (c : Cfg) (ct : CharType) (maxDigits : Nat) {isT : List Nat → Timed Bool} {isE : List Nat → Exec Bool} {n b : Nat}
    (hT : ∀ q, q.length ≤ n → TimedRuns (isT q) (isE q) b (fun _ => True)) (fuel : Nat) : ∀ big p digits, big.length ≤ bigintLimbs c → p.length ≤ n → digits ≤ maxDigits →
    TimedRuns (pmLoopT c ct maxDigits isT fuel big p digits) (pmLoop c ct maxDigits isE fuel big p digits)
      ((if p.length = 0 then 0 else 289 * ((maxDigits - digits) / 9 + 1)) + b + 250) (PMDone c maxDigits) := by
  induction fuel with
  | zero => exact fun _ _ _ _ _ _ => TimedRuns.err
  | succ fuel ih =>
    intro big p digits hb hp hd
    unfold pmLoopT pmLoop
    refine TimedRuns.ite (fun _ => TimedRuns.pure ⟨hb, hd⟩) (fun h0 => ?_)
    rw [if_neg h0]
    have h9 : 9 ≤ pmStep c ∧ pmStep c ≤ 19 := by unfold pmStep; split <;> decide
    refine TimedRuns.tick (b := 38 + 250 + 289 * ((maxDigits - digits) / 9) + b + 250) ?_ (by omega)
    refine TimedRuns.bind (pmEightLoopT_runs c ct (pmStep c) maxDigits _ { p := p, value := 0, counter := 0, digits := digits } (Nat.zero_le _) hd)
      (b' := 19 + 250 + 289 * ((maxDigits - digits) / 9) + b + 250) (fun s _ hs => ?_) (by show pmStep c - 0 + _ ≤ _; omega)
    obtain ⟨⟨h1, h2, h3, h4, h5⟩, -⟩ := hs
    replace h1 : s.p.length ≤ p.length := h1
    replace h4 : s.digits + 0 = digits + s.counter := h4
    refine TimedRuns.bind (pmOneLoopT_runs c (pmStep c) maxDigits _ s h2 h3) (b' := 250 + 289 * ((maxDigits - digits) / 9) + b + 250) (fun r _ hr => ?_) (by omega)
    obtain ⟨⟨k1, k2, k3, k4, k5⟩, k6⟩ := hr
    refine TimedRuns.bind (TimedRuns.runT _ (b := 0)) (b' := 250 + 289 * ((maxDigits - digits) / 9) + b + 250) (fun pw _ _ => ?_) (by omega)
    refine TimedRuns.bind (addNativeT_runs c big _ _ hb) (b' := 289 * ((maxDigits - digits) / 9) + b + 250) (fun big' _ hb' => ?_) (by omega)
    refine TimedRuns.ite (fun he => ?_) (fun he => ?_)
    · refine TimedRuns.bind (hT _ (by omega)) (b' := 250) (fun t _ _ => ?_) (by omega)
      refine TimedRuns.ite (fun _ => ?_) (fun _ => TimedRuns.pure ⟨hb', by show r.digits ≤ _; omega⟩)
      exact TimedRuns.bind (roundUpBigintT_runs c big' _ hb') (b' := 0) (fun x _ hx => TimedRuns.pure ⟨hx.1, by rw [hx.2]; omega⟩) (by omega)
    · refine (ih big' r.p r.digits hb' (by omega) k3).le ?_
      by_cases hz : r.p.length = 0
      · rw [if_pos hz]; omega
      · rw [if_neg hz]
        have := k6 (by omega) (by omega)
        omega

theorem parseMantissaT_runs (c : Cfg) (ct : CharType) (num : ParsedNumber) (maxDigits n : Nat) (hm : maxDigits ≤ 769) (hn : num.Short n) :
    TimedRuns (parseMantissaT c ct num maxDigits) (parseMantissa c ct num maxDigits) (10 * n + 50208) (fun r => r.1.length ≤ bigintLimbs c ∧ r.2 ≤ maxDigits + 1) := by
  obtain ⟨hi, hf⟩ := hn
  unfold parseMantissaT parseMantissa
  refine TimedRuns.bind (skipZerosT_runs c ct _) (b' := 8 * n + 50208) (fun p _ hp => ?_) (by omega)
  have hT : ∀ q : List Nat, q.length ≤ n → TimedRuns (intTruncT c ct num.fraction q) (intTrunc c ct num.fraction q) (4 * n) (fun _ => True) :=
    fun q hq => (intTruncT_runs c ct num.fraction q).le (by omega)
  have h1 := pmLoopT_runs c ct maxDigits hT (p.length + 1) [] p 0 (Nat.zero_le _) (by omega) (Nat.zero_le _)
  refine TimedRuns.bind (h1.le (b' := 4 * n + 25104) (by split <;> omega)) (b' := 4 * n + 25104) (fun r _ hr => ?_) (by omega)
  cases r with
  | inl x => exact TimedRuns.pure hr
  | inr x =>
    obtain ⟨big, digits⟩ := x
    obtain ⟨hb, hd⟩ := hr
    replace hb : big.length ≤ bigintLimbs c := hb
    replace hd : digits ≤ maxDigits := hd
    dsimp only
    cases hfr : num.fraction with
    | none => exact TimedRuns.pure ⟨hb, by show digits ≤ _; omega⟩
    | some f =>
      rw [hfr] at hf
      replace hf : f.length ≤ n := hf
      have h2 : ∀ p : List Nat, p.length ≤ n → TimedRuns (pmLoopT c ct maxDigits (isTruncatedT c ct) (p.length + 1) big p digits)
          (pmLoop c ct maxDigits (isTruncated c ct) (p.length + 1) big p digits) (2 * n + 25104) (PMDone c maxDigits) := by
        intro p hp
        have := pmLoopT_runs c ct maxDigits (b := 2 * n) (n := n) (fun q hq => (isTruncatedT_runs c ct q).le (by omega)) (p.length + 1) big p digits hb hp hd
        exact this.le (by split <;> omega)
      dsimp only
      refine TimedRuns.ite (fun _ => ?_) (fun _ => ?_)
      · refine TimedRuns.bind (skipZerosT_runs c ct f) (b' := 2 * n + 25104) (fun p _ hp => ?_) (by omega)
        refine TimedRuns.bind (h2 p (by omega)) (b' := 0) (fun r _ hr => ?_) (by omega)
        cases r with
        | inl x => exact TimedRuns.pure hr
        | inr x => exact TimedRuns.pure ⟨hr.1, by have := hr.2; omega⟩
      · refine TimedRuns.bind (TimedRuns.pure (b := 0) (Q := fun r : List Nat => r.length ≤ n) hf) (b' := 2 * n + 25104) (fun p _ hp => ?_) (by omega)
        refine TimedRuns.bind (h2 p (by omega)) (b' := 0) (fun r _ hr => ?_) (by omega)
        cases r with
        | inl x => exact TimedRuns.pure hr
        | inr x => exact TimedRuns.pure ⟨hr.1, by have := hr.2; omega⟩

theorem positiveDigitCompT_runs (c : Cfg) (F : BinFmt) (v : Limbs) (e : Nat) (hv : v.length ≤ bigintLimbs c) :
    TimedRuns (positiveDigitCompT c F v e) (positiveDigitComp c F v e) (6511 * (e / 135) + 1760) (fun _ => True) := by
  unfold positiveDigitCompT positiveDigitComp
  refine TimedRuns.bind (bigPow10T_runs c v e hv) (b' := 125) (fun big _ hb => ?_) (by omega)
  refine TimedRuns.bind (hi64T_runs c big hb) (b' := 0) (fun h _ _ => ?_) (by omega)
  refine TimedRuns.bind (TimedRuns.runT _ (b := 0)) (b' := 0) (fun bl _ _ => ?_) (by omega)
  exact TimedRuns.runT _

theorem negativeDigitCompT_runs (c : Cfg) (F : BinFmt) (v : Limbs) (am : AdjustedMantissa) (e : Int) (hv : v.length ≤ bigintLimbs c) :
    TimedRuns (negativeDigitCompT c F v am e) (negativeDigitComp c F v am e) (6511 * ((-e).toNat / 135) + 2012) (fun _ => True) := by
  unfold negativeDigitCompT negativeDigitComp
  obtain ⟨N, hN⟩ : ∃ N, 6511 * ((-e).toNat / 135) = N := ⟨_, rfl⟩
  rw [hN]
  have tail : ∀ {x y : Limbs} (p2 : Int), x.length ≤ bigintLimbs c → TimedRuns (bigCompareT x y >>= fun ord => run (roundAm F am (roundNearestTieEven fun isOdd _ _ =>
      if ord > 0 then true else if ord < 0 then false else isOdd))) (roundAm F am (roundNearestTieEven fun isOdd _ _ =>
      if bigCompare x y > 0 then true else if bigCompare x y < 0 then false else isOdd)) 125 (fun _ => True) := by
    intro x y _ hx
    exact TimedRuns.bindv (bigCompareT_runs c x y hx) (b' := 0) (fun _ => TimedRuns.runT _) (by omega)
  refine TimedRuns.bind (TimedRuns.runT _ (b := 0)) (b' := N + 2012) (fun amB _ _ => ?_) (by omega)
  refine TimedRuns.bindv (bigOfU64T_runs c _) (b' := N + 2010) (fun ht => ?_) (by omega)
  refine TimedRuns.bind (TimedRuns.runT _ (b := 0)) (b' := N + 2010) (fun p2 _ _ => ?_) (by omega)
  have real : ∀ {y : Limbs}, TimedRuns (if p2 < 0 then bigShlT c v (-p2).toNat >>= fun x => (bigCompareT x y >>= fun ord => run (roundAm F am (roundNearestTieEven fun isOdd _ _ =>
      if ord > 0 then true else if ord < 0 then false else isOdd))) else (Pure.pure v >>= fun x => (bigCompareT x y >>= fun ord => run (roundAm F am (roundNearestTieEven fun isOdd _ _ =>
      if ord > 0 then true else if ord < 0 then false else isOdd)))))
      (if p2 < 0 then bigShl c v (-p2).toNat >>= fun x => roundAm F am (roundNearestTieEven fun isOdd _ _ =>
      if bigCompare x y > 0 then true else if bigCompare x y < 0 then false else isOdd) else (Pure.pure v >>= fun x => roundAm F am (roundNearestTieEven fun isOdd _ _ =>
      if bigCompare x y > 0 then true else if bigCompare x y < 0 then false else isOdd))) 375 (fun _ => True) := by
    intro y
    refine TimedRuns.ite (fun _ => ?_) (fun _ => ?_)
    · exact TimedRuns.bind (bigShlT_runs c v _ hv) (b' := 125) (fun x _ hx => tail p2 hx) (by omega)
    · exact TimedRuns.bind (TimedRuns.pure (b := 0) (Q := fun r : Limbs => r.length ≤ bigintLimbs c) hv) (b' := 125) (fun x _ hx => tail p2 hx) (by omega)
  refine TimedRuns.ite (fun _ => ?_) (fun _ => ?_)
  · refine TimedRuns.bind ((bigPow5T_runs c _ _ ht).le (b' := N + 1385) (by omega)) (b' := 625) (fun y _ hy => ?_) (by omega)
    refine TimedRuns.ite (fun _ => ?_) (fun _ => ?_)
    · exact TimedRuns.bind (bigShlT_runs c y _ hy) (b' := 375) (fun y _ hy => real) (by omega)
    · exact TimedRuns.bind (TimedRuns.pure (b := 0) (Q := fun r : Limbs => r.length ≤ bigintLimbs c) hy) (b' := 375) (fun y _ hy => real) (by omega)
  · refine TimedRuns.bind (TimedRuns.pure (b := 0) (Q := fun r : Limbs => r.length ≤ bigintLimbs c) ht) (b' := 625) (fun y _ hy => ?_) (by omega)
    refine TimedRuns.ite (fun _ => ?_) (fun _ => ?_)
    · exact TimedRuns.bind (bigShlT_runs c y _ hy) (b' := 375) (fun y _ hy => real) (by omega)
    · exact TimedRuns.bind (TimedRuns.pure (b := 0) (Q := fun r : Limbs => r.length ≤ bigintLimbs c) hy) (b' := 375) (fun y _ hy => real) (by omega)

theorem digitCompT_runs (c : Cfg) (ct : CharType) (F : BinFmt) (hF : F.maxDigits ≤ 769) (num : ParsedNumber) (am : AdjustedMantissa) (n : Nat)
    (hn : num.Short n) (h1 : -342 ≤ num.exponent) (h2 : num.exponent ≤ 308) :
    TimedRuns (digitCompT c ct F num am) (digitComp c ct F num am) (10 * n + 104503) (fun _ => True) := by
  unfold digitCompT digitComp
  refine TimedRuns.bind (TimedRuns.run (b := 0) (Q := fun y => y = num.exponent) fun y hy => chk32_okT hy) (b' := 10 * n + 104503) (fun e32 _ he => ?_) (by omega)
  refine TimedRuns.bind (scientificExponentT_runs _ e32) (b' := 10 * n + 104308) (fun sci _ hs => ?_) (by omega)
  refine TimedRuns.bind (parseMantissaT_runs c ct num F.maxDigits n hF hn) (b' := 54100) (fun r _ hr => ?_) (by omega)
  obtain ⟨big, digits⟩ := r
  obtain ⟨hb, hd⟩ := hr
  replace hd : digits ≤ F.maxDigits + 1 := hd
  refine TimedRuns.bind (TimedRuns.run (b := 0) (Q := fun y => y = sci + 1 - (digits : Int)) fun y hy => chk32_okT hy) (b' := 54100) (fun e _ he' => ?_) (by omega)
  refine TimedRuns.ite (fun _ => ?_) (fun _ => ?_)
  · exact (positiveDigitCompT_runs c F big _ hb).le (by omega)
  · exact (negativeDigitCompT_runs c F big _ e hb).le (by omega)

/-! ### parse_number.h -/

theorem product_range {c : Cfg} {bp : Nat} {q : Int} {w : Nat} {r : Value128} (h : computeProductApproximation c bp q w = .ok r) : -342 ≤ q ∧ q ≤ 308 := by
  unfold computeProductApproximation at h
  obtain ⟨hi, h1, -⟩ := bind_split h
  unfold tableGetInt at h1
  split at h1
  · cases h1
  · rename_i hq
    unfold tableGet at h1
    cases hg : powerOfFive128[(2 * (q - smallestPowerOfFive)).toNat]? with
    | none => rw [hg] at h1; cases h1
    | some x =>
      obtain ⟨hl, -⟩ := List.getElem?_eq_some_iff.mp hg
      have hlen : powerOfFive128.length = 1302 := by decide +kernel
      rw [hlen] at hl
      unfold smallestPowerOfFive at hl hq
      omega

theorem computeError_range {c : Cfg} {F : BinFmt} {q : Int} {w : Nat} {r : AdjustedMantissa} (h : computeError c F q w = .ok r) : -342 ≤ q ∧ q ≤ 308 := by
  unfold computeError at h
  obtain ⟨_, -, h⟩ := bind_split h
  obtain ⟨_, -, h⟩ := bind_split h
  obtain ⟨_, h, -⟩ := bind_split h
  exact product_range h

theorem computeFloat_range {c : Cfg} {F : BinFmt} {q : Int} {w : Nat} {r : AdjustedMantissa} (h : computeFloat c F q w = .ok r) (hr : r.power2 < 0) :
    -342 ≤ q ∧ q ≤ 308 := by
  unfold computeFloat at h
  split at h
  · cases h; exact absurd hr (lt_irrefl _)
  · split at h
    · cases h; exact absurd hr (not_lt.mpr (Int.natCast_nonneg _))
    · obtain ⟨_, -, h⟩ := bind_split h
      obtain ⟨_, -, h⟩ := bind_split h
      obtain ⟨_, h, -⟩ := bind_split h
      exact product_range h

theorem fromCharsAdvancedPnsT_runs (c : Cfg) (ct : CharType) (F : BinFmt) (hF : F.maxDigits ≤ 769) (pns : ParsedNumber) (n : Nat) (hn : pns.Short n) :
    TimedRuns (fromCharsAdvancedPnsT c ct F pns) (fromCharsAdvancedPns c ct F pns) (10 * n + 104503) (fun _ => True) := by
  have slow : ∀ am : AdjustedMantissa, (am.power2 < 0 → -342 ≤ pns.exponent ∧ pns.exponent ≤ 308) →
      TimedRuns (if am.power2 < 0 then digitCompT c ct F pns am >>= fun am => (Pure.pure (⟨pns.lastmatch, rangeErrc F pns.mantissa am, some (toFloat F pns.negative am)⟩ : FloatResult) : Timed FloatResult)
        else Pure.pure am >>= fun am => (Pure.pure (⟨pns.lastmatch, rangeErrc F pns.mantissa am, some (toFloat F pns.negative am)⟩ : FloatResult) : Timed FloatResult))
        (if am.power2 < 0 then digitComp c ct F pns am >>= fun am => (Pure.pure (⟨pns.lastmatch, rangeErrc F pns.mantissa am, some (toFloat F pns.negative am)⟩ : FloatResult) : Exec FloatResult)
        else Pure.pure am >>= fun am => (Pure.pure (⟨pns.lastmatch, rangeErrc F pns.mantissa am, some (toFloat F pns.negative am)⟩ : FloatResult) : Exec FloatResult)) (10 * n + 104503) (fun _ => True) := by
    intro am ham
    refine TimedRuns.ite (fun h => ?_) (fun h => ?_)
    · obtain ⟨h1, h2⟩ := ham h
      exact TimedRuns.bind (digitCompT_runs c ct F hF pns am n hn h1 h2) (b' := 0) (fun _ _ _ => TimedRuns.pure trivial) (by omega)
    · exact TimedRuns.bind (TimedRuns.pure (b := 0) (Q := fun _ => True) trivial) (b' := 0) (fun _ _ _ => TimedRuns.pure trivial) (by omega)
  unfold fromCharsAdvancedPnsT fromCharsAdvancedPns
  refine TimedRuns.ite (fun _ => ?_) (fun _ => ?_) <;>
  · refine TimedRuns.bind (b := 0) (Q := fun _ => True) (TimedRuns.runT _) (b' := 10 * n + 104503) (fun fast _ _ => ?_) (by omega)
    cases fast with
    | some v => exact TimedRuns.pure trivial
    | none =>
      dsimp only
      refine TimedRuns.bind (TimedRuns.run (b := 0) (Q := fun am => am.power2 < 0 → -342 ≤ pns.exponent ∧ pns.exponent ≤ 308) fun am h => computeFloat_range h)
        (b' := 10 * n + 104503) (fun am _ ham => ?_) (by omega)
      refine TimedRuns.ite (fun _ => ?_) (fun _ => ?_)
      · refine TimedRuns.bind (TimedRuns.runT _ (b := 0)) (b' := 10 * n + 104503) (fun am1 _ _ => ?_) (by omega)
        refine TimedRuns.ite (fun _ => ?_) (fun _ => ?_)
        · exact TimedRuns.bind (TimedRuns.run (b := 0) (Q := fun am => am.power2 < 0 → -342 ≤ pns.exponent ∧ pns.exponent ≤ 308) fun am' h _ => computeError_range h)
            (b' := 10 * n + 104503) (fun am _ ham => slow am ham) (by omega)
        · exact TimedRuns.bind (TimedRuns.pure (b := 0) (Q := fun am : AdjustedMantissa => am.power2 < 0 → -342 ≤ pns.exponent ∧ pns.exponent ≤ 308) ham)
            (b' := 10 * n + 104503) (fun am _ ham => slow am ham) (by omega)
      · exact TimedRuns.bind (TimedRuns.pure (b := 0) (Q := fun am : AdjustedMantissa => am.power2 < 0 → -342 ≤ pns.exponent ∧ pns.exponent ≤ 308) ham)
            (b' := 10 * n + 104503) (fun am _ ham => slow am ham) (by omega)

theorem nanSeqT_runs (ct : CharType) (p : List Nat) : TimedRuns (nanSeqT ct p) (.ok (nanSeq ct p)) p.length (fun _ => True) := by
  induction p with
  | nil => exact TimedRuns.pure trivial
  | cons ch p ih =>
    unfold nanSeqT nanSeq
    refine TimedRuns.tick (b := p.length) ?_ (by simp only [List.length_cons]; omega)
    by_cases h : (ch == 41) = true
    · rw [if_pos h, if_pos h]; exact TimedRuns.pure trivial
    · rw [if_neg h, if_neg h]
      by_cases h : nanChar ct ch = true
      · rw [if_pos h, if_pos h]; exact ih
      · rw [if_neg h, if_neg h]; exact TimedRuns.pure trivial

theorem nanEndT_runs (ct : CharType) (q : List Nat) :
    TimedRuns (nanEndT ct q) (.ok (if peekIs q 40 then (nanSeq ct (q.drop 1)).getD q else q)) q.length (fun _ => True) := by
  unfold nanEndT
  by_cases h : peekIs q 40 = true
  · rw [if_pos h, if_pos h]
    exact TimedRuns.bindv (nanSeqT_runs ct _) (b' := 0) (fun _ => TimedRuns.pure trivial) (by rw [List.length_drop]; omega)
  · rw [if_neg h, if_neg h]; exact TimedRuns.pure trivial

theorem infnanSign_le {first q : List Nat} {c0 : Nat} {fmt : Fmt} (h : infnanSign first c0 fmt = .ok q) : q.length ≤ first.length := by
  unfold infnanSign at h
  split at h
  · have := advance_ok h; omega
  · cases h; exact le_refl _

theorem parseInfnanT_runs (c : Cfg) (ct : CharType) (F : BinFmt) (first : List Nat) (fmt : Fmt) :
    TimedRuns (parseInfnanT c ct F first fmt) (parseInfnan c ct F first fmt) (first.length + 11) (fun _ => True) := by
  unfold parseInfnanT parseInfnan
  refine TimedRuns.bind (TimedRuns.runT _ (b := 0)) (b' := first.length + 11) (fun c0 _ _ => ?_) (by omega)
  refine TimedRuns.bind (TimedRuns.run (b := 0) (Q := fun q => q.length ≤ first.length) fun q hq => infnanSign_le hq) (b' := first.length + 11) (fun p _ hp => ?_) (by omega)
  refine TimedRuns.ite (fun _ => ?_) (fun _ => TimedRuns.pure trivial)
  refine TimedRuns.tick (b := first.length + 8) ?_ (by omega)
  refine TimedRuns.bind (TimedRuns.runT _ (b := 0)) (b' := first.length + 8) (fun isNan _ _ => ?_) (by omega)
  refine TimedRuns.ite (fun _ => ?_) (fun _ => ?_)
  · refine TimedRuns.bind (TimedRuns.run (b := 0) (Q := fun q => q.length ≤ first.length) fun q hq => by have := (skipN_okT hq).2; omega)
      (b' := first.length + 8) (fun q _ hq => ?_) (by omega)
    exact TimedRuns.bindv (nanEndT_runs ct q) (b' := 0) (fun _ => TimedRuns.pure trivial) (by omega)
  · refine TimedRuns.tick (b := first.length + 5) ?_ (by omega)
    refine TimedRuns.bind (TimedRuns.runT _ (b := 0)) (b' := first.length + 5) (fun isInf _ _ => ?_) (by omega)
    refine TimedRuns.ite (fun _ => ?_) (fun _ => TimedRuns.pure trivial)
    refine TimedRuns.bind (b := 5) (Q := fun _ => True) ?_ (b' := 0) (fun ptr _ _ => TimedRuns.pure trivial) (by omega)
    exact TimedRuns.tick (b := 0) (TimedRuns.runT _) (by omega)

theorem parseNumberSlowPathT_runs (c : Cfg) (ct : CharType) (F : BinFmt) (hF : F.maxDigits ≤ 769) (first : List Nat) (opt : Options) (bjf : Bool) :
    TimedRuns (parseNumberSlowPathT c ct F first opt bjf) (parseNumberSlowPath c ct F first opt bjf) (18 * first.length + 104507) (fun _ => True) := by
  unfold parseNumberSlowPathT parseNumberSlowPath
  refine TimedRuns.bind (parseNumberStringT_runs c ct bjf first opt true) (b' := 10 * first.length + 104503) (fun pns _ hp => ?_) (by omega)
  exact fromCharsAdvancedPnsT_runs c ct F hF pns first.length hp

theorem fromCharsFloatParsedT_runs (c : Cfg) (ct : CharType) (F : BinFmt) (hF : F.maxDigits ≤ 769) (first : List Nat) (opt : Options) (fmt : Fmt) (bjf : Bool)
    (pns : ParsedNumber) : TimedRuns (fromCharsFloatParsedT c ct F first opt fmt bjf pns) (fromCharsFloatParsed c ct F first opt fmt bjf pns)
      (18 * first.length + 104507) (fun _ => True) := by
  unfold fromCharsFloatParsedT fromCharsFloatParsed
  refine TimedRuns.ite (fun _ => TimedRuns.ite (fun _ => TimedRuns.pure trivial) (fun _ => (parseInfnanT_runs c ct F first fmt).le (by omega))) (fun _ => ?_)
  refine TimedRuns.ite (fun _ => parseNumberSlowPathT_runs c ct F hF first opt bjf) (fun _ => ?_)
  refine TimedRuns.bind (TimedRuns.runT _ (b := 0)) (b' := 18 * first.length + 104507) (fun fast _ _ => ?_) (by omega)
  cases fast with
  | some v => exact TimedRuns.pure trivial
  | none =>
    dsimp only
    refine TimedRuns.bind (TimedRuns.runT _ (b := 0)) (b' := 18 * first.length + 104507) (fun am _ _ => ?_) (by omega)
    exact TimedRuns.ite (fun _ => parseNumberSlowPathT_runs c ct F hF first opt bjf) (fun _ => TimedRuns.pure trivial)

theorem fromCharsFloatBodyT_runs (c : Cfg) (ct : CharType) (F : BinFmt) (hF : F.maxDigits ≤ 769) (first : List Nat) (opt : Options) :
    TimedRuns (fromCharsFloatBodyT c ct F first opt) (fromCharsFloatBody c ct F first opt) (26 * first.length + 104511) (fun _ => True) := by
  cases first with
  | nil => exact TimedRuns.pure trivial
  | cons a first =>
    unfold fromCharsFloatBodyT fromCharsFloatBody
    refine TimedRuns.bind (parseNumberStringT_runs c ct _ (a :: first) opt false) (b' := 18 * (a :: first).length + 104507) (fun pns _ _ => ?_) (by omega)
    exact fromCharsFloatParsedT_runs c ct F hF (a :: first) opt _ _ pns

theorem dropSpacesT_runs (c : Cfg) (ct : CharType) (s : List Nat) (opt : Options) :
    TimedRuns (dropSpacesT c ct s opt) (dropSpaces c ct s opt) s.length (fun q => q.length ≤ s.length) := by
  unfold dropSpacesT dropSpaces
  exact TimedRuns.ite (fun _ => skipSpacesT_runs ct s) (fun _ => TimedRuns.pure (le_refl _))

theorem fromCharsFloatT_runs (c : Cfg) (ct : CharType) (F : BinFmt) (hF : F.maxDigits ≤ 769) (s : List Nat) (opt : Options) :
    TimedRuns (fromCharsFloatT c ct F s opt) (fromCharsFloat c ct F s opt) (27 * s.length + 104511) (fun _ => True) := by
  unfold fromCharsFloatT fromCharsFloat
  refine TimedRuns.bind (b := 27 * s.length + 104511) (Q := fun _ => True) ?_ (b' := 0) (fun _ _ _ => TimedRuns.pure trivial) (by omega)
  unfold fromCharsFloatAdvancedT fromCharsFloatAdvanced
  refine TimedRuns.bind (dropSpacesT_runs c ct s opt) (b' := 26 * s.length + 104511) (fun q _ hq => ?_) (by omega)
  exact (fromCharsFloatBodyT_runs c ct F hF q opt).le (by omega)

/-! ### Integers -/

theorem skipZeroUnitsT_runs (p : List Nat) : TimedRuns (skipZeroUnitsT p) (.ok (skipZeroUnits p)) p.length (fun q => q.length ≤ p.length) := by
  induction p with
  | nil => exact TimedRuns.pure (le_refl _)
  | cons ch p ih =>
    unfold skipZeroUnitsT skipZeroUnits
    refine TimedRuns.tick (b := p.length) ?_ (by simp only [List.length_cons]; omega)
    by_cases h : (ch == ch0) = true
    · rw [if_pos h, if_pos h]; exact ih.mono (le_refl _) fun q _ h => by simp only [List.length_cons]; omega
    · rw [if_neg h, if_neg h]; exact TimedRuns.pure (le_refl _)

theorem u8RestT_runs (ct : CharType) (p : List Nat) : TimedRuns (u8RestT ct p) (.ok (u8Rest ct p)) p.length (fun _ => True) := by
  induction p with
  | nil => exact TimedRuns.pure trivial
  | cons ch p ih =>
    unfold u8RestT u8Rest
    refine TimedRuns.tick (b := p.length) ?_ (by simp only [List.length_cons]; omega)
    by_cases h : ct.toInt ch < 48 ∨ ct.toInt ch > 57
    · rw [if_pos h, if_pos h]; exact TimedRuns.pure trivial
    · rw [if_neg h, if_neg h]; exact ih

theorem skipDigitsT_runs (ct : CharType) (p : List Nat) : TimedRuns (skipDigitsT ct p) (skipDigits ct p) p.length (fun _ => True) := by
  induction p with
  | nil => exact TimedRuns.pure trivial
  | cons ch p ih =>
    unfold skipDigitsT skipDigits
    refine TimedRuns.tick (b := p.length) ?_ (by simp only [List.length_cons]; omega)
    cases isInteger ct ch with
    | error e => exact TimedRuns.err
    | ok b => cases b with
      | true => exact ih
      | false => exact TimedRuns.pure trivial

theorem parseU8T_runs (c : Cfg) (ct : CharType) (first p : List Nat) (z : Bool) :
    TimedRuns (parseU8T c ct first p z) (parseU8 c ct first p z) (p.length + 4) (fun _ => True) := by
  unfold parseU8T parseU8
  refine TimedRuns.ite (fun _ => TimedRuns.pure trivial) (fun _ => ?_)
  refine TimedRuns.tick (b := p.length) ?_ (by omega)
  refine TimedRuns.bind (TimedRuns.runT _ (b := 0)) (b' := p.length) (fun digits _ _ => ?_) (by omega)
  refine TimedRuns.ite (fun _ => TimedRuns.pure trivial) (fun _ => TimedRuns.ite (fun _ => ?_) (fun _ => ?_))
  · refine TimedRuns.bind (TimedRuns.run (b := 0) (Q := fun q => q.length ≤ p.length) fun q hq => by have := (skipN_okT hq).2; omega) (b' := p.length) (fun q _ hq => ?_) (by omega)
    exact TimedRuns.bindv (u8RestT_runs ct q) (b' := 0) (fun _ => TimedRuns.pure trivial) (by omega)
  · refine TimedRuns.bind (TimedRuns.runT _ (b := 0)) (b' := 0) (fun d _ _ => ?_) (by omega)
    refine TimedRuns.bind (TimedRuns.runT _ (b := 0)) (b' := 0) (fun q _ _ => ?_) (by omega)
    exact TimedRuns.ite (fun _ => TimedRuns.pure trivial) (fun _ => TimedRuns.pure trivial)

theorem parseU16T_runs (c : Cfg) (ct : CharType) (first p : List Nat) (z : Bool) :
    TimedRuns (parseU16T c ct first p z) (parseU16 c ct first p z) (p.length + 6) (fun _ => True) := by
  unfold parseU16T parseU16
  refine TimedRuns.ite (fun _ => TimedRuns.pure trivial) (fun _ => TimedRuns.ite (fun _ => ?_) (fun _ => TimedRuns.pure trivial))
  refine TimedRuns.tick (b := p.length) ?_ (by omega)
  refine TimedRuns.bind (TimedRuns.runT _ (b := 0)) (b' := p.length) (fun digits _ _ => ?_) (by omega)
  refine TimedRuns.ite (fun _ => ?_) (fun _ => TimedRuns.pure trivial)
  refine TimedRuns.bind (TimedRuns.runT _ (b := 0)) (b' := p.length) (fun d5 _ _ => ?_) (by omega)
  refine TimedRuns.ite (fun _ => ?_) (fun _ => ?_)
  · refine TimedRuns.bind (TimedRuns.runT _ (b := 0)) (b' := p.length) (fun d6 _ _ => ?_) (by omega)
    refine TimedRuns.bind (TimedRuns.run (b := 0) (Q := fun q => q.length ≤ p.length) fun q hq => by have := (skipN_okT hq).2; omega) (b' := p.length) (fun q _ hq => ?_) (by omega)
    refine TimedRuns.ite (fun _ => ?_) (fun _ => TimedRuns.ite (fun _ => TimedRuns.pure trivial) (fun _ => TimedRuns.pure trivial))
    exact TimedRuns.bind (skipDigitsT_runs ct q) (b' := 0) (fun _ _ _ => TimedRuns.pure trivial) (by omega)
  · exact TimedRuns.bind (TimedRuns.runT _ (b := 0)) (b' := 0) (fun _ _ _ => TimedRuns.pure trivial) (by omega)

theorem intBlocksT_runs (c : Cfg) (ct : CharType) (base : Int) (p : List Nat) :
    TimedRuns (intBlocksT c ct base p) (intBlocks c ct base p) (2 * p.length + 4) (fun r => r.1.length ≤ p.length) := by
  unfold intBlocksT intBlocks
  exact TimedRuns.ite (fun _ => loopEightT_runs c ct p 0) (fun _ => TimedRuns.pure (le_refl _))

theorem baseLoopT_runs (base : Int) (p : List Nat) : ∀ i, TimedRuns (baseLoopT base p i) (baseLoop base p i) p.length (fun _ => True) := by
  induction p with
  | nil => exact fun _ => TimedRuns.pure trivial
  | cons ch p ih =>
    intro i
    unfold baseLoopT baseLoop
    refine TimedRuns.tick (b := p.length) ?_ (by simp only [List.length_cons]; omega)
    cases chToDigit ch with
    | error e => exact TimedRuns.err
    | ok d => exact TimedRuns.ite (fun _ => TimedRuns.pure trivial) (fun _ => ih _)

theorem parseIntGenericT_runs (c : Cfg) (ct : CharType) (T : IntType) (base : Int) (first p : List Nat) (neg z : Bool) :
    TimedRuns (parseIntGenericT c ct T base first p neg z) (parseIntGeneric c ct T base first p neg z) (3 * p.length + 4) (fun _ => True) := by
  unfold parseIntGenericT parseIntGeneric
  refine TimedRuns.bind (intBlocksT_runs c ct base p) (b' := p.length) (fun r1 _ h1 => ?_) (by omega)
  exact TimedRuns.bind (baseLoopT_runs base r1.1 r1.2) (b' := 0) (fun r2 _ _ => TimedRuns.runT (parseIntFinish T base first p neg z r2)) (by omega)

theorem TimedRuns.cong {α : Type} {t : Timed α} {x y : Exec α} {b : Nat} {Q : α → Prop} (h : x = y) (r : TimedRuns t x b Q) : TimedRuns t y b Q := h ▸ r

theorem parseIntDigitsT_runs (c : Cfg) (ct : CharType) (T : IntType) (base : Int) (first p : List Nat) (neg z : Bool) :
    TimedRuns (parseIntDigitsT c ct T base first p neg z) (parseIntDigits c ct T base first p neg z) (4 * p.length + 10) (fun _ => True) := by
  unfold parseIntDigitsT parseIntDigits
  refine TimedRuns.ite (fun _ => (parseU8T_runs c ct first p z).le (by omega)) (fun _ => TimedRuns.ite (fun _ => ?_)
    (fun _ => (parseIntGenericT_runs c ct T base first p neg z).le (by omega)))
  have R : TimedRuns (parseU16T c ct first p z >>= fun o => match o with
        | some r => Pure.pure r
        | none => parseIntGenericT c ct T base first p neg z) (parseU16 c ct first p z >>= fun o => match o with
        | some r => Pure.pure r
        | none => parseIntGeneric c ct T base first p neg z) (4 * p.length + 10) (fun _ => True) := by
    refine TimedRuns.bind (parseU16T_runs c ct first p z) (b' := 3 * p.length + 4) (fun o _ _ => ?_) (by omega)
    cases o with
    | some r => exact TimedRuns.pure trivial
    | none => exact parseIntGenericT_runs c ct T base first p neg z
  refine TimedRuns.cong ?_ R
  cases parseU16 c ct first p z with
  | error e => rfl
  | ok o => cases o <;> rfl

theorem skipIntSign_le {fmt : Fmt} {c0 : Nat} {first q : List Nat} (h : skipIntSign fmt c0 first = .ok q) : q.length ≤ first.length := by
  unfold skipIntSign at h
  split at h
  · have := advance_ok h; omega
  · cases h; exact le_refl _

theorem parseIntStringT_runs (c : Cfg) (ct : CharType) (T : IntType) (first : List Nat) (opt : Options) :
    TimedRuns (parseIntStringT c ct T first opt) (parseIntString c ct T first opt) (5 * first.length + 10) (fun _ => True) := by
  unfold parseIntStringT parseIntString
  refine TimedRuns.bind (TimedRuns.runT _ (b := 0)) (b' := 5 * first.length + 10) (fun c0 _ _ => ?_) (by omega)
  refine TimedRuns.ite (fun _ => TimedRuns.pure trivial) (fun _ => ?_)
  refine TimedRuns.bind (TimedRuns.run (b := 0) (Q := fun q => q.length ≤ first.length) fun q hq => skipIntSign_le hq) (b' := 5 * first.length + 10) (fun q _ hq => ?_) (by omega)
  refine TimedRuns.bindv (skipZeroUnitsT_runs q) (b' := 4 * first.length + 10) (fun hz => ?_) (by omega)
  exact (parseIntDigitsT_runs c ct T opt.base first _ _ _).le (by omega)

theorem fromCharsIntApiT_runs (c : Cfg) (ct : CharType) (T : IntType) (s : List Nat) (opt : Options) :
    TimedRuns (fromCharsIntApiT c ct T s opt) (fromCharsIntApi c ct T s opt) (6 * s.length + 10) (fun _ => True) := by
  unfold fromCharsIntApiT fromCharsIntApi
  refine TimedRuns.bind (b := 6 * s.length + 10) (Q := fun _ => True) ?_ (b' := 0) (fun _ _ _ => TimedRuns.pure trivial) (by omega)
  unfold fromCharsIntAdvancedT fromCharsIntAdvanced
  refine TimedRuns.bind (dropSpacesT_runs c ct s opt) (b' := 5 * s.length + 10) (fun q _ hq => ?_) (by omega)
  exact TimedRuns.ite (fun _ => TimedRuns.pure trivial) (fun _ => (parseIntStringT_runs c ct T q opt).le (by omega))

end FastFloat
