import Verif.Props.Cost
/-
# C75, C76: what the counter counts

An upper bound on a counter says nothing if the counter stands still.  Here: loop by loop, the exact number of steps (every code unit looked at, every limb
read, written, copied or filled), and for the API calls: every code unit consumed is paid for, up to the four units (sign, decimal point, exponent marker,
exponent sign) that no loop looks at.
-/
set_option autoImplicit false
namespace FastFloat
open Timed

/-! ### Reading a counted computation -/

/-- If `t` ends well with `a` after `n` steps, then `Q a n`. -/
def Counts {α : Type} (t : Timed α) (Q : α → Nat → Prop) : Prop := ∀ a, t.out = .ok a → Q a t.steps

namespace Counts
variable {α β : Type}

theorem pure {a : α} {Q : α → Nat → Prop} (h : Q a 0) : Counts (Pure.pure a : Timed α) Q := fun _ e => by cases e; exact h

theorem run {x : Exec α} {Q : α → Nat → Prop} (h : ∀ a, x = .ok a → Q a 0) : Counts (Timed.run x) Q := fun a e => h a e

theorem err {e : UB} {Q : α → Nat → Prop} : Counts (Timed.run (.error e) : Timed α) Q := fun a h => absurd h (by intro h; cases h)

theorem mono {t : Timed α} {Q Q' : α → Nat → Prop} (h : Counts t Q) (hq : ∀ a n, Q a n → Q' a n) : Counts t Q' := fun a e => hq a _ (h a e)

theorem bind {t : Timed α} {f : α → Timed β} {Q : α → Nat → Prop} {R : β → Nat → Prop} (h : Counts t Q)
    (hf : ∀ a n, Q a n → Counts (f a) (fun b m => R b (n + m))) : Counts (t >>= f) R := by
  intro b e
  have e' : (Timed.bind t f).out = .ok b := e
  show R b (Timed.bind t f).steps
  unfold Timed.bind at e' ⊢
  cases ht : t.out with
  | error u => rw [ht] at e'; exact absurd e' (by intro h; cases h)
  | ok a => rw [ht] at e'; exact hf a t.steps (h a ht) b e'

theorem runBind {x : Exec α} {f : α → Timed β} {R : β → Nat → Prop} (hf : ∀ a, x = .ok a → Counts (f a) R) : Counts (Timed.run x >>= f) R :=
  bind (Q := fun a n => x = .ok a ∧ n = 0) (fun _ h => ⟨h, rfl⟩) fun a n h => by
    obtain ⟨h1, h2⟩ := h; subst h2
    exact (hf a h1).mono fun b m r => by rw [Nat.zero_add]; exact r

theorem tick {k : Nat} {f : Unit → Timed β} {R : β → Nat → Prop} (hf : Counts (f ()) (fun b m => R b (k + m))) : Counts (Timed.tick k >>= f) R :=
  bind (Q := fun _ n => n = k) (fun _ _ => rfl) fun _ n h => by subst h; exact hf

theorem ite {p : Prop} [Decidable p] {t t' : Timed α} {Q : α → Nat → Prop} (h : p → Counts t Q) (h' : ¬p → Counts t' Q) : Counts (if p then t else t') Q := by
  by_cases hp : p
  · rw [if_pos hp]; exact h hp
  · rw [if_neg hp]; exact h' hp

end Counts

/-! ### Loops over code units -/

/-- Number of units a loop looks at that walks from `p` to `q`: those it passes, and the one it stops at, if any. -/
def looked (p q : List Nat) : Nat := p.length - q.length + (if q = [] then 0 else 1)

/-- The loop walks from `p` to `q` and takes a step for every unit it looks at. -/
def Walks (p q : List Nat) (n : Nat) : Prop := q.length ≤ p.length ∧ n = looked p q

theorem Walks.nil : Walks [] [] 0 := ⟨le_refl _, rfl⟩

theorem Walks.stop (ch : Nat) (p : List Nat) : Walks (ch :: p) (ch :: p) (1 + 0) := ⟨le_refl _, by unfold looked; rw [if_neg (by simp)]; omega⟩

theorem Walks.step {ch : Nat} {p q : List Nat} {n : Nat} (h : Walks p q n) : Walks (ch :: p) q (1 + n) := by
  obtain ⟨h1, h2⟩ := h
  refine ⟨by rw [List.length_cons]; omega, ?_⟩
  subst h2
  unfold looked; rw [List.length_cons]; omega

theorem skipSpacesT_steps (ct : CharType) (p : List Nat) : Counts (skipSpacesT ct p) (Walks p) := by
  induction p with
  | nil => exact Counts.pure Walks.nil
  | cons ch p ih =>
    refine Counts.tick ?_
    cases isSpace ct ch with
    | error e => exact Counts.err
    | ok b =>
      cases b with
      | true => exact ih.mono fun _ _ h => h.step
      | false => exact Counts.pure (Walks.stop ch p)

theorem digitLoopT_steps (ct : CharType) (p : List Nat) : ∀ i, Counts (digitLoopT ct p i) (fun r => Walks p r.1) := by
  induction p with
  | nil => intro i; exact Counts.pure Walks.nil
  | cons ch p ih =>
    intro i
    refine Counts.tick ?_
    cases isInteger ct ch with
    | error e => exact Counts.err
    | ok b =>
      cases b with
      | true => exact (ih _).mono fun _ _ h => h.step
      | false => exact Counts.pure (Walks.stop ch p)

theorem ifDigitT_steps (ct : CharType) (p : List Nat) (i : Nat) (f : Nat → Nat) {k : List Nat → Nat → Timed (List Nat × Nat)}
    (hk : ∀ p i, Counts (k p i) (fun r => Walks p r.1)) : Counts (ifDigitT ct p i f k) (fun r => Walks p r.1) := by
  cases p with
  | nil => exact Counts.pure Walks.nil
  | cons ch p =>
    refine Counts.tick ?_
    cases isInteger ct ch with
    | error e => exact Counts.err
    | ok b =>
      cases b with
      | true => exact (hk _ _).mono fun _ _ h => h.step
      | false => exact Counts.pure (Walks.stop ch p)

theorem intDigitsT_steps (ct : CharType) (p : List Nat) : Counts (intDigitsT ct p) (fun r => Walks p r.1) :=
  ifDigitT_steps ct p 0 _ fun _ _ => ifDigitT_steps ct _ _ _ fun _ _ => ifDigitT_steps ct _ _ _ fun _ _ => ifDigitT_steps ct _ _ _ fun _ _ =>
    ifDigitT_steps ct _ _ _ fun p i => digitLoopT_steps ct p i

theorem expDigitLoopT_steps (ct : CharType) (p : List Nat) : ∀ n, Counts (expDigitLoopT ct p n) (fun r => Walks p r.1) := by
  induction p with
  | nil => intro i; exact Counts.pure Walks.nil
  | cons ch p ih =>
    intro n
    refine Counts.tick ?_
    cases isInteger ct ch with
    | error e => exact Counts.err
    | ok b =>
      cases b with
      | true => exact Counts.runBind fun n' _ => (ih n').mono fun _ _ h => h.step
      | false => exact Counts.pure (Walks.stop ch p)

theorem skipZeroUnitsT_steps (p : List Nat) : Counts (skipZeroUnitsT p) (Walks p) := by
  induction p with
  | nil => exact Counts.pure Walks.nil
  | cons ch p ih => exact Counts.tick (Counts.ite (fun _ => ih.mono fun _ _ h => h.step) fun _ => Counts.pure (Walks.stop ch p))

theorem skipZerosUnitsT_steps (p : List Nat) : Counts (skipZerosUnitsT p) (Walks p) := by
  induction p with
  | nil => exact Counts.pure Walks.nil
  | cons ch p ih => exact Counts.tick (Counts.ite (fun _ => Counts.pure (Walks.stop ch p)) fun _ => ih.mono fun _ _ h => h.step)

theorem u8RestT_steps (ct : CharType) (p : List Nat) : Counts (u8RestT ct p) (Walks p) := by
  induction p with
  | nil => exact Counts.pure Walks.nil
  | cons ch p ih => exact Counts.tick (Counts.ite (fun _ => Counts.pure (Walks.stop ch p)) fun _ => ih.mono fun _ _ h => h.step)

theorem skipDigitsT_steps (ct : CharType) (p : List Nat) : Counts (skipDigitsT ct p) (Walks p) := by
  induction p with
  | nil => exact Counts.pure Walks.nil
  | cons ch p ih =>
    refine Counts.tick ?_
    cases isInteger ct ch with
    | error e => exact Counts.err
    | ok b =>
      cases b with
      | true => exact ih.mono fun _ _ h => h.step
      | false => exact Counts.pure (Walks.stop ch p)

theorem baseLoopT_steps (base : Int) (p : List Nat) : ∀ i, Counts (baseLoopT base p i) (fun r => Walks p r.1) := by
  induction p with
  | nil => intro i; exact Counts.pure Walks.nil
  | cons ch p ih =>
    intro i
    refine Counts.tick ?_
    cases chToDigit ch with
    | error e => exact Counts.err
    | ok d => exact Counts.ite (fun _ => Counts.pure (Walks.stop ch p)) fun _ => (ih _).mono fun _ _ h => h.step

/-- The loop walks from `p` to `q` in blocks of eight; a block passed costs `k` steps, the block that stops the loop (if there are eight units left) eight. -/
def Blocks (k : Nat) (p q : List Nat) (n : Nat) : Prop :=
  ∃ b, p.length = q.length + 8 * b ∧ n = k * b + (if q.length ≥ 8 then 8 else 0)

theorem Blocks.step {k : Nat} {p p' q : List Nat} {n : Nat} (hp : p.length ≥ 8) (hl : p'.length = p.length - 8) (h : Blocks k p' q n) : Blocks k p q (k + n) := by
  obtain ⟨b, h1, h2⟩ := h
  exact ⟨b + 1, by omega, by rw [h2, Nat.mul_add, Nat.mul_one]; omega⟩

theorem Blocks.done {k : Nat} {p : List Nat} (hp : p.length ≥ 8) : Blocks k p p (8 + 0) := ⟨0, by omega, by rw [if_pos hp]; omega⟩

theorem Blocks.short {k : Nat} {p : List Nat} (hp : ¬ p.length ≥ 8) : Blocks k p p 0 := ⟨0, by omega, by rw [if_neg hp]; omega⟩

/-- The blocks of eight of `char16_t` (SIMD). -/
theorem simdEightLoopT_steps (c : Cfg) (fuel : Nat) : ∀ p i, Counts (simdEightLoopT c fuel p i) (fun r => Blocks 8 p r.1) := by
  induction fuel with
  | zero => intro p i; exact Counts.err
  | succ fuel ih =>
    intro p i
    unfold simdEightLoopT
    refine Counts.ite (fun hp => ?_) (fun hp => Counts.pure (Blocks.short hp))
    refine Counts.tick ?_
    refine Counts.runBind fun o _ => ?_
    cases o with
    | none => exact Counts.pure (Blocks.done hp)
    | some i' => exact Counts.runBind fun p' hp' => (ih p' i').mono fun r n h => Blocks.step hp (skipN_okT hp').2 h

/-- The blocks of eight of `char`: read twice when they are digits, once when they stop the loop. -/
theorem charEightLoopT_steps (c : Cfg) (ct : CharType) (fuel : Nat) : ∀ p i, Counts (charEightLoopT c ct fuel p i) (fun r => Blocks 16 p r.1) := by
  induction fuel with
  | zero => intro p i; exact Counts.err
  | succ fuel ih =>
    intro p i
    unfold charEightLoopT
    refine Counts.ite (fun hp => ?_) (fun hp => Counts.pure (Blocks.short hp))
    refine Counts.tick ?_
    refine Counts.runBind fun v _ => ?_
    refine Counts.ite (fun _ => ?_) (fun _ => Counts.pure (Blocks.done hp))
    refine Counts.tick ?_
    refine Counts.runBind fun v' _ => Counts.runBind fun p' hp' => ?_
    refine (ih p' _).mono fun r n h => ?_
    have e : 8 + (8 + n) = 16 + n := by omega
    rw [e]
    exact Blocks.step hp (skipN_okT hp').2 h

end FastFloat
