import Verif.Model.RandomString
import Verif.Proofs.Words
import Verif.Spec.Random
import Mathlib.Tactic.Ring
import Mathlib.Tactic.NormNum
/-
# Proofs about the generators of random numerals
-/
set_option autoImplicit false
namespace FastFloat
namespace Client
open NumSpec

/-- The execution ends with a result that satisfies `P`; only if not `live` it may run out of rounds. -/
def Meets {α : Type} (live : Prop) (e : Exec α) (P : α → Prop) : Prop := (∃ a, e = .ok a ∧ P a) ∨ (¬ live ∧ e = .error .fuel)

theorem Meets.bind {α β : Type} {live : Prop} {e : Exec α} {f : α → Exec β} {P : α → Prop} {Q : β → Prop} (h : Meets live e P)
    (hf : ∀ a, P a → Meets live (f a) Q) : Meets live (e >>= f) Q := by
  rcases h with ⟨a, e1, hp⟩ | ⟨hl, e1⟩
  · rw [e1]; exact hf a hp
  · rw [e1]; exact Or.inr ⟨hl, rfl⟩

theorem Meets.ok {α : Type} {live : Prop} {a : α} {P : α → Prop} (h : P a) : Meets live (.ok a : Exec α) P := Or.inl ⟨a, rfl, h⟩

theorem Meets.weaken {α : Type} {live : Prop} {e : Exec α} {P Q : α → Prop} (h : Meets live e P) (hpq : ∀ a, P a → Q a) : Meets live e Q := by
  rcases h with ⟨a, e1, hp⟩ | h
  · exact Or.inl ⟨a, e1, hpq a hp⟩
  · exact Or.inr h

/-- A source of words: `inv` holds of all its states; if `live`, the word `w`, which every request accepts, comes before the rounds of a loop are spent. -/
structure Source (rng : Rng) (inv : Nat → Prop) (live : Prop) (fuel : Nat) (μ : Nat → Nat) (w : Nat) : Prop where
  word : ∀ x, inv x → (rng x).1 < 2 ^ 64
  next : ∀ x, inv x → inv (rng x).2
  star : ∀ s, 1 ≤ s → s ≤ 2000 → 2000 ≤ w * s % 2 ^ 64
  digit : w * 10 / 2 ^ 64 ≠ 0
  bound : live → ∀ x, inv x → μ x + 2 ≤ fuel
  dec : live → ∀ x, inv x → (rng x).1 = w ∨ μ (rng x).2 < μ x

variable {rng : Rng} {inv : Nat → Prop} {live : Prop} {fuel : Nat} {μ : Nat → Nat} {w : Nat} {c : Cfg}

theorem mul_parts {c : Cfg} {a s : Nat} (ha : a < 2 ^ 64) (hs : s ≤ 2000) : fullMultiplication c a s = { low := a * s % 2 ^ 64, high := a * s / 2 ^ 64 } :=
  fullMultiplication_eq c a s ha (by omega)

theorem rangedLoop_meets (S : Source rng inv live fuel μ w) {s t : Nat} (hs1 : 1 ≤ s) (hs2 : s ≤ 2000) (ht : t ≤ 2000) (k : Nat) :
    ∀ x a, inv x → a < 2 ^ 64 → (live → μ x + 2 ≤ k ∨ (a = w ∧ 1 ≤ k)) →
      Meets live (rangedLoop c rng s t k x (fullMultiplication c a s)) fun r =>
        ∃ a', a' < 2 ^ 64 ∧ r.1 = fullMultiplication c a' s ∧ inv r.2 ∧ t ≤ a' * s % 2 ^ 64 ∧ (live → a' = w ∨ μ r.2 < μ x ∨ (a' = a ∧ r.2 = x)) ∧
          (t ≤ a * s % 2 ^ 64 → a' = a ∧ r.2 = x) := by
  induction k with
  | zero =>
    intro x a _ _ hl
    refine Or.inr ⟨fun h => ?_, rfl⟩
    rcases hl h with h | h <;> omega
  | succ k ih =>
    intro x a hx ha hl
    rw [rangedLoop]
    by_cases hc : (fullMultiplication c a s).low < t
    · rw [if_pos hc]
      have hw : a ≠ w := by
        intro e
        rw [mul_parts ha hs2, e] at hc
        have := S.star s hs1 hs2
        simp only at hc; omega
      have hk : live → μ x + 2 ≤ k + 1 := fun h => (hl h).resolve_right fun h' => hw h'.1
      refine (ih (rng x).2 (rng x).1 (S.next x hx) (S.word x hx) ?_).weaken ?_
      · intro h
        have h1 := hk h
        rcases S.dec h x hx with h2 | h2
        · exact Or.inr ⟨h2, by omega⟩
        · exact Or.inl (by omega)
      · rintro r ⟨a', h1, h2, h3, h4, h5, h9⟩
        refine ⟨a', h1, h2, h3, h4, fun h => ?_, fun h => ?_⟩
        · rcases S.dec h x hx with h6 | h6
          · refine Or.inl ((h9 ?_).1.trans h6)
            have := S.star s hs1 hs2
            rw [h6]; omega
          · rcases h5 h with h7 | h7 | ⟨h7, h8⟩
            · exact Or.inl h7
            · exact Or.inr (Or.inl (by omega))
            · exact Or.inr (Or.inl (by rw [h8]; exact h6))
        · exfalso
          rw [mul_parts ha hs2] at hc
          simp only at hc; omega
    · rw [if_neg hc]
      refine Meets.ok ⟨a, ha, rfl, hx, ?_, fun _ => Or.inr (Or.inr ⟨rfl, rfl⟩), fun _ => ⟨rfl, rfl⟩⟩
      rw [mul_parts ha hs2] at hc
      simp only at hc; omega

theorem toInt32_small {v : Nat} (h : v < 2000) : toInt32 v = v := by
  unfold toInt32
  rw [Nat.mod_eq_of_lt (by omega : v < 2 ^ 32), if_pos (by omega)]

theorem high_lt {a s : Nat} (ha : a < 2 ^ 64) (hs : 1 ≤ s) : a * s / 2 ^ 64 < s := by
  rw [Nat.div_lt_iff_lt_mul (by norm_num), Nat.mul_comm]
  exact Nat.mul_lt_mul_of_pos_left ha (by omega)

theorem chk32_ok {x : Int} (h : -2 ^ 31 ≤ x ∧ x < 2 ^ 31) : chk32 x = .ok x := if_pos h

/-- `next_ranged_int(1, max)` or `next_ranged_int(0, max)`: a result between the bounds, from an accepted word. -/
theorem ranged_meets (S : Source rng inv live fuel μ w) {lo hi : Int} (h0 : 0 ≤ lo) (h1 : lo ≤ 1) (h2 : lo ≤ hi) (h3 : hi - lo + 1 ≤ 2000) {x : Nat} (hx : inv x) :
    Meets live (nextRangedInt c rng fuel lo hi x) fun r =>
      ∃ a, a < 2 ^ 64 ∧ r.1 = lo + ((a * (hi - lo + 1).toNat / 2 ^ 64 : Nat) : Int) ∧ inv r.2 ∧ (live → a = w ∨ μ r.2 < μ x) := by
  obtain ⟨s, hs⟩ : ∃ s : Nat, (s : Int) = hi - lo + 1 := ⟨(hi - lo + 1).toNat, by omega⟩
  have hs1 : 1 ≤ s := by omega
  have hs2 : s ≤ 2000 := by omega
  have e1 : ((hi - lo + 1) % 2 ^ 64).toNat = s := by rw [← hs]; omega
  have e2 : (hi - lo + 1).toNat = s := by omega
  have fin : ∀ a y, a < 2 ^ 64 → (do let v ← chk32 (toInt32 (fullMultiplication c a s).high + lo); pure (v, y) : Exec (Int × Nat)) =
      .ok (lo + ((a * s / 2 ^ 64 : Nat) : Int), y) := by
    intro a y ha
    have hh := high_lt ha hs1
    rw [mul_parts ha hs2]
    simp only
    rw [toInt32_small (by omega), chk32_ok (by constructor <;> omega), add_comm]
    rfl
  unfold nextRangedInt
  rw [chk32_ok (by constructor <;> omega)]
  simp only [bind, Except.bind]
  rw [chk32_ok (by constructor <;> omega)]
  simp only [e1, e2]
  by_cases hl : (fullMultiplication c (rng x).1 s).low < s
  · rw [if_pos hl]
    have ht : (2 ^ 64 - s) % 2 ^ 64 % s ≤ 2000 := by
      have := Nat.mod_lt ((2 ^ 64 - s) % 2 ^ 64) (by omega : 0 < s)
      omega
    refine (rangedLoop_meets (c := c) S hs1 hs2 ht fuel (rng x).2 (rng x).1 (S.next x hx) (S.word x hx)
      fun h => Or.inl (S.bound h _ (S.next x hx))).bind ?_
    rintro r ⟨a, ha, he, hr, _, hlive, hacc⟩
    rw [he]
    have := fin a r.2 ha
    simp only [bind, Except.bind] at this
    rw [this]
    refine Meets.ok ⟨a, ha, rfl, hr, fun h => ?_⟩
    rcases S.dec h x hx with h5 | h5
    · refine Or.inl ((hacc ?_).1.trans h5)
      have := S.star s hs1 hs2
      rw [h5]; omega
    · rcases hlive h with h' | h' | ⟨h', h''⟩
      · exact Or.inl h'
      · exact Or.inr (lt_trans h' h5)
      · exact Or.inr (by rw [h'']; exact h5)
  · rw [if_neg hl]
    have := fin (rng x).1 (rng x).2 (S.word x hx)
    simp only [bind, Except.bind] at this
    rw [this]
    exact Meets.ok ⟨_, S.word x hx, rfl, S.next x hx, fun h => S.dec h x hx⟩

/-- A digit, from an accepted word. -/
theorem nextDigit_meets (S : Source rng inv live fuel μ w) {x : Nat} (hx : inv x) :
    Meets live (nextDigitChar c rng fuel x) fun r => IsDigit r.1 ∧ inv r.2 ∧ (live → r.1 ≠ 48 ∨ μ r.2 < μ x) := by
  unfold nextDigitChar
  refine (ranged_meets S (lo := 0) (hi := 9) (by omega) (by omega) (by omega) (by omega) hx).bind ?_
  rintro r ⟨a, ha, he, hr, hl⟩
  have hs : ((9 : Int) - 0 + 1).toNat = 10 := by decide
  rw [hs] at he
  have hh := high_lt ha (s := 10) (by omega)
  have e : (r.1 + 48).toNat = 48 + a * 10 / 2 ^ 64 := by rw [he]; omega
  refine Meets.ok ⟨?_, hr, fun h => ?_⟩
  · show 48 ≤ (r.1 + 48).toNat ∧ (r.1 + 48).toNat ≤ 57
    rw [e]; omega
  · rcases hl h with h' | h'
    · left
      show (r.1 + 48).toNat ≠ 48
      have := S.digit
      rw [e, h']; omega
    · exact Or.inr h'

/-- Drawing the first digit again. -/
theorem redraw_meets (S : Source rng inv live fuel μ w) (again : Bool) (k : Nat) :
    ∀ ch x, inv x → IsDigit ch → (live → μ x + 2 ≤ k ∨ (ch ≠ 48 ∧ 1 ≤ k)) →
      Meets live (redraw c rng fuel again k ch x) fun r => IsDigit r.1 ∧ (again = true → r.1 ≠ 48) ∧ inv r.2 := by
  induction k with
  | zero =>
    intro ch x _ _ hl
    refine Or.inr ⟨fun h => ?_, rfl⟩
    rcases hl h with h | h <;> omega
  | succ k ih =>
    intro ch x hx hd hl
    rw [redraw]
    by_cases hc : (again && ch == 48) = true
    · rw [if_pos hc]
      rw [Bool.and_eq_true, beq_iff_eq] at hc
      refine (nextDigit_meets S hx).bind ?_
      rintro r ⟨h1, h2, h3⟩
      refine ih r.1 r.2 h2 h1 fun h => ?_
      have := (hl h).resolve_right fun h' => h'.1 hc.2
      rcases h3 h with h4 | h4
      · exact Or.inr ⟨h4, by omega⟩
      · exact Or.inl (by omega)
    · rw [if_neg hc]
      refine Meets.ok ⟨hd, fun ha e => hc ?_, hx⟩
      have e' : ch = 48 := e
      rw [ha, e']; rfl

theorem put_ok {cap : Nat} {buf : List Nat} {ch : Nat} (h : buf.length < cap) : put cap buf ch = .ok (buf ++ [ch]) := if_pos h

/-- Digits with a point in front of the one with the number `loc`; the first has the number `i`. -/
def ins (loc : Nat) : Nat → List Nat → List Nat
  | _, [] => []
  | i, d :: ds => (if i = loc then [46] else []) ++ d :: ins loc (i + 1) ds

theorem digitsLoop_meets (S : Source rng inv live fuel μ w) {cap loc : Nat} (todo : Nat) :
    ∀ i x buf, inv x → buf.length + 2 * todo ≤ cap →
      Meets live (digitsLoop c rng fuel cap loc todo i x buf) fun r =>
        ∃ ds, ds.length = todo ∧ (∀ d ∈ ds, IsDigit d) ∧ (i = 0 → 1 ≠ loc → ds.head? ≠ some 48) ∧ r.1 = buf ++ ins loc i ds ∧ inv r.2 := by
  induction todo with
  | zero =>
    intro i x buf hx _
    exact Meets.ok ⟨[], rfl, by simp, by simp, by simp [ins], hx⟩
  | succ todo ih =>
    intro i x buf hx hcap
    rw [digitsLoop]
    have e1 : putIf (i == loc) cap buf 46 = .ok (buf ++ if i = loc then [46] else []) := by
      unfold putIf
      by_cases h : i = loc
      · rw [if_pos (by simpa using h), if_pos h, put_ok (by omega)]
      · rw [if_neg (by simpa using h), if_neg h, List.append_nil]
    have hlen : (buf ++ if i = loc then [46] else []).length ≤ buf.length + 1 := by
      by_cases h : i = loc <;> simp [h]
    rw [e1]
    simp only [bind, Except.bind]
    refine (nextDigit_meets S hx).bind ?_
    rintro r ⟨h1, h2, _⟩
    refine (redraw_meets S (i == 0 && 1 != loc) fuel r.1 r.2 h2 h1 fun h => Or.inl (S.bound h _ h2)).bind ?_
    rintro q ⟨g1, g2, g3⟩
    rw [put_ok (by omega)]
    simp only
    refine (ih (i + 1) q.2 _ g3 (by rw [List.length_append, List.length_singleton]; omega)).weaken ?_
    rintro z ⟨ds, a1, a2, a3, a4, a5⟩
    refine ⟨q.1 :: ds, by simp [a1], ?_, ?_, ?_, a5⟩
    · intro d hd
      rcases List.mem_cons.mp hd with rfl | hd
      · exact g1
      · exact a2 d hd
    · intro hi hloc hh
      refine g2 ?_ (by simpa using hh)
      simp [hi, hloc]
    · rw [a4, ins]
      simp

theorem ins_eq (loc : Nat) (ds : List Nat) : ∀ i, i ≤ loc → ins loc i ds = ds.take (loc - i) ++ (if loc - i < ds.length then 46 :: ds.drop (loc - i) else []) := by
  have past : ∀ (ds : List Nat) i, loc < i → ins loc i ds = ds := by
    intro ds
    induction ds with
    | nil => intro i _; rfl
    | cons d ds ih =>
      intro i hi
      rw [ins, if_neg (by omega), ih (i + 1) (by omega)]; rfl
  induction ds with
  | nil => intro i _; simp [ins]
  | cons d ds ih =>
    intro i hi
    rw [ins]
    by_cases h : i = loc
    · subst h
      rw [if_pos rfl, past ds (i + 1) (by omega)]
      simp
    · rw [if_neg h, ih (i + 1) (by omega)]
      obtain ⟨k, hk⟩ : ∃ k, loc - i = k + 1 := ⟨loc - i - 1, by omega⟩
      rw [show loc - (i + 1) = k by omega, hk]
      simp

theorem expLoop_meets (S : Source rng inv live fuel μ w) {cap : Nat} (todo : Nat) :
    ∀ x buf, inv x → buf.length + todo ≤ cap →
      Meets live (expLoop c rng fuel cap todo x buf) fun r => ∃ ds, ds.length = todo ∧ (∀ d ∈ ds, IsDigit d) ∧ r.1 = buf ++ ds ∧ inv r.2 := by
  induction todo with
  | zero =>
    intro x buf hx _
    exact Meets.ok ⟨[], rfl, by simp, by simp, hx⟩
  | succ todo ih =>
    intro x buf hx hcap
    rw [expLoop]
    refine (nextDigit_meets S hx).bind ?_
    rintro r ⟨h1, h2, _⟩
    rw [put_ok (by omega)]
    simp only [bind, Except.bind]
    refine (ih r.2 _ h2 (by rw [List.length_append, List.length_singleton]; omega)).weaken ?_
    rintro z ⟨ds, a1, a2, a3, a4⟩
    refine ⟨r.1 :: ds, by simp [a1], ?_, by rw [a3]; simp, a4⟩
    intro d hd
    rcases List.mem_cons.mp hd with rfl | hd
    · exact h1
    · exact a2 d hd

theorem expSign_meets (S : Source rng inv live fuel μ w) {cap x : Nat} {buf : List Nat} (hx : inv x) (hcap : buf.length < cap) :
    Meets live (expSign rng cap x buf) fun r => ∃ sg : Option Nat, (sg = none ∨ sg = some 43 ∨ sg = some 45) ∧ r.1 = buf ++ sg.toList ∧ inv r.2 := by
  unfold expSign
  by_cases h : (nextBool rng x).1 = true
  · rw [if_pos h, put_ok hcap]
    exact Meets.ok ⟨some 45, by simp, rfl, S.next x hx⟩
  · rw [if_neg h]
    by_cases h2 : (nextBool rng (nextBool rng x).2).1 = true
    · simp only [h2, putIf, if_true, put_ok hcap]
      exact Meets.ok ⟨some 43, by simp, rfl, S.next _ (S.next x hx)⟩
    · simp only [h2, putIf]
      exact Meets.ok ⟨none, by simp, by simp, S.next _ (S.next x hx)⟩

theorem expPart_meets (S : Source rng inv live fuel μ w) {cap x : Nat} {buf : List Nat} (hx : inv x) (hcap : buf.length + 5 ≤ cap) :
    Meets live (expPart c rng fuel cap x buf) fun r => ∃ e, SmallExponent e ∧ r.1 = buf ++ Numeral.expText e ∧ inv r.2 := by
  unfold expPart
  by_cases h : (nextBool rng x).1 = true
  · rw [if_pos h]
    simp only []
    rw [put_ok (by omega)]
    simp only [bind, Except.bind]
    refine (expSign_meets S (S.next _ (S.next x hx)) (by rw [List.length_append, List.length_singleton]; omega)).bind ?_
    rintro r ⟨sg, h1, h2, h3⟩
    refine (ranged_meets S (lo := 1) (hi := 3) (by omega) (by omega) (by omega) (by omega) h3).bind ?_
    rintro n ⟨a, ha, he, hr, _⟩
    have hs : ((3 : Int) - 1 + 1).toNat = 3 := by decide
    rw [hs] at he
    have hh := high_lt ha (s := 3) (by omega)
    have hsg : sg.toList.length ≤ 1 := by cases sg <;> simp
    refine (expLoop_meets S n.1.toNat n.2 r.1 hr ?_).weaken ?_
    · rw [h2, List.length_append, List.length_append, List.length_singleton, he]; omega
    · rintro z ⟨ds, a1, a2, a3, a4⟩
      refine ⟨some ⟨some (if (nextBool rng (nextBool rng x).2).1 = true then 101 else 69), sg, ds⟩, Or.inr ⟨_, sg, ds, rfl, ?_, h1, ?_, ?_, a2⟩, ?_, a4⟩
      · by_cases hb : (nextBool rng (nextBool rng x).2).1 = true <;> simp [hb]
      · rw [a1, he]; omega
      · rw [a1, he]; omega
      · rw [a3, h2]
        simp [Numeral.expText, Exponent.text]
  · rw [if_neg h]
    exact Meets.ok ⟨none, Or.inl rfl, by simp [Numeral.expText], S.next x hx⟩

theorem numberOfDigits_meets (S : Source rng inv live fuel μ w) (short : Bool) {x : Nat} (hx : inv x) :
    Meets live (numberOfDigits c rng fuel short x) fun r => 1 ≤ r.1 ∧ r.1 ≤ (if short then 19 else 2000) ∧ inv r.2 := by
  unfold numberOfDigits
  have key : ∀ hi : Int, 1 ≤ hi → hi ≤ 2000 → ∀ x, inv x → Meets live (nextRangedInt c rng fuel 1 hi x) fun r => 1 ≤ r.1 ∧ r.1 ≤ hi ∧ inv r.2 := by
    intro hi h1 h2 x hx
    refine (ranged_meets S (lo := 1) (by omega) (by omega) h1 (by omega) hx).weaken ?_
    rintro r ⟨a, ha, he, hr, _⟩
    have hh := high_lt ha (s := (hi - 1 + 1).toNat) (by omega)
    exact ⟨by omega, by omega, hr⟩
  cases short
  · simp only [Bool.false_eq_true, if_false]
    refine (key 100 (by omega) (by omega) x hx).bind ?_
    rintro r ⟨h1, h2, h3⟩
    by_cases h : r.1 = 100
    · rw [if_pos h]; exact key 2000 (by omega) (by omega) r.2 h3
    · rw [if_neg h]; exact Meets.ok ⟨h1, by omega, h3⟩
  · simp only [if_true]
    exact key 19 (by omega) (by omega) x hx

theorem build_meets (S : Source rng inv live fuel μ w) (short : Bool) {x : Nat} (hx : inv x) :
    Meets live (buildRandomString c rng fuel 4096 short x) fun r => (∃ n, Made short n ∧ r.1 = n.text 46) ∧ r.1.length ≤ (if short then 26 else 2007) ∧ inv r.2 := by
  unfold buildRandomString
  obtain ⟨sg, hsg, e1⟩ : ∃ sg : Option Nat, (sg = none ∨ sg = some 45) ∧ putIf (nextBool rng x).1 4096 [] 45 = .ok sg.toList := by
    by_cases h : (nextBool rng x).1 = true
    · exact ⟨some 45, by simp, by rw [h]; rfl⟩
    · refine ⟨none, by simp, ?_⟩
      rw [eq_false_of_ne_true h]; rfl
  have hsl : sg.toList.length ≤ 1 := by cases sg <;> simp
  rw [e1]
  simp only [bind, Except.bind]
  refine (numberOfDigits_meets S short (S.next x hx)).bind ?_
  rintro n ⟨n1, n2, n3⟩
  have n4 : n.1 ≤ 2000 := n2.trans (by cases short <;> simp)
  refine (ranged_meets S (lo := 1) (hi := n.1) (by omega) (by omega) n1 (by omega) n3).bind ?_
  rintro l ⟨a, ha, he, hl, _⟩
  have hh := high_lt ha (s := (n.1 - 1 + 1).toNat) (by omega)
  obtain ⟨loc, hloc⟩ : ∃ loc : Nat, (loc : Int) = l.1 := ⟨l.1.toNat, by omega⟩
  obtain ⟨N, hN⟩ : ∃ N : Nat, (N : Int) = n.1 := ⟨n.1.toNat, by omega⟩
  have l1 : 1 ≤ loc := by omega
  have l2 : loc ≤ N := by omega
  have eN : n.1.toNat = N := by omega
  have eL : l.1.toNat = loc := by omega
  rw [eN, eL]
  refine (digitsLoop_meets S N 0 l.2 sg.toList hl (by omega)).bind ?_
  rintro r ⟨ds, d1, d2, d3, d4, d5⟩
  have hins := ins_eq loc ds 0 (by omega)
  rw [Nat.sub_zero] at hins
  have hil : (ins loc 0 ds).length ≤ N + 1 := by
    rw [hins, List.length_append, List.length_take]
    by_cases h : loc < ds.length
    · rw [if_pos h, List.length_cons, List.length_drop]; omega
    · rw [if_neg h]; simp; omega
  have hrl : r.1.length ≤ N + 2 := by rw [d4, List.length_append]; omega
  refine (expPart_meets S d5 (by omega)).bind ?_
  rintro q ⟨e, q1, q2, q3⟩
  have hel : (Numeral.expText e).length ≤ 5 := by
    rcases q1 with rfl | ⟨m, sg', dd, rfl, _, _, _, h3, _⟩
    · simp [Numeral.expText]
    · have : sg'.toList.length ≤ 1 := by cases sg' <;> simp
      simp only [Numeral.expText, Exponent.text, List.length_append, Option.toList_some, List.length_singleton]
      omega
  have hql : q.1.length ≤ N + 7 := by rw [q2, List.length_append]; omega
  rw [put_ok (by omega)]
  refine Meets.ok ⟨⟨⟨sg, ds.take loc, if loc < ds.length then some (ds.drop loc) else none, e⟩, ?_, ?_⟩, ?_, q3⟩
  · have hdig : Numeral.digits ⟨sg, ds.take loc, if loc < ds.length then some (ds.drop loc) else none, e⟩ = ds := by
      unfold Numeral.digits
      by_cases h : loc < ds.length
      · simp [h]
      · simp only [if_neg h, Option.getD_none, List.append_nil]
        exact List.take_of_length_le (by omega)
    constructor
    · exact hsg
    · rw [hdig]; exact d2
    · rw [hdig, d1]
      cases short <;> simp at n2 ⊢ <;> omega
    · show ds.take loc ≠ []
      rcases ds with _ | ⟨d, ds⟩
      · simp at d1; omega
      · obtain ⟨k, rfl⟩ : ∃ k, loc = k + 1 := ⟨loc - 1, by omega⟩
        simp
    · show ∀ r, ds.take loc = 48 :: r → r = []
      intro r hr
      rcases ds with _ | ⟨d, ds⟩
      · simp at hr
      · obtain ⟨k, rfl⟩ : ∃ k, loc = k + 1 := ⟨loc - 1, by omega⟩
        rw [List.take_succ_cons] at hr
        simp only [List.cons.injEq] at hr
        by_cases hk : k = 0
        · subst hk; rw [← hr.2]; simp
        · exact absurd (by simp [hr.1]) (d3 rfl (by omega))
    · show (if loc < ds.length then some (ds.drop loc) else none) ≠ some []
      by_cases h : loc < ds.length
      · rw [if_pos h]
        intro hc
        have := congrArg List.length (Option.some.inj hc)
        rw [List.length_drop] at this
        simp at this; omega
      · rw [if_neg h]; simp
    · exact q1
  · show q.1 = _
    rw [q2, d4, hins]
    unfold Numeral.text
    by_cases h : loc < ds.length
    · simp [h, Numeral.fracText]
    · simp [h, Numeral.fracText]
  · show q.1.length ≤ _
    cases short <;> simp at n2 ⊢ <;> omega

end Client
end FastFloat
