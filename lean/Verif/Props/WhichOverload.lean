import Verif.Model.Overload
import Verif.Props.Vocabulary
import Mathlib.Algebra.Order.Ring.Int
/-
# C90: which function a call means
-/
set_option autoImplicit false
set_option linter.unusedSimpArgs false
set_option linter.unusedVariables false
namespace FastFloat
namespace Overload
open CppSpec

/-! ### Generalities -/

theorem viable_two (P : Platform) {β : Type} (a p : Ty) (d : Bool) (b : β) :
    P.Viable [a, .int] ⟨[p, .int], d, b⟩ ↔ (P.convert a p).isSome := by
  unfold Platform.Viable
  simp [Platform.convert]

theorem cost_self (P : Platform) (a : Ty) : P.cost a a = 0 := by simp [Platform.cost, Platform.convert, Rank.toNat]

theorem cost_ne (P : Platform) {a p : Ty} (h : a ≠ p) : 0 < P.cost a p := by
  unfold Platform.cost Platform.convert
  rw [if_neg h]
  split
  · split
    · split <;> simp [Rank.toNat]
    · split <;> simp [Rank.toNat]
    · split
      · split <;> simp [Rank.toNat]
      · simp
  · simp

theorem better_two (P : Platform) {β : Type} (a p q : Ty) (d1 d2 : Bool) (b1 b2 : β) :
    P.Better [a, .int] ⟨[p, .int], d1, b1⟩ ⟨[q, .int], d2, b2⟩ ↔
      P.cost a p < P.cost a q ∨ (P.cost a p ≤ P.cost a q ∧ d1 = false ∧ d2 = true) := by
  unfold Platform.Better
  simp only [List.zip_cons_cons, List.zip_nil_right, List.mem_cons, List.not_mem_nil, or_false, forall_eq_or_imp, forall_eq, exists_eq_or_imp, exists_eq_left,
    Nat.lt_irrefl, Nat.le_refl, and_true, cost_self]
  constructor
  · rintro ⟨h, h' | ⟨h1, h2⟩⟩
    · exact Or.inl h'
    · exact Or.inr ⟨h, h1, h2⟩
  · rintro (h | ⟨h, h1, h2⟩)
    · exact ⟨h.le, Or.inl h⟩
    · exact ⟨h, Or.inr ⟨h1, h2⟩⟩

theorem zip_swap {α β γ : Type} (l : List α) (m : List β) (n : List γ) (a : α) (b : β) (c : γ) (h : (a, (b, c)) ∈ l.zip (m.zip n)) :
    (a, (c, b)) ∈ l.zip (n.zip m) := by
  induction l generalizing m n with
  | nil => simp at h
  | cons x xs ih =>
    cases m with
    | nil => simp at h
    | cons y ys => cases n with
      | nil => simp at h
      | cons z zs =>
        simp only [List.zip_cons_cons, List.mem_cons, Prod.mk.injEq] at h ⊢
        rcases h with ⟨h1, h2, h3⟩ | h
        · exact Or.inl ⟨h1, h3, h2⟩
        · exact Or.inr (ih _ _ h)

/-- A call means at most one function. -/
theorem means_unique (P : Platform) {β : Type} {args : List Ty} {l : List (Candidate β)} {f g : Candidate β}
    (hf : P.Means args l f) (hg : P.Means args l g) : f = g := by
  by_contra hne
  have h1 := hf.2.2 g hg.1 (fun e => hne e.symm) hg.2.1
  have h2 := hg.2.2 f hf.1 hne hf.2.1
  have hs : ¬ ∃ x ∈ args.zip (f.params.zip g.params), P.cost x.1 x.2.1 < P.cost x.1 x.2.2 := by
    rintro ⟨⟨a, b, c⟩, hx, hlt⟩
    have := h2.1 _ (zip_swap _ _ _ a b c hx)
    simp at this hlt; omega
  have hs2 : ¬ ∃ x ∈ args.zip (g.params.zip f.params), P.cost x.1 x.2.1 < P.cost x.1 x.2.2 := by
    rintro ⟨⟨a, b, c⟩, hx, hlt⟩
    have := h1.1 _ (zip_swap _ _ _ a b c hx)
    simp at this hlt; omega
  rcases h1.2 with h | ⟨h, _⟩
  · exact hs h
  · rcases h2.2 with h' | ⟨_, h'⟩
    · exact hs2 h'
    · rw [h] at h'; exact Bool.false_ne_true h'

theorem int64_ne (P : Platform) : P.uint64 ≠ P.int64 := by
  unfold Platform.uint64 Platform.int64
  split <;> decide

theorem integral_int64 (P : Platform) : P.Integral P.int64 ∧ P.signed P.int64 = true ∧ P.bits P.int64 = 64 := by
  unfold Platform.int64
  have := P.wf
  split
  · rename_i h; refine ⟨trivial, rfl, ?_⟩; simp [Platform.bits, this h]
  · exact ⟨trivial, rfl, rfl⟩

theorem integral_uint64 (P : Platform) : P.Integral P.uint64 ∧ P.signed P.uint64 = false ∧ P.bits P.uint64 = 64 := by
  unfold Platform.uint64
  have := P.wf
  split
  · rename_i h; refine ⟨trivial, rfl, ?_⟩; simp [Platform.bits, this h]
  · exact ⟨trivial, rfl, rfl⟩

theorem not_integral_of_float (P : Platform) {T : Ty} {F : BinFmt} (h : floatFmt P T = some F) : ¬ P.Integral T := by
  cases T <;> simp [floatFmt, Platform.Integral] at h ⊢

theorem anyDouble_of_float (P : Platform) {T : Ty} {F : BinFmt} (h : floatFmt P T = some F) (d : Bool) : anyDouble P T d = [] := by
  unfold anyDouble
  rw [if_neg (not_integral_of_float P h)]

/-! ### Two fixed functions and a deduced one -/

theorem three_u64 (P : Platform) {β : Type} {b1 b2 b3 : β} (rest : List (Candidate β)) (hr : ∀ g ∈ rest, g = ⟨[P.uint64, .int], true, b3⟩) :
    P.Means [P.uint64, .int] ([⟨[P.uint64, .int], false, b1⟩, ⟨[P.int64, .int], false, b2⟩] ++ rest) ⟨[P.uint64, .int], false, b1⟩ := by
  refine ⟨by simp, by rw [viable_two]; simp [Platform.convert], ?_⟩
  intro g hg hne _
  simp only [List.cons_append, List.nil_append, List.mem_cons] at hg
  rcases hg with rfl | rfl | hg
  · exact absurd rfl hne
  · rw [better_two, cost_self]; exact Or.inl (cost_ne P (int64_ne P))
  · rw [hr g hg, better_two]; exact Or.inr ⟨Nat.le_refl _, rfl, rfl⟩

theorem three_i64 (P : Platform) {β : Type} {b1 b2 b3 : β} (rest : List (Candidate β)) (hr : ∀ g ∈ rest, g = ⟨[P.int64, .int], true, b3⟩) :
    P.Means [P.int64, .int] ([⟨[P.uint64, .int], false, b1⟩, ⟨[P.int64, .int], false, b2⟩] ++ rest) ⟨[P.int64, .int], false, b2⟩ := by
  refine ⟨by simp, by rw [viable_two]; simp [Platform.convert], ?_⟩
  intro g hg hne _
  simp only [List.cons_append, List.nil_append, List.mem_cons] at hg
  rcases hg with rfl | rfl | hg
  · rw [better_two, cost_self]; exact Or.inl (cost_ne P (int64_ne P).symm)
  · exact absurd rfl hne
  · rw [hr g hg, better_two]; exact Or.inr ⟨Nat.le_refl _, rfl, rfl⟩

theorem three_other (P : Platform) {β : Type} {b1 b2 b3 : β} {a : Ty} (h1 : a ≠ P.uint64) (h2 : a ≠ P.int64) (d : Bool) :
    P.Means [a, .int] ([⟨[P.uint64, .int], false, b1⟩, ⟨[P.int64, .int], false, b2⟩] ++ [⟨[a, .int], d, b3⟩]) ⟨[a, .int], d, b3⟩ := by
  refine ⟨by simp, by rw [viable_two]; simp [Platform.convert], ?_⟩
  intro g hg hne _
  simp only [List.cons_append, List.nil_append, List.mem_cons, List.not_mem_nil, or_false] at hg
  rcases hg with rfl | rfl | rfl
  · rw [better_two, cost_self]; exact Or.inl (cost_ne P h1)
  · rw [better_two, cost_self]; exact Or.inl (cost_ne P h2)
  · exact absurd rfl hne

/-- With only the two 64-bit functions an argument that converts alike to both is ambiguous. -/
theorem two_ambiguous (P : Platform) {β : Type} {b1 b2 : β} {a : Ty} (h : P.convert a P.uint64 = P.convert a P.int64) (f : Candidate β) :
    ¬ P.Means [a, .int] [⟨[P.uint64, .int], false, b1⟩, ⟨[P.int64, .int], false, b2⟩] f := by
  rintro ⟨hm, hv, hb⟩
  have hc : P.cost a P.uint64 = P.cost a P.int64 := by unfold Platform.cost; rw [h]
  have hne : (⟨[P.uint64, .int], false, b1⟩ : Candidate β) ≠ ⟨[P.int64, .int], false, b2⟩ := by
    intro e; injection e with e1 _ _
    injection e1 with e2 _
    exact int64_ne P e2
  simp only [List.mem_cons, List.not_mem_nil, or_false] at hm
  rcases hm with rfl | rfl
  · rw [viable_two] at hv
    have := hb ⟨[P.int64, .int], false, b2⟩ (by simp) hne.symm (by rw [viable_two, ← h]; exact hv)
    rw [better_two] at this
    rcases this with h | ⟨_, _, h⟩
    · omega
    · exact Bool.false_ne_true h
  · rw [viable_two] at hv
    have := hb ⟨[P.uint64, .int], false, b1⟩ (by simp) hne (by rw [viable_two, h]; exact hv)
    rw [better_two] at this
    rcases this with h | ⟨_, _, h⟩
    · omega
    · exact Bool.false_ne_true h

/-! ### integer_times_pow10 -/

theorem typed_cands (P : Platform) {T : Ty} {F : BinFmt} (hT : floatFmt P T = some F) (a : Ty) :
    typedCands P T a = [⟨[P.uint64, .int], false, .u64 F⟩, ⟨[P.int64, .int], false, .i64 F⟩] ++
      (if P.Integral a then [⟨[a, .int], true, if P.signed a then .anyI T else .anyU T⟩] else []) := by
  unfold typedCands
  rw [hT, anyDouble_of_float P hT]
  simp

theorem typed_u64 (P : Platform) {T : Ty} {F : BinFmt} (hT : floatFmt P T = some F) :
    P.Means [P.uint64, .int] ((Call.typed T).cands P P.uint64) ⟨[P.uint64, .int], false, .u64 F⟩ := by
  show P.Means _ (typedCands P T P.uint64) _
  rw [typed_cands P hT, if_pos (integral_uint64 P).1]
  exact three_u64 P (b3 := if P.signed P.uint64 then .anyI T else .anyU T) _ (by simp)

theorem typed_i64 (P : Platform) {T : Ty} {F : BinFmt} (hT : floatFmt P T = some F) :
    P.Means [P.int64, .int] ((Call.typed T).cands P P.int64) ⟨[P.int64, .int], false, .i64 F⟩ := by
  show P.Means _ (typedCands P T P.int64) _
  rw [typed_cands P hT, if_pos (integral_int64 P).1]
  exact three_i64 P (b3 := if P.signed P.int64 then .anyI T else .anyU T) _ (by simp)

theorem typed_other (P : Platform) {T : Ty} {F : BinFmt} (hT : floatFmt P T = some F) {a : Ty} (ha : P.Integral a) (h1 : a ≠ P.uint64) (h2 : a ≠ P.int64) :
    P.Means [a, .int] ((Call.typed T).cands P a) ⟨[a, .int], true, if P.signed a then .anyI T else .anyU T⟩ := by
  show P.Means _ (typedCands P T a) _
  rw [typed_cands P hT, if_pos ha]
  exact three_other P h1 h2 true

theorem plain_u64 (P : Platform) : P.Means [P.uint64, .int] (Call.plain.cands P P.uint64) ⟨[P.uint64, .int], false, .doubleU⟩ := by
  show P.Means _ (plainCands P P.uint64) _
  unfold plainCands anyDouble
  rw [if_pos (integral_uint64 P).1]
  exact three_u64 P (b3 := if P.signed P.uint64 then .anyDoubleI else .anyDoubleU) _ (by simp)

theorem plain_i64 (P : Platform) : P.Means [P.int64, .int] (Call.plain.cands P P.int64) ⟨[P.int64, .int], false, .doubleI⟩ := by
  show P.Means _ (plainCands P P.int64) _
  unfold plainCands anyDouble
  rw [if_pos (integral_int64 P).1]
  exact three_i64 P (b3 := if P.signed P.int64 then .anyDoubleI else .anyDoubleU) _ (by simp)

theorem plain_other (P : Platform) {a : Ty} (ha : P.Integral a) (h1 : a ≠ P.uint64) (h2 : a ≠ P.int64) :
    P.Means [a, .int] (Call.plain.cands P a) ⟨[a, .int], true, if P.signed a then .anyDoubleI else .anyDoubleU⟩ := by
  show P.Means _ (plainCands P a) _
  unfold plainCands anyDouble
  rw [if_pos ha]
  exact three_other P h1 h2 true

/-- What a call that means `f` does. -/
theorem runs_of_means (P : Platform) (c : Cfg) {call : Call} {a : Ty} {x e : Int} {f : Candidate Pow10} (hf : P.Means [a, .int] (call.cands P a) f)
    (r : BinFmt × Exec Nat) :
    Runs P c call a x e r ↔
      match f.body with
      | .u64 F => r = (F, integerTimesPow10U c F (wrap 64 false x).toNat e)
      | .i64 F => r = (F, integerTimesPow10I c F (wrap 64 true x) e)
      | .doubleU => Runs P c (.typed .double) P.uint64 (wrap 64 false x) e r
      | .doubleI => Runs P c (.typed .double) P.int64 (wrap 64 true x) e r
      | .anyU T => Runs P c (.typed T) P.uint64 (wrap 64 false x) e r
      | .anyI T => Runs P c (.typed T) P.int64 (wrap 64 true x) e r
      | .anyDoubleU => ∃ t, f.params = [t, .int] ∧ Runs P c .plain P.uint64 (wrap 64 false (wrap (P.bits t) (P.signed t) x)) e r
      | .anyDoubleI => ∃ t, f.params = [t, .int] ∧ Runs P c .plain P.int64 (wrap 64 true (wrap (P.bits t) (P.signed t) x)) e r := by
  constructor
  · intro h
    cases h with
    | u64 hm hb => have := means_unique P hf hm; subst this; rw [hb]
    | i64 hm hb => have := means_unique P hf hm; subst this; rw [hb]
    | doubleU hm hb h => have := means_unique P hf hm; subst this; rw [hb]; exact h
    | doubleI hm hb h => have := means_unique P hf hm; subst this; rw [hb]; exact h
    | anyU hm hb h => have := means_unique P hf hm; subst this; rw [hb]; exact h
    | anyI hm hb h => have := means_unique P hf hm; subst this; rw [hb]; exact h
    | anyDoubleU hm hb hp h => have := means_unique P hf hm; subst this; rw [hb]; exact ⟨_, hp, h⟩
    | anyDoubleI hm hb hp h => have := means_unique P hf hm; subst this; rw [hb]; exact ⟨_, hp, h⟩
  · intro h
    cases hb : f.body with
    | u64 F => rw [hb] at h; simp only at h; rw [h]; exact .u64 hf hb
    | i64 F => rw [hb] at h; simp only at h; rw [h]; exact .i64 hf hb
    | doubleU => rw [hb] at h; exact .doubleU hf hb h
    | doubleI => rw [hb] at h; exact .doubleI hf hb h
    | anyU T => rw [hb] at h; exact .anyU hf hb h
    | anyI T => rw [hb] at h; exact .anyI hf hb h
    | anyDoubleU => rw [hb] at h; obtain ⟨t, hp, h⟩ := h; exact .anyDoubleU hf hb hp h
    | anyDoubleI => rw [hb] at h; obtain ⟨t, hp, h⟩ := h; exact .anyDoubleI hf hb hp h

theorem wrap_wrap (s : Bool) (x : Int) : wrap 64 s (wrap 64 s x) = wrap 64 s x := by
  unfold wrap
  cases s
  · simp
  · simp only [true_and]
    split <;> split <;> omega

theorem wrap_holds (P : Platform) {t : Ty} (hb : 0 < P.bits t) {x : Int} (hx : P.Holds t x) : wrap (P.bits t) (P.signed t) x = x := by
  unfold Platform.Holds at hx
  unfold wrap
  have h2 : (2 : Int) ^ P.bits t = 2 * 2 ^ (P.bits t - 1) := by
    conv_lhs => rw [show P.bits t = (P.bits t - 1) + 1 by omega, pow_succ]
    exact Int.mul_comm _ _
  have hp : (0 : Int) < 2 ^ (P.bits t - 1) := by positivity
  split at hx
  · rename_i hs
    simp only [hs, true_and]
    rw [h2]
    by_cases hn : 0 ≤ x
    · rw [Int.emod_eq_of_lt hn (by omega), if_neg (by omega)]
    · have : x % (2 * 2 ^ (P.bits t - 1)) = x + 2 * 2 ^ (P.bits t - 1) := by
        rw [← Int.add_emod_right, Int.emod_eq_of_lt (by omega) (by omega)]
      rw [this, if_pos (by omega)]; omega
  · rename_i hs
    simp only [Bool.not_eq_true] at hs
    simp only [hs, Bool.false_eq_true, false_and, if_false]
    exact Int.emod_eq_of_lt hx.1 hx.2

theorem bits_pos (P : Platform) {t : Ty} (h : P.Integral t) : 0 < P.bits t := by
  cases t <;> simp [Platform.bits, Platform.Integral] at h ⊢
  · split <;> omega
  · split <;> omega
  · split <;> omega

/-- The work that a call with a value `x` of a type `a` amounts to. -/
def work (P : Platform) (c : Cfg) (F : BinFmt) (a : Ty) (x e : Int) : Exec Nat :=
  if P.signed a then integerTimesPow10I c F (wrap 64 true x) e else integerTimesPow10U c F (wrap 64 false x).toNat e

theorem runs_typed (P : Platform) (c : Cfg) {T : Ty} {F : BinFmt} (hT : floatFmt P T = some F) {a : Ty} (ha : P.Integral a) (x e : Int)
    (r : BinFmt × Exec Nat) : Runs P c (.typed T) a x e r ↔ r = (F, work P c F a x e) := by
  unfold work
  by_cases h1 : a = P.uint64
  · subst h1
    rw [runs_of_means P c (typed_u64 P hT), (integral_uint64 P).2.1]; simp
  · by_cases h2 : a = P.int64
    · subst h2
      rw [runs_of_means P c (typed_i64 P hT), (integral_int64 P).2.1]; simp
    · rw [runs_of_means P c (typed_other P hT ha h1 h2)]
      by_cases hs : P.signed a = true
      · simp only [hs, if_true]
        rw [runs_of_means P c (typed_i64 P hT), wrap_wrap]
      · simp only [hs, Bool.false_eq_true, if_false]
        rw [runs_of_means P c (typed_u64 P hT), wrap_wrap]

theorem runs_plain (P : Platform) (c : Cfg) {a : Ty} (ha : P.Integral a) {x : Int} (hx : P.Holds a x) (e : Int)
    (r : BinFmt × Exec Nat) : Runs P c .plain a x e r ↔ r = (binary64, work P c binary64 a x e) := by
  have hd : floatFmt P .double = some binary64 := rfl
  have hu : ∀ y, Runs P c .plain P.uint64 y e r ↔ r = (binary64, integerTimesPow10U c binary64 (wrap 64 false y).toNat e) := by
    intro y
    rw [runs_of_means P c (plain_u64 P)]
    show Runs P c (.typed .double) P.uint64 (wrap 64 false y) e r ↔ _
    rw [runs_of_means P c (typed_u64 P hd), wrap_wrap]
  have hi : ∀ y, Runs P c .plain P.int64 y e r ↔ r = (binary64, integerTimesPow10I c binary64 (wrap 64 true y) e) := by
    intro y
    rw [runs_of_means P c (plain_i64 P)]
    show Runs P c (.typed .double) P.int64 (wrap 64 true y) e r ↔ _
    rw [runs_of_means P c (typed_i64 P hd), wrap_wrap]
  unfold work
  by_cases h1 : a = P.uint64
  · subst h1; rw [hu, (integral_uint64 P).2.1]; simp
  · by_cases h2 : a = P.int64
    · subst h2; rw [hi, (integral_int64 P).2.1]; simp
    · rw [runs_of_means P c (plain_other P ha h1 h2)]
      by_cases hs : P.signed a = true
      · simp only [hs, if_true]
        constructor
        · rintro ⟨t, ht, h⟩
          injection ht with ht _; subst ht
          rw [wrap_holds P (bits_pos P ha) hx, hi, wrap_wrap] at h; exact h
        · intro h
          refine ⟨a, rfl, ?_⟩
          rw [wrap_holds P (bits_pos P ha) hx, hi, wrap_wrap]; exact h
      · simp only [hs, Bool.false_eq_true, if_false]
        constructor
        · rintro ⟨t, ht, h⟩
          injection ht with ht _; subst ht
          rw [wrap_holds P (bits_pos P ha) hx, hu, wrap_wrap] at h; exact h
        · intro h
          refine ⟨a, rfl, ?_⟩
          rw [wrap_holds P (bits_pos P ha) hx, hu, wrap_wrap]; exact h

theorem wrap64_signed {P : Platform} {a : Ty} (h64 : P.bits a ≤ 64) (hs : P.signed a = true) {x : Int} (hx : P.Holds a x) : wrap 64 true x = x := by
  unfold Platform.Holds at hx
  rw [if_pos hs] at hx
  have : (2 : Int) ^ (P.bits a - 1) ≤ 2 ^ 63 := pow_le_pow_right₀ (by norm_num) (by omega)
  unfold wrap
  simp only [true_and]
  split <;> omega

theorem wrap64_unsigned {P : Platform} {a : Ty} (h64 : P.bits a ≤ 64) (hs : P.signed a = false) {x : Int} (hx : P.Holds a x) :
    wrap 64 false x = x ∧ 0 ≤ x ∧ x < 2 ^ 64 := by
  unfold Platform.Holds at hx
  rw [if_neg (by rw [hs]; exact Bool.false_ne_true)] at hx
  have : (2 : Int) ^ P.bits a ≤ 2 ^ 64 := pow_le_pow_right₀ (by norm_num) h64
  unfold wrap
  simp only [Bool.false_eq_true, false_and, if_false]
  omega

/-- **C90**: on every platform, `integer_times_pow10<T>(x, e)` with `x` of any integral type of at most 64 bits compiles, terminates, and computes with the
value of `x`: the signed version if the type of `x` is signed and the unsigned version otherwise, in the type `T` (`integer_times_pow10(x, e)`: in `double`). -/
theorem C90_integer_times_pow10 (P : Platform) (c : Cfg) {a : Ty} (ha : P.Integral a) (h64 : P.bits a ≤ 64) {x : Int} (hx : P.Holds a x) (e : Int) :
    (∀ T F, floatFmt P T = some F → ∀ r, Runs P c (.typed T) a x e r ↔
      r = (F, if P.signed a then integerTimesPow10I c F x e else integerTimesPow10U c F x.toNat e)) ∧
    (∀ r, Runs P c .plain a x e r ↔
      r = (binary64, if P.signed a then integerTimesPow10I c binary64 x e else integerTimesPow10U c binary64 x.toNat e)) := by
  have hw : ∀ F, work P c F a x e = if P.signed a then integerTimesPow10I c F x e else integerTimesPow10U c F x.toNat e := by
    intro F
    unfold work
    cases hs : P.signed a
    · rw [(wrap64_unsigned h64 hs hx).1]; simp
    · rw [wrap64_signed h64 hs hx]; simp
  refine ⟨fun T F hT r => ?_, fun r => ?_⟩
  · rw [runs_typed P c hT ha, hw]
  · rw [runs_plain P c ha hx, hw]

/-- **C90**: for the 128-bit types the value is reduced modulo 2^64 first, without a diagnostic. -/
theorem C90_integer_times_pow10_wide (P : Platform) (c : Cfg) {a : Ty} (ha : P.Integral a) (x e : Int) (T : Ty) (F : BinFmt) (hT : floatFmt P T = some F)
    (r : BinFmt × Exec Nat) :
    Runs P c (.typed T) a x e r ↔
      r = (F, if P.signed a then integerTimesPow10I c F (wrap 64 true x) e else integerTimesPow10U c F (wrap 64 false x).toNat e) :=
  runs_typed P c hT ha x e r

/-- The arguments that convert alike to both 64-bit types, or to none. -/
theorem convert_alike (P : Platform) {a : Ty} (ha : ¬ P.Integral a)
    (hen : ∀ n fixed u, a = .plainEnum n fixed u → u ≠ P.int64 ∧ u ≠ P.uint64) : P.convert a P.uint64 = P.convert a P.int64 := by
  have h1 : a ≠ P.uint64 := fun h => ha (h ▸ (integral_uint64 P).1)
  have h2 : a ≠ P.int64 := fun h => ha (h ▸ (integral_int64 P).1)
  have a1 : P.uint64.arithmetic = true := by unfold Platform.uint64; split <;> rfl
  have a2 : P.int64.arithmetic = true := by unfold Platform.int64; split <;> rfl
  have b1 : P.uint64 ≠ .bool := by unfold Platform.uint64; split <;> decide
  have b2 : P.int64 ≠ .bool := by unfold Platform.int64; split <;> decide
  unfold Platform.convert
  rw [if_neg h1, if_neg h2, a1, a2]
  simp only [if_true]
  have pu : ∀ u, u ≠ P.uint64 → P.uint64 ≠ P.promoted u := by
    intro u hu h
    cases u <;> simp only [Platform.promoted] at h <;> first | exact hu h.symm | (unfold Platform.uint64 at h; split at h <;> first | exact absurd h (by decide) | (split at h <;> exact absurd h (by decide)))
  have pi : ∀ u, u ≠ P.int64 → P.int64 ≠ P.promoted u := by
    intro u hu h
    cases u <;> simp only [Platform.promoted] at h <;> first | exact hu h.symm | (unfold Platform.int64 at h; split at h <;> first | exact absurd h (by decide) | (split at h <;> exact absurd h (by decide)))
  cases a with
  | plainEnum n f u =>
    have := hen n f u rfl
    simp only
    rw [if_neg (by rintro (h | ⟨_, h⟩); exact this.2 h.symm; exact pu u this.2 h), if_neg (by rintro (h | ⟨_, h⟩); exact this.1 h.symm; exact pi u this.1 h)]
  | pointer => simp only; rw [if_neg b1, if_neg b2]
  | _ => simp only; rw [if_neg (pu _ h1), if_neg (pi _ h2)]

/-- **C90**: an argument that is not an integer (a floating-point number, a scoped enumeration, a pointer, an unscoped enumeration unless its underlying type
is exactly one of the two 64-bit types) does not compile: it is never silently converted. -/
theorem C90_integer_times_pow10_rejects (P : Platform) (c : Cfg) {a : Ty} (ha : ¬ P.Integral a)
    (hen : ∀ n fixed u, a = .plainEnum n fixed u → u ≠ P.int64 ∧ u ≠ P.uint64) (x e : Int) :
    (∀ T F, floatFmt P T = some F → ∀ r, ¬ Runs P c (.typed T) a x e r) ∧ ∀ r, ¬ Runs P c .plain a x e r := by
  have hc := convert_alike P ha hen
  have key : ∀ (call : Call), (∀ f, ¬ P.Means [a, .int] (call.cands P a) f) → ∀ r, ¬ Runs P c call a x e r := by
    intro call h r hr
    cases hr with
    | u64 hm => exact h _ hm
    | i64 hm => exact h _ hm
    | doubleU hm => exact h _ hm
    | doubleI hm => exact h _ hm
    | anyU hm => exact h _ hm
    | anyI hm => exact h _ hm
    | anyDoubleU hm => exact h _ hm
    | anyDoubleI hm => exact h _ hm
  refine ⟨fun T F hT => key _ fun f => ?_, key _ fun f => ?_⟩
  · show ¬ P.Means _ (typedCands P T a) f
    rw [typed_cands P hT, if_neg ha, List.append_nil]
    exact two_ambiguous P hc f
  · show ¬ P.Means _ (plainCands P a) f
    unfold plainCands anyDouble
    rw [if_neg ha, List.append_nil]
    exact two_ambiguous P hc f

/-- **C90**: without the four forwarding overloads every integral type but the two 64-bit ones would be ambiguous (the reason given in the source). -/
theorem C90_without_the_forwarders (P : Platform) {β : Type} {b1 b2 : β} {a : Ty} (ha : P.Integral a) (h1 : a ≠ P.uint64) (h2 : a ≠ P.int64)
    (f : Candidate β) : ¬ P.Means [a, .int] [⟨[P.uint64, .int], false, b1⟩, ⟨[P.int64, .int], false, b2⟩] f := by
  refine two_ambiguous P ?_ f
  have a1 : P.uint64.arithmetic = true := by unfold Platform.uint64; split <;> rfl
  have a2 : P.int64.arithmetic = true := by unfold Platform.int64; split <;> rfl
  unfold Platform.convert
  rw [if_neg h1, if_neg h2, a1, a2]
  simp only [if_true]
  have pu : P.uint64 ≠ P.promoted a := by
    intro h
    cases a <;> simp only [Platform.promoted] at h <;> first | exact h1 h.symm | (unfold Platform.uint64 at h; split at h <;> first | exact absurd h (by decide) | (split at h <;> exact absurd h (by decide)))
  have pi : P.int64 ≠ P.promoted a := by
    intro h
    cases a <;> simp only [Platform.promoted] at h <;> first | exact h2 h.symm | (unfold Platform.int64 at h; split at h <;> first | exact absurd h (by decide) | (split at h <;> exact absurd h (by decide)))
  cases a with
  | plainEnum n f u => exact ha.elim
  | pointer => exact ha.elim
  | scopedEnum n => exact ha.elim
  | other => exact ha.elim
  | _ => simp only; rw [if_neg pu, if_neg pi]

/-! ### from_chars -/

theorem not_both (P : Platform) (v : Lvalue) : ¬ (FloatVar P v ∧ IntVar P v) := by
  rintro ⟨⟨_, _, h⟩, h2⟩
  obtain ⟨F, hF⟩ := Option.isSome_iff_exists.1 h
  exact not_integral_of_float P hF h2

theorem convert_format (P : Platform) (x : Ty) : (P.convert x charsFormat).isSome ↔ x = charsFormat := by
  unfold Platform.convert charsFormat
  constructor
  · intro h
    by_contra hne
    rw [if_neg hne] at h
    simp [Ty.arithmetic] at h
  · rintro rfl; simp

/-- **C90**: `from_chars(first, last, v)` and `from_chars(first, last, v, x)` read a floating-point number exactly when `v` is a variable of a supported
floating-point type and `x`, if given, is a `chars_format`; they read an integer exactly when `v` has an integral type and `x`, if given, converts to `int`. -/
theorem C90_from_chars (P : Platform) (v : Lvalue) (more : List Ty) (f : Candidate Entry) (hl : more.length ≤ 1) :
    (P.Means more (fromCharsCands P v more) f ∧ f.body = .number ↔
      FloatVar P v ∧ (more = [] ∨ more = [charsFormat]) ∧ f = ⟨[charsFormat].take more.length, false, .number⟩) ∧
    (P.Means more (fromCharsCands P v more) f ∧ f.body = .integer ↔
      IntVar P v ∧ (more = [] ∨ ∃ x, more = [x] ∧ (P.convert x .int).isSome) ∧ f = ⟨[Ty.int].take more.length, false, .integer⟩) := by
  have hm : more = [] ∨ ∃ x, more = [x] := by
    match more, hl with
    | [], _ => exact Or.inl rfl
    | [x], _ => exact Or.inr ⟨x, rfl⟩
  unfold fromCharsCands
  have hb := not_both P v
  by_cases hf : FloatVar P v
  · have hi : ¬ IntVar P v := fun h => hb ⟨hf, h⟩
    rw [if_pos hf, if_neg hi, List.append_nil]
    constructor
    · constructor
      · rintro ⟨⟨h1, h2, _⟩, _⟩
        have h1 := List.mem_singleton.1 h1
        subst h1
        refine ⟨hf, ?_, rfl⟩
        rcases hm with rfl | ⟨x, rfl⟩
        · exact Or.inl rfl
        · right
          unfold Platform.Viable at h2
          simp only [List.length_singleton, List.take_succ_cons, List.take_zero, List.forall₂_cons] at h2
          have h2 := h2.1
          rw [convert_format] at h2; rw [h2]
      · rintro ⟨_, h, rfl⟩
        refine ⟨⟨by simp, ?_, fun g hg hne => absurd (List.mem_singleton.1 hg) hne⟩, rfl⟩
        rcases h with rfl | rfl
        · exact List.Forall₂.nil
        · exact List.Forall₂.cons ((convert_format P _).2 rfl) List.Forall₂.nil
    · constructor
      · rintro ⟨⟨h1, _, _⟩, h2⟩
        have h1 := List.mem_singleton.1 h1
        subst h1
        exact Entry.noConfusion h2
      · rintro ⟨h, _⟩; exact absurd h hi
  · rw [if_neg hf, List.nil_append]
    by_cases hi : IntVar P v
    · rw [if_pos hi]
      constructor
      · constructor
        · rintro ⟨⟨h1, _, _⟩, h2⟩
          have h1 := List.mem_singleton.1 h1
          subst h1
          exact Entry.noConfusion h2
        · rintro ⟨h, _⟩; exact absurd h hf
      · constructor
        · rintro ⟨⟨h1, h2, _⟩, _⟩
          have h1 := List.mem_singleton.1 h1
          subst h1
          refine ⟨hi, ?_, rfl⟩
          rcases hm with rfl | ⟨x, rfl⟩
          · exact Or.inl rfl
          · right
            unfold Platform.Viable at h2
            simp only [List.length_singleton, List.take_succ_cons, List.take_zero, List.forall₂_cons] at h2
            exact ⟨x, rfl, h2.1⟩
        · rintro ⟨_, h, rfl⟩
          refine ⟨⟨by simp, ?_, fun g hg hne => absurd (List.mem_singleton.1 hg) hne⟩, rfl⟩
          rcases h with rfl | ⟨x, rfl, hx⟩
          · exact List.Forall₂.nil
          · exact List.Forall₂.cons hx List.Forall₂.nil
    · rw [if_neg hi]
      constructor
      · exact ⟨fun h => absurd h.1.1 (by simp), fun h => absurd h.1 hf⟩
      · exact ⟨fun h => absurd h.1.1 (by simp), fun h => absurd h.1 hi⟩

/-- **C90**: a format passed with an integer variable does not compile, and neither does a number (a base, say) passed with a floating-point variable. -/
theorem C90_no_mixed_call (P : Platform) (v : Lvalue) (f : Candidate Entry) :
    (IntVar P v → ¬ P.Means [charsFormat] (fromCharsCands P v [charsFormat]) f) ∧
    (FloatVar P v → ∀ x, x ≠ charsFormat → ¬ P.Means [x] (fromCharsCands P v [x]) f) := by
  constructor
  · intro hi hm
    cases hb : f.body with
    | number => exact not_both P v ⟨((C90_from_chars P v [charsFormat] f (by simp)).1.1 ⟨hm, hb⟩).1, hi⟩
    | integer =>
      obtain ⟨_, h | ⟨x, h, hx⟩, _⟩ := (C90_from_chars P v [charsFormat] f (by simp)).2.1 ⟨hm, hb⟩
      · cases h
      · injection h with h _; subst h
        have : P.convert charsFormat .int = none := by
          unfold Platform.convert charsFormat; rw [if_neg (by decide)]; simp [Ty.arithmetic]
        rw [this] at hx; cases hx
  · intro hf x hx hm
    cases hb : f.body with
    | number =>
      obtain ⟨_, h | h, _⟩ := (C90_from_chars P v [x] f (by simp)).1.1 ⟨hm, hb⟩
      · cases h
      · injection h with h _; exact hx h
    | integer => exact not_both P v ⟨hf, ((C90_from_chars P v [x] f (by simp)).2.1 ⟨hm, hb⟩).1⟩

/-- **C90**: `from_chars_advanced` selects for every variable the parser that `from_chars` selects, and compiles for no other. -/
theorem C90_from_chars_advanced (P : Platform) (v : Lvalue) :
    (advancedEntry P v = some .number ↔ FloatVar P v) ∧ (advancedEntry P v = some .integer ↔ IntVar P v) ∧ advancedIndex P v ≠ 3 := by
  have hb := not_both P v
  unfold advancedEntry advancedIndex
  by_cases hf : FloatVar P v
  · have hi : ¬ IntVar P v := fun h => hb ⟨hf, h⟩
    simp [hf, hi]
  · by_cases hi : IntVar P v <;> simp [hf, hi]

/-- **C90**: the supported variables.  `long double`, `std::float128_t`, enumerations, pointers, and `const` or `volatile` floating-point variables are not. -/
theorem C90_supported (P : Platform) (v : Lvalue) :
    (FloatVar P v ↔ v.isConst = false ∧ v.isVolatile = false ∧ (v.ty = .double ∨ v.ty = .float ∨ (v.ty = .float64 ∧ P.has64 = true) ∨
      (v.ty = .float32 ∧ P.has32 = true) ∨ (v.ty = .float16 ∧ P.has16 = true) ∨ (v.ty = .bfloat16 ∧ P.hasB16 = true))) ∧
    (IntVar P v → ∃ b, b = P.bits v.ty ∧ (b = 1 ∨ b = 8 ∨ b = 16 ∨ b = 32 ∨ b = 64 ∨ (b = 128 ∧ P.gnu128 = true))) := by
  obtain ⟨t, k, w⟩ := v
  constructor
  · unfold FloatVar
    cases t <;> simp [floatFmt]
  · intro h
    refine ⟨_, rfl, ?_⟩
    unfold IntVar at h
    cases t <;> simp only [Platform.Integral, Platform.bits] at h ⊢ <;> first | exact h.elim | omega | (split <;> omega) | simp [h]

/-- **C90**: the format in which a supported variable is read has the width and the mantissa of its C++ type: 32 and 23 bits for `float` and `std::float32_t`, 64 and
52 for `double` and `std::float64_t`, 16 and 10 for `std::float16_t`, 16 and 7 for `std::bfloat16_t`. -/
theorem C90_formats (P : Platform) (t : Ty) (F : BinFmt) (h : floatFmt P t = some F) :
    ((t = .float ∨ t = .float32) ∧ F.signIdx + 1 = 32 ∧ F.mb = 23) ∨ ((t = .double ∨ t = .float64) ∧ F.signIdx + 1 = 64 ∧ F.mb = 52) ∨
    (t = .float16 ∧ F.signIdx + 1 = 16 ∧ F.mb = 10) ∨ (t = .bfloat16 ∧ F.signIdx + 1 = 16 ∧ F.mb = 7) := by
  cases t <;> simp only [floatFmt, Option.ite_none_right_eq_some, Option.some.injEq, reduceCtorEq] at h <;>
    (try (obtain ⟨_, rfl⟩ := h)) <;> (try subst h) <;> decide

/-- **C90**: the character types of the text: the five types whose units are code units; `unsigned char`, `signed char` and the other integers do not compile. -/
theorem C90_char_types (t : Ty) : charSupported t = true ↔ t ∈ [Ty.char, .char8, .char16, .char32, .wchar] := by
  cases t <;> simp [charSupported]

/-! ### The hypotheses are met -/

/-- Linux on x86-64 with GNU extensions and C++23. -/
def linux : Platform := ⟨true, false, true, true, true, true, true, true, true, true, fun _ => rfl⟩
/-- Windows: `long` has 32 bits. -/
def windows : Platform := ⟨true, true, false, false, false, false, false, false, false, false, by decide⟩

example : linux.Integral .short ∧ linux.bits .short ≤ 64 ∧ linux.Holds .short (-12) := by decide
example (c : Cfg) : ∃! r, Runs linux c .plain .short (-12) 3 r :=
  ⟨_, ((C90_integer_times_pow10 linux c (a := .short) (by decide) (by decide) (x := -12) (by decide) 3).2 _).2 rfl,
    fun _ h => ((C90_integer_times_pow10 linux c (a := .short) (by decide) (by decide) (x := -12) (by decide) 3).2 _).1 h⟩
example (c : Cfg) : Runs windows c (.typed .float) .ulong 7 3 (binary32, integerTimesPow10U c binary32 7 3) :=
  ((C90_integer_times_pow10 windows c (a := .ulong) (by decide) (by decide) (x := 7) (by decide) 3).1 .float binary32 rfl _).2 rfl
example (c : Cfg) (r : BinFmt × Exec Nat) : ¬ Runs linux c .plain .double 1 3 r :=
  (C90_integer_times_pow10_rejects linux c (a := .double) (by decide) (by intros; contradiction) 1 3).2 r
example : FloatVar linux { ty := .float16 } ∧ ¬ FloatVar linux { ty := .double, isConst := true } ∧ ¬ FloatVar linux { ty := .longDouble } ∧
    IntVar linux { ty := .wchar, isVolatile := true } ∧ ¬ IntVar linux { ty := charsFormat } := by decide
example : ∃ f, linux.Means [.char] (fromCharsCands linux { ty := .uchar } [.char]) f ∧ f.body = .integer :=
  ⟨_, (C90_from_chars linux { ty := .uchar } [.char] _ (by simp)).2.2 ⟨by decide, Or.inr ⟨_, rfl, by decide⟩, rfl⟩⟩

example : floatFmt linux .float32 = some binary32 := rfl

end Overload
end FastFloat
