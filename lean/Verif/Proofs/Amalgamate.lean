import Verif.Model.Amalgamate
import Mathlib.Data.List.Basic
import Mathlib.Data.List.Flatten
/-
# Proofs about script/amalgamate.py: lines of texts, guards, pieces
-/
set_option autoImplicit false
namespace FastFloat.Script
open PrepSpec

/-! ## Lines -/

theorem physLines_ne_nil (t : Text) : physLines t ≠ [] := by
  cases t with
  | nil => simp [physLines]
  | cons c t =>
    unfold physLines
    split
    · simp
    · split <;> simp

theorem physLines_one {l : Text} (h : 10 ∉ l) : physLines l = [l] := by
  induction l with
  | nil => rfl
  | cons c t ih =>
    have hc : c ≠ 10 := fun e => h (by simp [e])
    have ht : 10 ∉ t := fun e => h (by simp [e])
    rw [physLines, if_neg hc, ih ht]

theorem physLines_cons {c : Nat} (hc : c ≠ 10) (t : Text) : physLines (c :: t) = (c :: (physLines t).headD []) :: (physLines t).tail := by
  rw [physLines, if_neg hc]
  rcases hl : physLines t with _ | ⟨l, ls⟩
  · exact absurd hl (physLines_ne_nil t)
  · rfl

theorem physLines_nl (a b : Text) : physLines (a ++ 10 :: b) = physLines a ++ physLines b := by
  induction a with
  | nil => simp [physLines]
  | cons c t ih =>
    by_cases hc : c = 10
    · subst hc; simp [physLines, ih]
    · rw [List.cons_append, physLines_cons hc, ih, physLines_cons hc]
      rcases hl : physLines t with _ | ⟨l, ls⟩
      · exact absurd hl (physLines_ne_nil t)
      · rfl

theorem physLines_join {ls : List Text} (h0 : ls ≠ []) (h : ∀ l ∈ ls, 10 ∉ l) : physLines (joinLines ls) = ls := by
  induction ls with
  | nil => exact absurd rfl h0
  | cons l ls ih =>
    rcases ls with _ | ⟨m, ms⟩
    · exact physLines_one (h l (by simp))
    · have e : joinLines (l :: m :: ms) = l ++ 10 :: joinLines (m :: ms) := rfl
      rw [e, physLines_nl, physLines_one (h l (by simp)), ih (by simp) (fun x hx => h x (by simp [hx]))]
      rfl

theorem cut (t : Text) : 10 ∉ t ∨ ∃ l t', 10 ∉ l ∧ t = l ++ 10 :: t' := by
  induction t with
  | nil => exact Or.inl (by simp)
  | cons c t ih =>
    by_cases hc : c = 10
    · exact Or.inr ⟨[], t, by simp, by simp [hc]⟩
    · rcases ih with h | ⟨l, t', hl, e⟩
      · exact Or.inl (by simp [h, Ne.symm hc])
      · exact Or.inr ⟨c :: l, t', by simp [hl, Ne.symm hc], by simp [e]⟩

theorem pyLines_one {l : Text} (h : 10 ∉ l) : pyLines l = if l = [] then [] else [l] := by
  induction l with
  | nil => rfl
  | cons c t ih =>
    have hc : c ≠ 10 := fun e => h (by simp [e])
    have ht : 10 ∉ t := fun e => h (by simp [e])
    rw [pyLines, if_neg hc, ih ht, if_neg (by simp : c :: t ≠ [])]
    by_cases e : t = []
    · rw [if_pos e, e]
    · rw [if_neg e]

theorem pyLines_cut {l : Text} (h : 10 ∉ l) (t : Text) : pyLines (l ++ 10 :: t) = (l ++ [10]) :: pyLines t := by
  induction l with
  | nil => simp [pyLines]
  | cons c m ih =>
    have hc : c ≠ 10 := fun e => h (by simp [e])
    have ht : 10 ∉ m := fun e => h (by simp [e])
    rw [List.cons_append, pyLines, if_neg hc, ih ht]
    rfl

/-- Induction over the lines of a text. -/
theorem linesInduction {P : Text → Prop} (h1 : ∀ l, 10 ∉ l → P l) (h2 : ∀ l t, 10 ∉ l → P t → P (l ++ 10 :: t)) (t : Text) : P t := by
  induction hn : t.length using Nat.strongRecOn generalizing t with
  | _ n ih =>
    rcases cut t with h | ⟨l, t', hl, e⟩
    · exact h1 t h
    · subst e
      refine h2 l t' hl (ih t'.length ?_ t' rfl)
      rw [← hn]; simp; omega

theorem pyLines_mem {t x : Text} (h : x ∈ pyLines t) : ∃ l, 10 ∉ l ∧ (x = l ∨ x = l ++ [10]) := by
  revert h
  refine linesInduction (P := fun t => x ∈ pyLines t → _) ?_ ?_ t
  · intro l hl hx
    rw [pyLines_one hl] at hx
    by_cases e : l = []
    · rw [if_pos e] at hx; simp at hx
    · rw [if_neg e, List.mem_singleton] at hx
      exact ⟨l, hl, Or.inl hx⟩
  · intro l t hl ih hx
    rw [pyLines_cut hl, List.mem_cons] at hx
    rcases hx with hx | hx
    · exact ⟨l, hl, Or.inr hx⟩
    · exact ih hx

/-! ## Visible lines -/

theorem visible_append (a b : List Text) : visible (a ++ b) = visible a ++ visible b := by simp [visible]

theorem visible_nil : visible [] = [] := rfl

theorem visible_flatMap {α : Type} (xs : List α) (f : α → List Text) : visible (xs.flatMap f) = xs.flatMap fun x => visible (f x) := by
  induction xs with
  | nil => rfl
  | cons x xs ih => rw [List.flatMap_cons, visible_append, ih, List.flatMap_cons]

theorem isPrefixOf_append_of_notin {p l : Text} (hp : 10 ∉ p) : p.isPrefixOf (l ++ [10]) = p.isPrefixOf l := by
  induction l generalizing p with
  | nil =>
    rcases p with _ | ⟨x, xs⟩
    · rfl
    · have : x ≠ 10 := fun e => hp (by simp [e])
      simp [List.isPrefixOf, this]
  | cons c l ih =>
    rcases p with _ | ⟨x, xs⟩
    · rfl
    · simp only [List.cons_append, List.isPrefixOf]
      rw [ih (fun e => hp (by simp [e]))]

/-- The code of a header without its quoted includes: the visible lines. -/
theorem visible_codeText (t : Text) :
    visible (physLines (codeText t)) = visible ((physLines t).filter fun l => !sInclude.isPrefixOf l) := by
  have hi : (10 : Nat) ∉ sInclude := by decide
  have e0 : visible (physLines (codeText t)) = visible (physLines ((pyLines t).filter fun line => !sInclude.isPrefixOf line).flatten) := by
    unfold codeText
    rw [show ∀ x : Text, [10] ++ x = [] ++ 10 :: x from fun x => rfl, physLines_nl, visible_append]
    rfl
  rw [e0]
  refine linesInduction (P := fun t => visible (physLines ((pyLines t).filter fun line => !sInclude.isPrefixOf line).flatten) =
    visible ((physLines t).filter fun l => !sInclude.isPrefixOf l)) ?_ ?_ t
  · intro l hl
    rw [physLines_one hl, pyLines_one hl]
    by_cases e : l = []
    · subst e; rfl
    · rw [if_neg e]
      by_cases hp : sInclude.isPrefixOf l = true
      · simp only [List.filter_cons, hp]; rfl
      · have hp' : sInclude.isPrefixOf l = false := eq_false_of_ne_true hp
        simp only [List.filter_cons, hp', Bool.not_false, if_true, List.filter_nil, List.flatten_cons, List.flatten_nil, List.append_nil]
        rw [physLines_one hl]
  · intro l t hl ih
    rw [pyLines_cut hl, physLines_nl, physLines_one hl]
    have e : sInclude.isPrefixOf (l ++ [10]) = sInclude.isPrefixOf l := isPrefixOf_append_of_notin hi
    by_cases hp : sInclude.isPrefixOf l = true
    · simp only [List.filter_cons, e, hp, Bool.not_true, List.singleton_append]
      exact ih
    · have hp' : sInclude.isPrefixOf l = false := eq_false_of_ne_true hp
      simp only [List.filter_cons, e, hp', Bool.not_false, if_true, List.singleton_append, List.flatten_cons, List.append_assoc]
      rw [physLines_nl, physLines_one hl, visible_append, ih, ← visible_append]
      rfl

/-! ## The preamble -/

/-- A text of which the compiler sees nothing, and which ends a line. -/
def Mute (t : Text) : Prop := ∀ rest, visible (physLines (t ++ rest)) = visible (physLines rest)

theorem mute_nil : Mute [] := fun _ => rfl

theorem mute_append {a b : Text} (ha : Mute a) (hb : Mute b) : Mute (a ++ b) := by
  intro rest
  rw [List.append_assoc, ha, hb]

theorem mute_ite {p : Prop} [Decidable p] {a : Text} (ha : Mute a) : Mute (if p then a else []) := by
  by_cases h : p
  · rw [if_pos h]; exact ha
  · rw [if_neg h]; exact mute_nil

theorem mute_line {l : Text} (hn : 10 ∉ l) (hb : blank l = true) : Mute (l ++ [10]) := by
  intro rest
  rw [List.append_assoc, show ([10] : Text) ++ rest = 10 :: rest from rfl, physLines_nl, physLines_one hn, visible_append]
  have : visible [l] = [] := by simp [visible, hb]
  rw [this]; rfl

theorem mute_flatten {ts : List Text} (h : ∀ t ∈ ts, Mute t) : Mute ts.flatten := by
  induction ts with
  | nil => exact mute_nil
  | cons t ts ih => exact mute_append (h t (by simp)) (ih fun x hx => h x (by simp [hx]))

theorem blank_comment (t : Text) : blank ([47, 47] ++ t) = true := by
  simp [blank, sComment, List.isPrefixOf]

theorem mute_people {pre : Text} (hp : 10 ∉ pre) (hc : ∃ p, pre = [47, 47] ++ p) (file : Text) : Mute (people pre file) := by
  obtain ⟨p, hc⟩ := hc
  have hb : ∀ l, blank (pre ++ l) = true := by
    intro l; rw [hc, List.append_assoc]; exact blank_comment _
  have htwo : Mute twoBlankComments := by
    have e : twoBlankComments = ([47, 47] ++ [10]) ++ ([47, 47] ++ [10]) := rfl
    rw [e]
    exact mute_append (mute_line (by decide) (by decide)) (mute_line (by decide) (by decide))
  unfold people
  refine linesInduction (P := fun file => Mute (((pyLines file).map fun line => pre ++ line).flatten ++ twoBlankComments)) ?_ ?_ file
  · intro l hl
    rw [pyLines_one hl]
    by_cases e : l = []
    · rw [if_pos e]; exact htwo
    · rw [if_neg e]
      have e2 : (([l].map fun line => pre ++ line).flatten ++ twoBlankComments) = ((pre ++ l ++ [47, 47]) ++ [10]) ++ ([47, 47] ++ [10]) := by
        simp [twoBlankComments]
      rw [e2]
      refine mute_append (mute_line ?_ ?_) (mute_line (by decide) (by decide))
      · simp [hp, hl]
      · rw [List.append_assoc]; exact hb _
  · intro l t hl ih
    rw [pyLines_cut hl]
    have e2 : ((((l ++ [10]) :: pyLines t).map fun line => pre ++ line).flatten ++ twoBlankComments)
        = ((pre ++ l) ++ [10]) ++ (((pyLines t).map fun line => pre ++ line).flatten ++ twoBlankComments) := by
      simp
    rw [e2]
    exact mute_append (mute_line (by simp [hp, hl]) (hb l)) ih

theorem notin_dropWhile {p : Nat → Bool} {l : Text} (h : 10 ∉ l) : 10 ∉ l.dropWhile p := fun hx => h ((List.dropWhile_suffix p).sublist.subset hx)

theorem pyStrip_notin {x l : Text} (hl : 10 ∉ l) (hx : x = l ∨ x = l ++ [10]) : 10 ∉ pyStrip x := by
  unfold pyStrip
  rw [List.mem_reverse]
  rcases hx with e | e
  · subst e
    refine notin_dropWhile ?_
    rw [List.mem_reverse]
    exact notin_dropWhile hl
  · subst e
    have key : ∀ l : Text, 10 ∉ l → 10 ∉ ((l ++ [10]).dropWhile pySpace).reverse.dropWhile pySpace := by
      intro l
      induction l with
      | nil => intro _; decide
      | cons c l ih =>
        intro h
        by_cases hc : pySpace c = true
        · rw [List.cons_append, List.dropWhile_cons, if_pos hc]
          exact ih fun e => h (by simp [e])
        · rw [List.cons_append, List.dropWhile_cons, if_neg hc, ← List.cons_append, List.reverse_append]
          have e1 : ([10] : Text).reverse ++ (c :: l).reverse = 10 :: (c :: l).reverse := rfl
          rw [e1, List.dropWhile_cons, if_pos (by decide)]
          refine notin_dropWhile ?_
          rw [List.mem_reverse]; exact h
    exact key l hl

theorem mute_licenseLine {x l : Text} (hl : 10 ∉ l) (hx : x = l ∨ x = l ++ [10]) : Mute (licenseLine x) := by
  have hs := pyStrip_notin hl hx
  unfold licenseLine
  refine mute_line ?_ (blank_comment _)
  by_cases h : (pyStrip x).length ≠ 0
  · rw [if_pos h]; simp [hs]
  · rw [if_neg h]; simp [hs]

theorem mute_license (b : Bool) (file : Text) : Mute (licenseText b file) := by
  unfold licenseText
  refine mute_flatten fun t ht => ?_
  obtain ⟨x, hx, e⟩ := List.mem_map.mp ht
  subst e
  have hx' : x = apacheLine ∨ x ∈ pyLines file := by
    rcases b with _ | _
    · exact Or.inr (by simpa using hx)
    · simp only [if_true] at hx
      rcases List.mem_cons.mp hx with h | h
      · exact Or.inl h
      · exact Or.inr (List.drop_subset _ _ (List.dropLast_subset _ h))
  rcases hx' with h | h
  · subst h
    exact mute_licenseLine (l := apacheLine.dropLast) (by decide) (Or.inr (by decide))
  · obtain ⟨l, hl, e⟩ := pyLines_mem h
    exact mute_licenseLine hl e

theorem mute_lines {ls : List Text} (h : ∀ l ∈ ls, 10 ∉ l ∧ blank l = true) : Mute (ls.map fun l => l ++ [10]).flatten := by
  refine mute_flatten fun t ht => ?_
  obtain ⟨x, hx, e⟩ := List.mem_map.mp ht
  subst e
  exact mute_line (h x hx).1 (h x hx).2

/-- A concrete text ending in a newline, all of whose lines are blank or comments. -/
theorem mute_const {t : Text} (h : ∀ l ∈ physLines t, 10 ∉ l ∧ blank l = true) (e : ((physLines t).dropLast.map fun l => l ++ [10]).flatten = t) : Mute t := by
  rw [← e]
  exact mute_lines fun l hl => h l (List.dropLast_subset _ hl)

theorem mute_preamble (s : Sources) (a : License) : Mute (people byAuthor s.authors ++ people byContributor s.contributors ++ licenseContent s a) := by
  refine mute_append (mute_append (mute_people (by decide) ⟨_, rfl⟩ _) (mute_people (by decide) ⟨_, rfl⟩ _)) ?_
  have hbc : Mute blankComment := mute_const (by decide) (by decide)
  unfold licenseContent
  refine mute_append (mute_append (mute_append (mute_append ?_ ?_) ?_) ?_) ?_
  · exact mute_ite (mute_const (by decide +kernel) (by decide +kernel))
  · exact mute_ite (mute_const (by decide +kernel) (by decide +kernel))
  · exact mute_ite (mute_append (mute_append (mute_const (by decide) (by decide)) (mute_license _ _)) hbc)
  · exact mute_ite (mute_append (mute_append (mute_const (by decide) (by decide)) (mute_license _ _)) hbc)
  · exact mute_ite (mute_append (mute_append (mute_const (by decide) (by decide)) (mute_license _ _)) hbc)

theorem codeText_cons (t : Text) : ∃ r, codeText t = 10 :: r := ⟨_, rfl⟩

theorem visible_codes (ts : List Text) :
    visible (physLines (ts.map codeText).flatten) = ts.flatMap fun t => visible ((physLines t).filter fun l => !sInclude.isPrefixOf l) := by
  induction ts with
  | nil => rfl
  | cons t ts ih =>
    rw [List.map_cons, List.flatten_cons, List.flatMap_cons, ← ih]
    rcases ts with _ | ⟨u, us⟩
    · rw [List.map_nil, List.flatten_nil, List.append_nil, visible_codeText]
      exact (List.append_nil _).symm
    · obtain ⟨r, hr⟩ := codeText_cons u
      have e : ((u :: us).map codeText).flatten = 10 :: (r ++ (us.map codeText).flatten) := by
        rw [List.map_cons, List.flatten_cons, hr]; rfl
      rw [e, physLines_nl, visible_append, visible_codeText]
      congr 1

/-- The lines of the single header the compiler sees: those of the headers in their order, without the quoted includes. -/
theorem visible_amalgamate (s : Sources) (a : License) :
    visible (physLines (amalgamate s a)) = (amalgamOrder.map s.header).flatMap fun t => visible ((physLines t).filter fun l => !sInclude.isPrefixOf l) := by
  unfold amalgamate
  rw [mute_preamble s a, ← visible_codes, List.map_map]
  rfl

end FastFloat.Script
