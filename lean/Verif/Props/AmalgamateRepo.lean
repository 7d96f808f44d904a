import Verif.Props.Amalgamate
import Verif.Model.Directives
/-
# C88 for the headers of the repository

`Own`, the condition on a piece of a header, depends only on its lines that begin with `#`.  Those of the repository satisfy it.
-/
set_option autoImplicit false
namespace FastFloat
open PrepSpec Script

namespace Script

/-- The lines that begin with `#`. -/
def directives (ls : List Text) : List Text := ls.filter fun l => l.head? == some 35

theorem not_prefix {p l : Text} (hp : p.head? = some 35) (h : (l.head? == some 35) = false) : p.isPrefixOf l = false := by
  rcases p with _ | ⟨x, xs⟩
  · simp at hp
  · rcases l with _ | ⟨y, ys⟩
    · rfl
    · simp only [List.head?_cons, Option.some.injEq] at hp
      subst hp
      have hy : ((35 : Nat) == y) = false := by
        simp only [List.head?_cons, beq_eq_false_iff_ne, ne_eq, Option.some.injEq] at h ⊢
        exact fun e => h e.symm
      simp only [List.isPrefixOf, hy, Bool.false_and]

theorem closedAt_directives (d : Nat) (ls : List Text) : closedAt d ls = closedAt d (directives ls) := by
  induction ls generalizing d with
  | nil => rfl
  | cons l ls ih =>
    by_cases hh : (l.head? == some 35) = true
    · have e : directives (l :: ls) = l :: directives ls := by unfold directives; rw [List.filter_cons, if_pos hh]
      rw [e, closedAt, closedAt, ih, ih (d + 1), ih (d - 1)]
    · have hf : (l.head? == some 35) = false := eq_false_of_ne_true hh
      have e : directives (l :: ls) = directives ls := by unfold directives; rw [List.filter_cons, if_neg hh]
      rw [e, closedAt, not_prefix (by rfl) hf, not_prefix (by rfl) hf, not_prefix (by rfl) hf, ih]
      simp

/-- Whether the lines are in order depends on the directives among them. -/
theorem own_directives (ls : List Text) (hnl : ∀ l ∈ ls, 10 ∉ l) (h : Own (directives ls)) : Own ls := by
  refine ⟨List.all_eq_true.mpr fun l hl => ?_, by rw [closedAt_directives]; exact h.2⟩
  by_cases hh : (l.head? == some 35) = true
  · exact List.all_eq_true.mp h.1 l (List.mem_filter.mpr ⟨hl, hh⟩)
  · have hf : (l.head? == some 35) = false := eq_false_of_ne_true hh
    unfold plainLine
    rw [not_prefix (p := sInclude) (by rfl) hf, not_prefix (p := sIfndef) (by rfl) hf, not_prefix (p := sDefine) (by rfl) hf]
    have := hnl l hl
    simp [this]

/-- The directives of the headers are those of the repository; what the other lines contain is left open. -/
structure Layout.Repo (L : Layout) : Prop where
  cfd : directives L.cfd = cfdDirectives ∧ ∀ l ∈ L.cfd, 10 ∉ l
  commonTop : directives L.commonTop = commonTopDirectives ∧ ∀ l ∈ L.commonTop, 10 ∉ l
  common : directives L.common = commonDirectives ∧ ∀ l ∈ L.common, 10 ∉ l
  api : directives L.api = apiDirectives ∧ ∀ l ∈ L.api, 10 ∉ l
  asciiTop : directives L.asciiTop = asciiTopDirectives ∧ ∀ l ∈ L.asciiTop, 10 ∉ l
  ascii : directives L.ascii = asciiDirectives ∧ ∀ l ∈ L.ascii, 10 ∉ l
  table : directives L.table = tableDirectives ∧ ∀ l ∈ L.table, 10 ∉ l
  binary : directives L.binary = binaryDirectives ∧ ∀ l ∈ L.binary, 10 ∉ l
  bigintTop : directives L.bigintTop = bigintTopDirectives ∧ ∀ l ∈ L.bigintTop, 10 ∉ l
  bigint : directives L.bigint = bigintDirectives ∧ ∀ l ∈ L.bigint, 10 ∉ l
  digitsTop : directives L.digitsTop = digitsTopDirectives ∧ ∀ l ∈ L.digitsTop, 10 ∉ l
  digits : directives L.digits = digitsDirectives ∧ ∀ l ∈ L.digits, 10 ∉ l
  parse : directives L.parse = parseDirectives ∧ ∀ l ∈ L.parse, 10 ∉ l

/-- A decidable form of `Own`. -/
theorem own_of_check {ls : List Text} (h : (ls.all plainLine && closedAt 0 ls) = true) : Own ls := (Bool.and_eq_true _ _).mp h

end Script

/-- **C88.** The headers of the repository are in order: it is enough that the lines beginning with `#` are those of the repository. -/
theorem C88_repository {L : Layout} (h : L.Repo) : L.Ok where
  cfd := own_directives _ h.cfd.2 (by rw [h.cfd.1]; exact own_of_check (by decide +kernel))
  commonTop := own_directives _ h.commonTop.2 (by rw [h.commonTop.1]; exact own_of_check (by decide +kernel))
  common := own_directives _ h.common.2 (by rw [h.common.1]; exact own_of_check (by decide +kernel))
  api := own_directives _ h.api.2 (by rw [h.api.1]; exact own_of_check (by decide +kernel))
  asciiTop := own_directives _ h.asciiTop.2 (by rw [h.asciiTop.1]; exact own_of_check (by decide +kernel))
  ascii := own_directives _ h.ascii.2 (by rw [h.ascii.1]; exact own_of_check (by decide +kernel))
  table := own_directives _ h.table.2 (by rw [h.table.1]; exact own_of_check (by decide +kernel))
  binary := own_directives _ h.binary.2 (by rw [h.binary.1]; exact own_of_check (by decide +kernel))
  bigintTop := own_directives _ h.bigintTop.2 (by rw [h.bigintTop.1]; exact own_of_check (by decide +kernel))
  bigint := own_directives _ h.bigint.2 (by rw [h.bigint.1]; exact own_of_check (by decide +kernel))
  digitsTop := own_directives _ h.digitsTop.2 (by rw [h.digitsTop.1]; exact own_of_check (by decide +kernel))
  digits := own_directives _ h.digits.2 (by rw [h.digits.1]; exact own_of_check (by decide +kernel))
  parse := own_directives _ h.parse.2 (by rw [h.parse.1]; exact own_of_check (by decide +kernel))

/-- The skeleton of the repository: its directives and nothing else. -/
def repoSkeleton : Layout :=
  ⟨cfdDirectives, commonTopDirectives, commonDirectives, apiDirectives, asciiTopDirectives, asciiDirectives, tableDirectives, binaryDirectives, bigintTopDirectives,
    bigintDirectives, digitsTopDirectives, digitsDirectives, parseDirectives⟩

/-- A concrete case: the skeleton of the repository meets the hypotheses, with the blank line at the top of fast_float.h. -/
theorem repoSkeleton_repo : repoSkeleton.Repo := by
  constructor <;> exact ⟨by decide +kernel, by decide +kernel⟩

example : HeadersAre (fun h => joinLines (repoSkeleton.headerLines (fun h => if h = .api then [[]] else []) (fun _ => []) h)) repoSkeleton
    (fun h => if h = .api then [[]] else []) (fun _ => []) where
  text _ := rfl
  own := C88_repository repoSkeleton_repo
  lead := by intro h l hl; cases h <;> simp_all [blank]
  close := by simp

/-- What the two headers show of the skeleton has 200 lines or more: nothing is lost on the way. -/
example : 200 ≤ repoSkeleton.fromSingle.length ∧ repoSkeleton.fromSingle.length = repoSkeleton.fromHeaders.length ∧ repoSkeleton.fromSingle ≠ repoSkeleton.fromHeaders := by
  refine ⟨by decide +kernel, by decide +kernel, by decide +kernel⟩

end FastFloat
