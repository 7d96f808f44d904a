import Verif.Props.Amalgamate
import Mathlib.Data.List.DropRight
/-
# C88: the notices at the top of the single header
-/
set_option autoImplicit false
namespace FastFloat.Script
open PrepSpec

/-- A text made of lines, each ended by a newline. -/
def unlines (ls : List Text) : Text := (ls.map fun l => l ++ [10]).flatten

/-- The three license files. -/
inductive LicenseFile | mit | apache | boost
deriving DecidableEq, Repr

/-- Which licenses a choice offers. -/
def License.offers : License → List LicenseFile
  | .dual => [.mit, .apache]
  | .triple => [.mit, .apache, .boost]
  | .mit => [.mit]
  | .apache => [.apache]
  | .boost => [.boost]

/-- The white space of Python texts (documentation of `str.isspace`: bidirectional type WS, B or S, or category Zs). -/
def whiteSpace : List Nat :=
  [9, 10, 11, 12, 13, 28, 29, 30, 31, 32, 0x85, 0xa0, 0x1680, 0x2000, 0x2001, 0x2002, 0x2003, 0x2004, 0x2005, 0x2006, 0x2007, 0x2008, 0x2009, 0x200a,
    0x2028, 0x2029, 0x202f, 0x205f, 0x3000]

/-- Without the white space at both ends. -/
def trimmed (l : Text) : Text := (l.dropWhile (whiteSpace.contains ·)).rdropWhile (whiteSpace.contains ·)

theorem pySpace_eq : pySpace = (whiteSpace.contains ·) := by
  funext c
  rw [Bool.eq_iff_iff]
  simp [pySpace, whiteSpace]
  omega

/-- A line of a license as a comment. -/
def noteLine (l : Text) : Text := if trimmed l = [] then [47, 47] else [47, 47, 32, 32, 32, 32] ++ trimmed l

/-- The lines without newlines. -/
def Plain (ls : List Text) : Prop := ∀ l ∈ ls, 10 ∉ l

theorem unlines_append (a b : List Text) : unlines (a ++ b) = unlines a ++ unlines b := by simp [unlines]

theorem unlines_cons (l : Text) (ls : List Text) : unlines (l :: ls) = l ++ 10 :: unlines ls := by simp [unlines]

theorem physLines_unlines {ls : List Text} (h : Plain ls) (t : Text) : physLines (unlines ls ++ t) = ls ++ physLines t := by
  induction ls with
  | nil => rfl
  | cons l ls ih =>
    rw [unlines_cons, List.append_assoc, List.cons_append, physLines_nl, physLines_one (h l (by simp)), ih fun x hx => h x (by simp [hx])]
    rfl

theorem pyLines_unlines {ls : List Text} (h : Plain ls) : pyLines (unlines ls) = ls.map fun l => l ++ [10] := by
  induction ls with
  | nil => rfl
  | cons l ls ih => rw [unlines_cons, pyLines_cut (h l (by simp)), ih fun x hx => h x (by simp [hx])]; rfl

theorem dropWhile_snoc {p : Nat → Bool} {c : Nat} (hc : p c = true) (l : Text) : (l ++ [c]).dropWhile p = if l.dropWhile p = [] then [] else l.dropWhile p ++ [c] := by
  induction l with
  | nil => simp [hc]
  | cons a l ih =>
    by_cases ha : p a = true
    · rw [List.cons_append, List.dropWhile_cons_of_pos ha, List.dropWhile_cons_of_pos ha, ih]
    · rw [List.cons_append, List.dropWhile_cons_of_neg ha, List.dropWhile_cons_of_neg ha, if_neg (by simp)]
      rfl

theorem pyStrip_nl (l : Text) : pyStrip (l ++ [10]) = trimmed l := by
  unfold pyStrip trimmed List.rdropWhile
  rw [← pySpace_eq]
  rw [dropWhile_snoc (by decide)]
  by_cases h : l.dropWhile pySpace = []
  · rw [if_pos h, h]
  · rw [if_neg h, List.reverse_append]
    rw [show ([10] : Text).reverse = [10] from rfl, List.singleton_append, List.dropWhile_cons_of_pos (by decide)]

theorem licenseLine_nl (l : Text) : licenseLine (l ++ [10]) = noteLine l ++ [10] := by
  unfold licenseLine noteLine
  rw [pyStrip_nl]
  by_cases h : trimmed l = []
  · simp [h]
  · simp [h]

theorem trimmed_plain {l : Text} (h : 10 ∉ l) : 10 ∉ trimmed l := by
  have := pyStrip_notin h (Or.inr rfl : l ++ [10] = l ∨ l ++ [10] = l ++ [10])
  rwa [pyStrip_nl] at this

theorem noteLine_plain {l : Text} (h : 10 ∉ l) : 10 ∉ noteLine l := by
  unfold noteLine
  split
  · decide
  · simp [trimmed_plain h]

theorem people_unlines (pre : Text) {ls : List Text} (h : Plain ls) : people pre (unlines ls) = unlines (ls.map (pre ++ ·) ++ [[47, 47], [47, 47]]) := by
  unfold people
  rw [pyLines_unlines h, unlines_append]
  unfold unlines
  simp [Function.comp_def, twoBlankComments]

theorem licenseText_unlines {ls : List Text} (h : Plain ls) : licenseText false (unlines ls) = unlines (ls.map noteLine) := by
  unfold licenseText
  rw [pyLines_unlines h]
  unfold unlines
  simp [Function.comp_def, licenseLine_nl]

/-- `   Copyright 2021 The fast_float authors` -/
def copyright : Text := apacheLine.dropLast

theorem licenseText_apache {ls : List Text} (h : Plain ls) : licenseText true (unlines ls) = unlines ((copyright :: (ls.drop 179).dropLast).map noteLine) := by
  unfold licenseText
  rw [pyLines_unlines h]
  simp only [if_true]
  rw [show apacheLine = copyright ++ [10] by decide]
  rw [← List.map_drop, ← List.map_dropLast]
  unfold unlines
  simp [Function.comp_def, licenseLine_nl]

/-- The part of a license file that is shown. -/
def LicenseFile.shown : LicenseFile → List Text → List Text
  | .apache, ls => copyright :: (ls.drop 179).dropLast
  | _, ls => ls

/-- The text of a license file. -/
def Sources.license (s : Sources) : LicenseFile → Text
  | .mit => s.licenseMit
  | .apache => s.licenseApache
  | .boost => s.licenseBoost

/-- The sources with another text for one of the licenses. -/
def Sources.withLicense (s : Sources) (t : Text) : LicenseFile → Sources
  | .mit => { s with licenseMit := t }
  | .apache => { s with licenseApache := t }
  | .boost => { s with licenseBoost := t }

theorem plain_append {a b : List Text} (ha : Plain a) (hb : Plain b) : Plain (a ++ b) := by
  intro l hl
  rcases List.mem_append.1 hl with h | h
  · exact ha l h
  · exact hb l h

theorem plain_map {f : Text → Text} (hf : ∀ l, 10 ∉ l → 10 ∉ f l) {a : List Text} (ha : Plain a) : Plain (a.map f) := by
  intro l hl
  obtain ⟨x, hx, rfl⟩ := List.mem_map.1 hl
  exact hf x (ha x hx)

theorem plain_people {pre : Text} (hp : 10 ∉ pre) {ls : List Text} (h : Plain ls) : Plain (ls.map (pre ++ ·) ++ [[47, 47], [47, 47]]) := by
  refine plain_append (plain_map (fun l hl => by simp [hp, hl]) h) ?_
  intro l hl
  simp at hl
  rw [hl]; decide

theorem plain_sub {a b : List Text} (h : ∀ l ∈ a, l ∈ b) (hb : Plain b) : Plain a := fun l hl => hb l (h l hl)

theorem plain_shown {f : LicenseFile} {ls : List Text} (h : Plain ls) : Plain ((f.shown ls).map noteLine) := by
  refine plain_map (fun l => noteLine_plain) ?_
  cases f with
  | apache =>
    intro l hl
    rcases List.mem_cons.1 hl with rfl | hl
    · decide
    · exact h l (List.mem_of_mem_drop (List.dropLast_subset _ hl))
  | mit => exact h
  | boost => exact h

/-- The texts of the repository, given by their lines. -/
structure Lines where
  authors : List Text
  contributors : List Text
  license : LicenseFile → List Text

/-- `s` contains these lines, each ended by a newline. -/
structure Lines.Of (x : Lines) (s : Sources) : Prop where
  authors : s.authors = unlines x.authors
  contributors : s.contributors = unlines x.contributors
  license : ∀ f, s.license f = unlines (x.license f)
  plainAuthors : Plain x.authors
  plainContributors : Plain x.contributors
  plainLicense : ∀ f, Plain (x.license f)

/-- The lines in front of the licenses. -/
def Lines.people (x : Lines) : List Text :=
  x.authors.map (byAuthor ++ ·) ++ [[47, 47], [47, 47]] ++ (x.contributors.map (byContributor ++ ·) ++ [[47, 47], [47, 47]])

theorem plain_linesPeople {x : Lines} {s : Sources} (hx : x.Of s) : Plain x.people :=
  plain_append (plain_people (by decide) hx.plainAuthors) (plain_people (by decide) hx.plainContributors)

theorem people_eq {x : Lines} {s : Sources} (hx : x.Of s) : people byAuthor s.authors ++ people byContributor s.contributors = unlines x.people := by
  rw [hx.authors, hx.contributors, people_unlines _ hx.plainAuthors, people_unlines _ hx.plainContributors, ← unlines_append]
  rfl

theorem text_license {x : Lines} {s : Sources} (hx : x.Of s) (f : LicenseFile) : licenseText (f == .apache) (s.license f) = unlines ((f.shown (x.license f)).map noteLine) := by
  rw [hx.license]
  cases f with
  | mit => exact licenseText_unlines (hx.plainLicense _)
  | apache => exact licenseText_apache (hx.plainLicense _)
  | boost => exact licenseText_unlines (hx.plainLicense _)

/-- The lines of a constant text. -/
def linesOf (t : Text) : List Text := (physLines t).dropLast

/-- The title of a license. -/
def LicenseFile.title : LicenseFile → List Text
  | .mit => linesOf mitTitle
  | .apache => linesOf apacheTitle
  | .boost => linesOf boostTitle

/-- What is said in front of several licenses. -/
def License.intro : License → List Text
  | .dual => linesOf dualText
  | .triple => linesOf tripleText
  | _ => []

/-- The lines about one license: its title, its text as comments, an empty comment. -/
def Lines.notice (x : Lines) (f : LicenseFile) : List Text := f.title ++ (f.shown (x.license f)).map noteLine ++ [[47, 47]]

theorem notice_unlines {x : Lines} {s : Sources} (hx : x.Of s) (f : LicenseFile) :
    (match f with | .mit => mitTitle | .apache => apacheTitle | .boost => boostTitle) ++ licenseText (f == .apache) (s.license f) ++ blankComment = unlines (x.notice f) := by
  unfold Lines.notice
  rw [unlines_append, unlines_append, text_license hx f, show unlines [[47, 47]] = blankComment by decide]
  cases f with
  | mit => rw [show unlines LicenseFile.mit.title = mitTitle by decide +kernel]
  | apache => rw [show unlines LicenseFile.apache.title = apacheTitle by decide +kernel]
  | boost => rw [show unlines LicenseFile.boost.title = boostTitle by decide +kernel]

theorem plain_notice {x : Lines} {s : Sources} (hx : x.Of s) (f : LicenseFile) : Plain (x.notice f) := by
  refine plain_append (plain_append ?_ (plain_shown (hx.plainLicense f))) (by unfold Plain; decide)
  cases f <;> (unfold Plain; decide +kernel)

theorem licenseContent_unlines {x : Lines} {s : Sources} (hx : x.Of s) (a : License) : licenseContent s a = unlines (a.intro ++ a.offers.flatMap x.notice) := by
  have h1 := notice_unlines hx .mit
  have h2 := notice_unlines hx .apache
  have h3 := notice_unlines hx .boost
  have e1 : unlines License.dual.intro = dualText := by decide +kernel
  have e2 : unlines License.triple.intro = tripleText := by decide +kernel
  have g1 : (LicenseFile.mit == LicenseFile.apache) = false := rfl
  have g2 : (LicenseFile.apache == LicenseFile.apache) = true := rfl
  have g3 : (LicenseFile.boost == LicenseFile.apache) = false := rfl
  simp only [Sources.license, g1, g2, g3] at h1 h2 h3
  unfold licenseContent
  rw [unlines_append]
  cases a with
  | dual => rw [e1]; simp [License.offers, unlines_append, ← h1, ← h2, List.append_assoc]
  | triple => rw [e2]; simp [License.offers, unlines_append, ← h1, ← h2, ← h3, List.append_assoc]
  | mit => rw [show unlines License.mit.intro = [] from rfl]; simp [License.offers, ← h1, List.append_assoc]
  | apache => rw [show unlines License.apache.intro = [] from rfl]; simp [License.offers, ← h2, List.append_assoc]
  | boost => rw [show unlines License.boost.intro = [] from rfl]; simp [License.offers, ← h3, List.append_assoc]

/-- The code part of the single header. -/
def codePart (s : Sources) : Text := (amalgamOrder.map fun h => codeText (s.header h)).flatten

/-- **C88.** The lines of the single header in front of the code, which does not depend on the license: all authors, all contributors, and title and text, as comments, of
exactly the licenses of the choice. -/
theorem C88_notices {x : Lines} {s : Sources} (hx : x.Of s) (a : License) :
    physLines (amalgamate s a) = x.people ++ a.intro ++ a.offers.flatMap x.notice ++ physLines (codePart s) := by
  unfold amalgamate
  have hp : Plain (x.people ++ (a.intro ++ a.offers.flatMap x.notice)) := by
    refine plain_append (plain_linesPeople hx) (plain_append ?_ ?_)
    · cases a <;> (unfold Plain; decide +kernel)
    · intro l hl
      obtain ⟨f, _, h⟩ := List.mem_flatMap.1 hl
      exact plain_notice hx f l h
  rw [people_eq hx, licenseContent_unlines hx, ← unlines_append, show (amalgamOrder.map fun h => codeText (s.header h)).flatten = codePart s from rfl,
    physLines_unlines hp]
  simp only [List.append_assoc]

/-- **C88.** Each author has a line of his own. -/
theorem C88_authors {x : Lines} {s : Sources} (hx : x.Of s) (a : License) {name : Text} (h : name ∈ x.authors) : byAuthor ++ name ∈ physLines (amalgamate s a) := by
  rw [C88_notices hx]
  simp only [List.append_assoc, List.mem_append]
  refine Or.inl ?_
  unfold Lines.people
  simp [h]

/-- **C88.** The text of each license of the choice stands in the single header, line by line, without a break. -/
theorem C88_license {x : Lines} {s : Sources} (hx : x.Of s) {a : License} {f : LicenseFile} (h : f ∈ a.offers) :
    (f.shown (x.license f)).map noteLine <:+: physLines (amalgamate s a) := by
  rw [C88_notices hx]
  obtain ⟨l1, l2, e⟩ := List.append_of_mem h
  rw [e, List.flatMap_append, List.flatMap_cons]
  unfold Lines.notice
  refine ⟨x.people ++ a.intro ++ l1.flatMap x.notice ++ f.title, [[47, 47]] ++ l2.flatMap x.notice ++ physLines (codePart s), ?_⟩
  unfold Lines.notice
  simp only [List.append_assoc]

/-- **C88.** The other licenses leave no trace. -/
theorem C88_not_offered (s : Sources) {a : License} {f : LicenseFile} (h : f ∉ a.offers) (t : Text) : amalgamate (s.withLicense t f) a = amalgamate s a := by
  cases a <;> cases f <;> first | rfl | (exact absurd (by decide) h)

/-- **C88**, a defect: the last line of LICENSE-APACHE ("limitations under the License.") is never shown: whatever it is, the single header is the same. -/
theorem C88_apache_last_line (s : Sources) (a : License) {ls : List Text} (hls : Plain ls) {l l' : Text} (h : 10 ∉ l) (h' : 10 ∉ l') (hlen : 179 ≤ ls.length) :
    amalgamate { s with licenseApache := unlines (ls ++ [l]) } a = amalgamate { s with licenseApache := unlines (ls ++ [l']) } a := by
  have e : licenseText true (unlines (ls ++ [l])) = licenseText true (unlines (ls ++ [l'])) := by
    rw [licenseText_apache (plain_append hls (by intro y hy; simp at hy; rw [hy]; exact h)), licenseText_apache (plain_append hls (by intro y hy; simp at hy; rw [hy]; exact h'))]
    rw [List.drop_append_of_le_length hlen, List.drop_append_of_le_length hlen, List.dropLast_concat, List.dropLast_concat]
  unfold amalgamate licenseContent
  simp only [e]

/-- The code points of a text. -/
def ofString (s : String) : Text := s.toList.map Char.toNat

/-- **C88.** The wording of the constant lines that `C88_notices` speaks of. -/
theorem C88_wording :
    byAuthor = ofString "// fast_float by " ∧ byContributor = ofString "// with contributions from " ∧ copyright = ofString "   Copyright 2021 The fast_float authors" ∧
    LicenseFile.mit.title = [ofString "// MIT License Notice", ofString "//"] ∧ LicenseFile.apache.title = [ofString "// Apache License (Version 2.0) Notice", ofString "//"] ∧
    LicenseFile.boost.title = [ofString "// BOOST License Notice", ofString "//"] ∧
    License.dual.intro = [ofString "// Licensed under the Apache License, Version 2.0, or the", ofString "// MIT License at your option. This file may not be copied,",
      ofString "// modified, or distributed except according to those terms.", ofString "//"] ∧
    License.triple.intro = [ofString "// Licensed under the Apache License, Version 2.0, or the", ofString "// MIT License or the Boost License. This file may not be copied,",
      ofString "// modified, or distributed except according to those terms.", ofString "//"] ∧
    License.mit.intro = [] ∧ License.apache.intro = [] ∧ License.boost.intro = [] := by decide +kernel

/-! ### The hypotheses are met -/

/-- One author, no contributor, licenses of two lines. -/
def sampleLines : Lines := ⟨[[65, 66]], [], fun _ => [[32, 77], []]⟩

/-- The sources with these lines. -/
def sampleLinesSources : Sources := ⟨unlines [[65, 66]], [], unlines [[32, 77], []], unlines [[32, 77], []], unlines [[32, 77], []], fun _ => []⟩

theorem sampleLines_of : sampleLines.Of sampleLinesSources :=
  ⟨rfl, rfl, fun f => by cases f <;> rfl, by unfold Plain; decide, by unfold Plain; decide, fun f => by show Plain [[32, 77], []]; unfold Plain; decide⟩

example : [[47, 47, 32, 32, 32, 32, 77], [47, 47]] <:+: physLines (amalgamate sampleLinesSources .mit) := by
  have := C88_license sampleLines_of (a := .mit) (f := .mit) (by decide)
  have e : (LicenseFile.mit.shown (sampleLines.license .mit)).map noteLine = [[47, 47, 32, 32, 32, 32, 77], [47, 47]] := by decide
  rwa [e] at this

end FastFloat.Script
