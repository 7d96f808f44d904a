import Verif.Proofs.Guards
import Mathlib.Data.List.Perm.Basic
/-
# C88: the single header is the library

script/amalgamate.py glues the nine headers into one file, in a fixed order, and drops their quoted includes.  For every contents of the headers (with the include guards and the
quoted includes where the repository has them), of the license files and of the lists of authors, a program that includes the single header shows the compiler the same lines as a
program that includes `fast_float.h`, and in the same order, but for two blocks: the system includes at the top of float_common.h come behind constexpr_feature_detect.h, and those
of digit_comparison.h come behind bigint.h.  `PrepSpec` (Spec/Preprocess.lean) says what the preprocessor does with guards and quoted includes.
-/
set_option autoImplicit false
namespace FastFloat
open PrepSpec Script

namespace Script

/-- Every piece of the headers is in order (`Own`: no quoted includes, no include guards, each `#if` has its `#endif`). -/
structure Layout.Ok (L : Layout) : Prop where
  cfd : Own L.cfd
  commonTop : Own L.commonTop
  common : Own L.common
  api : Own L.api
  asciiTop : Own L.asciiTop
  ascii : Own L.ascii
  table : Own L.table
  binary : Own L.binary
  bigintTop : Own L.bigintTop
  bigint : Own L.bigint
  digitsTop : Own L.digitsTop
  digits : Own L.digits
  parse : Own L.parse

/-- What the compiler sees of `#include "fast_float.h"`. -/
def Layout.fromHeaders (L : Layout) : List Text :=
  visible (L.commonTop ++ L.cfd ++ L.common ++ L.api ++ L.asciiTop ++ L.ascii ++ L.table ++ L.binary ++ L.digitsTop ++ L.bigintTop ++ L.bigint ++ L.digits ++ L.parse)

/-- What the compiler sees of the single header. -/
def Layout.fromSingle (L : Layout) : List Text :=
  visible (L.cfd ++ L.commonTop ++ L.common ++ L.api ++ L.asciiTop ++ L.ascii ++ L.table ++ L.binary ++ L.bigintTop ++ L.bigint ++ L.digitsTop ++ L.digits ++ L.parse)

/-- The text of a translation unit that includes the headers of the list, one after the other. -/
def includesOf (hs : List Hdr) : Text := joinLines (hs.map fun h => sInclude ++ h.file ++ [34])

/-- The nine headers are `L` with the include guards around them: `lead h` are blank lines before the guard (there is one in fast_float.h), and `close h` is what follows
`#endif` on the last line. -/
structure HeadersAre (header : Hdr → Text) (L : Layout) (lead : Hdr → List Text) (close : Hdr → Text) : Prop where
  text : ∀ h, header h = joinLines (L.headerLines lead close h)
  own : L.Ok
  lead : ∀ h, ∀ l ∈ lead h, 10 ∉ l ∧ blank l = true
  close : ∀ h, 10 ∉ close h

theorem Layout.Ok.pieces {L : Layout} (ok : L.Ok) (h : Hdr) : ∀ p ∈ L.pieces h, p.Ok := by
  cases h <;> simp [Layout.pieces, Piece.Ok, ok.cfd, ok.commonTop, ok.common, ok.api, ok.asciiTop, ok.ascii, ok.table, ok.binary, ok.bigintTop, ok.bigint, ok.digitsTop,
    ok.digits, ok.parse]

theorem HeadersAre.installed {header : Hdr → Text} {L : Layout} {lead : Hdr → List Text} {close : Hdr → Text} (hh : HeadersAre header L lead close) :
    Installed L lead close := ⟨hh.own.pieces, hh.lead, hh.close⟩

/-! ## From the headers -/

theorem includes_lines (hs : List Hdr) (h0 : hs ≠ []) : physLines (includesOf hs) = (hs.map Piece.inc).flatMap Piece.lines := by
  unfold includesOf
  rw [physLines_join (by simpa using h0)]
  · induction hs with
    | nil => rfl
    | cons h hs ih =>
      rcases hs with _ | ⟨k, ks⟩
      · rfl
      · rw [List.map_cons, ih (by simp)]; rfl
  · intro l hl
    obtain ⟨h, _, e⟩ := List.mem_map.mp hl
    rw [← e]
    have h2 : (10 : Nat) ∉ sInclude := by decide
    simp [file_nonl, h2]

theorem readPieces_append {inc : Hdr → List Hdr × List Text → Option (List Hdr × List Text)} (a b : List Piece) (s : List Hdr × List Text) :
    readPieces inc (a ++ b) s = (readPieces inc a s).bind (readPieces inc b) := by
  induction a generalizing s with
  | nil => rfl
  | cons p a ih =>
    rw [List.cons_append, readPieces, readPieces]
    rcases readPiece inc s p with _ | s'
    · rfl
    · exact ih s'

theorem preprocess_includes {header : Hdr → Text} {L : Layout} {lead : Hdr → List Text} {close : Hdr → Text} {files : Text → Option Text}
    (hh : HeadersAre header L lead close) (hf : ∀ h, files h.file = some (header h)) (n : Nat) (hs : List Hdr) (h0 : hs ≠ []) {D : List Hdr} {o : List Text}
    (hr : readPieces (readHdr L.pieces n) (hs.map Piece.inc) ([], []) = some (D, o)) : preprocess guards files n (includesOf hs) = some o := by
  have hf' : ∀ h, files h.file = some (joinLines (L.headerLines lead close h)) := fun h => by rw [hf h, hh.text h]
  have key := sim hh.installed hf' n (hs.map Piece.inc) (by
    intro p hp
    obtain ⟨h, _, e⟩ := List.mem_map.mp hp
    rw [← e]; trivial) [] D [] o hr []
  unfold preprocess
  rw [includes_lines hs h0, run_eq]
  have key' : runLines (step guards (incAt files n)) ((hs.map Piece.inc).flatMap Piece.lines) ⟨[], [], 0, []⟩ = some ⟨D.map Hdr.guard, [], 0, o⟩ := key
  rw [key']
  rfl

theorem read_api (L : Layout) (n : Nat) : readHdr L.pieces (n + 6) .api ([], []) = some ([.bigint, .digits, .table, .binary, .ascii, .parse, .cfd, .common, .api], L.fromHeaders) := by
  simp only [readHdr, Layout.pieces, readPieces, readPiece, Option.bind_some, List.not_mem_nil, List.mem_cons, or_false, reduceCtorEq, if_false, if_true, or_true,
    List.nil_append]
  simp only [Layout.fromHeaders, visible_append, List.append_assoc]

theorem read_again (L : Layout) (n : Nat) (hs : List Hdr) {D : List Hdr} (hD : ∀ h, h ∈ D) (o : List Text) :
    readPieces (readHdr L.pieces (n + 1)) (hs.map Piece.inc) (D, o) = some (D, o) := by
  induction hs with
  | nil => rfl
  | cons h hs ih =>
    rw [List.map_cons, readPieces, readPiece, readHdr, if_pos (hD h)]
    exact ih

/-! ## Each header once, whatever the order -/

/-- The own lines of the pieces. -/
def ownOf (ps : List Piece) : List Text := ps.flatMap fun p => match p with | .own ls => visible ls | .inc _ => []

/-- How deep the includes of a header nest. -/
def rank : Hdr → Nat
  | .cfd => 0 | .table => 0 | .common => 1 | .ascii => 2 | .bigint => 2 | .binary => 2 | .digits => 3 | .parse => 4 | .api => 5

/-- What reading pieces does to the set of headers read and the lines handed on. -/
structure Reads (L : Layout) (ps : List Piece) (s s' : List Hdr × List Text) : Prop where
  news : ∃ N, s'.1 = N ++ s.1 ∧ (s.1.Nodup → s'.1.Nodup) ∧ s'.2.Perm (s.2 ++ ownOf ps ++ N.flatMap fun h => ownOf (L.pieces h)) ∧
    ∀ h ∈ N, ∀ k, Piece.inc k ∈ L.pieces h → k ∈ s'.1
  all : ∀ h, Piece.inc h ∈ ps → h ∈ s'.1

theorem reads (L : Layout) (n : Nat) : ∀ (ps : List Piece), (∀ h, Piece.inc h ∈ ps → rank h < n) → ∀ s,
    ∃ s', readPieces (readHdr L.pieces n) ps s = some s' ∧ Reads L ps s s' := by
  have hrank : ∀ h k, Piece.inc k ∈ L.pieces h → rank k < rank h := by
    intro h k hk
    cases h <;> cases k <;> simp_all [Layout.pieces, rank]
  induction n with
  | zero =>
    intro ps
    induction ps with
    | nil => intro _ s; exact ⟨s, rfl, ⟨[], by simp [ownOf]⟩, by simp⟩
    | cons p ps ih =>
      intro hp s
      rcases p with ls | k
      · obtain ⟨s', e, ⟨N, h1, h2, h3, h4⟩, h5⟩ := ih (fun h hh => hp h (by simp [hh])) (s.1, s.2 ++ visible ls)
        refine ⟨s', e, ⟨N, h1, h2, ?_, h4⟩, ?_⟩
        · simpa [ownOf, List.append_assoc] using h3
        · intro h hh; exact h5 h (by simpa using hh)
      · exact absurd (hp k (by simp)) (by omega)
  | succ n ihn =>
    intro ps
    induction ps with
    | nil => intro _ s; exact ⟨s, rfl, ⟨[], by simp [ownOf]⟩, by simp⟩
    | cons p ps ih =>
      intro hp s
      rcases p with ls | k
      · obtain ⟨s', e, ⟨N, h1, h2, h3, h4⟩, h5⟩ := ih (fun h hh => hp h (by simp [hh])) (s.1, s.2 ++ visible ls)
        refine ⟨s', e, ⟨N, h1, h2, ?_, h4⟩, ?_⟩
        · simpa [ownOf, List.append_assoc] using h3
        · intro h hh; exact h5 h (by simpa using hh)
      · rw [readPieces, readPiece, readHdr]
        by_cases hm : k ∈ s.1
        · rw [if_pos hm, Option.bind_some]
          obtain ⟨s', e, ⟨N, h1, h2, h3, h4⟩, h5⟩ := ih (fun h hh => hp h (by simp [hh])) s
          refine ⟨s', e, ⟨N, h1, h2, ?_, h4⟩, ?_⟩
          · simpa [ownOf] using h3
          · intro h hh
            rcases List.mem_cons.mp hh with hh | hh
            · cases hh; rw [h1]; exact List.mem_append_right _ hm
            · exact h5 h hh
        · rw [if_neg hm]
          obtain ⟨s₁, e₁, ⟨N₁, a1, a2, a3, a4⟩, a5⟩ := ihn (L.pieces k) (fun h hh => by
            have := hrank k h hh
            have := hp k (by simp)
            omega) (k :: s.1, s.2)
          obtain ⟨s', e, ⟨N, h1, h2, h3, h4⟩, h5⟩ := ih (fun h hh => hp h (by simp [hh])) s₁
          rw [e₁, Option.bind_some]
          have hsub : ∀ h, h ∈ s₁.1 → h ∈ s'.1 := fun h hh => by rw [h1]; exact List.mem_append_right _ hh
          have hk : k ∈ s₁.1 := by rw [a1]; simp
          refine ⟨s', e, ⟨N ++ N₁ ++ [k], ?_, ?_, ?_, ?_⟩, ?_⟩
          · rw [h1, a1]; simp
          · intro hnd
            exact h2 (a2 (List.nodup_cons.mpr ⟨hm, hnd⟩))
          · refine h3.trans ?_
            have e1 : ownOf (Piece.inc k :: ps) = ownOf ps := by simp [ownOf]
            rw [e1, List.flatMap_append, List.flatMap_append]
            have e2 : ([k].flatMap fun h => ownOf (L.pieces h)) = ownOf (L.pieces k) := by simp
            rw [e2]
            refine (List.Perm.append_right _ (List.Perm.append_right _ a3)).trans ?_
            generalize ownOf (L.pieces k) = A
            generalize (N₁.flatMap fun h => ownOf (L.pieces h)) = B
            generalize (N.flatMap fun h => ownOf (L.pieces h)) = C
            generalize ownOf ps = E
            simp only [List.append_assoc]
            refine List.Perm.append_left _ ?_
            have q1 : (A ++ (B ++ (E ++ C))).Perm (E ++ C ++ (A ++ B)) := by
              rw [← List.append_assoc A B]; exact List.perm_append_comm
            refine q1.trans ?_
            simp only [List.append_assoc]
            exact List.Perm.append_left _ (List.Perm.append_left _ List.perm_append_comm)
          · intro h hh j hj
            rcases List.mem_append.mp hh with hh | hh
            · rcases List.mem_append.mp hh with hh | hh
              · exact h4 h hh j hj
              · exact hsub j (a4 h hh j hj)
            · rw [List.mem_singleton] at hh; subst hh
              exact hsub j (a5 j hj)
          · intro h hh
            rcases List.mem_cons.mp hh with hh | hh
            · cases hh; exact hsub k hk
            · exact h5 h hh

theorem closed_all {L : Layout} {D : List Hdr} (hapi : Hdr.api ∈ D) (hc : ∀ h ∈ D, ∀ k, Piece.inc k ∈ L.pieces h → k ∈ D) (h : Hdr) : h ∈ D := by
  have h1 : Hdr.common ∈ D := hc .api hapi _ (by simp [Layout.pieces])
  have h2 : Hdr.parse ∈ D := hc .api hapi _ (by simp [Layout.pieces])
  have h3 : Hdr.cfd ∈ D := hc .common h1 _ (by simp [Layout.pieces])
  have h4 : Hdr.ascii ∈ D := hc .parse h2 _ (by simp [Layout.pieces])
  have h5 : Hdr.binary ∈ D := hc .parse h2 _ (by simp [Layout.pieces])
  have h6 : Hdr.digits ∈ D := hc .parse h2 _ (by simp [Layout.pieces])
  have h7 : Hdr.table ∈ D := hc .binary h5 _ (by simp [Layout.pieces])
  have h8 : Hdr.bigint ∈ D := hc .digits h6 _ (by simp [Layout.pieces])
  cases h <;> assumption

/-! ## From the single header -/

/-- The pieces of a header without its quoted includes. -/
def ownPieces (ps : List Piece) : List Piece := ps.filter fun p => match p with | .own _ => true | .inc _ => false

theorem ownPieces_emit {inc : Text → St → Option St} (ps : List Piece) (h : ∀ p ∈ ps, p.Ok) (D : List Text) (F : List Frame) (o : List Text) :
    runLines (step guards inc) ((ownPieces ps).flatMap Piece.lines) ⟨D, F, 0, o⟩ = some ⟨D, F, 0, o ++ ownOf ps⟩ := by
  induction ps generalizing o with
  | nil => simp [ownPieces, ownOf, runLines]
  | cons p ps ih =>
    have ih' := ih fun q hq => h q (by simp [hq])
    rcases p with ls | k
    · have hok : Own ls := h (.own ls) (by simp)
      have e := own_emit (inc := inc) ls hok.1 0 hok.2 D F o
      simp only [List.replicate_zero, List.nil_append] at e
      have e1 : (ownPieces (Piece.own ls :: ps)).flatMap Piece.lines = ls ++ (ownPieces ps).flatMap Piece.lines := by simp [ownPieces, Piece.lines]
      have e2 : ownOf (Piece.own ls :: ps) = visible ls ++ ownOf ps := by simp [ownOf]
      rw [e1, runLines_append, e, Option.bind_some, ih', e2, List.append_assoc]
    · have e1 : (ownPieces (Piece.inc k :: ps)) = ownPieces ps := by simp [ownPieces]
      have e2 : ownOf (Piece.inc k :: ps) = ownOf ps := by simp [ownOf]
      rw [e1, e2]; exact ih' o

theorem filter_visible (q : Text → Bool) (ls : List Text) : visible (ls.filter q) = (visible ls).filter q := by
  unfold visible
  rw [List.filter_filter, List.filter_filter]
  congr 1; funext l; exact Bool.and_comm _ _

theorem filter_pieces (ps : List Piece) (h : ∀ p ∈ ps, p.Ok) :
    ((ps.flatMap Piece.lines).filter fun l => !sInclude.isPrefixOf l) = (ownPieces ps).flatMap Piece.lines := by
  induction ps with
  | nil => rfl
  | cons p ps ih =>
    rw [List.flatMap_cons, List.filter_append, ih fun q hq => h q (by simp [hq])]
    rcases p with ls | k
    · have e1 : (ownPieces (Piece.own ls :: ps)).flatMap Piece.lines = ls ++ (ownPieces ps).flatMap Piece.lines := by simp [ownPieces, Piece.lines]
      rw [e1]
      congr 1
      refine List.filter_eq_self.mpr fun l hl => ?_
      have hok : Own ls := h (.own ls) (by simp)
      rw [(plainLine_iff (List.all_eq_true.mp hok.1 l hl)).2.1]; rfl
    · have e1 : (ownPieces (Piece.inc k :: ps)) = ownPieces ps := by simp [ownPieces]
      have e2 : ((Piece.inc k).lines.filter fun l => !sInclude.isPrefixOf l) = [] := by
        show ([includeLine k].filter _) = _
        have p : sInclude.isPrefixOf (includeLine k) = true := by simp [includeLine]
        simp only [List.filter_cons, p]; rfl
      rw [e1, e2]; rfl

theorem visible_header {header : Hdr → Text} {L : Layout} {lead : Hdr → List Text} {close : Hdr → Text} (hh : HeadersAre header L lead close) (h : Hdr) :
    visible ((physLines (header h)).filter fun l => !sInclude.isPrefixOf l) = visible (blockLines h (ownPieces (L.pieces h)) (close h)) := by
  rw [hh.text h, headerLines_phys hh.installed, headerLines_eq, filter_visible, visible_append, visible_append, visible_lead hh.installed, List.nil_append,
    show visible [[]] = [] from rfl, List.append_nil, ← filter_visible]
  congr 1
  unfold blockLines
  rw [List.filter_append, List.filter_append, filter_pieces _ (hh.own.pieces h)]
  have e1 : ([ifndefLine h, defineLine h].filter fun l => !sInclude.isPrefixOf l) = [ifndefLine h, defineLine h] := by cases h <;> decide
  have e2 : ([sEndif ++ close h].filter fun l => !sInclude.isPrefixOf l) = [sEndif ++ close h] := by
    refine List.filter_eq_self.mpr fun l hl => ?_
    rw [List.mem_singleton.mp hl, eq_false_of_ne_true (endif_facts (close h)).2.1]; rfl
  rw [e1, e2]

theorem runLines_blocks {inc : Text → St → Option St} {L : Layout} (ok : L.Ok) (close : Hdr → Text) (hs : List Hdr) (hn : hs.Nodup) (D : List Hdr)
    (hd : ∀ h ∈ hs, h ∉ D) (o : List Text) :
    runLines (step guards inc) (hs.flatMap fun h => visible (blockLines h (ownPieces (L.pieces h)) (close h))) ⟨D.map Hdr.guard, [], 0, o⟩ =
      some ⟨(hs.reverse ++ D).map Hdr.guard, [], 0, o ++ hs.flatMap fun h => ownOf (L.pieces h)⟩ := by
  induction hs generalizing D o with
  | nil => simp [runLines]
  | cons h hs ih =>
    rw [List.nodup_cons] at hn
    rw [List.flatMap_cons, runLines_append, ← runLines_visible,
      block_new (hd h (by simp)) _ (close h) [] o (o ++ ownOf (L.pieces h)) (ownPieces_emit _ (ok.pieces h) _ _ o), Option.bind_some,
      ih hn.2 (h :: D) (by
        intro k hk hm
        rcases List.mem_cons.mp hm with e | e
        · subst e; exact hn.1 hk
        · exact hd k (by simp [hk]) e)]
    simp [List.append_assoc]

theorem runLines_blocks_old {inc : Text → St → Option St} {L : Layout} (ok : L.Ok) (close : Hdr → Text) (hs : List Hdr) (D : List Hdr) (hd : ∀ h ∈ hs, h ∈ D)
    (o : List Text) :
    runLines (step guards inc) (hs.flatMap fun h => visible (blockLines h (ownPieces (L.pieces h)) (close h))) ⟨D.map Hdr.guard, [], 0, o⟩ =
      some ⟨D.map Hdr.guard, [], 0, o⟩ := by
  induction hs with
  | nil => rfl
  | cons h hs ih =>
    rw [List.flatMap_cons, runLines_append, ← runLines_visible, block_old (hd h (by simp)) _ (by
      intro p hp
      exact ok.pieces h p (List.mem_of_mem_filter hp)), Option.bind_some]
    exact ih fun k hk => hd k (by simp [hk])

theorem amalgamate_lines {s : Sources} {L : Layout} {lead : Hdr → List Text} {close : Hdr → Text} (hh : HeadersAre s.header L lead close) (a : License) :
    visible (physLines (amalgamate s a)) = amalgamOrder.flatMap fun h => visible (blockLines h (ownPieces (L.pieces h)) (close h)) := by
  rw [visible_amalgamate, List.flatMap_map]
  congr 1; funext h
  exact visible_header hh h

theorem single_out (L : Layout) : (amalgamOrder.flatMap fun h => ownOf (L.pieces h)) = L.fromSingle := by
  simp [amalgamOrder, ownOf, Layout.pieces, Layout.fromSingle, visible_append, List.append_assoc]

theorem run_single {s : Sources} {L : Layout} {lead : Hdr → List Text} {close : Hdr → Text} (hh : HeadersAre s.header L lead close) (a : License)
    (files : Text → Option Text) (n : Nat) :
    run guards files n (physLines (amalgamate s a)) ⟨[], [], 0, []⟩ = some ⟨amalgamOrder.reverse.map Hdr.guard, [], 0, L.fromSingle⟩ := by
  rw [run_eq, runLines_visible, amalgamate_lines hh]
  have := runLines_blocks (inc := incAt files n) hh.own close amalgamOrder (by decide) [] (by simp) []
  rw [single_out, List.append_nil, List.nil_append] at this
  exact this

end Script

/-- **C88.** The compiler sees of `#include "fast_float.h"` the pieces of the nine headers in the order of `Layout.fromHeaders`, each once.  (`n` bounds the depth to which includes
may nest; six levels are enough.) -/
theorem C88_headers {header : Hdr → Text} {L : Layout} {lead : Hdr → List Text} {close : Hdr → Text} (hh : HeadersAre header L lead close) (files : Text → Option Text)
    (hf : ∀ h, files h.file = some (header h)) (n : Nat) (hn : 6 ≤ n) : preprocess guards files n (includesOf [.api]) = some L.fromHeaders := by
  obtain ⟨m, rfl⟩ : ∃ m, n = m + 6 := ⟨n - 6, by omega⟩
  refine preprocess_includes hh hf (m + 6) [.api] (by simp) (D := [.bigint, .digits, .table, .binary, .ascii, .parse, .cfd, .common, .api]) ?_
  show (readHdr L.pieces (m + 6) .api ([], [])).bind _ = _
  rw [read_api]; rfl

/-- **C88.** The compiler sees of the single header the pieces of the nine headers in the order of `Layout.fromSingle`, each once, whatever the license, and it needs no other file of
the library: no include is left to resolve. -/
theorem C88_single_header {s : Sources} {L : Layout} {lead : Hdr → List Text} {close : Hdr → Text} (hh : HeadersAre s.header L lead close) (a : License) :
    preprocess guards (fun _ => none) 0 (amalgamate s a) = some L.fromSingle := by
  unfold preprocess
  rw [run_single hh]
  rfl

/-- **C88.** The lines of the single header are those of the headers, each as often. -/
theorem C88_same_lines (L : Layout) : L.fromSingle.Perm L.fromHeaders := by
  unfold Layout.fromSingle Layout.fromHeaders
  simp only [visible_append]
  generalize visible L.cfd = a
  generalize visible L.commonTop = b
  generalize visible L.digitsTop = c
  generalize visible L.bigintTop = d
  generalize visible L.bigint = e
  simp only [List.append_assoc]
  rw [← List.append_assoc a b, ← List.append_assoc b a]
  refine List.Perm.append List.perm_append_comm ?_
  refine List.Perm.append_left _ (List.Perm.append_left _ (List.Perm.append_left _ (List.Perm.append_left _ (List.Perm.append_left _ (List.Perm.append_left _ ?_)))))
  have q : ∀ R : List Text, (d ++ (e ++ (c ++ R))).Perm (c ++ (d ++ (e ++ R))) := by
    intro R
    rw [← List.append_assoc d e, ← List.append_assoc (d ++ e) c R, ← List.append_assoc d e R, ← List.append_assoc c (d ++ e) R]
    exact List.Perm.append_right _ List.perm_append_comm
  exact q _

/-- **C88.** The single header means what the headers mean, for every compiler (any state, any action of a line on it) that does not mind reading the system includes at the top of
float_common.h before or after constexpr_feature_detect.h, and those of digit_comparison.h before or after bigint.h. -/
theorem C88_same_meaning (L : Layout) {σ : Type} (compile : σ → Text → σ)
    (h1 : ∀ s, (visible L.cfd).foldl compile ((visible L.commonTop).foldl compile s) = (visible L.commonTop).foldl compile ((visible L.cfd).foldl compile s))
    (h2 : ∀ s, (visible (L.bigintTop ++ L.bigint)).foldl compile ((visible L.digitsTop).foldl compile s) =
      (visible L.digitsTop).foldl compile ((visible (L.bigintTop ++ L.bigint)).foldl compile s)) (s : σ) :
    L.fromSingle.foldl compile s = L.fromHeaders.foldl compile s := by
  unfold Layout.fromSingle Layout.fromHeaders
  simp only [visible_append, List.foldl_append] at h2 ⊢
  rw [h1, h2]

/-- **C88.** In every order, and however often, the headers of the library are included: once `fast_float.h` is among them, the compiler sees every line of the library exactly as often
as from `fast_float.h` alone. -/
theorem C88_any_order {header : Hdr → Text} {L : Layout} {lead : Hdr → List Text} {close : Hdr → Text} (hh : HeadersAre header L lead close) (files : Text → Option Text)
    (hf : ∀ h, files h.file = some (header h)) (n : Nat) (hn : 6 ≤ n) (hs : List Hdr) (hapi : Hdr.api ∈ hs) :
    ∃ out, preprocess guards files n (includesOf hs) = some out ∧ out.Perm L.fromHeaders := by
  have h0 : hs ≠ [] := fun e => by rw [e] at hapi; simp at hapi
  obtain ⟨⟨D, o⟩, e, ⟨N, h1, h2, h3, h4⟩, h5⟩ := reads L n (hs.map Piece.inc) (by
    intro h _
    cases h <;> simp only [rank] <;> omega) ([], [])
  refine ⟨o, preprocess_includes hh hf n hs h0 e, ?_⟩
  simp only [List.append_nil] at h1
  subst h1
  have hall : ∀ h, h ∈ D := closed_all (h5 .api (List.mem_map_of_mem hapi)) h4
  have hnd : D.Nodup := h2 List.nodup_nil
  have hperm : D.Perm amalgamOrder := (List.perm_ext_iff_of_nodup hnd (by decide)).mpr fun h => ⟨fun _ => by cases h <;> decide, fun _ => hall h⟩
  have hown : ∀ hs : List Hdr, ownOf (hs.map Piece.inc) = [] := by
    intro hs
    induction hs with
    | nil => rfl
    | cons h hs ih => simpa [ownOf] using ih
  have h3' : o.Perm (D.flatMap fun h => ownOf (L.pieces h)) := by simpa [hown] using h3
  refine h3'.trans ((List.Perm.flatMap_right _ hperm).trans ?_)
  rw [single_out]
  exact C88_same_lines L

/-- **C88.** Behind `fast_float.h`, including any headers of the library again changes nothing. -/
theorem C88_again {header : Hdr → Text} {L : Layout} {lead : Hdr → List Text} {close : Hdr → Text} (hh : HeadersAre header L lead close) (files : Text → Option Text)
    (hf : ∀ h, files h.file = some (header h)) (n : Nat) (hn : 6 ≤ n) (hs : List Hdr) :
    preprocess guards files n (includesOf (.api :: hs)) = some L.fromHeaders := by
  obtain ⟨m, rfl⟩ : ∃ m, n = m + 6 := ⟨n - 6, by omega⟩
  refine preprocess_includes hh hf (m + 6) (.api :: hs) (by simp) (D := [.bigint, .digits, .table, .binary, .ascii, .parse, .cfd, .common, .api]) ?_
  rw [List.map_cons, readPieces, readPiece, read_api, Option.bind_some]
  exact read_again L (m + 5) hs (by intro h; cases h <;> decide) _

/-- **C88.** Behind the single header, including it again (even with another license) or including any headers of the library changes nothing: the guards are the same. -/
theorem C88_mixed {s : Sources} {L : Layout} {lead : Hdr → List Text} {close : Hdr → Text} (hh : HeadersAre s.header L lead close) (files : Text → Option Text)
    (hf : ∀ h, files h.file = some (s.header h)) (n : Nat) (hn : 1 ≤ n) (a b : License) (hs : List Hdr) (h0 : hs ≠ []) :
    preprocess guards files n (amalgamate s a ++ 10 :: amalgamate s b) = some L.fromSingle ∧
    preprocess guards files n (amalgamate s a ++ 10 :: includesOf hs) = some L.fromSingle := by
  obtain ⟨m, rfl⟩ : ∃ m, n = m + 1 := ⟨n - 1, by omega⟩
  have hall : ∀ h, h ∈ amalgamOrder.reverse := by intro h; cases h <;> decide
  have hrun := run_single hh a files (m + 1)
  rw [run_eq] at hrun
  constructor
  · unfold preprocess
    rw [physLines_nl, run_eq, runLines_append, hrun, Option.bind_some, runLines_visible, amalgamate_lines hh,
      runLines_blocks_old hh.own close amalgamOrder amalgamOrder.reverse (fun h _ => hall h)]
    rfl
  · have hf' : ∀ h, files h.file = some (joinLines (L.headerLines lead close h)) := fun h => by rw [hf h, hh.text h]
    have key := sim hh.installed hf' (m + 1) (hs.map Piece.inc) (by
      intro p hp
      obtain ⟨h, _, e⟩ := List.mem_map.mp hp
      rw [← e]; trivial) amalgamOrder.reverse amalgamOrder.reverse L.fromSingle L.fromSingle (read_again L m hs hall _) []
    unfold preprocess
    rw [physLines_nl, run_eq, runLines_append, hrun, Option.bind_some, includes_lines hs h0, key]
    rfl

end FastFloat
