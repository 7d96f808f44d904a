import Verif.Proofs.Amalgamate
/-
# Proofs about include guards: what the preprocessor does with a header
-/
set_option autoImplicit false
namespace FastFloat.Script
open PrepSpec

/-- The nine include guards. -/
def guards : List Text := [Hdr.cfd, .common, .api, .ascii, .table, .binary, .bigint, .digits, .parse].map Hdr.guard

/-- A line that is neither a quoted include nor a line of an include guard. -/
def plainLine (l : Text) : Bool :=
  !l.contains 10 && !sInclude.isPrefixOf l && !(sIfndef.isPrefixOf l && guards.contains (macroName (l.drop sIfndef.length))) &&
    !(sDefine.isPrefixOf l && guards.contains (macroName (l.drop sDefine.length)))

/-- The conditionals are closed, inside of `d` open ones. -/
def closedAt : Nat → List Text → Bool
  | d, [] => d == 0
  | d, l :: ls =>
    if blank l then closedAt d ls
    else if sIf.isPrefixOf l then closedAt (d + 1) ls
    else if sEndif.isPrefixOf l then d != 0 && closedAt (d - 1) ls
    else if sElse.isPrefixOf l then d != 0 && closedAt d ls
    else closedAt d ls

/-- Lines of a header's own: no quoted includes, no include guards, and every `#if` has its `#endif`. -/
def Own (ls : List Text) : Prop := ls.all plainLine = true ∧ closedAt 0 ls = true

theorem plainLine_iff {l : Text} (h : plainLine l = true) :
    10 ∉ l ∧ sInclude.isPrefixOf l = false ∧ ¬ (sIfndef.isPrefixOf l = true ∧ macroName (l.drop sIfndef.length) ∈ guards) ∧
      ¬ (sDefine.isPrefixOf l = true ∧ macroName (l.drop sDefine.length) ∈ guards) := by
  unfold plainLine at h
  rw [Bool.and_eq_true, Bool.and_eq_true, Bool.and_eq_true] at h
  obtain ⟨⟨⟨h1, h2⟩, h3⟩, h4⟩ := h
  refine ⟨?_, ?_, ?_, ?_⟩
  · intro hc
    rw [Bool.not_eq_true', List.contains_eq_mem, decide_eq_false_iff_not] at h1
    exact h1 hc
  · rw [Bool.not_eq_true'] at h2; exact h2
  · rintro ⟨a, b⟩
    rw [a, Bool.true_and, Bool.not_eq_true', List.contains_eq_mem, decide_eq_false_iff_not] at h3
    exact h3 b
  · rintro ⟨a, b⟩
    rw [a, Bool.true_and, Bool.not_eq_true', List.contains_eq_mem, decide_eq_false_iff_not] at h4
    exact h4 b

theorem runLines_append (f : St → Text → Option St) (a b : List Text) (st : St) : runLines f (a ++ b) st = (runLines f a st).bind (runLines f b) := by
  induction a generalizing st with
  | nil => rfl
  | cons l a ih =>
    rw [List.cons_append, runLines, runLines]
    rcases f st l with _ | st'
    · rfl
    · exact ih st'

/-- Lines of its own are handed on. -/
theorem own_emit {inc : Text → St → Option St} (ls : List Text) (hp : ls.all plainLine = true) (d : Nat) (hd : closedAt d ls = true) (D : List Text) (F : List Frame)
    (o : List Text) :
    runLines (step guards inc) ls ⟨D, List.replicate d .cond ++ F, 0, o⟩ = some ⟨D, F, 0, o ++ visible ls⟩ := by
  induction ls generalizing d o with
  | nil =>
    have : d = 0 := by simpa [closedAt] using hd
    subst this
    simp [runLines, visible]
  | cons l ls ih =>
    rw [List.all_cons, Bool.and_eq_true] at hp
    obtain ⟨_, hi, hg, hdef⟩ := plainLine_iff hp.1
    rw [closedAt] at hd
    rw [runLines]
    by_cases hb : blank l = true
    · rw [if_pos hb] at hd
      have e1 : step guards inc ⟨D, List.replicate d .cond ++ F, 0, o⟩ l = some ⟨D, List.replicate d .cond ++ F, 0, o⟩ := by
        unfold step; rw [if_pos hb]
      have e2 : visible (l :: ls) = visible ls := by simp [visible, hb]
      rw [e1, e2]
      exact ih hp.2 d hd o
    · rw [if_neg hb] at hd
      have e2 : visible (l :: ls) = l :: visible ls := by simp [visible, hb]
      have hi' : ¬ (sInclude.isPrefixOf l = true) := by rw [hi]; exact Bool.false_ne_true
      have e0 : ∀ (F' : List Frame), step guards inc ⟨D, F', 0, o⟩ l =
          if sIf.isPrefixOf l = true then some ⟨D, .cond :: F', 0, o ++ [l]⟩
          else if sEndif.isPrefixOf l = true then
            match F' with
            | [] => none
            | .guard :: fs => some ⟨D, fs, 0, o⟩
            | .cond :: fs => some ⟨D, fs, 0, o ++ [l]⟩
          else if sElse.isPrefixOf l = true ∧ F'.head? ≠ some .cond then none
          else some ⟨D, F', 0, o ++ [l]⟩ := by
        intro F'
        unfold step
        rw [if_neg hb, if_neg (by simp), if_neg hi', if_neg hg, if_neg hdef]
        rcases F' with _ | ⟨_ | _, _⟩ <;> rfl
      have e3 : o ++ visible (l :: ls) = (o ++ [l]) ++ visible ls := by rw [e2]; simp
      rw [e0, e3]
      by_cases h1 : sIf.isPrefixOf l = true
      · rw [if_pos h1] at hd ⊢
        exact ih hp.2 (d + 1) hd (o ++ [l])
      · rw [if_neg h1] at hd ⊢
        by_cases h2 : sEndif.isPrefixOf l = true
        · rw [if_pos h2, Bool.and_eq_true] at hd
          rw [if_pos h2]
          have hd0 : d ≠ 0 := by simpa using hd.1
          obtain ⟨k, rfl⟩ : ∃ k, d = k + 1 := ⟨d - 1, by omega⟩
          exact ih hp.2 k (by simpa using hd.2) (o ++ [l])
        · rw [if_neg h2] at hd ⊢
          by_cases h3 : sElse.isPrefixOf l = true
          · rw [if_pos h3, Bool.and_eq_true] at hd
            have hd0 : d ≠ 0 := by simpa using hd.1
            obtain ⟨k, rfl⟩ : ∃ k, d = k + 1 := ⟨d - 1, by omega⟩
            rw [if_neg (by rintro ⟨_, h⟩; exact h rfl)]
            exact ih hp.2 (k + 1) hd.2 (o ++ [l])
          · rw [if_neg h3] at hd
            rw [if_neg (fun h => h3 h.1)]
            exact ih hp.2 d hd (o ++ [l])

/-- A step in a part that is being skipped. -/
theorem step_skip {inc : Text → St → Option St} (D : List Text) (F : List Frame) (k : Nat) (o : List Text) (l : Text) (hb : ¬ blank l = true) :
    step guards inc ⟨D, F, k + 1, o⟩ l =
      if sIf.isPrefixOf l = true then some ⟨D, F, k + 1 + 1, o⟩
      else if sEndif.isPrefixOf l = true then some ⟨D, F, k, o⟩
      else if sElse.isPrefixOf l = true ∧ k + 1 = 1 then none
      else some ⟨D, F, k + 1, o⟩ := by
  unfold step
  rw [if_neg hb, if_pos (by simp)]
  rfl

/-- Lines of its own are skipped as a whole. -/
theorem own_skip {inc : Text → St → Option St} (ls : List Text) (d : Nat) (hd : closedAt d ls = true) (D : List Text) (F : List Frame) (o : List Text) :
    runLines (step guards inc) ls ⟨D, F, d + 1, o⟩ = some ⟨D, F, 1, o⟩ := by
  induction ls generalizing d with
  | nil =>
    have : d = 0 := by simpa [closedAt] using hd
    subst this; rfl
  | cons l ls ih =>
    rw [closedAt] at hd
    rw [runLines]
    by_cases hb : blank l = true
    · rw [if_pos hb] at hd
      have e1 : step guards inc ⟨D, F, d + 1, o⟩ l = some ⟨D, F, d + 1, o⟩ := by unfold step; rw [if_pos hb]
      rw [e1]
      exact ih d hd
    · rw [if_neg hb] at hd
      rw [step_skip D F d o l hb]
      by_cases h1 : sIf.isPrefixOf l = true
      · rw [if_pos h1] at hd ⊢
        exact ih (d + 1) hd
      · rw [if_neg h1] at hd ⊢
        by_cases h2 : sEndif.isPrefixOf l = true
        · rw [if_pos h2, Bool.and_eq_true] at hd
          rw [if_pos h2]
          have hd0 : d ≠ 0 := by simpa using hd.1
          obtain ⟨k, rfl⟩ : ∃ k, d = k + 1 := ⟨d - 1, by omega⟩
          exact ih k (by simpa using hd.2)
        · rw [if_neg h2] at hd ⊢
          by_cases h3 : sElse.isPrefixOf l = true
          · rw [if_pos h3, Bool.and_eq_true] at hd
            have hd0 : d ≠ 0 := by simpa using hd.1
            rw [if_neg (by rintro ⟨_, h⟩; omega)]
            exact ih d hd.2
          · rw [if_neg h3] at hd
            rw [if_neg (fun h => h3 h.1)]
            exact ih d hd

/-! ## The lines of a guard -/

theorem guard_mem (h : Hdr) : h.guard ∈ guards := by cases h <;> decide
theorem guard_inj {h k : Hdr} (e : h.guard = k.guard) : h = k := by
  cases h <;> cases k <;> first | rfl | exact absurd e (by decide)
theorem guard_nonl (h : Hdr) : 10 ∉ h.guard := by cases h <;> decide
theorem file_nonl (h : Hdr) : 10 ∉ h.file := by cases h <;> decide

theorem mem_guards_map {h : Hdr} {D : List Hdr} : h.guard ∈ D.map Hdr.guard ↔ h ∈ D := by
  constructor
  · intro hm
    obtain ⟨k, hk, e⟩ := List.mem_map.mp hm
    rw [← guard_inj e]; exact hk
  · exact fun hm => List.mem_map_of_mem hm

theorem macroName_guard (h : Hdr) : macroName h.guard = h.guard := by cases h <;> decide
theorem fileName_file (h : Hdr) : fileName (h.file ++ [34]) = h.file := by cases h <;> decide

/-- `#ifndef GUARD` -/
def ifndefLine (h : Hdr) : Text := sIfndef ++ h.guard
/-- `#define GUARD` -/
def defineLine (h : Hdr) : Text := sDefine ++ h.guard
/-- `#include "file"` -/
def includeLine (h : Hdr) : Text := sInclude ++ h.file ++ [34]

theorem step_ifndef_new {inc : Text → St → Option St} {h : Hdr} {D : List Hdr} (hn : h ∉ D) (F : List Frame) (o : List Text) :
    step guards inc ⟨D.map Hdr.guard, F, 0, o⟩ (ifndefLine h) = some ⟨D.map Hdr.guard, .guard :: F, 0, o⟩ := by
  have e : (ifndefLine h).drop sIfndef.length = h.guard := by simp [ifndefLine]
  have p : sIfndef.isPrefixOf (ifndefLine h) = true := by simp [ifndefLine]
  have b : ¬ blank (ifndefLine h) = true := by cases h <;> decide
  have i : ¬ sInclude.isPrefixOf (ifndefLine h) = true := by cases h <;> decide
  unfold step
  rw [if_neg b, if_neg (by simp), if_neg i, e, macroName_guard, if_pos ⟨p, guard_mem h⟩, if_neg (fun hm => hn (mem_guards_map.mp hm))]

theorem step_ifndef_old {inc : Text → St → Option St} {h : Hdr} {D : List Hdr} (hn : h ∈ D) (F : List Frame) (o : List Text) :
    step guards inc ⟨D.map Hdr.guard, F, 0, o⟩ (ifndefLine h) = some ⟨D.map Hdr.guard, F, 1, o⟩ := by
  have e : (ifndefLine h).drop sIfndef.length = h.guard := by simp [ifndefLine]
  have p : sIfndef.isPrefixOf (ifndefLine h) = true := by simp [ifndefLine]
  have b : ¬ blank (ifndefLine h) = true := by cases h <;> decide
  have i : ¬ sInclude.isPrefixOf (ifndefLine h) = true := by cases h <;> decide
  unfold step
  rw [if_neg b, if_neg (by simp), if_neg i, e, macroName_guard, if_pos ⟨p, guard_mem h⟩, if_pos (mem_guards_map.mpr hn)]

theorem step_define {inc : Text → St → Option St} (h : Hdr) (D : List Hdr) (F : List Frame) (o : List Text) :
    step guards inc ⟨D.map Hdr.guard, F, 0, o⟩ (defineLine h) = some ⟨(h :: D).map Hdr.guard, F, 0, o⟩ := by
  have e : (defineLine h).drop sDefine.length = h.guard := by simp [defineLine]
  have p : sDefine.isPrefixOf (defineLine h) = true := by simp [defineLine]
  have b : ¬ blank (defineLine h) = true := by cases h <;> decide
  have i : ¬ sInclude.isPrefixOf (defineLine h) = true := by cases h <;> decide
  have n : ¬ sIfndef.isPrefixOf (defineLine h) = true := by cases h <;> decide
  unfold step
  rw [if_neg b, if_neg (by simp), if_neg i, if_neg (fun hx => n hx.1), e, macroName_guard, if_pos ⟨p, guard_mem h⟩]
  rfl

theorem step_include {inc : Text → St → Option St} (h : Hdr) (D : List Text) (F : List Frame) (o : List Text) :
    step guards inc ⟨D, F, 0, o⟩ (includeLine h) = inc h.file ⟨D, F, 0, o⟩ := by
  have e : (includeLine h).drop sInclude.length = h.file ++ [34] := by simp [includeLine]
  have p : sInclude.isPrefixOf (includeLine h) = true := by simp [includeLine]
  have b : ¬ blank (includeLine h) = true := by cases h <;> decide
  unfold step
  rw [if_neg b, if_neg (by simp), if_pos p, e, fileName_file]

theorem endif_facts (c : Text) : (¬ blank (sEndif ++ c) = true) ∧ (¬ sInclude.isPrefixOf (sEndif ++ c) = true) ∧ (¬ sIfndef.isPrefixOf (sEndif ++ c) = true) ∧
    (¬ sDefine.isPrefixOf (sEndif ++ c) = true) ∧ (¬ sIf.isPrefixOf (sEndif ++ c) = true) ∧ sEndif.isPrefixOf (sEndif ++ c) = true := by
  refine ⟨?_, ?_, ?_, ?_, ?_, ?_⟩ <;>
    simp [sEndif, sInclude, sIfndef, sDefine, sIf, sComment, blank]

theorem step_endif {inc : Text → St → Option St} (c : Text) (D : List Text) (F : List Frame) (o : List Text) :
    step guards inc ⟨D, .guard :: F, 0, o⟩ (sEndif ++ c) = some ⟨D, F, 0, o⟩ := by
  obtain ⟨b, i, n, d, f, e⟩ := endif_facts c
  unfold step
  rw [if_neg b, if_neg (by simp), if_neg i, if_neg (fun hx => n hx.1), if_neg (fun hx => d hx.1), if_neg f, if_pos e]

theorem step_endif_skip {inc : Text → St → Option St} (c : Text) (D : List Text) (F : List Frame) (o : List Text) :
    step guards inc ⟨D, F, 1, o⟩ (sEndif ++ c) = some ⟨D, F, 0, o⟩ := by
  obtain ⟨b, i, n, d, f, e⟩ := endif_facts c
  rw [step_skip D F 0 o _ b, if_neg f, if_pos e]

theorem step_define_skip {inc : Text → St → Option St} (h : Hdr) (D : List Text) (F : List Frame) (o : List Text) :
    step guards inc ⟨D, F, 1, o⟩ (defineLine h) = some ⟨D, F, 1, o⟩ := by
  have b : ¬ blank (defineLine h) = true := by cases h <;> decide
  have f : ¬ sIf.isPrefixOf (defineLine h) = true := by cases h <;> decide
  have e : ¬ sEndif.isPrefixOf (defineLine h) = true := by cases h <;> decide
  have l : ¬ sElse.isPrefixOf (defineLine h) = true := by cases h <;> decide
  rw [step_skip D F 0 o _ b, if_neg f, if_neg e, if_neg (fun hx => l hx.1)]

theorem step_include_skip {inc : Text → St → Option St} (h : Hdr) (D : List Text) (F : List Frame) (o : List Text) :
    step guards inc ⟨D, F, 1, o⟩ (includeLine h) = some ⟨D, F, 1, o⟩ := by
  have b : ¬ blank (includeLine h) = true := by cases h <;> decide
  have f : ¬ sIf.isPrefixOf (includeLine h) = true := by cases h <;> decide
  have e : ¬ sEndif.isPrefixOf (includeLine h) = true := by cases h <;> decide
  have l : ¬ sElse.isPrefixOf (includeLine h) = true := by cases h <;> decide
  rw [step_skip D F 0 o _ b, if_neg f, if_neg e, if_neg (fun hx => l hx.1)]

/-! ## Pieces -/

/-- All the lines of a piece are in order. -/
def Piece.Ok : Piece → Prop
  | .own ls => Own ls
  | .inc _ => True

theorem pieces_skip {inc : Text → St → Option St} (ps : List Piece) (h : ∀ p ∈ ps, p.Ok) (D : List Text) (F : List Frame) (o : List Text) :
    runLines (step guards inc) (ps.flatMap Piece.lines) ⟨D, F, 1, o⟩ = some ⟨D, F, 1, o⟩ := by
  induction ps with
  | nil => rfl
  | cons p ps ih =>
    rw [List.flatMap_cons, runLines_append]
    have e : runLines (step guards inc) p.lines ⟨D, F, 1, o⟩ = some ⟨D, F, 1, o⟩ := by
      have hp := h p (by simp)
      rcases p with ls | k
      · exact own_skip ls 0 hp.2 D F o
      · have e1 := step_include_skip (inc := inc) k D F o
        show runLines _ [includeLine k] _ = _
        rw [runLines, e1]; rfl
    rw [e]
    exact ih fun q hq => h q (by simp [hq])

/-- The lines of a guarded block. -/
def blockLines (h : Hdr) (ps : List Piece) (close : Text) : List Text :=
  [ifndefLine h, defineLine h] ++ ps.flatMap Piece.lines ++ [sEndif ++ close]

/-- A block whose guard is defined disappears. -/
theorem block_old {inc : Text → St → Option St} {h : Hdr} {D : List Hdr} (hn : h ∈ D) (ps : List Piece) (hp : ∀ p ∈ ps, p.Ok) (close : Text) (F : List Frame)
    (o : List Text) : runLines (step guards inc) (blockLines h ps close) ⟨D.map Hdr.guard, F, 0, o⟩ = some ⟨D.map Hdr.guard, F, 0, o⟩ := by
  unfold blockLines
  have e1 : runLines (step guards inc) [ifndefLine h, defineLine h] ⟨D.map Hdr.guard, F, 0, o⟩ = some ⟨D.map Hdr.guard, F, 1, o⟩ := by
    rw [runLines, step_ifndef_old hn, Option.bind_some, runLines, step_define_skip]; rfl
  have e3 : runLines (step guards inc) [sEndif ++ close] ⟨D.map Hdr.guard, F, 1, o⟩ = some ⟨D.map Hdr.guard, F, 0, o⟩ := by
    rw [runLines, step_endif_skip]; rfl
  rw [runLines_append, runLines_append, e1]
  show ((runLines _ _ _).bind _) = _
  rw [pieces_skip ps hp]
  exact e3

/-- A block whose guard is new: its pieces, with the guard defined. -/
theorem block_new {inc : Text → St → Option St} {h : Hdr} {D D' : List Hdr} (hn : h ∉ D) (ps : List Piece) (close : Text) (F : List Frame) (o o' : List Text)
    (hb : runLines (step guards inc) (ps.flatMap Piece.lines) ⟨(h :: D).map Hdr.guard, .guard :: F, 0, o⟩ = some ⟨D'.map Hdr.guard, .guard :: F, 0, o'⟩) :
    runLines (step guards inc) (blockLines h ps close) ⟨D.map Hdr.guard, F, 0, o⟩ = some ⟨D'.map Hdr.guard, F, 0, o'⟩ := by
  unfold blockLines
  have e1 : runLines (step guards inc) [ifndefLine h, defineLine h] ⟨D.map Hdr.guard, F, 0, o⟩ = some ⟨(h :: D).map Hdr.guard, .guard :: F, 0, o⟩ := by
    rw [runLines, step_ifndef_new hn, Option.bind_some, runLines, step_define]; rfl
  have e3 : runLines (step guards inc) [sEndif ++ close] ⟨D'.map Hdr.guard, .guard :: F, 0, o'⟩ = some ⟨D'.map Hdr.guard, F, 0, o'⟩ := by
    rw [runLines, step_endif]; rfl
  rw [runLines_append, runLines_append, e1]
  show ((runLines _ _ _).bind _) = _
  rw [hb]
  exact e3

/-! ## Blank lines do not matter -/

theorem runLines_visible {inc : Text → St → Option St} (ls : List Text) (st : St) :
    runLines (step guards inc) ls st = runLines (step guards inc) (visible ls) st := by
  induction ls generalizing st with
  | nil => rfl
  | cons l ls ih =>
    by_cases hb : blank l = true
    · have e1 : step guards inc st l = some st := by unfold step; rw [if_pos hb]
      have e2 : visible (l :: ls) = visible ls := by simp [visible, hb]
      rw [runLines, e1, e2]
      exact ih st
    · have e2 : visible (l :: ls) = l :: visible ls := by simp [visible, hb]
      rw [e2, runLines, runLines]
      rcases step guards inc st l with _ | st'
      · rfl
      · exact ih st'

/-! ## The order in which headers are read -/

/-- One piece: `s` holds the headers read so far and the lines handed on. -/
def readPiece (inc : Hdr → List Hdr × List Text → Option (List Hdr × List Text)) (s : List Hdr × List Text) : Piece → Option (List Hdr × List Text)
  | .own ls => some (s.1, s.2 ++ visible ls)
  | .inc h => inc h s

/-- Pieces one after the other. -/
def readPieces (inc : Hdr → List Hdr × List Text → Option (List Hdr × List Text)) : List Piece → List Hdr × List Text → Option (List Hdr × List Text)
  | [], s => some s
  | p :: ps, s => (readPiece inc s p).bind (readPieces inc ps)

/-- Reading a header: nothing if it was read before, and otherwise its pieces. -/
def readHdr (P : Hdr → List Piece) : Nat → Hdr → List Hdr × List Text → Option (List Hdr × List Text)
  | 0, _, _ => none
  | n + 1, h, s => if h ∈ s.1 then some s else readPieces (readHdr P n) (P h) (h :: s.1, s.2)

/-- What the preprocessor does with a quoted include. -/
def incAt (files : Text → Option Text) : Nat → Text → St → Option St
  | 0 => fun _ _ => none
  | n + 1 => fun name st => (files name).bind fun t => run guards files n (physLines t) st

theorem run_eq (files : Text → Option Text) (n : Nat) (ls : List Text) (st : St) : run guards files n ls st = runLines (step guards (incAt files n)) ls st := by
  cases n <;> rfl

variable {L : Layout} {lead : Hdr → List Text} {close : Hdr → Text} {files : Text → Option Text}

/-- The files are the nine headers. -/
structure Installed (L : Layout) (lead : Hdr → List Text) (close : Hdr → Text) : Prop where
  pieces : ∀ h, ∀ p ∈ L.pieces h, p.Ok
  lead : ∀ h, ∀ l ∈ lead h, 10 ∉ l ∧ blank l = true
  close : ∀ h, 10 ∉ close h

theorem pieces_nonl {p : Piece} (h : p.Ok) : ∀ l ∈ p.lines, 10 ∉ l := by
  intro l hl
  rcases p with ls | k
  · exact (plainLine_iff (List.all_eq_true.mp h.1 l hl)).1
  · rw [show l = includeLine k from List.mem_singleton.mp hl]
    have h2 : (10 : Nat) ∉ sInclude := by decide
    simp [includeLine, file_nonl, h2]

theorem headerLines_nonl (ok : Installed L lead close) (h : Hdr) : ∀ l ∈ L.headerLines lead close h, 10 ∉ l := by
  intro l hl
  unfold Layout.headerLines at hl
  simp only [List.mem_append, List.mem_cons, List.not_mem_nil, or_false, List.mem_flatMap] at hl
  have h1 : (10 : Nat) ∉ sIfndef := by decide
  have h2 : (10 : Nat) ∉ sDefine := by decide
  have h3 : (10 : Nat) ∉ sEndif := by decide
  rcases hl with ((hl | hl | hl) | ⟨p, hp, hl⟩) | hl | hl
  · exact (ok.lead h l hl).1
  · rw [hl]; simp [guard_nonl, h1]
  · rw [hl]; simp [guard_nonl, h2]
  · exact pieces_nonl (ok.pieces h p hp) l hl
  · rw [hl]; simp [ok.close h, h3]
  · rw [hl]; simp

theorem headerLines_phys (ok : Installed L lead close) (h : Hdr) : physLines (joinLines (L.headerLines lead close h)) = L.headerLines lead close h :=
  physLines_join (by simp [Layout.headerLines]) (headerLines_nonl ok h)

theorem visible_lead (ok : Installed L lead close) (h : Hdr) : visible (lead h) = [] :=
  List.filter_eq_nil_iff.mpr fun l hl => by simp [(ok.lead h l hl).2]

theorem headerLines_eq (h : Hdr) : L.headerLines lead close h = lead h ++ (blockLines h (L.pieces h) (close h) ++ [[]]) := by
  simp [Layout.headerLines, blockLines, ifndefLine, defineLine]

/-- Only the guarded block of a header counts. -/
theorem run_header (ok : Installed L lead close) {inc : Text → St → Option St} (h : Hdr) (st : St) :
    runLines (step guards inc) (L.headerLines lead close h) st = runLines (step guards inc) (blockLines h (L.pieces h) (close h)) st := by
  rw [runLines_visible, headerLines_eq, visible_append, visible_append, visible_lead ok h, List.nil_append, show visible [[]] = [] from rfl, List.append_nil,
    ← runLines_visible]

/-- The preprocessor reads the headers in the order of `readPieces`. -/
theorem sim (ok : Installed L lead close) (hf : ∀ h, files h.file = some (joinLines (L.headerLines lead close h))) (n : Nat) :
    ∀ (ps : List Piece), (∀ p ∈ ps, p.Ok) → ∀ (D D' : List Hdr) (o o' : List Text), readPieces (readHdr L.pieces n) ps (D, o) = some (D', o') →
      ∀ F, runLines (step guards (incAt files n)) (ps.flatMap Piece.lines) ⟨D.map Hdr.guard, F, 0, o⟩ = some ⟨D'.map Hdr.guard, F, 0, o'⟩ := by
  induction n with
  | zero =>
    intro ps
    induction ps with
    | nil =>
      intro _ D D' o o' h F
      simp only [readPieces, Option.some.injEq, Prod.mk.injEq] at h
      rw [← h.1, ← h.2]; rfl
    | cons p ps ih =>
      intro hp D D' o o' h F
      rcases p with ls | k
      · rw [List.flatMap_cons, runLines_append]
        have hok : Own ls := hp (.own ls) (by simp)
        have e := own_emit (inc := incAt files 0) ls hok.1 0 hok.2 (D.map Hdr.guard) F o
        simp only [List.replicate_zero, List.nil_append] at e
        show (runLines _ ls _).bind _ = _
        rw [e]
        exact ih (fun q hq => hp q (by simp [hq])) D D' _ o' h F
      · simp [readPieces, readPiece, readHdr] at h
  | succ n ihn =>
    intro ps
    induction ps with
    | nil =>
      intro _ D D' o o' h F
      simp only [readPieces, Option.some.injEq, Prod.mk.injEq] at h
      rw [← h.1, ← h.2]; rfl
    | cons p ps ih =>
      intro hp D D' o o' h F
      rcases p with ls | k
      · rw [List.flatMap_cons, runLines_append]
        have hok : Own ls := hp (.own ls) (by simp)
        have e := own_emit (inc := incAt files (n + 1)) ls hok.1 0 hok.2 (D.map Hdr.guard) F o
        simp only [List.replicate_zero, List.nil_append] at e
        show (runLines _ ls _).bind _ = _
        rw [e]
        exact ih (fun q hq => hp q (by simp [hq])) D D' _ o' h F
      · rw [List.flatMap_cons, runLines_append]
        rcases hr : readHdr L.pieces (n + 1) k (D, o) with _ | ⟨D₁, o₁⟩
        · rw [readPieces, readPiece, hr] at h; exact absurd h (by simp)
        · rw [readPieces, readPiece, hr] at h
          have e1 : runLines (step guards (incAt files (n + 1))) (Piece.inc k).lines ⟨D.map Hdr.guard, F, 0, o⟩ = some ⟨D₁.map Hdr.guard, F, 0, o₁⟩ := by
            show runLines _ [includeLine k] _ = _
            rw [runLines, step_include]
            show (((files k.file).bind _).bind _) = _
            rw [hf k]
            show ((run guards files n (physLines (joinLines (L.headerLines lead close k))) _).bind _) = _
            rw [headerLines_phys ok, run_eq, run_header ok]
            rw [readHdr] at hr
            by_cases hm : k ∈ D
            · rw [if_pos hm] at hr
              simp only [Option.some.injEq, Prod.mk.injEq] at hr
              rw [block_old hm _ (ok.pieces k), ← hr.1, ← hr.2]; rfl
            · rw [if_neg hm] at hr
              have := ihn (L.pieces k) (ok.pieces k) (k :: D) D₁ o o₁ hr (.guard :: F)
              rw [block_new hm (L.pieces k) (close k) F o o₁ this]; rfl
          rw [e1]
          exact ih (fun q hq => hp q (by simp [hq])) D₁ D' o₁ o' h F

end FastFloat.Script
