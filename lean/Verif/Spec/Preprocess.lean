import Mathlib.Data.List.Basic
/-
# The part of the C++ preprocessor that include guards and quoted includes need (model-free)

Texts are lists of code points.  The preprocessor reads physical lines.  It knows

* `#include "name"`: the lines of the file of that name take the place of the line;
* `#ifndef NAME` and `#define NAME` for the names it is told to track (the include guards); an `#ifndef` of a name already defined skips everything up to its `#endif`;
* `#if...` and `#endif` of all other conditionals, which it only counts and hands on, together with everything between them: they are for the rest of the
  compiler to decide, and so are `#include <...>` lines and all code;
* blank lines and `//` lines, which it drops.

Its result is the sequence of lines the rest of the compiler sees.  An `#else` or `#elif` of a guard, an `#endif` too many or an unknown file is an error (`none`).
-/
set_option autoImplicit false
namespace PrepSpec

/-- A text or a line: code points. -/
abbrev Text := List Nat

/-- The physical lines of a text: what is between the newlines. -/
def physLines : Text → List Text
  | [] => [[]]
  | c :: t => if c = 10 then [] :: physLines t else
    match physLines t with
    | [] => [[c]]
    | l :: ls => (c :: l) :: ls

/-- `#include "` -/
def sInclude : Text := [35, 105, 110, 99, 108, 117, 100, 101, 32, 34]
/-- `#ifndef ` -/
def sIfndef : Text := [35, 105, 102, 110, 100, 101, 102, 32]
/-- `#define ` -/
def sDefine : Text := [35, 100, 101, 102, 105, 110, 101, 32]
/-- `#if`, the beginning of `#if`, `#ifdef` and `#ifndef`. -/
def sIf : Text := [35, 105, 102]
/-- `#el`, the beginning of `#else` and `#elif`. -/
def sElse : Text := [35, 101, 108]
/-- `#endif` -/
def sEndif : Text := [35, 101, 110, 100, 105, 102]
/-- `//` -/
def sComment : Text := [47, 47]

/-- A blank line or a comment line. -/
def blank (l : Text) : Bool := l.isEmpty || sComment.isPrefixOf l

/-- The lines of a block the compiler sees. -/
def visible (ls : List Text) : List Text := ls.filter fun l => !blank l

/-- The name behind `#ifndef ` or `#define `: up to a space or the end of the line. -/
def macroName (rest : Text) : Text := rest.takeWhile (· ≠ 32)

/-- The name behind `#include "`: up to the closing quote. -/
def fileName (rest : Text) : Text := rest.takeWhile (· ≠ 34)

/-- What an open conditional is: one of an include guard, or another one. -/
inductive Frame | guard | cond
deriving DecidableEq

/-- The state of the preprocessor. -/
structure St where
  /-- The tracked names defined so far. -/
  defined : List Text
  /-- The open conditionals, innermost first. -/
  frames : List Frame
  /-- `0`, or the number of conditionals still open in the part that is being skipped. -/
  skip : Nat
  /-- The lines handed on. -/
  out : List Text
deriving DecidableEq

/-- One line; `inc` reads a file. -/
def step (tracked : List Text) (inc : Text → St → Option St) (st : St) (l : Text) : Option St :=
  if blank l then some st
  else if st.skip ≠ 0 then
    if sIf.isPrefixOf l then some { st with skip := st.skip + 1 }
    else if sEndif.isPrefixOf l then some { st with skip := st.skip - 1 }
    else if sElse.isPrefixOf l ∧ st.skip = 1 then none
    else some st
  else if sInclude.isPrefixOf l then inc (fileName (l.drop sInclude.length)) st
  else if sIfndef.isPrefixOf l ∧ macroName (l.drop sIfndef.length) ∈ tracked then
    if macroName (l.drop sIfndef.length) ∈ st.defined then some { st with skip := 1 }
    else some { st with frames := .guard :: st.frames }
  else if sDefine.isPrefixOf l ∧ macroName (l.drop sDefine.length) ∈ tracked then
    some { st with defined := macroName (l.drop sDefine.length) :: st.defined }
  else if sIf.isPrefixOf l then some { st with frames := .cond :: st.frames, out := st.out ++ [l] }
  else if sEndif.isPrefixOf l then
    match st.frames with
    | [] => none
    | .guard :: fs => some { st with frames := fs }
    | .cond :: fs => some { st with frames := fs, out := st.out ++ [l] }
  else if sElse.isPrefixOf l ∧ st.frames.head? ≠ some .cond then none
  else some { st with out := st.out ++ [l] }

/-- The lines one after the other. -/
def runLines (f : St → Text → Option St) : List Text → St → Option St
  | [], st => some st
  | l :: ls, st => (f st l).bind (runLines f ls)

/-- Preprocessing a list of lines; includes may nest `depth` deep. -/
def run (tracked : List Text) (files : Text → Option Text) : Nat → List Text → St → Option St
  | 0, ls, st => runLines (step tracked fun _ _ => none) ls st
  | depth + 1, ls, st =>
    runLines (step tracked fun name st => (files name).bind fun t => run tracked files depth (physLines t) st) ls st

/-- Preprocessing a whole translation unit that starts with nothing defined: the lines the compiler sees, if all conditionals are closed. -/
def preprocess (tracked : List Text) (files : Text → Option Text) (depth : Nat) (unit : Text) : Option (List Text) :=
  (run tracked files depth (physLines unit) ⟨[], [], 0, []⟩).bind fun st => if st.frames = [] ∧ st.skip = 0 then some st.out else none

end PrepSpec
