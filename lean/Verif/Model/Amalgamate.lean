import Verif.Spec.Preprocess
/-
# script/amalgamate.py, which makes the single header

Texts are lists of code points, as Python's `str`.  The files are read with `encoding="utf8"` and universal newlines, so a line ends at a line feed; what is modelled starts
from the decoded text.  Not modelled: the command line (the license choice is an argument) and writing the result.
-/
set_option autoImplicit false
namespace FastFloat.Script
open PrepSpec (Text)

/-- The nine headers (amalgamate.py:34-44). -/
inductive Hdr | cfd | common | api | ascii | table | binary | bigint | digits | parse
deriving DecidableEq, Repr

/-- `--license` (amalgamate.py:57-62). -/
inductive License | dual | triple | mit | apache | boost
deriving DecidableEq, Repr

/-- The files the script reads. -/
structure Sources where
  authors : Text
  contributors : Text
  licenseMit : Text
  licenseApache : Text
  licenseBoost : Text
  header : Hdr → Text

/-- `for line in f` / `f.readlines()`: the lines, each with its newline (amalgamate.py:8, 20, 47). -/
def pyLines : Text → List Text
  | [] => []
  | c :: t => if c = 10 then [10] :: pyLines t else
    match pyLines t with
    | [] => [[c]]
    | l :: ls => (c :: l) :: ls

/-- White space of `str.strip`. -/
def pySpace (c : Nat) : Bool :=
  (9 ≤ c && c ≤ 13) || (28 ≤ c && c ≤ 32) || c == 0x85 || c == 0xa0 || c == 0x1680 || (0x2000 ≤ c && c ≤ 0x200a) || c == 0x2028 || c == 0x2029 || c == 0x202f ||
    c == 0x205f || c == 0x3000

/-- `line.strip()` (amalgamate.py:28). -/
def pyStrip (l : Text) : Text := ((l.dropWhile pySpace).reverse.dropWhile pySpace).reverse

/-- `"// fast_float by "` (amalgamate.py:10). -/
def byAuthor : Text := [47, 47, 32, 102, 97, 115, 116, 95, 102, 108, 111, 97, 116, 32, 98, 121, 32]
/-- `"// with contributions from "` (amalgamate.py:12). -/
def byContributor : Text := [47, 47, 32, 119, 105, 116, 104, 32, 99, 111, 110, 116, 114, 105, 98, 117, 116, 105, 111, 110, 115, 32, 102, 114, 111, 109, 32]
/-- `"//\n//\n"` (amalgamate.py:13). -/
def twoBlankComments : Text := [47, 47, 10, 47, 47, 10]
/-- `"//\n"` (amalgamate.py:88, 92, 96). -/
def blankComment : Text := [47, 47, 10]
/-- The line put in front of the Apache text (amalgamate.py:23). -/
def apacheLine : Text := [32, 32, 32, 67, 111, 112, 121, 114, 105, 103, 104, 116, 32, 50, 48, 50, 49, 32, 84, 104, 101, 32, 102, 97, 115, 116, 95, 102, 108, 111, 97, 116, 32, 97, 117, 116, 104, 111, 114, 115, 10]
/-- amalgamate.py:72-75, joined. -/
def tripleText : Text := [47, 47, 32, 76, 105, 99, 101, 110, 115, 101, 100, 32, 117, 110, 100, 101, 114, 32, 116, 104, 101, 32, 65, 112, 97, 99, 104, 101, 32, 76, 105, 99, 101, 110, 115, 101, 44, 32, 86, 101, 114, 115, 105, 111, 110, 32, 50, 46, 48, 44, 32, 111, 114, 32, 116, 104, 101, 10, 47, 47, 32, 77, 73, 84, 32, 76, 105, 99, 101, 110, 115, 101, 32, 111, 114, 32, 116, 104, 101, 32, 66, 111, 111, 115, 116, 32, 76, 105, 99, 101, 110, 115, 101, 46, 32, 84, 104, 105, 115, 32, 102, 105, 108, 101, 32, 109, 97, 121, 32, 110, 111, 116, 32, 98, 101, 32, 99, 111, 112, 105, 101, 100, 44, 10, 47, 47, 32, 109, 111, 100, 105, 102, 105, 101, 100, 44, 32, 111, 114, 32, 100, 105, 115, 116, 114, 105, 98, 117, 116, 101, 100, 32, 101, 120, 99, 101, 112, 116, 32, 97, 99, 99, 111, 114, 100, 105, 110, 103, 32, 116, 111, 32, 116, 104, 111, 115, 101, 32, 116, 101, 114, 109, 115, 46, 10, 47, 47, 10]
/-- amalgamate.py:79-82, joined. -/
def dualText : Text := [47, 47, 32, 76, 105, 99, 101, 110, 115, 101, 100, 32, 117, 110, 100, 101, 114, 32, 116, 104, 101, 32, 65, 112, 97, 99, 104, 101, 32, 76, 105, 99, 101, 110, 115, 101, 44, 32, 86, 101, 114, 115, 105, 111, 110, 32, 50, 46, 48, 44, 32, 111, 114, 32, 116, 104, 101, 10, 47, 47, 32, 77, 73, 84, 32, 76, 105, 99, 101, 110, 115, 101, 32, 97, 116, 32, 121, 111, 117, 114, 32, 111, 112, 116, 105, 111, 110, 46, 32, 84, 104, 105, 115, 32, 102, 105, 108, 101, 32, 109, 97, 121, 32, 110, 111, 116, 32, 98, 101, 32, 99, 111, 112, 105, 101, 100, 44, 10, 47, 47, 32, 109, 111, 100, 105, 102, 105, 101, 100, 44, 32, 111, 114, 32, 100, 105, 115, 116, 114, 105, 98, 117, 116, 101, 100, 32, 101, 120, 99, 101, 112, 116, 32, 97, 99, 99, 111, 114, 100, 105, 110, 103, 32, 116, 111, 32, 116, 104, 111, 115, 101, 32, 116, 101, 114, 109, 115, 46, 10, 47, 47, 10]
/-- amalgamate.py:86. -/
def mitTitle : Text := [47, 47, 32, 77, 73, 84, 32, 76, 105, 99, 101, 110, 115, 101, 32, 78, 111, 116, 105, 99, 101, 10, 47, 47, 10]
/-- amalgamate.py:90. -/
def apacheTitle : Text := [47, 47, 32, 65, 112, 97, 99, 104, 101, 32, 76, 105, 99, 101, 110, 115, 101, 32, 40, 86, 101, 114, 115, 105, 111, 110, 32, 50, 46, 48, 41, 32, 78, 111, 116, 105, 99, 101, 10, 47, 47, 10]
/-- amalgamate.py:94. -/
def boostTitle : Text := [47, 47, 32, 66, 79, 79, 83, 84, 32, 76, 105, 99, 101, 110, 115, 101, 32, 78, 111, 116, 105, 99, 101, 10, 47, 47, 10]

/-- `processed_files["AUTHORS"]`, `processed_files["CONTRIBUTORS"]` (amalgamate.py:5-13). -/
def people (pre : Text) (file : Text) : Text := ((pyLines file).map fun line => pre ++ line).flatten ++ twoBlankComments

/-- One line of a license (amalgamate.py:26-30). -/
def licenseLine (line : Text) : Text :=
  [47, 47] ++ (if (pyStrip line).length ≠ 0 then [32, 32, 32, 32] ++ pyStrip line else pyStrip line) ++ [10]

/-- `processed_files["LICENSE-..."]` (amalgamate.py:16-31); `apache` selects the part of the text (amalgamate.py:22-23: `lines[179:-1]`). -/
def licenseText (apache : Bool) (file : Text) : Text :=
  let lines := pyLines file
  let lines := if apache then apacheLine :: (lines.drop 179).dropLast else lines
  (lines.map licenseLine).flatten

/-- `processed_files[filename]` for a header (amalgamate.py:45-51). -/
def codeText (file : Text) : Text := [10] ++ ((pyLines file).filter fun line => !PrepSpec.sInclude.isPrefixOf line).flatten

/-- `license_content` (amalgamate.py:68-98), joined. -/
def licenseContent (s : Sources) (a : License) : Text :=
  (if a = .triple then tripleText else []) ++ (if a = .dual then dualText else []) ++
  (if a = .dual ∨ a = .triple ∨ a = .mit then mitTitle ++ licenseText false s.licenseMit ++ blankComment else []) ++
  (if a = .dual ∨ a = .triple ∨ a = .apache then apacheTitle ++ licenseText true s.licenseApache ++ blankComment else []) ++
  (if a = .triple ∨ a = .boost then boostTitle ++ licenseText false s.licenseBoost ++ blankComment else [])

/-- The order of the headers (amalgamate.py:106-114). -/
def amalgamOrder : List Hdr := [.cfd, .common, .api, .ascii, .table, .binary, .bigint, .digits, .parse]

/-- The text written (amalgamate.py:101-116). -/
def amalgamate (s : Sources) (a : License) : Text :=
  people byAuthor s.authors ++ people byContributor s.contributors ++ licenseContent s a ++ (amalgamOrder.map fun h => codeText (s.header h)).flatten

/-- The name of the file of a header. -/
def Hdr.file : Hdr → Text
  | .cfd => [99, 111, 110, 115, 116, 101, 120, 112, 114, 95, 102, 101, 97, 116, 117, 114, 101, 95, 100, 101, 116, 101, 99, 116, 46, 104]  -- constexpr_feature_detect.h
  | .common => [102, 108, 111, 97, 116, 95, 99, 111, 109, 109, 111, 110, 46, 104]  -- float_common.h
  | .api => [102, 97, 115, 116, 95, 102, 108, 111, 97, 116, 46, 104]  -- fast_float.h
  | .ascii => [97, 115, 99, 105, 105, 95, 110, 117, 109, 98, 101, 114, 46, 104]  -- ascii_number.h
  | .table => [102, 97, 115, 116, 95, 116, 97, 98, 108, 101, 46, 104]  -- fast_table.h
  | .binary => [100, 101, 99, 105, 109, 97, 108, 95, 116, 111, 95, 98, 105, 110, 97, 114, 121, 46, 104]  -- decimal_to_binary.h
  | .bigint => [98, 105, 103, 105, 110, 116, 46, 104]  -- bigint.h
  | .digits => [100, 105, 103, 105, 116, 95, 99, 111, 109, 112, 97, 114, 105, 115, 111, 110, 46, 104]  -- digit_comparison.h
  | .parse => [112, 97, 114, 115, 101, 95, 110, 117, 109, 98, 101, 114, 46, 104]  -- parse_number.h

/-- The include guard of a header (lines 1-2 of each file; fast_float.h:2-3). -/
def Hdr.guard : Hdr → Text
  | .cfd => [70, 65, 83, 84, 70, 76, 79, 65, 84, 95, 67, 79, 78, 83, 84, 69, 88, 80, 82, 95, 70, 69, 65, 84, 85, 82, 69, 95, 68, 69, 84, 69, 67, 84, 95, 72]  -- FASTFLOAT_CONSTEXPR_FEATURE_DETECT_H
  | .common => [70, 65, 83, 84, 70, 76, 79, 65, 84, 95, 70, 76, 79, 65, 84, 95, 67, 79, 77, 77, 79, 78, 95, 72]  -- FASTFLOAT_FLOAT_COMMON_H
  | .api => [70, 65, 83, 84, 70, 76, 79, 65, 84, 95, 70, 65, 83, 84, 95, 70, 76, 79, 65, 84, 95, 72]  -- FASTFLOAT_FAST_FLOAT_H
  | .ascii => [70, 65, 83, 84, 70, 76, 79, 65, 84, 95, 65, 83, 67, 73, 73, 95, 78, 85, 77, 66, 69, 82, 95, 72]  -- FASTFLOAT_ASCII_NUMBER_H
  | .table => [70, 65, 83, 84, 70, 76, 79, 65, 84, 95, 70, 65, 83, 84, 95, 84, 65, 66, 76, 69, 95, 72]  -- FASTFLOAT_FAST_TABLE_H
  | .binary => [70, 65, 83, 84, 70, 76, 79, 65, 84, 95, 68, 69, 67, 73, 77, 65, 76, 95, 84, 79, 95, 66, 73, 78, 65, 82, 89, 95, 72]  -- FASTFLOAT_DECIMAL_TO_BINARY_H
  | .bigint => [70, 65, 83, 84, 70, 76, 79, 65, 84, 95, 66, 73, 71, 73, 78, 84, 95, 72]  -- FASTFLOAT_BIGINT_H
  | .digits => [70, 65, 83, 84, 70, 76, 79, 65, 84, 95, 68, 73, 71, 73, 84, 95, 67, 79, 77, 80, 65, 82, 73, 83, 79, 78, 95, 72]  -- FASTFLOAT_DIGIT_COMPARISON_H
  | .parse => [70, 65, 83, 84, 70, 76, 79, 65, 84, 95, 80, 65, 82, 83, 69, 95, 78, 85, 77, 66, 69, 82, 95, 72]  -- FASTFLOAT_PARSE_NUMBER_H

/-- A piece of a header: lines of its own, or a line `#include "..."` of another header. -/
inductive Piece where
  | own (lines : List Text)
  | inc (h : Hdr)
deriving DecidableEq

/-- The contents of the nine headers, cut at their quoted includes.  What the pieces contain is left open. -/
structure Layout where
  /-- constexpr_feature_detect.h:3-52. -/
  cfd : List Text
  /-- float_common.h:3-16, the system includes. -/
  commonTop : List Text
  /-- float_common.h:18-1457. -/
  common : List Text
  /-- fast_float.h:6-89. -/
  api : List Text
  /-- ascii_number.h:3-10. -/
  asciiTop : List Text
  /-- ascii_number.h:12-822. -/
  ascii : List Text
  /-- fast_table.h:3-707. -/
  table : List Text
  /-- decimal_to_binary.h:6-211. -/
  binary : List Text
  /-- bigint.h:3-8. -/
  bigintTop : List Text
  /-- bigint.h:10-637. -/
  bigint : List Text
  /-- digit_comparison.h:3-7, the system includes. -/
  digitsTop : List Text
  /-- digit_comparison.h:11-453. -/
  digits : List Text
  /-- parse_number.h:8-549. -/
  parse : List Text

/-- What is between the guard and its `#endif` in each header: the quoted includes are where the repository has them (constexpr_feature_detect.h; float_common.h:17;
fast_float.h:5, 90; ascii_number.h:11; fast_table.h; decimal_to_binary.h:4-5; bigint.h:9; digit_comparison.h:8-10; parse_number.h:4-7). -/
def Layout.pieces (L : Layout) : Hdr → List Piece
  | .cfd => [.own L.cfd]
  | .common => [.own L.commonTop, .inc .cfd, .own L.common]
  | .api => [.inc .common, .own L.api, .inc .parse]
  | .ascii => [.own L.asciiTop, .inc .common, .own L.ascii]
  | .table => [.own L.table]
  | .binary => [.inc .common, .inc .table, .own L.binary]
  | .bigint => [.own L.bigintTop, .inc .common, .own L.bigint]
  | .digits => [.own L.digitsTop, .inc .common, .inc .bigint, .inc .ascii, .own L.digits]
  | .parse => [.inc .ascii, .inc .binary, .inc .digits, .inc .common, .own L.parse]

/-- The lines of a piece. -/
def Piece.lines : Piece → List Text
  | .own ls => ls
  | .inc h => [PrepSpec.sInclude ++ h.file ++ [34]]

/-- Lines joined by newlines. -/
def joinLines : List Text → Text
  | [] => []
  | [l] => l
  | l :: ls => l ++ 10 :: joinLines ls

/-- All the lines of a header: `lead` (a blank line in fast_float.h), the guard, the pieces and the `#endif` with what follows it on the line, and the empty line after the last
newline. -/
def Layout.headerLines (L : Layout) (lead : Hdr → List Text) (close : Hdr → Text) (h : Hdr) : List Text :=
  lead h ++ [PrepSpec.sIfndef ++ h.guard, PrepSpec.sDefine ++ h.guard] ++ (L.pieces h).flatMap Piece.lines ++ [PrepSpec.sEndif ++ close h, []]

end FastFloat.Script
