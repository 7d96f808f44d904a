import Verif.Spec.Preprocess
/-
# The directives of the nine headers of the repository

The lines of include/fast_float/*.h that begin with `#`, as code points, cut at the quoted includes; generated from the repository (tools/gen_directives.py).  Whether the pieces of a
header are in order depends on these lines only.
-/
set_option autoImplicit false
namespace FastFloat.Script
open PrepSpec

/-- constexpr_feature_detect.h:3-52. -/
def cfdDirectives : List Text := [
  [35, 105, 102, 100, 101, 102, 32, 95, 95, 104, 97, 115, 95, 105, 110, 99, 108, 117, 100, 101],
  [35, 105, 102, 32, 95, 95, 104, 97, 115, 95, 105, 110, 99, 108, 117, 100, 101, 40, 60, 118, 101, 114, 115, 105, 111, 110, 62, 41],
  [35, 105, 110, 99, 108, 117, 100, 101, 32, 60, 118, 101, 114, 115, 105, 111, 110, 62],
  [35, 101, 110, 100, 105, 102],
  [35, 101, 110, 100, 105, 102],
  [35, 105, 102, 32, 100, 101, 102, 105, 110, 101, 100, 40, 95, 95, 99, 112, 112, 95, 99, 111, 110, 115, 116, 101, 120, 112, 114, 41, 32, 38, 38, 32, 95, 95, 99, 112, 112, 95, 99, 111, 110, 115, 116, 101, 120, 112, 114, 32, 62, 61, 32, 50, 48, 49, 51, 48, 52],
  [35, 100, 101, 102, 105, 110, 101, 32, 70, 65, 83, 84, 70, 76, 79, 65, 84, 95, 67, 79, 78, 83, 84, 69, 88, 80, 82, 49, 52, 32, 99, 111, 110, 115, 116, 101, 120, 112, 114],
  [35, 101, 108, 115, 101],
  [35, 100, 101, 102, 105, 110, 101, 32, 70, 65, 83, 84, 70, 76, 79, 65, 84, 95, 67, 79, 78, 83, 84, 69, 88, 80, 82, 49, 52],
  [35, 101, 110, 100, 105, 102],
  [35, 105, 102, 32, 100, 101, 102, 105, 110, 101, 100, 40, 95, 95, 99, 112, 112, 95, 108, 105, 98, 95, 98, 105, 116, 95, 99, 97, 115, 116, 41, 32, 38, 38, 32, 95, 95, 99, 112, 112, 95, 108, 105, 98, 95, 98, 105, 116, 95, 99, 97, 115, 116, 32, 62, 61, 32, 50, 48, 49, 56, 48, 54, 76],
  [35, 100, 101, 102, 105, 110, 101, 32, 70, 65, 83, 84, 70, 76, 79, 65, 84, 95, 72, 65, 83, 95, 66, 73, 84, 95, 67, 65, 83, 84, 32, 49],
  [35, 101, 108, 115, 101],
  [35, 100, 101, 102, 105, 110, 101, 32, 70, 65, 83, 84, 70, 76, 79, 65, 84, 95, 72, 65, 83, 95, 66, 73, 84, 95, 67, 65, 83, 84, 32, 48],
  [35, 101, 110, 100, 105, 102],
  [35, 105, 102, 32, 100, 101, 102, 105, 110, 101, 100, 40, 95, 95, 99, 112, 112, 95, 108, 105, 98, 95, 105, 115, 95, 99, 111, 110, 115, 116, 97, 110, 116, 95, 101, 118, 97, 108, 117, 97, 116, 101, 100, 41, 32, 38, 38, 32, 32, 32, 32, 32, 32, 32, 32, 32, 32, 32, 32, 32, 32, 32, 32, 32, 32, 32, 32, 32, 32, 32, 32, 32, 32, 32, 32, 32, 32, 32, 32, 92],
  [35, 100, 101, 102, 105, 110, 101, 32, 70, 65, 83, 84, 70, 76, 79, 65, 84, 95, 72, 65, 83, 95, 73, 83, 95, 67, 79, 78, 83, 84, 65, 78, 84, 95, 69, 86, 65, 76, 85, 65, 84, 69, 68, 32, 49],
  [35, 101, 108, 115, 101],
  [35, 100, 101, 102, 105, 110, 101, 32, 70, 65, 83, 84, 70, 76, 79, 65, 84, 95, 72, 65, 83, 95, 73, 83, 95, 67, 79, 78, 83, 84, 65, 78, 84, 95, 69, 86, 65, 76, 85, 65, 84, 69, 68, 32, 48],
  [35, 101, 110, 100, 105, 102],
  [35, 105, 102, 32, 100, 101, 102, 105, 110, 101, 100, 40, 95, 95, 99, 112, 112, 95, 105, 102, 95, 99, 111, 110, 115, 116, 101, 120, 112, 114, 41, 32, 38, 38, 32, 95, 95, 99, 112, 112, 95, 105, 102, 95, 99, 111, 110, 115, 116, 101, 120, 112, 114, 32, 62, 61, 32, 50, 48, 49, 54, 48, 54, 76],
  [35, 100, 101, 102, 105, 110, 101, 32, 70, 65, 83, 84, 70, 76, 79, 65, 84, 95, 73, 70, 95, 67, 79, 78, 83, 84, 69, 88, 80, 82, 49, 55, 40, 120, 41, 32, 105, 102, 32, 99, 111, 110, 115, 116, 101, 120, 112, 114, 32, 40, 120, 41],
  [35, 101, 108, 115, 101],
  [35, 100, 101, 102, 105, 110, 101, 32, 70, 65, 83, 84, 70, 76, 79, 65, 84, 95, 73, 70, 95, 67, 79, 78, 83, 84, 69, 88, 80, 82, 49, 55, 40, 120, 41, 32, 105, 102, 32, 40, 120, 41],
  [35, 101, 110, 100, 105, 102],
  [35, 105, 102, 32, 70, 65, 83, 84, 70, 76, 79, 65, 84, 95, 72, 65, 83, 95, 73, 83, 95, 67, 79, 78, 83, 84, 65, 78, 84, 95, 69, 86, 65, 76, 85, 65, 84, 69, 68, 32, 38, 38, 32, 70, 65, 83, 84, 70, 76, 79, 65, 84, 95, 72, 65, 83, 95, 66, 73, 84, 95, 67, 65, 83, 84, 32, 38, 38, 32, 32, 32, 32, 32, 32, 32, 32, 32, 32, 32, 92],
  [35, 100, 101, 102, 105, 110, 101, 32, 70, 65, 83, 84, 70, 76, 79, 65, 84, 95, 67, 79, 78, 83, 84, 69, 88, 80, 82, 50, 48, 32, 99, 111, 110, 115, 116, 101, 120, 112, 114],
  [35, 100, 101, 102, 105, 110, 101, 32, 70, 65, 83, 84, 70, 76, 79, 65, 84, 95, 73, 83, 95, 67, 79, 78, 83, 84, 69, 88, 80, 82, 32, 49],
  [35, 101, 108, 115, 101],
  [35, 100, 101, 102, 105, 110, 101, 32, 70, 65, 83, 84, 70, 76, 79, 65, 84, 95, 67, 79, 78, 83, 84, 69, 88, 80, 82, 50, 48],
  [35, 100, 101, 102, 105, 110, 101, 32, 70, 65, 83, 84, 70, 76, 79, 65, 84, 95, 73, 83, 95, 67, 79, 78, 83, 84, 69, 88, 80, 82, 32, 48],
  [35, 101, 110, 100, 105, 102],
  [35, 105, 102, 32, 95, 95, 99, 112, 108, 117, 115, 112, 108, 117, 115, 32, 62, 61, 32, 50, 48, 49, 55, 48, 51, 76, 32, 124, 124, 32, 40, 100, 101, 102, 105, 110, 101, 100, 40, 95, 77, 83, 86, 67, 95, 76, 65, 78, 71, 41, 32, 38, 38, 32, 95, 77, 83, 86, 67, 95, 76, 65, 78, 71, 32, 62, 61, 32, 50, 48, 49, 55, 48, 51, 76, 41],
  [35, 100, 101, 102, 105, 110, 101, 32, 70, 65, 83, 84, 70, 76, 79, 65, 84, 95, 68, 69, 84, 65, 73, 76, 95, 77, 85, 83, 84, 95, 68, 69, 70, 73, 78, 69, 95, 67, 79, 78, 83, 84, 69, 88, 80, 82, 95, 86, 65, 82, 73, 65, 66, 76, 69, 32, 48],
  [35, 101, 108, 115, 101],
  [35, 100, 101, 102, 105, 110, 101, 32, 70, 65, 83, 84, 70, 76, 79, 65, 84, 95, 68, 69, 84, 65, 73, 76, 95, 77, 85, 83, 84, 95, 68, 69, 70, 73, 78, 69, 95, 67, 79, 78, 83, 84, 69, 88, 80, 82, 95, 86, 65, 82, 73, 65, 66, 76, 69, 32, 49],
  [35, 101, 110, 100, 105, 102]]

/-- float_common.h:3-16. -/
def commonTopDirectives : List Text := [
  [35, 105, 110, 99, 108, 117, 100, 101, 32, 60, 99, 102, 108, 111, 97, 116, 62],
  [35, 105, 110, 99, 108, 117, 100, 101, 32, 60, 99, 115, 116, 100, 100, 101, 102, 62],
  [35, 105, 110, 99, 108, 117, 100, 101, 32, 60, 99, 115, 116, 100, 105, 110, 116, 62],
  [35, 105, 110, 99, 108, 117, 100, 101, 32, 60, 99, 97, 115, 115, 101, 114, 116, 62],
  [35, 105, 110, 99, 108, 117, 100, 101, 32, 60, 99, 115, 116, 114, 105, 110, 103, 62],
  [35, 105, 110, 99, 108, 117, 100, 101, 32, 60, 108, 105, 109, 105, 116, 115, 62],
  [35, 105, 110, 99, 108, 117, 100, 101, 32, 60, 116, 121, 112, 101, 95, 116, 114, 97, 105, 116, 115, 62],
  [35, 105, 110, 99, 108, 117, 100, 101, 32, 60, 115, 121, 115, 116, 101, 109, 95, 101, 114, 114, 111, 114, 62],
  [35, 105, 102, 100, 101, 102, 32, 95, 95, 104, 97, 115, 95, 105, 110, 99, 108, 117, 100, 101],
  [35, 105, 102, 32, 95, 95, 104, 97, 115, 95, 105, 110, 99, 108, 117, 100, 101, 40, 60, 115, 116, 100, 102, 108, 111, 97, 116, 62, 41, 32, 38, 38, 32, 40, 95, 95, 99, 112, 108, 117, 115, 112, 108, 117, 115, 32, 62, 32, 50, 48, 50, 48, 48, 50, 76, 32, 124, 124, 32, 40, 100, 101, 102, 105, 110, 101, 100, 40, 95, 77, 83, 86, 67, 95, 76, 65, 78, 71, 41, 32, 38, 38, 32, 40, 95, 77, 83, 86, 67, 95, 76, 65, 78, 71, 32, 62, 32, 50, 48, 50, 48, 48, 50, 76, 41, 41, 41],
  [35, 105, 110, 99, 108, 117, 100, 101, 32, 60, 115, 116, 100, 102, 108, 111, 97, 116, 62],
  [35, 101, 110, 100, 105, 102],
  [35, 101, 110, 100, 105, 102]]

/-- float_common.h:18-1457. -/
def commonDirectives : List Text := [
  [35, 100, 101, 102, 105, 110, 101, 32, 70, 65, 83, 84, 70, 76, 79, 65, 84, 95, 86, 69, 82, 83, 73, 79, 78, 95, 77, 65, 74, 79, 82, 32, 56],
  [35, 100, 101, 102, 105, 110, 101, 32, 70, 65, 83, 84, 70, 76, 79, 65, 84, 95, 86, 69, 82, 83, 73, 79, 78, 95, 77, 73, 78, 79, 82, 32, 50],
  [35, 100, 101, 102, 105, 110, 101, 32, 70, 65, 83, 84, 70, 76, 79, 65, 84, 95, 86, 69, 82, 83, 73, 79, 78, 95, 80, 65, 84, 67, 72, 32, 57],
  [35, 100, 101, 102, 105, 110, 101, 32, 70, 65, 83, 84, 70, 76, 79, 65, 84, 95, 83, 84, 82, 73, 78, 71, 73, 90, 69, 95, 73, 77, 80, 76, 40, 120, 41, 32, 35, 120],
  [35, 100, 101, 102, 105, 110, 101, 32, 70, 65, 83, 84, 70, 76, 79, 65, 84, 95, 83, 84, 82, 73, 78, 71, 73, 90, 69, 40, 120, 41, 32, 70, 65, 83, 84, 70, 76, 79, 65, 84, 95, 83, 84, 82, 73, 78, 71, 73, 90, 69, 95, 73, 77, 80, 76, 40, 120, 41],
  [35, 100, 101, 102, 105, 110, 101, 32, 70, 65, 83, 84, 70, 76, 79, 65, 84, 95, 86, 69, 82, 83, 73, 79, 78, 95, 83, 84, 82, 32, 32, 32, 32, 32, 32, 32, 32, 32, 32, 32, 32, 32, 32, 32, 32, 32, 32, 32, 32, 32, 32, 32, 32, 32, 32, 32, 32, 32, 32, 32, 32, 32, 32, 32, 32, 32, 32, 32, 32, 32, 32, 32, 32, 32, 32, 32, 32, 32, 32, 92],
  [35, 100, 101, 102, 105, 110, 101, 32, 70, 65, 83, 84, 70, 76, 79, 65, 84, 95, 86, 69, 82, 83, 73, 79, 78, 32, 32, 32, 32, 32, 32, 32, 32, 32, 32, 32, 32, 32, 32, 32, 32, 32, 32, 32, 32, 32, 32, 32, 32, 32, 32, 32, 32, 32, 32, 32, 32, 32, 32, 32, 32, 32, 32, 32, 32, 32, 32, 32, 32, 32, 32, 32, 32, 32, 32, 32, 32, 32, 32, 92],
  [35, 105, 102, 32, 70, 65, 83, 84, 70, 76, 79, 65, 84, 95, 72, 65, 83, 95, 66, 73, 84, 95, 67, 65, 83, 84],
  [35, 105, 110, 99, 108, 117, 100, 101, 32, 60, 98, 105, 116, 62],
  [35, 101, 110, 100, 105, 102],
  [35, 105, 102, 32, 40, 100, 101, 102, 105, 110, 101, 100, 40, 95, 95, 120, 56, 54, 95, 54, 52, 41, 32, 124, 124, 32, 100, 101, 102, 105, 110, 101, 100, 40, 95, 95, 120, 56, 54, 95, 54, 52, 95, 95, 41, 32, 124, 124, 32, 100, 101, 102, 105, 110, 101, 100, 40, 95, 77, 95, 88, 54, 52, 41, 32, 124, 124, 32, 32, 32, 32, 32, 32, 32, 32, 32, 32, 32, 32, 92],
  [35, 100, 101, 102, 105, 110, 101, 32, 70, 65, 83, 84, 70, 76, 79, 65, 84, 95, 54, 52, 66, 73, 84, 32, 49],
  [35, 101, 108, 105, 102, 32, 40, 100, 101, 102, 105, 110, 101, 100, 40, 95, 95, 105, 51, 56, 54, 41, 32, 124, 124, 32, 100, 101, 102, 105, 110, 101, 100, 40, 95, 95, 105, 51, 56, 54, 95, 95, 41, 32, 124, 124, 32, 100, 101, 102, 105, 110, 101, 100, 40, 95, 77, 95, 73, 88, 56, 54, 41, 32, 124, 124, 32, 32, 32, 32, 32, 32, 32, 32, 32, 32, 32, 32, 32, 92],
  [35, 100, 101, 102, 105, 110, 101, 32, 70, 65, 83, 84, 70, 76, 79, 65, 84, 95, 51, 50, 66, 73, 84, 32, 49],
  [35, 101, 108, 115, 101],
  [35, 105, 102, 32, 83, 73, 90, 69, 95, 77, 65, 88, 32, 61, 61, 32, 48, 120, 102, 102, 102, 102],
  [35, 101, 114, 114, 111, 114, 32, 85, 110, 107, 110, 111, 119, 110, 32, 112, 108, 97, 116, 102, 111, 114, 109, 32, 40, 49, 54, 45, 98, 105, 116, 44, 32, 117, 110, 115, 117, 112, 112, 111, 114, 116, 101, 100, 41],
  [35, 101, 108, 105, 102, 32, 83, 73, 90, 69, 95, 77, 65, 88, 32, 61, 61, 32, 48, 120, 102, 102, 102, 102, 102, 102, 102, 102],
  [35, 100, 101, 102, 105, 110, 101, 32, 70, 65, 83, 84, 70, 76, 79, 65, 84, 95, 51, 50, 66, 73, 84, 32, 49],
  [35, 101, 108, 105, 102, 32, 83, 73, 90, 69, 95, 77, 65, 88, 32, 61, 61, 32, 48, 120, 102, 102, 102, 102, 102, 102, 102, 102, 102, 102, 102, 102, 102, 102, 102, 102],
  [35, 100, 101, 102, 105, 110, 101, 32, 70, 65, 83, 84, 70, 76, 79, 65, 84, 95, 54, 52, 66, 73, 84, 32, 49],
  [35, 101, 108, 115, 101],
  [35, 101, 114, 114, 111, 114, 32, 85, 110, 107, 110, 111, 119, 110, 32, 112, 108, 97, 116, 102, 111, 114, 109, 32, 40, 110, 111, 116, 32, 51, 50, 45, 98, 105, 116, 44, 32, 110, 111, 116, 32, 54, 52, 45, 98, 105, 116, 63, 41],
  [35, 101, 110, 100, 105, 102],
  [35, 101, 110, 100, 105, 102],
  [35, 105, 102, 32, 40, 40, 100, 101, 102, 105, 110, 101, 100, 40, 95, 87, 73, 78, 51, 50, 41, 32, 124, 124, 32, 100, 101, 102, 105, 110, 101, 100, 40, 95, 87, 73, 78, 54, 52, 41, 41, 32, 38, 38, 32, 33, 100, 101, 102, 105, 110, 101, 100, 40, 95, 95, 99, 108, 97, 110, 103, 95, 95, 41, 41, 32, 124, 124, 32, 32, 32, 32, 32, 32, 32, 32, 32, 32, 32, 92],
  [35, 105, 110, 99, 108, 117, 100, 101, 32, 60, 105, 110, 116, 114, 105, 110, 46, 104, 62],
  [35, 101, 110, 100, 105, 102],
  [35, 105, 102, 32, 100, 101, 102, 105, 110, 101, 100, 40, 95, 77, 83, 67, 95, 86, 69, 82, 41, 32, 38, 38, 32, 33, 100, 101, 102, 105, 110, 101, 100, 40, 95, 95, 99, 108, 97, 110, 103, 95, 95, 41],
  [35, 100, 101, 102, 105, 110, 101, 32, 70, 65, 83, 84, 70, 76, 79, 65, 84, 95, 86, 73, 83, 85, 65, 76, 95, 83, 84, 85, 68, 73, 79, 32, 49],
  [35, 101, 110, 100, 105, 102],
  [35, 105, 102, 32, 100, 101, 102, 105, 110, 101, 100, 32, 95, 95, 66, 89, 84, 69, 95, 79, 82, 68, 69, 82, 95, 95, 32, 38, 38, 32, 100, 101, 102, 105, 110, 101, 100, 32, 95, 95, 79, 82, 68, 69, 82, 95, 66, 73, 71, 95, 69, 78, 68, 73, 65, 78, 95, 95],
  [35, 100, 101, 102, 105, 110, 101, 32, 70, 65, 83, 84, 70, 76, 79, 65, 84, 95, 73, 83, 95, 66, 73, 71, 95, 69, 78, 68, 73, 65, 78, 32, 40, 95, 95, 66, 89, 84, 69, 95, 79, 82, 68, 69, 82, 95, 95, 32, 61, 61, 32, 95, 95, 79, 82, 68, 69, 82, 95, 66, 73, 71, 95, 69, 78, 68, 73, 65, 78, 95, 95, 41],
  [35, 101, 108, 105, 102, 32, 100, 101, 102, 105, 110, 101, 100, 32, 95, 87, 73, 78, 51, 50],
  [35, 100, 101, 102, 105, 110, 101, 32, 70, 65, 83, 84, 70, 76, 79, 65, 84, 95, 73, 83, 95, 66, 73, 71, 95, 69, 78, 68, 73, 65, 78, 32, 48],
  [35, 101, 108, 115, 101],
  [35, 105, 102, 32, 100, 101, 102, 105, 110, 101, 100, 40, 95, 95, 65, 80, 80, 76, 69, 95, 95, 41, 32, 124, 124, 32, 100, 101, 102, 105, 110, 101, 100, 40, 95, 95, 70, 114, 101, 101, 66, 83, 68, 95, 95, 41],
  [35, 105, 110, 99, 108, 117, 100, 101, 32, 60, 109, 97, 99, 104, 105, 110, 101, 47, 101, 110, 100, 105, 97, 110, 46, 104, 62],
  [35, 101, 108, 105, 102, 32, 100, 101, 102, 105, 110, 101, 100, 40, 115, 117, 110, 41, 32, 124, 124, 32, 100, 101, 102, 105, 110, 101, 100, 40, 95, 95, 115, 117, 110, 41],
  [35, 105, 110, 99, 108, 117, 100, 101, 32, 60, 115, 121, 115, 47, 98, 121, 116, 101, 111, 114, 100, 101, 114, 46, 104, 62],
  [35, 101, 108, 105, 102, 32, 100, 101, 102, 105, 110, 101, 100, 40, 95, 95, 77, 86, 83, 95, 95, 41],
  [35, 105, 110, 99, 108, 117, 100, 101, 32, 60, 115, 121, 115, 47, 101, 110, 100, 105, 97, 110, 46, 104, 62],
  [35, 101, 108, 115, 101],
  [35, 105, 102, 100, 101, 102, 32, 95, 95, 104, 97, 115, 95, 105, 110, 99, 108, 117, 100, 101],
  [35, 105, 102, 32, 95, 95, 104, 97, 115, 95, 105, 110, 99, 108, 117, 100, 101, 40, 60, 101, 110, 100, 105, 97, 110, 46, 104, 62, 41],
  [35, 105, 110, 99, 108, 117, 100, 101, 32, 60, 101, 110, 100, 105, 97, 110, 46, 104, 62],
  [35, 101, 110, 100, 105, 102, 32, 47, 47, 95, 95, 104, 97, 115, 95, 105, 110, 99, 108, 117, 100, 101, 40, 60, 101, 110, 100, 105, 97, 110, 46, 104, 62, 41],
  [35, 101, 110, 100, 105, 102, 32, 47, 47, 95, 95, 104, 97, 115, 95, 105, 110, 99, 108, 117, 100, 101],
  [35, 101, 110, 100, 105, 102],
  [35],
  [35, 105, 102, 110, 100, 101, 102, 32, 95, 95, 66, 89, 84, 69, 95, 79, 82, 68, 69, 82, 95, 95],
  [35, 100, 101, 102, 105, 110, 101, 32, 70, 65, 83, 84, 70, 76, 79, 65, 84, 95, 73, 83, 95, 66, 73, 71, 95, 69, 78, 68, 73, 65, 78, 32, 48],
  [35, 101, 110, 100, 105, 102],
  [35],
  [35, 105, 102, 110, 100, 101, 102, 32, 95, 95, 79, 82, 68, 69, 82, 95, 76, 73, 84, 84, 76, 69, 95, 69, 78, 68, 73, 65, 78, 95, 95],
  [35, 100, 101, 102, 105, 110, 101, 32, 70, 65, 83, 84, 70, 76, 79, 65, 84, 95, 73, 83, 95, 66, 73, 71, 95, 69, 78, 68, 73, 65, 78, 32, 48],
  [35, 101, 110, 100, 105, 102],
  [35],
  [35, 105, 102, 32, 95, 95, 66, 89, 84, 69, 95, 79, 82, 68, 69, 82, 95, 95, 32, 61, 61, 32, 95, 95, 79, 82, 68, 69, 82, 95, 76, 73, 84, 84, 76, 69, 95, 69, 78, 68, 73, 65, 78, 95, 95],
  [35, 100, 101, 102, 105, 110, 101, 32, 70, 65, 83, 84, 70, 76, 79, 65, 84, 95, 73, 83, 95, 66, 73, 71, 95, 69, 78, 68, 73, 65, 78, 32, 48],
  [35, 101, 108, 115, 101],
  [35, 100, 101, 102, 105, 110, 101, 32, 70, 65, 83, 84, 70, 76, 79, 65, 84, 95, 73, 83, 95, 66, 73, 71, 95, 69, 78, 68, 73, 65, 78, 32, 49],
  [35, 101, 110, 100, 105, 102],
  [35, 101, 110, 100, 105, 102],
  [35, 105, 102, 32, 100, 101, 102, 105, 110, 101, 100, 40, 95, 95, 83, 83, 69, 50, 95, 95, 41, 32, 124, 124, 32, 40, 100, 101, 102, 105, 110, 101, 100, 40, 70, 65, 83, 84, 70, 76, 79, 65, 84, 95, 86, 73, 83, 85, 65, 76, 95, 83, 84, 85, 68, 73, 79, 41, 32, 38, 38, 32, 32, 32, 32, 32, 32, 32, 32, 32, 32, 32, 32, 32, 32, 32, 32, 32, 32, 92],
  [35, 100, 101, 102, 105, 110, 101, 32, 70, 65, 83, 84, 70, 76, 79, 65, 84, 95, 83, 83, 69, 50, 32, 49],
  [35, 101, 110, 100, 105, 102],
  [35, 105, 102, 32, 100, 101, 102, 105, 110, 101, 100, 40, 95, 95, 97, 97, 114, 99, 104, 54, 52, 95, 95, 41, 32, 124, 124, 32, 100, 101, 102, 105, 110, 101, 100, 40, 95, 77, 95, 65, 82, 77, 54, 52, 41],
  [35, 100, 101, 102, 105, 110, 101, 32, 70, 65, 83, 84, 70, 76, 79, 65, 84, 95, 78, 69, 79, 78, 32, 49],
  [35, 101, 110, 100, 105, 102],
  [35, 105, 102, 32, 100, 101, 102, 105, 110, 101, 100, 40, 70, 65, 83, 84, 70, 76, 79, 65, 84, 95, 83, 83, 69, 50, 41, 32, 124, 124, 32, 100, 101, 102, 105, 110, 101, 100, 40, 70, 65, 83, 84, 70, 76, 79, 65, 84, 95, 78, 69, 79, 78, 41],
  [35, 100, 101, 102, 105, 110, 101, 32, 70, 65, 83, 84, 70, 76, 79, 65, 84, 95, 72, 65, 83, 95, 83, 73, 77, 68, 32, 49],
  [35, 101, 110, 100, 105, 102],
  [35, 105, 102, 32, 100, 101, 102, 105, 110, 101, 100, 40, 95, 95, 71, 78, 85, 67, 95, 95, 41],
  [35, 100, 101, 102, 105, 110, 101, 32, 70, 65, 83, 84, 70, 76, 79, 65, 84, 95, 83, 73, 77, 68, 95, 68, 73, 83, 65, 66, 76, 69, 95, 87, 65, 82, 78, 73, 78, 71, 83, 32, 32, 32, 32, 32, 32, 32, 32, 32, 32, 32, 32, 32, 32, 32, 32, 32, 32, 32, 32, 32, 32, 32, 32, 32, 32, 32, 32, 32, 32, 32, 32, 32, 32, 32, 32, 32, 32, 32, 32, 92],
  [35, 101, 108, 115, 101],
  [35, 100, 101, 102, 105, 110, 101, 32, 70, 65, 83, 84, 70, 76, 79, 65, 84, 95, 83, 73, 77, 68, 95, 68, 73, 83, 65, 66, 76, 69, 95, 87, 65, 82, 78, 73, 78, 71, 83],
  [35, 101, 110, 100, 105, 102],
  [35, 105, 102, 32, 100, 101, 102, 105, 110, 101, 100, 40, 95, 95, 71, 78, 85, 67, 95, 95, 41],
  [35, 100, 101, 102, 105, 110, 101, 32, 70, 65, 83, 84, 70, 76, 79, 65, 84, 95, 83, 73, 77, 68, 95, 82, 69, 83, 84, 79, 82, 69, 95, 87, 65, 82, 78, 73, 78, 71, 83, 32, 95, 80, 114, 97, 103, 109, 97, 40, 34, 71, 67, 67, 32, 100, 105, 97, 103, 110, 111, 115, 116, 105, 99, 32, 112, 111, 112, 34, 41],
  [35, 101, 108, 115, 101],
  [35, 100, 101, 102, 105, 110, 101, 32, 70, 65, 83, 84, 70, 76, 79, 65, 84, 95, 83, 73, 77, 68, 95, 82, 69, 83, 84, 79, 82, 69, 95, 87, 65, 82, 78, 73, 78, 71, 83],
  [35, 101, 110, 100, 105, 102],
  [35, 105, 102, 100, 101, 102, 32, 70, 65, 83, 84, 70, 76, 79, 65, 84, 95, 86, 73, 83, 85, 65, 76, 95, 83, 84, 85, 68, 73, 79],
  [35, 100, 101, 102, 105, 110, 101, 32, 102, 97, 115, 116, 102, 108, 111, 97, 116, 95, 114, 101, 97, 108, 108, 121, 95, 105, 110, 108, 105, 110, 101, 32, 95, 95, 102, 111, 114, 99, 101, 105, 110, 108, 105, 110, 101],
  [35, 101, 108, 115, 101],
  [35, 100, 101, 102, 105, 110, 101, 32, 102, 97, 115, 116, 102, 108, 111, 97, 116, 95, 114, 101, 97, 108, 108, 121, 95, 105, 110, 108, 105, 110, 101, 32, 105, 110, 108, 105, 110, 101, 32, 95, 95, 97, 116, 116, 114, 105, 98, 117, 116, 101, 95, 95, 40, 40, 97, 108, 119, 97, 121, 115, 95, 105, 110, 108, 105, 110, 101, 41, 41],
  [35, 101, 110, 100, 105, 102],
  [35, 105, 102, 100, 101, 102, 32, 95, 95, 104, 97, 115, 95, 99, 112, 112, 95, 97, 116, 116, 114, 105, 98, 117, 116, 101],
  [35, 105, 102, 32, 95, 95, 104, 97, 115, 95, 99, 112, 112, 95, 97, 116, 116, 114, 105, 98, 117, 116, 101, 40, 117, 110, 108, 105, 107, 101, 108, 121, 41, 32, 62, 61, 32, 50, 48, 49, 56, 48, 51, 76],
  [35, 105, 102, 32, 33, 100, 101, 102, 105, 110, 101, 100, 40, 95, 95, 71, 78, 85, 67, 95, 95, 41, 32, 124, 124, 32, 40, 95, 95, 71, 78, 85, 67, 95, 95, 32, 33, 61, 32, 57, 41],
  [35, 100, 101, 102, 105, 110, 101, 32, 70, 65, 83, 84, 70, 76, 79, 65, 84, 95, 85, 83, 69, 95, 85, 78, 76, 73, 75, 69, 76, 89, 95, 65, 84, 84, 82],
  [35, 101, 110, 100, 105, 102],
  [35, 101, 110, 100, 105, 102],
  [35, 101, 110, 100, 105, 102],
  [35, 105, 102, 100, 101, 102, 32, 70, 65, 83, 84, 70, 76, 79, 65, 84, 95, 85, 83, 69, 95, 85, 78, 76, 73, 75, 69, 76, 89, 95, 65, 84, 84, 82],
  [35, 100, 101, 102, 105, 110, 101, 32, 102, 97, 115, 116, 102, 108, 111, 97, 116, 95, 117, 110, 108, 105, 107, 101, 108, 121, 40, 120, 41, 32, 40, 120, 41, 32, 91, 91, 117, 110, 108, 105, 107, 101, 108, 121, 93, 93],
  [35, 101, 108, 105, 102, 32, 100, 101, 102, 105, 110, 101, 100, 40, 95, 95, 71, 78, 85, 67, 95, 95, 41, 32, 124, 124, 32, 100, 101, 102, 105, 110, 101, 100, 40, 95, 95, 99, 108, 97, 110, 103, 95, 95, 41],
  [35, 100, 101, 102, 105, 110, 101, 32, 102, 97, 115, 116, 102, 108, 111, 97, 116, 95, 117, 110, 108, 105, 107, 101, 108, 121, 40, 120, 41, 32, 40, 95, 95, 98, 117, 105, 108, 116, 105, 110, 95, 101, 120, 112, 101, 99, 116, 40, 33, 33, 40, 120, 41, 44, 32, 48, 41, 41],
  [35, 101, 108, 115, 101],
  [35, 100, 101, 102, 105, 110, 101, 32, 102, 97, 115, 116, 102, 108, 111, 97, 116, 95, 117, 110, 108, 105, 107, 101, 108, 121, 40, 120, 41, 32, 40, 120, 41],
  [35, 101, 110, 100, 105, 102],
  [35, 105, 102, 110, 100, 101, 102, 32, 70, 65, 83, 84, 70, 76, 79, 65, 84, 95, 65, 83, 83, 69, 82, 84],
  [35, 100, 101, 102, 105, 110, 101, 32, 70, 65, 83, 84, 70, 76, 79, 65, 84, 95, 65, 83, 83, 69, 82, 84, 40, 120, 41, 32, 32, 32, 32, 32, 32, 32, 32, 32, 32, 32, 32, 32, 32, 32, 32, 32, 32, 32, 32, 32, 32, 32, 32, 32, 32, 32, 32, 32, 32, 32, 32, 32, 32, 32, 32, 32, 32, 32, 32, 32, 32, 32, 32, 32, 32, 32, 32, 32, 32, 32, 32, 92],
  [35, 101, 110, 100, 105, 102],
  [35, 105, 102, 110, 100, 101, 102, 32, 70, 65, 83, 84, 70, 76, 79, 65, 84, 95, 68, 69, 66, 85, 71, 95, 65, 83, 83, 69, 82, 84],
  [35, 100, 101, 102, 105, 110, 101, 32, 70, 65, 83, 84, 70, 76, 79, 65, 84, 95, 68, 69, 66, 85, 71, 95, 65, 83, 83, 69, 82, 84, 40, 120, 41, 32, 32, 32, 32, 32, 32, 32, 32, 32, 32, 32, 32, 32, 32, 32, 32, 32, 32, 32, 32, 32, 32, 32, 32, 32, 32, 32, 32, 32, 32, 32, 32, 32, 32, 32, 32, 32, 32, 32, 32, 32, 32, 32, 32, 32, 32, 92],
  [35, 101, 110, 100, 105, 102],
  [35, 100, 101, 102, 105, 110, 101, 32, 70, 65, 83, 84, 70, 76, 79, 65, 84, 95, 84, 82, 89, 40, 120, 41, 32, 32, 32, 32, 32, 32, 32, 32, 32, 32, 32, 32, 32, 32, 32, 32, 32, 32, 32, 32, 32, 32, 32, 32, 32, 32, 32, 32, 32, 32, 32, 32, 32, 32, 32, 32, 32, 32, 32, 32, 32, 32, 32, 32, 32, 32, 32, 32, 32, 32, 32, 32, 32, 32, 32, 92],
  [35, 100, 101, 102, 105, 110, 101, 32, 70, 65, 83, 84, 70, 76, 79, 65, 84, 95, 69, 78, 65, 66, 76, 69, 95, 73, 70, 40, 46, 46, 46, 41, 32, 32, 32, 32, 32, 32, 32, 32, 32, 32, 32, 32, 32, 32, 32, 32, 32, 32, 32, 32, 32, 32, 32, 32, 32, 32, 32, 32, 32, 32, 32, 32, 32, 32, 32, 32, 32, 32, 32, 32, 32, 32, 32, 32, 32, 32, 32, 92],
  [35, 105, 102, 32, 70, 65, 83, 84, 70, 76, 79, 65, 84, 95, 72, 65, 83, 95, 73, 83, 95, 67, 79, 78, 83, 84, 65, 78, 84, 95, 69, 86, 65, 76, 85, 65, 84, 69, 68],
  [35, 101, 108, 115, 101],
  [35, 101, 110, 100, 105, 102],
  [35, 105, 102, 100, 101, 102, 32, 95, 95, 83, 84, 68, 67, 80, 80, 95, 70, 76, 79, 65, 84, 54, 52, 95, 84, 95, 95],
  [35, 101, 110, 100, 105, 102],
  [35, 105, 102, 100, 101, 102, 32, 95, 95, 83, 84, 68, 67, 80, 80, 95, 70, 76, 79, 65, 84, 51, 50, 95, 84, 95, 95],
  [35, 101, 110, 100, 105, 102],
  [35, 105, 102, 100, 101, 102, 32, 95, 95, 83, 84, 68, 67, 80, 80, 95, 70, 76, 79, 65, 84, 49, 54, 95, 84, 95, 95],
  [35, 101, 110, 100, 105, 102],
  [35, 105, 102, 100, 101, 102, 32, 95, 95, 83, 84, 68, 67, 80, 80, 95, 66, 70, 76, 79, 65, 84, 49, 54, 95, 84, 95, 95],
  [35, 101, 110, 100, 105, 102],
  [35, 105, 102, 100, 101, 102, 32, 95, 95, 99, 112, 112, 95, 99, 104, 97, 114, 56, 95, 116],
  [35, 101, 110, 100, 105, 102],
  [35, 105, 102, 110, 100, 101, 102, 32, 70, 76, 84, 95, 69, 86, 65, 76, 95, 77, 69, 84, 72, 79, 68],
  [35, 101, 114, 114, 111, 114, 32, 34, 70, 76, 84, 95, 69, 86, 65, 76, 95, 77, 69, 84, 72, 79, 68, 32, 115, 104, 111, 117, 108, 100, 32, 98, 101, 32, 100, 101, 102, 105, 110, 101, 100, 44, 32, 112, 108, 101, 97, 115, 101, 32, 105, 110, 99, 108, 117, 100, 101, 32, 99, 102, 108, 111, 97, 116, 46, 34],
  [35, 101, 110, 100, 105, 102],
  [35, 105, 102, 100, 101, 102, 32, 70, 65, 83, 84, 70, 76, 79, 65, 84, 95, 86, 73, 83, 85, 65, 76, 95, 83, 84, 85, 68, 73, 79],
  [35, 105, 102, 32, 100, 101, 102, 105, 110, 101, 100, 40, 95, 77, 95, 88, 54, 52, 41, 32, 124, 124, 32, 100, 101, 102, 105, 110, 101, 100, 40, 95, 77, 95, 65, 82, 77, 54, 52, 41],
  [35, 101, 108, 115, 101],
  [35, 101, 110, 100, 105, 102],
  [35, 101, 108, 115, 101],
  [35, 101, 110, 100, 105, 102],
  [35, 105, 102, 100, 101, 102, 32, 70, 65, 83, 84, 70, 76, 79, 65, 84, 95, 86, 73, 83, 85, 65, 76, 95, 83, 84, 85, 68, 73, 79],
  [35, 101, 108, 115, 101],
  [35, 101, 110, 100, 105, 102],
  [35, 105, 102, 100, 101, 102, 32, 70, 65, 83, 84, 70, 76, 79, 65, 84, 95, 51, 50, 66, 73, 84],
  [35, 105, 102, 32, 33, 100, 101, 102, 105, 110, 101, 100, 40, 95, 95, 77, 73, 78, 71, 87, 54, 52, 95, 95, 41],
  [35, 101, 110, 100, 105, 102, 32, 47, 47, 32, 33, 95, 95, 77, 73, 78, 71, 87, 54, 52, 95, 95],
  [35, 101, 110, 100, 105, 102, 32, 47, 47, 32, 70, 65, 83, 84, 70, 76, 79, 65, 84, 95, 51, 50, 66, 73, 84],
  [35, 105, 102, 32, 100, 101, 102, 105, 110, 101, 100, 40, 95, 77, 95, 65, 82, 77, 54, 52, 41, 32, 38, 38, 32, 33, 100, 101, 102, 105, 110, 101, 100, 40, 95, 95, 77, 73, 78, 71, 87, 51, 50, 95, 95, 41],
  [35, 101, 108, 105, 102, 32, 100, 101, 102, 105, 110, 101, 100, 40, 70, 65, 83, 84, 70, 76, 79, 65, 84, 95, 51, 50, 66, 73, 84, 41, 32, 124, 124, 32, 40, 100, 101, 102, 105, 110, 101, 100, 40, 95, 87, 73, 78, 54, 52, 41, 32, 38, 38, 32, 33, 100, 101, 102, 105, 110, 101, 100, 40, 95, 95, 99, 108, 97, 110, 103, 95, 95, 41, 32, 38, 38, 32, 32, 32, 92],
  [35, 101, 108, 105, 102, 32, 100, 101, 102, 105, 110, 101, 100, 40, 70, 65, 83, 84, 70, 76, 79, 65, 84, 95, 54, 52, 66, 73, 84, 41, 32, 38, 38, 32, 100, 101, 102, 105, 110, 101, 100, 40, 95, 95, 83, 73, 90, 69, 79, 70, 95, 73, 78, 84, 49, 50, 56, 95, 95, 41],
  [35, 101, 108, 115, 101],
  [35, 101, 110, 100, 105, 102],
  [35, 105, 102, 32, 70, 65, 83, 84, 70, 76, 79, 65, 84, 95, 68, 69, 84, 65, 73, 76, 95, 77, 85, 83, 84, 95, 68, 69, 70, 73, 78, 69, 95, 67, 79, 78, 83, 84, 69, 88, 80, 82, 95, 86, 65, 82, 73, 65, 66, 76, 69],
  [35, 101, 110, 100, 105, 102],
  [35, 105, 102, 32, 70, 65, 83, 84, 70, 76, 79, 65, 84, 95, 68, 69, 84, 65, 73, 76, 95, 77, 85, 83, 84, 95, 68, 69, 70, 73, 78, 69, 95, 67, 79, 78, 83, 84, 69, 88, 80, 82, 95, 86, 65, 82, 73, 65, 66, 76, 69],
  [35, 101, 110, 100, 105, 102],
  [35, 105, 102, 32, 40, 70, 76, 84, 95, 69, 86, 65, 76, 95, 77, 69, 84, 72, 79, 68, 32, 33, 61, 32, 49, 41, 32, 38, 38, 32, 40, 70, 76, 84, 95, 69, 86, 65, 76, 95, 77, 69, 84, 72, 79, 68, 32, 33, 61, 32, 48, 41],
  [35, 101, 108, 115, 101],
  [35, 101, 110, 100, 105, 102],
  [35, 105, 102, 32, 40, 70, 76, 84, 95, 69, 86, 65, 76, 95, 77, 69, 84, 72, 79, 68, 32, 33, 61, 32, 49, 41, 32, 38, 38, 32, 40, 70, 76, 84, 95, 69, 86, 65, 76, 95, 77, 69, 84, 72, 79, 68, 32, 33, 61, 32, 48, 41],
  [35, 101, 108, 115, 101],
  [35, 101, 110, 100, 105, 102],
  [35, 105, 102, 100, 101, 102, 32, 95, 95, 83, 84, 68, 67, 80, 80, 95, 70, 76, 79, 65, 84, 49, 54, 95, 84, 95, 95],
  [35, 105, 102, 32, 70, 65, 83, 84, 70, 76, 79, 65, 84, 95, 68, 69, 84, 65, 73, 76, 95, 77, 85, 83, 84, 95, 68, 69, 70, 73, 78, 69, 95, 67, 79, 78, 83, 84, 69, 88, 80, 82, 95, 86, 65, 82, 73, 65, 66, 76, 69],
  [35, 101, 110, 100, 105, 102],
  [35, 101, 110, 100, 105, 102, 32, 47, 47, 32, 95, 95, 83, 84, 68, 67, 80, 80, 95, 70, 76, 79, 65, 84, 49, 54, 95, 84, 95, 95],
  [35, 105, 102, 100, 101, 102, 32, 95, 95, 83, 84, 68, 67, 80, 80, 95, 66, 70, 76, 79, 65, 84, 49, 54, 95, 84, 95, 95],
  [35, 105, 102, 32, 70, 65, 83, 84, 70, 76, 79, 65, 84, 95, 68, 69, 84, 65, 73, 76, 95, 77, 85, 83, 84, 95, 68, 69, 70, 73, 78, 69, 95, 67, 79, 78, 83, 84, 69, 88, 80, 82, 95, 86, 65, 82, 73, 65, 66, 76, 69],
  [35, 101, 110, 100, 105, 102],
  [35, 101, 110, 100, 105, 102, 32, 47, 47, 32, 95, 95, 83, 84, 68, 67, 80, 80, 95, 66, 70, 76, 79, 65, 84, 49, 54, 95, 84, 95, 95],
  [35, 105, 102, 32, 70, 65, 83, 84, 70, 76, 79, 65, 84, 95, 72, 65, 83, 95, 66, 73, 84, 95, 67, 65, 83, 84],
  [35, 101, 108, 115, 101],
  [35, 101, 110, 100, 105, 102],
  [35, 105, 102, 32, 70, 65, 83, 84, 70, 76, 79, 65, 84, 95, 68, 69, 84, 65, 73, 76, 95, 77, 85, 83, 84, 95, 68, 69, 70, 73, 78, 69, 95, 67, 79, 78, 83, 84, 69, 88, 80, 82, 95, 86, 65, 82, 73, 65, 66, 76, 69],
  [35, 101, 110, 100, 105, 102],
  [35, 105, 102, 100, 101, 102, 32, 95, 95, 99, 112, 112, 95, 99, 104, 97, 114, 56, 95, 116],
  [35, 101, 110, 100, 105, 102],
  [35, 105, 102, 100, 101, 102, 32, 95, 95, 99, 112, 112, 95, 99, 104, 97, 114, 56, 95, 116],
  [35, 101, 110, 100, 105, 102],
  [35, 105, 102, 32, 70, 65, 83, 84, 70, 76, 79, 65, 84, 95, 68, 69, 84, 65, 73, 76, 95, 77, 85, 83, 84, 95, 68, 69, 70, 73, 78, 69, 95, 67, 79, 78, 83, 84, 69, 88, 80, 82, 95, 86, 65, 82, 73, 65, 66, 76, 69],
  [35, 101, 110, 100, 105, 102],
  [35, 105, 102, 100, 101, 102, 32, 95, 95, 83, 84, 68, 67, 80, 80, 95, 70, 76, 79, 65, 84, 54, 52, 95, 84, 95, 95],
  [35, 101, 110, 100, 105, 102, 32, 47, 47, 32, 95, 95, 83, 84, 68, 67, 80, 80, 95, 70, 76, 79, 65, 84, 54, 52, 95, 84, 95, 95],
  [35, 105, 102, 100, 101, 102, 32, 95, 95, 83, 84, 68, 67, 80, 80, 95, 70, 76, 79, 65, 84, 51, 50, 95, 84, 95, 95],
  [35, 101, 110, 100, 105, 102, 32, 47, 47, 32, 95, 95, 83, 84, 68, 67, 80, 80, 95, 70, 76, 79, 65, 84, 51, 50, 95, 84, 95, 95],
  [35, 105, 102, 100, 101, 102, 32, 95, 95, 83, 84, 68, 67, 80, 80, 95, 70, 76, 79, 65, 84, 49, 54, 95, 84, 95, 95],
  [35, 101, 110, 100, 105, 102, 32, 47, 47, 32, 95, 95, 83, 84, 68, 67, 80, 80, 95, 70, 76, 79, 65, 84, 49, 54, 95, 84, 95, 95],
  [35, 105, 102, 100, 101, 102, 32, 95, 95, 83, 84, 68, 67, 80, 80, 95, 66, 70, 76, 79, 65, 84, 49, 54, 95, 84, 95, 95],
  [35, 101, 110, 100, 105, 102, 32, 47, 47, 32, 95, 95, 83, 84, 68, 67, 80, 80, 95, 66, 70, 76, 79, 65, 84, 49, 54, 95, 84, 95, 95],
  [35, 105, 102, 100, 101, 102, 32, 70, 65, 83, 84, 70, 76, 79, 65, 84, 95, 65, 76, 76, 79, 87, 83, 95, 76, 69, 65, 68, 73, 78, 71, 95, 80, 76, 85, 83],
  [35, 101, 110, 100, 105, 102],
  [35, 105, 102, 100, 101, 102, 32, 70, 65, 83, 84, 70, 76, 79, 65, 84, 95, 83, 75, 73, 80, 95, 87, 72, 73, 84, 69, 95, 83, 80, 65, 67, 69],
  [35, 101, 110, 100, 105, 102]]

/-- fast_float.h:6-89. -/
def apiDirectives : List Text := [
]

/-- ascii_number.h:3-10. -/
def asciiTopDirectives : List Text := [
  [35, 105, 110, 99, 108, 117, 100, 101, 32, 60, 99, 99, 116, 121, 112, 101, 62],
  [35, 105, 110, 99, 108, 117, 100, 101, 32, 60, 99, 115, 116, 100, 105, 110, 116, 62],
  [35, 105, 110, 99, 108, 117, 100, 101, 32, 60, 99, 115, 116, 114, 105, 110, 103, 62],
  [35, 105, 110, 99, 108, 117, 100, 101, 32, 60, 105, 116, 101, 114, 97, 116, 111, 114, 62],
  [35, 105, 110, 99, 108, 117, 100, 101, 32, 60, 108, 105, 109, 105, 116, 115, 62],
  [35, 105, 110, 99, 108, 117, 100, 101, 32, 60, 116, 121, 112, 101, 95, 116, 114, 97, 105, 116, 115, 62]]

/-- ascii_number.h:12-822. -/
def asciiDirectives : List Text := [
  [35, 105, 102, 100, 101, 102, 32, 70, 65, 83, 84, 70, 76, 79, 65, 84, 95, 83, 83, 69, 50],
  [35, 105, 110, 99, 108, 117, 100, 101, 32, 60, 101, 109, 109, 105, 110, 116, 114, 105, 110, 46, 104, 62],
  [35, 101, 110, 100, 105, 102],
  [35, 105, 102, 100, 101, 102, 32, 70, 65, 83, 84, 70, 76, 79, 65, 84, 95, 78, 69, 79, 78],
  [35, 105, 110, 99, 108, 117, 100, 101, 32, 60, 97, 114, 109, 95, 110, 101, 111, 110, 46, 104, 62],
  [35, 101, 110, 100, 105, 102],
  [35, 105, 102, 100, 101, 102, 32, 70, 65, 83, 84, 70, 76, 79, 65, 84, 95, 72, 65, 83, 95, 83, 73, 77, 68],
  [35, 101, 108, 115, 101],
  [35, 101, 110, 100, 105, 102],
  [35, 105, 102, 32, 70, 65, 83, 84, 70, 76, 79, 65, 84, 95, 73, 83, 95, 66, 73, 71, 95, 69, 78, 68, 73, 65, 78, 32, 61, 61, 32, 49],
  [35, 101, 110, 100, 105, 102],
  [35, 105, 102, 32, 70, 65, 83, 84, 70, 76, 79, 65, 84, 95, 73, 83, 95, 66, 73, 71, 95, 69, 78, 68, 73, 65, 78, 32, 61, 61, 32, 49],
  [35, 101, 110, 100, 105, 102],
  [35, 105, 102, 100, 101, 102, 32, 70, 65, 83, 84, 70, 76, 79, 65, 84, 95, 83, 83, 69, 50],
  [35, 105, 102, 100, 101, 102, 32, 70, 65, 83, 84, 70, 76, 79, 65, 84, 95, 54, 52, 66, 73, 84],
  [35, 101, 108, 115, 101],
  [35, 101, 110, 100, 105, 102],
  [35, 101, 108, 105, 102, 32, 100, 101, 102, 105, 110, 101, 100, 40, 70, 65, 83, 84, 70, 76, 79, 65, 84, 95, 78, 69, 79, 78, 41],
  [35, 101, 110, 100, 105, 102, 32, 47, 47, 32, 70, 65, 83, 84, 70, 76, 79, 65, 84, 95, 83, 83, 69, 50],
  [35, 105, 102, 32, 100, 101, 102, 105, 110, 101, 100, 40, 95, 77, 83, 67, 95, 86, 69, 82, 41, 32, 38, 38, 32, 95, 77, 83, 67, 95, 86, 69, 82, 32, 60, 61, 32, 49, 57, 48, 48],
  [35, 101, 108, 115, 101],
  [35, 101, 110, 100, 105, 102],
  [35, 105, 102, 100, 101, 102, 32, 70, 65, 83, 84, 70, 76, 79, 65, 84, 95, 72, 65, 83, 95, 83, 73, 77, 68],
  [35, 105, 102, 100, 101, 102, 32, 70, 65, 83, 84, 70, 76, 79, 65, 84, 95, 83, 83, 69, 50],
  [35, 101, 108, 105, 102, 32, 100, 101, 102, 105, 110, 101, 100, 40, 70, 65, 83, 84, 70, 76, 79, 65, 84, 95, 78, 69, 79, 78, 41],
  [35, 101, 108, 115, 101],
  [35, 101, 110, 100, 105, 102, 32, 47, 47, 32, 70, 65, 83, 84, 70, 76, 79, 65, 84, 95, 83, 83, 69, 50],
  [35, 101, 110, 100, 105, 102, 32, 47, 47, 32, 70, 65, 83, 84, 70, 76, 79, 65, 84, 95, 72, 65, 83, 95, 83, 73, 77, 68],
  [35, 105, 102, 32, 100, 101, 102, 105, 110, 101, 100, 40, 95, 77, 83, 67, 95, 86, 69, 82, 41, 32, 38, 38, 32, 95, 77, 83, 67, 95, 86, 69, 82, 32, 60, 61, 32, 49, 57, 48, 48],
  [35, 101, 108, 115, 101],
  [35, 101, 110, 100, 105, 102],
  [35, 105, 102, 32, 100, 101, 102, 105, 110, 101, 100, 40, 95, 95, 99, 108, 97, 110, 103, 95, 95, 41],
  [35, 101, 110, 100, 105, 102],
  [35, 105, 102, 100, 101, 102, 32, 70, 65, 83, 84, 70, 76, 79, 65, 84, 95, 86, 73, 83, 85, 65, 76, 95, 83, 84, 85, 68, 73, 79],
  [35, 112, 114, 97, 103, 109, 97, 32, 119, 97, 114, 110, 105, 110, 103, 40, 112, 117, 115, 104, 41],
  [35, 112, 114, 97, 103, 109, 97, 32, 119, 97, 114, 110, 105, 110, 103, 40, 100, 105, 115, 97, 98, 108, 101, 32, 58, 32, 52, 49, 50, 55, 41],
  [35, 101, 110, 100, 105, 102],
  [35, 105, 102, 100, 101, 102, 32, 70, 65, 83, 84, 70, 76, 79, 65, 84, 95, 86, 73, 83, 85, 65, 76, 95, 83, 84, 85, 68, 73, 79],
  [35, 112, 114, 97, 103, 109, 97, 32, 119, 97, 114, 110, 105, 110, 103, 40, 112, 111, 112, 41],
  [35, 101, 110, 100, 105, 102],
  [35, 105, 102, 32, 70, 65, 83, 84, 70, 76, 79, 65, 84, 95, 72, 65, 83, 95, 73, 83, 95, 67, 79, 78, 83, 84, 65, 78, 84, 95, 69, 86, 65, 76, 85, 65, 84, 69, 68, 32, 38, 38, 32, 70, 65, 83, 84, 70, 76, 79, 65, 84, 95, 72, 65, 83, 95, 66, 73, 84, 95, 67, 65, 83, 84],
  [35, 105, 102, 32, 70, 65, 83, 84, 70, 76, 79, 65, 84, 95, 73, 83, 95, 66, 73, 71, 95, 69, 78, 68, 73, 65, 78],
  [35, 101, 110, 100, 105, 102],
  [35, 101, 108, 115, 101],
  [35, 101, 110, 100, 105, 102],
  [35, 105, 102, 32, 70, 65, 83, 84, 70, 76, 79, 65, 84, 95, 73, 83, 95, 66, 73, 71, 95, 69, 78, 68, 73, 65, 78],
  [35, 101, 110, 100, 105, 102],
  [35, 105, 102, 100, 101, 102, 32, 70, 65, 83, 84, 70, 76, 79, 65, 84, 95, 86, 73, 83, 85, 65, 76, 95, 83, 84, 85, 68, 73, 79],
  [35, 112, 114, 97, 103, 109, 97, 32, 119, 97, 114, 110, 105, 110, 103, 40, 112, 117, 115, 104, 41],
  [35, 112, 114, 97, 103, 109, 97, 32, 119, 97, 114, 110, 105, 110, 103, 40, 100, 105, 115, 97, 98, 108, 101, 32, 58, 32, 52, 49, 52, 54, 41],
  [35, 101, 110, 100, 105, 102],
  [35, 105, 102, 100, 101, 102, 32, 70, 65, 83, 84, 70, 76, 79, 65, 84, 95, 86, 73, 83, 85, 65, 76, 95, 83, 84, 85, 68, 73, 79],
  [35, 112, 114, 97, 103, 109, 97, 32, 119, 97, 114, 110, 105, 110, 103, 40, 112, 111, 112, 41],
  [35, 101, 110, 100, 105, 102]]

/-- fast_table.h:3-707. -/
def tableDirectives : List Text := [
  [35, 105, 110, 99, 108, 117, 100, 101, 32, 60, 99, 115, 116, 100, 105, 110, 116, 62],
  [35, 105, 102, 32, 70, 65, 83, 84, 70, 76, 79, 65, 84, 95, 68, 69, 84, 65, 73, 76, 95, 77, 85, 83, 84, 95, 68, 69, 70, 73, 78, 69, 95, 67, 79, 78, 83, 84, 69, 88, 80, 82, 95, 86, 65, 82, 73, 65, 66, 76, 69],
  [35, 101, 110, 100, 105, 102]]

/-- decimal_to_binary.h:6-211. -/
def binaryDirectives : List Text := [
  [35, 105, 110, 99, 108, 117, 100, 101, 32, 60, 99, 102, 108, 111, 97, 116, 62],
  [35, 105, 110, 99, 108, 117, 100, 101, 32, 60, 99, 105, 110, 116, 116, 121, 112, 101, 115, 62],
  [35, 105, 110, 99, 108, 117, 100, 101, 32, 60, 99, 109, 97, 116, 104, 62],
  [35, 105, 110, 99, 108, 117, 100, 101, 32, 60, 99, 115, 116, 100, 105, 110, 116, 62],
  [35, 105, 110, 99, 108, 117, 100, 101, 32, 60, 99, 115, 116, 100, 108, 105, 98, 62],
  [35, 105, 110, 99, 108, 117, 100, 101, 32, 60, 99, 115, 116, 114, 105, 110, 103, 62]]

/-- bigint.h:3-8. -/
def bigintTopDirectives : List Text := [
  [35, 105, 110, 99, 108, 117, 100, 101, 32, 60, 97, 108, 103, 111, 114, 105, 116, 104, 109, 62],
  [35, 105, 110, 99, 108, 117, 100, 101, 32, 60, 99, 115, 116, 100, 105, 110, 116, 62],
  [35, 105, 110, 99, 108, 117, 100, 101, 32, 60, 99, 108, 105, 109, 105, 116, 115, 62],
  [35, 105, 110, 99, 108, 117, 100, 101, 32, 60, 99, 115, 116, 114, 105, 110, 103, 62]]

/-- bigint.h:10-637. -/
def bigintDirectives : List Text := [
  [35, 105, 102, 32, 100, 101, 102, 105, 110, 101, 100, 40, 70, 65, 83, 84, 70, 76, 79, 65, 84, 95, 54, 52, 66, 73, 84, 41, 32, 38, 38, 32, 33, 100, 101, 102, 105, 110, 101, 100, 40, 95, 95, 115, 112, 97, 114, 99, 41],
  [35, 100, 101, 102, 105, 110, 101, 32, 70, 65, 83, 84, 70, 76, 79, 65, 84, 95, 54, 52, 66, 73, 84, 95, 76, 73, 77, 66, 32, 49],
  [35, 101, 108, 115, 101],
  [35, 100, 101, 102, 105, 110, 101, 32, 70, 65, 83, 84, 70, 76, 79, 65, 84, 95, 51, 50, 66, 73, 84, 95, 76, 73, 77, 66],
  [35, 101, 110, 100, 105, 102],
  [35, 105, 102, 32, 100, 101, 102, 105, 110, 101, 100, 40, 95, 95, 104, 97, 115, 95, 98, 117, 105, 108, 116, 105, 110, 41],
  [35, 105, 102, 32, 95, 95, 104, 97, 115, 95, 98, 117, 105, 108, 116, 105, 110, 40, 95, 95, 98, 117, 105, 108, 116, 105, 110, 95, 97, 100, 100, 95, 111, 118, 101, 114, 102, 108, 111, 119, 41],
  [35, 101, 110, 100, 105, 102],
  [35, 101, 110, 100, 105, 102],
  [35, 105, 102, 100, 101, 102, 32, 70, 65, 83, 84, 70, 76, 79, 65, 84, 95, 54, 52, 66, 73, 84, 95, 76, 73, 77, 66],
  [35, 105, 102, 32, 100, 101, 102, 105, 110, 101, 100, 40, 95, 95, 83, 73, 90, 69, 79, 70, 95, 73, 78, 84, 49, 50, 56, 95, 95, 41],
  [35, 101, 108, 115, 101],
  [35, 101, 110, 100, 105, 102],
  [35, 101, 108, 115, 101],
  [35, 101, 110, 100, 105, 102],
  [35, 105, 102, 100, 101, 102, 32, 70, 65, 83, 84, 70, 76, 79, 65, 84, 95, 54, 52, 66, 73, 84, 95, 76, 73, 77, 66],
  [35, 101, 108, 115, 101],
  [35, 101, 110, 100, 105, 102],
  [35, 105, 102, 32, 70, 65, 83, 84, 70, 76, 79, 65, 84, 95, 68, 69, 84, 65, 73, 76, 95, 77, 85, 83, 84, 95, 68, 69, 70, 73, 78, 69, 95, 67, 79, 78, 83, 84, 69, 88, 80, 82, 95, 86, 65, 82, 73, 65, 66, 76, 69],
  [35, 101, 110, 100, 105, 102],
  [35, 105, 102, 100, 101, 102, 32, 70, 65, 83, 84, 70, 76, 79, 65, 84, 95, 54, 52, 66, 73, 84, 95, 76, 73, 77, 66],
  [35, 101, 108, 115, 101],
  [35, 101, 110, 100, 105, 102],
  [35, 105, 102, 100, 101, 102, 32, 70, 65, 83, 84, 70, 76, 79, 65, 84, 95, 54, 52, 66, 73, 84, 95, 76, 73, 77, 66],
  [35, 101, 108, 115, 101],
  [35, 101, 110, 100, 105, 102],
  [35, 105, 102, 100, 101, 102, 32, 70, 65, 83, 84, 70, 76, 79, 65, 84, 95, 54, 52, 66, 73, 84, 95, 76, 73, 77, 66],
  [35, 101, 108, 115, 101],
  [35, 101, 110, 100, 105, 102],
  [35, 105, 102, 100, 101, 102, 32, 70, 65, 83, 84, 70, 76, 79, 65, 84, 95, 54, 52, 66, 73, 84, 95, 76, 73, 77, 66],
  [35, 101, 108, 115, 101],
  [35, 101, 110, 100, 105, 102]]

/-- digit_comparison.h:3-7. -/
def digitsTopDirectives : List Text := [
  [35, 105, 110, 99, 108, 117, 100, 101, 32, 60, 99, 115, 116, 100, 105, 110, 116, 62],
  [35, 105, 110, 99, 108, 117, 100, 101, 32, 60, 99, 115, 116, 114, 105, 110, 103, 62],
  [35, 105, 110, 99, 108, 117, 100, 101, 32, 60, 105, 116, 101, 114, 97, 116, 111, 114, 62]]

/-- digit_comparison.h:11-453. -/
def digitsDirectives : List Text := [
  [35, 105, 102, 32, 70, 65, 83, 84, 70, 76, 79, 65, 84, 95, 72, 65, 83, 95, 66, 73, 84, 95, 67, 65, 83, 84],
  [35, 101, 108, 115, 101],
  [35, 101, 110, 100, 105, 102],
  [35, 105, 102, 100, 101, 102, 32, 70, 65, 83, 84, 70, 76, 79, 65, 84, 95, 54, 52, 66, 73, 84, 95, 76, 73, 77, 66],
  [35, 101, 108, 115, 101],
  [35, 101, 110, 100, 105, 102]]

/-- parse_number.h:8-549. -/
def parseDirectives : List Text := [
  [35, 105, 110, 99, 108, 117, 100, 101, 32, 60, 99, 109, 97, 116, 104, 62],
  [35, 105, 110, 99, 108, 117, 100, 101, 32, 60, 99, 115, 116, 114, 105, 110, 103, 62],
  [35, 105, 110, 99, 108, 117, 100, 101, 32, 60, 108, 105, 109, 105, 116, 115, 62],
  [35, 105, 110, 99, 108, 117, 100, 101, 32, 60, 115, 121, 115, 116, 101, 109, 95, 101, 114, 114, 111, 114, 62],
  [35, 105, 102, 32, 40, 70, 76, 84, 95, 69, 86, 65, 76, 95, 77, 69, 84, 72, 79, 68, 32, 33, 61, 32, 49, 41, 32, 38, 38, 32, 40, 70, 76, 84, 95, 69, 86, 65, 76, 95, 77, 69, 84, 72, 79, 68, 32, 33, 61, 32, 48, 41],
  [35, 101, 110, 100, 105, 102],
  [35, 105, 102, 100, 101, 102, 32, 70, 65, 83, 84, 70, 76, 79, 65, 84, 95, 86, 73, 83, 85, 65, 76, 95, 83, 84, 85, 68, 73, 79],
  [35, 112, 114, 97, 103, 109, 97, 32, 119, 97, 114, 110, 105, 110, 103, 40, 112, 117, 115, 104, 41],
  [35, 101, 108, 105, 102, 32, 100, 101, 102, 105, 110, 101, 100, 40, 95, 95, 99, 108, 97, 110, 103, 95, 95, 41],
  [35, 112, 114, 97, 103, 109, 97, 32, 99, 108, 97, 110, 103, 32, 100, 105, 97, 103, 110, 111, 115, 116, 105, 99, 32, 112, 117, 115, 104],
  [35, 112, 114, 97, 103, 109, 97, 32, 99, 108, 97, 110, 103, 32, 100, 105, 97, 103, 110, 111, 115, 116, 105, 99, 32, 105, 103, 110, 111, 114, 101, 100, 32, 34, 45, 87, 102, 108, 111, 97, 116, 45, 101, 113, 117, 97, 108, 34],
  [35, 101, 108, 105, 102, 32, 100, 101, 102, 105, 110, 101, 100, 40, 95, 95, 71, 78, 85, 67, 95, 95, 41],
  [35, 112, 114, 97, 103, 109, 97, 32, 71, 67, 67, 32, 100, 105, 97, 103, 110, 111, 115, 116, 105, 99, 32, 112, 117, 115, 104],
  [35, 112, 114, 97, 103, 109, 97, 32, 71, 67, 67, 32, 100, 105, 97, 103, 110, 111, 115, 116, 105, 99, 32, 105, 103, 110, 111, 114, 101, 100, 32, 34, 45, 87, 102, 108, 111, 97, 116, 45, 101, 113, 117, 97, 108, 34],
  [35, 101, 110, 100, 105, 102],
  [35, 105, 102, 100, 101, 102, 32, 70, 65, 83, 84, 70, 76, 79, 65, 84, 95, 86, 73, 83, 85, 65, 76, 95, 83, 84, 85, 68, 73, 79],
  [35, 112, 114, 97, 103, 109, 97, 32, 119, 97, 114, 110, 105, 110, 103, 40, 112, 111, 112, 41],
  [35, 101, 108, 105, 102, 32, 100, 101, 102, 105, 110, 101, 100, 40, 95, 95, 99, 108, 97, 110, 103, 95, 95, 41],
  [35, 112, 114, 97, 103, 109, 97, 32, 99, 108, 97, 110, 103, 32, 100, 105, 97, 103, 110, 111, 115, 116, 105, 99, 32, 112, 111, 112],
  [35, 101, 108, 105, 102, 32, 100, 101, 102, 105, 110, 101, 100, 40, 95, 95, 71, 78, 85, 67, 95, 95, 41],
  [35, 112, 114, 97, 103, 109, 97, 32, 71, 67, 67, 32, 100, 105, 97, 103, 110, 111, 115, 116, 105, 99, 32, 112, 111, 112],
  [35, 101, 110, 100, 105, 102],
  [35, 105, 102, 100, 101, 102, 32, 95, 95, 83, 84, 68, 67, 80, 80, 95, 70, 76, 79, 65, 84, 51, 50, 95, 84, 95, 95],
  [35, 101, 110, 100, 105, 102],
  [35, 105, 102, 100, 101, 102, 32, 95, 95, 83, 84, 68, 67, 80, 80, 95, 70, 76, 79, 65, 84, 54, 52, 95, 84, 95, 95],
  [35, 101, 110, 100, 105, 102],
  [35, 105, 102, 32, 100, 101, 102, 105, 110, 101, 100, 40, 95, 95, 99, 108, 97, 110, 103, 95, 95, 41, 32, 124, 124, 32, 100, 101, 102, 105, 110, 101, 100, 40, 70, 65, 83, 84, 70, 76, 79, 65, 84, 95, 51, 50, 66, 73, 84, 41],
  [35, 101, 110, 100, 105, 102],
  [35, 105, 102, 100, 101, 102, 32, 95, 95, 99, 108, 97, 110, 103, 95, 95],
  [35, 112, 114, 97, 103, 109, 97, 32, 99, 108, 97, 110, 103, 32, 100, 105, 97, 103, 110, 111, 115, 116, 105, 99, 32, 112, 117, 115, 104],
  [35, 105, 102, 32, 40, 33, 100, 101, 102, 105, 110, 101, 100, 40, 95, 95, 65, 80, 80, 76, 69, 95, 67, 67, 95, 95, 41, 32, 38, 38, 32, 95, 95, 99, 108, 97, 110, 103, 95, 109, 97, 106, 111, 114, 95, 95, 32, 62, 61, 32, 49, 48, 41, 32, 124, 124, 32, 40, 95, 95, 99, 108, 97, 110, 103, 95, 109, 97, 106, 111, 114, 95, 95, 32, 62, 61, 32, 49, 51, 41],
  [35, 112, 114, 97, 103, 109, 97, 32, 99, 108, 97, 110, 103, 32, 100, 105, 97, 103, 110, 111, 115, 116, 105, 99, 32, 105, 103, 110, 111, 114, 101, 100, 32, 34, 45, 87, 99, 43, 43, 50, 48, 45, 101, 120, 116, 101, 110, 115, 105, 111, 110, 115, 34],
  [35, 101, 110, 100, 105, 102],
  [35, 101, 110, 100, 105, 102],
  [35, 105, 102, 100, 101, 102, 32, 95, 95, 99, 108, 97, 110, 103, 95, 95],
  [35, 112, 114, 97, 103, 109, 97, 32, 99, 108, 97, 110, 103, 32, 100, 105, 97, 103, 110, 111, 115, 116, 105, 99, 32, 112, 111, 112],
  [35, 101, 110, 100, 105, 102]]

end FastFloat.Script
