import Verif.Props.Vocabulary
import Verif.Proofs.Clinger
import Verif.Proofs.RNSpec
import Verif.Proofs.DigitCompNum
/-
# The four supported floating-point types
-/
namespace FastFloat

namespace FloatTy

theorem good (T : FloatTy) : GoodFmt T.fmt := by
  cases T
  · exact good64
  · exact good32
  · exact goodB16
  · exact good16

theorem fast (T : FloatTy) : GoodFast T.fmt := by
  cases T
  · exact fast64
  · exact fast32
  · exact fastB16
  · exact fast16

theorem slow (T : FloatTy) : GoodSlow T.fmt := by
  cases T
  · exact slow64
  · exact slow32
  · exact slowB16
  · exact slow16

theorem fmatch (T : FloatTy) : FormatMatch T.fmt T.spec := by
  cases T
  · exact match64
  · exact match32
  · exact matchB16
  · exact match16

theorem finite (T : FloatTy) (h : T ≠ .float16) : FastFinite T.fmt := by
  cases T
  · exact finite64
  · exact finite32
  · exact finiteB16
  · exact absurd rfl h

theorem ulpWide (T : FloatTy) (h : T ≠ .float16) : T.fmt.mb + 27 ≤ ulpExp T.fmt := by
  cases T
  · decide
  · decide
  · decide
  · exact absurd rfl h

theorem signBit_eq (T : FloatTy) : T.spec.signBit = 2 ^ T.fmt.signIdx := by cases T <;> decide

end FloatTy
end FastFloat
