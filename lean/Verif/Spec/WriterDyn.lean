/-
Specification of the settings a writer accepts and of those it can use.
-/
import Verif.Model.WriterDyn
import Verif.Spec.SignatureDyn

set_option autoImplicit false

namespace Melodia

/-- The number a value is, if it is one. -/
def PyVal.number : PyVal → Option PyFloat
  | .int i => some (.fin i)
  | .bool true => some (.fin 1)
  | .bool false => some (.fin 0)
  | .float x => some x
  | .other => none

/-- The value is a finite number from `lo` to `hi`. -/
def PyVal.InRange (lo hi : Int) (x : PyVal) : Prop := ∃ q : ℚ, x.number = some (.fin q) ∧ (lo : ℚ) ≤ q ∧ q ≤ hi

end Melodia
