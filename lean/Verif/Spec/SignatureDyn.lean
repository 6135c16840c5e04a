/-
Specification of the values accepted by `Signature`.
-/
import Verif.Model.SignatureDyn
import Verif.Spec.Signature

set_option autoImplicit false

namespace Melodia

/-- The integer a value is, if it is one: `True` is 1 and `False` is 0. -/
def PyVal.asInt : PyVal → Option Int
  | .int i => some i
  | .bool true => some 1
  | .bool false => some 0
  | _ => none

/-- A number that is at least (`strict = false`) or more than (`strict = true`) zero; NaN is not. -/
inductive PyVal.Above (strict : Bool) : PyVal → Prop
  | integer {x : PyVal} {i : Int} (h : x.asInt = some i) (hi : 0 ≤ i) (hs : strict → i ≠ 0) : PyVal.Above strict x
  | finite {q : ℚ} (hq : 0 ≤ q) (hs : strict → q ≠ 0) : PyVal.Above strict (.float (.fin q))
  | infinite : PyVal.Above strict (.float .posInf)

end Melodia
