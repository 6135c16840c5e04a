/-
Model of src/melodia/core/signature.py.
-/
import Verif.Model.Py

set_option autoImplicit false

namespace Melodia

/-- `Signature` object: the two slots `_nominator`, `_denominator`
(src/melodia/core/signature.py:8, properties 36-52). -/
structure Signature where
  nominator : Int
  denominator : Int
  deriving DecidableEq, Repr

namespace Signature

/-- The test `denominator > 0 and (denominator & (denominator - 1) == 0)`
(src/melodia/core/signature.py:27 and :71). `and` short-circuits, so `&` is only evaluated
on a positive `denominator`; there both operands are natural numbers. -/
def isPow2Test (d : Int) : Bool :=
  decide (d > 0) && (d.toNat &&& (d - 1).toNat) == 0

/-- `Signature.__init__` (src/melodia/core/signature.py:10-34). -/
def new (n d : Int) : PyM Signature :=
  if decide (n ≥ 0) && isPow2Test d then .ok ⟨n, d⟩ else .error .valueError

/-- `Signature(*xs)` for an iterable of ints: TypeError unless there are exactly two
(call sites src/melodia/core/note.py:46, src/melodia/core/track.py:36 and :91). -/
def ofIter : List Int → PyM Signature
  | [n, d] => new n d
  | _ => .error .typeError

/-- `Signature.to` (src/melodia/core/signature.py:54-81). -/
def toDen (s : Signature) (d : Int) : PyM Signature :=
  if !isPow2Test d then .error .valueError
  else if d = s.denominator then new s.nominator s.denominator
  else if d > s.denominator then new (pyFloorDiv d s.denominator * s.nominator) d
  else .error .valueError

/-- The loop of `normalized` (src/melodia/core/signature.py:99-103). `n & 1 == 0` is `n % 2 = 0`,
`>>= 1` is floor division by two. Fuel: `d` halves at every step, `d` steps are enough
(`normLoop_fuel` in Lemmas). -/
def normLoop : Nat → Int → Int → Int × Int
  | 0, n, d => (n, d)
  | fuel + 1, n, d =>
    if pyMod n 2 = 0 ∧ d > 1 then normLoop fuel (pyFloorDiv n 2) (pyFloorDiv d 2) else (n, d)

/-- `Signature.normalized` (src/melodia/core/signature.py:83-105). -/
def normalized (s : Signature) : PyM Signature :=
  let r := normLoop s.denominator.toNat s.nominator s.denominator
  new r.1 r.2

/-- `Signature._to_common_denominator` (src/melodia/core/signature.py:107-117).
The last line really returns the operands swapped. -/
def toCommonDenominator (a b : Signature) : Int × Int × Int :=
  let n1 := a.nominator
  let d1 := a.denominator
  let n2 := b.nominator
  let d2 := b.denominator
  if d1 = d2 then (n1, n2, d1)
  else if d1 > d2 then (n1, pyFloorDiv d1 d2 * n2, d1)
  else (n2, pyFloorDiv d2 d1 * n1, d2)

/-- `Signature.__eq__` (src/melodia/core/signature.py:135-144); `!=` is its negation. -/
def eq (a b : Signature) : Bool :=
  let (n1, n2, _) := toCommonDenominator a b
  decide (n1 = n2)

/-- `Signature.__le__` (src/melodia/core/signature.py:146-155). -/
def le (a b : Signature) : Bool :=
  let (n1, n2, _) := toCommonDenominator a b
  decide (n1 ≤ n2)

/-- `Signature.__lt__` (src/melodia/core/signature.py:157-166). -/
def lt (a b : Signature) : Bool :=
  let (n1, n2, _) := toCommonDenominator a b
  decide (n1 < n2)

/-- `Signature.__ge__` (src/melodia/core/signature.py:168-177). -/
def ge (a b : Signature) : Bool :=
  let (n1, n2, _) := toCommonDenominator a b
  decide (n1 ≥ n2)

/-- `Signature.__gt__` (src/melodia/core/signature.py:179-188). -/
def gt (a b : Signature) : Bool :=
  let (n1, n2, _) := toCommonDenominator a b
  decide (n1 > n2)

/-- `Signature.__add__` (src/melodia/core/signature.py:190-199). -/
def add (a b : Signature) : PyM Signature :=
  let (n1, n2, d) := toCommonDenominator a b
  new (n1 + n2) d

/-- `Signature.__mul__` (src/melodia/core/signature.py:201-208). -/
def mul (a b : Signature) : PyM Signature :=
  new (a.nominator * b.nominator) (a.denominator * b.denominator)

/-- `Signature.__abs__` (src/melodia/core/signature.py:210-216). -/
def abs (a : Signature) : PyM Signature :=
  new |a.nominator| a.denominator

end Signature

/-- Value passed where the code expects `Union[Signature, Tuple[int, int]]`:
a `Signature`, an iterable of ints, or anything else. `other` stands both for non-iterables
and for iterables whose elements are no numbers (e.g. the string '1/4'); both end in TypeError.
Floats in the iterable are the subject of Model/SignatureDyn.lean. -/
inductive SigArg where
  | sig (s : Signature)
  | ints (l : List Int)
  | other
  deriving DecidableEq

/-- The coercion repeated at src/melodia/core/note.py:42-48, src/melodia/core/track.py:32-38
and :88-93. -/
def SigArg.coerce : SigArg → PyM Signature
  | .sig s => .ok s
  | .ints l => Signature.ofIter l
  | .other => .error .typeError

end Melodia
