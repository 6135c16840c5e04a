/-
`Signature` called with values that need not be ints (src/melodia/core/signature.py). The constructor does not look
at types: what happens follows from the operators `>=`, `>`, `-` and `&` of the values.
-/
import Verif.Model.Signature

set_option autoImplicit false

namespace Melodia

/-- A Python value: an int, a bool, a float, or an object that cannot be compared with an int (a string, a tuple,
None, ...). Other kinds of numbers (`Fraction`, `Decimal`, numpy) are not modelled. -/
inductive PyVal where
  | int (i : Int)
  | bool (b : Bool)
  | float (x : PyFloat)
  | other
  deriving DecidableEq

namespace PyVal

/-- `x >= 0`: `bool` is a subclass of `int`; TypeError if there is no such comparison. -/
def ge0 : PyVal → PyM Bool
  | .int i => .ok (decide (i ≥ 0))
  | .bool b => .ok (decide ((b.toNat : Int) ≥ 0))
  | .float x => .ok (PyFloat.le (.fin 0) x)
  | .other => .error .typeError

/-- `x > 0`. -/
def gt0 : PyVal → PyM Bool
  | .int i => .ok (decide (i > 0))
  | .bool b => .ok (decide ((b.toNat : Int) > 0))
  | .float x => .ok (PyFloat.lt (.fin 0) x)
  | .other => .error .typeError

/-- `x & (x - 1) == 0`, evaluated for positive `x` only; floats have no `&`. -/
def pow2 : PyVal → PyM Bool
  | .int i => .ok ((i.toNat &&& (i - 1).toNat) == 0)
  | .bool b => .ok ((b.toNat &&& ((b.toNat : Int) - 1).toNat) == 0)
  | .float _ => .error .typeError
  | .other => .error .typeError

end PyVal

/-- A `Signature` object with whatever values its slots hold. -/
structure DynSignature where
  nominator : PyVal
  denominator : PyVal
  deriving DecidableEq

namespace DynSignature

/-- `a and b`: `b` is evaluated only if `a` is true. -/
def andThen (a b : PyM Bool) : PyM Bool := do
  let x ← a
  if x then b else pure false

/-- `Signature.__init__` (src/melodia/core/signature.py:27-34). -/
def new (n d : PyVal) : PyM DynSignature := do
  let ok ← andThen (andThen n.ge0 d.gt0) d.pow2
  if !ok then .error .valueError
  pure ⟨n, d⟩

/-- `n & 1` for the slot of a signature: floats have no `&`. -/
def and1 : PyVal → PyM Int
  | .int i => .ok (pyMod i 2)
  | .bool b => .ok (pyMod b.toNat 2)
  | .float _ => .error .typeError
  | .other => .error .typeError

/-- `n >> 1`: an int. -/
def shr1 : PyVal → PyM PyVal
  | .int i => .ok (.int (pyFloorDiv i 2))
  | .bool b => .ok (.int (pyFloorDiv b.toNat 2))
  | .float _ => .error .typeError
  | .other => .error .typeError

/-- `d > 1` for the denominator of a signature. -/
def gt1 : PyVal → PyM Bool
  | .int i => .ok (decide (i > 1))
  | .bool b => .ok (decide ((b.toNat : Int) > 1))
  | .float x => .ok (PyFloat.lt (.fin 1) x)
  | .other => .error .typeError

/-- The loop of `normalized` (src/melodia/core/signature.py:101-103), see `Signature.normLoop`. -/
def normLoop : Nat → PyVal → PyVal → PyM (PyVal × PyVal)
  | 0, n, d => .ok (n, d)
  | fuel + 1, n, d => do
    let r ← and1 n
    let go ← andThen (pure (decide (r = 0))) (gt1 d)
    if go then
      let n ← shr1 n
      let d ← shr1 d
      normLoop fuel n d
    else pure (n, d)

/-- `Signature.normalized` (src/melodia/core/signature.py:83-105); `fuel` bounds the number of halvings. -/
def normalized (fuel : Nat) (s : DynSignature) : PyM DynSignature := do
  let (n, d) ← normLoop fuel s.nominator s.denominator
  new n d

end DynSignature

end Melodia
