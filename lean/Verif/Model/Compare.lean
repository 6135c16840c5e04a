/-
Python's comparison operators on objects of melodia's four classes and of other classes, and what the built-in
functions make of them: `in` for lists, `sum`, `max` and `min`.
-/
import Verif.Model.Track

set_option autoImplicit false

namespace Melodia

/-- A value. `other` stands for any object of a class outside melodia whose comparison methods return `NotImplemented` for
melodia's objects and which lacks melodia's private attributes (ints, floats, strings, tuples, None, fractions). -/
inductive AnyVal where
  | tone (t : Tone)
  | signature (s : Signature)
  | note (n : Note)
  | track (t : Track)
  | other

/-- The six comparison operators. -/
inductive CmpOp where
  | eq | ne | lt | le | gt | ge
  deriving DecidableEq

/-- The operator tried on the right operand when the left one does not know the answer. -/
def CmpOp.reflected : CmpOp → CmpOp
  | .eq => .eq
  | .ne => .ne
  | .lt => .gt
  | .le => .ge
  | .gt => .lt
  | .ge => .le

/-- Result of a comparison method: `none` is `NotImplemented`. -/
abbrev CmpResult := Option (PyM Bool)

/-- Tone.__eq__ .. __gt__ (src/melodia/core/tone.py:196-239), `!=` being `not ==` (`object.__ne__`). -/
def toneMethod (op : CmpOp) (a b : Tone) : Bool :=
  match op with
  | .eq => a.eq b
  | .ne => !a.eq b
  | .lt => a.lt b
  | .le => a.le b
  | .gt => a.gt b
  | .ge => a.ge b

/-- Signature.__eq__ .. __gt__ (src/melodia/core/signature.py:135-188). -/
def signatureMethod (op : CmpOp) (a b : Signature) : Bool :=
  match op with
  | .eq => a.eq b
  | .ne => !a.eq b
  | .lt => a.lt b
  | .le => a.le b
  | .gt => a.gt b
  | .ge => a.ge b

/-- Note.__eq__ .. __gt__ (src/melodia/core/note.py:145-188). -/
def noteMethod (op : CmpOp) (a b : Note) : Bool :=
  match op with
  | .eq => a.eq b
  | .ne => !a.eq b
  | .lt => a.lt b
  | .le => a.le b
  | .gt => a.gt b
  | .ge => a.ge b

/-- `type(x).__op__(x, y)`. The first thing the methods do with an operand of another class is to read a private attribute it
does not have (`_pitch`, `_nominator`, `_as_triplet`, `_signature`): AttributeError. `Track` (src/melodia/core/track.py:115-130)
has `==` only; the order methods are those of `object`. -/
def cmpMethod (S : ListSort) (op : CmpOp) : AnyVal → AnyVal → CmpResult
  | .tone a, .tone b => some (.ok (toneMethod op a b))
  | .tone _, _ => some (.error .attributeError)
  | .signature a, .signature b => some (.ok (signatureMethod op a b))
  | .signature _, _ => some (.error .attributeError)
  | .note a, .note b => some (.ok (noteMethod op a b))
  | .note _, _ => some (.error .attributeError)
  | .track a, y =>
    if op = .eq ∨ op = .ne then
      match y with
      | .track b => some (.ok (if op = .eq then a.eq S b else !a.eq S b))
      | _ => some (.error .attributeError)
    else none
  | .other, _ => none

/-- `x op y`: the method of the left operand, then the reflected one of the right operand; if neither knows the answer, `==`
and `!=` compare identities (`same`), the others raise TypeError. No class is a subclass of another. -/
def richCompare (S : ListSort) (op : CmpOp) (same : Bool) (x y : AnyVal) : PyM Bool :=
  match cmpMethod S op x y with
  | some r => r
  | none =>
    match cmpMethod S op.reflected y x with
    | some r => r
    | none => if op = .eq then .ok same else if op = .ne then .ok !same else .error .typeError

/-- `x in l` for a list of other objects: `==` from left to right up to the first that is equal. -/
def memberOf (S : ListSort) (x : AnyVal) : List AnyVal → PyM Bool
  | [] => .ok false
  | y :: l => do
    let b ← richCompare S .eq false y x
    if b then .ok true else memberOf S x l

/-- `sum(l, start)` of signatures. -/
def sumSig (start : Signature) : List Signature → PyM Signature
  | [] => .ok start
  | s :: l => do
    let r ← start.add s
    sumSig r l

/-- `sum(l)` without a start value: it begins with the int 0, and ints cannot be added to signatures (there is no
`__radd__` in src/melodia/core/signature.py); the sum of no elements is the int 0 (`none`). -/
def sumSig0 : List Signature → PyM (Option Signature)
  | [] => .ok none
  | _ :: _ => .error .typeError

/-- `max(l)` with the `>` of the elements: an element replaces the best so far if it is greater. -/
def pyMaxOf {α : Type} (gt : α → α → Bool) : List α → PyM α
  | [] => .error .valueError
  | a :: l => .ok (l.foldl (fun best x => if gt x best then x else best) a)

/-- `min(l)` with the `<` of the elements. -/
def pyMinOf {α : Type} (lt : α → α → Bool) : List α → PyM α
  | [] => .error .valueError
  | a :: l => .ok (l.foldl (fun best x => if lt x best then x else best) a)

end Melodia
