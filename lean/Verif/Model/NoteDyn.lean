/-
`Note` made with a velocity that need not be a float (src/melodia/core/note.py). The constructor compares the velocity with
0.0 and 1.0 and keeps the object it was given.
-/
import Verif.Model.Note
import Verif.Model.WriterDyn

set_option autoImplicit false

namespace Melodia

/-- A `Note` object with whatever object its slot `_velocity` holds. -/
structure DynNote where
  tone : Tone
  duration : Signature
  velocity : PyVal
  deriving DecidableEq

namespace DynNote

/-- `Note.__init__` (src/melodia/core/note.py:13-53). Ints and bools compare with 0.0 and 1.0 as with 0 and 1. -/
def new [UnicodeDigits] (tone : ToneArg) (duration : SigArg) (velocity : PyVal) : PyM DynNote := do
  let t ← tone.coerceNote
  let d ← duration.coerce
  let ok ← velocity.between 0 1
  if !ok then .error .valueError
  pure ⟨t, d, velocity⟩

/-- `Note.transposed` (src/melodia/core/note.py:82-93). -/
def transposed [UnicodeDigits] (n : DynNote) (k : Int) : PyM DynNote := do
  let t ← n.tone.transposed k
  new (.tone t) (.sig n.duration) n.velocity

/-- `Note.with_duration` (src/melodia/core/note.py:95-106). -/
def withDuration [UnicodeDigits] (n : DynNote) (d : SigArg) : PyM DynNote := new (.tone n.tone) d n.velocity

/-- `Note.with_velocity` (src/melodia/core/note.py:108-119). -/
def withVelocity [UnicodeDigits] (n : DynNote) (v : PyVal) : PyM DynNote := new (.tone n.tone) (.sig n.duration) v

/-- `Note.__eq__` (src/melodia/core/note.py:145-152). Python compares ints, bools and finite floats by value. -/
def eq (a b : DynNote) : Bool :=
  a.tone.eq b.tone && a.duration.eq b.duration && decide (a.velocity.time = b.velocity.time)

/-- The comparison of triplets, see `Note.tripletCmp`. -/
def tripletCmp (tc : Tone → Tone → Bool) (sc : Signature → Signature → Bool) (vc : ℚ → ℚ → Bool)
    (dflt : Bool) (a b : DynNote) : Bool :=
  if !a.tone.eq b.tone then tc a.tone b.tone
  else if !a.duration.eq b.duration then sc a.duration b.duration
  else if !decide (a.velocity.time = b.velocity.time) then vc a.velocity.time b.velocity.time
  else dflt

/-- `Note.__le__` (src/melodia/core/note.py:154-161). -/
def le (a b : DynNote) : Bool := tripletCmp Tone.le Signature.le (fun x y => decide (x ≤ y)) true a b
/-- `Note.__lt__` (src/melodia/core/note.py:163-170). -/
def lt (a b : DynNote) : Bool := tripletCmp Tone.lt Signature.lt (fun x y => decide (x < y)) false a b
/-- `Note.__ge__` (src/melodia/core/note.py:172-179). -/
def ge (a b : DynNote) : Bool := tripletCmp Tone.ge Signature.ge (fun x y => decide (x ≥ y)) true a b
/-- `Note.__gt__` (src/melodia/core/note.py:181-188). -/
def gt (a b : DynNote) : Bool := tripletCmp Tone.gt Signature.gt (fun x y => decide (x > y)) false a b

/-- `max(0, min(127, int(note.velocity * 127)))` (src/melodia/io/midi.py:121): the product of an int or bool is an int. -/
def velocityByte (n : DynNote) : Int :=
  match n.velocity with
  | .int i => max 0 (min 127 (i * 127))
  | .bool b => max 0 (min 127 ((b.toNat : Int) * 127))
  | .float (.fin q) => max 0 (min 127 (pyTrunc (fl (q * 127))))
  | _ => 0  -- unreachable: the constructor accepts finite numbers only

end DynNote

end Melodia
