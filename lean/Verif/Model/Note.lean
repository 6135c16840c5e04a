/-
Model of src/melodia/core/note.py.
-/
import Verif.Model.Signature
import Verif.Model.Tone

set_option autoImplicit false

namespace Melodia

/-- `Note` object: slots `_tone`, `_duration`, `_velocity` (src/melodia/core/note.py:11, properties
55-80). The constructor only stores velocities with `0.0 <= v <= 1.0`, hence finite ones: the
field is the rational the double denotes. -/
structure Note where
  tone : Tone
  duration : Signature
  velocity : ℚ
  deriving DecidableEq

/-- The chain `Tone` / `int` / `str` / error at src/melodia/core/note.py:33-40. -/
def ToneArg.coerceNote [UnicodeDigits] : ToneArg → PyM Tone
  | .tone t => .ok t
  | .int i => Tone.new (.int i)
  | .str s => Tone.fromNotation s
  | .other => .error .typeError

/-- `0.0 <= velocity <= 1.0` (src/melodia/core/note.py:50). -/
def velocityInRange (v : PyFloat) : Bool := (PyFloat.fin 0).le v && v.le (.fin 1)

namespace Note

/-- `Note.__init__` (src/melodia/core/note.py:13-53). -/
def new [UnicodeDigits] (tone : ToneArg) (duration : SigArg := .sig ⟨1, 4⟩)
    (velocity : PyFloat := .fin (3 / 4)) : PyM Note := do
  let t ← tone.coerceNote
  let d ← duration.coerce
  if !velocityInRange velocity then .error .valueError
  else match velocity with
    | .fin v => .ok ⟨t, d, v⟩
    | _ => .error .valueError  -- unreachable: only finite velocities pass the range test

/-- `Note.transposed` (src/melodia/core/note.py:82-93). -/
def transposed [UnicodeDigits] (n : Note) (k : Int) : PyM Note := do
  let t ← n.tone.transposed k
  new (.tone t) (.sig n.duration) (.fin n.velocity)

/-- `Note.with_duration` (src/melodia/core/note.py:95-106). -/
def withDuration [UnicodeDigits] (n : Note) (d : SigArg) : PyM Note :=
  new (.tone n.tone) d (.fin n.velocity)

/-- `Note.with_velocity` (src/melodia/core/note.py:108-119). -/
def withVelocity [UnicodeDigits] (n : Note) (v : PyFloat) : PyM Note :=
  new (.tone n.tone) (.sig n.duration) v

/-- `Note.__eq__` (src/melodia/core/note.py:145-152): tuple `==` on `_as_triplet()` (121-122),
i.e. all three components compare equal with their own `==`. -/
def eq (a b : Note) : Bool :=
  a.tone.eq b.tone && a.duration.eq b.duration && decide (a.velocity = b.velocity)

/-- Python tuple comparison of `_as_triplet()`s (src/melodia/core/note.py:121-122): find the first
component that is not `==`, compare it with the given operator; `dflt` if all are equal. -/
def tripletCmp (tc : Tone → Tone → Bool) (sc : Signature → Signature → Bool) (vc : ℚ → ℚ → Bool)
    (dflt : Bool) (a b : Note) : Bool :=
  if !a.tone.eq b.tone then tc a.tone b.tone
  else if !a.duration.eq b.duration then sc a.duration b.duration
  else if !decide (a.velocity = b.velocity) then vc a.velocity b.velocity
  else dflt

/-- `Note.__le__` (src/melodia/core/note.py:154-161). -/
def le (a b : Note) : Bool := tripletCmp Tone.le Signature.le (fun x y => decide (x ≤ y)) true a b
/-- `Note.__lt__` (src/melodia/core/note.py:163-170). -/
def lt (a b : Note) : Bool := tripletCmp Tone.lt Signature.lt (fun x y => decide (x < y)) false a b
/-- `Note.__ge__` (src/melodia/core/note.py:172-179). -/
def ge (a b : Note) : Bool := tripletCmp Tone.ge Signature.ge (fun x y => decide (x ≥ y)) true a b
/-- `Note.__gt__` (src/melodia/core/note.py:181-188). -/
def gt (a b : Note) : Bool := tripletCmp Tone.gt Signature.gt (fun x y => decide (x > y)) false a b

end Note

end Melodia
