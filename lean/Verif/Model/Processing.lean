/-
Model of src/melodia/processing/track.py.
-/
import Verif.Model.Track

set_option autoImplicit false

namespace Melodia

/-- `max(minimum, min(maximum, g))` (src/melodia/processing/track.py:42). -/
def clampVelocity (minimum maximum g : PyFloat) : PyFloat := minimum.max (maximum.min g)

/-- The loop of `randomize_velocities` (src/melodia/processing/track.py:41-43). `gauss` is the stream of
values `random.gauss(mean, std)` returns, one per note. -/
def randomizeLoop [UnicodeDigits] (minimum maximum : PyFloat) (gauss : Nat → PyFloat) :
    Nat → Track → List Entry → PyM Track
  | _, result, [] => .ok result
  | i, result, (position, note) :: rest => do
    let note' ← note.withVelocity (clampVelocity minimum maximum (gauss i))
    let result' ← result.add (.note note') (some (.sig position))
    randomizeLoop minimum maximum gauss (i + 1) result' rest

/-- `randomize_velocities` (src/melodia/processing/track.py:7-45): the input track after the call
(iteration may sort it in place) and the result. `gauss` gives the outcomes of the random
generator; `mean` and `variance` only influence it, beyond being validated. -/
def randomizeVelocities [UnicodeDigits] (S : ListSort) (track : Track)
    (minimum maximum mean variance : PyFloat) (gauss : Nat → PyFloat) : Track × PyM Track :=
  if !((PyFloat.fin 0).le minimum && minimum.le (.fin 1)) then (track, .error .valueError)
  else if !((PyFloat.fin 0).le maximum && maximum.le (.fin 1)) then (track, .error .valueError)
  else if !((PyFloat.fin 0).le mean && mean.le (.fin 1)) then (track, .error .valueError)
  else if !((PyFloat.fin 0).le variance) then (track, .error .valueError)
  else
    let (track', items) := track.iter S
    (track', randomizeLoop minimum maximum gauss 0 (Track.empty track.signature) items)

end Melodia
