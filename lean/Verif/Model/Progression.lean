/-
Programs of the kind shown in README.rst:40-51: chords added one after the other to a new track, which is then written.
-/
import Verif.Model.Chord
import Verif.Model.MidiRead

set_option autoImplicit false

namespace Melodia

/-- A call of a function of melodia.music.chord, e.g. `chord.maj('C3', (1, 1))`. -/
structure ChordCall where
  fn : ChordFn
  base : BaseArg
  duration : Option SigArg
  velocity : Option PyFloat

/-- `track.add(chord.f(base, duration, velocity))` for each call (README.rst:45-48). -/
def addChords [UnicodeDigits] : Track → List ChordCall → PyM Track
  | track, [] => .ok track
  | track, c :: rest => do
    let notes ← c.fn.call c.base c.duration c.velocity
    let track ← track.add (.many (notes.map .note)) none
    addChords track rest

/-- The track of the program (README.rst:43-48). -/
def progressionTrack [UnicodeDigits] (signature : SigArg) (calls : List ChordCall) : PyM Track := do
  let track ← Track.new signature []
  addChords track calls

/-- The whole program (README.rst:43-51); the result is what is in the file. -/
def progressionFile [UnicodeDigits] (S : ListSort) (signature : SigArg) (calls : List ChordCall) (bpm : PyFloat := .fin 120)
    (channel : Int := 0) : PyM Bytes := do
  let track ← progressionTrack signature calls
  midiDumps S track bpm channel

end Melodia
