/-
Specification vocabulary for chords.
-/
import Verif.Model.Chord
import Verif.Spec.Note

set_option autoImplicit false

namespace Melodia
variable [UnicodeDigits]

/-- The pitch a base argument stands for. -/
inductive BaseDenotes : BaseArg → Int → Prop
  | int (i : Int) : BaseDenotes (.int i) i
  | str (s : List Char) (p : Int) (rest : List Char) (h : Reads s p rest) : BaseDenotes (.str s) p
  | tone (t : Tone) : BaseDenotes (.tone t) t.pitch
  | note (n : Note) : BaseDenotes (.note n) n.tone.pitch

omit [UnicodeDigits]

/-- The chord duration: the given one, else that of a note given as base, else 1/4. -/
inductive ChordDuration : BaseArg → Option SigArg → Signature → Prop
  | given (b : BaseArg) (a : SigArg) (s : Signature) (h : SigDenotes a s) : ChordDuration b (some a) s
  | ofNote (n : Note) : ChordDuration (.note n) none n.duration
  | default (b : BaseArg) (h : ∀ n, b ≠ .note n) : ChordDuration b none ⟨1, 4⟩

/-- The chord velocity: the given one, else that of a note given as base, else 0.75. -/
inductive ChordVelocity : BaseArg → Option PyFloat → ℚ → Prop
  | given (b : BaseArg) (q : ℚ) : ChordVelocity b (some (.fin q)) q
  | ofNote (n : Note) : ChordVelocity (.note n) none n.velocity
  | default (b : BaseArg) (h : ∀ n, b ≠ .note n) : ChordVelocity b none (3 / 4)

/-- The function names a row of the generator table documents. -/
def GenChord.names (g : GenChord) : List (List Char) := (splitCommas g.name.toList).map stripBlanks

/-- The name starts with the given word. -/
def ChordFn.named (f : ChordFn) (w : String) : Bool := w.toList.isPrefixOf f.name.toList

end Melodia
