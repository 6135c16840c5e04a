/-
Specification of chord progressions.
-/
import Verif.Model.Progression
import Verif.Spec.Chord
import Verif.Spec.Sequence

set_option autoImplicit false

namespace Melodia

variable [UnicodeDigits]

/-- A call of a documented chord function with valid arguments, and the notes it stands for: the documented intervals
above the base, all with the duration and velocity of the call. -/
structure ChordCall.Denotes (c : ChordCall) (notes : List Note) : Prop where
  documented : c.fn ∈ chordFunctions
  notes : ∃ g ∈ generatorChords, c.fn.name.toList ∈ g.names ∧ ∃ p s q, BaseDenotes c.base p ∧
    ChordDuration c.base c.duration s ∧ s.Valid ∧ ChordVelocity c.base c.velocity q ∧ 0 ≤ q ∧ q ≤ 1 ∧
    notes = g.notation'.map (fun k => ⟨⟨p + k⟩, s, q⟩)

end Melodia
