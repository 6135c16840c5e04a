/-
What fits Python's limit on digits.
-/
import Verif.Model.Track

set_option autoImplicit false

namespace Melodia

/-- The numbers of a signature have at most `l` digits. -/
def Signature.Short (l : Nat) (s : Signature) : Prop := s.nominator < 10 ^ l ∧ s.denominator < 10 ^ l

/-- The numbers in the `repr` of a note have at most `l` digits. -/
def Note.Short (l : Nat) (n : Note) : Prop := -10 ^ l < n.tone.pitch ∧ n.tone.pitch < 10 ^ l ∧ n.duration.Short l

instance (l : Nat) (s : Signature) : Decidable (s.Short l) := by unfold Signature.Short; infer_instance
instance (l : Nat) (n : Note) : Decidable (n.Short l) := by unfold Note.Short; infer_instance

end Melodia
