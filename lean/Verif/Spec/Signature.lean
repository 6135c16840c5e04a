/-
Specification side for signatures: what number a signature denotes and which are well formed.
Independent of the model's functions (only the record type is used).
-/
import Verif.Model.Signature
import Mathlib.Algebra.Field.Rat

set_option autoImplicit false

namespace Melodia

/-- The rational number a signature denotes. -/
def Signature.val (s : Signature) : ℚ := (s.nominator : ℚ) / (s.denominator : ℚ)

/-- A positive power of two. -/
def IsPow2 (d : Int) : Prop := ∃ k : Nat, d = 2 ^ k

/-- A well-formed signature: non-negative nominator, denominator a positive power of two. -/
structure Signature.Valid (s : Signature) : Prop where
  nom : 0 ≤ s.nominator
  den : IsPow2 s.denominator

end Melodia
