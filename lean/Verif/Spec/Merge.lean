/-
Specification of the time signature of a file read without a channel: the order of the channels and how
the signatures of the channels replace each other.
-/
import Verif.Spec.MidiRead

set_option autoImplicit false

namespace Melodia

/-- The elements of a list in the order of their first occurrence. -/
def firsts : List Nat → List Nat
  | [] => []
  | x :: xs => x :: (firsts xs).filter (fun y => y ≠ x)

/-- The channels in the order of their first note event; channel 0 if there is no note event. -/
def channelOrder (es : List (Nat × Ev)) : List Nat :=
  match firsts ((es.filterMap (fun x => x.2.note?)).map (fun n => n.1)) with
  | [] => [0]
  | cs => cs

/-- `s` takes the place of `acc`: it is longer and its denominator is not smaller, or it is shorter (!) and
its denominator is smaller. -/
def Overtakes (s acc : Signature) : Prop :=
  (acc.denominator ≤ s.denominator ∧ acc.val < s.val) ∨ (s.denominator < acc.denominator ∧ s.val < acc.val)

/-- The signature left over after all have had their turn. -/
inductive Winner : Signature → List Signature → Signature → Prop
  | nil (acc) : Winner acc [] acc
  | takes {acc s l r} (h : Overtakes s acc) (hr : Winner s l r) : Winner acc (s :: l) r
  | keeps {acc s l r} (h : ¬ Overtakes s acc) (hr : Winner acc l r) : Winner acc (s :: l) r

end Melodia
