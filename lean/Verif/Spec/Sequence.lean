/-
Specification vocabulary for music laid end to end: groups of notes, each group starting where the longest
note of the group before ends.
-/
import Verif.Spec.Track

set_option autoImplicit false

namespace Melodia

/-- The longest duration in a group, 0 for no notes. -/
def longest : List Note → ℚ
  | [] => 0
  | n :: ns => max n.duration.val (longest ns)

/-- Groups of notes laid end to end from position `x` on. -/
def laidOut : ℚ → List (List Note) → List (ℚ × Note)
  | _, [] => []
  | x, ns :: rest => ns.map (fun n => (x, n)) ++ laidOut (x + longest ns) rest

/-- How long the whole is. -/
def laidLength : List (List Note) → ℚ
  | [] => 0
  | ns :: rest => longest ns + laidLength rest

/-- Within a group, no duration has a smaller denominator than an earlier one. This holds for single
notes and for groups with one common duration, as made by the functions of melodia.music.chord. -/
def EvenGroup (ns : List Note) : Prop :=
  ns.Pairwise (fun m n => m.duration.denominator ≤ n.duration.denominator)

end Melodia
