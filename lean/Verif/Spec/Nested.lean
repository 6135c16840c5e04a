/-
Specification of nested arguments of `Track.add`: the objects reached by going through an argument from left to right.
-/
import Verif.Model.TrackNested

set_option autoImplicit false

namespace Melodia

/-- What is reached: a note, a foreign object, or the end of the recursion limit. -/
inductive Leaf where
  | note (n : Note)
  | foreign
  | tooDeep

/-- `Reaches limit o ls`: going through `o` from left to right, with nesting up to `limit`, meets the leaves `ls`.
A character is a string containing itself, so strings never end. -/
inductive Reaches : Nat → Obj → List Leaf → Prop
  | deep (o) : Reaches 0 o [.tooDeep]
  | note (limit n) : Reaches (limit + 1) (.note n) [.note n]
  | foreign (limit) : Reaches (limit + 1) .foreign [.foreign]
  | nil (limit) : Reaches (limit + 1) (.iter []) []
  | cons {limit x l a b} (hx : Reaches limit x a) (hl : Reaches (limit + 1) (.iter l) b) :
      Reaches (limit + 1) (.iter (x :: l)) (a ++ b)
  | empty (limit) : Reaches (limit + 1) (.str []) []
  | char {limit c s a b} (hx : Reaches limit (.str [c]) a) (hl : Reaches (limit + 1) (.str s) b) :
      Reaches (limit + 1) (.str (c :: s)) (a ++ b)

/-- Nested notes only, nesting at most `depth`. -/
inductive Obj.NotesOnly : Nat → Obj → List Note → Prop
  | note (depth n) : Obj.NotesOnly depth (.note n) [n]
  | nil (depth) : Obj.NotesOnly (depth + 1) (.iter []) []
  | cons {depth x l a b} (hx : Obj.NotesOnly depth x a) (hl : Obj.NotesOnly (depth + 1) (.iter l) b) :
      Obj.NotesOnly (depth + 1) (.iter (x :: l)) (a ++ b)

end Melodia
