/-
`Track.add` called with arbitrarily nested objects (src/melodia/core/track.py:70-113), including strings, other
tracks and objects that are neither notes nor iterable.
-/
import Verif.Model.TrackRaw

set_option autoImplicit false

namespace Melodia

/-- What may be passed as `what`: a note, an iterable (list, tuple, ...) of objects, a string, or an object that is
not iterable and not a note (see Model/TrackRaw.lean). Iterables containing themselves are not representable. -/
inductive Obj where
  | note (n : Note)
  | iter (l : List Obj)
  | str (s : List Char)
  | foreign

/-- What iterating over a track gives: tuples of a position (a `Signature`, not iterable and not a note) and a note
(src/melodia/core/track.py:131-143). -/
def Obj.ofTrack (items : List Entry) : Obj := .iter (items.map (fun e => .iter [.foreign, .note e.2]))

namespace RawTrack

/-- `for x in what: self.add(what=x, where=position)` (src/melodia/core/track.py:96-97): stops at the first exception. -/
def addEach (f : RawTrack → Obj → PyM Unit × RawTrack) : RawTrack → List Obj → PyM Unit × RawTrack
  | t, [] => (.ok (), t)
  | t, x :: xs =>
    match f t x with
    | (.error e, t) => (.error e, t)
    | (.ok (), t) => addEach f t xs

/-- `Track.add` from line 95 on. The first argument is the number of nested calls of `add` the recursion limit of the
interpreter leaves room for; frames of other functions are not counted. Iterating over a string gives its characters,
which are strings. -/
def addNested : Nat → RawTrack → Obj → Signature → PyM Unit × RawTrack
  | 0, t, _, _ => (.error .recursionError, t)
  | _ + 1, t, .note n, position => t.addObject (some n) position
  | _ + 1, t, .foreign, position => t.addObject none position
  | limit + 1, t, .iter l, position => addEach (fun t x => addNested limit t x position) t l
  | limit + 1, t, .str s, position =>
    addEach (fun t x => addNested limit t x position) t (s.map (fun c => .str [c]))

/-- `Track.add` (src/melodia/core/track.py:70-113). -/
def add (limit : Nat) (t : RawTrack) (what : Obj) (where_ : Option SigArg) : PyM Unit × RawTrack :=
  match (match where_ with | none => pure t.maxPosition | some a => a.coerce : PyM Signature) with
  | .error e => (.error e, t)
  | .ok position => addNested limit t what position

end RawTrack

end Melodia
