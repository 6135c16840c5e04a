/-
`__str__` and `__repr__` of Signature, Note and Track with Python's limit on the number of digits in conversions from int to str
(see Model/ToneLimit.lean). Conversions of floats have no limit.
-/
import Verif.Model.Text
import Verif.Model.ToneLimit

set_option autoImplicit false

namespace Melodia

/-- `Signature.__str__` (src/melodia/core/signature.py:119-125) with the limit. -/
def Signature.strLimit (limit : Option Nat) (s : Signature) : PyM (List Char) := do
  let n ← strOfInt limit s.nominator
  let d ← strOfInt limit s.denominator
  .ok (n ++ "/".toList ++ d)

/-- `f'({s.nominator}, {s.denominator})'` (src/melodia/core/note.py:141, src/melodia/core/track.py:168, 172) with the limit. -/
def Signature.tupleTextLimit (limit : Option Nat) (s : Signature) : PyM (List Char) := do
  let n ← strOfInt limit s.nominator
  let d ← strOfInt limit s.denominator
  .ok ("(".toList ++ n ++ ", ".toList ++ d ++ ")".toList)

/-- `Signature.__repr__` (src/melodia/core/signature.py:127-133) with the limit. -/
def Signature.reprLimit (limit : Option Nat) (s : Signature) : PyM (List Char) := do
  let t ← s.tupleTextLimit limit
  .ok ("Signature".toList ++ t)

/-- `Note.__str__` (src/melodia/core/note.py:124-130) with the limit. -/
def Note.strLimit (limit : Option Nat) (n : Note) : PyM (List Char) := do
  let duration ← n.duration.strLimit limit
  let tone ← n.tone.strLimit limit
  .ok ("Note ".toList ++ duration ++ " ".toList ++ tone ++ " (".toList ++ fixed3 n.velocity ++ ")".toList)

/-- `Note.__repr__` (src/melodia/core/note.py:132-143) with the limit. -/
def Note.reprLimit (limit : Option Nat) (F : FloatText) (n : Note) : PyM (List Char) := do
  let duration ← n.duration.tupleTextLimit limit
  let pitch ← strOfInt limit n.tone.pitch
  .ok ("Note(tone=".toList ++ pitch ++ ", duration=".toList ++ duration ++
    ", velocity=".toList ++ F.text n.velocity ++ ") ".toList)

/-- One element of `contents` in `Track.__repr__` (src/melodia/core/track.py:170-172) with the limit. -/
def Entry.reprLimit (limit : Option Nat) (F : FloatText) (e : Entry) : PyM (List Char) := do
  let note ← e.2.reprLimit limit F
  let position ← e.1.tupleTextLimit limit
  .ok ("(".toList ++ note ++ ", ".toList ++ position ++ ")".toList)

/-- The loop of `Track.__repr__` (src/melodia/core/track.py:171-172) with the limit. -/
def entryTextsLimit (limit : Option Nat) (F : FloatText) : List Entry → PyM (List (List Char))
  | [] => .ok []
  | e :: es => do
    let x ← e.reprLimit limit F
    let xs ← entryTextsLimit limit F es
    .ok (x :: xs)

/-- `Track.__str__` (src/melodia/core/track.py:153-159) with the limit. -/
def Track.strLimit (limit : Option Nat) (t : Track) : PyM (List Char) := do
  let signature ← t.signature.strLimit limit
  let len ← strOfInt limit t.len
  .ok ("Track ".toList ++ signature ++ " with ".toList ++ len ++ " notes".toList)

/-- `Track.__repr__` (src/melodia/core/track.py:161-174) with the limit: the signature is written first (line 168); the iteration
(line 171) sorts the track, also if the text of an entry then raises. -/
def Track.reprLimit (limit : Option Nat) (S : ListSort) (F : FloatText) (t : Track) : Track × PyM (List Char) :=
  match t.signature.tupleTextLimit limit with
  | .error e => (t, .error e)
  | .ok signature =>
    let (t', items) := t.iter S
    (t', do
      let contents ← entryTextsLimit limit F items
      .ok ("Track(signature=".toList ++ signature ++ ", content=[".toList ++ joinComma contents ++ "])".toList))

end Melodia
