/-
Model of the text forms: `__str__` and `__repr__` of Signature, Note and Track (those of Tone are in
Model/Tone.lean).
-/
import Verif.Model.Track

set_option autoImplicit false

namespace Melodia

/-- Python's `repr`/`str` of a finite float, as far as it is needed: it identifies the float and consists of
digits, point, exponent mark and signs (only the absence of ')' matters). Which text it is exactly is left
open. -/
structure FloatText where
  text : ℚ → List Char
  injective : ∀ a b, fl a = a → fl b = b → text a = text b → a = b
  chars : ∀ a, ∀ c ∈ text a, c ≠ ')'

/-- `f'{v:.3f}'` for `v >= 0`: rounded to the nearest thousandth, ties (exact ones) to even. -/
def fixed3 (v : ℚ) : List Char :=
  let k := (roundHalfEven (1000 * v)).toNat
  natStr (k / 1000) ++ '.' :: [Char.ofNat (48 + k / 100 % 10), Char.ofNat (48 + k / 10 % 10), Char.ofNat (48 + k % 10)]

/-- `Signature.__str__` (src/melodia/core/signature.py:119-125). -/
def Signature.str (s : Signature) : List Char := intStr s.nominator ++ "/".toList ++ intStr s.denominator

/-- `f'({s.nominator}, {s.denominator})'` (src/melodia/core/note.py:141, src/melodia/core/track.py:168, 172). -/
def Signature.tupleText (s : Signature) : List Char :=
  "(".toList ++ intStr s.nominator ++ ", ".toList ++ intStr s.denominator ++ ")".toList

/-- `Signature.__repr__` (src/melodia/core/signature.py:127-133). -/
def Signature.repr (s : Signature) : List Char := "Signature".toList ++ s.tupleText

/-- `Note.__str__` (src/melodia/core/note.py:124-130). -/
def Note.str (n : Note) : PyM (List Char) := do
  let tone ← n.tone.str
  .ok ("Note ".toList ++ n.duration.str ++ " ".toList ++ tone ++ " (".toList ++ fixed3 n.velocity ++ ")".toList)

/-- `Note.__repr__` (src/melodia/core/note.py:132-143), with the trailing space. -/
def Note.repr (F : FloatText) (n : Note) : List Char :=
  "Note(tone=".toList ++ intStr n.tone.pitch ++ ", duration=".toList ++ n.duration.tupleText ++
    ", velocity=".toList ++ F.text n.velocity ++ ") ".toList

/-- One element of `contents` in `Track.__repr__` (src/melodia/core/track.py:170-172). -/
def Entry.repr (F : FloatText) (e : Entry) : List Char :=
  "(".toList ++ e.2.repr F ++ ", ".toList ++ e.1.tupleText ++ ")".toList

/-- `", ".join(parts)`. -/
def joinComma : List (List Char) → List Char
  | [] => []
  | [p] => p
  | p :: q :: ps => p ++ ", ".toList ++ joinComma (q :: ps)

/-- `Track.__str__` (src/melodia/core/track.py:153-159). -/
def Track.str (t : Track) : List Char :=
  "Track ".toList ++ t.signature.str ++ " with ".toList ++ intStr t.len ++ " notes".toList

/-- `Track.__repr__` (src/melodia/core/track.py:161-174): iterates the track (and so sorts it). -/
def Track.repr (S : ListSort) (F : FloatText) (t : Track) : Track × List Char :=
  let (t', items) := t.iter S
  (t', "Track(signature=".toList ++ t.signature.tupleText ++ ", content=[".toList ++
    joinComma (items.map (Entry.repr F)) ++ "])".toList)

end Melodia
