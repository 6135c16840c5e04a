/-
Vocabulary for statements about whole scripts, given by their text: programs of the kind shown in README.rst:40-51.
-/
import Verif.Python.Parser
import Verif.Spec.Source
import Verif.Model.Progression
import Verif.Spec.Chord

set_option autoImplicit false

namespace Melodia

open Melodia.Python

/-- What the imports of a script are bound to. -/
def scriptNames (P : Program) : List (String × Global) → Option (List (String × Val))
  | [] => some []
  | (x, .module m) :: l => match scriptNames P l with
    | some vs => some ((x, .module m) :: vs)
    | none => none
  | (x, .imported m y) :: l => match P.global 4 m y, scriptNames P l with
    | some v, some vs => some ((x, v) :: vs)
    | _, _ => none
  | _ :: _ => none

/-- Run a script, given by its lines, with melodia installed: parse it, resolve its imports and execute its statements. The
result is the values of its variables at the end. -/
noncomputable def runScript (W : World) (lines : List String) : M Flow :=
  match parseModule "__main__" false lines with
  | some (d, []) => match scriptNames Source.program d.names with
    | some vars => execB Source.program W d.init { mod := "__main__", vars := vars }
    | none => stuck
  | _ => stuck

/-- A line `track.add(chord.name('base', (n, d)))`, or `track.add(chord.name('base'))` without a duration. -/
structure ChordLine where
  name : String
  base : String
  duration : Option (Nat × Nat)

/-- The text of the line. -/
def ChordLine.text (c : ChordLine) : String :=
  "track.add(chord." ++ c.name ++ "('" ++ c.base ++ "'" ++ (match c.duration with
    | none => ""
    | some (n, d) => ", (" ++ Nat.repr n ++ ", " ++ Nat.repr d ++ ")") ++ "))"

/-- Text that stands for itself between single quotes: printable ASCII characters other than the quote and the backslash. -/
def PlainText (s : String) : Prop := ∀ c ∈ s.toList, 32 ≤ c.toNat ∧ c.toNat < 127 ∧ c ≠ '\'' ∧ c ≠ '\\'

/-- A line that calls a function of chord.py. -/
structure ChordLine.Ok (c : ChordLine) (f : ChordFn) : Prop where
  documented : f ∈ chordFunctions
  name : c.name = f.name
  base : PlainText c.base

/-- The call the line makes. -/
def ChordLine.call (c : ChordLine) (f : ChordFn) : ChordCall :=
  ⟨f, .str c.base.toList, c.duration.map fun p => .ints [p.1, p.2], none⟩

/-- The duration the line gives, 1/4 if it gives none. -/
def ChordLine.length (c : ChordLine) : Signature :=
  match c.duration with
  | none => ⟨1, 4⟩
  | some (n, d) => ⟨n, d⟩

/-- The notes a line stands for: the intervals documented for the name, above the pitch the base reads as, all of the given
duration and the default velocity. -/
structure ChordLine.Denotes [UnicodeDigits] (c : ChordLine) (notes : List Note) : Prop where
  base : PlainText c.base
  duration : IsPow2 c.length.denominator
  notes : ∃ g ∈ generatorChords, c.name.toList ∈ g.names ∧ ∃ p rest, Reads c.base.toList p rest ∧
    notes = g.notation'.map (fun k => ⟨⟨p + k⟩, c.length, 3 / 4⟩)

/-- A line that calls a documented function. -/
structure ChordLine.Documented (c : ChordLine) : Prop where
  base : PlainText c.base
  name : ∃ g ∈ generatorChords, c.name.toList ∈ g.names

/-- A line whose base names no tone or whose duration is no signature. -/
def ChordLine.Bad (c : ChordLine) : Prop :=
  (∀ x t, c.base.toList = x :: t → ¬ IsLetter x) ∨ ¬ IsPow2 c.length.denominator

/-- A script like the one in README.rst:40-51: a track with the signature `num`/`den`, some chords, and the name of the file. -/
def scriptText (num den : Nat) (chords : List ChordLine) (file : String) : List String :=
  ["from melodia.core import Track",
    "from melodia.music import chord",
    "from melodia.io import midi",
    "",
    "track = Track(signature=(" ++ Nat.repr num ++ ", " ++ Nat.repr den ++ "))",
    ""] ++ chords.map ChordLine.text ++
  ["",
    "with open('" ++ file ++ "', 'wb') as f:",
    "    midi.dump(track, f)"]

/-- The script of README.rst:40-51. -/
def readmeScript : List String :=
  ["from melodia.core import Track",
    "from melodia.music import chord",
    "from melodia.io import midi",
    "",
    "track = Track(signature=(4, 4))",
    "",
    "track.add(chord.maj('C3', (1, 1)))",
    "track.add(chord.maj('D3', (1, 1)))",
    "track.add(chord.min('A3', (1, 1)))",
    "track.add(chord.maj7('G3', (1, 1)))",
    "",
    "with open('chords.mid', 'wb') as f:",
    "    midi.dump(track, f)"]

end Melodia
