/-
Model of scripts/generate_chords.py: the text it writes to src/melodia/music/chord.py, as lines.

The template strings are written out as lines (scripts/generate_chords.py:7-72); `str.strip` on the templates removes the line
breaks at their ends. Names and full names without line breaks are assumed: with a line break, `generate` would not be split
into lines at it.
-/
import Verif.Model.Chord

set_option autoImplicit false

namespace Melodia

/-- The text of one note of a chord (scripts/generate_chords.py:127-134). -/
def noteStatement (n : Int) : String :=
  if n = 0 then "Note(base_tone, base_duration, base_velocity)"
  else if n > 0 then "Note(base_tone.transposed(+" ++ Nat.repr n.natAbs ++ "), base_duration, base_velocity)"
  else "Note(base_tone.transposed(-" ++ Nat.repr n.natAbs ++ "), base_duration, base_velocity)"

/-- The lines of the notes: the statements, indented, joined by commas and line breaks (scripts/generate_chords.py:138). Without
notes, one blank line. -/
def noteLines : List Int → List String
  | [] => ["        "]
  | [n] => ["        " ++ noteStatement n]
  | n :: l => ("        " ++ noteStatement n ++ ",") :: noteLines l

/-- `", ".join(["Note"] * len(chord.notation))` (scripts/generate_chords.py:124). -/
def noteTypes : List Int → String
  | [] => ""
  | [_] => "Note"
  | _ :: l => "Note, " ++ noteTypes l

/-- `Tuple[Note, …, Note]` (scripts/generate_chords.py:124). -/
def returnType (l : List Int) : String := "Tuple[" ++ noteTypes l ++ "]"

/-- `function_template.strip().format(…)` (scripts/generate_chords.py:51-72, 140-148). -/
def functionLines (name : String) (g : GenChord) : List String :=
  ["def " ++ name ++ "(",
   "        base: Union[int, str, Tone, Note],",
   "        duration: Union[Tuple[int, int], Signature, None] = None,",
   "        velocity: Optional[float] = None",
   ") -> " ++ returnType g.notation' ++ ":",
   "    \"\"\"",
   "    Generates " ++ g.fullName ++ " chord. If note is provided as the first argument, duration and ",
   "    velocity of this note will be used as default values for chord duration and velocity.",
   "    Otherwise :class:`~melodia.core.note.Note` defaults will be used.",
   "",
   "    :param base: base tone",
   "    (can be integer, string, :class:`~melodia.core.tone.Tone` or :class:`~melodia.core.note.Note`)",
   "    :param duration: duration of the chord (default: None)",
   "    :param velocity: velocity of the chord (default: None)",
   "    :return: tuple of " ++ Nat.repr g.notation'.length ++ " notes",
   "    \"\"\"",
   "    base_tone, base_duration, base_velocity = _get_parameters(base, duration, velocity)",
   "",
   "    return ("] ++
  noteLines g.notation' ++
  ["    )"]

/-- The functions of a row of the table: one for each of its names, separated by commas and stripped
(scripts/generate_chords.py:140-148). -/
def rowFunctions (g : GenChord) : List (List String) :=
  (splitCommas g.name.toList).map fun n => functionLines (String.ofList (stripBlanks n)) g

/-- The lines of `'\n\n\n'.join(functions)` (scripts/generate_chords.py:150). -/
def joinFunctions : List (List String) → List String
  | [] => [""]
  | [f] => f
  | f :: fs => f ++ ["", ""] ++ joinFunctions fs

/-- The lines of `file_template` before `{functions}` (scripts/generate_chords.py:7-48). -/
def fileHead : List String := [
  "# DO NOT EDIT! This file is auto generated by scripts/generate_chords.py.",
  "from typing import Union, Tuple, Optional",
  "",
  "from melodia.core import Tone, Note, Signature",
  "",
  "",
  "def _get_parameters(",
  "        base: Union[int, str, Tone, Note],",
  "        duration: Union[Tuple[int, int], Signature, None] = None,",
  "        velocity: Optional[float] = None",
  ") -> Tuple[Tone, Signature, float]:",
  "    if isinstance(base, int):",
  "        base_tone = Tone(base)",
  "    elif isinstance(base, str):",
  "        base_tone = Tone.from_notation(base)",
  "    elif isinstance(base, Tone):",
  "        base_tone = base",
  "    elif isinstance(base, Note):",
  "        base_tone = base.tone",
  "    else:",
  "        raise ValueError('base must be int, str, Tone or Note')",
  "",
  "    if duration is None:",
  "        if isinstance(base, Note):",
  "            base_duration = base.duration",
  "        else:",
  "            base_duration = Signature(1, 4)",
  "    else:",
  "        base_duration = duration",
  "",
  "    if velocity is None:",
  "        if isinstance(base, Note):",
  "            base_velocity = base.velocity",
  "        else:",
  "            base_velocity = 0.75",
  "    else:",
  "        base_velocity = velocity",
  "",
  "    return base_tone, base_duration, base_velocity",
  "",
  ""]

/-- The lines the generator writes for a table (scripts/generate_chords.py:115-154). -/
def generate (table : List GenChord) : List String := fileHead ++ joinFunctions (table.flatMap rowFunctions)

end Melodia
