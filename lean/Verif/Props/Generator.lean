/-
C101: the generator writes src/melodia/music/chord.py as it is. C102: what it writes for any table.
-/
import Verif.Lemmas.GeneratorTable
import Verif.Source.ChordModule
import Verif.Source.ChordText

set_option autoImplicit false

namespace Melodia

open Melodia.Python Melodia.Source

/-- C101: running the generator again leaves the file unchanged, line by line. -/
theorem C101_regenerated : generate generatorChords = chordText := by decide +kernel

/-- Another table gives another file: here the third of `maj` is a semitone lower. -/
example : generate (generatorChords.map fun g => { g with notation' := g.notation'.map fun n => if n = 4 then 3 else n }) ≠
    chordText := by decide +kernel

/-- A row of the table. -/
example : (generate [⟨"up, down", "Odd", [0, 16, -5]⟩]).drop 60 =
    ["        Note(base_tone, base_duration, base_velocity),",
     "        Note(base_tone.transposed(+16), base_duration, base_velocity),",
     "        Note(base_tone.transposed(-5), base_duration, base_velocity)",
     "    )",
     "",
     "",
     "def down(",
     "        base: Union[int, str, Tone, Note],",
     "        duration: Union[Tuple[int, int], Signature, None] = None,",
     "        velocity: Optional[float] = None",
     ") -> Tuple[Note, Note, Note]:",
     "    \"\"\"",
     "    Generates Odd chord. If note is provided as the first argument, duration and ",
     "    velocity of this note will be used as default values for chord duration and velocity.",
     "    Otherwise :class:`~melodia.core.note.Note` defaults will be used.",
     "",
     "    :param base: base tone",
     "    (can be integer, string, :class:`~melodia.core.tone.Tone` or :class:`~melodia.core.note.Note`)",
     "    :param duration: duration of the chord (default: None)",
     "    :param velocity: velocity of the chord (default: None)",
     "    :return: tuple of 3 notes",
     "    \"\"\"",
     "    base_tone, base_duration, base_velocity = _get_parameters(base, duration, velocity)",
     "",
     "    return (",
     "        Note(base_tone, base_duration, base_velocity),",
     "        Note(base_tone.transposed(+16), base_duration, base_velocity),",
     "        Note(base_tone.transposed(-5), base_duration, base_velocity)",
     "    )"] := by decide +kernel

/-! ### C102 -/

/-- C102: for every table whose rows have identifiers as names, plain full names and at least one interval, the file written is a
Python module. It has the imports and `_get_parameters` of the present one, then exactly one function for each name, in the order
of the table. Each of them returns the notes at the intervals of its row above the base, with the duration and the velocity:
in a tuple if there are several, and by itself if there is one. -/
theorem C102_written (table : List GenChord) (h : ∀ g ∈ table, RowOk g) :
    ∃ d, parseModule "melodia.music.chord" false (generate table) = some (d, []) ∧ d.name = "melodia.music.chord" ∧ d.init = [] ∧
      ∃ fs, d.names = chordModule.names.take 7 ++ fs ∧ ∀ W, List.Forall₂ (WrittenFor W) (tableNames table) fs := by
  refine ⟨_, parse_table table h, rfl, rfl, _, rfl, fun W => forall₂_written W _ ?_⟩
  intro e he
  obtain ⟨g, hg, he⟩ := List.mem_flatMap.mp he
  obtain ⟨n, -, rfl⟩ := List.mem_map.mp he
  exact (h g hg).intervals

/-- The present table meets the conditions. -/
example : (∀ g ∈ generatorChords, RowOk g) ∧ (tableNames generatorChords).length = 50 :=
  ⟨fun g hg => rowOk_of_check ((show ∀ g ∈ generatorChords, checkRow g = true by decide +kernel) g hg), by decide +kernel⟩

/-- Intervals may be negative or large, and a row may have several names. -/
example : (∀ g ∈ [(⟨"below, b_1", "6/9 {x}", [0, -13, 400]⟩ : GenChord)], RowOk g) ∧
    tableNames [⟨"below, b_1", "6/9 {x}", [0, -13, 400]⟩] = [("below", [0, -13, 400]), ("b_1", [0, -13, 400])] :=
  ⟨fun g hg => rowOk_of_check ((show ∀ g ∈ [(⟨"below, b_1", "6/9 {x}", [0, -13, 400]⟩ : GenChord)], checkRow g = true by
    decide +kernel) g hg), by decide +kernel⟩

/-- C102 (one interval): the type written for the result is `Tuple[Note]`, but the function returns a note that is not in a tuple,
because `(x)` is not a tuple. -/
theorem C102_single : returnType [5] = "Tuple[Note]" ∧
    ∃ d f, parseModule "melodia.music.chord" false (generate [⟨"fourth", "Fourth", [5]⟩]) = some (d, []) ∧
      d.names.find? (fun p => p.1 == "fourth") = some ("fourth", .func f) ∧
      ∀ W, callFun program W f [.int 60, .none, .none] [] = pure (noteV ⟨⟨65⟩, ⟨1, 4⟩, 3/4⟩) := by
  refine ⟨by decide +kernel, _, generatedDef "fourth" [5], parse_table [⟨"fourth", "Fourth", [5]⟩] ?_, by kernel_rfl, ?_⟩
  · intro g hg
    exact rowOk_of_check ((show ∀ g ∈ [(⟨"fourth", "Fourth", [5]⟩ : GenChord)], checkRow g = true by decide +kernel) g hg)
  · intro W
    exact (generated_plays W "fourth" [5] (by simp) (.int 60) .none .none).1 60 ⟨1, 4⟩ (3/4) (@BaseDenotes.int W.digits 60) (.default _ (by simp))
      (.default _ (by simp)) (by norm_num) (by norm_num)

/-- C102 (conditions needed): without an interval, with a keyword or a number as name, or with three quotation marks in the full name, the
file is not a Python module. -/
theorem C102_refused :
    parseModule "melodia.music.chord" false (generate [⟨"rest", "Rest", []⟩]) = none ∧
    parseModule "melodia.music.chord" false (generate [⟨"in", "In", [0, 4]⟩]) = none ∧
    parseModule "melodia.music.chord" false (generate [⟨"7th", "Seventh", [0, 10]⟩]) = none ∧
    parseModule "melodia.music.chord" false (generate [⟨"quoted", "a\"\"\"b", [0, 10]⟩]) = none := by
  refine ⟨?_, ?_, ?_, ?_⟩ <;> kernel_rfl

end Melodia
