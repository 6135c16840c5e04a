/-
C105: scripts/generate_chords.py as a program, from its text to the file it writes.
-/
import Verif.Lemmas.GeneratorFile
import Verif.Props.Generator
import Verif.Source.GenerateChordsText
import Verif.Python.Parser
import Verif.Python.Supported

set_option autoImplicit false

namespace Melodia

open Melodia.Python Melodia.Source

/-- C105 (text): the lines of scripts/generate_chords.py are those of the program below; its statements are those of
`generatorInit` for the table of the script. -/
theorem C105_text :
    parseModule "generate_chords" false generateChordsText = some (generateChordsModule, [Chord.classDef]) ∧
      generateChordsModule.init = generatorInit generatorChords := by
  refine ⟨by kernel_rfl, by kernel_rfl⟩

/-- C105 (constructs): the script uses no construct the evaluator is not meant for. -/
theorem C105_supported (out : String) (table : List GenChord) : (generatorProgram out table).supported = true := by kernel_rfl

/-- C105 (script): for every table whose names have no other white space than blanks and for every name of a file, the script ends
normally. It leaves exactly one file, which has that name and the lines of `generate`, each ended by a line break. -/
theorem C105_script (W : World) (out : String) (table : List GenChord)
    (hb : ∀ g ∈ table, ∀ c ∈ g.name.toList, isSpace c = true → c = ' ') :
    ∃ env h, runGenerator W out table = some (.ok (.next env) h) ∧
      h.files = [(some out.toList, .inl (textOf (generate table)))] := by
  rw [generate_text hb]
  exact gen_script W out table

/-- C105 (present table): run as it is, the script writes the text of src/melodia/music/chord.py. -/
theorem C105_regenerates (W : World) (out : String) :
    ∃ env h, runGenerator W out generatorChords = some (.ok (.next env) h) ∧ h.files = [(some out.toList, .inl (textOf chordText))] := by
  have := C105_script W out generatorChords (by decide +kernel)
  rwa [C101_regenerated] at this

/-- C105 (other tables): for every table that meets the conditions of C102, the lines of the file the script leaves are a Python
module with one function for each name, which plays the intervals of its row. -/
theorem C105_functions (W : World) (out : String) (table : List GenChord) (ht : ∀ g ∈ table, RowOk g) :
    ∃ env h ls d fs, runGenerator W out table = some (.ok (.next env) h) ∧ h.files = [(some out.toList, .inl (textOf ls))] ∧
      parseModule "melodia.music.chord" false ls = some (d, []) ∧ d.names = chordModule.names.take 7 ++ fs ∧
      List.Forall₂ (WrittenFor W) (tableNames table) fs := by
  obtain ⟨env, h, h1, h2⟩ := C105_script W out table fun g hg => blanks_of_rowOk (ht g hg)
  obtain ⟨d, h3, -, -, fs, h4, h5⟩ := C102_written table ht
  exact ⟨env, h, _, d, fs, h1, h2, h3, h4, h5 W⟩

/-- A table with two names, a blank, and an interval below the base: the last lines of the file. -/
example (W : World) : ∃ env h t, runGenerator W "out.py" [⟨"up, down", "Odd", [0, -5]⟩] = some (.ok (.next env) h) ∧
    h.files = [(some "out.py".toList, .inl (t ++ textOf [
      "    return (",
      "        Note(base_tone, base_duration, base_velocity),",
      "        Note(base_tone.transposed(-5), base_duration, base_velocity)",
      "    )"]))] := by
  obtain ⟨env, h, h1, h2⟩ := C105_script W "out.py" [⟨"up, down", "Odd", [0, -5]⟩] (by decide +kernel)
  refine ⟨env, h, textOf ((generate [⟨"up, down", "Odd", [0, -5]⟩]).take 83), h1, ?_⟩
  have : ∀ l : List String, generate [⟨"up, down", "Odd", [0, -5]⟩] = (generate [⟨"up, down", "Odd", [0, -5]⟩]).take 83 ++ l →
      textOf (generate [⟨"up, down", "Odd", [0, -5]⟩]) = textOf ((generate [⟨"up, down", "Odd", [0, -5]⟩]).take 83) ++ textOf l := by
    intro l hl
    rw [← textOf_append, ← hl]
  rw [h2, ← this _ (by decide +kernel)]

/-- Without `'__main__'` as `__name__` nothing is written: importing the script only makes its tables. -/
theorem C105_import (W : World) (out : String) (table : List GenChord) (s : String) (hs : s.toList ≠ "__main__".toList) :
    ∃ env h, execB (generatorProgram out table) W (generatorInit table)
      { mod := "generate_chords", vars := [("__name__", .str s.toList)] } { objs := [], draws := 0 } = some (.ok (.next env) h) ∧
      h.files = [] := by
  refine ⟨_, _, by rw [gen_init, gen_guard W out table _ s hs rfl], genHeap_files table⟩

end Melodia
