/-
Vocabulary for statements about importing melodia.
-/
import Verif.Python.Imports
import Verif.Source.Texts
import Verif.Spec.Chord

set_option autoImplicit false

namespace Melodia

open Melodia.Python

/-- The files with their steps, given their text. -/
def filesOf : List (String × Bool × List String) → Option Files
  | [] => some []
  | (m, package, lines) :: l => match moduleSteps m package lines, filesOf l with
    | some steps, some F => some ((m, package, steps) :: F)
    | _, _ => none

/-- Import modules one after the other. -/
def importAll (F : Files) : Loaded → List String → Except ImportError Loaded
  | L, [] => .ok L
  | L, m :: l => match importModule F 1000 L m with
    | .ok L => importAll F L l
    | .error e => .error e

/-- The names melodia offers (README.rst:20-51 and the `__all__` of its packages): module, name, and what it stands for. -/
inductive Offered : String → String → Bound → Prop where
  | package (x : String) (h : x ∈ ["core", "io", "music", "processing"]) : Offered "melodia" x (.module ("melodia." ++ x))
  | core (x m : String) (h : (x, m) ∈ [("Tone", "tone"), ("Signature", "signature"), ("Note", "note"), ("Track", "track")]) :
      Offered "melodia.core" x (.defined ("melodia.core." ++ m) x)
  | midi : Offered "melodia.io" "midi" (.module "melodia.io.midi")
  | chord : Offered "melodia.music" "chord" (.module "melodia.music.chord")
  | track : Offered "melodia.processing" "track" (.module "melodia.processing.track")
  | chords (g : GenChord) (x : List Char) (hg : g ∈ generatorChords) (hx : x ∈ g.names) :
      Offered "melodia.music.chord" (String.ofList x) (.defined "melodia.music.chord" (String.ofList x))
  | io (x : String) (h : x ∈ ["MIDIError", "MIDIParsingError", "MIDIReader", "MIDIWriter", "dump", "dumps", "load", "loads"]) :
      Offered "melodia.io.midi" x (.defined "melodia.io.midi" x)
  | velocities : Offered "melodia.processing.track" "randomize_velocities" (.defined "melodia.processing.track" "randomize_velocities")

end Melodia
