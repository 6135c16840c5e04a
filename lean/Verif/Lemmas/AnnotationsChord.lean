/-
The annotations of music/chord.py, for Verif/Props/Annotations.lean.
-/
import Verif.Lemmas.AnnotationsMidi

set_option autoImplicit false

namespace Melodia.Source

open Melodia.Python

/-- The functions of src/melodia/music/chord.py with their annotations. -/
def chordHeads : List Head := [
  ⟨none, "_get_parameters", [("base", some (.app "Union" [.name "int", .name "str", .name "Tone", .name "Note"])), ("duration", some (.app "Union" [.app "Tuple" [.name "int", .name "int"], .name "Signature", .none])), ("velocity", some (.app "Optional" [.name "float"]))], some (.app "Tuple" [.name "Tone", .name "Signature", .name "float"])⟩,
  ⟨none, "major", [("base", some (.app "Union" [.name "int", .name "str", .name "Tone", .name "Note"])), ("duration", some (.app "Union" [.app "Tuple" [.name "int", .name "int"], .name "Signature", .none])), ("velocity", some (.app "Optional" [.name "float"]))], some (.app "Tuple" [.name "Note", .name "Note", .name "Note"])⟩,
  ⟨none, "maj", [("base", some (.app "Union" [.name "int", .name "str", .name "Tone", .name "Note"])), ("duration", some (.app "Union" [.app "Tuple" [.name "int", .name "int"], .name "Signature", .none])), ("velocity", some (.app "Optional" [.name "float"]))], some (.app "Tuple" [.name "Note", .name "Note", .name "Note"])⟩,
  ⟨none, "minor", [("base", some (.app "Union" [.name "int", .name "str", .name "Tone", .name "Note"])), ("duration", some (.app "Union" [.app "Tuple" [.name "int", .name "int"], .name "Signature", .none])), ("velocity", some (.app "Optional" [.name "float"]))], some (.app "Tuple" [.name "Note", .name "Note", .name "Note"])⟩,
  ⟨none, "min", [("base", some (.app "Union" [.name "int", .name "str", .name "Tone", .name "Note"])), ("duration", some (.app "Union" [.app "Tuple" [.name "int", .name "int"], .name "Signature", .none])), ("velocity", some (.app "Optional" [.name "float"]))], some (.app "Tuple" [.name "Note", .name "Note", .name "Note"])⟩,
  ⟨none, "augmented", [("base", some (.app "Union" [.name "int", .name "str", .name "Tone", .name "Note"])), ("duration", some (.app "Union" [.app "Tuple" [.name "int", .name "int"], .name "Signature", .none])), ("velocity", some (.app "Optional" [.name "float"]))], some (.app "Tuple" [.name "Note", .name "Note", .name "Note"])⟩,
  ⟨none, "aug", [("base", some (.app "Union" [.name "int", .name "str", .name "Tone", .name "Note"])), ("duration", some (.app "Union" [.app "Tuple" [.name "int", .name "int"], .name "Signature", .none])), ("velocity", some (.app "Optional" [.name "float"]))], some (.app "Tuple" [.name "Note", .name "Note", .name "Note"])⟩,
  ⟨none, "diminished", [("base", some (.app "Union" [.name "int", .name "str", .name "Tone", .name "Note"])), ("duration", some (.app "Union" [.app "Tuple" [.name "int", .name "int"], .name "Signature", .none])), ("velocity", some (.app "Optional" [.name "float"]))], some (.app "Tuple" [.name "Note", .name "Note", .name "Note"])⟩,
  ⟨none, "dim", [("base", some (.app "Union" [.name "int", .name "str", .name "Tone", .name "Note"])), ("duration", some (.app "Union" [.app "Tuple" [.name "int", .name "int"], .name "Signature", .none])), ("velocity", some (.app "Optional" [.name "float"]))], some (.app "Tuple" [.name "Note", .name "Note", .name "Note"])⟩,
  ⟨none, "suspended4", [("base", some (.app "Union" [.name "int", .name "str", .name "Tone", .name "Note"])), ("duration", some (.app "Union" [.app "Tuple" [.name "int", .name "int"], .name "Signature", .none])), ("velocity", some (.app "Optional" [.name "float"]))], some (.app "Tuple" [.name "Note", .name "Note", .name "Note"])⟩,
  ⟨none, "sus4", [("base", some (.app "Union" [.name "int", .name "str", .name "Tone", .name "Note"])), ("duration", some (.app "Union" [.app "Tuple" [.name "int", .name "int"], .name "Signature", .none])), ("velocity", some (.app "Optional" [.name "float"]))], some (.app "Tuple" [.name "Note", .name "Note", .name "Note"])⟩,
  ⟨none, "suspended2", [("base", some (.app "Union" [.name "int", .name "str", .name "Tone", .name "Note"])), ("duration", some (.app "Union" [.app "Tuple" [.name "int", .name "int"], .name "Signature", .none])), ("velocity", some (.app "Optional" [.name "float"]))], some (.app "Tuple" [.name "Note", .name "Note", .name "Note"])⟩,
  ⟨none, "sus2", [("base", some (.app "Union" [.name "int", .name "str", .name "Tone", .name "Note"])), ("duration", some (.app "Union" [.app "Tuple" [.name "int", .name "int"], .name "Signature", .none])), ("velocity", some (.app "Optional" [.name "float"]))], some (.app "Tuple" [.name "Note", .name "Note", .name "Note"])⟩,
  ⟨none, "major7", [("base", some (.app "Union" [.name "int", .name "str", .name "Tone", .name "Note"])), ("duration", some (.app "Union" [.app "Tuple" [.name "int", .name "int"], .name "Signature", .none])), ("velocity", some (.app "Optional" [.name "float"]))], some (.app "Tuple" [.name "Note", .name "Note", .name "Note", .name "Note"])⟩,
  ⟨none, "maj7", [("base", some (.app "Union" [.name "int", .name "str", .name "Tone", .name "Note"])), ("duration", some (.app "Union" [.app "Tuple" [.name "int", .name "int"], .name "Signature", .none])), ("velocity", some (.app "Optional" [.name "float"]))], some (.app "Tuple" [.name "Note", .name "Note", .name "Note", .name "Note"])⟩,
  ⟨none, "minor7", [("base", some (.app "Union" [.name "int", .name "str", .name "Tone", .name "Note"])), ("duration", some (.app "Union" [.app "Tuple" [.name "int", .name "int"], .name "Signature", .none])), ("velocity", some (.app "Optional" [.name "float"]))], some (.app "Tuple" [.name "Note", .name "Note", .name "Note", .name "Note"])⟩,
  ⟨none, "min7", [("base", some (.app "Union" [.name "int", .name "str", .name "Tone", .name "Note"])), ("duration", some (.app "Union" [.app "Tuple" [.name "int", .name "int"], .name "Signature", .none])), ("velocity", some (.app "Optional" [.name "float"]))], some (.app "Tuple" [.name "Note", .name "Note", .name "Note", .name "Note"])⟩,
  ⟨none, "dominant7", [("base", some (.app "Union" [.name "int", .name "str", .name "Tone", .name "Note"])), ("duration", some (.app "Union" [.app "Tuple" [.name "int", .name "int"], .name "Signature", .none])), ("velocity", some (.app "Optional" [.name "float"]))], some (.app "Tuple" [.name "Note", .name "Note", .name "Note", .name "Note"])⟩,
  ⟨none, "dom7", [("base", some (.app "Union" [.name "int", .name "str", .name "Tone", .name "Note"])), ("duration", some (.app "Union" [.app "Tuple" [.name "int", .name "int"], .name "Signature", .none])), ("velocity", some (.app "Optional" [.name "float"]))], some (.app "Tuple" [.name "Note", .name "Note", .name "Note", .name "Note"])⟩,
  ⟨none, "dominant7b5", [("base", some (.app "Union" [.name "int", .name "str", .name "Tone", .name "Note"])), ("duration", some (.app "Union" [.app "Tuple" [.name "int", .name "int"], .name "Signature", .none])), ("velocity", some (.app "Optional" [.name "float"]))], some (.app "Tuple" [.name "Note", .name "Note", .name "Note", .name "Note"])⟩,
  ⟨none, "dom7b5", [("base", some (.app "Union" [.name "int", .name "str", .name "Tone", .name "Note"])), ("duration", some (.app "Union" [.app "Tuple" [.name "int", .name "int"], .name "Signature", .none])), ("velocity", some (.app "Optional" [.name "float"]))], some (.app "Tuple" [.name "Note", .name "Note", .name "Note", .name "Note"])⟩,
  ⟨none, "diminished7", [("base", some (.app "Union" [.name "int", .name "str", .name "Tone", .name "Note"])), ("duration", some (.app "Union" [.app "Tuple" [.name "int", .name "int"], .name "Signature", .none])), ("velocity", some (.app "Optional" [.name "float"]))], some (.app "Tuple" [.name "Note", .name "Note", .name "Note", .name "Note"])⟩,
  ⟨none, "dim7", [("base", some (.app "Union" [.name "int", .name "str", .name "Tone", .name "Note"])), ("duration", some (.app "Union" [.app "Tuple" [.name "int", .name "int"], .name "Signature", .none])), ("velocity", some (.app "Optional" [.name "float"]))], some (.app "Tuple" [.name "Note", .name "Note", .name "Note", .name "Note"])⟩,
  ⟨none, "minor7b5", [("base", some (.app "Union" [.name "int", .name "str", .name "Tone", .name "Note"])), ("duration", some (.app "Union" [.app "Tuple" [.name "int", .name "int"], .name "Signature", .none])), ("velocity", some (.app "Optional" [.name "float"]))], some (.app "Tuple" [.name "Note", .name "Note", .name "Note", .name "Note"])⟩,
  ⟨none, "min7b5", [("base", some (.app "Union" [.name "int", .name "str", .name "Tone", .name "Note"])), ("duration", some (.app "Union" [.app "Tuple" [.name "int", .name "int"], .name "Signature", .none])), ("velocity", some (.app "Optional" [.name "float"]))], some (.app "Tuple" [.name "Note", .name "Note", .name "Note", .name "Note"])⟩,
  ⟨none, "diminished_major7", [("base", some (.app "Union" [.name "int", .name "str", .name "Tone", .name "Note"])), ("duration", some (.app "Union" [.app "Tuple" [.name "int", .name "int"], .name "Signature", .none])), ("velocity", some (.app "Optional" [.name "float"]))], some (.app "Tuple" [.name "Note", .name "Note", .name "Note", .name "Note"])⟩,
  ⟨none, "minor_major7", [("base", some (.app "Union" [.name "int", .name "str", .name "Tone", .name "Note"])), ("duration", some (.app "Union" [.app "Tuple" [.name "int", .name "int"], .name "Signature", .none])), ("velocity", some (.app "Optional" [.name "float"]))], some (.app "Tuple" [.name "Note", .name "Note", .name "Note", .name "Note"])⟩,
  ⟨none, "augmented_major7", [("base", some (.app "Union" [.name "int", .name "str", .name "Tone", .name "Note"])), ("duration", some (.app "Union" [.app "Tuple" [.name "int", .name "int"], .name "Signature", .none])), ("velocity", some (.app "Optional" [.name "float"]))], some (.app "Tuple" [.name "Note", .name "Note", .name "Note", .name "Note"])⟩,
  ⟨none, "major7s5", [("base", some (.app "Union" [.name "int", .name "str", .name "Tone", .name "Note"])), ("duration", some (.app "Union" [.app "Tuple" [.name "int", .name "int"], .name "Signature", .none])), ("velocity", some (.app "Optional" [.name "float"]))], some (.app "Tuple" [.name "Note", .name "Note", .name "Note", .name "Note"])⟩,
  ⟨none, "maj7s5", [("base", some (.app "Union" [.name "int", .name "str", .name "Tone", .name "Note"])), ("duration", some (.app "Union" [.app "Tuple" [.name "int", .name "int"], .name "Signature", .none])), ("velocity", some (.app "Optional" [.name "float"]))], some (.app "Tuple" [.name "Note", .name "Note", .name "Note", .name "Note"])⟩,
  ⟨none, "augmented_minor7", [("base", some (.app "Union" [.name "int", .name "str", .name "Tone", .name "Note"])), ("duration", some (.app "Union" [.app "Tuple" [.name "int", .name "int"], .name "Signature", .none])), ("velocity", some (.app "Optional" [.name "float"]))], some (.app "Tuple" [.name "Note", .name "Note", .name "Note", .name "Note"])⟩,
  ⟨none, "augmented7", [("base", some (.app "Union" [.name "int", .name "str", .name "Tone", .name "Note"])), ("duration", some (.app "Union" [.app "Tuple" [.name "int", .name "int"], .name "Signature", .none])), ("velocity", some (.app "Optional" [.name "float"]))], some (.app "Tuple" [.name "Note", .name "Note", .name "Note", .name "Note"])⟩,
  ⟨none, "aug7", [("base", some (.app "Union" [.name "int", .name "str", .name "Tone", .name "Note"])), ("duration", some (.app "Union" [.app "Tuple" [.name "int", .name "int"], .name "Signature", .none])), ("velocity", some (.app "Optional" [.name "float"]))], some (.app "Tuple" [.name "Note", .name "Note", .name "Note", .name "Note"])⟩,
  ⟨none, "major9", [("base", some (.app "Union" [.name "int", .name "str", .name "Tone", .name "Note"])), ("duration", some (.app "Union" [.app "Tuple" [.name "int", .name "int"], .name "Signature", .none])), ("velocity", some (.app "Optional" [.name "float"]))], some (.app "Tuple" [.name "Note", .name "Note", .name "Note", .name "Note", .name "Note"])⟩,
  ⟨none, "maj9", [("base", some (.app "Union" [.name "int", .name "str", .name "Tone", .name "Note"])), ("duration", some (.app "Union" [.app "Tuple" [.name "int", .name "int"], .name "Signature", .none])), ("velocity", some (.app "Optional" [.name "float"]))], some (.app "Tuple" [.name "Note", .name "Note", .name "Note", .name "Note", .name "Note"])⟩,
  ⟨none, "minor9", [("base", some (.app "Union" [.name "int", .name "str", .name "Tone", .name "Note"])), ("duration", some (.app "Union" [.app "Tuple" [.name "int", .name "int"], .name "Signature", .none])), ("velocity", some (.app "Optional" [.name "float"]))], some (.app "Tuple" [.name "Note", .name "Note", .name "Note", .name "Note", .name "Note"])⟩,
  ⟨none, "min9", [("base", some (.app "Union" [.name "int", .name "str", .name "Tone", .name "Note"])), ("duration", some (.app "Union" [.app "Tuple" [.name "int", .name "int"], .name "Signature", .none])), ("velocity", some (.app "Optional" [.name "float"]))], some (.app "Tuple" [.name "Note", .name "Note", .name "Note", .name "Note", .name "Note"])⟩,
  ⟨none, "dominant9", [("base", some (.app "Union" [.name "int", .name "str", .name "Tone", .name "Note"])), ("duration", some (.app "Union" [.app "Tuple" [.name "int", .name "int"], .name "Signature", .none])), ("velocity", some (.app "Optional" [.name "float"]))], some (.app "Tuple" [.name "Note", .name "Note", .name "Note", .name "Note", .name "Note"])⟩,
  ⟨none, "dom9", [("base", some (.app "Union" [.name "int", .name "str", .name "Tone", .name "Note"])), ("duration", some (.app "Union" [.app "Tuple" [.name "int", .name "int"], .name "Signature", .none])), ("velocity", some (.app "Optional" [.name "float"]))], some (.app "Tuple" [.name "Note", .name "Note", .name "Note", .name "Note", .name "Note"])⟩,
  ⟨none, "dominant_minor9", [("base", some (.app "Union" [.name "int", .name "str", .name "Tone", .name "Note"])), ("duration", some (.app "Union" [.app "Tuple" [.name "int", .name "int"], .name "Signature", .none])), ("velocity", some (.app "Optional" [.name "float"]))], some (.app "Tuple" [.name "Note", .name "Note", .name "Note", .name "Note", .name "Note"])⟩,
  ⟨none, "min7b9", [("base", some (.app "Union" [.name "int", .name "str", .name "Tone", .name "Note"])), ("duration", some (.app "Union" [.app "Tuple" [.name "int", .name "int"], .name "Signature", .none])), ("velocity", some (.app "Optional" [.name "float"]))], some (.app "Tuple" [.name "Note", .name "Note", .name "Note", .name "Note", .name "Note"])⟩,
  ⟨none, "minor69", [("base", some (.app "Union" [.name "int", .name "str", .name "Tone", .name "Note"])), ("duration", some (.app "Union" [.app "Tuple" [.name "int", .name "int"], .name "Signature", .none])), ("velocity", some (.app "Optional" [.name "float"]))], some (.app "Tuple" [.name "Note", .name "Note", .name "Note", .name "Note", .name "Note"])⟩,
  ⟨none, "min69", [("base", some (.app "Union" [.name "int", .name "str", .name "Tone", .name "Note"])), ("duration", some (.app "Union" [.app "Tuple" [.name "int", .name "int"], .name "Signature", .none])), ("velocity", some (.app "Optional" [.name "float"]))], some (.app "Tuple" [.name "Note", .name "Note", .name "Note", .name "Note", .name "Note"])⟩,
  ⟨none, "added9", [("base", some (.app "Union" [.name "int", .name "str", .name "Tone", .name "Note"])), ("duration", some (.app "Union" [.app "Tuple" [.name "int", .name "int"], .name "Signature", .none])), ("velocity", some (.app "Optional" [.name "float"]))], some (.app "Tuple" [.name "Note", .name "Note", .name "Note"])⟩,
  ⟨none, "add9", [("base", some (.app "Union" [.name "int", .name "str", .name "Tone", .name "Note"])), ("duration", some (.app "Union" [.app "Tuple" [.name "int", .name "int"], .name "Signature", .none])), ("velocity", some (.app "Optional" [.name "float"]))], some (.app "Tuple" [.name "Note", .name "Note", .name "Note"])⟩,
  ⟨none, "major11", [("base", some (.app "Union" [.name "int", .name "str", .name "Tone", .name "Note"])), ("duration", some (.app "Union" [.app "Tuple" [.name "int", .name "int"], .name "Signature", .none])), ("velocity", some (.app "Optional" [.name "float"]))], some (.app "Tuple" [.name "Note", .name "Note", .name "Note", .name "Note", .name "Note", .name "Note"])⟩,
  ⟨none, "maj11", [("base", some (.app "Union" [.name "int", .name "str", .name "Tone", .name "Note"])), ("duration", some (.app "Union" [.app "Tuple" [.name "int", .name "int"], .name "Signature", .none])), ("velocity", some (.app "Optional" [.name "float"]))], some (.app "Tuple" [.name "Note", .name "Note", .name "Note", .name "Note", .name "Note", .name "Note"])⟩,
  ⟨none, "minor11", [("base", some (.app "Union" [.name "int", .name "str", .name "Tone", .name "Note"])), ("duration", some (.app "Union" [.app "Tuple" [.name "int", .name "int"], .name "Signature", .none])), ("velocity", some (.app "Optional" [.name "float"]))], some (.app "Tuple" [.name "Note", .name "Note", .name "Note", .name "Note", .name "Note", .name "Note"])⟩,
  ⟨none, "min11", [("base", some (.app "Union" [.name "int", .name "str", .name "Tone", .name "Note"])), ("duration", some (.app "Union" [.app "Tuple" [.name "int", .name "int"], .name "Signature", .none])), ("velocity", some (.app "Optional" [.name "float"]))], some (.app "Tuple" [.name "Note", .name "Note", .name "Note", .name "Note", .name "Note", .name "Note"])⟩,
  ⟨none, "dominant11", [("base", some (.app "Union" [.name "int", .name "str", .name "Tone", .name "Note"])), ("duration", some (.app "Union" [.app "Tuple" [.name "int", .name "int"], .name "Signature", .none])), ("velocity", some (.app "Optional" [.name "float"]))], some (.app "Tuple" [.name "Note", .name "Note", .name "Note", .name "Note", .name "Note", .name "Note"])⟩,
  ⟨none, "dom11", [("base", some (.app "Union" [.name "int", .name "str", .name "Tone", .name "Note"])), ("duration", some (.app "Union" [.app "Tuple" [.name "int", .name "int"], .name "Signature", .none])), ("velocity", some (.app "Optional" [.name "float"]))], some (.app "Tuple" [.name "Note", .name "Note", .name "Note", .name "Note", .name "Note", .name "Note"])⟩]

theorem chordHeads_eq : moduleHeads "melodia.music.chord" false chordText = some chordHeads := by kernel_rfl

end Melodia.Source
