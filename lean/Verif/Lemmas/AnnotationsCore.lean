/-
The annotations of core and processing, for Verif/Props/Annotations.lean: what `moduleHeads` reads in the source text.
-/
import Verif.Spec.Annotations
import Verif.Lemmas.Imports
import Verif.Props.SourceText

set_option autoImplicit false

namespace Melodia.Source

open Melodia.Python

/-- The functions of src/melodia/core/signature.py with their annotations. -/
def signatureHeads : List Head := [
  ⟨some "Signature", "__init__", [("self", none), ("nominator", some (.name "int")), ("denominator", some (.name "int"))], none⟩,
  ⟨some "Signature", "nominator", [("self", none)], some (.name "int")⟩,
  ⟨some "Signature", "denominator", [("self", none)], some (.name "int")⟩,
  ⟨some "Signature", "to", [("self", none), ("denominator", some (.name "int"))], some (.name "Signature")⟩,
  ⟨some "Signature", "normalized", [("self", none)], some (.name "Signature")⟩,
  ⟨some "Signature", "_to_common_denominator", [("self", none), ("other", some (.name "Signature"))], some (.app "Tuple" [.name "int", .name "int", .name "int"])⟩,
  ⟨some "Signature", "__str__", [("self", none)], some (.name "str")⟩,
  ⟨some "Signature", "__repr__", [("self", none)], some (.name "str")⟩,
  ⟨some "Signature", "__eq__", [("self", none), ("other", some (.name "Signature"))], some (.name "bool")⟩,
  ⟨some "Signature", "__le__", [("self", none), ("other", some (.name "Signature"))], some (.name "bool")⟩,
  ⟨some "Signature", "__lt__", [("self", none), ("other", some (.name "Signature"))], some (.name "bool")⟩,
  ⟨some "Signature", "__ge__", [("self", none), ("other", some (.name "Signature"))], some (.name "bool")⟩,
  ⟨some "Signature", "__gt__", [("self", none), ("other", some (.name "Signature"))], some (.name "bool")⟩,
  ⟨some "Signature", "__add__", [("self", none), ("other", some (.name "Signature"))], some (.name "Signature")⟩,
  ⟨some "Signature", "__mul__", [("self", none), ("other", some (.name "Signature"))], some (.name "Signature")⟩,
  ⟨some "Signature", "__abs__", [("self", none)], some (.name "Signature")⟩]

theorem signatureHeads_eq : moduleHeads "melodia.core.signature" false signatureText = some signatureHeads := by kernel_rfl

/-- The functions of src/melodia/core/tone.py with their annotations. -/
def toneHeads : List Head := [
  ⟨some "Tone", "__init__", [("self", none), ("pitch", some (.name "int"))], none⟩,
  ⟨some "Tone", "pitch", [("self", none)], some (.name "int")⟩,
  ⟨some "Tone", "octave", [("self", none)], some (.name "int")⟩,
  ⟨some "Tone", "from_notation", [("cls", none), ("notation", some (.name "str"))], some (.name "Tone")⟩,
  ⟨some "Tone", "to_notation", [("self", none), ("transpose_down", some (.name "bool"))], some (.name "str")⟩,
  ⟨some "Tone", "to_frequency", [("self", none), ("base", some (.name "float"))], some (.name "float")⟩,
  ⟨some "Tone", "transposed", [("self", none), ("transposition", some (.name "int"))], some (.name "Tone")⟩,
  ⟨some "Tone", "__str__", [("self", none)], some (.name "str")⟩,
  ⟨some "Tone", "__repr__", [("self", none)], some (.name "str")⟩,
  ⟨some "Tone", "__eq__", [("self", none), ("other", some (.name "Tone"))], some (.name "bool")⟩,
  ⟨some "Tone", "__le__", [("self", none), ("other", some (.name "Tone"))], some (.name "bool")⟩,
  ⟨some "Tone", "__lt__", [("self", none), ("other", some (.name "Tone"))], some (.name "bool")⟩,
  ⟨some "Tone", "__ge__", [("self", none), ("other", some (.name "Tone"))], some (.name "bool")⟩,
  ⟨some "Tone", "__gt__", [("self", none), ("other", some (.name "Tone"))], some (.name "bool")⟩]

theorem toneHeads_eq : moduleHeads "melodia.core.tone" false toneText = some toneHeads := by kernel_rfl

/-- The functions of src/melodia/core/note.py with their annotations. -/
def noteHeads : List Head := [
  ⟨some "Note", "__init__", [("self", none), ("tone", some (.app "Union" [.name "Tone", .name "int", .name "str"])), ("duration", some (.app "Union" [.name "Signature", .app "Tuple" [.name "int", .name "int"]])), ("velocity", some (.name "float"))], none⟩,
  ⟨some "Note", "tone", [("self", none)], some (.name "Tone")⟩,
  ⟨some "Note", "velocity", [("self", none)], some (.name "float")⟩,
  ⟨some "Note", "duration", [("self", none)], some (.name "Signature")⟩,
  ⟨some "Note", "transposed", [("self", none), ("transposition", some (.name "int"))], some (.name "Note")⟩,
  ⟨some "Note", "with_duration", [("self", none), ("duration", some (.app "Union" [.name "Signature", .app "Tuple" [.name "int", .name "int"]]))], some (.name "Note")⟩,
  ⟨some "Note", "with_velocity", [("self", none), ("velocity", some (.name "float"))], some (.name "Note")⟩,
  ⟨some "Note", "_as_triplet", [("self", none)], some (.app "Tuple" [.name "Tone", .name "Signature", .name "float"])⟩,
  ⟨some "Note", "__str__", [("self", none)], some (.name "str")⟩,
  ⟨some "Note", "__repr__", [("self", none)], some (.name "str")⟩,
  ⟨some "Note", "__eq__", [("self", none), ("other", some (.name "Note"))], some (.name "bool")⟩,
  ⟨some "Note", "__le__", [("self", none), ("other", some (.name "Note"))], some (.name "bool")⟩,
  ⟨some "Note", "__lt__", [("self", none), ("other", some (.name "Note"))], some (.name "bool")⟩,
  ⟨some "Note", "__ge__", [("self", none), ("other", some (.name "Note"))], some (.name "bool")⟩,
  ⟨some "Note", "__gt__", [("self", none), ("other", some (.name "Note"))], some (.name "bool")⟩]

theorem noteHeads_eq : moduleHeads "melodia.core.note" false noteText = some noteHeads := by kernel_rfl

/-- The functions of src/melodia/core/track.py with their annotations. -/
def trackHeads : List Head := [
  ⟨some "Track", "__init__", [("self", none), ("signature", some (.app "Union" [.name "Signature", .app "Tuple" [.name "int", .name "int"]])), ("content", some (.app "Optional" [.app "Iterable" [.app "Tuple" [.name "Note", .app "Union" [.name "Signature", .app "Tuple" [.name "int", .name "int"], .none]]]]))], none⟩,
  ⟨some "Track", "signature", [("self", none)], some (.name "Signature")⟩,
  ⟨some "Track", "length", [("self", none)], some (.name "Signature")⟩,
  ⟨some "Track", "add", [("self", none), ("what", some (.app "Union" [.name "Note", .app "Iterable" [.name "Note"]])), ("where", some (.app "Union" [.name "Signature", .app "Tuple" [.name "int", .name "int"], .none]))], some .none⟩,
  ⟨some "Track", "__eq__", [("self", none), ("other", some (.name "Track"))], some (.name "bool")⟩,
  ⟨some "Track", "__iter__", [("self", none)], some (.app "Iterable" [.app "Tuple" [.name "Signature", .name "Note"]])⟩,
  ⟨some "Track", "__len__", [("self", none)], some (.name "int")⟩,
  ⟨some "Track", "__str__", [("self", none)], some (.name "str")⟩,
  ⟨some "Track", "__repr__", [("self", none)], some (.name "str")⟩]

theorem trackHeads_eq : moduleHeads "melodia.core.track" false trackText = some trackHeads := by kernel_rfl

/-- The functions of src/melodia/processing/track.py with their annotations. -/
def processingHeads : List Head := [
  ⟨none, "randomize_velocities", [("track", some (.name "Track")), ("minimum", some (.name "float")), ("maximum", some (.name "float")), ("mean", some (.name "float")), ("variance", some (.name "float"))], some (.name "Track")⟩]

theorem processingHeads_eq : moduleHeads "melodia.processing.track" false processingText = some processingHeads := by kernel_rfl

end Melodia.Source
