/-
The annotations of io/midi.py, for Verif/Props/Annotations.lean.
-/
import Verif.Lemmas.AnnotationsCore

set_option autoImplicit false

namespace Melodia.Source

open Melodia.Python

/-- The functions of src/melodia/io/midi.py with their annotations. -/
def midiHeads : List Head := [
  ⟨some "_Reader", "__init__", [("self", none), ("data", some (.name "bytes"))], none⟩,
  ⟨some "_Reader", "read", [("self", none), ("n", some (.name "int"))], some (.name "bytes")⟩,
  ⟨some "_Reader", "shift", [("self", none), ("n", some (.name "int"))], some .none⟩,
  ⟨some "_Reader", "__len__", [("self", none)], some (.name "int")⟩,
  ⟨some "MIDIWriter", "__init__", [("self", none), ("pulses_per_quarter", some (.name "int")), ("middle_c", some (.app "Union" [.name "Tone", .name "int", .name "str"])), ("bpm", some (.name "float")), ("channel", some (.name "int"))], none⟩,
  ⟨some "MIDIWriter", "_signature_to_pulses", [("self", none), ("signature", some (.name "Signature"))], some (.name "int")⟩,
  ⟨some "MIDIWriter", "_format_note_on", [("self", none), ("note", some (.name "Note"))], some (.name "bytes")⟩,
  ⟨some "MIDIWriter", "_format_note_off", [("self", none), ("note", some (.name "Note"))], some (.name "bytes")⟩,
  ⟨some "MIDIWriter", "_format_var_len", [("x", some (.name "int"))], some (.name "bytes")⟩,
  ⟨some "MIDIWriter", "_format_signature", [("signature", some (.name "Signature")), ("cc", some (.name "int")), ("bb", some (.name "int"))], some (.name "bytes")⟩,
  ⟨some "MIDIWriter", "_format_tempo", [("tempo", some (.name "int"))], some (.name "bytes")⟩,
  ⟨some "MIDIWriter", "_format_chunk", [("kind", some (.name "bytes")), ("body", some (.name "bytes"))], some (.name "bytes")⟩,
  ⟨some "MIDIWriter", "_format_header_chunk", [("self", none), ("kind", some (.name "int")), ("n_tracks", some (.name "int"))], none⟩,
  ⟨some "MIDIWriter", "dump", [("self", none), ("track", some (.name "Track")), ("file", some (.name "BinaryIO"))], some .none⟩,
  ⟨some "MIDIWriter", "dumps", [("self", none), ("track", some (.name "Track"))], some (.name "bytes")⟩,
  ⟨some "MIDIReader", "__init__", [("self", none), ("middle_c", some (.app "Union" [.name "Tone", .name "int", .name "str"]))], none⟩,
  ⟨some "MIDIReader", "_read_chunks", [("file", some (.name "BinaryIO"))], some (.app "Generator" [.app "Tuple" [.name "bytes", .name "_Reader"], .none, .none])⟩,
  ⟨some "MIDIReader", "_parse_header", [("data", some (.name "_Reader"))], some (.app "Tuple" [.name "int", .name "int", .name "int"])⟩,
  ⟨some "MIDIReader", "_time_to_signature", [("time", some (.name "int")), ("ticks_per_quarter", some (.name "int"))], some (.name "Signature")⟩,
  ⟨some "MIDIReader", "_pitch_to_tone", [("self", none), ("pitch", some (.name "int"))], some (.name "Tone")⟩,
  ⟨some "MIDIReader", "_read_var_len", [("data", some (.name "_Reader"))], some (.name "int")⟩,
  ⟨some "MIDIReader", "_read_8", [("data", some (.name "_Reader"))], some (.name "int")⟩,
  ⟨some "MIDIReader", "_read_16", [("data", some (.name "_Reader"))], some (.name "int")⟩,
  ⟨some "MIDIReader", "_read_24", [("data", some (.name "_Reader"))], some (.name "int")⟩,
  ⟨some "MIDIReader", "_read_32", [("data", some (.name "_Reader"))], some (.name "int")⟩,
  ⟨some "MIDIReader", "_parse_track", [("self", none), ("data", some (.name "_Reader")), ("ticks_per_quarter", some (.name "int"))], some (.app "Dict" [.name "int", .name "Track"])⟩,
  ⟨some "MIDIReader", "read_event", [("status", some (.app "Optional" [.name "int"]))], some (.name "_Event")⟩,
  ⟨some "MIDIReader", "load", [("self", none), ("file", some (.name "BinaryIO")), ("channel", some (.app "Optional" [.name "int"]))], some (.name "Track")⟩,
  ⟨some "MIDIReader", "loads", [("self", none), ("data", some (.name "bytes")), ("channel", some (.app "Optional" [.name "int"]))], some (.name "Track")⟩,
  ⟨none, "dump", [("track", some (.name "Track")), ("file", some (.name "BinaryIO")), ("bpm", some (.name "float")), ("channel", some (.name "int"))], some .none⟩,
  ⟨none, "dumps", [("track", some (.name "Track")), ("bpm", some (.name "float")), ("channel", some (.name "int"))], some (.name "bytes")⟩,
  ⟨none, "load", [("file", some (.name "BinaryIO")), ("channel", some (.app "Optional" [.name "int"]))], some (.name "Track")⟩,
  ⟨none, "loads", [("data", some (.name "bytes")), ("channel", some (.app "Optional" [.name "int"]))], some (.name "Track")⟩]

theorem midiHeads_eq : moduleHeads "melodia.io.midi" false midiText = some midiHeads := by kernel_rfl

end Melodia.Source
