/-
The steps of the source files and the names of the modules after importing; both are computed from the text of the files.
-/
import Verif.Spec.Imports
import Verif.Python.KernelRfl

set_option autoImplicit false

namespace Melodia.Source

open Melodia.Python

/-- The steps of `melodia.core.signature`. -/
def stepsMelodiaCoreSignature : List Step := [
  .take "typing" "Tuple",
  .define ["int", "int", "property", "int", "property", "int", "int", "Tuple", "int", "int", "int", "str", "str", "bool",
    "bool", "bool", "bool", "bool"] "Signature"]

/-- The steps of `melodia.core.tone`. -/
def stepsMelodiaCoreTone : List Step := [
  .load "re",
  .take "typing" "Dict",
  .eval ["re"] ["_notation_regex"],
  .eval ["Dict", "str", "int"] ["_tone_mapping"],
  .eval ["_tone_mapping", "Dict", "int", "str"] ["_reverse_tone_mapping"],
  .define ["int", "property", "int", "property", "int", "classmethod", "str", "bool", "str", "float", "float", "int", "str",
    "str", "bool", "bool", "bool", "bool", "bool"] "Tone"]

/-- The steps of `melodia.core.note`. -/
def stepsMelodiaCoreNote : List Step := [
  .take "typing" "Tuple",
  .take "typing" "Union",
  .take "typing" "Iterable",
  .take "melodia.core.signature" "Signature",
  .take "melodia.core.tone" "Tone",
  .define ["Union", "Tone", "int", "str", "Union", "Signature", "Tuple", "int", "int", "Signature", "float", "property",
    "Tone", "property", "float", "property", "Signature", "int", "Union", "Signature", "Tuple", "int", "int", "float",
    "Tuple", "Tone", "Signature", "float", "str", "str", "bool", "bool", "bool", "bool", "bool"] "Note"]

/-- The steps of `melodia.core.track`. -/
def stepsMelodiaCoreTrack : List Step := [
  .load "heapq",
  .take "typing" "Iterable",
  .take "typing" "Tuple",
  .take "typing" "Union",
  .take "typing" "List",
  .take "typing" "Optional",
  .take "melodia.core.note" "Note",
  .take "melodia.core.signature" "Signature",
  .define ["Union", "Signature", "Tuple", "int", "int", "Signature", "Optional", "Iterable", "Tuple", "Note", "Union",
    "Signature", "Tuple", "int", "int", "property", "Signature", "property", "Signature", "Union", "Note", "Iterable", "Note",
    "Union", "Signature", "Tuple", "int", "int", "bool", "Iterable", "Tuple", "Signature", "Note", "int", "str", "str"] "Track"]

/-- The steps of `melodia.processing.track`. -/
def stepsMelodiaProcessingTrack : List Step := [
  .load "math",
  .load "random",
  .take "melodia.core" "Track",
  .define ["Track", "float", "float", "float", "float", "Track"] "randomize_velocities"]

/-- The steps of `melodia.io.midi`. -/
def stepsMelodiaIoMidi : List Step := [
  .load "io",
  .take "collections" "defaultdict",
  .take "dataclasses" "dataclass",
  .take "operator" "itemgetter",
  .take "typing" "BinaryIO",
  .take "typing" "List",
  .take "typing" "Tuple",
  .take "typing" "Union",
  .take "typing" "Optional",
  .take "typing" "Dict",
  .take "typing" "Generator",
  .take "melodia.core.note" "Note",
  .take "melodia.core.signature" "Signature",
  .take "melodia.core.tone" "Tone",
  .take "melodia.core.track" "Track",
  .define ["Exception"] "MIDIError",
  .define ["MIDIError"] "MIDIParsingError",
  .define ["bytes", "int", "bytes", "int", "int"] "_Reader",
  .define ["int", "Union", "Tone", "int", "str", "Tone", "float", "int", "Signature", "int", "Note", "bytes", "Note", "bytes",
    "staticmethod", "int", "bytes", "staticmethod", "Signature", "int", "int", "bytes", "staticmethod", "int", "bytes",
    "staticmethod", "bytes", "bytes", "bytes", "int", "int", "Track", "BinaryIO", "Track", "bytes"] "MIDIWriter",
  .eval [] ["_event_lengths"],
  .eval ["range", "_event_lengths"] ["i"],
  .eval ["range", "_event_lengths"] ["i"],
  .eval ["range", "_event_lengths"] ["i"],
  .eval ["range", "_event_lengths"] ["i"],
  .eval ["range", "_event_lengths"] ["i"],
  .eval ["range", "_event_lengths"] ["i"],
  .eval ["_event_lengths"] [],
  .eval ["_event_lengths"] [],
  .eval ["_event_lengths"] [],
  .eval ["_event_lengths"] [],
  .eval ["_event_lengths"] [],
  .eval ["_event_lengths"] [],
  .eval ["_event_lengths"] [],
  .eval ["_event_lengths"] [],
  .eval ["_event_lengths"] [],
  .eval ["_event_lengths"] [],
  .define ["dataclass"] "_Event",
  .define ["dataclass", "_Event"] "_EventUnsupported",
  .define ["dataclass", "_Event", "int", "int", "int"] "_EventNoteOFF",
  .define ["dataclass", "_Event", "int", "int", "int"] "_EventNoteON",
  .define ["dataclass", "_Event"] "_EventEndOfTrack",
  .define ["dataclass", "_Event", "int", "int", "int", "int"] "_EventTimeSignature",
  .define ["dataclass", "_Event", "int"] "_EventGlobalChannel",
  .define ["Union", "Tone", "int", "str", "Tone", "staticmethod", "BinaryIO", "Generator", "Tuple", "bytes", "_Reader",
    "staticmethod", "_Reader", "Tuple", "int", "int", "int", "staticmethod", "int", "int", "Signature", "int", "Tone",
    "staticmethod", "_Reader", "int", "staticmethod", "_Reader", "int", "staticmethod", "_Reader", "int", "staticmethod",
    "_Reader", "int", "staticmethod", "_Reader", "int", "_Reader", "int", "Dict", "int", "Track", "BinaryIO", "Optional",
    "int", "Track", "bytes", "Optional", "int", "Track"] "MIDIReader",
  .define ["Track", "BinaryIO", "float", "int"] "dump",
  .define ["Track", "float", "int", "bytes"] "dumps",
  .define ["BinaryIO", "Optional", "int", "Track"] "load",
  .define ["bytes", "Optional", "int", "Track"] "loads"]

/-- The steps of `melodia.music.chord`. -/
def stepsMelodiaMusicChord : List Step := [
  .take "typing" "Union",
  .take "typing" "Tuple",
  .take "typing" "Optional",
  .take "melodia.core" "Tone",
  .take "melodia.core" "Note",
  .take "melodia.core" "Signature",
  .define ["Union", "int", "str", "Tone", "Note", "Union", "Tuple", "int", "int", "Signature", "Optional", "float", "Tuple",
    "Tone", "Signature", "float"] "_get_parameters",
  .define ["Union", "int", "str", "Tone", "Note", "Union", "Tuple", "int", "int", "Signature", "Optional", "float", "Tuple",
    "Note", "Note", "Note"] "major",
  .define ["Union", "int", "str", "Tone", "Note", "Union", "Tuple", "int", "int", "Signature", "Optional", "float", "Tuple",
    "Note", "Note", "Note"] "maj",
  .define ["Union", "int", "str", "Tone", "Note", "Union", "Tuple", "int", "int", "Signature", "Optional", "float", "Tuple",
    "Note", "Note", "Note"] "minor",
  .define ["Union", "int", "str", "Tone", "Note", "Union", "Tuple", "int", "int", "Signature", "Optional", "float", "Tuple",
    "Note", "Note", "Note"] "min",
  .define ["Union", "int", "str", "Tone", "Note", "Union", "Tuple", "int", "int", "Signature", "Optional", "float", "Tuple",
    "Note", "Note", "Note"] "augmented",
  .define ["Union", "int", "str", "Tone", "Note", "Union", "Tuple", "int", "int", "Signature", "Optional", "float", "Tuple",
    "Note", "Note", "Note"] "aug",
  .define ["Union", "int", "str", "Tone", "Note", "Union", "Tuple", "int", "int", "Signature", "Optional", "float", "Tuple",
    "Note", "Note", "Note"] "diminished",
  .define ["Union", "int", "str", "Tone", "Note", "Union", "Tuple", "int", "int", "Signature", "Optional", "float", "Tuple",
    "Note", "Note", "Note"] "dim",
  .define ["Union", "int", "str", "Tone", "Note", "Union", "Tuple", "int", "int", "Signature", "Optional", "float", "Tuple",
    "Note", "Note", "Note"] "suspended4",
  .define ["Union", "int", "str", "Tone", "Note", "Union", "Tuple", "int", "int", "Signature", "Optional", "float", "Tuple",
    "Note", "Note", "Note"] "sus4",
  .define ["Union", "int", "str", "Tone", "Note", "Union", "Tuple", "int", "int", "Signature", "Optional", "float", "Tuple",
    "Note", "Note", "Note"] "suspended2",
  .define ["Union", "int", "str", "Tone", "Note", "Union", "Tuple", "int", "int", "Signature", "Optional", "float", "Tuple",
    "Note", "Note", "Note"] "sus2",
  .define ["Union", "int", "str", "Tone", "Note", "Union", "Tuple", "int", "int", "Signature", "Optional", "float", "Tuple",
    "Note", "Note", "Note", "Note"] "major7",
  .define ["Union", "int", "str", "Tone", "Note", "Union", "Tuple", "int", "int", "Signature", "Optional", "float", "Tuple",
    "Note", "Note", "Note", "Note"] "maj7",
  .define ["Union", "int", "str", "Tone", "Note", "Union", "Tuple", "int", "int", "Signature", "Optional", "float", "Tuple",
    "Note", "Note", "Note", "Note"] "minor7",
  .define ["Union", "int", "str", "Tone", "Note", "Union", "Tuple", "int", "int", "Signature", "Optional", "float", "Tuple",
    "Note", "Note", "Note", "Note"] "min7",
  .define ["Union", "int", "str", "Tone", "Note", "Union", "Tuple", "int", "int", "Signature", "Optional", "float", "Tuple",
    "Note", "Note", "Note", "Note"] "dominant7",
  .define ["Union", "int", "str", "Tone", "Note", "Union", "Tuple", "int", "int", "Signature", "Optional", "float", "Tuple",
    "Note", "Note", "Note", "Note"] "dom7",
  .define ["Union", "int", "str", "Tone", "Note", "Union", "Tuple", "int", "int", "Signature", "Optional", "float", "Tuple",
    "Note", "Note", "Note", "Note"] "dominant7b5",
  .define ["Union", "int", "str", "Tone", "Note", "Union", "Tuple", "int", "int", "Signature", "Optional", "float", "Tuple",
    "Note", "Note", "Note", "Note"] "dom7b5",
  .define ["Union", "int", "str", "Tone", "Note", "Union", "Tuple", "int", "int", "Signature", "Optional", "float", "Tuple",
    "Note", "Note", "Note", "Note"] "diminished7",
  .define ["Union", "int", "str", "Tone", "Note", "Union", "Tuple", "int", "int", "Signature", "Optional", "float", "Tuple",
    "Note", "Note", "Note", "Note"] "dim7",
  .define ["Union", "int", "str", "Tone", "Note", "Union", "Tuple", "int", "int", "Signature", "Optional", "float", "Tuple",
    "Note", "Note", "Note", "Note"] "minor7b5",
  .define ["Union", "int", "str", "Tone", "Note", "Union", "Tuple", "int", "int", "Signature", "Optional", "float", "Tuple",
    "Note", "Note", "Note", "Note"] "min7b5",
  .define ["Union", "int", "str", "Tone", "Note", "Union", "Tuple", "int", "int", "Signature", "Optional", "float", "Tuple",
    "Note", "Note", "Note", "Note"] "diminished_major7",
  .define ["Union", "int", "str", "Tone", "Note", "Union", "Tuple", "int", "int", "Signature", "Optional", "float", "Tuple",
    "Note", "Note", "Note", "Note"] "minor_major7",
  .define ["Union", "int", "str", "Tone", "Note", "Union", "Tuple", "int", "int", "Signature", "Optional", "float", "Tuple",
    "Note", "Note", "Note", "Note"] "augmented_major7",
  .define ["Union", "int", "str", "Tone", "Note", "Union", "Tuple", "int", "int", "Signature", "Optional", "float", "Tuple",
    "Note", "Note", "Note", "Note"] "major7s5",
  .define ["Union", "int", "str", "Tone", "Note", "Union", "Tuple", "int", "int", "Signature", "Optional", "float", "Tuple",
    "Note", "Note", "Note", "Note"] "maj7s5",
  .define ["Union", "int", "str", "Tone", "Note", "Union", "Tuple", "int", "int", "Signature", "Optional", "float", "Tuple",
    "Note", "Note", "Note", "Note"] "augmented_minor7",
  .define ["Union", "int", "str", "Tone", "Note", "Union", "Tuple", "int", "int", "Signature", "Optional", "float", "Tuple",
    "Note", "Note", "Note", "Note"] "augmented7",
  .define ["Union", "int", "str", "Tone", "Note", "Union", "Tuple", "int", "int", "Signature", "Optional", "float", "Tuple",
    "Note", "Note", "Note", "Note"] "aug7",
  .define ["Union", "int", "str", "Tone", "Note", "Union", "Tuple", "int", "int", "Signature", "Optional", "float", "Tuple",
    "Note", "Note", "Note", "Note", "Note"] "major9",
  .define ["Union", "int", "str", "Tone", "Note", "Union", "Tuple", "int", "int", "Signature", "Optional", "float", "Tuple",
    "Note", "Note", "Note", "Note", "Note"] "maj9",
  .define ["Union", "int", "str", "Tone", "Note", "Union", "Tuple", "int", "int", "Signature", "Optional", "float", "Tuple",
    "Note", "Note", "Note", "Note", "Note"] "minor9",
  .define ["Union", "int", "str", "Tone", "Note", "Union", "Tuple", "int", "int", "Signature", "Optional", "float", "Tuple",
    "Note", "Note", "Note", "Note", "Note"] "min9",
  .define ["Union", "int", "str", "Tone", "Note", "Union", "Tuple", "int", "int", "Signature", "Optional", "float", "Tuple",
    "Note", "Note", "Note", "Note", "Note"] "dominant9",
  .define ["Union", "int", "str", "Tone", "Note", "Union", "Tuple", "int", "int", "Signature", "Optional", "float", "Tuple",
    "Note", "Note", "Note", "Note", "Note"] "dom9",
  .define ["Union", "int", "str", "Tone", "Note", "Union", "Tuple", "int", "int", "Signature", "Optional", "float", "Tuple",
    "Note", "Note", "Note", "Note", "Note"] "dominant_minor9",
  .define ["Union", "int", "str", "Tone", "Note", "Union", "Tuple", "int", "int", "Signature", "Optional", "float", "Tuple",
    "Note", "Note", "Note", "Note", "Note"] "min7b9",
  .define ["Union", "int", "str", "Tone", "Note", "Union", "Tuple", "int", "int", "Signature", "Optional", "float", "Tuple",
    "Note", "Note", "Note", "Note", "Note"] "minor69",
  .define ["Union", "int", "str", "Tone", "Note", "Union", "Tuple", "int", "int", "Signature", "Optional", "float", "Tuple",
    "Note", "Note", "Note", "Note", "Note"] "min69",
  .define ["Union", "int", "str", "Tone", "Note", "Union", "Tuple", "int", "int", "Signature", "Optional", "float", "Tuple",
    "Note", "Note", "Note"] "added9",
  .define ["Union", "int", "str", "Tone", "Note", "Union", "Tuple", "int", "int", "Signature", "Optional", "float", "Tuple",
    "Note", "Note", "Note"] "add9",
  .define ["Union", "int", "str", "Tone", "Note", "Union", "Tuple", "int", "int", "Signature", "Optional", "float", "Tuple",
    "Note", "Note", "Note", "Note", "Note", "Note"] "major11",
  .define ["Union", "int", "str", "Tone", "Note", "Union", "Tuple", "int", "int", "Signature", "Optional", "float", "Tuple",
    "Note", "Note", "Note", "Note", "Note", "Note"] "maj11",
  .define ["Union", "int", "str", "Tone", "Note", "Union", "Tuple", "int", "int", "Signature", "Optional", "float", "Tuple",
    "Note", "Note", "Note", "Note", "Note", "Note"] "minor11",
  .define ["Union", "int", "str", "Tone", "Note", "Union", "Tuple", "int", "int", "Signature", "Optional", "float", "Tuple",
    "Note", "Note", "Note", "Note", "Note", "Note"] "min11",
  .define ["Union", "int", "str", "Tone", "Note", "Union", "Tuple", "int", "int", "Signature", "Optional", "float", "Tuple",
    "Note", "Note", "Note", "Note", "Note", "Note"] "dominant11",
  .define ["Union", "int", "str", "Tone", "Note", "Union", "Tuple", "int", "int", "Signature", "Optional", "float", "Tuple",
    "Note", "Note", "Note", "Note", "Note", "Note"] "dom11"]

/-- The steps of `melodia.core`. -/
def stepsMelodiaCore : List Step := [
  .take "typing" "Sequence",
  .take "melodia.core.tone" "Tone",
  .take "melodia.core.signature" "Signature",
  .take "melodia.core.note" "Note",
  .take "melodia.core.track" "Track",
  .eval ["Sequence", "str"] ["__all__"]]

/-- The steps of `melodia.io`. -/
def stepsMelodiaIo : List Step := [
  .take "typing" "Sequence",
  .take "melodia.io" "midi",
  .eval ["Sequence", "str"] ["__all__"]]

/-- The steps of `melodia.music`. -/
def stepsMelodiaMusic : List Step := [
  .take "typing" "Sequence",
  .take "melodia.music" "chord",
  .eval ["Sequence", "str"] ["__all__"]]

/-- The steps of `melodia.processing`. -/
def stepsMelodiaProcessing : List Step := [
  .take "typing" "Sequence",
  .take "melodia.processing" "track",
  .eval ["Sequence", "str"] ["__all__"]]

/-- The steps of `melodia`. -/
def stepsMelodia : List Step := [
  .take "typing" "Sequence",
  .take "melodia" "core",
  .take "melodia" "io",
  .take "melodia" "music",
  .take "melodia" "processing",
  .eval ["Sequence", "str"] ["__all__"]]

/-- The names of `melodia`. -/
def namesMelodia : List (String × Bound) := [
  ("Sequence", .std "typing" "Sequence"),
  ("core", .module "melodia.core"),
  ("io", .module "melodia.io"),
  ("music", .module "melodia.music"),
  ("processing", .module "melodia.processing"),
  ("__all__", .var "melodia" "__all__")]

/-- The names of `melodia.core`. -/
def namesMelodiaCore : List (String × Bound) := [
  ("Sequence", .std "typing" "Sequence"),
  ("tone", .module "melodia.core.tone"),
  ("Tone", .defined "melodia.core.tone" "Tone"),
  ("signature", .module "melodia.core.signature"),
  ("Signature", .defined "melodia.core.signature" "Signature"),
  ("note", .module "melodia.core.note"),
  ("Note", .defined "melodia.core.note" "Note"),
  ("track", .module "melodia.core.track"),
  ("Track", .defined "melodia.core.track" "Track"),
  ("__all__", .var "melodia.core" "__all__")]

/-- The names of `melodia.core.tone`. -/
def namesMelodiaCoreTone : List (String × Bound) := [
  ("re", .module "re"),
  ("Dict", .std "typing" "Dict"),
  ("_notation_regex", .var "melodia.core.tone" "_notation_regex"),
  ("_tone_mapping", .var "melodia.core.tone" "_tone_mapping"),
  ("_reverse_tone_mapping", .var "melodia.core.tone" "_reverse_tone_mapping"),
  ("Tone", .defined "melodia.core.tone" "Tone")]

/-- The names of `melodia.core.signature`. -/
def namesMelodiaCoreSignature : List (String × Bound) := [
  ("Tuple", .std "typing" "Tuple"),
  ("Signature", .defined "melodia.core.signature" "Signature")]

/-- The names of `melodia.core.note`. -/
def namesMelodiaCoreNote : List (String × Bound) := [
  ("Tuple", .std "typing" "Tuple"),
  ("Union", .std "typing" "Union"),
  ("Iterable", .std "typing" "Iterable"),
  ("Signature", .defined "melodia.core.signature" "Signature"),
  ("Tone", .defined "melodia.core.tone" "Tone"),
  ("Note", .defined "melodia.core.note" "Note")]

/-- The names of `melodia.core.track`. -/
def namesMelodiaCoreTrack : List (String × Bound) := [
  ("heapq", .module "heapq"),
  ("Iterable", .std "typing" "Iterable"),
  ("Tuple", .std "typing" "Tuple"),
  ("Union", .std "typing" "Union"),
  ("List", .std "typing" "List"),
  ("Optional", .std "typing" "Optional"),
  ("Note", .defined "melodia.core.note" "Note"),
  ("Signature", .defined "melodia.core.signature" "Signature"),
  ("Track", .defined "melodia.core.track" "Track")]

/-- The names of `melodia.io`. -/
def namesMelodiaIo : List (String × Bound) := [
  ("Sequence", .std "typing" "Sequence"),
  ("midi", .module "melodia.io.midi"),
  ("__all__", .var "melodia.io" "__all__")]

/-- The names of `melodia.io.midi`. -/
def namesMelodiaIoMidi : List (String × Bound) := [
  ("io", .module "io"),
  ("defaultdict", .std "collections" "defaultdict"),
  ("dataclass", .std "dataclasses" "dataclass"),
  ("itemgetter", .std "operator" "itemgetter"),
  ("BinaryIO", .std "typing" "BinaryIO"),
  ("List", .std "typing" "List"),
  ("Tuple", .std "typing" "Tuple"),
  ("Union", .std "typing" "Union"),
  ("Optional", .std "typing" "Optional"),
  ("Dict", .std "typing" "Dict"),
  ("Generator", .std "typing" "Generator"),
  ("Note", .defined "melodia.core.note" "Note"),
  ("Signature", .defined "melodia.core.signature" "Signature"),
  ("Tone", .defined "melodia.core.tone" "Tone"),
  ("Track", .defined "melodia.core.track" "Track"),
  ("MIDIError", .defined "melodia.io.midi" "MIDIError"),
  ("MIDIParsingError", .defined "melodia.io.midi" "MIDIParsingError"),
  ("_Reader", .defined "melodia.io.midi" "_Reader"),
  ("MIDIWriter", .defined "melodia.io.midi" "MIDIWriter"),
  ("_event_lengths", .var "melodia.io.midi" "_event_lengths"),
  ("i", .var "melodia.io.midi" "i"),
  ("_Event", .defined "melodia.io.midi" "_Event"),
  ("_EventUnsupported", .defined "melodia.io.midi" "_EventUnsupported"),
  ("_EventNoteOFF", .defined "melodia.io.midi" "_EventNoteOFF"),
  ("_EventNoteON", .defined "melodia.io.midi" "_EventNoteON"),
  ("_EventEndOfTrack", .defined "melodia.io.midi" "_EventEndOfTrack"),
  ("_EventTimeSignature", .defined "melodia.io.midi" "_EventTimeSignature"),
  ("_EventGlobalChannel", .defined "melodia.io.midi" "_EventGlobalChannel"),
  ("MIDIReader", .defined "melodia.io.midi" "MIDIReader"),
  ("dump", .defined "melodia.io.midi" "dump"),
  ("dumps", .defined "melodia.io.midi" "dumps"),
  ("load", .defined "melodia.io.midi" "load"),
  ("loads", .defined "melodia.io.midi" "loads")]

/-- The names of `melodia.music`. -/
def namesMelodiaMusic : List (String × Bound) := [
  ("Sequence", .std "typing" "Sequence"),
  ("chord", .module "melodia.music.chord"),
  ("__all__", .var "melodia.music" "__all__")]

/-- The names of `melodia.music.chord`. -/
def namesMelodiaMusicChord : List (String × Bound) := [
  ("Union", .std "typing" "Union"),
  ("Tuple", .std "typing" "Tuple"),
  ("Optional", .std "typing" "Optional"),
  ("Tone", .defined "melodia.core.tone" "Tone"),
  ("Note", .defined "melodia.core.note" "Note"),
  ("Signature", .defined "melodia.core.signature" "Signature"),
  ("_get_parameters", .defined "melodia.music.chord" "_get_parameters"),
  ("major", .defined "melodia.music.chord" "major"),
  ("maj", .defined "melodia.music.chord" "maj"),
  ("minor", .defined "melodia.music.chord" "minor"),
  ("min", .defined "melodia.music.chord" "min"),
  ("augmented", .defined "melodia.music.chord" "augmented"),
  ("aug", .defined "melodia.music.chord" "aug"),
  ("diminished", .defined "melodia.music.chord" "diminished"),
  ("dim", .defined "melodia.music.chord" "dim"),
  ("suspended4", .defined "melodia.music.chord" "suspended4"),
  ("sus4", .defined "melodia.music.chord" "sus4"),
  ("suspended2", .defined "melodia.music.chord" "suspended2"),
  ("sus2", .defined "melodia.music.chord" "sus2"),
  ("major7", .defined "melodia.music.chord" "major7"),
  ("maj7", .defined "melodia.music.chord" "maj7"),
  ("minor7", .defined "melodia.music.chord" "minor7"),
  ("min7", .defined "melodia.music.chord" "min7"),
  ("dominant7", .defined "melodia.music.chord" "dominant7"),
  ("dom7", .defined "melodia.music.chord" "dom7"),
  ("dominant7b5", .defined "melodia.music.chord" "dominant7b5"),
  ("dom7b5", .defined "melodia.music.chord" "dom7b5"),
  ("diminished7", .defined "melodia.music.chord" "diminished7"),
  ("dim7", .defined "melodia.music.chord" "dim7"),
  ("minor7b5", .defined "melodia.music.chord" "minor7b5"),
  ("min7b5", .defined "melodia.music.chord" "min7b5"),
  ("diminished_major7", .defined "melodia.music.chord" "diminished_major7"),
  ("minor_major7", .defined "melodia.music.chord" "minor_major7"),
  ("augmented_major7", .defined "melodia.music.chord" "augmented_major7"),
  ("major7s5", .defined "melodia.music.chord" "major7s5"),
  ("maj7s5", .defined "melodia.music.chord" "maj7s5"),
  ("augmented_minor7", .defined "melodia.music.chord" "augmented_minor7"),
  ("augmented7", .defined "melodia.music.chord" "augmented7"),
  ("aug7", .defined "melodia.music.chord" "aug7"),
  ("major9", .defined "melodia.music.chord" "major9"),
  ("maj9", .defined "melodia.music.chord" "maj9"),
  ("minor9", .defined "melodia.music.chord" "minor9"),
  ("min9", .defined "melodia.music.chord" "min9"),
  ("dominant9", .defined "melodia.music.chord" "dominant9"),
  ("dom9", .defined "melodia.music.chord" "dom9"),
  ("dominant_minor9", .defined "melodia.music.chord" "dominant_minor9"),
  ("min7b9", .defined "melodia.music.chord" "min7b9"),
  ("minor69", .defined "melodia.music.chord" "minor69"),
  ("min69", .defined "melodia.music.chord" "min69"),
  ("added9", .defined "melodia.music.chord" "added9"),
  ("add9", .defined "melodia.music.chord" "add9"),
  ("major11", .defined "melodia.music.chord" "major11"),
  ("maj11", .defined "melodia.music.chord" "maj11"),
  ("minor11", .defined "melodia.music.chord" "minor11"),
  ("min11", .defined "melodia.music.chord" "min11"),
  ("dominant11", .defined "melodia.music.chord" "dominant11"),
  ("dom11", .defined "melodia.music.chord" "dom11")]

/-- The names of `melodia.processing`. -/
def namesMelodiaProcessing : List (String × Bound) := [
  ("Sequence", .std "typing" "Sequence"),
  ("track", .module "melodia.processing.track"),
  ("__all__", .var "melodia.processing" "__all__")]

/-- The names of `melodia.processing.track`. -/
def namesMelodiaProcessingTrack : List (String × Bound) := [
  ("math", .module "math"),
  ("random", .module "random"),
  ("Track", .defined "melodia.core.track" "Track"),
  ("randomize_velocities", .defined "melodia.processing.track" "randomize_velocities")]

/-- The modules of melodia after an import of any of them, in the order in which their execution begins. -/
def loaded : Loaded := [("melodia", namesMelodia), ("melodia.core", namesMelodiaCore), ("melodia.core.tone",
    namesMelodiaCoreTone), ("melodia.core.signature", namesMelodiaCoreSignature), ("melodia.core.note", namesMelodiaCoreNote),
    ("melodia.core.track", namesMelodiaCoreTrack), ("melodia.io", namesMelodiaIo), ("melodia.io.midi", namesMelodiaIoMidi),
    ("melodia.music", namesMelodiaMusic), ("melodia.music.chord", namesMelodiaMusicChord), ("melodia.processing",
    namesMelodiaProcessing), ("melodia.processing.track", namesMelodiaProcessingTrack)]

/-- The files of melodia with their steps. -/
def files : Files := [
  ("melodia.core.signature", false, stepsMelodiaCoreSignature),
  ("melodia.core.tone", false, stepsMelodiaCoreTone),
  ("melodia.core.note", false, stepsMelodiaCoreNote),
  ("melodia.core.track", false, stepsMelodiaCoreTrack),
  ("melodia.processing.track", false, stepsMelodiaProcessingTrack),
  ("melodia.io.midi", false, stepsMelodiaIoMidi),
  ("melodia.music.chord", false, stepsMelodiaMusicChord),
  ("melodia.core", true, stepsMelodiaCore),
  ("melodia.io", true, stepsMelodiaIo),
  ("melodia.music", true, stepsMelodiaMusic),
  ("melodia.processing", true, stepsMelodiaProcessing),
  ("melodia", true, stepsMelodia)]

theorem stepsMelodiaCoreSignature_eq : moduleSteps "melodia.core.signature" false signatureText = some stepsMelodiaCoreSignature := by kernel_rfl

theorem stepsMelodiaCoreTone_eq : moduleSteps "melodia.core.tone" false toneText = some stepsMelodiaCoreTone := by kernel_rfl

theorem stepsMelodiaCoreNote_eq : moduleSteps "melodia.core.note" false noteText = some stepsMelodiaCoreNote := by kernel_rfl

theorem stepsMelodiaCoreTrack_eq : moduleSteps "melodia.core.track" false trackText = some stepsMelodiaCoreTrack := by kernel_rfl

theorem stepsMelodiaProcessingTrack_eq : moduleSteps "melodia.processing.track" false processingText = some stepsMelodiaProcessingTrack := by kernel_rfl

theorem stepsMelodiaIoMidi_eq : moduleSteps "melodia.io.midi" false midiText = some stepsMelodiaIoMidi := by kernel_rfl

theorem stepsMelodiaMusicChord_eq : moduleSteps "melodia.music.chord" false chordText = some stepsMelodiaMusicChord := by kernel_rfl

theorem stepsMelodiaCore_eq : moduleSteps "melodia.core" true coreText = some stepsMelodiaCore := by kernel_rfl

theorem stepsMelodiaIo_eq : moduleSteps "melodia.io" true ioPackageText = some stepsMelodiaIo := by kernel_rfl

theorem stepsMelodiaMusic_eq : moduleSteps "melodia.music" true musicPackageText = some stepsMelodiaMusic := by kernel_rfl

theorem stepsMelodiaProcessing_eq : moduleSteps "melodia.processing" true processingPackageText = some stepsMelodiaProcessing := by kernel_rfl

theorem stepsMelodia_eq : moduleSteps "melodia" true melodiaPackageText = some stepsMelodia := by kernel_rfl

theorem filesOf_cons {m : String} {p : Bool} {lines : List String} {l : List (String × Bool × List String)} {steps : List Step}
    {F : Files} (h : moduleSteps m p lines = some steps) (h' : filesOf l = some F) :
    filesOf ((m, p, lines) :: l) = some ((m, p, steps) :: F) := by
  simp only [filesOf, h, h']

theorem files_eq : filesOf sourceFiles = some files :=
  filesOf_cons stepsMelodiaCoreSignature_eq <| filesOf_cons stepsMelodiaCoreTone_eq <| filesOf_cons stepsMelodiaCoreNote_eq <| filesOf_cons stepsMelodiaCoreTrack_eq <| filesOf_cons stepsMelodiaProcessingTrack_eq <| filesOf_cons stepsMelodiaIoMidi_eq <| filesOf_cons stepsMelodiaMusicChord_eq <| filesOf_cons stepsMelodiaCore_eq <| filesOf_cons stepsMelodiaIo_eq <| filesOf_cons stepsMelodiaMusic_eq <| filesOf_cons stepsMelodiaProcessing_eq <| filesOf_cons stepsMelodia_eq <| rfl

end Melodia.Source
