/-
Abstract syntax of src/melodia/io/midi.py, written by tools/translate.py.
-/
import Verif.Python.Syntax

set_option autoImplicit false

namespace Melodia.Source

open Melodia.Python

/-- Class `MIDIError` (src/melodia/io/midi.py:13-14). -/
def MIDIError.classDef : ClassDef where
  name := "MIDIError"
  mod := "melodia.io.midi"
  bases := ["Exception"]

/-- Class `MIDIParsingError` (src/melodia/io/midi.py:17-18). -/
def MIDIParsingError.classDef : ClassDef where
  name := "MIDIParsingError"
  mod := "melodia.io.midi"
  bases := ["MIDIError"]

/-- `__init__` (src/melodia/io/midi.py:24-26). -/
def _Reader.dunder_init : FunDef where
  name := "__init__"
  mod := "melodia.io.midi"
  params := [("self", .none), ("data", .none)]
  body := [
    .assign (.attr (.name "self") "_data") (.name "data"),
    .assign (.attr (.name "self") "_idx") (.int 0)]

/-- `read` (src/melodia/io/midi.py:28-34). -/
def _Reader.read : FunDef where
  name := "read"
  mod := "melodia.io.midi"
  params := [("self", .none), ("n", .none)]
  body := [
    .ite (.cmp (.bin .sub (.call (.name "len") [.attr (.name "self") "_data"] []) (.attr (.name "self") "_idx")) [.lt] [.name "n"]) [
      .assign (.attr (.name "self") "_idx") (.call (.name "len") [.attr (.name "self") "_data"] []),
      .raise (.call (.name "MIDIParsingError") [.str "Invalid MIDI file: unexpected end of data"] [])] [],
    .assign (.name "result") (.slice (.attr (.name "self") "_data") (.attr (.name "self") "_idx") (.bin .add (.attr (.name "self") "_idx") (.name "n"))),
    .aug (.attr (.name "self") "_idx") .add (.name "n"),
    .ret (.name "result")]

/-- `shift` (src/melodia/io/midi.py:36-37). -/
def _Reader.shift : FunDef where
  name := "shift"
  mod := "melodia.io.midi"
  params := [("self", .none), ("n", .none)]
  body := [
    .aug (.attr (.name "self") "_idx") .add (.name "n")]

/-- `__len__` (src/melodia/io/midi.py:39-40). -/
def _Reader.dunder_len : FunDef where
  name := "__len__"
  mod := "melodia.io.midi"
  params := [("self", .none)]
  body := [
    .ret (.call (.name "len") [.attr (.name "self") "_data"] [])]

/-- Class `_Reader` (src/melodia/io/midi.py:21-40). -/
def _Reader.classDef : ClassDef where
  name := "_Reader"
  mod := "melodia.io.midi"
  methods := [_Reader.dunder_init,
    _Reader.read,
    _Reader.shift,
    _Reader.dunder_len]
  slots := some ["_data", "_idx"]
  mutable := true

/-- `__init__` (src/melodia/io/midi.py:57-106). -/
def MIDIWriter.dunder_init : FunDef where
  name := "__init__"
  mod := "melodia.io.midi"
  params := [("self", .none), ("pulses_per_quarter", some (.int 96)), ("middle_c", some (.call (.attr (.name "Tone") "from_notation") [.str "C3"] [])), ("bpm", some (.float 120 1)), ("channel", some (.int 0))]
  body := [
    .ite (.un .not (.cmp (.int 1) [.le, .le] [.name "pulses_per_quarter", .int 32767])) [
      .raise (.call (.name "ValueError") [.str "pulses_per_quarter must be in range [1, 32767]"] [])] [],
    .ite (.un .not (.cmp (.int 0) [.le, .le] [.name "channel", .int 15])) [
      .raise (.call (.name "ValueError") [.str "channel must be in range [0, 15]"] [])] [],
    .assign (.attr (.name "self") "_pulses_per_quarter") (.name "pulses_per_quarter"),
    .assign (.attr (.name "self") "_pulses_per_whole") (.bin .mul (.name "pulses_per_quarter") (.int 4)),
    .assign (.attr (.name "self") "_middle_c") (.name "middle_c"),
    .ite (.call (.name "isinstance") [.name "middle_c", .name "Tone"] []) [
      .assign (.attr (.name "self") "_middle_c_delta") (.bin .sub (.int 60) (.attr (.name "middle_c") "pitch"))] [
      .ite (.call (.name "isinstance") [.name "middle_c", .name "int"] []) [
        .assign (.attr (.name "self") "_middle_c_delta") (.bin .sub (.int 60) (.attr (.call (.name "Tone") [.name "middle_c"] []) "pitch"))] [
        .ite (.call (.name "isinstance") [.name "middle_c", .name "str"] []) [
          .assign (.attr (.name "self") "_middle_c_delta") (.bin .sub (.int 60) (.attr (.call (.attr (.name "Tone") "from_notation") [.name "middle_c"] []) "pitch"))] [
          .raise (.call (.name "TypeError") [.str "middle_c must be a Tone object, an integer or a string"] [])]]],
    .assign (.attr (.name "self") "_bpm") (.name "bpm"),
    .assign (.attr (.name "self") "_channel") (.name "channel")]

/-- `_signature_to_pulses` (src/melodia/io/midi.py:108-111). -/
def MIDIWriter._signature_to_pulses : FunDef where
  name := "_signature_to_pulses"
  mod := "melodia.io.midi"
  params := [("self", .none), ("signature", .none)]
  body := [
    .assign (.name "normalized") (.call (.attr (.name "signature") "normalized") [] []),
    .ret (.bin .floorDiv (.bin .mul (.attr (.name "self") "_pulses_per_whole") (.attr (.name "normalized") "nominator")) (.attr (.name "normalized") "denominator"))]

/-- `_format_note_on` (src/melodia/io/midi.py:113-127). -/
def MIDIWriter._format_note_on : FunDef where
  name := "_format_note_on"
  mod := "melodia.io.midi"
  params := [("self", .none), ("note", .none)]
  body := [
    .assign (.name "status") (.bin .bor (.int 144) (.attr (.name "self") "_channel")),
    .assign (.name "pitch") (.bin .add (.attr (.attr (.name "note") "tone") "pitch") (.attr (.name "self") "_middle_c_delta")),
    .ite (.un .not (.cmp (.int 0) [.le, .le] [.name "pitch", .int 127])) [
      .raise (.call (.name "ValueError") [.fstr [.str "Tone ", .field (.call (.name "str") [.attr (.name "note") "tone"] []) "", .str " can not be written to midi file with middle c equals to ", .field (.call (.name "str") [.attr (.name "self") "_middle_c"] []) ""]] [])] [],
    .assign (.name "velocity") (.call (.name "max") [.int 0, .call (.name "min") [.int 127, .call (.name "int") [.bin .mul (.attr (.name "note") "velocity") (.int 127)] []] []] []),
    .ret (.call (.attr (.bytes []) "join") [.list [.call (.attr (.name "status") "to_bytes") [.int 1, .str "big"] [], .call (.attr (.name "pitch") "to_bytes") [.int 1, .str "big"] [], .call (.attr (.name "velocity") "to_bytes") [.int 1, .str "big"] []]] [])]

/-- `_format_note_off` (src/melodia/io/midi.py:129-143). -/
def MIDIWriter._format_note_off : FunDef where
  name := "_format_note_off"
  mod := "melodia.io.midi"
  params := [("self", .none), ("note", .none)]
  body := [
    .assign (.name "status") (.bin .bor (.int 128) (.attr (.name "self") "_channel")),
    .assign (.name "pitch") (.bin .add (.attr (.attr (.name "note") "tone") "pitch") (.attr (.name "self") "_middle_c_delta")),
    .ite (.un .not (.cmp (.int 0) [.le, .le] [.name "pitch", .int 127])) [
      .raise (.call (.name "ValueError") [.fstr [.str "Tone ", .field (.call (.name "str") [.attr (.name "note") "tone"] []) "", .str " can not be written to midi file with middle c equals to ", .field (.call (.name "str") [.attr (.name "self") "_middle_c"] []) ""]] [])] [],
    .assign (.name "velocity") (.int 64),
    .ret (.call (.attr (.bytes []) "join") [.list [.call (.attr (.name "status") "to_bytes") [.int 1, .str "big"] [], .call (.attr (.name "pitch") "to_bytes") [.int 1, .str "big"] [], .call (.attr (.name "velocity") "to_bytes") [.int 1, .str "big"] []]] [])]

/-- `_format_var_len` (src/melodia/io/midi.py:145-155). -/
def MIDIWriter._format_var_len : FunDef where
  name := "_format_var_len"
  mod := "melodia.io.midi"
  params := [("x", .none)]
  body := [
    .assign (.name "buffer") (.bin .band (.name "x") (.int 127)),
    .aug (.name "x") .shr (.int 7),
    .while (.cmp (.name "x") [.gt] [.int 0]) [
      .aug (.name "buffer") .shl (.int 8),
      .aug (.name "buffer") .bor (.int 128),
      .aug (.name "buffer") .add (.bin .band (.name "x") (.int 127)),
      .aug (.name "x") .shr (.int 7)],
    .ret (.call (.attr (.name "buffer") "to_bytes") [.bin .add (.bin .floorDiv (.call (.attr (.name "buffer") "bit_length") [] []) (.int 8)) (.int 1), .str "little"] [])]
  deco := .staticmethod

/-- `_format_signature` (src/melodia/io/midi.py:157-168). -/
def MIDIWriter._format_signature : FunDef where
  name := "_format_signature"
  mod := "melodia.io.midi"
  params := [("signature", .none), ("cc", .none), ("bb", .none)]
  body := [
    .assign (.name "nn") (.attr (.name "signature") "nominator"),
    .assign (.name "dd") (.bin .sub (.call (.attr (.attr (.name "signature") "denominator") "bit_length") [] []) (.int 1)),
    .ret (.call (.attr (.bytes []) "join") [.list [.bytes [255, 88, 4], .call (.attr (.name "nn") "to_bytes") [.int 1, .str "big"] [], .call (.attr (.name "dd") "to_bytes") [.int 1, .str "big"] [], .call (.attr (.name "cc") "to_bytes") [.int 1, .str "big"] [], .call (.attr (.name "bb") "to_bytes") [.int 1, .str "big"] []]] [])]
  deco := .staticmethod

/-- `_format_tempo` (src/melodia/io/midi.py:170-175). -/
def MIDIWriter._format_tempo : FunDef where
  name := "_format_tempo"
  mod := "melodia.io.midi"
  params := [("tempo", .none)]
  body := [
    .ret (.call (.attr (.bytes []) "join") [.list [.bytes [255, 81, 3], .call (.attr (.name "tempo") "to_bytes") [.int 3, .str "big"] []]] [])]
  deco := .staticmethod

/-- `_format_chunk` (src/melodia/io/midi.py:177-180). -/
def MIDIWriter._format_chunk : FunDef where
  name := "_format_chunk"
  mod := "melodia.io.midi"
  params := [("kind", .none), ("body", .none)]
  body := [
    .assert (.cmp (.call (.name "len") [.name "kind"] []) [.eq] [.int 4]),
    .ret (.call (.attr (.bytes []) "join") [.list [.name "kind", .call (.attr (.call (.name "len") [.name "body"] []) "to_bytes") [.int 4, .str "big"] [], .name "body"]] [])]
  deco := .staticmethod

/-- `_format_header_chunk` (src/melodia/io/midi.py:182-195). -/
def MIDIWriter._format_header_chunk : FunDef where
  name := "_format_header_chunk"
  mod := "melodia.io.midi"
  params := [("self", .none), ("kind", .none), ("n_tracks", .none)]
  body := [
    .assert (.cmp (.name "kind") [.isIn] [.tuple [.int 0, .int 1, .int 2]]),
    .assign (.name "body") (.call (.attr (.bytes []) "join") [.list [.call (.attr (.name "kind") "to_bytes") [.int 2, .str "big"] [], .call (.attr (.name "n_tracks") "to_bytes") [.int 2, .str "big"] [], .call (.attr (.attr (.name "self") "_pulses_per_quarter") "to_bytes") [.int 2, .str "big"] []]] []),
    .ret (.call (.attr (.name "MIDIWriter") "_format_chunk") [.bytes [77, 84, 104, 100], .name "body"] [])]

/-- `dump` (src/melodia/io/midi.py:197-240). -/
def MIDIWriter.dump : FunDef where
  name := "dump"
  mod := "melodia.io.midi"
  params := [("self", .none), ("track", .none), ("file", .none)]
  body := [
    .assign (.name "absolute_note_events") (.list []),
    .for (.tuple [.name "position", .name "note"]) (.name "track") [
      .assign (.name "note_on_absolute_time") (.call (.attr (.name "self") "_signature_to_pulses") [.name "position"] []),
      .assign (.name "note_on_event") (.call (.attr (.name "self") "_format_note_on") [.name "note"] []),
      .assign (.name "note_off_absolute_time") (.bin .add (.name "note_on_absolute_time") (.call (.attr (.name "self") "_signature_to_pulses") [.attr (.name "note") "duration"] [])),
      .assign (.name "note_off_event") (.call (.attr (.name "self") "_format_note_off") [.name "note"] []),
      .expr (.call (.attr (.name "absolute_note_events") "append") [.tuple [.name "note_on_absolute_time", .name "note_on_event"]] []),
      .expr (.call (.attr (.name "absolute_note_events") "append") [.tuple [.name "note_off_absolute_time", .name "note_off_event"]] [])],
    .expr (.call (.attr (.name "absolute_note_events") "sort") [.call (.name "itemgetter") [.int 0] []] ["key"]),
    .assign (.name "delta_events") (.list [.tuple [.int 0, .call (.attr (.name "self") "_format_signature") [.attr (.name "track") "signature", .attr (.name "self") "_pulses_per_quarter", .int 8] ["cc", "bb"]], .tuple [.int 0, .call (.attr (.name "self") "_format_tempo") [.call (.name "int") [.bin .div (.int 60000000) (.attr (.name "self") "_bpm")] []] []]]),
    .assign (.name "last_absolute_time") (.int 0),
    .for (.tuple [.name "absolute_time", .name "note_event"]) (.name "absolute_note_events") [
      .expr (.call (.attr (.name "delta_events") "append") [.tuple [.bin .sub (.name "absolute_time") (.name "last_absolute_time"), .name "note_event"]] []),
      .assign (.name "last_absolute_time") (.name "absolute_time")],
    .expr (.call (.attr (.name "delta_events") "append") [.tuple [.int 0, .bytes [255, 47, 0]]] []),
    .expr (.call (.attr (.name "file") "write") [.call (.attr (.name "self") "_format_header_chunk") [.int 0, .int 1] ["kind", "n_tracks"]] []),
    .assign (.name "track_body") (.list []),
    .for (.tuple [.name "delta_time", .name "event"]) (.name "delta_events") [
      .expr (.call (.attr (.name "track_body") "append") [.call (.attr (.name "self") "_format_var_len") [.name "delta_time"] []] []),
      .expr (.call (.attr (.name "track_body") "append") [.name "event"] [])],
    .expr (.call (.attr (.name "file") "write") [.call (.attr (.name "self") "_format_chunk") [.bytes [77, 84, 114, 107], .call (.attr (.bytes []) "join") [.name "track_body"] []] []] [])]

/-- `dumps` (src/melodia/io/midi.py:242-251). -/
def MIDIWriter.dumps : FunDef where
  name := "dumps"
  mod := "melodia.io.midi"
  params := [("self", .none), ("track", .none)]
  body := [
    .withAs (.call (.attr (.name "io") "BytesIO") [] []) "file" [
      .expr (.call (.attr (.name "self") "dump") [.name "track", .name "file"] []),
      .ret (.call (.attr (.call (.attr (.name "file") "getbuffer") [] []) "tobytes") [] [])]]

/-- Class `MIDIWriter` (src/melodia/io/midi.py:43-251). -/
def MIDIWriter.classDef : ClassDef where
  name := "MIDIWriter"
  mod := "melodia.io.midi"
  methods := [MIDIWriter.dunder_init,
    MIDIWriter._signature_to_pulses,
    MIDIWriter._format_note_on,
    MIDIWriter._format_note_off,
    MIDIWriter._format_var_len,
    MIDIWriter._format_signature,
    MIDIWriter._format_tempo,
    MIDIWriter._format_chunk,
    MIDIWriter._format_header_chunk,
    MIDIWriter.dump,
    MIDIWriter.dumps]
  slots := some ["_pulses_per_quarter", "_pulses_per_whole", "_middle_c", "_middle_c_delta", "_bpm", "_channel"]

/-- Class `_Event` (src/melodia/io/midi.py:311-313). -/
def _Event.classDef : ClassDef where
  name := "_Event"
  mod := "melodia.io.midi"

/-- Class `_EventUnsupported` (src/melodia/io/midi.py:316-318). -/
def _EventUnsupported.classDef : ClassDef where
  name := "_EventUnsupported"
  mod := "melodia.io.midi"
  bases := ["_Event"]

/-- Class `_EventNoteOFF` (src/melodia/io/midi.py:321-325). -/
def _EventNoteOFF.classDef : ClassDef where
  name := "_EventNoteOFF"
  mod := "melodia.io.midi"
  bases := ["_Event"]
  fields := ["channel", "pitch", "velocity"]

/-- Class `_EventNoteON` (src/melodia/io/midi.py:328-332). -/
def _EventNoteON.classDef : ClassDef where
  name := "_EventNoteON"
  mod := "melodia.io.midi"
  bases := ["_Event"]
  fields := ["channel", "pitch", "velocity"]

/-- Class `_EventEndOfTrack` (src/melodia/io/midi.py:335-337). -/
def _EventEndOfTrack.classDef : ClassDef where
  name := "_EventEndOfTrack"
  mod := "melodia.io.midi"
  bases := ["_Event"]

/-- Class `_EventTimeSignature` (src/melodia/io/midi.py:340-345). -/
def _EventTimeSignature.classDef : ClassDef where
  name := "_EventTimeSignature"
  mod := "melodia.io.midi"
  bases := ["_Event"]
  fields := ["nn", "dd", "cc", "bb"]

/-- Class `_EventGlobalChannel` (src/melodia/io/midi.py:348-350). -/
def _EventGlobalChannel.classDef : ClassDef where
  name := "_EventGlobalChannel"
  mod := "melodia.io.midi"
  bases := ["_Event"]
  fields := ["channel"]

/-- `__init__` (src/melodia/io/midi.py:363-386). -/
def MIDIReader.dunder_init : FunDef where
  name := "__init__"
  mod := "melodia.io.midi"
  params := [("self", .none), ("middle_c", some (.call (.attr (.name "Tone") "from_notation") [.str "C3"] []))]
  body := [
    .assign (.attr (.name "self") "_middle_c") (.name "middle_c"),
    .ite (.call (.name "isinstance") [.name "middle_c", .name "Tone"] []) [
      .assign (.attr (.name "self") "_middle_c_delta") (.bin .sub (.int 60) (.attr (.name "middle_c") "pitch"))] [
      .ite (.call (.name "isinstance") [.name "middle_c", .name "int"] []) [
        .assign (.attr (.name "self") "_middle_c_delta") (.bin .sub (.int 60) (.attr (.call (.name "Tone") [.name "middle_c"] []) "pitch"))] [
        .ite (.call (.name "isinstance") [.name "middle_c", .name "str"] []) [
          .assign (.attr (.name "self") "_middle_c_delta") (.bin .sub (.int 60) (.attr (.call (.attr (.name "Tone") "from_notation") [.name "middle_c"] []) "pitch"))] [
          .raise (.call (.name "TypeError") [.str "middle_c must be a Tone object, an integer or a string"] [])]]]]

/-- `_read_chunks` (src/melodia/io/midi.py:388-401). -/
def MIDIReader._read_chunks : FunDef where
  name := "_read_chunks"
  mod := "melodia.io.midi"
  params := [("file", .none)]
  body := [
    .while (.bool true) [
      .assign (.name "chunk_header") (.call (.attr (.name "file") "read") [.int 8] []),
      .ite (.cmp (.call (.name "len") [.name "chunk_header"] []) [.eq] [.int 0]) [
        .break] [],
      .ite (.cmp (.call (.name "len") [.name "chunk_header"] []) [.lt] [.int 8]) [
        .raise (.call (.name "MIDIParsingError") [.str "Invalid MIDI file: incomplete chunk header"] [])] [],
      .assign (.name "chunk_name") (.slice (.name "chunk_header") .none (.int 4)),
      .assign (.name "chunk_size") (.call (.attr (.name "int") "from_bytes") [.slice (.name "chunk_header") (.int 5) .none, .str "big"] []),
      .assign (.name "chunk_body") (.call (.attr (.name "file") "read") [.name "chunk_size"] []),
      .ite (.cmp (.call (.name "len") [.name "chunk_body"] []) [.lt] [.name "chunk_size"]) [
        .raise (.call (.name "MIDIParsingError") [.str "Invalid MIDI file: incomplete chunk body"] [])] [],
      .yield (.tuple [.name "chunk_name", .call (.name "_Reader") [.name "chunk_body"] []])]]
  deco := .staticmethod
  gen := true

/-- `_parse_header` (src/melodia/io/midi.py:403-408). -/
def MIDIReader._parse_header : FunDef where
  name := "_parse_header"
  mod := "melodia.io.midi"
  params := [("data", .none)]
  body := [
    .assign (.name "kind") (.call (.attr (.name "int") "from_bytes") [.call (.attr (.name "data") "read") [.int 2] [], .str "big"] []),
    .assign (.name "n_tracks") (.call (.attr (.name "int") "from_bytes") [.call (.attr (.name "data") "read") [.int 2] [], .str "big"] []),
    .assign (.name "division") (.call (.attr (.name "int") "from_bytes") [.call (.attr (.name "data") "read") [.int 2] [], .str "big"] []),
    .ret (.tuple [.name "kind", .name "n_tracks", .name "division"])]
  deco := .staticmethod

/-- `_time_to_signature` (src/melodia/io/midi.py:410-414). -/
def MIDIReader._time_to_signature : FunDef where
  name := "_time_to_signature"
  mod := "melodia.io.midi"
  params := [("time", .none), ("ticks_per_quarter", .none)]
  body := [
    .assert (.cmp (.name "ticks_per_quarter") [.gt] [.int 0]),
    .ret (.call (.attr (.call (.name "Signature") [.bin .floorDiv (.bin .mul (.name "time") (.int 4096)) (.name "ticks_per_quarter"), .bin .mul (.int 4) (.int 4096)] []) "normalized") [] [])]
  deco := .staticmethod

/-- `_pitch_to_tone` (src/melodia/io/midi.py:416-417). -/
def MIDIReader._pitch_to_tone : FunDef where
  name := "_pitch_to_tone"
  mod := "melodia.io.midi"
  params := [("self", .none), ("pitch", .none)]
  body := [
    .ret (.call (.name "Tone") [.bin .sub (.name "pitch") (.attr (.name "self") "_middle_c_delta")] [])]

/-- `_read_var_len` (src/melodia/io/midi.py:419-434). -/
def MIDIReader._read_var_len : FunDef where
  name := "_read_var_len"
  mod := "melodia.io.midi"
  params := [("data", .none)]
  body := [
    .assign (.name "result") (.call (.attr (.name "int") "from_bytes") [.call (.attr (.name "data") "read") [.int 1] [], .str "big"] []),
    .ite (.cmp (.bin .band (.name "result") (.int 128)) [.eq] [.int 0]) [
      .ret (.name "result")] [],
    .aug (.name "result") .band (.int 127),
    .while (.bool true) [
      .assign (.name "value") (.call (.attr (.name "int") "from_bytes") [.call (.attr (.name "data") "read") [.int 1] [], .str "big"] []),
      .assign (.name "result") (.bin .add (.bin .shl (.name "result") (.int 7)) (.bin .band (.name "value") (.int 127))),
      .ite (.cmp (.bin .band (.name "value") (.int 128)) [.eq] [.int 0]) [
        .break] []],
    .ret (.name "result")]
  deco := .staticmethod

/-- `_read_8` (src/melodia/io/midi.py:436-438). -/
def MIDIReader._read_8 : FunDef where
  name := "_read_8"
  mod := "melodia.io.midi"
  params := [("data", .none)]
  body := [
    .ret (.call (.attr (.name "int") "from_bytes") [.call (.attr (.name "data") "read") [.int 1] [], .str "big"] [])]
  deco := .staticmethod

/-- `_read_16` (src/melodia/io/midi.py:440-442). -/
def MIDIReader._read_16 : FunDef where
  name := "_read_16"
  mod := "melodia.io.midi"
  params := [("data", .none)]
  body := [
    .ret (.call (.attr (.name "int") "from_bytes") [.call (.attr (.name "data") "read") [.int 2] [], .str "big"] [])]
  deco := .staticmethod

/-- `_read_24` (src/melodia/io/midi.py:444-446). -/
def MIDIReader._read_24 : FunDef where
  name := "_read_24"
  mod := "melodia.io.midi"
  params := [("data", .none)]
  body := [
    .ret (.call (.attr (.name "int") "from_bytes") [.call (.attr (.name "data") "read") [.int 3] [], .str "big"] [])]
  deco := .staticmethod

/-- `_read_32` (src/melodia/io/midi.py:448-450). -/
def MIDIReader._read_32 : FunDef where
  name := "_read_32"
  mod := "melodia.io.midi"
  params := [("data", .none)]
  body := [
    .ret (.call (.attr (.name "int") "from_bytes") [.call (.attr (.name "data") "read") [.int 4] [], .str "big"] [])]
  deco := .staticmethod

/-- `_parse_track` (src/melodia/io/midi.py:452-602). -/
def MIDIReader._parse_track : FunDef where
  name := "_parse_track"
  mod := "melodia.io.midi"
  params := [("self", .none), ("data", .none), ("ticks_per_quarter", .none)]
  body := [
    .assign (.name "previous_status") .none,
    .defn "read_event" [("status", .none)] ["previous_status"] [
      .ite (.cmp (.name "status") [.is] [.none]) [
        .assign (.name "status") (.call (.attr (.name "MIDIReader") "_read_8") [.name "data"] [])] [],
      .ite (.cmp (.name "status") [.eq] [.int 255]) [
        .assign (.name "previous_status") (.name "status"),
        .assign (.name "kind") (.call (.attr (.name "MIDIReader") "_read_8") [.name "data"] []),
        .assign (.name "length") (.call (.attr (.name "MIDIReader") "_read_var_len") [.name "data"] []),
        .ite (.cmp (.name "kind") [.eq] [.int 47]) [
          .ite (.cmp (.name "length") [.ne] [.int 0]) [
            .raise (.call (.name "MIDIParsingError") [.fstr [.str "Invalid MIDI file: end of track event has length ", .field (.name "length") "", .str " != 0"]] [])] [],
          .ret (.call (.name "_EventEndOfTrack") [] [])] [
          .ite (.cmp (.name "kind") [.eq] [.int 32]) [
            .ite (.cmp (.name "length") [.ne] [.int 1]) [
              .raise (.call (.name "MIDIParsingError") [.fstr [.str "Invalid MIDI file: meta channel event has length ", .field (.name "length") "", .str " != 3"]] [])] [],
            .assign (.name "channel") (.call (.attr (.name "MIDIReader") "_read_8") [.name "data"] []),
            .ret (.call (.name "_EventGlobalChannel") [.name "channel"] ["channel"])] [
            .ite (.cmp (.name "kind") [.eq] [.int 88]) [
              .ite (.cmp (.name "length") [.ne] [.int 4]) [
                .raise (.call (.name "MIDIParsingError") [.fstr [.str "Invalid MIDI file: time signature event has length ", .field (.name "length") "", .str " != 3"]] [])] [],
              .assign (.name "nn") (.call (.attr (.name "MIDIReader") "_read_8") [.name "data"] []),
              .assign (.name "dd") (.call (.attr (.name "MIDIReader") "_read_8") [.name "data"] []),
              .assign (.name "cc") (.call (.attr (.name "MIDIReader") "_read_8") [.name "data"] []),
              .assign (.name "bb") (.call (.attr (.name "MIDIReader") "_read_8") [.name "data"] []),
              .ret (.call (.name "_EventTimeSignature") [.name "nn", .name "dd", .name "cc", .name "bb"] ["nn", "dd", "cc", "bb"])] [
              .expr (.call (.attr (.name "data") "read") [.name "length"] []),
              .ret (.call (.name "_EventUnsupported") [] [])]]]] [
        .ite (.cmp (.name "status") [.ge] [.int 128]) [
          .assign (.name "previous_status") (.name "status"),
          .assign (.name "kind") (.bin .shr (.name "status") (.int 4)),
          .assign (.name "channel") (.bin .band (.name "status") (.int 15)),
          .ite (.cmp (.name "kind") [.eq] [.int 8]) [
            .assign (.name "pitch") (.call (.attr (.name "MIDIReader") "_read_8") [.name "data"] []),
            .assign (.name "velocity") (.call (.attr (.name "MIDIReader") "_read_8") [.name "data"] []),
            .ret (.call (.name "_EventNoteOFF") [.name "channel", .name "pitch", .name "velocity"] ["channel", "pitch", "velocity"])] [
            .ite (.cmp (.name "kind") [.eq] [.int 9]) [
              .assign (.name "pitch") (.call (.attr (.name "MIDIReader") "_read_8") [.name "data"] []),
              .assign (.name "velocity") (.call (.attr (.name "MIDIReader") "_read_8") [.name "data"] []),
              .ite (.cmp (.name "velocity") [.eq] [.int 0]) [
                .ret (.call (.name "_EventNoteOFF") [.name "channel", .name "pitch", .name "velocity"] ["channel", "pitch", "velocity"])] [],
              .ret (.call (.name "_EventNoteON") [.name "channel", .name "pitch", .name "velocity"] ["channel", "pitch", "velocity"])] [
              .ite (.cmp (.name "status") [.eq] [.int 240]) [
                .assign (.name "value") (.int 0),
                .while (.cmp (.name "value") [.ne] [.int 247]) [
                  .assign (.name "value") (.call (.attr (.name "data") "read") [.int 1] [])],
                .ret (.call (.name "_EventUnsupported") [] [])] [
                .assign (.name "length") (.index (.name "_event_lengths") (.name "status")),
                .ite (.cmp (.name "length") [.eq] [.un .neg (.int 1)]) [
                  .raise (.call (.name "MIDIParsingError") [.fstr [.str "Unknown status ", .field (.name "status") ""]] [])] [
                  .expr (.call (.attr (.name "data") "read") [.name "length"] [])],
                .ret (.call (.name "_EventUnsupported") [] [])]]]] [
          .expr (.call (.attr (.name "data") "shift") [.un .neg (.int 1)] []),
          .ret (.call (.name "read_event") [.name "previous_status"] ["status"])]]],
    .assign (.name "channel_events") (.call (.name "defaultdict") [.name "list"] []),
    .assign (.name "channel_signatures") (.dict [] []),
    .assign (.name "global_channel") (.un .neg (.int 1)),
    .assign (.name "last_time") (.int 0),
    .while (.bool true) [
      .assign (.name "delta_time") (.call (.attr (.name "MIDIReader") "_read_var_len") [.name "data"] []),
      .assign (.name "absolute_time") (.bin .add (.name "last_time") (.name "delta_time")),
      .assign (.name "last_time") (.name "absolute_time"),
      .assign (.name "event") (.call (.name "read_event") [] []),
      .ite (.call (.name "isinstance") [.name "event", .tuple [.name "_EventNoteON", .name "_EventNoteOFF"]] []) [
        .expr (.call (.attr (.index (.name "channel_events") (.attr (.name "event") "channel")) "append") [.tuple [.name "absolute_time", .name "event"]] []),
        .continue] [],
      .ite (.call (.name "isinstance") [.name "event", .name "_EventEndOfTrack"] []) [
        .break] [],
      .ite (.call (.name "isinstance") [.name "event", .name "_EventGlobalChannel"] []) [
        .assign (.name "global_channel") (.attr (.name "event") "channel"),
        .continue] [],
      .ite (.call (.name "isinstance") [.name "event", .name "_EventTimeSignature"] []) [
        .assign (.index (.name "channel_signatures") (.name "global_channel")) (.call (.name "Signature") [.attr (.name "event") "nn", .bin .shl (.int 1) (.attr (.name "event") "dd")] []),
        .continue] []],
    .ite (.un .not (.name "channel_events")) [
      .expr (.call (.attr (.index (.name "channel_events") (.int 0)) "append") [.tuple [.int 0, .call (.name "_EventUnsupported") [] []]] [])] [],
    .assign (.name "result") (.dict [] []),
    .for (.tuple [.name "channel", .name "events"]) (.call (.attr (.name "channel_events") "items") [] []) [
      .ite (.cmp (.name "channel") [.isIn] [.name "channel_signatures"]) [
        .assign (.name "signature") (.index (.name "channel_signatures") (.name "channel"))] [
        .assign (.name "signature") (.call (.attr (.name "channel_signatures") "get") [.un .neg (.int 1), .call (.name "Signature") [.int 4, .int 4] []] [])],
      .assign (.name "track") (.call (.name "Track") [.name "signature"] ["signature"]),
      .assign (.name "running_notes") (.dict [] []),
      .for (.tuple [.name "absolute_time", .name "event"]) (.name "events") [
        .ite (.call (.name "isinstance") [.name "event", .name "_EventNoteON"] []) [
          .ite (.cmp (.attr (.name "event") "pitch") [.isIn] [.name "running_notes"]) [
            .continue] [],
          .assign (.index (.name "running_notes") (.attr (.name "event") "pitch")) (.tuple [.name "absolute_time", .name "event"]),
          .continue] [],
        .ite (.call (.name "isinstance") [.name "event", .name "_EventNoteOFF"] []) [
          .ite (.cmp (.attr (.name "event") "pitch") [.notIn] [.name "running_notes"]) [
            .continue] [],
          .assign (.tuple ["note_beginning", "note_on"]) (.index (.name "running_notes") (.attr (.name "event") "pitch")),
          .del (.index (.name "running_notes") (.attr (.name "event") "pitch")),
          .assign (.name "tone") (.call (.attr (.name "self") "_pitch_to_tone") [.attr (.name "event") "pitch"] []),
          .assign (.name "duration") (.call (.attr (.name "self") "_time_to_signature") [.bin .sub (.name "absolute_time") (.name "note_beginning"), .name "ticks_per_quarter"] ["ticks_per_quarter"]),
          .assign (.name "velocity") (.call (.name "max") [.float 0 1, .call (.name "min") [.float 1 1, .bin .div (.attr (.name "note_on") "velocity") (.float 127 1)] []] []),
          .assign (.name "position") (.call (.attr (.name "self") "_time_to_signature") [.name "note_beginning", .name "ticks_per_quarter"] ["ticks_per_quarter"]),
          .expr (.call (.attr (.name "track") "add") [.call (.name "Note") [.name "tone", .name "duration", .name "velocity"] [], .name "position"] []),
          .continue] []],
      .assign (.index (.name "result") (.name "channel")) (.name "track")],
    .ret (.name "result")]

/-- `load` (src/melodia/io/midi.py:604-661). -/
def MIDIReader.load : FunDef where
  name := "load"
  mod := "melodia.io.midi"
  params := [("self", .none), ("file", .none), ("channel", some .none)]
  body := [
    .assign (.name "kind") .none,
    .assign (.name "ticks_per_quarter") .none,
    .assign (.name "tracks") .none,
    .for (.tuple [.name "chunk_kind", .name "chunk_data"]) (.call (.attr (.name "self") "_read_chunks") [.name "file"] []) [
      .ite (.cmp (.name "chunk_kind") [.eq] [.bytes [77, 84, 104, 100]]) [
        .assign (.tuple ["kind", "n_tracks", "division"]) (.call (.attr (.name "self") "_parse_header") [.name "chunk_data"] []),
        .ite (.cmp (.name "kind") [.ne] [.int 0]) [
          .raise (.call (.name "MIDIParsingError") [.fstr [.str "Unsupported MIDI file: format is ", .field (.name "kind") ""]] [])] [],
        .ite (.cmp (.name "n_tracks") [.ne] [.int 1]) [
          .raise (.call (.name "MIDIParsingError") [.str "Invalid MIDI file: multiple tracks in a single track file"] [])] [],
        .ite (.cmp (.name "division") [.gt] [.int 32767]) [
          .raise (.call (.name "MIDIParsingError") [.str "Unsupported MIDI file: unsupported division"] [])] [],
        .assign (.name "ticks_per_quarter") (.name "division")] [],
      .ite (.cmp (.name "chunk_kind") [.eq] [.bytes [77, 84, 114, 107]]) [
        .ite (.cmp (.name "ticks_per_quarter") [.is] [.none]) [
          .raise (.call (.name "MIDIParsingError") [.str "Invalid MIDI file: missing header chunk"] [])] [],
        .assign (.name "tracks") (.call (.attr (.name "self") "_parse_track") [.name "chunk_data", .name "ticks_per_quarter"] [])] []],
    .ite (.cmp (.name "kind") [.is] [.none]) [
      .raise (.call (.name "MIDIParsingError") [.str "Invalid MIDI file: missing header chunk"] [])] [],
    .ite (.cmp (.name "tracks") [.is] [.none]) [
      .raise (.call (.name "MIDIParsingError") [.str "Invalid MIDI file: missing track chunk"] [])] [],
    .ite (.un .not (.name "tracks")) [
      .ret (.call (.name "Track") [.call (.name "Signature") [.int 4, .int 4] []] ["signature"])] [],
    .ite (.cmp (.name "channel") [.is] [.none]) [
      .assign (.name "max_signature") (.call (.name "Signature") [.int 0, .int 1] []),
      .for (.name "track") (.call (.attr (.name "tracks") "values") [] []) [
        .ite (.cmp (.attr (.name "track") "signature") [.gt] [.name "max_signature"]) [
          .assign (.name "max_signature") (.attr (.name "track") "signature")] []],
      .assign (.name "common_track") (.call (.name "Track") [.name "max_signature"] ["signature"]),
      .for (.name "track") (.call (.attr (.name "tracks") "values") [] []) [
        .for (.tuple [.name "position", .name "note"]) (.name "track") [
          .expr (.call (.attr (.name "common_track") "add") [.name "note", .name "position"] [])]],
      .ret (.name "common_track")] [],
    .ite (.cmp (.name "channel") [.notIn] [.name "tracks"]) [
      .raise (.call (.name "ValueError") [.fstr [.str "No channel ", .field (.name "channel") "", .str " found"]] [])] [],
    .ret (.index (.name "tracks") (.name "channel"))]

/-- `loads` (src/melodia/io/midi.py:663-674). -/
def MIDIReader.loads : FunDef where
  name := "loads"
  mod := "melodia.io.midi"
  params := [("self", .none), ("data", .none), ("channel", some .none)]
  body := [
    .withAs (.call (.attr (.name "io") "BytesIO") [.name "data"] []) "f" [
      .ret (.call (.attr (.name "self") "load") [.name "f", .name "channel"] ["channel"])]]

/-- Class `MIDIReader` (src/melodia/io/midi.py:353-674). -/
def MIDIReader.classDef : ClassDef where
  name := "MIDIReader"
  mod := "melodia.io.midi"
  methods := [MIDIReader.dunder_init,
    MIDIReader._read_chunks,
    MIDIReader._parse_header,
    MIDIReader._time_to_signature,
    MIDIReader._pitch_to_tone,
    MIDIReader._read_var_len,
    MIDIReader._read_8,
    MIDIReader._read_16,
    MIDIReader._read_24,
    MIDIReader._read_32,
    MIDIReader._parse_track,
    MIDIReader.load,
    MIDIReader.loads]
  slots := some ["_middle_c", "_middle_c_delta"]

/-- `dump` (src/melodia/io/midi.py:677-687). -/
def midi.dump : FunDef where
  name := "dump"
  mod := "melodia.io.midi"
  params := [("track", .none), ("file", .none), ("bpm", some (.float 120 1)), ("channel", some (.int 0))]
  body := [
    .expr (.call (.attr (.call (.name "MIDIWriter") [.name "bpm", .name "channel"] ["bpm", "channel"]) "dump") [.name "track", .name "file"] [])]

/-- `dumps` (src/melodia/io/midi.py:690-699). -/
def midi.dumps : FunDef where
  name := "dumps"
  mod := "melodia.io.midi"
  params := [("track", .none), ("bpm", some (.float 120 1)), ("channel", some (.int 0))]
  body := [
    .ret (.call (.attr (.call (.name "MIDIWriter") [.name "bpm", .name "channel"] ["bpm", "channel"]) "dumps") [.name "track"] [])]

/-- `load` (src/melodia/io/midi.py:702-712). -/
def midi.load : FunDef where
  name := "load"
  mod := "melodia.io.midi"
  params := [("file", .none), ("channel", some .none)]
  body := [
    .ret (.call (.attr (.call (.name "MIDIReader") [] []) "load") [.name "file", .name "channel"] ["channel"])]

/-- `loads` (src/melodia/io/midi.py:715-725). -/
def midi.loads : FunDef where
  name := "loads"
  mod := "melodia.io.midi"
  params := [("data", .none), ("channel", some .none)]
  body := [
    .ret (.call (.attr (.call (.name "MIDIReader") [] []) "loads") [.name "data", .name "channel"] ["channel"])]

/-- Module `melodia.io.midi` (src/melodia/io/midi.py). -/
def midiModule : Module where
  name := "melodia.io.midi"
  names := [("io", .module "io"),
    ("defaultdict", .imported "collections" "defaultdict"),
    ("dataclass", .imported "dataclasses" "dataclass"),
    ("itemgetter", .imported "operator" "itemgetter"),
    ("BinaryIO", .imported "typing" "BinaryIO"),
    ("List", .imported "typing" "List"),
    ("Tuple", .imported "typing" "Tuple"),
    ("Union", .imported "typing" "Union"),
    ("Optional", .imported "typing" "Optional"),
    ("Dict", .imported "typing" "Dict"),
    ("Generator", .imported "typing" "Generator"),
    ("Note", .imported "melodia.core.note" "Note"),
    ("Signature", .imported "melodia.core.signature" "Signature"),
    ("Tone", .imported "melodia.core.tone" "Tone"),
    ("Track", .imported "melodia.core.track" "Track"),
    ("MIDIError", .cls "MIDIError"),
    ("MIDIParsingError", .cls "MIDIParsingError"),
    ("_Reader", .cls "_Reader"),
    ("MIDIWriter", .cls "MIDIWriter"),
    ("_Event", .cls "_Event"),
    ("_EventUnsupported", .cls "_EventUnsupported"),
    ("_EventNoteOFF", .cls "_EventNoteOFF"),
    ("_EventNoteON", .cls "_EventNoteON"),
    ("_EventEndOfTrack", .cls "_EventEndOfTrack"),
    ("_EventTimeSignature", .cls "_EventTimeSignature"),
    ("_EventGlobalChannel", .cls "_EventGlobalChannel"),
    ("MIDIReader", .cls "MIDIReader"),
    ("dump", .func midi.dump),
    ("dumps", .func midi.dumps),
    ("load", .func midi.load),
    ("loads", .func midi.loads)]
  init := [
    .assign (.name "_event_lengths") (.bin .mul (.list [.un .neg (.int 1)]) (.int 255)),
    .for (.name "i") (.call (.name "range") [.int 128, .bin .add (.int 159) (.int 1)] []) [
      .assign (.index (.name "_event_lengths") (.name "i")) (.int 2)],
    .for (.name "i") (.call (.name "range") [.int 160, .bin .add (.int 175) (.int 1)] []) [
      .assign (.index (.name "_event_lengths") (.name "i")) (.int 2)],
    .for (.name "i") (.call (.name "range") [.int 176, .bin .add (.int 191) (.int 1)] []) [
      .assign (.index (.name "_event_lengths") (.name "i")) (.int 2)],
    .for (.name "i") (.call (.name "range") [.int 192, .bin .add (.int 207) (.int 1)] []) [
      .assign (.index (.name "_event_lengths") (.name "i")) (.int 1)],
    .for (.name "i") (.call (.name "range") [.int 208, .bin .add (.int 223) (.int 1)] []) [
      .assign (.index (.name "_event_lengths") (.name "i")) (.int 1)],
    .for (.name "i") (.call (.name "range") [.int 224, .bin .add (.int 239) (.int 1)] []) [
      .assign (.index (.name "_event_lengths") (.name "i")) (.int 2)],
    .assign (.index (.name "_event_lengths") (.int 241)) (.int 1),
    .assign (.index (.name "_event_lengths") (.int 242)) (.int 2),
    .assign (.index (.name "_event_lengths") (.int 243)) (.int 1),
    .assign (.index (.name "_event_lengths") (.int 246)) (.int 0),
    .assign (.index (.name "_event_lengths") (.int 248)) (.int 0),
    .assign (.index (.name "_event_lengths") (.int 248)) (.int 0),
    .assign (.index (.name "_event_lengths") (.int 250)) (.int 0),
    .assign (.index (.name "_event_lengths") (.int 252)) (.int 0),
    .assign (.index (.name "_event_lengths") (.int 251)) (.int 0),
    .assign (.index (.name "_event_lengths") (.int 254)) (.int 0)]

end Melodia.Source
