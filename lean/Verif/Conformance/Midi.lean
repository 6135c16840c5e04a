/-
Model validation, not proofs of properties: every assertion of the project's unit tests of melodia.io
(/repo/tests/melodia/io/*.py), evaluated on the model. Random inputs of a test are replaced by fixed ones here.
-/
import Verif.Model.ReaderObj
import Verif.Model.CPySort
import Verif.Lemmas.CPySort

set_option autoImplicit false

namespace Melodia.Conformance
open Melodia

local instance asciiOnlyMidi : UnicodeDigits := ⟨fun _ => none⟩

/-- `b'...'`. -/
def bs (s : String) : Bytes := s.toList.map fun c => UInt8.ofNat c.toNat
/-- A result without the state of the reader. -/
def runR {α : Type} (data : Bytes) (m : RM α) : PyM α := (m (RM.init data)).1
/-- `with pytest.raises(MIDIParsingError): m`: the state goes on, the assertion fails if nothing is raised. -/
def raisesParsing {α : Type} (m : RM α) : RM Unit := fun s =>
  match m s with
  | (.error .parsingError, s) => (.ok (), s)
  | (_, s) => (.error .assertionError, s)
/-- `assert`. -/
def check (b : Bool) : RM Unit := if b then pure () else RM.raise .assertionError

/-! ### tests/melodia/io/test_midi_read.py -/

-- test_reader
example : runR (bs "abcdef") (do
    check ((← RM.len) = 6)
    check ((← RM.read 2) = bs "ab")
    check ((← RM.read 3) = bs "cde")
    RM.shift (-2)
    check ((← RM.read 3) = bs "def")
    check ((← RM.len) = 6)
    raisesParsing (RM.read 1)
    raisesParsing (RM.read 10)
    raisesParsing (RM.read 1)
    check ((← RM.len) = 6)
    check ((← RM.read 0) = [])
    RM.shift (-6)
    check ((← RM.read 6) = bs "abcdef")
    raisesParsing (RM.read 1)) = .ok () := by decide +kernel

-- test_midi_read_chunks
example : MidiReader.readChunk (bs "AAAA" ++ [0, 0, 0, 1, 0xEF]) = .ok (some (bs "AAAA", [0xEF], [])) ∧
    MidiReader.readChunk [] = .ok none := by decide +kernel

-- test_midi_parse_header
example : runR [0, 1, 0, 2, 0, 3] RM.parseHeader = .ok (1, 2, 3) ∧
    MidiReader.parseHeader [0, 1, 0, 2, 0, 3] = .ok (1, 2, 3) := by decide +kernel

-- test_midi_time_to_signature
example : MidiReader.timeToSignature 0 0 = .error .assertionError ∧
    MidiReader.timeToSignature 0 (-10) = .error .assertionError ∧
    ∀ x ∈ [(((1, 1) : Int × Int), (⟨1, 4⟩ : Signature)), ((2, 1), ⟨2, 4⟩), ((3, 1), ⟨3, 4⟩), ((4, 1), ⟨4, 4⟩), ((5, 1), ⟨5, 4⟩),
      ((6, 1), ⟨6, 4⟩), ((7, 1), ⟨7, 4⟩), ((8, 1), ⟨8, 4⟩), ((5, 10), ⟨1, 8⟩), ((10, 10), ⟨1, 4⟩), ((100, 10), ⟨10, 4⟩),
      ((1000, 10), ⟨100, 4⟩), ((500, 10), ⟨50, 4⟩), ((3, 96), ⟨1, 128⟩)],
      (do let s ← MidiReader.timeToSignature x.1.1 x.1.2; pure (s.eq x.2)) = .ok true := by decide +kernel

-- test_midi_pitch_to_tone
example : ∀ x ∈ [((60 : Int), "C3"), (66, "F#3"), (59, "B2"), (83, "B4")],
    (do let m ← MidiReader.new (.str "C3".toList); m.pitchToTone x.1) = Tone.fromNotation x.2.toList := by decide +kernel

-- test_midi_read_var_len
example : ∀ x ∈ [(([0x00] : Bytes), 0x00000000), ([0x7F], 0x0000007F), ([0x81, 0x00], 0x00000080),
    ([0xC0, 0x80, 0x00], 0x00100000), ([0xFF, 0xFF, 0x7F], 0x001FFFFF), ([0x81, 0x80, 0x80, 0x00], 0x00200000),
    ([0xFF, 0xFF, 0xFF, 0x7F], 0x0FFFFFFF)], runR x.1 RM.readVarLen = .ok x.2 := by decide +kernel

/-! ### tests/melodia/io/test_midi_serialize.py -/

/-- `track == midi.loads(midi.dumps(track))`. -/
def survives (t : Track) : Bool :=
  match (do let d ← midiDumps cpySort t; midiLoads cpySort d) with
  | .ok u => t.eq cpySort u
  | .error _ => false

/-- `Track(signature=..., content=...)` that does not fail. -/
def mkTrack (s : Signature) (content : List (Note × Signature)) : Track :=
  content.foldl (fun t p =>
    match t.add (.note p.1) (some (.sig p.2)) with
    | .ok t => t
    | .error _ => t) (Track.empty s)

-- test_midi_serialize, with one outcome of the random generator that has few notes
example : survives (mkTrack ⟨17, 16⟩ []) = true := by decide +kernel
example : survives (mkTrack ⟨17, 16⟩ [(⟨⟨0⟩, ⟨3, 8⟩, 1⟩, ⟨7, 16⟩)]) = true := by decide +kernel
example : survives (mkTrack ⟨100, 16⟩ [(⟨⟨30⟩, ⟨100, 16⟩, 1⟩, ⟨200, 16⟩), (⟨⟨90⟩, ⟨0, 16⟩, 1⟩, ⟨400, 16⟩),
    (⟨⟨30⟩, ⟨37, 16⟩, 1⟩, ⟨600, 16⟩)]) = true := by decide +kernel

/-! ### tests/melodia/io/test_midi_write.py -/

-- test_midi_basics
example : Writer.new (ppq := 0) = .error .valueError ∧ Writer.new (ppq := -10) = .error .valueError ∧
    Writer.new (ppq := 32768) = .error .valueError ∧ Writer.new (channel := -1) = .error .valueError ∧
    Writer.new (channel := 16) = .error .valueError := by decide +kernel

-- test_midi_signature_to_pulses
example : ∀ x ∈ [((0, 1), (0 : Int)), ((1, 1), 4), ((1, 2), 2), ((1, 4), 1), ((1, 8), 0), ((1, 16), 0), ((0, 16), 0), ((1, 16), 0),
    ((2, 16), 0), ((3, 16), 0), ((4, 16), 1), ((5, 16), 1), ((6, 16), 1), ((7, 16), 1), ((8, 16), 2), ((9, 16), 2), ((10, 16), 2),
    ((11, 16), 2), ((12, 16), 3), ((13, 16), 3), ((14, 16), 3), ((15, 16), 3), ((16, 16), 4)],
    (do let w ← Writer.new (ppq := 1); w.signatureToPulses ⟨x.1.1, x.1.2⟩) = .ok x.2 := by decide +kernel
example : (do let w ← Writer.new (ppq := 32); w.signatureToPulses ⟨1, 8⟩) = .ok 16 ∧
    (do let w ← Writer.new (ppq := 1000); w.signatureToPulses ⟨1, 2⟩) = .ok 2000 := by decide +kernel

/-- `MIDIWriter(middle_c=c, channel=3)._format_note_on(Note(s, velocity=v))`. -/
def noteOn (c s : String) (v : ℚ := 3 / 4) : PyM Bytes := do
  let w ← Writer.new (middleC := .str c.toList) (channel := 3)
  let n ← Note.new (.str s.toList) (velocity := .fin v)
  w.formatNoteOn n
/-- `MIDIWriter(middle_c=c, channel=3)._format_note_off(Note(s, velocity=v))`. -/
def noteOff (c s : String) (v : ℚ := 3 / 4) : PyM Bytes := do
  let w ← Writer.new (middleC := .str c.toList) (channel := 3)
  let n ← Note.new (.str s.toList) (velocity := .fin v)
  w.formatNoteOff n
/-- `Note('C4')` whose private attribute `_velocity` has been assigned. -/
def withVel (v : ℚ) : PyM Note := do
  let n ← Note.new (.str "C4".toList)
  pure { n with velocity := v }

-- test_midi_format_note_on
example : noteOn "C4" "C-2" = .error .valueError ∧ noteOn "C4" "C10" = .error .valueError ∧
    noteOn "C4" "D11" = .error .valueError ∧ (noteOn "C3" "C-2").isOk = true ∧ noteOn "C3" "C-3" = .error .valueError ∧
    noteOn "C3" "C3" 1 = .ok [0x93, 0x3C, 0x7F] ∧ noteOn "C3" "C4" 0 = .ok [0x93, 0x48, 0x00] ∧
    noteOn "C4" "C4" 0 = .ok [0x93, 0x3C, 0x00] ∧
    (do let w ← Writer.new (middleC := .str "C4".toList) (channel := 3); let n ← withVel 2; w.formatNoteOn n) =
      .ok [0x93, 0x3C, 0x7F] ∧
    (do let w ← Writer.new (middleC := .str "C4".toList) (channel := 3); let n ← withVel (-10); w.formatNoteOn n) =
      .ok [0x93, 0x3C, 0x00] := by decide +kernel

-- test_midi_format_note_off
example : noteOff "C4" "C-2" = .error .valueError ∧ noteOff "C4" "C10" = .error .valueError ∧
    noteOff "C4" "D11" = .error .valueError ∧ (noteOff "C3" "C-2").isOk = true ∧ noteOff "C3" "C-3" = .error .valueError ∧
    noteOff "C3" "C3" 1 = .ok [0x83, 0x3C, 0x40] ∧ noteOff "C3" "C4" 0 = .ok [0x83, 0x48, 0x40] ∧
    noteOff "C4" "C4" 0 = .ok [0x83, 0x3C, 0x40] ∧
    (do let w ← Writer.new (middleC := .str "C4".toList) (channel := 3); let n ← withVel 2; w.formatNoteOff n) =
      .ok [0x83, 0x3C, 0x40] ∧
    (do let w ← Writer.new (middleC := .str "C4".toList) (channel := 3); let n ← withVel (-10); w.formatNoteOff n) =
      .ok [0x83, 0x3C, 0x40] := by decide +kernel

-- test_midi_format_var_len
example : ∀ x ∈ [((0x00000000 : Int), ([0x00] : Bytes)), (0x00000040, [0x40]), (0x0000007F, [0x7F]), (0x00000080, [0x81, 0x00]),
    (0x00002000, [0xC0, 0x00]), (0x00003FFF, [0xFF, 0x7F]), (0x00004000, [0x81, 0x80, 0x00]), (0x00100000, [0xC0, 0x80, 0x00]),
    (0x001FFFFF, [0xFF, 0xFF, 0x7F]), (0x00200000, [0x81, 0x80, 0x80, 0x00]), (0x08000000, [0xC0, 0x80, 0x80, 0x00]),
    (0x0FFFFFFF, [0xFF, 0xFF, 0xFF, 0x7F])], Writer.formatVarLen x.1 = .ok x.2 := by decide +kernel

-- test_midi_format_signature
example : Writer.formatSignature ⟨0, 1⟩ 16 32 = .ok [0xFF, 0x58, 0x04, 0x00, 0x00, 0x10, 0x20] ∧
    Writer.formatSignature ⟨3, 4⟩ 16 32 = .ok [0xFF, 0x58, 0x04, 0x03, 0x02, 0x10, 0x20] ∧
    Writer.formatSignature ⟨127, 170141183460469231731687303715884105728⟩ 16 32 =
      .ok [0xFF, 0x58, 0x04, 0x7F, 0x7F, 0x10, 0x20] ∧
    Writer.formatSignature ⟨255, 170141183460469231731687303715884105728⟩ 16 32 =
      .ok [0xFF, 0x58, 0x04, 0xFF, 0x7F, 0x10, 0x20] ∧
    Writer.formatSignature ⟨512, 512⟩ 16 32 = .error .overflowError ∧
    Writer.formatSignature ⟨1, 4⟩ (-16) 32 = .error .overflowError ∧
    Writer.formatSignature ⟨1, 4⟩ 16 (-32) = .error .overflowError ∧
    Writer.formatSignature ⟨1, 4⟩ 300 32 = .error .overflowError ∧
    Writer.formatSignature ⟨1, 4⟩ 16 300 = .error .overflowError := by decide +kernel

-- test_midi_format_chunk
example : Writer.formatChunk (bs "MThd") [0x00, 0x7F, 0x00, 0x80, 0x90, 0xFF, 0x76] =
      .ok (bs "MThd" ++ [0x00, 0x00, 0x00, 0x07, 0x00, 0x7F, 0x00, 0x80, 0x90, 0xFF, 0x76]) ∧
    Writer.formatChunk (bs "MThd") [] = .ok (bs "MThd" ++ [0, 0, 0, 0]) ∧
    Writer.formatChunk (bs "MThd") [0] = .ok (bs "MThd" ++ [0, 0, 0, 1, 0]) ∧
    Writer.formatChunk [] [] = .error .assertionError ∧ Writer.formatChunk (bs "a") [] = .error .assertionError ∧
    Writer.formatChunk (bs "ab") [] = .error .assertionError ∧ Writer.formatChunk (bs "abc") [] = .error .assertionError ∧
    Writer.formatChunk (bs "abcd") [] = .ok (bs "abcd" ++ [0, 0, 0, 0]) ∧
    Writer.formatChunk (bs "abcde") [] = .error .assertionError := by decide +kernel

/-- `MIDIWriter(pulses_per_quarter=ppq)._format_header_chunk(kind, n)`. -/
def headerChunk (ppq kind n : Int) : PyM Bytes := do
  let w ← Writer.new (ppq := ppq)
  w.formatHeaderChunk kind n

-- test_midi_format_header_chunk
example : headerChunk 1 0 1 = .ok (bs "MThd" ++ [0, 0, 0, 6, 0, 0, 0, 1, 0, 1]) ∧
    headerChunk 1 1 110 = .ok (bs "MThd" ++ [0, 0, 0, 6, 0, 1, 0, 0x6E, 0, 1]) ∧
    headerChunk 1 1 0xFFFF = .ok (bs "MThd" ++ [0, 0, 0, 6, 0, 1, 0xFF, 0xFF, 0, 1]) ∧
    headerChunk 0x2007 2 0x1996 = .ok (bs "MThd" ++ [0, 0, 0, 6, 0, 2, 0x19, 0x96, 0x20, 0x07]) ∧
    headerChunk 0x2007 3 0x1996 = .error .assertionError ∧ headerChunk 0x2007 4 0x1996 = .error .assertionError ∧
    headerChunk 0x2007 (-1) 0x1996 = .error .assertionError := by decide +kernel

end Melodia.Conformance
