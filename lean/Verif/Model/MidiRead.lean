/-
Model of the reader in src/melodia/io/midi.py (class _Reader, lines 21-40; event table 254-308;
class MIDIReader, lines 353-674; module functions 677-725).
-/
import Verif.Model.MidiWrite

set_option autoImplicit false

namespace Melodia

/-- `_Reader` object (src/melodia/io/midi.py:21-26). -/
structure Reader where
  data : Bytes
  idx : Nat
  deriving DecidableEq

namespace Reader

/-- `_Reader.read` (src/melodia/io/midi.py:28-34). On failure the code also moves the index to the end;
no caller looks at the reader after an exception. -/
def read (r : Reader) (n : Nat) : PyM (Bytes × Reader) :=
  if r.data.length < r.idx + n then .error .parsingError
  else .ok ((r.data.drop r.idx).take n, { r with idx := r.idx + n })

/-- `_Reader.shift` (src/melodia/io/midi.py:36-37), for the only use `shift(-1)` right after a
successful `read(1)`. -/
def shiftBack (r : Reader) : Reader := { r with idx := r.idx - 1 }

/-- `_read_8` (src/melodia/io/midi.py:436-438). -/
def read8 (r : Reader) : PyM (Nat × Reader) := do
  let (b, r) ← r.read 1
  pure (fromBytesBig b, r)

/-- The loop of `_read_var_len` (src/melodia/io/midi.py:428-432). Each round consumes a byte, so the
length of the data is enough fuel. -/
def varLenLoop : Nat → Nat → Reader → PyM (Nat × Reader)
  | 0, _, _ => .error .outOfFuel
  | fuel + 1, result, r => do
    let (value, r) ← r.read8
    let result := (result <<< 7) + (value &&& 0x7F)
    if value &&& 0x80 = 0 then pure (result, r) else varLenLoop fuel result r

/-- `_read_var_len` (src/melodia/io/midi.py:419-434). -/
def readVarLen (r : Reader) : PyM (Nat × Reader) := do
  let (result, r) ← r.read8
  if result &&& 0x80 = 0 then pure (result, r)
  else varLenLoop (r.data.length + 1) (result &&& 0x7F) r

end Reader

/-- Parsed events (src/melodia/io/midi.py:311-350). -/
inductive Event where
  | unsupported
  | noteOff (channel pitch velocity : Nat)
  | noteOn (channel pitch velocity : Nat)
  | endOfTrack
  | timeSignature (nn dd cc bb : Nat)
  | globalChannel (channel : Nat)
  deriving DecidableEq

/-- Assign `v` to the entries `a .. b` of a list (`for i in range(a, b + 1): l[i] = v`). -/
def setRange (l : List Int) (a b : Nat) (v : Int) : List Int :=
  (List.range (b + 1 - a)).foldl (fun l i => l.set (a + i) v) l

/-- `_event_lengths` (src/melodia/io/midi.py:254-308). -/
def eventLengths : List Int :=
  let l := List.replicate 0xFF (-1)
  let l := setRange l 0x80 0x9F 2
  let l := setRange l 0xA0 0xAF 2
  let l := setRange l 0xB0 0xBF 2
  let l := setRange l 0xC0 0xCF 1
  let l := setRange l 0xD0 0xDF 1
  let l := setRange l 0xE0 0xEF 2
  let l := l.set 0xF1 1
  let l := l.set 0xF2 2
  let l := l.set 0xF3 1
  let l := l.set 0xF6 0
  let l := l.set 0xF8 0
  let l := l.set 0xF8 0
  let l := l.set 0xFA 0
  let l := l.set 0xFC 0
  let l := l.set 0xFB 0
  let l := l.set 0xFE 0
  l

/-- Python `value != 0xF7` where `value` is the `bytes` object returned by `data.read(1)`: a `bytes`
object never equals an int, so this is always true (src/melodia/io/midi.py:514-515). -/
def bytesNeInt (_value : Bytes) (_n : Nat) : Bool := true

/-- The system-exclusive loop (src/melodia/io/midi.py:513-515): read single bytes while
`value != 0xF7`. Each round consumes a byte; the length of the data is enough fuel. -/
def sysexLoop : Nat → Reader → PyM Reader
  | 0, _ => .error .outOfFuel
  | fuel + 1, r => do
    let (value, r) ← r.read 1
    if bytesNeInt value 0xF7 then sysexLoop fuel r else pure r

/-- The meta-event branch of `read_event` (src/melodia/io/midi.py:467-493). -/
def readMeta (r : Reader) : PyM (Event × Reader) := do
  let (kind, r) ← r.read8
  let (length, r) ← r.readVarLen
  if kind = 0x2F then
    if length ≠ 0 then .error .parsingError else pure (.endOfTrack, r)
  else if kind = 0x20 then
    if length ≠ 1 then .error .parsingError
    else do
      let (channel, r) ← r.read8
      pure (.globalChannel channel, r)
  else if kind = 0x58 then
    if length ≠ 4 then .error .parsingError
    else do
      let (nn, r) ← r.read8
      let (dd, r) ← r.read8
      let (cc, r) ← r.read8
      let (bb, r) ← r.read8
      pure (.timeSignature nn dd cc bb, r)
  else do
    let (_, r) ← r.read length
    pure (.unsupported, r)

/-- The branch of `read_event` for a status byte `0x80 <= status < 0xFF`
(src/melodia/io/midi.py:496-523). -/
def readStatusEvent (status : Nat) (r : Reader) : PyM (Event × Reader) := do
  let kind := status >>> 4
  let channel := status &&& 0xF
  if kind = 8 then do
    let (pitch, r) ← r.read8
    let (velocity, r) ← r.read8
    pure (.noteOff channel pitch velocity, r)
  else if kind = 9 then do
    let (pitch, r) ← r.read8
    let (velocity, r) ← r.read8
    if velocity = 0 then pure (.noteOff channel pitch velocity, r)
    else pure (.noteOn channel pitch velocity, r)
  else if status = 0xF0 then do
    -- `value = 0` initially, and `0 != 0xF7`: the loop body runs at least once
    let r ← sysexLoop (r.data.length + 1) r
    pure (.unsupported, r)
  else
    match eventLengths[status]? with
    | none => .error .indexError
    | some length =>
      if length = -1 then .error .parsingError
      else do
        let (_, r) ← r.read length.toNat
        pure (.unsupported, r)

/-- `read_event` (src/melodia/io/midi.py:459-527): event, new `previous_status`, reader.
`depth` is the number of recursive calls Python still admits; when it is used up Python raises
RecursionError. -/
def readEvent : Nat → Option Nat → Option Nat → Reader → PyM (Event × Option Nat × Reader)
  | 0, _, _, _ => .error .recursionError
  | depth + 1, status, previousStatus, r => do
    let (status, r) ← match status with
      | none => r.read8
      | some s => pure (s, r)
    if status = 0xFF then do
      let (e, r) ← readMeta r
      pure (e, some status, r)
    else if status ≥ 0x80 then do
      let (e, r) ← readStatusEvent status r
      pure (e, some status, r)
    else
      readEvent depth previousStatus previousStatus r.shiftBack

/-- Python's default recursion limit (`sys.getrecursionlimit()` is 1000). The theorems only use that
it is at least 2. -/
def recursionLimit : Nat := 1000

/-- Local variables of `_parse_track` before its main loop ends (src/melodia/io/midi.py:457, 529-533). -/
structure ParseState where
  previousStatus : Option Nat
  channelEvents : Dict Int (List (Int × Event))
  channelSignatures : Dict Int Signature
  globalChannel : Int
  lastTime : Int
  deriving DecidableEq

/-- Initial values (src/melodia/io/midi.py:457, 529-533). -/
def ParseState.init : ParseState := ⟨none, [], [], -1, 0⟩

/-- `channel_events[c].append(x)` on the `defaultdict(list)` (src/melodia/io/midi.py:529, 542, 558). -/
def appendEvent (d : Dict Int (List (Int × Event))) (c : Int) (x : Int × Event) :
    Dict Int (List (Int × Event)) :=
  d.set c (((d.get c).getD []) ++ [x])

/-- The body of the main loop after the event has been read (src/melodia/io/midi.py:541-554);
`none` means `break`. -/
def handleEvent (st : ParseState) (absoluteTime : Int) (event : Event) : PyM (Option ParseState) :=
  match event with
  | .noteOn c _ _ | .noteOff c _ _ =>
    .ok (some { st with channelEvents := appendEvent st.channelEvents c (absoluteTime, event) })
  | .endOfTrack => .ok none
  | .globalChannel c => .ok (some { st with globalChannel := c })
  | .timeSignature nn dd _ _ => do
    let s ← Signature.new nn ((1 <<< dd : Nat) : Int)
    .ok (some { st with channelSignatures := st.channelSignatures.set st.globalChannel s })
  | .unsupported => .ok (some st)

/-- The main loop of `_parse_track` (src/melodia/io/midi.py:535-554). Each round consumes at least one
byte, so the length of the data is enough fuel. -/
def eventLoop : Nat → ParseState → Reader → PyM ParseState
  | 0, _, _ => .error .outOfFuel
  | fuel + 1, st, r => do
    let (deltaTime, r) ← r.readVarLen
    let absoluteTime := st.lastTime + deltaTime
    let st := { st with lastTime := absoluteTime }
    let (event, prev, r) ← readEvent recursionLimit none st.previousStatus r
    let st := { st with previousStatus := prev }
    match ← handleEvent st absoluteTime event with
    | none => pure st
    | some st => eventLoop fuel st r

/-- `MIDIReader` object (src/melodia/io/midi.py:358-361). -/
structure MidiReader where
  middleCDelta : Int
  deriving DecidableEq

namespace MidiReader

/-- `MIDIReader.__init__` (src/melodia/io/midi.py:363-386). -/
def new [UnicodeDigits] (middleC : ToneArg := .tone ⟨36⟩) : PyM MidiReader := do
  let delta ← middleCDeltaOf middleC
  pure ⟨delta⟩

/-- `_time_to_signature` (src/melodia/io/midi.py:410-414). -/
def timeToSignature (time : Int) (ticksPerQuarter : Int) : PyM Signature :=
  if ¬ (ticksPerQuarter > 0) then .error .assertionError
  else do
    let s ← Signature.new (pyFloorDiv (time * 4096) ticksPerQuarter) (4 * 4096)
    s.normalized

/-- `_pitch_to_tone` (src/melodia/io/midi.py:416-417). -/
def pitchToTone (m : MidiReader) (pitch : Int) : PyM Tone := Tone.new (.int (pitch - m.middleCDelta))

/-- `max(0.0, min(1.0, note_on.velocity / 127.0))` (src/melodia/io/midi.py:591). -/
def velocityOf (velocity : Nat) : PyFloat :=
  (PyFloat.fin 0).max ((PyFloat.fin 1).min (.fin (fl ((velocity : ℚ) / 127))))

/-- `running_notes` (src/melodia/io/midi.py:569): pitch ↦ (time, velocity of the note-on event). -/
abbrev Running := Dict Nat (Int × Nat)

/-- The loop over the events of one channel (src/melodia/io/midi.py:571-598). -/
def channelLoop [UnicodeDigits] (m : MidiReader) (tpq : Int) :
    Track → Running → List (Int × Event) → PyM Track
  | track, _, [] => .ok track
  | track, running, (absoluteTime, event) :: rest =>
    match event with
    | .noteOn _ pitch velocity =>
      if (running.get pitch).isSome then channelLoop m tpq track running rest
      else channelLoop m tpq track (running.set pitch (absoluteTime, velocity)) rest
    | .noteOff _ pitch _ =>
      match running.get pitch with
      | none => channelLoop m tpq track running rest
      | some (noteBeginning, onVelocity) => do
        let running := running.del pitch
        let tone ← m.pitchToTone pitch
        let duration ← timeToSignature (absoluteTime - noteBeginning) tpq
        let velocity := velocityOf onVelocity
        let position ← timeToSignature noteBeginning tpq
        let note ← Note.new (.tone tone) (.sig duration) velocity
        let track ← track.add (.note note) (some (.sig position))
        channelLoop m tpq track running rest
    | _ => channelLoop m tpq track running rest

/-- The signature chosen for a channel (src/melodia/io/midi.py:563-566). -/
def channelSignature (sigs : Dict Int Signature) (channel : Int) : Signature :=
  match sigs.get channel with
  | some s => s
  | none => match sigs.get (-1) with
    | some s => s
    | none => ⟨4, 4⟩

/-- The loop building one track per channel (src/melodia/io/midi.py:560-602). -/
def buildTracks [UnicodeDigits] (m : MidiReader) (tpq : Int) (sigs : Dict Int Signature) :
    Dict Int (List (Int × Event)) → Dict Int Track → PyM (Dict Int Track)
  | [], result => .ok result
  | (channel, events) :: rest, result => do
    let track ← channelLoop m tpq (Track.empty (channelSignature sigs channel)) [] events
    buildTracks m tpq sigs rest (result.set channel track)

/-- `_parse_track` (src/melodia/io/midi.py:452-602). -/
def parseTrack [UnicodeDigits] (m : MidiReader) (data : Bytes) (tpq : Int) : PyM (Dict Int Track) := do
  let st ← eventLoop (data.length + 1) ParseState.init ⟨data, 0⟩
  let events := if st.channelEvents.isEmpty then appendEvent st.channelEvents 0 (0, .unsupported)
    else st.channelEvents
  buildTracks m tpq st.channelSignatures events []

/-- One round of `_read_chunks` (src/melodia/io/midi.py:391-401): `none` at end of file, otherwise
chunk name, chunk body and the rest of the file. The size is taken from `chunk_header[5:]`,
i.e. only three of the four size bytes. -/
def readChunk (file : Bytes) : PyM (Option (Bytes × Bytes × Bytes)) :=
  let header := file.take 8
  let file := file.drop 8
  if header.length = 0 then .ok none
  else if header.length < 8 then .error .parsingError
  else
    let name := header.take 4
    let size := fromBytesBig (header.drop 5)
    let body := file.take size
    if body.length < size then .error .parsingError
    else .ok (some (name, body, file.drop size))

/-- `_parse_header` (src/melodia/io/midi.py:403-408). -/
def parseHeader (data : Bytes) : PyM (Nat × Nat × Nat) := do
  let r : Reader := ⟨data, 0⟩
  let (a, r) ← r.read 2
  let (b, r) ← r.read 2
  let (c, _) ← r.read 2
  pure (fromBytesBig a, fromBytesBig b, fromBytesBig c)

/-- The variables `kind`, `ticks_per_quarter`, `tracks` of `load` (src/melodia/io/midi.py:615-617). -/
structure LoadState where
  kind : Option Nat
  tpq : Option Nat
  tracks : Option (Dict Int Track)

/-- The body of the chunk loop of `load` (src/melodia/io/midi.py:620-632). -/
def handleChunk [UnicodeDigits] (m : MidiReader) (st : LoadState) (name body : Bytes) :
    PyM LoadState := do
  let st ←
    if name = Writer.tagMThd then do
      let (kind, nTracks, division) ← parseHeader body
      if kind ≠ 0 then .error .parsingError
      else if nTracks ≠ 1 then .error .parsingError
      else if division > 0x7FFF then .error .parsingError
      else pure { st with kind := some kind, tpq := some division }
    else pure st
  if name = Writer.tagMTrk then
    match st.tpq with
    | none => .error .parsingError
    | some tpq => do
      let tracks ← m.parseTrack body tpq
      pure { st with tracks := some tracks }
  else pure st

/-- The chunk loop of `load` (src/melodia/io/midi.py:619-632) over `_read_chunks` (388-401). Each round
consumes at least eight bytes; the length of the file is enough fuel. -/
def chunkLoop [UnicodeDigits] (m : MidiReader) : Nat → LoadState → Bytes → PyM LoadState
  | 0, _, _ => .error .outOfFuel
  | fuel + 1, st, file => do
    match ← readChunk file with
    | none => pure st
    | some (name, body, rest) => do
      let st ← m.handleChunk st name body
      chunkLoop m fuel st rest

/-- `max_signature` (src/melodia/io/midi.py:644-648). -/
def maxSignature (tracks : Dict Int Track) : Signature :=
  tracks.foldl (fun acc p => if p.2.signature.gt acc then p.2.signature else acc) ⟨0, 1⟩

/-- Adding the contents of one channel to the common track (src/melodia/io/midi.py:653-654). -/
def addItems : Track → List Entry → PyM Track
  | track, [] => .ok track
  | track, (position, note) :: rest => do
    let track ← track.add (.note note) (some (.sig position))
    addItems track rest

/-- The loop over all channels (src/melodia/io/midi.py:652-654). -/
def mergeTracks (S : ListSort) : Track → Dict Int Track → PyM Track
  | common, [] => .ok common
  | common, (_, track) :: rest => do
    let common ← addItems common (track.items S)
    mergeTracks S common rest

/-- `load` (src/melodia/io/midi.py:604-661); the file is the list of its bytes. -/
def load [UnicodeDigits] (S : ListSort) (m : MidiReader) (file : Bytes) (channel : Option Int) :
    PyM Track := do
  let st ← m.chunkLoop (file.length + 1) ⟨none, none, none⟩ file
  match st.kind with
  | none => .error .parsingError
  | some _ =>
    match st.tracks with
    | none => .error .parsingError
    | some tracks =>
      if tracks.isEmpty then .ok (Track.empty ⟨4, 4⟩)
      else match channel with
        | none => mergeTracks S (Track.empty (maxSignature tracks)) tracks
        | some c =>
          match tracks.get c with
          | none => .error .valueError
          | some t => .ok t

/-- `loads` (src/melodia/io/midi.py:663-674). -/
def loads [UnicodeDigits] (S : ListSort) (m : MidiReader) (data : Bytes) (channel : Option Int) :
    PyM Track := m.load S data channel

end MidiReader

/-! ### Module-level functions -/

/-- `midi.dumps` (src/melodia/io/midi.py:690-699). -/
def midiDumps [UnicodeDigits] (S : ListSort) (track : Track) (bpm : PyFloat := .fin 120)
    (channel : Int := 0) : PyM Bytes := do
  let w ← Writer.new (bpm := bpm) (channel := channel)
  w.dumps S track

/-- `midi.loads` (src/melodia/io/midi.py:715-725). -/
def midiLoads [UnicodeDigits] (S : ListSort) (data : Bytes) (channel : Option Int := none) :
    PyM Track := do
  let m ← MidiReader.new
  m.loads S data channel

end Melodia
