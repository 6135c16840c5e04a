/-
Model of the writer in src/melodia/io/midi.py (class MIDIWriter, lines 43-251).
-/
import Verif.Model.Track

set_option autoImplicit false

namespace Melodia

/-- `MIDIWriter` object (src/melodia/io/midi.py:48-55). `_pulses_per_whole` is kept as a field;
`_middle_c` is only used in error messages and omitted. -/
structure Writer where
  ppq : Int
  ppw : Int
  middleCDelta : Int
  bpm : PyFloat
  channel : Int
  deriving DecidableEq

/-- The chain at src/melodia/io/midi.py:96-103 (writer) and :379-386 (reader):
`60 - pitch of middle c`. -/
def middleCDeltaOf [UnicodeDigits] : ToneArg → PyM Int
  | .tone t => .ok (60 - t.pitch)
  | .int i => do let t ← Tone.new (.int i); pure (60 - t.pitch)
  | .str s => do let t ← Tone.fromNotation s; pure (60 - t.pitch)
  | .other => .error .typeError

/-- One write-out event: time and bytes (src/melodia/io/midi.py:205). -/
abbrev TimedBytes := Int × Bytes

namespace Writer

/-- `MIDIWriter.__init__` (src/melodia/io/midi.py:57-106). -/
def new [UnicodeDigits] (ppq : Int := 96) (middleC : ToneArg := .tone ⟨36⟩)
    (bpm : PyFloat := .fin 120) (channel : Int := 0) : PyM Writer :=
  if !(decide (1 ≤ ppq) && decide (ppq ≤ 32767)) then .error .valueError
  else if !(decide (0 ≤ channel) && decide (channel ≤ 15)) then .error .valueError
  else do
    let delta ← middleCDeltaOf middleC
    pure ⟨ppq, ppq * 4, delta, bpm, channel⟩

/-- `_signature_to_pulses` (src/melodia/io/midi.py:108-111). -/
def signatureToPulses (w : Writer) (s : Signature) : PyM Int := do
  let n ← s.normalized
  pure (pyFloorDiv (w.ppw * n.nominator) n.denominator)

/-- `max(0, min(127, int(note.velocity * 127)))` (src/melodia/io/midi.py:121). -/
def velocityByte (v : ℚ) : Int := max 0 (min 127 (pyTrunc (fl (v * 127))))

/-- `_format_note_on` (src/melodia/io/midi.py:113-127). `0x90 | channel` is computed on the
non-negative channel. -/
def formatNoteOn (w : Writer) (note : Note) : PyM Bytes :=
  let status : Int := ((0x90 ||| w.channel.toNat : Nat) : Int)
  let pitch := note.tone.pitch + w.middleCDelta
  if !(decide (0 ≤ pitch) && decide (pitch ≤ 127)) then .error .valueError
  else do
    let velocity := velocityByte note.velocity
    let a ← toBytesBig status 1
    let b ← toBytesBig pitch 1
    let c ← toBytesBig velocity 1
    pure (a ++ b ++ c)

/-- `_format_note_off` (src/melodia/io/midi.py:129-143). -/
def formatNoteOff (w : Writer) (note : Note) : PyM Bytes :=
  let status : Int := ((0x80 ||| w.channel.toNat : Nat) : Int)
  let pitch := note.tone.pitch + w.middleCDelta
  if !(decide (0 ≤ pitch) && decide (pitch ≤ 127)) then .error .valueError
  else do
    let velocity : Int := 64
    let a ← toBytesBig status 1
    let b ← toBytesBig pitch 1
    let c ← toBytesBig velocity 1
    pure (a ++ b ++ c)

/-- The loop of `_format_var_len` (src/melodia/io/midi.py:149-153). Fuel `x` is enough. -/
def varLenLoop : Nat → Nat → Nat → Nat
  | 0, _, buffer => buffer
  | fuel + 1, x, buffer =>
    if x > 0 then varLenLoop fuel (x >>> 7) (((buffer <<< 8) ||| 0x80) + (x &&& 0x7f))
    else buffer

/-- `_format_var_len` (src/melodia/io/midi.py:145-155). `x & 0x7f` and `x >>= 7` on a Python int are
`x % 128` and `x // 128`; for negative `x` the loop does not run. -/
def formatVarLen (x : Int) : PyM Bytes :=
  let buffer := (pyMod x 128).toNat
  let x := pyFloorDiv x 128
  let buffer := if x > 0 then varLenLoop x.toNat x.toNat buffer else buffer
  toBytesLittle buffer (bitLength buffer / 8 + 1)

/-- `_format_signature` (src/melodia/io/midi.py:157-168). -/
def formatSignature (s : Signature) (cc bb : Int) : PyM Bytes := do
  let nn := s.nominator
  let dd : Int := (bitLength s.denominator.toNat : Int) - 1
  let a ← toBytesBig nn 1
  let b ← toBytesBig dd 1
  let c ← toBytesBig cc 1
  let d ← toBytesBig bb 1
  pure ([0xFF, 0x58, 0x04] ++ a ++ b ++ c ++ d)

/-- `_format_tempo` (src/melodia/io/midi.py:170-175). -/
def formatTempo (tempo : Int) : PyM Bytes := do
  let a ← toBytesBig tempo 3
  pure ([0xFF, 0x51, 0x03] ++ a)

/-- `int(60000000 / self._bpm)` (src/melodia/io/midi.py:221). -/
def tempoOf : PyFloat → PyM Int
  | .nan => .error .valueError
  | .negInf => .ok 0
  | .posInf => .ok 0
  | .fin q => if q = 0 then .error .zeroDivisionError else .ok (pyTrunc (fl (60000000 / q)))

/-- `_format_chunk` (src/melodia/io/midi.py:177-180). -/
def formatChunk (kind body : Bytes) : PyM Bytes :=
  if kind.length ≠ 4 then .error .assertionError
  else do
    let n ← toBytesBig (body.length : Int) 4
    pure (kind ++ n ++ body)

/-- `b'MThd'`. -/
def tagMThd : Bytes := [0x4D, 0x54, 0x68, 0x64]
/-- `b'MTrk'`. -/
def tagMTrk : Bytes := [0x4D, 0x54, 0x72, 0x6B]

/-- `_format_header_chunk` (src/melodia/io/midi.py:182-195). -/
def formatHeaderChunk (w : Writer) (kind nTracks : Int) : PyM Bytes :=
  if ¬ (kind = 0 ∨ kind = 1 ∨ kind = 2) then .error .assertionError
  else do
    let a ← toBytesBig kind 2
    let b ← toBytesBig nTracks 2
    let c ← toBytesBig w.ppq 2
    formatChunk tagMThd (a ++ b ++ c)

/-- The loop of `dump` over the track (src/melodia/io/midi.py:205-213). -/
def noteEvents (w : Writer) : List Entry → PyM (List TimedBytes)
  | [] => .ok []
  | (position, note) :: rest => do
    let onTime ← w.signatureToPulses position
    let onEvent ← w.formatNoteOn note
    let durationPulses ← w.signatureToPulses note.duration
    let offTime := onTime + durationPulses
    let offEvent ← w.formatNoteOff note
    let more ← noteEvents w rest
    pure ((onTime, onEvent) :: (offTime, offEvent) :: more)

/-- The loop turning absolute into delta times (src/melodia/io/midi.py:224-227). -/
def deltas : Int → List TimedBytes → List TimedBytes
  | _, [] => []
  | last, (time, event) :: rest => (time - last, event) :: deltas time rest

/-- `delta_events` of `dump` (src/melodia/io/midi.py:205-230). -/
def deltaEvents (S : ListSort) (w : Writer) (signature : Signature) (items : List Entry) :
    PyM (List TimedBytes) := do
  let absolute ← w.noteEvents items
  let absolute := S.sort (fun a b => decide (a.1 < b.1)) absolute
  let sigEvent ← formatSignature signature w.ppq 8
  let tempo ← tempoOf w.bpm
  let tempoEvent ← formatTempo tempo
  pure ([(0, sigEvent), (0, tempoEvent)] ++ deltas 0 absolute ++ [(0, [0xFF, 0x2F, 0x00])])

/-- `b''.join(track_body)` (src/melodia/io/midi.py:236-240). -/
def trackBody : List TimedBytes → PyM Bytes
  | [] => .ok []
  | (delta, event) :: rest => do
    let v ← formatVarLen delta
    let more ← trackBody rest
    pure (v ++ event ++ more)

/-- `dump` (src/melodia/io/midi.py:197-240): returns the track after the call (iteration may sort it),
the bytes in the file after the call, and whether it raised. `file` is what the file contained
before; writes append. -/
def dump (S : ListSort) (w : Writer) (track : Track) (file : Bytes) : Track × Bytes × PyM Unit :=
  let (track', items) := track.iter S
  match deltaEvents S w track'.signature items with
  | .error e => (track', file, .error e)
  | .ok events =>
    match w.formatHeaderChunk 0 1 with
    | .error e => (track', file, .error e)
    | .ok header =>
      let file := file ++ header
      match trackBody events with
      | .error e => (track', file, .error e)
      | .ok body =>
        match formatChunk tagMTrk body with
        | .error e => (track', file, .error e)
        | .ok chunk => (track', file ++ chunk, .ok ())

/-- `dumps` (src/melodia/io/midi.py:242-251). -/
def dumps (S : ListSort) (w : Writer) (track : Track) : PyM Bytes :=
  match dump S w track [] with
  | (_, file, .ok ()) => .ok file
  | (_, _, .error e) => .error e

end Writer

end Melodia
