/-
`MIDIWriter` made with settings that need not be ints (src/melodia/io/midi.py:57-251). The constructor compares the number
of pulses and the channel with bounds and does not look at the tempo at all; what happens later follows from the operators and
methods the values have.
-/
import Verif.Model.MidiWrite
import Verif.Model.SignatureDyn

set_option autoImplicit false

namespace Melodia

namespace PyVal

/-- `lo <= x <= hi` for ints `lo` and `hi`. -/
def between (lo hi : Int) : PyVal → PyM Bool
  | .int i => .ok (decide (lo ≤ i) && decide (i ≤ hi))
  | .bool b => .ok (decide (lo ≤ b.toNat) && decide ((b.toNat : Int) ≤ hi))
  | .float x => .ok (PyFloat.le (.fin lo) x && PyFloat.le x (.fin hi))
  | .other => .error .typeError

/-- `x * 4`. -/
def times4 : PyVal → PyM PyVal
  | .int i => .ok (.int (i * 4))
  | .bool b => .ok (.int ((b.toNat : Int) * 4))
  | .float (.fin q) => .ok (.float (.fin (fl (q * 4))))
  | .float x => .ok (.float x)
  | .other => .error .typeError

/-- `s | x` for an int `s` and `x >= 0`: floats have no `|`. -/
def orInt (s : Nat) : PyVal → PyM Int
  | .int i => .ok ((s ||| i.toNat : Nat) : Int)
  | .bool b => .ok ((s ||| b.toNat : Nat) : Int)
  | .float _ => .error .typeError
  | .other => .error .typeError

/-- `x.to_bytes(len, 'big')`: floats have no such method. -/
def toBytes (len : Nat) : PyVal → PyM Bytes
  | .int i => toBytesBig i len
  | .bool b => toBytesBig b.toNat len
  | .float _ => .error .attributeError
  | .other => .error .attributeError

/-- `x * n // d`, for a power of two `d`, which as a float divides exactly. Infinities and NaN cannot occur (`between`), and
overflows of the float product are not modelled. -/
def mulDiv (n d : Int) : PyVal → PyM PyVal
  | .int i => .ok (.int (pyFloorDiv (i * n) d))
  | .bool b => .ok (.int (pyFloorDiv (b.toNat * n) d))
  | .float (.fin q) => .ok (.float (.fin ⌊fl (q * fl n) / d⌋))
  | .float x => .ok (.float x)
  | .other => .error .typeError

/-- The number a time is. -/
def time : PyVal → ℚ
  | .int i => i
  | .bool b => b.toNat
  | .float (.fin q) => q
  | _ => 0

/-- `x + y` for times. -/
def plus : PyVal → PyVal → PyVal
  | .int i, .int j => .int (i + j)
  | x, y => .float (.fin (fl (x.time + y.time)))

/-- `x - y` for times. -/
def minus : PyVal → PyVal → PyVal
  | .int i, .int j => .int (i - j)
  | x, y => .float (.fin (fl (x.time - y.time)))

/-- `_format_var_len` (src/melodia/io/midi.py:145-155), which begins with `x & 0x7f`. -/
def varLen : PyVal → PyM Bytes
  | .int i => Writer.formatVarLen i
  | .bool b => Writer.formatVarLen b.toNat
  | .float _ => .error .typeError
  | .other => .error .typeError

/-- `int(60000000 / x)` (src/melodia/io/midi.py:221); the quotient of two ints is rounded like that of floats. -/
def perMinute : PyVal → PyM Int
  | .int i => Writer.tempoOf (.fin i)
  | .bool b => Writer.tempoOf (.fin b.toNat)
  | .float x => Writer.tempoOf x
  | .other => .error .typeError

end PyVal

/-- A `MIDIWriter` object with whatever values its slots hold. -/
structure DynWriter where
  ppq : PyVal
  ppw : PyVal
  middleCDelta : Int
  bpm : PyVal
  channel : PyVal

namespace DynWriter

/-- `MIDIWriter.__init__` (src/melodia/io/midi.py:57-106). -/
def new [UnicodeDigits] (ppq : PyVal) (middleC : ToneArg) (bpm : PyVal) (channel : PyVal) : PyM DynWriter := do
  let ok ← ppq.between 1 32767
  if !ok then .error .valueError
  let ok ← channel.between 0 15
  if !ok then .error .valueError
  let ppw ← ppq.times4
  let delta ← middleCDeltaOf middleC
  pure ⟨ppq, ppw, delta, bpm, channel⟩

/-- `_signature_to_pulses` (src/melodia/io/midi.py:108-111). -/
def signatureToPulses (w : DynWriter) (s : Signature) : PyM PyVal := do
  let n ← s.normalized
  w.ppw.mulDiv n.nominator n.denominator

/-- `_format_note_on` (src/melodia/io/midi.py:113-127). -/
def formatNoteOn (w : DynWriter) (note : Note) : PyM Bytes := do
  let status ← w.channel.orInt 0x90
  let pitch := note.tone.pitch + w.middleCDelta
  if !(decide (0 ≤ pitch) && decide (pitch ≤ 127)) then .error .valueError
  else do
    let velocity := Writer.velocityByte note.velocity
    let a ← toBytesBig status 1
    let b ← toBytesBig pitch 1
    let c ← toBytesBig velocity 1
    pure (a ++ b ++ c)

/-- `_format_note_off` (src/melodia/io/midi.py:129-143). -/
def formatNoteOff (w : DynWriter) (note : Note) : PyM Bytes := do
  let status ← w.channel.orInt 0x80
  let pitch := note.tone.pitch + w.middleCDelta
  if !(decide (0 ≤ pitch) && decide (pitch ≤ 127)) then .error .valueError
  else do
    let velocity : Int := 64
    let a ← toBytesBig status 1
    let b ← toBytesBig pitch 1
    let c ← toBytesBig velocity 1
    pure (a ++ b ++ c)

/-- `_format_signature` (src/melodia/io/midi.py:157-168). -/
def formatSignature (s : Signature) (cc : PyVal) (bb : Int) : PyM Bytes := do
  let nn := s.nominator
  let dd : Int := (bitLength s.denominator.toNat : Int) - 1
  let a ← toBytesBig nn 1
  let b ← toBytesBig dd 1
  let c ← cc.toBytes 1
  let d ← toBytesBig bb 1
  pure ([0xFF, 0x58, 0x04] ++ a ++ b ++ c ++ d)

/-- `_format_header_chunk` (src/melodia/io/midi.py:182-195). -/
def formatHeaderChunk (w : DynWriter) (kind nTracks : Int) : PyM Bytes :=
  if ¬ (kind = 0 ∨ kind = 1 ∨ kind = 2) then .error .assertionError
  else do
    let a ← toBytesBig kind 2
    let b ← toBytesBig nTracks 2
    let c ← w.ppq.toBytes 2
    Writer.formatChunk Writer.tagMThd (a ++ b ++ c)

/-- The loop of `dump` over the track (src/melodia/io/midi.py:205-213). -/
def noteEvents (w : DynWriter) : List Entry → PyM (List (PyVal × Bytes))
  | [] => .ok []
  | (position, note) :: rest => do
    let onTime ← w.signatureToPulses position
    let onEvent ← w.formatNoteOn note
    let durationPulses ← w.signatureToPulses note.duration
    let offTime := onTime.plus durationPulses
    let offEvent ← w.formatNoteOff note
    let more ← noteEvents w rest
    pure ((onTime, onEvent) :: (offTime, offEvent) :: more)

/-- The loop turning absolute into delta times (src/melodia/io/midi.py:224-227). -/
def deltas : PyVal → List (PyVal × Bytes) → List (PyVal × Bytes)
  | _, [] => []
  | last, (time, event) :: rest => (time.minus last, event) :: deltas time rest

/-- `delta_events` of `dump` (src/melodia/io/midi.py:205-230). -/
def deltaEvents (S : ListSort) (w : DynWriter) (signature : Signature) (items : List Entry) :
    PyM (List (PyVal × Bytes)) := do
  let absolute ← w.noteEvents items
  let absolute := S.sort (fun a b => decide (a.1.time < b.1.time)) absolute
  let sigEvent ← formatSignature signature w.ppq 8
  let tempo ← w.bpm.perMinute
  let tempoEvent ← Writer.formatTempo tempo
  pure ([(.int 0, sigEvent), (.int 0, tempoEvent)] ++ deltas (.int 0) absolute ++ [(.int 0, [0xFF, 0x2F, 0x00])])

/-- `b''.join(track_body)` (src/melodia/io/midi.py:236-240). -/
def trackBody : List (PyVal × Bytes) → PyM Bytes
  | [] => .ok []
  | (delta, event) :: rest => do
    let v ← delta.varLen
    let more ← trackBody rest
    pure (v ++ event ++ more)

/-- `dump` (src/melodia/io/midi.py:197-240), see `Writer.dump`. -/
def dump (S : ListSort) (w : DynWriter) (track : Track) (file : Bytes) : Track × Bytes × PyM Unit :=
  let (track', items) := track.iter S
  match deltaEvents S w track'.signature items with
  | .error e => (track', file, .error e)
  | .ok events =>
    match w.formatHeaderChunk 0 1 with
    | .error e => (track', file, .error e)
    | .ok header =>
      let file := file ++ header
      match trackBody events with
      | .error e => (track', file, .error e)
      | .ok body =>
        match Writer.formatChunk Writer.tagMTrk body with
        | .error e => (track', file, .error e)
        | .ok chunk => (track', file ++ chunk, .ok ())

/-- `dumps` (src/melodia/io/midi.py:242-251). -/
def dumps (S : ListSort) (w : DynWriter) (track : Track) : PyM Bytes :=
  match dump S w track [] with
  | (_, file, .ok ()) => .ok file
  | (_, _, .error e) => .error e

end DynWriter

end Melodia
