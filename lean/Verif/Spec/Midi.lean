/-
Specification of Standard MIDI Files as far as melodia writes them: messages, track bodies, files,
and the time and pitch a note is written with. Independent of the model of the writer and reader.
-/
import Verif.Spec.Vlq
import Verif.Spec.Track
import Verif.Model.MidiWrite
import Mathlib.Algebra.Order.Floor.Defs
import Mathlib.Data.Fin.Basic
import Mathlib.Logic.Equiv.Defs

set_option autoImplicit false

namespace Melodia

/-- MIDI messages. -/
inductive Msg where
  | timeSignature (nn dd cc bb : Nat)
  | tempo (microseconds : Nat)
  | noteOn (channel pitch velocity : Nat)
  | noteOff (channel pitch velocity : Nat)
  | endOfTrack
  deriving DecidableEq, Repr

/-- A message whose fields fit their MIDI ranges: data bytes of note messages below 0x80, channels
below 16, bytes of meta events below 256. -/
def Msg.InRange : Msg → Prop
  | .timeSignature nn dd cc bb => nn < 256 ∧ dd < 256 ∧ cc < 256 ∧ bb < 256
  | .tempo t => t < 2 ^ 24
  | .noteOn c p v => c < 16 ∧ p < 128 ∧ v < 128
  | .noteOff c p v => c < 16 ∧ p < 128 ∧ v < 128
  | .endOfTrack => True

/-- The bytes of a message (MIDI 1.0: FF 58 04 nn dd cc bb; FF 51 03 tttttt; 9c kk vv; 8c kk vv; FF 2F 00). -/
def Msg.bytes : Msg → Bytes
  | .timeSignature nn dd cc bb =>
    [0xFF, 0x58, 0x04, UInt8.ofNat nn, UInt8.ofNat dd, UInt8.ofNat cc, UInt8.ofNat bb]
  | .tempo t => [0xFF, 0x51, 0x03, UInt8.ofNat (t / 65536), UInt8.ofNat (t / 256), UInt8.ofNat t]
  | .noteOn c p v => [UInt8.ofNat (0x90 + c), UInt8.ofNat p, UInt8.ofNat v]
  | .noteOff c p v => [UInt8.ofNat (0x80 + c), UInt8.ofNat p, UInt8.ofNat v]
  | .endOfTrack => [0xFF, 0x2F, 0x00]

/-- A track body: each message preceded by its delta time as a variable-length quantity. -/
inductive TrackBody : List (Nat × Msg) → Bytes → Prop
  | nil : TrackBody [] []
  | cons {d m es v bs} (hv : IsVlq d v) (hr : m.InRange) (h : TrackBody es bs) :
      TrackBody ((d, m) :: es) (v ++ m.bytes ++ bs)

/-- A format-0 file with one track: header chunk of six bytes (format 0, one track, division) and
track chunk with its exact length. -/
def IsSmf (division : Nat) (es : List (Nat × Msg)) (file : Bytes) : Prop :=
  ∃ div len body, IsBigEndian 2 division div ∧ IsBigEndian 4 body.length len ∧ TrackBody es body ∧
    file = [0x4D, 0x54, 0x68, 0x64, 0, 0, 0, 6, 0, 0, 0, 1] ++ div ++
      [0x4D, 0x54, 0x72, 0x6B] ++ len ++ body

/-- Absolute times of a sequence of messages given with delta times. -/
def absoluteTimes : Nat → List (Nat × Msg) → List (Nat × Msg)
  | _, [] => []
  | now, (d, m) :: es => (now + d, m) :: absoluteTimes (now + d) es

/-- The configurations `MIDIWriter.__init__` can produce. -/
structure Writer.Valid (w : Writer) : Prop where
  ppqPos : 1 ≤ w.ppq
  ppqMax : w.ppq ≤ 32767
  ppw : w.ppw = 4 * w.ppq
  chanMin : 0 ≤ w.channel
  chanMax : w.channel ≤ 15

/-- A time value (in whole notes) in pulses, rounded down. -/
def pulsesOf (ppq : Int) (x : ℚ) : Nat := ⌊4 * (ppq : ℚ) * x⌋.toNat

/-- When a placed note starts, in pulses. -/
def Entry.onTime (ppq : Int) (e : Entry) : Nat := pulsesOf ppq e.1.val

/-- When a placed note ends, in pulses: start plus quantised duration. -/
def Entry.offTime (ppq : Int) (e : Entry) : Nat := e.onTime ppq + pulsesOf ppq e.2.duration.val

/-- The MIDI pitch of a note. -/
def Note.midiPitch (delta : Int) (n : Note) : Int := n.tone.pitch + delta

/-- The pitch fits a MIDI data byte. -/
def Note.PitchOk (delta : Int) (n : Note) : Prop := 0 ≤ n.midiPitch delta ∧ n.midiPitch delta ≤ 127

/-- `b` is the velocity byte of `v`: the integer part of the rounded product `127 * v`. -/
def velByte (v : ℚ) : Nat := ⌊fl (v * 127)⌋.toNat

/-- The note-on and note-off messages of a note. -/
def Entry.msg (w : Writer) (e : Entry) : Bool → Nat × Msg
  | false => (e.onTime w.ppq,
      .noteOn w.channel.toNat (e.2.midiPitch w.middleCDelta).toNat (velByte e.2.velocity))
  | true => (e.offTime w.ppq, .noteOff w.channel.toNat (e.2.midiPitch w.middleCDelta).toNat 64)

/-- The time signature fits the MIDI event: both the nominator and the binary logarithm of the
denominator fit a byte. -/
def SignatureFits (s : Signature) : Prop := s.nominator < 256 ∧ s.denominator < 2 ^ 256

/-- Microseconds per quarter for a tempo given in beats per minute, if it is a number:
`int(60000000 / bpm)`. -/
inductive TempoIs : PyFloat → Int → Prop
  | fin (q : ℚ) (h : q ≠ 0) (t : Int) (ht : t = if 0 ≤ fl (60000000 / q) then ⌊fl (60000000 / q)⌋ else ⌈fl (60000000 / q)⌉) :
      TempoIs (.fin q) t
  | posInf : TempoIs .posInf 0
  | negInf : TempoIs .negInf 0

/-- The tempo fits the three bytes of the MIDI event. -/
def TempoFits (bpm : PyFloat) (t : Nat) : Prop := TempoIs bpm t ∧ t < 2 ^ 24

/-- The messages `es` (with absolute times) are those of the notes `items`: every note has its note-on
and its note-off, nothing else is there, note-on before note-off, and messages of equal time keep the
order in which the notes are iterated. -/
def Arranged (w : Writer) (items : List Entry) (es : List (Nat × Msg)) : Prop :=
  ∃ place : Fin items.length × Bool ≃ Fin es.length,
    (∀ i b, es[place (i, b)] = Entry.msg w items[i] b) ∧
    (∀ i, place (i, false) < place (i, true)) ∧
    (∀ i j a b, i < j → (Entry.msg w items[i] a).1 ≤ (Entry.msg w items[j] b).1 →
      place (i, a) < place (j, b))

end Melodia
