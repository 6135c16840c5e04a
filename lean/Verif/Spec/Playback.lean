/-
Specification of how a Standard MIDI File is played: the time in seconds at which each message sounds.
Independent of the model of the writer and reader.
-/
import Verif.Spec.Midi

set_option autoImplicit false

namespace Melodia

/-- The tempo (microseconds per quarter) after a message. -/
def Msg.tempoAfter (now : Nat) : Msg → Nat
  | .tempo t => t
  | _ => now

/-- A player: the messages with the second at which they sound. A delta of `d` pulses lasts
`d * tempo / (10^6 * division)` seconds, where the tempo is the one in force. -/
def play (division : Nat) : (tempo : Nat) → (now : ℚ) → List (Nat × Msg) → List (ℚ × Msg)
  | _, _, [] => []
  | tempo, now, (d, m) :: es =>
    let at' := now + (d : ℚ) * tempo / (1000000 * division)
    (at', m) :: play division (m.tempoAfter tempo) at' es

/-- Note messages. -/
def Msg.isNote : Msg → Bool
  | .noteOn .. => true
  | .noteOff .. => true
  | _ => false

/-- The note messages of a file as a player sounds them. Players start with some tempo (the standard's
default is 500000 microseconds per quarter). -/
def playNotes (division start : Nat) (es : List (Nat × Msg)) : List (ℚ × Msg) :=
  (play division start 0 es).filter (fun x => x.2.isNote)

/-- Duration in seconds of `x` whole notes at `bpm` quarter notes per minute. -/
def secondsOf (bpm x : ℚ) : ℚ := x * 4 * 60 / bpm

end Melodia
