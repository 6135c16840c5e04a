/-
Vocabulary for C86, C87 and C88: how one file of MIDI messages differs from another.
-/
import Verif.Spec.Midi

set_option autoImplicit false

namespace Melodia

/-- A message with other settings of the writer: keys moved by `shift`, the given tempo and channel. -/
def Msg.withSettings (shift : Int) (tempo channel : Nat) : Msg → Msg
  | .timeSignature nn dd cc bb => .timeSignature nn dd cc bb
  | .tempo _ => .tempo tempo
  | .noteOn _ p v => .noteOn channel ((p : Int) + shift).toNat v
  | .noteOff _ p v => .noteOff channel ((p : Int) + shift).toNat v
  | .endOfTrack => .endOfTrack

/-- A message with its key moved by `shift`. -/
def Msg.shiftKey (shift : Int) : Msg → Msg
  | .noteOn c p v => .noteOn c ((p : Int) + shift).toNat v
  | .noteOff c p v => .noteOff c ((p : Int) + shift).toNat v
  | m => m

/-- What a placed note sounds like: position, pitch, duration, velocity. -/
def soundOf (p : ℚ × Note) : ℚ × ℤ × ℚ × ℚ := (p.1, p.2.tone.pitch, p.2.duration.val, p.2.velocity)

/-- The same, `k` semitones higher. -/
def higher (k : Int) (x : ℚ × ℤ × ℚ × ℚ) : ℚ × ℤ × ℚ × ℚ := (x.1, x.2.1 + k, x.2.2)

/-- The same, `d` whole notes later. -/
def later (d : ℚ) (x : ℚ × ℤ × ℚ × ℚ) : ℚ × ℤ × ℚ × ℚ := (x.1 + d, x.2)

end Melodia
