/-
Specification: the byte strings that the reader accepts, and the events it takes from them. A grammar, independent
of the model of the reader. It is wider than the MIDI standard (Spec/MidiRead.lean): running status also continues
after system messages and meta events, data bytes may be 0x80 or more, lengths and delta times may have leading
zeros, anything may follow the end of the track, there may be any chunks in between, and the last track wins.
-/
import Verif.Spec.MidiRead

set_option autoImplicit false

namespace Melodia

/-- The status byte of an event. -/
def Ev.status : Ev → UInt8
  | .chan s _ => s
  | .sys s _ => s
  | .mta _ _ => 0xFF

/-- The bytes of an event after its status byte. -/
inductive Ev.Tail : Ev → Bytes → Prop
  | chan (s data) : Ev.Tail (.chan s data) data
  | sys (s data) : Ev.Tail (.sys s data) data
  | mta (k len payload) (h : VlqReads payload.length len) : Ev.Tail (.mta k payload) (k :: (len ++ payload))

/-- `Announced prev s follow bs`: after an event with status `prev`, the bytes `bs` in front of `follow` say that an
event has status `s`: either the status byte itself, or nothing, if `s` is the previous status and a data byte
follows. -/
inductive Announced : Option UInt8 → UInt8 → Bytes → Bytes → Prop
  | status (prev s follow) : Announced prev s follow [s]
  | running (s b follow) (h : b.toNat < 0x80) : Announced (some s) s (b :: follow) []

/-- `Lenient prev es bs`: after an event with status `prev`, the bytes `bs` stand for the events `es`, then end of
track, then anything. -/
inductive Lenient : Option UInt8 → List (Nat × Ev) → Bytes → Prop
  | stop {prev d v a tl rest} (hv : VlqReads d v) (ht : Ev.Tail .endOfTrack tl)
      (ha : Announced prev 0xFF (tl ++ rest) a) : Lenient prev [] (v ++ (a ++ (tl ++ rest)))
  | cons {prev d e es v a tl rest} (hv : VlqReads d v) (hw : e.Wf) (hne : e ≠ .endOfTrack) (ht : e.Tail tl)
      (ha : Announced prev e.status (tl ++ rest) a) (h : Lenient (some e.status) es rest) :
      Lenient prev ((d, e) :: es) (v ++ (a ++ (tl ++ rest)))

/-- No note ends. -/
def NoNotes (es : List (Nat × Ev)) : Prop := ∀ c i j, ¬ IsPair (noteEvents c 0 es) i j

/-- `ChunksRead division music cs music'`: with the division of the last header (if any) and the last track (if any:
its division and events) so far, the chunks `cs` leave the last track `music'`. -/
inductive ChunksRead : Option Nat → Option (Nat × List (Nat × Ev)) → List (Bytes × Bytes) →
    Option (Nat × List (Nat × Ev)) → Prop
  | nil (division music) : ChunksRead division music [] music
  | header {division music music' hi lo tail cs} (hd : (hi : UInt8).toNat < 0x80)
      (h : ChunksRead (some (hi.toNat * 256 + (lo : UInt8).toNat)) music cs music') :
      ChunksRead division music ((kindMThd, 0 :: 0 :: 0 :: 1 :: hi :: lo :: tail) :: cs) music'
  | track {division music music' es body cs} (hb : Lenient none es body) (h0 : division = 0 → NoNotes es)
      (h : ChunksRead (some division) (some (division, es)) cs music') :
      ChunksRead (some division) music ((kindMTrk, body) :: cs) music'
  | other {division music music' kind body cs} (h1 : kind ≠ kindMThd) (h2 : kind ≠ kindMTrk)
      (h : ChunksRead division music cs music') : ChunksRead division music ((kind, body) :: cs) music'

/-- The file is read as the events `es` with the given division (pulses per quarter note). -/
def FileReads (file : Bytes) (division : Nat) (es : List (Nat × Ev)) : Prop :=
  ∃ cs, AllChunks file cs ∧ ChunksRead none none cs (some (division, es))

end Melodia
