/-
Specification vocabulary for writing a track and reading it back.
-/
import Verif.Spec.MidiRead
import Mathlib.Data.Multiset.AddSub

set_option autoImplicit false

namespace Melodia

/-- Positions and durations are whole numbers of pulses. -/
def WholePulses (ppq : Int) (t : Track) : Prop :=
  ∀ p ∈ t.contents, (∃ k : Nat, 4 * (ppq : ℚ) * p.1 = k) ∧ ∃ k : Nat, 4 * (ppq : ℚ) * p.2.duration.val = k

/-- Every velocity is written as a byte of at least 1. -/
def Audible (t : Track) : Prop := ∀ p ∈ t.contents, 1 ≤ velByte p.2.velocity

/-- Notes of the same pitch follow one another: each ends not later than the next ones, in the order of
iteration, begin. -/
def InTurn (S : ListSort) (t : Track) : Prop :=
  (t.items S).Pairwise (fun a b => a.2.tone.pitch = b.2.tone.pitch → a.1.val + a.2.duration.val ≤ b.1.val)

/-- Notes of the same pitch do not overlap: of any two notes one ends before the other begins. -/
def NoOverlap (t : Track) : Prop :=
  ∀ a b, {a, b} ≤ t.contents → a.2.tone.pitch = b.2.tone.pitch → noteEnd a ≤ b.1 ∨ noteEnd b ≤ a.1

/-- Notes of the same pitch start at different positions. Notes of positive duration that do not overlap do
(`distinctStarts_of`). -/
def DistinctStarts (t : Track) : Prop :=
  ∀ a b, {a, b} ≤ t.contents → a.2.tone.pitch = b.2.tone.pitch → a.1 ≠ b.1

/-- The placed note after writing and reading: same position and tone, the duration in lowest terms,
the velocity a multiple of 1/127 (as a float). -/
def midiNote (p : ℚ × Note) : ℚ × Note :=
  (p.1, ⟨p.2.tone, .lowest p.2.duration.nominator p.2.duration.denominator, fl ((velByte p.2.velocity : ℚ) / 127)⟩)

/-- The note event a note message with absolute time stands for. -/
def Msg.noteEv : Nat × Msg → NoteEv
  | (t, .noteOn _ p v) => ⟨t, decide (v ≠ 0), p, v⟩
  | (t, .noteOff _ p v) => ⟨t, false, p, v⟩
  | (t, _) => ⟨t, false, 0, 0⟩

/-- The channel arguments with which a written track can be read back: none, or the channel it was written
to (an empty track counts as channel 0). -/
def ReadableWith (w : Writer) (t : Track) (channel : Option Int) : Prop :=
  channel = none ∨ (t.len ≠ 0 ∧ channel = some w.channel) ∨ (t.len = 0 ∧ channel = some 0)

/-- `q` is what is left of the placed note `p` after writing with `ppq` pulses per quarter and reading: the same tone;
position and duration at most a pulse and 1/16384 of a whole note less; the velocity at most 1/127 less, up to
rounding errors. -/
def Near (ppq : Int) (p q : ℚ × Note) : Prop :=
  q.2.tone = p.2.tone ∧
  (0 ≤ p.1 - q.1 ∧ p.1 - q.1 < 1 / (4 * ppq) + 1 / 16384) ∧
  (0 ≤ p.2.duration.val - q.2.duration.val ∧ p.2.duration.val - q.2.duration.val < 1 / (4 * ppq) + 1 / 16384) ∧
  (-(1 / 2 ^ 51) ≤ p.2.velocity - q.2.velocity ∧ p.2.velocity - q.2.velocity < 1 / 127 + 1 / 2 ^ 53)

end Melodia
