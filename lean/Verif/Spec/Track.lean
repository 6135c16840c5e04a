/-
Specification vocabulary for tracks: contents as placed notes with rational positions.
-/
import Verif.Model.TrackState
import Verif.Spec.Note
import Mathlib.Data.Prod.Lex
import Mathlib.Data.Multiset.MapFold

set_option autoImplicit false

namespace Melodia

mutual
/-- The notes of a possibly nested iterable, in order. -/
def What.notes : What → List Note
  | .note n => [n]
  | .many ws => What.notesList ws
/-- The notes of a list of such. -/
def What.notesList : List What → List Note
  | [] => []
  | w :: ws => w.notes ++ What.notesList ws
end

/-- All notes of an argument are well formed. -/
def What.Valid (w : What) : Prop := ∀ n ∈ w.notes, n.Valid

/-- A position argument that is a `Signature` object is well formed (others are checked by the code). -/
def SigArg.Valid : SigArg → Prop
  | .sig s => s.Valid
  | _ => True

/-- Operations on well-formed arguments. -/
def TrackOp.Valid : TrackOp → Prop
  | .add w p => w.Valid ∧ ∀ a, p = some a → a.Valid
  | _ => True

/-- An entry as placed note: position as a rational number, note. -/
def Entry.placed (e : Entry) : ℚ × Note := (e.1.val, e.2)

/-- The placed notes of a track as a multiset. -/
def Track.contents (t : Track) : Multiset (ℚ × Note) := (t.heap.map Entry.placed : Multiset _)

/-- What one operation adds to the contents: the notes of `what`, at the denoted position, or at
`length` (the value of `track.length` before the call) if none is given; nothing if the position
argument denotes no signature. -/
inductive Adds (length : ℚ) : TrackOp → Multiset (ℚ × Note) → Prop
  | default (w : What) : Adds length (.add w none) (w.notes.map (fun n => (length, n)) : Multiset _)
  | at (w : What) (a : SigArg) (s : Signature) (h : SigDenotes a s) :
      Adds length (.add w (some a)) (w.notes.map (fun n => (s.val, n)) : Multiset _)
  | fail (w : What) (a : SigArg) (h : ∀ s, ¬ SigDenotes a s) : Adds length (.add w (some a)) 0
  | iterate : Adds length .iterate 0
  | peek : Adds length .peek 0

/-- The end of a placed note. -/
def noteEnd (p : ℚ × Note) : ℚ := p.1 + p.2.duration.val

/-- `IsEnd x c`: `x` is the right-most ending among the placed notes `c`, 0 if there are none. -/
def IsEnd (x : ℚ) (c : Multiset (ℚ × Note)) : Prop :=
  (∀ p ∈ c, noteEnd p ≤ x) ∧ ((c = 0 ∧ x = 0) ∨ ∃ p ∈ c, noteEnd p = x)

/-- The comparison key of a placed note: position, pitch, duration value, velocity. -/
abbrev EntryKey := ℚ ×ₗ ℤ ×ₗ ℚ ×ₗ ℚ

/-- Two entries with equal keys are `==` in position and note. -/
def Entry.key (e : Entry) : EntryKey :=
  toLex (e.1.val, toLex (e.2.tone.pitch, toLex (e.2.duration.val, e.2.velocity)))

/-- Consistent durations: notes of equal pitch at equal positions have equal durations or at least
equal duration denominators. (The comparison bug C05 does not show on such contents.) -/
def ConsistentPlaced (c : Multiset (ℚ × Note)) : Prop :=
  ∀ a ∈ c, ∀ b ∈ c, a.1 = b.1 → a.2.tone.pitch = b.2.tone.pitch →
    a.2.duration.val = b.2.duration.val ∨ a.2.duration.denominator = b.2.duration.denominator

/-- Histories on which the comparison bug C05 does not affect `track.length`. `grid` is a bound on the
denominators of explicit positions seen so far, `seen` the notes added so far. A note needs a
duration denominator not below that of any earlier note, unless a position at least that fine has
been used; a single note added without position needs nothing. -/
inductive LengthSafe : Int → List Note → List TrackOp → Prop
  | nil (grid seen) : LengthSafe grid seen []
  | append (grid seen n ops) (h : LengthSafe grid (n :: seen) ops) :
      LengthSafe grid seen (.add (.note n) none :: ops)
  | default (grid seen w ops)
      (h1 : ∀ n ∈ w.notes, ∀ m ∈ seen,
        m.duration.denominator ≤ n.duration.denominator ∨ m.duration.denominator ≤ grid)
      (h2 : w.notes.Pairwise (fun m n =>
        m.duration.denominator ≤ n.duration.denominator ∨ m.duration.denominator ≤ grid))
      (h : LengthSafe grid (w.notes ++ seen) ops) : LengthSafe grid seen (.add w none :: ops)
  | at (grid seen w a s ops) (hs : SigDenotes a s)
      (h1 : ∀ n ∈ w.notes, ∀ m ∈ seen, m.duration.denominator ≤ n.duration.denominator ∨
        m.duration.denominator ≤ max grid s.denominator)
      (h2 : w.notes.Pairwise (fun m n => m.duration.denominator ≤ n.duration.denominator ∨
        m.duration.denominator ≤ max grid s.denominator))
      (hne : w.notes ≠ [])
      (h : LengthSafe (max grid s.denominator) (w.notes ++ seen) ops) :
      LengthSafe grid seen (.add w (some a) :: ops)
  | fail (grid seen w a ops) (hf : ∀ s, ¬ SigDenotes a s) (h : LengthSafe grid seen ops) :
      LengthSafe grid seen (.add w (some a) :: ops)
  | iterate (grid seen ops) (h : LengthSafe grid seen ops) : LengthSafe grid seen (.iterate :: ops)
  | peek (grid seen ops) (h : LengthSafe grid seen ops) : LengthSafe grid seen (.peek :: ops)

/-- The sum of what the operations of a history add, each with the value `track.length` has when it
is executed. -/
inductive PlacedBy (S : ListSort) : Track → List TrackOp → Multiset (ℚ × Note) → Prop
  | nil (t) : PlacedBy S t [] 0
  | cons (t o ops a c) (h : Adds t.length.val o a) (hc : PlacedBy S (o.step S t) ops c) :
      PlacedBy S t (o :: ops) (a + c)

/-- The history without its observations. -/
def TrackOp.withoutObservations (ops : List TrackOp) : List TrackOp :=
  ops.filter (fun o => match o with | .add _ _ => true | _ => false)

/-- Reachable tracks: built by the constructor's empty track and a history of operations with
well-formed arguments. -/
def Track.Reachable (S : ListSort) (t : Track) : Prop :=
  ∃ (sig : Signature) (ops : List TrackOp), sig.Valid ∧ (∀ o ∈ ops, o.Valid) ∧
    t = (Track.empty sig).run S ops

end Melodia
