/-
An abstract machine for tracks: the placed notes as a multiset, the finest position denominator used so
far, and the current length with its denominator. No heap, no sorting, no signature arithmetic.
-/
import Verif.Spec.Track

set_option autoImplicit false

namespace Melodia

/-- State of the machine. -/
structure AbsTrack where
  /-- the finest denominator of a position so far -/
  grid : Int
  /-- `track.length` as a number, and its denominator -/
  finish : ℚ
  finishDen : Int
  notes : Multiset (ℚ × Note)

/-- A new track. -/
def AbsTrack.start : AbsTrack := ⟨1, 0, 1, 0⟩

/-- Placing a note at `x`, written with denominator `den`. The end of the note has the finest of the
denominators of all positions so far and of the duration. It replaces the length if it is later; but
if the length has a finer denominator than the end, it replaces it if it is earlier (the effect of C05). -/
def AbsTrack.place (s : AbsTrack) (x : ℚ) (den : Int) (n : Note) : AbsTrack :=
  let grid := max s.grid den
  let stop := x + n.duration.val
  let stopDen := max grid n.duration.denominator
  if (s.finishDen ≤ stopDen ∧ s.finish < stop) ∨ (stopDen < s.finishDen ∧ stop < s.finish) then
    ⟨grid, stop, stopDen, (x, n) ::ₘ s.notes⟩
  else ⟨grid, s.finish, s.finishDen, (x, n) ::ₘ s.notes⟩

/-- Placing several notes at the same position. -/
def AbsTrack.placeAll (s : AbsTrack) (x : ℚ) (den : Int) (ns : List Note) : AbsTrack :=
  ns.foldl (fun s n => s.place x den n) s

/-- Effect of one operation. -/
inductive AbsTrack.Step (s : AbsTrack) : TrackOp → AbsTrack → Prop
  | default (w : What) : AbsTrack.Step s (.add w none) (s.placeAll s.finish s.finishDen w.notes)
  | at (w : What) (a : SigArg) (p : Signature) (h : SigDenotes a p) :
      AbsTrack.Step s (.add w (some a)) (s.placeAll p.val p.denominator w.notes)
  | fail (w : What) (a : SigArg) (h : ∀ p, ¬ SigDenotes a p) : AbsTrack.Step s (.add w (some a)) s
  | iterate : AbsTrack.Step s .iterate s
  | peek : AbsTrack.Step s .peek s

/-- Effect of a history. -/
inductive AbsTrack.Run : AbsTrack → List TrackOp → AbsTrack → Prop
  | nil (s) : AbsTrack.Run s [] s
  | cons {s s1 s2 o ops} (h : s.Step o s1) (hr : AbsTrack.Run s1 ops s2) : AbsTrack.Run s (o :: ops) s2

end Melodia
