/-
`Track.add` with its effects: the same code as in Model/Track.lean, but as a state transformer
in which assignments made before an exception stay visible. Used to say what a failing `add`
leaves behind, and to model histories of operations on one track object.
-/
import Verif.Model.Track

set_option autoImplicit false

namespace Melodia

/-- A Python method working on a `Track` object: it may raise; mutations made before the
exception persist. -/
abbrev TrackM := ExceptT PyErr (StateM Track)

/-- Evaluate an expression that may raise. -/
def TrackM.eval {α : Type} (x : PyM α) : TrackM α := ExceptT.mk (pure x)

namespace Track

/-- `Track.add` from line 100 on (src/melodia/core/track.py:100-113), statement by statement. -/
def addNoteS (note : Note) (position : Signature) : TrackM Unit := do
  let t ← get
  if position.denominator > t.maxDenominator then
    modify fun t => { t with maxDenominator := position.denominator }
    let t ← get
    let heap ← TrackM.eval (t.heap.mapM (fun e => do
      let s ← e.1.toDen t.maxDenominator
      pure ((s, e.2) : Entry)))
    modify fun t => { t with heap := heap }
  let t ← get
  let positionTransformed ← TrackM.eval (position.toDen t.maxDenominator)
  modify fun t => { t with heap := heapPush entryLt t.heap (positionTransformed, note) }
  modify fun t => { t with sorted := false }
  let endPosition ← TrackM.eval (positionTransformed.add note.duration)
  let t ← get
  if endPosition.gt t.maxPosition then
    modify fun t => { t with maxPosition := endPosition }

mutual
/-- `Track.add` once the position is known (src/melodia/core/track.py:95-113). -/
def addAtS (w : What) (position : Signature) : TrackM Unit :=
  match w with
  | .note n => addNoteS n position
  | .many ws => addAllS ws position
/-- The loop over an iterable `what` (src/melodia/core/track.py:96-97). -/
def addAllS (ws : List What) (position : Signature) : TrackM Unit :=
  match ws with
  | [] => pure ()
  | w :: ws => do
    addAtS w position
    addAllS ws position
end

/-- `Track.add` (src/melodia/core/track.py:70-113). -/
def addS (what : What) (pos : Option SigArg) : TrackM Unit := do
  let t ← get
  let position ← TrackM.eval (match pos with
    | none => pure t.maxPosition
    | some a => a.coerce)
  addAtS what position

end Track

/-- One use of a track object. -/
inductive TrackOp where
  /-- `track.add(what, where)`; an exception is caught by the caller and the history goes on -/
  | add (what : What) (pos : Option SigArg)
  /-- `list(track)`, `repr(track)`, `MIDIWriter.dump(track)`, `track == ...`: everything that iterates -/
  | iterate
  /-- `len(track)`, `track.length`, `track.signature`, `str(track)` -/
  | peek

/-- The track object after one operation. -/
def TrackOp.step (S : ListSort) (t : Track) : TrackOp → Track
  | .add w p => ((Track.addS w p).run t).2
  | .iterate => (t.iter S).1
  | .peek => t

/-- The track object after a history of operations. -/
def Track.run (S : ListSort) (t : Track) (ops : List TrackOp) : Track :=
  ops.foldl (TrackOp.step S) t

end Melodia
