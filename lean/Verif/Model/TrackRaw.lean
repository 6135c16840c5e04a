/-
`Track.add` called with objects outside its annotated types (src/melodia/core/track.py:70-113).

The code does not check the type of `what`: an object that is not iterable is treated as a note. Such an
object (a `Tone`, an int, `None`, a `Signature`, ...) is `none` here, a note is `some`. Nothing is assumed
about it but that it has no attribute `duration` and no comparison with notes: reading the one or trying
the other raises AttributeError (`Note.__eq__` and `Note.__lt__` read `other._as_triplet`,
src/melodia/core/note.py:145-170). Comparisons of two such objects are not modelled; they do not occur
when the first of them is added.
-/
import Verif.Model.TrackState

set_option autoImplicit false

namespace Melodia

/-- A heap entry whose second component may be anything. -/
abbrev RawEntry := Signature × Option Note

/-- Python tuple `<` (see `entryLt`): compares the second components only if the first are `==`. -/
def rawLt (a b : RawEntry) : PyM Bool :=
  if !a.1.eq b.1 then .ok (a.1.lt b.1)
  else match a.2, b.2 with
    | some m, some n => .ok (if !m.eq n then m.lt n else false)
    | _, _ => .error .attributeError

/-- `heapq._siftdown` with comparisons that may raise; swaps made before stay (CPython, Modules/_heapqmodule.c). -/
def siftDownM {α : Type} (lt : α → α → PyM Bool) : Nat → List α → Nat → PyM Unit × List α
  | 0, h, _ => (.ok (), h)
  | fuel + 1, h, pos =>
    if pos = 0 then (.ok (), h)
    else
      let parent := (pos - 1) / 2
      match h[pos]?, h[parent]? with
      | some x, some p =>
        match lt x p with
        | .error e => (.error e, h)
        | .ok true => siftDownM lt fuel ((h.set pos p).set parent x) parent
        | .ok false => (.ok (), h)
      | _, _ => (.ok (), h)

/-- `heapq.heappush`: appends, then sifts (so the item is in the list even if a comparison raises). -/
def heapPushM {α : Type} (lt : α → α → PyM Bool) (h : List α) (x : α) : PyM Unit × List α :=
  siftDownM lt (h ++ [x]).length (h ++ [x]) h.length

/-- A `Track` object whose heap may contain anything. -/
structure RawTrack where
  signature : Signature
  maxDenominator : Int
  maxPosition : Signature
  heap : List RawEntry
  sorted : Bool
  deriving DecidableEq

/-- A track of notes. -/
def Track.raw (t : Track) : RawTrack :=
  ⟨t.signature, t.maxDenominator, t.maxPosition, t.heap.map (fun e => (e.1, some e.2)), t.sorted⟩

namespace RawTrack

/-- `Track.add` from line 100 on (src/melodia/core/track.py:100-113), statement by statement: the outcome and the
object afterwards. -/
def addObject (t : RawTrack) (x : Option Note) (position : Signature) : PyM Unit × RawTrack :=
  -- lines 102-104
  let rescaled : PyM Unit × RawTrack :=
    if position.denominator > t.maxDenominator then
      let t := { t with maxDenominator := position.denominator }
      match t.heap.mapM (fun e => do
        let s ← e.1.toDen t.maxDenominator
        pure ((s, e.2) : RawEntry)) with
      | .error e => (.error e, t)
      | .ok heap => (.ok (), { t with heap := heap })
    else (.ok (), t)
  match rescaled with
  | (.error e, t) => (.error e, t)
  | (.ok (), t) =>
    -- line 106
    match position.toDen t.maxDenominator with
    | .error e => (.error e, t)
    | .ok positionTransformed =>
      -- line 108
      match heapPushM rawLt t.heap (positionTransformed, x) with
      | (.error e, heap) => (.error e, { t with heap := heap })
      | (.ok (), heap) =>
        -- line 109
        let t := { t with heap := heap, sorted := false }
        -- line 111: `note.duration`
        match x with
        | none => (.error .attributeError, t)
        | some note =>
          match positionTransformed.add note.duration with
          | .error e => (.error e, t)
          | .ok endPosition =>
            (.ok (), if endPosition.gt t.maxPosition then { t with maxPosition := endPosition } else t)

/-- `Track.add` with an iterable of notes and other objects (src/melodia/core/track.py:95-98): stops at the first
exception. -/
def addObjects (t : RawTrack) : List (Option Note) → Signature → PyM Unit × RawTrack
  | [], _ => (.ok (), t)
  | x :: xs, position =>
    match t.addObject x position with
    | (.error e, t) => (.error e, t)
    | (.ok (), t) => t.addObjects xs position

end RawTrack

end Melodia
