/-
Model of src/melodia/core/track.py.
-/
import Verif.Model.Note

set_option autoImplicit false

namespace Melodia

/-! ### heapq (Python standard library) -/

/-- `heapq._siftdown(heap, 0, pos)`: while the item at `pos` is smaller than its parent, swap them.
`fuel` bounds the number of steps (`heap.length` is enough: `pos` strictly decreases). -/
def siftDown {α : Type} (lt : α → α → Bool) : Nat → List α → Nat → List α
  | 0, h, _ => h
  | fuel + 1, h, pos =>
    if pos = 0 then h
    else
      let parent := (pos - 1) / 2
      match h[pos]?, h[parent]? with
      | some x, some p =>
        if lt x p then siftDown lt fuel ((h.set pos p).set parent x) parent else h
      | _, _ => h

/-- `heapq.heappush(heap, item)` (used at src/melodia/core/track.py:108). -/
def heapPush {α : Type} (lt : α → α → Bool) (h : List α) (x : α) : List α :=
  siftDown lt (h ++ [x]).length (h ++ [x]) h.length

/-! ### Track -/

/-- A heap entry `(position, note)` (src/melodia/core/track.py:41). -/
abbrev Entry := Signature × Note

/-- Python tuple `<` on entries: the first component that is not `==` decides; `False` if both are
equal. Used by `heapq.heappush` (track.py:108) and `list.sort` (track.py:140). -/
def entryLt (a b : Entry) : Bool :=
  if !a.1.eq b.1 then a.1.lt b.1
  else if !a.2.eq b.2 then a.2.lt b.2
  else false

/-- `Track` object: its five slots (src/melodia/core/track.py:13-19). -/
structure Track where
  signature : Signature
  maxDenominator : Int
  maxPosition : Signature
  heap : List Entry
  sorted : Bool
  deriving DecidableEq

/-- Value passed as `what` to `Track.add`: a note or an iterable (of notes, or again iterables:
the code recurses, src/melodia/core/track.py:95-98). Objects that are neither are outside the
annotated type and not modelled. -/
inductive What where
  | note (n : Note)
  | many (l : List What)

namespace Track

/-- A track without notes (src/melodia/core/track.py:40-44). -/
def empty (s : Signature) : Track := ⟨s, 1, ⟨0, 1⟩, [], true⟩

/-- `Track.add` from line 100 on: one note at a known position (src/melodia/core/track.py:100-113). -/
def addNote (t : Track) (note : Note) (position : Signature) : PyM Track := do
  let (maxDen, heap) ←
    if position.denominator > t.maxDenominator then do
      let maxDen := position.denominator
      let heap ← t.heap.mapM (fun e => do
        let s ← e.1.toDen maxDen
        pure ((s, e.2) : Entry))
      pure (maxDen, heap)
    else pure (t.maxDenominator, t.heap)
  let positionTransformed ← position.toDen maxDen
  let heap := heapPush entryLt heap (positionTransformed, note)
  let endPosition ← positionTransformed.add note.duration
  let maxPosition := if endPosition.gt t.maxPosition then endPosition else t.maxPosition
  pure ⟨t.signature, maxDen, maxPosition, heap, false⟩

mutual
/-- `Track.add` once the position is known (src/melodia/core/track.py:95-113). -/
def addAt (t : Track) (w : What) (position : Signature) : PyM Track :=
  match w with
  | .note n => addNote t n position
  | .many ws => addAll t ws position
/-- The loop over an iterable `what` (src/melodia/core/track.py:96-97). -/
def addAll (t : Track) (ws : List What) (position : Signature) : PyM Track :=
  match ws with
  | [] => .ok t
  | w :: ws => do
    let t' ← addAt t w position
    addAll t' ws position
end

/-- `Track.add` (src/melodia/core/track.py:70-113); `none` is the default `where=None`. -/
def add (t : Track) (what : What) (pos : Option SigArg) : PyM Track := do
  let position ← match pos with
    | none => pure t.maxPosition
    | some a => a.coerce
  addAt t what position

/-- The loop over `content` in `Track.__init__` (src/melodia/core/track.py:46-48). -/
def addContent (t : Track) : List (What × Option SigArg) → PyM Track
  | [] => .ok t
  | (w, p) :: rest => do
    let t' ← t.add w p
    addContent t' rest

/-- `Track.__init__` (src/melodia/core/track.py:21-48). -/
def new (signature : SigArg) (content : List (What × Option SigArg)) : PyM Track := do
  let s ← signature.coerce
  addContent (empty s) content

/-- `Track.length` (src/melodia/core/track.py:59-68). -/
def length (t : Track) : Signature := t.maxPosition

/-- `Track.__len__` (src/melodia/core/track.py:145-151). -/
def len (t : Track) : Nat := t.heap.length

/-- `Track.__iter__` (src/melodia/core/track.py:132-143): the track after the call (its heap may
have been sorted in place) and the sequence an iterator over it yields. -/
def iter (S : ListSort) (t : Track) : Track × List Entry :=
  let t' := if !t.sorted then { t with heap := S.sort entryLt t.heap, sorted := true } else t
  (t', t'.heap)

/-- `list(track)`. -/
def items (S : ListSort) (t : Track) : List Entry := (t.iter S).2

/-- The loop of `Track.__eq__` over `zip(self, other)` (src/melodia/core/track.py:126-130):
`zip` stops at the end of the shorter sequence. -/
def zipEq : List Entry → List Entry → Bool
  | a :: as, b :: bs => if !a.2.eq b.2 || !a.1.eq b.1 then false else zipEq as bs
  | _, _ => true

/-- `Track.__eq__` (src/melodia/core/track.py:115-130). -/
def eq (S : ListSort) (a b : Track) : Bool :=
  if !a.signature.eq b.signature then false
  else zipEq (a.items S) (b.items S)

end Track

end Melodia
