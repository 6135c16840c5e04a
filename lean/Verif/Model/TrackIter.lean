/-
Live iterators over a track (src/melodia/core/track.py:132-143 together with 100-108).

`Track.__iter__` returns `iter(self._heap)`: a CPython list iterator, i.e. an index into the list
object `_heap` refers to at that moment. `Track.add` changes that object in place (`heappush`,
line 108) unless the position is finer than every earlier one; then line 102 binds `_heap` to a new
list and iterators handed out before keep reading the old one, which nothing changes any more.

Model/Track.lean describes what an iterator yields when the track is left alone; here the track may
be used while the iterator is alive.
-/
import Verif.Model.TrackState

set_option autoImplicit false

namespace Melodia

/-- A list iterator handed out by `Track.__iter__`. -/
structure LiveIter where
  /-- `none`: it reads the list the track still uses. `some l`: it reads a list the track has
  replaced since (track.py:102), whose contents are `l` for ever. -/
  frozen : Option (List Entry)
  /-- index of the next element -/
  index : Nat
  /-- `StopIteration` has been raised: a list iterator drops its list then and stays exhausted -/
  exhausted : Bool
  deriving DecidableEq

/-- `iter(track)` (src/melodia/core/track.py:132-143): the track afterwards and the iterator. -/
def Track.startIter (S : ListSort) (t : Track) : Track × LiveIter :=
  ((t.iter S).1, ⟨none, 0, false⟩)

/-- `next(it)` while the track is in state `t`; `none` is `StopIteration`. -/
def LiveIter.next (t : Track) (it : LiveIter) : Option Entry × LiveIter :=
  if it.exhausted then (none, it)
  else
    match (it.frozen.getD t.heap)[it.index]? with
    | some e => (some e, { it with index := it.index + 1 })
    | none => (none, { it with exhausted := true })

/-- What an operation that takes the track from `t` to `t'` does to an iterator: if it replaced the
list (track.py:100-102: exactly if `_max_denominator` grew), the iterator keeps the list as it was at
that moment. All notes of one `add` have one position, so the replacement happens before the first
`heappush` of the call and the list kept is the one of state `t`. (Should the list comprehension in
line 102 raise, `_heap` would not be replaced; C24 shows this cannot happen.) -/
def LiveIter.after (t t' : Track) (it : LiveIter) : LiveIter :=
  if t'.maxDenominator = t.maxDenominator then it
  else { it with frozen := some (it.frozen.getD t.heap) }

/-- Operations on the track while the iterator is alive. -/
def LiveIter.runBody (S : ListSort) (t : Track) (it : LiveIter) : List TrackOp → Track × LiveIter
  | [] => (t, it)
  | o :: ops => LiveIter.runBody S (o.step S t) (it.after t (o.step S t)) ops

/-- What was observed of a `for` loop. -/
structure LoopRun where
  /-- the elements the loop variable took -/
  visited : List Entry
  /-- the loop has ended -/
  finished : Bool
  /-- the track at the end of the observation -/
  track : Track
  deriving DecidableEq

/-- `for e in <iterator>: body`, observed for at most `k` calls of `next`. The body is any sequence of
operations on the same track, chosen from the track and the loop variable. -/
def LiveIter.loop (S : ListSort) (body : Track → Entry → List TrackOp) :
    Nat → Track → LiveIter → LoopRun
  | 0, t, _ => ⟨[], false, t⟩
  | k + 1, t, it =>
    match it.next t with
    | (none, _) => ⟨[], true, t⟩
    | (some e, it) =>
      let (t', it') := LiveIter.runBody S t it (body t e)
      let r := LiveIter.loop S body k t' it'
      { r with visited := e :: r.visited }

/-- `for e in track: body`, observed for at most `k` calls of `next`. -/
def Track.forLoop (S : ListSort) (body : Track → Entry → List TrackOp) (k : Nat) (t : Track) : LoopRun :=
  let (t', it) := t.startIter S
  it.loop S body k t'

/-- One step of a program that uses a track and any number of iterators over it. -/
inductive IterEvent where
  /-- `iter(track)`; the new iterator gets the next free number -/
  | start
  /-- `next(iterator i)` -/
  | next (i : Nat)
  /-- a use of the track -/
  | op (o : TrackOp)

/-- A program that uses a track and iterators over it: what the calls of `next` gave, in the order of the calls, with the
number of the iterator (`none`: StopIteration). `next` of an iterator that was not created yet is skipped. -/
def iterSession (S : ListSort) : Track → List LiveIter → List IterEvent → List (Nat × Option Entry)
  | _, _, [] => []
  | t, its, .start :: es => iterSession S (t.startIter S).1 (its ++ [(t.startIter S).2]) es
  | t, its, .next i :: es =>
    match its[i]? with
    | none => iterSession S t its es
    | some it => (i, (it.next t).1) :: iterSession S t (its.set i (it.next t).2) es
  | t, its, .op o :: es => iterSession S (o.step S t) (its.map (LiveIter.after t (o.step S t))) es

end Melodia
