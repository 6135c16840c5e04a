/-
Property theorems C85 (src/melodia/core/track.py:100-108, 132-143): several iterators over one track, used in any order and
interleaved with uses of the track - nested loops, `zip(track, track)`, iterators kept in variables.
-/
import Verif.Lemmas.Iterators
import Verif.Props.TrackIter

set_option autoImplicit false

namespace Melodia

/-- C85: in a program that adds nothing to the track, the `j`-th call of `next` on any iterator gives the `j`-th note of the
track, and StopIteration after the last; other iterators, created and advanced in any order, and uses of the track in
between make no difference. In particular the inner loop of two nested loops does not disturb the outer one. -/
theorem C85_independent (S : ListSort) (t : Track) (es : List IterEvent) (h : OnlyLooks es) (i : Nat) :
    resultsOf i (iterSession S t [] es) = (List.range (nextCalls i 0 es)).map fun j => (t.items S)[j]? := by
  have := session_looks S (t.items S) i es h t [] rfl (fun h => absurd rfl h) (by simp) 0 (by simp) (fun _ => rfl)
  simpa using this

/-- C85: once an iterator has raised StopIteration it raises it for ever, whatever is added to the track afterwards. -/
theorem C85_exhausted (S : ListSort) (t : Track) (es : List IterEvent) (i : Nat) (a b : List (Option Entry))
    (h : resultsOf i (iterSession S t [] es) = a ++ none :: b) : ∀ r ∈ b, r = none :=
  session_stop S i es t [] a b h

/-- C85: in any program, also one that adds notes between the calls of `next`, every note an iterator gives is in the track at
that moment, at the position given: apply the theorem to the program up to that call. -/
theorem C85_member (S : ListSort) (t : Track) (ht : t.Reachable S) (es : List IterEvent)
    (hv : ∀ o ∈ trackOps es, o.Valid) (i : Nat) (e : Entry) (h : (i, some e) ∈ iterSession S t [] es) :
    e.placed ∈ (t.run S (trackOps es)).contents :=
  session_member S es t [] ht.wf hv (by simp) i e h

/-- Two iterators over the four notes, the second one created when the first has given one note. -/
def exTwoIters : List IterEvent :=
  [.start, .next 0, .start, .next 1, .next 1, .op .iterate, .next 0, .next 1, .next 1, .next 1, .op .peek, .next 0, .next 0, .next 0]

/-- The two iterators of the example both give 60, 62, 64, 65 and stop. -/
example : OnlyLooks exTwoIters ∧
    (List.map fun i => (resultsOf i (iterSession cpySort ((Track.empty ⟨4, 4⟩).run cpySort exLoopOps) [] exTwoIters)).map
      (Option.map fun e => e.2.tone.pitch)) [0, 1] =
    [[some 60, some 62, some 64, some 65, none], [some 60, some 62, some 64, some 65, none]] := by
  refine ⟨?_, by decide +kernel⟩
  intro w p h
  simp [exTwoIters] at h

/-- An iterator that has stopped stays so although a note is added at the end; a new one sees it. -/
example : (iterSession cpySort ((Track.empty ⟨4, 4⟩).run cpySort exLoopOps) []
      ([.start] ++ List.replicate 5 (.next 0) ++ [.op (.add (.note (exNote 67 1 4)) none), .next 0, .start] ++
        List.replicate 5 (.next 1))).map (fun x => (x.1, x.2.map fun e => e.2.tone.pitch)) =
    [(0, some 60), (0, some 62), (0, some 64), (0, some 65), (0, none), (0, none), (1, some 60), (1, some 62), (1, some 64),
     (1, some 65), (1, some 67)] := by
  decide +kernel

/-- A note added in front of an iterator's place can hide others from it: the iterator gives the first note twice and never the
added one, as in `C56_repeated_violated`; all it gives is in the track (`C85_member`). -/
example : (iterSession cpySort ((Track.empty ⟨4, 4⟩).run cpySort exLoopOps) []
      ([.start, .next 0, .op (.add (.note (exNote 40 1 4)) (some (.ints [0, 4])))] ++ List.replicate 5 (.next 0))).map
      (fun x => x.2.map fun e => (e.1, e.2.tone.pitch)) =
    [some (⟨0, 4⟩, 60), some (⟨0, 4⟩, 60), some (⟨2, 4⟩, 64), some (⟨3, 4⟩, 65), some (⟨1, 4⟩, 62), none] := by
  decide +kernel

end Melodia
