/-
Vocabulary of C85: what a program that uses a track and several iterators over it observes.
-/
import Verif.Model.TrackIter

set_option autoImplicit false

namespace Melodia


/-- The results of the calls of `next` on iterator `i`, in order. -/
def resultsOf (i : Nat) (out : List (Nat × Option Entry)) : List (Option Entry) :=
  (out.filter fun x => x.1 = i).map Prod.snd

/-- How often `next` is called on iterator `i` once it exists, `n` iterators having been created before. -/
def nextCalls (i : Nat) : Nat → List IterEvent → Nat
  | _, [] => 0
  | n, .start :: es => nextCalls i (n + 1) es
  | n, .next j :: es => (if j = i ∧ i < n then 1 else 0) + nextCalls i n es
  | n, .op _ :: es => nextCalls i n es

/-- What the program does to the track: creating an iterator is an observation, `next` does not touch the track. -/
def trackOps : List IterEvent → List TrackOp
  | [] => []
  | .start :: es => .iterate :: trackOps es
  | .next _ :: es => trackOps es
  | .op o :: es => o :: trackOps es

/-- The program adds nothing to the track. -/
def OnlyLooks (es : List IterEvent) : Prop := ∀ w p, IterEvent.op (.add w p) ∉ es

end Melodia
