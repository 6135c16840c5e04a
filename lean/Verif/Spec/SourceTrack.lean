/-
Vocabulary for statements about the text of track.py: tracks in memory, arguments of their methods, and sessions.
-/
import Verif.Lemmas.SourceNote
import Verif.Lemmas.PyHeap
import Verif.Spec.Source
import Verif.Spec.Track

set_option autoImplicit false

namespace Melodia

open Melodia.Python

/-- The slots of a `Track` object, in the order of their creation. -/
def trackFields (t : Track) (l : Nat) : List (String × Val) :=
  [("_signature", sigV t.signature), ("_max_denominator", .int t.maxDenominator), ("_heap", .ref l),
    ("_max_position", sigV t.maxPosition), ("_sorted", .bool t.sorted)]

/-- An entry of the list of a track. -/
def entryV (e : Entry) : Val := .tuple [sigV e.1, noteV e.2]

/-- The memory contains the track `t`: the object at `a`, its list at `l`. -/
structure TrackAt (h : Heap) (a l : Nat) (t : Track) : Prop where
  obj : h.objs[a]? = some (.inst "Track" (trackFields t l))
  list : h.objs[l]? = some (.list (t.heap.map entryV))

mutual
/-- The value `v` is what `Track.add` takes as `what`: a note, or a tuple or list (not the list of the track itself, at `l`)
of such values. -/
def IsWhat (h : Heap) (l : Nat) : What → Val → Prop
  | .note n, v => v = noteV n
  | .many ws, v => ∃ vs, IsWhats h l ws vs ∧
      (v = .tuple vs ∨ ∃ b, v = .ref b ∧ b ≠ l ∧ h.objs[b]? = some (.list vs))
/-- Several such values. -/
def IsWhats (h : Heap) (l : Nat) : List What → List Val → Prop
  | [], vs => vs = []
  | w :: ws, vs => ∃ x xs, vs = x :: xs ∧ IsWhat h l w x ∧ IsWhats h l ws xs
end

/-- The values `where` of `Track.add`. -/
inductive IsWhere : Option SigArg → Val → Prop
  | default : IsWhere none .none
  | arg (a : SigArg) (v : Val) (hv : v ≠ .none) (h : IsSigArg a v) : IsWhere (some a) v

/-- The pairs of `content`. -/
def IsPlacement (h : Heap) (l : Nat) (p : What × Option SigArg) (v : Val) : Prop :=
  ∃ x w, v = .tuple [x, w] ∧ IsWhat h l p.1 x ∧ IsWhere p.2 w

/-- The values `content` of `Track`: `None`, or a tuple or a list of pairs. -/
def IsContent (h : Heap) (l : Nat) (content : List (What × Option SigArg)) (v : Val) : Prop :=
  (v = .none ∧ content = []) ∨ ∃ vs, List.Forall₂ (IsPlacement h l) content vs ∧
    (v = .tuple vs ∨ ∃ b, v = .ref b ∧ b ≠ l ∧ h.objs[b]? = some (.list vs))

/-- The ways to call `Track`: the signature and the content (with their defaults 4/4 and `None`), the values of the variables
and the expression. -/
inductive TrackCall : Val → Val → List (String × Val) → Expr → Prop
  | nothing : TrackCall (sigV ⟨4, 4⟩) .none [] (callE "Track" [])
  | one (v : Val) : TrackCall v .none [("s", v)] (callE "Track" ["s"])
  | oneKw (v : Val) : TrackCall v .none [("s", v)] (.call (.name "Track") [.name "s"] ["signature"])
  | two (v c : Val) : TrackCall v c [("s", v), ("c", c)] (callE "Track" ["s", "c"])
  | content (c : Val) : TrackCall (sigV ⟨4, 4⟩) c [("c", c)] (.call (.name "Track") [.name "c"] ["content"])
  | bothKw (v c : Val) : TrackCall v c [("s", v), ("c", c)]
      (.call (.name "Track") [.name "c", .name "s"] ["content", "signature"])

/-- The ways to call `t.add`: the values of the variables and the expression. -/
inductive AddCall (a : Nat) (v : Val) : Val → List (String × Val) → Expr → Prop
  | one : AddCall a v .none [("t", .ref a), ("x", v)] (methE "t" "add" ["x"])
  | two (w : Val) : AddCall a v w [("t", .ref a), ("x", v), ("w", w)] (methE "t" "add" ["x", "w"])
  | oneKw : AddCall a v .none [("t", .ref a), ("x", v)] (.call (.attr (.name "t") "add") [.name "x"] ["what"])
  | whereKw (w : Val) : AddCall a v w [("t", .ref a), ("x", v), ("w", w)]
      (.call (.attr (.name "t") "add") [.name "x", .name "w"] ["where"])
  | bothKw (w : Val) : AddCall a v w [("t", .ref a), ("x", v), ("w", w)]
      (.call (.attr (.name "t") "add") [.name "w", .name "x"] ["where", "what"])

/-- An operation on a track in a user's program; arguments that are lists exist in the memory `h` and are not at the address
`l`. -/
inductive Performs (h : Heap) (l a : Nat) : TrackOp → List (String × Val) → Expr → Prop
  | add (w : What) (pos : Option SigArg) (v u : Val) (vars : List (String × Val)) (e : Expr) (hv : IsWhat h l w v)
      (hu : IsWhere pos u) (hc : AddCall a v u vars e) : Performs h l a (.add w pos) vars e
  | iter : Performs h l a .iterate [("t", .ref a)] (callE "iter" ["t"])
  | repr : Performs h l a .iterate [("t", .ref a)] (callE "repr" ["t"])
  | eq : Performs h l a .iterate [("t", .ref a)] (cmpE .eq "t" "t")
  | ne : Performs h l a .iterate [("t", .ref a)] (cmpE .ne "t" "t")
  | list : Performs h l a .iterate [("t", .ref a)] (.comp (.name "x") (.name "x") (.name "t"))
  | len : Performs h l a .peek [("t", .ref a)] (callE "len" ["t"])
  | str : Performs h l a .peek [("t", .ref a)] (callE "str" ["t"])
  | length : Performs h l a .peek [("t", .ref a)] (.attr (.name "t") "length")
  | signature : Performs h l a .peek [("t", .ref a)] (.attr (.name "t") "signature")

/-- Evaluate expressions one after the other, catching exceptions; the memory at the end. -/
noncomputable def session (W : World) : List (List (String × Val) × Expr) → Heap → Option Heap
  | [], h => some h
  | s :: ss, h =>
    match userEval W s.1 s.2 h with
    | some (.ok _ h') => session W ss h'
    | some (.err _ h') => session W ss h'
    | none => none

namespace Source

/-- The addresses of a track. -/
def Own (a l : Nat) (b : Nat) : Prop := b = a ∨ b = l

/-- What running a statement on the track at `a`, `l` achieves: the track becomes `t'`, nothing else changes. -/
structure Becomes (h h' : Heap) (a l l' : Nat) (t' : Melodia.Track) : Prop where
  track : TrackAt h' a l' t'
  frame : Frame (Own a l) h h'
  addr : l' = l ∨ h.objs.length ≤ l'

end Source

end Melodia
