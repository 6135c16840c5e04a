/-
The values an annotation of src/melodia stands for when tracks are involved: whether a value is one depends on the memory.
-/
import Verif.Spec.Types
import Verif.Spec.SourceTrack

set_option autoImplicit false

namespace Melodia

open Melodia.Python

/-- The value is a track: an object in memory whose state a history of operations on an empty track leads to. -/
def IsTrack (W : World) (h : Heap) (v : Val) : Prop := ∃ (a l : Nat) (t : Track), v = .ref a ∧ TrackAt h a l t ∧ t.Reachable W.sort

/-- The value is a tuple, a list or an iterator of a list, with these elements. -/
def HasElements (h : Heap) (v : Val) (vs : List Val) : Prop :=
  v = .tuple vs ∨ ∃ b, h.objs[b]? = some (.list vs) ∧ (v = .ref b ∨ v = .iter b)

mutual
/-- The values of a type, in the given memory: as in `HasType`, and also the tracks and the iterables. -/
def HasTypeAt (W : World) (h : Heap) : Ty → Val → Prop
  | .none, v => v = .none
  | .name x, v => if x = "Track" then IsTrack W h v else IsInstance x v
  | .app x l, v => if x = "Union" then HasSomeAt W h l v else if x = "Optional" then v = .none ∨ HasSomeAt W h l v
    else if x = "Tuple" then ∃ vs, v = .tuple vs ∧ HasTypesAt W h l vs
    else if x = "Iterable" then ∃ vs, HasElements h v vs ∧ ∀ y ∈ vs, HasSomeAt W h l y else False

/-- Some of the types has the value. -/
def HasSomeAt (W : World) (h : Heap) : List Ty → Val → Prop
  | [], _ => False
  | t :: l, v => HasTypeAt W h t v ∨ HasSomeAt W h l v

/-- The values are of the types, one by one. -/
def HasTypesAt (W : World) (h : Heap) : List Ty → List Val → Prop
  | [], vs => vs = []
  | t :: l, vs => ∃ v rest, vs = v :: rest ∧ HasTypeAt W h t v ∧ HasTypesAt W h l rest
end

/-- The arguments are those the head asks for: of the annotated types, and an instance of the class in front of them for a method. -/
def FitsAt (W : World) (h : Heap) (k : Head) (args : List Val) : Prop :=
  match k.params, args with
  | (_, none) :: l, v :: vs => (∃ c, k.cls = some c ∧ HasTypeAt W h (.name c) v) ∧ ∃ ts, l.map Prod.snd = ts.map some ∧ HasTypesAt W h ts vs
  | l, vs => ∃ ts, l.map Prod.snd = ts.map some ∧ HasTypesAt W h ts vs

/-- Nothing but the track in front uses its list: the other arguments are not this list, and if one is another track then it has a list of
its own. None of them is an iterator. -/
def Separate (h : Heap) (args : List Val) : Prop :=
  ∀ (a l : Nat) (t : Track), args.head? = some (.ref a) → TrackAt h a l t → ∀ v ∈ args.tail, (∀ b, v ≠ .iter b) ∧ v ≠ .ref l ∧
    ∀ (b m : Nat) (u : Track), v = .ref b → TrackAt h b m u → b = a ∨ m ≠ l

/-- The function has the head; on arguments that fit it ends with a value of the annotated type, or (if `fails` says it may) with an
exception, and the track in front is a track afterwards. -/
def TypedAt (W : World) (fails : Prop) (f : FunDef) (k : Head) : Prop :=
  k.Of f ∧ ∃ t, k.result = some t ∧ ∀ (h : Heap) (args : List Val), FitsAt W h k args → Separate h args →
    ∃ h', ((∃ v, callFun Source.program W f args [] h = some (.ok v h') ∧ HasTypeAt W h' t v) ∨
      (fails ∧ ∃ e, callFun Source.program W f args [] h = some (.err e h'))) ∧ ∀ v, args.head? = some v → IsTrack W h' v

/-- The arguments of the constructor of a class, with the object left out, that fit the head of `__init__`. -/
def FitsNewAt (W : World) (h : Heap) (k : Head) (args : List Val) : Prop :=
  ∃ ts, k.params.tail.map Prod.snd = ts.map some ∧ HasTypesAt W h ts args

end Melodia
