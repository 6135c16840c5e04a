/-
The values an annotation of src/melodia stands for, as far as the classes of values and the chords need them.
-/
import Verif.Spec.Annotations
import Verif.Lemmas.SourceNote

set_option autoImplicit false

namespace Melodia

open Melodia.Python

/-- The values of a class named in an annotation. A `Signature` has a nominator that is not negative and a power of two as denominator, the
velocity of a `Note` is between zero and one, as C01 and C07 say of all that exist. -/
def IsInstance (x : String) (v : Val) : Prop :=
  match x with
  | "int" => ∃ i : Int, v = .int i
  | "float" => ∃ x : PyFloat, v = .float x
  | "str" => ∃ s : List Char, v = .str s
  | "bool" => ∃ b : Bool, v = .bool b
  | "Tone" => ∃ t : Tone, v = toneV t
  | "Signature" => ∃ s : Signature, 0 ≤ s.nominator ∧ (∃ k : ℕ, s.denominator = 2 ^ k) ∧ v = sigV s
  | "Note" => ∃ n : Note, 0 ≤ n.duration.nominator ∧ (∃ k : ℕ, n.duration.denominator = 2 ^ k) ∧ 0 ≤ n.velocity ∧ n.velocity ≤ 1 ∧
      v = noteV n
  | _ => False

mutual
/-- The values of a type: the instances of a class, `None`, one of the types of a `Union` or of
an `Optional`, the tuples with components of the given types. -/
def HasType : Ty → Val → Prop
  | .none, v => v = .none
  | .name x, v => IsInstance x v
  | .app x l, v => if x = "Union" then HasSome l v else if x = "Optional" then v = .none ∨ HasSome l v
    else if x = "Tuple" then ∃ vs, v = .tuple vs ∧ HasTypes l vs else False

/-- Some of the types has the value. -/
def HasSome : List Ty → Val → Prop
  | [], _ => False
  | t :: l, v => HasType t v ∨ HasSome l v

/-- The values are of the types, one by one. -/
def HasTypes : List Ty → List Val → Prop
  | [], vs => vs = []
  | t :: l, vs => ∃ v rest, vs = v :: rest ∧ HasType t v ∧ HasTypes l rest
end

/-- The arguments are those the head asks for: of the annotated types, and an instance of the class (or the class itself) in front of them
for a method. -/
def Fits (h : Head) (args : List Val) : Prop :=
  match h.params, args with
  | (x, none) :: l, v :: vs => (if x = "cls" then ∃ c, h.cls = some c ∧ v = .cls c else ∃ c, h.cls = some c ∧ IsInstance c v) ∧
      ∃ ts, l.map Prod.snd = ts.map some ∧ HasTypes ts vs
  | l, vs => ∃ ts, l.map Prod.snd = ts.map some ∧ HasTypes ts vs

/-- A computation that ends, with a value of the type or an exception, and leaves the heap alone. -/
def GivesTy (t : Ty) (m : M Val) : Prop :=
  ∀ h : Heap, (∃ v, m h = some (.ok v h) ∧ HasType t v) ∨ ∃ e, m h = some (.err e h)

/-- The method has the head and its result is of the annotated type, on arguments that fit. -/
def Typed (W : World) (f : FunDef) (h : Head) : Prop :=
  h.Of f ∧ ∃ t, h.result = some t ∧ ∀ args, Fits h args → GivesTy t (callFun Source.program W f args [])

/-- The arguments of the constructor of a class, with the object left out, that fit the head of `__init__`. -/
def FitsNew (h : Head) (args : List Val) : Prop := ∃ ts, h.params.tail.map Prod.snd = ts.map some ∧ HasTypes ts args

/-- The values of the parameters that are left out are of the annotated types. -/
def TypedDefaults (W : World) (f : FunDef) (h : Head) : Prop :=
  ∀ (i : Nat) (x : String) (e : Expr), f.params[i]? = some (x, some e) → ∃ t v, h.params[i]? = some (x, some t) ∧
    evalE Source.program W e { mod := f.mod, vars := [] } = pure v ∧ HasType t v

end Melodia
