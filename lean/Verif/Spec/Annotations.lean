/-
Vocabulary for property C112: the annotations of parameters and results, read off the source text. The syntax trees of the program have
no annotations (Verif/Python/Syntax.lean), so they are read from the tokens, at the `def` of every function, also of nested ones.
-/
import Verif.Python.Imports

set_option autoImplicit false

namespace Melodia.Python

/-- A type in an annotation: a name, `None`, or a name with arguments in square brackets. -/
inductive Ty where
  | name (x : String)
  | none
  | app (x : String) (args : List Ty)
  deriving Repr

mutual
/-- The type an annotation denotes; a type in quotes is the same as without them. -/
def Expr.ty : Expr → Option Ty
  | .name x => some (.name x)
  | .str x => some (.name x)
  | .none => some .none
  | .index (.name x) (.tuple l) => match allTy l with
    | some l => some (.app x l)
    | none => none
  | .index (.name x) e => match e.ty with
    | some t => some (.app x [t])
    | none => none
  | _ => none

/-- The types of annotations. -/
def allTy : List Expr → Option (List Ty)
  | [] => some []
  | e :: l => match e.ty, allTy l with
    | some t, some l => some (t :: l)
    | _, _ => none
end

/-- What the definition of a function says about types: the class it is in, its name, its parameters and its result. -/
structure Head where
  cls : Option String
  name : String
  params : List (String × Option Ty)
  result : Option Ty
  deriving Repr

/-- The annotation after the operator `o`, if there is one: the outer `none` means that it cannot be read. -/
def annotationTy (o : List Nat) (ts : List Tok) : Option (Option Ty) :=
  match takeOp o ts with
  | some ts => match expr ts with
    | some (e, _) => match e.ty with
      | some t => some (some t)
      | none => none
    | none => none
  | none => some none

/-- The names and annotations of parameters, which are separated by commas. -/
def parameterTys : Nat → List Tok → Option (List (String × Option Ty))
  | 0, _ => none
  | n + 1, ts => match takeOp c!")" ts with
    | some _ => some []
    | none => match parameter ts, identifier ts with
      | some (_, rest), some (x, ts) => match annotationTy c!":" ts with
        | some t => match takeOp c!"," rest with
          | some rest => match parameterTys n rest with
            | some l => some ((x, t) :: l)
            | none => none
          | none => some [(x, t)]
        | none => none
      | _, _ => none

/-- The head of a function definition in the class `c`, after `def`. -/
def headTys (c : Option String) (ts : List Tok) : Option Head :=
  match identifier ts with
  | some (f, ts) => match takeOp c!"(" ts with
    | some ts => match parameterTys ts.length ts, annotationTy c!"->" (afterParameters ts.length ts) with
      | some ps, some r => some ⟨c, f, ps, r⟩
      | _, _ => none
    | none => none
  | none => none

/-- The heads of all function definitions in the tokens of a definition. -/
def defHeads (c : Option String) : List Tok → Option (List Head)
  | [] => some []
  | t :: ts => match takeWord c!"def" (t :: ts) with
    | some r => match headTys c r, defHeads c ts with
      | some h, some l => some (h :: l)
      | _, _ => none
    | none => defHeads c ts

/-- The class a statement of a module defines. -/
def Item.className : Item → Option String
  | .cls c => some c.name
  | _ => none

/-- The heads of the functions defined by the statements of a module, at most `n`. -/
def headsFrom (m : String) (package : Bool) : Nat → List Tok → Option (List Head)
  | 0, _ => none
  | _ + 1, [] => some []
  | n + 1, ts => match item m package ts with
    | some (x, rest) => match defHeads x.className (ts.take (ts.length - rest.length)), headsFrom m package n rest with
      | some l, some k => some (l ++ k)
      | _, _ => none
    | none => none

/-- The heads of the functions of a module, given by its lines. -/
def moduleHeads (m : String) (package : Bool) (lines : List String) : Option (List Head) :=
  match tokens lines with
  | some ts => headsFrom m package (ts.length + 1) ts
  | none => none

/-- The heads of files, with the names of their modules. -/
def headsOf : List (String × Bool × List String) → Option (List (String × List Head))
  | [] => some []
  | (m, p, lines) :: l => match moduleHeads m p lines, headsOf l with
    | some h, some k => some ((m, h) :: k)
    | _, _ => none

/-- The head is that of the function: it has its name and the names of its parameters. -/
def Head.Of (h : Head) (f : FunDef) : Prop := h.name = f.name ∧ h.params.map Prod.fst = f.params.map Prod.fst

end Melodia.Python
