/-
Vocabulary for statements about the text of melodia itself: expressions of a user's program, evaluated by the meaning of
Python in Verif/Python with the abstract syntax of melodia's source files in Verif/Source.
-/
import Verif.Source.Program
import Verif.Python.Semantics

set_option autoImplicit false

namespace Melodia

open Melodia.Python

/-- `list.sort` looks at its elements only by comparing them: renaming the elements of a list changes its result by the same
renaming, if the comparisons have the same outcomes. -/
def ListSort.Natural (S : ListSort) : Prop :=
  ∀ (α β : Type) (lt : α → α → Bool) (lt' : β → β → Bool) (f : α → β) (l : List α),
    (∀ a ∈ l, ∀ b ∈ l, lt' (f a) (f b) = lt a b) → S.sort lt' (l.map f) = (S.sort lt l).map f

/-- The names a user imports from melodia. -/
def userNames : List (String × Val) :=
  [("Signature", .cls "Signature"), ("Tone", .cls "Tone"), ("Note", .cls "Note"), ("Track", .cls "Track"),
    ("MIDIWriter", .cls "MIDIWriter"), ("MIDIReader", .cls "MIDIReader")]

/-- What an expression of a user's program does, given the values of the variables of that program. -/
noncomputable def userEval (W : World) (vars : List (String × Val)) (e : Expr) : M Val :=
  evalE Source.program W e { mod := "__main__", vars := vars ++ userNames }

/-- The expression evaluates to `v`; memory is left as it was. -/
def Gives (W : World) (vars : List (String × Val)) (e : Expr) (v : Val) : Prop := userEval W vars e = pure v

/-- The expression raises an exception; memory is left as it was. -/
def Raises (W : World) (vars : List (String × Val)) (e : Expr) (x : PyErr) : Prop := userEval W vars e = raise x

/-- `x op y` for variables. -/
def binE (op : BinOp) (x y : String) : Expr := .bin op (.name x) (.name y)

/-- `x op y` for variables. -/
def cmpE (op : CmpOp) (x y : String) : Expr := .cmp (.name x) [op] [.name y]

/-- `f(x, ...)` for names. -/
def callE (f : String) (args : List String) : Expr := .call (.name f) (args.map .name) []

/-- `x.m(y, ...)` for names. -/
def methE (x m : String) (args : List String) : Expr := .call (.attr (.name x) m) (args.map .name) []

end Melodia
