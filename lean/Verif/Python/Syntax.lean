/-
Abstract syntax of the part of Python that the source files of melodia use (see the Python Language Reference, chapters 6 to
8). Docstrings, comments and annotations are left out: they are never evaluated by the code.
-/
import Verif.Model.Py

set_option autoImplicit false

namespace Melodia.Python

/-- Binary operators. -/
inductive BinOp where
  | add | sub | mul | div | floorDiv | mod | pow | band | bor | shl | shr
  deriving DecidableEq, Repr

/-- Comparison operators. -/
inductive CmpOp where
  | eq | ne | lt | le | gt | ge | is | isNot | isIn | notIn
  deriving DecidableEq, Repr

/-- Unary operators. -/
inductive UnOp where
  | neg | pos | not
  deriving DecidableEq, Repr

/-- Targets of loops and comprehensions: names and tuples of such. -/
inductive Pat where
  | name (x : String)
  | tuple (l : List Pat)
  deriving Repr

/-- Expressions. -/
inductive Expr where
  | none
  | bool (b : Bool)
  | int (i : Int)
  /-- A float literal: the number `num / den`. -/
  | float (num : Int) (den : Nat)
  | str (s : String)
  | bytes (b : List UInt8)
  | name (x : String)
  | attr (e : Expr) (a : String)
  /-- `e[i]` -/
  | index (e i : Expr)
  /-- `e[lo:hi]`, a missing bound being `none`. -/
  | slice (e lo hi : Expr)
  /-- A call; the last `kws.length` elements of `args` are the keyword arguments. -/
  | call (f : Expr) (args : List Expr) (kws : List String)
  /-- `*e` among the arguments of a call. -/
  | star (e : Expr)
  | bin (op : BinOp) (a b : Expr)
  | un (op : UnOp) (a : Expr)
  | and (a b : Expr)
  | or (a b : Expr)
  /-- A chain of comparisons `a op b op c ...`. -/
  | cmp (a : Expr) (ops : List CmpOp) (rest : List Expr)
  /-- `a if c else b` -/
  | cond (c a b : Expr)
  | tuple (l : List Expr)
  | list (l : List Expr)
  | dict (keys vals : List Expr)
  /-- An f-string, as the concatenation of its parts. -/
  | fstr (parts : List Expr)
  /-- A replacement field `{e:spec}` of an f-string. -/
  | field (e : Expr) (spec : String)
  /-- `[elt for p in it]` -/
  | comp (elt : Expr) (p : Pat) (it : Expr)
  /-- `(elt for p in it)` -/
  | genExp (elt : Expr) (p : Pat) (it : Expr)
  /-- `{k: v for p in it}` -/
  | dictComp (k v : Expr) (p : Pat) (it : Expr)
  deriving Repr

/-- Targets of assignments. -/
inductive Target where
  | name (x : String)
  | attr (e : Expr) (a : String)
  | index (e i : Expr)
  | tuple (l : List String)
  deriving Repr

/-- Statements. -/
inductive Stmt where
  | expr (e : Expr)
  | assign (t : Target) (e : Expr)
  | aug (t : Target) (op : BinOp) (e : Expr)
  | ret (e : Expr)
  | ite (c : Expr) (a b : List Stmt)
  | while (c : Expr) (body : List Stmt)
  | for (p : Pat) (it : Expr) (body : List Stmt)
  | raise (e : Expr)
  | assert (e : Expr)
  | del (t : Target)
  /-- `with e as x: body` -/
  | withAs (e : Expr) (x : String) (body : List Stmt)
  /-- A nested function definition with its parameters (all with defaults) and its `nonlocal` names. -/
  | defn (name : String) (params : List (String × Expr)) (nonlocals : List String) (body : List Stmt)
  | yield (e : Expr)
  | pass
  | break
  | continue
  deriving Repr

/-- How a function of a class is called. -/
inductive Deco where
  | plain | property | classmethod | staticmethod
  deriving DecidableEq, Repr

/-- Functions: name, module they are defined in, parameters with their defaults, body, decorator, and whether the body contains
`yield`. -/
structure FunDef where
  name : String
  mod : String
  params : List (String × Option Expr)
  body : List Stmt
  deco : Deco := .plain
  gen : Bool := false
  deriving Repr

/-- Classes. `fields` are the fields of a `dataclass`, in order; `slots` are the attributes listed in `__slots__`; `mutable` says
whether a method other than `__init__` assigns to an attribute. -/
structure ClassDef where
  name : String
  mod : String
  bases : List String := []
  methods : List FunDef := []
  fields : List String := []
  slots : Option (List String) := none
  mutable : Bool := false
  deriving Repr

/-- What a name of a module is bound to by a `class`, `def` or `import` statement. -/
inductive Global where
  | cls (c : String)
  | func (f : FunDef)
  /-- `import m`, or `from p import m` for a module `m` -/
  | module (m : String)
  /-- `from m import x` -/
  | imported (m x : String)
  deriving Repr

/-- Modules: names bound by statements other than assignments, and the statements executed on import that are no such
definitions. -/
structure Module where
  name : String
  names : List (String × Global) := []
  init : List Stmt := []
  deriving Repr

/-- Programs. -/
structure Program where
  modules : List Module
  classes : List ClassDef

end Melodia.Python
