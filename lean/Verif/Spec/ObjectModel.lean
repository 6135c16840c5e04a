/-
Two rules of Python's data model (Language Reference 3.3.1 `__hash__`, 3.3.2.4 `__slots__`) for the classes of a program.
-/
import Verif.Python.Imports

set_option autoImplicit false

namespace Melodia

open Melodia.Python

/-- What an assignment `o.a = v` or a deletion `del o.a` from outside of the class does. -/
inductive AttrResult where
  | stored
  | attributeError
  deriving DecidableEq, Repr

/-- A name that does not begin with an underscore. -/
def isPublic (a : String) : Bool :=
  match a.toList with
  | [] => false
  | c :: _ => c != '_'

/-- `o.a = v` or `del o.a` for an object of a class with `__slots__` and without bases, and a public name `a`: a property without
setter (others are not in the grammar) refuses it, a slot takes it, and since the object has no `__dict__` everything else is
refused. No result for other classes and names. -/
def setAttr (c : ClassDef) (a : String) : Option AttrResult :=
  match c.slots, c.bases, isPublic a with
  | some l, [], true =>
    if c.methods.any fun f => f.name == a && f.deco == .property then some .attributeError
    else if l.contains a then some .stored
    else some .attributeError
  | _, _, _ => none

/-- The attribute a target assigns to. -/
def attrOfTarget : Target → List String
  | .attr _ a => [a]
  | _ => []

mutual
/-- The attributes a statement assigns to or deletes, those in nested functions included. -/
def storesOf : Stmt → List String
  | .assign t _ => attrOfTarget t
  | .aug t _ _ => attrOfTarget t
  | .del t => attrOfTarget t
  | .ite _ a b => storesIn a ++ storesIn b
  | .while _ b => storesIn b
  | .for _ _ b => storesIn b
  | .withAs _ _ b => storesIn b
  | .defn _ _ _ b => storesIn b
  | _ => []

/-- The attributes some statements assign to. -/
def storesIn : List Stmt → List String
  | [] => []
  | s :: l => storesOf s ++ storesIn l
end

/-- The attributes the methods of a class assign to after the object has been made. -/
def laterStores (c : ClassDef) : List String :=
  (c.methods.filter fun f => f.name != "__init__").flatMap fun f => storesIn f.body

/-- The objects whose attributes a target assigns to. -/
def ownerOfTarget : Target → List Expr
  | .attr e _ => [e]
  | _ => []

mutual
/-- The objects whose attributes a statement assigns to or deletes. -/
def ownersOf : Stmt → List Expr
  | .assign t _ => ownerOfTarget t
  | .aug t _ _ => ownerOfTarget t
  | .del t => ownerOfTarget t
  | .ite _ a b => ownersIn a ++ ownersIn b
  | .while _ b => ownersIn b
  | .for _ _ b => ownersIn b
  | .withAs _ _ b => ownersIn b
  | .defn _ _ _ b => ownersIn b
  | _ => []

/-- The objects whose attributes some statements assign to or delete. -/
def ownersIn : List Stmt → List Expr
  | [] => []
  | s :: l => ownersOf s ++ ownersIn l
end

mutual
/-- All attribute names in an expression, whatever they are attributes of. -/
def attrNamesOf : Expr → List String
  | .attr e a => a :: attrNamesOf e
  | .index e i => attrNamesOf e ++ attrNamesOf i
  | .slice e lo hi => attrNamesOf e ++ attrNamesOf lo ++ attrNamesOf hi
  | .call f args _ => attrNamesOf f ++ attrNamesOfAll args
  | .star e => attrNamesOf e
  | .bin _ a b => attrNamesOf a ++ attrNamesOf b
  | .un _ a => attrNamesOf a
  | .and a b => attrNamesOf a ++ attrNamesOf b
  | .or a b => attrNamesOf a ++ attrNamesOf b
  | .cmp a _ l => attrNamesOf a ++ attrNamesOfAll l
  | .cond c a b => attrNamesOf c ++ attrNamesOf a ++ attrNamesOf b
  | .tuple l => attrNamesOfAll l
  | .list l => attrNamesOfAll l
  | .dict ks vs => attrNamesOfAll ks ++ attrNamesOfAll vs
  | .fstr l => attrNamesOfAll l
  | .field e _ => attrNamesOf e
  | .comp e _ it => attrNamesOf e ++ attrNamesOf it
  | .genExp e _ it => attrNamesOf e ++ attrNamesOf it
  | .dictComp k v _ it => attrNamesOf k ++ attrNamesOf v ++ attrNamesOf it
  | _ => []

/-- All attribute names in some expressions. -/
def attrNamesOfAll : List Expr → List String
  | [] => []
  | e :: l => attrNamesOf e ++ attrNamesOfAll l
end

/-- All attribute names in a target. -/
def attrNamesOfTarget : Target → List String
  | .attr e a => a :: attrNamesOf e
  | .index e i => attrNamesOf e ++ attrNamesOf i
  | _ => []

mutual
/-- All attribute names in a statement. -/
def attrNamesOfStmt : Stmt → List String
  | .expr e => attrNamesOf e
  | .assign t e => attrNamesOfTarget t ++ attrNamesOf e
  | .aug t _ e => attrNamesOfTarget t ++ attrNamesOf e
  | .ret e => attrNamesOf e
  | .ite c a b => attrNamesOf c ++ attrNamesIn a ++ attrNamesIn b
  | .while c b => attrNamesOf c ++ attrNamesIn b
  | .for _ it b => attrNamesOf it ++ attrNamesIn b
  | .raise e => attrNamesOf e
  | .assert e => attrNamesOf e
  | .del t => attrNamesOfTarget t
  | .withAs e _ b => attrNamesOf e ++ attrNamesIn b
  | .defn _ ps _ b => attrNamesOfAll (ps.map Prod.snd) ++ attrNamesIn b
  | .yield e => attrNamesOf e
  | _ => []

/-- All attribute names in some statements. -/
def attrNamesIn : List Stmt → List String
  | [] => []
  | s :: l => attrNamesOfStmt s ++ attrNamesIn l
end

/-- The built-in functions that reach attributes by a string, or code by its text. -/
def reflectiveNames : List String :=
  ["setattr", "delattr", "getattr", "vars", "object", "super", "type", "globals", "locals", "exec", "eval", "compile", "__import__"]

/-- What `hash(o)` does for an object of a class that has no bases. -/
inductive HashResult where
  | number
  | typeError
  deriving DecidableEq, Repr

/-- A class that defines `__eq__` but not `__hash__` has `__hash__` set to `None`, so `hash` raises TypeError; without `__eq__` the
hash of `object` is inherited. No result if the class has bases, fields of a `dataclass` or its own `__hash__`. -/
def hashOf (c : ClassDef) : Option HashResult :=
  if !c.bases.isEmpty || !c.fields.isEmpty || c.methods.any fun f => f.name == "__hash__" then none
  else if c.methods.any fun f => f.name == "__eq__" then some .typeError
  else some .number

end Melodia
