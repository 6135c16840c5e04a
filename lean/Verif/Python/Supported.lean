/-
The programs the evaluator is meant for. Semantics.lean describes classes, nested functions and scopes only as far as melodia
uses them; the test below says which uses these are. A program that passes it cannot observe the simplifications. In particular
the evaluator does not look at `__slots__`; the test requires that all attributes that are assigned to are in it.
-/
import Verif.Python.Semantics

set_option autoImplicit false

namespace Melodia.Python

mutual
/-- The names that occur in an expression. -/
def Expr.names : Expr → List String
  | .name x => [x]
  | .attr e _ => e.names
  | .index e i => e.names ++ i.names
  | .slice e lo hi => e.names ++ lo.names ++ hi.names
  | .call f args _ => f.names ++ exprNames args
  | .star e => e.names
  | .bin _ a b => a.names ++ b.names
  | .un _ a => a.names
  | .and a b => a.names ++ b.names
  | .or a b => a.names ++ b.names
  | .cmp a _ l => a.names ++ exprNames l
  | .cond c a b => c.names ++ a.names ++ b.names
  | .tuple l => exprNames l
  | .list l => exprNames l
  | .dict ks vs => exprNames ks ++ exprNames vs
  | .fstr l => exprNames l
  | .field e _ => e.names
  | .comp e _ it => e.names ++ it.names
  | .genExp e _ it => e.names ++ it.names
  | .dictComp k v _ it => k.names ++ v.names ++ it.names
  | _ => []

/-- The names that occur in expressions. -/
def exprNames : List Expr → List String
  | [] => []
  | e :: l => e.names ++ exprNames l
end

mutual
/-- The names of a pattern. -/
def Pat.names : Pat → List String
  | .name x => [x]
  | .tuple l => patNames l

/-- The names of patterns. -/
def patNames : List Pat → List String
  | [] => []
  | p :: l => p.names ++ patNames l
end

/-- The names a target binds. -/
def Target.binds : Target → List String
  | .name x => [x]
  | .tuple l => l
  | _ => []

/-- The names that occur in a target without being bound. -/
def Target.names : Target → List String
  | .attr e _ => e.names
  | .index e i => e.names ++ i.names
  | _ => []

mutual
/-- The names a statement binds in the function it belongs to. -/
def Stmt.binds : Stmt → List String
  | .assign t _ => t.binds
  | .aug t _ _ => t.binds
  | .ite _ a b => bindsOf a ++ bindsOf b
  | .while _ b => bindsOf b
  | .for p _ b => p.names ++ bindsOf b
  | .withAs _ x b => x :: bindsOf b
  | .defn f _ _ _ => [f]
  | _ => []

/-- The names statements bind. -/
def bindsOf : List Stmt → List String
  | [] => []
  | s :: l => s.binds ++ bindsOf l
end

mutual
/-- The names that occur in a statement. -/
def Stmt.names : Stmt → List String
  | .expr e => e.names
  | .assign t e => t.names ++ e.names
  | .aug t _ e => t.binds ++ t.names ++ e.names
  | .ret e => e.names
  | .ite c a b => c.names ++ stmtNames a ++ stmtNames b
  | .while c b => c.names ++ stmtNames b
  | .for _ it b => it.names ++ stmtNames b
  | .raise e => e.names
  | .assert e => e.names
  | .del t => t.binds ++ t.names
  | .withAs e _ b => e.names ++ stmtNames b
  | .defn _ ps _ b => exprNames (ps.map Prod.snd) ++ stmtNames b
  | .yield e => e.names
  | _ => []

/-- The names that occur in statements. -/
def stmtNames : List Stmt → List String
  | [] => []
  | s :: l => s.names ++ stmtNames l
end

mutual
/-- Whether a function is defined inside of a statement. -/
def Stmt.hasDef : Stmt → Bool
  | .ite _ a b => hasDefs a || hasDefs b
  | .while _ b => hasDefs b
  | .for _ _ b => hasDefs b
  | .withAs _ _ b => hasDefs b
  | .defn _ _ _ _ => true
  | _ => false

/-- Whether a function is defined inside of statements. -/
def hasDefs : List Stmt → Bool
  | [] => false
  | s :: l => s.hasDef || hasDefs l
end

mutual
/-- Whether each `with` is about a new file in memory that is left by returning from the function, so that the closed file is
not used. -/
def Stmt.withOk : Stmt → Bool
  | .ite _ a b => withsOk a && withsOk b
  | .while _ b => withsOk b
  | .for _ _ b => withsOk b
  | .withAs e _ b => withsOk b &&
    (match e with
      | .call (.attr (.name "io") "BytesIO") _ _ => true
      | _ => false) &&
    (match b.getLast? with
      | some (.ret _) => true
      | _ => false)
  | .defn _ _ _ b => withsOk b
  | _ => true

/-- Whether each `with` is of this form. -/
def withsOk : List Stmt → Bool
  | [] => true
  | s :: l => s.withOk && withsOk l
end

/-- Whether the last statement is a `with` for a file that has been opened, and the other ones are of this form. -/
def endsWithOpen (l : List Stmt) : Bool :=
  match l.getLast? with
  | some (.withAs (.call (.name "open") _ _) _ b) => withsOk b && withsOk l.dropLast
  | _ => false

/-- Whether an assignment to an attribute assigns to one of the permitted attributes of `self`. -/
def Target.storeOk (self : String) (ok : String → Bool) : Target → Bool
  | .attr (.name x) a => x == self && ok a
  | .attr _ _ => false
  | _ => true

mutual
/-- Whether the assignments to attributes in a statement are such. -/
def Stmt.storesOk (self : String) (ok : String → Bool) : Stmt → Bool
  | .assign t _ => t.storeOk self ok
  | .aug t _ _ => t.storeOk self ok
  | .del t => t.storeOk self fun _ => false
  | .ite _ a b => allStoresOk self ok a && allStoresOk self ok b
  | .while _ b => allStoresOk self ok b
  | .for _ _ b => allStoresOk self ok b
  | .withAs _ _ b => allStoresOk self ok b
  | .defn _ _ _ b => allStoresOk self ok b
  | _ => true

/-- Whether the assignments to attributes in some statements are such. -/
def allStoresOk (self : String) (ok : String → Bool) : List Stmt → Bool
  | [] => true
  | s :: l => s.storesOk self ok && allStoresOk self ok l
end

/-- Whether a function assigns only to the permitted attributes of its first parameter, which it never binds again; functions
that are no methods of an object assign to none. -/
def FunDef.storesOk (ok : String → Bool) (f : FunDef) : Bool :=
  match f.deco, f.params with
  | .plain, (self, _) :: _ => allStoresOk self ok f.body && !(bindsOf f.body).contains self
  | _, _ => allStoresOk "" (fun _ => false) f.body

/-- Whether a string is an identifier of ASCII characters. -/
def isIdentifier (s : String) : Bool :=
  match s.toList with
  | [] => false
  | c :: l => (c.isAlpha || c == '_') && l.all fun c => c.isAlphanum || c == '_'

/-- Whether the assignments to attributes in the methods of a class are possible: with `__slots__` they must be in it, and
otherwise not the name of a method; `__slots__` has only identifiers, which are no names of methods. -/
def ClassDef.storesOk (c : ClassDef) : Bool :=
  let names := c.methods.map FunDef.name
  match c.slots with
  | some l => l.all (fun x => isIdentifier x && !names.contains x) && c.methods.all (FunDef.storesOk l.contains)
  | none => c.methods.all (FunDef.storesOk fun x => !names.contains x && c.fields.isEmpty)

/-- Whether two lists have no common element. -/
def disjointNames (a b : List String) : Bool := a.all fun x => !b.contains x

/-- The nested functions of a body, `params` being the parameters of the function, `all` the names it binds and `before` those
it has bound so far. The definitions are not inside of other statements. A variable of the function that a nested function uses
is a parameter that is never bound again, or `nonlocal`; a variable of the nested function is not also one of the function that
is bound before the definition. -/
def nestedOk (params all : List String) : List String → List Stmt → Bool
  | _, [] => true
  | before, .defn f ps nl body :: l =>
    let own := (ps.map Prod.fst) ++ (bindsOf body).filter (fun x => !nl.contains x)
    let used := (stmtNames body).filter fun x => !own.contains x && !nl.contains x && x != f
    !hasDefs body && disjointNames own (f :: before) && nl.all before.contains &&
      (used.all fun x => if params.contains x then !all.contains x && !(bindsOf body).contains x else !all.contains x) &&
      (exprNames (ps.map Prod.snd)).isEmpty && nestedOk params all (f :: before) l
  | before, s :: l => !s.hasDef && nestedOk params all (s.binds ++ before) l

/-- A function: its variables are not names of the module or built-in names, and the rules for nested functions and `with`. -/
def FunDef.supported (P : Program) (f : FunDef) : Bool :=
  let params := f.params.map Prod.fst
  let globals := match P.modules.find? fun m => m.name == f.mod with
    | some m => m.names.map Prod.fst ++ bindsOf m.init
    | none => []
  (bindsOf f.body).all (fun x => !globals.contains x && (builtinName x).isNone) &&
    nestedOk params (bindsOf f.body) params f.body && (withsOk f.body || endsWithOpen f.body)

/-- The special methods the evaluator calls. -/
def specialMethods : List String := ["__init__", "__str__", "__repr__", "__len__", "__iter__", "__abs__", "__eq__", "__lt__",
  "__le__", "__gt__", "__ge__", "__add__", "__sub__", "__mul__", "__truediv__", "__floordiv__", "__mod__", "__pow__", "__and__",
  "__or__", "__lshift__", "__rshift__"]

/-- A class: its special methods are known, no method is defined twice, the assignments to attributes are possible, and it inherits
nothing but the fact of being an instance or an exception. -/
def ClassDef.supported (P : Program) (c : ClassDef) : Bool :=
  (c.methods.all fun f => f.supported P && (!isSpecial f.name || specialMethods.contains f.name)) &&
    decide (c.methods.map FunDef.name).Nodup && c.storesOk && c.bases.all fun b => b == "Exception" || P.classes.any fun d =>
      d.name == b && d.mod == c.mod && d.methods.isEmpty && d.fields.isEmpty

/-- A program the evaluator is meant for; no name of a module is bound by two imports, functions or classes, or by one of
these and an assignment, nor is the name of a decorator; attributes are assigned to in methods only. -/
def Program.supported (P : Program) : Bool :=
  P.classes.all (fun c => c.supported P) &&
    (P.modules.all fun m => decide (m.names.map Prod.fst).Nodup && disjointNames (m.names.map Prod.fst) (bindsOf m.init) && withsOk m.init && !hasDefs m.init &&
      disjointNames ["property", "classmethod", "staticmethod"] (m.names.map Prod.fst ++ bindsOf m.init) &&
      allStoresOk "" (fun _ => false) m.init && m.names.all fun g => match g.2 with
      | .func f => f.supported P && allStoresOk "" (fun _ => false) f.body
      | _ => true) &&
    decide (P.classes.map ClassDef.name).Nodup && decide (P.modules.map Module.name).Nodup

end Melodia.Python
