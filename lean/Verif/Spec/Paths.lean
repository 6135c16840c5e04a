/-
Paths through the body of a function: every order in which its statements can be executed, whatever its conditions, iterables and
calls give, with the variables that are read and written on the way. Conditions are not evaluated, so that every execution of the
function is one of these paths; a path may end at every expression, with an exception.
-/
import Verif.Python.Imports

set_option autoImplicit false

namespace Melodia

open Melodia.Python

/-- What happens to a variable. -/
inductive VarEvent where
  | read (x : String)
  | write (x : String)
  /-- `del x` -/
  | unset (x : String)
  deriving DecidableEq, Repr

/-- How a path ends: behind the last statement, at `break` or `continue`, at `return`, or with an exception. -/
inductive Out where
  | next | brk | cont | ret | raised
  deriving DecidableEq, Repr

/-- Any reads of these variables, in any order and number: evaluating an expression, or a part of it, that needs them. -/
def Evaluates (l : List String) (t : List VarEvent) : Prop := ∀ e ∈ t, ∃ x ∈ l, e = .read x

/-- What is evaluated first when a statement is executed. A nested function is counted as reading its variables when it is
defined: what is assigned then is assigned at every call. -/
def headNeedsOf : Stmt → List String
  | .ite c _ _ => c.needs
  | .while c _ => c.needs
  | .for _ it _ => it.needs
  | .withAs e _ _ => e.needs
  | .defn f ps nl b => without [f] (Stmt.defn f ps nl b).needs
  | s => s.needs

mutual
/-- The paths through a statement. -/
inductive Path : Stmt → List VarEvent → Out → Prop where
  | fails (s : Stmt) (t : List VarEvent) (h : Evaluates (headNeedsOf s) t) : Path s t .raised
  | expr (e : Expr) (t : List VarEvent) (h : Evaluates e.needs t) : Path (.expr e) t .next
  | assign (g : Target) (e : Expr) (t : List VarEvent) (h : Evaluates (g.needs ++ e.needs) t) :
      Path (.assign g e) (t ++ g.binds.map .write) .next
  | aug (g : Target) (op : BinOp) (e : Expr) (t : List VarEvent) (h : Evaluates (g.binds ++ g.needs ++ e.needs) t) :
      Path (.aug g op e) (t ++ g.binds.map .write) .next
  | ret (e : Expr) (t : List VarEvent) (h : Evaluates e.needs t) : Path (.ret e) t .ret
  | then (c : Expr) (a b : List Stmt) (t u : List VarEvent) (o : Out) (h : Evaluates c.needs t) (hu : Paths a u o) :
      Path (.ite c a b) (t ++ u) o
  | else (c : Expr) (a b : List Stmt) (t u : List VarEvent) (o : Out) (h : Evaluates c.needs t) (hu : Paths b u o) :
      Path (.ite c a b) (t ++ u) o
  | whileEnd (c : Expr) (b : List Stmt) (t : List VarEvent) (h : Evaluates c.needs t) (hc : c ≠ .bool true) : Path (.while c b) t .next
  | whileBreak (c : Expr) (b : List Stmt) (t u : List VarEvent) (h : Evaluates c.needs t) (hu : Paths b u .brk) :
      Path (.while c b) (t ++ u) .next
  | whileLeave (c : Expr) (b : List Stmt) (t u : List VarEvent) (o : Out) (h : Evaluates c.needs t) (hu : Paths b u o)
      (ho : o = .ret ∨ o = .raised) : Path (.while c b) (t ++ u) o
  | whileAgain (c : Expr) (b : List Stmt) (t u v : List VarEvent) (o o' : Out) (h : Evaluates c.needs t) (hu : Paths b u o)
      (ho : o = .next ∨ o = .cont) (hv : Path (.while c b) v o') : Path (.while c b) (t ++ u ++ v) o'
  | forEnd (p : Pat) (it : Expr) (b : List Stmt) (t : List VarEvent) (h : Evaluates it.needs t) : Path (.for p it b) t .next
  | forBreak (p : Pat) (it : Expr) (b : List Stmt) (t u : List VarEvent) (h : Evaluates it.needs t) (hu : Paths b u .brk) :
      Path (.for p it b) (t ++ p.names.map .write ++ u) .next
  | forLeave (p : Pat) (it : Expr) (b : List Stmt) (t u : List VarEvent) (o : Out) (h : Evaluates it.needs t) (hu : Paths b u o)
      (ho : o = .ret ∨ o = .raised) : Path (.for p it b) (t ++ p.names.map .write ++ u) o
  | forAgain (p : Pat) (it : Expr) (b : List Stmt) (t u v : List VarEvent) (o o' : Out) (h : Evaluates it.needs t) (hu : Paths b u o)
      (ho : o = .next ∨ o = .cont) (hv : Path (.for p it b) v o') : Path (.for p it b) (t ++ p.names.map .write ++ u ++ v) o'
  | assert (e : Expr) (t : List VarEvent) (h : Evaluates e.needs t) : Path (.assert e) t .next
  | del (g : Target) (t : List VarEvent) (h : Evaluates (g.binds ++ g.needs) t) : Path (.del g) (t ++ g.binds.map .unset) .next
  | withAs (e : Expr) (x : String) (b : List Stmt) (t u : List VarEvent) (o : Out) (h : Evaluates e.needs t) (hu : Paths b u o) :
      Path (.withAs e x b) (t ++ .write x :: u) o
  | defn (f : String) (ps : List (String × Expr)) (nl : List String) (b : List Stmt) (t : List VarEvent)
      (h : Evaluates (headNeedsOf (.defn f ps nl b)) t) : Path (.defn f ps nl b) (t ++ [.write f]) .next
  | yield (e : Expr) (t : List VarEvent) (h : Evaluates e.needs t) : Path (.yield e) t .next
  | pass : Path .pass [] .next
  | break : Path .break [] .brk
  | continue : Path .continue [] .cont

/-- The paths through some statements. -/
inductive Paths : List Stmt → List VarEvent → Out → Prop where
  | nil : Paths [] [] .next
  | cons (s : Stmt) (l : List Stmt) (t u : List VarEvent) (o : Out) (ht : Path s t .next) (hu : Paths l u o) : Paths (s :: l) (t ++ u) o
  | leave (s : Stmt) (l : List Stmt) (t : List VarEvent) (o : Out) (ht : Path s t o) (ho : o ≠ .next) : Paths (s :: l) t o
end

/-- After these events, the variable has a value. -/
def HasValue (x : String) (t : List VarEvent) : Prop := ∃ u v, t = u ++ .write x :: v ∧ .unset x ∉ v

/-- The variables `xs` are only read when they have a value. -/
def ReadsAssigned (xs : List String) (t : List VarEvent) : Prop :=
  ∀ u v x, t = u ++ .read x :: v → x ∈ xs → HasValue x u

namespace Python

mutual
/-- The functions defined in a statement, with the variables that belong to them: parameters, own variables, body. -/
def Stmt.nested : Stmt → List (List String × List String × List Stmt)
  | .ite _ a b => nestedIn a ++ nestedIn b
  | .while _ b => nestedIn b
  | .for _ _ b => nestedIn b
  | .withAs _ _ b => nestedIn b
  | .defn _ ps nl b => (ps.map Prod.fst, ps.map Prod.fst ++ without nl (bindsOf b), b) :: nestedIn b
  | _ => []

/-- The functions defined in some statements. -/
def nestedIn : List Stmt → List (List String × List String × List Stmt)
  | [] => []
  | s :: l => s.nested ++ nestedIn l
end

/-- A function with those nested in it: parameters, variables, body. -/
def FunDef.scopes (f : FunDef) : List (List String × List String × List Stmt) :=
  (f.params.map Prod.fst, f.params.map Prod.fst ++ bindsOf f.body, f.body) :: nestedIn f.body

mutual
/-- The values a function may return: the expressions behind `return`. -/
def Stmt.returned : Stmt → List Expr
  | .ret e => [e]
  | .ite _ a b => returnedIn a ++ returnedIn b
  | .while _ b => returnedIn b
  | .for _ _ b => returnedIn b
  | .withAs _ _ b => returnedIn b
  | _ => []

/-- The values some statements may return. -/
def returnedIn : List Stmt → List Expr
  | [] => []
  | s :: l => s.returned ++ returnedIn l
end

end Python

end Melodia
