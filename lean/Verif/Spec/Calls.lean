/-
Vocabulary for statements about the calls in the program: where they are, which functions of the program they can reach, and when the
arguments fit the parameters (Language Reference 6.3.4).
-/
import Verif.Python.Imports
import Verif.Python.Semantics

set_option autoImplicit false

namespace Melodia.Python

/-- A call: what is called, the arguments, and the names of the keyword arguments, which are the last ones. -/
structure Call where
  callee : Expr
  args : List Expr
  kws : List String

mutual
/-- The calls in an expression. -/
def Expr.calls : Expr → List Call
  | .attr e _ => e.calls
  | .index e i => e.calls ++ i.calls
  | .slice e lo hi => e.calls ++ lo.calls ++ hi.calls
  | .call f args kws => ⟨f, args, kws⟩ :: f.calls ++ allCalls args
  | .star e => e.calls
  | .bin _ a b => a.calls ++ b.calls
  | .un _ a => a.calls
  | .and a b => a.calls ++ b.calls
  | .or a b => a.calls ++ b.calls
  | .cmp a _ l => a.calls ++ allCalls l
  | .cond c a b => c.calls ++ a.calls ++ b.calls
  | .tuple l => allCalls l
  | .list l => allCalls l
  | .dict ks vs => allCalls ks ++ allCalls vs
  | .fstr l => allCalls l
  | .field e _ => e.calls
  | .comp e _ it => it.calls ++ e.calls
  | .genExp e _ it => it.calls ++ e.calls
  | .dictComp k v _ it => it.calls ++ k.calls ++ v.calls
  | _ => []

/-- The calls in expressions. -/
def allCalls : List Expr → List Call
  | [] => []
  | e :: l => e.calls ++ allCalls l
end

/-- The calls in a target. -/
def Target.calls : Target → List Call
  | .attr e _ => e.calls
  | .index e i => e.calls ++ i.calls
  | _ => []

mutual
/-- The calls in a statement. -/
def Stmt.calls : Stmt → List Call
  | .expr e => e.calls
  | .assign t e => t.calls ++ e.calls
  | .aug t _ e => t.calls ++ e.calls
  | .ret e => e.calls
  | .ite c a b => c.calls ++ blockCalls a ++ blockCalls b
  | .while c b => c.calls ++ blockCalls b
  | .for _ it b => it.calls ++ blockCalls b
  | .raise e => e.calls
  | .assert e => e.calls
  | .del t => t.calls
  | .withAs e _ b => e.calls ++ blockCalls b
  | .defn _ ps _ b => allCalls (ps.map Prod.snd) ++ blockCalls b
  | .yield e => e.calls
  | _ => []

/-- The calls in statements. -/
def blockCalls : List Stmt → List Call
  | [] => []
  | s :: l => s.calls ++ blockCalls l
end

mutual
/-- The functions defined in a statement: name and parameters. -/
def Stmt.defns : Stmt → List (String × List (String × Expr))
  | .ite _ a b => blockDefns a ++ blockDefns b
  | .while _ b => blockDefns b
  | .for _ _ b => blockDefns b
  | .withAs _ _ b => blockDefns b
  | .defn f ps _ b => (f, ps) :: blockDefns b
  | _ => []

/-- The functions defined in statements. -/
def blockDefns : List Stmt → List (String × List (String × Expr))
  | [] => []
  | s :: l => s.defns ++ blockDefns l
end

/-- The parameters and variables of a function. -/
def FunDef.locals (f : FunDef) : List String := f.params.map Prod.fst ++ bindsOf f.body

/-- The calls a function makes, with the names that are not those of the module: the calls in its body, and those in the default values of
its parameters. -/
def FunDef.sites (f : FunDef) : List (List String × Call) :=
  (blockCalls f.body).map (fun c => (f.locals, c)) ++ (allCalls (f.params.filterMap Prod.snd)).map (fun c => ([], c))

/-- Parameters: their names, and their default values. -/
abbrev Params := List (String × Option Expr)

/-- What a class takes when it is called: the parameters of `__init__` without the object, or the fields of a data class. With the
module of the class. -/
inductive ClassTakes (P : Program) : String → String → Params → Prop where
  | init {c : String} {i : FunDef} (h : P.method c "__init__" = some i) : ClassTakes P c i.mod i.params.tail
  | fields {c : String} {d : ClassDef} (h : P.classOf c = some d) (hi : P.method c "__init__" = none) (hb : d.bases = []) :
      ClassTakes P c d.mod (d.fields.map fun x => (x, none))

/-- The names of a function's module, where they are not hidden by names of the function. -/
def Visible (L : Loaded) (m : String) (hidden : List String) (x : String) (b : Bound) : Prop :=
  x ∉ hidden ∧ Dict.get (L.names m) x = some b

/-- The expression is the name of a class of the program or of a module. -/
def IsClassOrModule (L : Loaded) (m : String) (hidden : List String) (e : Expr) : Prop :=
  ∃ x, e = .name x ∧ ((∃ p, Visible L m hidden x (.module p)) ∨ ∃ m' c, Visible L m hidden x (.defined m' c))

/-- The functions of the program a callee in the function `f` can stand for, by their module and the parameters they
take. A method of an object can be that of any class with a method of this name. -/
inductive Reaches (P : Program) (L : Loaded) (f : FunDef) (hidden : List String) : Expr → String → Params → Prop where
  /-- a function of the program -/
  | func {x m : String} {y : String} {g : FunDef} (h : Visible L f.mod hidden x (.defined m y)) (hg : P.func m y = some g) :
      Reaches P L f hidden (.name x) g.mod g.params
  /-- a class of the program -/
  | cls {x m k : String} {y : String} {ps : Params} (h : Visible L f.mod hidden x (.defined m y)) (hc : ClassTakes P y k ps) :
      Reaches P L f hidden (.name x) k ps
  /-- the class in a class method -/
  | self {x k : String} {d : Option Expr} {r ps : Params} {c : ClassDef} (h : f.params = (x, d) :: r) (hf : f.deco = .classmethod)
      (hm : c ∈ P.classes) (hfm : f ∈ c.methods) (hc : ClassTakes P c.name k ps) : Reaches P L f hidden (.name x) k ps
  /-- a function defined in the function -/
  | nested {x : String} {ps : List (String × Expr)} (h : (x, ps) ∈ blockDefns f.body) :
      Reaches P L f hidden (.name x) f.mod (ps.map fun p => (p.1, some p.2))
  /-- a function of a module -/
  | attr {x m a : String} {g : FunDef} (h : Visible L f.mod hidden x (.module m)) (hg : P.func m a = some g) :
      Reaches P L f hidden (.attr (.name x) a) g.mod g.params
  /-- a method of a class: without the class it belongs to if it is a class method -/
  | method {x m c a : String} {g : FunDef} (h : Visible L f.mod hidden x (.defined m c)) (hg : P.method c a = some g) :
      Reaches P L f hidden (.attr (.name x) a) g.mod (if g.deco = .classmethod then g.params.tail else g.params)
  /-- a method of an object: without the object, or the class it belongs to -/
  | bound {e : Expr} {a : String} {c : ClassDef} {g : FunDef} (h : ¬ IsClassOrModule L f.mod hidden e) (hc : c ∈ P.classes)
      (hg : g ∈ c.methods) (ha : g.name = a) :
      Reaches P L f hidden (.attr e a) g.mod (if g.deco = .staticmethod then g.params else g.params.tail)

/-- Arguments fit parameters: not more by position than there are parameters; no keyword twice; every keyword is the name of a parameter
that has no argument by position; every other parameter without an argument has a default value. -/
def Fits (ps : Params) (pos : Nat) (kws : List String) : Prop :=
  pos ≤ ps.length ∧ kws.Nodup ∧ (∀ k ∈ kws, k ∈ (ps.drop pos).map Prod.fst) ∧ ∀ p ∈ ps.drop pos, p.2.isNone → p.1 ∈ kws

instance (ps : Params) (pos : Nat) (kws : List String) : Decidable (Fits ps pos kws) := by unfold Fits; infer_instance

/-- The values parameters get: the arguments by position, then those by keyword, then the default values. -/
def BoundTo (P : Program) (W : World) (env : Env) (ps : Params) (args : List Val) (kws vs : List (String × Val)) : Prop :=
  vs.map Prod.fst = ps.map Prod.fst ∧ ∀ (i : Nat) (x : String) (d : Option Expr), ps[i]? = some (x, d) → ∃ v, vs[i]? = some (x, v) ∧
    match args[i]?, Dict.get kws x with
    | some a, _ => v = a
    | none, some k => v = k
    | none, none => ∃ e, d = some e ∧ evalE P W e env = pure v

/-- No argument is `*e`, so that the number of arguments is known. -/
def Call.plain (c : Call) : Prop := ∀ a ∈ c.args, ∀ e, a ≠ .star e

end Melodia.Python
