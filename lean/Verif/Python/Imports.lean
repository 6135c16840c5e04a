/-
Importing modules, given by their text (Language Reference 5 and 7.11): what a module needs and binds while it is executed, and
the search for modules, including modules that are only partly executed because they import each other.

Names are followed, not values: a definition needs the names in its annotations, default values, decorators and base classes,
another statement the names that occur in it. Statements that use a function or a class of the program are not described.
-/
import Verif.Python.Parser
import Verif.Python.Supported

set_option autoImplicit false

namespace Melodia.Python

/-- A statement of a module, as far as importing is concerned. -/
inductive Step where
  /-- `import m` -/
  | load (m : String)
  /-- `from m import x` -/
  | take (m x : String)
  /-- A definition of `x`, with the names it needs. -/
  | define (needs : List String) (x : String)
  /-- Another statement, with the names it needs and those it binds. -/
  | eval (needs binds : List String)
  deriving DecidableEq, Repr

/-- The names of `l` that are not in `bound`. -/
def without (bound l : List String) : List String := l.filter fun x => !bound.contains x

mutual
/-- The names that must be bound to evaluate an expression. -/
def Expr.needs : Expr → List String
  | .name x => [x]
  | .attr e _ => e.needs
  | .index e i => e.needs ++ i.needs
  | .slice e lo hi => e.needs ++ lo.needs ++ hi.needs
  | .call f args _ => f.needs ++ allNeeds args
  | .star e => e.needs
  | .bin _ a b => a.needs ++ b.needs
  | .un _ a => a.needs
  | .and a b => a.needs ++ b.needs
  | .or a b => a.needs ++ b.needs
  | .cmp a _ l => a.needs ++ allNeeds l
  | .cond c a b => c.needs ++ a.needs ++ b.needs
  | .tuple l => allNeeds l
  | .list l => allNeeds l
  | .dict ks vs => allNeeds ks ++ allNeeds vs
  | .fstr l => allNeeds l
  | .field e _ => e.needs
  | .comp e p it => it.needs ++ without p.names e.needs
  | .genExp e p it => it.needs ++ without p.names e.needs
  | .dictComp k v p it => it.needs ++ without p.names (k.needs ++ v.needs)
  | _ => []

/-- The names that must be bound to evaluate expressions. -/
def allNeeds : List Expr → List String
  | [] => []
  | e :: l => e.needs ++ allNeeds l
end

/-- The names that must be bound to assign to a target. -/
def Target.needs : Target → List String
  | .attr e _ => e.needs
  | .index e i => e.needs ++ i.needs
  | _ => []

mutual
/-- The names a statement needs, including those that it binds itself. -/
def Stmt.needs : Stmt → List String
  | .expr e => e.needs
  | .assign t e => t.needs ++ e.needs
  | .aug t _ e => t.binds ++ t.needs ++ e.needs
  | .ret e => e.needs
  | .ite c a b => c.needs ++ blockNeeds a ++ blockNeeds b
  | .while c b => c.needs ++ blockNeeds b
  | .for p it b => it.needs ++ without p.names (blockNeeds b)
  | .raise e => e.needs
  | .assert e => e.needs
  | .del t => t.binds ++ t.needs
  | .withAs e x b => e.needs ++ without [x] (blockNeeds b)
  | .defn _ ps nl b => allNeeds (ps.map Prod.snd) ++ nl ++ without (ps.map Prod.fst ++ without nl (bindsOf b)) (blockNeeds b)
  | .yield e => e.needs
  | _ => []

/-- The names some statements need. -/
def blockNeeds : List Stmt → List String
  | [] => []
  | s :: l => s.needs ++ blockNeeds l
end

/-- The names a function takes from outside: needed, but neither parameters nor bound in it. -/
def FunDef.needs (f : FunDef) : List String := without (f.params.map Prod.fst ++ bindsOf f.body) (blockNeeds f.body)

mutual
/-- The attributes `y.x` of names in an expression. -/
def Expr.attrs : Expr → List (String × String)
  | .attr (.name y) x => [(y, x)]
  | .attr e _ => e.attrs
  | .index e i => e.attrs ++ i.attrs
  | .slice e lo hi => e.attrs ++ lo.attrs ++ hi.attrs
  | .call f args _ => f.attrs ++ allAttrs args
  | .star e => e.attrs
  | .bin _ a b => a.attrs ++ b.attrs
  | .un _ a => a.attrs
  | .and a b => a.attrs ++ b.attrs
  | .or a b => a.attrs ++ b.attrs
  | .cmp a _ l => a.attrs ++ allAttrs l
  | .cond c a b => c.attrs ++ a.attrs ++ b.attrs
  | .tuple l => allAttrs l
  | .list l => allAttrs l
  | .dict ks vs => allAttrs ks ++ allAttrs vs
  | .fstr l => allAttrs l
  | .field e _ => e.attrs
  | .comp e _ it => it.attrs ++ e.attrs
  | .genExp e _ it => it.attrs ++ e.attrs
  | .dictComp k v _ it => it.attrs ++ k.attrs ++ v.attrs
  | _ => []

/-- The attributes of names in expressions. -/
def allAttrs : List Expr → List (String × String)
  | [] => []
  | e :: l => e.attrs ++ allAttrs l
end

/-- The attributes of names in a target. -/
def Target.attrs : Target → List (String × String)
  | .attr (.name y) x => [(y, x)]
  | .attr e _ => e.attrs
  | .index e i => e.attrs ++ i.attrs
  | _ => []

mutual
/-- The attributes of names in a statement. -/
def Stmt.attrs : Stmt → List (String × String)
  | .expr e => e.attrs
  | .assign t e => t.attrs ++ e.attrs
  | .aug t _ e => t.attrs ++ e.attrs
  | .ret e => e.attrs
  | .ite c a b => c.attrs ++ blockAttrs a ++ blockAttrs b
  | .while c b => c.attrs ++ blockAttrs b
  | .for _ it b => it.attrs ++ blockAttrs b
  | .raise e => e.attrs
  | .assert e => e.attrs
  | .del t => t.attrs
  | .withAs e _ b => e.attrs ++ blockAttrs b
  | .defn _ ps _ b => allAttrs (ps.map Prod.snd) ++ blockAttrs b
  | .yield e => e.attrs
  | _ => []

/-- The attributes of names in statements. -/
def blockAttrs : List Stmt → List (String × String)
  | [] => []
  | s :: l => s.attrs ++ blockAttrs l
end

/-- The names in an annotation, if there is one after the operator `o`. -/
def annotation (o : List Nat) (ts : List Tok) : List String :=
  match takeOp o ts with
  | some ts => match expr ts with
    | some (e, _) => e.needs
    | none => []
  | none => []

/-- The names in the annotations of parameters; the parameters are separated by commas. -/
def parameterNeeds : Nat → List Tok → List String
  | 0, _ => []
  | n + 1, ts => match parameter ts, identifier ts with
    | some ((_, d), rest), some (_, ts) =>
      annotation c!":" ts ++ (match d with
        | some d => d.needs
        | none => []) ++
      (match takeOp c!"," rest with
        | some rest => parameterNeeds n rest
        | none => [])
    | _, _ => []

/-- What follows the closing bracket of the parameters. -/
def afterParameters (n : Nat) (ts : List Tok) : List Tok :=
  match n with
  | 0 => ts
  | n + 1 => match takeOp c!")" ts with
    | some ts => ts
    | none => match parameter ts with
      | some (_, ts) => match takeOp c!"," ts with
        | some ts => afterParameters n ts
        | none => afterParameters n ts
      | none => ts

/-- The names needed by a function definition, after `def`: those in its annotations and default values. -/
def headNeeds (ts : List Tok) : List String :=
  match identifier ts with
  | some (_, ts) => match takeOp c!"(" ts with
    | some ts => parameterNeeds ts.length ts ++ annotation c!"->" (afterParameters ts.length ts)
    | none => []
  | none => []

/-- The names needed by an element of the body of a class. -/
def memberNeeds (ts : List Tok) : List String :=
  match takeWord c!"def" ts with
  | some ts => headNeeds ts
  | none => match decorator ts with
    | some ((d, _), ts) => strOf d :: (match takeWord c!"def" ts with
      | some ts => headNeeds ts
      | none => [])
    | none => match identifier ts with
      | some (_, ts) => annotation c!":" ts
      | none => []

/-- The names needed by the body of a class. -/
def membersNeeds (m : String) : Nat → List Tok → List String
  | 0, _ => []
  | n + 1, ts => match member m ts with
    | some (_, rest) => memberNeeds ts ++ membersNeeds m n rest
    | none => []

/-- The names needed by a class definition with the given bases, after `class`: the bases and what its body needs. -/
def classNeeds (m : String) (bases : List String) (ts : List Tok) : List String :=
  bases ++ (match identifier ts with
    | some (_, ts) =>
      let ts := match takeOp c!"(" ts with
        | some ts => match sepBy identifier c!"," (ts.length + 1) ts with
          | some (_, ts) => match takeOp c!")" ts with
            | some ts => ts
            | none => ts
          | none => ts
        | none => ts
      match opening ts with
      | some ts => membersNeeds m ts.length ts
      | none => []
    | none => [])

/-- The steps of one statement of the module `m`, which begins with the tokens `ts`. -/
def Item.steps (m : String) (ts : List Tok) : Item → List Step
  | .imports l => l.map fun g => match g.2 with
    | .module p => if p == g.1 then .load p else .take m g.1
    | .imported p x => .take p x
    | _ => .load g.1
  | .func f => match takeWord c!"def" ts with
    | some ts => [.define (headNeeds ts) f.name]
    | none => []
  | .cls c => match takeWord c!"class" ts with
    | some ts => [.define (classNeeds m c.bases ts) c.name]
    | none => match decorator ts with
      | some ((d, _), ts) => match takeWord c!"class" ts with
        | some ts => [.define (strOf d :: classNeeds m c.bases ts) c.name]
        | none => []
      | none => []
  | .stmt s => [.eval (s.needs ++ (match identifier ts with
      | some (_, ts) => annotation c!":" ts
      | none => [])) s.binds]
  | .nothing => []

/-- The steps of the statements of a module, at most `n`. -/
def stepsOf (m : String) (package : Bool) : Nat → List Tok → Option (List Step)
  | 0, _ => none
  | _ + 1, [] => some []
  | n + 1, ts => match item m package ts with
    | some (x, rest) => match stepsOf m package n rest with
      | some l => some (x.steps m ts ++ l)
      | none => none
    | none => none

/-- The steps of a module, given by its lines. -/
def moduleSteps (m : String) (package : Bool) (lines : List String) : Option (List Step) :=
  match tokens lines with
  | some ts => stepsOf m package (ts.length + 1) ts
  | none => none

/-! ## Execution -/

/-- What a name is bound to. -/
inductive Bound where
  | module (m : String)
  /-- a function or class defined as `x` in the module `m` -/
  | defined (m x : String)
  /-- a variable `x` of the module `m` -/
  | var (m x : String)
  /-- a name of the standard library -/
  | std (m x : String)
  deriving DecidableEq, Repr

/-- The modules whose execution has begun, with the names they have bound so far. -/
abbrev Loaded := List (String × List (String × Bound))

/-- Why an import fails. -/
inductive ImportError where
  | noModule (m : String)
  | noName (m x : String)
  | unbound (m x : String)
  | notDescribed
  deriving DecidableEq, Repr

/-- The modules of the standard library with the names used from them. -/
def stdlib : List (String × List String) := [
  ("collections", ["defaultdict"]), ("dataclasses", ["dataclass"]), ("heapq", ["heappush"]), ("io", ["BytesIO"]), ("math", ["sqrt"]),
  ("operator", ["itemgetter"]), ("random", ["gauss"]), ("re", ["compile"]),
  ("typing", ["BinaryIO", "Dict", "Generator", "Iterable", "List", "Optional", "Sequence", "Tuple", "Union"])]

/-- Built-in names. -/
def builtins : List String := ["Exception", "TypeError", "ValueError", "abs", "bool", "bytes", "classmethod", "float", "int",
  "isinstance", "iter", "len", "list", "max", "min", "open", "property", "range", "repr", "staticmethod", "str", "sum", "zip"]

def Loaded.names (L : Loaded) (m : String) : List (String × Bound) := (Dict.get L m).getD []

/-- Bind a name in a module. -/
def Loaded.bind (L : Loaded) (m x : String) (b : Bound) : Loaded := Dict.set L m (Dict.set (L.names m) x b)

/-- Split a dotted name: the part before the last dot, and the rest. -/
def parentOf (m : String) : Option (String × String) :=
  let l := m.toList.reverse
  let last := l.takeWhile (· != '.')
  match l.dropWhile (· != '.') with
  | [] => none
  | _ :: rest => some (String.ofList rest.reverse, String.ofList last.reverse)

/-- The first part of a dotted name. -/
def firstOf (m : String) : String := String.ofList (m.toList.takeWhile (· != '.'))

/-- A name that a statement of `m` needs: bound in `m` or built in. -/
def Loaded.has (L : Loaded) (m x : String) : Bool := (Dict.get (L.names m) x).isSome || builtins.contains x

/-- The first of some names that is not bound. -/
def Loaded.missing (L : Loaded) (m : String) (l : List String) : Option String := l.find? fun x => !L.has m x

/-- The files of a program: modules and packages with their steps. -/
abbrev Files := List (String × Bool × List Step)

mutual
/-- Import a module: its packages first, then the module itself, unless its execution has begun; when it is complete, it is bound
in its package. -/
def importModule (F : Files) : Nat → Loaded → String → Except ImportError Loaded
  | 0, _, _ => .error .notDescribed
  | n + 1, L, m =>
    if (Dict.get L m).isSome then .ok L
    else match parentOf m with
      | none => match Dict.get F m with
        | some (_, steps) => runSteps F n (Dict.set L m []) m steps
        | none => if (Dict.get stdlib m).isSome then .ok L else .error (.noModule m)
      | some (p, x) => match importModule F n L p with
        | .ok L =>
          if (Dict.get L m).isSome then .ok L
          else match Dict.get F m, Dict.get F p with
            | some (_, steps), some (true, _) => match runSteps F n (Dict.set L m []) m steps with
              | .ok L => .ok (L.bind p x (.module m))
              | .error e => .error e
            | _, _ => .error (.noModule m)
        | .error e => .error e

/-- Execute the steps of the module `m`. -/
def runSteps (F : Files) : Nat → Loaded → String → List Step → Except ImportError Loaded
  | 0, _, _, _ => .error .notDescribed
  | _ + 1, L, _, [] => .ok L
  | n + 1, L, m, s :: l => match runStep F n L m s with
    | .ok L => runSteps F n L m l
    | .error e => .error e

/-- What `from p import x` gives: a name of `p`, or else a module of the package `p`. -/
def importName (F : Files) : Nat → Loaded → String → String → Except ImportError (Bound × Loaded)
  | 0, _, _, _ => .error .notDescribed
  | n + 1, L, p, x => match importModule F n L p with
    | .error e => .error e
    | .ok L => match Dict.get F p with
      | none => if ((Dict.get stdlib p).getD []).contains x then .ok (.std p x, L) else .error (.noName p x)
      | some (package, _) => match Dict.get (L.names p) x with
        | some b => .ok (b, L)
        | none =>
          if package && (Dict.get F (p ++ "." ++ x)).isSome then match importModule F n L (p ++ "." ++ x) with
            | .ok L => .ok (.module (p ++ "." ++ x), L)
            | .error e => .error e
          else .error (.noName p x)

/-- Execute one step of the module `m`. -/
def runStep (F : Files) : Nat → Loaded → String → Step → Except ImportError Loaded
  | 0, _, _, _ => .error .notDescribed
  | n + 1, L, m, .load p => match importModule F n L p with
    | .ok L => .ok (L.bind m (firstOf p) (.module (firstOf p)))
    | .error e => .error e
  | n + 1, L, m, .take p x => match importName F n L p x with
    | .ok (b, L) => .ok (L.bind m x b)
    | .error e => .error e
  | _ + 1, L, m, .define needs x => match L.missing m needs with
    | some y => .error (.unbound m y)
    | none => .ok (L.bind m x (.defined m x))
  | _ + 1, L, m, .eval needs binds => match L.missing m needs with
    | some y => .error (.unbound m y)
    | none =>
      if needs.any fun y => match Dict.get (L.names m) y with
        | some (.defined _ _) => true
        | _ => false
      then .error .notDescribed
      else .ok (binds.foldl (fun L x => L.bind m x (.var m x)) L)
end

/-- The functions of a program, methods included. -/
def Program.functions (P : Program) : List FunDef :=
  P.modules.flatMap (fun m => m.names.filterMap fun g => match g.2 with
    | .func f => some f
    | _ => none) ++ P.classes.flatMap ClassDef.methods

/-- The value of `__all__` in a module. -/
def Module.exports (d : Module) : Option (List String) :=
  d.init.findSome? fun s => match s with
    | .assign (.name "__all__") (.list l) => stringsOf l
    | _ => none

end Melodia.Python
