/-
Values, memory, and the primitive operations of Python's built-in types, as far as melodia uses them (Python Language
Reference, chapter 3, and Library Reference, "Built-in Types"). Nothing here depends on melodia.
-/
import Verif.Python.Syntax
import Verif.Model.Text
import Mathlib.Data.Int.Bitwise
import Mathlib.Algebra.Order.Ring.Int

set_option autoImplicit false

namespace Melodia.Python

/-- Built-in functions, classes, and functions of the standard library. -/
inductive Builtin where
  | len | abs | int | str | repr | isinstance | max | min | sum | iter | zip | range | list | iterable
  | heappush | bytesIO | itemgetter | defaultdict | reCompile | sqrt | gauss | openFile
  deriving DecidableEq, Repr

/-- Values. Instances of classes whose attributes are assigned in `__init__` only, and objects of immutable built-in types, are
values themselves; the other objects live in memory and are referred to by their address. -/
inductive Val where
  | none
  | bool (b : Bool)
  | int (i : Int)
  | float (x : PyFloat)
  | str (s : List Char)
  | bytes (b : Bytes)
  | tuple (l : List Val)
  /-- A list or dict bound to a name of a module by its initialisation; never changed afterwards. -/
  | constList (l : List Val)
  | constDict (l : List (Val × Val))
  /-- An instance of a class without assignments to attributes outside `__init__`. -/
  | obj (cls : String) (fields : List (String × Val))
  /-- A mutable object. -/
  | ref (a : Nat)
  | cls (c : String)
  | func (mod name : String)
  | builtin (b : Builtin)
  | module (m : String)
  /-- A bound method (of a class of the program or of a built-in type). -/
  | meth (self : Val) (name : String)
  | excClass (e : PyErr)
  | exc (e : PyErr)
  /-- An iterator over the list at an address, at its beginning. -/
  | iter (a : Nat)
  | zip (a b : Val)
  | range (lo hi : Int)
  | dictItems (a : Nat)
  | dictValues (a : Nat)
  | regex (pattern : List Char)
  /-- A match object, by its named groups. -/
  | reMatch (groups : List (String × Val))
  | itemgetter (i : Nat)
  | memoryview (b : Bytes)
  /-- A generator that has not been started: module, body and parameters. -/
  | gen (mod : String) (body : List Stmt) (vars : List (String × Val))
  /-- A nested function with the variables of the enclosing function. -/
  | closure (name : String) (params : List (String × Expr)) (body : List Stmt) (mod : String) (vars : List (String × Val))
  /-- A variable shared with a nested function. -/
  | cell (a : Nat)
  deriving Inhabited

/-- Mutable objects. -/
inductive Obj where
  | list (l : List Val)
  /-- A dict, and whether it is a `defaultdict(list)`. -/
  | dict (l : List (Val × Val)) (dflt : Bool)
  | inst (cls : String) (fields : List (String × Val))
  /-- `io.BytesIO`: contents and position. -/
  | file (data : Bytes) (pos : Nat)
  /-- A file opened for writing text: its name and what has been written. -/
  | text (name s : List Char)
  | cell (v : Val)
  deriving Inhabited

/-- Memory: the mutable objects, and the number of random numbers drawn so far. -/
structure Heap where
  objs : List Obj
  draws : Nat

/-- Result of a computation that ends: a value or an exception, and the memory. -/
inductive Res (α : Type) where
  | ok (a : α) (h : Heap)
  | err (e : PyErr) (h : Heap)

/-- Computations; `none` is one that does not end, or that uses something outside the part of Python described here. -/
def M (α : Type) : Type := Heap → Option (Res α)

instance : Monad M where
  pure a := fun h => some (.ok a h)
  bind x f := fun h => match x h with
    | .none => .none
    | some (.err e h) => some (.err e h)
    | some (.ok a h) => f a h

open Lean.Order in
noncomputable instance (α : Type) : CCPO (M α) := inferInstanceAs (CCPO (Heap → Option (Res α)))

open Lean.Order in
instance : MonoBind M where
  bind_mono_left := by
    intro α β a₁ a₂ f h x
    have := h x
    simp only [bind]
    generalize a₁ x = u at *
    generalize a₂ x = v at *
    cases this with
    | bot => exact FlatOrder.rel.bot
    | refl => exact FlatOrder.rel.refl
  bind_mono_right := by
    intro α β a f₁ f₂ h x
    simp only [bind]
    cases a x with
    | none => exact FlatOrder.rel.refl
    | some r => cases r with
      | ok b h' => exact h b h'
      | err e h' => exact FlatOrder.rel.refl

/-- Raise an exception. -/
def raise {α : Type} (e : PyErr) : M α := fun h => some (.err e h)

/-- Outside the part of Python described here. -/
def stuck {α : Type} : M α := fun _ => .none

/-- A computation without memory. -/
def liftPy {α : Type} : PyM α → M α
  | .ok a => pure a
  | .error e => raise e

/-- `some` value, or stuck. -/
def orStuck {α : Type} : Option α → M α
  | some a => pure a
  | .none => stuck

/-- The object at an address. -/
def load (a : Nat) : M Obj := fun h =>
  match h.objs[a]? with
  | some o => some (.ok o h)
  | .none => .none

/-- Replace the object at an address. -/
def store (a : Nat) (o : Obj) : M Unit := fun h => some (.ok () { h with objs := h.objs.set a o })

/-- Make a new object. -/
def alloc (o : Obj) : M Nat := fun h => some (.ok h.objs.length { h with objs := h.objs ++ [o] })

/-- Assumptions about the surroundings. -/
structure World where
  sort : ListSort
  floatText : FloatText
  digits : UnicodeDigits
  /-- `2 ** x` for a float `x` -/
  powTwo : ℚ → PyM PyFloat
  /-- The `i`-th random number: `random.gauss(mean, std)` -/
  gauss : Nat → PyFloat → PyFloat → PyFloat
  sqrt : PyFloat → PyFloat

/-! ### Numbers -/

/-- The value of an int; bools are ints. -/
def asInt : Val → Option Int
  | .int i => some i
  | .bool b => some (if b then 1 else 0)
  | _ => .none

/-- The exact value of a number. -/
def asNum : Val → Option PyFloat
  | .int i => some (.fin i)
  | .bool b => some (.fin (if b then 1 else 0))
  | .float x => some x
  | _ => .none

/-- Conversion of a number to a float. -/
def toFloat : Val → Option PyFloat
  | .int i => some (.fin (fl i))
  | .bool b => some (.fin (if b then 1 else 0))
  | .float x => some x
  | _ => .none

/-- Product of floats. -/
def floatMul : PyFloat → PyFloat → PyFloat
  | .fin a, .fin b => .fin (fl (a * b))
  | .nan, _ => .nan
  | _, .nan => .nan
  | .fin a, .posInf => if a = 0 then .nan else if 0 < a then .posInf else .negInf
  | .fin a, .negInf => if a = 0 then .nan else if 0 < a then .negInf else .posInf
  | .posInf, .fin b => if b = 0 then .nan else if 0 < b then .posInf else .negInf
  | .negInf, .fin b => if b = 0 then .nan else if 0 < b then .negInf else .posInf
  | .posInf, .posInf => .posInf
  | .negInf, .negInf => .posInf
  | _, _ => .negInf

/-- Quotient of floats. -/
def floatDiv : PyFloat → PyFloat → PyM PyFloat
  | .fin a, .fin b => if b = 0 then .error .zeroDivisionError else .ok (.fin (fl (a / b)))
  | .nan, .fin b => if b = 0 then .error .zeroDivisionError else .ok .nan
  | .posInf, .fin b => if b = 0 then .error .zeroDivisionError else .ok (if 0 < b then .posInf else .negInf)
  | .negInf, .fin b => if b = 0 then .error .zeroDivisionError else .ok (if 0 < b then .negInf else .posInf)
  | .fin _, .posInf => .ok (.fin 0)
  | .fin _, .negInf => .ok (.fin 0)
  | _, _ => .ok .nan

/-- Binary operators on ints. -/
def intOp (op : BinOp) (a b : Int) : M Val :=
  match op with
  | .add => pure (.int (a + b))
  | .sub => pure (.int (a - b))
  | .mul => pure (.int (a * b))
  | .div => if b = 0 then raise .zeroDivisionError else pure (.float (.fin (fl ((a : ℚ) / b))))
  | .floorDiv => if b = 0 then raise .zeroDivisionError else pure (.int (pyFloorDiv a b))
  | .mod => if b = 0 then raise .zeroDivisionError else pure (.int (pyMod a b))
  | .pow => if b < 0 then stuck else pure (.int (a ^ b.toNat))
  | .band => pure (.int (Int.land a b))
  | .bor => pure (.int (Int.lor a b))
  | .shl => if b < 0 then raise .valueError else pure (.int (a <<< b.toNat))
  | .shr => if b < 0 then raise .valueError else pure (.int (a >>> b.toNat))

/-- Binary operators on floats. -/
def floatOp (W : World) (op : BinOp) (a b : PyFloat) : M Val :=
  match op with
  | .mul => pure (.float (floatMul a b))
  | .div => do
    let r ← liftPy (floatDiv a b)
    pure (.float r)
  | .pow =>
    match a, b with
    | .fin q, .fin x => if q = 2 then do
        let r ← liftPy (W.powTwo x)
        pure (.float r)
      else stuck
    | _, _ => stuck
  | .band => raise .typeError
  | .bor => raise .typeError
  | .shl => raise .typeError
  | .shr => raise .typeError
  | _ => stuck

/-- Strings, bytes objects, tuples and lists; an address may be that of a list. -/
def isSeq : Val → Bool
  | .str _ => true
  | .bytes _ => true
  | .tuple _ => true
  | .constList _ => true
  | .ref _ => true
  | _ => false

/-- Whether a binary operator is known to be refused by values of built-in types that are not both numbers. -/
def refused (op : BinOp) (a b : Val) : Bool :=
  match op with
  | .add => match a, b with
    | .tuple _, .tuple _ => false
    | .constList _, _ => !isSeq b
    | .ref _, _ => !isSeq b
    | _, _ => true
  | .mul => !isSeq a && !isSeq b
  | .mod => match a with
    | .str _ => false
    | .bytes _ => false
    | _ => true
  | .bor => (asNum a).isSome || (asNum b).isSome
  | _ => true

/-- Binary operators on values of built-in types. -/
def primOp (W : World) (op : BinOp) (a b : Val) : M Val :=
  match asInt a, asInt b with
  | some i, some j =>
    match a, b, op with
    | .bool p, .bool q, .band => pure (.bool (p && q))
    | .bool p, .bool q, .bor => pure (.bool (p || q))
    | _, _, _ => intOp op i j
  | _, _ =>
    match toFloat a, toFloat b with
    | some x, some y => floatOp W op x y
    | _, _ =>
      match op, a, b with
      | .add, .str s, .str t => pure (.str (s ++ t))
      | .add, .bytes s, .bytes t => pure (.bytes (s ++ t))
      | .mul, .str s, .int n => pure (.str (List.replicate n.toNat s).flatten)
      | .mul, .ref x, .int n => do
        match ← load x with
        | .list l => do
          let y ← alloc (.list (List.replicate n.toNat l).flatten)
          pure (.ref y)
        | _ => raise .typeError
      | _, _, _ => if refused op a b then raise .typeError else stuck

/-! ### Comparisons -/

/-- `==` on floats. -/
def floatEq (x y : PyFloat) : Bool := x.le y && y.le x

/-- Comparison of two ints. -/
def intCmp (op : CmpOp) (i j : Int) : Option Bool :=
  match op with
  | .eq => some (decide (i = j))
  | .ne => some (decide (i ≠ j))
  | .lt => some (decide (i < j))
  | .le => some (decide (i ≤ j))
  | .gt => some (decide (i > j))
  | .ge => some (decide (i ≥ j))
  | _ => .none

/-- Comparison of two numbers. -/
def floatCmp (op : CmpOp) (x y : PyFloat) : Option Bool :=
  match op with
  | .eq => some (floatEq x y)
  | .ne => some (!floatEq x y)
  | .lt => some (x.lt y)
  | .le => some (x.le y)
  | .gt => some (y.lt x)
  | .ge => some (y.le x)
  | _ => .none

/-- `==` and `!=` from the answer to `==`. -/
def eqCmp (op : CmpOp) (b : Bool) : Option Bool :=
  match op with
  | .eq => some b
  | .ne => some (!b)
  | _ => .none

/-- Comparison of values of built-in types other than tuples; `none` if the types do not support it. Values of different
types are different. -/
def primCmp (op : CmpOp) (a b : Val) : Option Bool :=
  match asInt a, asInt b with
  | some i, some j => intCmp op i j
  | _, _ =>
    match asNum a, asNum b with
    | some x, some y => floatCmp op x y
    | _, _ =>
      match a, b with
      | .str s, .str t => eqCmp op (decide (s = t))
      | .bytes s, .bytes t => eqCmp op (decide (s = t))
      | .none, .none => eqCmp op true
      | _, _ => eqCmp op false

/-- Values of the types that `primCmp` knows: `None`, numbers, strings, bytes objects and tuples. -/
def isPlain : Val → Bool
  | .none => true
  | .bool _ => true
  | .int _ => true
  | .float _ => true
  | .str _ => true
  | .bytes _ => true
  | .tuple _ => true
  | _ => false

/-- Whether `primCmp` knows the answer: one of the values is of a type above, and it is not the order of two strings, bytes
objects or tuples. -/
def cmpKnown (op : CmpOp) (a b : Val) : Bool :=
  match a, b with
  | .str _, .str _ => (eqCmp op true).isSome
  | .bytes _, .bytes _ => (eqCmp op true).isSome
  | .tuple _, .tuple _ => false
  | _, _ => isPlain a || isPlain b

/-- The method of an operator. -/
def CmpOp.dunder : CmpOp → String
  | .eq => "__eq__"
  | .ne => "__eq__"
  | .lt => "__lt__"
  | .le => "__le__"
  | .gt => "__gt__"
  | .ge => "__ge__"
  | _ => ""

/-- The method of the right operand. -/
def CmpOp.reflected : CmpOp → String
  | .eq => "__eq__"
  | .ne => "__eq__"
  | .lt => "__gt__"
  | .le => "__ge__"
  | .gt => "__lt__"
  | .ge => "__le__"
  | _ => ""

/-- The method of a binary operator. -/
def BinOp.dunder : BinOp → String
  | .add => "__add__"
  | .sub => "__sub__"
  | .mul => "__mul__"
  | .div => "__truediv__"
  | .floorDiv => "__floordiv__"
  | .mod => "__mod__"
  | .pow => "__pow__"
  | .band => "__and__"
  | .bor => "__or__"
  | .shl => "__lshift__"
  | .shr => "__rshift__"

/-- The keys of dicts described here: `None`, numbers, strings and bytes objects. -/
def isKey : Val → Bool
  | .none => true
  | .bool _ => true
  | .int _ => true
  | .float (.fin _) => true
  | .str _ => true
  | .bytes _ => true
  | _ => false

/-- Equality of dictionary keys. -/
def keyEq (a b : Val) : Bool := (primCmp .eq a b).getD false

/-- Look up a key. -/
def dictGet : List (Val × Val) → Val → Option Val
  | [], _ => .none
  | (k, v) :: d, x => if keyEq k x then some v else dictGet d x

/-- Set a key: overwrite in place, or append. -/
def dictSet : List (Val × Val) → Val → Val → List (Val × Val)
  | [], x, w => [(x, w)]
  | (k, v) :: d, x, w => if keyEq k x then (k, w) :: d else (k, v) :: dictSet d x w

/-- Delete a key. -/
def dictDel : List (Val × Val) → Val → List (Val × Val)
  | [], _ => []
  | (k, v) :: d, x => if keyEq k x then d else (k, v) :: dictDel d x

/-! ### Sequences -/

/-- `l[i]`, negative indices counting from the end. -/
def seqIndex {α : Type} (l : List α) (i : Int) : Option α :=
  if 0 ≤ i then l[i.toNat]? else if 0 ≤ i + l.length then l[(i + l.length).toNat]? else .none

/-- A bound of a slice: missing, or an int, negative ones counting from the end. -/
def sliceBound (n : Nat) (dflt : Nat) : Val → Option Nat
  | .none => some dflt
  | .int i => some (if 0 ≤ i then min i.toNat n else (i + n).toNat)
  | _ => .none

/-- `l[lo:hi]`. -/
def seqSlice {α : Type} (l : List α) (lo hi : Nat) : List α := (l.take hi).drop lo

/-- The `i`-th value an iterator yields, in the present memory. -/
def itemAt (h : Heap) : Val → Nat → Option Val
  | .tuple l, i => l[i]?
  | .constList l, i => l[i]?
  | .str s, i => (s[i]?).map (fun c => .str [c])
  | .bytes b, i => (b[i]?).map (fun x => .int x.toNat)
  | .iter a, i => match h.objs[a]? with
    | some (.list l) => l[i]?
    | _ => .none
  | .dictItems a, i => match h.objs[a]? with
    | some (.dict l _) => (l[i]?).map (fun p => .tuple [p.1, p.2])
    | _ => .none
  | .dictValues a, i => match h.objs[a]? with
    | some (.dict l _) => (l[i]?).map Prod.snd
    | _ => .none
  | .range lo hi, i => if lo + i < hi then some (.int (lo + i)) else .none
  | .zip a b, i => match itemAt h a i, itemAt h b i with
    | some x, some y => some (.tuple [x, y])
    | _, _ => .none
  | _, _ => .none

/-- The next value of an iterator that has yielded `i` values. -/
def nextItem (it : Val) (i : Nat) : M (Option Val) := fun h => some (.ok (itemAt h it i) h)

/-! ### Variables -/

/-- A `for` loop waiting for a generator: its variables, target and body. -/
structure Consumer where
  mod : String
  vars : List (String × Val)
  pat : Pat
  body : List Stmt

/-- The variables of a running function, the module it is defined in, and the loop it yields to. -/
structure Env where
  mod : String
  vars : List (String × Val)
  consumer : Option Consumer := .none

/-- Bind a variable. -/
def Env.set (e : Env) (x : String) (v : Val) : Env := { e with vars := Dict.set e.vars x v }

/-- How a statement ends. -/
inductive Flow where
  | next (e : Env)
  | ret (v : Val) (e : Env)
  | brk (e : Env)
  | cont (e : Env)

/-- The values a tuple target is bound to. -/
def unpack : Val → M (List Val)
  | .tuple l => pure l
  | .constList l => pure l
  | .ref a => do
    match ← load a with
    | .list l => pure l
    | _ => stuck
  | .none => raise .typeError
  | .bool _ => raise .typeError
  | .int _ => raise .typeError
  | .float _ => raise .typeError
  | _ => stuck

mutual
/-- Bind a target of a loop. -/
def bindPat : Pat → Val → List (String × Val) → M (List (String × Val))
  | .name x, v, vars => pure (Dict.set vars x v)
  | .tuple l, v, vars => do
    let vs ← unpack v
    bindPats l vs vars
/-- Bind several targets. -/
def bindPats : List Pat → List Val → List (String × Val) → M (List (String × Val))
  | [], [], vars => pure vars
  | p :: ps, v :: vs, vars => do
    let vars ← bindPat p v vars
    bindPats ps vs vars
  | _, _, _ => raise .valueError
end

/-- Bind several names. -/
def bindNames : List String → List Val → Env → M Env
  | [], [], e => pure e
  | x :: xs, v :: vs, e => bindNames xs vs (e.set x v)
  | _, _, _ => raise .valueError

/-! ### Names outside of functions -/

/-- Functions and classes of the `builtins` module. -/
def builtinName : String → Option Val
  | "len" => some (.builtin .len)
  | "abs" => some (.builtin .abs)
  | "int" => some (.builtin .int)
  | "str" => some (.builtin .str)
  | "repr" => some (.builtin .repr)
  | "isinstance" => some (.builtin .isinstance)
  | "max" => some (.builtin .max)
  | "min" => some (.builtin .min)
  | "sum" => some (.builtin .sum)
  | "iter" => some (.builtin .iter)
  | "zip" => some (.builtin .zip)
  | "range" => some (.builtin .range)
  | "list" => some (.builtin .list)
  | "open" => some (.builtin .openFile)
  | "ValueError" => some (.excClass .valueError)
  | "TypeError" => some (.excClass .typeError)
  | _ => .none

/-- Names of modules of the standard library. -/
def stdName : String → String → Option Val
  | "typing", "Iterable" => some (.builtin .iterable)
  | "heapq", "heappush" => some (.builtin .heappush)
  | "io", "BytesIO" => some (.builtin .bytesIO)
  | "operator", "itemgetter" => some (.builtin .itemgetter)
  | "collections", "defaultdict" => some (.builtin .defaultdict)
  | "re", "compile" => some (.builtin .reCompile)
  | "math", "sqrt" => some (.builtin .sqrt)
  | "random", "gauss" => some (.builtin .gauss)
  | _, _ => .none

/-- The class of a program. -/
def Program.classOf (P : Program) (c : String) : Option ClassDef := P.classes.find? (fun d => d.name == c)

/-- The method of a class. -/
def Program.method (P : Program) (c m : String) : Option FunDef :=
  match P.classOf c with
  | some d => d.methods.find? (fun f => f.name == m)
  | .none => .none

/-- Exceptions of the program: the classes derived from `Exception`. -/
def excOf : String → Option PyErr
  | "MIDIParsingError" => some .parsingError
  | _ => .none

/-- What a name of a module is bound to by `class`, `def` and `import`; imports are followed at most `n` times. -/
def Program.global (P : Program) : Nat → String → String → Option Val
  | 0, _, _ => .none
  | n + 1, m, x =>
    match P.modules.find? (fun d => d.name == m) with
    | .none => stdName m x
    | some d =>
      match Dict.get d.names x with
      | .none => .none
      | some (.cls c) => match excOf c with
        | some e => some (.excClass e)
        | .none => some (.cls c)
      | some (.func f) => some (.func f.mod f.name)
      | some (.module k) => some (.module k)
      | some (.imported k y) => P.global n k y

/-- The statements a module executes on import. -/
def Program.init (P : Program) (m : String) : List Stmt :=
  match P.modules.find? (fun d => d.name == m) with
  | some d => d.init
  | .none => []

/-- A function of a module. -/
def Program.func (P : Program) (m x : String) : Option FunDef :=
  match P.modules.find? (fun d => d.name == m) with
  | some d => match Dict.get d.names x with
    | some (.func f) => some f
    | _ => .none
  | .none => .none

/-- The elements, if all are there. -/
def allSome {α : Type} : List (Option α) → Option (List α)
  | [] => some []
  | some a :: l => (allSome l).map (a :: ·)
  | .none :: _ => .none

/-- The value of a name of a module that is bound by an assignment, at most `n` levels deep: lists and dicts are read out. Other
objects in memory are not described here. -/
def freeze (h : Heap) : Nat → Val → Option Val
  | 0, _ => .none
  | n + 1, .ref a => match h.objs[a]? with
    | some (.list l) => (allSome (l.map (freeze h n))).map .constList
    | some (.dict l _) => (allSome (l.map fun p => (freeze h n p.2).map (Prod.mk p.1))).map .constDict
    | _ => .none
  | n + 1, .tuple l => (allSome (l.map (freeze h n))).map .tuple
  | n + 1, .obj c fs => (allSome (fs.map fun p => (freeze h n p.2).map (Prod.mk p.1))).map (.obj c)
  | _ + 1, .none => some .none
  | _ + 1, .bool b => some (.bool b)
  | _ + 1, .int i => some (.int i)
  | _ + 1, .float x => some (.float x)
  | _ + 1, .str s => some (.str s)
  | _ + 1, .bytes b => some (.bytes b)
  | _ + 1, .constList l => some (.constList l)
  | _ + 1, .constDict l => some (.constDict l)
  | _ + 1, .cls c => some (.cls c)
  | _ + 1, .func m x => some (.func m x)
  | _ + 1, .builtin b => some (.builtin b)
  | _ + 1, .module m => some (.module m)
  | _ + 1, .excClass e => some (.excClass e)
  | _ + 1, .range lo hi => some (.range lo hi)
  | _ + 1, .regex p => some (.regex p)
  | _ + 1, .itemgetter i => some (.itemgetter i)
  | _ + 1, _ => .none

/-- Whether class `c` is `d` or is derived from it; at most `n` steps. -/
def Program.isSubclass (P : Program) : Nat → String → String → Bool
  | 0, _, _ => false
  | n + 1, c, d => c == d || match P.classOf c with
    | some k => k.bases.any (fun b => P.isSubclass n b d)
    | .none => false

end Melodia.Python
