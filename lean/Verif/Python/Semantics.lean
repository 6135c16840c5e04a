/-
Meaning of the part of Python described in Syntax.lean: an evaluator for expressions, statements and calls (Python Language
Reference, chapters 4, 6, 7 and 8). Recursion, loops and calls are unrestricted: the functions are least fixed points, and a
computation that does not end has no result.

Simplifications, none of which melodia can observe: defaults of parameters are evaluated at the call; a name of a module that
is bound by an assignment is looked up by running the statements of the module on an empty memory; comparisons made by
`list.sort` are all made beforehand; a generator expression is evaluated at once (melodia only passes one to `sum`); a
generator can only be consumed by a `for` loop without `break` and `return`; comparisons of tuples and `in` do not take the
shortcut for identical objects (which only a class whose `__eq__` is not reflexive can tell); a nested function captures the
values of the variables around it, except for `nonlocal` ones; methods are not looked up in bases; `-0.0` is the float `0.0`;
`open(name, 'wb')` and `open(name, 'w')` give a new file in memory, to be used for writing only, and for the latter the encoding
and the translation of line ends are left out; the end of a `with` does not close the file (melodia only opens files in memory
that it does not pass on). There is no limit for memory and for the depth of recursion: where Python raises RecursionError for a function that calls itself
without end, there is no result. Supported.lean has a test for the programs that do not observe the simplifications about
classes, scopes and files.

Where the description is incomplete there is no result, rather than a wrong one: operators, attributes and methods of built-in
types that melodia does not use are stuck, and an exception is only raised where Python is known to raise it. This was tested
with tools/conform.py, which compares the parser and the evaluator with CPython on random programs.
-/
import Verif.Python.Regex

set_option autoImplicit false

namespace Melodia.Python

/-- The attributes of values of built-in types (those melodia uses). -/
def hasPrimAttr (o : Option Obj) (v : Val) (a : String) : Bool :=
  match v, o with
  | .int _, _ => a == "to_bytes" || a == "bit_length"
  | .bool _, _ => a == "to_bytes" || a == "bit_length"
  | .bytes _, _ => a == "join"
  | .str _, _ => a == "join" || a == "strip" || a == "split" || a == "format"
  | .memoryview _, _ => a == "tobytes"
  | .regex _, _ => a == "match"
  | .reMatch _, _ => a == "group"
  | .builtin .int, _ => a == "from_bytes"
  | .ref _, some (.list _) => a == "append" || a == "sort"
  | .ref _, some (.dict _ _) => a == "items" || a == "values" || a == "get"
  | .ref _, some (.file _ _) => a == "write" || a == "read" || a == "getbuffer"
  | .ref _, some (.text _ _) => a == "write"
  | _, _ => false

/-- Attributes that values of built-in types have in Python, whether described here or not (those of numbers, strings, bytes
objects, tuples, lists, dicts, files in memory, patterns, matches, memory views, ranges, exceptions, iterators, functions and
classes); those with a name that begins with two underscores are not listed. -/
def builtinAttrs : List String := [
  "_checkClosed", "_checkReadable", "_checkSeekable", "_checkWritable", "add_note", "append", "args", "as_integer_ratio",
  "bit_count", "bit_length", "c_contiguous", "capitalize", "casefold", "cast", "center", "clear", "close", "closed",
  "conjugate", "contiguous", "copy", "count", "decode", "denominator", "detach", "encode", "end", "endpos", "endswith",
  "expand", "expandtabs", "extend", "f_contiguous", "fileno", "find", "findall", "finditer", "flags", "flush", "format",
  "format_map", "from_bytes", "fromhex", "fromkeys", "fullmatch", "get", "getbuffer", "getvalue", "gi_code", "gi_frame",
  "gi_running", "gi_suspended", "gi_yieldfrom", "group", "groupdict", "groupindex", "groups", "hex", "imag", "index",
  "insert", "is_integer", "isalnum", "isalpha", "isascii", "isatty", "isdecimal", "isdigit", "isdisjoint", "isidentifier",
  "islower", "isnumeric", "isprintable", "isspace", "istitle", "isupper", "items", "itemsize", "join", "keys", "lastgroup",
  "lastindex", "ljust", "lower", "lstrip", "maketrans", "mapping", "match", "nbytes", "ndim", "numerator", "obj",
  "partition", "pattern", "pop", "popitem", "pos", "re", "read", "read1", "readable", "readinto", "readinto1", "readline",
  "readlines", "readonly", "real", "regs", "release", "remove", "removeprefix", "removesuffix", "replace", "reverse",
  "rfind", "rindex", "rjust", "rpartition", "rsplit", "rstrip", "scanner", "search", "seek", "seekable", "send",
  "setdefault", "shape", "sort", "span", "split", "splitlines", "start", "startswith", "step", "stop", "strides", "string",
  "strip", "sub", "subn", "suboffsets", "swapcase", "tell", "throw", "title", "to_bytes", "tobytes", "tolist", "toreadonly",
  "translate", "truncate", "update", "upper", "values", "with_traceback", "writable", "write", "writelines", "zfill"]

/-- Names that begin with two underscores: every object has some of these attributes. -/
def isSpecial (x : String) : Bool := x.toList.take 2 == ['_', '_']

/-- Whether a value of a built-in type is known not to have an attribute. -/
def lacksAttr (x : String) : Bool := !isSpecial x && !builtinAttrs.contains x

/-- The bytes of the elements of a list of bytes objects. -/
def joinBytes : List Val → PyM Bytes
  | [] => .ok []
  | .bytes b :: l => do
    let r ← joinBytes l
    pure (b ++ r)
  | _ :: _ => .error .typeError

/-- `sep.join(l)` for strings. -/
def joinStr (sep : List Char) : List Val → PyM (List Char)
  | [] => .ok []
  | [.str s] => .ok s
  | .str s :: l => do
    let r ← joinStr sep l
    pure (s ++ sep ++ r)
  | _ :: _ => .error .typeError

/-- The characters `str.strip` removes. -/
def isSpace (c : Char) : Bool :=
  let n := c.toNat
  (9 ≤ n && n ≤ 13) || (28 ≤ n && n ≤ 32) || n == 0x85 || n == 0xa0 || n == 0x1680 || (0x2000 ≤ n && n ≤ 0x200a) || n == 0x2028 ||
    n == 0x2029 || n == 0x202f || n == 0x205f || n == 0x3000

/-- `s.strip()`. -/
def stripSpace (s : List Char) : List Char := ((s.dropWhile isSpace).reverse.dropWhile isSpace).reverse

/-- `s.split(sep)` for a separator of one character. -/
def splitAt (sep : Char) : List Char → List (List Char)
  | [] => [[]]
  | c :: l =>
    if c = sep then [] :: splitAt sep l
    else match splitAt sep l with
      | [] => [[c]]
      | w :: ws => (c :: w) :: ws

/-- A part of a template of `str.format`. -/
inductive TemplatePart where
  | text (s : List Char)
  | field (x : List Char)

/-- Letters, digits and the underscore. -/
def isWordChar (c : Char) : Bool := c.isAlphanum || c == '_'

/-- The parts of a template, at most `n`: texts, doubled braces, and fields `{x}` with an identifier. -/
def templateParts : Nat → List Char → Option (List TemplatePart)
  | 0, _ => .none
  | _ + 1, [] => some []
  | n + 1, c :: l =>
    if c = '{' then
      match l with
      | '{' :: l => (templateParts n l).map (.text ['{'] :: ·)
      | _ =>
        let x := l.takeWhile isWordChar
        match x, l.dropWhile isWordChar with
        | d :: _, '}' :: l => if d.isDigit then .none else (templateParts n l).map (.field x :: ·)
        | _, _ => .none
    else if c = '}' then
      match l with
      | '}' :: l => (templateParts n l).map (.text ['}'] :: ·)
      | _ => .none
    else (templateParts n l).map (.text [c] :: ·)

/-- Methods of values of built-in types that call no function of the program. -/
def primMeth (W : World) (self : Val) (name : String) (args : List Val) : M Val :=
  match name with
  | "to_bytes" => match asInt self, args with
    | some i, [.int n, .str order] =>
      if order = "big".toList then do
        let b ← liftPy (toBytesBig i n.toNat)
        pure (.bytes b)
      else if order = "little".toList then do
        let b ← liftPy (toBytesLittle i n.toNat)
        pure (.bytes b)
      else raise .valueError
    | _, _ => stuck
  | "bit_length" => match asInt self, args with
    | some i, [] => pure (.int (bitLength i.natAbs))
    | _, _ => stuck
  | "from_bytes" => match self, args with
    | .builtin .int, [.bytes b, .str order] =>
      if order = "big".toList then pure (.int (fromBytesBig b)) else stuck
    | _, _ => stuck
  | "join" => match self, args with
    | .bytes [], [.ref a] => do
      match ← load a with
      | .list l => do
        let b ← liftPy (joinBytes l)
        pure (.bytes b)
      | _ => stuck
    | .str sep, [.ref a] => do
      match ← load a with
      | .list l => do
        let s ← liftPy (joinStr sep l)
        pure (.str s)
      | _ => stuck
    | _, _ => stuck
  | "strip" => match self, args with
    | .str s, [] => pure (.str (stripSpace s))
    | _, _ => stuck
  | "split" => match self, args with
    | .str s, [.str [sep]] => do
      let a ← alloc (.list ((splitAt sep s).map .str))
      pure (.ref a)
    | _, _ => stuck
  | "tobytes" => match self, args with
    | .memoryview b, [] => pure (.bytes b)
    | _, _ => stuck
  | "match" => match self, args with
    | .regex p, [.str s] => match reMatch W.digits p s with
      | some (some g) => pure (.reMatch (g.map (fun x => (x.1, .str x.2))))
      | some .none => pure .none
      | .none => stuck
    | .regex _, [_] => raise .typeError
    | _, _ => stuck
  | "group" => match self, args with
    | .reMatch g, [.str n] => pure ((Dict.get g (String.ofList n)).getD .none)
    | _, _ => stuck
  | "append" => match self, args with
    | .ref a, [v] => do
      match ← load a with
      | .list l => do
        store a (.list (l ++ [v]))
        pure .none
      | _ => stuck
    | _, _ => stuck
  | "items" => match self, args with
    | .ref a, [] => pure (.dictItems a)
    | _, _ => stuck
  | "values" => match self, args with
    | .ref a, [] => pure (.dictValues a)
    | _, _ => stuck
  | "get" => match self, args with
    | .ref a, [k, d] => do
      match ← load a with
      | .dict l _ => if isKey k then pure ((dictGet l k).getD d) else stuck
      | _ => stuck
    | _, _ => stuck
  | "write" => match self, args with
    | .ref a, [.bytes b] => do
      match ← load a with
      | .file data pos => do
        store a (.file (data.take pos ++ b ++ data.drop (pos + b.length)) (pos + b.length))
        pure (.int b.length)
      | _ => stuck
    | .ref a, [.str s] => do
      match ← load a with
      | .text n t => do
        store a (.text n (t ++ s))
        pure (.int s.length)
      | _ => stuck
    | _, _ => stuck
  | "read" => match self, args with
    | .ref a, [.int n] => do
      match ← load a with
      | .file data pos => do
        let b := (data.drop pos).take n.toNat
        store a (.file data (pos + b.length))
        pure (.bytes b)
      | _ => stuck
    | _, _ => stuck
  | "getbuffer" => match self, args with
    | .ref a, [] => do
      match ← load a with
      | .file data _ => pure (.memoryview data)
      | _ => stuck
    | _, _ => stuck
  | _ => stuck

/-- The fields of an instance and its class, if the value is one. -/
def instOf : Val → M (Option (String × List (String × Val)))
  | .obj c fs => pure (some (c, fs))
  | .ref a => do
    match ← load a with
    | .inst c fs => pure (some (c, fs))
    | _ => pure .none
  | _ => pure .none

/-- The method `m` of a value, if it is an instance of a class of the program with this method. -/
def methodOf (P : Program) (v : Val) (m : String) : M (Option FunDef) := do
  match ← instOf v with
  | some (c, _) => pure (P.method c m)
  | .none => pure .none

/-- The method `m` of the class of a value, or the class itself. -/
def boundMethod (P : Program) (v : Val) (m : String) : M (Option FunDef) :=
  match v with
  | .cls c => pure (P.method c m)
  | _ => methodOf P v m

/-- The object at the address of a value. -/
def objAt : Val → M (Option Obj)
  | .ref a => do
    let o ← load a
    pure (some o)
  | .dictItems a => do
    let o ← load a
    pure (some o)
  | .dictValues a => do
    let o ← load a
    pure (some o)
  | _ => pure .none

/-- Whether a value of a built-in type is iterable. -/
def primIterable (v : Val) (o : Option Obj) : Bool :=
  match v, o with
  | .tuple _, _ => true
  | .constList _, _ => true
  | .constDict _, _ => true
  | .str _, _ => true
  | .bytes _, _ => true
  | .iter _, _ => true
  | .zip _ _, _ => true
  | .range _ _, _ => true
  | .memoryview _, _ => true
  | .dictItems _, _ => true
  | .dictValues _, _ => true
  | .gen _ _ _, _ => true
  | .ref _, some (.list _) => true
  | .ref _, some (.dict _ _) => true
  | .ref _, some (.file _ _) => true
  | .ref _, some (.text _ _) => true
  | _, _ => false

/-- `isinstance(v, c)` for one class. -/
def isInstance1 (P : Program) (v : Val) (c : Val) : M Bool :=
  match c with
  | .cls d => do
    match ← instOf v with
    | some (k, _) => pure (P.isSubclass 3 k d)
    | .none => pure false
  | .builtin .int => pure (asInt v).isSome
  | .builtin .str => match v with
    | .str _ => pure true
    | _ => pure false
  | .builtin .iterable => do
    match ← methodOf P v "__iter__" with
    | some _ => pure true
    | .none => do
      let o ← objAt v
      pure (primIterable v o)
  | _ => stuck

/-- `isinstance(v, c)` for a tuple of classes. -/
def isInstanceAny (P : Program) (v : Val) : List Val → M Bool
  | [] => pure false
  | c :: cs => do
    let b ← isInstance1 P v c
    if b then pure true else isInstanceAny P v cs

/-- `isinstance(v, c)`. -/
def isInstance (P : Program) (v c : Val) : M Bool :=
  match c with
  | .tuple l => isInstanceAny P v l
  | _ => isInstance1 P v c

/-- The iterator of a value of a built-in type. -/
def primIter : Val → M Val
  | .tuple l => pure (.tuple l)
  | .constList l => pure (.constList l)
  | .str s => pure (.str s)
  | .bytes b => pure (.bytes b)
  | .iter a => pure (.iter a)
  | .zip a b => pure (.zip a b)
  | .range a b => pure (.range a b)
  | .dictItems a => pure (.dictItems a)
  | .dictValues a => pure (.dictValues a)
  | .gen m b vs => pure (.gen m b vs)
  | .ref a => do
    match ← load a with
    | .list _ => pure (.iter a)
    | _ => stuck
  | .constDict _ => stuck
  | .memoryview _ => stuck
  | _ => raise .typeError

/-- The truth value of a value of a built-in type (instances have none of their own unless they define `__len__`). -/
def primTruthy (v : Val) (o : Option Obj) : Bool :=
  match v, o with
  | .none, _ => false
  | .bool b, _ => b
  | .int i, _ => decide (i ≠ 0)
  | .float x, _ => !floatEq x (.fin 0)
  | .str s, _ => !s.isEmpty
  | .bytes b, _ => !b.isEmpty
  | .tuple l, _ => !l.isEmpty
  | .constList l, _ => !l.isEmpty
  | .constDict l, _ => !l.isEmpty
  | .range lo hi, _ => decide (lo < hi)
  | .memoryview b, _ => !b.isEmpty
  | .ref _, some (.list l) => !l.isEmpty
  | .ref _, some (.dict l _) => !l.isEmpty
  | .dictItems _, some (.dict l _) => !l.isEmpty
  | .dictValues _, some (.dict l _) => !l.isEmpty
  | _, _ => true

/-- `int(v)`. -/
def toInt (W : World) (v : Val) : M Val :=
  match v with
  | .int i => pure (.int i)
  | .bool b => pure (.int (if b then 1 else 0))
  | .float (.fin q) => pure (.int (pyTrunc q))
  | .float .nan => raise .valueError
  | .float _ => raise .overflowError
  | .str s => do
    let i ← orStuck (intOfStr W.digits s)
    pure (.int i)
  | _ => stuck

/-- Subscription `v[i]`. -/
def getItem (v i : Val) : M Val :=
  match v with
  | .tuple l => do
    let k ← orStuck (asInt i)
    match seqIndex l k with
    | some x => pure x
    | .none => raise .indexError
  | .constList l => do
    let k ← orStuck (asInt i)
    match seqIndex l k with
    | some x => pure x
    | .none => raise .indexError
  | .bytes b => do
    let k ← orStuck (asInt i)
    match seqIndex b k with
    | some x => pure (.int x.toNat)
    | .none => raise .indexError
  | .constDict d => match dictGet d i with
    | some x => if isKey i then pure x else stuck
    | .none => stuck
  | .ref a => do
    match ← load a with
    | .list l => do
      let k ← orStuck (asInt i)
      match seqIndex l k with
      | some x => pure x
      | .none => raise .indexError
    | .dict d dflt => match dictGet d i with
      | some x => if isKey i then pure x else stuck
      | .none =>
        if dflt && isKey i then do
          let b ← alloc (.list [])
          store a (.dict (dictSet d i (.ref b)) dflt)
          pure (.ref b)
        else stuck
    | _ => stuck
  | _ => stuck

/-- `v[i] = x`. -/
def setItem (v i x : Val) : M Unit :=
  match v with
  | .ref a => do
    match ← load a with
    | .list l => match i with
      | .int k =>
        if 0 ≤ k ∧ k < l.length then store a (.list (l.set k.toNat x)) else if 0 ≤ k then raise .indexError else stuck
      | _ => stuck
    | .dict d dflt => if isKey i then store a (.dict (dictSet d i x) dflt) else stuck
    | _ => stuck
  | _ => stuck

/-- `del v[i]`. -/
def delItem (v i : Val) : M Unit :=
  match v with
  | .ref a => do
    match ← load a with
    | .dict d dflt => match dictGet d i with
      | some _ => if isKey i then store a (.dict (dictDel d i) dflt) else stuck
      | .none => stuck
    | _ => stuck
  | _ => stuck

/-- `v[lo:hi]`. -/
def getSlice (v lo hi : Val) : M Val :=
  match v with
  | .bytes b => do
    let i ← orStuck (sliceBound b.length 0 lo)
    let j ← orStuck (sliceBound b.length b.length hi)
    pure (.bytes (seqSlice b i j))
  | _ => stuck

/-- `k in v` for a dict. -/
def dictHas (v k : Val) : M (Option Bool) :=
  match v with
  | .constDict d => if isKey k then pure (some (dictGet d k).isSome) else stuck
  | .ref a => do
    match ← load a with
    | .dict d _ => if isKey k then pure (some (dictGet d k).isSome) else stuck
    | _ => pure .none
  | _ => pure .none

/-- The text of a number in an f-string. -/
def formatNum (W : World) (spec : String) (v : Val) : M (List Char) :=
  match v, spec with
  | .int i, "" => pure (intStr i)
  | .int i, "d" => pure (intStr i)
  | .float (.fin q), "" => pure (W.floatText.text q)
  | .float (.fin q), ".3f" => if 0 ≤ q then pure (fixed3 q) else stuck
  | .str s, "" => pure s
  | .str s, "s" => pure s
  | _, _ => stuck

/-- The text of the parts of a template. -/
def fillParts (W : World) (kws : List (String × Val)) : List TemplatePart → M (List Char)
  | [] => pure []
  | .text s :: l => do
    let r ← fillParts W kws l
    pure (s ++ r)
  | .field x :: l => do
    let v ← orStuck (Dict.get kws (String.ofList x))
    let s ← formatNum W "" v
    let r ← fillParts W kws l
    pure (s ++ r)

/-- `t.format(x=v, ...)`, for numbers and strings. -/
def strFormat (W : World) (t : Val) (args : List Val) (kws : List (String × Val)) : M Val :=
  match t, args with
  | .str s, [] => do
    let ps ← orStuck (templateParts (s.length + 1) s)
    let r ← fillParts W kws ps
    pure (.str r)
  | _, _ => stuck

/-- `len` of a value of a built-in type. -/
def primLen (v : Val) : M Val :=
  match v with
  | .bytes b => pure (.int b.length)
  | .str s => pure (.int s.length)
  | .tuple l => pure (.int l.length)
  | .ref a => do
    match ← load a with
    | .list l => pure (.int l.length)
    | .dict l _ => pure (.int l.length)
    | _ => raise .typeError
  | .constList l => pure (.int l.length)
  | .constDict l => pure (.int l.length)
  | .range _ _ => stuck
  | .dictItems _ => stuck
  | .dictValues _ => stuck
  | .memoryview b => pure (.int b.length)
  | _ => raise .typeError

/-- `abs` of a number. -/
def primAbs (v : Val) : M Val :=
  match v with
  | .int i => pure (.int |i|)
  | .bool b => pure (.int (if b then 1 else 0))
  | .float (.fin q) => pure (.float (.fin |q|))
  | _ => stuck

/-- Whether a comparison of values of built-in types holds. -/
def cmpPrim (op : CmpOp) (a b : Val) : M Val :=
  if cmpKnown op a b then
    match primCmp op a b with
    | some r => pure (.bool r)
    | .none => raise .typeError
  else stuck

/-- `max(a, b)` and `min(a, b)` for numbers: the first unless the second is greater (smaller). -/
def primBest (op : CmpOp) (a b : Val) : M Val :=
  if isPlain a && isPlain b && cmpKnown op b a then
    match primCmp op b a with
    | some true => pure b
    | some false => pure a
    | .none => raise .typeError
  else stuck

/-- Functions of the standard library that call no function of the program. -/
def primCall (W : World) (b : Builtin) (args : List Val) : M Val :=
  match b, args with
  | .int, [v] => toInt W v
  | .range, [.int lo, .int hi] => pure (.range lo hi)
  | .max, [a, b] => primBest .gt a b
  | .min, [a, b] => primBest .lt a b
  | .itemgetter, [.int i] => pure (.itemgetter i.toNat)
  | .reCompile, [.str p] => pure (.regex p)
  | .bytesIO, [] => do
    let a ← alloc (.file [] 0)
    pure (.ref a)
  | .bytesIO, [.bytes b] => do
    let a ← alloc (.file b 0)
    pure (.ref a)
  | .openFile, [.str _, .str ['w', 'b']] => do
    let a ← alloc (.file [] 0)
    pure (.ref a)
  | .openFile, [.str n, .str ['w']] => do
    let a ← alloc (.text n [])
    pure (.ref a)
  | .defaultdict, [.builtin .list] => do
    let a ← alloc (.dict [] true)
    pure (.ref a)
  | .sqrt, [v] => do
    let x ← orStuck (toFloat v)
    pure (.float (W.sqrt x))
  | .gauss, [m, s] => do
    let x ← orStuck (toFloat m)
    let y ← orStuck (toFloat s)
    fun h => some (.ok (.float (W.gauss h.draws x y)) { h with draws := h.draws + 1 })
  | _, _ => stuck

/-- The unary operators on numbers. -/
def primNeg (v : Val) : M Val :=
  match v with
  | .int i => pure (.int (-i))
  | .bool b => pure (.int (if b then -1 else 0))
  | .float (.fin q) => pure (.float (.fin (-q)))
  | _ => stuck

/-- `+v`. -/
def primPos (v : Val) : M Val :=
  match v with
  | .int i => pure (.int i)
  | .bool b => pure (.int (if b then 1 else 0))
  | .float x => pure (.float x)
  | _ => stuck

/-- The value of a variable: shared ones are in memory. -/
def readVar : Val → M Val
  | .cell a => do
    match ← load a with
    | .cell v => pure v
    | _ => stuck
  | v => pure v

/-- Assign to a variable. -/
def setVar (e : Env) (x : String) (v : Val) : M Env :=
  match Dict.get e.vars x with
  | some (.cell a) => do
    store a (.cell v)
    pure e
  | _ => pure (e.set x v)

/-- Assign to an attribute of an object in memory. -/
def setAttr (v : Val) (a : String) (x : Val) : M Unit :=
  match v with
  | .ref p => do
    match ← load p with
    | .inst c fs => store p (.inst c (Dict.set fs a x))
    | _ => stuck
  | _ => stuck

/-- Share variables with a nested function. -/
def boxVars : List String → Env → M Env
  | [], e => pure e
  | x :: xs, e =>
    match Dict.get e.vars x with
    | some (.cell _) => boxVars xs e
    | some v => do
      let a ← alloc (.cell v)
      boxVars xs (e.set x (.cell a))
    | .none => stuck

/-- Assign the outcome of the comparisons to a sort: `table[i][j]` says whether element `i` is less than element `j`. -/
def sortByTable (W : World) (table : List (List Bool)) (l : List Val) : List Val :=
  (W.sort.sort (fun a b => ((table[a.2]?.getD [])[b.2]?).getD false) l.zipIdx).map Prod.fst

/-- Run a computation on an empty memory of its own; return its result together with that memory. -/
def isolated {α : Type} (x : M α) : M (α × Heap) := fun h =>
  match x { objs := [], draws := 0 } with
  | some (.ok a h') => some (.ok (a, h') h)
  | _ => .none

open Lean.Order in
@[partial_fixpoint_monotone]
theorem monotone_isolated {α : Type} {γ : Sort _} [Lean.Order.PartialOrder γ] (g : γ → M α) (hg : monotone g) :
    monotone (fun x => isolated (g x)) := by
  intro x y hxy h
  have := hg x y hxy { objs := [], draws := 0 }
  simp only [isolated]
  generalize g x _ = u at *
  generalize g y _ = v at *
  cases this with
  | bot => exact FlatOrder.rel.bot
  | refl => exact FlatOrder.rel.refl

/-- A computation that must not raise: what a sort does if a comparison raises is not described here. -/
def noRaise {α : Type} (x : M α) : M α := fun h =>
  match x h with
  | some (.ok a h') => some (.ok a h')
  | _ => .none

open Lean.Order in
@[partial_fixpoint_monotone]
theorem monotone_noRaise {α : Type} {γ : Sort _} [Lean.Order.PartialOrder γ] (g : γ → M α) (hg : monotone g) :
    monotone (fun x => noRaise (g x)) := by
  intro x y hxy h
  have := hg x y hxy h
  simp only [noRaise]
  generalize g x _ = u at *
  generalize g y _ = v at *
  cases this with
  | bot => exact FlatOrder.rel.bot
  | refl => exact FlatOrder.rel.refl

mutual

/-- Value of an expression. -/
def evalE (P : Program) (W : World) (e : Expr) (env : Env) : M Val :=
  match e with
  | .none => pure .none
  | .bool b => pure (.bool b)
  | .int i => pure (.int i)
  | .float n d => pure (.float (.fin ((n : ℚ) / d)))
  | .str s => pure (.str s.toList)
  | .bytes b => pure (.bytes b)
  | .name x =>
    match Dict.get env.vars x with
    | some v => readVar v
    | .none => globalName P W env.mod x
  | .attr a x => do
    let v ← evalE P W a env
    getAttr P W v x
  | .index a i => do
    let v ← evalE P W a env
    let k ← evalE P W i env
    getItem v k
  | .slice a lo hi => do
    let v ← evalE P W a env
    let i ← evalE P W lo env
    let j ← evalE P W hi env
    getSlice v i j
  | .call f args kws => do
    let g ← evalE P W f env
    let vs ← evalArgs P W (args.take (args.length - kws.length)) env
    let ws ← evalArgs P W (args.drop (args.length - kws.length)) env
    call P W g vs (kws.zip ws)
  | .star _ => stuck
  | .bin op a b => do
    let x ← evalE P W a env
    let y ← evalE P W b env
    binary P W op x y
  | .un op a => do
    let v ← evalE P W a env
    match op with
    | .neg => primNeg v
    | .pos => primPos v
    | .not => do
      let b ← truthy P W v
      pure (.bool !b)
  | .and a b => do
    let v ← evalE P W a env
    let t ← truthy P W v
    if t then evalE P W b env else pure v
  | .or a b => do
    let v ← evalE P W a env
    let t ← truthy P W v
    if t then pure v else evalE P W b env
  | .cmp a ops rest => do
    let v ← evalE P W a env
    evalChain P W v ops rest env
  | .cond c a b => do
    let v ← evalE P W c env
    let t ← truthy P W v
    if t then evalE P W a env else evalE P W b env
  | .tuple l => do
    let vs ← evalArgs P W l env
    pure (.tuple vs)
  | .list l => do
    let vs ← evalArgs P W l env
    let a ← alloc (.list vs)
    pure (.ref a)
  | .dict ks vs => do
    let d ← evalDict P W ks vs [] env
    let a ← alloc (.dict d false)
    pure (.ref a)
  | .fstr parts => do
    let s ← evalParts P W parts env
    pure (.str s)
  | .field a spec => do
    let v ← evalE P W a env
    let s ← format P W spec v
    pure (.str s)
  | .comp elt p it => do
    let v ← evalE P W it env
    let i ← getIter P W v
    let vs ← compLoop P W elt p i 0 env
    let a ← alloc (.list vs)
    pure (.ref a)
  | .genExp elt p it => do
    let v ← evalE P W it env
    let i ← getIter P W v
    let vs ← compLoop P W elt p i 0 env
    pure (.constList vs)
  | .dictComp k v p it => do
    let w ← evalE P W it env
    let i ← getIter P W w
    let d ← dictLoop P W k v p i 0 [] env
    let a ← alloc (.dict d false)
    pure (.ref a)
  partial_fixpoint

/-- Values of several expressions, from left to right; `*e` stands for the elements of `e`. -/
def evalArgs (P : Program) (W : World) (l : List Expr) (env : Env) : M (List Val) :=
  match l with
  | [] => pure []
  | .star e :: es => do
    let v ← evalE P W e env
    let i ← getIter P W v
    let xs ← collect P W i 0
    let ys ← evalArgs P W es env
    pure (xs ++ ys)
  | e :: es => do
    let v ← evalE P W e env
    let vs ← evalArgs P W es env
    pure (v :: vs)
  partial_fixpoint

/-- The entries of a dict display. -/
def evalDict (P : Program) (W : World) (ks vs : List Expr) (d : List (Val × Val)) (env : Env) : M (List (Val × Val)) :=
  match ks, vs with
  | k :: ks, v :: vs => do
    let x ← evalE P W k env
    let y ← evalE P W v env
    if isKey x then evalDict P W ks vs (dictSet d x y) env else stuck
  | _, _ => pure d
  partial_fixpoint

/-- A chain of comparisons: it ends with the first that does not hold. -/
def evalChain (P : Program) (W : World) (v : Val) (ops : List CmpOp) (rest : List Expr) (env : Env) : M Val :=
  match ops, rest with
  | op :: ops, e :: rest => do
    let w ← evalE P W e env
    let r ← compareOp P W op v w
    match ops with
    | [] => pure r
    | _ => do
      let t ← truthy P W r
      if t then evalChain P W w ops rest env else pure r
  | _, _ => stuck
  partial_fixpoint

/-- The parts of an f-string. -/
def evalParts (P : Program) (W : World) (parts : List Expr) (env : Env) : M (List Char) :=
  match parts with
  | [] => pure []
  | e :: es => do
    match ← evalE P W e env with
    | .str s => do
      let t ← evalParts P W es env
      pure (s ++ t)
    | _ => stuck
  partial_fixpoint

/-- `format(v, spec)`. -/
def format (P : Program) (W : World) (spec : String) (v : Val) : M (List Char) := do
  match ← methodOf P v "__str__" with
  | some f => do
    match ← callFun P W f [v] [] with
    | .str s => if spec = "" then pure s else stuck
    | _ => raise .typeError
  | .none => formatNum W spec v
  partial_fixpoint

/-- All elements an iterator yields. -/
def collect (P : Program) (W : World) (it : Val) (i : Nat) : M (List Val) := do
  match ← nextItem it i with
  | .none => pure []
  | some v => do
    let vs ← collect P W it (i + 1)
    pure (v :: vs)
  partial_fixpoint

/-- The elements of a comprehension. -/
def compLoop (P : Program) (W : World) (elt : Expr) (p : Pat) (it : Val) (i : Nat) (env : Env) : M (List Val) := do
  match ← nextItem it i with
  | .none => pure []
  | some v => do
    let vars ← bindPat p v env.vars
    let x ← evalE P W elt { env with vars := vars }
    let xs ← compLoop P W elt p it (i + 1) env
    pure (x :: xs)
  partial_fixpoint

/-- The entries of a dict comprehension. -/
def dictLoop (P : Program) (W : World) (k e : Expr) (p : Pat) (it : Val) (i : Nat) (d : List (Val × Val)) (env : Env) :
    M (List (Val × Val)) := do
  match ← nextItem it i with
  | .none => pure d
  | some v => do
    let vars ← bindPat p v env.vars
    let x ← evalE P W k { env with vars := vars }
    let y ← evalE P W e { env with vars := vars }
    if isKey x then dictLoop P W k e p it (i + 1) (dictSet d x y) env else stuck
  partial_fixpoint

/-- A name that is no variable: bound in the module by `class`, `def` or `import`, by an assignment, or built in. -/
def globalName (P : Program) (W : World) (m x : String) : M Val :=
  match P.global 4 m x with
  | some v => pure v
  | .none =>
    match builtinName x with
    | some v => pure v
    | .none => moduleVar P W m x
  partial_fixpoint

/-- A name bound by an assignment of the module. -/
def moduleVar (P : Program) (W : World) (m x : String) : M Val := do
  let (r, h) ← isolated (execB P W (P.init m) { mod := m, vars := [("__name__", .str m.toList)] })
  match r with
  | .next e => do
    let v ← orStuck (Dict.get e.vars x)
    orStuck (freeze h 100 v)
  | _ => stuck
  partial_fixpoint

/-- Attribute reference `v.x`. -/
def getAttr (P : Program) (W : World) (v : Val) (x : String) : M Val := do
  match ← instOf v with
  | some (c, fs) =>
    match Dict.get fs x with
    | some w => pure w
    | .none =>
      if x = "__class__" then pure (.cls c)
      else match P.method c x with
        | some f => if f.deco = .property then callFun P W f [v] [] else pure (.meth v x)
        | .none => if isSpecial x then stuck else raise .attributeError
  | .none =>
    match v with
    | .cls c =>
      if x = "__name__" then pure (.str c.toList)
      else match P.method c x with
        | some _ => pure (.meth v x)
        | .none => if isSpecial x then stuck else raise .attributeError
    | .module m =>
      match stdName m x with
      | some w => pure w
      | .none => orStuck (P.global 4 m x)
    | _ => do
      let o ← objAt v
      if hasPrimAttr o v x then pure (.meth v x) else if lacksAttr x then raise .attributeError else stuck
  partial_fixpoint

/-- `iter(v)`. -/
def getIter (P : Program) (W : World) (v : Val) : M Val := do
  match ← methodOf P v "__iter__" with
  | some f => callFun P W f [v] []
  | .none => primIter v
  partial_fixpoint

/-- Truth value. -/
def truthy (P : Program) (W : World) (v : Val) : M Bool := do
  match ← methodOf P v "__len__" with
  | some f => do
    match ← callFun P W f [v] [] with
    | .int i => pure (decide (i ≠ 0))
    | _ => stuck
  | .none => do
    let o ← objAt v
    pure (primTruthy v o)
  partial_fixpoint

/-- Binary operators: the method of the left operand, if it is an instance of a class of the program (no class of the program
defines a reflected method). -/
def binary (P : Program) (W : World) (op : BinOp) (a b : Val) : M Val := do
  match ← methodOf P a op.dunder with
  | some f => callFun P W f [a, b] []
  | .none => primOp W op a b
  partial_fixpoint

/-- Comparisons. -/
def compareOp (P : Program) (W : World) (op : CmpOp) (a b : Val) : M Val :=
  match op with
  | .is => match a, b with
    | .none, .none => pure (.bool true)
    | .none, _ => pure (.bool false)
    | _, .none => pure (.bool false)
    | _, _ => stuck
  | .isNot => match a, b with
    | .none, .none => pure (.bool false)
    | .none, _ => pure (.bool true)
    | _, .none => pure (.bool true)
    | _, _ => stuck
  | .isIn => do
    let r ← contains P W a b
    pure (.bool r)
  | .notIn => do
    let r ← contains P W a b
    pure (.bool !r)
  | _ => richCmp P W op a b
  partial_fixpoint

/-- `a in b`. -/
def contains (P : Program) (W : World) (a b : Val) : M Bool := do
  match ← dictHas b a with
  | some r => pure r
  | .none =>
    match b with
    | .str _ => stuck
    | .bytes _ => stuck
    | _ => do
      let it ← getIter P W b
      anyEq P W a it 0
  partial_fixpoint

/-- Whether an iterator yields an element equal to `a`. -/
def anyEq (P : Program) (W : World) (a it : Val) (i : Nat) : M Bool := do
  match ← nextItem it i with
  | .none => pure false
  | some v => do
    let r ← richCmp P W .eq v a
    let t ← truthy P W r
    if t then pure true else anyEq P W a it (i + 1)
  partial_fixpoint

/-- `==`, `!=`, `<`, `<=`, `>` and `>=`: tuples are compared element by element, instances by their methods (`!=` inverts
`__eq__`), the method of the right operand being tried after that of the left one. -/
def richCmp (P : Program) (W : World) (op : CmpOp) (a b : Val) : M Val :=
  match a, b with
  | .tuple l, .tuple m => do
    let r ← tupleCmp P W op l m
    pure (.bool r)
  | _, _ => do
    match ← methodOf P a op.dunder with
    | some f => do
      let r ← callFun P W f [a, b] []
      if op = .ne then do
        let t ← truthy P W r
        pure (.bool !t)
      else pure r
    | .none => do
      match ← methodOf P b op.reflected with
      | some f => do
        let r ← callFun P W f [b, a] []
        if op = .ne then do
          let t ← truthy P W r
          pure (.bool !t)
        else pure r
      | .none => cmpPrim op a b
  partial_fixpoint

/-- Comparison of tuples: the first elements that are not equal decide, if there are none the lengths do. -/
def tupleCmp (P : Program) (W : World) (op : CmpOp) (l m : List Val) : M Bool :=
  match l, m with
  | x :: l, y :: m => do
    let r ← richCmp P W .eq x y
    let t ← truthy P W r
    if t then tupleCmp P W op l m
    else match op with
      | .eq => pure false
      | .ne => pure true
      | _ => do
        let r ← richCmp P W op x y
        truthy P W r
  | [], [] => orStuck (intCmp op 0 0)
  | [], _ :: _ => orStuck (intCmp op 0 1)
  | _ :: _, [] => orStuck (intCmp op 1 0)
  partial_fixpoint

/-- Call a value. -/
def call (P : Program) (W : World) (f : Val) (args : List Val) (kws : List (String × Val)) : M Val :=
  match f with
  | .func m x => do
    let d ← orStuck (P.func m x)
    callFun P W d args kws
  | .cls c => construct P W c args kws
  | .excClass e => pure (.exc e)
  | .builtin b => callBuiltin P W b args kws
  | .closure name params body mod vars => do
    let vs ← bindParams P W (params.map (fun p => (p.1, some p.2))) args kws { mod := mod, vars := vars }
    let r ← execB P W body { mod := mod, vars := Dict.set (vs.foldl (fun e p => Dict.set e p.1 p.2) vars) name f }
    match r with
    | .ret v _ => pure v
    | .next _ => pure .none
    | _ => stuck
  | .meth self name => do
    match ← boundMethod P self name with
    | some d => do
      match d.deco with
      | .staticmethod => callFun P W d args kws
      | .classmethod => do
        match ← instOf self with
        | some (c, _) => callFun P W d (.cls c :: args) kws
        | .none => callFun P W d (self :: args) kws
      | _ => callFun P W d (self :: args) kws
    | .none =>
      match name with
      | "sort" => callSort P W self args kws
      | "format" => strFormat W self args kws
      | _ => match kws with
        | [] => primMeth W self name args
        | _ => stuck
  | .itemgetter _ => stuck
  | _ => raise .typeError
  partial_fixpoint

/-- Call a function of the program. -/
def callFun (P : Program) (W : World) (f : FunDef) (args : List Val) (kws : List (String × Val)) : M Val := do
  let vars ← bindParams P W f.params args kws { mod := f.mod, vars := [] }
  if f.gen then pure (.gen f.mod f.body vars)
  else do
    match ← execB P W f.body { mod := f.mod, vars := vars } with
    | .ret v _ => pure v
    | .next _ => pure .none
    | _ => stuck
  partial_fixpoint

/-- Bind parameters: positional arguments, then keywords, then defaults. -/
def bindParams (P : Program) (W : World) (ps : List (String × Option Expr)) (args : List Val) (kws : List (String × Val))
    (env : Env) : M (List (String × Val)) :=
  match ps, args with
  | [], [] => match kws with
    | [] => pure []
    | _ => raise .typeError
  | [], _ :: _ => raise .typeError
  | (x, _) :: ps, v :: vs =>
    match Dict.get kws x with
    | some _ => raise .typeError
    | .none => do
      let r ← bindParams P W ps vs kws env
      pure ((x, v) :: r)
  | (x, d) :: ps, [] =>
    match Dict.get kws x with
    | some v => do
      let r ← bindParams P W ps [] (Dict.del kws x) env
      pure ((x, v) :: r)
    | .none =>
      match d with
      | some e => do
        let v ← evalE P W e env
        let r ← bindParams P W ps [] kws env
        pure ((x, v) :: r)
      | .none => raise .typeError
  partial_fixpoint

/-- Make an instance of a class of the program: a data class has its fields as parameters, the other classes have
`__init__`. -/
def construct (P : Program) (W : World) (c : String) (args : List Val) (kws : List (String × Val)) : M Val := do
  let d ← orStuck (P.classOf c)
  match P.method c "__init__" with
  | .none => do
    let fs ← bindParams P W (d.fields.map (fun x => (x, .none))) args kws { mod := d.mod, vars := [] }
    pure (.obj c fs)
  | some f =>
    if d.mutable then do
      let a ← alloc (.inst c [])
      let _ ← callFun P W f (.ref a :: args) kws
      pure (.ref a)
    else do
      let vars ← bindParams P W f.params (.obj c [] :: args) kws { mod := f.mod, vars := [] }
      match ← execB P W f.body { mod := f.mod, vars := vars } with
      | .next e => orStuck (Dict.get e.vars "self")
      | _ => stuck
  partial_fixpoint

/-- Built-in functions. -/
def callBuiltin (P : Program) (W : World) (b : Builtin) (args : List Val) (kws : List (String × Val)) : M Val :=
  match kws with
  | _ :: _ => stuck
  | [] =>
    match b, args with
    | .len, [v] => do
      match ← methodOf P v "__len__" with
      | some f => callFun P W f [v] []
      | .none => primLen v
    | .abs, [v] => do
      match ← methodOf P v "__abs__" with
      | some f => callFun P W f [v] []
      | .none => primAbs v
    | .str, [v] => do
      let s ← format P W "" v
      pure (.str s)
    | .repr, [v] => do
      match ← methodOf P v "__repr__" with
      | some f => callFun P W f [v] []
      | .none => stuck
    | .isinstance, [v, c] => do
      let r ← isInstance P v c
      pure (.bool r)
    | .iter, [v] => getIter P W v
    | .zip, [v, w] => do
      let a ← getIter P W v
      let b ← getIter P W w
      pure (.zip a b)
    | .sum, [v] => do
      let it ← getIter P W v
      sumLoop P W it 0 (.int 0)
    | .heappush, [.ref a, v] => do
      match ← load a with
      | .list l => do
        let m ← sift P W (l ++ [v]) l.length
        store a (.list m)
        pure .none
      | _ => raise .typeError
    | _, _ => primCall W b args
  partial_fixpoint

/-- `sum`. -/
def sumLoop (P : Program) (W : World) (it : Val) (i : Nat) (acc : Val) : M Val := do
  match ← nextItem it i with
  | .none => pure acc
  | some v => do
    let r ← binary P W .add acc v
    sumLoop P W it (i + 1) r
  partial_fixpoint

/-- `heapq._siftdown(heap, 0, pos)`: swap an element with its parent as long as it is less. -/
def sift (P : Program) (W : World) (l : List Val) (pos : Nat) : M (List Val) :=
  if pos = 0 then pure l
  else
    match l[pos]?, l[(pos - 1) / 2]? with
    | some x, some y => do
      let r ← richCmp P W .lt x y
      let t ← truthy P W r
      if t then sift P W ((l.set pos y).set ((pos - 1) / 2) x) ((pos - 1) / 2) else pure l
    | _, _ => stuck
  partial_fixpoint

/-- `list.sort()` and `list.sort(key=itemgetter(i))`. -/
def callSort (P : Program) (W : World) (self : Val) (args : List Val) (kws : List (String × Val)) : M Val :=
  match self, args, kws with
  | .ref a, [], [] => do
    match ← load a with
    | .list l => do
      let t ← noRaise (sortTable P W l l)
      store a (.list (sortByTable W t l))
      pure .none
    | _ => stuck
  | .ref a, [], [("key", .itemgetter k)] => do
    match ← load a with
    | .list l => do
      let ks ← sortKeys P W k l
      let t ← noRaise (sortTable P W ks ks)
      store a (.list (sortByTable W t l))
      pure .none
    | _ => stuck
  | _, _, _ => stuck
  partial_fixpoint

/-- The keys of a sort. -/
def sortKeys (P : Program) (W : World) (k : Nat) (l : List Val) : M (List Val) :=
  match l with
  | [] => pure []
  | v :: vs => do
    let x ← getItem v (.int k)
    let xs ← sortKeys P W k vs
    pure (x :: xs)
  partial_fixpoint

/-- The outcomes of all comparisons of elements of `l` with elements of `m`. -/
def sortTable (P : Program) (W : World) (l m : List Val) : M (List (List Bool)) :=
  match l with
  | [] => pure []
  | x :: xs => do
    let r ← sortRow P W x m
    let t ← sortTable P W xs m
    pure (r :: t)
  partial_fixpoint

/-- The outcomes of the comparisons of `x` with elements of `m`. -/
def sortRow (P : Program) (W : World) (x : Val) (m : List Val) : M (List Bool) :=
  match m with
  | [] => pure []
  | y :: ys => do
    let v ← richCmp P W .lt x y
    let t ← truthy P W v
    let r ← sortRow P W x ys
    pure (t :: r)
  partial_fixpoint

/-- Execute a statement. -/
def execS (P : Program) (W : World) (s : Stmt) (env : Env) : M Flow :=
  match s with
  | .expr e => do
    let _ ← evalE P W e env
    pure (.next env)
  | .assign t e => do
    let v ← evalE P W e env
    let env ← assign P W t v env
    pure (.next env)
  | .aug t op e =>
    match t with
    | .name x => do
      let v ← evalE P W (.name x) env
      let w ← evalE P W e env
      let r ← binary P W op v w
      let env ← setVar env x r
      pure (.next env)
    | .attr a x => do
      let o ← evalE P W a env
      let v ← getAttr P W o x
      let w ← evalE P W e env
      let r ← binary P W op v w
      setAttr o x r
      pure (.next env)
    | _ => stuck
  | .ret e => do
    let v ← evalE P W e env
    pure (.ret v env)
  | .ite c a b => do
    let v ← evalE P W c env
    let t ← truthy P W v
    if t then execB P W a env else execB P W b env
  | .while c body => whileLoop P W c body env
  | .for p it body => do
    let v ← evalE P W it env
    let i ← getIter P W v
    match i with
    | .gen m b vars => do
      let r ← execB P W b { mod := m, vars := vars, consumer := some ⟨env.mod, env.vars, p, body⟩ }
      match r with
      | .next e => match e.consumer with
        | some c => pure (.next { env with vars := c.vars })
        | .none => stuck
      | _ => stuck
    | _ => forLoop P W p body i 0 env
  | .raise e => do
    match ← evalE P W e env with
    | .exc x => raise x
    | _ => stuck
  | .assert e => do
    let v ← evalE P W e env
    let t ← truthy P W v
    if t then pure (.next env) else raise .assertionError
  | .del t =>
    match t with
    | .index a i => do
      let v ← evalE P W a env
      let k ← evalE P W i env
      delItem v k
      pure (.next env)
    | _ => stuck
  | .withAs e x body => do
    let v ← evalE P W e env
    let env ← setVar env x v
    execB P W body env
  | .defn name params nonlocals body => do
    let env ← boxVars nonlocals env
    pure (.next (env.set name (.closure name params body env.mod env.vars)))
  | .yield e => do
    let v ← evalE P W e env
    match env.consumer with
    | .none => stuck
    | some c => do
      let vars ← bindPat c.pat v c.vars
      match ← execB P W c.body { mod := c.mod, vars := vars } with
      | .next e => pure (.next { env with consumer := some { c with vars := e.vars } })
      | .cont e => pure (.next { env with consumer := some { c with vars := e.vars } })
      | _ => stuck
  | .pass => pure (.next env)
  | .break => pure (.brk env)
  | .continue => pure (.cont env)
  partial_fixpoint

/-- Execute a block. -/
def execB (P : Program) (W : World) (l : List Stmt) (env : Env) : M Flow :=
  match l with
  | [] => pure (.next env)
  | s :: ss => do
    match ← execS P W s env with
    | .next env => execB P W ss env
    | r => pure r
  partial_fixpoint

/-- Assign to a target. -/
def assign (P : Program) (W : World) (t : Target) (v : Val) (env : Env) : M Env :=
  match t with
  | .name x => setVar env x v
  | .attr a x =>
    match a with
    | .name s =>
      match Dict.get env.vars s with
      | some (.obj c fs) => pure (env.set s (.obj c (Dict.set fs x v)))
      | some w => do
        setAttr w x v
        pure env
      | .none => stuck
    | _ => stuck
  | .index a i => do
    let w ← evalE P W a env
    let k ← evalE P W i env
    setItem w k v
    pure env
  | .tuple xs => do
    let vs ← unpack v
    bindNames xs vs env
  partial_fixpoint

/-- `while`. -/
def whileLoop (P : Program) (W : World) (c : Expr) (body : List Stmt) (env : Env) : M Flow := do
  let v ← evalE P W c env
  let t ← truthy P W v
  if t then do
    match ← execB P W body env with
    | .next env => whileLoop P W c body env
    | .cont env => whileLoop P W c body env
    | .brk env => pure (.next env)
    | .ret v env => pure (.ret v env)
  else pure (.next env)
  partial_fixpoint

/-- `for`, over an iterator that has yielded `i` values. -/
def forLoop (P : Program) (W : World) (p : Pat) (body : List Stmt) (it : Val) (i : Nat) (env : Env) : M Flow := do
  match ← nextItem it i with
  | .none => pure (.next env)
  | some v => do
    let vars ← bindPat p v env.vars
    match ← execB P W body { env with vars := vars } with
    | .next env => forLoop P W p body it (i + 1) env
    | .cont env => forLoop P W p body it (i + 1) env
    | .brk env => pure (.next env)
    | .ret v env => pure (.ret v env)
  partial_fixpoint

end

end Melodia.Python
