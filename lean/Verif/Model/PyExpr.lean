/-
A subset of Python's expressions, as far as `eval(repr(x))` needs it: names, int and float literals, unary minus, pairs,
lists and calls with keyword arguments. The names Tone, Signature, Note and Track are bound to the classes of
src/melodia/core.
-/
import Verif.Model.Text

set_option autoImplicit false

namespace Melodia

/-- `repr` of floats together with reading of float literals: the text of a velocity is a float literal (digits, point,
exponent with sign), and reading it gives the velocity again. -/
structure FloatLiteral extends FloatText where
  read : List Char → Option ℚ
  first : ∀ a, 0 ≤ a → fl a = a → ∃ c cs, text a = c :: cs ∧ c.isDigit = true
  shape : ∀ a, 0 ≤ a → fl a = a → ∀ pre c post, text a = pre ++ c :: post →
    c.isDigit = true ∨ c = '.' ∨ c = 'e' ∨ ((c = '-' ∨ c = '+') ∧ pre.getLast? = some 'e')
  point : ∀ a, 0 ≤ a → fl a = a → ∃ c ∈ text a, c.isDigit = false
  roundtrip : ∀ a, 0 ≤ a → fl a = a → read (text a) = some a

/-- Tokens. -/
inductive Tok where
  | name (s : List Char)
  | num (s : List Char)
  | lpar | rpar | lbrack | rbrack | comma | equals | minus
  deriving DecidableEq

/-- Does `c` continue the word `cur`? Letters, digits, underscore and point do, signs only in exponents of numbers. -/
def continues (cur : List Char) (c : Char) : Bool :=
  c.isAlphanum || c == '_' || c == '.' ||
    ((c == '-' || c == '+') && cur.getLast? == some 'e' && (cur.head?.map Char.isDigit).getD false)

/-- The token of a complete word. -/
def wordTok : List Char → List Tok
  | [] => []
  | c :: cs => if c.isDigit then [.num (c :: cs)] else [.name (c :: cs)]

/-- Punctuation; blanks give no token. -/
def punctTok (c : Char) : Option (List Tok) :=
  if c = '(' then some [.lpar] else if c = ')' then some [.rpar]
  else if c = '[' then some [.lbrack] else if c = ']' then some [.rbrack]
  else if c = ',' then some [.comma] else if c = '=' then some [.equals]
  else if c = '-' then some [.minus] else if c = ' ' then some []
  else none

/-- Splitting a text into tokens; `cur` is the word read so far. -/
def tokens (cur : List Char) : List Char → Option (List Tok)
  | [] => some (wordTok cur)
  | c :: cs =>
    if continues cur c then tokens (cur ++ [c]) cs
    else do
      let p ← punctTok c
      let rest ← tokens [] cs
      pure (wordTok cur ++ p ++ rest)

mutual
/-- Expressions. -/
inductive PyExpr where
  | num (s : List Char)
  | neg (e : PyExpr)
  | pair (a b : PyExpr)
  | list (items : PyItems)
  | call (f : List Char) (args : PyItems)
/-- Elements of lists and arguments of calls, with keywords. -/
inductive PyItems where
  | nil
  | cons (key : Option (List Char)) (e : PyExpr) (rest : PyItems)
end

/-- The keyword of an argument of a call, if there is one. -/
def splitKey (close : Tok) (toks : List Tok) : Option (List Char) × List Tok :=
  match close, toks with
  | .rpar, .name k :: .equals :: r => (some k, r)
  | _, _ => (none, toks)

mutual
/-- Recursive descent; the first argument bounds the number of steps. -/
def parseExpr : Nat → List Tok → Option (PyExpr × List Tok)
  | _ + 1, .num s :: r => some (.num s, r)
  | fuel + 1, .minus :: r => do
    let (e, r) ← parseExpr fuel r
    pure (.neg e, r)
  | fuel + 1, .lpar :: r => do
    let (a, r) ← parseExpr fuel r
    if r.head? = some .comma then do
      let (b, r) ← parseExpr fuel r.tail
      if r.head? = some .rpar then pure (.pair a b, r.tail) else none
    else none
  | fuel + 1, .lbrack :: r =>
    if r.head? = some .rbrack then some (.list .nil, r.tail)
    else do
      let (items, r) ← parseItems fuel .rbrack r
      pure (.list items, r)
  | fuel + 1, .name f :: .lpar :: r =>
    if r.head? = some .rpar then some (.call f .nil, r.tail)
    else do
      let (items, r) ← parseItems fuel .rpar r
      pure (.call f items, r)
  | _, _ => none
/-- A non-empty list of items up to the closing token. -/
def parseItems : Nat → Tok → List Tok → Option (PyItems × List Tok)
  | 0, _, _ => none
  | fuel + 1, close, toks => do
    let (e, r) ← parseExpr fuel (splitKey close toks).2
    if r.head? = some .comma then do
      let (items, r) ← parseItems fuel close r.tail
      pure (.cons (splitKey close toks).1 e items, r)
    else if r.head? = some close then pure (.cons (splitKey close toks).1 e .nil, r.tail)
    else none
end

/-- Values of expressions. -/
inductive PyValue where
  | int (i : Int)
  | float (q : ℚ)
  | pair (a b : PyValue)
  | list (items : List PyValue)
  | tone (t : Tone)
  | signature (s : Signature)
  | note (n : Note)
  | track (t : Track)

/-- As argument `tone` of `Note` (src/melodia/core/note.py:13-41). -/
def PyValue.toToneArg : PyValue → ToneArg
  | .int i => .int i
  | .tone t => .tone t
  | _ => .other

/-- As argument `duration`, `signature` or `where`. -/
def PyValue.toSigArg : PyValue → SigArg
  | .pair (.int a) (.int b) => .ints [a, b]
  | .signature s => .sig s
  | _ => .other

/-- The elements of `content` (src/melodia/core/track.py:44-46). -/
def contentArgs : List PyValue → PyM (List (What × Option SigArg))
  | [] => .ok []
  | .pair (.note n) p :: rest => do
    let more ← contentArgs rest
    pure ((.note n, some p.toSigArg) :: more)
  | _ :: _ => .error .typeError

/-- Calls of the four classes (src/melodia/core/tone.py, signature.py, note.py, track.py: `__init__`) with the arguments that
occur in the text forms; other calls are outside the subset. -/
def callClass [UnicodeDigits] (f : List Char) (args : List (Option (List Char) × PyValue)) : PyM PyValue :=
  if f = "Tone".toList then
    match args with
    | [(some k, v)] =>
      if k = "pitch".toList then do
        let t ← match v with
          | .int i => Tone.new (.int i)
          | _ => Tone.new .other
        pure (.tone t)
      else .error .typeError
    | _ => .error .typeError
  else if f = "Signature".toList then
    match args with
    | [(none, .int n), (none, .int d)] => do let s ← Signature.new n d; pure (.signature s)
    | _ => .error .typeError
  else if f = "Note".toList then
    match args with
    | [(some k1, t), (some k2, d), (some k3, .float v)] =>
      if k1 = "tone".toList ∧ k2 = "duration".toList ∧ k3 = "velocity".toList then do
        let n ← Note.new t.toToneArg d.toSigArg (.fin v)
        pure (.note n)
      else .error .typeError
    | _ => .error .typeError
  else if f = "Track".toList then
    match args with
    | [(some k1, s), (some k2, .list items)] =>
      if k1 = "signature".toList ∧ k2 = "content".toList then do
        let content ← contentArgs items
        let t ← Track.new s.toSigArg content
        pure (.track t)
      else .error .typeError
    | _ => .error .typeError
  else .error .attributeError

/-- Positional value of ASCII digits. -/
def literalVal (s : List Char) : Nat := s.foldl (fun acc c => 10 * acc + (c.toNat - 48)) 0

mutual
/-- Evaluation. -/
def PyExpr.eval [UnicodeDigits] (F : FloatLiteral) : PyExpr → PyM PyValue
  | .num s =>
    if s.all Char.isDigit then .ok (.int (literalVal s))
    else match F.read s with
      | some q => .ok (.float q)
      | none => .error .valueError
  | .neg e => do
    let v ← e.eval F
    match v with
    | .int i => .ok (.int (-i))
    | .float q => .ok (.float (-q))
    | _ => .error .typeError
  | .pair a b => do
    let x ← a.eval F
    let y ← b.eval F
    pure (.pair x y)
  | .list items => do
    let vs ← items.eval F
    pure (.list (vs.map Prod.snd))
  | .call f args => do
    let vs ← args.eval F
    callClass f vs
/-- Evaluation from left to right. -/
def PyItems.eval [UnicodeDigits] (F : FloatLiteral) : PyItems → PyM (List (Option (List Char) × PyValue))
  | .nil => .ok []
  | .cons key e rest => do
    let v ← e.eval F
    let vs ← rest.eval F
    pure ((key, v) :: vs)
end

/-- `eval(text)`; `none` if the text is not an expression of the subset. -/
def evalText [UnicodeDigits] (F : FloatLiteral) (text : List Char) : Option (PyM PyValue) := do
  let toks ← tokens [] text
  let (e, rest) ← parseExpr (toks.length + 1) toks
  if rest = [] then some (e.eval F) else none

end Melodia
