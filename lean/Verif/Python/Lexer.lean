/-
A lexer for the part of Python that the source files of melodia use (Python Language Reference, chapter 2: logical lines,
indentation, names, numbers, string literals, operators). It refuses everything it does not know: the result is then `none`.

Characters are handled as their codes; source files are ASCII.
-/
import Verif.Model.Py

set_option autoImplicit false

namespace Melodia.Python

/-- `c!"abc"` is the list of the character codes of `abc`. -/
macro:max "c!" s:str : term => do
  let codes ← s.getString.toList.toArray.mapM fun c => `($(Lean.Syntax.mkNumLit (toString c.toNat)))
  `(([$codes,*] : List Nat))

/-- The codes of a line of a source file: its bytes. -/
def lineCodes (s : String) : List Nat := s.toByteArray.data.toList.map UInt8.toNat

/-- The string with these codes. -/
def strOf (l : List Nat) : String := String.ofList (l.map Char.ofNat)

/-- Equality of texts. -/
def eqText : List Nat → List Nat → Bool
  | [], [] => true
  | a :: l, b :: m => Nat.beq a b && eqText l m
  | _, _ => false

/-- Whether a text is among some. -/
def memText (l : List Nat) : List (List Nat) → Bool
  | [] => false
  | m :: ms => eqText l m || memText l ms

/-- What follows a prefix. -/
def dropPrefix : List Nat → List Nat → Option (List Nat)
  | [], l => some l
  | a :: p, b :: l => if Nat.beq a b then dropPrefix p l else none
  | _ :: _, [] => none

/-- Tokens. Names and keywords are `name`. -/
inductive Tok where
  | name (s : List Nat)
  | int (n : Nat)
  | float (num den : Nat)
  | str (s : List Nat)
  | bytes (s : List Nat)
  /-- An f-string with its contents between the quotes. -/
  | fstr (s : List Nat)
  | op (s : List Nat)
  | newline
  | indent
  | dedent

/-- Whether `a ≤ c ≤ b`. -/
def between (a b c : Nat) : Bool := Nat.ble a c && Nat.ble c b

def isDigit (c : Nat) : Bool := between 48 57 c

/-- Letters and the underscore. -/
def isAlpha (c : Nat) : Bool := between 97 122 c || between 65 90 c || Nat.beq c 95

def isWord (c : Nat) : Bool := isAlpha c || isDigit c

/-- The value of a hexadecimal digit. -/
def hexDigit (c : Nat) : Option Nat :=
  if isDigit c then some (c - 48)
  else if between 97 102 c then some (c - 87)
  else if between 65 70 c then some (c - 55)
  else none

/-- The longest prefix of characters with a property, and what follows. -/
def spanText (p : Nat → Bool) : List Nat → List Nat × List Nat
  | [] => ([], [])
  | c :: l => if p c then (match spanText p l with | (a, b) => (c :: a, b)) else ([], c :: l)

/-- A decimal number. -/
def decimal (l : List Nat) : Nat := l.foldl (fun n c => 10 * n + (c - 48)) 0

/-- A hexadecimal number. -/
def hexNumber : Nat → List Nat → Option Nat
  | n, [] => some n
  | n, c :: l => match hexDigit c with
    | some d => hexNumber (16 * n + d) l
    | none => none

/-- The float nearest to `num / den` in lowest terms, of two equally near ones that with the even significand (Language Reference
2.6.6, IEEE 754): the significand has 53 bits. Only below `2 ^ 53` and in the range of normal floats. -/
def nearestFloat (num den : Nat) : Option (Nat × Nat) :=
  if Nat.beq num 0 then some (0, 1)
  else if Nat.ble (Nat.log2 num) (52 + Nat.log2 den) then
    let s := 53 + Nat.log2 den - Nat.log2 num
    let s := if Nat.ble (2 ^ 53) (num * 2 ^ s / den) then s - 1 else s
    if Nat.ble s 1074 then
      let m := num * 2 ^ s / den
      let r := 2 * (num * 2 ^ s % den)
      let m := if Nat.blt den r || (Nat.beq den r && Nat.beq (m % 2) 1) then m + 1 else m
      let g := Nat.gcd m (2 ^ s)
      some (m / g, 2 ^ s / g)
    else none
  else none

/-- A float literal `a.b`. -/
def floatTok (a b : List Nat) : Option Tok :=
  match nearestFloat (decimal (a ++ b)) (10 ^ b.length) with
  | some (num, den) => some (.float num den)
  | none => none

/-- Number literals (Language Reference 2.6.4 to 2.6.6): `0x` and hexadecimal digits, decimal integers without superfluous
zeros, and floats `a.b`. -/
def lexNumber (l : List Nat) : Option (Tok × List Nat) :=
  match spanText isWord l with
  | (w, rest) =>
    match dropPrefix c!"0x" w with
    | some (h :: hs) => match hexNumber 0 (h :: hs) with
      | some n => some (.int n, rest)
      | none => none
    | _ =>
      if w.all isDigit then
        match dropPrefix c!"." rest with
        | some rest' => match spanText isWord rest' with
          | (f, rest'') =>
            if f.all isDigit && !f.isEmpty then
              match floatTok w f with
              | some t => some (t, rest'')
              | none => none
            else none
        | none =>
          if eqText w c!"0" || !(eqText (w.take 1) c!"0") then some (.int (decimal w), rest) else none
      else none

/-- The contents of a string literal that is closed by the quote `q` on the same line, and what follows; escape sequences are
replaced unless the literal is raw (Language Reference 2.5.1). Only ASCII characters: the lexer works on the bytes of the
text. -/
def lexString (raw : Bool) (q : Nat) : List Nat → Option (List Nat × List Nat)
  | [] => none
  | c :: l =>
    if Nat.beq c q then some ([], l)
    else if Nat.ble 128 c then none
    else if Nat.beq c 92 then
      match l with
      | [] => none
      | d :: l' =>
        if Nat.ble 128 d then none
        else if raw then match lexString raw q l' with
          | some (s, r) => some (c :: d :: s, r)
          | none => none
        else if Nat.beq d 92 || Nat.beq d 39 || Nat.beq d 34 then match lexString raw q l' with
          | some (s, r) => some (d :: s, r)
          | none => none
        else if Nat.beq d 110 then match lexString raw q l' with
          | some (s, r) => some (10 :: s, r)
          | none => none
        else if Nat.beq d 120 then match l' with
          | a :: b :: l'' => match hexNumber 0 [a, b], lexString raw q l'' with
            | some n, some (s, r) => some (n :: s, r)
            | _, _ => none
          | _ => none
        else none
    else match lexString raw q l with
      | some (s, r) => some (c :: s, r)
      | none => none

/-- The contents of a string literal in triple quotes up to its end, or all of the line if it does not end there. Of the escape
sequences only those for quotes and the backslash, and only ASCII characters. -/
def lexTriple (acc : List Nat) : List Nat → Option (List Nat × Option (List Nat))
  | [] => some (acc.reverse, none)
  | c :: l =>
    match dropPrefix c!"\"\"\"" (c :: l) with
    | some rest => some (acc.reverse, some rest)
    | none =>
      if Nat.ble 128 c then none
      else if Nat.beq c 92 then
        match l with
        | d :: l' => if Nat.beq d 92 || Nat.beq d 39 || Nat.beq d 34 then lexTriple (d :: acc) l' else none
        | [] => none
      else lexTriple (c :: acc) l

/-- Operators and delimiters (Language Reference 2.7 and 2.8), longest first. -/
def operators : List (List Nat) := [
  c!"**=", c!"//=", c!"<<=", c!">>=",
  c!"**", c!"//", c!"<<", c!">>", c!"<=", c!">=", c!"==", c!"!=", c!"->", c!"+=", c!"-=", c!"*=", c!"/=", c!"%=", c!"&=",
  c!"|=", c!"^=", c!":=",
  c!"(", c!")", c!"[", c!"]", c!"{", c!"}", c!",", c!":", c!".", c!"=", c!"+", c!"-", c!"*", c!"/", c!"%", c!"&", c!"|",
  c!"^", c!"~", c!"<", c!">", c!"@", c!";"]

/-- The first operator that is a prefix. -/
def lexOperator : List (List Nat) → List Nat → Option (List Nat × List Nat)
  | [], _ => none
  | o :: os, l => match dropPrefix o l with
    | some rest => some (o, rest)
    | none => lexOperator os l

/-- The state of the lexer between lines: the number of open brackets, the contents so far of a string literal in triple quotes
that is still open, the stack of indentations, and the tokens so far, last first. -/
structure LexState where
  depth : Nat
  triple : Option (List Nat)
  indents : List Nat
  toks : List Tok

/-- Add a token. -/
def LexState.push (s : LexState) (t : Tok) : LexState := { s with toks := t :: s.toks }

/-- Add an operator, counting brackets. -/
def LexState.pushOp (s : LexState) (o : List Nat) : Option LexState :=
  if memText o [c!"(", c!"[", c!"{"] then some { s with depth := s.depth + 1, toks := .op o :: s.toks }
  else if memText o [c!")", c!"]", c!"}"] then
    match s.depth with
    | 0 => none
    | d + 1 => some { s with depth := d, toks := .op o :: s.toks }
  else some (s.push (.op o))

/-- Add a string literal with the given prefix. -/
def LexState.pushStr (s : LexState) (pre body : List Nat) : Option LexState :=
  if eqText pre c!"" || eqText pre c!"r" then some (s.push (.str body))
  else if eqText pre c!"b" then some (s.push (.bytes body))
  else if eqText pre c!"f" then some (s.push (.fstr body))
  else none

/-- The rest of a line, at most `n` tokens of it. -/
def lexLine : Nat → LexState → List Nat → Option LexState
  | 0, _, _ => none
  | _ + 1, s, [] => if Nat.beq s.depth 0 then some (s.push .newline) else some s
  | n + 1, s, c :: l =>
    if Nat.beq c 32 then lexLine n s l
    else if Nat.beq c 35 then lexLine n s []
    else if isDigit c then
      match lexNumber (c :: l) with
      | some (t, rest) => lexLine n (s.push t) rest
      | none => none
    else
      match spanText isWord (c :: l) with
      | (w, rest) =>
        match rest with
        | q :: rest' =>
          if Nat.beq q 39 || (Nat.beq q 34 && !w.isEmpty) then
            if eqText (rest.take 3) [q, q, q] then none
            else match lexString (eqText w c!"r") q rest' with
            | some (body, r) => match s.pushStr w body with
              | some s' => lexLine n s' r
              | none => none
            | none => none
          else if Nat.beq q 34 then
            match dropPrefix c!"\"\"\"" rest with
            | some r => match lexTriple [] r with
              | some (body, some r') => lexLine n (s.push (.str body)) r'
              | some (body, none) => some { s with triple := some body }
              | none => none
            | none => match lexString false q rest' with
              | some (body, r) => lexLine n (s.push (.str body)) r
              | none => none
          else if w.isEmpty then
            match lexOperator operators rest with
            | some (o, r) => match s.pushOp o with
              | some s' => lexLine n s' r
              | none => none
            | none => none
          else lexLine n (s.push (.name w)) rest
        | [] => lexLine n (s.push (.name w)) []

/-- Close the indentations larger than `n`; the enclosing one must be `n`. -/
def dedents (n : Nat) (toks : List Tok) : List Nat → Option (List Nat × List Tok)
  | [] => if Nat.beq n 0 then some ([], toks) else none
  | i :: is => if Nat.blt n i then dedents n (.dedent :: toks) is else if Nat.beq n i then some (i :: is, toks) else none

/-- Indentation (Language Reference 2.1.8): the stack and the tokens after a logical line with `n` leading spaces has begun. -/
def indentation (n : Nat) (s : LexState) : Option LexState :=
  if Nat.blt (s.indents.headD 0) n then some { s with indents := n :: s.indents, toks := .indent :: s.toks }
  else match dedents n s.toks s.indents with
    | some (is, toks) => some { s with indents := is, toks := toks }
    | none => none

/-- One physical line: the continuation of an open string literal, the continuation of a logical line, a blank line, or the
beginning of a logical line. -/
def physicalLine (s : LexState) (l : List Nat) : Option LexState :=
  match s.triple with
  | some body =>
    match lexTriple (10 :: body.reverse) l with
    | some (body', some rest) => lexLine (l.length + 1) { s.push (.str body') with triple := none } rest
    | some (body', none) => some { s with triple := some body' }
    | none => none
  | none =>
    match spanText (Nat.beq 32) l with
    | (sp, rest) =>
      match rest with
      | [] => some s
      | c :: _ =>
        if Nat.beq c 35 then some s
        else if Nat.beq s.depth 0 then
          match indentation sp.length s with
          | some s' => lexLine (l.length + 1) s' rest
          | none => none
        else lexLine (l.length + 1) s rest

/-- All lines of a file. -/
def lexLines : List String → LexState → Option LexState
  | [], s => some s
  | l :: ls, s => match physicalLine s (lineCodes l) with
    | some s' => lexLines ls s'
    | none => none

/-- The tokens of a file. -/
def tokens (lines : List String) : Option (List Tok) :=
  match lexLines lines ⟨0, none, [], []⟩ with
  | some ⟨0, none, is, toks⟩ => match dedents 0 toks is with
    | some (_, toks') => some toks'.reverse
    | none => none
  | _ => none

end Melodia.Python
