/-
A recursive descent parser for the part of Python that the source files of melodia use (Python Language Reference, chapters 6
to 8), from tokens to the abstract syntax of Verif/Python/Syntax.lean. It refuses everything it does not know: the result is
then `none`.

Docstrings, comments and annotations are read and left out.
-/
import Verif.Python.Lexer
import Verif.Python.Syntax

set_option autoImplicit false

namespace Melodia.Python

/-- A parser: what it has read and the tokens that follow, or `none`. -/
abbrev Parser (α : Type) := List Tok → Option (α × List Tok)

/-! ## Tokens -/

/-- What follows the operator `o`. -/
def takeOp (o : List Nat) : List Tok → Option (List Tok)
  | .op p :: ts => if eqText o p then some ts else none
  | _ => none

/-- What follows the keyword `k`. -/
def takeWord (k : List Nat) : List Tok → Option (List Tok)
  | .name p :: ts => if eqText k p then some ts else none
  | _ => none

/-- What follows the end of a logical line. -/
def takeLine : List Tok → Option (List Tok)
  | .newline :: ts => some ts
  | _ => none

/-- Keywords (Language Reference 2.3.1). -/
def keywords : List (List Nat) := [
  c!"False", c!"await", c!"else", c!"import", c!"pass", c!"None", c!"break", c!"except", c!"in", c!"raise", c!"True",
  c!"class", c!"finally", c!"is", c!"return", c!"and", c!"continue", c!"for", c!"lambda", c!"try", c!"as", c!"def", c!"from",
  c!"nonlocal", c!"while", c!"assert", c!"del", c!"global", c!"not", c!"with", c!"async", c!"elif", c!"if", c!"or", c!"yield"]

/-- A name that is no keyword. -/
def identifier : Parser String
  | .name s :: ts => if memText s keywords then none else some (strOf s, ts)
  | _ => none

/-! ## Expressions

Each level takes the parser of the expressions inside brackets as an argument. -/

/-- `p sep p sep …`, at most `n` times; a trailing separator is allowed. Returns whether there was a separator. -/
def sepBy {α : Type} (p : Parser α) (sep : List Nat) : Nat → List Tok → Option ((List α × Bool) × List Tok)
  | 0, _ => none
  | n + 1, ts => match p ts with
    | some (a, ts) => match takeOp sep ts with
      | some ts => match sepBy p sep n ts with
        | some ((l, _), ts) => some ((a :: l, true), ts)
        | none => some (([a], true), ts)
      | none => some (([a], false), ts)
    | none => none

/-- One expression, or a tuple of expressions without parentheses. -/
def exprList (e : Parser Expr) : Parser Expr := fun ts =>
  match sepBy e c!"," (ts.length + 1) ts with
  | some (([a], false), ts) => some (a, ts)
  | some ((l, _), ts) => some (.tuple l, ts)
  | none => none

/-- Targets of loops, nested at most `n` deep: a name, a target in parentheses, or targets separated by commas. -/
def pattern : Nat → Parser Pat
  | 0, _ => none
  | n + 1, ts =>
    match sepBy (fun ts => match takeOp c!"(" ts with
      | some ts => match pattern n ts with
        | some (p, ts) => match takeOp c!")" ts with
          | some ts => some (p, ts)
          | none => none
        | none => none
      | none => match identifier ts with
        | some (x, ts) => some (.name x, ts)
        | none => none) c!"," (ts.length + 1) ts with
    | some (([p], false), ts) => some (p, ts)
    | some ((l, _), ts) => some (.tuple l, ts)
    | none => none

/-- `for p in e` -/
def forClause (e : Parser Expr) : Parser (Pat × Expr) := fun ts =>
  match takeWord c!"for" ts with
  | some ts => match pattern 100 ts with
    | some (p, ts) => match takeWord c!"in" ts with
      | some ts => match e ts with
        | some (it, ts) => some ((p, it), ts)
        | none => none
      | none => none
    | none => none
  | none => none

/-- `for p in e` in a comprehension; a conditional expression is not allowed (nor accepted here in parentheses). -/
def compClause (e : Parser Expr) : Parser (Pat × Expr) := fun ts =>
  match forClause e ts with
  | some ((_, .cond _ _ _), _) => none
  | r => r

/-- An argument of a call: positional, starred or with a keyword. -/
def argument (e : Parser Expr) : Parser (Option String × Expr) := fun ts =>
  match takeOp c!"*" ts with
  | some ts => match e ts with
    | some (a, ts) => some ((none, .star a), ts)
    | none => none
  | none => match identifier ts with
    | some (x, ts') => match takeOp c!"=" ts' with
      | some ts' => match e ts' with
        | some (a, ts) => some ((some x, a), ts)
        | none => none
      | none => match e ts with
        | some (a, ts) => some ((none, a), ts)
        | none => none
    | none => match e ts with
      | some (a, ts) => some ((none, a), ts)
      | none => none

/-- Positional arguments are to precede those with a keyword; returns all values and the keywords. -/
def splitArgs : List (Option String × Expr) → Option (List Expr × List String)
  | [] => some ([], [])
  | (none, a) :: l => match splitArgs l with
    | some (as, ks) => some (a :: as, ks)
    | none => none
  | (some k, a) :: l => match splitArgs l with
    | some (as, ks) => if Nat.beq as.length ks.length then some (a :: as, k :: ks) else none
    | none => none

/-- The arguments of a call after the opening bracket, including a single generator expression. -/
def arguments (e : Parser Expr) : Parser (List Expr × List String) := fun ts =>
  match takeOp c!")" ts with
  | some ts => some (([], []), ts)
  | none => match sepBy (argument e) c!"," (ts.length + 1) ts with
    | some (([(none, a)], false), ts) => match takeOp c!")" ts with
      | some ts => some (([a], []), ts)
      | none => match compClause e ts with
        | some ((p, it), ts) => match takeOp c!")" ts with
          | some ts => some (([.genExp a p it], []), ts)
          | none => none
        | none => none
    | some ((l, _), ts) => match takeOp c!")" ts, splitArgs l with
      | some ts, some r => some (r, ts)
      | _, _ => none
    | none => none

/-- The subscript after the opening bracket, applied to `a`. -/
def subscript (e : Parser Expr) (a : Expr) : Parser Expr := fun ts =>
  match takeOp c!":" ts with
  | some ts => match takeOp c!"]" ts with
    | some ts => some (.slice a .none .none, ts)
    | none => match e ts with
      | some (hi, ts) => match takeOp c!"]" ts with
        | some ts => some (.slice a .none hi, ts)
        | none => none
      | none => none
  | none => match sepBy e c!"," (ts.length + 1) ts with
    | some ((l, sep), ts) => match takeOp c!"]" ts with
      | some ts => match l, sep with
        | [i], false => some (.index a i, ts)
        | _, _ => some (.index a (.tuple l), ts)
      | none => match l, sep, takeOp c!":" ts with
        | [i], false, some ts => match takeOp c!"]" ts with
          | some ts => some (.slice a i .none, ts)
          | none => match e ts with
            | some (hi, ts) => match takeOp c!"]" ts with
              | some ts => some (.slice a i hi, ts)
              | none => none
            | none => none
        | _, _, _ => none
    | none => none

/-- Attribute references, subscriptions and calls after the primary `a`. -/
def trailers (e : Parser Expr) : Nat → Expr → Parser Expr
  | 0, _, _ => none
  | n + 1, a, ts => match takeOp c!"." ts with
    | some ts => match identifier ts with
      | some (x, ts) => trailers e n (.attr a x) ts
      | none => none
    | none => match takeOp c!"[" ts with
      | some ts => match subscript e a ts with
        | some (r, ts) => trailers e n r ts
        | none => none
      | none => match takeOp c!"(" ts with
        | some ts => match arguments e ts with
          | some ((as, ks), ts) => trailers e n (.call a as ks) ts
          | none => none
        | none => some (a, ts)

/-- After an opening parenthesis: a parenthesised expression, a tuple or a generator expression. -/
def parenthesised (e : Parser Expr) : Parser Expr := fun ts =>
  match takeOp c!")" ts with
  | some ts => some (.tuple [], ts)
  | none => match exprList e ts with
    | some (a, ts) => match takeOp c!")" ts with
      | some ts => some (a, ts)
      | none => match compClause e ts with
        | some ((p, it), ts) => match a, takeOp c!")" ts with
          | .tuple _, _ => none
          | _, some ts => some (.genExp a p it, ts)
          | _, none => none
        | none => none
    | none => none

/-- After an opening bracket: a list or a list comprehension. -/
def listDisplay (e : Parser Expr) : Parser Expr := fun ts =>
  match takeOp c!"]" ts with
  | some ts => some (.list [], ts)
  | none => match sepBy e c!"," (ts.length + 1) ts with
    | some ((l, sep), ts) => match takeOp c!"]" ts with
      | some ts => some (.list l, ts)
      | none => match l, sep, compClause e ts with
        | [a], false, some ((p, it), ts) => match takeOp c!"]" ts with
          | some ts => some (.comp a p it, ts)
          | none => none
        | _, _, _ => none
    | none => none

/-- `k: v` -/
def keyValue (e : Parser Expr) : Parser (Expr × Expr) := fun ts =>
  match e ts with
  | some (k, ts) => match takeOp c!":" ts with
    | some ts => match e ts with
      | some (v, ts) => some ((k, v), ts)
      | none => none
    | none => none
  | none => none

/-- After an opening brace: a dictionary or a dictionary comprehension. -/
def dictDisplay (e : Parser Expr) : Parser Expr := fun ts =>
  match takeOp c!"}" ts with
  | some ts => some (.dict [] [], ts)
  | none => match sepBy (keyValue e) c!"," (ts.length + 1) ts with
    | some ((l, sep), ts) => match takeOp c!"}" ts with
      | some ts => some (.dict (l.map Prod.fst) (l.map Prod.snd), ts)
      | none => match l, sep, compClause e ts with
        | [(k, v)], false, some ((p, it), ts) => match takeOp c!"}" ts with
          | some ts => some (.dictComp k v p it, ts)
          | none => none
        | _, _, _ => none
    | none => none

/-- A part of an f-string: text or a replacement field. -/
inductive Piece where
  | text (s : List Nat)
  | field (e : Expr) (spec : List Nat)

/-- Put text before parts. -/
def consText (s : List Nat) : List Piece → List Piece
  | .text t :: l => .text (s ++ t) :: l
  | l => match s with
    | [] => l
    | _ => .text s :: l

/-- Parts one after the other, adjacent texts being joined. -/
def joinPieces : List Piece → List Piece
  | [] => []
  | .text s :: l => consText s (joinPieces l)
  | .field e sp :: l => .field e sp :: joinPieces l

/-- A part as an expression. -/
def Piece.expr : Piece → Expr
  | .text s => .str (strOf s)
  | .field e sp => .field e (strOf sp)

/-- The parts of the contents of an f-string (Language Reference 2.5.2): text, and replacement fields `{e}` or `{e:spec}` without
braces inside. -/
def pieces (e : Parser Expr) : Nat → List Nat → Option (List Piece)
  | 0, _ => none
  | n + 1, l => match spanText (fun c => !(Nat.beq c 123 || Nat.beq c 125)) l with
    | (t, []) => some [.text t]
    | (t, b :: rest) =>
      if Nat.beq b 125 then none
      else match spanText (fun c => !(Nat.beq c 123 || Nat.beq c 125)) rest with
        | (f, b' :: rest') =>
          if Nat.beq b' 123 then none
          else match spanText (fun c => !(Nat.beq c 58)) f with
            | (src, spec) => match lexLine (src.length + 1) ⟨0, none, [], []⟩ src with
              | some ⟨0, none, [], toks⟩ => match e toks.reverse, pieces e n rest' with
                | some (a, [.newline]), some ps => some (.text t :: .field a (spec.drop 1) :: ps)
                | _, _ => none
              | _ => none
        | _ => none

/-- Adjacent string literals (Language Reference 2.5.3): their parts, and whether one of them is an f-string. -/
def strings (e : Parser Expr) : Nat → List Tok → Option ((List Piece × Bool) × List Tok)
  | 0, _ => none
  | n + 1, .str s :: ts => match strings e n ts with
    | some ((ps, f), ts) => some ((.text s :: ps, f), ts)
    | none => none
  | n + 1, .fstr s :: ts => match pieces e (s.length + 1) s, strings e n ts with
    | some qs, some ((ps, _), ts) => some ((qs ++ ps, true), ts)
    | _, _ => none
  | _ + 1, .bytes _ :: _ => none
  | _ + 1, ts => some (([], false), ts)

/-- The text of parts that are all text. -/
def plainText : List Piece → List Nat
  | .text s :: l => s ++ plainText l
  | _ => []

/-- String literals as an expression. -/
def stringExpr (e : Parser Expr) : Parser Expr := fun ts =>
  match strings e (ts.length + 1) ts with
  | some ((ps, true), ts) => some (.fstr ((joinPieces ps).map Piece.expr), ts)
  | some ((ps, false), ts) => some (.str (strOf (plainText ps)), ts)
  | none => none

/-- Atoms (Language Reference 6.2). -/
def atom (e : Parser Expr) : Parser Expr
  | .name s :: ts =>
    if eqText s c!"None" then some (.none, ts)
    else if eqText s c!"True" then some (.bool true, ts)
    else if eqText s c!"False" then some (.bool false, ts)
    else if memText s keywords then none
    else some (.name (strOf s), ts)
  | .int n :: ts => some (.int n, ts)
  | .float a b :: ts => some (.float a b, ts)
  | .bytes b :: ts => match ts with
    | .bytes _ :: _ => none
    | .str _ :: _ => none
    | .fstr _ :: _ => none
    | _ => some (.bytes (b.map UInt8.ofNat), ts)
  | .str s :: ts => stringExpr e (.str s :: ts)
  | .fstr s :: ts => stringExpr e (.fstr s :: ts)
  | .op o :: ts =>
    if eqText o c!"(" then parenthesised e ts
    else if eqText o c!"[" then listDisplay e ts
    else if eqText o c!"{" then dictDisplay e ts
    else none
  | _ => none

/-- Primaries (Language Reference 6.3). -/
def primary (e : Parser Expr) : Parser Expr := fun ts =>
  match atom e ts with
  | some (a, ts) => trailers e (ts.length + 1) a ts
  | none => none

/-- Unary operators and powers (Language Reference 6.5 and 6.6): `-a ** b` is `-(a ** b)`, and the exponent may have a sign. -/
def factor (e : Parser Expr) : Nat → Parser Expr
  | 0, _ => none
  | n + 1, ts => match takeOp c!"-" ts with
    | some ts => match factor e n ts with
      | some (a, ts) => some (.un .neg a, ts)
      | none => none
    | none => match takeOp c!"+" ts with
      | some ts => match factor e n ts with
        | some (a, ts) => some (.un .pos a, ts)
        | none => none
      | none => match primary e ts with
        | some (a, ts) => match takeOp c!"**" ts with
          | some ts => match factor e n ts with
            | some (b, ts) => some (.bin .pow a b, ts)
            | none => none
          | none => some (a, ts)
        | none => none

/-- Levels of binaryExpr operators, weakest first (Language Reference 6.7 to 6.9). -/
def binaryLevels : List (List (List Nat × BinOp)) := [
  [(c!"|", .bor)], [(c!"&", .band)], [(c!"<<", .shl), (c!">>", .shr)], [(c!"+", .add), (c!"-", .sub)],
  [(c!"*", .mul), (c!"/", .div), (c!"//", .floorDiv), (c!"%", .mod)]]

/-- An operator of a table. -/
def tableOp (table : List (List Nat × BinOp)) : Parser BinOp := fun ts =>
  match table with
  | [] => none
  | (o, b) :: table => match takeOp o ts with
    | some ts => some (b, ts)
    | none => tableOp table ts

/-- `a op b op c …` with the operands `p`, grouping to the left. -/
def chain (p : Parser Expr) (table : List (List Nat × BinOp)) : Nat → Expr → Parser Expr
  | 0, _, _ => none
  | n + 1, a, ts => match tableOp table ts with
    | some (o, ts) => match p ts with
      | some (b, ts) => chain p table n (.bin o a b) ts
      | none => none
    | none => some (a, ts)

/-- Binary operators. -/
def binaryExpr (e : Parser Expr) : List (List (List Nat × BinOp)) → Parser Expr
  | [], ts => factor e (ts.length + 1) ts
  | table :: tables, ts => match binaryExpr e tables ts with
    | some (a, ts) => chain (binaryExpr e tables) table (ts.length + 1) a ts
    | none => none

/-- Comparison operators (Language Reference 6.10). -/
def cmpOp : Parser CmpOp
  | .op o :: ts =>
    if eqText o c!"==" then some (.eq, ts)
    else if eqText o c!"!=" then some (.ne, ts)
    else if eqText o c!"<" then some (.lt, ts)
    else if eqText o c!"<=" then some (.le, ts)
    else if eqText o c!">" then some (.gt, ts)
    else if eqText o c!">=" then some (.ge, ts)
    else none
  | .name s :: ts =>
    if eqText s c!"in" then some (.isIn, ts)
    else if eqText s c!"is" then match takeWord c!"not" ts with
      | some ts => some (.isNot, ts)
      | none => some (.is, ts)
    else if eqText s c!"not" then match takeWord c!"in" ts with
      | some ts => some (.notIn, ts)
      | none => none
    else none
  | _ => none

/-- The comparisons after the first operand. -/
def comparisons (e : Parser Expr) : Nat → List Tok → Option ((List CmpOp × List Expr) × List Tok)
  | 0, _ => none
  | n + 1, ts => match cmpOp ts with
    | some (o, ts) => match binaryExpr e binaryLevels ts with
      | some (b, ts) => match comparisons e n ts with
        | some ((os, bs), ts) => some ((o :: os, b :: bs), ts)
        | none => none
      | none => none
    | none => some (([], []), ts)

/-- Chains of comparisons. -/
def comparison (e : Parser Expr) : Parser Expr := fun ts =>
  match binaryExpr e binaryLevels ts with
  | some (a, ts) => match comparisons e (ts.length + 1) ts with
    | some (([], _), ts) => some (a, ts)
    | some ((os, bs), ts) => some (.cmp a os bs, ts)
    | none => none
  | none => none

/-- Negations (Language Reference 6.11). -/
def negation (e : Parser Expr) : Nat → Parser Expr
  | 0, _ => none
  | n + 1, ts => match takeWord c!"not" ts with
    | some ts => match negation e n ts with
      | some (a, ts) => some (.un .not a, ts)
      | none => none
    | none => comparison e ts

/-- Conjunctions. -/
def conjunction (e : Parser Expr) : Nat → Parser Expr
  | 0, _ => none
  | n + 1, ts => match negation e (ts.length + 1) ts with
    | some (a, ts) => match takeWord c!"and" ts with
      | some ts => match conjunction e n ts with
        | some (b, ts) => some (.and a b, ts)
        | none => none
      | none => some (a, ts)
    | none => none

/-- Disjunctions. -/
def disjunction (e : Parser Expr) : Nat → Parser Expr
  | 0, _ => none
  | n + 1, ts => match conjunction e (ts.length + 1) ts with
    | some (a, ts) => match takeWord c!"or" ts with
      | some ts => match disjunction e n ts with
        | some (b, ts) => some (.or a b, ts)
        | none => none
      | none => some (a, ts)
    | none => none

/-- Expressions nested at most `n` deep; the outermost level is the conditional expression (Language Reference 6.13). -/
def expression : Nat → Parser Expr
  | 0, _ => none
  | n + 1, ts => match disjunction (expression n) (ts.length + 1) ts with
    | some (a, ts) => match takeWord c!"if" ts with
      | some ts => match disjunction (expression n) (ts.length + 1) ts with
        | some (c, ts) => match takeWord c!"else" ts with
          | some ts => match expression n ts with
            | some (b, ts) => some (.cond c a b, ts)
            | none => none
          | none => none
        | none => none
      | none => some (a, ts)
    | none => none

/-- Expressions. -/
def expr : Parser Expr := expression 100

/-! ## Statements -/

/-- The names of a tuple of names. -/
def namesOf : List Expr → Option (List String)
  | [] => some []
  | .name x :: l => match namesOf l with
    | some xs => some (x :: xs)
    | none => none
  | _ => none

/-- An expression as the target of an assignment. -/
def targetOf : Expr → Option Target
  | .name x => some (.name x)
  | .attr e a => some (.attr e a)
  | .index e i => some (.index e i)
  | .tuple l => match namesOf l with
    | some xs => some (.tuple xs)
    | none => none
  | _ => none

/-- Augmented assignment operators (Language Reference 7.2.1). -/
def augmented : List (List Nat × BinOp) := [
  (c!"+=", .add), (c!"-=", .sub), (c!"*=", .mul), (c!"/=", .div), (c!"//=", .floorDiv), (c!"%=", .mod), (c!"**=", .pow),
  (c!"&=", .band), (c!"|=", .bor), (c!"<<=", .shl), (c!">>=", .shr)]

/-- A statement that is left out, or a statement. -/
inductive Line where
  | nothing
  /-- `x: T` -/
  | declared (e : Expr)
  | nonlocals (l : List String)
  | stmt (s : Stmt)

/-- After an expression: an assignment, an annotated assignment, an augmented assignment, or the end of the statement. A string by
itself is left out. -/
def afterExpr (a : Expr) : Parser Line := fun ts =>
  match takeOp c!"=" ts with
  | some ts => match exprList expr ts, targetOf a with
    | some (b, ts), some t => some (.stmt (.assign t b), ts)
    | _, _ => none
  | none => match takeOp c!":" ts with
    | some ts => match expr ts with
      | some (_, ts) => match takeOp c!"=" ts with
        | some ts => match exprList expr ts, targetOf a with
          | some (b, ts), some t => some (.stmt (.assign t b), ts)
          | _, _ => none
        | none => some (.declared a, ts)
      | none => none
    | none => match tableOp augmented ts with
      | some (o, ts) => match exprList expr ts, targetOf a with
        | some (b, ts), some t => some (.stmt (.aug t o b), ts)
        | _, _ => none
      | none => match a with
        | .str _ => some (.nothing, ts)
        | _ => some (.stmt (.expr a), ts)

/-- A message is left out. -/
def message : Parser Unit := fun ts =>
  match takeOp c!"," ts with
  | some (.str _ :: ts) => some ((), ts)
  | some _ => none
  | none => some ((), ts)

/-- Simple statements (Language Reference, chapter 7), without the end of the line. -/
def simple : Parser Line := fun ts =>
  match takeWord c!"return" ts with
  | some ts => match takeLine ts with
    | some _ => some (.stmt (.ret .none), ts)
    | none => match exprList expr ts with
      | some (a, ts) => some (.stmt (.ret a), ts)
      | none => none
  | none => match takeWord c!"raise" ts with
    | some ts => match expr ts with
      | some (a, ts) => some (.stmt (.raise a), ts)
      | none => none
    | none => match takeWord c!"assert" ts with
      | some ts => match expr ts with
        | some (a, ts) => match message ts with
          | some (_, ts) => some (.stmt (.assert a), ts)
          | none => none
        | none => none
      | none => match takeWord c!"del" ts with
        | some ts => match expr ts with
          | some (a, ts) => match targetOf a with
            | some t => some (.stmt (.del t), ts)
            | none => none
          | none => none
        | none => match takeWord c!"yield" ts with
          | some ts => match exprList expr ts with
            | some (a, ts) => some (.stmt (.yield a), ts)
            | none => none
          | none => match takeWord c!"pass" ts with
            | some ts => some (.stmt .pass, ts)
            | none => match takeWord c!"break" ts with
              | some ts => some (.stmt .break, ts)
              | none => match takeWord c!"continue" ts with
                | some ts => some (.stmt .continue, ts)
                | none => match takeWord c!"nonlocal" ts with
                  | some ts => match sepBy identifier c!"," (ts.length + 1) ts with
                    | some ((l, _), ts) => some (.nonlocals l, ts)
                    | _ => none
                  | none => match exprList expr ts with
                    | some (a, ts) => afterExpr a ts
                    | none => none

/-- The beginning of an indented block: a colon, the end of the line, an indentation. -/
def opening (ts : List Tok) : Option (List Tok) :=
  match takeOp c!":" ts with
  | some (.newline :: .indent :: ts) => some ts
  | _ => none

/-- A parameter: a name, an annotation that is left out, a default value. -/
def parameter : Parser (String × Option Expr) := fun ts =>
  match identifier ts with
  | some (x, ts) =>
    match (match takeOp c!":" ts with
      | some ts => match expr ts with
        | some (_, ts) => some ts
        | none => none
      | none => some ts) with
    | some ts => match takeOp c!"=" ts with
      | some ts => match expr ts with
        | some (d, ts) => some ((x, some d), ts)
        | none => none
      | none => some ((x, none), ts)
    | none => none
  | none => none

/-- The head of a function definition after `def`, up to the beginning of its block. -/
def functionHead : Parser (String × List (String × Option Expr)) := fun ts =>
  match identifier ts with
  | some (f, ts) => match takeOp c!"(" ts with
    | some ts =>
      match (match takeOp c!")" ts with
        | some ts => some ([], ts)
        | none => match sepBy parameter c!"," (ts.length + 1) ts with
          | some ((ps, _), ts) => match takeOp c!")" ts with
            | some ts => some (ps, ts)
            | none => none
          | none => none) with
      | some (ps, ts) =>
        match (match takeOp c!"->" ts with
          | some ts => match expr ts with
            | some (_, ts) => some ts
            | none => none
          | none => some ts) with
        | some ts => match opening ts with
          | some ts => some ((f, ps), ts)
          | none => none
        | none => none
      | none => none
    | none => none
  | none => none

/-- Parameters that all have defaults. -/
def allDefaults : List (String × Option Expr) → Option (List (String × Expr))
  | [] => some []
  | (x, some d) :: l => match allDefaults l with
    | some ps => some ((x, d) :: ps)
    | none => none
  | (_, none) :: _ => none

/-- Defaults are to come last. -/
def defaultsLast : List (String × Option Expr) → Bool
  | [] => true
  | (_, none) :: l => defaultsLast l
  | (_, some _) :: l => l.all fun p => p.2.isSome

/-- The statements of a block and its `nonlocal` names. -/
def collectLines : List Line → List Stmt × List String
  | [] => ([], [])
  | .nothing :: l => collectLines l
  | .declared _ :: l => collectLines l
  | .nonlocals xs :: l => match collectLines l with
    | (ss, ys) => (ss, xs ++ ys)
  | .stmt s :: l => match collectLines l with
    | (ss, ys) => (s :: ss, ys)

/-- The statements of a block without `nonlocal`. -/
def stmtsOf (l : List Line) : Option (List Stmt) :=
  match collectLines l with
  | (ss, []) => some ss
  | _ => none

/-- Statements up to the end of a block, at most `n`. -/
def blockOf (p : Parser Line) : Nat → Parser (List Line)
  | 0, _ => none
  | _ + 1, .dedent :: ts => some ([], ts)
  | n + 1, ts => match p ts with
    | some (s, ts) => match blockOf p n ts with
      | some (l, ts) => some (s :: l, ts)
      | none => none
    | none => none

/-- A block of statements after a colon. -/
def suite (p : Parser Line) : Parser (List Stmt) := fun ts =>
  match opening ts with
  | some ts => match blockOf p (ts.length + 1) ts with
    | some (l, ts) => match stmtsOf l with
      | some ss => some (ss, ts)
      | none => none
    | none => none
  | none => none

/-- `if` after the keyword, with its `elif` and `else` parts. -/
def ifStmt (p : Parser Line) : Nat → Parser Stmt
  | 0, _ => none
  | n + 1, ts => match expr ts with
    | some (c, ts) => match suite p ts with
      | some (a, ts) => match takeWord c!"elif" ts with
        | some ts => match ifStmt p n ts with
          | some (b, ts) => some (.ite c a [b], ts)
          | none => none
        | none => match takeWord c!"else" ts with
          | some ts => match suite p ts with
            | some (b, ts) => some (.ite c a b, ts)
            | none => none
          | none => some (.ite c a [], ts)
      | none => none
    | none => none

/-- Statements nested at most `n` deep: compound statements (Language Reference, chapter 8) and lines. -/
def statement : Nat → Parser Line
  | 0, _ => none
  | n + 1, ts => match takeWord c!"if" ts with
    | some ts => match ifStmt (statement n) (ts.length + 1) ts with
      | some (s, ts) => some (.stmt s, ts)
      | none => none
    | none => match takeWord c!"while" ts with
      | some ts => match expr ts with
        | some (c, ts) => match suite (statement n) ts with
          | some (b, ts) => some (.stmt (.while c b), ts)
          | none => none
        | none => none
      | none => match forClause (exprList expr) ts with
        | some ((x, it), ts) => match suite (statement n) ts with
          | some (b, ts) => some (.stmt (.for x it b), ts)
          | none => none
        | none => match takeWord c!"with" ts with
          | some ts => match expr ts with
            | some (a, ts) => match takeWord c!"as" ts with
              | some ts => match identifier ts with
                | some (x, ts) => match suite (statement n) ts with
                  | some (b, ts) => some (.stmt (.withAs a x b), ts)
                  | none => none
                | none => none
              | none => none
            | none => none
          | none => match takeWord c!"def" ts with
            | some ts => match functionHead ts with
              | some ((f, ps), ts) => match blockOf (statement n) (ts.length + 1) ts with
                | some (l, ts) => match collectLines l, allDefaults ps with
                  | (b, xs), some ps => some (.stmt (.defn f ps xs b), ts)
                  | _, none => none
                | none => none
              | none => none
            | none => match simple ts with
              | some (s, ts) => match takeLine ts with
                | some ts => some (s, ts)
                | none => none
              | none => none

/-! ## Functions, classes and modules -/

mutual

/-- Whether a statement contains `yield`, outside of nested functions. -/
def yields : Stmt → Bool
  | .yield _ => true
  | .ite _ a b => yieldsAny a || yieldsAny b
  | .while _ b => yieldsAny b
  | .for _ _ b => yieldsAny b
  | .withAs _ _ b => yieldsAny b
  | _ => false

/-- Whether one of some statements contains `yield`. -/
def yieldsAny : List Stmt → Bool
  | [] => false
  | s :: l => yields s || yieldsAny l

end

mutual

/-- Whether a statement contains an assignment to an attribute. -/
def assignsAttr : Stmt → Bool
  | .assign (.attr _ _) _ => true
  | .aug (.attr _ _) _ _ => true
  | .ite _ a b => assignsAttrAny a || assignsAttrAny b
  | .while _ b => assignsAttrAny b
  | .for _ _ b => assignsAttrAny b
  | .withAs _ _ b => assignsAttrAny b
  | .defn _ _ _ b => assignsAttrAny b
  | _ => false

/-- Whether one of some statements contains an assignment to an attribute. -/
def assignsAttrAny : List Stmt → Bool
  | [] => false
  | s :: l => assignsAttr s || assignsAttrAny l

end

/-- A decorator: its name, and whether it has the arguments `(frozen=True)`, the only ones allowed. -/
def decorator : Parser (List Nat × Bool) := fun ts =>
  match takeOp c!"@" ts with
  | some (.name d :: ts) => match takeOp c!"(" ts with
    | some ts => match arguments expr ts with
      | some (([.bool true], [k]), .newline :: ts) => if k == "frozen" then some ((d, true), ts) else none
      | _ => none
    | none => match takeLine ts with
      | some ts => some ((d, false), ts)
      | none => none
  | _ => none

/-- The decorators of functions. -/
def decoOf (d : List Nat) : Option Deco :=
  if eqText d c!"property" then some .property
  else if eqText d c!"classmethod" then some .classmethod
  else if eqText d c!"staticmethod" then some .staticmethod
  else none

/-- A function definition after `def`, in the module `m`. -/
def function (m : String) (d : Deco) : Parser FunDef := fun ts =>
  match functionHead ts with
  | some ((f, ps), ts) => match blockOf (statement 100) (ts.length + 1) ts with
    | some (l, ts) => match stmtsOf l, defaultsLast ps with
      | some b, true => some ({ name := f, mod := m, params := ps, body := b, deco := d, gen := yieldsAny b }, ts)
      | _, _ => none
    | none => none
  | none => none

/-- An element of the body of a class. -/
inductive Member where
  | method (f : FunDef)
  | field (x : String)
  | slots (l : List String)
  | nothing

/-- The strings of a tuple of string literals. -/
def stringsOf : List Expr → Option (List String)
  | [] => some []
  | .str s :: l => match stringsOf l with
    | some r => some (s :: r)
    | none => none
  | _ => none

/-- One element of the body of a class: a method, a field `x: T`, a string, `pass`, or the assignment of a tuple of strings to
`__slots__`. -/
def member (m : String) : Parser Member := fun ts =>
  match takeWord c!"def" ts with
  | some ts => match function m .plain ts with
    | some (f, ts) => some (.method f, ts)
    | none => none
  | none => match decorator ts with
    | some ((d, false), ts) => match decoOf d, takeWord c!"def" ts with
      | some d, some ts => match function m d ts with
        | some (f, ts) => some (.method f, ts)
        | none => none
      | _, _ => none
    | some ((_, true), _) => none
    | none => match takeWord c!"__slots__" ts with
      | some _ => match simple ts with
        | some (.stmt (.assign (.name _) (.tuple l)), .newline :: ts) => match stringsOf l with
          | some l => some (.slots l, ts)
          | none => none
        | _ => none
      | none => match simple ts with
        | some (.nothing, .newline :: ts) => some (.nothing, ts)
        | some (.stmt .pass, .newline :: ts) => some (.nothing, ts)
        | some (.declared (.name x), .newline :: ts) => some (.field x, ts)
        | _ => none

/-- The body of a class, at most `n` elements. -/
def members (m : String) : Nat → Parser (List Member)
  | 0, _ => none
  | _ + 1, .dedent :: ts => some ([], ts)
  | n + 1, ts => match member m ts with
    | some (x, ts) => match members m n ts with
      | some (l, ts) => some (x :: l, ts)
      | none => none
    | none => none

def Member.method? : Member → Option FunDef
  | .method f => some f
  | _ => none

def Member.field? : Member → Option String
  | .field x => some x
  | _ => none

def Member.slots? : Member → Option (List String)
  | .slots l => some l
  | _ => none

/-- Whether a method that is not `__init__` assigns to an attribute. -/
def mutating (f : FunDef) : Bool := f.name != "__init__" && assignsAttrAny f.body

/-- A class definition after `class`, in the module `m`. Only a `dataclass` may have fields. -/
def classDef (m : String) (data : Bool) : Parser ClassDef := fun ts =>
  match identifier ts with
  | some (c, ts) =>
    match (match takeOp c!"(" ts with
      | some ts => match sepBy identifier c!"," (ts.length + 1) ts with
        | some ((bs, _), ts) => match takeOp c!")" ts with
          | some ts => some (bs, ts)
          | none => none
        | none => none
      | none => some ([], ts)) with
    | some (bs, ts) => match opening ts with
      | some ts => match members m (ts.length + 1) ts with
        | some (l, ts) =>
          let methods := l.filterMap Member.method?
          let fields := l.filterMap Member.field?
          let slots := l.filterMap Member.slots?
          if (data && slots.isEmpty || fields.isEmpty) && Nat.ble slots.length 1 then
            some ({ name := c, mod := m, bases := bs, methods := methods, fields := fields, slots := slots.head?,
                    mutable := methods.any mutating }, ts)
          else none
        | none => none
      | none => none
    | none => none
  | none => none

/-- A dotted name; a leading dot stands for the package `p`. -/
def dotted (p : List Nat) : Nat → Parser (List Nat)
  | 0, _ => none
  | n + 1, ts => match takeOp c!"." ts with
    | some ts => match p with
      | [] => none
      | _ => match dotted [] n ts with
        | some (s, ts) => some (p ++ c!"." ++ s, ts)
        | none => none
    | none => match ts with
      | .name s :: ts => match takeOp c!"." ts with
        | some ts => match dotted [] n ts with
          | some (s', ts) => some (s ++ c!"." ++ s', ts)
          | none => none
        | none => some (s, ts)
      | _ => none

/-- `. import`, as in `from . import x`. -/
def dotImport (ts : List Tok) : Option (List Tok) :=
  match takeOp c!"." ts with
  | some ts => takeWord c!"import" ts
  | none => none

/-- A statement of a module. -/
inductive Item where
  | imports (l : List (String × Global))
  | cls (c : ClassDef)
  | func (f : FunDef)
  | stmt (s : Stmt)
  | nothing

/-- One statement of the module `m`; relative imports are allowed if it is a package, and `from . import x` imports a module of
the package. -/
def item (m : String) (package : Bool) : Parser Item := fun ts =>
  match takeWord c!"import" ts with
  | some ts => match identifier ts with
    | some (x, .newline :: ts) => some (.imports [(x, .module x)], ts)
    | _ => none
  | none => match takeWord c!"from" ts with
    | some ts => match dotImport ts with
      | some ts => match package, sepBy identifier c!"," (ts.length + 1) ts with
        | true, some ((xs, _), .newline :: ts) => some (.imports (xs.map fun x => (x, .module (m ++ "." ++ x))), ts)
        | _, _ => none
      | none => match dotted (if package then lineCodes m else []) (ts.length + 1) ts with
        | some (p, ts) => match takeWord c!"import" ts with
          | some ts => match sepBy identifier c!"," (ts.length + 1) ts with
            | some ((xs, _), .newline :: ts) => some (.imports (xs.map fun x => (x, .imported (strOf p) x)), ts)
            | _ => none
          | none => none
        | none => none
    | none => match takeWord c!"def" ts with
      | some ts => match function m .plain ts with
        | some (f, ts) => some (.func f, ts)
        | none => none
      | none => match takeWord c!"class" ts with
        | some ts => match classDef m false ts with
          | some (c, ts) => some (.cls c, ts)
          | none => none
        | none => match decorator ts with
          | some ((d, frozen), ts) => match frozen && eqText d c!"dataclass", takeWord c!"class" ts with
            | true, some ts => match classDef m true ts with
              | some (c, ts) => some (.cls c, ts)
              | none => none
            | _, _ => none
          | none => match statement 100 ts with
            | some (.stmt s, ts) => some (.stmt s, ts)
            | some (.nothing, ts) => some (.nothing, ts)
            | _ => none

/-- The statements of a module, at most `n`. -/
def items (m : String) (package : Bool) : Nat → List Tok → Option (List Item)
  | 0, _ => none
  | _ + 1, [] => some []
  | n + 1, ts => match item m package ts with
    | some (x, ts) => match items m package n ts with
      | some l => some (x :: l)
      | none => none
    | none => none

def Item.names : Item → List (String × Global)
  | .imports l => l
  | .cls c => [(c.name, .cls c.name)]
  | .func f => [(f.name, .func f)]
  | _ => []

def Item.cls? : Item → Option ClassDef
  | .cls c => some c
  | _ => none

def Item.stmt? : Item → Option Stmt
  | .stmt s => some s
  | _ => none

/-- The module or package `m` with the given lines, and its classes. -/
def parseModule (m : String) (package : Bool) (lines : List String) : Option (Module × List ClassDef) :=
  match tokens lines with
  | some ts => match items m package (ts.length + 1) ts with
    | some l => some ({ name := m, names := l.flatMap Item.names, init := l.filterMap Item.stmt? }, l.filterMap Item.cls?)
    | none => none
  | none => none

/-- The program with the given files: name of the module, whether it is a package, and lines. -/
def parseProgram : List (String × Bool × List String) → Option Program
  | [] => some ⟨[], []⟩
  | (m, package, lines) :: files => match parseModule m package lines, parseProgram files with
    | some (d, cs), some P => some ⟨d :: P.modules, cs ++ P.classes⟩
    | _, _ => none

end Melodia.Python
