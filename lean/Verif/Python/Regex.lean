/-
Regular expressions of Python's `re` module, as far as melodia uses them: literal characters, character sets, `\d`, named
groups, and the greedy quantifiers `*`, `+` and `?`, matched by backtracking (Library Reference, "re").
-/
import Verif.Python.Values

set_option autoImplicit false

namespace Melodia.Python

/-- Regular expressions. -/
inductive Rx where
  | eps
  | char (c : Char)
  | set (l : List Char)
  | digit
  | seq (a b : Rx)
  | star (r : Rx)
  | plus (r : Rx)
  | opt (r : Rx)
  | group (name : String) (r : Rx)
  deriving DecidableEq, Repr

/-! ### Parsing a pattern -/

/-- The characters up to a given one, and the rest after it. -/
def splitAtChar (c : Char) : List Char → Option (List Char × List Char)
  | [] => none
  | x :: xs => if x = c then some ([], xs) else (splitAtChar c xs).map (fun p => (x :: p.1, p.2))

/-- Characters with a special meaning in patterns. -/
def isMeta (c : Char) : Bool := c ∈ ".^$*+?{}[]\\|()".toList

/-- Apply a quantifier, if one follows. -/
def quantify (r : Rx) : List Char → Rx × List Char
  | '*' :: s => (.star r, s)
  | '+' :: s => (.plus r, s)
  | '?' :: s => (.opt r, s)
  | s => (r, s)

mutual
/-- A sequence of quantified atoms, up to the end or a closing parenthesis. -/
def parseSeq : Nat → List Char → Option (Rx × List Char)
  | 0, _ => none
  | _ + 1, [] => some (.eps, [])
  | _ + 1, ')' :: s => some (.eps, ')' :: s)
  | n + 1, c :: s => do
    let (a, s) ← parseAtom n (c :: s)
    let (a, s) := quantify a s
    let (b, s) ← parseSeq n s
    some (.seq a b, s)
/-- A group, a set, an escape, or a literal character. -/
def parseAtom : Nat → List Char → Option (Rx × List Char)
  | 0, _ => none
  | n + 1, '(' :: '?' :: 'P' :: '<' :: s => do
    let (name, s) ← splitAtChar '>' s
    let (r, s) ← parseSeq n s
    match s with
    | ')' :: s => some (.group (String.ofList name) r, s)
    | _ => none
  | _ + 1, '[' :: s => do
    let (l, s) ← splitAtChar ']' s
    if l.any (fun c => c == '-' || c == '^' || c == '\\') then none else some (.set l, s)
  | _ + 1, '\\' :: 'd' :: s => some (.digit, s)
  | _ + 1, c :: s => if isMeta c then none else some (.char c, s)
  | _ + 1, [] => none
end

/-- Whether an expression can match the empty text. -/
def Rx.nullable : Rx → Bool
  | .eps => true
  | .char _ => false
  | .set _ => false
  | .digit => false
  | .seq a b => a.nullable && b.nullable
  | .star _ => true
  | .plus r => r.nullable
  | .opt _ => true
  | .group _ r => r.nullable

/-- Whether nothing that can match the empty text is repeated (the rules for that are not described here). -/
def Rx.progresses : Rx → Bool
  | .seq a b => a.progresses && b.progresses
  | .star r => r.progresses && !r.nullable
  | .plus r => r.progresses && !r.nullable
  | .opt r => r.progresses
  | .group _ r => r.progresses
  | _ => true

/-- Parse a pattern. -/
def parsePattern (p : List Char) : Option Rx :=
  match parseSeq (p.length + 1) p with
  | some (r, []) => if r.progresses then some r else none
  | _ => none

/-! ### Matching -/

/-- The text of the groups that have matched so far. -/
abbrev Groups := List (String × List Char)

/-- What remains to be matched: the rest of the text and the groups so far. -/
abbrev Cont := List Char → Groups → Option Groups

/-- Greedy repetition: first try one more round that makes progress, then continue. -/
def repeatRx (m : List Char → Groups → Cont → Option Groups) : Nat → List Char → Groups → Cont → Option Groups
  | 0, s, g, k => k s g
  | n + 1, s, g, k =>
    match m s g (fun s' g' => if s'.length < s.length then repeatRx m n s' g' k else none) with
    | some r => some r
    | none => k s g

/-- Match at the beginning of a text. -/
def Rx.run (D : UnicodeDigits) : Rx → List Char → Groups → Cont → Option Groups
  | .eps, s, g, k => k s g
  | .char c, s, g, k => match s with
    | x :: s => if x = c then k s g else none
    | [] => none
  | .set l, s, g, k => match s with
    | x :: s => if x ∈ l then k s g else none
    | [] => none
  | .digit, s, g, k => match s with
    | x :: s => if (@digitVal D x).isSome then k s g else none
    | [] => none
  | .seq a b, s, g, k => a.run D s g (fun s g => b.run D s g k)
  | .star r, s, g, k => repeatRx (r.run D) s.length s g k
  | .plus r, s, g, k => r.run D s g (fun s g => repeatRx (r.run D) s.length s g k)
  | .opt r, s, g, k => match r.run D s g k with
    | some r => some r
    | none => k s g
  | .group name r, s, g, k => r.run D s g (fun s' g => k s' (Dict.set g name (s.take (s.length - s'.length))))

/-- `regex.match(s)`: the groups of the first match at the beginning of `s`. -/
def reMatch (D : UnicodeDigits) (pattern : List Char) (s : List Char) : Option (Option Groups) :=
  match parsePattern pattern with
  | some r => some (r.run D s [] (fun _ g => some g))
  | none => none

/-- `int(s)` for a string of digits with an optional minus sign; other strings are outside of what is described here. -/
def intOfStr (D : UnicodeDigits) (s : List Char) : Option Int :=
  let (neg, ds) := match s with
    | '-' :: r => (true, r)
    | _ => (false, s)
  if ds.isEmpty || !ds.all (fun c => (@digitVal D c).isSome) then none
  else some (if neg then -(@digitsVal D ds : Int) else @digitsVal D ds)

end Melodia.Python
