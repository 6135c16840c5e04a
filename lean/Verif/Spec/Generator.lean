/-
What a table of the chord generator has to satisfy, and what the functions written for it are to do.
-/
import Verif.Lemmas.SourceChord
import Verif.Spec.Chord

set_option autoImplicit false

namespace Melodia

open Melodia.Python Melodia.Source

/-- The keywords of Python. -/
def pythonKeywords : List String := [
  "False", "None", "True", "and", "as", "assert", "async", "await", "break", "class", "continue", "def", "del", "elif", "else",
  "except", "finally", "for", "from", "global", "if", "import", "in", "is", "lambda", "nonlocal", "not", "or", "pass", "raise",
  "return", "try", "while", "with", "yield"]

/-- An ASCII identifier that is no keyword. -/
def IsIdentifier (s : List Char) : Prop :=
  (∃ c l, s = c :: l ∧ (c.isAlpha = true ∨ c = '_') ∧ ∀ d ∈ l, d.isAlphanum = true ∨ d = '_') ∧ String.ofList s ∉ pythonKeywords

/-- A row of a table: its names are identifiers, its full name can stand in a docstring, and it has an interval. -/
structure RowOk (g : GenChord) : Prop where
  names : ∀ n ∈ g.names, IsIdentifier n
  fullName : ∀ c ∈ g.fullName.toList, c.toNat < 128 ∧ c ≠ '"' ∧ c ≠ '\\' ∧ c ≠ '\n'
  intervals : g.notation' ≠ []

/-- The names of a table, in order, with their intervals. -/
def tableNames (table : List GenChord) : List (String × List Int) :=
  table.flatMap fun g => g.names.map fun n => (String.ofList n, g.notation')

/-- The notes of a chord, as the value of a Python expression: one note by itself, several in a tuple. -/
def chordResult (p : Int) (s : Signature) (q : ℚ) : List Int → Val
  | [k] => noteV ⟨⟨p + k⟩, s, q⟩
  | l => .tuple (l.map fun k => noteV ⟨⟨p + k⟩, s, q⟩)

/-- The function `f` plays the intervals `l`: for a base that denotes a pitch, a duration and a velocity, it returns the notes, and
otherwise it raises TypeError or ValueError. -/
def PlaysIntervals (W : World) (f : FunDef) (l : List Int) : Prop :=
  ∀ {ba : BaseArg} {b d x : Val} {da : Option SigArg} {xa : Option PyFloat}, IsBaseArg ba b → IsDurationArg da d →
    IsVelocityArg xa x →
    (∀ p s q, @BaseDenotes W.digits ba p → ChordDuration ba da s → ChordVelocity ba xa q → 0 ≤ q → q ≤ 1 →
      callFun program W f [b, d, x] [] = pure (chordResult p s q l)) ∧
    ((¬ ∃ p s q, @BaseDenotes W.digits ba p ∧ ChordDuration ba da s ∧ ChordVelocity ba xa q ∧ 0 ≤ q ∧ q ≤ 1) →
      callFun program W f [b, d, x] [] = raise .typeError ∨ callFun program W f [b, d, x] [] = raise .valueError)

/-- What is written for a name and intervals: a function of that name with the parameters `base`, `duration=None` and
`velocity=None`, which plays the intervals. -/
def WrittenFor (W : World) (e : String × List Int) (d : String × Global) : Prop :=
  d.1 = e.1 ∧ ∃ f, d.2 = .func f ∧ f.name = e.1 ∧ f.mod = "melodia.music.chord" ∧
    f.params = [("base", none), ("duration", some .none), ("velocity", some .none)] ∧ PlaysIntervals W f e.2

end Melodia
