/-
Model of src/melodia/core/tone.py.
-/
import Verif.Model.Py

set_option autoImplicit false

namespace Melodia

/-- Python's `\d` and `int()` also accept non-ASCII decimal digits. Which characters these are
is a property of the Unicode database, left abstract: any assignment of digit values to
non-ASCII characters. -/
class UnicodeDigits where
  val : Char → Option (Fin 10)

/-- Value of a character matched by `\d` (src/melodia/core/tone.py:4). -/
def digitVal [UnicodeDigits] (c : Char) : Option Nat :=
  if c.toNat < 128 then
    if '0' ≤ c ∧ c ≤ '9' then some (c.toNat - '0'.toNat) else none
  else (UnicodeDigits.val c).map Fin.val

/-- `Tone` object: the slot `_pitch` (src/melodia/core/tone.py:21, property 48-55). -/
structure Tone where
  pitch : Int
  deriving DecidableEq, Repr

/-- Value passed where the code expects `Union[Tone, int, str]`. -/
inductive ToneArg where
  | tone (t : Tone)
  | int (i : Int)
  | str (s : List Char)
  | other
  deriving DecidableEq

/-- `_tone_mapping` (src/melodia/core/tone.py:5-13) as a list of pairs in dict order. -/
def toneMapping : Dict Char Int :=
  [('C', 0), ('D', 2), ('E', 4), ('F', 5), ('G', 7), ('A', 9), ('B', 11)]

/-- `_reverse_tone_mapping` (src/melodia/core/tone.py:14). -/
def reverseToneMapping : Dict Int Char := toneMapping.map (fun p => (p.2, p.1))

/-- Decimal digits of a natural number, most significant first; `fuel` bounds the number of
digits (`n + 1` is always enough). -/
def natDigitsAux : Nat → Nat → List Char
  | 0, _ => []
  | fuel + 1, n =>
    if n < 10 then [Char.ofNat (48 + n)]
    else natDigitsAux fuel (n / 10) ++ [Char.ofNat (48 + n % 10)]

/-- `str` of a non-negative int. -/
def natStr (n : Nat) : List Char := natDigitsAux (n + 1) n

/-- `f'{x:d}'` / `str(x)` of a Python int. -/
def intStr (x : Int) : List Char :=
  if x < 0 then '-' :: natStr x.natAbs else natStr x.natAbs

/-- `int(s)` for a string of digits as matched by `\d+`. -/
def digitsVal [UnicodeDigits] (s : List Char) : Nat :=
  s.foldl (fun acc c => 10 * acc + (digitVal c).getD 0) 0

/-- Result of a successful match of `_notation_regex` (src/melodia/core/tone.py:4):
group `tone`, group `transposition`, group `octave` (`none` if it did not participate; else sign
and digits). -/
structure NotationMatch where
  tone : Char
  transposition : List Char
  octave : Option (Bool × List Char)
  deriving DecidableEq

/-- The group `(?P<octave>-?\d+)?` tried at the start of `s`: `(neg, digits)`.
It is greedy, and not participating is always possible, so no backtracking into the
accidentals occurs. -/
def matchOctave [UnicodeDigits] (s : List Char) : Option (Bool × List Char) :=
  let (neg, rest) := match s with
    | '-' :: r => (true, r)
    | _ => (false, s)
  let ds := rest.takeWhile (fun c => (digitVal c).isSome)
  if ds.isEmpty then none else some (neg, ds)

/-- `_notation_regex.match(notation)` (src/melodia/core/tone.py:4 and :98). `re.match` anchors at
the beginning only; the rest of the string after the match is ignored. -/
def notationMatch [UnicodeDigits] (s : List Char) : Option NotationMatch :=
  match s with
  | [] => none
  | c :: cs =>
    if c ∈ ['A', 'B', 'C', 'D', 'E', 'F', 'G'] then
      let isAcc := fun x : Char => x == '#' || x == 'b'
      some ⟨c, cs.takeWhile isAcc, matchOctave (cs.dropWhile isAcc)⟩
    else none

namespace Tone

/-- `Tone.__init__` (src/melodia/core/tone.py:23-46): only ints are accepted. -/
def new : ToneArg → PyM Tone
  | .int p => .ok ⟨p⟩
  | _ => .error .valueError

/-- `Tone.octave` (src/melodia/core/tone.py:57-71). -/
def octave (t : Tone) : Int := pyFloorDiv t.pitch 12

/-- `Tone.from_notation` (src/melodia/core/tone.py:73-108). The lookup `_tone_mapping[...]` cannot
fail for the letters the regex admits; the `KeyError` branch is represented by `indexError`. -/
def fromNotation [UnicodeDigits] (s : List Char) : PyM Tone :=
  match notationMatch s with
  | none => .error .valueError
  | some m =>
    match toneMapping.get m.tone with
    | none => .error .indexError
    | some basePitch =>
      let transposition : Int := (m.transposition.map (fun t => if t = '#' then (1 : Int) else -1)).sum
      let octave : Int := match m.octave with
        | none => 0
        | some (neg, ds) => if neg then -(digitsVal ds : Int) else digitsVal ds
      new (.int (12 * octave + basePitch + transposition))

/-- `Tone.to_notation` (src/melodia/core/tone.py:110-146). A missing key in
`_reverse_tone_mapping[base_pitch ± 1]` would be a KeyError (`indexError` here). -/
def toNotation (t : Tone) (transposeDown : Bool) : PyM (List Char) :=
  let basePitch := pyMod t.pitch 12
  let octave := pyFloorDiv t.pitch 12
  match reverseToneMapping.get basePitch with
  | some tone => .ok ([tone] ++ [] ++ intStr octave)
  | none =>
    if transposeDown then
      match reverseToneMapping.get (basePitch + 1) with
      | some tone => .ok ([tone] ++ ['b'] ++ intStr octave)
      | none => .error .indexError
    else
      match reverseToneMapping.get (basePitch - 1) with
      | some tone => .ok ([tone] ++ ['#'] ++ intStr octave)
      | none => .error .indexError

/-- `Tone.transposed` (src/melodia/core/tone.py:158-178). -/
def transposed (t : Tone) (k : Int) : PyM Tone := new (.int (t.pitch + k))

/-- `Tone.__str__` (src/melodia/core/tone.py:180-186). -/
def str (t : Tone) : PyM (List Char) := t.toNotation false

/-- `Tone.__repr__` (src/melodia/core/tone.py:188-194). -/
def repr (t : Tone) : List Char := "Tone(pitch=".toList ++ intStr t.pitch ++ ")".toList

/-- `Tone.__eq__` (src/melodia/core/tone.py:196-203). -/
def eq (a b : Tone) : Bool := decide (a.pitch = b.pitch)
/-- `Tone.__le__` (src/melodia/core/tone.py:205-212). -/
def le (a b : Tone) : Bool := decide (a.pitch ≤ b.pitch)
/-- `Tone.__lt__` (src/melodia/core/tone.py:214-221). -/
def lt (a b : Tone) : Bool := decide (a.pitch < b.pitch)
/-- `Tone.__ge__` (src/melodia/core/tone.py:223-230). -/
def ge (a b : Tone) : Bool := decide (a.pitch ≥ b.pitch)
/-- `Tone.__gt__` (src/melodia/core/tone.py:232-239). -/
def gt (a b : Tone) : Bool := decide (a.pitch > b.pitch)

end Tone

end Melodia
