/-
Specification of the tone notation, independent of the model of the parser.
-/
import Verif.Model.Tone

set_option autoImplicit false

namespace Melodia

/-- Semitones of the natural notes above C (the C major scale). -/
def letterSemitone (c : Char) : Int :=
  if c = 'C' then 0 else if c = 'D' then 2 else if c = 'E' then 4 else if c = 'F' then 5
  else if c = 'G' then 7 else if c = 'A' then 9 else 11

/-- Note letters. -/
def IsLetter (c : Char) : Prop :=
  c = 'A' ∨ c = 'B' ∨ c = 'C' ∨ c = 'D' ∨ c = 'E' ∨ c = 'F' ∨ c = 'G'

/-- Accidental signs. -/
def IsAccidental (c : Char) : Prop := c = '#' ∨ c = 'b'

/-- Value of a decimal digit character: the ASCII digits and whatever Unicode adds outside ASCII. -/
def decDigit [UnicodeDigits] (c : Char) : Option Nat :=
  match c with
  | '0' => some 0 | '1' => some 1 | '2' => some 2 | '3' => some 3 | '4' => some 4
  | '5' => some 5 | '6' => some 6 | '7' => some 7 | '8' => some 8 | '9' => some 9
  | c => if 128 ≤ c.toNat then (UnicodeDigits.val c).map Fin.val else none

/-- Decimal digit characters. -/
def IsDigit [UnicodeDigits] (c : Char) : Prop := ∃ v, decDigit c = some v

/-- Positional value of a string of decimal digits: the first digit weighs `10 ^ (length - 1)`. -/
def decValue [UnicodeDigits] : List Char → Nat
  | [] => 0
  | c :: cs => (decDigit c).getD 0 * 10 ^ cs.length + decValue cs

/-- `OctaveText o k rest`: the text `o`, followed by `rest`, is read as the octave `k`:
either nothing is there (octave 0) because no optionally signed digit follows, or `o` is an
optional '-' and the longest run of digits. -/
inductive OctaveText [UnicodeDigits] : List Char → Int → List Char → Prop
  | absent (rest : List Char)
      (h1 : ∀ c t, rest = c :: t → ¬ IsDigit c)
      (h2 : ∀ c t, rest = '-' :: c :: t → ¬ IsDigit c) : OctaveText [] 0 rest
  | pos (ds rest : List Char) (hne : ds ≠ []) (hd : ∀ c ∈ ds, IsDigit c)
      (hmax : ∀ c t, rest = c :: t → ¬ IsDigit c) : OctaveText ds (decValue ds) rest
  | neg (ds rest : List Char) (hne : ds ≠ []) (hd : ∀ c ∈ ds, IsDigit c)
      (hmax : ∀ c t, rest = c :: t → ¬ IsDigit c) : OctaveText ('-' :: ds) (-(decValue ds : Int)) rest

/-- `Reads s p rest`: `s` is a letter, the longest run of accidentals, an octave text, and then an
unread `rest`; the pitch it denotes is `p`. -/
def Reads [UnicodeDigits] (s : List Char) (p : Int) (rest : List Char) : Prop :=
  ∃ (c : Char) (accs oct : List Char) (k : Int),
    s = c :: (accs ++ (oct ++ rest)) ∧ IsLetter c ∧ (∀ a ∈ accs, IsAccidental a) ∧
    (∀ a t, oct ++ rest = a :: t → ¬ IsAccidental a) ∧ OctaveText oct k rest ∧
    p = 12 * k + letterSemitone c + (accs.count '#' : Int) - (accs.count 'b' : Int)

end Melodia
