/-
The text forms of tones with Python's limit on the number of digits in conversions between int and str
(`sys.get_int_max_str_digits()`, 4300 by default, in Python 3.11 and the later releases of 3.7 to 3.10; "Integer string conversion
length limitation" in the Library Reference). `none` stands for no limit.
-/
import Verif.Model.Tone

set_option autoImplicit false

namespace Melodia

/-- Whether a number of digits exceeds the limit. -/
def overLimit (limit : Option Nat) (n : Nat) : Bool :=
  match limit with
  | none => false
  | some l => decide (l < n)

/-- `int(s)` for a sign and digits (the sign is not counted): ValueError above the limit. -/
def intOfDigits [UnicodeDigits] (limit : Option Nat) (neg : Bool) (ds : List Char) : PyM Int :=
  if overLimit limit ds.length then .error .valueError
  else .ok (if neg then -(digitsVal ds : Int) else digitsVal ds)

/-- `str(x)` and `f'{x:d}'`: ValueError above the limit. -/
def strOfInt (limit : Option Nat) (x : Int) : PyM (List Char) :=
  if overLimit limit (natStr x.natAbs).length then .error .valueError else .ok (intStr x)

namespace Tone

/-- `Tone.from_notation` (src/melodia/core/tone.py:73-108) with the limit, which concerns line 106. -/
def fromNotationLimit [UnicodeDigits] (limit : Option Nat) (s : List Char) : PyM Tone :=
  match notationMatch s with
  | none => .error .valueError
  | some m =>
    match toneMapping.get m.tone with
    | none => .error .indexError
    | some basePitch => do
      let transposition : Int := (m.transposition.map (fun t => if t = '#' then (1 : Int) else -1)).sum
      let octave : Int ← match m.octave with
        | none => .ok 0
        | some (neg, ds) => intOfDigits limit neg ds
      new (.int (12 * octave + basePitch + transposition))

/-- `Tone.to_notation` (src/melodia/core/tone.py:110-146) with the limit, which concerns line 146. -/
def toNotationLimit (limit : Option Nat) (t : Tone) (transposeDown : Bool) : PyM (List Char) := do
  let basePitch := pyMod t.pitch 12
  let octave := pyFloorDiv t.pitch 12
  let (tone, transposition) ← match reverseToneMapping.get basePitch with
    | some tone => .ok (tone, [])
    | none =>
      if transposeDown then
        match reverseToneMapping.get (basePitch + 1) with
        | some tone => .ok (tone, ['b'])
        | none => .error .indexError
      else
        match reverseToneMapping.get (basePitch - 1) with
        | some tone => .ok (tone, ['#'])
        | none => .error .indexError
  let octave ← strOfInt limit octave
  .ok ([tone] ++ transposition ++ octave)

/-- `Tone.__str__` (src/melodia/core/tone.py:180-186) with the limit. -/
def strLimit (limit : Option Nat) (t : Tone) : PyM (List Char) := t.toNotationLimit limit false

/-- `Tone.__repr__` (src/melodia/core/tone.py:188-194) with the limit. -/
def reprLimit (limit : Option Nat) (t : Tone) : PyM (List Char) := do
  let pitch ← strOfInt limit t.pitch
  .ok ("Tone(pitch=".toList ++ pitch ++ ")".toList)

end Tone

end Melodia
