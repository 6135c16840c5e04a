/-
The floating-point computations of the code with the exponent range of IEEE 754 binary64 (overflow to
infinity, subnormal numbers). Model/Py.lean's `fl` has unbounded exponents; Props/Float64.lean shows that the
difference cannot be observed except in to_frequency for extreme tones.
-/
import Verif.Model.MidiRead
import Verif.Model.ToneFrequency

set_option autoImplicit false

namespace Melodia

/-- A power of two. -/
def pow2 (k : ℤ) : ℚ := 2 ^ k

/-- IEEE 754 binary64 rounding to nearest even: multiples of 2^-1074 below 2^-1022, 53 bits above, infinity
when the 53-bit result reaches 2^1024. -/
def fl64 (q : ℚ) : PyFloat :=
  if |q| < pow2 (-1022) then .fin ((roundHalfEven (q * pow2 1074) : ℚ) * pow2 (-1074))
  else if pow2 1024 ≤ fl q then .posInf
  else if fl q ≤ -pow2 1024 then .negInf
  else .fin (fl q)

/-- `max(0, min(127, int(note.velocity * 127)))` (src/melodia/io/midi.py:121) on binary64; `int` of an infinity
raises OverflowError. -/
def velocityByte64 (v : ℚ) : PyM Int :=
  match fl64 (v * 127) with
  | .fin r => .ok (max 0 (min 127 (pyTrunc r)))
  | .nan => .error .valueError
  | _ => .error .overflowError

/-- `int(60000000 / self._bpm)` (src/melodia/io/midi.py:221) on binary64. -/
def tempoOf64 : PyFloat → PyM Int
  | .nan => .error .valueError
  | .negInf => .ok 0
  | .posInf => .ok 0
  | .fin q =>
    if q = 0 then .error .zeroDivisionError
    else match fl64 (60000000 / q) with
      | .fin r => .ok (pyTrunc r)
      | .nan => .error .valueError
      | _ => .error .overflowError

/-- `max(0.0, min(1.0, note_on.velocity / 127.0))` (src/melodia/io/midi.py:591) on binary64. -/
def velocityOf64 (velocity : Nat) : PyFloat :=
  (PyFloat.fin 0).max ((PyFloat.fin 1).min (fl64 ((velocity : ℚ) / 127)))

/-- Contract of `2 ** x` for a finite float `x` (CPython calls `pow(2.0, x)` and raises OverflowError if the result
is infinite; an underflow is not an error): exact on integers and with a relative error of at most 2^-52 where
the result is a normal number, an error of at most 2^-1074 (the smallest positive double) below, OverflowError from
1024 on. Nothing is assumed about `1023.9375 < x < 1024`. -/
structure PowTwo64 where
  pow : ℚ → PyM PyFloat
  exact : ∀ k : ℤ, -1022 ≤ k → k ≤ 1023 → pow k = .ok (.fin (2 ^ k))
  err : ∀ x : ℚ, -1022 ≤ x → x ≤ 16383 / 16 →
    ∃ y : ℚ, pow x = .ok (.fin y) ∧ |(y : ℝ) - (2 : ℝ) ^ (x : ℝ)| ≤ (2 : ℝ) ^ (x : ℝ) / 2 ^ 52
  small : ∀ x : ℚ, x < -1022 → ∃ y : ℚ, pow x = .ok (.fin y) ∧ |(y : ℝ) - (2 : ℝ) ^ (x : ℝ)| ≤ (2 : ℝ) ^ (-1074 : ℝ)
  overflow : ∀ x : ℚ, 1024 ≤ x → pow x = .error .overflowError

/-- Division of ints giving a float: correctly rounded, OverflowError if too large. -/
def intDiv64 (a b : Int) : PyM ℚ :=
  match fl64 ((a : ℚ) / b) with
  | .fin r => .ok r
  | _ => .error .overflowError

/-- Product of a finite float with a float. -/
def mul64 (a : ℚ) : PyFloat → PyFloat
  | .fin y => fl64 (a * y)
  | .nan => .nan
  | .posInf => if a = 0 then .nan else if 0 < a then .posInf else .negInf
  | .negInf => if a = 0 then .nan else if 0 < a then .negInf else .posInf

/-- `Tone.to_frequency` (src/melodia/core/tone.py:148-156) on binary64. -/
def Tone.toFrequency64 (P : PowTwo64) (t : Tone) (base : ℚ := 440) : PyM PyFloat := do
  let x ← intDiv64 (t.pitch - 57) 12
  let y ← P.pow x
  pure (mul64 base y)

end Melodia
