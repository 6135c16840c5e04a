/-
Model of Tone.to_frequency (src/melodia/core/tone.py:148-156).
-/
import Verif.Model.Tone
import Mathlib.Analysis.SpecialFunctions.Pow.Real

set_option autoImplicit false

namespace Melodia

/-- `Tone.to_frequency` (src/melodia/core/tone.py:148-156) over the real numbers: what the documentation
describes. `toFrequencyFloat` is the version with rounding. -/
noncomputable def Tone.toFrequency (t : Tone) (base : ℝ := 440) : ℝ :=
  base * (2 : ℝ) ^ (((t.pitch : ℝ) - 57) / 12)

/-- Contract of the C library function behind `2 ** x` for a float `x` (CPython calls `pow(2.0, x)`):
exact when `x` is an integer, otherwise a relative error of at most 2^-52 (one unit in the last place;
glibc and the MSVC runtime guarantee this). Nothing else is assumed, not even monotonicity. -/
structure PowTwo where
  pow : ℚ → ℚ
  exact : ∀ k : ℤ, pow k = 2 ^ k
  err : ∀ x : ℚ, |(pow x : ℝ) - (2 : ℝ) ^ (x : ℝ)| ≤ (2 : ℝ) ^ (x : ℝ) / 2 ^ 52

/-- `Tone.to_frequency` (src/melodia/core/tone.py:148-156) on doubles: the integer division
`(self._pitch - 57) / 12` is rounded once (CPython's int/int division is correctly rounded), then
`2 ** _`, then the product is rounded. Simplification: unbounded exponents, so the model is faithful
as long as nothing overflows or becomes subnormal; the theorems state the range they cover. -/
def Tone.toFrequencyFloat (P : PowTwo) (t : Tone) (base : ℚ := 440) : ℚ :=
  fl (base * P.pow (fl (((t.pitch - 57 : ℤ) : ℚ) / 12)))

end Melodia
