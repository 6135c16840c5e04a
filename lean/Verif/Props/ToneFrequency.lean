/-
Property theorems C14 for the floating-point version of `Tone.to_frequency`
(src/melodia/core/tone.py:148-156). Props/Tone.lean has the theorem about exact arithmetic.
-/
import Verif.Model.ToneFrequency
import Verif.Lemmas.FloatMore
import Mathlib.Analysis.SpecialFunctions.Pow.Real
import Mathlib.Analysis.Convex.SpecificFunctions.Basic

set_option autoImplicit false

namespace Melodia

/-! ### Lemmas -/

/-- 2^δ lies within 1 ± |δ| for |δ| ≤ 1. -/
theorem two_rpow_near {δ : ℝ} (h : |δ| ≤ 1) : |(2 : ℝ) ^ δ - 1| ≤ |δ| := by
  have hlog : Real.log 2 ≤ 1 := by
    have := Real.log_le_sub_one_of_pos (by norm_num : (0 : ℝ) < 2)
    linarith
  have hlog0 : 0 ≤ Real.log 2 := Real.log_nonneg (by norm_num)
  have lower : ∀ x : ℝ, 1 + x * Real.log 2 ≤ (2 : ℝ) ^ x := fun x => by
    rw [Real.rpow_def_of_pos (by norm_num)]
    have := Real.add_one_le_exp (Real.log 2 * x)
    linarith
  obtain ⟨h1, h2⟩ := abs_le.mp h
  rw [abs_le]
  rcases le_total 0 δ with h0 | h0
  · rw [abs_of_nonneg h0]
    constructor
    · have := lower δ
      have : 0 ≤ δ * Real.log 2 := mul_nonneg h0 hlog0
      linarith
    · -- Bernoulli: 2^δ ≤ 1 + δ for 0 ≤ δ ≤ 1
      have := rpow_one_add_le_one_add_mul_self (s := 1) (by norm_num) h0 h2
      norm_num at this
      linarith
  · rw [abs_of_nonpos h0]
    constructor
    · have := lower δ
      have : δ ≤ δ * Real.log 2 := by nlinarith
      linarith
    · have : (2 : ℝ) ^ δ ≤ 1 := Real.rpow_le_one_of_one_le_of_nonpos (by norm_num) h0
      linarith

theorem castR_fl_err (q : ℚ) : |((fl q : ℚ) : ℝ) - (q : ℝ)| ≤ |(q : ℝ)| / 2 ^ 53 := by
  have := fl_err_abs q
  exact_mod_cast this

/-- Three relative errors combined. -/
theorem rel3 {a b c u x : ℝ} (hu : 0 ≤ u) (hu1 : u ≤ 1 / 2 ^ 53) (hx : 0 ≤ x) (hx1 : x ≤ 1000)
    (ha : |a - 1| ≤ x * u) (hb : |b - 1| ≤ 2 * u) (hc : |c - 1| ≤ u) :
    |a * b * c - 1| ≤ (x + 4) * u := by
  obtain ⟨a1, a2⟩ := abs_le.mp ha
  obtain ⟨b1, b2⟩ := abs_le.mp hb
  obtain ⟨c1, c2⟩ := abs_le.mp hc
  have hxu : x * u ≤ 1000 / 2 ^ 53 := by
    calc x * u ≤ 1000 * (1 / 2 ^ 53) := by gcongr
      _ = _ := by ring
  have hab : |a * b - 1| ≤ (x + 2) * u + 2 * (x * u) * u := by
    have : a * b - 1 = (a - 1) * (b - 1) + (a - 1) + (b - 1) := by ring
    rw [this]
    have h1 : |(a - 1) * (b - 1)| ≤ (x * u) * (2 * u) := by
      rw [abs_mul]; gcongr
    calc |(a - 1) * (b - 1) + (a - 1) + (b - 1)| ≤ |(a - 1) * (b - 1)| + |a - 1| + |b - 1| := abs_add_three _ _ _
      _ ≤ (x * u) * (2 * u) + x * u + 2 * u := by gcongr
      _ = _ := by ring
  have : a * b * c - 1 = (a * b - 1) * (c - 1) + (a * b - 1) + (c - 1) := by ring
  rw [this]
  have hsmall : (x + 2) * u + 2 * (x * u) * u ≤ 1 / 4 := by
    have : 2 * (x * u) * u ≤ 2 * (1000 / 2 ^ 53) * (1 / 2 ^ 53) := by gcongr
    have h2 : (x + 2) * u ≤ 1002 * (1 / 2 ^ 53) := by gcongr; linarith
    norm_num at this h2 ⊢
    linarith
  have h1 : |(a * b - 1) * (c - 1)| ≤ (1 / 4) * u := by
    rw [abs_mul]
    exact mul_le_mul (hab.trans hsmall) hc (abs_nonneg _) (by norm_num)
  have h3 : 2 * (x * u) * u ≤ 1 / 4 * u := by
    have : 2 * (x * u) ≤ 1 / 4 := by
      have : 2 * (x * u) ≤ 2 * (1000 / 2 ^ 53) := by gcongr
      norm_num at this ⊢; linarith
    gcongr
  calc |(a * b - 1) * (c - 1) + (a * b - 1) + (c - 1)|
      ≤ |(a * b - 1) * (c - 1)| + |a * b - 1| + |c - 1| := abs_add_three _ _ _
    _ ≤ 1 / 4 * u + ((x + 2) * u + 2 * (x * u) * u) + u := by gcongr
    _ ≤ (x + 4) * u := by nlinarith

/-! ### C14 -/

/-- C14 on doubles, exact part: A4 gives exactly `base`, and the A `k` octaves above (below) exactly
`base * 2^k`, for every `base` that is a double. -/
theorem C14_octaves_of_a4 (P : PowTwo) (base : ℚ) (hbase : fl base = base) :
    Tone.toFrequencyFloat P ⟨57⟩ base = base ∧
    ∀ k : ℤ, |k| ≤ 1000 → Tone.toFrequencyFloat P ⟨57 + 12 * k⟩ base = base * 2 ^ k := by
  have key : ∀ k : ℤ, |k| ≤ 1000 → Tone.toFrequencyFloat P ⟨57 + 12 * k⟩ base = base * 2 ^ k := by
    intro k hk
    unfold Tone.toFrequencyFloat
    have : (((57 + 12 * k - 57 : ℤ) : ℚ) / 12) = (k : ℚ) := by push_cast; ring
    simp only [this]
    rw [fl_int (by omega), P.exact, fl_scale, hbase]
  refine ⟨?_, key⟩
  have := key 0 (by norm_num)
  simpa using this

/-- C14, default: the A `k` octaves above (below) A4 has exactly 440 * 2^k Hz if no base is given. -/
theorem C14_default (P : PowTwo) (k : ℤ) (hk : |k| ≤ 1000) : Tone.toFrequencyFloat P ⟨57 + 12 * k⟩ = 440 * 2 ^ k :=
  (C14_octaves_of_a4 P 440 (by decide +kernel)).2 k hk

/-- C14 on doubles, accuracy: within 1000 octaves of A4 the computed frequency deviates from the
equal-temperament frequency `base * 2^((pitch - 57)/12)` by a relative error of at most
`(|pitch - 57|/12 + 4) * 2^-53` (below 2^-49 for all MIDI pitches). -/
theorem C14_accuracy (P : PowTwo) (t : Tone) (base : ℚ) (hb : 0 < base) (hp : |t.pitch - 57| ≤ 12000) :
    |((t.toFrequencyFloat P base : ℚ) : ℝ) - t.toFrequency base| ≤
      (|(t.pitch : ℝ) - 57| / 12 + 4) / 2 ^ 53 * t.toFrequency base := by
  set x : ℚ := ((t.pitch - 57 : ℤ) : ℚ) / 12 with hx
  have hxR : ((x : ℚ) : ℝ) = ((t.pitch : ℝ) - 57) / 12 := by rw [hx]; push_cast; ring
  have hbR : (0 : ℝ) < base := by exact_mod_cast hb
  set y : ℚ := fl x with hy
  have two : (0 : ℝ) < 2 := by norm_num
  have hxy : |(y : ℝ) - x| ≤ |(x : ℝ)| / 2 ^ 53 := castR_fl_err x
  have hxabs : |(x : ℝ)| = |(t.pitch : ℝ) - 57| / 12 := by
    rw [hxR, abs_div]; norm_num
  have hx1000 : |(x : ℝ)| ≤ 1000 := by
    rw [hxabs]
    have : |(t.pitch : ℝ) - 57| ≤ 12000 := by exact_mod_cast hp
    linarith
  have hpow := P.err y
  set w : ℚ := P.pow y with hw
  have h2y : (0 : ℝ) < (2 : ℝ) ^ (y : ℝ) := by positivity
  have h2x : (0 : ℝ) < (2 : ℝ) ^ (x : ℝ) := by positivity
  have hwpos : (0 : ℝ) < w := by
    have := (abs_le.mp hpow).1
    have h3 : (2 : ℝ) ^ (y : ℝ) / 2 ^ 52 < (2 : ℝ) ^ (y : ℝ) := div_lt_self h2y (by norm_num)
    linarith
  set v : ℚ := fl (base * w) with hv
  have hvw : |(v : ℝ) - base * w| ≤ |(base : ℝ) * w| / 2 ^ 53 := by
    have := castR_fl_err (base * w)
    push_cast at this
    exact this
  have hbw : (0 : ℝ) < base * w := mul_pos hbR hwpos
  have hgoal : t.toFrequencyFloat P base = v := rfl
  have hreal : t.toFrequency base = base * (2 : ℝ) ^ (x : ℝ) := by
    unfold Tone.toFrequency; rw [hxR]
  rw [hgoal, hreal, ← hxabs]
  have hu : (0 : ℝ) ≤ 1 / 2 ^ 53 := by positivity
  have A : |(2 : ℝ) ^ (y : ℝ) / (2 : ℝ) ^ (x : ℝ) - 1| ≤ |(x : ℝ)| * (1 / 2 ^ 53) := by
    rw [← Real.rpow_sub two]
    refine (two_rpow_near (hxy.trans ?_)).trans (hxy.trans (le_of_eq (by ring)))
    calc |(x : ℝ)| / 2 ^ 53 ≤ 1000 / 2 ^ 53 := by gcongr
      _ ≤ 1 := by norm_num
  have B : |(w : ℝ) / (2 : ℝ) ^ (y : ℝ) - 1| ≤ 2 * (1 / 2 ^ 53) := by
    rw [div_sub_one h2y.ne', abs_div, abs_of_pos h2y, div_le_iff₀ h2y]
    refine hpow.trans (le_of_eq ?_)
    ring
  have C : |(v : ℝ) / (base * w) - 1| ≤ 1 / 2 ^ 53 := by
    rw [div_sub_one hbw.ne', abs_div, abs_of_pos hbw, div_le_iff₀ hbw]
    refine hvw.trans (le_of_eq ?_)
    rw [abs_of_pos hbw]; ring
  have R := rel3 hu le_rfl (abs_nonneg _) hx1000 A B C
  have hprod : (2 : ℝ) ^ (y : ℝ) / (2 : ℝ) ^ (x : ℝ) * (w / (2 : ℝ) ^ (y : ℝ)) * (v / (base * w)) =
      v / (base * (2 : ℝ) ^ (x : ℝ)) := by
    have := hwpos.ne'
    field_simp
  rw [hprod] at R
  have hbx : (0 : ℝ) < base * (2 : ℝ) ^ (x : ℝ) := mul_pos hbR h2x
  rw [div_sub_one hbx.ne', abs_div, abs_of_pos hbx, div_le_iff₀ hbx] at R
  refine R.trans (le_of_eq ?_)
  ring

/-- C14 on doubles, order: within 1000 octaves of A4 a higher tone gets a strictly higher computed
frequency, and all computed frequencies are positive. -/
theorem C14_increasing (P : PowTwo) (t u : Tone) (base : ℚ) (hb : 0 < base)
    (ht : |t.pitch - 57| ≤ 12000) (hu : |u.pitch - 57| ≤ 12000) (h : t.pitch < u.pitch) :
    0 < t.toFrequencyFloat P base ∧ t.toFrequencyFloat P base < u.toFrequencyFloat P base := by
  have hbR : (0 : ℝ) < base := by exact_mod_cast hb
  have bound : ∀ s : Tone, |s.pitch - 57| ≤ 12000 → (|(s.pitch : ℝ) - 57| / 12 + 4) / 2 ^ 53 ≤ 1 / 100 := by
    intro s hs
    have : |(s.pitch : ℝ) - 57| ≤ 12000 := by exact_mod_cast hs
    rw [div_le_iff₀ (by norm_num)]
    norm_num
    linarith
  have pos : ∀ s : Tone, 0 < s.toFrequency base := fun s => by unfold Tone.toFrequency; positivity
  have at' := C14_accuracy P t base hb ht
  have au' := C14_accuracy P u base hb hu
  have at2 := at'.trans (mul_le_mul_of_nonneg_right (bound t ht) (pos t).le)
  have au2 := au'.trans (mul_le_mul_of_nonneg_right (bound u hu) (pos u).le)
  obtain ⟨t1, t2⟩ := abs_le.mp at2
  obtain ⟨u1, u2⟩ := abs_le.mp au2
  have step : t.toFrequency base * (21 / 20) ≤ u.toFrequency base := by
    unfold Tone.toFrequency
    rw [mul_assoc]
    refine mul_le_mul_of_nonneg_left ?_ hbR.le
    have hstep : (21 / 20 : ℝ) ≤ (2 : ℝ) ^ ((1 : ℝ) / 12) := by
      rw [show (21 / 20 : ℝ) = ((21 / 20 : ℝ) ^ (12 : ℝ)) ^ ((1 : ℝ) / 12) by
        rw [← Real.rpow_mul (by norm_num)]; norm_num]
      apply Real.rpow_le_rpow (by positivity) _ (by norm_num)
      rw [show (12 : ℝ) = ((12 : ℕ) : ℝ) by norm_num, Real.rpow_natCast]
      norm_num
    calc (2 : ℝ) ^ (((t.pitch : ℝ) - 57) / 12) * (21 / 20)
        ≤ (2 : ℝ) ^ (((t.pitch : ℝ) - 57) / 12) * (2 : ℝ) ^ ((1 : ℝ) / 12) := by gcongr
      _ = (2 : ℝ) ^ (((t.pitch : ℝ) - 57) / 12 + 1 / 12) := by rw [← Real.rpow_add (by norm_num)]
      _ ≤ (2 : ℝ) ^ (((u.pitch : ℝ) - 57) / 12) := by
        apply Real.rpow_le_rpow_of_exponent_le (by norm_num)
        have : ((t.pitch + 1 : ℤ) : ℝ) ≤ (u.pitch : ℝ) := by exact_mod_cast h
        push_cast at this
        linarith
  have pt := pos t
  constructor
  · have : (0 : ℝ) < (t.toFrequencyFloat P base : ℚ) := by linarith
    exact_mod_cast this
  · have : ((t.toFrequencyFloat P base : ℚ) : ℝ) < (u.toFrequencyFloat P base : ℚ) := by linarith
    exact_mod_cast this

/-- C14 on doubles, octaves: transposing by an octave doubles the computed frequency up to a relative
error of `(2 * |pitch - 57|/12 + 9) * 2^-53`; doubling the base (any power of two) doubles it exactly. -/
theorem C14_octave (P : PowTwo) (t u : Tone) (base : ℚ) (hb : 0 < base) (h : t.transposed 12 = .ok u)
    (ht : |t.pitch - 57| ≤ 12000) (hu : |u.pitch - 57| ≤ 12000) :
    |((u.toFrequencyFloat P base : ℚ) : ℝ) - 2 * ((t.toFrequencyFloat P base : ℚ) : ℝ)| ≤
      (2 * (|(t.pitch : ℝ) - 57| / 12) + 9) / 2 ^ 53 * u.toFrequency base ∧
    ∀ k : ℤ, t.toFrequencyFloat P (base * 2 ^ k) = t.toFrequencyFloat P base * 2 ^ k := by
  constructor
  · have at' := C14_accuracy P t base hb ht
    have au' := C14_accuracy P u base hb hu
    cases h
    have hbR : (0 : ℝ) < base := by exact_mod_cast hb
    have hF : (⟨t.pitch + 12⟩ : Tone).toFrequency base = 2 * t.toFrequency base := by
      unfold Tone.toFrequency
      rw [show (((t.pitch + 12 : Int) : ℝ) - 57) / 12 = ((t.pitch : ℝ) - 57) / 12 + 1 by push_cast; ring,
        Real.rpow_add (by norm_num), Real.rpow_one]
      ring
    have hpos : 0 < t.toFrequency base := by unfold Tone.toFrequency; positivity
    have hx : |((t.pitch + 12 : Int) : ℝ) - 57| / 12 ≤ |(t.pitch : ℝ) - 57| / 12 + 1 := by
      have : ((t.pitch + 12 : Int) : ℝ) - 57 = ((t.pitch : ℝ) - 57) + 12 := by push_cast; ring
      rw [this]
      have := abs_add_le ((t.pitch : ℝ) - 57) 12
      norm_num at this
      linarith
    rw [hF] at au' ⊢
    set f := (((⟨t.pitch + 12⟩ : Tone).toFrequencyFloat P base : ℚ) : ℝ)
    set g := ((t.toFrequencyFloat P base : ℚ) : ℝ)
    set F := t.toFrequency base
    set x := |(t.pitch : ℝ) - 57| / 12
    have au2 : |f - 2 * F| ≤ (x + 1 + 4) / 2 ^ 53 * (2 * F) := by
      refine au'.trans ?_
      simp only at hx ⊢
      gcongr
    calc |f - 2 * g| = |(f - 2 * F) - 2 * (g - F)| := by congr 1; ring
      _ ≤ |f - 2 * F| + |2 * (g - F)| := abs_sub _ _
      _ = |f - 2 * F| + 2 * |g - F| := by rw [abs_mul]; norm_num
      _ ≤ (x + 1 + 4) / 2 ^ 53 * (2 * F) + 2 * ((x + 4) / 2 ^ 53 * F) := by gcongr
      _ = _ := by ring
  · intro k
    unfold Tone.toFrequencyFloat
    rw [mul_right_comm, fl_scale]

/-- The contract of `2 ** x` can be met. -/
theorem powTwo_exists : Nonempty PowTwo := by
  have h : ∀ x : ℚ, ∃ w : ℚ, (∀ k : ℤ, x = k → w = 2 ^ k) ∧
      |(w : ℝ) - (2 : ℝ) ^ (x : ℝ)| ≤ (2 : ℝ) ^ (x : ℝ) / 2 ^ 52 := by
    intro x
    have hpos : (0 : ℝ) < (2 : ℝ) ^ (x : ℝ) := by positivity
    by_cases hx : ∃ k : ℤ, x = k
    · obtain ⟨k, rfl⟩ := hx
      refine ⟨2 ^ k, fun j hj => by rw [Int.cast_injective hj], ?_⟩
      have : (2 : ℝ) ^ (((k : ℚ) : ℝ)) = 2 ^ k := by push_cast; exact Real.rpow_intCast 2 k
      rw [this]
      push_cast
      rw [sub_self, abs_zero]; positivity
    · obtain ⟨w, h1, h2⟩ := exists_rat_btwn (show (2 : ℝ) ^ (x : ℝ) < (2 : ℝ) ^ (x : ℝ) + (2 : ℝ) ^ (x : ℝ) / 2 ^ 52 by
        have : 0 < (2 : ℝ) ^ (x : ℝ) / 2 ^ 52 := by positivity
        linarith)
      refine ⟨w, fun k hk => absurd ⟨k, hk⟩ hx, ?_⟩
      rw [abs_of_pos (by linarith)]
      linarith
  choose f hf using h
  exact ⟨⟨f, fun k => (hf k).1 k rfl, fun x => (hf x).2⟩⟩

/-- Hypotheses met: the default base, pitches of the MIDI range. -/
example : fl 440 = 440 ∧ (0 : ℚ) < 440 ∧ |(⟨127 - 12⟩ : Tone).pitch - 57| ≤ 12000 := by
  refine ⟨by exact_mod_cast fl_nat (n := 440) (by norm_num), by norm_num, by decide⟩

end Melodia
