/-
Property theorems C69: overflow and underflow of doubles.
-/
import Verif.Model.Float64
import Verif.Lemmas.MidiWrite
import Verif.Lemmas.MidiRead
import Verif.Props.ToneFrequency

set_option autoImplicit false

namespace Melodia

theorem pow2_pos (k : ℤ) : 0 < pow2 k := by unfold pow2; positivity

theorem pow2_le {j k : ℤ} (h : j ≤ k) : pow2 j ≤ pow2 k := by
  unfold pow2
  exact zpow_le_zpow_right₀ (by norm_num) h

theorem pow2_add (j k : ℤ) : pow2 (j + k) = pow2 j * pow2 k := by
  unfold pow2
  exact zpow_add₀ (by norm_num) _ _

theorem pow2_one : pow2 1 = 2 := by unfold pow2; norm_num

theorem fl_abs_le (q : ℚ) : |fl q| ≤ 2 * |q| ∧ |q| / 2 ≤ |fl q| := by
  have h3 := fl_err_abs q
  have h7 : |q| / 2 ^ 53 ≤ |q| / 2 := div_le_div_of_nonneg_left (abs_nonneg q) (by norm_num) (by norm_num)
  have h0 := abs_nonneg q
  constructor
  · calc |fl q| = |q + (fl q - q)| := by congr 1; ring
      _ ≤ |q| + |fl q - q| := abs_add_le _ _
      _ ≤ 2 * |q| := by linarith
  · have : |q| ≤ |fl q| + |fl q - q| := by
      calc |q| = |fl q - (fl q - q)| := by congr 1; ring
        _ ≤ |fl q| + |fl q - q| := abs_sub _ _
    linarith

theorem fl64_normal {q : ℚ} (h1 : pow2 (-1022) ≤ |q|) (h2 : |q| < pow2 1023) : fl64 q = .fin (fl q) := by
  have h4 := (fl_abs_le q).1
  have h5 : pow2 1024 = 2 * pow2 1023 := by
    rw [show (1024 : ℤ) = 1 + 1023 by norm_num, pow2_add, pow2_one]
  have h6 : |fl q| < pow2 1024 := by rw [h5]; linarith
  rw [abs_lt] at h6
  unfold fl64
  rw [if_neg (not_lt.mpr h1), if_neg (not_le.mpr h6.2), if_neg (not_le.mpr (by linarith [h6.1]))]

theorem fl64_zero : fl64 0 = .fin 0 := by
  unfold fl64
  have := roundHalfEven_int 0
  rw [Int.cast_zero] at this
  rw [if_pos (by rw [abs_zero]; exact pow2_pos _), zero_mul, this]
  simp

/-- Results below 2^-1022 stay below 1, with both roundings. -/
theorem small_trunc {q : ℚ} (h : |q| < pow2 (-1022)) :
    pyTrunc ((roundHalfEven (q * pow2 1074) : ℚ) * pow2 (-1074)) = 0 ∧ pyTrunc (fl q) = 0 := by
  have trunc0 : ∀ x : ℚ, |x| < 1 → pyTrunc x = 0 := by
    intro x hx
    rw [abs_lt] at hx
    unfold pyTrunc
    split
    · rename_i h0
      exact Int.floor_eq_zero_iff.mpr ⟨h0, hx.2⟩
    · rename_i h0
      exact Int.ceil_eq_zero_iff.mpr ⟨by linarith [hx.1], by push Not at h0; exact h0.le⟩
  have quarter : pow2 (-2) = 1 / 4 := by unfold pow2; norm_num
  have hs : pow2 (-1022) ≤ 1 / 4 := quarter ▸ pow2_le (by norm_num)
  constructor
  · apply trunc0
    have hb := (roundHalfEven_bounds (q * pow2 1074)).2
    have hp := pow2_pos (-1074)
    have hinv : pow2 1074 * pow2 (-1074) = 1 := by
      rw [← pow2_add]; unfold pow2; norm_num
    have hp1 : pow2 (-1074) ≤ 1 / 4 := quarter ▸ pow2_le (by norm_num)
    set r : ℚ := (roundHalfEven (q * pow2 1074) : ℚ) with hr
    have e : r * pow2 (-1074) - q = (r - q * pow2 1074) * pow2 (-1074) := by
      rw [sub_mul, mul_assoc, hinv, mul_one]
    have h3 : |r * pow2 (-1074) - q| ≤ 1 / 4 := by
      rw [e, abs_mul, abs_of_pos hp]
      calc |r - q * pow2 1074| * pow2 (-1074) ≤ 1 * (1 / 4) :=
            mul_le_mul (by linarith) hp1 hp.le (by norm_num)
        _ = 1 / 4 := by norm_num
    calc |r * pow2 (-1074)| = |q + (r * pow2 (-1074) - q)| := by congr 1; ring
      _ ≤ |q| + |r * pow2 (-1074) - q| := abs_add_le _ _
      _ < 1 := by linarith
  · apply trunc0
    have := (fl_abs_le q).1
    linarith

/-! ### C69 -/

/-- C69: the velocity byte is not affected by the exponent range. -/
theorem C69_velocity (v : ℚ) (h0 : 0 ≤ v) (h1 : v ≤ 1) : velocityByte64 v = .ok (Writer.velocityByte v) := by
  unfold velocityByte64 Writer.velocityByte
  by_cases h : |v * 127| < pow2 (-1022)
  · obtain ⟨e1, e2⟩ := small_trunc h
    have : fl64 (v * 127) = .fin ((roundHalfEven (v * 127 * pow2 1074) : ℚ) * pow2 (-1074)) := by
      unfold fl64; rw [if_pos h]
    rw [this]
    simp only
    rw [e1, e2]
  · have h127 : |v * 127| < pow2 1023 := by
      rw [abs_of_nonneg (by positivity)]
      have : pow2 7 = 128 := by unfold pow2; norm_num
      have := pow2_le (show (7 : ℤ) ≤ 1023 by norm_num)
      linarith
    rw [fl64_normal (not_lt.mp h) h127]

theorem formatTempo_error {t : Int} (h : t < 0 ∨ 256 ^ 3 ≤ t) : Writer.formatTempo t = .error .overflowError := by
  unfold Writer.formatTempo
  have : toBytesBig t 3 = .error .overflowError := by
    unfold toBytesBig
    rw [if_pos (by omega)]
  rw [this]
  rfl

/-- C69: neither is the tempo event, for all tempos including NaN and infinities (a quotient that overflows raises
OverflowError in both). -/
theorem C69_tempo (bpm : PyFloat) : (tempoOf64 bpm >>= Writer.formatTempo) = (Writer.tempoOf bpm >>= Writer.formatTempo) := by
  cases bpm with
  | nan => rfl
  | negInf => rfl
  | posInf => rfl
  | fin q =>
    unfold tempoOf64 Writer.tempoOf
    by_cases hq : q = 0
    · simp [hq]
    · simp only [if_neg hq]
      by_cases h : |60000000 / q| < pow2 (-1022)
      · obtain ⟨e1, e2⟩ := small_trunc h
        have : fl64 (60000000 / q) = .fin ((roundHalfEven (60000000 / q * pow2 1074) : ℚ) * pow2 (-1074)) := by
          unfold fl64; rw [if_pos h]
        rw [this]
        simp only
        rw [e1, e2]
      · have big : pow2 1024 ≥ 256 ^ 3 := by
          have : pow2 24 = 256 ^ 3 := by unfold pow2; norm_num
          have := pow2_le (show (24 : ℤ) ≤ 1024 by norm_num)
          linarith
        set f := fl (60000000 / q) with hf
        have over : (256 : ℚ) ^ 3 ≤ f ∨ f ≤ -256 ^ 3 → Writer.formatTempo (pyTrunc f) = .error .overflowError := by
          intro h
          apply formatTempo_error
          unfold pyTrunc
          rcases h with h | h
          · rw [if_pos (le_trans (by norm_num) h)]
            right
            exact Int.le_floor.mpr (by exact_mod_cast h)
          · rw [if_neg (not_le.mpr (lt_of_le_of_lt h (by norm_num)))]
            left
            have : ⌈f⌉ ≤ -256 ^ 3 := Int.ceil_le.mpr (by exact_mod_cast h)
            omega
        by_cases a : pow2 1024 ≤ f
        · have : fl64 (60000000 / q) = .posInf := by
            unfold fl64; rw [if_neg h, if_pos a]
          rw [this]
          exact (over (Or.inl (le_trans big a))).symm
        · by_cases b : f ≤ -pow2 1024
          · have : fl64 (60000000 / q) = .negInf := by
              unfold fl64; rw [if_neg h, if_neg a, if_pos b]
            rw [this]
            exact (over (Or.inr (le_trans b (by linarith)))).symm
          · have : fl64 (60000000 / q) = .fin f := by
              unfold fl64; rw [if_neg h, if_neg a, if_neg b]
            rw [this]

/-- C69: nor are the velocities read from a file (velocities are bytes). -/
theorem C69_read (k : Nat) (hk : k < 256) : velocityOf64 k = MidiReader.velocityOf k := by
  have : fl64 ((k : ℚ) / 127) = .fin (fl ((k : ℚ) / 127)) := by
    by_cases h0 : k = 0
    · subst h0
      rw [Nat.cast_zero, zero_div, fl64_zero, fl_zero]
    · have h1 : (1 : ℚ) ≤ k := by exact_mod_cast Nat.one_le_iff_ne_zero.mpr h0
      have h2 : (k : ℚ) < 256 := by exact_mod_cast hk
      have e1 : pow2 (-7) = 1 / 128 := by unfold pow2; norm_num
      have e2 : pow2 2 = 4 := by unfold pow2; norm_num
      have := pow2_le (show (-1022 : ℤ) ≤ -7 by norm_num)
      have := pow2_le (show (2 : ℤ) ≤ 1023 by norm_num)
      apply fl64_normal
      · rw [abs_of_pos (by positivity), le_div_iff₀ (by norm_num)]
        linarith
      · rw [abs_of_pos (by positivity), div_lt_iff₀ (by norm_num)]
        linarith
  unfold velocityOf64 MidiReader.velocityOf
  rw [this]

/-- What `P` does where its results are normal numbers, continued to all arguments. -/
theorem powTwo_of (P : PowTwo64) : ∃ Q : PowTwo, ∀ x : ℚ, -1022 ≤ x → x ≤ 1023 → P.pow x = .ok (.fin (Q.pow x)) := by
  classical
  obtain ⟨R⟩ := powTwo_exists
  have h : ∀ x : ℚ, ∃ y : ℚ, (-1022 ≤ x → x ≤ 1023 → P.pow x = .ok (.fin y)) ∧ (∀ k : ℤ, x = k → y = 2 ^ k) ∧
      |(y : ℝ) - (2 : ℝ) ^ (x : ℝ)| ≤ (2 : ℝ) ^ (x : ℝ) / 2 ^ 52 := by
    intro x
    by_cases hx : -1022 ≤ x ∧ x ≤ 1023
    · obtain ⟨y, h1, h2⟩ := P.err x hx.1 (by linarith [hx.2])
      refine ⟨y, fun _ _ => h1, ?_, h2⟩
      rintro k rfl
      have := P.exact k (by exact_mod_cast hx.1) (by exact_mod_cast hx.2)
      rw [h1] at this
      simpa using this
    · refine ⟨R.pow x, fun a b => absurd ⟨a, b⟩ hx, ?_, R.err x⟩
      rintro k rfl
      exact R.exact k
  choose f hf using h
  exact ⟨⟨f, fun k => (hf k).2.1 k rfl, fun x => (hf x).2.2⟩, fun x h1 h2 => (hf x).1 h1 h2⟩

/-- C69: within 1000 octaves of A4, for bases between 2^-20 and 2^20, `to_frequency` neither overflows nor underflows:
its result is that of the arithmetic with unbounded exponents, about which C14 speaks (accuracy, order, octaves). -/
theorem C69_frequency_partial (P : PowTwo64) : ∃ Q : PowTwo, ∀ (t : Tone) (base : ℚ), |t.pitch - 57| ≤ 12000 →
    2 ^ (-20 : ℤ) ≤ base → base ≤ 2 ^ (20 : ℤ) →
    t.toFrequency64 P base = .ok (.fin (t.toFrequencyFloat Q base)) := by
  obtain ⟨Q, hQ⟩ := powTwo_of P
  refine ⟨Q, ?_⟩
  intro t base ht hb1 hb2
  have hb1 : pow2 (-20) ≤ base := hb1
  have hb2 : base ≤ pow2 20 := hb2
  set x : ℚ := ((t.pitch - 57 : ℤ) : ℚ) / 12 with hx
  have ha : |x| ≤ 1000 := by
    rw [hx, abs_div]
    have : |((t.pitch - 57 : ℤ) : ℚ)| ≤ 12000 := by exact_mod_cast ht
    rw [abs_of_pos (by norm_num : (0 : ℚ) < 12), div_le_iff₀ (by norm_num)]
    linarith
  have e1 : fl64 x = .fin (fl x) := by
    by_cases h0 : t.pitch - 57 = 0
    · have : x = 0 := by rw [hx, h0]; simp
      rw [this, fl64_zero, fl_zero]
    · apply fl64_normal
      · have h1 : (1 : ℚ) ≤ |((t.pitch - 57 : ℤ) : ℚ)| := by exact_mod_cast Int.one_le_abs h0
        have e1 : pow2 (-4) = 1 / 16 := by unfold pow2; norm_num
        have := pow2_le (show (-1022 : ℤ) ≤ -4 by norm_num)
        rw [hx, abs_div, abs_of_pos (by norm_num : (0 : ℚ) < 12), le_div_iff₀ (by norm_num)]
        linarith
      · have e1 : pow2 10 = 1024 := by unfold pow2; norm_num
        have := pow2_le (show (10 : ℤ) ≤ 1023 by norm_num)
        linarith
  have hy : |fl x| ≤ 1001 := by
    have h3 := fl_err_abs x
    calc |fl x| = |x + (fl x - x)| := by congr 1; ring
      _ ≤ |x| + |fl x - x| := abs_add_le _ _
      _ ≤ 1000 + 1000 / 2 ^ 53 := by
        have : |x| / 2 ^ 53 ≤ 1000 / 2 ^ 53 := by gcongr
        linarith
      _ ≤ 1001 := by norm_num
  set y := fl x with hyd
  have hp := hQ y (by rw [abs_le] at hy; linarith) (by rw [abs_le] at hy; linarith)
  have hz : pow2 (-1002) ≤ Q.pow y ∧ Q.pow y ≤ pow2 1002 := by
    have herr := Q.err y
    have hyR : |(y : ℝ)| ≤ 1001 := by exact_mod_cast hy
    rw [abs_le] at hyR
    have l1 : (2 : ℝ) ^ (-1001 : ℝ) ≤ (2 : ℝ) ^ (y : ℝ) := Real.rpow_le_rpow_of_exponent_le (by norm_num) hyR.1
    have l2 : (2 : ℝ) ^ (y : ℝ) ≤ (2 : ℝ) ^ (1001 : ℝ) := Real.rpow_le_rpow_of_exponent_le (by norm_num) hyR.2
    have cast : ∀ k : ℤ, ((pow2 k : ℚ) : ℝ) = (2 : ℝ) ^ (k : ℝ) := by
      intro k
      unfold pow2
      rw [Rat.cast_zpow, Real.rpow_intCast, Rat.cast_ofNat]
    have c1 : ((pow2 (-1002) : ℚ) : ℝ) = (2 : ℝ) ^ (-1001 : ℝ) / 2 := by
      rw [cast, ← Real.rpow_sub_one (by norm_num)]
      congr 1
      norm_num
    have c2 : ((pow2 1002 : ℚ) : ℝ) = (2 : ℝ) ^ (1001 : ℝ) * 2 := by
      rw [cast, ← Real.rpow_add_one (by norm_num)]
      congr 1
      norm_num
    have hpos : (0 : ℝ) < (2 : ℝ) ^ (y : ℝ) := by positivity
    have hhalf : (2 : ℝ) ^ (y : ℝ) / 2 ^ 52 ≤ (2 : ℝ) ^ (y : ℝ) / 2 :=
      div_le_div_of_nonneg_left hpos.le (by norm_num) (by norm_num)
    rw [abs_le] at herr
    generalize (2 : ℝ) ^ (1001 : ℝ) = B at *
    generalize (2 : ℝ) ^ (-1001 : ℝ) = A at *
    constructor
    · have : ((pow2 (-1002) : ℚ) : ℝ) ≤ (Q.pow y : ℝ) := by rw [c1]; linarith
      exact_mod_cast this
    · have : (Q.pow y : ℝ) ≤ ((pow2 1002 : ℚ) : ℝ) := by rw [c2]; linarith
      exact_mod_cast this
  have e2 : fl64 (base * Q.pow y) = .fin (fl (base * Q.pow y)) := by
    have p1 := pow2_pos (-20)
    have p2 := pow2_pos (-1002)
    have p3 := pow2_pos 1002
    have hbp : 0 < base := lt_of_lt_of_le p1 hb1
    have hzp : 0 < Q.pow y := lt_of_lt_of_le p2 hz.1
    apply fl64_normal
    · rw [abs_of_pos (by positivity), show (-1022 : ℤ) = -20 + -1002 by norm_num, pow2_add]
      exact mul_le_mul hb1 hz.1 p2.le hbp.le
    · rw [abs_of_pos (by positivity)]
      calc base * Q.pow y ≤ pow2 20 * pow2 1002 := mul_le_mul hb2 hz.2 hzp.le (pow2_pos 20).le
        _ = pow2 1022 := by rw [← pow2_add]; norm_num
        _ < 2 * pow2 1022 := by linarith [pow2_pos 1022]
        _ = pow2 1023 := by rw [show (1023 : ℤ) = 1 + 1022 by norm_num, pow2_add, pow2_one]
  unfold Tone.toFrequency64 intDiv64
  have e0 : ((t.pitch - 57 : ℤ) : ℚ) / ((12 : ℤ) : ℚ) = x := by rw [hx]; norm_num
  rw [e0, e1]
  show (P.pow y >>= fun y => pure (mul64 base y)) = _
  rw [hp]
  show Except.ok (mul64 base (.fin (Q.pow y))) = _
  show Except.ok (fl64 (base * Q.pow y)) = _
  rw [e2]
  rfl

/-- C69 is violated by extreme tones, which `Tone` accepts: from 1024 octaves above A4 on, `to_frequency` raises
OverflowError whatever the base. -/
theorem C69_frequency_violated (P : PowTwo64) (t : Tone) (h : 57 + 12 * 1024 ≤ t.pitch) (base : ℚ) :
    t.toFrequency64 P base = .error .overflowError := by
  have hx : (1024 : ℚ) ≤ ((t.pitch - 57 : ℤ) : ℚ) / ((12 : ℤ) : ℚ) := by
    rw [le_div_iff₀ (by norm_num)]
    have : (1024 * 12 : ℤ) ≤ t.pitch - 57 := by omega
    exact_mod_cast this
  set x : ℚ := ((t.pitch - 57 : ℤ) : ℚ) / ((12 : ℤ) : ℚ) with hxd
  have hf : (1024 : ℚ) ≤ fl x := by
    have := fl_mono (p := ((1024 : Nat) : ℚ)) (by norm_num) (by exact_mod_cast hx)
    rw [fl_nat (by norm_num)] at this
    exact_mod_cast this
  unfold Tone.toFrequency64 intDiv64
  rw [← hxd]
  have hn : ¬ |x| < pow2 (-1022) := by
    rw [abs_of_pos (by linarith), not_lt]
    have e1 : pow2 0 = 1 := by unfold pow2; norm_num
    have := pow2_le (show (-1022 : ℤ) ≤ 0 by norm_num)
    linarith
  by_cases hb : pow2 1024 ≤ fl x
  · have : fl64 x = .posInf := by unfold fl64; rw [if_neg hn, if_pos hb]
    rw [this]
    rfl
  · have : fl64 x = .fin (fl x) := by
      unfold fl64
      rw [if_neg hn, if_neg hb, if_neg (by linarith [pow2_pos 1024])]
    rw [this]
    show (P.pow (fl x) >>= fun y => pure (mul64 base y)) = _
    rw [P.overflow _ hf]
    rfl

/-- The contract of `2 ** x` can be met. -/
theorem powTwo64_exists : Nonempty PowTwo64 := by
  obtain ⟨R⟩ := powTwo_exists
  refine ⟨⟨fun x => if 1024 ≤ x then .error .overflowError else .ok (.fin (R.pow x)), ?_, ?_, ?_, ?_⟩⟩
  · intro k _ h
    have : ¬ (1024 : ℚ) ≤ k := by
      intro h'
      have : (1024 : ℤ) ≤ k := by exact_mod_cast h'
      omega
    rw [if_neg this, R.exact]
  · intro x _ h
    exact ⟨R.pow x, by rw [if_neg (by linarith)], R.err x⟩
  · intro x h
    refine ⟨R.pow x, by rw [if_neg (by linarith)], (R.err x).trans ?_⟩
    have hx : (x : ℝ) ≤ -1022 := by exact_mod_cast h.le
    calc (2 : ℝ) ^ (x : ℝ) / 2 ^ 52 ≤ (2 : ℝ) ^ (-1022 : ℝ) / 2 ^ 52 := by
          gcongr
          norm_num
      _ = (2 : ℝ) ^ (-1074 : ℝ) := by
          rw [← Real.rpow_natCast, ← Real.rpow_sub (by norm_num)]
          norm_num
  · intro x h
    rw [if_pos h]

/-- A4 has the frequency 440 Hz; a tone 1025 octaves above it has none. -/
example (P : PowTwo64) : Tone.toFrequency64 P ⟨57⟩ 440 = .ok (.fin 440) ∧
    Tone.toFrequency64 P ⟨12 * 1030⟩ 440 = .error .overflowError := by
  refine ⟨?_, C69_frequency_violated P _ (by norm_num) _⟩
  obtain ⟨Q, h⟩ := C69_frequency_partial P
  rw [h ⟨57⟩ 440 (by norm_num) (by norm_num) (by norm_num)]
  have h0 : fl (((57 - 57 : ℤ) : ℚ) / 12) = ((0 : ℤ) : ℚ) := by norm_num [fl_zero]
  have : Tone.toFrequencyFloat Q ⟨57⟩ 440 = 440 := by
    show fl (440 * Q.pow (fl (((57 - 57 : ℤ) : ℚ) / 12))) = 440
    rw [h0, Q.exact 0, zpow_zero, mul_one]
    have := fl_nat (n := 440) (by norm_num)
    exact_mod_cast this
  rw [this]

end Melodia
