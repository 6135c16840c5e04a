/-
Property theorem C69, frequencies of all tones.
-/
import Verif.Props.Float64

set_option autoImplicit false

namespace Melodia

theorem castR_pow2 (k : ℤ) : ((pow2 k : ℚ) : ℝ) = (2 : ℝ) ^ (k : ℝ) := by
  unfold pow2
  rw [Rat.cast_zpow, Real.rpow_intCast, Rat.cast_ofNat]

theorem pow2_nat (n : ℕ) : pow2 n = ((2 ^ n : ℤ) : ℚ) := by
  unfold pow2
  push_cast
  rw [zpow_natCast]

/-- What rounding to a finite double changes. -/
theorem fl64_err {q v : ℚ} (h : fl64 q = .fin v) : |v - q| ≤ |q| / 2 ^ 53 + pow2 (-1074) := by
  unfold fl64 at h
  split at h
  · cases h
    have h1 := (roundHalfEven_bounds (q * pow2 1074)).2
    have e : pow2 1074 * pow2 (-1074) = 1 := by rw [← pow2_add]; unfold pow2; norm_num
    have h2 : (roundHalfEven (q * pow2 1074) : ℚ) * pow2 (-1074) - q =
        ((roundHalfEven (q * pow2 1074) : ℚ) - q * pow2 1074) * pow2 (-1074) := by
      rw [sub_mul, mul_assoc, e, mul_one]
    rw [h2, abs_mul, abs_of_pos (pow2_pos (-1074))]
    have h3 := mul_le_mul_of_nonneg_right h1 (pow2_pos (-1074)).le
    have := pow2_pos (-1074)
    have : 0 ≤ |q| / 2 ^ 53 := by positivity
    linarith
  · split at h
    · cases h
    · split at h
      · cases h
      · cases h
        have := fl_err_abs q
        have := pow2_pos (-1074)
        linarith

/-- Finite doubles are below 2^1024. -/
theorem fl64_lt {q v : ℚ} (h : fl64 q = .fin v) : v < pow2 1024 := by
  have he := fl64_err h
  unfold fl64 at h
  split at h
  · rename_i hq
    have p1 := pow2_le (show (-1022 : ℤ) ≤ 0 by norm_num)
    have p2 := pow2_le (show (-1074 : ℤ) ≤ 0 by norm_num)
    have p3 := pow2_le (show (3 : ℤ) ≤ 1024 by norm_num)
    have e1 : pow2 0 = 1 := by unfold pow2; norm_num
    have e3 : pow2 3 = 8 := by unfold pow2; norm_num
    have h1 := (abs_le.mp he).2
    have h2 := le_abs_self q
    have h3 : |q| / 2 ^ 53 ≤ |q| := div_le_self (abs_nonneg q) (by norm_num)
    linarith
  · split at h
    · cases h
    · rename_i h1
      split at h
      · cases h
      · cases h
        exact not_le.mp h1

/-- The errors of the three steps added up. -/
theorem freq_steps {b X Y w v e m : ℝ} (hb0 : 0 < b) (hX : 0 < X) (hY : 0 < Y) (he : 0 < e) (hm : m ≤ 2000)
    (h1 : |Y - X| ≤ m / 2 ^ 53 * X + e) (h2 : |w - Y| ≤ Y / 2 ^ 52 + e) (h3 : |v - b * w| ≤ |b * w| / 2 ^ 53 + e) :
    |v - b * X| ≤ (m + 4) / 2 ^ 53 * (b * X) + (3 * b + 1) * e ∧ |b * w| ≤ (1 + 1 / 2 ^ 41) * (b * X) + 3 * b * e := by
  have hbX : 0 < b * X := mul_pos hb0 hX
  have hbY : 0 < b * Y := mul_pos hb0 hY
  have hbe : 0 < b * e := mul_pos hb0 he
  have k1 : |b * Y - b * X| ≤ m / 2 ^ 53 * (b * X) + b * e := by
    rw [← mul_sub, abs_mul, abs_of_pos hb0]
    calc b * |Y - X| ≤ b * (m / 2 ^ 53 * X + e) := by gcongr
      _ = _ := by ring
  have k2 : |b * w - b * Y| ≤ (b * Y) / 2 ^ 52 + b * e := by
    rw [← mul_sub, abs_mul, abs_of_pos hb0]
    calc b * |w - Y| ≤ b * (Y / 2 ^ 52 + e) := by gcongr
      _ = _ := by ring
  have k3 : m / 2 ^ 53 * (b * X) ≤ 2000 / 2 ^ 53 * (b * X) := by gcongr
  have k4 : |b * w| ≤ b * Y + |b * w - b * Y| := by
    calc |b * w| = |b * Y + (b * w - b * Y)| := by congr 1; ring
      _ ≤ |b * Y| + |b * w - b * Y| := abs_add_le _ _
      _ = _ := by rw [abs_of_pos hbY]
  have k5 : b * Y ≤ b * X + |b * Y - b * X| := by
    have := le_abs_self (b * Y - b * X)
    linarith
  have k6 : |v - b * X| ≤ |v - b * w| + |b * w - b * Y| + |b * Y - b * X| := by
    calc |v - b * X| = |(v - b * w) + (b * w - b * Y) + (b * Y - b * X)| := by congr 1; ring
      _ ≤ _ := abs_add_three _ _ _
  have e1 : (m + 4) / 2 ^ 53 * (b * X) = m / 2 ^ 53 * (b * X) + 4 / 2 ^ 53 * (b * X) := by ring
  have e2 : (3 * b + 1) * e = 3 * (b * e) + e := by ring
  have e3 : 3 * b * e = 3 * (b * e) := by ring
  rw [e1, e2, e3]
  generalize |b * w| = W at *
  norm_num at k1 k2 k3 h3 ⊢
  constructor <;> linarith

/-- C69: the frequency of every tone. Far above and unimaginably far below A4 `to_frequency` raises OverflowError. For all
others it returns the equal-temperament frequency up to the stated error, or infinity when that frequency is beyond
the largest double (2^1024). `base` is any positive number below 2^1024. -/
theorem C69_frequency_all_partial (P : PowTwo64) (t : Tone) (base : ℚ) (hb0 : 0 < base) (hb2 : base < 2 ^ (1024 : ℤ)) :
    (t.toFrequency64 P base = .error .overflowError ∧
      (57 + 12 * 1024 ≤ t.pitch ∨ t.pitch ≤ 57 - 12 * 2 ^ 1023)) ∨
    (t.pitch < 57 + 12 * 1024 ∧ ∃ v : ℚ, t.toFrequency64 P base = .ok (.fin v) ∧ (v : ℝ) < (2 : ℝ) ^ (1024 : ℝ) ∧
      |(v : ℝ) - t.toFrequency base| ≤ (|(t.pitch : ℝ) - 57| / 12 + 4) / 2 ^ 53 * t.toFrequency base +
        (3 * base + 1) * (2 : ℝ) ^ (-1074 : ℝ)) ∨
    (t.pitch < 57 + 12 * 1024 ∧ t.toFrequency64 P base = .ok .posInf ∧
      (1 - 1 / 2 ^ 40) * (2 : ℝ) ^ (1024 : ℝ) ≤ t.toFrequency base) := by
  by_cases hhigh : 57 + 12 * 1024 ≤ t.pitch
  · exact Or.inl ⟨C69_frequency_violated P t hhigh base, Or.inl hhigh⟩
  push Not at hhigh
  set x : ℚ := ((t.pitch - 57 : ℤ) : ℚ) / 12 with hx
  have e0 : ((t.pitch - 57 : ℤ) : ℚ) / ((12 : ℤ) : ℚ) = x := by rw [hx]; norm_num
  have hxR : ((x : ℚ) : ℝ) = ((t.pitch : ℝ) - 57) / 12 := by rw [hx]; push_cast; ring
  have hxabs : |(x : ℝ)| = |(t.pitch : ℝ) - 57| / 12 := by
    rw [hxR, abs_div]; norm_num
  have hxle : x ≤ 12287 / 12 := by
    rw [hx]
    have : t.pitch - 57 ≤ 12287 := by omega
    have : ((t.pitch - 57 : ℤ) : ℚ) ≤ 12287 := by exact_mod_cast this
    linarith
  by_cases hlow : t.pitch ≤ 57 - 12 * 2 ^ 1023 ∧ ∀ r, fl64 x ≠ .fin r
  · refine Or.inl ⟨?_, Or.inr hlow.1⟩
    unfold Tone.toFrequency64 intDiv64
    rw [e0]
    have hr := hlow.2
    cases hf : fl64 x with
    | fin r => exact absurd hf (hr r)
    | nan => rfl
    | posInf => rfl
    | negInf => rfl
  right
  have hfx : fl64 x = .fin (fl x) := by
    by_cases h0 : t.pitch - 57 = 0
    · have : x = 0 := by rw [hx, h0]; simp
      rw [this, fl64_zero, fl_zero]
    have hbig : pow2 (-1022) ≤ |x| := by
      have h1 : (1 : ℚ) ≤ |((t.pitch - 57 : ℤ) : ℚ)| := by exact_mod_cast Int.one_le_abs h0
      have e1 : pow2 (-4) = 1 / 16 := by unfold pow2; norm_num
      have := pow2_le (show (-1022 : ℤ) ≤ -4 by norm_num)
      rw [hx, abs_div, abs_of_pos (by norm_num : (0 : ℚ) < 12), le_div_iff₀ (by norm_num)]
      linarith
    by_cases hl : t.pitch ≤ 57 - 12 * 2 ^ 1023
    · have : ∃ r, fl64 x = .fin r := by
        by_contra hc
        push Not at hc
        exact hlow ⟨hl, hc⟩
      obtain ⟨r, hr⟩ := this
      rw [hr]
      unfold fl64 at hr
      rw [if_neg (not_lt.mpr hbig)] at hr
      split at hr
      · cases hr
      · split at hr
        · cases hr
        · exact hr.symm
    · apply fl64_normal hbig
      push Not at hl
      rw [abs_lt]
      have e2 : pow2 1023 = ((2 ^ 1023 : ℤ) : ℚ) := pow2_nat 1023
      have h2 : (-(12 * 2 ^ 1023 : ℤ) : ℤ) < t.pitch - 57 := by clear e2; linarith
      have h3 : ((-(12 * 2 ^ 1023 : ℤ) : ℤ) : ℚ) < ((t.pitch - 57 : ℤ) : ℚ) := by exact_mod_cast h2
      constructor
      · rw [e2, hx, lt_div_iff₀ (by norm_num)]
        refine lt_of_eq_of_lt ?_ h3
        push_cast
        ring
      · have e3 : pow2 11 = 2048 := by unfold pow2; norm_num
        have := pow2_le (show (11 : ℤ) ≤ 1023 by norm_num)
        linarith
  set y := fl x with hy
  have two : (0 : ℝ) < 2 := by norm_num
  have hxy : |(y : ℝ) - x| ≤ |(x : ℝ)| / 2 ^ 53 := castR_fl_err x
  have hxleR : (x : ℝ) ≤ 12287 / 12 := by
    have := (Rat.cast_le (K := ℝ)).mpr hxle
    push_cast at this
    exact this
  have hyle : (y : ℝ) ≤ 16383 / 16 := by
    have h1 := (abs_le.mp hxy).2
    rcases abs_cases (x : ℝ) with ⟨h2, h3⟩ | ⟨h2, h3⟩
    · rw [h2] at h1
      have : (x : ℝ) / 2 ^ 53 ≤ 1 / 100 := by
        rw [div_le_iff₀ (by norm_num)]
        norm_num
        linarith
      linarith
    · rw [h2] at h1
      have : -(x : ℝ) / 2 ^ 53 ≤ -x := div_le_self (by linarith) (by norm_num)
      linarith
  set e : ℝ := (2 : ℝ) ^ (-1074 : ℝ) with he
  have hepow : ((pow2 (-1074) : ℚ) : ℝ) = e := by
    rw [castR_pow2, he]
    norm_num
  have hepos : 0 < e := by positivity
  have hY : (0 : ℝ) < (2 : ℝ) ^ (y : ℝ) := by positivity
  have hX : (0 : ℝ) < (2 : ℝ) ^ (x : ℝ) := by positivity
  obtain ⟨w, hw, hwerr⟩ : ∃ w : ℚ, P.pow y = .ok (.fin w) ∧
      |(w : ℝ) - (2 : ℝ) ^ (y : ℝ)| ≤ (2 : ℝ) ^ (y : ℝ) / 2 ^ 52 + e := by
    by_cases h : y < -1022
    · obtain ⟨w, h1, h2⟩ := P.small y h
      exact ⟨w, h1, h2.trans (by linarith [show (0 : ℝ) ≤ (2 : ℝ) ^ (y : ℝ) / 2 ^ 52 by positivity])⟩
    · obtain ⟨w, h1, h2⟩ := P.err y (not_lt.mp h) (by
        rw [← Rat.cast_le (K := ℝ)]
        push_cast
        exact hyle)
      exact ⟨w, h1, by linarith⟩
  have hval : t.toFrequency64 P base = .ok (fl64 (base * w)) := by
    unfold Tone.toFrequency64 intDiv64
    rw [e0, hfx]
    show (P.pow y >>= fun y => pure (mul64 base y)) = _
    rw [hw]
    rfl
  have hbR : (0 : ℝ) < base := by exact_mod_cast hb0
  have hreal : t.toFrequency base = base * (2 : ℝ) ^ (x : ℝ) := by
    unfold Tone.toFrequency; rw [hxR]
  -- the error of the exponent
  obtain ⟨m, hm, hmx, h1⟩ : ∃ m : ℝ, m ≤ 2000 ∧ m ≤ |(x : ℝ)| ∧
      |(2 : ℝ) ^ (y : ℝ) - (2 : ℝ) ^ (x : ℝ)| ≤ m / 2 ^ 53 * (2 : ℝ) ^ (x : ℝ) + e := by
    by_cases hb : |(x : ℝ)| ≤ 2000
    · refine ⟨|(x : ℝ)|, hb, le_rfl, ?_⟩
      have A : |(2 : ℝ) ^ (y : ℝ) / (2 : ℝ) ^ (x : ℝ) - 1| ≤ |(x : ℝ)| / 2 ^ 53 := by
        rw [← Real.rpow_sub two]
        refine (two_rpow_near (hxy.trans ?_)).trans hxy
        calc |(x : ℝ)| / 2 ^ 53 ≤ 2000 / 2 ^ 53 := by gcongr
          _ ≤ 1 := by norm_num
      rw [div_sub_one hX.ne', abs_div, abs_of_pos hX, div_le_iff₀ hX] at A
      linarith
    · refine ⟨0, by norm_num, abs_nonneg _, ?_⟩
      push Not at hb
      have hneg : (x : ℝ) < -2000 := by
        rcases abs_cases (x : ℝ) with ⟨h2, h3⟩ | ⟨h2, h3⟩
        · rw [h2] at hb
          linarith
        · linarith
      have hyn : (y : ℝ) ≤ -1074 := by
        have h2 := (abs_le.mp hxy).2
        rw [abs_of_neg (by linarith)] at h2
        have : -(x : ℝ) / 2 ^ 53 ≤ -x / 4 := div_le_div_of_nonneg_left (by linarith) (by norm_num) (by norm_num)
        linarith
      have l1 : (2 : ℝ) ^ (x : ℝ) ≤ e := Real.rpow_le_rpow_of_exponent_le (by norm_num) (by linarith)
      have l2 : (2 : ℝ) ^ (y : ℝ) ≤ e := Real.rpow_le_rpow_of_exponent_le (by norm_num) hyn
      rw [zero_div, zero_mul, zero_add, abs_le]
      constructor <;> linarith
  have hbe : (base : ℝ) * e ≤ 1 := by
    have h1 : (base : ℝ) ≤ (2 : ℝ) ^ (1024 : ℝ) := by
      rw [show (1024 : ℝ) = ((1024 : ℤ) : ℝ) by norm_num, ← castR_pow2]
      exact (Rat.cast_le (K := ℝ)).mpr (show base ≤ pow2 1024 from hb2.le)
    calc (base : ℝ) * e ≤ (2 : ℝ) ^ (1024 : ℝ) * e := by gcongr
      _ = (2 : ℝ) ^ (-50 : ℝ) := by rw [he, ← Real.rpow_add two]; norm_num
      _ ≤ 1 := Real.rpow_le_one_of_one_le_of_nonpos (by norm_num) (by norm_num)
  have hbig : (2 : ℝ) ^ (100 : ℕ) ≤ (2 : ℝ) ^ (1024 : ℝ) := by
    rw [← Real.rpow_natCast]
    exact Real.rpow_le_rpow_of_exponent_le (by norm_num) (by norm_num)
  have hF : 0 < base * (2 : ℝ) ^ (x : ℝ) := mul_pos hbR hX
  have hinf : ((pow2 1024 : ℚ) : ℝ) = (2 : ℝ) ^ (1024 : ℝ) := by
    rw [castR_pow2]
    norm_num
  have hflR : |((fl (base * w) : ℚ) : ℝ) - base * w| ≤ |(base : ℝ) * w| / 2 ^ 53 := by
    have := castR_fl_err (base * w)
    push_cast at this
    exact this
  rw [hval, hreal, ← hxabs]
  cases hr : fl64 (base * w) with
  | fin v =>
    refine Or.inl ⟨hhigh, v, rfl, by rw [← hinf]; exact_mod_cast fl64_lt hr, ?_⟩
    have h3 : |(v : ℝ) - base * w| ≤ |(base : ℝ) * w| / 2 ^ 53 + e := by
      rw [← hepow]
      exact_mod_cast fl64_err hr
    refine (freq_steps hbR hX hY hepos hm h1 hwerr h3).1.trans ?_
    gcongr
  | nan =>
    exfalso
    unfold fl64 at hr
    split at hr
    · cases hr
    · split at hr
      · cases hr
      · split at hr <;> cases hr
  | posInf =>
    refine Or.inr ⟨hhigh, rfl, ?_⟩
    have h4 := (freq_steps (v := base * w) hbR hX hY hepos hm h1 hwerr (by
      rw [sub_self, abs_zero]; positivity)).2
    have h5 : pow2 1024 ≤ fl (base * w) := by
      by_contra hc
      unfold fl64 at hr
      rw [if_neg hc] at hr
      split at hr
      · cases hr
      · split at hr <;> cases hr
    have h6 : (2 : ℝ) ^ (1024 : ℝ) ≤ ((fl (base * w) : ℚ) : ℝ) := by
      rw [← hinf]
      exact_mod_cast h5
    have h7 := (abs_le.mp hflR).2
    have h8 := le_abs_self ((base : ℝ) * w)
    have h9 : 3 * (base : ℝ) * e ≤ 3 := by linarith
    generalize (base : ℝ) * (2 : ℝ) ^ (x : ℝ) = F at *
    generalize (2 : ℝ) ^ (1024 : ℝ) = B at *
    generalize |(base : ℝ) * w| = W at *
    norm_num at h4 h7 hbig ⊢
    linarith
  | negInf =>
    exfalso
    have h5 : fl (base * w) ≤ -pow2 1024 := by
      by_contra hc
      unfold fl64 at hr
      rw [if_neg hc] at hr
      split at hr
      · cases hr
      · split at hr <;> cases hr
    have h6 : ((fl (base * w) : ℚ) : ℝ) ≤ -(2 : ℝ) ^ (1024 : ℝ) := by
      rw [← hinf]
      exact_mod_cast h5
    have h7 := (abs_le.mp hflR).1
    have h8 : -e ≤ (w : ℝ) := by
      have := (abs_le.mp hwerr).1
      have : (2 : ℝ) ^ (y : ℝ) / 2 ^ 52 ≤ (2 : ℝ) ^ (y : ℝ) := div_le_self hY.le (by norm_num)
      linarith
    have h9 : -(base * e) ≤ base * (w : ℝ) := by
      have := mul_le_mul_of_nonneg_left h8 hbR.le
      linarith
    have h11 : 0 < base * e := mul_pos hbR hepos
    have h12 : (10 : ℝ) ≤ (2 : ℝ) ^ (1024 : ℝ) := le_trans (by norm_num) hbig
    clear hinf hbig
    generalize (2 : ℝ) ^ (1024 : ℝ) = B at *
    rcases abs_cases ((base : ℝ) * w) with ⟨h2, h3⟩ | ⟨h2, h3⟩
    · rw [h2] at h7
      have : (base : ℝ) * w / 2 ^ 53 ≤ base * w := div_le_self h3 (by norm_num)
      linarith
    · rw [h2] at h7
      have : -((base : ℝ) * w) / 2 ^ 53 ≤ -(base * w) := div_le_self (by linarith) (by norm_num)
      linarith

/-- A tone 1020 octaves above A4: the frequency is infinite, without an exception. -/
example (P : PowTwo64) : Tone.toFrequency64 P ⟨57 + 12 * 1020⟩ 440 = .ok .posInf := by
  have h := C69_frequency_all_partial P ⟨57 + 12 * 1020⟩ 440 (by norm_num) (lt_of_lt_of_le (by norm_num) (zpow_le_zpow_right₀ (m := 10)
    (by norm_num) (by norm_num)))
  have hF : Tone.toFrequency ⟨57 + 12 * 1020⟩ ((440 : ℚ) : ℝ) = 27.5 * (2 : ℝ) ^ (1024 : ℝ) := by
    unfold Tone.toFrequency
    rw [show (2 : ℝ) ^ (1024 : ℝ) = 2 ^ (1020 : ℝ) * 2 ^ (4 : ℝ) by rw [← Real.rpow_add (by norm_num)]; norm_num]
    norm_num
    ring
  rw [hF] at h
  rcases h with ⟨-, h | h⟩ | ⟨-, v, h1, h2, h3⟩ | ⟨-, h1, -⟩
  · norm_num at h
  · simp only at h
    have : (0 : ℤ) < 2 ^ 1023 := by positivity
    omega
  · exfalso
    have hp : (0 : ℝ) < (2 : ℝ) ^ (1024 : ℝ) := by positivity
    have hs : (2 : ℝ) ^ (-1074 : ℝ) * 2 ^ (11 : ℝ) ≤ (2 : ℝ) ^ (1024 : ℝ) := by
      rw [← Real.rpow_add (by norm_num)]
      exact Real.rpow_le_rpow_of_exponent_le (by norm_num) (by norm_num)
    have h4 := (abs_le.mp h3).1
    generalize (2 : ℝ) ^ (1024 : ℝ) = B at *
    generalize (2 : ℝ) ^ (-1074 : ℝ) = e at *
    norm_num at h4 hs
    linarith
  · exact h1

end Melodia
