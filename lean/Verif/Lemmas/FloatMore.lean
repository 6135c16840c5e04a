/-
More lemmas about `fl`: numbers of either sign, scaling by powers of two.
-/
import Verif.Lemmas.Float

set_option autoImplicit false

namespace Melodia

theorem fl_abs_eq {q : ℚ} (hq : q ≠ 0) : fl q = (roundHalfEven (q / ulpOf |q|) : ℚ) * ulpOf |q| := by
  unfold fl
  rw [if_neg hq]
  rfl

/-- The relative rounding error is at most 2^-53, for either sign. -/
theorem fl_err_abs (q : ℚ) : |fl q - q| ≤ |q| / 2 ^ 53 := by
  by_cases hq : q = 0
  · rw [hq, fl_zero]; simp
  · have hu := ulpOf_pos |q|
    obtain ⟨h1, _⟩ := ratLog2_spec (abs_pos.mpr hq)
    rw [pow2_52] at h1
    have hb := (roundHalfEven_bounds (q / ulpOf |q|)).2
    have : fl q - q = ((roundHalfEven (q / ulpOf |q|) : ℚ) - q / ulpOf |q|) * ulpOf |q| := by
      rw [fl_abs_eq hq, sub_mul, div_mul_cancel₀ _ hu.ne']
    rw [this, abs_mul, abs_of_pos hu]
    calc _ ≤ 1 / 2 * ulpOf |q| := by gcongr
      _ ≤ |q| / 2 ^ 53 := by
        rw [le_div_iff₀ (by norm_num)]
        calc 1 / 2 * ulpOf |q| * 2 ^ 53 = 2 ^ 52 * ulpOf |q| := by ring
          _ ≤ |q| := h1

/-- Integers of absolute value below 2^53 are exact. -/
theorem fl_int {n : Int} (h : |n| < 2 ^ 53) : fl (n : ℚ) = n := by
  by_cases hn : n = 0
  · rw [hn]; exact_mod_cast fl_zero
  · have hq : (n : ℚ) ≠ 0 := by exact_mod_cast hn
    obtain ⟨h1, h2⟩ := ratLog2_spec (abs_pos.mpr hq)
    rw [fl_abs_eq hq]
    have hu := ulpOf_pos |(n : ℚ)|
    have he : ratLog2 |(n : ℚ)| < 53 := by
      by_contra hc
      have : (2 : ℚ) ^ (53 : Int) ≤ 2 ^ ratLog2 |(n : ℚ)| := zpow_le_zpow_right₀ (by norm_num) (by omega)
      have h3 : |(n : ℚ)| < 2 ^ 53 := by exact_mod_cast h
      have h4 : (2 : ℚ) ^ (53 : Int) = 2 ^ 53 := by norm_cast
      linarith
    obtain ⟨k, hk⟩ : ∃ k : Nat, ratLog2 |(n : ℚ)| - 52 = -(k : Int) :=
      ⟨(52 - ratLog2 |(n : ℚ)|).toNat, by omega⟩
    have hdiv : (n : ℚ) / ulpOf |(n : ℚ)| = ((n * 2 ^ k : Int) : ℚ) := by
      unfold ulpOf
      rw [hk, zpow_neg, zpow_natCast]
      push_cast
      field_simp
    rw [hdiv, roundHalfEven_int, ← hdiv, div_mul_cancel₀ _ hu.ne']

/-- The binary exponent is determined by its bounds. -/
theorem ratLog2_unique {q : ℚ} (hq : 0 < q) {k : Int} (h1 : (2 : ℚ) ^ k ≤ q) (h2 : q < 2 ^ (k + 1)) :
    ratLog2 q = k := by
  obtain ⟨a, b⟩ := ratLog2_spec hq
  have c1 : k < ratLog2 q + 1 := (zpow_lt_zpow_iff_right₀ (by norm_num : (1 : ℚ) < 2)).mp (h1.trans_lt b)
  have c2 : ratLog2 q < k + 1 := (zpow_lt_zpow_iff_right₀ (by norm_num : (1 : ℚ) < 2)).mp (a.trans_lt h2)
  omega

/-- Scaling by a power of two commutes with rounding. -/
theorem fl_scale (q : ℚ) (k : Int) : fl (q * 2 ^ k) = fl q * 2 ^ k := by
  by_cases hq : q = 0
  · rw [hq, zero_mul, fl_zero, zero_mul]
  · have hk : (0 : ℚ) < 2 ^ k := by positivity
    have hq' : q * 2 ^ k ≠ 0 := mul_ne_zero hq hk.ne'
    obtain ⟨a, b⟩ := ratLog2_spec (abs_pos.mpr hq)
    have habs : |q * 2 ^ k| = |q| * 2 ^ k := by rw [abs_mul, abs_of_pos hk]
    have hl : ratLog2 (|q| * 2 ^ k) = ratLog2 |q| + k := by
      apply ratLog2_unique (mul_pos (abs_pos.mpr hq) hk)
      · rw [zpow_add₀ (by norm_num)]; gcongr
      · rw [show ratLog2 |q| + k + 1 = (ratLog2 |q| + 1) + k by ring, zpow_add₀ (by norm_num)]; gcongr
    have hu : ulpOf (|q| * 2 ^ k) = ulpOf |q| * 2 ^ k := by
      unfold ulpOf
      rw [hl, ← zpow_add₀ (by norm_num)]; congr 1; ring
    rw [fl_abs_eq hq', fl_abs_eq hq, habs, hu, mul_div_mul_right _ _ hk.ne']
    ring

end Melodia
