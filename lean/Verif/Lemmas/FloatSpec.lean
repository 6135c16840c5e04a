/-
`fl`, the model of one rounded floating-point operation, against the definition of IEEE 754: the result
is a binary number of at most 53 significant bits, no such number is nearer to the exact result, and of
two equally near ones the one with even significand is taken.

No property theorem needs this file. It validates the one definition (Model/Py.lean: `fl`) that the model
and the specification share.
-/
import Verif.Lemmas.FloatMore

set_option autoImplicit false

namespace Melodia

/-- Numbers with at most 53 significant bits (doubles, with unbounded exponent). -/
def IsBinary53 (x : ℚ) : Prop := ∃ m e : ℤ, |m| < 2 ^ 53 ∧ x = m * 2 ^ e

/-- No integer is nearer. -/
theorem roundHalfEven_nearest (q : ℚ) (n : ℤ) : |(roundHalfEven q : ℚ) - q| ≤ |(n : ℚ) - q| := by
  by_cases h : n = roundHalfEven q
  · rw [h]
  · have hb := (roundHalfEven_bounds q).2
    have : (1 : ℚ) ≤ |(n : ℚ) - roundHalfEven q| := by
      have : (1 : ℤ) ≤ |n - roundHalfEven q| := Int.one_le_abs (sub_ne_zero.mpr h)
      exact_mod_cast this
    have h2 : |(n : ℚ) - roundHalfEven q| ≤ |(n : ℚ) - q| + |(roundHalfEven q : ℚ) - q| := by
      rw [abs_sub_comm (roundHalfEven q : ℚ) q]
      exact abs_sub_le _ _ _
    linarith

/-- Of two equally near integers the even one is taken. -/
theorem roundHalfEven_tie (q : ℚ) (n : ℤ) (hn : n ≠ roundHalfEven q)
    (h : |(n : ℚ) - q| = |(roundHalfEven q : ℚ) - q|) : roundHalfEven q % 2 = 0 := by
  have hf1 := Int.floor_le q
  have hf2 := Int.lt_floor_add_one q
  have hb := (roundHalfEven_bounds q).2
  -- both are at distance exactly 1/2
  have h1 : (1 : ℚ) ≤ |(n : ℚ) - roundHalfEven q| := by
    have : (1 : ℤ) ≤ |n - roundHalfEven q| := Int.one_le_abs (sub_ne_zero.mpr hn)
    exact_mod_cast this
  have h2 : |(n : ℚ) - roundHalfEven q| ≤ |(n : ℚ) - q| + |(roundHalfEven q : ℚ) - q| := by
    rw [abs_sub_comm (roundHalfEven q : ℚ) q]
    exact abs_sub_le _ _ _
  have h3 : |(roundHalfEven q : ℚ) - q| = 1 / 2 := by linarith
  revert h3
  unfold roundHalfEven
  simp only []
  split_ifs with a b c
  · intro h3
    exfalso
    rw [abs_sub_comm, abs_of_nonneg (by linarith)] at h3
    linarith
  · intro h3
    exfalso
    push_cast at h3
    rw [abs_of_nonneg (by linarith)] at h3
    linarith
  · intro _; exact c
  · intro _; omega

theorem fl_isBinary53 (q : ℚ) : IsBinary53 (fl q) := by
  by_cases hq : q = 0
  · exact ⟨0, 0, by norm_num, by rw [hq, fl_zero]; simp⟩
  · have hu := ulpOf_pos |q|
    obtain ⟨h1, h2⟩ := ratLog2_spec (abs_pos.mpr hq)
    rw [pow2_53] at h2
    set r := roundHalfEven (q / ulpOf |q|) with hr
    have habs : |q / ulpOf (|q|)| ≤ 2 ^ 53 := by
      rw [abs_div, abs_of_pos hu, div_le_iff₀ hu]; exact h2.le
    obtain ⟨g1, g2⟩ := abs_le.mp habs
    have hle : |r| ≤ 2 ^ 53 := by
      rw [abs_le]
      constructor
      · have : ((-(2 ^ 53) : ℤ) : ℚ) ≤ q / ulpOf |q| := by push_cast; exact g1
        have := roundHalfEven_mono this
        rwa [roundHalfEven_int] at this
      · have : q / ulpOf |q| ≤ ((2 ^ 53 : ℤ) : ℚ) := by push_cast; exact g2
        have := roundHalfEven_mono this
        rwa [roundHalfEven_int] at this
    rcases hle.lt_or_eq with hlt | heq
    · exact ⟨r, ratLog2 |q| - 52, hlt, fl_abs_eq hq⟩
    · have hsplit : r = 2 * (r / 2) := by
        have hd : (2 : ℤ) ∣ r := by
          have : (2 : ℤ) ∣ |r| := by rw [heq]; norm_num
          exact (dvd_abs 2 r).mp this
        omega
      refine ⟨r / 2, ratLog2 |q| - 52 + 1, ?_, ?_⟩
      · have : |r| = 2 * |r / 2| := by
          conv_lhs => rw [hsplit]
          rw [abs_mul]; rfl
        rw [heq] at this
        omega
      · have hcast : (r : ℚ) = 2 * ((r / 2 : ℤ) : ℚ) := by exact_mod_cast hsplit
        rw [fl_abs_eq hq, ← hr, hcast, zpow_add₀ (by norm_num), zpow_one]
        unfold ulpOf
        ring

/-- `fl` is a nearest number of 53 significant bits. -/
theorem fl_nearest (q x : ℚ) (hx : IsBinary53 x) : |fl q - q| ≤ |x - q| := by
  by_cases hq : q = 0
  · rw [hq, fl_zero]; simp
  · have hu := ulpOf_pos |q|
    -- nearest among the multiples of the unit in the last place
    have hmul : ∀ n : ℤ, |fl q - q| ≤ |(n : ℚ) * ulpOf |q| - q| := by
      intro n
      have h := roundHalfEven_nearest (q / ulpOf |q|) n
      have e1 : fl q - q = ((roundHalfEven (q / ulpOf |q|) : ℚ) - q / ulpOf |q|) * ulpOf |q| := by
        rw [fl_abs_eq hq, sub_mul, div_mul_cancel₀ _ hu.ne']
      have e2 : (n : ℚ) * ulpOf |q| - q = ((n : ℚ) - q / ulpOf |q|) * ulpOf |q| := by
        rw [sub_mul, div_mul_cancel₀ _ hu.ne']
      rw [e1, e2, abs_mul, abs_mul]
      gcongr
    obtain ⟨m, e, hm, rfl⟩ := hx
    by_cases he : ratLog2 |q| - 52 ≤ e
    · obtain ⟨k, hk⟩ : ∃ k : ℕ, e = (k : ℤ) + (ratLog2 |q| - 52) := ⟨(e - (ratLog2 |q| - 52)).toNat, by omega⟩
      have : (m : ℚ) * 2 ^ e = ((m * 2 ^ k : ℤ) : ℚ) * ulpOf |q| := by
        unfold ulpOf
        rw [hk, zpow_add₀ (by norm_num), zpow_natCast]
        push_cast
        ring
      rw [this]
      exact hmul _
    · -- the number is smaller than the binade of q: the lower end of the binade lies between
      obtain ⟨h1, -⟩ := ratLog2_spec (abs_pos.mpr hq)
      have hsmall : |(m : ℚ) * 2 ^ e| ≤ 2 ^ ratLog2 |q| := by
        have hm' : |(m : ℚ)| ≤ 2 ^ 53 := by exact_mod_cast hm.le
        rw [abs_mul, abs_of_pos (show (0 : ℚ) < 2 ^ e by positivity)]
        calc |(m : ℚ)| * 2 ^ e ≤ 2 ^ 53 * 2 ^ e := by gcongr
          _ = 2 ^ ((53 : ℤ) + e) := by rw [zpow_add₀ (by norm_num)]; norm_num
          _ ≤ 2 ^ ratLog2 |q| := zpow_le_zpow_right₀ (by norm_num) (by omega)
      obtain ⟨s1, s2⟩ := abs_le.mp hsmall
      have hbin := pow2_52 |q|
      rcases lt_or_gt_of_ne hq with hneg | hpos
      · have h := hmul (-(2 ^ 52))
        refine h.trans ?_
        rw [abs_of_neg hneg] at h1 s1 s2 hbin ⊢
        rw [show ((-(2 ^ 52) : ℤ) : ℚ) * ulpOf (-q) = -2 ^ ratLog2 (-q) by rw [hbin]; push_cast; ring,
          abs_of_nonneg (by linarith), abs_of_nonneg (by linarith)]
        linarith
      · have h := hmul (2 ^ 52)
        refine h.trans ?_
        rw [abs_of_pos hpos] at h1 s1 s2 hbin ⊢
        rw [show ((2 ^ 52 : ℤ) : ℚ) * ulpOf q = 2 ^ ratLog2 q by rw [hbin]; push_cast; ring, abs_of_nonpos (by linarith), abs_of_nonpos (by linarith)]
        linarith

/-- Ties go to the even significand: if another multiple of the unit in the last place is equally near,
the significand of `fl q` is even. -/
theorem fl_tie (q : ℚ) (hq : q ≠ 0) (n : ℤ) (hn : (n : ℚ) * ulpOf |q| ≠ fl q)
    (h : |(n : ℚ) * ulpOf |q| - q| = |fl q - q|) :
    ∃ m : ℤ, fl q = m * ulpOf |q| ∧ m % 2 = 0 := by
  have hu := ulpOf_pos |q|
  refine ⟨_, fl_abs_eq hq, roundHalfEven_tie _ n ?_ ?_⟩
  · rintro rfl; exact hn (fl_abs_eq hq).symm
  · have e1 : fl q - q = ((roundHalfEven (q / ulpOf |q|) : ℚ) - q / ulpOf |q|) * ulpOf |q| := by
      rw [fl_abs_eq hq, sub_mul, div_mul_cancel₀ _ hu.ne']
    have e2 : (n : ℚ) * ulpOf |q| - q = ((n : ℚ) - q / ulpOf |q|) * ulpOf |q| := by
      rw [sub_mul, div_mul_cancel₀ _ hu.ne']
    rw [e1, e2, abs_mul, abs_mul] at h
    exact mul_right_cancel₀ (abs_pos.mpr hu.ne').ne' h

/-- Binary numbers of 53 bits are kept. -/
theorem fl_exact {x : ℚ} (hx : IsBinary53 x) : fl x = x := by
  have := fl_nearest x x hx
  rw [sub_self, abs_zero] at this
  exact sub_eq_zero.mp (abs_nonpos_iff.mp this)

/-- 0.1 is the double 3602879701896397 / 2^55; 2^53 + 1 is a tie and goes to the even neighbour. -/
example : fl (1 / 10) = 3602879701896397 / 2 ^ 55 ∧ fl (2 ^ 53 + 1) = 2 ^ 53 ∧ fl (2 ^ 53 + 3) = 2 ^ 53 + 4 := by
  decide +kernel

end Melodia
