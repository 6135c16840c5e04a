/-
Lemmas about `fl`, the model of one rounded floating-point operation, for non-negative numbers.
-/
import Verif.Model.Py
import Mathlib.Tactic.Linarith
import Mathlib.Tactic.Positivity
import Mathlib.Tactic.FieldSimp
import Mathlib.Tactic.Ring
import Mathlib.Data.Nat.Log
import Mathlib.Algebra.Order.Field.Power
import Mathlib.Data.Rat.Lemmas

set_option autoImplicit false

namespace Melodia

theorem log2_bounds {n : Nat} (h : 0 < n) :
    (2 : ℚ) ^ (Nat.log2 n : Int) ≤ n ∧ (n : ℚ) < 2 ^ ((Nat.log2 n : Int) + 1) := by
  have h1 : 2 ^ Nat.log2 n ≤ n := Nat.log2_self_le (by omega)
  have h2 : n < 2 ^ (Nat.log2 n + 1) := Nat.lt_log2_self
  constructor
  · rw [zpow_natCast]; exact_mod_cast h1
  · have : ((Nat.log2 n : Int) + 1) = ((Nat.log2 n + 1 : Nat) : Int) := by push_cast; rfl
    rw [this, zpow_natCast]; exact_mod_cast h2

/-- `ratLog2` is the binary exponent. -/
theorem ratLog2_spec {q : ℚ} (hq : 0 < q) : (2 : ℚ) ^ ratLog2 q ≤ q ∧ q < 2 ^ (ratLog2 q + 1) := by
  have hn : 0 < q.num := Rat.num_pos.2 hq
  obtain ⟨a1, a2⟩ := log2_bounds (n := q.num.natAbs) (by omega)
  obtain ⟨b1, b2⟩ := log2_bounds (n := q.den) q.den_pos
  have hd : (0 : ℚ) < q.den := by exact_mod_cast q.den_pos
  have hnum : ((q.num.natAbs : Nat) : ℚ) = (q.num : ℚ) := by
    have : ((q.num.natAbs : Nat) : Int) = q.num := by omega
    rw [← Int.cast_natCast, this]
  have hqe : q = (q.num.natAbs : ℚ) / q.den := by rw [hnum]; exact (Rat.num_div_den q).symm
  set a : Int := (Nat.log2 q.num.natAbs : Int) with ha
  set b : Int := (Nat.log2 q.den : Int) with hb
  have hup : q < 2 ^ (a - b + 1) := by
    rw [hqe, div_lt_iff₀ hd]
    calc (q.num.natAbs : ℚ) < 2 ^ (a + 1) := a2
      _ = 2 ^ (a - b + 1) * 2 ^ b := by rw [← zpow_add₀ (by norm_num)]; congr 1; ring
      _ ≤ 2 ^ (a - b + 1) * q.den := by gcongr
  have hlo : (2 : ℚ) ^ (a - b - 1) ≤ q := by
    rw [hqe, le_div_iff₀ hd]
    calc (2 : ℚ) ^ (a - b - 1) * q.den ≤ 2 ^ (a - b - 1) * 2 ^ (b + 1) := by gcongr
      _ = 2 ^ a := by rw [← zpow_add₀ (by norm_num)]; congr 1; ring
      _ ≤ q.num.natAbs := a1
  unfold ratLog2
  simp only [← ha, ← hb]
  split
  · rename_i h; exact ⟨h, hup⟩
  · rename_i h
    refine ⟨hlo, ?_⟩
    rw [sub_add_cancel]
    exact lt_of_not_ge h

theorem roundHalfEven_bounds (q : ℚ) :
    (⌊q⌋ ≤ roundHalfEven q ∧ roundHalfEven q ≤ ⌊q⌋ + 1) ∧ |(roundHalfEven q : ℚ) - q| ≤ 1 / 2 := by
  have h1 := Int.floor_le q
  have h2 := Int.lt_floor_add_one q
  unfold roundHalfEven
  simp only []
  split_ifs with a b c
  · exact ⟨⟨le_rfl, by omega⟩, by rw [abs_le]; constructor <;> linarith⟩
  · exact ⟨⟨by omega, le_rfl⟩, by push_cast; rw [abs_le]; constructor <;> linarith⟩
  · exact ⟨⟨le_rfl, by omega⟩, by rw [abs_le]; constructor <;> linarith⟩
  · exact ⟨⟨by omega, le_rfl⟩, by push_cast; rw [abs_le]; constructor <;> linarith⟩

theorem roundHalfEven_int (n : Int) : roundHalfEven (n : ℚ) = n := by
  unfold roundHalfEven
  simp

theorem roundHalfEven_mono {p q : ℚ} (h : p ≤ q) : roundHalfEven p ≤ roundHalfEven q := by
  have hf := Int.floor_le_floor h
  rcases hf.lt_or_eq with hlt | heq
  · have := (roundHalfEven_bounds p).1.2
    have := (roundHalfEven_bounds q).1.1
    omega
  · unfold roundHalfEven
    simp only [heq]
    have hr : p - (⌊q⌋ : ℚ) ≤ q - ⌊q⌋ := by linarith
    split_ifs <;> first | omega | (exfalso; linarith)

/-- The last place of the binade of `q`. -/
def ulpOf (q : ℚ) : ℚ := (2 : ℚ) ^ (ratLog2 q - 52)

theorem ulpOf_pos (q : ℚ) : 0 < ulpOf q := by unfold ulpOf; positivity

theorem fl_pos {q : ℚ} (hq : 0 < q) : fl q = (roundHalfEven (q / ulpOf q) : ℚ) * ulpOf q := by
  unfold fl
  rw [if_neg hq.ne', abs_of_pos hq]
  rfl

theorem fl_zero : fl 0 = 0 := by unfold fl; rw [if_pos rfl]

theorem pow2_53 (q : ℚ) : (2 : ℚ) ^ (ratLog2 q + 1) = 2 ^ 53 * ulpOf q := by
  unfold ulpOf
  rw [show (2 : ℚ) ^ 53 = 2 ^ (53 : Int) by norm_cast, ← zpow_add₀ (by norm_num)]
  congr 1; ring

theorem pow2_52 (q : ℚ) : (2 : ℚ) ^ (ratLog2 q) = 2 ^ 52 * ulpOf q := by
  unfold ulpOf
  rw [show (2 : ℚ) ^ 52 = 2 ^ (52 : Int) by norm_cast, ← zpow_add₀ (by norm_num)]
  congr 1; ring

theorem fl_binade {q : ℚ} (hq : 0 < q) : (2 : ℚ) ^ ratLog2 q ≤ fl q ∧ fl q ≤ 2 ^ (ratLog2 q + 1) := by
  obtain ⟨h1, h2⟩ := ratLog2_spec hq
  have hu := ulpOf_pos q
  rw [fl_pos hq, pow2_52, pow2_53]
  rw [pow2_52] at h1
  rw [pow2_53] at h2
  constructor
  · apply mul_le_mul_of_nonneg_right _ hu.le
    have : ((2 ^ 52 : Int) : ℚ) ≤ q / ulpOf q := by
      rw [le_div_iff₀ hu]; push_cast; exact h1
    have := roundHalfEven_mono this
    rw [roundHalfEven_int] at this
    exact_mod_cast this
  · apply mul_le_mul_of_nonneg_right _ hu.le
    have : q / ulpOf q ≤ ((2 ^ 53 : Int) : ℚ) := by
      rw [div_le_iff₀ hu]; push_cast; exact h2.le
    have := roundHalfEven_mono this
    rw [roundHalfEven_int] at this
    exact_mod_cast this

theorem fl_nonneg {q : ℚ} (hq : 0 ≤ q) : 0 ≤ fl q := by
  rcases hq.eq_or_lt with rfl | h
  · rw [fl_zero]
  · exact le_trans (by positivity) (fl_binade h).1

/-- Rounding is monotone. -/
theorem fl_mono {p q : ℚ} (hp : 0 ≤ p) (h : p ≤ q) : fl p ≤ fl q := by
  rcases hp.eq_or_lt with rfl | hp
  · rw [fl_zero]; exact fl_nonneg h
  · have hq : 0 < q := lt_of_lt_of_le hp h
    obtain ⟨p1, p2⟩ := ratLog2_spec hp
    obtain ⟨q1, q2⟩ := ratLog2_spec hq
    rcases lt_trichotomy (ratLog2 p) (ratLog2 q) with hlt | heq | hgt
    · calc fl p ≤ 2 ^ (ratLog2 p + 1) := (fl_binade hp).2
        _ ≤ 2 ^ (ratLog2 q) := zpow_le_zpow_right₀ (by norm_num) (by omega)
        _ ≤ fl q := (fl_binade hq).1
    · rw [fl_pos hp, fl_pos hq]
      have hu : ulpOf p = ulpOf q := by unfold ulpOf; rw [heq]
      rw [hu]
      apply mul_le_mul_of_nonneg_right _ (ulpOf_pos q).le
      have : p / ulpOf q ≤ q / ulpOf q := by
        have := ulpOf_pos q; gcongr
      exact_mod_cast roundHalfEven_mono this
    · exfalso
      have : (2 : ℚ) ^ (ratLog2 q + 1) ≤ 2 ^ (ratLog2 p) := zpow_le_zpow_right₀ (by norm_num) (by omega)
      linarith

/-- The relative rounding error is at most 2^-53. -/
theorem fl_err {q : ℚ} (hq : 0 ≤ q) : |fl q - q| ≤ q / 2 ^ 53 := by
  rcases hq.eq_or_lt with rfl | hq
  · rw [fl_zero]; simp
  · have hu := ulpOf_pos q
    obtain ⟨h1, _⟩ := ratLog2_spec hq
    rw [pow2_52] at h1
    have hb := (roundHalfEven_bounds (q / ulpOf q)).2
    have : fl q - q = ((roundHalfEven (q / ulpOf q) : ℚ) - q / ulpOf q) * ulpOf q := by
      rw [fl_pos hq, sub_mul, div_mul_cancel₀ _ hu.ne']
    rw [this, abs_mul, abs_of_pos hu]
    calc _ ≤ 1 / 2 * ulpOf q := by gcongr
      _ ≤ q / 2 ^ 53 := by
        rw [le_div_iff₀ (by norm_num)]
        calc 1 / 2 * ulpOf q * 2 ^ 53 = 2 ^ 52 * ulpOf q := by ring
          _ ≤ q := h1

/-- Integers below 2^53 are exact. -/
theorem fl_nat {n : Nat} (h : n < 2 ^ 53) : fl (n : ℚ) = n := by
  rcases Nat.eq_zero_or_pos n with rfl | hn
  · exact_mod_cast fl_zero
  · have hq : (0 : ℚ) < n := by exact_mod_cast hn
    obtain ⟨h1, h2⟩ := ratLog2_spec hq
    rw [fl_pos hq]
    have hu := ulpOf_pos (n : ℚ)
    have he : ratLog2 (n : ℚ) < 53 := by
      by_contra hc
      have : (2 : ℚ) ^ (53 : Int) ≤ 2 ^ ratLog2 (n : ℚ) := zpow_le_zpow_right₀ (by norm_num) (by omega)
      have h3 : ((n : Nat) : ℚ) < 2 ^ 53 := by exact_mod_cast h
      have h4 : (2 : ℚ) ^ (53 : Int) = 2 ^ 53 := by norm_cast
      linarith
    obtain ⟨k, hk⟩ : ∃ k : Nat, ratLog2 (n : ℚ) - 52 = -(k : Int) := ⟨(52 - ratLog2 (n : ℚ)).toNat, by omega⟩
    have hdiv : (n : ℚ) / ulpOf n = ((n * 2 ^ k : Nat) : Int) := by
      unfold ulpOf
      rw [hk, zpow_neg, zpow_natCast]
      push_cast
      field_simp
    rw [hdiv, roundHalfEven_int, ← hdiv, div_mul_cancel₀ _ hu.ne']

end Melodia
