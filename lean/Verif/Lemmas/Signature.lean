/-
Helper lemmas about the model of Signature.
-/
import Verif.Spec.Signature
import Mathlib.Data.Rat.Lemmas
import Mathlib.RingTheory.Coprime.Lemmas
import Mathlib.Tactic.Ring
import Mathlib.Tactic.FieldSimp
import Mathlib.Tactic.Linarith
import Mathlib.Tactic.NormNum
import Mathlib.Tactic.Positivity
import Mathlib.Algebra.Order.Field.Rat

set_option autoImplicit false

namespace Melodia

theorem IsPow2.pos {d : Int} (h : IsPow2 d) : 0 < d := by
  obtain ⟨k, rfl⟩ := h; positivity

theorem IsPow2.one : IsPow2 1 := ⟨0, rfl⟩

theorem IsPow2.mul {a b : Int} (ha : IsPow2 a) (hb : IsPow2 b) : IsPow2 (a * b) := by
  obtain ⟨k, rfl⟩ := ha; obtain ⟨l, rfl⟩ := hb; exact ⟨k + l, by rw [pow_add]⟩

/-- Of two powers of two the smaller divides the larger. -/
theorem IsPow2.dvd {a b : Int} (ha : IsPow2 a) (hb : IsPow2 b) (h : a ≤ b) : a ∣ b := by
  obtain ⟨k, rfl⟩ := ha; obtain ⟨l, rfl⟩ := hb
  refine pow_dvd_pow 2 ?_
  by_contra hlt
  push Not at hlt
  have : (2:Int)^l < 2^k := pow_lt_pow_right₀ (by norm_num) hlt
  omega

theorem isPow2Test_iff (d : Int) : Signature.isPow2Test d = true ↔ IsPow2 d := by
  unfold Signature.isPow2Test IsPow2
  rw [Bool.and_eq_true, decide_eq_true_iff, beq_iff_eq]
  constructor
  · rintro ⟨hpos, hand⟩
    have h0 : d.toNat ≠ 0 := by omega
    have h1 : (d - 1).toNat = d.toNat - 1 := by omega
    rw [h1] at hand
    obtain ⟨k, hk⟩ := (Nat.and_sub_one_eq_zero_iff_isPowerOfTwo h0).mp hand
    refine ⟨k, ?_⟩
    have : (d.toNat : Int) = ((2 ^ k : Nat) : Int) := by rw [hk]
    rw [Int.toNat_of_nonneg (by omega)] at this
    simpa using this
  · rintro ⟨k, rfl⟩
    have hp : (0 : Int) < 2 ^ k := by positivity
    refine ⟨hp, ?_⟩
    have e : ((2 : Int) ^ k).toNat = 2 ^ k := by
      have : ((2 : Int) ^ k) = ((2 ^ k : Nat) : Int) := by simp
      rw [this, Int.toNat_natCast]
    have h1 : ((2 : Int) ^ k - 1).toNat = 2 ^ k - 1 := by omega
    rw [e, h1]
    exact (Nat.and_sub_one_eq_zero_iff_isPowerOfTwo (by positivity)).mpr ⟨k, rfl⟩

theorem isPow2Test_eq_false {d : Int} (h : ¬ IsPow2 d) : Signature.isPow2Test d = false := by
  rw [← Bool.not_eq_true, isPow2Test_iff]; exact h

namespace Signature

theorem new_ok {n d : Int} (hn : 0 ≤ n) (hd : IsPow2 d) : new n d = .ok ⟨n, d⟩ := by
  unfold new
  rw [(isPow2Test_iff d).mpr hd]
  simp [hn]

theorem new_err {n d : Int} (h : ¬ (0 ≤ n ∧ IsPow2 d)) : new n d = .error .valueError := by
  unfold new
  by_cases hn : 0 ≤ n
  · have : ¬ IsPow2 d := fun hd => h ⟨hn, hd⟩
    rw [isPow2Test_eq_false this]; simp
  · simp [hn]

theorem new_eq_ok_iff {n d : Int} {s : Signature} :
    new n d = .ok s ↔ s = ⟨n, d⟩ ∧ s.Valid := by
  constructor
  · intro h
    by_cases hv : 0 ≤ n ∧ IsPow2 d
    · rw [new_ok hv.1 hv.2] at h
      cases h
      exact ⟨rfl, ⟨hv.1, hv.2⟩⟩
    · rw [new_err hv] at h; cases h
  · rintro ⟨rfl, hv⟩
    exact new_ok hv.nom hv.den

theorem Valid.denPos {s : Signature} (h : s.Valid) : 0 < s.denominator := h.den.pos

theorem Valid.denPosQ {s : Signature} (h : s.Valid) : (0 : ℚ) < s.denominator := by
  exact_mod_cast h.denPos

theorem Valid.valNonneg {s : Signature} (h : s.Valid) : 0 ≤ s.val := by
  unfold val
  have := h.denPosQ
  have : (0 : ℚ) ≤ s.nominator := by exact_mod_cast h.nom
  positivity

/-- Exact division of a larger power of two by a smaller one. -/
theorem fdiv_mul_cancel {a b : Int} (ha : IsPow2 a) (hb : IsPow2 b) (h : a ≤ b) :
    pyFloorDiv b a * a = b := by
  unfold pyFloorDiv
  rw [Int.fdiv_eq_ediv_of_nonneg _ ha.pos.le]
  exact Int.ediv_mul_cancel (ha.dvd hb h)

theorem fdiv_nonneg {a b : Int} (ha : 0 < a) (hb : 0 ≤ b) : 0 ≤ pyFloorDiv b a := by
  unfold pyFloorDiv
  rw [Int.fdiv_eq_ediv_of_nonneg _ ha.le]
  exact Int.ediv_nonneg hb ha.le

/-- Value of a signature rescaled to a larger denominator. -/
theorem val_scale {s : Signature} (hs : s.Valid) {d : Int} (hd : IsPow2 d) (h : s.denominator ≤ d) :
    ((⟨pyFloorDiv d s.denominator * s.nominator, d⟩ : Signature)).val = s.val := by
  have hc := fdiv_mul_cancel hs.den hd h
  unfold val
  have h1 := hs.denPosQ
  have h2 : (0 : ℚ) < d := by exact_mod_cast hd.pos
  simp only
  rw [div_eq_div_iff h2.ne' h1.ne']
  have : ((pyFloorDiv d s.denominator * s.denominator : Int) : ℚ) = d := by rw [hc]
  push_cast at this ⊢
  rw [← this]; ring

theorem toDen_ok {s : Signature} (hs : s.Valid) {d : Int} (hd : IsPow2 d) (h : s.denominator ≤ d) :
    s.toDen d = .ok ⟨pyFloorDiv d s.denominator * s.nominator, d⟩ := by
  unfold toDen
  rw [(isPow2Test_iff d).mpr hd]
  simp only [Bool.not_true, Bool.false_eq_true, if_false]
  have hq : 0 ≤ pyFloorDiv d s.denominator := fdiv_nonneg hs.denPos hd.pos.le
  split
  · rename_i he
    subst he
    rw [new_ok hs.nom hs.den]
    have := fdiv_mul_cancel hs.den hs.den le_rfl
    have h1 : pyFloorDiv s.denominator s.denominator = 1 := by
      have hp := hs.denPos
      nlinarith [Int.eq_of_mul_eq_mul_right hp.ne' (this.trans (one_mul _).symm)]
    rw [h1, one_mul]
  · rw [if_pos (by omega), new_ok (mul_nonneg hq hs.nom) hd]

theorem toDen_err {s : Signature} {d : Int} (h : ¬ (IsPow2 d ∧ s.denominator ≤ d)) :
    s.toDen d = .error .valueError := by
  unfold toDen
  by_cases hd : IsPow2 d
  · rw [(isPow2Test_iff d).mpr hd]
    have : ¬ s.denominator ≤ d := fun h' => h ⟨hd, h'⟩
    simp only [Bool.not_true, Bool.false_eq_true, if_false]
    rw [if_neg (by omega), if_neg (by omega)]
  · rw [isPow2Test_eq_false hd]; simp

/-! #### Comparison -/

theorem tcd_ge {a b : Signature} (ha : a.Valid) (hb : b.Valid) (h : b.denominator ≤ a.denominator) :
    toCommonDenominator a b =
      (a.nominator, pyFloorDiv a.denominator b.denominator * b.nominator, a.denominator) := by
  unfold toCommonDenominator
  simp only
  split
  · rename_i he
    have := fdiv_mul_cancel hb.den ha.den h
    have h1 : pyFloorDiv a.denominator b.denominator = 1 := by
      rw [he] at this ⊢
      have hp := hb.denPos
      exact Int.eq_of_mul_eq_mul_right hp.ne' (this.trans (one_mul _).symm)
    rw [h1, one_mul]
  · rw [if_pos (by omega)]

theorem tcd_lt {a b : Signature} (h : a.denominator < b.denominator) :
    toCommonDenominator a b =
      (b.nominator, pyFloorDiv b.denominator a.denominator * a.nominator, b.denominator) := by
  unfold toCommonDenominator
  simp only
  rw [if_neg (by omega), if_neg (by omega)]

/-- Comparing over the common denominator of the left operand. -/
theorem scaled_cmp {a b : Signature} (ha : a.Valid) (hb : b.Valid)
    (h : b.denominator ≤ a.denominator) :
    ((a.nominator : ℚ) = a.val * a.denominator) ∧
    (((pyFloorDiv a.denominator b.denominator * b.nominator : Int) : ℚ) = b.val * a.denominator) := by
  have h1 := ha.denPosQ
  have hv := val_scale hb ha.den h
  constructor
  · unfold val; field_simp
  · rw [← hv]; unfold val; simp only; field_simp

theorem cmp_iff {a b : Signature} (ha : a.Valid) (hb : b.Valid)
    (h : b.denominator ≤ a.denominator) :
    (a.nominator < pyFloorDiv a.denominator b.denominator * b.nominator ↔ a.val < b.val) ∧
    (pyFloorDiv a.denominator b.denominator * b.nominator < a.nominator ↔ b.val < a.val) ∧
    (a.nominator = pyFloorDiv a.denominator b.denominator * b.nominator ↔ a.val = b.val) := by
  obtain ⟨e1, e2⟩ := scaled_cmp ha hb h
  have hp := ha.denPosQ
  refine ⟨?_, ?_, ?_⟩
  · rw [← Int.cast_lt (R := ℚ), e1, e2]; exact mul_lt_mul_iff_of_pos_right hp
  · rw [← Int.cast_lt (R := ℚ), e1, e2]; exact mul_lt_mul_iff_of_pos_right hp
  · rw [← Int.cast_inj (α := ℚ), e1, e2]; exact mul_left_inj' hp.ne'

theorem eq_iff {a b : Signature} (ha : a.Valid) (hb : b.Valid) : a.eq b = true ↔ a.val = b.val := by
  unfold eq
  rcases le_or_gt b.denominator a.denominator with h | h
  · rw [tcd_ge ha hb h]
    simp only [decide_eq_true_eq]
    exact (cmp_iff ha hb h).2.2
  · rw [tcd_lt h]
    simp only [decide_eq_true_eq]
    rw [(cmp_iff hb ha h.le).2.2]; exact eq_comm

theorem lt_of_ge {a b : Signature} (ha : a.Valid) (hb : b.Valid) (h : b.denominator ≤ a.denominator) :
    a.lt b = true ↔ a.val < b.val := by
  unfold lt; rw [tcd_ge ha hb h]; simp only [decide_eq_true_eq]; exact (cmp_iff ha hb h).1

theorem gt_of_ge {a b : Signature} (ha : a.Valid) (hb : b.Valid) (h : b.denominator ≤ a.denominator) :
    a.gt b = true ↔ a.val > b.val := by
  unfold gt; rw [tcd_ge ha hb h]; simp only [decide_eq_true_eq]; exact (cmp_iff ha hb h).2.1

theorem le_of_ge {a b : Signature} (ha : a.Valid) (hb : b.Valid) (h : b.denominator ≤ a.denominator) :
    a.le b = true ↔ a.val ≤ b.val := by
  unfold le; rw [tcd_ge ha hb h]; simp only [decide_eq_true_eq]
  rw [← not_lt, (cmp_iff ha hb h).2.1, not_lt]

theorem ge_of_ge {a b : Signature} (ha : a.Valid) (hb : b.Valid) (h : b.denominator ≤ a.denominator) :
    a.ge b = true ↔ a.val ≥ b.val := by
  unfold ge; rw [tcd_ge ha hb h]; simp only [decide_eq_true_eq]
  rw [ge_iff_le, ← not_lt, (cmp_iff ha hb h).1, not_lt]

/-- With a smaller left denominator the operands are swapped. -/
theorem lt_of_lt {a b : Signature} (ha : a.Valid) (hb : b.Valid) (h : a.denominator < b.denominator) :
    a.lt b = true ↔ b.val < a.val := by
  unfold lt; rw [tcd_lt h]; simp only [decide_eq_true_eq]; exact (cmp_iff hb ha h.le).1

theorem gt_of_lt {a b : Signature} (ha : a.Valid) (hb : b.Valid) (h : a.denominator < b.denominator) :
    a.gt b = true ↔ b.val > a.val := by
  unfold gt; rw [tcd_lt h]; simp only [decide_eq_true_eq]; exact (cmp_iff hb ha h.le).2.1

theorem le_of_lt {a b : Signature} (ha : a.Valid) (hb : b.Valid) (h : a.denominator < b.denominator) :
    a.le b = true ↔ b.val ≤ a.val := by
  unfold le; rw [tcd_lt h]; simp only [decide_eq_true_eq]
  rw [← not_lt, (cmp_iff hb ha h.le).2.1, not_lt]

theorem ge_of_lt {a b : Signature} (ha : a.Valid) (hb : b.Valid) (h : a.denominator < b.denominator) :
    a.ge b = true ↔ b.val ≥ a.val := by
  unfold ge; rw [tcd_lt h]; simp only [decide_eq_true_eq]
  rw [ge_iff_le, ← not_lt, (cmp_iff hb ha h.le).1, not_lt]

/-! #### Arithmetic -/

theorem add_ok {a b : Signature} (ha : a.Valid) (hb : b.Valid) :
    ∃ s, a.add b = .ok s ∧ s.Valid ∧ s.val = a.val + b.val ∧
      s.denominator = max a.denominator b.denominator := by
  unfold add
  rcases le_or_gt b.denominator a.denominator with h | h
  · rw [tcd_ge ha hb h]
    simp only
    have hq := fdiv_nonneg hb.denPos ha.denPos.le
    have hn := _root_.add_nonneg ha.nom (mul_nonneg hq hb.nom)
    rw [new_ok hn ha.den]
    refine ⟨_, rfl, ⟨hn, ha.den⟩, ?_, (max_eq_left h).symm⟩
    obtain ⟨e1, e2⟩ := scaled_cmp ha hb h
    have := ha.denPosQ
    rw [val]; simp only
    rw [Int.cast_add, e1, e2]; field_simp
  · rw [tcd_lt h]
    simp only
    have hq := fdiv_nonneg ha.denPos hb.denPos.le
    have hn := _root_.add_nonneg hb.nom (mul_nonneg hq ha.nom)
    rw [new_ok hn hb.den]
    refine ⟨_, rfl, ⟨hn, hb.den⟩, ?_, (max_eq_right h.le).symm⟩
    obtain ⟨e1, e2⟩ := scaled_cmp hb ha h.le
    have := hb.denPosQ
    rw [val]; simp only
    rw [Int.cast_add, e1, e2]; field_simp; ring

theorem ext_val {a b : Signature} (ha : a.Valid) (hd : a.denominator = b.denominator)
    (hv : a.val = b.val) : a = b := by
  have h := ha.denPosQ
  obtain ⟨n, d⟩ := a
  obtain ⟨m, e⟩ := b
  simp only at hd; subst hd
  unfold val at hv
  simp only at hv h
  rw [div_left_inj' h.ne'] at hv
  have : n = m := by exact_mod_cast hv
  subst this; rfl

/-! #### normalized -/

theorem normLoop_spec (k : Nat) : ∀ (fuel : Nat) (n : Int), k ≤ fuel → 0 ≤ n →
    ∃ (j : Nat) (m : Int), j ≤ k ∧ normLoop fuel n (2 ^ k) = (m, 2 ^ j) ∧ 0 ≤ m ∧
      n = m * 2 ^ (k - j) ∧ (j = 0 ∨ m % 2 = 1) := by
  induction k with
  | zero =>
    intro fuel n _ hn
    refine ⟨0, n, le_rfl, ?_, hn, by simp, Or.inl rfl⟩
    cases fuel with
    | zero => simp [normLoop]
    | succ f => simp [normLoop]
  | succ k ih =>
    intro fuel n hf hn
    obtain ⟨f, rfl⟩ : ∃ f, fuel = f + 1 := ⟨fuel - 1, by omega⟩
    have hmod : pyMod n 2 = n % 2 := by unfold pyMod; rw [Int.fmod_eq_emod_of_nonneg _ (by norm_num)]
    have hdiv : pyFloorDiv n 2 = n / 2 := by
      unfold pyFloorDiv; rw [Int.fdiv_eq_ediv_of_nonneg _ (by norm_num)]
    have hd2 : pyFloorDiv ((2:Int) ^ (k + 1)) 2 = 2 ^ k := by
      unfold pyFloorDiv; rw [Int.fdiv_eq_ediv_of_nonneg _ (by norm_num), pow_succ]; simp
    have hgt : (2:Int) ^ (k + 1) > 1 := by
      have : (0:Int) < 2 ^ k := by positivity
      rw [pow_succ]; omega
    unfold normLoop
    rw [hmod, hdiv, hd2]
    by_cases he : n % 2 = 0
    · rw [if_pos ⟨he, hgt⟩]
      obtain ⟨j, m, hj, heq, hm, hnm, hlow⟩ := ih f (n / 2) (by omega) (by omega)
      refine ⟨j, m, by omega, heq, hm, ?_, hlow⟩
      have : n = n / 2 * 2 := by omega
      rw [this, hnm, show k + 1 - j = (k - j) + 1 by omega, pow_succ]; ring
    · rw [if_neg (by tauto)]
      exact ⟨k + 1, n, le_rfl, rfl, hn, by simp, Or.inr (by omega)⟩

/-- `normalized` succeeds, and what it returns. -/
theorem normalized_spec {s : Signature} (hs : s.Valid) :
    ∃ r, s.normalized = .ok r ∧ r.Valid ∧ r.val = s.val ∧
      (r.denominator = 1 ∨ r.nominator % 2 = 1) := by
  obtain ⟨n, d⟩ := s
  obtain ⟨hn, k, hk⟩ := hs
  simp only at hn hk
  subst hk
  have hle : k ≤ ((2:Int) ^ k).toNat := by
    have h1 : ((2:Int) ^ k).toNat = 2 ^ k := by
      have : ((2 : Int) ^ k) = ((2 ^ k : Nat) : Int) := by simp
      rw [this, Int.toNat_natCast]
    rw [h1]; exact Nat.lt_two_pow_self.le
  obtain ⟨j, m, hj, heq, hm, hnm, hlow⟩ := normLoop_spec k _ n hle hn
  refine ⟨⟨m, 2 ^ j⟩, ?_, ⟨hm, j, rfl⟩, ?_, ?_⟩
  · unfold normalized
    simp only [heq]
    exact new_ok hm ⟨j, rfl⟩
  · unfold val
    simp only
    rw [hnm]
    obtain ⟨i, rfl⟩ : ∃ i, k = j + i := ⟨k - j, by omega⟩
    rw [show j + i - j = i by omega]
    push_cast
    rw [pow_add]
    field_simp
  · rcases hlow with h | h
    · left; simp [h]
    · right; exact h

theorem normalized_coprime {r : Signature} (hr : r.Valid)
    (h : r.denominator = 1 ∨ r.nominator % 2 = 1) : Int.gcd r.nominator r.denominator = 1 := by
  rcases h with h | h
  · rw [h]; simp
  · obtain ⟨k, hk⟩ := hr.den
    rw [hk]
    have h2 : IsCoprime r.nominator (2:Int) :=
      ⟨1, -(r.nominator / 2), by rw [one_mul]; omega⟩
    exact Int.isCoprime_iff_gcd_eq_one.mp h2.pow_right

/-- Two valid lowest-terms signatures with the same value are identical. -/
theorem lowest_unique {a b : Signature} (ha : a.Valid) (hb : b.Valid)
    (la : a.denominator = 1 ∨ a.nominator % 2 = 1) (lb : b.denominator = 1 ∨ b.nominator % 2 = 1)
    (hv : a.val = b.val) : a = b := by
  have ca := normalized_coprime ha la
  have cb := normalized_coprime hb lb
  have e1 : (a.val.den : Int) = a.denominator := Rat.den_div_eq_of_coprime ha.denPos ca
  have e2 : (b.val.den : Int) = b.denominator := Rat.den_div_eq_of_coprime hb.denPos cb
  have hd : a.denominator = b.denominator := by
    have h1 := ha.denPos
    have h2 := hb.denPos
    rw [hv] at e1
    omega
  exact ext_val ha hd hv

end Signature

end Melodia
