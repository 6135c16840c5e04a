/-
Lemmas about byte conversions and variable-length quantities.
-/
import Verif.Model.MidiWrite
import Verif.Model.MidiRead
import Verif.Spec.Vlq
import Mathlib.Tactic.Ring
import Mathlib.Tactic.NormNum
import Mathlib.Data.Nat.Log
import Mathlib.Data.Nat.Size
import Mathlib.Data.List.Induction

set_option autoImplicit false

namespace Melodia

/-! ### to_bytes / from_bytes -/

theorem natLE_length (k n : Nat) : (natLE k n).length = k := by
  induction k generalizing n with
  | zero => rfl
  | succ k ih => simp [natLE, ih]

theorem fromBytesBig_append (a : Bytes) (b : UInt8) :
    fromBytesBig (a ++ [b]) = fromBytesBig a * 256 + b.toNat := by
  simp [fromBytesBig, List.foldl_append]

theorem fromBytesBig_natLE (k : Nat) : ∀ n, n < 256 ^ k → fromBytesBig (natLE k n).reverse = n := by
  induction k with
  | zero => intro n h; simp at h; subst h; rfl
  | succ k ih =>
    intro n h
    have h1 : n / 256 < 256 ^ k := by
      rw [Nat.div_lt_iff_lt_mul (by norm_num)]; rw [pow_succ] at h; exact h
    rw [natLE, List.reverse_cons, fromBytesBig_append, ih _ h1, UInt8.toNat_ofNat']
    have : (2 : Nat) ^ 8 = 256 := by norm_num
    rw [this]
    omega

theorem toBytesBig_ok {x : Int} {k : Nat} (h0 : 0 ≤ x) (h1 : x < 256 ^ k) :
    toBytesBig x k = .ok (natLE k x.toNat).reverse := by
  unfold toBytesBig
  rw [if_neg (by omega)]

theorem toBytesBig_err {x : Int} {k : Nat} (h : x < 0 ∨ x ≥ 256 ^ k) :
    toBytesBig x k = .error .overflowError := by
  unfold toBytesBig
  rw [if_pos h]

theorem toBytesBig_spec {x : Int} {k : Nat} {b : Bytes} (h : toBytesBig x k = .ok b) :
    0 ≤ x ∧ x < 256 ^ k ∧ b.length = k ∧ fromBytesBig b = x.toNat := by
  unfold toBytesBig at h
  split at h
  · cases h
  · rename_i hx
    cases h
    refine ⟨by omega, by omega, by rw [List.length_reverse, natLE_length], ?_⟩
    apply fromBytesBig_natLE
    have : ((x.toNat : Nat) : Int) < 256 ^ k := by omega
    exact_mod_cast this

theorem toBytesBig_cases (x : Int) (k : Nat) :
    (∃ b, toBytesBig x k = .ok b ∧ 0 ≤ x ∧ x < 256 ^ k) ∨
    (toBytesBig x k = .error .overflowError ∧ (x < 0 ∨ x ≥ 256 ^ k)) := by
  by_cases h : x < 0 ∨ x ≥ 256 ^ k
  · exact Or.inr ⟨toBytesBig_err h, h⟩
  · exact Or.inl ⟨_, toBytesBig_ok (by omega) (by omega), by omega, by omega⟩

theorem toBytesBig_one {x : Int} (h0 : 0 ≤ x) (h1 : x < 256) :
    toBytesBig x 1 = .ok [UInt8.ofNat x.toNat] := by
  rw [toBytesBig_ok h0 (by simpa using h1)]; rfl

theorem toNat_ofNat_lt {n : Nat} (h : n < 256) : (UInt8.ofNat n).toNat = n := by
  rw [UInt8.toNat_ofNat']
  exact Nat.mod_eq_of_lt (by norm_num; exact h)

/-! ### Variable-length quantities -/

/-- Septets of `m` above the last one, with continuation bits. -/
def vlqInit : Nat → Bytes
  | 0 => []
  | m + 1 => vlqInit ((m + 1) / 128) ++ [UInt8.ofNat ((m + 1) % 128 + 128)]
decreasing_by omega

/-- The standard encoding, most significant septet first. -/
def vlq (n : Nat) : Bytes := vlqInit (n / 128) ++ [UInt8.ofNat (n % 128)]

theorem vlqInit_pos {m : Nat} (h : 0 < m) :
    vlqInit m = vlqInit (m / 128) ++ [UInt8.ofNat (m % 128 + 128)] := by
  obtain ⟨k, rfl⟩ : ∃ k, m = k + 1 := ⟨m - 1, by omega⟩
  rw [vlqInit]

theorem vlqInit_high (m : Nat) : ∀ b ∈ vlqInit m, 128 ≤ b.toNat := by
  induction m using Nat.strong_induction_on with
  | _ m ih =>
    intro b hb
    rcases Nat.eq_zero_or_pos m with rfl | h
    · simp [vlqInit] at hb
    · rw [vlqInit_pos h, List.mem_append] at hb
      rcases hb with hb | hb
      · exact ih _ (by omega) b hb
      · rw [List.mem_singleton] at hb
        subst hb
        rw [toNat_ofNat_lt (by omega)]
        omega

theorem vlqValue_append (a : Bytes) (b : UInt8) :
    vlqValue (a ++ [b]) = vlqValue a * 128 + b.toNat % 128 := by
  simp [vlqValue, List.foldl_append]

theorem vlqInit_value (m : Nat) : vlqValue (vlqInit m) = m := by
  induction m using Nat.strong_induction_on with
  | _ m ih =>
    rcases Nat.eq_zero_or_pos m with rfl | h
    · simp [vlqInit, vlqValue]
    · rw [vlqInit_pos h, vlqValue_append, ih _ (by omega), toNat_ofNat_lt (by omega)]
      omega

theorem vlqInit_head (m : Nat) : ∀ b, (vlqInit m).head? = some b → b.toNat ≠ 128 := by
  induction m using Nat.strong_induction_on with
  | _ m ih =>
    intro b hb
    rcases Nat.eq_zero_or_pos m with rfl | h
    · simp [vlqInit] at hb
    · rw [vlqInit_pos h] at hb
      rcases Nat.eq_zero_or_pos (m / 128) with h0 | h0
      · rw [h0] at hb
        simp only [vlqInit, List.nil_append, List.head?_cons, Option.some.injEq] at hb
        subst hb
        rw [toNat_ofNat_lt (by omega)]
        omega
      · rw [List.head?_append_of_ne_nil] at hb
        · exact ih _ (by omega) b hb
        · rw [vlqInit_pos h0]; simp

theorem vlq_isVlq (n : Nat) : IsVlq n (vlq n) := by
  refine ⟨⟨_, _, rfl, vlqInit_high _, by rw [toNat_ofNat_lt (by omega)]; omega⟩, ?_, ?_⟩
  · unfold vlq
    rw [vlqValue_append, vlqInit_value, toNat_ofNat_lt (by omega)]
    omega
  · intro b hb
    unfold vlq at hb
    rcases Nat.eq_zero_or_pos (n / 128) with h0 | h0
    · rw [h0] at hb
      simp only [vlqInit, List.nil_append, List.head?_cons, Option.some.injEq] at hb
      subst hb
      rw [toNat_ofNat_lt (by omega)]
      omega
    · rw [List.head?_append_of_ne_nil] at hb
      · exact vlqInit_head _ b hb
      · rw [vlqInit_pos h0]; simp

theorem vlqInit_unique (l : Bytes) : (∀ b ∈ l, 128 ≤ b.toNat) →
    (∀ b, l.head? = some b → b.toNat ≠ 128) → l = vlqInit (vlqValue l) := by
  induction l using List.reverseRecOn with
  | nil => intro _ _; simp [vlqValue, vlqInit]
  | append_singleton l b ih =>
    intro h1 h2
    have hl : l = vlqInit (vlqValue l) := by
      apply ih (fun x hx => h1 x (by simp [hx]))
      intro x hx
      apply h2
      rw [List.head?_append_of_ne_nil]
      · exact hx
      · rintro rfl; simp at hx
    have hb := h1 b (by simp)
    have hb2 := b.toNat_lt
    rw [vlqValue_append]
    have hpos : 0 < vlqValue l * 128 + b.toNat % 128 := by
      by_contra h0
      have hv : vlqValue l = 0 := by omega
      rw [hv] at hl
      simp only [vlqInit] at hl
      subst hl
      exact h2 b (by simp) (by omega)
    rw [vlqInit_pos hpos]
    congr 1
    · rw [show (vlqValue l * 128 + b.toNat % 128) / 128 = vlqValue l by omega]
      exact hl
    · congr 1
      apply UInt8.toNat.inj
      rw [toNat_ofNat_lt (by omega)]
      omega

/-- The encoding is unique. -/
theorem IsVlq.unique {n : Nat} {bs : Bytes} (h : IsVlq n bs) : bs = vlq n := by
  obtain ⟨⟨init, last, rfl, h1, h2⟩, hv, hm⟩ := h
  rw [vlqValue_append] at hv
  have hi : init = vlqInit (vlqValue init) := by
    apply vlqInit_unique init h1
    intro b hb
    apply hm
    rw [List.head?_append_of_ne_nil]
    · exact hb
    · rintro rfl; simp at hb
  unfold vlq
  rw [← hv]
  congr 1
  · rw [show (vlqValue init * 128 + last.toNat % 128) / 128 = vlqValue init by omega]
    exact hi
  · congr 1
    apply UInt8.toNat.inj
    rw [toNat_ofNat_lt (by omega)]
    omega

theorem bitLength_div (k b : Nat) (h1 : b < 128 * 256 ^ k) (h2 : 0 < k → 128 * 256 ^ (k - 1) ≤ b) :
    bitLength b / 8 = k := by
  unfold bitLength
  have e : ∀ j, (256 : Nat) ^ j = 2 ^ (8 * j) := by
    intro j; rw [pow_mul]; norm_num
  rcases Nat.eq_zero_or_pos b with rfl | hb
  · rcases Nat.eq_zero_or_pos k with rfl | hk
    · simp
    · have := h2 hk
      have h3 : 0 < 256 ^ (k - 1) := by positivity
      omega
  · rw [if_neg (by omega), Nat.log2_eq_log_two]
    have hu : Nat.log 2 b < 8 * k + 7 := by
      apply Nat.log_lt_of_lt_pow (by omega)
      rw [e] at h1
      calc b < 128 * 2 ^ (8 * k) := h1
        _ = 2 ^ (8 * k + 7) := by rw [pow_add]; ring
    rcases Nat.eq_zero_or_pos k with rfl | hk
    · omega
    · have hl : 8 * (k - 1) + 7 ≤ Nat.log 2 b := by
        apply Nat.le_log_of_pow_le (by norm_num)
        have := h2 hk
        rw [e] at this
        calc 2 ^ (8 * (k - 1) + 7) = 128 * 2 ^ (8 * (k - 1)) := by rw [pow_add]; ring
          _ ≤ b := this
      omega

theorem natLE_mul_add (k b c : Nat) (hc : c < 256) :
    natLE (k + 1) (b * 256 + c) = UInt8.ofNat c :: natLE k b := by
  rw [natLE]
  congr 1
  · apply UInt8.toNat.inj
    rw [UInt8.toNat_ofNat', UInt8.toNat_ofNat']
    norm_num
  · congr 1
    omega

/-- What the loop of `_format_var_len` computes. -/
theorem varLenLoop_spec : ∀ (fuel x k b : Nat), x ≤ fuel → b < 128 * 256 ^ k →
    (0 < k → 128 * 256 ^ (k - 1) ≤ b) →
    ∃ j, Writer.varLenLoop fuel x b < 128 * 256 ^ j ∧ (0 < j → 128 * 256 ^ (j - 1) ≤ Writer.varLenLoop fuel x b) ∧
      natLE (j + 1) (Writer.varLenLoop fuel x b) = vlqInit x ++ natLE (k + 1) b := by
  intro fuel
  induction fuel with
  | zero =>
    intro x k b hx h1 h2
    obtain rfl : x = 0 := by omega
    exact ⟨k, h1, h2, by simp [Writer.varLenLoop, vlqInit]⟩
  | succ f ih =>
    intro x k b hx h1 h2
    rw [Writer.varLenLoop]
    split
    · rename_i hpos
      have hb : ((b <<< 8) ||| 0x80) + (x &&& 0x7f) = b * 256 + (x % 128 + 128) := by
        rw [← Nat.shiftLeft_add_eq_or_of_lt (by norm_num), Nat.shiftLeft_eq,
          show (0x7f : Nat) = 2 ^ 7 - 1 from rfl, Nat.and_two_pow_sub_one_eq_mod]
        norm_num
        omega
      rw [hb]
      have hx7 : x >>> 7 = x / 128 := by rw [Nat.shiftRight_eq_div_pow]
      rw [hx7]
      have hp : (256 : Nat) ^ (k + 1) = 256 * 256 ^ k := by rw [pow_succ]; ring
      obtain ⟨j, g1, g2, g3⟩ := ih (x / 128) (k + 1) (b * 256 + (x % 128 + 128)) (by omega) (by omega) (by
        intro _
        rw [Nat.add_sub_cancel]
        rcases Nat.eq_zero_or_pos k with rfl | hk
        · simp; omega
        · have := h2 hk
          have e : (256 : Nat) ^ k = 256 * 256 ^ (k - 1) := by
            conv_lhs => rw [show k = (k - 1) + 1 by omega, pow_succ]
            ring
          omega)
      refine ⟨j, g1, g2, ?_⟩
      rw [g3, natLE_mul_add _ _ _ (by omega), vlqInit_pos hpos]
      simp
    · rename_i hpos
      obtain rfl : x = 0 := by omega
      exact ⟨k, h1, h2, by simp [vlqInit]⟩

theorem formatVarLen_nat (n : Nat) : Writer.formatVarLen (n : Int) = .ok (vlq n) := by
  unfold Writer.formatVarLen
  have e1 : (pyMod (n : Int) 128).toNat = n % 128 := by
    unfold pyMod; rw [Int.fmod_eq_emod_of_nonneg _ (by norm_num)]; omega
  have e2 : pyFloorDiv (n : Int) 128 = ((n / 128 : Nat) : Int) := by
    unfold pyFloorDiv; rw [Int.fdiv_eq_ediv_of_nonneg _ (by norm_num)]; omega
  simp only [e1, e2]
  obtain ⟨j, g1, g2, g3⟩ := varLenLoop_spec (n / 128) (n / 128) 0 (n % 128) le_rfl (by simp; omega) (by simp)
  have hb : (if ((n / 128 : Nat) : Int) > 0 then
      Writer.varLenLoop ((n / 128 : Nat) : Int).toNat ((n / 128 : Nat) : Int).toNat (n % 128) else n % 128) =
      Writer.varLenLoop (n / 128) (n / 128) (n % 128) := by
    rw [Int.toNat_natCast]
    split
    · rfl
    · rename_i h
      have : n / 128 = 0 := by omega
      rw [this]; rfl
  rw [hb, bitLength_div j _ g1 g2]
  unfold toBytesLittle
  rw [if_neg]
  · rw [Int.toNat_natCast, g3]
    rfl
  · rw [not_or]
    refine ⟨by omega, ?_⟩
    rw [not_le]
    have : (Writer.varLenLoop (n / 128) (n / 128) (n % 128)) < 256 ^ (j + 1) := by
      rw [pow_succ]; omega
    exact_mod_cast this

end Melodia
