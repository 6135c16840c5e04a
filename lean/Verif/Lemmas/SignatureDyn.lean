/-
Lemmas about `Signature` with values that are not ints.
-/
import Verif.Spec.SignatureDyn
import Verif.Lemmas.Signature

set_option autoImplicit false

namespace Melodia

theorem PyVal.ge0_spec (x : PyVal) : (x = .other ∧ x.ge0 = .error .typeError ∧ ¬ x.Above false) ∨
    (x ≠ .other ∧ x.Above false ∧ x.ge0 = .ok true) ∨ (x ≠ .other ∧ ¬ x.Above false ∧ x.ge0 = .ok false) := by
  rcases x with i | b | f | _
  · by_cases h : 0 ≤ i
    · exact .inr (.inl ⟨by simp, .integer rfl h (by simp), by simp [PyVal.ge0, h]⟩)
    · refine .inr (.inr ⟨by simp, ?_, by simp [PyVal.ge0]; omega⟩)
      rintro (⟨h1, h2, -⟩ | _ | _)
      cases h1; exact h h2
  · refine .inr (.inl ⟨by simp, ?_, by simp [PyVal.ge0]⟩)
    cases b
    · exact .integer (i := 0) rfl (by omega) (by simp)
    · exact .integer (i := 1) rfl (by omega) (by simp)
  · rcases f with _ | _ | _ | q
    · exact .inr (.inr ⟨by simp, (by rintro (⟨h1, h2, -⟩ | _ | _); cases h1), rfl⟩)
    · exact .inr (.inr ⟨by simp, (by rintro (⟨h1, h2, -⟩ | _ | _); cases h1), rfl⟩)
    · exact .inr (.inl ⟨by simp, .infinite, rfl⟩)
    · by_cases h : 0 ≤ q
      · exact .inr (.inl ⟨by simp, .finite h (by simp), by simp [PyVal.ge0, PyFloat.le, h]⟩)
      · refine .inr (.inr ⟨by simp, ?_, by simp [PyVal.ge0, PyFloat.le]; exact lt_of_not_ge h⟩)
        rintro (⟨h1, h2, -⟩ | ⟨h1, -⟩ | _)
        · cases h1
        · exact h h1
  · exact .inl ⟨rfl, rfl, by rintro (⟨h1, h2, -⟩ | _ | _); cases h1⟩

theorem PyVal.gt0_spec (x : PyVal) : (x = .other ∧ x.gt0 = .error .typeError ∧ ¬ x.Above true) ∨
    (x ≠ .other ∧ x.Above true ∧ x.gt0 = .ok true) ∨ (x ≠ .other ∧ ¬ x.Above true ∧ x.gt0 = .ok false) := by
  rcases x with i | b | f | _
  · by_cases h : 0 < i
    · exact .inr (.inl ⟨by simp, .integer rfl h.le (by intro _; omega), by simp [PyVal.gt0, h]⟩)
    · refine .inr (.inr ⟨by simp, ?_, by simp [PyVal.gt0]; omega⟩)
      rintro (⟨h1, h2, h3⟩ | _ | _)
      cases h1
      have := h3 rfl
      omega
  · cases b
    · refine .inr (.inr ⟨by simp, ?_, rfl⟩)
      rintro (⟨h1, h2, h3⟩ | _ | _)
      cases h1
      exact h3 rfl rfl
    · exact .inr (.inl ⟨by simp, .integer (i := 1) rfl (by omega) (by simp), rfl⟩)
  · rcases f with _ | _ | _ | q
    · exact .inr (.inr ⟨by simp, (by rintro (⟨h1, h2, -⟩ | _ | _); cases h1), rfl⟩)
    · exact .inr (.inr ⟨by simp, (by rintro (⟨h1, h2, -⟩ | _ | _); cases h1), rfl⟩)
    · exact .inr (.inl ⟨by simp, .infinite, rfl⟩)
    · by_cases h : 0 < q
      · exact .inr (.inl ⟨by simp, .finite h.le (fun _ => h.ne'), by simp [PyVal.gt0, PyFloat.lt, h]⟩)
      · refine .inr (.inr ⟨by simp, ?_, by simp [PyVal.gt0, PyFloat.lt]; exact le_of_not_gt h⟩)
        rintro (⟨h1, h2, -⟩ | ⟨h1, h2⟩ | _)
        · cases h1
        · exact h (lt_of_le_of_ne h1 (Ne.symm (h2 rfl)))
  · exact .inl ⟨rfl, rfl, by rintro (⟨h1, h2, -⟩ | _ | _); cases h1⟩

/-- The bit trick on a positive value. -/
theorem PyVal.pow2_spec {x : PyVal} (h : x.Above true) : (∃ f, x = .float f ∧ x.pow2 = .error .typeError) ∨
    (∃ i, x.asInt = some i ∧ IsPow2 i ∧ x.pow2 = .ok true) ∨
    (∃ i, x.asInt = some i ∧ ¬ IsPow2 i ∧ x.pow2 = .ok false) := by
  rcases x with i | b | f | _
  · right
    have hi : 0 < i := by
      rcases h with ⟨h1, h2, h3⟩ | _ | _
      cases h1
      have := h3 rfl
      omega
    have ht := isPow2Test_iff i
    unfold Signature.isPow2Test at ht
    rw [decide_eq_true hi, Bool.true_and] at ht
    by_cases hp : IsPow2 i
    · exact .inl ⟨i, rfl, hp, by rw [PyVal.pow2, ht.mpr hp]⟩
    · refine .inr ⟨i, rfl, hp, ?_⟩
      rw [PyVal.pow2]
      congr 1
      exact Bool.eq_false_iff.mpr (fun hc => hp (ht.mp hc))
  · right; left
    cases b
    · rcases h with ⟨h1, h2, h3⟩ | _ | _
      cases h1
      exact absurd rfl (h3 rfl)
    · exact ⟨1, rfl, IsPow2.one, rfl⟩
  · exact .inl ⟨f, rfl, rfl⟩
  · rcases h with ⟨h1, -, -⟩ | _ | _
    cases h1

/-- A power of two is positive. -/
theorem PyVal.above_of_pow2 {x : PyVal} {i : Int} (h : x.asInt = some i) (hi : IsPow2 i) : x.Above true :=
  .integer h hi.pos.le (fun _ => hi.pos.ne')

end Melodia
