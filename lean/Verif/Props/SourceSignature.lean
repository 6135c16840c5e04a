/-
C91: the text of signature.py, executed by the meaning of Python, does what the fractions say.
-/
import Verif.Lemmas.SourceSignature
import Verif.Lemmas.Signature
import Verif.Spec.Source

set_option autoImplicit false

namespace Melodia

open Melodia.Python Melodia.Source

variable (W : World)

/-- C91 (constructor): `Signature(n, d)` is a signature with these two numbers if `n` is not negative and `d` is a power of
two, and raises `ValueError` otherwise. -/
theorem C91_constructor (n d : Int) :
    (0 ≤ n ∧ IsPow2 d → Gives W [("n", .int n), ("d", .int d)] (callE "Signature" ["n", "d"]) (sigV ⟨n, d⟩)) ∧
    (¬ (0 ≤ n ∧ IsPow2 d) → Raises W [("n", .int n), ("d", .int d)] (callE "Signature" ["n", "d"]) .valueError) := by
  have h : userEval W [("n", .int n), ("d", .int d)] (callE "Signature" ["n", "d"]) =
      liftPy ((Signature.new n d).map sigV) := by
    simp [userEval, callE, userNames, py, signature_new]
  constructor
  · intro hv
    rw [Gives, h, Signature.new_ok hv.1 hv.2]; rfl
  · intro hv
    rw [Raises, h, Signature.new_err hv]; rfl

/-- C91 (attributes): `a.nominator` and `a.denominator`. -/
theorem C91_attributes (a : Signature) :
    Gives W [("a", sigV a)] (.attr (.name "a") "nominator") (.int a.nominator) ∧
    Gives W [("a", sigV a)] (.attr (.name "a") "denominator") (.int a.denominator) := by
  constructor <;> simp [Gives, userEval, py, signature_nominator, signature_denominator]

/-- C91 (equality): `a == b` and `a != b` compare the fractions. -/
theorem C91_equality (a b : Signature) (ha : a.Valid) (hb : b.Valid) :
    Gives W [("a", sigV a), ("b", sigV b)] (cmpE .eq "a" "b") (.bool (decide (a.val = b.val))) ∧
    Gives W [("a", sigV a), ("b", sigV b)] (cmpE .ne "a" "b") (.bool (decide (a.val ≠ b.val))) := by
  have e1 : a.eq b = decide (a.val = b.val) := by rw [Bool.eq_iff_iff, Signature.eq_iff ha hb, decide_eq_true_iff]
  constructor <;>
    simp [Gives, userEval, cmpE, py, ha.denPos.ne', hb.denPos.ne', signature_eq, signature_ne, e1]

/-- C91 (order): `<`, `<=`, `>` and `>=` compare the fractions if the denominator of the right operand is not the larger one,
and with the operands swapped otherwise. -/
theorem C91_order (a b : Signature) (ha : a.Valid) (hb : b.Valid) :
    let (x, y) := if b.denominator ≤ a.denominator then (a.val, b.val) else (b.val, a.val)
    Gives W [("a", sigV a), ("b", sigV b)] (cmpE .lt "a" "b") (.bool (decide (x < y))) ∧
    Gives W [("a", sigV a), ("b", sigV b)] (cmpE .le "a" "b") (.bool (decide (x ≤ y))) ∧
    Gives W [("a", sigV a), ("b", sigV b)] (cmpE .gt "a" "b") (.bool (decide (x > y))) ∧
    Gives W [("a", sigV a), ("b", sigV b)] (cmpE .ge "a" "b") (.bool (decide (x ≥ y))) := by
  have hd := ha.denPos.ne'
  have he := hb.denPos.ne'
  by_cases h : b.denominator ≤ a.denominator
  · simp only [if_pos h]
    simp only [← Signature.lt_of_ge ha hb h, ← Signature.le_of_ge ha hb h, ← Signature.gt_of_ge ha hb h,
      ← Signature.ge_of_ge ha hb h]
    refine ⟨?_, ?_, ?_, ?_⟩ <;>
      simp [Gives, userEval, cmpE, py, hd, he, signature_lt, signature_le, signature_gt, signature_ge]
  · simp only [if_neg h]
    have h := not_le.mp h
    simp only [← Signature.lt_of_lt ha hb h, ← Signature.le_of_lt ha hb h, ← Signature.gt_of_lt ha hb h,
      ← Signature.ge_of_lt ha hb h]
    refine ⟨?_, ?_, ?_, ?_⟩ <;>
      simp [Gives, userEval, cmpE, py, hd, he, signature_lt, signature_le, signature_gt, signature_ge]

/-- C91 (the order of the text is wrong): 1/2 is less than 3/4, but the text makes `Signature(1, 2) < Signature(3, 4)` False
and `Signature(1, 2) > Signature(3, 4)` True. -/
theorem C91_order_wrong :
    Gives W [] (.cmp (.call (.name "Signature") [.int 1, .int 2] []) [.lt] [.call (.name "Signature") [.int 3, .int 4] []])
      (.bool false) ∧
    Gives W [] (.cmp (.call (.name "Signature") [.int 1, .int 2] []) [.gt] [.call (.name "Signature") [.int 3, .int 4] []])
      (.bool true) := by
  have h1 : Signature.new 1 2 = .ok ⟨1, 2⟩ := by decide
  have h2 : Signature.new 3 4 = .ok ⟨3, 4⟩ := by decide
  have h3 : Signature.lt ⟨1, 2⟩ ⟨3, 4⟩ = false := by decide
  have h4 : Signature.gt ⟨1, 2⟩ ⟨3, 4⟩ = true := by decide
  constructor <;>
    simp [Gives, userEval, userNames, py, signature_new, h1, h2, Except.map, signature_lt, signature_gt, h3, h4]

/-- C91 (sum): `a + b` is a signature with the larger denominator, and it denotes the sum. -/
theorem C91_sum (a b : Signature) (ha : a.Valid) (hb : b.Valid) :
    ∃ c : Signature, c.Valid ∧ c.val = a.val + b.val ∧ c.denominator = max a.denominator b.denominator ∧
      Gives W [("a", sigV a), ("b", sigV b)] (binE .add "a" "b") (sigV c) := by
  obtain ⟨c, h, hv, he, hd⟩ := Signature.add_ok ha hb
  refine ⟨c, hv, he, hd, ?_⟩
  simp [Gives, userEval, binE, py, signature_add, ha.denPos.ne', hb.denPos.ne', h, Except.map]

/-- C91 (product): `a * b` has the product of the nominators and the product of the denominators. -/
theorem C91_product (a b : Signature) (ha : a.Valid) (hb : b.Valid) :
    Gives W [("a", sigV a), ("b", sigV b)] (binE .mul "a" "b")
      (sigV ⟨a.nominator * b.nominator, a.denominator * b.denominator⟩) := by
  simp [Gives, userEval, binE, py, signature_mul, Signature.mul,
    Signature.new_ok (mul_nonneg ha.nom hb.nom) (ha.den.mul hb.den), Except.map]

/-- C91 (absolute value): `abs(a)` is `a`. -/
theorem C91_abs (a : Signature) (ha : a.Valid) : Gives W [("a", sigV a)] (callE "abs" ["a"]) (sigV a) := by
  have h : globalName program W "__main__" "abs" = pure (.builtin .abs) := by rw [globalName]; rfl
  simp [Gives, userEval, callE, userNames, py, h, signature_abs, Signature.abs, abs_of_nonneg ha.nom,
    Signature.new_ok ha.nom ha.den, Except.map]

/-- C91 (lowest terms): `a.normalized()` ends, and is the fraction in lowest terms. -/
theorem C91_normalized (a : Signature) (ha : a.Valid) :
    ∃ c : Signature, c.Valid ∧ c.val = a.val ∧ Int.gcd c.nominator c.denominator = 1 ∧
      Gives W [("a", sigV a)] (methE "a" "normalized" []) (sigV c) := by
  obtain ⟨c, h, hv, he, hl⟩ := Signature.normalized_spec ha
  refine ⟨c, hv, he, Signature.normalized_coprime hv hl, ?_⟩
  simp [Gives, userEval, methE, py, signature_normalized, ha.nom, h, Except.map]

/-- C91 (common denominator): `a.to(d)` is the fraction with denominator `d` if `d` is a power of two not below the
denominator of `a`, and raises `ValueError` otherwise. -/
theorem C91_to (a : Signature) (ha : a.Valid) (d : Int) :
    (IsPow2 d ∧ a.denominator ≤ d → ∃ c : Signature, c.Valid ∧ c.val = a.val ∧ c.denominator = d ∧
      Gives W [("a", sigV a), ("d", .int d)] (methE "a" "to" ["d"]) (sigV c)) ∧
    (¬ (IsPow2 d ∧ a.denominator ≤ d) →
      Raises W [("a", sigV a), ("d", .int d)] (methE "a" "to" ["d"]) .valueError) := by
  have h : userEval W [("a", sigV a), ("d", .int d)] (methE "a" "to" ["d"]) = liftPy ((a.toDen d).map sigV) := by
    simp [userEval, methE, py, signature_to, ha.denPos.ne']
  constructor
  · rintro ⟨hd, hle⟩
    refine ⟨_, ⟨?_, hd⟩, Signature.val_scale ha hd hle, rfl, ?_⟩
    · exact mul_nonneg (Signature.fdiv_nonneg ha.denPos hd.pos.le) ha.nom
    · rw [Gives, h, Signature.toDen_ok ha hd hle]; rfl
  · intro hn
    rw [Raises, h, Signature.toDen_err hn]; rfl

/-- C91 (texts): `str(a)` and `repr(a)`. -/
theorem C91_texts (a : Signature) :
    Gives W [("a", sigV a)] (callE "str" ["a"]) (.str (intStr a.nominator ++ "/".toList ++ intStr a.denominator)) ∧
    Gives W [("a", sigV a)] (callE "repr" ["a"])
      (.str ("Signature(".toList ++ intStr a.nominator ++ ", ".toList ++ intStr a.denominator ++ ")".toList)) := by
  have h1 : globalName program W "__main__" "str" = pure (.builtin .str) := by rw [globalName]; rfl
  have h2 : globalName program W "__main__" "repr" = pure (.builtin .repr) := by rw [globalName]; rfl
  constructor
  · simp [Gives, userEval, callE, userNames, py, h1, signature_str, Signature.str]
  · have : a.repr = "Signature(".toList ++ intStr a.nominator ++ ", ".toList ++ intStr a.denominator ++ ")".toList := by
      have h3 : a.repr = "Signature".toList ++ ("(".toList ++ intStr a.nominator ++ ", ".toList ++ intStr a.denominator ++
        ")".toList) := rfl
      have h4 : "Signature(".toList = "Signature".toList ++ "(".toList := by decide
      rw [h3, h4]; simp only [List.append_assoc]
    rw [← this]
    simp [Gives, userEval, callE, userNames, py, h2, signature_repr]

/-- The text computes `1/4 + 1/2 == 3/4`. -/
example : Gives W [] (.cmp (.bin .add (.call (.name "Signature") [.int 1, .int 4] [])
    (.call (.name "Signature") [.int 1, .int 2] [])) [.eq] [.call (.name "Signature") [.int 3, .int 4] []])
    (.bool true) := by
  have h1 : Signature.new 1 4 = .ok ⟨1, 4⟩ := by decide
  have h2 : Signature.new 1 2 = .ok ⟨1, 2⟩ := by decide
  have h3 : Signature.new 3 4 = .ok ⟨3, 4⟩ := by decide
  have h4 : Signature.add ⟨1, 4⟩ ⟨1, 2⟩ = .ok ⟨3, 4⟩ := by decide
  have h5 : Signature.eq ⟨3, 4⟩ ⟨3, 4⟩ = true := by decide
  simp [Gives, userEval, userNames, py, signature_new, h1, h2, h3, Except.map, signature_add, h4, signature_eq, h5]

end Melodia
