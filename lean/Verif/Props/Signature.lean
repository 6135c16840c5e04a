/-
Property theorems C01-C08 (src/melodia/core/signature.py).
`s.val` is the rational number a signature denotes, `s.Valid` the documented well-formedness
(Spec/Signature.lean).
-/
import Verif.Lemmas.Signature

set_option autoImplicit false

namespace Melodia
open Signature

/-! ### C01 -/

/-- C01: the constructor accepts exactly non-negative nominators over positive powers of two, keeps both
numbers, and raises ValueError otherwise. -/
theorem C01_constructor (n d : Int) :
    (0 ≤ n ∧ IsPow2 d → new n d = .ok ⟨n, d⟩) ∧
    (¬ (0 ≤ n ∧ IsPow2 d) → new n d = .error .valueError) :=
  ⟨fun h => new_ok h.1 h.2, new_err⟩

/-- C01 (closure): an object obtained from the constructor is well formed, and every well-formed one can
be obtained. -/
theorem C01_constructed_iff_valid (s : Signature) :
    (∃ n d, new n d = .ok s) ↔ s.Valid := by
  constructor
  · rintro ⟨n, d, h⟩; exact (new_eq_ok_iff.mp h).2
  · intro h; exact ⟨s.nominator, s.denominator, new_ok h.nom h.den⟩

example : new 3 8 = .ok ⟨3, 8⟩ ∧ new 1 6 = .error .valueError ∧ new (-1) 4 = .error .valueError ∧
    new 0 0 = .error .valueError := by decide
example : IsPow2 (2 ^ 200) := ⟨200, rfl⟩

/-! ### C02 -/

/-- C02: `normalized` never raises; its result is well formed, denotes the same number, is in lowest
terms, and is a fixed point of `normalized`. -/
theorem C02_normalized (s : Signature) (hs : s.Valid) :
    ∃ r, s.normalized = .ok r ∧ r.Valid ∧ r.val = s.val ∧
      Int.gcd r.nominator r.denominator = 1 ∧ r.normalized = .ok r := by
  obtain ⟨r, h1, h2, h3, h4⟩ := normalized_spec hs
  refine ⟨r, h1, h2, h3, normalized_coprime h2 h4, ?_⟩
  obtain ⟨r', g1, g2, g3, g4⟩ := normalized_spec h2
  rw [g1, lowest_unique g2 h2 g4 h4 g3]

/-- C02 (canonical form): two signatures denote the same number iff their normalized forms are
identical. -/
theorem C02_canonical (a b : Signature) (ha : a.Valid) (hb : b.Valid) :
    a.val = b.val ↔ a.normalized = b.normalized := by
  obtain ⟨r, h1, h2, h3, h4⟩ := normalized_spec ha
  obtain ⟨q, g1, g2, g3, g4⟩ := normalized_spec hb
  rw [h1, g1]
  constructor
  · intro h
    rw [lowest_unique h2 g2 h4 g4 (by rw [h3, g3, h])]
  · intro h
    cases h
    rw [← h3, g3]

/-- C02 (termination): the loop has stopped by itself when the model's fuel is exhausted: more fuel does
not change the result. -/
theorem C02_terminates (s : Signature) (hs : s.Valid) (extra : Nat) :
    normLoop (s.denominator.toNat + extra) s.nominator s.denominator =
      normLoop s.denominator.toNat s.nominator s.denominator := by
  obtain ⟨n, d⟩ := s
  obtain ⟨hn, k, hk⟩ := hs
  simp only at hn hk
  subst hk
  have hle : k ≤ ((2:Int) ^ k).toNat := by
    have h1 : ((2:Int) ^ k).toNat = 2 ^ k := by
      have : ((2 : Int) ^ k) = ((2 ^ k : Nat) : Int) := by simp
      rw [this, Int.toNat_natCast]
    rw [h1]; exact Nat.lt_two_pow_self.le
  obtain ⟨j, m, _, heq, hm, hnm, hlow⟩ := normLoop_spec k _ n hle hn
  obtain ⟨j', m', _, heq', hm', hnm', hlow'⟩ := normLoop_spec k (((2:Int) ^ k).toNat + extra) n (by omega) hn
  simp only [heq, heq']
  have key : ∀ (j : Nat) (m : Int), j ≤ k → n = m * 2 ^ (k - j) →
      (⟨m, 2 ^ j⟩ : Signature).val = (⟨n, 2 ^ k⟩ : Signature).val := by
    intro j m hj hnm
    unfold val
    simp only
    rw [hnm]
    obtain ⟨i, rfl⟩ : ∃ i, k = j + i := ⟨k - j, by omega⟩
    rw [show j + i - j = i by omega]
    push_cast
    rw [pow_add]
    field_simp
  have hu : (⟨m', 2 ^ j'⟩ : Signature) = ⟨m, 2 ^ j⟩ := by
    apply lowest_unique ⟨hm', j', rfl⟩ ⟨hm, j, rfl⟩
    · rcases hlow' with h | h
      · left; simp [h]
      · right; exact h
    · rcases hlow with h | h
      · left; simp [h]
      · right; exact h
    · rw [key j m (by assumption) hnm, key j' m' (by assumption) hnm']
  injection hu with h1 h2
  rw [h1, h2]

example : (⟨6, 8⟩ : Signature).Valid ∧ normalized ⟨6, 8⟩ = .ok ⟨3, 4⟩ ∧ normalized ⟨0, 64⟩ = .ok ⟨0, 1⟩ :=
  ⟨⟨by decide, 3, rfl⟩, by decide, by decide⟩

/-! ### C03 -/

/-- C03: `to(d)` succeeds iff `d` is a positive power of two not below the current denominator; the
result then has denominator `d` and denotes the same number; otherwise ValueError. -/
theorem C03_to (s : Signature) (hs : s.Valid) (d : Int) :
    (IsPow2 d ∧ s.denominator ≤ d →
      ∃ r, s.toDen d = .ok r ∧ r.Valid ∧ r.denominator = d ∧ r.val = s.val) ∧
    (¬ (IsPow2 d ∧ s.denominator ≤ d) → s.toDen d = .error .valueError) := by
  constructor
  · rintro ⟨hd, h⟩
    refine ⟨_, toDen_ok hs hd h, ⟨?_, hd⟩, rfl, val_scale hs hd h⟩
    exact mul_nonneg (fdiv_nonneg hs.denPos hd.pos.le) hs.nom
  · exact toDen_err

example : (⟨3, 4⟩ : Signature).Valid ∧ toDen ⟨3, 4⟩ 16 = .ok ⟨12, 16⟩ ∧
    toDen ⟨3, 4⟩ 2 = .error .valueError ∧ toDen ⟨3, 4⟩ 12 = .error .valueError :=
  ⟨⟨by decide, 2, rfl⟩, by decide, by decide, by decide⟩

/-! ### C04 -/

/-- C04: `==` is equality of the numbers denoted. -/
theorem C04_eq (a b : Signature) (ha : a.Valid) (hb : b.Valid) : a.eq b = true ↔ a.val = b.val :=
  eq_iff ha hb

/-- C04: hence `==` is an equivalence relation on signatures. -/
theorem C04_equivalence :
    (∀ a : Signature, a.Valid → a.eq a = true) ∧
    (∀ a b : Signature, a.Valid → b.Valid → a.eq b = b.eq a) ∧
    (∀ a b c : Signature, a.Valid → b.Valid → c.Valid → a.eq b = true → b.eq c = true →
      a.eq c = true) := by
  refine ⟨fun a ha => (eq_iff ha ha).mpr rfl, fun a b ha hb => ?_, fun a b c ha hb hc h1 h2 => ?_⟩
  · rw [Bool.eq_iff_iff, eq_iff ha hb, eq_iff hb ha, eq_comm]
  · rw [eq_iff ha hc]
    exact ((eq_iff ha hb).mp h1).trans ((eq_iff hb hc).mp h2)

example : Signature.eq ⟨1, 4⟩ ⟨8, 32⟩ = true ∧ Signature.eq ⟨1, 4⟩ ⟨1, 8⟩ = false := by decide

/-! ### C05

The code violates C05 when the left operand has the smaller denominator:
`_to_common_denominator` returns the two nominators swapped. -/

/-- C05 refuted: 1/2 < 3/4, yet `Signature(1, 2) < Signature(3, 4)` is False and
`Signature(1, 2) > Signature(3, 4)` is True (likewise for `<=`, `>=`). -/
theorem C05_violated :
    ∃ a b : Signature, a.Valid ∧ b.Valid ∧ a.val < b.val ∧
      a.lt b = false ∧ a.le b = false ∧ a.gt b = true ∧ a.ge b = true :=
  ⟨⟨1, 2⟩, ⟨3, 4⟩, ⟨by decide, 1, rfl⟩, ⟨by decide, 2, rfl⟩, by norm_num [val],
    by decide, by decide, by decide, by decide⟩

/-- C05, the part that holds. Missing from the full statement: pairs with
`a.denominator < b.denominator` (refuted above). -/
theorem C05_order_partial (a b : Signature) (ha : a.Valid) (hb : b.Valid)
    (h : b.denominator ≤ a.denominator) :
    (a.lt b = true ↔ a.val < b.val) ∧ (a.le b = true ↔ a.val ≤ b.val) ∧
    (a.gt b = true ↔ a.val > b.val) ∧ (a.ge b = true ↔ a.val ≥ b.val) :=
  ⟨lt_of_ge ha hb h, le_of_ge ha hb h, gt_of_ge ha hb h, ge_of_ge ha hb h⟩

/-- C05, what the code does in the remaining case: every comparison gives the answer for the swapped
operands. Together with `C05_order_partial` this determines all four operators completely. -/
theorem C05_order_reversed (a b : Signature) (ha : a.Valid) (hb : b.Valid)
    (h : a.denominator < b.denominator) :
    (a.lt b = true ↔ b.val < a.val) ∧ (a.le b = true ↔ b.val ≤ a.val) ∧
    (a.gt b = true ↔ b.val > a.val) ∧ (a.ge b = true ↔ b.val ≥ a.val) :=
  ⟨lt_of_lt ha hb h, le_of_lt ha hb h, gt_of_lt ha hb h, ge_of_lt ha hb h⟩

example : (⟨3, 8⟩ : Signature).Valid ∧ (⟨1, 2⟩ : Signature).Valid ∧
    (⟨1, 2⟩ : Signature).denominator ≤ (⟨3, 8⟩ : Signature).denominator :=
  ⟨⟨by decide, 3, rfl⟩, ⟨by decide, 1, rfl⟩, by decide⟩

/-! ### C06 -/

/-- C06 refuted: for 1/1 and 1/4 both `a < b` and `b < a` hold; for 0/1 and 1/4 none of `a < b`,
`a == b`, `b < a` holds; and `a < b` does not give `b > a`. -/
theorem C06_violated :
    (∃ a b : Signature, a.Valid ∧ b.Valid ∧ a.lt b = true ∧ b.lt a = true ∧ b.gt a = false) ∧
    (∃ a b : Signature, a.Valid ∧ b.Valid ∧ a.lt b = false ∧ a.eq b = false ∧ b.lt a = false) :=
  ⟨⟨⟨1, 1⟩, ⟨1, 4⟩, ⟨by decide, 0, rfl⟩, ⟨by decide, 2, rfl⟩, by decide, by decide, by decide⟩,
   ⟨⟨0, 1⟩, ⟨1, 4⟩, ⟨by decide, 0, rfl⟩, ⟨by decide, 2, rfl⟩, by decide, by decide, by decide⟩⟩

/-- C06: `<=` is always the negation of `>`, and `>=` that of `<`. -/
theorem C06_negations (a b : Signature) : a.le b = !a.gt b ∧ a.ge b = !a.lt b := by
  constructor
  · unfold le gt; simp only; rw [← decide_not]; simp
  · unfold ge lt; simp only; rw [← decide_not]; simp

/-- C06: exactly one of `a < b`, `a == b`, `a > b` (three expressions with `a` on the left) holds,
whatever the denominators. -/
theorem C06_trichotomy (a b : Signature) (ha : a.Valid) (hb : b.Valid) :
    (a.lt b = true ∧ a.eq b = false ∧ a.gt b = false) ∨
    (a.lt b = false ∧ a.eq b = true ∧ a.gt b = false) ∨
    (a.lt b = false ∧ a.eq b = false ∧ a.gt b = true) := by
  have f : ∀ x : Bool, x = false ↔ ¬ x = true := by intro x; cases x <;> simp
  rcases le_or_gt b.denominator a.denominator with hd | hd
  · simp only [f, lt_of_ge ha hb hd, gt_of_ge ha hb hd, eq_iff ha hb]
    rcases lt_trichotomy a.val b.val with h | h | h
    · exact Or.inl ⟨h, h.ne, h.not_gt⟩
    · exact Or.inr (Or.inl ⟨h.not_lt, h, h.not_gt⟩)
    · exact Or.inr (Or.inr ⟨h.not_gt, h.ne', h⟩)
  · simp only [f, lt_of_lt ha hb hd, gt_of_lt ha hb hd, eq_iff ha hb]
    rcases lt_trichotomy a.val b.val with h | h | h
    · exact Or.inr (Or.inr ⟨h.not_gt, h.ne, h⟩)
    · exact Or.inr (Or.inl ⟨h.not_gt, h, h.not_lt⟩)
    · exact Or.inl ⟨h, h.ne', h.not_gt⟩

/-- C06: `a < b` gives the same answer as `b > a` exactly when the denominators are equal or the
values are. -/
theorem C06_mirror_iff (a b : Signature) (ha : a.Valid) (hb : b.Valid) :
    a.lt b = b.gt a ↔ a.denominator = b.denominator ∨ a.val = b.val := by
  rw [Bool.eq_iff_iff]
  rcases lt_trichotomy a.denominator b.denominator with hd | hd | hd
  · rw [lt_of_lt ha hb hd, gt_of_ge hb ha hd.le]
    rcases lt_trichotomy a.val b.val with h | h | h
    · simp [h, h.not_gt, hd.ne, h.ne]
    · simp [h]
    · simp [h, h.not_gt, hd.ne, h.ne']
  · rw [lt_of_ge ha hb hd.ge, gt_of_ge hb ha hd.le]
    simp [hd]
  · rw [lt_of_ge ha hb hd.le, gt_of_lt hb ha hd]
    rcases lt_trichotomy a.val b.val with h | h | h
    · simp [h, h.not_gt, hd.ne', h.ne]
    · simp [h]
    · simp [h, h.not_gt, hd.ne', h.ne']

/-- C06: `<` is transitive on signatures with three given denominators exactly when the denominators
do not increase or strictly increase from left to right; for any other three powers of two there are
`a < b` and `b < c` without `a < c`. -/
theorem C06_transitive_iff (p q r : Int) (hp : ∃ k : Nat, p = 2 ^ k) (hq : ∃ k : Nat, q = 2 ^ k)
    (hr : ∃ k : Nat, r = 2 ^ k) :
    (∀ x y z : Int, 0 ≤ x → 0 ≤ y → 0 ≤ z →
      lt ⟨x, p⟩ ⟨y, q⟩ = true → lt ⟨y, q⟩ ⟨z, r⟩ = true → lt ⟨x, p⟩ ⟨z, r⟩ = true) ↔
    (q ≤ p ∧ r ≤ q) ∨ (p < q ∧ q < r) := by
  have V : ∀ n d : Int, 0 ≤ n → (∃ k : Nat, d = 2 ^ k) → (⟨n, d⟩ : Signature).Valid :=
    fun n d hn hd => ⟨hn, hd⟩
  have pos : ∀ d : Int, (∃ k : Nat, d = 2 ^ k) → 0 < d := by
    rintro d ⟨k, rfl⟩; positivity
  have v0 : ∀ d : Int, (⟨0, d⟩ : Signature).val = 0 := by intro d; simp [val]
  have v1 : ∀ d : Int, 0 < d → (⟨d, d⟩ : Signature).val = 1 := by
    intro d hd; unfold val; simp only; exact div_self (by exact_mod_cast hd.ne')
  have same : ∀ (n m : Int), 0 ≤ n → 0 ≤ m →
      (⟨n, p⟩ : Signature).val = (⟨m, r⟩ : Signature).val → lt ⟨n, p⟩ ⟨m, r⟩ = false := by
    intro n m hn hm hv
    rw [Bool.eq_false_iff]
    rcases le_or_gt r p with h | h
    · rw [Ne, lt_of_ge (V n p hn hp) (V m r hm hr) h, hv]; exact lt_irrefl _
    · rw [Ne, lt_of_lt (V n p hn hp) (V m r hm hr) h, hv]; exact lt_irrefl _
  constructor
  · intro h
    rcases le_or_gt q p with h1 | h1 <;> rcases le_or_gt r q with h2 | h2
    · exact Or.inl ⟨h1, h2⟩
    · exfalso
      have := h 0 q 0 le_rfl (pos q hq).le le_rfl
        ((lt_of_ge (V 0 p le_rfl hp) (V q q (pos q hq).le hq) h1).mpr
          (by rw [v0, v1 q (pos q hq)]; norm_num))
        ((lt_of_lt (V q q (pos q hq).le hq) (V 0 r le_rfl hr) h2).mpr
          (by rw [v0, v1 q (pos q hq)]; norm_num))
      rw [same 0 0 le_rfl le_rfl (by rw [v0, v0])] at this
      cases this
    · exfalso
      have := h p 0 r (pos p hp).le le_rfl (pos r hr).le
        ((lt_of_lt (V p p (pos p hp).le hp) (V 0 q le_rfl hq) h1).mpr
          (by rw [v0, v1 p (pos p hp)]; norm_num))
        ((lt_of_ge (V 0 q le_rfl hq) (V r r (pos r hr).le hr) h2).mpr
          (by rw [v0, v1 r (pos r hr)]; norm_num))
      rw [same p r (pos p hp).le (pos r hr).le (by rw [v1 p (pos p hp), v1 r (pos r hr)])] at this
      cases this
    · exact Or.inr ⟨h1, h2⟩
  · rintro (⟨h1, h2⟩ | ⟨h1, h2⟩) x y z hx hy hz
    · rw [lt_of_ge (V x p hx hp) (V y q hy hq) h1, lt_of_ge (V y q hy hq) (V z r hz hr) h2,
        lt_of_ge (V x p hx hp) (V z r hz hr) (h2.trans h1)]
      exact fun a b => a.trans b
    · rw [lt_of_lt (V x p hx hp) (V y q hy hq) h1, lt_of_lt (V y q hy hq) (V z r hz hr) h2,
        lt_of_lt (V x p hx hp) (V z r hz hr) (h1.trans h2)]
      exact fun a b => b.trans a

example : lt ⟨1, 4⟩ ⟨1, 2⟩ = true ∧ lt ⟨1, 2⟩ ⟨1, 4⟩ = true ∧ lt ⟨1, 4⟩ ⟨1, 4⟩ = false ∧
    gt ⟨1, 2⟩ ⟨1, 4⟩ = false := by decide

/-- C06, the part that holds: among signatures with one common denominator the order is total and
consistent with `==`. Missing: mixed denominators (refuted above). -/
theorem C06_total_order_partial (a b c : Signature) (ha : a.Valid) (hb : b.Valid) (hc : c.Valid)
    (hab : a.denominator = b.denominator) (hbc : b.denominator = c.denominator) :
    ((a.lt b = true ∧ a.eq b = false ∧ a.gt b = false) ∨
     (a.lt b = false ∧ a.eq b = true ∧ a.gt b = false) ∨
     (a.lt b = false ∧ a.eq b = false ∧ a.gt b = true)) ∧
    (a.lt b = b.gt a) ∧ (a.le b = b.ge a) ∧
    (a.lt b = true → b.lt c = true → a.lt c = true) ∧
    (a.le b = true → b.le c = true → a.le c = true) := by
  have f : ∀ x : Bool, x = false ↔ ¬ x = true := by intro x; cases x <;> simp
  simp only [f, Bool.eq_iff_iff, lt_of_ge ha hb hab.ge, gt_of_ge ha hb hab.ge, eq_iff ha hb,
    le_of_ge ha hb hab.ge, gt_of_ge hb ha hab.le, ge_of_ge hb ha hab.le,
    lt_of_ge hb hc hbc.ge, lt_of_ge ha hc (hab.trans hbc).ge, le_of_ge hb hc hbc.ge,
    le_of_ge ha hc (hab.trans hbc).ge]
  refine ⟨?_, by simp, by simp, fun h1 h2 => h1.trans h2, fun h1 h2 => h1.trans h2⟩
  rcases lt_trichotomy a.val b.val with h | h | h
  · exact Or.inl ⟨h, h.ne, h.not_gt⟩
  · exact Or.inr (Or.inl ⟨h.not_lt, h, h.not_gt⟩)
  · exact Or.inr (Or.inr ⟨h.not_gt, h.ne', h⟩)

/-! ### C07 -/

/-- C07: `+` never raises, is exact, and the result has the larger denominator. -/
theorem C07_add (a b : Signature) (ha : a.Valid) (hb : b.Valid) :
    ∃ s, a.add b = .ok s ∧ s.Valid ∧ s.val = a.val + b.val ∧
      s.denominator = max a.denominator b.denominator := add_ok ha hb

/-- C07: `+` is commutative, with identical nominator and denominator. -/
theorem C07_add_comm (a b : Signature) (ha : a.Valid) (hb : b.Valid) : a.add b = b.add a := by
  obtain ⟨s, h1, h2, h3, h4⟩ := add_ok ha hb
  obtain ⟨t, g1, g2, g3, g4⟩ := add_ok hb ha
  have : s = t := ext_val h2 (by rw [h4, g4, max_comm]) (by rw [h3, g3, add_comm])
  rw [h1, g1, this]

/-- C07: `+` is associative, with identical nominator and denominator. -/
theorem C07_add_assoc (a b c : Signature) (ha : a.Valid) (hb : b.Valid) (hc : c.Valid) :
    (do let s ← a.add b; s.add c) = (do let s ← b.add c; a.add s) := by
  obtain ⟨s, h1, h2, h3, h4⟩ := add_ok ha hb
  obtain ⟨t, g1, g2, g3, g4⟩ := add_ok hb hc
  obtain ⟨u, k1, k2, k3, k4⟩ := add_ok h2 hc
  obtain ⟨v, l1, l2, l3, l4⟩ := add_ok ha g2
  have : u = v := ext_val k2 (by rw [k4, l4, h4, g4, max_assoc]) (by rw [k3, l3, h3, g3, add_assoc])
  simp only [h1, g1, k1, l1, bind, Except.bind, this]

example : add ⟨1, 2⟩ ⟨1, 4⟩ = .ok ⟨3, 4⟩ ∧ add ⟨1, 4⟩ ⟨1, 2⟩ = .ok ⟨3, 4⟩ := by decide

/-! ### C08 -/

/-- C08: `*` never raises and is exact. -/
theorem C08_mul (a b : Signature) (ha : a.Valid) (hb : b.Valid) :
    ∃ s, a.mul b = .ok s ∧ s.Valid ∧ s.val = a.val * b.val := by
  refine ⟨_, new_ok (mul_nonneg ha.nom hb.nom) (ha.den.mul hb.den),
    ⟨mul_nonneg ha.nom hb.nom, ha.den.mul hb.den⟩, ?_⟩
  unfold val; push_cast; rw [div_mul_div_comm]

/-- C08: `*` is commutative and associative with unit `Signature(1, 1)`. -/
theorem C08_mul_monoid (a b c : Signature) (ha : a.Valid) (hb : b.Valid) (hc : c.Valid) :
    a.mul b = b.mul a ∧
    (do let s ← a.mul b; s.mul c) = (do let s ← b.mul c; a.mul s) ∧
    a.mul ⟨1, 1⟩ = .ok a := by
  have e : ∀ x y : Signature, x.Valid → y.Valid →
      x.mul y = .ok ⟨x.nominator * y.nominator, x.denominator * y.denominator⟩ :=
    fun x y hx hy => new_ok (mul_nonneg hx.nom hy.nom) (hx.den.mul hy.den)
  have v : ∀ x y : Signature, x.Valid → y.Valid →
      (⟨x.nominator * y.nominator, x.denominator * y.denominator⟩ : Signature).Valid :=
    fun x y hx hy => ⟨mul_nonneg hx.nom hy.nom, hx.den.mul hy.den⟩
  refine ⟨?_, ?_, ?_⟩
  · rw [e a b ha hb, e b a hb ha, mul_comm a.nominator, mul_comm a.denominator]
  · rw [e a b ha hb, e b c hb hc]
    simp only [bind, Except.bind]
    rw [e _ c (v a b ha hb) hc, e a _ ha (v b c hb hc)]
    simp only [mul_assoc]
  · rw [e a _ ha ⟨by decide, 0, rfl⟩]; simp

/-- C08: `abs` is the identity on signatures. -/
theorem C08_abs (a : Signature) (ha : a.Valid) : a.abs = .ok a := by
  unfold Signature.abs
  rw [abs_of_nonneg ha.nom, new_ok ha.nom ha.den]

example : mul ⟨3, 4⟩ ⟨5, 4⟩ = .ok ⟨15, 16⟩ := by decide

end Melodia
