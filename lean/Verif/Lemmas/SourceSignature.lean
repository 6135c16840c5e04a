/-
The text of src/melodia/core/signature.py (Verif/Source/SignatureModule.lean), run by the semantics of Python, computes what the
model (Verif/Model/Signature.lean) computes.
-/
import Verif.Source.Program
import Verif.Lemmas.PyBasic
import Verif.Lemmas.Signature
import Verif.Model.Text

set_option autoImplicit false

namespace Melodia

open Python

/-- The object of class `Signature`. -/
def sigV (s : Signature) : Val :=
  .obj "Signature" [("_nominator", .int s.nominator), ("_denominator", .int s.denominator)]

namespace Source

variable (W : World)

/-! ### Names and methods -/

@[py] theorem sig_init : program.method "Signature" "__init__" = some Signature.dunder_init := by rfl
@[py] theorem sig_nominator : program.method "Signature" "nominator" = some Signature.nominator := by rfl
@[py] theorem sig_denominator : program.method "Signature" "denominator" = some Signature.denominator := by rfl
@[py] theorem sig_to : program.method "Signature" "to" = some Signature.to := by rfl
@[py] theorem sig_normalized : program.method "Signature" "normalized" = some Signature.normalized := by rfl
@[py] theorem sig_common :
    program.method "Signature" "_to_common_denominator" = some Signature._to_common_denominator := by rfl
@[py] theorem sig_str : program.method "Signature" "__str__" = some Signature.dunder_str := by rfl
@[py] theorem sig_repr : program.method "Signature" "__repr__" = some Signature.dunder_repr := by rfl
@[py] theorem sig_eq : program.method "Signature" "__eq__" = some Signature.dunder_eq := by rfl
@[py] theorem sig_le : program.method "Signature" "__le__" = some Signature.dunder_le := by rfl
@[py] theorem sig_lt : program.method "Signature" "__lt__" = some Signature.dunder_lt := by rfl
@[py] theorem sig_ge : program.method "Signature" "__ge__" = some Signature.dunder_ge := by rfl
@[py] theorem sig_gt : program.method "Signature" "__gt__" = some Signature.dunder_gt := by rfl
@[py] theorem sig_add : program.method "Signature" "__add__" = some Signature.dunder_add := by rfl
@[py] theorem sig_mul : program.method "Signature" "__mul__" = some Signature.dunder_mul := by rfl
@[py] theorem sig_abs : program.method "Signature" "__abs__" = some Signature.dunder_abs := by rfl
@[py] theorem sig_len : program.method "Signature" "__len__" = .none := by rfl
@[py] theorem sig_iter : program.method "Signature" "__iter__" = .none := by rfl
@[py] theorem sig_class : program.classOf "Signature" = some Signature.classDef := by rfl
@[py] theorem sig_mutable : Signature.classDef.mutable = false := by rfl

/-- What the names of this module are bound to. -/
theorem sig_global_cls : program.global 4 "melodia.core.signature" "Signature" = some (.cls "Signature") := by rfl
theorem sig_global_err : program.global 4 "melodia.core.signature" "ValueError" = .none := by rfl
theorem sig_global_abs : program.global 4 "melodia.core.signature" "abs" = .none := by rfl

@[py] theorem sig_name_cls : globalName program W "melodia.core.signature" "Signature" = pure (.cls "Signature") := by
  rw [globalName]; simp only [sig_global_cls]
@[py] theorem sig_name_err :
    globalName program W "melodia.core.signature" "ValueError" = pure (.excClass .valueError) := by
  rw [globalName]; simp only [sig_global_err, builtinName]
@[py] theorem sig_name_abs : globalName program W "melodia.core.signature" "abs" = pure (.builtin .abs) := by
  rw [globalName]; simp only [sig_global_abs, builtinName]

/-! ### Arithmetic -/

/-- The test for powers of two of the source. -/
theorem isPow2Test_eq (d : Int) :
    Melodia.Signature.isPow2Test d = (decide (d > 0) && decide (Int.land d (d - 1) = 0)) := by
  by_cases hd : d > 0
  · rw [Melodia.Signature.isPow2Test]
    obtain ⟨n, rfl⟩ : ∃ n : ℕ, d = n + 1 := ⟨(d - 1).toNat, by omega⟩
    have h : ((n : Int) + 1 - 1) = (n : ℕ) := by omega
    have h2 : ((n : Int) + 1).toNat = n + 1 := by omega
    rw [h, h2, Int.toNat_natCast]
    have h3 : Int.land ((n : Int) + 1) n = Int.ofNat ((n + 1) &&& n) := rfl
    rw [h3, Bool.beq_eq_decide_eq]
    congr 1
    rw [decide_eq_decide]
    exact Int.natCast_eq_zero.symm
  · simp [Melodia.Signature.isPow2Test, hd]

theorem land_one {n : Int} (hn : 0 ≤ n) : Int.land n 1 = pyMod n 2 := by
  obtain ⟨m, rfl⟩ := Int.eq_ofNat_of_zero_le hn
  show Int.ofNat (m &&& 1) = _
  rw [Nat.and_one_is_mod, pyMod, Int.fmod_eq_emod_of_nonneg _ (by norm_num)]
  rfl

theorem shr_one (n : Int) : n >>> (1 : ℕ) = pyFloorDiv n 2 := by
  rw [Int.shiftRight_eq_div_pow, pyFloorDiv, Int.fdiv_eq_ediv_of_nonneg _ (by norm_num)]
  rfl

/-! ### Attributes -/

@[py] theorem sigV_nominator (s : Melodia.Signature) : getAttr program W (sigV s) "_nominator" = pure (.int s.nominator) :=
  getAttr_field _ _ _ _ _ _ rfl
@[py] theorem sigV_denominator (s : Melodia.Signature) :
    getAttr program W (sigV s) "_denominator" = pure (.int s.denominator) :=
  getAttr_field _ _ _ _ _ _ rfl
@[py] theorem sigV_common (s : Melodia.Signature) :
    getAttr program W (sigV s) "_to_common_denominator" = pure (.meth (sigV s) "_to_common_denominator") :=
  getAttr_meth _ _ _ _ _ _ rfl (by simp) sig_common (by simp [Signature._to_common_denominator])
@[py] theorem sigV_to (s : Melodia.Signature) : getAttr program W (sigV s) "to" = pure (.meth (sigV s) "to") :=
  getAttr_meth _ _ _ _ _ _ rfl (by simp) sig_to (by simp [Signature.to])
@[py] theorem sigV_normalized (s : Melodia.Signature) :
    getAttr program W (sigV s) "normalized" = pure (.meth (sigV s) "normalized") :=
  getAttr_meth _ _ _ _ _ _ rfl (by simp) sig_normalized (by simp [Signature.normalized])
@[py] theorem sigV_class (s : Melodia.Signature) : getAttr program W (sigV s) "__class__" = pure (.cls "Signature") :=
  getAttr_class _ _ _ _ rfl
@[py] theorem readVar_sigV (s : Melodia.Signature) : readVar (sigV s) = pure (sigV s) := rfl

/-! ### Construction and conversion -/

/-- `Signature(n, d)`. -/
@[py] theorem signature_new (n d : Int) :
    construct program W "Signature" [.int n, .int d] [] = liftPy ((Melodia.Signature.new n d).map sigV) := by
  rw [construct]
  simp only [py, Signature.dunder_init, Melodia.Signature.new, isPow2Test_eq]
  by_cases h1 : n ≥ 0 <;> by_cases h2 : d > 0 <;> by_cases h3 : Int.land d (d - 1) = 0 <;>
    simp [py, h1, h2, h3, Except.map, sigV]

/-- `s.nominator` and `s.denominator`. -/
theorem signature_nominator (s : Melodia.Signature) :
    getAttr program W (sigV s) "nominator" = pure (.int s.nominator) := by
  rw [sigV, getAttr_prop _ _ _ _ _ _ rfl (by simp) sig_nominator rfl, ← sigV, callFun]
  simp [py, Signature.nominator]

theorem signature_denominator (s : Melodia.Signature) :
    getAttr program W (sigV s) "denominator" = pure (.int s.denominator) := by
  rw [sigV, getAttr_prop _ _ _ _ _ _ rfl (by simp) sig_denominator rfl, ← sigV, callFun]
  simp [py, Signature.denominator]

/-- `s.to(d)`. -/
theorem signature_to (s : Melodia.Signature) (hs : s.denominator ≠ 0) (d : Int) :
    call program W (.meth (sigV s) "to") [.int d] [] = liftPy ((s.toDen d).map sigV) := by
  rw [sigV, call_obj _ _ _ _ _ _ _ _ sig_to (by simp [Signature.to]), ← sigV, callFun]
  simp only [py, Signature.to, Melodia.Signature.toDen, isPow2Test_eq]
  by_cases h2 : d > 0 <;> by_cases h3 : Int.land d (d - 1) = 0 <;> simp [py, h2, h3, hs, Except.map]
  by_cases h4 : d = s.denominator
  · simp [py, h4]
  · by_cases h5 : s.denominator < d <;> simp [py, h4, h5]

/-- The loop of `normalized`. -/
theorem normalized_loop (s : Melodia.Signature) (k : Nat) : ∀ (n d : Int), 0 ≤ n → d.toNat ≤ k →
    whileLoop program W
      (.and (.cmp (.bin .band (.name "n") (.int 1)) [.eq] [.int 0]) (.cmp (.name "d") [.gt] [.int 1]))
      [.aug (.name "n") .shr (.int 1), .aug (.name "d") .shr (.int 1)]
      { mod := "melodia.core.signature", vars := [("self", sigV s), ("n", .int n), ("d", .int d)] } =
    pure (.next { mod := "melodia.core.signature",
                  vars := [("self", sigV s), ("n", .int (Melodia.Signature.normLoop k n d).1),
                    ("d", .int (Melodia.Signature.normLoop k n d).2)] }) := by
  induction k with
  | zero =>
    intro n d hn hd
    have : ¬ d > 1 := by omega
    rw [whileLoop]
    by_cases h1 : Int.land n 1 = 0 <;> simp [py, this, h1, Melodia.Signature.normLoop]
  | succ k ih =>
    intro n d hn hd
    rw [whileLoop, Melodia.Signature.normLoop]
    by_cases h1 : Int.land n 1 = 0 <;> by_cases h2 : d > 1
    · have h1' : pyMod n 2 = 0 := by rw [← land_one hn]; exact h1
      simp only [py, h2, h1', if_true]
      simp [py, shr_one, h1, h2]
      rw [ih]
      · rw [pyFloorDiv, Int.fdiv_eq_ediv_of_nonneg _ (by norm_num)]; exact Int.ediv_nonneg hn (by norm_num)
      · rw [pyFloorDiv, Int.fdiv_eq_ediv_of_nonneg _ (by norm_num)]
        have := Int.ediv_lt_self_of_pos_of_ne_one (x := d) (y := 2) (by omega) (by omega)
        omega
    · simp [py, h1, h2]
    · have h1' : pyMod n 2 ≠ 0 := by rw [← land_one hn]; exact h1
      simp [py, h1, h1']
    · simp [py, h1, h2]

/-- `s.normalized()`. -/
theorem signature_normalized (s : Melodia.Signature) (hs : 0 ≤ s.nominator) :
    call program W (.meth (sigV s) "normalized") [] [] = liftPy (s.normalized.map sigV) := by
  rw [sigV, call_obj _ _ _ _ _ _ _ _ sig_normalized (by simp [Signature.normalized]), ← sigV, callFun]
  simp [py, Signature.normalized, normalized_loop W s _ s.nominator s.denominator hs (le_refl _),
    Melodia.Signature.normalized]

/-! ### Comparisons and arithmetic -/

/-- `a._to_common_denominator(b)`. -/
theorem signature_common (a b : Melodia.Signature) (ha : a.denominator ≠ 0) (hb : b.denominator ≠ 0) :
    call program W (.meth (sigV a) "_to_common_denominator") [sigV b] [] =
      pure (.tuple [.int (a.toCommonDenominator b).1, .int (a.toCommonDenominator b).2.1,
        .int (a.toCommonDenominator b).2.2]) := by
  rw [sigV, call_obj _ _ _ _ _ _ _ _ sig_common (by simp [Signature._to_common_denominator]), ← sigV, callFun]
  simp [py, Signature._to_common_denominator, Melodia.Signature.toCommonDenominator, ha, hb]
  split_ifs <;> rfl

variable (a b : Melodia.Signature)

/-- `a == b` … `a > b`. -/
theorem signature_eq (ha : a.denominator ≠ 0) (hb : b.denominator ≠ 0) :
    richCmp program W .eq (sigV a) (sigV b) = pure (.bool (a.eq b)) := by
  rw [sigV, richCmp_obj _ _ _ (by simp) _ _ _ _ sig_eq, ← sigV, callFun]
  simp [py, Signature.dunder_eq, signature_common, ha, hb, Melodia.Signature.eq]

theorem signature_ne (ha : a.denominator ≠ 0) (hb : b.denominator ≠ 0) :
    richCmp program W .ne (sigV a) (sigV b) = pure (.bool (!a.eq b)) := by
  rw [sigV, richCmp_obj_ne _ _ _ _ _ _ sig_eq, ← sigV, callFun]
  simp [py, Signature.dunder_eq, signature_common, ha, hb, Melodia.Signature.eq]

theorem signature_lt (ha : a.denominator ≠ 0) (hb : b.denominator ≠ 0) :
    richCmp program W .lt (sigV a) (sigV b) = pure (.bool (a.lt b)) := by
  rw [sigV, richCmp_obj _ _ _ (by simp) _ _ _ _ sig_lt, ← sigV, callFun]
  simp [py, Signature.dunder_lt, signature_common, ha, hb, Melodia.Signature.lt]

theorem signature_le (ha : a.denominator ≠ 0) (hb : b.denominator ≠ 0) :
    richCmp program W .le (sigV a) (sigV b) = pure (.bool (a.le b)) := by
  rw [sigV, richCmp_obj _ _ _ (by simp) _ _ _ _ sig_le, ← sigV, callFun]
  simp [py, Signature.dunder_le, signature_common, ha, hb, Melodia.Signature.le]

theorem signature_gt (ha : a.denominator ≠ 0) (hb : b.denominator ≠ 0) :
    richCmp program W .gt (sigV a) (sigV b) = pure (.bool (a.gt b)) := by
  rw [sigV, richCmp_obj _ _ _ (by simp) _ _ _ _ sig_gt, ← sigV, callFun]
  simp [py, Signature.dunder_gt, signature_common, ha, hb, Melodia.Signature.gt]

theorem signature_ge (ha : a.denominator ≠ 0) (hb : b.denominator ≠ 0) :
    richCmp program W .ge (sigV a) (sigV b) = pure (.bool (a.ge b)) := by
  rw [sigV, richCmp_obj _ _ _ (by simp) _ _ _ _ sig_ge, ← sigV, callFun]
  simp [py, Signature.dunder_ge, signature_common, ha, hb, Melodia.Signature.ge]

/-- `a + b`. -/
theorem signature_add (ha : a.denominator ≠ 0) (hb : b.denominator ≠ 0) :
    binary program W .add (sigV a) (sigV b) = liftPy ((a.add b).map sigV) := by
  rw [sigV, binary_obj _ _ _ _ _ _ _ sig_add, ← sigV, callFun]
  simp [py, Signature.dunder_add, signature_common, ha, hb, Melodia.Signature.add]

/-- `a * b`. -/
theorem signature_mul : binary program W .mul (sigV a) (sigV b) = liftPy ((a.mul b).map sigV) := by
  rw [sigV, binary_obj _ _ _ _ _ _ _ sig_mul, ← sigV, callFun]
  simp [py, Signature.dunder_mul, Melodia.Signature.mul]

/-- `abs(a)`. -/
theorem signature_abs : callBuiltin program W .abs [sigV a] [] = liftPy (a.abs.map sigV) := by
  rw [callBuiltin]
  simp only [py, sigV]
  rw [← sigV, callFun]
  simp [py, Signature.dunder_abs, callBuiltin, primAbs, Melodia.Signature.abs]

/-! ### Text -/

/-- `str(a)`. -/
theorem signature_str : callBuiltin program W .str [sigV a] [] = pure (.str a.str) := by
  rw [callBuiltin, format]
  simp only [py, sigV]
  rw [← sigV, callFun]
  simp [py, Signature.dunder_str, Melodia.Signature.str]

/-- `repr(a)`. -/
theorem signature_repr : callBuiltin program W .repr [sigV a] [] = pure (.str a.repr) := by
  rw [callBuiltin]
  simp only [py, sigV]
  rw [← sigV, callFun]
  simp only [py, Signature.dunder_repr, Bool.false_eq_true, ↓reduceIte]
  have : a.repr = "Signature".toList ++ a.tupleText := rfl
  rw [this, Melodia.Signature.tupleText]
  simp only [List.append_assoc, List.append_nil]

end Source

end Melodia
