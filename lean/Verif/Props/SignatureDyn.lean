/-
Property theorems C77 (`Signature` with values that are not ints).
-/
import Verif.Lemmas.SignatureDyn

set_option autoImplicit false

namespace Melodia

/-- C77: exactly which values make a signature: any number that is not negative, over an integer power of two. The
object holds the values as given. -/
theorem C77_accepts (n d : PyVal) (s : DynSignature) :
    DynSignature.new n d = .ok s ↔ s = ⟨n, d⟩ ∧ n.Above false ∧ ∃ i, d.asInt = some i ∧ IsPow2 i := by
  constructor
  · intro h
    rcases n.ge0_spec with ⟨-, h1, -⟩ | ⟨-, hn, h1⟩ | ⟨-, -, h1⟩ <;>
      simp only [DynSignature.new, DynSignature.andThen, h1, bind, Except.bind] at h
    · cases h
    · rcases d.gt0_spec with ⟨-, h2, -⟩ | ⟨-, hd, h2⟩ | ⟨-, -, h2⟩ <;>
        simp only [h2, if_true] at h
      · cases h
      · rcases PyVal.pow2_spec hd with ⟨f, -, h3⟩ | ⟨i, h4, h5, h3⟩ | ⟨i, -, -, h3⟩ <;> simp only [h3] at h
        · cases h
        · cases h
          exact ⟨rfl, hn, i, h4, h5⟩
        · cases h
      · cases h
    · cases h
  · rintro ⟨rfl, hn, i, hi, hp⟩
    rcases n.ge0_spec with ⟨-, -, h1⟩ | ⟨-, -, h1⟩ | ⟨-, h1, -⟩
    · exact absurd hn h1
    · have hd := PyVal.above_of_pow2 hi hp
      rcases d.gt0_spec with ⟨-, -, h2⟩ | ⟨-, -, h2⟩ | ⟨-, h2, -⟩
      · exact absurd hd h2
      · rcases PyVal.pow2_spec hd with ⟨f, h4, -⟩ | ⟨j, h4, h5, h3⟩ | ⟨j, h4, h5, -⟩
        · subst h4; cases hi
        · simp only [DynSignature.new, DynSignature.andThen, h1, h2, h3, bind, Except.bind]; rfl
        · rw [hi] at h4; cases h4; exact absurd hp h5
      · exact absurd hd h2
    · exact absurd hn h1

/-- C77: otherwise, TypeError if the nominator is no number, or it is not negative and the denominator is no number or
a positive float; ValueError in all other cases. -/
theorem C77_rejects (n d : PyVal) (h : ¬ (n.Above false ∧ ∃ i, d.asInt = some i ∧ IsPow2 i)) :
    (n = .other ∨ n.Above false ∧ (d = .other ∨ (∃ x, d = .float x) ∧ d.Above true) →
      DynSignature.new n d = .error .typeError) ∧
    (¬ (n = .other ∨ n.Above false ∧ (d = .other ∨ (∃ x, d = .float x) ∧ d.Above true)) →
      DynSignature.new n d = .error .valueError) := by
  rcases n.ge0_spec with ⟨h0, h1, h2⟩ | ⟨h0, hn, h1⟩ | ⟨h0, hn, h1⟩ <;>
    simp only [DynSignature.new, DynSignature.andThen, h1, bind, Except.bind]
  · exact ⟨fun _ => trivial, fun hc => absurd (.inl h0) hc⟩
  · rcases d.gt0_spec with ⟨k0, h2, -⟩ | ⟨k0, hd, h2⟩ | ⟨k0, hd, h2⟩ <;> simp only [h2, if_true]
    · exact ⟨fun _ => trivial, fun hc => absurd (.inr ⟨hn, .inl k0⟩) hc⟩
    · rcases PyVal.pow2_spec hd with ⟨f, h4, h3⟩ | ⟨j, h4, h5, h3⟩ | ⟨j, h4, h5, h3⟩ <;> simp only [h3]
      · exact ⟨fun _ => trivial, fun hc => absurd (.inr ⟨hn, .inr ⟨⟨f, h4⟩, hd⟩⟩) hc⟩
      · exact absurd ⟨hn, j, h4, h5⟩ h
      · refine ⟨?_, fun _ => rfl⟩
        rintro (hc | ⟨-, hc | ⟨⟨x, hc⟩, -⟩⟩)
        · exact absurd hc h0
        · exact absurd hc k0
        · subst hc; cases h4
    · refine ⟨?_, fun _ => rfl⟩
      rintro (hc | ⟨-, hc | ⟨-, hc⟩⟩)
      · exact absurd hc h0
      · exact absurd hc k0
      · exact absurd hc hd
  · refine ⟨?_, fun _ => rfl⟩
    rintro (hc | ⟨hc, -⟩)
    · exact absurd hc h0
    · exact absurd hc hn

/-- C77 refuted: floats are accepted as nominators, and the objects are of little use: `normalized`, and with it
writing a file, raises TypeError on every one of them. -/
theorem C77_violated (x : PyFloat) (h : PyFloat.le (.fin 0) x = true) (d : Int) (hd : IsPow2 d) :
    DynSignature.new (.float x) (.int d) = .ok ⟨.float x, .int d⟩ ∧
    ∀ fuel, DynSignature.normalized (fuel + 1) ⟨.float x, .int d⟩ = .error .typeError := by
  refine ⟨(C77_accepts _ _ _).mpr ⟨rfl, ?_, d, rfl, hd⟩, fun fuel => rfl⟩
  rcases (PyVal.float x).ge0_spec with ⟨h0, -⟩ | ⟨-, h1, -⟩ | ⟨-, -, h1⟩
  · cases h0
  · exact h1
  · rw [PyVal.ge0, h] at h1; cases h1

theorem DynSignature.normLoop_int : ∀ (fuel : Nat) (n d : Int), DynSignature.normLoop fuel (.int n) (.int d) =
    .ok (.int (Signature.normLoop fuel n d).1, .int (Signature.normLoop fuel n d).2) := by
  intro fuel
  induction fuel with
  | zero => intro n d; rfl
  | succ fuel ih =>
    intro n d
    rw [DynSignature.normLoop, Signature.normLoop]
    simp only [DynSignature.and1, DynSignature.andThen, DynSignature.gt1, DynSignature.shr1, bind, Except.bind, pure, Except.pure]
    by_cases h1 : pyMod n 2 = 0 <;> by_cases h2 : d > 1 <;> simp [h1, h2, ih]

/-- C77, the part that holds: on ints, this is the constructor and the `normalized` of Model/Signature.lean. -/
theorem C77_ints_partial (n d : Int) :
    DynSignature.new (.int n) (.int d) = (Signature.new n d).map (fun s => ⟨.int s.nominator, .int s.denominator⟩) ∧
    DynSignature.normalized d.toNat ⟨.int n, .int d⟩ =
      (Signature.normalized ⟨n, d⟩).map (fun s => ⟨.int s.nominator, .int s.denominator⟩) := by
  have hnew : ∀ n d : Int, DynSignature.new (.int n) (.int d) =
      (Signature.new n d).map (fun s => ⟨.int s.nominator, .int s.denominator⟩) := by
    intro n d
    have key : ∀ x y z : Bool, (do
        let ok ← DynSignature.andThen (DynSignature.andThen (.ok x) (.ok y)) (.ok z)
        if !ok then .error .valueError
        pure (⟨.int n, .int d⟩ : DynSignature) : PyM DynSignature) =
        (if x && (y && z) then .ok ⟨n, d⟩ else .error .valueError : PyM Signature).map
          (fun s => ⟨.int s.nominator, .int s.denominator⟩) := by
      intro x y z
      cases x <;> cases y <;> cases z <;> rfl
    exact key _ _ _
  refine ⟨hnew n d, ?_⟩
  change (DynSignature.normLoop d.toNat (.int n) (.int d) >>= fun r => DynSignature.new r.1 r.2) = _
  rw [DynSignature.normLoop_int]
  exact hnew _ _

/-- C77: `Signature(1.5, 4)`, `Signature(inf, 4)` and `Signature(True, True)` are accepted; `Signature(nan, 4)` and
`Signature(-1, 'x')` raise ValueError, `Signature(1, 4.0)` and `Signature('1', 4)` TypeError. -/
example : (DynSignature.new (.float (.fin (3 / 2))) (.int 4)).isOk ∧ (DynSignature.new (.float .posInf) (.int 4)).isOk ∧
    (DynSignature.new (.bool true) (.bool true)).isOk ∧
    DynSignature.new (.float .nan) (.int 4) = .error .valueError ∧
    DynSignature.new (.int (-1)) .other = .error .valueError ∧
    DynSignature.new (.int 1) (.float (.fin 4)) = .error .typeError ∧
    DynSignature.new .other (.int 4) = .error .typeError := by decide +kernel

end Melodia
