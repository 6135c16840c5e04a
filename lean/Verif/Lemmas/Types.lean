/-
Lemmas on the types of the results of the methods of src/melodia/core/signature.py, tone.py and note.py.
-/
import Verif.Spec.Types
import Verif.Props.Signature
import Verif.Props.Note

set_option autoImplicit false

namespace Melodia.Source

open Melodia.Python

variable {W : World}

/-! ### Computations -/

theorem gives_pure {t : Ty} {v : Val} (h : HasType t v) : GivesTy t (pure v) := fun _ => .inl ⟨v, rfl, h⟩

theorem gives_raise {t : Ty} {e : PyErr} : GivesTy t (raise e) := fun _ => .inr ⟨e, rfl⟩

theorem gives_liftPy {t : Ty} {α : Type} {x : PyM α} {f : α → Val} (h : ∀ a, x = .ok a → HasType t (f a)) :
    GivesTy t (liftPy (x.map f)) := by
  cases hx : x with
  | error e => exact gives_raise
  | ok a => exact gives_pure (h a hx)

/-! ### Types -/

theorem hasInt {v : Val} : HasType (.name "int") v ↔ ∃ i : Int, v = .int i := by simp [HasType, IsInstance]
theorem hasFloat {v : Val} : HasType (.name "float") v ↔ ∃ x : PyFloat, v = .float x := by simp [HasType, IsInstance]
theorem hasStr {v : Val} : HasType (.name "str") v ↔ ∃ s : List Char, v = .str s := by simp [HasType, IsInstance]
theorem hasBool {v : Val} : HasType (.name "bool") v ↔ ∃ b : Bool, v = .bool b := by simp [HasType, IsInstance]

theorem isTone {v : Val} : IsInstance "Tone" v ↔ ∃ t : Melodia.Tone, v = toneV t := by simp [IsInstance]

theorem isSignature {v : Val} : IsInstance "Signature" v ↔ ∃ s : Melodia.Signature, s.Valid ∧ v = sigV s := by
  simp only [IsInstance]
  constructor
  · rintro ⟨s, h1, h2, h3⟩; exact ⟨s, ⟨h1, h2⟩, h3⟩
  · rintro ⟨s, h1, h3⟩; exact ⟨s, h1.nom, h1.den, h3⟩

theorem isNote {v : Val} : IsInstance "Note" v ↔ ∃ n : Melodia.Note, n.Valid ∧ v = noteV n := by
  simp only [IsInstance]
  constructor
  · rintro ⟨n, h1, h2, h3, h4, h5⟩; exact ⟨n, ⟨⟨h1, h2⟩, h3, h4⟩, h5⟩
  · rintro ⟨n, h1, h3⟩; exact ⟨n, h1.duration.nom, h1.duration.den, h1.velLow, h1.velHigh, h3⟩

theorem hasTone {v : Val} : HasType (.name "Tone") v ↔ ∃ t : Melodia.Tone, v = toneV t := by rw [← isTone, HasType]
theorem hasSignature {v : Val} : HasType (.name "Signature") v ↔ ∃ s : Melodia.Signature, s.Valid ∧ v = sigV s := by
  rw [← isSignature, HasType]
theorem hasNote {v : Val} : HasType (.name "Note") v ↔ ∃ n : Melodia.Note, n.Valid ∧ v = noteV n := by rw [← isNote, HasType]

/-- The durations. -/
def durationTy : Ty := .app "Union" [.name "Signature", .app "Tuple" [.name "int", .name "int"]]

theorem hasDuration {v : Val} : HasType durationTy v ↔
    (∃ s : Melodia.Signature, s.Valid ∧ v = sigV s) ∨ ∃ i j : Int, v = .tuple [.int i, .int j] := by
  simp only [durationTy, HasType, HasSome, HasTypes, ← isSignature, if_true, or_false, IsInstance]
  rw [if_neg (by simp)]
  constructor
  · rintro (h | ⟨_, rfl, _, _, rfl, ⟨i, rfl⟩, _, _, rfl, ⟨j, rfl⟩, rfl⟩)
    · exact .inl h
    · exact .inr ⟨i, j, rfl⟩
  · rintro (h | ⟨i, j, rfl⟩)
    · exact .inl h
    · exact .inr ⟨_, rfl, _, _, rfl, ⟨i, rfl⟩, _, _, rfl, ⟨j, rfl⟩, rfl⟩

/-- The argument a duration is. -/
theorem duration_arg {v : Val} (h : HasType durationTy v) : ∃ a : SigArg, IsSigArg a v ∧ ∀ s, a = .sig s → s.Valid := by
  rcases hasDuration.mp h with ⟨s, hs, rfl⟩ | ⟨i, j, rfl⟩
  · exact ⟨_, .sig s, fun _ h => by cases h; exact hs⟩
  · exact ⟨_, .tuple [i, j], fun _ h => by cases h⟩

/-! ### `Signature` -/

section
variable {s a b : Melodia.Signature}

theorem pow2_ne {d : Int} (h : IsPow2 d) : d ≠ 0 := by
  obtain ⟨k, rfl⟩ := h
  positivity

theorem new_valid {n d : Int} (h : Melodia.Signature.new n d = .ok s) : s.Valid :=
  (C01_constructed_iff_valid s).mp ⟨n, d, h⟩

theorem callFun_method {v : Val} {c x : String} {fs : List (String × Val)} {f : FunDef} {args : List Val} {m : M Val}
    (hv : v = .obj c fs) (hf : program.method c x = some f) (hs : f.deco ≠ .staticmethod ∧ f.deco ≠ .classmethod)
    (h : call program W (.meth v x) args [] = m) : callFun program W f (v :: args) [] = m := by
  subst hv; rw [← h, call_obj _ _ _ _ _ _ _ _ hf hs]

theorem gives_sig {x : PyM Melodia.Signature} (h : ∀ s, x = .ok s → s.Valid) : GivesTy (.name "Signature") (liftPy (x.map sigV)) :=
  gives_liftPy fun s hs => hasSignature.mpr ⟨s, h s hs, rfl⟩

theorem gives_bool {b : Bool} : GivesTy (.name "bool") (pure (.bool b)) := gives_pure (hasBool.mpr ⟨_, rfl⟩)
theorem gives_int {i : Int} : GivesTy (.name "int") (pure (.int i)) := gives_pure (hasInt.mpr ⟨_, rfl⟩)
theorem gives_str {l : List Char} : GivesTy (.name "str") (pure (.str l)) := gives_pure (hasStr.mpr ⟨_, rfl⟩)

theorem sig_nominator_gives : GivesTy (.name "int") (callFun program W Signature.nominator [sigV s] []) := by
  rw [callFun]; simpa [py, Signature.nominator] using gives_int

theorem sig_denominator_gives : GivesTy (.name "int") (callFun program W Signature.denominator [sigV s] []) := by
  rw [callFun]; simpa [py, Signature.denominator] using gives_int

theorem sig_to_gives (hs : s.Valid) (d : Int) : GivesTy (.name "Signature") (callFun program W Signature.to [sigV s, .int d] []) := by
  rw [callFun_method (v := sigV _) rfl sig_to (by simp [Signature.to]) (signature_to W s (pow2_ne hs.den) d)]
  refine gives_sig fun t ht => ?_
  unfold Melodia.Signature.toDen at ht
  split at ht
  · cases ht
  · split at ht
    · exact new_valid ht
    · split at ht
      · exact new_valid ht
      · cases ht

theorem sig_normalized_gives (hs : s.Valid) : GivesTy (.name "Signature") (callFun program W Signature.normalized [sigV s] []) := by
  rw [callFun_method (v := sigV _) rfl sig_normalized (by simp [Signature.normalized]) (signature_normalized W s hs.nom)]
  exact gives_sig fun t ht => new_valid ht

theorem sig_common_gives (ha : a.Valid) (hb : b.Valid) : GivesTy (.app "Tuple" [.name "int", .name "int", .name "int"])
    (callFun program W Signature._to_common_denominator [sigV a, sigV b] []) := by
  rw [callFun_method (v := sigV _) rfl sig_common (by simp [Signature._to_common_denominator]) (signature_common W a b (pow2_ne ha.den) (pow2_ne hb.den))]
  refine gives_pure ?_
  simp only [HasType, HasTypes, IsInstance]
  rw [if_neg (by simp), if_neg (by simp), if_pos trivial]
  exact ⟨_, rfl, _, _, rfl, ⟨_, rfl⟩, _, _, rfl, ⟨_, rfl⟩, _, _, rfl, ⟨_, rfl⟩, rfl⟩

theorem sig_str_gives : GivesTy (.name "str") (callFun program W Signature.dunder_str [sigV s] []) := by
  rw [callFun]; simpa [py, Signature.dunder_str] using gives_str

theorem sig_repr_gives : GivesTy (.name "str") (callFun program W Signature.dunder_repr [sigV s] []) := by
  rw [callFun]; simpa [py, Signature.dunder_repr] using gives_str

theorem callFun_cmp {op : CmpOp} {v w : Val} {c : String} {fs : List (String × Val)} {f : FunDef} {m : M Val} (hv : v = .obj c fs)
    (hop : op ≠ .ne) (hf : program.method c op.dunder = some f) (h : richCmp program W op v w = m) : callFun program W f [v, w] [] = m := by
  subst hv; rw [← h, richCmp_obj _ _ _ hop _ _ _ _ hf]

theorem sig_eq_gives (ha : a.Valid) (hb : b.Valid) : GivesTy (.name "bool") (callFun program W Signature.dunder_eq [sigV a, sigV b] []) := by
  rw [callFun_cmp (op := .eq) (v := sigV _) rfl (by simp) sig_eq (signature_eq W a b (pow2_ne ha.den) (pow2_ne hb.den))]; exact gives_bool
theorem sig_le_gives (ha : a.Valid) (hb : b.Valid) : GivesTy (.name "bool") (callFun program W Signature.dunder_le [sigV a, sigV b] []) := by
  rw [callFun_cmp (op := .le) (v := sigV _) rfl (by simp) sig_le (signature_le W a b (pow2_ne ha.den) (pow2_ne hb.den))]; exact gives_bool
theorem sig_lt_gives (ha : a.Valid) (hb : b.Valid) : GivesTy (.name "bool") (callFun program W Signature.dunder_lt [sigV a, sigV b] []) := by
  rw [callFun_cmp (op := .lt) (v := sigV _) rfl (by simp) sig_lt (signature_lt W a b (pow2_ne ha.den) (pow2_ne hb.den))]; exact gives_bool
theorem sig_ge_gives (ha : a.Valid) (hb : b.Valid) : GivesTy (.name "bool") (callFun program W Signature.dunder_ge [sigV a, sigV b] []) := by
  rw [callFun_cmp (op := .ge) (v := sigV _) rfl (by simp) sig_ge (signature_ge W a b (pow2_ne ha.den) (pow2_ne hb.den))]; exact gives_bool
theorem sig_gt_gives (ha : a.Valid) (hb : b.Valid) : GivesTy (.name "bool") (callFun program W Signature.dunder_gt [sigV a, sigV b] []) := by
  rw [callFun_cmp (op := .gt) (v := sigV _) rfl (by simp) sig_gt (signature_gt W a b (pow2_ne ha.den) (pow2_ne hb.den))]; exact gives_bool

theorem callFun_bin {op : BinOp} {v w : Val} {c : String} {fs : List (String × Val)} {f : FunDef} {m : M Val} (hv : v = .obj c fs)
    (hf : program.method c op.dunder = some f) (h : binary program W op v w = m) : callFun program W f [v, w] [] = m := by
  subst hv; rw [← h, binary_obj _ _ _ _ _ _ _ hf]

theorem sig_add_gives (ha : a.Valid) (hb : b.Valid) :
    GivesTy (.name "Signature") (callFun program W Signature.dunder_add [sigV a, sigV b] []) := by
  rw [callFun_bin (op := .add) (v := sigV _) rfl sig_add (signature_add W a b (pow2_ne ha.den) (pow2_ne hb.den))]
  exact gives_sig fun t ht => new_valid ht

theorem sig_mul_gives : GivesTy (.name "Signature") (callFun program W Signature.dunder_mul [sigV a, sigV b] []) := by
  rw [callFun_bin (op := .mul) (v := sigV _) rfl sig_mul (signature_mul W a b)]
  exact gives_sig fun t ht => new_valid ht

theorem sig_abs_gives : GivesTy (.name "Signature") (callFun program W Signature.dunder_abs [sigV s] []) := by
  have h : callFun program W Signature.dunder_abs [sigV s] [] = liftPy (s.abs.map sigV) := by
    rw [callFun]; simp [py, Signature.dunder_abs, callBuiltin, primAbs, Melodia.Signature.abs]
  rw [h]
  exact gives_sig fun t ht => new_valid ht

theorem sig_new_gives (n d : Int) : GivesTy (.name "Signature") (construct program W "Signature" [.int n, .int d] []) := by
  rw [signature_new]
  exact gives_sig fun t ht => new_valid ht

end

/-! ### `Tone` -/

section
variable {t u : Melodia.Tone}

theorem gives_tone {x : PyM Melodia.Tone} : GivesTy (.name "Tone") (liftPy (x.map toneV)) :=
  gives_liftPy fun t _ => hasTone.mpr ⟨t, rfl⟩
theorem gives_text {x : PyM (List Char)} : GivesTy (.name "str") (liftPy (x.map Val.str)) :=
  gives_liftPy fun t _ => hasStr.mpr ⟨t, rfl⟩

theorem tone_pitch_gives : GivesTy (.name "int") (callFun program W Tone.pitch [toneV t] []) := by
  rw [callFun]; simpa [py, Tone.pitch] using gives_int

theorem tone_octave_gives : GivesTy (.name "int") (callFun program W Tone.octave [toneV t] []) := by
  rw [callFun]; simpa [py, Tone.octave] using gives_int

theorem tone_from_gives (l : List Char) : GivesTy (.name "Tone") (callFun program W Tone.from_notation [.cls "Tone", .str l] []) := by
  have h := tone_from_notation W l
  have h1 : getAttr program W (.cls "Tone") "from_notation" = pure (.meth (.cls "Tone") "from_notation") := by
    rw [getAttr]; simp [py, Tone.from_notation]
  rw [h1, pure_bind, call.eq_def] at h
  have h2 : callFun program W Tone.from_notation [.cls "Tone", .str l] [] = liftPy ((@Melodia.Tone.fromNotation W.digits l).map toneV) := by
    rw [← h]; simp [py, boundMethod, Tone.from_notation]
  rw [h2]
  exact gives_tone

theorem tone_to_gives (d : Bool) : GivesTy (.name "str") (callFun program W Tone.to_notation [toneV t, .bool d] []) := by
  rw [callFun_method (v := toneV _) rfl tone_to (by simp [Tone.to_notation]) (tone_to_notation W t d)]
  exact gives_text

theorem tone_frequency_gives (x : PyFloat) : GivesTy (.name "float") (callFun program W Tone.to_frequency [toneV t, .float x] []) := by
  have h2 : fl (2 : ℚ) = 2 := by decide +kernel
  rw [callFun]
  simp [py, Tone.to_frequency, floatOp, h2]
  cases W.powTwo (fl ((t.pitch - 57 : ℚ) / 12)) with
  | error e => simpa [py] using gives_raise
  | ok y => simpa [py] using gives_pure (hasFloat.mpr ⟨_, rfl⟩)

theorem tone_transposed_gives (k : Int) : GivesTy (.name "Tone") (callFun program W Tone.transposed [toneV t, .int k] []) := by
  rw [callFun]; simpa [py, Tone.transposed] using gives_pure (hasTone.mpr ⟨_, rfl⟩)

theorem tone_str_gives : GivesTy (.name "str") (callFun program W Tone.dunder_str [toneV t] []) := by
  rw [callFun]
  simp [py, Tone.dunder_str, tone_to_notation_default]
  cases t.toNotation false with
  | error e => simpa [py, Except.map] using gives_raise
  | ok y => simpa [py, Except.map] using gives_str

theorem tone_repr_gives : GivesTy (.name "str") (callFun program W Tone.dunder_repr [toneV t] []) := by
  rw [callFun]; simpa [py, Tone.dunder_repr] using gives_str

theorem tone_eq_gives : GivesTy (.name "bool") (callFun program W Tone.dunder_eq [toneV t, toneV u] []) := by
  rw [callFun_cmp (op := .eq) (v := toneV _) rfl (by simp) tone_eq (tone_eq_ok W t u)]; exact gives_bool
theorem tone_le_gives : GivesTy (.name "bool") (callFun program W Tone.dunder_le [toneV t, toneV u] []) := by
  rw [callFun_cmp (op := .le) (v := toneV _) rfl (by simp) tone_le (tone_le_ok W t u)]; exact gives_bool
theorem tone_lt_gives : GivesTy (.name "bool") (callFun program W Tone.dunder_lt [toneV t, toneV u] []) := by
  rw [callFun_cmp (op := .lt) (v := toneV _) rfl (by simp) tone_lt (tone_lt_ok W t u)]; exact gives_bool
theorem tone_ge_gives : GivesTy (.name "bool") (callFun program W Tone.dunder_ge [toneV t, toneV u] []) := by
  rw [callFun_cmp (op := .ge) (v := toneV _) rfl (by simp) tone_ge (tone_ge_ok W t u)]; exact gives_bool
theorem tone_gt_gives : GivesTy (.name "bool") (callFun program W Tone.dunder_gt [toneV t, toneV u] []) := by
  rw [callFun_cmp (op := .gt) (v := toneV _) rfl (by simp) tone_gt (tone_gt_ok W t u)]; exact gives_bool

theorem tone_new_gives (p : Int) : GivesTy (.name "Tone") (construct program W "Tone" [.int p] []) := by
  rw [tone_new]; exact gives_pure (hasTone.mpr ⟨_, rfl⟩)

end

/-! ### `Note` -/

section
variable {n m : Melodia.Note}

theorem gives_note {x : PyM Melodia.Note} (h : ∀ n, x = .ok n → n.Valid) : GivesTy (.name "Note") (liftPy (x.map noteV)) :=
  gives_liftPy fun n hn => hasNote.mpr ⟨n, h n hn, rfl⟩

theorem note_tone_gives : GivesTy (.name "Tone") (callFun program W Note.tone [noteV n] []) := by
  rw [callFun]; simpa [py, Note.tone] using gives_pure (hasTone.mpr ⟨_, rfl⟩)

theorem note_velocity_gives : GivesTy (.name "float") (callFun program W Note.velocity [noteV n] []) := by
  rw [callFun]; simpa [py, Note.velocity] using gives_pure (hasFloat.mpr ⟨_, rfl⟩)

theorem note_duration_gives (hn : n.Valid) : GivesTy (.name "Signature") (callFun program W Note.duration [noteV n] []) := by
  rw [callFun]; simpa [py, Note.duration] using gives_pure (hasSignature.mpr ⟨_, hn.duration, rfl⟩)

theorem note_transposed_gives (hn : n.Valid) (k : Int) :
    GivesTy (.name "Note") (callFun program W Note.transposed [noteV n, .int k] []) := by
  rw [callFun_method (v := noteV _) rfl note_transposed (by simp [Note.transposed]) (note_transposed_ok W n k)]
  exact gives_note fun x hx => @C15_valid W.digits (.tone ⟨n.tone.pitch + k⟩) (.sig n.duration) (.fin n.velocity) _ (fun _ h => by cases h; exact hn.duration) hx

theorem note_with_duration_gives {v : Val} (hv : HasType durationTy v) :
    GivesTy (.name "Note") (callFun program W Note.with_duration [noteV n, v] []) := by
  obtain ⟨a, ha, hs⟩ := duration_arg hv
  rw [callFun_method (v := noteV _) rfl note_with_duration (by simp [Note.with_duration]) (note_with_duration_ok W n ha)]
  exact gives_note fun x hx => @C15_valid W.digits _ a _ _ hs hx

theorem note_with_velocity_gives (hn : n.Valid) (y : PyFloat) :
    GivesTy (.name "Note") (callFun program W Note.with_velocity [noteV n, .float y] []) := by
  rw [callFun_method (v := noteV _) rfl note_with_velocity (by simp [Note.with_velocity]) (note_with_velocity_ok W n y)]
  exact gives_note fun x hx => @C15_valid W.digits _ (.sig n.duration) _ _ (fun _ h => by cases h; exact hn.duration) hx

theorem note_triplet_gives (hn : n.Valid) : GivesTy (.app "Tuple" [.name "Tone", .name "Signature", .name "float"])
    (callFun program W Note._as_triplet [noteV n] []) := by
  rw [callFun_method (v := noteV _) rfl note_triplet (by simp [Note._as_triplet]) (note_triplet_ok W n)]
  refine gives_pure ?_
  rw [HasType, if_neg (by simp), if_neg (by simp), if_pos rfl]
  simp only [HasTypes, hasTone, hasSignature, hasFloat]
  exact ⟨_, rfl, _, _, rfl, ⟨_, rfl⟩, _, _, rfl, ⟨_, hn.duration, rfl⟩, _, _, rfl, ⟨_, rfl⟩, rfl⟩

theorem note_str_gives (hn : n.Valid) : GivesTy (.name "str") (callFun program W Note.dunder_str [noteV n] []) := by
  have hf : format program W ".3f" (.float (.fin n.velocity)) = pure (fixed3 n.velocity) := by
    rw [format]; simp [py, methodOf, formatNum, hn.velLow]
  rw [callFun]
  simp [py, Note.dunder_str, signature_str, tone_str_ok, hf]
  cases n.tone.str with
  | error e => simpa [py, Except.map] using gives_raise
  | ok y => simpa [py, Except.map] using gives_str

theorem note_repr_gives : GivesTy (.name "str") (callFun program W Note.dunder_repr [noteV n] []) := by
  rw [callFun]
  simpa [py, Note.dunder_repr, signature_nominator, signature_denominator, -String.reduceToList] using gives_str

theorem note_eq_gives (hn : n.Valid) (hm : m.Valid) : GivesTy (.name "bool") (callFun program W Note.dunder_eq [noteV n, noteV m] []) := by
  rw [callFun_cmp (op := .eq) (v := noteV _) rfl (by simp) note_eq (note_eq_ok W (pow2_ne hn.duration.den) (pow2_ne hm.duration.den))]
  exact gives_bool
theorem note_le_gives (hn : n.Valid) (hm : m.Valid) : GivesTy (.name "bool") (callFun program W Note.dunder_le [noteV n, noteV m] []) := by
  rw [callFun_cmp (op := .le) (v := noteV _) rfl (by simp) note_le (note_le_ok W (pow2_ne hn.duration.den) (pow2_ne hm.duration.den))]
  exact gives_bool
theorem note_lt_gives (hn : n.Valid) (hm : m.Valid) : GivesTy (.name "bool") (callFun program W Note.dunder_lt [noteV n, noteV m] []) := by
  rw [callFun_cmp (op := .lt) (v := noteV _) rfl (by simp) note_lt (note_lt_ok W (pow2_ne hn.duration.den) (pow2_ne hm.duration.den))]
  exact gives_bool
theorem note_ge_gives (hn : n.Valid) (hm : m.Valid) : GivesTy (.name "bool") (callFun program W Note.dunder_ge [noteV n, noteV m] []) := by
  rw [callFun_cmp (op := .ge) (v := noteV _) rfl (by simp) note_ge (note_ge_ok W (pow2_ne hn.duration.den) (pow2_ne hm.duration.den))]
  exact gives_bool
theorem note_gt_gives (hn : n.Valid) (hm : m.Valid) : GivesTy (.name "bool") (callFun program W Note.dunder_gt [noteV n, noteV m] []) := by
  rw [callFun_cmp (op := .gt) (v := noteV _) rfl (by simp) note_gt (note_gt_ok W (pow2_ne hn.duration.den) (pow2_ne hm.duration.den))]
  exact gives_bool

/-- The arguments `tone`. -/
def toneTy : Ty := .app "Union" [.name "Tone", .name "int", .name "str"]

theorem hasToneArg {v : Val} (h : HasType toneTy v) : ∃ a : ToneArg, IsToneArg a v := by
  rw [toneTy, HasType, if_pos rfl] at h
  simp only [HasSome, hasTone, hasInt, hasStr, or_false] at h
  rcases h with ⟨t, rfl⟩ | ⟨i, rfl⟩ | ⟨s, rfl⟩
  exacts [⟨_, .tone t⟩, ⟨_, .int i⟩, ⟨_, .str s⟩]

theorem note_new_gives {tv dv : Val} (ht : HasType toneTy tv) (hd : HasType durationTy dv) (y : PyFloat) :
    GivesTy (.name "Note") (construct program W "Note" [tv, dv, .float y] []) := by
  obtain ⟨a, ha⟩ := hasToneArg ht
  obtain ⟨d, hd, hs⟩ := duration_arg hd
  rw [note_new W ha hd y]
  exact gives_note fun x hx => @C15_valid W.digits _ d _ _ hs hx

end

end Melodia.Source
