/-
The text of src/melodia/core/tone.py (Verif/Source/ToneModule.lean), run by the semantics of Python, computes what the model
(Verif/Model/Tone.lean) computes.
-/
import Verif.Source.Program
import Verif.Lemmas.PyBasic
import Verif.Lemmas.PyRegex
import Verif.Lemmas.Tone
import Verif.Model.ToneFrequency

set_option autoImplicit false

namespace Melodia

open Python

/-- The object of class `Tone`. -/
def toneV (t : Tone) : Val := .obj "Tone" [("_pitch", .int t.pitch)]

namespace Source

variable (W : World)

/-! ### Names and methods -/

@[py] theorem tone_init : program.method "Tone" "__init__" = some Tone.dunder_init := by rfl
@[py] theorem tone_pitch : program.method "Tone" "pitch" = some Tone.pitch := by rfl
@[py] theorem tone_octave : program.method "Tone" "octave" = some Tone.octave := by rfl
@[py] theorem tone_from : program.method "Tone" "from_notation" = some Tone.from_notation := by rfl
@[py] theorem tone_to : program.method "Tone" "to_notation" = some Tone.to_notation := by rfl
@[py] theorem tone_freq : program.method "Tone" "to_frequency" = some Tone.to_frequency := by rfl
@[py] theorem tone_transposed : program.method "Tone" "transposed" = some Tone.transposed := by rfl
@[py] theorem tone_str : program.method "Tone" "__str__" = some Tone.dunder_str := by rfl
@[py] theorem tone_repr : program.method "Tone" "__repr__" = some Tone.dunder_repr := by rfl
@[py] theorem tone_eq : program.method "Tone" "__eq__" = some Tone.dunder_eq := by rfl
@[py] theorem tone_le : program.method "Tone" "__le__" = some Tone.dunder_le := by rfl
@[py] theorem tone_lt : program.method "Tone" "__lt__" = some Tone.dunder_lt := by rfl
@[py] theorem tone_ge : program.method "Tone" "__ge__" = some Tone.dunder_ge := by rfl
@[py] theorem tone_gt : program.method "Tone" "__gt__" = some Tone.dunder_gt := by rfl
@[py] theorem tone_len : program.method "Tone" "__len__" = .none := by rfl
@[py] theorem tone_iter : program.method "Tone" "__iter__" = .none := by rfl
@[py] theorem tone_class : program.classOf "Tone" = some Tone.classDef := by rfl
@[py] theorem tone_mutable : Tone.classDef.mutable = false := by rfl
theorem tone_module_init : program.init "melodia.core.tone" = toneModule.init := by rfl

@[py] theorem tone_name_re : globalName program W "melodia.core.tone" "re" = pure (.module "re") := by
  rw [globalName]; rfl
@[py] theorem tone_name_cls : globalName program W "melodia.core.tone" "Tone" = pure (.cls "Tone") := by
  rw [globalName]; rfl
@[py] theorem tone_name_err : globalName program W "melodia.core.tone" "ValueError" = pure (.excClass .valueError) := by
  rw [globalName]; rfl
@[py] theorem tone_name_isinstance :
    globalName program W "melodia.core.tone" "isinstance" = pure (.builtin .isinstance) := by rw [globalName]; rfl
@[py] theorem tone_name_int : globalName program W "melodia.core.tone" "int" = pure (.builtin .int) := by
  rw [globalName]; rfl
@[py] theorem tone_name_sum : globalName program W "melodia.core.tone" "sum" = pure (.builtin .sum) := by
  rw [globalName]; rfl

/-! ### The tables of the module -/

/-- `_tone_mapping`. -/
def toneDict : List (Val × Val) :=
  [(.str ['C'], .int 0), (.str ['D'], .int 2), (.str ['E'], .int 4), (.str ['F'], .int 5), (.str ['G'], .int 7),
    (.str ['A'], .int 9), (.str ['B'], .int 11)]

/-- `_reverse_tone_mapping`. -/
def toneDictRev : List (Val × Val) :=
  [(.int 0, .str ['C']), (.int 2, .str ['D']), (.int 4, .str ['E']), (.int 5, .str ['F']), (.int 7, .str ['G']),
    (.int 9, .str ['A']), (.int 11, .str ['B'])]

/-- What importing the module computes. -/
theorem tone_module_run :
    execB program W toneModule.init { mod := "melodia.core.tone", vars := [("__name__", .str "melodia.core.tone".toList)] } { objs := [], draws := 0 } =
    some (.ok (.next { mod := "melodia.core.tone",
                       vars := [("__name__", .str "melodia.core.tone".toList), ("_notation_regex", .regex notationPattern), ("_tone_mapping", .ref 0),
                         ("_reverse_tone_mapping", .ref 1)] })
      { objs := [.dict toneDict false, .dict toneDictRev false], draws := 0 }) := by
  have hp : "(?P<tone>[ABCDEFG])(?P<transposition>[#b]*)(?P<octave>-?\\d+)?".toList = notationPattern := rfl
  generalize notationPattern = pat at hp ⊢
  simp only [toneModule, py]
  simp [py, getAttr, stdName, callBuiltin, primCall, dictSet, keyEq, primCmp, eqCmp, bind_apply, pure_apply, alloc, getIter,
    call, load, objAt, instOf, hasPrimAttr, primMeth, primIter, dictLoop_none, dictLoop_some, itemAt, intCmp, toneDict,
    toneDictRev]
  simp at hp
  subst hp
  rfl

theorem tone_moduleVar (x : String) (v : Val)
    (hv : Dict.get [("__name__", Val.str "melodia.core.tone".toList), ("_notation_regex", .regex notationPattern), ("_tone_mapping", .ref 0),
      ("_reverse_tone_mapping", .ref 1)] x = some v) :
    moduleVar program W "melodia.core.tone" x =
      orStuck (freeze { objs := [.dict toneDict false, .dict toneDictRev false], draws := 0 } 100 v) := by
  ext1 h
  rw [moduleVar, tone_module_init, bind_apply, isolated, tone_module_run]
  simp only [hv]
  rfl

@[py] theorem tone_name_regex :
    globalName program W "melodia.core.tone" "_notation_regex" = pure (.regex notationPattern) := by
  rw [globalName]
  exact tone_moduleVar W "_notation_regex" (.regex notationPattern) rfl
@[py] theorem tone_name_mapping :
    globalName program W "melodia.core.tone" "_tone_mapping" = pure (.constDict toneDict) := by
  rw [globalName]
  exact tone_moduleVar W "_tone_mapping" (.ref 0) rfl
@[py] theorem tone_name_reverse :
    globalName program W "melodia.core.tone" "_reverse_tone_mapping" = pure (.constDict toneDictRev) := by
  rw [globalName]
  exact tone_moduleVar W "_reverse_tone_mapping" (.ref 1) rfl

theorem dictGet_tone (c : Char) : dictGet toneDict (.str [c]) = (toneMapping.get c).map Val.int := by
  simp only [toneDict, dictGet, keyEq, primCmp, asInt, asNum, eqCmp, Option.getD_some, toneMapping, Dict.get,
    List.cons.injEq, and_true, decide_eq_true_eq]
  split_ifs <;> rfl

theorem dictGet_rev (i : Int) :
    dictGet toneDictRev (.int i) = (reverseToneMapping.get i).map (fun c => Val.str [c]) := by
  simp only [toneDictRev, dictGet, keyEq, primCmp, asInt, intCmp, Option.getD_some, reverseToneMapping, toneMapping,
    List.map, Dict.get, decide_eq_true_eq]
  split_ifs <;> rfl

/-! ### Attributes -/

@[py] theorem toneV_pitch (t : Melodia.Tone) : getAttr program W (toneV t) "_pitch" = pure (.int t.pitch) :=
  getAttr_field _ _ _ _ _ _ rfl
@[py] theorem toneV_class (t : Melodia.Tone) : getAttr program W (toneV t) "__class__" = pure (.cls "Tone") :=
  getAttr_class _ _ _ _ rfl
@[py] theorem toneV_to (t : Melodia.Tone) :
    getAttr program W (toneV t) "to_notation" = pure (.meth (toneV t) "to_notation") :=
  getAttr_meth _ _ _ _ _ _ rfl (by simp) tone_to (by simp [Tone.to_notation])
@[py] theorem toneV_transposed (t : Melodia.Tone) :
    getAttr program W (toneV t) "transposed" = pure (.meth (toneV t) "transposed") :=
  getAttr_meth _ _ _ _ _ _ rfl (by simp) tone_transposed (by simp [Tone.transposed])
@[py] theorem toneV_frequency (t : Melodia.Tone) :
    getAttr program W (toneV t) "to_frequency" = pure (.meth (toneV t) "to_frequency") :=
  getAttr_meth _ _ _ _ _ _ rfl (by simp) tone_freq (by simp [Tone.to_frequency])
@[py] theorem readVar_toneV (t : Melodia.Tone) : readVar (toneV t) = pure (toneV t) := rfl

/-- `t.pitch` and `t.octave`. -/
@[py] theorem tone_pitch_ok (t : Melodia.Tone) : getAttr program W (toneV t) "pitch" = pure (.int t.pitch) := by
  rw [toneV, getAttr_prop _ _ _ _ _ _ rfl (by simp) tone_pitch rfl, ← toneV, callFun]
  simp [py, Tone.pitch]

theorem tone_octave_ok (t : Melodia.Tone) : getAttr program W (toneV t) "octave" = pure (.int t.octave) := by
  rw [toneV, getAttr_prop _ _ _ _ _ _ rfl (by simp) tone_octave rfl, ← toneV, callFun]
  simp [py, Tone.octave, Melodia.Tone.octave]

/-! ### Construction -/

/-- `Tone(p)`. -/
@[py] theorem tone_new (p : Int) : construct program W "Tone" [.int p] [] = pure (toneV ⟨p⟩) := by
  rw [construct]
  simp [py, Tone.dunder_init, callBuiltin, isInstance, isInstance1, toneV]

/-- `Tone(s)` for a string. -/
theorem tone_new_str (s : List Char) : construct program W "Tone" [.str s] [] = raise .valueError := by
  rw [construct]
  simp [py, Tone.dunder_init, callBuiltin, isInstance, isInstance1]

/-- `Tone(pitch=p)`. -/
@[py] theorem tone_new_kw (p : Int) : construct program W "Tone" [] [("pitch", .int p)] = pure (toneV ⟨p⟩) := by
  rw [construct]
  simp [py, Tone.dunder_init, callBuiltin, isInstance, isInstance1, toneV]

/-- `t.transposed(k)`. -/
@[py] theorem tone_transposed_ok (t : Melodia.Tone) (k : Int) :
    call program W (.meth (toneV t) "transposed") [.int k] [] = liftPy ((t.transposed k).map toneV) := by
  rw [toneV, call_obj _ _ _ _ _ _ _ _ tone_transposed (by simp [Tone.transposed]), ← toneV, callFun]
  simp [py, Tone.transposed, Melodia.Tone.transposed, Melodia.Tone.new, Except.map]

/-! ### Comparisons -/

section
variable (a b : Melodia.Tone)

theorem tone_eq_ok : richCmp program W .eq (toneV a) (toneV b) = pure (.bool (a.eq b)) := by
  rw [toneV, richCmp_obj _ _ _ (by simp) _ _ _ _ tone_eq, ← toneV, callFun]
  simp [py, Tone.dunder_eq, Melodia.Tone.eq]
theorem tone_ne_ok : richCmp program W .ne (toneV a) (toneV b) = pure (.bool (!a.eq b)) := by
  rw [toneV, richCmp_obj_ne _ _ _ _ _ _ tone_eq, ← toneV, callFun]
  simp [py, Tone.dunder_eq, Melodia.Tone.eq]
theorem tone_lt_ok : richCmp program W .lt (toneV a) (toneV b) = pure (.bool (a.lt b)) := by
  rw [toneV, richCmp_obj _ _ _ (by simp) _ _ _ _ tone_lt, ← toneV, callFun]
  simp [py, Tone.dunder_lt, Melodia.Tone.lt]
theorem tone_le_ok : richCmp program W .le (toneV a) (toneV b) = pure (.bool (a.le b)) := by
  rw [toneV, richCmp_obj _ _ _ (by simp) _ _ _ _ tone_le, ← toneV, callFun]
  simp [py, Tone.dunder_le, Melodia.Tone.le]
theorem tone_gt_ok : richCmp program W .gt (toneV a) (toneV b) = pure (.bool (a.gt b)) := by
  rw [toneV, richCmp_obj _ _ _ (by simp) _ _ _ _ tone_gt, ← toneV, callFun]
  simp [py, Tone.dunder_gt, Melodia.Tone.gt]
theorem tone_ge_ok : richCmp program W .ge (toneV a) (toneV b) = pure (.bool (a.ge b)) := by
  rw [toneV, richCmp_obj _ _ _ (by simp) _ _ _ _ tone_ge, ← toneV, callFun]
  simp [py, Tone.dunder_ge, Melodia.Tone.ge]

end

/-! ### Notation -/

/-- The groups of a match object. -/
def matchVal (m : NotationMatch) : Val := .reMatch ((matchGroups m).map (fun x => (x.1, .str x.2)))

theorem regex_match (s : List Char) :
    call program W (.meth (.regex notationPattern) "match") [.str s] [] =
      pure (match @notationMatch W.digits s with
        | none => .none
        | some m => matchVal m) := by
  rw [call]
  · simp only [py, primMeth, reMatch_notation]
    cases @notationMatch W.digits s <;> rfl
  · simp
  · simp

theorem match_group (m : NotationMatch) (n : List Char) :
    call program W (.meth (matchVal m) "group") [.str n] [] =
      pure ((Dict.get ((matchGroups m).map (fun x => (x.1, Val.str x.2))) (String.ofList n)).getD .none) := by
  rw [call]
  · simp only [py, matchVal, primMeth]
  · simp
  · simp

theorem getAttr_match : getAttr program W (.regex notationPattern) "match" = pure (.meth (.regex notationPattern) "match") := by
  rw [getAttr]
  · simp [py, hasPrimAttr]
  · simp
  · simp

theorem getAttr_group (m : NotationMatch) :
    getAttr program W (matchVal m) "group" = pure (.meth (matchVal m) "group") := by
  rw [getAttr]
  · simp [py, hasPrimAttr, matchVal]
  · simp [matchVal]
  · simp [matchVal]

theorem notation_tone {D : UnicodeDigits} {s : List Char} {m : NotationMatch} (h : @notationMatch D s = some m) :
    ∃ b, toneMapping.get m.tone = some b := by
  unfold notationMatch at h
  split at h
  · cases h
  · rename_i c cs
    split at h
    · rename_i hc
      cases h
      simp only [List.mem_cons, List.not_mem_nil, or_false] at hc
      rcases hc with rfl | rfl | rfl | rfl | rfl | rfl | rfl <;> exact ⟨_, rfl⟩
    · cases h

theorem notation_octave {D : UnicodeDigits} {s : List Char} {m : NotationMatch} (h : @notationMatch D s = some m) :
    ∃ r, m.octave = @matchOctave D r := by
  unfold notationMatch at h
  split at h
  · cases h
  · split at h
    · cases h; exact ⟨_, rfl⟩
    · cases h

/-- `Tone.from_notation(s)`. -/
theorem tone_from_notation (s : List Char) :
    (do let f ← getAttr program W (.cls "Tone") "from_notation"; call program W f [.str s] []) =
      liftPy ((@Melodia.Tone.fromNotation W.digits s).map toneV) := by
  have h1 : getAttr program W (.cls "Tone") "from_notation" = pure (.meth (.cls "Tone") "from_notation") := by
    rw [getAttr]; simp [py]
  rw [h1, pure_bind, call.eq_def]
  simp only [py, Tone.from_notation]
  rw [callFun]
  unfold Melodia.Tone.fromNotation
  simp [py, getAttr_match, regex_match]
  cases hm : @notationMatch W.digits s with
  | none => simp [py, compareOp, Except.map]
  | some m =>
    obtain ⟨b, hb⟩ := notation_tone hm
    have hr : readVar (matchVal m) = pure (matchVal m) := rfl
    have his : compareOp program W .is (matchVal m) .none = pure (.bool false) := by
      rw [compareOp]; simp [matchVal]
    simp [py, hr, his, getAttr_group, match_group, matchGroups, getItem, dictGet_tone, hb]
    have hi : getIter program W (.str m.transposition) = pure (.str m.transposition) := by
      rw [getIter]; rfl
    have hc := compLoop_str program W
      (.cond (.cmp (.name "t") [.eq] [.str "#"]) (.un .pos (.int 1)) (.un .neg (.int 1))) "t" m.transposition
      { mod := "melodia.core.tone",
        vars := [("cls", .cls "Tone"), ("notation", .str s), ("match", matchVal m), ("base_pitch", .int b)] }
      (fun t => .int (if t = '#' then 1 else -1)) (by
        intro c
        by_cases hc : c = '#' <;> simp [py, cmpPrim, cmpKnown, primCmp, eqCmp, primPos, primNeg, hc]) _ 0 rfl
    rw [hi, pure_bind, hc, pure_bind]
    have hs : callBuiltin program W .sum [.constList ((m.transposition.drop 0).map
        (fun t => Val.int (if t = '#' then 1 else -1)))] [] =
        pure (.int (m.transposition.map (fun t => if t = '#' then (1 : Int) else -1)).sum) := by
      rw [callBuiltin]
      simp only [getIter, py, primIter, List.drop_zero]
      have := sumLoop_ints program W (m.transposition.map (fun t => if t = '#' then (1 : Int) else -1)) _ 0 0 rfl
      rw [List.map_map] at this
      simpa [Function.comp_def] using this
    rw [hs, pure_bind]
    obtain ⟨r, ho⟩ := notation_octave hm
    cases hoc : m.octave with
    | none => simp [py, Melodia.Tone.new, Except.map]
    | some o =>
      obtain ⟨h2, h3⟩ := intOfStr_octave W.digits r o (by rw [← ho, hoc])
      have h4 : (octaveText o).isEmpty = false := by simpa using h3
      obtain ⟨neg, ds⟩ := o
      simp only [py, List.map, Dict.get, if_true, Option.getD_some, h4, Bool.not_false, callBuiltin, primCall, toInt, h2,
        Melodia.Tone.new, Except.map]

/-- `t.to_notation(down)`. -/
theorem tone_to_notation (t : Melodia.Tone) (down : Bool) :
    call program W (.meth (toneV t) "to_notation") [.bool down] [] = liftPy ((t.toNotation down).map Val.str) := by
  rw [toneV, call_obj _ _ _ _ _ _ _ _ tone_to (by simp [Tone.to_notation]), ← toneV, callFun]
  simp [py, Tone.to_notation, compareOp, contains, dictHas, getItem, dictGet_rev, Melodia.Tone.toNotation, Except.map]
  have h0 : 0 ≤ pyMod t.pitch 12 := Int.fmod_nonneg_of_pos _ (by norm_num)
  have h1 : pyMod t.pitch 12 < 12 := Int.fmod_lt_of_pos _ (by norm_num)
  generalize pyMod t.pitch 12 = k at h0 h1 ⊢
  interval_cases k <;> cases down
  all_goals simp [py, reverseToneMapping, toneMapping, Dict.get]

/-- `t.to_notation()`. -/
theorem tone_to_notation_default (t : Melodia.Tone) :
    call program W (.meth (toneV t) "to_notation") [] [] = liftPy ((t.toNotation false).map Val.str) := by
  rw [← tone_to_notation]
  rw [toneV, call_obj _ _ _ _ _ _ _ _ tone_to (by simp [Tone.to_notation]),
    call_obj _ _ _ _ _ _ _ _ tone_to (by simp [Tone.to_notation]), ← toneV]
  apply callFun_congr
  simp [py, Tone.to_notation]

/-! ### Text and frequency -/

/-- `str(t)`. -/
theorem tone_str_ok (t : Melodia.Tone) : callBuiltin program W .str [toneV t] [] = liftPy (t.str.map Val.str) := by
  rw [callBuiltin, format]
  simp only [py, toneV]
  rw [← toneV, callFun]
  simp [py, Tone.dunder_str, tone_to_notation_default, Melodia.Tone.str]
  cases t.toNotation false <;> simp [py, Except.map]

/-- `repr(t)`. -/
theorem tone_repr_ok (t : Melodia.Tone) : callBuiltin program W .repr [toneV t] [] = pure (.str t.repr) := by
  rw [callBuiltin]
  simp only [py, toneV]
  rw [← toneV, callFun]
  simp only [py, Tone.dunder_repr, Bool.false_eq_true, ↓reduceIte]
  have : t.repr = "Tone(pitch=".toList ++ intStr t.pitch ++ ")".toList := rfl
  have h2 : "Tone(pitch=".toList = "Tone".toList ++ "(pitch=".toList := by decide
  rw [this, h2]
  simp only [List.append_assoc, List.append_nil]

/-- `t.to_frequency(base)`. -/
theorem tone_to_frequency (t : Melodia.Tone) (base : ℚ) (q : ℚ)
    (hq : W.powTwo (fl (((t.pitch - 57 : ℤ) : ℚ) / 12)) = .ok (.fin q)) :
    call program W (.meth (toneV t) "to_frequency") [.float (.fin base)] [] = pure (.float (.fin (fl (base * q)))) := by
  rw [toneV, call_obj _ _ _ _ _ _ _ _ tone_freq (by simp [Tone.to_frequency]), ← toneV, callFun]
  have h2 : fl (2 : ℚ) = 2 := by decide +kernel
  have hq' := hq
  push_cast at hq'
  simp [py, Tone.to_frequency, floatOp, h2, hq', floatMul]

/-- `t.to_frequency()`. -/
theorem tone_to_frequency_default (t : Melodia.Tone) (q : ℚ)
    (hq : W.powTwo (fl (((t.pitch - 57 : ℤ) : ℚ) / 12)) = .ok (.fin q)) :
    call program W (.meth (toneV t) "to_frequency") [] [] = pure (.float (.fin (fl (440 * q)))) := by
  rw [toneV, call_obj _ _ _ _ _ _ _ _ tone_freq (by simp [Tone.to_frequency]), ← toneV, callFun]
  have h2 : fl (2 : ℚ) = 2 := by decide +kernel
  have hq' := hq
  push_cast at hq'
  simp [py, Tone.to_frequency, floatOp, h2, hq', floatMul]

end Source

end Melodia
