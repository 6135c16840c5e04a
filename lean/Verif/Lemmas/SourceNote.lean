/-
note.py: executing the text agrees with the model (Verif/Model/Note.lean).
-/
import Verif.Lemmas.SourceSignature
import Verif.Lemmas.SourceTone
import Verif.Lemmas.Note

set_option autoImplicit false

namespace Melodia

open Melodia.Python

/-- A `Note` object. -/
def noteV (n : Note) : Val :=
  .obj "Note" [("_tone", toneV n.tone), ("_duration", sigV n.duration), ("_velocity", .float (.fin n.velocity))]

/-- The arguments `tone` of `Note`. -/
inductive IsToneArg : ToneArg → Val → Prop
  | tone (t : Tone) : IsToneArg (.tone t) (toneV t)
  | int (i : Int) : IsToneArg (.int i) (.int i)
  | str (s : List Char) : IsToneArg (.str s) (.str s)
  | none : IsToneArg .other .none
  | float (x : PyFloat) : IsToneArg .other (.float x)
  | tuple (l : List Val) : IsToneArg .other (.tuple l)
  | sig (s : Signature) : IsToneArg .other (sigV s)

/-- The arguments `duration` of `Note` (and `signature` of `Track`). -/
inductive IsSigArg : SigArg → Val → Prop
  | sig (s : Signature) : IsSigArg (.sig s) (sigV s)
  | tuple (l : List Int) : IsSigArg (.ints l) (.tuple (l.map .int))
  | none : IsSigArg .other .none
  | int (i : Int) : IsSigArg .other (.int i)
  | float (x : PyFloat) : IsSigArg .other (.float x)
  | tone (t : Tone) : IsSigArg .other (toneV t)

namespace Source

variable (W : World)

/-! ### Names and methods -/

@[py] theorem note_init : program.method "Note" "__init__" = some Note.dunder_init := by rfl
@[py] theorem note_tone : program.method "Note" "tone" = some Note.tone := by rfl
@[py] theorem note_velocity : program.method "Note" "velocity" = some Note.velocity := by rfl
@[py] theorem note_duration : program.method "Note" "duration" = some Note.duration := by rfl
@[py] theorem note_transposed : program.method "Note" "transposed" = some Note.transposed := by rfl
@[py] theorem note_with_duration : program.method "Note" "with_duration" = some Note.with_duration := by rfl
@[py] theorem note_with_velocity : program.method "Note" "with_velocity" = some Note.with_velocity := by rfl
@[py] theorem note_triplet : program.method "Note" "_as_triplet" = some Note._as_triplet := by rfl
@[py] theorem note_str : program.method "Note" "__str__" = some Note.dunder_str := by rfl
@[py] theorem note_repr : program.method "Note" "__repr__" = some Note.dunder_repr := by rfl
@[py] theorem note_eq : program.method "Note" "__eq__" = some Note.dunder_eq := by rfl
@[py] theorem note_le : program.method "Note" "__le__" = some Note.dunder_le := by rfl
@[py] theorem note_lt : program.method "Note" "__lt__" = some Note.dunder_lt := by rfl
@[py] theorem note_ge : program.method "Note" "__ge__" = some Note.dunder_ge := by rfl
@[py] theorem note_gt : program.method "Note" "__gt__" = some Note.dunder_gt := by rfl
@[py] theorem note_len : program.method "Note" "__len__" = .none := by rfl
@[py] theorem note_iter : program.method "Note" "__iter__" = .none := by rfl
@[py] theorem note_class : program.classOf "Note" = some Note.classDef := by rfl
@[py] theorem note_mutable : Note.classDef.mutable = false := by rfl
@[py] theorem sub_tone_tone : program.isSubclass 3 "Tone" "Tone" = true := by rfl
@[py] theorem sub_sig_tone : program.isSubclass 3 "Signature" "Tone" = false := by rfl
@[py] theorem sub_sig_sig : program.isSubclass 3 "Signature" "Signature" = true := by rfl
@[py] theorem sub_tone_sig : program.isSubclass 3 "Tone" "Signature" = false := by rfl

@[py] theorem note_name_tone : globalName program W "melodia.core.note" "Tone" = pure (.cls "Tone") := by
  rw [globalName]; rfl
@[py] theorem note_name_sig : globalName program W "melodia.core.note" "Signature" = pure (.cls "Signature") := by
  rw [globalName]; rfl
@[py] theorem note_name_note : globalName program W "melodia.core.note" "Note" = pure (.cls "Note") := by
  rw [globalName]; rfl
@[py] theorem note_name_isinstance :
    globalName program W "melodia.core.note" "isinstance" = pure (.builtin .isinstance) := by rw [globalName]; rfl
@[py] theorem note_name_iterable :
    globalName program W "melodia.core.note" "Iterable" = pure (.builtin .iterable) := by rw [globalName]; rfl
@[py] theorem note_name_int : globalName program W "melodia.core.note" "int" = pure (.builtin .int) := by
  rw [globalName]; rfl
@[py] theorem note_name_str : globalName program W "melodia.core.note" "str" = pure (.builtin .str) := by
  rw [globalName]; rfl
@[py] theorem note_name_value : globalName program W "melodia.core.note" "ValueError" = pure (.excClass .valueError) := by
  rw [globalName]; rfl
@[py] theorem note_name_type : globalName program W "melodia.core.note" "TypeError" = pure (.excClass .typeError) := by
  rw [globalName]; rfl

/-! ### Attributes -/

@[py] theorem noteV_tone (n : Melodia.Note) : getAttr program W (noteV n) "_tone" = pure (toneV n.tone) :=
  getAttr_field _ _ _ _ _ _ rfl
@[py] theorem noteV_duration (n : Melodia.Note) : getAttr program W (noteV n) "_duration" = pure (sigV n.duration) :=
  getAttr_field _ _ _ _ _ _ rfl
@[py] theorem noteV_velocity (n : Melodia.Note) :
    getAttr program W (noteV n) "_velocity" = pure (.float (.fin n.velocity)) :=
  getAttr_field _ _ _ _ _ _ rfl
@[py] theorem noteV_class (n : Melodia.Note) : getAttr program W (noteV n) "__class__" = pure (.cls "Note") :=
  getAttr_class _ _ _ _ rfl
@[py] theorem noteV_triplet (n : Melodia.Note) :
    getAttr program W (noteV n) "_as_triplet" = pure (.meth (noteV n) "_as_triplet") :=
  getAttr_meth _ _ _ _ _ _ rfl (by simp) note_triplet (by simp [Note._as_triplet])
@[py] theorem noteV_transposed (n : Melodia.Note) :
    getAttr program W (noteV n) "transposed" = pure (.meth (noteV n) "transposed") :=
  getAttr_meth _ _ _ _ _ _ rfl (by simp) note_transposed (by simp [Note.transposed])
@[py] theorem noteV_with_duration (n : Melodia.Note) :
    getAttr program W (noteV n) "with_duration" = pure (.meth (noteV n) "with_duration") :=
  getAttr_meth _ _ _ _ _ _ rfl (by simp) note_with_duration (by simp [Note.with_duration])
@[py] theorem noteV_with_velocity (n : Melodia.Note) :
    getAttr program W (noteV n) "with_velocity" = pure (.meth (noteV n) "with_velocity") :=
  getAttr_meth _ _ _ _ _ _ rfl (by simp) note_with_velocity (by simp [Note.with_velocity])
@[py] theorem readVar_noteV (n : Melodia.Note) : readVar (noteV n) = pure (noteV n) := rfl

@[py] theorem note_tone_ok (n : Melodia.Note) : getAttr program W (noteV n) "tone" = pure (toneV n.tone) := by
  rw [noteV, getAttr_prop _ _ _ _ _ _ rfl (by simp) note_tone rfl, ← noteV, callFun]
  simp [py, Note.tone]
@[py] theorem note_duration_ok (n : Melodia.Note) : getAttr program W (noteV n) "duration" = pure (sigV n.duration) := by
  rw [noteV, getAttr_prop _ _ _ _ _ _ rfl (by simp) note_duration rfl, ← noteV, callFun]
  simp [py, Note.duration]
@[py] theorem note_velocity_ok (n : Melodia.Note) :
    getAttr program W (noteV n) "velocity" = pure (.float (.fin n.velocity)) := by
  rw [noteV, getAttr_prop _ _ _ _ _ _ rfl (by simp) note_velocity rfl, ← noteV, callFun]
  simp [py, Note.velocity]

/-! ### Construction -/

@[py] theorem toneCls_from :
    getAttr program W (.cls "Tone") "from_notation" = pure (.meth (.cls "Tone") "from_notation") := by
  rw [getAttr]; simp [py]
@[py] theorem tone_from_ok (s : List Char) : call program W (.meth (.cls "Tone") "from_notation") [.str s] [] =
    liftPy ((@Melodia.Tone.fromNotation W.digits s).map toneV) := by
  rw [← tone_from_notation, toneCls_from, pure_bind]
@[py] theorem cmpPrim_float_le (x y : PyFloat) : cmpPrim .le (.float x) (.float y) = pure (.bool (x.le y)) := rfl
@[py] theorem raise_map {α β : Type} (f : α → β) (e : PyErr) : f <$> (raise e : M α) = raise e := rfl

/-- The elements of a tuple. -/
theorem collect_tuple (P : Program) (l : List Val) :
    ∀ (n i : Nat), l.length - i = n → collect P W (.tuple l) i = pure (l.drop i) := by
  intro n
  induction n with
  | zero =>
    intro i hi
    ext1 h
    have : l.length ≤ i := by omega
    rw [collect_none _ _ _ _ _ (by simp [itemAt, this]), List.drop_eq_nil_of_le this]
    rfl
  | succ n ih =>
    intro i hi
    ext1 h
    have hlt : i < l.length := by omega
    rw [collect_some _ _ _ _ _ l[i] (by simp [itemAt, hlt]), ih (i + 1) (by omega), List.drop_eq_getElem_cons hlt]
    rfl

@[py] theorem collect_tuple_all (P : Program) (l : List Val) : collect P W (.tuple l) 0 = pure l := by
  rw [collect_tuple W P l _ 0 rfl, List.drop_zero]

@[py] theorem getIter_tuple (P : Program) (l : List Val) : getIter P W (.tuple l) = pure (.tuple l) := by
  rw [getIter]; rfl

/-- `Signature(*l)` for a tuple of ints. -/
theorem signature_iter (l : List Int) :
    construct program W "Signature" (l.map .int) [] = liftPy ((Melodia.Signature.ofIter l).map sigV) := by
  rcases l with _ | ⟨n, _ | ⟨d, _ | ⟨e, l⟩⟩⟩
  · rw [construct]; simp [py, Signature.dunder_init, Melodia.Signature.ofIter, Except.map]
  · rw [construct]; simp [py, Signature.dunder_init, Melodia.Signature.ofIter, Except.map]
  · exact signature_new W n d
  · rw [construct]; simp [py, Signature.dunder_init, Melodia.Signature.ofIter, Except.map]

/-- The variables of `Note.__init__`. -/
def noteEnv (fs : List (String × Val)) (tv dv xv : Val) : Env :=
  { mod := "melodia.core.note", vars := [("self", .obj "Note" fs), ("tone", tv), ("duration", dv), ("velocity", xv)] }

/-- What the first statement of `Note.__init__` does. -/
theorem note_init_tone {ta : ToneArg} {tv : Val} (ht : IsToneArg ta tv) (dv x : Val) :
    execB program W (Note.dunder_init.body.take 1) (noteEnv [] tv dv x) = (do
      let t ← liftPy (@ToneArg.coerceNote W.digits ta)
      pure (.next (noteEnv [("_tone", toneV t)] tv dv x))) := by
  cases ht with
  | str s =>
    simp [py, Note.dunder_init, callBuiltin, isInstance, isInstance1, ToneArg.coerceNote, noteEnv]
    cases @Melodia.Tone.fromNotation W.digits s <;> rfl
  | _ =>
    simp [py, Note.dunder_init, callBuiltin, isInstance, isInstance1, toneV, sigV, ToneArg.coerceNote, Melodia.Tone.new,
      noteEnv]

/-- What the second statement of `Note.__init__` does. -/
theorem note_init_duration {da : SigArg} {dv : Val} (hd : IsSigArg da dv) (tv x : Val) (fs : List (String × Val)) :
    execB program W ((Note.dunder_init.body.drop 1).take 1) (noteEnv fs tv dv x) = (do
      let d ← liftPy da.coerce
      pure (.next (noteEnv (Dict.set fs "_duration" (sigV d)) tv dv x))) := by
  cases hd with
  | tuple l =>
    simp [py, Note.dunder_init, callBuiltin, isInstance, isInstance1, SigArg.coerce, signature_iter, noteEnv, primIterable]
    cases Melodia.Signature.ofIter l <;> rfl
  | _ => simp [py, Note.dunder_init, callBuiltin, isInstance, isInstance1, toneV, sigV, SigArg.coerce, noteEnv, primIterable]

/-- What the rest of `Note.__init__` does. -/
theorem note_init_velocity (x : PyFloat) (tv dv : Val) (fs : List (String × Val)) :
    execB program W (Note.dunder_init.body.drop 2) (noteEnv fs tv dv (.float x)) =
      if velocityInRange x then pure (.next (noteEnv (Dict.set fs "_velocity" (.float x)) tv dv (.float x)))
      else raise .valueError := by
  simp [py, Note.dunder_init, velocityInRange, noteEnv]
  cases (PyFloat.fin 0).le x <;> cases x.le (.fin 1) <;> simp [py]

/-- Blocks one after the other. -/
theorem execB_append (P : Program) (l m : List Stmt) (env : Env) :
    execB P W (l ++ m) env = (do
      match ← execB P W l env with
      | .next env => execB P W m env
      | r => pure r) := by
  induction l generalizing env with
  | nil => rw [List.nil_append, execB, pure_bind]
  | cons s l ih =>
    rw [List.cons_append, execB, execB, bind_assoc]
    congr 1
    funext r
    cases r with
    | next e => exact ih e
    | _ => rfl

/-- The body of `Note.__init__`. -/
theorem note_init_body {ta : ToneArg} {da : SigArg} {tv dv : Val} (ht : IsToneArg ta tv) (hd : IsSigArg da dv)
    (x : PyFloat) :
    execB program W Note.dunder_init.body (noteEnv [] tv dv (.float x)) = (do
      let n ← liftPy (@Melodia.Note.new W.digits ta da x)
      pure (.next (noteEnv [("_tone", toneV n.tone), ("_duration", sigV n.duration), ("_velocity", .float (.fin n.velocity))]
        tv dv (.float x)))) := by
  have hb : Note.dunder_init.body = Note.dunder_init.body.take 1 ++ ((Note.dunder_init.body.drop 1).take 1 ++
      Note.dunder_init.body.drop 2) := by rfl
  rw [hb, execB_append, note_init_tone W ht]
  unfold Melodia.Note.new
  cases @ToneArg.coerceNote W.digits ta with
  | error e => rfl
  | ok t =>
    simp only [py]
    rw [execB_append, note_init_duration W hd]
    cases da.coerce with
    | error e => rfl
    | ok d =>
      simp only [py]
      rw [note_init_velocity]
      cases x with
      | fin q => by_cases h : velocityInRange (.fin q) <;> simp [py, h, Dict.set, bind, Except.bind] <;> rfl
      | _ => rfl

/-- Calls of `Note`, however the arguments are passed. -/
theorem note_construct {ta : ToneArg} {da : SigArg} {tv dv : Val} (ht : IsToneArg ta tv) (hd : IsSigArg da dv) (x : PyFloat)
    (args : List Val) (kws : List (String × Val))
    (hp : bindParams program W Note.dunder_init.params (.obj "Note" [] :: args) kws
      { mod := "melodia.core.note", vars := [] } =
      pure [("self", .obj "Note" []), ("tone", tv), ("duration", dv), ("velocity", .float x)]) :
    construct program W "Note" args kws = liftPy ((@Melodia.Note.new W.digits ta da x).map noteV) := by
  have he : ({ mod := "melodia.core.note", vars := [("self", .obj "Note" []), ("tone", tv), ("duration", dv),
    ("velocity", .float x)] } : Env) = noteEnv [] tv dv (.float x) := rfl
  rw [construct]
  simp only [py]
  rw [show Note.dunder_init.mod = "melodia.core.note" from rfl, hp, pure_bind, he, note_init_body W ht hd]
  cases @Melodia.Note.new W.digits ta da x <;> simp [py, Except.map, noteEnv, noteV]

/-- `Note(tone, duration, velocity)`. -/
theorem note_new {ta : ToneArg} {da : SigArg} {tv dv : Val} (ht : IsToneArg ta tv) (hd : IsSigArg da dv) (x : PyFloat) :
    construct program W "Note" [tv, dv, .float x] [] = liftPy ((@Melodia.Note.new W.digits ta da x).map noteV) :=
  note_construct W ht hd x _ _ (by simp [py, Note.dunder_init])

/-- `Note(tone=..., duration=..., velocity=...)`. -/
theorem note_new_kw {ta : ToneArg} {da : SigArg} {tv dv : Val} (ht : IsToneArg ta tv) (hd : IsSigArg da dv) (x : PyFloat) :
    construct program W "Note" [] [("tone", tv), ("duration", dv), ("velocity", .float x)] =
      liftPy ((@Melodia.Note.new W.digits ta da x).map noteV) :=
  note_construct W ht hd x _ _ (by simp [py, Note.dunder_init])

/-- `Note(tone, duration)`. -/
theorem note_new_two {ta : ToneArg} {da : SigArg} {tv dv : Val} (ht : IsToneArg ta tv) (hd : IsSigArg da dv) :
    construct program W "Note" [tv, dv] [] = liftPy ((@Melodia.Note.new W.digits ta da).map noteV) :=
  note_construct W ht hd _ _ _ (by simp [py, Note.dunder_init])

/-- `Note(tone)`. -/
theorem note_new_one {ta : ToneArg} {tv : Val} (ht : IsToneArg ta tv) :
    construct program W "Note" [tv] [] = liftPy ((@Melodia.Note.new W.digits ta).map noteV) := by
  have h : Melodia.Signature.new 1 4 = .ok ⟨1, 4⟩ := by decide
  exact note_construct W ht (.sig ⟨1, 4⟩) _ _ _ (by simp [py, Note.dunder_init, h, Except.map])

/-! ### Changed notes -/

/-- `n.transposed(k)`. -/
theorem note_transposed_ok (n : Melodia.Note) (k : Int) :
    call program W (.meth (noteV n) "transposed") [.int k] [] =
      liftPy ((@Melodia.Note.transposed W.digits n k).map noteV) := by
  rw [noteV, call_obj _ _ _ _ _ _ _ _ note_transposed (by simp [Note.transposed]), ← noteV, callFun]
  simp [py, Note.transposed, Melodia.Note.transposed, Melodia.Tone.transposed, Melodia.Tone.new, Except.map,
    note_new_kw W (.tone _) (.sig _)]
  rfl

/-- `n.with_duration(d)`. -/
theorem note_with_duration_ok (n : Melodia.Note) {da : SigArg} {dv : Val} (hd : IsSigArg da dv) :
    call program W (.meth (noteV n) "with_duration") [dv] [] =
      liftPy ((@Melodia.Note.withDuration W.digits n da).map noteV) := by
  have hr : readVar dv = pure dv := by cases hd <;> rfl
  rw [noteV, call_obj _ _ _ _ _ _ _ _ note_with_duration (by simp [Note.with_duration]), ← noteV, callFun]
  simp [py, Note.with_duration, Melodia.Note.withDuration, hr, note_new_kw W (.tone _) hd]

/-- `n.with_velocity(x)`. -/
theorem note_with_velocity_ok (n : Melodia.Note) (x : PyFloat) :
    call program W (.meth (noteV n) "with_velocity") [.float x] [] =
      liftPy ((@Melodia.Note.withVelocity W.digits n x).map noteV) := by
  rw [noteV, call_obj _ _ _ _ _ _ _ _ note_with_velocity (by simp [Note.with_velocity]), ← noteV, callFun]
  simp [py, Note.with_velocity, Melodia.Note.withVelocity, note_new_kw W (.tone _) (.sig _)]

/-! ### Comparisons -/

/-- `n._as_triplet()`. -/
@[py] theorem note_triplet_ok (n : Melodia.Note) : call program W (.meth (noteV n) "_as_triplet") [] [] =
    pure (.tuple [toneV n.tone, sigV n.duration, .float (.fin n.velocity)]) := by
  rw [noteV, call_obj _ _ _ _ _ _ _ _ note_triplet (by simp [Note._as_triplet]), ← noteV, callFun]
  simp [py, Note._as_triplet]

/-- Comparison of triples other than `==` and `!=`. -/
theorem tupleCmp_three (P : Program) (op : CmpOp) (h1 : op ≠ .eq) (h2 : op ≠ .ne) {x y z x' y' z' : Val}
    {ex ey ez rx ry rz d : Bool}
    (hx : richCmp P W .eq x x' = pure (.bool ex)) (hy : richCmp P W .eq y y' = pure (.bool ey))
    (hz : richCmp P W .eq z z' = pure (.bool ez)) (kx : richCmp P W op x x' = pure (.bool rx))
    (ky : richCmp P W op y y' = pure (.bool ry)) (kz : richCmp P W op z z' = pure (.bool rz))
    (hd : intCmp op 0 0 = some d) :
    tupleCmp P W op [x, y, z] [x', y', z'] =
      pure (if !ex then rx else if !ey then ry else if !ez then rz else d) := by
  rw [tupleCmp.eq_def]
  cases ex
  · cases op <;> simp_all [py]
  · simp only [py, hx]
    rw [tupleCmp.eq_def]
    cases ey
    · cases op <;> simp_all [py]
    · simp only [py, hy]
      rw [tupleCmp.eq_def]
      cases ez
      · cases op <;> simp_all [py]
      · simp only [py, hz]
        rw [tupleCmp.eq_def, hd]
        simp [py]

/-- `==` of finite floats. -/
theorem floatEq_fin (x y : ℚ) : floatEq (.fin x) (.fin y) = decide (x = y) := by
  simp only [floatEq, PyFloat.le]
  rw [Bool.eq_iff_iff]
  simp [le_antisymm_iff]

section
variable {a b : Melodia.Note} (ha : a.duration.denominator ≠ 0) (hb : b.duration.denominator ≠ 0)
include ha hb

theorem note_eq_triplet : tupleCmp program W .eq [toneV a.tone, sigV a.duration, .float (.fin a.velocity)]
    [toneV b.tone, sigV b.duration, .float (.fin b.velocity)] = pure (a.eq b) := by
  have h3 : cmpPrim .eq (.float (.fin a.velocity)) (.float (.fin b.velocity)) =
    pure (.bool (decide (a.velocity = b.velocity))) := by rw [← floatEq_fin]; rfl
  rw [tupleCmp, tone_eq_ok, Melodia.Note.eq]
  simp only [py]
  cases a.tone.eq b.tone
  · simp [py]
  · simp only [py]
    rw [tupleCmp, signature_eq W _ _ ha hb]
    simp only [py]
    cases a.duration.eq b.duration
    · simp [py]
    · simp only [py]
      rw [tupleCmp, richCmp_float_float, h3]
      simp only [py]
      cases decide (a.velocity = b.velocity)
      · simp [py]
      · simp only [py]
        rw [tupleCmp]
        simp [py, intCmp]

theorem note_eq_ok : richCmp program W .eq (noteV a) (noteV b) = pure (.bool (a.eq b)) := by
  rw [noteV, richCmp_obj _ _ _ (by simp) _ _ _ _ note_eq, ← noteV, callFun]
  simp [py, Note.dunder_eq, note_eq_triplet W ha hb]

theorem note_ne_ok : richCmp program W .ne (noteV a) (noteV b) = pure (.bool (!a.eq b)) := by
  rw [noteV, richCmp_obj_ne _ _ _ _ _ _ note_eq, ← noteV, callFun]
  simp [py, Note.dunder_eq, note_eq_triplet W ha hb]

theorem note_le_ok : richCmp program W .le (noteV a) (noteV b) = pure (.bool (a.le b)) := by
  have h3 : richCmp program W .eq (.float (.fin a.velocity)) (.float (.fin b.velocity)) =
    pure (.bool (decide (a.velocity = b.velocity))) := by rw [← floatEq_fin, richCmp_float_float]; rfl
  have h4 : richCmp program W .le (.float (.fin a.velocity)) (.float (.fin b.velocity)) =
    pure (.bool (decide (a.velocity ≤ b.velocity))) := by rw [richCmp_float_float]; rfl
  rw [noteV, richCmp_obj _ _ _ (by simp) _ _ _ _ note_le, ← noteV, callFun]
  have key := tupleCmp_three W _ .le (by simp) (by simp) (tone_eq_ok W a.tone b.tone) (signature_eq W _ _ ha hb) h3 (tone_le_ok W a.tone b.tone)
    (signature_le W _ _ ha hb) h4 rfl
  simp only [Bool.not_eq_eq_eq_not] at key
  simp [py, Note.dunder_le, key, Melodia.Note.le, Melodia.Note.tripletCmp]

theorem note_lt_ok : richCmp program W .lt (noteV a) (noteV b) = pure (.bool (a.lt b)) := by
  have h3 : richCmp program W .eq (.float (.fin a.velocity)) (.float (.fin b.velocity)) =
    pure (.bool (decide (a.velocity = b.velocity))) := by rw [← floatEq_fin, richCmp_float_float]; rfl
  have h4 : richCmp program W .lt (.float (.fin a.velocity)) (.float (.fin b.velocity)) =
    pure (.bool (decide (a.velocity < b.velocity))) := by rw [richCmp_float_float]; rfl
  rw [noteV, richCmp_obj _ _ _ (by simp) _ _ _ _ note_lt, ← noteV, callFun]
  have key := tupleCmp_three W _ .lt (by simp) (by simp) (tone_eq_ok W a.tone b.tone) (signature_eq W _ _ ha hb) h3 (tone_lt_ok W a.tone b.tone)
    (signature_lt W _ _ ha hb) h4 rfl
  simp only [Bool.not_eq_eq_eq_not] at key
  simp [py, Note.dunder_lt, key, Melodia.Note.lt, Melodia.Note.tripletCmp]

theorem note_ge_ok : richCmp program W .ge (noteV a) (noteV b) = pure (.bool (a.ge b)) := by
  have h3 : richCmp program W .eq (.float (.fin a.velocity)) (.float (.fin b.velocity)) =
    pure (.bool (decide (a.velocity = b.velocity))) := by rw [← floatEq_fin, richCmp_float_float]; rfl
  have h4 : richCmp program W .ge (.float (.fin a.velocity)) (.float (.fin b.velocity)) =
    pure (.bool (decide (a.velocity ≥ b.velocity))) := by rw [richCmp_float_float]; rfl
  rw [noteV, richCmp_obj _ _ _ (by simp) _ _ _ _ note_ge, ← noteV, callFun]
  have key := tupleCmp_three W _ .ge (by simp) (by simp) (tone_eq_ok W a.tone b.tone) (signature_eq W _ _ ha hb) h3 (tone_ge_ok W a.tone b.tone)
    (signature_ge W _ _ ha hb) h4 rfl
  simp only [Bool.not_eq_eq_eq_not] at key
  simp [py, Note.dunder_ge, key, Melodia.Note.ge, Melodia.Note.tripletCmp]

theorem note_gt_ok : richCmp program W .gt (noteV a) (noteV b) = pure (.bool (a.gt b)) := by
  have h3 : richCmp program W .eq (.float (.fin a.velocity)) (.float (.fin b.velocity)) =
    pure (.bool (decide (a.velocity = b.velocity))) := by rw [← floatEq_fin, richCmp_float_float]; rfl
  have h4 : richCmp program W .gt (.float (.fin a.velocity)) (.float (.fin b.velocity)) =
    pure (.bool (decide (a.velocity > b.velocity))) := by rw [richCmp_float_float]; rfl
  rw [noteV, richCmp_obj _ _ _ (by simp) _ _ _ _ note_gt, ← noteV, callFun]
  have key := tupleCmp_three W _ .gt (by simp) (by simp) (tone_eq_ok W a.tone b.tone) (signature_eq W _ _ ha hb) h3 (tone_gt_ok W a.tone b.tone)
    (signature_gt W _ _ ha hb) h4 rfl
  simp only [Bool.not_eq_eq_eq_not] at key
  simp [py, Note.dunder_gt, key, Melodia.Note.gt, Melodia.Note.tripletCmp]

end

/-! ### Texts -/

/-- `str(n)`. -/
theorem note_str_ok (n : Melodia.Note) (hv : 0 ≤ n.velocity) :
    callBuiltin program W .str [noteV n] [] = liftPy (n.str.map Val.str) := by
  have hf : format program W ".3f" (.float (.fin n.velocity)) = pure (fixed3 n.velocity) := by
    rw [format]; simp [py, methodOf, formatNum, hv]
  rw [callBuiltin, format]
  simp only [py, noteV]
  rw [← noteV, callFun]
  simp [py, Note.dunder_str, signature_str, tone_str_ok, Melodia.Note.str, hf]
  cases n.tone.str <;> simp [py, Except.map] <;> rfl

/-- `repr(n)`. -/
theorem note_repr_ok (n : Melodia.Note) :
    callBuiltin program W .repr [noteV n] [] = pure (.str (n.repr W.floatText)) := by
  rw [callBuiltin]
  simp only [py, noteV]
  rw [← noteV, callFun]
  simp [py, Note.dunder_repr, signature_nominator, signature_denominator, -String.reduceToList]
  have h1 : n.repr W.floatText = "Note(tone=".toList ++ intStr n.tone.pitch ++ ", duration=".toList ++
    n.duration.tupleText ++ ", velocity=".toList ++ W.floatText.text n.velocity ++ ") ".toList := rfl
  have h2 : "Note(tone=".toList = "Note".toList ++ "(tone=".toList := by decide
  rw [h1, h2, Melodia.Signature.tupleText]
  simp only [List.append_assoc]

end Source

end Melodia
