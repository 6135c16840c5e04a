/-
The text of chord.py computes what the model of Verif/Model/Chord.lean computes.
-/
import Verif.Lemmas.SourceNote
import Verif.Model.Chord

set_option autoImplicit false

namespace Melodia

open Melodia.Python Melodia.Source

/-- The Python values that are passed as `base`. -/
inductive IsBaseArg : BaseArg → Val → Prop
  | int (i : Int) : IsBaseArg (.int i) (.int i)
  | str (s : List Char) : IsBaseArg (.str s) (.str s)
  | tone (t : Tone) : IsBaseArg (.tone t) (toneV t)
  | note (n : Note) : IsBaseArg (.note n) (noteV n)
  | none : IsBaseArg .other .none
  | float (x : PyFloat) : IsBaseArg .other (.float x)
  | tuple (l : List Val) : IsBaseArg .other (.tuple l)
  | sig (s : Signature) : IsBaseArg .other (sigV s)

/-- The Python values that are passed as `duration` of a chord: `None` means that it is left out. -/
inductive IsDurationArg : Option SigArg → Val → Prop
  | none : IsDurationArg none .none
  | some (a : SigArg) (v : Val) (h : IsSigArg a v) (hn : v ≠ .none) : IsDurationArg (some a) v

/-- The Python values that are passed as `velocity` of a chord. -/
inductive IsVelocityArg : Option PyFloat → Val → Prop
  | none : IsVelocityArg none .none
  | some (x : PyFloat) : IsVelocityArg (some x) (.float x)

namespace Source

variable (W : World)

@[py] theorem sub_note_note : program.isSubclass 3 "Note" "Note" = true := by rfl
@[py] theorem sub_note_tone : program.isSubclass 3 "Note" "Tone" = false := by rfl
@[py] theorem sub_tone_note : program.isSubclass 3 "Tone" "Note" = false := by rfl
@[py] theorem sub_sig_note : program.isSubclass 3 "Signature" "Note" = false := by rfl

@[py] theorem chord_name_tone : globalName program W "melodia.music.chord" "Tone" = pure (.cls "Tone") := by
  rw [globalName]; rfl
@[py] theorem chord_name_note : globalName program W "melodia.music.chord" "Note" = pure (.cls "Note") := by
  rw [globalName]; rfl
@[py] theorem chord_name_sig : globalName program W "melodia.music.chord" "Signature" = pure (.cls "Signature") := by
  rw [globalName]; rfl
@[py] theorem chord_name_isinstance :
    globalName program W "melodia.music.chord" "isinstance" = pure (.builtin .isinstance) := by rw [globalName]; rfl
@[py] theorem chord_name_int : globalName program W "melodia.music.chord" "int" = pure (.builtin .int) := by
  rw [globalName]; rfl
@[py] theorem chord_name_str : globalName program W "melodia.music.chord" "str" = pure (.builtin .str) := by
  rw [globalName]; rfl
@[py] theorem chord_name_value :
    globalName program W "melodia.music.chord" "ValueError" = pure (.excClass .valueError) := by rw [globalName]; rfl
@[py] theorem chord_name_params : globalName program W "melodia.music.chord" "_get_parameters" =
    pure (.func "melodia.music.chord" "_get_parameters") := by rw [globalName]; rfl
@[py] theorem chord_func_params :
    program.func "melodia.music.chord" "_get_parameters" = some chord._get_parameters := by rfl

/-! ### The parameters -/

/-- The variables of `_get_parameters`. -/
def chordEnv (b d x : Val) (r : List (String × Val)) : Env :=
  { mod := "melodia.music.chord", vars := ("base", b) :: ("duration", d) :: ("velocity", x) :: r }

/-- The tone of the base (first `match` of `getParameters`). -/
def baseTone [UnicodeDigits] : BaseArg → PyM Tone
  | .int i => Tone.new (.int i)
  | .str s => Tone.fromNotation s
  | .tone t => pure t
  | .note n => pure n.tone
  | .other => .error .valueError

/-- The duration of a chord as a value of Python. -/
def chordDurV (ba : BaseArg) (d : Val) : Val :=
  match d with
  | .none => (match ba with
    | .note n => sigV n.duration
    | _ => sigV ⟨1, 4⟩)
  | d => d

/-- The velocity of a chord. -/
def chordVel (ba : BaseArg) (x : Option PyFloat) : PyFloat :=
  match x with
  | none => (match ba with
    | .note n => .fin n.velocity
    | _ => .fin (3 / 4))
  | some v => v

theorem params_tone {ba : BaseArg} {b : Val} (hb : IsBaseArg ba b) (d x : Val) :
    execB program W (chord._get_parameters.body.take 1) (chordEnv b d x []) = (do
      let t ← liftPy (@baseTone W.digits ba)
      pure (.next (chordEnv b d x [("base_tone", toneV t)]))) := by
  cases hb with
  | str s =>
    simp [py, chord._get_parameters, callBuiltin, isInstance, isInstance1, baseTone, chordEnv]
    cases @Melodia.Tone.fromNotation W.digits s <;> rfl
  | note n =>
    simp [py, chord._get_parameters, callBuiltin, isInstance, isInstance1, baseTone, chordEnv]
    rw [noteV]
    simp [py]
    rfl
  | _ =>
    simp [py, chord._get_parameters, callBuiltin, isInstance, isInstance1, toneV, sigV, baseTone, Melodia.Tone.new, chordEnv]
    try rfl

theorem params_duration {ba : BaseArg} {b d : Val} {da : Option SigArg} (hb : IsBaseArg ba b) (hd : IsDurationArg da d)
    (x t : Val) :
    execB program W ((chord._get_parameters.body.drop 1).take 1) (chordEnv b d x [("base_tone", t)]) =
      pure (.next (chordEnv b d x [("base_tone", t), ("base_duration", chordDurV ba d)])) := by
  have h14 : Melodia.Signature.new 1 4 = .ok ⟨1, 4⟩ := by decide
  cases hd with
  | none =>
    cases hb with
    | note n =>
      simp [py, chord._get_parameters, callBuiltin, isInstance, isInstance1, chordEnv, compareOp, chordDurV]
      rw [noteV]
      simp [py]
    | _ =>
      simp [py, chord._get_parameters, callBuiltin, isInstance, isInstance1, toneV, sigV, chordEnv, compareOp, chordDurV, h14,
        Except.map]
  | some a v h hn =>
    cases h with
    | none => exact absurd rfl hn
    | _ => simp [py, chord._get_parameters, chordEnv, compareOp, chordDurV, sigV, toneV, readVar]

theorem params_velocity {ba : BaseArg} {b x : Val} {xa : Option PyFloat} (hb : IsBaseArg ba b) (hx : IsVelocityArg xa x)
    (d t s : Val) :
    execB program W ((chord._get_parameters.body.drop 2).take 1)
        (chordEnv b d x [("base_tone", t), ("base_duration", s)]) =
      pure (.next (chordEnv b d x [("base_tone", t), ("base_duration", s),
        ("base_velocity", .float (chordVel ba xa))])) := by
  cases hx with
  | none =>
    cases hb with
    | note n =>
      simp [py, chord._get_parameters, callBuiltin, isInstance, isInstance1, chordEnv, compareOp, chordVel]
      rw [noteV]
      simp [py]
    | _ => simp [py, chord._get_parameters, callBuiltin, isInstance, isInstance1, toneV, sigV, chordEnv, compareOp, chordVel]
  | some x => simp [py, chord._get_parameters, chordEnv, compareOp, chordVel]

/-- The duration of a chord is a plain value. -/
theorem readVar_chordDurV {ba : BaseArg} {da : Option SigArg} {d : Val} (hd : IsDurationArg da d) :
    readVar (chordDurV ba d) = pure (chordDurV ba d) := by
  cases hd with
  | none => cases ba <;> rfl
  | some a v h hn => cases h <;> first | exact absurd rfl hn | rfl

/-- `_get_parameters(base, duration, velocity)`. -/
theorem params_ok {ba : BaseArg} {b d x : Val} {da : Option SigArg} {xa : Option PyFloat} (hb : IsBaseArg ba b)
    (hd : IsDurationArg da d) (hx : IsVelocityArg xa x) :
    callFun program W chord._get_parameters [b, d, x] [] = (do
      let t ← liftPy (@baseTone W.digits ba)
      pure (.tuple [toneV t, chordDurV ba d, .float (chordVel ba xa)])) := by
  have hp : bindParams program W chord._get_parameters.params [b, d, x] [] { mod := chord._get_parameters.mod, vars := [] } =
      pure [("base", b), ("duration", d), ("velocity", x)] := by simp [py, chord._get_parameters]
  have he : ({ mod := chord._get_parameters.mod, vars := [("base", b), ("duration", d), ("velocity", x)] } : Env) =
      chordEnv b d x [] := rfl
  have hbody : chord._get_parameters.body = chord._get_parameters.body.take 1 ++
      ((chord._get_parameters.body.drop 1).take 1 ++ ((chord._get_parameters.body.drop 2).take 1 ++
        chord._get_parameters.body.drop 3)) := by rfl
  rw [callFun, hp, pure_bind, show chord._get_parameters.gen = false from rfl, he, hbody, execB_append, params_tone W hb]
  cases @baseTone W.digits ba with
  | error e => rfl
  | ok t =>
    simp only [py, Bool.false_eq_true, ↓reduceIte]
    rw [execB_append, params_duration W hb hd, pure_bind]
    simp only []
    rw [execB_append, params_velocity W hb hx, pure_bind]
    simp [py, chord._get_parameters, chordEnv, readVar_chordDurV hd]

/-! ### The functions -/

/-- The expression for one note of a chord. -/
def chordNoteE (k : Int) : Expr :=
  if k = 0 then .call (.name "Note") [.name "base_tone", .name "base_duration", .name "base_velocity"] []
  else .call (.name "Note") [.call (.attr (.name "base_tone") "transposed")
    [if k > 0 then .un .pos (.int k) else .un .neg (.int (-k))] [], .name "base_duration", .name "base_velocity"] []

/-- The shape of the functions of chord.py. -/
def chordDef (name : String) (l : List Int) : FunDef where
  name := name
  mod := "melodia.music.chord"
  params := [("base", .none), ("duration", some .none), ("velocity", some .none)]
  body := [
    .assign (.tuple ["base_tone", "base_duration", "base_velocity"])
      (.call (.name "_get_parameters") [.name "base", .name "duration", .name "velocity"] []),
    .ret (.tuple (l.map chordNoteE))]

/-- Every function of chord.py has this shape, with the intervals of the table of the model. -/
theorem chord_defs (f : ChordFn) (hf : f ∈ chordFunctions) :
    program.func "melodia.music.chord" f.name = some (chordDef f.name f.intervals) := by
  revert f
  simp only [chordFunctions, List.forall_mem_cons]
  repeat' constructor
  all_goals first | rfl | simp

/-- One note of a chord. -/
theorem chord_note {ba : BaseArg} {b d x : Val} {da : Option SigArg} {xa : Option PyFloat}
    (hd : IsDurationArg da d) (t : Melodia.Tone) (sa : SigArg) (hs : IsSigArg sa (chordDurV ba d)) (k : Int) :
    evalE program W (chordNoteE k) (chordEnv b d x [("base_tone", toneV t), ("base_duration", chordDurV ba d),
        ("base_velocity", .float (chordVel ba xa))]) =
      liftPy ((@chordNote W.digits t sa (chordVel ba xa) k).map noteV) := by
  unfold chordNoteE chordNote
  by_cases hk : k = 0
  · simp [py, hk, chordEnv, readVar_chordDurV hd, note_new W (.tone t) hs]
  · by_cases hp : k > 0
    · simp [py, hk, hp, chordEnv, readVar_chordDurV hd, primPos, Melodia.Tone.transposed, Melodia.Tone.new, Except.map,
        note_new W (.tone ⟨t.pitch + k⟩) hs]
      rfl
    · simp [py, hk, hp, chordEnv, readVar_chordDurV hd, primNeg, Melodia.Tone.transposed, Melodia.Tone.new, Except.map,
        note_new W (.tone ⟨t.pitch + k⟩) hs]
      rfl

/-- The notes of a chord. -/
theorem chord_notes {ba : BaseArg} {b d x : Val} {da : Option SigArg} {xa : Option PyFloat} 
    (hd : IsDurationArg da d) (t : Melodia.Tone) (sa : SigArg) (hs : IsSigArg sa (chordDurV ba d))
    (l : List Int) :
    evalArgs program W (l.map chordNoteE) (chordEnv b d x [("base_tone", toneV t), ("base_duration", chordDurV ba d),
        ("base_velocity", .float (chordVel ba xa))]) =
      liftPy ((l.mapM (@chordNote W.digits t sa (chordVel ba xa))).map (List.map noteV)) := by
  induction l with
  | nil => rw [List.map_nil, evalArgs]; rfl
  | cons k l ih =>
    have h1 := chord_note W (b := b) (x := x) (xa := xa) hd t sa hs k
    have h2 : evalArgs program W (chordNoteE k :: l.map chordNoteE) (chordEnv b d x [("base_tone", toneV t),
        ("base_duration", chordDurV ba d), ("base_velocity", .float (chordVel ba xa))]) = (do
        let v ← evalE program W (chordNoteE k) (chordEnv b d x [("base_tone", toneV t),
          ("base_duration", chordDurV ba d), ("base_velocity", .float (chordVel ba xa))])
        let vs ← evalArgs program W (l.map chordNoteE) (chordEnv b d x [("base_tone", toneV t),
          ("base_duration", chordDurV ba d), ("base_velocity", .float (chordVel ba xa))])
        pure (v :: vs)) := by
      rw [evalArgs.eq_def]
      unfold chordNoteE
      split
      · rename_i h; split at h <;> simp at h
      · rename_i h; split at h <;> simp at h
      · rename_i h; cases h; rfl
    rw [List.map_cons, h2, h1, ih, List.mapM_cons]
    cases @chordNote W.digits t sa (chordVel ba xa) k with
    | error e => rfl
    | ok n =>
      cases l.mapM (@chordNote W.digits t sa (chordVel ba xa)) with
      | error e => rfl
      | ok ns => rfl

/-- A call of a function of chord.py. -/
theorem chord_ok {ba : BaseArg} {b d x : Val} {da : Option SigArg} {xa : Option PyFloat} (hb : IsBaseArg ba b)
    (hd : IsDurationArg da d) (hx : IsVelocityArg xa x) (name : String) (l : List Int)
    (args : List Val) (kws : List (String × Val))
    (hp : bindParams program W (chordDef name l).params args kws { mod := "melodia.music.chord", vars := [] } =
      pure [("base", b), ("duration", d), ("velocity", x)]) :
    callFun program W (chordDef name l) args kws =
      liftPy ((@chordBody W.digits l ba da xa).map (fun ns => .tuple (ns.map noteV))) := by
  obtain ⟨sa, hs, hg⟩ : ∃ sa, IsSigArg sa (chordDurV ba d) ∧ @getParameters W.digits ba da xa =
      (@baseTone W.digits ba).map (fun t => (t, sa, chordVel ba xa)) := by
    cases hd with
    | none =>
      cases ba with
      | note n => exact ⟨.sig n.duration, .sig _, rfl⟩
      | str s =>
        refine ⟨.sig ⟨1, 4⟩, .sig _, ?_⟩
        unfold getParameters baseTone
        cases @Melodia.Tone.fromNotation W.digits s <;> rfl
      | _ => exact ⟨.sig ⟨1, 4⟩, .sig _, rfl⟩
    | some a v h hn =>
      refine ⟨a, by cases h <;> first | exact absurd rfl hn | constructor, ?_⟩
      cases ba with
      | str s =>
        unfold getParameters baseTone
        cases @Melodia.Tone.fromNotation W.digits s <;> rfl
      | _ => rfl
  have he : ({ mod := "melodia.music.chord", vars := [("base", b), ("duration", d), ("velocity", x)] } : Env) =
      chordEnv b d x [] := rfl
  rw [callFun, show (chordDef name l).mod = "melodia.music.chord" from rfl, hp, pure_bind, he]
  have hrb : readVar b = pure b := by cases hb <;> rfl
  have hrd : readVar d = pure d := by
    cases hd with
    | none => rfl
    | some a v h hn => cases h <;> rfl
  have hrx : readVar x = pure x := by cases hx <;> rfl
  have hc : evalE program W (.call (.name "_get_parameters") [.name "base", .name "duration", .name "velocity"] [])
      (chordEnv b d x []) = (do
      let t ← liftPy (@baseTone W.digits ba)
      pure (.tuple [toneV t, chordDurV ba d, .float (chordVel ba xa)])) := by
    rw [← params_ok W hb hd hx]
    simp [py, chordEnv, hrb, hrd, hrx, call]
  rw [show (chordDef name l).gen = false from rfl, show (chordDef name l).body = [
    .assign (.tuple ["base_tone", "base_duration", "base_velocity"])
      (.call (.name "_get_parameters") [.name "base", .name "duration", .name "velocity"] []),
    .ret (.tuple (l.map chordNoteE))] from rfl]
  unfold chordBody
  rw [hg, execB, execS, hc]
  cases @baseTone W.digits ba with
  | error e => rfl
  | ok t =>
    simp only [py, Bool.false_eq_true, ↓reduceIte]
    have := chord_notes W (b := b) (x := x) (xa := xa) hd t sa hs l
    simp only [chordEnv] at this
    simp only [chordEnv, Dict.set, String.reduceEq, ↓reduceIte]
    rw [this]
    have : (Except.map (fun t => (t, sa, chordVel ba xa)) (Except.ok t : PyM Melodia.Tone) : PyM _) =
      Except.ok (t, sa, chordVel ba xa) := rfl
    rw [this]
    simp only [bind, Except.bind]
    cases l.mapM (@chordNote W.digits t sa (chordVel ba xa)) <;> rfl


/-- A function of the same shape that returns one note. -/
def singleDef (name : String) (k : Int) : FunDef where
  name := name
  mod := "melodia.music.chord"
  params := [("base", .none), ("duration", some .none), ("velocity", some .none)]
  body := [
    .assign (.tuple ["base_tone", "base_duration", "base_velocity"])
      (.call (.name "_get_parameters") [.name "base", .name "duration", .name "velocity"] []),
    .ret (chordNoteE k)]

/-- A call of a function that returns one note, not in a tuple. -/
theorem single_ok {ba : BaseArg} {b d x : Val} {da : Option SigArg} {xa : Option PyFloat} (hb : IsBaseArg ba b)
    (hd : IsDurationArg da d) (hx : IsVelocityArg xa x) (name : String) (k : Int)
    (args : List Val) (kws : List (String × Val))
    (hp : bindParams program W (singleDef name k).params args kws { mod := "melodia.music.chord", vars := [] } =
      pure [("base", b), ("duration", d), ("velocity", x)]) :
    callFun program W (singleDef name k) args kws =
      (do
      let ns ← liftPy (@chordBody W.digits [k] ba da xa)
      pure (noteV (ns.headD ⟨⟨0⟩, ⟨0, 1⟩, 0⟩))) := by
  obtain ⟨sa, hs, hg⟩ : ∃ sa, IsSigArg sa (chordDurV ba d) ∧ @getParameters W.digits ba da xa =
      (@baseTone W.digits ba).map (fun t => (t, sa, chordVel ba xa)) := by
    cases hd with
    | none =>
      cases ba with
      | note n => exact ⟨.sig n.duration, .sig _, rfl⟩
      | str s =>
        refine ⟨.sig ⟨1, 4⟩, .sig _, ?_⟩
        unfold getParameters baseTone
        cases @Melodia.Tone.fromNotation W.digits s <;> rfl
      | _ => exact ⟨.sig ⟨1, 4⟩, .sig _, rfl⟩
    | some a v h hn =>
      refine ⟨a, by cases h <;> first | exact absurd rfl hn | constructor, ?_⟩
      cases ba with
      | str s =>
        unfold getParameters baseTone
        cases @Melodia.Tone.fromNotation W.digits s <;> rfl
      | _ => rfl
  have he : ({ mod := "melodia.music.chord", vars := [("base", b), ("duration", d), ("velocity", x)] } : Env) =
      chordEnv b d x [] := rfl
  rw [callFun, show (singleDef name k).mod = "melodia.music.chord" from rfl, hp, pure_bind, he]
  have hrb : readVar b = pure b := by cases hb <;> rfl
  have hrd : readVar d = pure d := by
    cases hd with
    | none => rfl
    | some a v h hn => cases h <;> rfl
  have hrx : readVar x = pure x := by cases hx <;> rfl
  have hc : evalE program W (.call (.name "_get_parameters") [.name "base", .name "duration", .name "velocity"] [])
      (chordEnv b d x []) = (do
      let t ← liftPy (@baseTone W.digits ba)
      pure (.tuple [toneV t, chordDurV ba d, .float (chordVel ba xa)])) := by
    rw [← params_ok W hb hd hx]
    simp [py, chordEnv, hrb, hrd, hrx, call]
  rw [show (singleDef name k).gen = false from rfl, show (singleDef name k).body = [
    .assign (.tuple ["base_tone", "base_duration", "base_velocity"])
      (.call (.name "_get_parameters") [.name "base", .name "duration", .name "velocity"] []),
    .ret (chordNoteE k)] from rfl]
  unfold chordBody
  rw [hg, execB, execS, hc]
  cases @baseTone W.digits ba with
  | error e => rfl
  | ok t =>
    simp only [py, Bool.false_eq_true, ↓reduceIte]
    have := chord_note W (b := b) (x := x) (xa := xa) hd t sa hs k
    simp only [chordEnv] at this
    simp only [chordEnv, Dict.set, String.reduceEq, ↓reduceIte]
    rw [this]
    have : (Except.map (fun t => (t, sa, chordVel ba xa)) (Except.ok t : PyM Melodia.Tone) : PyM _) =
      Except.ok (t, sa, chordVel ba xa) := rfl
    rw [this]
    simp only [bind, Except.bind]
    rw [List.mapM_cons, List.mapM_nil]
    cases @chordNote W.digits t sa (chordVel ba xa) k <;> rfl

end Source

end Melodia
