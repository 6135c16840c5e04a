/-
`MIDIWriter` in a user's program: the constructor, and calls of its methods.
-/
import Verif.Lemmas.SourceDump
import Verif.Lemmas.SourceTrackUser

set_option autoImplicit false

namespace Melodia

open Melodia.Python

namespace Source

variable (W : World)

theorem c3 [UnicodeDigits] : Melodia.Tone.fromNotation ['C', '3'] = .ok ⟨36⟩ := by rfl

theorem inst_tone (t : Melodia.Tone) : callBuiltin program W .isinstance [toneV t, .cls "Tone"] [] = pure (.bool true) := by
  simp [py, callBuiltin, isInstance, isInstance1, toneV]

/-- The variables of `MIDIWriter.__init__`. -/
def writerEnv (fs : List (String × Val)) (p c x k : Val) : Env :=
  { mod := "melodia.io.midi",
    vars := [("self", .obj "MIDIWriter" fs), ("pulses_per_quarter", p), ("middle_c", c), ("bpm", x), ("channel", k)] }

set_option maxHeartbeats 1000000 in
/-- The body of `MIDIWriter.__init__`. -/
theorem writer_init_body {ta : ToneArg} {tv : Val} (ht : IsToneArg ta tv) (ppq ch : Int) {x : PyFloat} {b : Val} (hb : IsBpm x b) :
    execB program W MIDIWriter.dunder_init.body (writerEnv [] (.int ppq) tv b (.int ch)) = (do
      let w ← liftPy (@Melodia.Writer.new W.digits ppq ta x ch)
      pure (.next (writerEnv [("_pulses_per_quarter", .int w.ppq), ("_pulses_per_whole", .int w.ppw), ("_middle_c", tv),
        ("_middle_c_delta", .int w.middleCDelta), ("_bpm", b), ("_channel", .int w.channel)]
        (.int ppq) tv b (.int ch)))) := by
  have hr : readVar b = pure b := by cases hb <;> rfl
  unfold Melodia.Writer.new
  by_cases hp : 1 ≤ ppq
  · by_cases hq : ppq ≤ 32767
    · by_cases hk : 0 ≤ ch
      · by_cases hl : ch ≤ 15
        · cases ht with
          | str s =>
            simp [py, MIDIWriter.dunder_init, callBuiltin, isInstance, isInstance1, middleCDeltaOf, writerEnv, hp, hq, hk, hl, hr]
            cases @Melodia.Tone.fromNotation W.digits s with
            | error e => rfl
            | ok t => simp [py, Except.map]
          | tone t =>
            have h1 := inst_tone W t
            simp [py, MIDIWriter.dunder_init, middleCDeltaOf, writerEnv, hp, hq, hk, hl, h1, hr]
          | int i =>
            simp [py, MIDIWriter.dunder_init, callBuiltin, isInstance, isInstance1, middleCDeltaOf, Melodia.Tone.new,
              writerEnv, hp, hq, hk, hl, hr]
          | _ =>
            simp [py, MIDIWriter.dunder_init, callBuiltin, isInstance, isInstance1, sigV, middleCDeltaOf, writerEnv, hp, hq, hk,
              hl, hr]
        · simp [py, MIDIWriter.dunder_init, writerEnv, hp, hq, hk, hl, hr]
      · simp [py, MIDIWriter.dunder_init, writerEnv, hp, hq, hk]
    · simp [py, MIDIWriter.dunder_init, writerEnv, hp, hq]
  · simp [py, MIDIWriter.dunder_init, writerEnv, hp]

/-- Calls of `MIDIWriter`, however the arguments are passed. -/
theorem writer_construct {ta : ToneArg} {tv : Val} (ht : IsToneArg ta tv) (ppq ch : Int) {x : PyFloat} {b : Val} (hb : IsBpm x b)
    (args : List Val) (kws : List (String × Val))
    (hp : bindParams program W MIDIWriter.dunder_init.params (.obj "MIDIWriter" [] :: args) kws
      { mod := "melodia.io.midi", vars := [] } =
      pure [("self", .obj "MIDIWriter" []), ("pulses_per_quarter", .int ppq), ("middle_c", tv), ("bpm", b),
        ("channel", .int ch)]) :
    construct program W "MIDIWriter" args kws =
      liftPy ((@Melodia.Writer.new W.digits ppq ta x ch).map (fun w => writerV w (tv, b))) := by
  have he : ({ mod := "melodia.io.midi", vars := [("self", .obj "MIDIWriter" []), ("pulses_per_quarter", .int ppq),
    ("middle_c", tv), ("bpm", b), ("channel", .int ch)] } : Env) = writerEnv [] (.int ppq) tv b (.int ch) := rfl
  rw [construct]
  simp only [py]
  rw [show MIDIWriter.dunder_init.mod = "melodia.io.midi" from rfl, hp, pure_bind, he, writer_init_body W ht ppq ch hb]
  cases @Melodia.Writer.new W.digits ppq ta x ch <;> simp [py, Except.map, writerEnv, writerV]


theorem c3val : evalE program W (.call (.attr (.name "Tone") "from_notation") [.str "C3"] [])
    { mod := "melodia.io.midi", vars := [] } = pure (toneV ⟨36⟩) := by
  simp [py, c3, Except.map]

theorem writer_bind (p m x k : Option Val) :
    bindParams program W MIDIWriter.dunder_init.params [.obj "MIDIWriter" []] (writerOpts p m x k)
      { mod := "melodia.io.midi", vars := [] } =
      pure [("self", .obj "MIDIWriter" []), ("pulses_per_quarter", p.getD (.int 96)), ("middle_c", m.getD (toneV ⟨36⟩)),
        ("bpm", x.getD (.float (.fin 120))), ("channel", k.getD (.int 0))] := by
  cases p <;> cases m <;> cases x <;> cases k <;> simp [py, MIDIWriter.dunder_init, c3val, writerOpts]

theorem writer_bind_all (p m x k : Val) :
    bindParams program W MIDIWriter.dunder_init.params [.obj "MIDIWriter" [], p, m, x, k] []
      { mod := "melodia.io.midi", vars := [] } =
      pure [("self", .obj "MIDIWriter" []), ("pulses_per_quarter", p), ("middle_c", m), ("bpm", x), ("channel", k)] := by
  simp [py, MIDIWriter.dunder_init]

/-- Variables as arguments. -/
theorem evalArgs_names {env : Env} (h : Heap) : ∀ opts : List (String × Val),
    (∀ o ∈ opts, Dict.get env.vars o.1 = some o.2 ∧ readVar o.2 = pure o.2) →
    evalArgs program W (opts.map (fun o => .name o.1)) env h = some (.ok (opts.map Prod.snd) h)
  | [], _ => evalArgs_nil _ _ _ _
  | o :: opts, ho => by
    exact evalArgs_cons _ _ (by simp) (evalE_name _ _ (ho o (by simp)).1 (ho o (by simp)).2 h)
      (evalArgs_names h opts (fun x hx => ho x (by simp [hx])))

theorem zip_opts (opts : List (String × Val)) : (opts.map Prod.fst).zip (opts.map Prod.snd) = opts := by
  induction opts with
  | nil => rfl
  | cons x xs ih => simp [ih]

theorem writer_opts_get (p m x k : Option Val) :
    (∀ o ∈ writerOpts p m x k, Dict.get (writerOpts p m x k ++ userNames) o.1 = some o.2) ∧
      Dict.get (writerOpts p m x k ++ userNames) "MIDIWriter" = some (.cls "MIDIWriter") := by
  cases p <;> cases m <;> cases x <;> cases k <;> simp [writerOpts, userNames, Dict.get]

/-- `MIDIWriter(...)` in a user's program. -/
theorem user_writer {ta : ToneArg} {c : Val} (ht : IsToneArg ta c) (ppq ch : Int) {x : PyFloat} {b : Val} (hb : IsBpm x b)
    {vars : List (String × Val)} {e : Expr} (hc : WriterCall (.int ppq) c b (.int ch) vars e) :
    userEval W vars e = liftPy ((@Melodia.Writer.new W.digits ppq ta x ch).map (fun w => writerV w (c, b))) := by
  have hrb : readVar b = pure b := by cases hb <;> rfl
  have hr : readVar c = pure c := by cases ht <;> rfl
  generalize hp : Val.int ppq = p at hc
  generalize hx : b = y at hc
  generalize hk : Val.int ch = k at hc
  cases hc with
  | kw p m x' k =>
    funext h
    obtain ⟨g1, g2⟩ := writer_opts_get p m x' k
    have g3 : ∀ o ∈ writerOpts p m x' k, readVar o.2 = pure o.2 := by
      intro o ho
      simp only [writerOpts, List.mem_append, Option.mem_toList, Option.map_eq_some_iff] at ho
      rcases ho with ((⟨a, rfl, rfl⟩ | ⟨a, rfl, rfl⟩) | ⟨a, rfl, rfl⟩) | ⟨a, rfl, rfl⟩
      · cases hp; rfl
      · exact hr
      · simp only [Option.getD_some] at hx; rw [← hx]; exact hrb
      · cases hk; rfl
    refine (evalE_call_kw program W (es := []) (by simp) (evalE_name program W g2 rfl h) (evalArgs_nil _ _ _ _)
      (evalArgs_names W h _ (fun o ho => ⟨g1 o ho, g3 o ho⟩))).trans ?_
    rw [call.eq_def, zip_opts, ← hx]
    have := writer_bind W p m x' k
    rw [← hp, ← hx, ← hk] at this
    exact congrFun (writer_construct W ht ppq ch hb _ _ this) h
  | all p m x' k =>
    funext h
    subst hp hx hk
    refine (evalE_call program W (evalE_name program W (v := .cls "MIDIWriter") (by rfl) rfl h)
      (evalArgs_names W h [("pulses_per_quarter", .int ppq), ("middle_c", c), ("bpm", b), ("channel", .int ch)]
        (by simp [Dict.get, hr, hrb]; exact ⟨rfl, rfl⟩))).trans ?_
    rw [call.eq_def]
    exact congrFun (writer_construct W ht ppq ch hb _ _ (writer_bind_all W _ _ _ _)) h

/-- `w.dump(t, f)` and `w.dumps(t)` in a user's program. -/
theorem user_writer_call (w : Melodia.Writer) (c : Val × Val) {m : String} {f : FunDef} (hf : program.method "MIDIWriter" m = some f)
    (hm : m = "dump" ∨ m = "dumps") (hd : f.deco = .plain) (vars : List (String × Val))
    (hv : ∀ o ∈ vars, Dict.get (("w", writerV w c) :: vars ++ userNames) o.1 = some o.2 ∧ readVar o.2 = pure o.2) (h : Heap) :
    userEval W (("w", writerV w c) :: vars) (methE "w" m (vars.map Prod.fst)) h =
      callFun program W f (writerV w c :: vars.map Prod.snd) [] h := by
  have h1 : getAttr program W (writerV w c) m = pure (.meth (writerV w c) m) :=
    writerV_meth W w c (by rcases hm with rfl | rfl <;> rfl) (by rcases hm with rfl | rfl <;> simp) hf (by simp [hd])
  have := evalArgs_names W (env := { mod := "__main__", vars := ("w", writerV w c) :: vars ++ userNames }) h vars hv
  have he : (vars.map Prod.fst).map Expr.name = vars.map (fun o => Expr.name o.1) := by simp
  rw [userEval, methE, he]
  refine (evalE_call program W ((evalE_attr_of _ _ (evalE_name program W (x := "w") (v := writerV w c) (by rfl) rfl h)).trans
    (congrFun h1 h)) this).trans ?_
  rw [writerV, call_obj _ _ _ _ _ _ _ _ hf (by simp [hd])]

end Source

end Melodia
