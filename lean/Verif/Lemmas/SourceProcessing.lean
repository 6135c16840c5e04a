/-
Lemmas: processing/track.py executed from its text does what the model says.
-/
import Verif.Lemmas.PyLoops
import Verif.Lemmas.SourceTrackMore
import Verif.Lemmas.SourceWriterUser
import Verif.Lemmas.Processing
import Verif.Spec.SourceProcessing

set_option autoImplicit false

namespace Melodia

open Melodia.Python

namespace Source

variable (W : World)

@[py] theorem proc_name_math : globalName program W "melodia.processing.track" "math" = pure (.module "math") := by
  rw [globalName]; rfl
@[py] theorem proc_name_random : globalName program W "melodia.processing.track" "random" = pure (.module "random") := by
  rw [globalName]; rfl
@[py] theorem proc_name_track : globalName program W "melodia.processing.track" "Track" = pure (.cls "Track") := by
  rw [globalName]; rfl
@[py] theorem proc_name_max : globalName program W "melodia.processing.track" "max" = pure (.builtin .max) := by
  rw [globalName]; rfl
@[py] theorem proc_name_min : globalName program W "melodia.processing.track" "min" = pure (.builtin .min) := by
  rw [globalName]; rfl
@[py] theorem proc_name_value : globalName program W "melodia.processing.track" "ValueError" = pure (.excClass .valueError) := by
  rw [globalName]; rfl

/-- The variables of `randomize_velocities` at its beginning. -/
def randomEnv (a : Nat) (lo hi mean var : PyFloat) : Env :=
  { mod := "melodia.processing.track", vars := [("track", .ref a), ("minimum", .float lo), ("maximum", .float hi),
    ("mean", .float mean), ("variance", .float var)] }

/-- The checks of the arguments. -/
theorem random_checks (a : Nat) (lo hi mean var : PyFloat) (h : Heap) :
    execB program W (processing.randomize_velocities.body.take 4) (randomEnv a lo hi mean var) h =
      if ((PyFloat.fin 0).le lo && lo.le (.fin 1)) && ((PyFloat.fin 0).le hi && hi.le (.fin 1)) &&
        ((PyFloat.fin 0).le mean && mean.le (.fin 1)) && (PyFloat.fin 0).le var then
        some (.ok (.next (randomEnv a lo hi mean var)) h)
      else some (.err .valueError h) := by
  have hq : ((1 : ℤ) : ℚ) / ((1 : ℕ) : ℚ) = 1 := by norm_num
  cases h1 : (PyFloat.fin 0).le lo
  · pyrun [processing.randomize_velocities, randomEnv, cmpPrim, cmpKnown, isPlain, primCmp, floatCmp, h1]
  cases h2 : lo.le (.fin 1)
  · pyrun [processing.randomize_velocities, randomEnv, cmpPrim, cmpKnown, isPlain, primCmp, floatCmp, h1, h2]
  cases h3 : (PyFloat.fin 0).le hi
  · pyrun [processing.randomize_velocities, randomEnv, cmpPrim, cmpKnown, isPlain, primCmp, floatCmp, h1, h2, h3]
  cases h4 : hi.le (.fin 1)
  · pyrun [processing.randomize_velocities, randomEnv, cmpPrim, cmpKnown, isPlain, primCmp, floatCmp, h1, h2, h3, h4]
  cases h5 : (PyFloat.fin 0).le mean
  · pyrun [processing.randomize_velocities, randomEnv, cmpPrim, cmpKnown, isPlain, primCmp, floatCmp, h1, h2, h3, h4, h5]
  cases h6 : mean.le (.fin 1)
  · pyrun [processing.randomize_velocities, randomEnv, cmpPrim, cmpKnown, isPlain, primCmp, floatCmp, h1, h2, h3, h4, h5, h6]
  cases h7 : (PyFloat.fin 0).le var
  · pyrun [processing.randomize_velocities, randomEnv, cmpPrim, cmpKnown, isPlain, primCmp, floatCmp, h1, h2, h3, h4, h5, h6, h7]
  · pyrun [processing.randomize_velocities, randomEnv, cmpPrim, cmpKnown, isPlain, primCmp, floatCmp, h1, h2, h3, h4, h5, h6, h7]

@[pyrun] theorem std_sqrt : stdName "math" "sqrt" = some (.builtin .sqrt) := rfl
@[pyrun] theorem std_gauss : stdName "random" "gauss" = some (.builtin .gauss) := rfl
@[pyrun] theorem callBuiltin_max_float (x y : PyFloat) : callBuiltin program W .max [.float x, .float y] [] = pure (.float (x.max y)) := by
  rw [callBuiltin.eq_def]
  simp only [primCall, primBest, isPlain, cmpKnown, Bool.and_self, Bool.or_self, if_true, primCmp, asInt, asNum, floatCmp, PyFloat.max]
  cases x.lt y <;> rfl
@[pyrun] theorem callBuiltin_min_float (x y : PyFloat) : callBuiltin program W .min [.float x, .float y] [] = pure (.float (x.min y)) := by
  rw [callBuiltin.eq_def]
  simp only [primCall, primBest, isPlain, cmpKnown, Bool.and_self, Bool.or_self, if_true, primCmp, asInt, asNum, floatCmp, PyFloat.min]
  cases y.lt x <;> rfl
@[pyrun] theorem callBuiltin_sqrt (x : PyFloat) : callBuiltin program W .sqrt [.float x] [] = pure (.float (W.sqrt x)) := by
  rw [callBuiltin.eq_def]; rfl
@[pyrun] theorem callBuiltin_gauss (x y : PyFloat) (h : Heap) : callBuiltin program W .gauss [.float x, .float y] [] h =
    some (.ok (.float (W.gauss h.draws x y)) { h with draws := h.draws + 1 }) := by
  rw [callBuiltin.eq_def]; rfl

/-- The names used in the loop. -/
def randomNames (b : Nat) (lo hi mean std : PyFloat) : List (String × Option Val) :=
  [("minimum", some (.float lo)), ("maximum", some (.float hi)), ("mean", some (.float mean)), ("std", some (.float std)),
    ("result", some (.ref b)), ("max", .none), ("min", .none), ("random", .none)]

theorem random_velocity {b : Nat} {lo hi mean std : PyFloat} {env : Env}
    (H : Has "melodia.processing.track" env (randomNames b lo hi mean std)) (h : Heap) :
    evalE program W (.call (.name "max") [.name "minimum", .call (.name "min") [.name "maximum", .call (.attr (.name "random") "gauss") [.name "mean", .name "std"] []] []] []) env h =
      some (.ok (.float (clampVelocity lo hi (W.gauss h.draws mean std))) { h with draws := h.draws + 1 }) := by
  have e1 := H.get ("minimum", some (.float lo)) (by simp [randomNames])
  have e2 := H.get ("maximum", some (.float hi)) (by simp [randomNames])
  have e3 := H.get ("mean", some (.float mean)) (by simp [randomNames])
  have e4 := H.get ("std", some (.float std)) (by simp [randomNames])
  have e5 := H.get ("max", .none) (by simp [randomNames])
  have e6 := H.get ("min", .none) (by simp [randomNames])
  have e7 := H.get ("random", .none) (by simp [randomNames])
  have e8 := H.mod
  simp only at e1 e2 e3 e4 e5 e6 e7
  pyrun [e1, e2, e3, e4, e5, e6, e7, e8, clampVelocity]

/-- The loop of the model, as a fold. -/
def randomStep (lo hi : PyFloat) (g : Nat → PyFloat) (s : Nat × Melodia.Track) (e : Entry) : PyM (Nat × Melodia.Track) := do
  let n ← @Note.withVelocity W.digits e.2 (clampVelocity lo hi (g s.1))
  let r ← s.2.add (.note n) (some (.sig e.1))
  pure (s.1 + 1, r)

theorem randomizeLoop_fold (lo hi : PyFloat) (g : Nat → PyFloat) (l : List Entry) : ∀ i r,
    (l.foldlM (randomStep W lo hi g) (i, r)).map Prod.snd = @randomizeLoop W.digits lo hi g i r l := by
  let _ := W.digits
  induction l with
  | nil => intro i r; rfl
  | cons e l ih =>
    intro i r
    rw [List.foldlM_cons, randomizeLoop, randomStep]
    cases h1 : Note.withVelocity e.2 (clampVelocity lo hi (g i)) with
    | error x => rfl
    | ok n =>
      cases h2 : r.add (.note n) (some (.sig e.1)) with
      | error x => simp [h2, bind, Except.bind, Except.map]
      | ok r' => simpa [h2, bind, Except.bind, pure, Except.pure] using ih (i + 1) r'

theorem randomStep_count (lo hi : PyFloat) (g : Nat → PyFloat) (l : List Entry) : ∀ (s s' : Nat × Melodia.Track),
    l.foldlM (randomStep W lo hi g) s = .ok s' → s'.1 = s.1 + l.length := by
  let _ := W.digits
  induction l with
  | nil => intro s s' h; cases h; rfl
  | cons e l ih =>
    intro s s' h
    rw [List.foldlM_cons, randomStep] at h
    cases h1 : Note.withVelocity e.2 (clampVelocity lo hi (g s.1)) with
    | error x => simp [h1, bind, Except.bind] at h
    | ok n =>
      cases h2 : s.2.add (.note n) (some (.sig e.1)) with
      | error x => simp [h1, h2, bind, Except.bind] at h
      | ok r' =>
        have := ih (s.1 + 1, r') s' (by simpa [h1, h2, bind, Except.bind, pure, Except.pure] using h)
        simp [this]; omega

/-- The body of the loop. -/
def randomBody : List Stmt := [
  .assign (.name "new_velocity") (.call (.name "max") [.name "minimum", .call (.name "min") [.name "maximum", .call (.attr (.name "random") "gauss") [.name "mean", .name "std"] []] []] []),
  .expr (.call (.attr (.name "result") "add") [.call (.attr (.name "note") "with_velocity") [.name "new_velocity"] [], .name "position"] [])]

@[py] theorem track_add_deco : Track.add.deco = .plain := rfl

theorem random_add {b lb : Nat} {r : Melodia.Track} {e : Entry} {x : PyFloat} {env : Env} {h : Heap} (hb : TrackAt h b lb r)
    (e1 : Dict.get env.vars "result" = some (.ref b)) (e2 : Dict.get env.vars "note" = some (noteV e.2))
    (e3 : Dict.get env.vars "new_velocity" = some (.float x)) (e4 : Dict.get env.vars "position" = some (sigV e.1)) :
    evalE program W (.call (.attr (.name "result") "add") [.call (.attr (.name "note") "with_velocity") [.name "new_velocity"] [], .name "position"] []) env h =
      match @Note.withVelocity W.digits e.2 x with
      | .ok n => callFun program W Track.add [.ref b, noteV n, sigV e.1] [] h
      | .error y => some (.err y h) := by
  have hw := note_with_velocity_ok W e.2 x
  have h1 : getAttr program W (noteV e.2) "with_velocity" = pure (.meth (noteV e.2) "with_velocity") := by
    rw [getAttr.eq_def]; simp [py, noteV, note_with_velocity, Note.with_velocity]
  cases hv : @Note.withVelocity W.digits e.2 x with
  | error y =>
    rw [hv] at hw
    pyrun [e1, e2, e3, e4, hb.obj, trackFields, track_add, hw, h1, Except.map]
  | ok n =>
    rw [hv] at hw
    pyrun [e1, e2, e3, e4, hb.obj, trackFields, track_add, hw, h1, Except.map]

theorem random_body {b lb i : Nat} {lo hi mean std : PyFloat} {g : Nat → PyFloat} {r : Melodia.Track} {e : Entry} {env : Env}
    {h : Heap} (H : Has "melodia.processing.track" env (randomNames b lo hi mean std)) (hb : TrackAt h b lb r) (hwf : r.WF)
    (he : e.1.Valid ∧ e.2.Valid) (hg : g i = W.gauss h.draws mean std) :
    Ends (execB program W randomBody ((env.set "position" (sigV e.1)).set "note" (noteV e.2)) h)
      (randomStep W lo hi g (i, r) e)
      (fun s' => GoesOn fun env' h' => Has "melodia.processing.track" env' (randomNames b lo hi mean std) ∧ s'.1 = i + 1 ∧
        ∃ lb', s'.2.WF ∧ h'.draws = h.draws + 1 ∧ Becomes { h with draws := h.draws + 1 } h' b lb lb' s'.2)
      (fun _ => True) := by
  have H1 := (H.set "position" (v := sigV e.1) (by simp [sigV]) (by simp [randomNames])).set "note" (v := noteV e.2)
    (by simp [noteV]) (by simp [randomNames])
  have hv := random_velocity W (H1.weaken (l' := randomNames b lo hi mean std) (by simp [randomNames])) h
  set env1 := (env.set "position" (sigV e.1)).set "note" (noteV e.2)
  rw [← hg] at hv
  set x := clampVelocity lo hi (g i) with hx
  have H2 := H1.set "new_velocity" (v := .float x) (by simp) (by simp [randomNames])
  set env2 := env1.set "new_velocity" (.float x) with henv2
  set h1 : Heap := { h with draws := h.draws + 1 } with hh1
  have hb1 : TrackAt h1 b lb r := ⟨hb.obj, hb.list⟩
  have ha := random_add W (e := e) (x := x) hb1 (H2.get ("result", some (.ref b)) (by simp [randomNames]))
    (H2.get ("note", some (noteV e.2)) (by simp [randomNames])) (H2.get ("new_velocity", some (.float x)) (by simp [randomNames]))
    (H2.get ("position", some (sigV e.1)) (by simp [randomNames]))
  rw [randomBody, execB_next _ _ (execS_setname program W hv (H1.cell _)), randomStep]
  simp only
  rw [← hx]
  cases hn : @Note.withVelocity W.digits e.2 x with
  | error y =>
    rw [hn] at ha
    exact ⟨h1, execB_err _ _ (execS_expr_err _ _ ha), trivial⟩
  | ok n =>
    rw [hn] at ha
    have hnv : n.Valid := by
      let _ := W.digits
      obtain ⟨h1, h2, h3, h4, h5⟩ := Note.new_ok_iff.mp hn
      have hd : e.2.duration = n.duration := Except.ok.inj h2
      exact ⟨hd ▸ he.2.duration, h4, h5⟩
    obtain ⟨h', l', t', g1, g2, g3, g4⟩ := add_run W hb1 hwf (what := .note n) (by simpa [What.Valid, What.notes] using hnv) (v := noteV n) rfl
      (pos := some (.sig e.1)) (by rintro s ⟨⟩; exact he.1) (w := sigV e.1) (.arg _ _ (by simp [sigV]) (.sig _)) (p := e.1) rfl
      (args := [.ref b, noteV n, sigV e.1]) (kws := []) (by simp [py, Track.add])
    have hm : (do
        let n ← (Except.ok n : PyM Note)
        let r ← r.add (.note n) (some (.sig e.1))
        pure (i + 1, r)) = (.ok (i + 1, t') : PyM _) := by
      simp [g1, bind, Except.bind, pure, Except.pure]
    rw [hm]
    refine ⟨.next env2, h', ?_, ?_⟩
    · exact (execB_next _ _ (execS_expr _ _ (ha.trans g3))).trans (execB_nil _ _ _ _)
    · exact ⟨env2, .inl rfl, H2.weaken (by simp [randomNames]), rfl, l', g2, g4.frame.draws, g4⟩

/-- `randomize_velocities(...)` does what the model says. -/
theorem random_run (hN : W.sort.Natural) {h : Heap} {a l : Nat} {t : Melodia.Track} (ht : TrackAt h a l t) (hwf : t.WF)
    (lo hi mean var : PyFloat) {args : List Val} {kws : List (String × Val)}
    (hb : bindParams program W processing.randomize_velocities.params args kws
      { mod := processing.randomize_velocities.mod, vars := [] } = pure (randomEnv a lo hi mean var).vars) :
    match (@randomizeVelocities W.digits W.sort t lo hi mean var (fun i => W.gauss (h.draws + i) mean (W.sqrt var))).2 with
    | .ok u => ∃ h' b lb, callFun program W processing.randomize_velocities args kws h = some (.ok (.ref b) h') ∧
        TrackAt h' b lb u ∧ u.WF ∧ h.objs.length ≤ b ∧ h.objs.length ≤ lb ∧ h'.draws = h.draws + t.len ∧
        Becomes { h with draws := h.draws + t.len } h' a l l (t.iter W.sort).1
    | .error e => callFun program W processing.randomize_velocities args kws h = some (.err e h) := by
  have hch := random_checks W a lo hi mean var h
  set cs := ((PyFloat.fin 0).le lo && lo.le (.fin 1)) && ((PyFloat.fin 0).le hi && hi.le (.fin 1)) &&
        ((PyFloat.fin 0).le mean && mean.le (.fin 1)) && (PyFloat.fin 0).le var with hcs
  have hbody : processing.randomize_velocities.body = processing.randomize_velocities.body.take 4 ++
    [.assign (.name "result") (.call (.name "Track") [.attr (.name "track") "signature"] ["signature"]),
    .assign (.name "std") (.call (.attr (.name "math") "sqrt") [.name "variance"] []),
    .for (.tuple [.name "position", .name "note"]) (.name "track") randomBody,
    .ret (.name "result")] := rfl
  cases hc : cs with
  | false =>
    have : (@randomizeVelocities W.digits W.sort t lo hi mean var (fun i => W.gauss (h.draws + i) mean (W.sqrt var))).2 =
        .error .valueError := by
      rw [hcs] at hc
      unfold randomizeVelocities
      revert hc
      generalize ((PyFloat.fin 0).le lo && lo.le (.fin 1)) = c1
      generalize ((PyFloat.fin 0).le hi && hi.le (.fin 1)) = c2
      generalize ((PyFloat.fin 0).le mean && mean.le (.fin 1)) = c3
      generalize (PyFloat.fin 0).le var = c4
      cases c1 <;> cases c2 <;> cases c3 <;> cases c4 <;> intro hc <;> first | rfl | cases hc
    rw [this]
    rw [hc] at hch
    refine callFun_err program W hb rfl ?_
    rw [hbody]
    exact execB_append_err hch
  | true =>
    rw [hc] at hch
    have hmod : (@randomizeVelocities W.digits W.sort t lo hi mean var (fun i => W.gauss (h.draws + i) mean (W.sqrt var))).2 =
        @randomizeLoop W.digits lo hi (fun i => W.gauss (h.draws + i) mean (W.sqrt var)) 0 (Track.empty t.signature) (t.items W.sort) := by
      rw [hcs] at hc
      unfold randomizeVelocities
      simp only [Bool.and_eq_true] at hc
      rw [if_neg (by simp [hc]), if_neg (by simp [hc]), if_neg (by simp [hc]), if_neg (by simp [hc])]
      rfl
    rw [hmod]
    set g : Nat → PyFloat := fun i => W.gauss (h.draws + i) mean (W.sqrt var) with hg
    -- the new track
    obtain ⟨h1, lb, n1, n2, n3, n4, n5⟩ := (track_new_run W (h := h) (s := .sig t.signature) (.sig _) hwf.sig (content := [])
      (by simp) (c := .none) (l0 := 0) (.inl ⟨rfl, rfl⟩) (args := []) (kws := [("signature", sigV t.signature)])
      (by simp [py, Track.dunder_init])).1 (Track.empty t.signature) rfl
    have hsig : callFun program W Track.signature [.ref a] [] h = some (.ok (sigV t.signature) h) :=
      (getAttr_ref_prop _ _ ht.obj rfl (by simp) track_signature rfl).symm.trans (track_signature_ok W ht)
    have s1 : execS program W (.assign (.name "result") (.call (.name "Track") [.attr (.name "track") "signature"] ["signature"]))
        (randomEnv a lo hi mean var) h = some (.ok (.next ((randomEnv a lo hi mean var).set "result" (.ref h.objs.length))) h1) := by
      have hd : Track.signature.deco = .property := rfl
      pyrun [randomEnv, ht.obj, trackFields, track_signature, hd, hsig, n1]
    have ht1 : TrackAt h1 a l t := ⟨n5.at ht.obj (by simp), n5.at ht.list (by simp)⟩
    have s2 : execS program W (.assign (.name "std") (.call (.attr (.name "math") "sqrt") [.name "variance"] []))
        ((randomEnv a lo hi mean var).set "result" (.ref h.objs.length)) h1 =
        some (.ok (.next (((randomEnv a lo hi mean var).set "result" (.ref h.objs.length)).set "std" (.float (W.sqrt var)))) h1) := by
      pyrun [randomEnv]
    set env2 := ((randomEnv a lo hi mean var).set "result" (.ref h.objs.length)).set "std" (.float (W.sqrt var)) with henv2
    have H2 : Has "melodia.processing.track" env2 (randomNames h.objs.length lo hi mean (W.sqrt var)) := by
      refine ⟨rfl, ?_, ?_⟩
      · intro p hp
        simp only [randomNames, List.mem_cons, List.not_mem_nil, or_false] at hp
        rcases hp with rfl | rfl | rfl | rfl | rfl | rfl | rfl | rfl <;> rfl
      · intro x c
        simp only [henv2, randomEnv, Env.set, Dict.get_set, Dict.get]
        repeat' split
        all_goals simp
    obtain ⟨h2, i1, i2⟩ := iter_run W hN ht1 hwf
    have hla : a < h.objs.length := lt_of_at ht.obj
    have hll : l < h.objs.length := lt_of_at ht.list
    have hn3 : TrackAt h2 h.objs.length lb (Track.empty t.signature) :=
      ⟨i2.frame.at n3.obj (by simp [Own]; omega), i2.frame.at n3.list (by simp [Own]; omega)⟩
    have fr2 : Frame (Own a l) h h2 := n5.trans i2.frame (by simp) (fun _ _ h => h)
    let I : Nat × Melodia.Track → Env → Heap → Prop := fun s env h' =>
      Has "melodia.processing.track" env (randomNames h.objs.length lo hi mean (W.sqrt var)) ∧ s.2.WF ∧
      ∃ lb', TrackAt h' h.objs.length lb' s.2 ∧ h.objs.length ≤ lb' ∧ TrackAt h' a l (t.iter W.sort).1 ∧
        Frame (Own a l) { h with draws := h.draws + s.1 } h'
    have hitems : (t.iter W.sort).1.heap = t.items W.sort := rfl
    have hloop := for_ends (P := program) (W := W) (p := .tuple [.name "position", .name "note"]) (e := .name "track")
      (body := randomBody) (v := .ref a) (it := .iter l) (xs := t.items W.sort) (g := entryV) I (fun _ => True)
      (randomStep W lo hi g) (s := (0, Track.empty t.signature)) (env := env2) (h := h1) (h1 := h1) (h2 := h2)
      (evalE_name _ _ rfl rfl _) ((getIter_ref_inst _ _ ht1.obj track_iter).trans i1) (by simp)
      (by
        rintro s env h' ⟨-, -, -, -, -, ht', -⟩ i
        simp [itemAt, ht'.list, hitems])
      (by
        rintro ⟨i, r⟩ env h' e he ⟨H, hr, lb', hb, hlb, ht', fr⟩
        have hev := Track.items_valid W.sort hwf e he
        refine ⟨((env.set "position" (sigV e.1)).set "note" (noteV e.2)).vars, by simp [py, bindPat, entryV, Env.set]; rfl, ?_⟩
        refine (random_body W (g := g) (i := i) H hb hr hev (by simp [hg, fr.draws])).mono ?_ (fun _ h => h)
        rintro s r' h'' - ⟨env', hr', H', hs, lb2, hw, hd, hB⟩
        have fb : Frame (Own h.objs.length lb') { h' with draws := h'.draws + 1 } h'' := hB.frame
        refine ⟨env', hr', H', hw, lb2, hB.track, ?_, ?_, ?_⟩
        · have := fr.len
          rcases hB.addr with rfl | h6
          · exact hlb
          · exact le_trans this h6
        · exact ⟨fb.at (b := a) ht'.obj (by simp [Own]; omega), fb.at (b := l) ht'.list (by simp [Own]; omega)⟩
        · refine ⟨le_trans fr.len fb.len, ?_, ?_⟩
          · rw [hd, fr.draws, hs]; simp; omega
          · intro x hx hS
            rw [fb.keep x (lt_of_lt_of_le hx fr.len) (by simp only [Own]; simp at hx; omega)]
            exact fr.keep x hx hS)
      ⟨H2, n2, lb, hn3, n4.le, i2.track, by simpa using fr2⟩
    rw [← randomizeLoop_fold]
    have hex : ∃ s, (t.items W.sort).foldlM (randomStep W lo hi g) (0, Track.empty t.signature) = .ok s := by
      rw [hcs] at hc
      simp only [Bool.and_eq_true] at hc
      obtain ⟨ql, rfl, a1, a2⟩ := (PyFloat.inUnit_iff lo).mp (by simp [hc])
      obtain ⟨qh, rfl, b1, b2⟩ := (PyFloat.inUnit_iff hi).mp (by simp [hc])
      obtain ⟨u, hu, -⟩ := @randomizeLoop_spec W.digits ql qh a1 a2 b2 g (t.items W.sort) 0 _ (Track.empty_wf hwf.sig)
        (Track.items_valid W.sort hwf)
      rw [← randomizeLoop_fold] at hu
      cases hx : (t.items W.sort).foldlM (randomStep W (.fin ql) (.fin qh) g) (0, Track.empty t.signature) with
      | ok s => exact ⟨s, rfl⟩
      | error e => rw [hx] at hu; cases hu
    obtain ⟨⟨i, u⟩, hs⟩ := hex
    have hcnt := randomStep_count W lo hi g _ _ _ hs
    rw [hs] at hloop ⊢
    obtain ⟨r, h3, l1, env3, rfl, H3, hu, lb', l2, l3, l4, l5⟩ := hloop
    have hlen : i = t.len := hcnt.trans ((Nat.zero_add _).trans (Track.items_length W.sort t))
    subst hlen
    refine ⟨h3, h.objs.length, lb', ?_, l2, hu, le_rfl, l3, l5.draws, l4, l5, .inl rfl⟩
    rw [callFun_run program W hb rfl (r := .ret (.ref h.objs.length) env3) (h1 := h3)]
    · rfl
    · rw [hbody]
      refine (execB_append_next (hch.trans (if_pos rfl))).trans ?_
      rw [execB_next _ _ s1, execB_next _ _ s2, execB_next _ _ l1]
      exact execB_ret _ _ (execS_ret program W (H3.name _ _ (by simp [randomNames]) _))

set_option maxHeartbeats 1000000 in
theorem random_bind (a : Nat) (lo hi mean var : Option PyFloat) :
    bindParams program W processing.randomize_velocities.params [.ref a] ((randomVars a lo hi mean var).drop 2)
        { mod := processing.randomize_velocities.mod, vars := [] } = pure (randomEnv a (lo.getD (.fin (1 / 2))) (hi.getD (.fin 1))
          (mean.getD (.fin (3 / 4))) (var.getD (.fin (5764607523034235 / 576460752303423488)))).vars := by
  cases lo <;> cases hi <;> cases mean <;> cases var <;>
    simp [py, processing.randomize_velocities, randomVars, randomEnv]

/-- `randomize_velocities(...)` in a user's program. -/
theorem user_random {a : Nat} {lo hi mean var : PyFloat} {vars : List (String × Val)} {e : Expr}
    (hc : RandomCall a lo hi mean var vars e) (h : Heap) :
    ∃ args kws, userEval W vars e h = callFun program W processing.randomize_velocities args kws h ∧
      bindParams program W processing.randomize_velocities.params args kws
        { mod := processing.randomize_velocities.mod, vars := [] } = pure (randomEnv a lo hi mean var).vars := by
  cases hc with
  | kw lo hi mean var =>
    refine ⟨[.ref a], (randomVars a lo hi mean var).drop 2, ?_, ?_⟩
    · have hg : (∀ o ∈ randomVars a lo hi mean var, Dict.get (randomVars a lo hi mean var ++ userNames) o.1 = some o.2 ∧
          readVar o.2 = pure o.2) := by
        cases lo <;> cases hi <;> cases mean <;> cases var <;> simp [randomVars, userNames, Dict.get, readVar]
      refine (evalE_call_kw program W (es := [.name "t"]) (by simp)
        (evalE_name program W (v := .func "melodia.processing.track" "randomize_velocities")
          (hg ("randomize_velocities", .func "melodia.processing.track" "randomize_velocities") (by simp [randomVars])).1 rfl h)
        (evalArgs_cons _ _ (by simp) (evalE_name program W (v := .ref a) (hg ("t", .ref a) (by simp [randomVars])).1 rfl h)
          (evalArgs_nil _ _ _ _))
        (evalArgs_names W h _ (fun o ho => hg o (List.mem_of_mem_drop ho)))).trans ?_
      rw [zip_opts, call.eq_def]
      rfl
    · exact random_bind W a lo hi mean var
  | all lo hi mean var =>
    refine ⟨[.ref a, .float lo, .float hi, .float mean, .float var], [], ?_, ?_⟩
    · refine (evalE_call program W
        (evalE_name program W (v := .func "melodia.processing.track" "randomize_velocities") (by rfl) rfl h)
        (evalArgs_names W h [("t", .ref a), ("minimum", .float lo), ("maximum", .float hi), ("mean", .float mean),
          ("variance", .float var)] (by simp [Dict.get, readVar, randomVars]))).trans ?_
      rw [call.eq_def]
      rfl
    · simp [py, processing.randomize_velocities, randomEnv]

end Source

end Melodia
