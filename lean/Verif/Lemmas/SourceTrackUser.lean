/-
Tracks in a user's program.
-/
import Verif.Lemmas.SourceTrackMore
import Verif.Lemmas.CPySortNatural

set_option autoImplicit false

namespace Melodia

open Melodia.Python Melodia.Source

/-- The variables of a user's program. -/
def userEnv (vars : List (String × Val)) : Env := { mod := "__main__", vars := vars ++ userNames }

namespace Source

variable (W : World)

theorem user_name_builtin (x : String) (b : Builtin) (h : builtinName x = some (.builtin b))
    (hn : program.global 4 "__main__" x = .none) : globalName program W "__main__" x = pure (.builtin b) := by
  rw [globalName]; simp only [hn, h]

theorem user_call1 {x f : String} {b : Builtin} {v : Val} (hf : Dict.get ([(x, v)] ++ userNames) f = .none)
    (hb : builtinName f = some (.builtin b)) (hn : program.global 4 "__main__" f = .none) (hv : readVar v = pure v) (h : Heap) :
    userEval W [(x, v)] (callE f [x]) h = callBuiltin program W b [v] [] h := by
  rw [userEval, callE, List.map_cons, List.map_nil, evalE_call program W (evalE_global _ _ hf (user_name_builtin W f b hb hn) h)
    (evalArgs_cons _ _ (by simp) (evalE_name _ _ (x := x) (v := v) (by simp [Dict.get]) hv h) (evalArgs_nil _ _ _ _)),
    call_builtin]

theorem user_add {h : Heap} {a l : Nat} {t : Melodia.Track} (ht : TrackAt h a l t) {v u : Val} (hv : readVar v = pure v)
    (hu : readVar u = pure u) {vars : List (String × Val)} {e : Expr} (hc : AddCall a v u vars e) :
    ∃ args kws, userEval W vars e h = callFun program W Track.add args kws h ∧
      bindParams program W Track.add.params args kws { mod := Track.add.mod, vars := [] } =
        pure [("self", .ref a), ("what", v), ("where", u)] := by
  have hm : ∀ vars' : List (String × Val), evalE program W (.attr (.name "t") "add")
      { mod := "__main__", vars := ("t", .ref a) :: vars' } h = some (.ok (.meth (.ref a) "add") h) := fun vars' =>
    (evalE_attr_of _ _ (evalE_name program W (v := .ref a) (by rfl) rfl h)).trans
      (getAttr_ref_meth _ _ ht.obj rfl (by simp) track_add (by simp [Track.add]))
  cases hc with
  | one =>
    refine ⟨[.ref a, v], [], ?_, by simp [py, Track.add]⟩
    refine (evalE_call program W (es := [.name "x"]) (hm _) (evalArgs_cons _ _ (by simp) (evalE_name _ _ (by rfl) hv _)
      (evalArgs_nil _ _ _ _))).trans ?_
    rw [call_ref_ok _ _ _ _ ht.obj track_add (by simp [Track.add])]
  | two =>
    refine ⟨[.ref a, v, u], [], ?_, by simp [py, Track.add]⟩
    refine (evalE_call program W (es := [.name "x", .name "w"]) (hm _) (evalArgs_cons _ _ (by simp)
      (evalE_name _ _ (by rfl) hv _) (evalArgs_cons _ _ (by simp) (evalE_name _ _ (by rfl) hu _)
      (evalArgs_nil _ _ _ _)))).trans ?_
    rw [call_ref_ok _ _ _ _ ht.obj track_add (by simp [Track.add])]
  | oneKw =>
    refine ⟨[.ref a], [("what", v)], ?_, by simp [py, Track.add]⟩
    refine (evalE_call_kw program W (es := []) (ks := [.name "x"]) (kws := ["what"]) rfl (hm _) (evalArgs_nil _ _ _ _)
      (evalArgs_cons _ _ (by simp) (evalE_name _ _ (by rfl) hv _) (evalArgs_nil _ _ _ _))).trans ?_
    rw [call_ref_ok _ _ _ _ ht.obj track_add (by simp [Track.add])]
    rfl
  | whereKw =>
    refine ⟨[.ref a, v], [("where", u)], ?_, by simp [py, Track.add]⟩
    refine (evalE_call_kw program W (es := [.name "x"]) (ks := [.name "w"]) (kws := ["where"]) rfl (hm _)
      (evalArgs_cons _ _ (by simp) (evalE_name _ _ (by rfl) hv _) (evalArgs_nil _ _ _ _))
      (evalArgs_cons _ _ (by simp) (evalE_name _ _ (by rfl) hu _) (evalArgs_nil _ _ _ _))).trans ?_
    rw [call_ref_ok _ _ _ _ ht.obj track_add (by simp [Track.add])]
    rfl
  | bothKw =>
    refine ⟨[.ref a], [("where", u), ("what", v)], ?_, by simp [py, Track.add]⟩
    refine (evalE_call_kw program W (es := []) (ks := [.name "w", .name "x"]) (kws := ["where", "what"]) rfl (hm _)
      (evalArgs_nil _ _ _ _) (evalArgs_cons _ _ (by simp) (evalE_name _ _ (by rfl) hu _) (evalArgs_cons _ _ (by simp)
      (evalE_name _ _ (by rfl) hv _) (evalArgs_nil _ _ _ _)))).trans ?_
    rw [call_ref_ok _ _ _ _ ht.obj track_add (by simp [Track.add])]
    rfl

/-- `[x for x in t]`. -/
theorem user_list (hN : W.sort.Natural) {h : Heap} {a l : Nat} {t : Melodia.Track} (ht : TrackAt h a l t) (hwf : t.WF) :
    ∃ h' b, userEval W [("t", .ref a)] (.comp (.name "x") (.name "x") (.name "t")) h = some (.ok (.ref b) h') ∧
      h'.objs[b]? = some (.list ((t.items W.sort).map entryV)) ∧ Becomes h h' a l l (t.iter W.sort).1 ∧ h.objs.length ≤ b := by
  obtain ⟨h1, i1, i2⟩ := iter_run W hN ht hwf
  have hc := compLoop_list program W (elt := .name "x") (p := .name "x") (env := userEnv [("t", .ref a)])
    entryV entryV i2.track.list (by
      intro x hx
      simp only [bindPat, pure_bind]
      exact evalE_name _ _ (by rfl) rfl _)
  have he := evalE_comp program W (evalE_name program W (env := userEnv [("t", .ref a)]) (x := "t") (v := .ref a) (by rfl) rfl h)
    ((getIter_ref_inst _ _ ht.obj track_iter).trans i1) hc
  refine ⟨_, h1.objs.length, he, Heap.push_at _ _, ⟨⟨Heap.push_old i2.track.obj, Heap.push_old i2.track.list⟩, ?_, .inl rfl⟩,
    i2.frame.len⟩
  exact i2.frame.trans (Frame.push _ _) (fun _ h => h) (by simp)

theorem seen_self {t : Melodia.Track} (hwf : t.WF) : seen W.sort t t = (t.iter W.sort).1 := by
  rw [seen, if_pos]
  exact (Melodia.Signature.eq_iff hwf.sig hwf.sig).mpr rfl

/-- One step of a session. -/
theorem perform_ok (hN : W.sort.Natural) {h0 h : Heap} {l0 a l : Nat} {t : Melodia.Track} (ht : TrackAt h a l t) (hwf : t.WF)
    {o : TrackOp} (ho : o.Valid) {vars : List (String × Val)} {e : Expr} (hp : Performs h0 l0 a o vars e)
    (hargs : ∀ w v, IsWhat h0 l0 w v → IsWhat h l w v) :
    ∃ h' l', ((∃ v, userEval W vars e h = some (.ok v h')) ∨ ∃ x, userEval W vars e h = some (.err x h')) ∧
      Becomes h h' a l l' (o.step W.sort t) := by
  cases hp with
  | add w pos v u _ _ hv hu hc =>
    obtain ⟨args, kws, e1, e2⟩ := user_add W ht (readVar_what hv) (readVar_where hu) hc
    simp only [TrackOp.step]
    cases hpos : t.posOf pos with
    | error x =>
      rw [Melodia.Track.addS_of_pos_error hpos]
      exact ⟨h, l, .inr ⟨x, by rw [e1, add_run_err W ht hu hpos e2]⟩, ht, Frame.refl _ _, .inl rfl⟩
    | ok p =>
      obtain ⟨h', l', t', g1, g2, g3, g4⟩ := add_run W ht hwf ho.1 (hargs _ _ hv) ho.2 hu hpos e2
      rw [Melodia.Track.addS_of_ok g1]
      exact ⟨h', l', .inl ⟨_, by rw [e1, g3]⟩, g4⟩
  | iter =>
    obtain ⟨h', i1, i2⟩ := iter_run W hN ht hwf
    refine ⟨h', l, .inl ⟨.iter l, ?_⟩, i2⟩
    rw [user_call1 W (b := .iter) (by rfl) (by rfl) (by rfl) rfl, callBuiltin.eq_def]
    exact (getIter_ref_inst _ _ ht.obj track_iter).trans i1
  | repr =>
    obtain ⟨h', i1, i2⟩ := track_repr_ok W hN ht hwf
    exact ⟨h', l, .inl ⟨_, by rw [user_call1 W (b := .repr) (by rfl) (by rfl) (by rfl) rfl]; exact i1⟩, i2⟩
  | eq =>
    obtain ⟨h', i1, i2⟩ := track_eq_self_run W hN ht hwf
    rw [seen_self W hwf] at i2
    refine ⟨h', l, .inl ⟨.bool (t.eq W.sort t), ?_⟩, i2⟩
    refine (evalE_cmp program W (evalE_name program W (v := .ref a) (by rfl) rfl h)
      (evalE_name program W (v := .ref a) (by rfl) rfl h)).trans ?_
    rw [compareOp_eq, richCmp_ref _ _ (by simp) ht.obj track_eq]
    exact i1
  | ne =>
    obtain ⟨h', i1, i2⟩ := track_eq_self_run W hN ht hwf
    rw [seen_self W hwf] at i2
    refine ⟨h', l, .inl ⟨.bool !(t.eq W.sort t), ?_⟩, i2⟩
    refine (evalE_cmp program W (evalE_name program W (v := .ref a) (by rfl) rfl h)
      (evalE_name program W (v := .ref a) (by rfl) rfl h)).trans ?_
    rw [compareOp_ne]
    exact richCmp_ref_ne _ _ ht.obj track_eq i1
  | list =>
    obtain ⟨h', b, i1, -, i2, -⟩ := user_list W hN ht hwf
    exact ⟨h', l, .inl ⟨_, i1⟩, i2⟩
  | len =>
    exact ⟨h, l, .inl ⟨_, by rw [user_call1 W (b := .len) (by rfl) (by rfl) (by rfl) rfl]; exact track_len_ok W ht⟩, ht,
      Frame.refl _ _, .inl rfl⟩
  | str =>
    exact ⟨h, l, .inl ⟨_, by rw [user_call1 W (b := .str) (by rfl) (by rfl) (by rfl) rfl]; exact track_str_ok W ht⟩, ht,
      Frame.refl _ _, .inl rfl⟩
  | length =>
    exact ⟨h, l, .inl ⟨_, (evalE_attr_of _ _ (evalE_name program W (v := .ref a) (by rfl) rfl h)).trans
      (track_length_ok W ht)⟩, ht, Frame.refl _ _, .inl rfl⟩
  | signature =>
    exact ⟨h, l, .inl ⟨_, (evalE_attr_of _ _ (evalE_name program W (v := .ref a) (by rfl) rfl h)).trans
      (track_signature_ok W ht)⟩, ht, Frame.refl _ _, .inl rfl⟩

/-- A session. -/
theorem session_ok (hN : W.sort.Natural) {h0 : Heap} {l0 a : Nat} (ops : List TrackOp) :
    ∀ {h : Heap} {l : Nat} {t : Melodia.Track}, TrackAt h a l t → t.WF → (∀ o ∈ ops, o.Valid) →
    ∀ {steps : List (List (String × Val) × Expr)}, List.Forall₂ (fun o s => Performs h0 l0 a o s.1 s.2) ops steps →
    (∀ w v, IsWhat h0 l0 w v → IsWhat h l w v) →
    ∃ h' l', session W steps h = some h' ∧ Becomes h h' a l l' (t.run W.sort ops) := by
  induction ops with
  | nil =>
    intro h l t ht hwf _ steps hs _
    cases hs
    exact ⟨h, l, rfl, ht, Frame.refl _ _, .inl rfl⟩
  | cons o ops ih =>
    intro h l t ht hwf hv steps hs hargs
    cases hs with
    | @cons _ s _ ss hp hrest =>
    obtain ⟨h1, l1, e1, b1⟩ := perform_ok W hN ht hwf (hv o (by simp)) hp hargs
    obtain ⟨h2, l2, e2, b2⟩ := ih b1.track (Melodia.Track.step_wf W.sort hwf (hv o (by simp))).1
      (fun x hx => hv x (by simp [hx])) hrest (fun w v hw => isWhat_frame ht b1.frame b1.addr w v (hargs w v hw))
    refine ⟨h2, l2, ?_, b1.trans b2⟩
    rw [session]
    rcases e1 with ⟨v, e1⟩ | ⟨x, e1⟩
    · rw [e1]; exact e2
    · rw [e1]; exact e2

end Source

end Melodia
