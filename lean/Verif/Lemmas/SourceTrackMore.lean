/-
track.py: attributes, equality, texts and the constructor of tracks, executed from the text (continuation of SourceTrack.lean).
-/
import Verif.Lemmas.SourceTrack
import Verif.Model.Text

set_option autoImplicit false

namespace Melodia

open Melodia.Python

namespace Source

variable (W : World)

/-! ### Attributes -/

theorem track_length_ok {h : Heap} {a l : Nat} {t : Melodia.Track} (ht : TrackAt h a l t) :
    getAttr program W (.ref a) "length" h = some (.ok (sigV t.length) h) := by
  rw [getAttr_ref_prop _ _ ht.obj rfl (by simp) track_length rfl,
    callFun_run program W (vars := [("self", .ref a)]) (by simp [py, Track.length]) rfl
      (r := .ret (sigV t.length) (selfEnv a)) (h1 := h)]
  · rfl
  · exact execB_ret _ _ (execS_ret program W (evalE_attr _ _ rfl ht.obj rfl))

theorem track_signature_ok {h : Heap} {a l : Nat} {t : Melodia.Track} (ht : TrackAt h a l t) :
    getAttr program W (.ref a) "signature" h = some (.ok (sigV t.signature) h) := by
  rw [getAttr_ref_prop _ _ ht.obj rfl (by simp) track_signature rfl,
    callFun_run program W (vars := [("self", .ref a)]) (by simp [py, Track.signature]) rfl
      (r := .ret (sigV t.signature) (selfEnv a)) (h1 := h)]
  · rfl
  · exact execB_ret _ _ (execS_ret program W (evalE_attr _ _ rfl ht.obj rfl))

/-- `len(self._heap)`. -/
theorem len_heap {h : Heap} {a l : Nat} {t : Melodia.Track} (ht : TrackAt h a l t) :
    evalE program W (.call (.name "len") [.attr (.name "self") "_heap"] []) (selfEnv a) h = some (.ok (.int t.len) h) := by
  rw [evalE_call program W (evalE_global _ _ rfl (track_name_len W) _) (evalArgs_cons _ _ (by simp)
      (evalE_attr _ _ rfl ht.obj rfl) (evalArgs_nil _ _ _ _)), call_builtin, callBuiltin.eq_def]
  simp only
  rw [bind_ok (methodOf_ref_list _ _ ht.list)]
  simp only [primLen]
  rw [bind_ok (load_ok ht.list)]
  simp only [List.length_map]
  rfl

theorem track_len_ok {h : Heap} {a l : Nat} {t : Melodia.Track} (ht : TrackAt h a l t) :
    callBuiltin program W .len [.ref a] [] h = some (.ok (.int t.len) h) := by
  rw [callBuiltin.eq_def]
  simp only
  rw [bind_ok (methodOf_ref_ok _ _ ht.obj)]
  simp only [track_len]
  rw [callFun_run program W (vars := [("self", .ref a)]) (by simp [py, Track.dunder_len]) rfl
      (r := .ret (.int t.len) (selfEnv a)) (h1 := h)]
  · rfl
  · exact execB_ret _ _ (execS_ret program W (len_heap W ht))

/-! ### Texts -/

theorem append5 (a b c d e : List Char) : a ++ (b ++ (c ++ (d ++ (e ++ [])))) = a ++ b ++ c ++ d ++ e := by simp

theorem track_str_ok {h : Heap} {a l : Nat} {t : Melodia.Track} (ht : TrackAt h a l t) :
    callBuiltin program W .str [.ref a] [] h = some (.ok (.str t.str) h) := by
  have h1 : evalE program W (.call (.name "str") [.attr (.name "self") "_signature"] []) (selfEnv a) h =
      some (.ok (.str t.signature.str) h) := by
    rw [evalE_call program W (evalE_global _ _ rfl (track_name_str W) _) (evalArgs_cons _ _ (by simp)
      (evalE_attr _ _ rfl ht.obj rfl) (evalArgs_nil _ _ _ _)), call_builtin, signature_str]
    rfl
  have h2 := evalE_fstr program W (evalParts_cons _ _ (evalE_str program W (selfEnv a) "Track " h) (evalParts_cons _ _
    (evalE_field _ _ h1 (by rw [format_str]; rfl)) (evalParts_cons _ _ (evalE_str _ _ _ " with " _) (evalParts_cons _ _
    (evalE_field _ _ (len_heap W ht) (by rw [format_int]; rfl)) (evalParts_cons _ _ (evalE_str _ _ _ " notes" _)
    (evalParts_nil _ _ _ _))))))
  rw [append5] at h2
  have hc : callFun program W Track.dunder_str [.ref a] [] h = some (.ok (.str t.str) h) := by
    rw [callFun_run program W (vars := [("self", .ref a)]) (by simp [py, Track.dunder_str]) rfl
      (r := .ret (.str t.str) (selfEnv a)) (h1 := h)]
    · rfl
    · exact execB_ret _ _ (execS_ret program W h2)
  rw [callBuiltin.eq_def]
  simp only
  rw [format.eq_def, bind_assoc, bind_ok (methodOf_ref_ok _ _ ht.obj)]
  simp only [track_str]
  rw [bind_assoc, bind_ok hc]
  simp only [if_true, pure_bind]
  rfl

theorem joinStr_ok (l : List (List Char)) : joinStr ", ".toList (l.map .str) = .ok (joinComma l) := by
  induction l with
  | nil => rfl
  | cons s l ih =>
    cases l with
    | nil => rfl
    | cons r l =>
      simp only [List.map_cons, joinStr, joinComma] at ih ⊢
      rw [ih]
      rfl

theorem entry_text (a b c : List Char) :
    "(".toList ++ (a ++ (", (".toList ++ (b ++ (", ".toList ++ (c ++ ("))".toList ++ [])))))) =
      "(".toList ++ a ++ ", ".toList ++ ("(".toList ++ b ++ ", ".toList ++ c ++ ")".toList) ++ ")".toList := by
  rw [show ", (".toList = ", ".toList ++ "(".toList by decide, show "))".toList = ")".toList ++ ")".toList by decide]
  generalize "(".toList = x
  generalize ", ".toList = y
  generalize ")".toList = z
  simp

theorem repr_text (a b c : List Char) :
    a ++ ("(signature=".toList ++ (b ++ (", content=[".toList ++ (c ++ ("])".toList ++ []))))) =
      a ++ "(signature=".toList ++ b ++ ", content=[".toList ++ c ++ "])".toList := by
  generalize "(signature=".toList = x
  generalize ", content=[".toList = y
  generalize "])".toList = z
  simp

/-- `", ".join(l)` for a list of strings. -/
theorem join_ok {h : Heap} {c : Nat} {l : List (List Char)} (hc : h.objs[c]? = some (.list (l.map .str))) :
    call program W (.meth (.str ", ".toList) "join") [.ref c] [] h = some (.ok (.str (joinComma l)) h) := by
  rw [call_prim program W _ (by rfl) (by simp), primMeth]
  rw [bind_ok (load_ok hc)]
  simp only
  rw [joinStr_ok]
  rfl

/-- The body of the loop of `Track.__repr__`. -/
def reprBody : List Stmt := [
  .expr (.call (.attr (.name "contents") "append") [.fstr [.str "(", .field (.call (.name "repr") [.name "note"] []) "",
    .str ", (", .field (.attr (.name "position") "nominator") "", .str ", ", .field (.attr (.name "position") "denominator") "",
    .str "))"]] [])]

theorem repr_body {h : Heap} {c : Nat} {acc : List (List Char)} (hc : h.objs[c]? = some (.list (acc.map .str))) {env : Env}
    (hm : env.mod = "melodia.core.track") (e : Entry) (hcv : Dict.get env.vars "contents" = some (.ref c))
    (hp : Dict.get env.vars "position" = some (sigV e.1)) (hn : Dict.get env.vars "note" = some (noteV e.2))
    (hr : Dict.get env.vars "repr" = .none) :
    execB program W reprBody env h =
      some (.ok (.next env) (h.put c (.list ((acc ++ [Entry.repr W.floatText e]).map .str)))) := by
  have h1 : evalE program W (.call (.name "repr") [.name "note"] []) env h =
      some (.ok (.str (e.2.repr W.floatText)) h) := by
    rw [evalE_call program W (evalE_global _ _ hr (by rw [hm]; exact track_name_repr W) _) (evalArgs_cons _ _ (by simp)
      (evalE_name _ _ hn rfl _) (evalArgs_nil _ _ _ _)), call_builtin, note_repr_ok]
    rfl
  have h2 : evalE program W (.attr (.name "position") "nominator") env h = some (.ok (.int e.1.nominator) h) := by
    rw [evalE_attr_of _ _ (evalE_name _ _ hp rfl _), signature_nominator]; rfl
  have h3 : evalE program W (.attr (.name "position") "denominator") env h = some (.ok (.int e.1.denominator) h) := by
    rw [evalE_attr_of _ _ (evalE_name _ _ hp rfl _), signature_denominator]; rfl
  have h4 := evalE_fstr program W (evalParts_cons _ _ (evalE_str program W env "(" h) (evalParts_cons _ _
    (evalE_field _ _ h1 (by rw [format_str]; rfl)) (evalParts_cons _ _ (evalE_str _ _ _ ", (" _) (evalParts_cons _ _
    (evalE_field _ _ h2 (by rw [format_int]; rfl)) (evalParts_cons _ _ (evalE_str _ _ _ ", " _) (evalParts_cons _ _
    (evalE_field _ _ h3 (by rw [format_int]; rfl)) (evalParts_cons _ _ (evalE_str _ _ _ "))" _)
    (evalParts_nil _ _ _ _))))))))
  rw [entry_text] at h4
  have h5 := evalE_call program W ((evalE_attr_of _ _ (x := "append") (evalE_name _ _ hcv rfl h)).trans
    (getAttr_ref_prim _ _ hc rfl)) (evalArgs_cons _ _ (by simp) h4 (evalArgs_nil _ _ _ _))
  rw [call_append program W hc] at h5
  rw [reprBody, execB_next _ _ (execS_expr _ _ h5), execB_nil, List.map_append]
  rfl

theorem repr_loop {l c : Nat} (hne : l ≠ c) (items : List Entry) : ∀ (n i : Nat) (acc : List (List Char)) (h : Heap) (env : Env),
    items.length - i = n → h.objs[l]? = some (.list (items.map entryV)) → h.objs[c]? = some (.list (acc.map .str)) →
    env.mod = "melodia.core.track" → Dict.get env.vars "contents" = some (.ref c) → Dict.get env.vars "repr" = .none →
    ∃ env', forLoop program W (.tuple [.name "position", .name "note"]) reprBody (.iter l) i env h =
        some (.ok (.next env') (h.put c (.list ((acc ++ (items.drop i).map (Entry.repr W.floatText)).map .str)))) ∧
      env'.mod = "melodia.core.track" ∧
      ∀ x, x ≠ "position" → x ≠ "note" → Dict.get env'.vars x = Dict.get env.vars x := by
  intro n
  induction n with
  | zero =>
    intro i acc h env hi hl hc hm hcv hr
    refine ⟨env, ?_, hm, fun _ _ _ => rfl⟩
    rw [forLoop_none, List.drop_eq_nil_of_le (by omega)]
    · rw [List.map_nil, List.append_nil, Heap.put]
      have : h.objs.set c (.list (acc.map .str)) = h.objs := by
        apply List.ext_getElem?
        intro j
        by_cases hj : j = c
        · subst hj; rw [List.getElem?_set_self (lt_of_at hc), hc]
        · rw [List.getElem?_set_ne (Ne.symm hj)]
      rw [this]
    · simp only [itemAt, hl]
      exact List.getElem?_eq_none (by simp; omega)
  | succ n ih =>
    intro i acc h env hi hl hc hm hcv hr
    have hlt : i < items.length := by omega
    rw [forLoop_some program W _ _ _ i env h (entryV items[i]) (by simp [itemAt, hl, hlt])]
    simp only [entryV, bindPat, unpack, bindPats, pure_bind]
    set env1 : Env := { env with vars := Dict.set (Dict.set env.vars "position" (sigV items[i].1)) "note" (noteV items[i].2) }
      with henv1
    have g : ∀ x, x ≠ "position" → x ≠ "note" → Dict.get env1.vars x = Dict.get env.vars x := by
      intro x h1 h2
      simp only [henv1]
      rw [Dict.get_set, if_neg (Ne.symm h2), Dict.get_set, if_neg (Ne.symm h1)]
    rw [bind_ok (repr_body W hc (env := env1) hm items[i] (by rw [g _ (by simp) (by simp)]; exact hcv)
      (by simp [henv1, Dict.get_set]) (by simp [henv1, Dict.get_set]) (by rw [g _ (by simp) (by simp)]; exact hr))]
    simp only
    obtain ⟨env', e1, e2, e3⟩ := ih (i + 1) (acc ++ [Entry.repr W.floatText items[i]])
      (h.put c (.list ((acc ++ [Entry.repr W.floatText items[i]]).map .str))) env1 (by omega)
      (by rw [Heap.put_ne hne]; exact hl) (Heap.put_at hc) hm (by rw [g _ (by simp) (by simp)]; exact hcv)
      (by rw [g _ (by simp) (by simp)]; exact hr)
    refine ⟨env', ?_, e2, fun x h1 h2 => by rw [e3 x h1 h2, g x h1 h2]⟩
    rw [e1, Heap.put_put, List.drop_eq_getElem_cons hlt, List.map_cons, List.append_assoc, List.singleton_append]

/-- `repr(track)`. -/
theorem track_repr_ok (hN : W.sort.Natural) {h : Heap} {a l : Nat} {t : Melodia.Track} (ht : TrackAt h a l t) (hwf : t.WF) :
    ∃ h', callBuiltin program W .repr [.ref a] [] h = some (.ok (.str (t.repr W.sort W.floatText).2) h') ∧
      Becomes h h' a l l (t.repr W.sort W.floatText).1 := by
  have e1 : evalE program W (.attr (.attr (.name "self") "__class__") "__name__") (selfEnv a) h =
      some (.ok (.str "Track".toList) h) := by
    rw [evalE_attr_of _ _ ((evalE_attr_of _ _ (evalE_name _ _ rfl rfl h)).trans (getAttr_ref_class _ _ ht.obj rfl)),
      getAttr.eq_def]
    rfl
  set env1 := (selfEnv a).set "name" (.str "Track".toList) with henv1
  have e2a : evalE program W (.attr (.attr (.name "self") "_signature") "nominator") env1 h =
      some (.ok (.int t.signature.nominator) h) := by
    rw [evalE_attr_of _ _ (evalE_attr _ _ rfl ht.obj rfl), signature_nominator]; rfl
  have e2b : evalE program W (.attr (.attr (.name "self") "_signature") "denominator") env1 h =
      some (.ok (.int t.signature.denominator) h) := by
    rw [evalE_attr_of _ _ (evalE_attr _ _ rfl ht.obj rfl), signature_denominator]; rfl
  have e2 := evalE_fstr program W (evalParts_cons _ _ (evalE_str program W env1 "(" h) (evalParts_cons _ _
    (evalE_field _ _ e2a (by rw [format_int]; rfl)) (evalParts_cons _ _ (evalE_str _ _ _ ", " _) (evalParts_cons _ _
    (evalE_field _ _ e2b (by rw [format_int]; rfl)) (evalParts_cons _ _ (evalE_str _ _ _ ")" _)
    (evalParts_nil _ _ _ _))))))
  rw [append5, ← Melodia.Signature.tupleText] at e2
  set env2 := env1.set "signature" (.str t.signature.tupleText) with henv2
  have e3 : evalE program W (.list []) env2 h = _ := evalE_list _ _ (evalArgs_nil _ _ _ _)
  set h1 := h.push (.list []) with hh1
  set env3 := env2.set "contents" (.ref h.objs.length) with henv3
  have ht1 : TrackAt h1 a l t := ⟨Heap.push_old ht.obj, Heap.push_old ht.list⟩
  obtain ⟨h2, i1, i2⟩ := iter_run W hN ht1 hwf
  have hc2 : h2.objs[h.objs.length]? = some (.list (([] : List (List Char)).map .str)) := by
    refine i2.frame.at (Heap.push_at _ _) ?_
    rintro (hb | hb)
    · exact absurd (lt_of_at ht.obj) (by omega)
    · exact absurd (lt_of_at ht.list) (by omega)
  have hlc : l ≠ h.objs.length := (lt_of_at ht.list).ne
  have hac : a ≠ h.objs.length := (lt_of_at ht.obj).ne
  obtain ⟨env4, l1, l2, l3⟩ := repr_loop W hlc (t.iter W.sort).1.heap _ 0 [] h2 env3 rfl i2.track.list hc2 rfl rfl rfl
  rw [List.drop_zero, List.nil_append] at l1
  set texts := (t.iter W.sort).1.heap.map (Entry.repr W.floatText) with htexts
  set h3 := h2.put h.objs.length (.list (texts.map .str)) with hh3
  have hc3 : h3.objs[h.objs.length]? = some (.list (texts.map .str)) := Heap.put_at hc2
  have g1 : Dict.get env4.vars "name" = some (.str "Track".toList) := by rw [l3 _ (by simp) (by simp)]; rfl
  have g2 : Dict.get env4.vars "signature" = some (.str t.signature.tupleText) := by rw [l3 _ (by simp) (by simp)]; rfl
  have g3 : Dict.get env4.vars "contents" = some (.ref h.objs.length) := by rw [l3 _ (by simp) (by simp)]; rfl
  have e5 : evalE program W (.call (.attr (.str ", ") "join") [.name "contents"] []) env4 h3 =
      some (.ok (.str (joinComma texts)) h3) := by
    rw [evalE_call program W (h1 := h3) (g := .meth (.str ", ".toList) "join")
      ((evalE_attr_of _ _ (evalE_str _ _ _ _ _)).trans (by rw [getAttr.eq_def]; rfl)) (evalArgs_cons _ _ (by simp)
      (evalE_name _ _ g3 rfl _) (evalArgs_nil _ _ _ _))]
    exact join_ok W hc3
  have e6 := evalE_fstr program W (evalParts_cons _ _ (evalE_field _ _ (evalE_name program W g1 rfl h3)
    (by rw [format_str]; rfl)) (evalParts_cons _ _ (evalE_str _ _ _ "(signature=" _) (evalParts_cons _ _
    (evalE_field _ _ (evalE_name _ _ g2 rfl _) (by rw [format_str]; rfl)) (evalParts_cons _ _
    (evalE_str _ _ _ ", content=[" _) (evalParts_cons _ _ (evalE_field _ _ e5 (by rw [format_str]; rfl))
    (evalParts_cons _ _ (evalE_str _ _ _ "])" _) (evalParts_nil _ _ _ _)))))))
  rw [repr_text] at e6
  have hfin : (t.repr W.sort W.floatText).2 = "Track".toList ++ "(signature=".toList ++ t.signature.tupleText ++
      ", content=[".toList ++ joinComma texts ++ "])".toList := by
    rw [Melodia.Track.repr, show "Track(signature=".toList = "Track".toList ++ "(signature=".toList by decide]
    rfl
  rw [← hfin] at e6
  refine ⟨h3, ?_, ⟨?_, ?_⟩, ?_, .inl rfl⟩
  · rw [callBuiltin.eq_def]
    simp only
    rw [bind_ok (methodOf_ref_ok _ _ ht.obj)]
    simp only [track_repr]
    rw [callFun_run program W (vars := [("self", .ref a)]) (by simp [py, Track.dunder_repr]) rfl
      (r := .ret (.str (t.repr W.sort W.floatText).2) env4) (h1 := h3)]
    · rfl
    · change execB program W (_ :: _) (selfEnv a) h = _
      rw [execB_next _ _ (execS_setname _ _ e1 (by simp [selfEnv, py])),
        execB_next _ _ (execS_setname _ _ e2 (by simp [henv1, Env.set, selfEnv, py])),
        execB_next _ _ (execS_setname _ _ e3 (by simp [henv2, henv1, Env.set, selfEnv, py])),
        execB_next (env1 := env4) (h1 := h3)]
      · exact execB_ret _ _ (execS_ret program W e6)
      · rw [execS_for _ _ (evalE_name _ _ rfl rfl _) ((getIter_ref_inst _ _ ht1.obj track_iter).trans i1) (by simp)]
        exact l1
  · rw [hh3, Heap.put_ne hac]; exact i2.track.obj
  · rw [hh3, Heap.put_ne hlc]; exact i2.track.list
  · refine ((Frame.push h _).trans i2.frame (U := Own a l) (by simp) (fun _ _ h => h)).trans (Frame.put _ _ _)
      (fun _ h => h) ?_
    rintro b hb rfl
    exact absurd hb (lt_irrefl _)

/-! ### Equality -/

/-- The body of the loop of `Track.__eq__`. -/
def eqBody : List Stmt := [
  .ite (.or (.cmp (.name "an") [.ne] [.name "bn"]) (.cmp (.name "ap") [.ne] [.name "bp"])) [.ret (.bool false)] []]

/-- The pattern of the loop. -/
def eqPat : Pat := .tuple [.tuple [.name "ap", .name "an"], .tuple [.name "bp", .name "bn"]]

theorem eq_body {h : Heap} {env : Env} {x y : Entry} (hx : EntryOk x) (hy : EntryOk y)
    (h1 : Dict.get env.vars "an" = some (noteV x.2)) (h2 : Dict.get env.vars "bn" = some (noteV y.2))
    (h3 : Dict.get env.vars "ap" = some (sigV x.1)) (h4 : Dict.get env.vars "bp" = some (sigV y.1)) :
    execB program W eqBody env h =
      some (.ok (if !x.2.eq y.2 || !x.1.eq y.1 then .ret (.bool false) env else .next env) h) := by
  have e1 : evalE program W (.cmp (.name "an") [.ne] [.name "bn"]) env h = some (.ok (.bool !x.2.eq y.2) h) := by
    rw [evalE_cmp program W (evalE_name _ _ h1 rfl _) (evalE_name _ _ h2 rfl _), compareOp_ne, note_ne_ok W hx.2 hy.2]
    rfl
  have e2 : evalE program W (.cmp (.name "ap") [.ne] [.name "bp"]) env h = some (.ok (.bool !x.1.eq y.1) h) := by
    rw [evalE_cmp program W (evalE_name _ _ h3 rfl _) (evalE_name _ _ h4 rfl _), compareOp_ne, signature_ne W _ _ hx.1 hy.1]
    rfl
  have e3 : evalE program W (.or (.cmp (.name "an") [.ne] [.name "bn"]) (.cmp (.name "ap") [.ne] [.name "bp"])) env h =
      some (.ok (.bool (!x.2.eq y.2 || !x.1.eq y.1)) h) := by
    rw [evalE_or _ _ e1]
    cases x.2.eq y.2
    · rfl
    · exact e2
  have e4 : evalE program W (.bool false) env h = some (.ok (.bool false) h) := by rw [evalE]; rfl
  rw [eqBody]
  cases hb : (!x.2.eq y.2 || !x.1.eq y.1)
  · rw [hb] at e3
    rw [execB_next (env1 := env) (h1 := h)]
    · exact execB_nil _ _ _ _
    · rw [execS_ite _ _ _ _ e3]; exact execB_nil _ _ _ _
  · rw [hb] at e3
    refine execB_ret _ _ ?_
    rw [execS_ite _ _ _ _ e3]
    exact execB_ret _ _ (execS_ret program W e4)

theorem eq_loop {h : Heap} {l m : Nat} {xs ys : List Entry} (hl : h.objs[l]? = some (.list (xs.map entryV)))
    (hm : h.objs[m]? = some (.list (ys.map entryV))) (hx : ∀ x ∈ xs, EntryOk x) (hy : ∀ y ∈ ys, EntryOk y) :
    ∀ (n i : Nat) (env : Env), xs.length - i = n → ∃ env', forLoop program W eqPat eqBody (.zip (.iter l) (.iter m)) i env h =
      some (.ok (if Melodia.Track.zipEq (xs.drop i) (ys.drop i) then .next env' else .ret (.bool false) env') h) := by
  intro n
  induction n with
  | zero =>
    intro i env hi
    refine ⟨env, ?_⟩
    rw [List.drop_eq_nil_of_le (as := xs) (by omega), forLoop_none]
    · simp [Melodia.Track.zipEq]
    · simp only [itemAt, hl]
      rw [List.getElem?_eq_none (by simp; omega)]
  | succ n ih =>
    intro i env hi
    have hlt : i < xs.length := by omega
    by_cases hlt' : i < ys.length
    · rw [forLoop_some program W _ _ _ i env h (.tuple [entryV xs[i], entryV ys[i]]) (by simp [itemAt, hl, hm, hlt, hlt'])]
      simp only [eqPat, entryV, bindPat, unpack, bindPats, pure_bind]
      set env1 : Env := { env with vars := Dict.set (Dict.set (Dict.set (Dict.set env.vars "ap" (sigV xs[i].1)) "an"
        (noteV xs[i].2)) "bp" (sigV ys[i].1)) "bn" (noteV ys[i].2) } with henv1
      rw [bind_ok (eq_body W (env := env1) (hx _ (List.getElem_mem hlt)) (hy _ (List.getElem_mem hlt'))
        (by simp [henv1, Dict.get_set]) (by simp [henv1, Dict.get_set]) (by simp [henv1, Dict.get_set])
        (by simp [henv1, Dict.get_set])), List.drop_eq_getElem_cons hlt, List.drop_eq_getElem_cons hlt', Melodia.Track.zipEq]
      cases (!xs[i].2.eq ys[i].2 || !xs[i].1.eq ys[i].1)
      · obtain ⟨env', he⟩ := ih (i + 1) env1 (by omega)
        exact ⟨env', by simpa [eqPat] using he⟩
      · exact ⟨env1, by simp; rfl⟩
    · refine ⟨env, ?_⟩
      rw [List.drop_eq_nil_of_le (as := ys) (by omega), forLoop_none]
      · simp [Melodia.Track.zipEq]
      · simp only [itemAt, hl, hm]
        rw [List.getElem?_eq_none (l := ys.map entryV) (by simp; omega)]
        simp

/-- The variables of `Track.__eq__`. -/
def eqEnv (a b : Nat) : Env := { mod := "melodia.core.track", vars := [("self", .ref a), ("other", .ref b)] }

/-- A run of `Track.__eq__`, from the iterators of the two tracks. -/
theorem eq_run {h h1 h2 : Heap} {a b l m : Nat} {t u : Melodia.Track} (ht : TrackAt h a l t) (hu : TrackAt h b m u)
    (hwt : t.WF) (hwu : u.WF) (h1a : getIter program W (.ref a) h = some (.ok (.iter l) h1))
    (h1b : getIter program W (.ref b) h1 = some (.ok (.iter m) h2))
    (hl : h2.objs[l]? = some (.list ((t.items W.sort).map entryV)))
    (hm : h2.objs[m]? = some (.list ((u.items W.sort).map entryV))) :
    callFun program W Track.dunder_eq [.ref a, .ref b] [] h =
      some (.ok (.bool (t.eq W.sort u)) (if t.signature.eq u.signature then h2 else h)) := by
  have e1 : evalE program W (.cmp (.attr (.name "self") "_signature") [.ne] [.attr (.name "other") "_signature"]) (eqEnv a b) h =
      some (.ok (.bool !t.signature.eq u.signature) h) := by
    rw [evalE_cmp program W (evalE_attr _ _ rfl ht.obj rfl) (evalE_attr _ _ rfl hu.obj rfl), compareOp_ne,
      signature_ne W _ _ hwt.sig.denPos.ne' hwu.sig.denPos.ne']
    rfl
  have e2 : ∀ b', evalE program W (.bool b') (eqEnv a b) h = some (.ok (.bool b') h) := by intro b'; rw [evalE]; rfl
  have hp : bindParams program W Track.dunder_eq.params [.ref a, .ref b] [] { mod := Track.dunder_eq.mod, vars := [] } =
      pure [("self", .ref a), ("other", .ref b)] := by simp [py, Track.dunder_eq]
  rw [Melodia.Track.eq]
  cases hs : t.signature.eq u.signature
  · rw [hs] at e1
    rw [callFun_run program W hp rfl (r := .ret (.bool false) (eqEnv a b)) (h1 := h)]
    · rfl
    · change execB program W (_ :: _) (eqEnv a b) h = _
      refine execB_ret _ _ ?_
      rw [execS_ite _ _ _ _ e1]
      exact execB_ret _ _ (execS_ret program W (e2 _))
  · rw [hs] at e1
    have ez : evalE program W (.call (.name "zip") [.name "self", .name "other"] []) (eqEnv a b) h =
        some (.ok (.zip (.iter l) (.iter m)) h2) := by
      rw [evalE_call program W (evalE_global _ _ rfl (track_name_zip W) _) (evalArgs_cons _ _ (by simp)
        (evalE_name _ _ rfl rfl _) (evalArgs_cons _ _ (by simp) (evalE_name _ _ rfl rfl _) (evalArgs_nil _ _ _ _))),
        call_builtin, callBuiltin.eq_def]
      simp only
      rw [bind_ok h1a, bind_ok h1b]
      rfl
    have hok : ∀ {s : Melodia.Track}, s.WF → ∀ e ∈ s.items W.sort, EntryOk e := fun {s} hs e he =>
      entries_ok (Melodia.Track.iter_wf W.sort hs) e he
    obtain ⟨env', he⟩ := eq_loop W hl hm (hok hwt) (hok hwu) _ 0 (eqEnv a b) rfl
    simp only [List.drop_zero] at he
    have hfirst : execS program W (.ite (.cmp (.attr (.name "self") "_signature") [.ne] [.attr (.name "other") "_signature"])
        [.ret (.bool false)] []) (eqEnv a b) h = some (.ok (.next (eqEnv a b)) h) := by
      rw [execS_ite _ _ _ _ e1]; exact execB_nil _ _ _ _
    have hfor : execS program W (.for eqPat (.call (.name "zip") [.name "self", .name "other"] []) eqBody) (eqEnv a b) h = _ :=
      (execS_for _ _ ez (i := .zip (.iter l) (.iter m)) (h2 := h2) (by rw [getIter.eq_def]; rfl) (by simp)).trans he
    simp only [Bool.not_true, if_true]
    cases hz : Melodia.Track.zipEq (t.items W.sort) (u.items W.sort)
    · rw [hz] at hfor
      rw [callFun_run program W hp rfl (r := .ret (.bool false) env') (h1 := h2)]
      · rfl
      · change execB program W (_ :: _) (eqEnv a b) h = _
        rw [execB_next _ _ hfirst]
        exact execB_ret _ _ hfor
    · rw [hz] at hfor
      rw [callFun_run program W hp rfl (r := .ret (.bool true) env') (h1 := h2)]
      · rfl
      · change execB program W (_ :: _) (eqEnv a b) h = _
        rw [execB_next _ _ hfirst]
        refine (execB_next _ _ hfor).trans ?_
        exact execB_ret _ _ (execS_ret program W (by rw [evalE]; rfl))

/-- A track after a comparison: if the signatures are equal, it has been iterated. -/
def seen (S : ListSort) (t u : Melodia.Track) : Melodia.Track :=
  if t.signature.eq u.signature then (t.iter S).1 else t

/-- `track == other` for two tracks that share no memory. -/
theorem track_eq_run (hN : W.sort.Natural) {h : Heap} {a b l m : Nat} {t u : Melodia.Track} (ht : TrackAt h a l t)
    (hu : TrackAt h b m u) (hwt : t.WF) (hwu : u.WF) (hab : a ≠ b) (hlm : l ≠ m) :
    ∃ h', callFun program W Track.dunder_eq [.ref a, .ref b] [] h = some (.ok (.bool (t.eq W.sort u)) h') ∧
      TrackAt h' a l (seen W.sort t u) ∧ TrackAt h' b m (if t.signature.eq u.signature then (u.iter W.sort).1 else u) ∧
      Frame (fun c => Own a l c ∨ Own b m c) h h' := by
  have ham : a ≠ m := by
    rintro rfl
    have := ht.obj.symm.trans hu.list
    simp at this
  have hbl : b ≠ l := by
    rintro rfl
    have := hu.obj.symm.trans ht.list
    simp at this
  obtain ⟨h1, i1, i2⟩ := iter_run W hN ht hwt
  have hu1 : TrackAt h1 b m u := ⟨i2.frame.at hu.obj (by rintro (h | h) <;> [exact hab h.symm; exact hbl h]),
    i2.frame.at hu.list (by rintro (h | h) <;> [exact ham h.symm; exact hlm h.symm])⟩
  obtain ⟨h2, j1, j2⟩ := iter_run W hN hu1 hwu
  have ht2 : TrackAt h2 a l (t.iter W.sort).1 := ⟨j2.frame.at i2.track.obj (by rintro (h | h) <;> [exact hab h; exact ham h]),
    j2.frame.at i2.track.list (by rintro (h | h) <;> [exact hbl h.symm; exact hlm h])⟩
  have hr := eq_run W ht hu hwt hwu ((getIter_ref_inst _ _ ht.obj track_iter).trans i1)
    ((getIter_ref_inst _ _ hu1.obj track_iter).trans j1) ht2.list j2.track.list
  refine ⟨_, hr, ?_⟩
  unfold seen
  cases t.signature.eq u.signature
  · exact ⟨ht, hu, Frame.refl _ _⟩
  · exact ⟨ht2, j2.track, i2.frame.trans j2.frame (fun _ h => .inl h) (fun _ _ h => .inr h)⟩

/-- `track == track`. -/
theorem track_eq_self_run (hN : W.sort.Natural) {h : Heap} {a l : Nat} {t : Melodia.Track} (ht : TrackAt h a l t)
    (hwt : t.WF) :
    ∃ h', callFun program W Track.dunder_eq [.ref a, .ref a] [] h = some (.ok (.bool (t.eq W.sort t)) h') ∧
      Becomes h h' a l l (seen W.sort t t) := by
  obtain ⟨h1, i1, i2⟩ := iter_run W hN ht hwt
  obtain ⟨h2, j1, j2⟩ := iter_run W hN i2.track (Melodia.Track.iter_wf _ hwt)
  rw [Melodia.Track.iter_iter] at j2
  have hr := eq_run W ht ht hwt hwt ((getIter_ref_inst _ _ ht.obj track_iter).trans i1)
    ((getIter_ref_inst _ _ i2.track.obj track_iter).trans j1) j2.track.list j2.track.list
  refine ⟨_, hr, ?_⟩
  unfold seen
  cases t.signature.eq t.signature
  · exact ⟨ht, Frame.refl _ _, .inl rfl⟩
  · exact i2.trans j2

/-! ### Constructor -/

theorem readVar_sigArg {s : SigArg} {v : Val} (h : IsSigArg s v) : readVar v = pure v := by cases h <;> rfl

theorem readVar_where {p : Option SigArg} {v : Val} (h : IsWhere p v) : readVar v = pure v := by
  cases h with
  | default => rfl
  | arg s v _ h => exact readVar_sigArg h

theorem readVar_what {h : Heap} {l : Nat} {w : What} {v : Val} (hv : IsWhat h l w v) : readVar v = pure v := by
  cases w with
  | note n => rw [IsWhat] at hv; rw [hv]; rfl
  | many ws =>
    rw [IsWhat] at hv
    obtain ⟨_, _, rfl | ⟨b, rfl, -⟩⟩ := hv <;> rfl

/-- The variables of `Track.__init__`. -/
def initEnv (a : Nat) (v c : Val) : Env :=
  { mod := "melodia.core.track", vars := [("self", .ref a), ("signature", v), ("content", c)] }

/-- The first statement of `Track.__init__`. -/
theorem init_signature (a : Nat) {s : SigArg} {v : Val} (hs : IsSigArg s v) (c : Val) :
    execB program W (Track.dunder_init.body.take 1) (initEnv a v c) = (do
      let p ← liftPy s.coerce
      setAttr (.ref a) "_signature" (sigV p)
      pure (.next (initEnv a v c))) := by
  cases hs with
  | tuple l =>
    simp [py, Track.dunder_init, callBuiltin, isInstance, isInstance1, SigArg.coerce, signature_iter, initEnv, primIterable, assign]
    cases Melodia.Signature.ofIter l <;> rfl
  | _ => simp [py, Track.dunder_init, callBuiltin, isInstance, isInstance1, toneV, sigV, SigArg.coerce, initEnv, primIterable,
      assign]

/-- The statements of `Track.__init__` that make an empty track. -/
theorem init_empty {h : Heap} {a : Nat} (ha : h.objs[a]? = some (.inst "Track" [])) {s : SigArg} {v : Val} (hs : IsSigArg s v)
    (c : Val) :
    (∀ p, s.coerce = .ok p → ∃ h', execB program W (Track.dunder_init.body.take 5) (initEnv a v c) h =
        some (.ok (.next (initEnv a v c)) h') ∧ TrackAt h' a h.objs.length (Melodia.Track.empty p) ∧ Frame (· = a) h h') ∧
    (∀ e, s.coerce = .error e → execB program W (Track.dunder_init.body.take 5) (initEnv a v c) h = some (.err e h)) := by
  have hbody : Track.dunder_init.body.take 5 = Track.dunder_init.body.take 1 ++ (Track.dunder_init.body.take 5).drop 1 := by rfl
  rw [hbody, execB_append, init_signature W a hs c]
  constructor
  · intro p hp
    rw [hp]
    simp only [liftPy_ok, pure_bind, bind_assoc]
    rw [bind_ok (setAttr_ok _ _ ha)]
    set h1 := h.put a (.inst "Track" (Dict.set [] "_signature" (sigV p))) with hh1
    have o1 : h1.objs[a]? = some (.inst "Track" (Dict.set [] "_signature" (sigV p))) := Heap.put_at ha
    simp only [Track.dunder_init, List.take, List.drop]
    have e1 : evalE program W (.int 1) (initEnv a v c) h1 = some (.ok (.int 1) h1) := by rw [evalE]; rfl
    rw [execB_next _ _ (execS_setattr _ _ e1 (by rfl) o1)]
    set f1 := Dict.set (Dict.set [] "_signature" (sigV p)) "_max_denominator" (.int 1) with hf1
    set h2 := h1.put a (.inst "Track" f1) with hh2
    have o2 : h2.objs[a]? = some (.inst "Track" f1) := Heap.put_at o1
    have e2 : evalE program W (.list []) (initEnv a v c) h2 = _ := evalE_list _ _ (evalArgs_nil _ _ _ _)
    have hlen : h2.objs.length = h.objs.length := by rw [hh2, Heap.put_length, hh1, Heap.put_length]
    rw [hlen] at e2
    have o3 : (h2.push (.list [])).objs[a]? = some (.inst "Track" f1) := Heap.push_old o2
    rw [execB_next _ _ (execS_setattr _ _ e2 (by rfl) o3)]
    set f2 := Dict.set f1 "_heap" (.ref h.objs.length) with hf2
    set h3 := (h2.push (.list [])).put a (.inst "Track" f2) with hh3
    have o4 : h3.objs[a]? = some (.inst "Track" f2) := Heap.put_at o3
    have l4 : h3.objs[h.objs.length]? = some (.list []) := by
      rw [hh3, Heap.put_ne (lt_of_at ha).ne', ← hlen, Heap.push_at]
    have e3 : evalE program W (.call (.name "Signature") [.int 0, .int 1] []) (initEnv a v c) h3 =
        some (.ok (sigV ⟨0, 1⟩) h3) := by
      have : evalE program W (.call (.name "Signature") [.int 0, .int 1] []) (initEnv a v c) = pure (sigV ⟨0, 1⟩) := by
        simp [py, initEnv, Melodia.Signature.new, Melodia.Signature.isPow2Test]
        rfl
      rw [this]; rfl
    rw [execB_next _ _ (execS_setattr _ _ e3 (by rfl) o4)]
    set f3 := Dict.set f2 "_max_position" (sigV ⟨0, 1⟩) with hf3
    set h4 := h3.put a (.inst "Track" f3) with hh4
    have o5 : h4.objs[a]? = some (.inst "Track" f3) := Heap.put_at o4
    have l5 : h4.objs[h.objs.length]? = some (.list []) := by
      rw [hh4, Heap.put_ne (lt_of_at ha).ne']; exact l4
    have e4 : evalE program W (.bool true) (initEnv a v c) h4 = some (.ok (.bool true) h4) := by rw [evalE]; rfl
    rw [execB_next _ _ (execS_setattr _ _ e4 (by rfl) o5), execB_nil]
    refine ⟨_, rfl, ⟨(Heap.put_at o5).trans (by rfl), ?_⟩, ?_⟩
    · rw [Heap.put_ne (lt_of_at ha).ne']; exact l5
    · exact ((((Frame.put h a _).trans (Frame.put _ a _) (U := (· = a)) (fun _ => id) (fun _ _ => id)).trans (Frame.push _ _)
        (fun _ => id) (by simp)).trans (Frame.put _ a _) (fun _ => id) (fun _ _ => id)).trans ((Frame.put _ a _).trans
        (Frame.put _ a _) (U := (· = a)) (fun _ => id) (fun _ _ => id)) (fun _ => id) (fun _ _ => id)
  · intro e he
    rw [he]
    rfl

/-- The body of the loop of `Track.__init__`. -/
def initBody : List Stmt := [.expr (.call (.attr (.name "self") "add") [.name "note", .name "position"] ["where"])]

theorem init_params (a : Nat) (x w : Val) : bindParams program W Track.add.params [.ref a, x] [("where", w)]
    { mod := Track.add.mod, vars := [] } = pure [("self", .ref a), ("what", x), ("where", w)] := by
  simp [py, Track.add]

/-- The loop of `Track.__init__`. -/
theorem init_loop (content : List (What × Option SigArg)) : ∀ {h : Heap} {a l : Nat} {t : Melodia.Track}, TrackAt h a l t → t.WF →
    (∀ p ∈ content, p.1.Valid ∧ ∀ s, p.2 = some s → s.Valid) → ∀ {vs all : List Val} {it : Val} {i : Nat},
    List.Forall₂ (IsPlacement h l) content vs → IterAt h l it all → all.drop i = vs → ∀ {env : Env},
    env.mod = "melodia.core.track" → Dict.get env.vars "self" = some (.ref a) →
    (∀ t', t.addContent content = .ok t' → ∃ h' l' env', forLoop program W (.tuple [.name "note", .name "position"]) initBody
      it i env h = some (.ok (.next env') h') ∧ t'.WF ∧ Becomes h h' a l l' t') ∧
    (∀ e, t.addContent content = .error e → ∃ h', forLoop program W (.tuple [.name "note", .name "position"]) initBody
      it i env h = some (.err e h') ∧ Frame (Own a l) h h') := by
  induction content with
  | nil =>
    intro h a l t ht hwf _ vs all it i hvs hit hi env hm hs
    cases hvs
    have hn : forLoop program W (.tuple [.name "note", .name "position"]) initBody it i env h = some (.ok (.next env) h) := by
      rw [forLoop_none]
      rw [iterAt_item hit, ← Nat.add_zero i, ← List.getElem?_drop, hi]
      rfl
    refine ⟨fun t' h1 => ?_, fun e h1 => by cases h1⟩
    cases h1
    exact ⟨h, l, env, hn, hwf, ⟨ht, Frame.refl _ _, .inl rfl⟩⟩
  | cons p content ih =>
    intro h a l t ht hwf hval vs all it i hvs hit hi env hm hs
    cases hvs with
    | @cons _ v _ vs hp hrest =>
    obtain ⟨x, w, rfl, hx, hw⟩ := hp
    have hlt : i < all.length := by
      by_contra hc
      rw [List.drop_eq_nil_of_le (by omega)] at hi
      cases hi
    rw [List.drop_eq_getElem_cons hlt] at hi
    obtain ⟨hi1, hi2⟩ := List.cons.inj hi
    set env1 : Env := { env with vars := Dict.set (Dict.set env.vars "note" x) "position" w } with henv1
    have g1 : Dict.get env1.vars "self" = some (.ref a) := by
      simp only [henv1]; rw [Dict.get_set, if_neg (by decide), Dict.get_set, if_neg (by decide)]; exact hs
    have g2 : Dict.get env1.vars "note" = some x := by
      simp only [henv1]; rw [Dict.get_set, if_neg (by decide), Dict.get_set, if_pos rfl]
    have g3 : Dict.get env1.vars "position" = some w := by
      simp only [henv1]; rw [Dict.get_set, if_pos rfl]
    have hcall : evalE program W (.call (.attr (.name "self") "add") [.name "note", .name "position"] ["where"]) env1 h =
        callFun program W Track.add [.ref a, x] [("where", w)] h := by
      refine (evalE_call_kw program W (es := [.name "note"]) (ks := [.name "position"]) (kws := ["where"]) rfl
        ((evalE_attr_of _ _ (evalE_name _ _ g1 rfl h)).trans (getAttr_ref_meth _ _ ht.obj rfl (by simp) track_add
          (by simp [Track.add]))) (evalArgs_cons _ _ (by simp) (evalE_name _ _ g2 (readVar_what hx) _) (evalArgs_nil _ _ _ _))
          (evalArgs_cons _ _ (by simp) (evalE_name _ _ g3 (readVar_where hw) _) (evalArgs_nil _ _ _ _))).trans ?_
      rw [call_ref_ok _ _ _ _ ht.obj track_add (by simp [Track.add])]
      rfl
    have hstep : forLoop program W (.tuple [.name "note", .name "position"]) initBody it i env h = (do
        match ← execB program W initBody env1 with
        | .next env => forLoop program W (.tuple [.name "note", .name "position"]) initBody it (i + 1) env
        | .cont env => forLoop program W (.tuple [.name "note", .name "position"]) initBody it (i + 1) env
        | .brk env => pure (.next env)
        | .ret v env => pure (.ret v env) : M Flow) h := by
      rw [forLoop_some program W _ _ _ _ _ _ (.tuple [x, w]) (by rw [iterAt_item hit, List.getElem?_eq_getElem hlt, hi1])]
      simp only [bindPat, unpack, bindPats, pure_bind]
      rfl
    obtain ⟨hv1, hv2⟩ := hval p (by simp)
    cases hpos : t.posOf p.2 with
    | error e =>
      have hadd : t.add p.1 p.2 = .error e := by rw [Melodia.Track.add_eq, hpos]; rfl
      have he : execB program W initBody env1 h = some (.err e h) := by
        refine execB_err _ _ ?_
        rw [execS, bind_err (hcall.trans (add_run_err W ht hw hpos (init_params W a x w)))]
      refine ⟨fun t' h1 => ?_, fun e' h1 => ?_⟩
      · rw [Melodia.Track.addContent, hadd] at h1; cases h1
      · rw [Melodia.Track.addContent, hadd] at h1
        cases h1
        exact ⟨h, by rw [hstep, bind_err he], Frame.refl _ _⟩
    | ok q =>
      obtain ⟨hA, lA, tA, a1, a2, a3, a4⟩ := add_run W ht hwf hv1 hx hv2 hw hpos (init_params W a x w)
      have he : execB program W initBody env1 h = some (.ok (.next env1) hA) := by
        rw [initBody, execB_next _ _ (execS_expr _ _ (hcall.trans a3)), execB_nil]
      have hac : t.addContent (p :: content) = tA.addContent content := by
        obtain ⟨p1, p2⟩ := p
        rw [Melodia.Track.addContent, a1]
        rfl
      obtain ⟨b1, b2⟩ := ih a4.track a2 (fun p hp => hval p (by simp [hp]))
        (hrest.imp (fun p v hpv => by
          obtain ⟨x, w, h1, h2, h3⟩ := hpv
          exact ⟨x, w, h1, isWhat_frame ht a4.frame a4.addr _ _ h2, h3⟩))
        (iterAt_frame ht a4.frame a4.addr hit) hi2 (env := env1) hm g1
      rw [hac]
      refine ⟨fun t' h1 => ?_, fun e h1 => ?_⟩
      · obtain ⟨h', l', env', c1, c2, c3⟩ := b1 t' h1
        exact ⟨h', l', env', by rw [hstep, bind_ok he]; exact c1, c2, a4.trans c3⟩
      · obtain ⟨h', c1, c2⟩ := b2 e h1
        exact ⟨h', by rw [hstep, bind_ok he]; exact c1, (own_trans a4.frame c2 a4.addr (.inl rfl)).1⟩

mutual
theorem isWhat_mono {h h' : Heap} {l l' : Nat} (hl : h.objs.length ≤ l') (hf : Frame (fun b => h.objs.length ≤ b) h h')
    (w : What) (v : Val) (hw : IsWhat h l w v) : IsWhat h' l' w v := by
  cases w with
  | note n => rw [IsWhat] at hw ⊢; exact hw
  | many ws =>
    rw [IsWhat] at hw ⊢
    obtain ⟨vs, h1, h2⟩ := hw
    refine ⟨vs, isWhats_mono hl hf ws vs h1, ?_⟩
    rcases h2 with h2 | ⟨b, rfl, hb, hv⟩
    · exact .inl h2
    · exact .inr ⟨b, rfl, ((lt_of_at hv).trans_le hl).ne, hf.at hv (not_le.mpr (lt_of_at hv))⟩
theorem isWhats_mono {h h' : Heap} {l l' : Nat} (hl : h.objs.length ≤ l') (hf : Frame (fun b => h.objs.length ≤ b) h h')
    (ws : List What) (vs : List Val) (hw : IsWhats h l ws vs) : IsWhats h' l' ws vs := by
  cases ws with
  | nil => rw [IsWhats] at hw ⊢; exact hw
  | cons w ws =>
    rw [IsWhats] at hw ⊢
    obtain ⟨x, xs, h1, h2, h3⟩ := hw
    exact ⟨x, xs, h1, isWhat_mono hl hf w x h2, isWhats_mono hl hf ws xs h3⟩
end

theorem isContent_mono {h h' : Heap} {l l' : Nat} (hl : h.objs.length ≤ l') (hf : Frame (fun b => h.objs.length ≤ b) h h')
    {content : List (What × Option SigArg)} {v : Val} (hc : IsContent h l content v) : IsContent h' l' content v := by
  rcases hc with hc | ⟨vs, h1, h2⟩
  · exact .inl hc
  · refine .inr ⟨vs, h1.imp (fun p v hpv => ?_), ?_⟩
    · obtain ⟨x, w, g1, g2, g3⟩ := hpv
      exact ⟨x, w, g1, isWhat_mono hl hf _ _ g2, g3⟩
    · rcases h2 with h2 | ⟨b, rfl, hb, hv⟩
      · exact .inl h2
      · exact .inr ⟨b, rfl, ((lt_of_at hv).trans_le hl).ne, hf.at hv (not_le.mpr (lt_of_at hv))⟩

/-- The last statement of `Track.__init__`. -/
theorem init_content {h : Heap} {a l : Nat} {t : Melodia.Track} (ht : TrackAt h a l t) (hwf : t.WF)
    {content : List (What × Option SigArg)} (hval : ∀ p ∈ content, p.1.Valid ∧ ∀ s, p.2 = some s → s.Valid) {c : Val}
    (hc : IsContent h l content c) (v : Val) :
    (∀ t', t.addContent content = .ok t' → ∃ h' l' env', execB program W (Track.dunder_init.body.drop 5) (initEnv a v c) h =
      some (.ok (.next env') h') ∧ t'.WF ∧ Becomes h h' a l l' t') ∧
    (∀ e, t.addContent content = .error e → ∃ h', execB program W (Track.dunder_init.body.drop 5) (initEnv a v c) h =
      some (.err e h') ∧ Frame (Own a l) h h') := by
  have en : evalE program W .none (initEnv a v c) h = some (.ok .none h) := by rw [evalE]; rfl
  rcases hc with ⟨rfl, rfl⟩ | ⟨vs, hvs, hc⟩
  · refine ⟨fun t' h1 => ?_, fun e h1 => by cases h1⟩
    cases h1
    refine ⟨h, l, initEnv a v .none, ?_, hwf, ⟨ht, Frame.refl _ _, .inl rfl⟩⟩
    have e1 : evalE program W (.cmp (.name "content") [.isNot] [.none]) (initEnv a v .none) h = some (.ok (.bool false) h) := by
      rw [evalE_cmp program W (evalE_name _ _ rfl rfl _) en, compareOp.eq_def]
      rfl
    simp only [Track.dunder_init, List.drop]
    rw [execB_next (env1 := initEnv a v .none) (h1 := h)]
    · exact execB_nil _ _ _ _
    · rw [execS_ite _ _ _ _ e1]; exact execB_nil _ _ _ _
  · have hex : ∃ it, IterAt h l it vs ∧ getIter program W c h = some (.ok it h) ∧ readVar c = pure c ∧
        (∀ m b c, it ≠ .gen m b c) ∧ compareOp program W .isNot c .none h = some (.ok (.bool true) h) := by
      rcases hc with rfl | ⟨b, rfl, hb, hlist⟩
      · exact ⟨.tuple vs, .inl rfl, by rw [getIter_tuple]; rfl, rfl, by simp, by rw [compareOp.eq_def]; rfl⟩
      · exact ⟨.iter b, .inr ⟨b, rfl, hb, hlist⟩, getIter_ref_list _ _ hlist, rfl, by simp, by rw [compareOp.eq_def]; rfl⟩
    obtain ⟨it, hit, hg, hrv, hng, hcmp⟩ := hex
    have e1 : evalE program W (.cmp (.name "content") [.isNot] [.none]) (initEnv a v c) h = some (.ok (.bool true) h) := by
      rw [evalE_cmp program W (evalE_name _ _ rfl hrv _) en, hcmp]
    obtain ⟨b1, b2⟩ := init_loop W content ht hwf hval hvs hit (i := 0) rfl (env := initEnv a v c) rfl rfl
    have hfor : execS program W (.for (.tuple [.name "note", .name "position"]) (.name "content") initBody) (initEnv a v c) h =
        forLoop program W (.tuple [.name "note", .name "position"]) initBody it 0 (initEnv a v c) h :=
      execS_for _ _ (evalE_name _ _ rfl hrv _) hg hng
    refine ⟨fun t' h1 => ?_, fun e h1 => ?_⟩
    · obtain ⟨h', l', env', c1, c2, c3⟩ := b1 t' h1
      refine ⟨h', l', env', ?_, c2, c3⟩
      simp only [Track.dunder_init, List.drop]
      rw [execB_next (env1 := env') (h1 := h')]
      · exact execB_nil _ _ _ _
      · rw [execS_ite _ _ _ _ e1, if_pos rfl]
        refine (execB_next _ _ (hfor.trans c1)).trans (execB_nil _ _ _ _)
    · obtain ⟨h', c1, c2⟩ := b2 e h1
      refine ⟨h', ?_, c2⟩
      simp only [Track.dunder_init, List.drop]
      refine execB_err _ _ ?_
      rw [execS_ite _ _ _ _ e1, if_pos rfl]
      exact execB_err _ _ (hfor.trans c1)

/-- `Track(signature, content)`: a new object, or an exception; no other memory changes. -/
theorem track_new_run {h : Heap} {s : SigArg} {v : Val} (hs : IsSigArg s v) (hsv : s.Valid)
    {content : List (What × Option SigArg)} (hval : ∀ p ∈ content, p.1.Valid ∧ ∀ s, p.2 = some s → s.Valid) {c : Val}
    {l0 : Nat} (hc : IsContent h l0 content c) {args : List Val} {kws : List (String × Val)}
    (hb : bindParams program W Track.dunder_init.params (.ref h.objs.length :: args) kws
      { mod := Track.dunder_init.mod, vars := [] } = pure [("self", .ref h.objs.length), ("signature", v), ("content", c)]) :
    (∀ t, Melodia.Track.new s content = .ok t → ∃ h' l, construct program W "Track" args kws h =
      some (.ok (.ref h.objs.length) h') ∧ t.WF ∧ TrackAt h' h.objs.length l t ∧ h.objs.length < l ∧
      Frame (fun _ => False) h h') ∧
    (∀ e, Melodia.Track.new s content = .error e → ∃ h', construct program W "Track" args kws h = some (.err e h') ∧
      Frame (fun _ => False) h h') := by
  set h0 := h.push (.inst "Track" []) with hh0
  have ha : h0.objs[h.objs.length]? = some (.inst "Track" []) := Heap.push_at _ _
  have hlen : h0.objs.length = h.objs.length + 1 := by rw [hh0, Heap.push_length]
  have f0 : Frame (fun _ => False) h h0 := Frame.push _ _
  have hcon : construct program W "Track" args kws h = (do
      let _ ← callFun program W Track.dunder_init (.ref h.objs.length :: args) kws
      pure (.ref h.objs.length) : M Val) h0 := by
    rw [construct]
    simp only [track_class, orStuck, pure_bind, track_init, track_mutable, if_true]
    rw [bind_ok (alloc_apply _ _)]
  have hbody : Track.dunder_init.body = Track.dunder_init.body.take 5 ++ Track.dunder_init.body.drop 5 := by rfl
  obtain ⟨i1, i2⟩ := init_empty W ha hs c
  have herr : ∀ {e : PyErr} {h' : Heap}, execB program W Track.dunder_init.body (initEnv h.objs.length v c) h0 =
      some (.err e h') → construct program W "Track" args kws h = some (.err e h') := by
    intro e h' he
    rw [hcon, bind_err (callFun_err program W hb rfl he)]
  cases hco : s.coerce with
  | error e =>
    have hn : Melodia.Track.new s content = .error e := by rw [Melodia.Track.new, hco]; rfl
    refine ⟨fun t h1 => (by rw [hn] at h1; cases h1), fun e' h1 => ?_⟩
    rw [hn] at h1
    cases h1
    refine ⟨h0, herr ?_, f0⟩
    rw [hbody, execB_append, bind_err (i2 e hco)]
  | ok p =>
    have hn : Melodia.Track.new s content = (Melodia.Track.empty p).addContent content := by rw [Melodia.Track.new, hco]; rfl
    rw [hn]
    obtain ⟨h1, j1, j2, j3⟩ := i1 p hco
    have hwf := Melodia.Track.empty_wf (Melodia.Track.posOf_valid (t := Melodia.Track.empty ⟨1, 1⟩)
      (Melodia.Track.empty_wf ⟨by decide, IsPow2.one⟩) (pos := some s) (fun _ h => (Option.some.inj h) ▸ hsv) hco)
    have f1 : Frame (fun b => h.objs.length ≤ b) h h1 :=
      f0.trans j3 (fun _ h => h.elim) (fun b _ hb => hb ▸ le_rfl)
    have f1' : Frame (fun _ => False) h h1 := f1.mono (fun b hb h => absurd hb (not_lt.mpr h))
    obtain ⟨k1, k2⟩ := init_content W j2 hwf hval (isContent_mono (by rw [hlen]; omega) f1 hc) v
    have hown : ∀ {h' : Heap}, Frame (Own h.objs.length h0.objs.length) h1 h' → Frame (fun _ => False) h h' := fun g =>
      f1'.trans g (fun _ h => h) (by
        rintro b hb (rfl | rfl)
        · exact absurd hb (lt_irrefl _)
        · rw [hlen] at hb; omega)
    refine ⟨fun t ht => ?_, fun e he => ?_⟩
    · obtain ⟨h', l', env', c1, c2, c3⟩ := k1 t ht
      refine ⟨h', l', ?_, c2, c3.track, ?_, hown c3.frame⟩
      · rw [hcon, bind_ok (callFun_run program W hb rfl (r := .next env') (h1 := h') ?_ |>.trans rfl)]
        · rfl
        · change execB program W Track.dunder_init.body (initEnv h.objs.length v c) h0 = _
          rw [hbody, execB_append, bind_ok j1]
          exact c1
      · rcases c3.addr with h | h
        · omega
        · have := j3.len; omega
    · obtain ⟨h', c1, c2⟩ := k2 e he
      refine ⟨h', herr ?_, hown c2⟩
      rw [hbody, execB_append, bind_ok j1]
      exact c1

end Source

end Melodia
