/-
C95: the text of track.py, executed by the meaning of Python.
-/
import Verif.Lemmas.SourceTrackUser
import Verif.Props.Sequence
import Verif.Props.Text

set_option autoImplicit false

namespace Melodia

open Melodia.Python Melodia.Source

variable (W : World)

theorem readVar_content {h : Heap} {l : Nat} {content : List (What × Option SigArg)} {c : Val} (hc : IsContent h l content c) :
    readVar c = pure c := by
  rcases hc with ⟨rfl, -⟩ | ⟨vs, -, rfl | ⟨b, rfl, -⟩⟩ <;> rfl

theorem user_track {v c : Val} {vars : List (String × Val)} {e : Expr} (hc : TrackCall v c vars e) (hv : readVar v = pure v)
    (hr : readVar c = pure c) (h : Heap) :
    ∃ args kws, userEval W vars e h = construct program W "Track" args kws h ∧
      bindParams program W Track.dunder_init.params (.ref h.objs.length :: args) kws
        { mod := Track.dunder_init.mod, vars := [] } = pure [("self", .ref h.objs.length), ("signature", v), ("content", c)] := by
  have hn : ∀ vars', Dict.get vars' "Track" = .none → evalE program W (.name "Track")
      { mod := "__main__", vars := vars' ++ userNames } h = some (.ok (.cls "Track") h) := by
    intro vars' hv'
    refine evalE_name program W ?_ rfl h
    induction vars' with
    | nil => rfl
    | cons x xs ih =>
      simp only [Dict.get] at hv'
      split at hv'
      · cases hv'
      · rename_i hx
        rw [List.cons_append, Dict.get, if_neg hx]
        exact ih hv'
  cases hc with
  | nothing =>
    refine ⟨[], [], ?_, by
      have h4 : Signature.new 4 4 = .ok ⟨4, 4⟩ := by decide
      simp [py, Track.dunder_init, h4, Except.map]⟩
    refine (evalE_call program W (es := []) (hn _ rfl) (evalArgs_nil _ _ _ _)).trans ?_
    rw [call.eq_def]
  | one =>
    refine ⟨[v], [], ?_, by simp [py, Track.dunder_init]⟩
    refine (evalE_call program W (es := [.name "s"]) (hn _ rfl) (evalArgs_cons _ _ (by simp) (evalE_name _ _ (by rfl) hv _)
      (evalArgs_nil _ _ _ _))).trans ?_
    rw [call.eq_def]
  | oneKw =>
    refine ⟨[], [("signature", v)], ?_, by simp [py, Track.dunder_init]⟩
    refine (evalE_call_kw program W (es := []) (ks := [.name "s"]) (kws := ["signature"]) rfl (hn _ rfl) (evalArgs_nil _ _ _ _)
      (evalArgs_cons _ _ (by simp) (evalE_name _ _ (by rfl) hv _) (evalArgs_nil _ _ _ _))).trans ?_
    rw [call.eq_def]
    rfl
  | two =>
    refine ⟨[v, c], [], ?_, by simp [py, Track.dunder_init]⟩
    refine (evalE_call program W (es := [.name "s", .name "c"]) (hn _ rfl) (evalArgs_cons _ _ (by simp)
      (evalE_name _ _ (by rfl) hv _) (evalArgs_cons _ _ (by simp) (evalE_name _ _ (by rfl) hr _)
      (evalArgs_nil _ _ _ _)))).trans ?_
    rw [call.eq_def]
  | content =>
    refine ⟨[], [("content", c)], ?_, by
      have h4 : Signature.new 4 4 = .ok ⟨4, 4⟩ := by decide
      simp [py, Track.dunder_init, h4, Except.map]⟩
    refine (evalE_call_kw program W (es := []) (ks := [.name "c"]) (kws := ["content"]) rfl (hn _ rfl) (evalArgs_nil _ _ _ _)
      (evalArgs_cons _ _ (by simp) (evalE_name _ _ (by rfl) hr _) (evalArgs_nil _ _ _ _))).trans ?_
    rw [call.eq_def]
    rfl
  | bothKw =>
    refine ⟨[], [("content", c), ("signature", v)], ?_, by simp [py, Track.dunder_init]⟩
    refine (evalE_call_kw program W (es := []) (ks := [.name "c", .name "s"]) (kws := ["content", "signature"]) rfl (hn _ rfl)
      (evalArgs_nil _ _ _ _) (evalArgs_cons _ _ (by simp) (evalE_name _ _ (by rfl) hr _) (evalArgs_cons _ _ (by simp)
      (evalE_name _ _ (by rfl) hv _) (evalArgs_nil _ _ _ _)))).trans ?_
    rw [call.eq_def]
    rfl

theorem denotes_valid {s : SigArg} (hs : s.Valid) {sig : Signature} (hd : SigDenotes s sig) : sig.Valid :=
  Track.posOf_valid (t := Track.empty ⟨4, 4⟩) (Track.empty_wf ⟨by norm_num, 2, rfl⟩) (pos := some s)
    (by intro b hb; cases hb; exact hs) (SigArg.coerce_ok_iff.mpr hd)

theorem reachable_run {S : ListSort} {t : Track} (hr : t.Reachable S) (ops : List TrackOp) (hops : ∀ o ∈ ops, o.Valid) :
    (t.run S ops).Reachable S := by
  obtain ⟨sig, os, hsig, hos, rfl⟩ := hr
  refine ⟨sig, os ++ ops, hsig, ?_, by rw [Track.run, Track.run, Track.run, List.foldl_append]⟩
  intro o ho
  rcases List.mem_append.mp ho with ho | ho
  · exact hos o ho
  · exact hops o ho

/-- C95 (constructor): `Track(s, c)`, however the arguments are passed, makes a new object. If `s` and the positions in `c`
denote signatures the object is a track with that signature and the notes of `c` at the given positions (without position: at
the length the track has by then); otherwise TypeError or ValueError is raised. No object that existed before is changed. -/
theorem C95_constructor (h : Heap) {s : SigArg} (hsv : s.Valid) {content : List (What × Option SigArg)}
    (hval : ∀ p ∈ content, p.1.Valid ∧ ∀ s, p.2 = some s → s.Valid) {v c : Val} (hs : IsSigArg s v)
    (hc : IsContent h h.objs.length content c) {vars : List (String × Val)} {e : Expr} (he : TrackCall v c vars e) :
    (∀ sig, SigDenotes s sig → (∀ p ∈ content, ∀ a, p.2 = some a → ∃ s, SigDenotes a s) →
      ∃ h' l t, userEval W vars e h = some (.ok (.ref h.objs.length) h') ∧ TrackAt h' h.objs.length l t ∧
        h.objs.length < l ∧ Frame (fun _ => False) h h' ∧ t.Reachable W.sort ∧ t.signature = sig ∧
        ∀ m, PlacedBy W.sort (Track.empty sig) (content.map (fun p => .add p.1 p.2)) m → t.contents = m) ∧
    (((∀ sig, ¬ SigDenotes s sig) ∨ ∃ p ∈ content, ∃ a, p.2 = some a ∧ ∀ s, ¬ SigDenotes a s) →
      ∃ h', (userEval W vars e h = some (.err .typeError h') ∨ userEval W vars e h = some (.err .valueError h')) ∧
        Frame (fun _ => False) h h') := by
  obtain ⟨args, kws, e1, hb⟩ := user_track W he (readVar_sigArg hs) (readVar_content hc) h
  obtain ⟨g1, g2⟩ := track_new_run W hs hsv hval hc hb
  obtain ⟨k1, k2⟩ := C63_constructor W.sort s content hsv hval
  constructor
  · intro sig hd hp
    obtain ⟨h', l, i1, i2, i3, i4, i5⟩ := g1 _ (k1 sig hd hp)
    have hsig := denotes_valid hsv hd
    have hops : ∀ o ∈ content.map (fun p => TrackOp.add p.1 p.2), o.Valid := by
      intro o ho
      obtain ⟨p, hp, rfl⟩ := List.mem_map.mp ho
      exact hval p hp
    refine ⟨h', l, _, e1.trans i1, i3, i4, i5, ⟨sig, _, hsig, hops, rfl⟩,
      (Track.run_wf W.sort _ (Track.empty_wf hsig) hops).2, fun m hm => ?_⟩
    have := Track.placedBy_contents W.sort (Track.empty_wf hsig) hops hm
    rw [this]
    exact add_zero _
  · intro hno
    rcases k2 hno with k | k
    · obtain ⟨h', i1, i2⟩ := g2 _ k
      exact ⟨h', .inl (e1.trans i1), i2⟩
    · obtain ⟨h', i1, i2⟩ := g2 _ k
      exact ⟨h', .inr (e1.trans i1), i2⟩

/-- C95 (adding): `t.add(x, w)`, however the arguments are passed, returns None and adds the notes of `x` at the position `w`
denotes, or at the length of the track if there is none; the signature stays. If `w` denotes no signature TypeError or
ValueError is raised and the memory is as before. Nothing but the track is changed. -/
theorem C95_add {h : Heap} {a l : Nat} {t : Track} (ht : TrackAt h a l t) (hr : t.Reachable W.sort) {w : What} (hw : w.Valid)
    {pos : Option SigArg} (hpos : ∀ s, pos = some s → s.Valid) {v u : Val} (hv : IsWhat h l w v) (hu : IsWhere pos u)
    {vars : List (String × Val)} {e : Expr} (hc : AddCall a v u vars e) :
    (∀ q : ℚ, ((pos = none ∧ q = t.length.val) ∨ ∃ s p, pos = some s ∧ SigDenotes s p ∧ q = p.val) →
      ∃ h' l' t', userEval W vars e h = some (.ok .none h') ∧ Becomes h h' a l l' t' ∧ t'.Reachable W.sort ∧
        t'.signature = t.signature ∧ t'.contents = (w.notes.map (fun n => (q, n)) : Multiset _) + t.contents) ∧
    (∀ s, pos = some s → (∀ p, ¬ SigDenotes s p) →
      userEval W vars e h = some (.err .typeError h) ∨ userEval W vars e h = some (.err .valueError h)) := by
  obtain ⟨args, kws, e1, e2⟩ := user_add W ht (readVar_what hv) (readVar_where hu) hc
  constructor
  · intro q hq
    obtain ⟨p, hp, hpq⟩ : ∃ p, t.posOf pos = .ok p ∧ q = p.val := by
      rcases hq with ⟨rfl, rfl⟩ | ⟨s, p, rfl, hd, rfl⟩
      · exact ⟨_, rfl, rfl⟩
      · exact ⟨p, SigArg.coerce_ok_iff.mpr hd, rfl⟩
    obtain ⟨h', l', t', g1, g2, g3, g4⟩ := add_run W ht hr.wf hw hv hpos hu hp e2
    obtain ⟨t'', k1, k2, k3, k4⟩ := Track.add_of_pos hr.wf hw hpos hp
    rw [g1] at k1; cases k1
    refine ⟨h', l', t', e1.trans g3, g4, ?_, k3, by rw [hpq]; exact k4⟩
    have := reachable_run hr [.add w pos] (by intro o ho; rw [List.mem_singleton.mp ho]; exact ⟨hw, hpos⟩)
    rwa [Track.run, List.foldl_cons, List.foldl_nil, TrackOp.step, Track.addS_of_ok g1] at this
  · rintro s rfl hno
    rcases hk : s.coerce with x | p
    · rw [e1, add_run_err W ht hu (show t.posOf (some s) = .error x from hk) e2]
      rcases SigArg.coerce_err hk with rfl | rfl <;> simp
    · exact absurd (SigArg.coerce_ok_iff.mp hk) (hno p)

/-- C95 (reading): `t.signature`, `t.length`, `len(t)` and `str(t)` change nothing; `len(t)` is the number of placed notes. -/
theorem C95_attributes {h : Heap} {a l : Nat} {t : Track} (ht : TrackAt h a l t) :
    userEval W [("t", .ref a)] (.attr (.name "t") "signature") h = some (.ok (sigV t.signature) h) ∧
    userEval W [("t", .ref a)] (.attr (.name "t") "length") h = some (.ok (sigV t.length) h) ∧
    userEval W [("t", .ref a)] (callE "len" ["t"]) h = some (.ok (.int t.contents.card) h) ∧
    userEval W [("t", .ref a)] (callE "str" ["t"]) h = some (.ok (.str t.str) h) := by
  refine ⟨?_, ?_, ?_, ?_⟩
  · exact (evalE_attr_of _ _ (evalE_name program W (v := .ref a) (by rfl) rfl h)).trans (track_signature_ok W ht)
  · exact (evalE_attr_of _ _ (evalE_name program W (v := .ref a) (by rfl) rfl h)).trans (track_length_ok W ht)
  · rw [user_call1 W (b := .len) (by rfl) (by rfl) (by rfl) rfl, track_len_ok W ht, Track.contents, Multiset.coe_card,
      List.length_map, Track.len]
  · rw [user_call1 W (b := .str) (by rfl) (by rfl) (by rfl) rfl, track_str_ok W ht]

/-- C95 (iterating): `[x for x in t]` is a new list of the pairs of position and note, the placed notes of the track in
ascending order of the positions and, at one position, of the pitches; signature, length and placed notes stay. Nothing but
the track is changed. -/
theorem C95_iteration (hN : W.sort.Natural) {h : Heap} {a l : Nat} {t : Track} (ht : TrackAt h a l t) (hr : t.Reachable W.sort) :
    ∃ (h' : Heap) (b : Nat) (es : List Entry) (t' : Track), userEval W [("t", .ref a)] (.comp (.name "x") (.name "x") (.name "t")) h = some (.ok (.ref b) h') ∧
      h.objs.length ≤ b ∧ h'.objs[b]? = some (.list (es.map (fun e => .tuple [sigV e.1, noteV e.2]))) ∧
      (es.map Entry.placed : Multiset _) = t.contents ∧ es.Pairwise (fun x y => x.1.val ≤ y.1.val) ∧
      es.Pairwise (fun x y => x.1.val = y.1.val → x.2.tone.pitch ≤ y.2.tone.pitch) ∧
      Becomes h h' a l l t' ∧ t'.Reachable W.sort ∧ t'.signature = t.signature ∧ t'.length = t.length ∧
      t'.contents = t.contents := by
  obtain ⟨h', b, h1, h2, h3, h4⟩ := user_list W hN ht hr.wf
  have hrun := reachable_run hr [.iterate] (by simp [TrackOp.Valid])
  refine ⟨h', b, t.items W.sort, (t.iter W.sort).1, h1, h4, h2, Track.items_placed W.sort t, C20_ascending W.sort t hr,
    C20_chords_ascending W.sort t hr, h3, hrun, ?_⟩
  obtain ⟨sig, ops, hsig, hops, rfl⟩ := hr
  refine ⟨?_, ?_, ?_⟩
  · unfold Track.iter; split <;> rfl
  · unfold Track.iter; split <;> rfl
  · rw [← Track.items_placed W.sort, ← Track.items_placed W.sort ((Track.empty sig).run W.sort ops)]
    exact congrArg (fun l : List Entry => ((l.map Entry.placed : List (ℚ × Note)) : Multiset (ℚ × Note)))
      (C21_observation_partial W.sort sig hsig ops hops).2.2.2.2.2

/-- C95 (text): `repr(t)` is a text that determines the signature and the sequence iteration yields: the text is
`Track(signature=…, content=[…])` with the entries in the order of iteration. Nothing but the track is changed. -/
theorem C95_repr (hN : W.sort.Natural) {h : Heap} {a l : Nat} {t : Track} (ht : TrackAt h a l t) (hr : t.Reachable W.sort) :
    ∃ h', userEval W [("t", .ref a)] (callE "repr" ["t"]) h = some (.ok (.str ("Track(signature=".toList ++
        t.signature.tupleText ++ ", content=[".toList ++ joinComma ((t.items W.sort).map (Entry.repr W.floatText)) ++
        "])".toList)) h') ∧ Becomes h h' a l l (t.iter W.sort).1 := by
  obtain ⟨h', h1, h2⟩ := track_repr_ok W hN ht hr.wf
  refine ⟨h', ?_, h2⟩
  rw [user_call1 W (b := .repr) (by rfl) (by rfl) (by rfl) rfl, h1]
  rfl

/-- C95 (equality): for two tracks in memory `t == u` is true exactly if the signatures have the same value and the entries
agree as far as the shorter track goes, and `t != u` is the opposite; nothing but the two tracks is changed. `t == t` is
true. -/
theorem C95_equality (hN : W.sort.Natural) {h : Heap} {a l b m : Nat} {t u : Track} (ht : TrackAt h a l t)
    (hu : TrackAt h b m u) (hrt : t.Reachable W.sort) (hru : u.Reachable W.sort) (hab : a ≠ b) (hlm : l ≠ m) :
    ∃ (h' : Heap) (r : Bool),
      userEval W [("t", .ref a), ("u", .ref b)] (cmpE .eq "t" "u") h = some (.ok (.bool r) h') ∧
      userEval W [("t", .ref a), ("u", .ref b)] (cmpE .ne "t" "u") h = some (.ok (.bool !r) h') ∧
      (r = true ↔ t.signature.val = u.signature.val ∧
        ((t.items W.sort).map Entry.key).take (min t.len u.len) = ((u.items W.sort).map Entry.key).take (min t.len u.len)) ∧
      (∃ t', TrackAt h' a l t' ∧ (t' = t ∨ t' = (t.iter W.sort).1)) ∧
      (∃ u', TrackAt h' b m u' ∧ (u' = u ∨ u' = (u.iter W.sort).1)) ∧
      Frame (fun c => Own a l c ∨ Own b m c) h h' := by
  obtain ⟨h', h1, h2, h3, h4⟩ := track_eq_run W hN ht hu hrt.wf hru.wf hab hlm
  refine ⟨h', t.eq W.sort u, ?_, ?_, C25_eq_iff W.sort t u hrt hru, ⟨_, h2, ?_⟩, ⟨_, h3, ?_⟩, h4⟩
  · refine (evalE_cmp program W (evalE_name program W (v := .ref a) (by rfl) rfl h)
      (evalE_name program W (v := .ref b) (by rfl) rfl h)).trans ?_
    rw [compareOp_eq, richCmp_ref _ _ (by simp) ht.obj track_eq]
    exact h1
  · refine (evalE_cmp program W (evalE_name program W (v := .ref a) (by rfl) rfl h)
      (evalE_name program W (v := .ref b) (by rfl) rfl h)).trans ?_
    rw [compareOp_ne]
    exact richCmp_ref_ne _ _ ht.obj track_eq h1
  · unfold seen; split
    · exact .inr rfl
    · exact .inl rfl
  · split
    · exact .inr rfl
    · exact .inl rfl

theorem C95_equality_self (hN : W.sort.Natural) {h : Heap} {a l : Nat} {t : Track} (ht : TrackAt h a l t)
    (hr : t.Reachable W.sort) :
    ∃ h', userEval W [("t", .ref a)] (cmpE .eq "t" "t") h = some (.ok (.bool true) h') ∧
      Becomes h h' a l l (t.iter W.sort).1 := by
  obtain ⟨h', i1, i2⟩ := track_eq_self_run W hN ht hr.wf
  rw [seen_self W hr.wf] at i2
  refine ⟨h', ?_, i2⟩
  refine (evalE_cmp program W (evalE_name program W (v := .ref a) (by rfl) rfl h)
    (evalE_name program W (v := .ref a) (by rfl) rfl h)).trans ?_
  rw [compareOp_eq, richCmp_ref _ _ (by simp) ht.obj track_eq, i1, (C25_refl_symm W.sort t t hr hr).1]

/-- C95 (whole programs): make a track with `Track(s)` and then evaluate any sequence of operations on it, calls of `add` in
all forms, with notes or nested tuples and lists of them, successful or not, iterations, comparisons and readings. At the end
`[x for x in t]` is the list of all notes that were added, each at the position its call denotes, in ascending order, `len(t)`
is their number, and `t.signature` the signature given. No object that existed before is changed. -/
theorem C95_program (hN : W.sort.Natural) (h : Heap) {s : SigArg} (hsv : s.Valid) {v : Val} (hs : IsSigArg s v)
    {sig : Signature} (hsig : SigDenotes s sig) (ops : List TrackOp) (hops : ∀ o ∈ ops, o.Valid)
    {steps : List (List (String × Val) × Expr)}
    (hsteps : List.Forall₂ (fun o x => Performs h h.objs.length h.objs.length o x.1 x.2) ops steps) :
    ∃ (h0 h1 h2 : Heap) (b : Nat) (es : List Entry), userEval W [("s", v)] (callE "Track" ["s"]) h = some (.ok (.ref h.objs.length) h0) ∧
      session W steps h0 = some h1 ∧
      userEval W [("t", .ref h.objs.length)] (callE "len" ["t"]) h1 = some (.ok (.int (es.length : ℕ)) h1) ∧
      userEval W [("t", .ref h.objs.length)] (.attr (.name "t") "signature") h1 = some (.ok (sigV sig) h1) ∧
      userEval W [("t", .ref h.objs.length)] (.comp (.name "x") (.name "x") (.name "t")) h1 = some (.ok (.ref b) h2) ∧
      h2.objs[b]? = some (.list (es.map (fun e => .tuple [sigV e.1, noteV e.2]))) ∧
      (∀ m, PlacedBy W.sort (Track.empty sig) ops m → (es.map Entry.placed : Multiset _) = m) ∧
      es.Pairwise (fun x y => x.1.val ≤ y.1.val) ∧
      es.Pairwise (fun x y => x.1.val = y.1.val → x.2.tone.pitch ≤ y.2.tone.pitch) ∧
      Frame (fun _ => False) h h2 := by
  obtain ⟨h0, l, t, a1, a2, a3, a4, a5, a6, a7⟩ := (C95_constructor W h hsv (content := []) (by simp) hs
    (.inl ⟨rfl, rfl⟩) (.one v)).1 sig hsig (by simp)
  have hval := denotes_valid hsv hsig
  obtain ⟨h0', l', b1, b2, b3, b4, b5⟩ := (track_new_run W (h := h) (l0 := 0) hs hsv (content := []) (by simp) (.inl ⟨rfl, rfl⟩)
    (args := [v]) (kws := []) (by simp [py, Track.dunder_init])).1 (Track.empty sig) (by
      unfold Track.new; rw [SigArg.coerce_ok_iff.mpr hsig]; rfl)
  have hu : userEval W [("s", v)] (callE "Track" ["s"]) h = some (.ok (.ref h.objs.length) h0') := by
    refine (evalE_call program W (es := [.name "s"]) (evalE_name program W (v := .cls "Track") (by rfl) rfl h)
      (evalArgs_cons _ _ (by simp) (evalE_name _ _ (by rfl) (readVar_sigArg hs) _) (evalArgs_nil _ _ _ _))).trans ?_
    rw [call.eq_def]
    exact b1
  obtain ⟨h1, l1, c1, c2⟩ := session_ok W hN ops b3 b2 hops hsteps
    (fun w v hw => isWhat_mono b4.le (b5.mono (fun _ _ hb => hb.elim)) w v hw)
  have hr : ((Track.empty sig).run W.sort ops).Reachable W.sort := ⟨sig, ops, hval, hops, rfl⟩
  obtain ⟨h2, b, d1, d2, d3, d4⟩ := user_list W hN c2.track hr.wf
  have hat := C95_attributes W c2.track
  refine ⟨h0', h1, h2, b, _, hu, c1, ?_, ?_, d1, d2, fun m hm => ((C19_contents W.sort sig hval ops hops).1 m hm).1,
    C20_ascending W.sort _ hr, C20_chords_ascending W.sort _ hr, ?_⟩
  · rw [hat.2.2.1, Track.items_length, Track.contents, Multiset.coe_card, List.length_map, Track.len]
  · rw [hat.1, (Track.run_wf W.sort _ (Track.empty_wf hval) hops).2]
    rfl
  · have hf := (c2.trans d3).frame
    refine b5.trans hf (fun _ hb => hb) ?_
    rintro c hc (rfl | rfl)
    · exact absurd hc (lt_irrefl _)
    · exact absurd hc (not_lt.mpr b4.le)

/-- CPython's sort looks at the elements only by comparing them. -/
example : cpySort.Natural := cpySort_natural

/-- A program: make a track in 4/4, add a quarter note; add a list with another note at (1, 2), where the list is at address 0;
try to add a note at the position 5, which fails; iterate. The track then contains the two notes, at 0 and 1/2. -/
example (hN : W.sort.Natural) : ∃ (h1 h2 : Heap) (b : Nat) (es : List Entry),
    session W [([("t", .ref 1), ("x", noteV (exNote 60 1 4))], methE "t" "add" ["x"]),
      ([("t", .ref 1), ("x", .ref 0), ("w", .tuple [.int 1, .int 2])], methE "t" "add" ["x", "w"]),
      ([("t", .ref 1), ("x", noteV (exNote 60 1 4)), ("w", .int 5)], methE "t" "add" ["x", "w"]),
      ([("t", .ref 1)], callE "iter" ["t"])] h1 = some h2 ∧
    (∃ h0 : Heap, h0.objs = [.list [noteV (exNote 64 1 8)]] ∧
      userEval W [("s", .tuple [.int 4, .int 4])] (callE "Track" ["s"]) h0 = some (.ok (.ref 1) h1)) ∧
    (∃ h3, userEval W [("t", .ref 1)] (.comp (.name "x") (.name "x") (.name "t")) h2 = some (.ok (.ref b) h3) ∧
      h3.objs[b]? = some (.list (es.map (fun e => .tuple [sigV e.1, noteV e.2])))) ∧
    (es.map Entry.placed : Multiset (ℚ × Note)) = {(0, exNote 60 1 4), (1 / 2, exNote 64 1 8)} := by
  have hv : ∀ x n d, 0 ≤ n → IsPow2 d → (exNote x n d).Valid := fun x n d hn hd =>
    ⟨⟨hn, hd⟩, by norm_num [exNote], by norm_num [exNote]⟩
  have h4 : IsPow2 4 := ⟨2, by norm_num⟩
  have h8 : IsPow2 8 := ⟨3, by norm_num⟩
  obtain ⟨h1, h2, h3, b, es, e1, e2, -, -, e3, e4, e5, -⟩ := C95_program W hN
    ⟨[.list [noteV (exNote 64 1 8)]], 0⟩ (s := .ints [4, 4]) trivial (.tuple [4, 4]) (sig := ⟨4, 4⟩)
    (.pair 4 4 (by norm_num) h4)
    [.add (.note (exNote 60 1 4)) none, .add (.many [.note (exNote 64 1 8)]) (some (.ints [1, 2])),
      .add (.note (exNote 60 1 4)) (some .other), .iterate] (by
      intro o ho
      simp only [List.mem_cons, List.not_mem_nil, or_false] at ho
      rcases ho with rfl | rfl | rfl | rfl
      · exact ⟨by intro n hn; simp [What.notes] at hn; exact hn ▸ hv _ _ _ (by norm_num) h4, by simp⟩
      · exact ⟨by intro n hn; simp [What.notes, What.notesList] at hn; exact hn ▸ hv _ _ _ (by norm_num) h8,
          by intro a ha; cases ha; trivial⟩
      · exact ⟨by intro n hn; simp [What.notes] at hn; exact hn ▸ hv _ _ _ (by norm_num) h4,
          by intro a ha; cases ha; trivial⟩
      · trivial)
    (steps := [([("t", .ref 1), ("x", noteV (exNote 60 1 4))], methE "t" "add" ["x"]),
      ([("t", .ref 1), ("x", .ref 0), ("w", .tuple [.int 1, .int 2])], methE "t" "add" ["x", "w"]),
      ([("t", .ref 1), ("x", noteV (exNote 60 1 4)), ("w", .int 5)], methE "t" "add" ["x", "w"]),
      ([("t", .ref 1)], callE "iter" ["t"])]) (by
      refine .cons (.add _ _ _ _ _ _ ?_ .default .one) (.cons (.add _ _ _ _ _ _ ?_ (.arg _ _ ?_ (.tuple [1, 2])) (.two _))
        (.cons (.add _ _ _ _ _ _ ?_ (.arg _ _ ?_ (.int 5)) (.two _)) (.cons .iter .nil)))
      · rw [IsWhat]
      · rw [IsWhat]
        exact ⟨[noteV (exNote 64 1 8)], by simp [IsWhats, IsWhat], .inr ⟨0, rfl, by simp, rfl⟩⟩
      · simp
      · rw [IsWhat]
      · simp)
  refine ⟨h1, h2, b, es, e2, ⟨_, rfl, e1⟩, ⟨h3, e3, e4⟩, ?_⟩
  have := e5 _ (.cons _ _ _ _ _ (.default _) (.cons _ _ _ _ _ (.at _ _ ⟨1, 2⟩ (.pair 1 2 (by norm_num) ⟨1, by norm_num⟩))
    (.cons _ _ _ _ _ (.fail _ _ (by intro s hs; cases hs)) (.cons _ _ _ _ _ .iterate (.nil _)))))
  rw [this]
  simp [What.notes, What.notesList, Track.empty, Track.length, Signature.val]

end Melodia
