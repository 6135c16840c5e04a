/-
`MIDIWriter.dump` and `MIDIWriter.dumps`: executing the text agrees with the model (Verif/Model/MidiWrite.lean).
-/
import Verif.Lemmas.PyRuns
import Verif.Lemmas.SourceWriter
import Verif.Lemmas.SourceTrackMore
import Verif.Lemmas.MidiWrite

set_option autoImplicit false

namespace Melodia

open Melodia.Python

namespace Source

variable (W : World)

/-- A timed event, in memory. -/
def timedV (e : TimedBytes) : Val := .tuple [.int e.1, .bytes e.2]

/-- The names `dump` starts with. -/
def dumpNames (w : Melodia.Writer) (c : Val × Val) (a f : Nat) : List (String × Option Val) :=
  [("self", some (writerV w c)), ("track", some (.ref a)), ("file", some (.ref f)), ("itemgetter", .none), ("int", .none)]

section
variable {w : Melodia.Writer} {c : Val × Val} {env : Env} {l : List (String × Option Val)}

/-- `self.m(...)`. -/
theorem self_call (H : Has "melodia.io.midi" env l) (hs : ("self", some (writerV w c)) ∈ l) {m : String} {f : FunDef}
    (hm : Dict.get [("_pulses_per_quarter", Val.int w.ppq),
      ("_pulses_per_whole", .int w.ppw), ("_middle_c", c.1), ("_middle_c_delta", .int w.middleCDelta), ("_bpm", c.2),
      ("_channel", .int w.channel)] m = .none) (hc : m ≠ "__class__") (hf : program.method "MIDIWriter" m = some f)
    (hd : f.deco = .plain) {es : List Expr} {vs : List Val} {h h1 : Heap} (he : evalArgs program W es env h = some (.ok vs h1)) :
    evalE program W (.call (.attr (.name "self") m) es []) env h = callFun program W f (writerV w c :: vs) [] h1 := by
  rw [evalE_call program W ((evalE_attr_of _ _ (H.name _ _ hs h)).trans (by
    rw [writerV_meth W w c hm hc hf (by simp [hd])]; rfl)) he]
  rw [writerV, call_obj _ _ _ _ _ _ _ _ hf (by simp [hd])]

theorem self_attr_static (H : Has "melodia.io.midi" env l) (hs : ("self", some (writerV w c)) ∈ l) {m : String} {f : FunDef}
    (hm : Dict.get [("_pulses_per_quarter", Val.int w.ppq),
      ("_pulses_per_whole", .int w.ppw), ("_middle_c", c.1), ("_middle_c_delta", .int w.middleCDelta), ("_bpm", c.2),
      ("_channel", .int w.channel)] m = .none) (hc : m ≠ "__class__") (hf : program.method "MIDIWriter" m = some f)
    (hd : f.deco = .staticmethod) (h : Heap) :
    evalE program W (.attr (.name "self") m) env h = some (.ok (.meth (writerV w c) m) h) := by
  rw [evalE_attr_of _ _ (H.name _ _ hs h), writerV_meth W w c hm hc hf (by simp [hd])]; rfl

theorem call_static {m : String} {f : FunDef} (hf : program.method "MIDIWriter" m = some f) (hd : f.deco = .staticmethod)
    (args : List Val) (kws : List (String × Val)) :
    call program W (.meth (writerV w c) m) args kws = callFun program W f args kws := by
  rw [writerV, call.eq_def]
  simp [py, boundMethod, methodOf, hf, hd]

end

/-! ### The first loop of `dump` -/

/-- The body of the first loop. -/
def noteLoop : List Stmt := [
  .assign (.name "note_on_absolute_time") (.call (.attr (.name "self") "_signature_to_pulses") [.name "position"] []),
  .assign (.name "note_on_event") (.call (.attr (.name "self") "_format_note_on") [.name "note"] []),
  .assign (.name "note_off_absolute_time") (.bin .add (.name "note_on_absolute_time") (.call (.attr (.name "self") "_signature_to_pulses") [.attr (.name "note") "duration"] [])),
  .assign (.name "note_off_event") (.call (.attr (.name "self") "_format_note_off") [.name "note"] []),
  .expr (.call (.attr (.name "absolute_note_events") "append") [.tuple [.name "note_on_absolute_time", .name "note_on_event"]] []),
  .expr (.call (.attr (.name "absolute_note_events") "append") [.tuple [.name "note_off_absolute_time", .name "note_off_event"]] [])]

/-- One round: the events of a note are appended. -/
theorem note_body {w : Melodia.Writer} (hw : w.Valid) {c : Val × Val} (hc : HasText W c.1) {a f b : Nat} {env : Env}
    (H : Has "melodia.io.midi" env (("absolute_note_events", some (.ref b)) :: dumpNames w c a f)) {h : Heap}
    {acc : List TimedBytes} (hb : h.objs[b]? = some (.list (acc.map timedV))) {e : Entry} (he1 : e.1.Valid) (he2 : e.2.Valid) :
    (∀ es, w.noteEvents [e] = .ok es → ∃ h' env',
      execB program W noteLoop ((env.set "position" (sigV e.1)).set "note" (noteV e.2)) h = some (.ok (.next env') h') ∧
      h'.objs[b]? = some (.list ((acc ++ es).map timedV)) ∧ Frame (· = b) h h' ∧
      Has "melodia.io.midi" env' (("absolute_note_events", some (.ref b)) :: dumpNames w c a f)) ∧
    (∀ x, w.noteEvents [e] = .error x → ∃ h',
      execB program W noteLoop ((env.set "position" (sigV e.1)).set "note" (noteV e.2)) h = some (.err x h') ∧
      Frame (· = b) h h') := by
  have H1 := (H.set "position" (v := sigV e.1) (by simp [sigV]) (by simp [dumpNames])).set "note" (v := noteV e.2)
    (by simp [noteV]) (by simp [dumpNames])
  set env1 := (env.set "position" (sigV e.1)).set "note" (noteV e.2) with henv1
  obtain ⟨p, hp⟩ : ∃ p, w.signatureToPulses e.1 = .ok p := ⟨_, Writer.signatureToPulses_ok hw he1⟩
  obtain ⟨d, hd⟩ : ∃ d, w.signatureToPulses e.2.duration = .ok d := ⟨_, Writer.signatureToPulses_ok hw he2.duration⟩
  have e1 : evalE program W (.call (.attr (.name "self") "_signature_to_pulses") [.name "position"] []) env1 h =
      some (.ok (.int p) h) := by
    rw [self_call W H1 (w := w) (c := c) (by simp [dumpNames]) rfl (by simp) writer_pulses rfl
      (evalArgs_cons _ _ (by simp) (H1.name _ _ (v := sigV e.1) (by simp) h) (evalArgs_nil _ _ _ _)),
      pulses_ok W w c _ he1, hp]
    rfl
  have H2 := H1.set "note_on_absolute_time" (v := .int p) (by simp) (by simp [dumpNames])
  set env2 := env1.set "note_on_absolute_time" (.int p) with henv2
  have e2 : evalE program W (.call (.attr (.name "self") "_format_note_on") [.name "note"] []) env2 h =
      callFun program W MIDIWriter._format_note_on [writerV w c, noteV e.2] [] h :=
    self_call W H2 (w := w) (c := c) (by simp [dumpNames]) rfl (by simp) writer_on rfl
      (evalArgs_cons _ _ (by simp) (H2.name _ _ (v := noteV e.2) (by simp) h) (evalArgs_nil _ _ _ _))
  rw [noteLoop, execB_next _ _ (execS_setname _ _ e1 (H1.cell _))]
  have q1 := note_on_ok W w hw c hc e.2
  cases hon : w.formatNoteOn e.2 with
  | error x =>
    obtain ⟨h1, f1, r1⟩ := q1.err (by rw [hon]; rfl) h
    have : w.noteEvents [e] = .error x := by
      obtain ⟨e1, e2⟩ := e
      simp only [Writer.noteEvents, hp, hon]; rfl
    refine ⟨fun es hes => (by rw [this] at hes; cases hes), fun y hy => ?_⟩
    rw [this] at hy; cases hy
    exact ⟨h1, execB_err _ _ (execS_setname_err _ _ (e2.trans r1)), f1.mono (by simp)⟩
  | ok on =>
    obtain ⟨h1, f1, r1⟩ := q1.ok (by rw [hon]; rfl) h
    rw [execB_next _ _ (execS_setname _ _ (e2.trans r1) (H2.cell _))]
    have H3 := H2.set "note_on_event" (v := .bytes on) (by simp) (by simp [dumpNames])
    set env3 := env2.set "note_on_event" (.bytes on) with henv3
    have e3 : evalE program W (.bin .add (.name "note_on_absolute_time")
        (.call (.attr (.name "self") "_signature_to_pulses") [.attr (.name "note") "duration"] [])) env3 h1 =
        some (.ok (.int (p + d)) h1) := by
      rw [evalE_bin program W (H3.name _ _ (v := .int p) (by simp) h1) (by
        rw [self_call W H3 (w := w) (c := c) (by simp [dumpNames]) rfl (by simp) writer_pulses rfl
          (evalArgs_cons _ _ (by simp) ((evalE_attr_of _ _ (H3.name _ _ (v := noteV e.2) (by simp) h1)).trans
          (by rw [note_duration_ok]; rfl)) (evalArgs_nil _ _ _ _)), pulses_ok W w c _ he2.duration, hd]
        rfl)]
      simp only [py]
      rfl
    rw [execB_next _ _ (execS_setname _ _ e3 (H3.cell _))]
    have H4 := H3.set "note_off_absolute_time" (v := .int (p + d)) (by simp) (by simp [dumpNames])
    set env4 := env3.set "note_off_absolute_time" (.int (p + d)) with henv4
    have e4 : evalE program W (.call (.attr (.name "self") "_format_note_off") [.name "note"] []) env4 h1 =
        callFun program W MIDIWriter._format_note_off [writerV w c, noteV e.2] [] h1 :=
      self_call W H4 (w := w) (c := c) (by simp [dumpNames]) rfl (by simp) writer_off rfl
        (evalArgs_cons _ _ (by simp) (H4.name _ _ (v := noteV e.2) (by simp) h1) (evalArgs_nil _ _ _ _))
    have q2 := note_off_ok W w hw c hc e.2
    cases hoff : w.formatNoteOff e.2 with
    | error x =>
      obtain ⟨h2, f2, r2⟩ := q2.err (by rw [hoff]; rfl) h1
      have : w.noteEvents [e] = .error x := by
        obtain ⟨e1, e2⟩ := e
        simp only [Writer.noteEvents, hp, hon, hd, hoff]; rfl
      refine ⟨fun es hes => (by rw [this] at hes; cases hes), fun y hy => ?_⟩
      rw [this] at hy; cases hy
      exact ⟨h2, execB_err _ _ (execS_setname_err _ _ (e4.trans r2)), f1.trans f2 (by simp) (by simp)⟩
    | ok off =>
      obtain ⟨h2, f2, r2⟩ := q2.ok (by rw [hoff]; rfl) h1
      rw [execB_next _ _ (execS_setname _ _ (e4.trans r2) (H4.cell _))]
      have H5 := H4.set "note_off_event" (v := .bytes off) (by simp) (by simp [dumpNames])
      set env5 := env4.set "note_off_event" (.bytes off) with henv5
      have hb2 : h2.objs[b]? = some (.list (acc.map timedV)) := f2.at (f1.at hb (by simp)) (by simp)
      have ap : ∀ {h : Heap} {acc : List TimedBytes} (_ : h.objs[b]? = some (.list (acc.map timedV))) (x y : String) (i : Int)
          (o : Bytes), (x, some (.int i)) ∈ ("note_off_event", some (Val.bytes off)) ::
            ("note_off_absolute_time", some (.int (p + d))) :: ("note_on_event", some (.bytes on)) ::
            [("note_on_absolute_time", some (.int p))] → (y, some (.bytes o)) ∈ ("note_off_event", some (Val.bytes off)) ::
            ("note_off_absolute_time", some (.int (p + d))) :: ("note_on_event", some (.bytes on)) ::
            [("note_on_absolute_time", some (.int p))] →
          evalE program W (.call (.attr (.name "absolute_note_events") "append") [.tuple [.name x, .name y]] []) env5 h =
            some (.ok .none (h.put b (.list ((acc ++ [(i, o)]).map timedV)))) := by
        intro h acc hb x y i o hx hy
        rw [evalE_call program W ((evalE_attr_of _ _ (H5.name _ _ (v := .ref b) (by simp) h)).trans
          (getAttr_ref_prim _ _ hb rfl)) (evalArgs_cons _ _ (by simp) (evalE_tuple _ _ (evalArgs_cons _ _ (by simp)
          (H5.name _ _ (v := .int i) (by simp at hx ⊢; tauto) h) (evalArgs_cons _ _ (by simp)
          (H5.name _ _ (v := .bytes o) (by simp at hy ⊢; tauto) h) (evalArgs_nil _ _ _ _)))) (evalArgs_nil _ _ _ _)),
          call_append _ _ hb]
        simp [timedV]
      have hb3 : (h2.put b (.list ((acc ++ [(p, on)]).map timedV))).objs[b]? = some (.list ((acc ++ [(p, on)]).map timedV)) :=
        Heap.put_at hb2
      have hev : w.noteEvents [e] = .ok [(p, on), (p + d, off)] := by
        obtain ⟨e1, e2⟩ := e
        simp only [Writer.noteEvents, hp, hon, hd, hoff]; rfl
      refine ⟨fun es hes => ?_, fun y hy => by rw [hev] at hy; cases hy⟩
      rw [hev] at hes; cases hes
      refine ⟨_, env5, ?_, Heap.put_at hb3 (o := .list ((acc ++ [(p, on)] ++ [(p + d, off)]).map timedV)) |>.trans (by simp), ?_,
        H5.weaken (by simp; tauto)⟩
      · rw [execB_next _ _ (execS_expr _ _ (ap hb2 "note_on_absolute_time" "note_on_event" p on (by simp) (by simp))),
          execB_next _ _ (execS_expr _ _ (ap hb3 "note_off_absolute_time" "note_off_event" (p + d) off (by simp) (by simp))),
          execB_nil]
      · exact ((f1.trans f2 (U := (· = b)) (by simp) (by simp)).trans (Frame.put _ b _) (U := (· = b)) (fun _ => id)
          (fun _ _ => id)).trans (Frame.put _ b _) (fun _ => id) (fun _ _ => id)

theorem noteEvents_cons (w : Melodia.Writer) (e : Entry) (l : List Entry) :
    w.noteEvents (e :: l) = (do let x ← w.noteEvents [e]; let y ← w.noteEvents l; pure (x ++ y)) := by
  obtain ⟨p, n⟩ := e
  simp only [Writer.noteEvents]
  cases w.signatureToPulses p with
  | error x => rfl
  | ok a => cases w.formatNoteOn n with
    | error x => rfl
    | ok b => cases w.signatureToPulses n.duration with
      | error x => rfl
      | ok d => cases w.formatNoteOff n with
        | error x => rfl
        | ok f => cases w.noteEvents l <;> rfl

theorem noteEvents_fold (w : Melodia.Writer) (l : List Entry) (acc : List TimedBytes) :
    l.foldlM (fun acc e => (do let x ← w.noteEvents [e]; pure (acc ++ x) : PyM _)) acc =
      (do let x ← w.noteEvents l; pure (acc ++ x)) := by
  induction l generalizing acc with
  | nil => simp [Writer.noteEvents]; rfl
  | cons e l ih =>
    rw [List.foldlM_cons, noteEvents_cons w e l]
    cases w.noteEvents [e] with
    | error x => rfl
    | ok x =>
      change List.foldlM _ (acc ++ x) l = _
      rw [ih]
      change _ = (do let y ← (do let y ← w.noteEvents l; pure (x ++ y)); pure (acc ++ y))
      cases w.noteEvents l with
      | error y => rfl
      | ok y => simp

/-- The first loop: the events of the notes are collected. -/
theorem note_loop {w : Melodia.Writer} (hw : w.Valid) {c : Val × Val} (hc : HasText W c.1) {a f b l : Nat} {env : Env}
    (H : Has "melodia.io.midi" env (("absolute_note_events", some (.ref b)) :: dumpNames w c a f)) {h h1 : Heap}
    (hb : h1.objs[b]? = some (.list [])) {items : List Entry} (hl : h1.objs[l]? = some (.list (items.map entryV))) (hbl : l ≠ b)
    (hv : ∀ e ∈ items, e.1.Valid ∧ e.2.Valid) (hi : getIter program W (.ref a) h = some (.ok (.iter l) h1)) :
    Runs program W [.for (.tuple [.name "position", .name "note"]) (.name "track") noteLoop] env h (w.noteEvents items)
      (fun es env' h' => Has "melodia.io.midi" env' (("absolute_note_events", some (.ref b)) :: dumpNames w c a f) ∧
        h'.objs[b]? = some (.list (es.map timedV)) ∧ Frame (· = b) h1 h')
      (fun h' => Frame (· = b) h1 h') := by
  have := noteEvents_fold w items []
  simp only [List.nil_append, bind_pure] at this
  rw [← this]
  refine Runs.for (g := entryV) (fun (es : List TimedBytes) env' h' => Has "melodia.io.midi" env' (("absolute_note_events", some (.ref b)) ::
    dumpNames w c a f) ∧ h'.objs[b]? = some (.list (es.map timedV)) ∧ Frame (· = b) h1 h') _ _
    (H.name _ _ (v := .ref a) (by simp [dumpNames]) h) hi ?_ ?_ ⟨H, hb, Frame.refl _ _⟩
  · rintro s env' h' ⟨-, -, hf⟩
    exact hf.at hl hbl
  · rintro s env' h' e he ⟨H', hb', hf⟩
    obtain ⟨h1, h2⟩ := note_body W hw hc H' hb' (hv e he).1 (hv e he).2
    refine ⟨((env'.set "position" (sigV e.1)).set "note" (noteV e.2)).vars, by simp [py, entryV], ?_⟩
    revert h1 h2
    cases w.noteEvents [e] with
    | ok es =>
      intro h1 _
      obtain ⟨h'', env'', e1, e2, e3, e4⟩ := h1 es rfl
      exact ⟨env'', h'', e1, e4, e2, hf.trans e3 (fun _ => id) (fun _ _ => id)⟩
    | error x =>
      intro _ h2
      obtain ⟨h'', e1, e3⟩ := h2 x rfl
      exact ⟨h'', e1, hf.trans e3 (fun _ => id) (fun _ _ => id)⟩

/-! ### Sorting the events -/

theorem sortKeys_ok (l : List TimedBytes) :
    sortKeys program W 0 (l.map timedV) = pure (l.map (fun e => Val.int e.1)) := by
  induction l with
  | nil => rw [List.map_nil, sortKeys]; rfl
  | cons e l ih =>
    rw [List.map_cons, sortKeys, ih]
    rfl

theorem sortRow_int (i : Int) (m : List TimedBytes) :
    sortRow program W (.int i) (m.map (fun e => Val.int e.1)) = pure (m.map (fun e => decide (i < e.1))) := by
  induction m with
  | nil => rw [List.map_nil, sortRow]; rfl
  | cons e m ih =>
    rw [List.map_cons, sortRow, ih]
    simp [py]

theorem sortTable_int (l m : List TimedBytes) :
    sortTable program W (l.map (fun e => Val.int e.1)) (m.map (fun e => Val.int e.1)) =
      pure (l.map (fun x => m.map (fun e => decide (x.1 < e.1)))) := by
  induction l with
  | nil => rw [List.map_nil, sortTable]; rfl
  | cons e l ih =>
    rw [List.map_cons, sortTable, ih, sortRow_int]
    rfl

theorem sort_events (hN : W.sort.Natural) {env : Env} {l : List (String × Option Val)} (H : Has "melodia.io.midi" env l) {b : Nat}
    (hn : ("absolute_note_events", some (.ref b)) ∈ l) (hg : ("itemgetter", .none) ∈ l) {h : Heap} {es : List TimedBytes}
    (hb : h.objs[b]? = some (.list (es.map timedV))) :
    execS program W (.expr (.call (.attr (.name "absolute_note_events") "sort") [.call (.name "itemgetter") [.int 0] []] ["key"]))
      env h = some (.ok (.next env) (h.put b (.list ((W.sort.sort (fun a b => decide (a.1 < b.1)) es).map timedV)))) := by
  refine execS_expr (v := .none) _ _ ?_
  refine (evalE_call_kw program W (es := []) (ks := [.call (.name "itemgetter") [.int 0] []]) (kws := ["key"]) rfl
    ((evalE_attr_of _ _ (H.name _ _ hn h)).trans (getAttr_ref_prim _ _ hb rfl)) (evalArgs_nil _ _ _ _)
    (evalArgs_cons (v := .itemgetter 0) (h1 := h) _ _ (by simp) ?_ (evalArgs_nil _ _ _ _))).trans ?_
  · rw [evalE_call program W (H.global _ _ hg (midi_name_itemgetter W) h) (evalArgs_cons _ _ (by simp)
      (show evalE program W (.int 0) env h = some (.ok (.int 0) h) by rw [evalE]; rfl) (evalArgs_nil _ _ _ _)), call_builtin,
      callBuiltin.eq_def]
    rfl
  · rw [call.eq_def]
    simp only [boundMethod]
    rw [bind_ok (methodOf_ref_list _ _ hb)]
    simp only [List.zip_cons_cons, List.zip_nil_left]
    rw [callSort.eq_def]
    simp only
    rw [bind_ok (load_ok hb)]
    simp only
    rw [sortKeys_ok, pure_bind, sortTable_int, noRaise_pure, pure_bind, sortByTable_ok W hN]
    rfl

/-! ### The events with their delta times -/

/-- `int(60000000 / self._bpm)`. -/
theorem tempo_expr {w : Melodia.Writer} {c : Val × Val} (hx : IsBpm w.bpm c.2) {env : Env} {l : List (String × Option Val)}
    (H : Has "melodia.io.midi" env l)
    (hs : ("self", some (writerV w c)) ∈ l) (hi : ("int", .none) ∈ l) (h : Heap) :
    evalE program W (.call (.name "int") [.bin .div (.int 60000000) (.attr (.name "self") "_bpm")] []) env h =
      liftPy ((Writer.tempoOf w.bpm).map Val.int) h := by
  have hf : fl 60000000 = 60000000 := by
    have := fl_int (n := 60000000) (by norm_num)
    simpa using this
  have e0 : evalE program W (.int 60000000) env h = some (.ok (.int 60000000) h) := by rw [evalE]; rfl
  obtain ⟨c, b⟩ := c
  have e1 : evalE program W (.attr (.name "self") "_bpm") env h = some (.ok b h) :=
    (evalE_attr_of _ _ (H.name _ _ hs h)).trans (by rw [writerV_bpm]; rfl)
  have e2 := evalE_bin program W (op := .div) e0 e1
  have hg := H.global program W hi (midi_name_int W) h
  have hok : ∀ q : ℚ, binary program W .div (.int 60000000) b = pure (.float (.fin q)) →
      evalE program W (.call (.name "int") [.bin .div (.int 60000000) (.attr (.name "self") "_bpm")] []) env h =
        some (.ok (.int (pyTrunc q)) h) := by
    intro q hq
    rw [hq] at e2
    rw [evalE_call program W hg (evalArgs_cons _ _ (by simp) (e2.trans rfl) (evalArgs_nil _ _ _ _)), call_builtin, call_int_float]
    rfl
  have hzero : w.bpm = .fin 0 → binary program W .div (.int 60000000) b = raise .zeroDivisionError →
      evalE program W (.call (.name "int") [.bin .div (.int 60000000) (.attr (.name "self") "_bpm")] []) env h =
        liftPy ((Writer.tempoOf w.bpm).map Val.int) h := by
    intro h0 hb
    rw [hb] at e2
    rw [evalE_call_err program W hg (evalArgs_err _ _ (by simp) (e2.trans rfl)), h0]
    simp [Writer.tempoOf]
    rfl
  generalize hw : w.bpm = x at hx hzero
  dsimp only at hx
  cases hx with
  | float x =>
    cases x with
    | fin q =>
      by_cases hq : q = 0
      · subst hq
        exact hzero rfl (by simp [py, floatDiv, floatOp])
      · rw [hok (fl (60000000 / q)) (by simp [py, hq, hf, floatDiv, floatOp])]
        simp [Writer.tempoOf, hq]
        rfl
    | nan =>
      have : binary program W .div (.int 60000000) (.float .nan) = pure (.float .nan) := by
        simp [py, floatDiv, floatOp]
      rw [this] at e2
      rw [evalE_call program W hg (evalArgs_cons _ _ (by simp) (e2.trans rfl) (evalArgs_nil _ _ _ _)), call_builtin,
        callBuiltin.eq_def]
      rfl
    | posInf =>
      rw [hok 0 (by simp [py, floatDiv, floatOp])]
      simp [Writer.tempoOf, pyTrunc]
      rfl
    | negInf =>
      rw [hok 0 (by simp [py, floatDiv, floatOp])]
      simp [Writer.tempoOf, pyTrunc]
      rfl
  | int i =>
    by_cases hq : i = 0
    · subst hq
      exact hzero rfl (by simp [py, intOp])
    · rw [hok (fl (60000000 / i)) (by simp [py, intOp, hq])]
      simp [Writer.tempoOf, hq]
      rfl
  | bool v =>
    cases v with
    | false => exact hzero rfl (by rw [binary.eq_def]; simp [py, primOp, asInt, intOp])
    | true =>
      rw [hok (fl (60000000 / 1)) (by rw [binary.eq_def]; simp [py, primOp, asInt, intOp])]
      simp [Writer.tempoOf]
      rfl

theorem lit_int (i : Int) (env : Env) (h : Heap) : evalE program W (.int i) env h = some (.ok (.int i) h) := by
  rw [evalE]; rfl

theorem lit_bytes (b : Bytes) (env : Env) (h : Heap) : evalE program W (.bytes b) env h = some (.ok (.bytes b) h) := by
  rw [evalE]; rfl

/-- The first two events. -/
def metaEvents (w : Melodia.Writer) (s : Melodia.Signature) : PyM (List TimedBytes) := do
  let sigEvent ← Writer.formatSignature s w.ppq 8
  let tempo ← Writer.tempoOf w.bpm
  let tempoEvent ← Writer.formatTempo tempo
  pure [(0, sigEvent), (0, tempoEvent)]

theorem meta_events {w : Melodia.Writer} {c : Val × Val} (hx : IsBpm w.bpm c.2) {env : Env} {l : List (String × Option Val)} (H : Has "melodia.io.midi" env l)
    (hs : ("self", some (writerV w c)) ∈ l) (hi : ("int", .none) ∈ l) {a ll : Nat} (ha : ("track", some (.ref a)) ∈ l)
    {h : Heap} {t : Melodia.Track} (ht : TrackAt h a ll t) (hv : t.signature.Valid) :
    Runs program W [.assign (.name "delta_events") (.list [.tuple [.int 0, .call (.attr (.name "self") "_format_signature")
        [.attr (.name "track") "signature", .attr (.name "self") "_pulses_per_quarter", .int 8] ["cc", "bb"]],
        .tuple [.int 0, .call (.attr (.name "self") "_format_tempo")
          [.call (.name "int") [.bin .div (.int 60000000) (.attr (.name "self") "_bpm")] []] []]])] env h
      (metaEvents w t.signature)
      (fun es env' h' => ∃ d, env' = env.set "delta_events" (.ref d) ∧ h.objs.length ≤ d ∧
        h'.objs[d]? = some (.list (es.map timedV)) ∧ Frame (fun _ => False) h h')
      (fun h' => Frame (fun _ => False) h h') := by
  have e1 : evalE program W (.call (.attr (.name "self") "_format_signature")
        [.attr (.name "track") "signature", .attr (.name "self") "_pulses_per_quarter", .int 8] ["cc", "bb"]) env h =
      callFun program W MIDIWriter._format_signature [sigV t.signature] [("cc", .int w.ppq), ("bb", .int 8)] h := by
    refine (evalE_call_kw program W (es := [.attr (.name "track") "signature"])
      (ks := [.attr (.name "self") "_pulses_per_quarter", .int 8]) (kws := ["cc", "bb"]) rfl
      (self_attr_static W H hs rfl (by simp) writer_sig rfl h)
      (evalArgs_cons _ _ (by simp) ((evalE_attr_of _ _ (H.name _ _ ha h)).trans (track_signature_ok W ht)) (evalArgs_nil _ _ _ _))
      (evalArgs_cons (v := .int w.ppq) (h1 := h) _ _ (by simp) ((evalE_attr_of _ _ (H.name _ _ hs h)).trans
        (by rw [writerV_ppq]; rfl)) (evalArgs_cons _ _ (by simp) (lit_int W 8 env h) (evalArgs_nil _ _ _ _)))).trans ?_
    rw [call_static W writer_sig rfl]
    rfl
  have q1 := signature_event_ok W t.signature hv w.ppq 8
  rw [metaEvents]
  cases h1 : Writer.formatSignature t.signature w.ppq 8 with
  | error x =>
    obtain ⟨h', f1, r1⟩ := q1.err (by rw [h1]; rfl) h
    refine Runs.fail (execS_setname_err _ _ (evalE_list_err _ _ (evalArgs_err _ _ (by simp) (evalE_tuple_err _ _
      (evalArgs_err_tail _ _ (by simp) (lit_int W 0 env h) (evalArgs_err _ _ (by simp) (e1.trans r1))))))) f1
  | ok sb =>
    obtain ⟨h', f1, r1⟩ := q1.ok (by rw [h1]; rfl) h
    have e2 : evalE program W (.tuple [.int 0, .call (.attr (.name "self") "_format_signature")
        [.attr (.name "track") "signature", .attr (.name "self") "_pulses_per_quarter", .int 8] ["cc", "bb"]]) env h =
        some (.ok (timedV (0, sb)) h') :=
      evalE_tuple _ _ (evalArgs_cons _ _ (by simp) (lit_int W 0 env h) (evalArgs_cons _ _ (by simp) (e1.trans r1)
        (evalArgs_nil _ _ _ _)))
    have e3 := tempo_expr W hx H hs hi h'
    have e4 := self_attr_static W H hs (m := "_format_tempo") rfl (by simp) writer_tempo rfl h'
    cases h2 : Writer.tempoOf w.bpm with
    | error x =>
      rw [h2] at e3
      refine Runs.fail (execS_setname_err _ _ (evalE_list_err _ _ (evalArgs_err_tail _ _ (by simp) e2 (evalArgs_err _ _ (by simp)
        (evalE_tuple_err _ _ (evalArgs_err_tail _ _ (by simp) (lit_int W 0 env h') (evalArgs_err _ _ (by simp)
        (evalE_call_err _ _ e4 (evalArgs_err _ _ (by simp) (e3.trans rfl)))))))))) f1
    | ok tempo =>
      rw [h2] at e3
      have e5 := evalE_call program W e4 (evalArgs_cons _ _ (by simp) (e3.trans rfl) (evalArgs_nil program W _ _))
      rw [call_static W writer_tempo rfl] at e5
      have q2 := tempo_ok W tempo
      cases h3 : Writer.formatTempo tempo with
      | error x =>
        obtain ⟨h'', f2, r2⟩ := q2.err (by rw [h3]; rfl) h'
        change Runs _ _ _ _ _ (do let y ← Writer.formatTempo tempo; pure [(0, sb), (0, y)]) _ _
        rw [h3]
        refine Runs.fail (execS_setname_err _ _ (evalE_list_err _ _ (evalArgs_err_tail _ _ (by simp) e2
          (evalArgs_err _ _ (by simp) (evalE_tuple_err _ _ (evalArgs_err_tail _ _ (by simp) (lit_int W 0 env h')
          (evalArgs_err _ _ (by simp) (e5.trans r2)))))))) (f1.trans f2 (fun _ => id) (fun _ _ => id))
      | ok tb =>
        obtain ⟨h'', f2, r2⟩ := q2.ok (by rw [h3]; rfl) h'
        change Runs _ _ _ _ _ (do let y ← Writer.formatTempo tempo; pure [(0, sb), (0, y)]) _ _
        rw [h3]
        have e6 := evalE_tuple program W (evalArgs_cons program W (by simp) (lit_int W 0 env h')
          (evalArgs_cons _ _ (by simp) (e5.trans r2) (evalArgs_nil _ _ _ _)))
        refine Runs.next (execS_setname _ _ (evalE_list _ _ (evalArgs_cons _ _ (by simp) e2 (evalArgs_cons _ _ (by simp) e6
          (evalArgs_nil _ _ _ _)))) (H.cell _)) (Runs.done ⟨h''.objs.length, rfl, f1.len.trans f2.len, Heap.push_at _ _, ?_⟩)
        exact (f1.trans f2 (U := fun _ => False) (fun _ => id) (fun _ _ => id)).trans (Frame.push _ _) (fun _ => id) (fun _ _ => id)

/-- The body of the second loop. -/
def deltaLoop : List Stmt := [
  .expr (.call (.attr (.name "delta_events") "append") [.tuple [.bin .sub (.name "absolute_time") (.name "last_absolute_time"), .name "note_event"]] []),
  .assign (.name "last_absolute_time") (.name "absolute_time")]

theorem deltas_fold (l : List TimedBytes) (last : Int) (acc : List TimedBytes) :
    ∃ last', l.foldlM (fun (s : Int × List TimedBytes) e => (.ok (e.1, s.2 ++ [(e.1 - s.1, e.2)]) : PyM _)) (last, acc) =
      .ok (last', acc ++ Writer.deltas last l) := by
  induction l generalizing last acc with
  | nil => exact ⟨last, by simp [Writer.deltas]; rfl⟩
  | cons e l ih =>
    obtain ⟨x, hx⟩ := ih e.1 (acc ++ [(e.1 - last, e.2)])
    refine ⟨x, ?_⟩
    rw [List.foldlM_cons]
    refine hx.trans ?_
    simp [Writer.deltas]

/-- The second loop: the differences of the times are appended. -/
theorem delta_loop {w : Melodia.Writer} {c : Val × Val} {a f b d : Nat} {env : Env} {last : Int}
    (H : Has "melodia.io.midi" env (("last_absolute_time", some (.int last)) :: ("delta_events", some (.ref d)) ::
      ("absolute_note_events", some (.ref b)) :: dumpNames w c a f)) {h : Heap} {acc es : List TimedBytes}
    (hd : h.objs[d]? = some (.list (acc.map timedV))) (hb : h.objs[b]? = some (.list (es.map timedV))) (hbd : b ≠ d) :
    ∃ env' h', execS program W (.for (.tuple [.name "absolute_time", .name "note_event"]) (.name "absolute_note_events") deltaLoop)
        env h = some (.ok (.next env') h') ∧
      Has "melodia.io.midi" env' (("delta_events", some (.ref d)) :: dumpNames w c a f) ∧
      h'.objs[d]? = some (.list ((acc ++ Writer.deltas last es).map timedV)) ∧ Frame (· = d) h h' := by
  obtain ⟨last', hf⟩ := deltas_fold es last acc
  have := forLoop_fold (P := program) (W := W) (p := .tuple [.name "absolute_time", .name "note_event"]) (body := deltaLoop)
    (l := b) (xs := es) (g := timedV)
    (fun (s : Int × List TimedBytes) env' h' => Has "melodia.io.midi" env' (("last_absolute_time", some (.int s.1)) ::
      ("delta_events", some (.ref d)) :: ("absolute_note_events", some (.ref b)) :: dumpNames w c a f) ∧
      h'.objs[d]? = some (.list (s.2.map timedV)) ∧ Frame (· = d) h h') (fun _ => True)
    (fun s e => .ok (e.1, s.2 ++ [(e.1 - s.1, e.2)]))
    (fun s env' h' hI => hI.2.2.at hb hbd) (by
      rintro s env' h' e he ⟨H', hd', hf'⟩
      refine ⟨((env'.set "absolute_time" (.int e.1)).set "note_event" (.bytes e.2)).vars, by simp [py, timedV], ?_⟩
      have H1 := (H'.set "absolute_time" (v := .int e.1) (by simp) (by simp [dumpNames])).set "note_event" (v := .bytes e.2)
        (by simp) (by simp [dumpNames])
      change Runs _ _ _ ((env'.set "absolute_time" (.int e.1)).set "note_event" (.bytes e.2)) _ _ _ _
      set env1 := (env'.set "absolute_time" (.int e.1)).set "note_event" (.bytes e.2)
      refine Runs.next (execS_expr (v := .none) (h1 := h'.put d (.list ((s.2 ++ [(e.1 - s.1, e.2)]).map timedV))) _ _ ?_)
        (Runs.next (execS_setname _ _ (H1.name _ _ (v := .int e.1) (by simp) _) (H1.cell _)) (Runs.done ⟨?_, Heap.put_at hd', ?_⟩))
      · rw [evalE_call program W ((evalE_attr_of _ _ (H1.name _ _ (v := .ref d) (by simp) h')).trans
          (getAttr_ref_prim _ _ hd' rfl)) (evalArgs_cons (v := timedV (e.1 - s.1, e.2)) (h1 := h') _ _ (by simp)
          (evalE_tuple _ _ (evalArgs_cons (v := .int (e.1 - s.1)) (h1 := h') _ _ (by simp)
            ((evalE_bin _ _ (H1.name _ _ (v := .int e.1) (by simp) _) (H1.name _ _ (v := .int s.1) (by simp) _)).trans
              (by simp only [py]; rfl))
            (evalArgs_cons _ _ (by simp) (H1.name _ _ (v := .bytes e.2) (by simp) _) (evalArgs_nil _ _ _ _))))
          (evalArgs_nil _ _ _ _)), call_append _ _ hd']
        simp
      · exact (H1.reset "last_absolute_time" (v := .int e.1) (by simp)).weaken (by simp [dumpNames])
      · exact hf'.trans (Frame.put _ d _) (fun _ => id) (fun _ _ => id))
    (s := (last, acc)) (env := env) (h := h) ⟨H, hd, Frame.refl _ _⟩
  rw [hf] at this
  obtain ⟨env', h', h1, H', h2, h3⟩ := this
  refine ⟨env', h', (execS_for _ _ (H.name _ _ (v := .ref b) (by simp) h) (getIter_ref_list _ _ hb) (by simp)).trans h1,
    H'.weaken (by simp; tauto), h2, h3⟩

/-- The body of the third loop. -/
def bodyLoop : List Stmt := [
  .expr (.call (.attr (.name "track_body") "append") [.call (.attr (.name "self") "_format_var_len") [.name "delta_time"] []] []),
  .expr (.call (.attr (.name "track_body") "append") [.name "event"] [])]

/-- The pieces of the body of a track. -/
def pieces : List TimedBytes → PyM (List Bytes)
  | [] => .ok []
  | (delta, event) :: rest => do
    let v ← Writer.formatVarLen delta
    let more ← pieces rest
    pure (v :: event :: more)

theorem pieces_join (l : List TimedBytes) : Writer.trackBody l = (pieces l).map List.flatten := by
  induction l with
  | nil => rfl
  | cons e l ih =>
    obtain ⟨d, b⟩ := e
    rw [Writer.trackBody, pieces, ih]
    cases Writer.formatVarLen d with
    | error x => rfl
    | ok v => cases pieces l with
      | error x => rfl
      | ok more => change Except.ok _ = Except.ok _; simp

theorem pieces_fold (l : List TimedBytes) (acc : List Bytes) :
    l.foldlM (fun acc e => (do let v ← Writer.formatVarLen e.1; pure (acc ++ [v, e.2]) : PyM _)) acc =
      (do let x ← pieces l; pure (acc ++ x)) := by
  induction l generalizing acc with
  | nil => simp [pieces]; rfl
  | cons e l ih =>
    obtain ⟨d, b⟩ := e
    rw [List.foldlM_cons, pieces]
    cases Writer.formatVarLen d with
    | error x => rfl
    | ok v =>
      change List.foldlM _ (acc ++ [v, b]) l = (do let y ← (do let y ← pieces l; pure (v :: b :: y)); pure (acc ++ y))
      rw [ih]
      cases pieces l with
      | error y => rfl
      | ok y => change Except.ok _ = Except.ok _; simp

theorem body_loop {w : Melodia.Writer} {c : Val × Val} {a f b d : Nat} {env : Env}
    (H : Has "melodia.io.midi" env (("track_body", some (.ref b)) :: ("delta_events", some (.ref d)) :: dumpNames w c a f))
    {h : Heap} {es : List TimedBytes} (hb : h.objs[b]? = some (.list [])) (hd : h.objs[d]? = some (.list (es.map timedV)))
    (hbd : d ≠ b) :
    Runs program W [.for (.tuple [.name "delta_time", .name "event"]) (.name "delta_events") bodyLoop] env h (pieces es)
      (fun ps env' h' => Has "melodia.io.midi" env' (("track_body", some (.ref b)) :: ("delta_events", some (.ref d)) ::
        dumpNames w c a f) ∧ h'.objs[b]? = some (.list (ps.map Val.bytes)) ∧ Frame (· = b) h h')
      (fun h' => Frame (· = b) h h') := by
  have := pieces_fold es []
  simp only [List.nil_append, bind_pure] at this
  rw [← this]
  refine Runs.for (g := timedV) (fun (ps : List Bytes) env' h' => Has "melodia.io.midi" env' (("track_body", some (.ref b)) ::
    ("delta_events", some (.ref d)) :: dumpNames w c a f) ∧ h'.objs[b]? = some (.list (ps.map Val.bytes)) ∧ Frame (· = b) h h') _ _
    (H.name _ _ (v := .ref d) (by simp) h) (getIter_ref_list _ _ hd) ?_ ?_ ⟨H, hb, Frame.refl _ _⟩
  · rintro s env' h' ⟨-, -, hf⟩
    exact hf.at hd hbd
  · rintro s env' h' e he ⟨H', hb', hf⟩
    refine ⟨((env'.set "delta_time" (.int e.1)).set "event" (.bytes e.2)).vars, by simp [py, timedV], ?_⟩
    have H1 := (H'.set "delta_time" (v := .int e.1) (by simp) (by simp [dumpNames])).set "event" (v := .bytes e.2)
      (by simp) (by simp [dumpNames])
    change Runs _ _ _ ((env'.set "delta_time" (.int e.1)).set "event" (.bytes e.2)) _ _ _ _
    set env1 := (env'.set "delta_time" (.int e.1)).set "event" (.bytes e.2)
    have e0 : ∀ {h : Heap} {vs : List Val}, h.objs[b]? = some (.list vs) →
        evalE program W (.attr (.name "track_body") "append") env1 h = some (.ok (.meth (.ref b) "append") h) := fun hb =>
      (evalE_attr_of _ _ (H1.name _ _ (v := .ref b) (by simp) _)).trans (getAttr_ref_prim _ _ hb rfl)
    have e1 : evalE program W (.call (.attr (.name "self") "_format_var_len") [.name "delta_time"] []) env1 h' =
        liftPy ((Writer.formatVarLen e.1).map Val.bytes) h' := by
      rw [evalE_call program W (self_attr_static W H1 (w := w) (c := c) (m := "_format_var_len") (by simp [dumpNames]) rfl (by simp)
        writer_varlen rfl h') (evalArgs_cons _ _ (by simp) (H1.name _ _ (v := .int e.1) (by simp) _) (evalArgs_nil _ _ _ _)),
        call_static W writer_varlen rfl, varlen_ok]
    cases hv : Writer.formatVarLen e.1 with
    | error x =>
      rw [hv] at e1
      exact Runs.fail (execS_expr_err _ _ (evalE_call_err _ _ (e0 hb') (evalArgs_err _ _ (by simp) (e1.trans rfl)))) hf
    | ok v =>
      rw [hv] at e1
      have e2 := (evalE_call program W (e0 hb') (evalArgs_cons _ _ (by simp) (e1.trans rfl) (evalArgs_nil program W _ _))).trans
        (call_append program W hb' (.bytes v))
      have hb2 : (h'.put b (.list (s.map Val.bytes ++ [.bytes v]))).objs[b]? = some (.list (s.map Val.bytes ++ [.bytes v])) :=
        Heap.put_at hb'
      have e3 := (evalE_call program W (e0 hb2) (evalArgs_cons _ _ (by simp) (H1.name program W (x := "event") (v := .bytes e.2) (by simp) _)
        (evalArgs_nil program W _ _))).trans (call_append program W hb2 (.bytes e.2))
      refine Runs.next (execS_expr _ _ e2) (Runs.next (execS_expr _ _ e3) (Runs.done ⟨?_, ?_, ?_⟩))
      · exact H1.weaken (by simp; tauto)
      · rw [Heap.put_at hb2]; simp
      · exact (hf.trans (Frame.put _ b _) (U := (· = b)) (fun _ => id) (fun _ _ => id)).trans (Frame.put _ b _) (fun _ => id)
          (fun _ _ => id)

/-! ### Writing to the file -/

theorem objAt_file {h : Heap} {f : Nat} {content : Bytes} (hf : FileAt h f content) (m : String)
    (hm : hasPrimAttr (some (.file content content.length)) (.ref f) m = true) :
    getAttr program W (.ref f) m h = some (.ok (.meth (.ref f) m) h) := by
  rw [getAttr.eq_def, bind_ok (show instOf (.ref f) h = some (.ok .none h) by rw [instOf, bind_ok (load_ok hf)]; rfl)]
  simp only
  rw [bind_ok (objAt_ref_ok hf), if_pos hm]
  rfl

theorem call_write {h : Heap} {f : Nat} {content : Bytes} (hf : FileAt h f content) (b : Bytes) :
    ∃ h', call program W (.meth (.ref f) "write") [.bytes b] [] h = some (.ok (.int b.length) h') ∧
      FileAt h' f (content ++ b) ∧ Frame (· = f) h h' := by
  refine ⟨h.put f (.file (content ++ b) (content ++ b).length), ?_, Heap.put_at hf, Frame.put _ _ _⟩
  rw [call_prim program W (self := .ref f) (m := "write") [.bytes b] (by
    change methodOf program (.ref f) "write" h = _
    rw [methodOf, bind_ok (show instOf (.ref f) h = some (.ok .none h) by rw [instOf, bind_ok (load_ok hf)]; rfl)]
    rfl) (by simp), primMeth]
  refine (bind_ok (load_ok hf)).trans ?_
  simp only [List.take_length, List.length_append]
  rw [List.drop_eq_nil_of_le (by omega), List.append_nil]
  rfl

/-- `file.write(e)`. -/
theorem file_write {env : Env} {l : List (String × Option Val)} (H : Has "melodia.io.midi" env l) {h h1 : Heap} {f : Nat}
    (hn : ("file", some (.ref f)) ∈ l) {content b : Bytes} (hf : FileAt h f content) {e : Expr} (hne : ∀ x, e ≠ .star x)
    (he : evalE program W e env h = some (.ok (.bytes b) h1)) (fr : Frame (fun _ => False) h h1) :
    ∃ h', execS program W (.expr (.call (.attr (.name "file") "write") [e] [])) env h = some (.ok (.next env) h') ∧
      FileAt h' f (content ++ b) ∧ Frame (· = f) h h' := by
  have hf1 : FileAt h1 f content := fr.at hf (by simp)
  obtain ⟨h2, c2, f2, fr2⟩ := call_write W hf1 b
  refine ⟨h2, execS_expr _ _ ((evalE_call program W ((evalE_attr_of _ _ (H.name _ _ hn h)).trans (objAt_file W hf "write" rfl))
    (evalArgs_cons _ _ hne he (evalArgs_nil _ _ _ _))).trans c2), f2, fr.trans fr2 (by simp) (fun _ _ => id)⟩

theorem file_write_err {env : Env} {l : List (String × Option Val)} (H : Has "melodia.io.midi" env l) {h h1 : Heap} {f : Nat}
    (hn : ("file", some (.ref f)) ∈ l) {content : Bytes} (hf : FileAt h f content) {e : Expr} {x : PyErr} (hne : ∀ x, e ≠ .star x)
    (he : evalE program W e env h = some (.err x h1)) :
    execS program W (.expr (.call (.attr (.name "file") "write") [e] [])) env h = some (.err x h1) :=
  execS_expr_err _ _ (evalE_call_err program W ((evalE_attr_of _ _ (H.name _ _ hn h)).trans (objAt_file W hf "write" rfl))
    (evalArgs_err _ _ hne he))

/-! ### The whole of `dump` -/

/-- What holds while `dump` runs: the track and the file. -/
structure Dumping (h h' : Heap) (a l f : Nat) (t : Melodia.Track) (content : Bytes) : Prop where
  track : TrackAt h' a l t
  file : FileAt h' f content
  frame : Frame (fun b => Own a l b ∨ b = f) h h'

theorem Dumping.step {h h1 h2 : Heap} {a l f : Nat} {t : Melodia.Track} {content : Bytes} (D : Dumping h h1 a l f t content)
    {S : Nat → Prop} (fr : Frame S h1 h2) (ha : ¬ S a) (hl : ¬ S l) (hf : ¬ S f) (hS : ∀ b < h.objs.length, ¬ S b) :
    Dumping h h2 a l f t content :=
  ⟨⟨fr.at D.track.obj ha, fr.at D.track.list hl⟩, fr.at D.file hf,
    D.frame.trans fr (fun _ => id) (fun b hb hs => absurd hs (hS b hb))⟩

theorem Dumping.write {h h1 h2 : Heap} {a l f : Nat} {t : Melodia.Track} {content content' : Bytes}
    (D : Dumping h h1 a l f t content) (fr : Frame (· = f) h1 h2) (hf : FileAt h2 f content') :
    Dumping h h2 a l f t content' := by
  have n1 : a ≠ f := by rintro rfl; have := D.track.obj.symm.trans D.file; simp at this
  have n2 : l ≠ f := by rintro rfl; have := D.track.list.symm.trans D.file; simp at this
  exact ⟨⟨fr.at D.track.obj n1, fr.at D.track.list n2⟩, hf, D.frame.trans fr (fun _ => id) (fun b _ hb => .inr hb)⟩

/-- The statements of `dump` before the first `write`. -/
def dumpHead : List Stmt := [
  .assign (.name "absolute_note_events") (.list []),
  .for (.tuple [.name "position", .name "note"]) (.name "track") noteLoop,
  .expr (.call (.attr (.name "absolute_note_events") "sort") [.call (.name "itemgetter") [.int 0] []] ["key"]),
  .assign (.name "delta_events") (.list [.tuple [.int 0, .call (.attr (.name "self") "_format_signature") [.attr (.name "track") "signature", .attr (.name "self") "_pulses_per_quarter", .int 8] ["cc", "bb"]], .tuple [.int 0, .call (.attr (.name "self") "_format_tempo") [.call (.name "int") [.bin .div (.int 60000000) (.attr (.name "self") "_bpm")] []] []]]),
  .assign (.name "last_absolute_time") (.int 0),
  .for (.tuple [.name "absolute_time", .name "note_event"]) (.name "absolute_note_events") deltaLoop,
  .expr (.call (.attr (.name "delta_events") "append") [.tuple [.int 0, .bytes [255, 47, 0]]] [])]

/-- The others. -/
def dumpTail : List Stmt := [
  .expr (.call (.attr (.name "file") "write") [.call (.attr (.name "self") "_format_header_chunk") [.int 0, .int 1] ["kind", "n_tracks"]] []),
  .assign (.name "track_body") (.list []),
  .for (.tuple [.name "delta_time", .name "event"]) (.name "delta_events") bodyLoop,
  .expr (.call (.attr (.name "file") "write") [.call (.attr (.name "self") "_format_chunk") [.bytes [77, 84, 114, 107], .call (.attr (.bytes []) "join") [.name "track_body"] []] []] [])]

theorem dump_body : MIDIWriter.dump.body = dumpHead ++ dumpTail := rfl

theorem deltaEvents_eq (S : ListSort) (w : Melodia.Writer) (s : Melodia.Signature) (items : List Entry) :
    Writer.deltaEvents S w s items = (do
      let es ← w.noteEvents items
      let ms ← metaEvents w s
      .ok (ms ++ Writer.deltas 0 (S.sort (fun a b => decide (a.1 < b.1)) es) ++ [(0, [0xFF, 0x2F, 0x00])])) := by
  rw [Writer.deltaEvents]
  cases w.noteEvents items with
  | error e => rfl
  | ok es =>
    rw [metaEvents]
    cases Writer.formatSignature s w.ppq 8 with
    | error e => rfl
    | ok sb => cases Writer.tempoOf w.bpm with
      | error e => rfl
      | ok tempo =>
        cases h : Writer.formatTempo tempo with
        | error e => simp only [bind, Except.bind, h]
        | ok tb => simp only [bind, Except.bind, h]; rfl

theorem dump_head (hN : W.sort.Natural) {w : Melodia.Writer} (hw : w.Valid) {c : Val × Val} (hc : HasText W c.1) (hx : IsBpm w.bpm c.2) {a l f : Nat} {env : Env}
    (H : Has "melodia.io.midi" env (dumpNames w c a f)) {h : Heap} {t : Melodia.Track} (ht : TrackAt h a l t) (hwf : t.WF)
    {content : Bytes} (hf : FileAt h f content) :
    Runs program W dumpHead env h (Writer.deltaEvents W.sort w (t.iter W.sort).1.signature (t.iter W.sort).2)
      (fun es env' h' => ∃ d, Has "melodia.io.midi" env' (("delta_events", some (.ref d)) :: dumpNames w c a f) ∧
        h'.objs[d]? = some (.list (es.map timedV)) ∧ Dumping h h' a l f (t.iter W.sort).1 content ∧ h.objs.length ≤ d)
      (fun h' => Dumping h h' a l f (t.iter W.sort).1 content) := by
  have na : a < h.objs.length := lt_of_at ht.obj
  have nl : l < h.objs.length := lt_of_at ht.list
  have nf : f < h.objs.length := lt_of_at hf
  have hwf' := Melodia.Track.iter_wf W.sort hwf
  rw [dumpHead, deltaEvents_eq]
  -- absolute_note_events = []
  set b := h.objs.length with hbdef
  refine Runs.next (execS_setname _ _ (evalE_list _ _ (evalArgs_nil _ _ _ _)) (H.cell _)) ?_
  have H1 := H.set "absolute_note_events" (v := .ref b) (by simp) (by simp [dumpNames])
  set env1 := env.set "absolute_note_events" (.ref b)
  change Runs _ _ _ env1 _ _ _ _
  set h1 := h.push (.list [])
  have f1 : Frame (fun _ => False) h h1 := Frame.push _ _
  have ht1 : TrackAt h1 a l t := ⟨f1.at ht.obj (by simp), f1.at ht.list (by simp)⟩
  have hb1 : h1.objs[b]? = some (.list []) := Heap.push_at _ _
  -- for position, note in track
  obtain ⟨h2, i2, B2⟩ := iter_run W hN ht1 hwf
  have hb2 : h2.objs[b]? = some (.list []) := B2.frame.at hb1 (by rintro (h | h) <;> omega)
  have D2 : Dumping h h2 a l f (t.iter W.sort).1 content := by
    refine ⟨B2.track, B2.frame.at (f1.at hf (by simp)) ?_, f1.trans B2.frame (by simp) (fun b _ hb => .inl hb)⟩
    rintro (h | h)
    · subst h; have := ht.obj.symm.trans hf; simp at this
    · subst h; have := ht.list.symm.trans hf; simp at this
  refine Runs.cons (note_loop W hw hc H1 hb2 B2.track.list (by omega) (fun e he => ⟨(hwf'.entries e he).1,
    (hwf'.entries e he).2.2⟩) ((getIter_ref_inst _ _ ht1.obj track_iter).trans i2))
    (fun h' fr => D2.step fr (by omega) (by omega) (by omega) (by intro x hx; omega)) ?_
  rintro es env3 h3 - ⟨H3, hb3, fr3⟩
  have D3 : Dumping h h3 a l f (t.iter W.sort).1 content :=
    D2.step fr3 (by omega) (by omega) (by omega) (by intro x hx; omega)
  -- sort
  refine Runs.next (sort_events W hN H3 (by simp) (by simp [dumpNames]) hb3) ?_
  set es' := W.sort.sort (fun a b => decide (a.1 < b.1)) es
  have D4 := D3.step (Frame.put h3 b (.list (es'.map timedV))) (by omega) (by omega) (by omega)
    (by intro x hx; omega)
  have hb4 : (h3.put b (.list (es'.map timedV))).objs[b]? = some (.list (es'.map timedV)) := Heap.put_at hb3
  set h4 := h3.put b (.list (es'.map timedV))
  -- delta_events
  refine Runs.cons (meta_events W hx H3 (w := w) (c := c) (by simp [dumpNames]) (by simp [dumpNames]) (a := a) (by simp [dumpNames])
    D4.track hwf'.sig) (fun h' fr => D4.step fr (by simp) (by simp) (by simp) (by simp)) ?_
  rintro ms env5 h5 - ⟨d, rfl, hd, hd5, fr5⟩
  have D5 := D4.step fr5 (by simp) (by simp) (by simp) (by simp)
  have hb5 : h5.objs[b]? = some (.list (es'.map timedV)) := fr5.at hb4 (by simp)
  have nb : b < h4.objs.length := lt_of_at hb4
  have H5 := H3.set "delta_events" (v := .ref d) (by simp) (by simp [dumpNames])
  set env5 := env3.set "delta_events" (.ref d)
  -- last_absolute_time = 0
  refine Runs.next (execS_setname _ _ (lit_int W 0 env5 h5) (H5.cell _)) ?_
  have H6 := H5.set "last_absolute_time" (v := .int 0) (by simp) (by simp [dumpNames])
  set env6 := env5.set "last_absolute_time" (.int 0)
  -- for absolute_time, note_event in absolute_note_events
  obtain ⟨env7, h7, e7, H7, hd7, fr7⟩ := delta_loop W H6 hd5 hb5 (by omega)
  refine Runs.next e7 ?_
  have D7 := D5.step fr7 (by omega) (by omega) (by omega) (by intro x hx; omega)
  -- append
  refine Runs.next (execS_expr (v := .none) (h1 := h7.put d (.list ((ms ++ Writer.deltas 0 es' ++
    [(0, [0xFF, 0x2F, 0x00])]).map timedV))) _ _ ?_) (Runs.done ⟨d, H7, Heap.put_at hd7, D7.step (Frame.put _ d _) (by omega)
    (by omega) (by omega) (by intro x hx; omega), by omega⟩)
  rw [evalE_call program W ((evalE_attr_of _ _ (H7.name _ _ (v := .ref d) (by simp) h7)).trans (getAttr_ref_prim _ _ hd7 rfl))
    (evalArgs_cons (v := timedV (0, [0xFF, 0x2F, 0x00])) (h1 := h7) _ _ (by simp) (evalE_tuple _ _ (evalArgs_cons _ _ (by simp)
      (lit_int W 0 _ _) (evalArgs_cons _ _ (by simp) (lit_bytes W _ _ _) (evalArgs_nil _ _ _ _)))) (evalArgs_nil _ _ _ _)),
    call_append _ _ hd7]
  simp

/-- The result of `dump` after the first statements. -/
def tailResult (w : Melodia.Writer) (content : Bytes) (es : List TimedBytes) : Bytes × PyM Unit :=
  match w.formatHeaderChunk 0 1 with
  | .error e => (content, .error e)
  | .ok header =>
    match Writer.trackBody es with
    | .error e => (content ++ header, .error e)
    | .ok body =>
      match Writer.formatChunk Writer.tagMTrk body with
      | .error e => (content ++ header, .error e)
      | .ok chunk => (content ++ header ++ chunk, .ok ())

theorem dump_eq (S : ListSort) (w : Melodia.Writer) (t : Melodia.Track) (content : Bytes) :
    Writer.dump S w t content = match Writer.deltaEvents S w (t.iter S).1.signature (t.iter S).2 with
      | .error e => ((t.iter S).1, content, .error e)
      | .ok es => ((t.iter S).1, tailResult w content es) := by
  rw [Writer.dump]
  simp only [tailResult]
  cases Writer.deltaEvents S w (t.iter S).1.signature (t.iter S).2 with
  | error e => rfl
  | ok es =>
    cases w.formatHeaderChunk 0 1 with
    | error e => rfl
    | ok header =>
      simp only
      cases Writer.trackBody es with
      | error e => rfl
      | ok body =>
        simp only
        cases Writer.formatChunk Writer.tagMTrk body <;> rfl

theorem dump_tail {w : Melodia.Writer} {c : Val × Val} {a l f d : Nat} {env : Env}
    (H : Has "melodia.io.midi" env (("delta_events", some (.ref d)) :: dumpNames w c a f)) {h0 h : Heap} {t : Melodia.Track}
    {content : Bytes} (D : Dumping h0 h a l f t content) {es : List TimedBytes} (hd : h.objs[d]? = some (.list (es.map timedV))) :
    Runs program W dumpTail env h (tailResult w content es).2 (fun _ _ h' => Dumping h0 h' a l f t (tailResult w content es).1)
      (fun h' => Dumping h0 h' a l f t (tailResult w content es).1) := by
  have ndf : d ≠ f := by rintro rfl; have := hd.symm.trans D.file; simp at this
  have hself : ("self", some (writerV w c)) ∈ ("delta_events", some (.ref d)) :: dumpNames w c a f := by simp [dumpNames]
  have hfile : ("file", some (.ref f)) ∈ ("delta_events", some (.ref d)) :: dumpNames w c a f := by simp [dumpNames]
  have hm : evalE program W (.attr (.name "self") "_format_header_chunk") env h =
      some (.ok (.meth (writerV w c) "_format_header_chunk") h) := by
    rw [evalE_attr_of _ _ (H.name _ _ hself h), writerV_meth W w c rfl (by simp) writer_header (by decide)]; rfl
  have e1 : evalE program W (.call (.attr (.name "self") "_format_header_chunk") [.int 0, .int 1] ["kind", "n_tracks"]) env h =
      callFun program W MIDIWriter._format_header_chunk [writerV w c] [("kind", .int 0), ("n_tracks", .int 1)] h := by
    refine (evalE_call_kw program W (es := []) (ks := [.int 0, .int 1]) (kws := ["kind", "n_tracks"]) rfl hm
      (evalArgs_nil _ _ _ _) (evalArgs_cons _ _ (by simp) (lit_int W 0 env h) (evalArgs_cons _ _ (by simp) (lit_int W 1 env h)
      (evalArgs_nil _ _ _ _)))).trans ?_
    rw [writerV, call_obj _ _ _ _ _ _ _ _ writer_header (by simp [MIDIWriter._format_header_chunk])]
    rfl
  have q1 := header_ok W w c
  simp only [tailResult, dumpTail]
  cases h1 : w.formatHeaderChunk 0 1 with
  | error x =>
    obtain ⟨h', f1, r1⟩ := q1.err (by rw [h1]; rfl) h
    exact Runs.fail (file_write_err W H hfile D.file (by simp) (e1.trans r1)) (D.step f1 (by simp) (by simp) (by simp) (by simp))
  | ok header =>
    obtain ⟨h', f1, r1⟩ := q1.ok (by rw [h1]; rfl) h
    obtain ⟨h2, e2, file2, fr2⟩ := file_write W H hfile D.file (by simp) (e1.trans r1) f1
    have D2 := D.write fr2 file2
    have hd2 : h2.objs[d]? = some (.list (es.map timedV)) := fr2.at hd ndf
    refine Runs.next e2 (Runs.next (execS_setname _ _ (evalE_list _ _ (evalArgs_nil _ _ _ _)) (H.cell _)) ?_)
    have H3 := H.set "track_body" (v := .ref h2.objs.length) (by simp) (by simp [dumpNames])
    set b := h2.objs.length with hbdef
    set env3 := env.set "track_body" (.ref b)
    have D3 := D2.step (Frame.push h2 (.list [])) (by simp) (by simp) (by simp) (by simp)
    have nd : d < b := lt_of_at hd2
    have na : a < b := lt_of_at D2.track.obj
    have nl : l < b := lt_of_at D2.track.list
    have nf : f < b := lt_of_at D2.file
    have n0 : h0.objs.length ≤ b := D2.frame.len
    have L := body_loop W H3 (Heap.push_at h2 (.list [])) (Heap.push_old hd2) nd.ne
    have hp := pieces_join es
    cases hps : pieces es with
    | error x =>
      rw [hps] at hp L
      rw [hp]
      obtain ⟨h4, e4, fr4⟩ := L
      simp only [Except.map]
      refine ⟨h4, ?_, D3.step fr4 (by omega) (by omega) (by omega) (by intro x hx; omega)⟩
      exact execB_append_err (s := [_]) e4
    | ok ps =>
      rw [hps] at hp L
      rw [hp]
      obtain ⟨env4, h4, e4, H4, hb4, fr4⟩ := L
      have D4 := D3.step fr4 (by omega) (by omega) (by omega) (by intro x hx; omega)
      have hself4 : ("self", some (writerV w c)) ∈ ("track_body", some (.ref b)) :: ("delta_events", some (.ref d)) ::
        dumpNames w c a f := by simp [dumpNames]
      have hfile4 : ("file", some (.ref f)) ∈ ("track_body", some (.ref b)) :: ("delta_events", some (.ref d)) ::
        dumpNames w c a f := by simp [dumpNames]
      have e5 : evalE program W (.call (.attr (.name "self") "_format_chunk") [.bytes [77, 84, 114, 107],
          .call (.attr (.bytes []) "join") [.name "track_body"] []] []) env4 h4 =
          callFun program W MIDIWriter._format_chunk [.bytes Writer.tagMTrk, .bytes ps.flatten] [] h4 := by
        rw [evalE_call program W (self_attr_static W H4 hself4 (m := "_format_chunk") rfl (by simp) writer_chunk rfl h4)
          (evalArgs_cons _ _ (by simp) (lit_bytes W _ env4 h4) (evalArgs_cons (v := .bytes ps.flatten) (h1 := h4) _ _ (by simp) (by
            rw [evalE_call program W ((evalE_attr_of _ _ (lit_bytes W [] env4 h4)).trans (by rw [getAttr_bytes_join]; rfl))
              (evalArgs_cons _ _ (by simp) (H4.name _ _ (v := .ref b) (by simp) h4) (evalArgs_nil _ _ _ _)),
              call_join W program hb4, joinBytes_map]
            rfl) (evalArgs_nil _ _ _ _))), call_static W writer_chunk rfl]
        rfl
      have q2 := chunk_ok W Writer.tagMTrk ps.flatten
      have seq := fun {r} => execB_append_next (P := program) (W := W) (s := [.for (.tuple [.name "delta_time", .name "event"])
        (.name "delta_events") bodyLoop]) (t := r) e4
      simp only [Except.map]
      cases h6 : Writer.formatChunk Writer.tagMTrk ps.flatten with
      | error x =>
        obtain ⟨h7, f7, r7⟩ := q2.err (by rw [h6]; rfl) h4
        exact ⟨h7, seq.trans (execB_err _ _ (file_write_err W H4 hfile4 D4.file (by simp) (e5.trans r7))),
          D4.step f7 (by simp) (by simp) (by simp) (by simp)⟩
      | ok chunk =>
        obtain ⟨h7, f7, r7⟩ := q2.ok (by rw [h6]; rfl) h4
        obtain ⟨h8, e8, file8, fr8⟩ := file_write W H4 hfile4 D4.file (by simp) (e5.trans r7) f7
        exact ⟨env4, h8, seq.trans ((execB_next _ _ e8).trans (execB_nil _ _ _ _)), D4.write fr8 file8⟩

/-- `writer.dump(track, file)`. -/
theorem dump_run (hN : W.sort.Natural) {w : Melodia.Writer} (hw : w.Valid) {c : Val × Val} (hc : HasText W c.1) (hx : IsBpm w.bpm c.2) {a l f : Nat}
    {h : Heap} {t : Melodia.Track} (ht : TrackAt h a l t) (hwf : t.WF) {content : Bytes} (hf : FileAt h f content) :
    ∃ h', callFun program W MIDIWriter.dump [writerV w c, .ref a, .ref f] [] h =
        some (match (Writer.dump W.sort w t content).2.2 with | .ok _ => .ok .none h' | .error e => .err e h') ∧
      Dumping h h' a l f (Writer.dump W.sort w t content).1 (Writer.dump W.sort w t content).2.1 := by
  have hp : bindParams program W MIDIWriter.dump.params [writerV w c, .ref a, .ref f] []
      { mod := MIDIWriter.dump.mod, vars := [] } =
      pure [("self", writerV w c), ("track", .ref a), ("file", .ref f)] := by simp [py, MIDIWriter.dump]
  have H : Has "melodia.io.midi" { mod := "melodia.io.midi", vars := [("self", writerV w c), ("track", .ref a), ("file", .ref f)] }
      (dumpNames w c a f) := by
    refine ⟨rfl, by simp [dumpNames, Dict.get], ?_⟩
    intro x b
    simp only [Dict.get]
    split
    · simp [writerV]
    · split
      · simp
      · split <;> simp
  have R := dump_head W hN hw hc hx H ht hwf hf
  rw [dump_eq]
  cases hde : Writer.deltaEvents W.sort w (t.iter W.sort).1.signature (t.iter W.sort).2 with
  | error e =>
    rw [hde] at R
    obtain ⟨h1, e1, D1⟩ := R
    exact ⟨h1, callFun_err program W hp rfl (by rw [dump_body]; exact execB_append_err e1), D1⟩
  | ok es =>
    rw [hde] at R
    obtain ⟨env1, h1, e1, d, H1, hd1, D1, -⟩ := R
    have T := dump_tail W H1 D1 hd1
    simp only
    revert T
    cases (tailResult w content es).2 with
    | error e =>
      rintro ⟨h2, e2, D2⟩
      exact ⟨h2, callFun_err program W hp rfl (by rw [dump_body]; exact (execB_append_next e1).trans e2), D2⟩
    | ok u =>
      rintro ⟨env2, h2, e2, D2⟩
      exact ⟨h2, callFun_run program W hp rfl (by rw [dump_body]; exact (execB_append_next e1).trans e2), D2⟩

/-- `writer.dumps(track)`. -/
theorem dumps_run (hN : W.sort.Natural) {w : Melodia.Writer} (hw : w.Valid) {c : Val × Val} (hc : HasText W c.1) (hx : IsBpm w.bpm c.2) {a l : Nat}
    {h : Heap} {t : Melodia.Track} (ht : TrackAt h a l t) (hwf : t.WF) :
    ∃ h', callFun program W MIDIWriter.dumps [writerV w c, .ref a] [] h =
        some (match Writer.dumps W.sort w t with | .ok b => .ok (.bytes b) h' | .error e => .err e h') ∧
      Becomes h h' a l l (t.iter W.sort).1 := by
  have hp : bindParams program W MIDIWriter.dumps.params [writerV w c, .ref a] []
      { mod := MIDIWriter.dumps.mod, vars := [] } = pure [("self", writerV w c), ("track", .ref a)] := by
    simp [py, MIDIWriter.dumps]
  set env : Env := { mod := "melodia.io.midi", vars := [("self", writerV w c), ("track", .ref a)] } with henv
  have hcell : ∀ x b, Dict.get env.vars x ≠ some (.cell b) := by
    intro x b
    simp only [henv, Dict.get]
    split
    · simp [writerV]
    · split <;> simp
  have H : Has "melodia.io.midi" env [("self", some (writerV w c)), ("track", some (.ref a)), ("io", .none)] :=
    ⟨rfl, by simp [henv, Dict.get], hcell⟩
  have f1 := Frame.push h (.file [] 0)
  have na : a < h.objs.length := lt_of_at ht.obj
  have nl : l < h.objs.length := lt_of_at ht.list
  obtain ⟨h2, e2, D2⟩ := dump_run W hN hw hc hx (a := a) (l := l) (f := h.objs.length) (h := h.push (.file [] 0)) (t := t)
    ⟨f1.at ht.obj (by simp), f1.at ht.list (by simp)⟩ hwf (content := []) (Heap.push_at _ _)
  set f := h.objs.length with hfdef
  have e1 : evalE program W (.call (.attr (.name "io") "BytesIO") [] []) env h = some (.ok (.ref f) (h.push (.file [] 0))) := by
    rw [evalE_call program W ((evalE_attr_of _ _ (H.global _ _ (by simp) (midi_name_io W) h)).trans (by rw [io_bytesIO]; rfl))
      (evalArgs_nil _ _ _ _), call_builtin, callBuiltin.eq_def]
    rfl
  have H1 := H.set "file" (v := .ref f) (by simp) (by simp)
  set env1 := env.set "file" (.ref f)
  have hset : setVar env "file" (.ref f) = pure env1 := setVar_plain _ _ _ (hcell _)
  have e3 : evalE program W (.call (.attr (.name "self") "dump") [.name "track", .name "file"] []) env1 (h.push (.file [] 0)) =
      callFun program W MIDIWriter.dump [writerV w c, .ref a, .ref f] [] (h.push (.file [] 0)) :=
    self_call W H1 (w := w) (c := c) (by simp) rfl (by simp) writer_dump rfl
      (evalArgs_cons _ _ (by simp) (H1.name _ _ (v := .ref a) (by simp) _) (evalArgs_cons _ _ (by simp)
        (H1.name _ _ (v := .ref f) (by simp) _) (evalArgs_nil _ _ _ _)))
  have hB : Becomes h h2 a l l (t.iter W.sort).1 := by
    have : (Writer.dump W.sort w t []).1 = (t.iter W.sort).1 := by
      rw [dump_eq]; cases Writer.deltaEvents W.sort w (t.iter W.sort).1.signature (t.iter W.sort).2 <;> rfl
    rw [this] at D2
    exact ⟨D2.track, f1.trans D2.frame (by simp) (by rintro b hb (h | h); exacts [h, by omega]), .inl rfl⟩
  have hwith : ∀ {r : Option (Res Flow)}, execB program W [
      .expr (.call (.attr (.name "self") "dump") [.name "track", .name "file"] []),
      .ret (.call (.attr (.call (.attr (.name "file") "getbuffer") [] []) "tobytes") [] [])] env1 (h.push (.file [] 0)) = r →
      execS program W (.withAs (.call (.attr (.name "io") "BytesIO") [] []) "file" [
      .expr (.call (.attr (.name "self") "dump") [.name "track", .name "file"] []),
      .ret (.call (.attr (.call (.attr (.name "file") "getbuffer") [] []) "tobytes") [] [])]) env h = r := by
    rintro r rfl
    rw [execS, bind_ok e1, hset, pure_bind]
  refine ⟨h2, ?_, hB⟩
  rw [Writer.dumps]
  rcases hdump : Writer.dump W.sort w t [] with ⟨t', file, r⟩
  rw [hdump] at e2 D2
  cases r with
  | error e =>
    exact callFun_err program W hp rfl (execB_err _ _ (hwith (execB_err _ _ (execS_expr_err _ _ (e3.trans e2)))))
  | ok u =>
    refine callFun_run program W hp rfl (r := .ret (.bytes file) env1) (execB_ret _ _ (hwith ((execB_next _ _ (execS_expr _ _
      (e3.trans e2))).trans (execB_ret _ _ (execS_ret _ _ ?_)))))
    have hfile : FileAt h2 f file := D2.file
    have g1 : evalE program W (.call (.attr (.name "file") "getbuffer") [] []) env1 h2 = some (.ok (.memoryview file) h2) := by
      rw [evalE_call program W ((evalE_attr_of _ _ (H1.name _ _ (v := .ref f) (by simp) h2)).trans (objAt_file W hfile _ rfl))
        (evalArgs_nil _ _ _ _), call_prim program W (self := .ref f) (m := "getbuffer") [] (by
        change methodOf program (.ref f) "getbuffer" h2 = _
        rw [methodOf, bind_ok (show instOf (.ref f) h2 = some (.ok .none h2) by rw [instOf, bind_ok (load_ok hfile)]; rfl)]
        rfl) (by simp), primMeth]
      refine (bind_ok (load_ok hfile)).trans rfl
    rw [evalE_call program W ((evalE_attr_of _ _ g1).trans (show getAttr program W (.memoryview file) "tobytes" h2 = some (.ok (.meth (.memoryview file) "tobytes") h2) by
      rw [getAttr.eq_def]; rfl)) (evalArgs_nil _ _ _ _), call.eq_def]
    rfl

end Source

end Melodia
