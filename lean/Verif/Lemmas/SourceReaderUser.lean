/-
`MIDIReader` in a user's program: the constructor, `load` and `loads` (src/melodia/io/midi.py:363-386, 604-674), and the functions
`dump`, `dumps`, `load` and `loads` of the module (677-725).
-/
import Verif.Lemmas.SourceLoad
import Verif.Lemmas.SourceWriterUser

set_option autoImplicit false

namespace Melodia

open Melodia.Python

namespace Source

variable (W : World)

@[py] theorem midireader_init : program.method "MIDIReader" "__init__" = some MIDIReader.dunder_init := by rfl
@[py] theorem midireader_class : program.classOf "MIDIReader" = some MIDIReader.classDef := by rfl
@[py] theorem midireader_mutable : MIDIReader.classDef.mutable = false := by rfl

/-- The variables of `MIDIReader.__init__`. -/
def readerEnv (fs : List (String × Val)) (c : Val) : Env :=
  { mod := "melodia.io.midi", vars := [("self", .obj "MIDIReader" fs), ("middle_c", c)] }

theorem reader_init_body {ta : ToneArg} {tv : Val} (ht : IsToneArg ta tv) :
    execB program W MIDIReader.dunder_init.body (readerEnv [] tv) = (do
      let m ← liftPy (@MidiReader.new W.digits ta)
      pure (.next (readerEnv [("_middle_c", tv), ("_middle_c_delta", .int m.middleCDelta)] tv))) := by
  unfold MidiReader.new
  cases ht with
  | str s =>
    simp [py, MIDIReader.dunder_init, callBuiltin, isInstance, isInstance1, middleCDeltaOf, readerEnv]
    cases @Melodia.Tone.fromNotation W.digits s with
    | error e => rfl
    | ok t => simp [py, Except.map]
  | tone t =>
    have h1 := inst_tone W t
    simp [py, MIDIReader.dunder_init, middleCDeltaOf, readerEnv, h1]
  | int i =>
    simp [py, MIDIReader.dunder_init, callBuiltin, isInstance, isInstance1, middleCDeltaOf, Melodia.Tone.new, readerEnv]
  | _ =>
    simp [py, MIDIReader.dunder_init, callBuiltin, isInstance, isInstance1, sigV, middleCDeltaOf, readerEnv]

/-- Calls of `MIDIReader`, however the argument is passed. -/
theorem reader_construct {ta : ToneArg} {tv : Val} (ht : IsToneArg ta tv) (args : List Val) (kws : List (String × Val))
    (hp : bindParams program W MIDIReader.dunder_init.params (.obj "MIDIReader" [] :: args) kws
      { mod := "melodia.io.midi", vars := [] } = pure [("self", .obj "MIDIReader" []), ("middle_c", tv)]) :
    construct program W "MIDIReader" args kws = liftPy ((@MidiReader.new W.digits ta).map (fun m => readerV m tv)) := by
  have he : ({ mod := "melodia.io.midi", vars := [("self", .obj "MIDIReader" []), ("middle_c", tv)] } : Env) = readerEnv [] tv := rfl
  rw [construct]
  simp only [py]
  rw [show MIDIReader.dunder_init.mod = "melodia.io.midi" from rfl, hp, pure_bind, he, reader_init_body W ht]
  cases @MidiReader.new W.digits ta <;> simp [py, Except.map, readerEnv, readerV]

theorem default_reader : construct program W "MIDIReader" [] [] = pure (readerV ⟨24⟩ (toneV ⟨36⟩)) := by
  rw [reader_construct W (.tone ⟨36⟩) [] [] (by simp [py, MIDIReader.dunder_init, c3val])]
  rfl

/-- `loads(self, data, channel)` does what the model says: the track is new, and nothing that was there before is changed. -/
theorem loads_run (hN : W.sort.Natural) {m : MidiReader} {c : Val} {h : Heap} {data : Bytes} {channel : Option Int}
    (hset : Settles (@MidiReader.loads W.digits W.sort m data channel)) {args : List Val} {kws : List (String × Val)}
    (hb : bindParams program W MIDIReader.loads.params args kws { mod := "melodia.io.midi", vars := [] } =
      pure [("self", readerV m c), ("data", .bytes data), ("channel", chanV channel)]) :
    Ends (callFun program W MIDIReader.loads args kws h) (@MidiReader.loads W.digits W.sort m data channel)
      (fun t v H => ∃ a l, v = .ref a ∧ TrackAt H a l t ∧ t.WF ∧ h.objs.length ≤ a ∧ h.objs.length ≤ l ∧ Frame (fun _ => False) h H)
      (Frame (fun _ => False) h) := by
  have f1 := Frame.push h (.file data 0)
  have hrun := load_run W hN (m := m) (c := c) (h := h.push (.file data 0)) (f := h.objs.length) (pos := 0) (data := data) (channel := channel)
    (Heap.push_at _ _) hset (args := [readerV m c, .ref h.objs.length]) (kws := [("channel", chanV channel)]) (by simp [py, MIDIReader.load])
  have ha : getAttr program W (readerV m c) "load" = pure (.meth (readerV m c) "load") :=
    readerV_meth W m c (by decide) (by decide) (by decide) midireader_load (by decide)
  have hc : ∀ H, call program W (.meth (readerV m c) "load") [.ref h.objs.length] [("channel", chanV channel)] H =
      callFun program W MIDIReader.load [readerV m c, .ref h.objs.length] [("channel", chanV channel)] H := by
    intro H; rw [call_reader W m c midireader_load]; rfl
  have hrv : readVar (chanV channel) = pure (chanV channel) := by cases channel <;> rfl
  set env : Env := { mod := "melodia.io.midi", vars := [("self", readerV m c), ("data", .bytes data), ("channel", chanV channel)] } with henv
  have e1 : evalE program W (.call (.attr (.name "io") "BytesIO") [.name "data"] []) env h = some (.ok (.ref h.objs.length) (h.push (.file data 0))) := by
    rw [evalE_call program W ((evalE_attr_of _ _ (evalE_global program W (by rfl) (midi_name_io W) h)).trans (by rw [io_bytesIO]; rfl))
      (evalArgs_cons _ _ (by simp) (evalE_name program W (v := .bytes data) (by rfl) rfl h) (evalArgs_nil _ _ _ _)), call_builtin, callBuiltin.eq_def]
    rfl
  change Ends _ (@MidiReader.load W.digits W.sort m data channel) _ _
  rw [List.drop_zero] at hrun
  have hl := f1.len
  cases hr : @MidiReader.load W.digits W.sort m data channel with
  | ok t =>
    rw [hr] at hrun
    obtain ⟨v, H, k1, a, l, rfl, k2, k3, k4, k5, k6⟩ := hrun
    refine ⟨.ref a, H, callFun_run program W hb rfl (r := .ret (.ref a) { mod := "melodia.io.midi", vars := [("self", readerV m c), ("data", .bytes data), ("channel", chanV channel), ("f", .ref h.objs.length)] }) ?_,
      a, l, rfl, k2, k3, by omega, by omega, f1.trans k6 (by simp) (by rintro b hb rfl; omega)⟩
    change execB program W [.withAs (.call (.attr (.name "io") "BytesIO") [.name "data"] []) "f" [
      .ret (.call (.attr (.name "self") "load") [.name "f", .name "channel"] ["channel"])]] env h = _
    rw [execB, run_bind, execS, bind_ok e1]
    pyrun [henv, ha, hc, k1, hrv]
  | error e =>
    rw [hr] at hrun
    obtain ⟨H, k1, k2⟩ := hrun
    refine ⟨H, callFun_err program W hb rfl ?_, f1.trans k2 (by simp) (by rintro b hb rfl; omega)⟩
    change execB program W [.withAs (.call (.attr (.name "io") "BytesIO") [.name "data"] []) "f" [
      .ret (.call (.attr (.name "self") "load") [.name "f", .name "channel"] ["channel"])]] env h = _
    rw [execB, run_bind, execS, bind_ok e1]
    pyrun [henv, ha, hc, k1, hrv]

/-! ### The functions of the module -/

@[py] theorem midi_name_MIDIReader : globalName program W "melodia.io.midi" "MIDIReader" = pure (.cls "MIDIReader") := by
  rw [globalName]; rfl

theorem chanV_read (channel : Option Int) : readVar (chanV channel) = pure (chanV channel) := by cases channel <;> rfl

/-- `midi.loads(data, channel)`. -/
theorem midi_loads_run (hN : W.sort.Natural) {h : Heap} {data : Bytes} {channel : Option Int}
    (hset : Settles (@MidiReader.loads W.digits W.sort ⟨24⟩ data channel)) {args : List Val} {kws : List (String × Val)}
    (hb : bindParams program W midi.loads.params args kws { mod := "melodia.io.midi", vars := [] } =
      pure [("data", .bytes data), ("channel", chanV channel)]) :
    Ends (callFun program W midi.loads args kws h) (@MidiReader.loads W.digits W.sort ⟨24⟩ data channel)
      (fun t v H => ∃ a l, v = .ref a ∧ TrackAt H a l t ∧ t.WF ∧ h.objs.length ≤ a ∧ h.objs.length ≤ l ∧ Frame (fun _ => False) h H)
      (Frame (fun _ => False) h) := by
  have hrun := loads_run W hN (m := ⟨24⟩) (c := toneV ⟨36⟩) (h := h) hset (args := [readerV ⟨24⟩ (toneV ⟨36⟩), .bytes data]) (kws := [("channel", chanV channel)])
    (by simp [py, MIDIReader.loads])
  have ha : getAttr program W (readerV ⟨24⟩ (toneV ⟨36⟩)) "loads" = pure (.meth (readerV ⟨24⟩ (toneV ⟨36⟩)) "loads") :=
    readerV_meth W _ _ (by decide) (by decide) (by decide) midireader_loads (by decide)
  have hc : ∀ H, call program W (.meth (readerV ⟨24⟩ (toneV ⟨36⟩)) "loads") [.bytes data] [("channel", chanV channel)] H =
      callFun program W MIDIReader.loads [readerV ⟨24⟩ (toneV ⟨36⟩), .bytes data] [("channel", chanV channel)] H := by
    intro H; rw [call_reader W _ _ midireader_loads]; rfl
  have hrv := chanV_read channel
  have hd := default_reader W
  cases hr : @MidiReader.loads W.digits W.sort ⟨24⟩ data channel with
  | ok t =>
    rw [hr] at hrun
    obtain ⟨v, H, k1, a, l, rfl, k2⟩ := hrun
    refine ⟨.ref a, H, callFun_run program W hb rfl (r := .ret (.ref a) { mod := "melodia.io.midi", vars := [("data", .bytes data), ("channel", chanV channel)] }) ?_, a, l, rfl, k2⟩
    pyrun [midi.loads, ↓hd, ha, hc, k1, hrv]
  | error e =>
    rw [hr] at hrun
    obtain ⟨H, k1, k2⟩ := hrun
    refine ⟨H, callFun_err program W hb rfl ?_, k2⟩
    pyrun [midi.loads, ↓hd, ha, hc, k1, hrv]

/-- `midi.load(file, channel)`. -/
theorem midi_load_run (hN : W.sort.Natural) {h : Heap} {f pos : Nat} {data : Bytes} {channel : Option Int}
    (hf : h.objs[f]? = some (.file data pos)) (hset : Settles (@MidiReader.load W.digits W.sort ⟨24⟩ (data.drop pos) channel)) {args : List Val} {kws : List (String × Val)}
    (hb : bindParams program W midi.load.params args kws { mod := "melodia.io.midi", vars := [] } =
      pure [("file", .ref f), ("channel", chanV channel)]) :
    Ends (callFun program W midi.load args kws h) (@MidiReader.load W.digits W.sort ⟨24⟩ (data.drop pos) channel)
      (fun t v H => ∃ a l, v = .ref a ∧ TrackAt H a l t ∧ t.WF ∧ h.objs.length ≤ a ∧ h.objs.length ≤ l ∧ Frame (· = f) h H)
      (Frame (· = f) h) := by
  have hrun := load_run W hN (m := ⟨24⟩) (c := toneV ⟨36⟩) hf hset (args := [readerV ⟨24⟩ (toneV ⟨36⟩), .ref f]) (kws := [("channel", chanV channel)])
    (by simp [py, MIDIReader.load])
  have ha : getAttr program W (readerV ⟨24⟩ (toneV ⟨36⟩)) "load" = pure (.meth (readerV ⟨24⟩ (toneV ⟨36⟩)) "load") :=
    readerV_meth W _ _ (by decide) (by decide) (by decide) midireader_load (by decide)
  have hc : ∀ H, call program W (.meth (readerV ⟨24⟩ (toneV ⟨36⟩)) "load") [.ref f] [("channel", chanV channel)] H =
      callFun program W MIDIReader.load [readerV ⟨24⟩ (toneV ⟨36⟩), .ref f] [("channel", chanV channel)] H := by
    intro H; rw [call_reader W _ _ midireader_load]; rfl
  have hrv := chanV_read channel
  have hd := default_reader W
  cases hr : @MidiReader.load W.digits W.sort ⟨24⟩ (data.drop pos) channel with
  | ok t =>
    rw [hr] at hrun
    obtain ⟨v, H, k1, a, l, rfl, k2⟩ := hrun
    refine ⟨.ref a, H, callFun_run program W hb rfl (r := .ret (.ref a) { mod := "melodia.io.midi", vars := [("file", .ref f), ("channel", chanV channel)] }) ?_, a, l, rfl, k2⟩
    pyrun [midi.load, ↓hd, ha, hc, k1, hrv]
  | error e =>
    rw [hr] at hrun
    obtain ⟨H, k1, k2⟩ := hrun
    refine ⟨H, callFun_err program W hb rfl ?_, k2⟩
    pyrun [midi.load, ↓hd, ha, hc, k1, hrv]

theorem new_bpm {ppq ch : Int} {c : ToneArg} {x : PyFloat} {w : Melodia.Writer} (h : @Melodia.Writer.new W.digits ppq c x ch = .ok w) :
    w.bpm = x := by
  let _ := W.digits
  unfold Melodia.Writer.new at h
  split_ifs at h
  cases hd : middleCDeltaOf c with
  | error e => rw [hd] at h; cases h
  | ok d => rw [hd] at h; cases h; rfl

theorem module_writer {x : PyFloat} {bpm : Val} (hx : IsBpm x bpm) (ch : Int) :
    construct program W "MIDIWriter" [] [("bpm", bpm), ("channel", .int ch)] =
    liftPy ((@Melodia.Writer.new W.digits 96 (.tone ⟨36⟩) x ch).map (fun w => writerV w (toneV ⟨36⟩, bpm))) :=
  writer_construct W (.tone ⟨36⟩) 96 ch hx [] _ (writer_bind W none none (some bpm) (some (.int ch)))

/-- `midi.dumps(track, bpm, channel)`. -/
theorem midi_dumps_run (hN : W.sort.Natural) {h : Heap} {a l : Nat} {t : Melodia.Track} (ht : TrackAt h a l t) (hwf : t.WF) {x : PyFloat} {bpm : Val} (hx : IsBpm x bpm) (ch : Int)
    {args : List Val} {kws : List (String × Val)}
    (hb : bindParams program W midi.dumps.params args kws { mod := "melodia.io.midi", vars := [] } =
      pure [("track", .ref a), ("bpm", bpm), ("channel", .int ch)]) :
    match @Melodia.Writer.new W.digits 96 (.tone ⟨36⟩) x ch with
    | .error e => callFun program W midi.dumps args kws h = some (.err e h)
    | .ok w => ∃ h', callFun program W midi.dumps args kws h = some (match Writer.dumps W.sort w t with | .ok b => .ok (.bytes b) h' | .error e => .err e h') ∧
        Becomes h h' a l l (t.iter W.sort).1 := by
  have hm := module_writer W hx ch
  have hrv : readVar bpm = pure bpm := by cases hx <;> rfl
  cases hw : @Melodia.Writer.new W.digits 96 (.tone ⟨36⟩) x ch with
  | error e =>
    rw [hw] at hm
    refine callFun_err program W hb rfl ?_
    pyrun [midi.dumps, ↓hm, hrv, Except.map]
  | ok w =>
    rw [hw] at hm
    obtain ⟨hv, -⟩ := @Writer.new_valid _ W.digits _ _ _ _ hw
    obtain ⟨h', k1, k2⟩ := dumps_run W hN hv (c := (toneV ⟨36⟩, bpm)) (text_of_tone W ⟨36⟩) (by rw [new_bpm W hw]; exact hx) ht hwf
    refine ⟨h', ?_, k2⟩
    have ha : getAttr program W (writerV w (toneV ⟨36⟩, bpm)) "dumps" = pure (.meth (writerV w (toneV ⟨36⟩, bpm)) "dumps") :=
      writerV_meth W w _ rfl (by simp) writer_dumps (by decide)
    have hc : ∀ H, call program W (.meth (writerV w (toneV ⟨36⟩, bpm)) "dumps") [.ref a] [] H = callFun program W MIDIWriter.dumps [writerV w (toneV ⟨36⟩, bpm), .ref a] [] H := by
      intro H; rw [writerV, call_obj _ _ _ _ _ _ _ _ writer_dumps (by decide)]
    cases hd : Writer.dumps W.sort w t with
    | ok b =>
      rw [hd] at k1
      refine (callFun_run program W hb rfl (r := .ret (.bytes b) { mod := "melodia.io.midi", vars := [("track", .ref a), ("bpm", bpm), ("channel", .int ch)] }) ?_)
      pyrun [midi.dumps, ↓hm, hrv, Except.map, ha, hc, k1]
    | error e =>
      rw [hd] at k1
      refine callFun_err program W hb rfl ?_
      pyrun [midi.dumps, ↓hm, hrv, Except.map, ha, hc, k1]

/-- `midi.dump(track, file, bpm, channel)`. -/
theorem midi_dump_run (hN : W.sort.Natural) {h : Heap} {a l f : Nat} {t : Melodia.Track} (ht : TrackAt h a l t) (hwf : t.WF) {content : Bytes} (hf : FileAt h f content)
    {x : PyFloat} {bpm : Val} (hx : IsBpm x bpm) (ch : Int) {args : List Val} {kws : List (String × Val)}
    (hb : bindParams program W midi.dump.params args kws { mod := "melodia.io.midi", vars := [] } =
      pure [("track", .ref a), ("file", .ref f), ("bpm", bpm), ("channel", .int ch)]) :
    match @Melodia.Writer.new W.digits 96 (.tone ⟨36⟩) x ch with
    | .error e => callFun program W midi.dump args kws h = some (.err e h)
    | .ok w => ∃ h', callFun program W midi.dump args kws h = some (match (Writer.dump W.sort w t content).2.2 with | .ok _ => .ok .none h' | .error e => .err e h') ∧
        Dumping h h' a l f (Writer.dump W.sort w t content).1 (Writer.dump W.sort w t content).2.1 := by
  have hm := module_writer W hx ch
  have hrv : readVar bpm = pure bpm := by cases hx <;> rfl
  cases hw : @Melodia.Writer.new W.digits 96 (.tone ⟨36⟩) x ch with
  | error e =>
    rw [hw] at hm
    refine callFun_err program W hb rfl ?_
    pyrun [midi.dump, ↓hm, hrv, Except.map]
  | ok w =>
    rw [hw] at hm
    obtain ⟨hv, -⟩ := @Writer.new_valid _ W.digits _ _ _ _ hw
    obtain ⟨h', k1, k2⟩ := dump_run W hN hv (c := (toneV ⟨36⟩, bpm)) (text_of_tone W ⟨36⟩) (by rw [new_bpm W hw]; exact hx) ht hwf hf
    refine ⟨h', ?_, k2⟩
    have ha : getAttr program W (writerV w (toneV ⟨36⟩, bpm)) "dump" = pure (.meth (writerV w (toneV ⟨36⟩, bpm)) "dump") :=
      writerV_meth W w _ rfl (by simp) writer_dump (by decide)
    have hc : ∀ H, call program W (.meth (writerV w (toneV ⟨36⟩, bpm)) "dump") [.ref a, .ref f] [] H = callFun program W MIDIWriter.dump [writerV w (toneV ⟨36⟩, bpm), .ref a, .ref f] [] H := by
      intro H; rw [writerV, call_obj _ _ _ _ _ _ _ _ writer_dump (by decide)]
    cases hd : (Writer.dump W.sort w t content).2.2 with
    | ok b =>
      rw [hd] at k1
      refine (callFun_run program W hb rfl (r := .next { mod := "melodia.io.midi", vars := [("track", .ref a), ("file", .ref f), ("bpm", bpm), ("channel", .int ch)] }) ?_)
      pyrun [midi.dump, ↓hm, hrv, Except.map, ha, hc, k1]
    | error e =>
      rw [hd] at k1
      refine callFun_err program W hb rfl ?_
      pyrun [midi.dump, ↓hm, hrv, Except.map, ha, hc, k1]

end Source
end Melodia
