/-
Reading and writing in a user's program, however the arguments are passed.
-/
import Verif.Lemmas.SourceReaderUser

set_option autoImplicit false

namespace Melodia

open Melodia.Python

namespace Source

variable (W : World)

/-- `MIDIReader(...)` in a user's program. -/
theorem user_reader {ta : ToneArg} {c : Val} (ht : IsToneArg ta c) {vars : List (String × Val)} {e : Expr}
    (hc : ReaderCall c vars e) :
    userEval W vars e = liftPy ((@MidiReader.new W.digits ta).map (fun m => readerV m c)) := by
  have hr : readVar c = pure c := by cases ht <;> rfl
  cases hc with
  | default =>
    funext h
    refine (evalE_call program W (es := []) (evalE_name program W (v := .cls "MIDIReader") (by rfl) rfl h)
      (evalArgs_nil _ _ _ _)).trans ?_
    rw [call.eq_def]
    exact congrFun (reader_construct W ht [] [] (by simp [py, MIDIReader.dunder_init, c3val])) h
  | pos =>
    funext h
    refine (evalE_call program W (es := [.name "middle_c"]) (evalE_name program W (v := .cls "MIDIReader") (by rfl) rfl h)
      (evalArgs_names W h [("middle_c", c)] (by simp [Dict.get]; exact hr))).trans ?_
    rw [call.eq_def]
    exact congrFun (reader_construct W ht [c] [] (by simp [py, MIDIReader.dunder_init])) h
  | kw =>
    funext h
    refine (evalE_call_kw program W (es := []) (ks := [.name "middle_c"]) (kws := ["middle_c"]) rfl
      (evalE_name program W (v := .cls "MIDIReader") (by rfl) rfl h) (evalArgs_nil _ _ _ _)
      (evalArgs_names W h [("middle_c", c)] (by simp [Dict.get]; exact hr))).trans ?_
    rw [call.eq_def]
    exact congrFun (reader_construct W ht [] [("middle_c", c)] (by simp [py, MIDIReader.dunder_init])) h

/-- The arguments of a call with a channel. -/
inductive ChannelArgs (xv : Val) : Option Int → List Val → List (String × Val) → Prop
  | omitted : ChannelArgs xv none [xv] []
  | pos (c : Option Int) : ChannelArgs xv c [xv, chanV c] []
  | kw (c : Option Int) : ChannelArgs xv c [xv] [("channel", chanV c)]

theorem channel_call {g e : Expr} {x : String} {xv fv : Val} {channel : Option Int} {more : List (String × Val)} {env : Env} {h : Heap}
    (hc : ChannelCall g x channel more e) (hg : evalE program W g env h = some (.ok fv h)) (hx : Dict.get env.vars x = some xv)
    (hr : readVar xv = pure xv) (hm : ∀ o ∈ more, Dict.get env.vars o.1 = some o.2) :
    ∃ args kws, evalE program W e env h = call program W fv args kws h ∧ ChannelArgs xv channel args kws := by
  have hx' := evalE_name program W hx hr h
  cases hc with
  | omitted => exact ⟨_, _, evalE_call program W hg (evalArgs_cons _ _ (by simp) hx' (evalArgs_nil _ _ _ _)), .omitted⟩
  | pos =>
    exact ⟨_, _, evalE_call program W hg (evalArgs_cons _ _ (by simp) hx' (evalArgs_names W h [("channel", chanV channel)]
      (by simp at hm ⊢; exact ⟨hm, chanV_read _⟩))), .pos _⟩
  | kw =>
    exact ⟨_, _, evalE_call_kw program W (es := [.name x]) (ks := [.name "channel"]) (kws := ["channel"]) rfl hg
      (evalArgs_cons _ _ (by simp) hx' (evalArgs_nil _ _ _ _)) (evalArgs_names W h [("channel", chanV channel)]
      (by simp at hm ⊢; exact ⟨hm, chanV_read _⟩)), .kw _⟩

theorem more_get {g e : Expr} {x y z : String} {a b : Val} {channel : Option Int} {more : List (String × Val)}
    (hc : ChannelCall g x channel more e) (hy : y ≠ "channel") (hz : z ≠ "channel") :
    ∀ o ∈ more, Dict.get ((y, a) :: (z, b) :: more ++ userNames) o.1 = some o.2 := by
  cases hc <;> simp [Dict.get, hy, hz]

theorem bind_loads {m : MidiReader} {c : Val} {data : Bytes} {channel : Option Int} {args : List Val} {kws : List (String × Val)}
    (ha : ChannelArgs (.bytes data) channel args kws) :
    bindParams program W MIDIReader.loads.params (readerV m c :: args) kws { mod := "melodia.io.midi", vars := [] } =
      pure [("self", readerV m c), ("data", .bytes data), ("channel", chanV channel)] := by
  cases ha <;> simp [py, MIDIReader.loads, chanV]

theorem bind_load {m : MidiReader} {c : Val} {f : Nat} {channel : Option Int} {args : List Val} {kws : List (String × Val)}
    (ha : ChannelArgs (.ref f) channel args kws) :
    bindParams program W MIDIReader.load.params (readerV m c :: args) kws { mod := "melodia.io.midi", vars := [] } =
      pure [("self", readerV m c), ("file", .ref f), ("channel", chanV channel)] := by
  cases ha <;> simp [py, MIDIReader.load, chanV]

theorem bind_midi_loads {data : Bytes} {channel : Option Int} {args : List Val} {kws : List (String × Val)}
    (ha : ChannelArgs (.bytes data) channel args kws) :
    bindParams program W midi.loads.params args kws { mod := "melodia.io.midi", vars := [] } =
      pure [("data", .bytes data), ("channel", chanV channel)] := by
  cases ha <;> simp [py, midi.loads, chanV]

theorem bind_midi_load {f : Nat} {channel : Option Int} {args : List Val} {kws : List (String × Val)}
    (ha : ChannelArgs (.ref f) channel args kws) :
    bindParams program W midi.load.params args kws { mod := "melodia.io.midi", vars := [] } =
      pure [("file", .ref f), ("channel", chanV channel)] := by
  cases ha <;> simp [py, midi.load, chanV]

/-- Reading in any form does what the model says. -/
theorem user_load (hN : W.sort.Natural) {m : MidiReader} {h : Heap} {data : Bytes} {S : Nat → Prop} {channel : Option Int}
    {vars : List (String × Val)} {e : Expr} (hc : LoadCall h data m S channel vars e)
    (hset : Settles (@MidiReader.loads W.digits W.sort m data channel)) :
    Ends (userEval W vars e h) (@MidiReader.loads W.digits W.sort m data channel)
      (fun t v H => ∃ a l, v = .ref a ∧ TrackAt H a l t ∧ t.WF ∧ h.objs.length ≤ a ∧ h.objs.length ≤ l ∧ Frame S h H)
      (Frame S h) := by
  cases hc with
  | @loads _ v _ more _ hv hc =>
    obtain ⟨c, -, rfl⟩ := hv
    have ha : getAttr program W (readerV m c) "loads" = pure (.meth (readerV m c) "loads") :=
      readerV_meth W _ _ (by decide) (by decide) (by decide) midireader_loads (by decide)
    obtain ⟨args, kws, k1, k2⟩ := channel_call W (xv := .bytes data)
      (env := { mod := "__main__", vars := ("r", readerV m c) :: ("data", .bytes data) :: more ++ userNames }) hc
      ((evalE_attr_of _ _ (evalE_name program W (x := "r") (v := readerV m c) (by rfl) rfl h)).trans (congrFun ha h)) (by rfl) rfl
      (more_get hc (by decide) (by decide))
    rw [userEval, k1, call_reader W _ _ midireader_loads]
    exact loads_run W hN hset (bind_loads W k2)
  | @load _ v f pos content _ more _ hv hf hd hc =>
    obtain ⟨c, -, rfl⟩ := hv
    subst hd
    have ha : getAttr program W (readerV m c) "load" = pure (.meth (readerV m c) "load") :=
      readerV_meth W _ _ (by decide) (by decide) (by decide) midireader_load (by decide)
    obtain ⟨args, kws, k1, k2⟩ := channel_call W (xv := .ref f)
      (env := { mod := "__main__", vars := ("r", readerV m c) :: ("f", .ref f) :: more ++ userNames }) hc
      ((evalE_attr_of _ _ (evalE_name program W (x := "r") (v := readerV m c) (by rfl) rfl h)).trans (congrFun ha h)) (by rfl) rfl
      (more_get hc (by decide) (by decide))
    rw [userEval, k1, call_reader W _ _ midireader_load]
    exact load_run W hN hf hset (bind_load W k2)
  | @midiLoads _ more _ hc =>
    obtain ⟨args, kws, k1, k2⟩ := channel_call W (xv := .bytes data)
      (env := { mod := "__main__", vars := midiFun "loads" :: ("data", .bytes data) :: more ++ userNames }) hc
      (evalE_name program W (v := .func "melodia.io.midi" "loads") (by rfl) rfl h) (by rfl) rfl
      (more_get hc (by decide) (by decide))
    rw [userEval, k1, call.eq_def]
    exact midi_loads_run W hN hset (bind_midi_loads W k2)
  | @midiLoad f pos content _ more _ hf hd hc =>
    subst hd
    obtain ⟨args, kws, k1, k2⟩ := channel_call W (xv := .ref f)
      (env := { mod := "__main__", vars := midiFun "load" :: ("f", .ref f) :: more ++ userNames }) hc
      (evalE_name program W (v := .func "melodia.io.midi" "load") (by rfl) rfl h) (by rfl) rfl
      (more_get hc (by decide) (by decide))
    rw [userEval, k1, call.eq_def]
    exact midi_load_run W hN hf hset (bind_midi_load W k2)

/-- `dumps(t, ...)` of the module in a user's program. -/
theorem user_dumps {a : Nat} {y : PyFloat} {x : Val} (hx : IsBpm y x) {ch : Int} {more : List (String × Val)} {e : Expr}
    (hc : DumpCall "dumps" ["t"] x ch more e) (h : Heap) :
    ∃ args kws, userEval W (midiFun "dumps" :: ("t", .ref a) :: more) e h = callFun program W midi.dumps args kws h ∧
      bindParams program W midi.dumps.params args kws { mod := "melodia.io.midi", vars := [] } =
        pure [("track", .ref a), ("bpm", x), ("channel", .int ch)] := by
  have hr : readVar x = pure x := by cases hx <;> rfl
  cases hc with
  | kw x ch =>
    refine ⟨[.ref a], dumpOpts x ch, ?_, by cases x <;> cases ch <;> simp [py, midi.dumps, dumpOpts]⟩
    refine (evalE_call_kw program W (es := [.name "t"]) (by simp)
      (evalE_name program W (v := .func "melodia.io.midi" "dumps") (by rfl) rfl h)
      (evalArgs_names W h [("t", .ref a)] (by simp [Dict.get, midiFun, readVar]))
      (evalArgs_names W h _ (by cases x <;> cases ch <;> simp [dumpOpts, midiFun, Dict.get] <;> first | exact hr | exact ⟨hr, rfl⟩ | rfl))).trans ?_
    rw [zip_opts, call.eq_def]
    rfl
  | all =>
    refine ⟨[.ref a, x, .int ch], [], ?_, by simp [py, midi.dumps]⟩
    refine (evalE_call program W (evalE_name program W (v := .func "melodia.io.midi" "dumps") (by rfl) rfl h)
      (evalArgs_names W h [("t", .ref a), ("bpm", x), ("channel", .int ch)] (by simp [Dict.get, midiFun]; exact ⟨rfl, hr, rfl⟩))).trans ?_
    rw [call.eq_def]
    rfl

/-- `dump(t, f, ...)` of the module in a user's program. -/
theorem user_dump {a f : Nat} {y : PyFloat} {x : Val} (hx : IsBpm y x) {ch : Int} {more : List (String × Val)} {e : Expr}
    (hc : DumpCall "dump" ["t", "f"] x ch more e) (h : Heap) :
    ∃ args kws, userEval W (midiFun "dump" :: ("t", .ref a) :: ("f", .ref f) :: more) e h = callFun program W midi.dump args kws h ∧
      bindParams program W midi.dump.params args kws { mod := "melodia.io.midi", vars := [] } =
        pure [("track", .ref a), ("file", .ref f), ("bpm", x), ("channel", .int ch)] := by
  have hr : readVar x = pure x := by cases hx <;> rfl
  cases hc with
  | kw x ch =>
    refine ⟨[.ref a, .ref f], dumpOpts x ch, ?_, by cases x <;> cases ch <;> simp [py, midi.dump, dumpOpts]⟩
    refine (evalE_call_kw program W (es := [.name "t", .name "f"]) (by simp)
      (evalE_name program W (v := .func "melodia.io.midi" "dump") (by rfl) rfl h)
      (evalArgs_names W h [("t", .ref a), ("f", .ref f)] (by simp [Dict.get, midiFun, readVar]))
      (evalArgs_names W h _ (by cases x <;> cases ch <;> simp [dumpOpts, midiFun, Dict.get] <;> first | exact hr | exact ⟨hr, rfl⟩ | rfl))).trans ?_
    rw [zip_opts, call.eq_def]
    rfl
  | all =>
    refine ⟨[.ref a, .ref f, x, .int ch], [], ?_, by simp [py, midi.dump]⟩
    refine (evalE_call program W (evalE_name program W (v := .func "melodia.io.midi" "dump") (by rfl) rfl h)
      (evalArgs_names W h [("t", .ref a), ("f", .ref f), ("bpm", x), ("channel", .int ch)]
        (by simp [Dict.get, midiFun]; exact ⟨rfl, rfl, hr, rfl⟩))).trans ?_
    rw [call.eq_def]
    rfl

end Source

end Melodia
