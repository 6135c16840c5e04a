/-
The loop over the events of a channel in `MIDIReader._parse_track` (src/melodia/io/midi.py:571-598), run from its text.
-/
import Verif.Lemmas.SourceParseLoop
import Verif.Lemmas.SourceTrackMore
import Verif.Spec.SourceReader

set_option autoImplicit false

namespace Melodia

open Melodia.Python

namespace Source

variable (W : World)

@[py] theorem reader_pitch_to_tone : program.method "MIDIReader" "_pitch_to_tone" = some MIDIReader._pitch_to_tone := by rfl
@[py] theorem reader_time_to_signature : program.method "MIDIReader" "_time_to_signature" = some MIDIReader._time_to_signature := by rfl
@[py] theorem reader_parse_track : program.method "MIDIReader" "_parse_track" = some MIDIReader._parse_track := by rfl
@[py] theorem reader_parse_header : program.method "MIDIReader" "_parse_header" = some MIDIReader._parse_header := by rfl
@[py] theorem reader_read_chunks : program.method "MIDIReader" "_read_chunks" = some MIDIReader._read_chunks := by rfl
@[py] theorem reader_load : program.method "MIDIReader" "load" = some MIDIReader.load := by rfl
@[py] theorem reader_loads : program.method "MIDIReader" "loads" = some MIDIReader.loads := by rfl

theorem readerV_meth (m : MidiReader) (c : Val) {x : String} {f : FunDef} (h1 : x ≠ "_middle_c") (h2 : x ≠ "_middle_c_delta")
    (h3 : x ≠ "__class__") (hf : program.method "MIDIReader" x = some f) (hd : f.deco ≠ .property) :
    getAttr program W (readerV m c) x = pure (.meth (readerV m c) x) := by
  rw [getAttr.eq_def]
  simp [readerV, instOf, h1.symm, h2.symm, h3, hf, hd, py, Dict.get]

@[py] theorem readVar_readerV (m : MidiReader) (c : Val) : readVar (readerV m c) = pure (readerV m c) := rfl

@[py] theorem midi_name_Tone' : globalName program W "melodia.io.midi" "Tone" = pure (.cls "Tone") := by
  rw [globalName]; rfl
@[py] theorem readerV_delta (m : MidiReader) (c : Val) :
    getAttr program W (readerV m c) "_middle_c_delta" = pure (.int m.middleCDelta) := getAttr_obj W rfl
theorem call_reader (m : MidiReader) (c : Val) {x : String} {f : FunDef} (hf : program.method "MIDIReader" x = some f)
    (args : List Val) (kws : List (String × Val)) :
    call program W (.meth (readerV m c) x) args kws =
      callFun program W f (match f.deco with
        | .staticmethod => args
        | .classmethod => .cls "MIDIReader" :: args
        | _ => readerV m c :: args) kws := by
  have : boundMethod program (readerV m c) x = pure (program.method "MIDIReader" x) := by
    change methodOf program (readerV m c) x = _
    rw [methodOf]; rfl
  rw [call.eq_def]
  simp only [this, hf, pure_bind]
  cases f.deco <;> rfl

@[pyrun high] theorem call_pitch_to_tone (m : MidiReader) (c : Val) (p : Int) :
    call program W (.meth (readerV m c) "_pitch_to_tone") [.int p] [] = liftPy ((m.pitchToTone p).map toneV) := by
  funext H
  rw [call_reader W m c (reader_pitch_to_tone)]
  pyrun [MIDIReader._pitch_to_tone, callFun, MidiReader.pitchToTone, Tone.new, Except.map]

@[pyrun high] theorem call_time_to_signature (m : MidiReader) (c : Val) (t q : Int) :
    call program W (.meth (readerV m c) "_time_to_signature") [.int t] [("ticks_per_quarter", .int q)] =
      liftPy ((MidiReader.timeToSignature t q).map sigV) := by
  funext H
  rw [call_reader W m c (reader_time_to_signature)]
  unfold MidiReader.timeToSignature
  by_cases hq : q > 0
  · have h0 : q ≠ 0 := by omega
    cases h1 : Signature.new (pyFloorDiv (t * 4096) q) 16384 with
    | error e =>
      pyrun [MIDIReader._time_to_signature, callFun, hq, h0, h1, Except.map, bind, Except.bind]
    | ok s =>
      have hn := signature_normalized W s (by obtain ⟨rfl, h, -⟩ := Signature.new_eq_ok_iff.mp h1; exact h)
      cases h2 : s.normalized with
      | error e =>
        pyrun [MIDIReader._time_to_signature, callFun, hq, h0, h1, Except.map, bind, Except.bind, h2, hn]
      | ok s' =>
        pyrun [MIDIReader._time_to_signature, callFun, hq, h0, h1, Except.map, bind, Except.bind, h2, hn]
  · pyrun [MIDIReader._time_to_signature, callFun, hq, Except.map]

@[py] theorem call_min_float (x y : PyFloat) : callBuiltin program W .min [.float x, .float y] [] = pure (.float (x.min y)) := by
  rw [callBuiltin.eq_def]
  simp only [primCall, primBest, isPlain, cmpKnown, Bool.and_self, Bool.or_self, if_true, primCmp, asInt, asNum, floatCmp, PyFloat.min]
  cases y.lt x <;> rfl
@[py] theorem call_max_float (x y : PyFloat) : callBuiltin program W .max [.float x, .float y] [] = pure (.float (x.max y)) := by
  rw [callBuiltin.eq_def]
  simp only [primCall, primBest, isPlain, cmpKnown, Bool.and_self, Bool.or_self, if_true, primCmp, asInt, asNum, floatCmp, PyFloat.max]
  cases x.lt y <;> rfl

theorem velocity_run (v : Nat) (hv : v < 256) {env : Env} {fs : List (String × Val)} {c : String} (h1 : Dict.get env.vars "note_on" = some (.obj c fs))
    (h2 : Dict.get fs "velocity" = some (.int v)) (h3 : env.mod = "melodia.io.midi") (h4 : Dict.get env.vars "max" = .none) (h5 : Dict.get env.vars "min" = .none) (H : Heap) :
    evalE program W (.call (.name "max") [.float 0 1, .call (.name "min") [.float 1 1, .bin .div (.attr (.name "note_on") "velocity") (.float 127 1)] []] []) env H =
      some (.ok (.float (MidiReader.velocityOf v)) H) := by
  have hf : floatOp W .div (.fin (fl v)) (.fin 127) = pure (.float (.fin (fl ((v : ℚ) / 127)))) := by
    have : fl (v : ℚ) = v := fl_nat (by omega)
    simp [floatOp, floatDiv, this, py]
  pyrun [h1, getAttr_obj W h2, h3, h4, h5, hf]
  rfl

/-! ### `running_notes` -/

/-- What is remembered of a note that sounds: when it began, and the channel and velocity of the event. -/
abbrev Sounding := Dict Nat (Int × Nat × Nat)

/-- `running_notes`. -/
def runDict (Z : Sounding) : List (Val × Val) :=
  Z.map (fun x => (.int x.1, .tuple [.int x.2.1, eventVal (.noteOn x.2.2.1 x.1 x.2.2.2)]))

/-- `running_notes` in the model. -/
def runModel (Z : Sounding) : MidiReader.Running := Z.map (fun x => (x.1, (x.2.1, x.2.2.2)))

theorem keyEq_nat (a b : Nat) : keyEq (.int a) (.int b) = decide (a = b) := by
  rw [keyEq_int]; simp

theorem runDict_get (Z : Sounding) (p : Nat) : dictGet (runDict Z) (.int p) =
    (Z.get p).map (fun x => .tuple [.int x.1, eventVal (.noteOn x.2.1 p x.2.2)]) := by
  induction Z with
  | nil => rfl
  | cons x Z ih =>
    obtain ⟨k, w⟩ := x
    simp only [runDict, List.map_cons, dictGet, keyEq_nat, Dict.get] at ih ⊢
    by_cases hk : k = p
    · subst hk; simp
    · simp [hk, ih]

theorem runDict_set (Z : Sounding) (p : Nat) (t : Int) (c v : Nat) :
    dictSet (runDict Z) (.int p) (.tuple [.int t, eventVal (.noteOn c p v)]) = runDict (Z.set p (t, c, v)) := by
  induction Z with
  | nil => rfl
  | cons x Z ih =>
    obtain ⟨k, w⟩ := x
    simp only [runDict, List.map_cons, dictSet, keyEq_nat, Dict.set] at ih ⊢
    by_cases hk : k = p
    · subst hk; simp
    · simp [hk, ih]

theorem runDict_del (Z : Sounding) (p : Nat) : dictDel (runDict Z) (.int p) = runDict (Z.del p) := by
  induction Z with
  | nil => rfl
  | cons x Z ih =>
    obtain ⟨k, w⟩ := x
    simp only [runDict, List.map_cons, dictDel, keyEq_nat, Dict.del] at ih ⊢
    by_cases hk : k = p
    · subst hk; simp
    · simp [hk, ih]

theorem runModel_get (Z : Sounding) (p : Nat) : Dict.get (runModel Z) p = (Z.get p).map (fun x => (x.1, x.2.2)) := by
  induction Z with
  | nil => rfl
  | cons x Z ih =>
    obtain ⟨k, w⟩ := x
    simp only [runModel, List.map_cons, Dict.get] at ih ⊢
    by_cases hk : k = p <;> simp [hk, ih]

theorem runModel_set (Z : Sounding) (p : Nat) (t : Int) (c v : Nat) :
    Dict.set (runModel Z) p (t, v) = runModel (Z.set p (t, c, v)) := by
  induction Z with
  | nil => rfl
  | cons x Z ih =>
    obtain ⟨k, w⟩ := x
    simp only [runModel, List.map_cons, Dict.set] at ih ⊢
    by_cases hk : k = p <;> simp [hk, ih]

theorem runModel_del (Z : Sounding) (p : Nat) : Dict.del (runModel Z) p = runModel (Z.del p) := by
  induction Z with
  | nil => rfl
  | cons x Z ih =>
    obtain ⟨k, w⟩ := x
    simp only [runModel, List.map_cons, Dict.del] at ih ⊢
    by_cases hk : k = p <;> simp [hk, ih]

/-- One round of the loop over the events of a channel. -/
def chStep [UnicodeDigits] (m : MidiReader) (q : Int) (s : Melodia.Track × Sounding) (x : Int × Event) : PyM (Melodia.Track × Sounding) :=
  match x.2 with
  | .noteOn c p v => pure (s.1, if (s.2.get p).isSome then s.2 else s.2.set p (x.1, c, v))
  | .noteOff _ p _ =>
    match s.2.get p with
    | .none => pure s
    | some (nb, _, ov) => do
      let tone ← m.pitchToTone p
      let duration ← MidiReader.timeToSignature (x.1 - nb) q
      let position ← MidiReader.timeToSignature nb q
      let note ← Melodia.Note.new (.tone tone) (.sig duration) (MidiReader.velocityOf ov)
      let track ← s.1.add (.note note) (some (.sig position))
      pure (track, s.2.del p)
  | _ => pure s

theorem channelLoop_fold [UnicodeDigits] (m : MidiReader) (q : Int) : ∀ (l : List (Int × Event)) (t : Melodia.Track) (Z : Sounding),
    MidiReader.channelLoop m q t (runModel Z) l = (l.foldlM (chStep m q) (t, Z)).map Prod.fst := by
  intro l
  induction l with
  | nil => intro t Z; rfl
  | cons x l ih =>
    intro t Z
    obtain ⟨time, e⟩ := x
    rw [List.foldlM_cons]
    cases e with
    | noteOn c p v =>
      simp only [chStep, MidiReader.channelLoop, runModel_get, Option.isSome_map, pure_bind]
      by_cases hg : (Dict.get Z p).isSome = true
      · simp only [hg, if_true]; exact ih _ _
      · simp only [hg]; rw [runModel_set Z p time c v]; exact ih _ _
    | noteOff c p v =>
      simp only [chStep, MidiReader.channelLoop, runModel_get]
      cases hg : Dict.get Z p with
      | none => exact ih _ _
      | some y =>
        obtain ⟨nb, c', ov⟩ := y
        simp only [Option.map_some, runModel_del, bind_assoc, pure_bind, ih]
        simp only [bind, Except.bind, Except.map]
        repeat' (split <;> try rfl)
    | _ => exact ih _ _

/-- The variables of the loop over the events of a channel. -/
def chEnv (d n : Nat) (sv : Val) (q g t dt : Int) (time : Int) (e : Event) (res : Nat) (ch : Int) (evs : Nat) (s : Melodia.Signature)
    (a rn : Nat) (Y : List (String × Val)) : Env :=
  ptEnv d n sv (.int q) g t (("delta_time", .int dt) :: ("absolute_time", .int time) :: ("event", eventVal e) :: ("result", .ref res) ::
    ("channel", .int ch) :: ("events", .ref evs) :: ("signature", sigV s) :: ("track", .ref a) :: ("running_notes", .ref rn) :: Y)

/-- The variables of a finished note. -/
inductive NoteVars : List (String × Val) → Prop
  | none : NoteVars []
  | some (nb : Int) (c p v : Nat) (t : Int) (dn dd : Int) (x : PyFloat) (pn pd : Int) :
      NoteVars [("note_beginning", .int nb), ("note_on", .obj "_EventNoteON" [("channel", .int c), ("pitch", .int p), ("velocity", .int v)]),
        ("tone", .obj "Tone" [("_pitch", .int t)]), ("duration", .obj "Signature" [("_nominator", .int dn), ("_denominator", .int dd)]),
        ("velocity", .float x), ("position", .obj "Signature" [("_nominator", .int pn), ("_denominator", .int pd)])]

/-- The state of the loop over the events of a channel. -/
structure ChState (H0 : Heap) (a l0 rn : Nat) (s : Melodia.Track × Sounding) (H : Heap) : Prop where
  track : ∃ l, TrackAt H a l s.1 ∧ rn ≠ l ∧ (l = l0 ∨ H0.objs.length ≤ l)
  wf : s.1.WF
  dict : H.objs[rn]? = some (.dict (runDict s.2) false)
  frame : Frame (fun b => b = a ∨ b = l0 ∨ b = rn) H0 H
  vel : ∀ x ∈ s.2, x.2.2.2 < 256

@[py] theorem midi_name_Note : globalName program W "melodia.io.midi" "Note" = pure (.cls "Note") := by
  rw [globalName]; rfl

/-- `key in d`. -/
theorem contains_dict {k : Int} {b : Nat} {xs : List (Val × Val)} {dd : Bool} {h : Heap} (hb : h.objs[b]? = some (.dict xs dd)) :
    contains program W (.int k) (.ref b) h = some (.ok (dictGet xs (.int k)).isSome h) := by
  rw [contains.eq_def]
  pyrun [dictHas, hb]

theorem in_dict {k : Int} {b : Nat} {xs : List (Val × Val)} {dd : Bool} {h : Heap} (hb : h.objs[b]? = some (.dict xs dd)) :
    compareOp program W .isIn (.int k) (.ref b) h = some (.ok (.bool (dictGet xs (.int k)).isSome) h) := by
  rw [compareOp.eq_def]
  exact bind_ok (contains_dict W hb)

theorem notIn_dict {k : Int} {b : Nat} {xs : List (Val × Val)} {dd : Bool} {h : Heap} (hb : h.objs[b]? = some (.dict xs dd)) :
    compareOp program W .notIn (.int k) (.ref b) h = some (.ok (.bool !(dictGet xs (.int k)).isSome) h) := by
  rw [compareOp.eq_def]
  exact bind_ok (contains_dict W hb)

theorem ch_on {m : MidiReader} {c : Val} {d n : Nat} {q g t dt : Int} {res evs a rn : Nat} {ch : Int} {s : Melodia.Signature} {H0 : Heap} {l0 : Nat}
    {tr : Melodia.Track} {Z : Sounding} {H : Heap} (hs : ChState H0 a l0 rn (tr, Z) H) {Y : List (String × Val)} (hY : NoteVars Y)
    (time : Int) (e : Event) (he : ∀ c p v, e = .noteOn c p v → v < 256) (hm : ∀ c p v, e ≠ .noteOff c p v) :
    Ends (execB program W ptChannel (chEnv d n (readerV m c) q g t dt time e res ch evs s a rn Y) H) (@chStep W.digits m q (tr, Z) (time, e))
      (fun s' => GoesOn (fun env' H' => (∃ Y', NoteVars Y' ∧ env' = chEnv d n (readerV m c) q g t dt time e res ch evs s a rn Y') ∧
        ChState H0 a l0 rn s' H')) (Frame (fun b => b = a ∨ b = l0 ∨ b = rn) H0) := by
  have hs' := hs
  obtain ⟨⟨l, h1, h2, h3⟩, h4, h5, h6, h7⟩ := hs
  dsimp only at h1 h4 h5 h7
  cases e with
  | noteOff c p v => exact absurd rfl (hm c p v)
  | noteOn c' p v =>
    cases hg : Dict.get Z p with
    | some y =>
      have hx : execB program W ptChannel (chEnv d n (readerV m c) q g t dt time (.noteOn c' p v) res ch evs s a rn Y) H =
          some (.ok (.cont (chEnv d n (readerV m c) q g t dt time (.noteOn c' p v) res ch evs s a rn Y)) H) := by
        cases hY <;> pyrun [ptChannel, chEnv, ptEnv, eventVal, h5, in_dict W h5, runDict_get, hg]
      simp only [chStep, hg, Option.isSome_some, if_true]
      exact ⟨_, _, hx, _, .inr rfl, ⟨Y, hY, rfl⟩, hs'⟩
    | none =>
      have hset := runDict_set Z p time c' v
      simp only [eventVal] at hset
      have hx : execB program W ptChannel (chEnv d n (readerV m c) q g t dt time (.noteOn c' p v) res ch evs s a rn Y) H =
          some (.ok (.cont (chEnv d n (readerV m c) q g t dt time (.noteOn c' p v) res ch evs s a rn Y))
            (H.put rn (.dict (runDict (Z.set p (time, c', v))) false))) := by
        cases hY <;> pyrun [ptChannel, chEnv, ptEnv, eventVal, h5, in_dict W h5, runDict_get, hg, hset]
      simp only [chStep, hg, Option.isSome_none]
      refine ⟨_, _, hx, _, .inr rfl, ⟨Y, hY, rfl⟩, ?_⟩
      have hra : rn ≠ a := by
        rintro rfl
        have := h5.symm.trans h1.obj
        simp at this
      refine ⟨⟨l, ⟨?_, ?_⟩, h2, h3⟩, h4, Heap.put_at h5, h6.trans (Frame.put _ _ _) (fun _ h => h) (by rintro b - rfl; simp), ?_⟩
      · rw [Heap.put_ne (Ne.symm hra)]; exact h1.obj
      · rw [Heap.put_ne (Ne.symm h2)]; exact h1.list
      · intro x hx
        rcases Dict.mem_set hx with hx | rfl
        · exact h7 _ hx
        · exact he c' p v rfl
  | _ =>
    refine ⟨_, H, ?_, _, .inl rfl, ⟨Y, hY, rfl⟩, hs'⟩
    cases hY <;> pyrun [ptChannel, chEnv, ptEnv, eventVal]

theorem mem_del {Z : Sounding} {p : Nat} {x : Nat × (Int × Nat × Nat)} (hx : x ∈ Z.del p) : x ∈ Z := by
  induction Z with
  | nil => exact hx
  | cons y Z ih =>
    rw [Dict.del] at hx
    split at hx
    · exact List.mem_cons_of_mem _ hx
    · rcases List.mem_cons.mp hx with h | h
      · exact h ▸ List.mem_cons_self ..
      · exact List.mem_cons_of_mem _ (ih h)

@[py] theorem readerV_pitch (m : MidiReader) (c : Val) : getAttr program W (readerV m c) "_pitch_to_tone" = pure (.meth (readerV m c) "_pitch_to_tone") :=
  readerV_meth W m c (by decide) (by decide) (by decide) reader_pitch_to_tone (by decide)
@[py] theorem readerV_time (m : MidiReader) (c : Val) :
    getAttr program W (readerV m c) "_time_to_signature" = pure (.meth (readerV m c) "_time_to_signature") :=
  readerV_meth W m c (by decide) (by decide) (by decide) reader_time_to_signature (by decide)

theorem timeToSignature_valid {t q : Int} {s : Melodia.Signature} (h : MidiReader.timeToSignature t q = .ok s) : s.Valid := by
  unfold MidiReader.timeToSignature at h
  split at h
  · exact absurd h (by simp)
  · cases h1 : Signature.new (pyFloorDiv (t * 4096) q) (4 * 4096) with
    | error e => rw [h1] at h; exact absurd h (by simp [bind, Except.bind])
    | ok u =>
      rw [h1] at h
      obtain ⟨rfl, h2, h3⟩ := Signature.new_eq_ok_iff.mp h1
      obtain ⟨r, g1, g2, -⟩ := Signature.normalized_spec ⟨h2, h3⟩
      have : r = s := Except.ok.inj (g1.symm.trans h)
      exact this ▸ g2

theorem ch_off {m : MidiReader} {c : Val} {d n : Nat} {q g t dt : Int} {res evs a rn : Nat} {ch : Int} {s : Melodia.Signature} {H0 : Heap} {l0 : Nat}
    {tr : Melodia.Track} {Z : Sounding} {H : Heap} (hs : ChState H0 a l0 rn (tr, Z) H) {Y : List (String × Val)} (hY : NoteVars Y)
    (time : Int) (c' p v : Nat) :
    Ends (execB program W ptChannel (chEnv d n (readerV m c) q g t dt time (.noteOff c' p v) res ch evs s a rn Y) H) (@chStep W.digits m q (tr, Z) (time, .noteOff c' p v))
      (fun s' => GoesOn (fun env' H' => (∃ Y', NoteVars Y' ∧ env' = chEnv d n (readerV m c) q g t dt time (.noteOff c' p v) res ch evs s a rn Y') ∧
        ChState H0 a l0 rn s' H')) (Frame (fun b => b = a ∨ b = l0 ∨ b = rn) H0) := by
  have hs' := hs
  obtain ⟨⟨l, h1, h2, h3⟩, h4, h5, h6, h7⟩ := hs
  dsimp only at h1 h4 h5 h7
  cases hg : Dict.get Z p with
  | none =>
    have hx : execB program W ptChannel (chEnv d n (readerV m c) q g t dt time (.noteOff c' p v) res ch evs s a rn Y) H =
        some (.ok (.cont (chEnv d n (readerV m c) q g t dt time (.noteOff c' p v) res ch evs s a rn Y)) H) := by
      cases hY <;> pyrun [ptChannel, chEnv, ptEnv, eventVal, h5, notIn_dict W h5, runDict_get, hg]
    simp only [chStep, hg]
    exact ⟨_, _, hx, _, .inr rfl, ⟨Y, hY, rfl⟩, hs'⟩
  | some y =>
    obtain ⟨nb, c2, v2⟩ := y
    have hv2 : v2 < 256 := h7 _ (Dict.mem_of_get hg)
    have hdel := runDict_del Z p
    have hra : rn ≠ a := by
      rintro rfl
      have := h5.symm.trans h1.obj
      simp at this
    have hfr : Frame (fun b => b = a ∨ b = l0 ∨ b = rn) H0 (H.put rn (.dict (runDict (Z.del p)) false)) :=
      h6.trans (Frame.put _ _ _) (fun _ h => h) (by rintro b - rfl; simp)
    have hf : floatOp W .div (.fin (fl v2)) (.fin 127) = pure (.float (.fin (fl ((v2 : ℚ) / 127)))) := by
      have : fl (v2 : ℚ) = v2 := fl_nat (by omega)
      simp [floatOp, floatDiv, this, py]
    have hvel : (PyFloat.fin 0).max ((PyFloat.fin 1).min (.fin (fl ((v2 : ℚ) / 127)))) = MidiReader.velocityOf v2 := rfl
    simp only [chStep, hg]
    cases htone : m.pitchToTone p with
    | error e => exact absurd htone (by simp [MidiReader.pitchToTone, Tone.new])
    | ok tone =>
    cases hdu : MidiReader.timeToSignature (time - nb) q with
    | error e =>
      have hx : execB program W ptChannel (chEnv d n (readerV m c) q g t dt time (.noteOff c' p v) res ch evs s a rn Y) H =
        some (.err e (H.put rn (.dict (runDict (Z.del p)) false))) := by
        cases hY <;> pyrun [ptChannel, chEnv, ptEnv, eventVal, h5, notIn_dict W h5, runDict_get, hg, htone, hdu, hdel,Except.map]
      exact ⟨_, hx, hfr⟩
    | ok du =>
    have hdv := timeToSignature_valid hdu
    cases hpo : MidiReader.timeToSignature nb q with
    | error e =>
      have hx : execB program W ptChannel (chEnv d n (readerV m c) q g t dt time (.noteOff c' p v) res ch evs s a rn Y) H =
        some (.err e (H.put rn (.dict (runDict (Z.del p)) false))) := by
        cases hY <;> pyrun [ptChannel, chEnv, ptEnv, eventVal, h5, notIn_dict W h5, runDict_get, hg, htone, hdu, hdel,Except.map, hpo, hf, hvel]
      exact ⟨_, hx, hfr⟩
    | ok po =>
    have hpv := timeToSignature_valid hpo
    have ho : (H.put rn (.dict (runDict (Z.del p)) false)).objs[a]? = H.objs[a]? := Heap.put_ne (Ne.symm hra)
    have ht1 : TrackAt (H.put rn (.dict (runDict (Z.del p)) false)) a l tr := by
      refine ⟨?_, ?_⟩
      · rw [ho]; exact h1.obj
      · rw [Heap.put_ne (Ne.symm h2)]; exact h1.list
    have hattr := getAttr_ref_meth program W ht1.obj (x := "add") rfl (by simp) track_add (by decide)
    have hnn := note_new W (.tone tone) (.sig du) (MidiReader.velocityOf v2)
    cases hn : @Melodia.Note.new W.digits (.tone tone) (.sig du) (MidiReader.velocityOf v2) with
    | error e =>
      have hx : execB program W ptChannel (chEnv d n (readerV m c) q g t dt time (.noteOff c' p v) res ch evs s a rn Y) H =
        some (.err e (H.put rn (.dict (runDict (Z.del p)) false))) := by
        cases hY <;> pyrun [ptChannel, chEnv, ptEnv, eventVal, h5, notIn_dict W h5, runDict_get, hg, htone, hdu, hdel,Except.map, hpo, hf, hvel, hn, hnn, ↓hattr]
      have hm : (do
          let tone ← (Except.ok tone : PyM _)
          let duration ← (Except.ok du : PyM _)
          let position ← (Except.ok po : PyM _)
          let note ← @Melodia.Note.new W.digits (.tone tone) (.sig duration) (MidiReader.velocityOf v2)
          let track ← tr.add (.note note) (some (.sig position))
          pure (track, Dict.del Z p)) = (.error e : PyM _) := by
        simp [hn, bind, Except.bind]
      rw [hm]
      exact ⟨_, hx, hfr⟩
    | ok no =>
    have hnv : no.Valid := by
      let _ := W.digits
      obtain ⟨g1, g2, g3, g4, g5⟩ := Note.new_ok_iff.mp hn
      have hd : du = no.duration := Except.ok.inj g2
      exact ⟨hd ▸ hdv, g4, g5⟩
    obtain ⟨H', l', t', g1, g2, g3, g4⟩ := add_run W ht1 h4 (what := .note no) (by simpa [What.Valid, What.notes] using hnv) (v := noteV no) rfl
      (pos := some (.sig po)) (by rintro s ⟨⟩; exact hpv) (w := sigV po) (.arg _ _ (by simp [sigV]) (.sig _)) (p := po) rfl
      (args := [.ref a, noteV no, sigV po]) (kws := []) (by simp [py, Track.add])
    have hdec : Track.add.deco = .plain := rfl
    have hobj := ht1.obj
    have hx : execB program W ptChannel (chEnv d n (readerV m c) q g t dt time (.noteOff c' p v) res ch evs s a rn Y) H =
        some (.ok (.cont (chEnv d n (readerV m c) q g t dt time (.noteOff c' p v) res ch evs s a rn
          [("note_beginning", .int nb), ("note_on", eventVal (.noteOn c2 p v2)), ("tone", toneV tone), ("duration", sigV du),
            ("velocity", .float (MidiReader.velocityOf v2)), ("position", sigV po)])) H') := by
      cases hY <;> pyrun [ptChannel, chEnv, ptEnv, eventVal, h5, notIn_dict W h5, runDict_get, hg, htone, hdu, hdel,Except.map, hpo, hf, hvel, hn, hnn, ↓hattr, g3, hobj, track_add, hdec]
    have hm : (do
        let tone ← (Except.ok tone : PyM _)
        let duration ← (Except.ok du : PyM _)
        let position ← (Except.ok po : PyM _)
        let note ← @Melodia.Note.new W.digits (.tone tone) (.sig duration) (MidiReader.velocityOf v2)
        let track ← tr.add (.note note) (some (.sig position))
        pure (track, Dict.del Z p)) = (.ok (t', Dict.del Z p) : PyM _) := by
      simp [hn, g1, bind, Except.bind, pure, Except.pure]
    rw [hm]
    refine ⟨_, _, hx, _, .inr rfl, ⟨_, .some nb c2 p v2 _ _ _ _ _ _, rfl⟩, ⟨l', g4.track, ?_, ?_⟩, g2, ?_, ?_, ?_⟩
    · rcases g4.addr with h | h
      · rw [h]; exact h2
      · have h8 := lt_of_at h5
        have h9 := (Frame.put H rn (.dict (runDict (Z.del p)) false)).len
        omega
    · have h9 := hfr.len
      rcases g4.addr with h | h
      · rw [h]; exact h3
      · exact .inr (by omega)
    · exact g4.frame.at (Heap.put_at h5) (by rintro (h | h); exacts [hra h, h2 h])
    · refine hfr.trans g4.frame (fun _ h => h) ?_
      rintro b hb (rfl | rfl)
      · exact .inl rfl
      · rcases h3 with h | h
        · exact .inr (.inl h)
        · omega
    · exact fun x hx => h7 x (mem_del hx)
end Source
end Melodia
