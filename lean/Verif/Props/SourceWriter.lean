/-
C96: the text of the writer in midi.py, executed by the meaning of Python.
-/
import Verif.Lemmas.SourceWriterUser
import Verif.Props.MidiWrite
import Verif.Props.MidiConfig
import Verif.Props.SourceTrack

set_option autoImplicit false

namespace Melodia

open Melodia.Python Melodia.Source

variable (W : World)

theorem IsMiddleC.text {c : Val} (hc : IsMiddleC c) : HasText W c := by
  cases hc with
  | tone t => exact text_of_tone W t
  | int i => exact text_of_int W i
  | str s => exact text_of_str W s

/-- C96 (constructor): `MIDIWriter(...)`, with any of the options given by keyword or all by position, makes a writer with the
given settings exactly if 1 ≤ pulses_per_quarter ≤ 32767, 0 ≤ channel ≤ 15 and middle_c denotes a tone; otherwise ValueError is
raised, or TypeError if the numbers are in their ranges and middle_c is no Tone, int or str. Memory is left as it was. -/
theorem C96_constructor {ta : ToneArg} {c : Val} (ht : IsToneArg ta c) (ppq ch : Int) {x : PyFloat} {b : Val} (hx : IsBpm x b)
    {vars : List (String × Val)} {e : Expr} (hc : WriterCall (.int ppq) c b (.int ch) vars e) :
    (∀ p, 1 ≤ ppq → ppq ≤ 32767 → 0 ≤ ch → ch ≤ 15 → @ToneDenotes W.digits ta p →
      ∃ v, Gives W vars e v ∧ IsWriter ⟨ppq, 4 * ppq, 60 - p, x, ch⟩ v) ∧
    (¬ (1 ≤ ppq ∧ ppq ≤ 32767 ∧ 0 ≤ ch ∧ ch ≤ 15) → Raises W vars e .valueError) ∧
    (1 ≤ ppq → ppq ≤ 32767 → 0 ≤ ch → ch ≤ 15 → (∀ p, ¬ @ToneDenotes W.digits ta p) →
      Raises W vars e (if ta = .other then .typeError else .valueError)) := by
  let _ := W.digits
  have hu := user_writer W ht ppq ch hx hc
  refine ⟨?_, ?_, ?_⟩
  · intro p h1 h2 h3 h4 hd
    refine ⟨_, ?_, ⟨h1, h2, rfl, h3, h4⟩, (c, b), ?_, hx, rfl⟩
    · rw [Gives, hu, Writer.new, if_neg (by simp [h1, h2]), if_neg (by simp [h3, h4]), middleCDeltaOf_ok_iff.mpr ⟨p, hd, rfl⟩]
      rw [show (4 * ppq : ℤ) = ppq * 4 from mul_comm _ _]
      rfl
    · cases hd with
      | tone t => cases ht; exact .tone t
      | int => cases ht; exact .int _
      | str s => cases ht; exact .str s
  · intro hn
    rw [Raises, hu, Writer.new]
    by_cases h1 : 1 ≤ ppq ∧ ppq ≤ 32767
    · have h2 : ¬ (0 ≤ ch ∧ ch ≤ 15) := fun h2 => hn ⟨h1.1, h1.2, h2.1, h2.2⟩
      rw [if_neg (by simp [h1]), if_pos (by simp; omega)]
      rfl
    · rw [if_pos (by simp; omega)]
      rfl
  · intro h1 h2 h3 h4 hno
    rw [Raises, hu, Writer.new, if_neg (by simp [h1, h2]), if_neg (by simp [h3, h4])]
    rcases hd : middleCDeltaOf ta with e | d
    · rw [← middleCDeltaOf_error hd]; rfl
    · obtain ⟨p, hp, -⟩ := middleCDeltaOf_ok_iff.mp hd
      exact absurd hp (hno p)

/-- C96 (refinement): `w.dumps(t)` does what the model of the writer says: the same bytes or the same exception, and the track
is left as by an iteration. Nothing but the track is changed. -/
theorem C96_refines (hN : W.sort.Natural) {w : Writer} {v : Val} (hv : IsWriter w v) {h : Heap} {a l : Nat} {t : Track}
    (ht : TrackAt h a l t) (hr : t.Reachable W.sort) :
    ∃ h', userEval W [("w", v), ("t", .ref a)] (methE "w" "dumps" ["t"]) h =
        some (match w.dumps W.sort t with | .ok b => .ok (.bytes b) h' | .error e => .err e h') ∧
      Becomes h h' a l l (t.iter W.sort).1 := by
  obtain ⟨hw, c, hc, hx, rfl⟩ := hv
  obtain ⟨h', g1, g2⟩ := dumps_run W hN hw (hc.text W) hx ht hr.wf
  exact ⟨h', (user_writer_call W w c writer_dumps (.inr rfl) rfl [("t", .ref a)] (by simp [Dict.get, readVar]) h).trans g1, g2⟩

/-- C96 (refinement): `w.dump(t, f)` for a file `f` at its end: what is appended and whether an exception is raised is what
the model of the writer says. Nothing but the track and the file is changed. -/
theorem C96_refines_file (hN : W.sort.Natural) {w : Writer} {v : Val} (hv : IsWriter w v) {h : Heap} {a l f : Nat} {t : Track}
    (ht : TrackAt h a l t) (hr : t.Reachable W.sort) {content : Bytes} (hf : FileAt h f content) :
    ∃ h', userEval W [("w", v), ("t", .ref a), ("f", .ref f)] (methE "w" "dump" ["t", "f"]) h =
        some (match (w.dump W.sort t content).2.2 with | .ok _ => .ok .none h' | .error e => .err e h') ∧
      Dumping h h' a l f (w.dump W.sort t content).1 (w.dump W.sort t content).2.1 := by
  obtain ⟨hw, c, hc, hx, rfl⟩ := hv
  obtain ⟨h', g1, g2⟩ := dump_run W hN hw (hc.text W) hx ht hr.wf hf
  exact ⟨h', (user_writer_call W w c writer_dump (.inl rfl) rfl [("t", .ref a), ("f", .ref f)]
    (by simp [Dict.get, readVar]) h).trans g1, g2⟩

/-- The bytes are a Standard MIDI File with one track: the time signature, the tempo, the messages of the notes in ascending
order of time, every note with note-on and note-off at its times, and the end of the track. -/
def FileOf (S : ListSort) (w : Writer) (t : Track) (bytes : Bytes) : Prop :=
  ∃ (nn dd tempo : Nat) (notes : List (Nat × Msg)),
    IsSmf w.ppq.toNat ([(0, .timeSignature nn dd w.ppq.toNat 8), (0, .tempo tempo)] ++ notes ++ [(0, .endOfTrack)]) bytes ∧
    t.signature = ⟨nn, 2 ^ dd⟩ ∧ TempoIs w.bpm tempo ∧ Arranged w (t.items S) (absoluteTimes 0 notes) ∧
    (absoluteTimes 0 notes).Pairwise (fun a b => a.1 ≤ b.1)

theorem fileOf_dumps {S : ListSort} {w : Writer} (hw : w.Valid) {t : Track} (ht : t.Reachable S) {bytes : Bytes}
    (h : w.dumps S t = .ok bytes) : FileOf S w t bytes := by
  have hwf := ht.wf
  obtain ⟨hp, hf, hq, tempo, hb, hl, rfl⟩ := Writer.dumps_success hw hwf h
  have hv := Track.items_valid S hwf
  have habs := Writer.absoluteTimes_deltaMsgs (Writer.sortedMsgs w (t.items S)) 0
    (Writer.sortedMsgs_sorted w _) (fun _ _ => Nat.zero_le _)
  refine ⟨t.signature.nominator.toNat, Writer.log2Den t.signature, tempo,
    Writer.deltaMsgs 0 (Writer.sortedMsgs w (t.items S)),
    Writer.isSmf_of hw (Writer.msgs_inRange hw hwf.sig hv hp hf hq hb) hl, ?_, hb.1, ?_, ?_⟩
  · have h1 := (Writer.log2Den_spec hwf.sig).1
    have h2 := hwf.sig.nom
    cases hs : t.signature with
    | mk n d =>
      rw [hs] at h1 h2
      simp only [Signature.mk.injEq]
      exact ⟨(Int.toNat_of_nonneg h2).symm, h1⟩
  · rw [habs]; exact Writer.arranged_sortedMsgs w _
  · rw [habs]; exact Writer.sortedMsgs_sorted w _

/-- What can be written: the tones, the signature, the resolution and the tempo fit the bytes of their messages. -/
def FitsFile (w : Writer) (t : Track) : Prop :=
  TonesFit w t ∧ SignatureFits t.signature ∧ w.ppq ≤ 255 ∧ ∃ tempo, TempoFits w.bpm tempo

/-- C96 (`dumps`): if everything fits, `w.dumps(t)` returns a Standard MIDI File with the signature, the tempo and exactly the
notes of the track (or raises OverflowError because it would be longer than the format allows). If something does not fit,
ValueError, ZeroDivisionError or OverflowError is raised. In all cases the signature, the length and the notes of the track
stay, and nothing but the track is changed. -/
theorem C96_dumps (hN : W.sort.Natural) {w : Writer} {v : Val} (hv : IsWriter w v) {h : Heap} {a l : Nat} {t : Track}
    (ht : TrackAt h a l t) (hr : t.Reachable W.sort) :
    ∃ h' t', Becomes h h' a l l t' ∧ t'.Reachable W.sort ∧ t'.signature = t.signature ∧ t'.length = t.length ∧
      t'.contents = t.contents ∧
      (FitsFile w t → (∃ bytes, userEval W [("w", v), ("t", .ref a)] (methE "w" "dumps" ["t"]) h = some (.ok (.bytes bytes) h') ∧
          FileOf W.sort w t bytes) ∨
        (BodyTooLong W.sort w t ∧
          userEval W [("w", v), ("t", .ref a)] (methE "w" "dumps" ["t"]) h = some (.err .overflowError h'))) ∧
      (¬ FitsFile w t → ∃ e, userEval W [("w", v), ("t", .ref a)] (methE "w" "dumps" ["t"]) h = some (.err e h') ∧
        (e = .valueError ↔ ¬ TonesFit w t ∨ (SignatureFits t.signature ∧ w.ppq ≤ 255 ∧ w.bpm = .nan)) ∧
        (e = .zeroDivisionError ↔ TonesFit w t ∧ SignatureFits t.signature ∧ w.ppq ≤ 255 ∧ w.bpm = .fin 0) ∧
        (e = .valueError ∨ e = .zeroDivisionError ∨ e = .overflowError)) := by
  obtain ⟨h', g1, g2⟩ := C96_refines W hN hv ht hr
  have hw := hv.1
  obtain ⟨c1, c2, c3, c4⟩ := Writer.dumps_cases W.sort hw hr.wf
  have hrun := reachable_run hr [.iterate] (by simp [TrackOp.Valid])
  have hstay : (t.iter W.sort).1.signature = t.signature ∧ (t.iter W.sort).1.length = t.length ∧
      (t.iter W.sort).1.contents = t.contents := by
    obtain ⟨sig, ops, hsig, hops, rfl⟩ := hr
    refine ⟨?_, ?_, ?_⟩
    · unfold Track.iter; split <;> rfl
    · unfold Track.iter; split <;> rfl
    · rw [← Track.items_placed W.sort, ← Track.items_placed W.sort ((Track.empty sig).run W.sort ops)]
      exact congrArg (fun l : List Entry => ((l.map Entry.placed : List (ℚ × Note)) : Multiset (ℚ × Note)))
        (C21_observation_partial W.sort sig hsig ops hops).2.2.2.2.2
  refine ⟨h', _, g2, hrun, hstay.1, hstay.2.1, hstay.2.2, ?_, ?_⟩
  · rintro ⟨w1, w2, w3, w4⟩
    rcases c4 w1 w2 w3 w4 with ⟨b, hb⟩ | ⟨hb, hl⟩
    · rw [hb] at g1
      exact .inl ⟨b, g1, fileOf_dumps hw hr hb⟩
    · rw [hb] at g1
      exact .inr ⟨hl, g1⟩
  · intro hn
    have herr : ∃ e, w.dumps W.sort t = .error e := by
      by_cases w1 : TonesFit w t
      · by_cases w2 : SignatureFits t.signature ∧ w.ppq ≤ 255
        · exact ⟨_, c3 w1 w2.1 w2.2 (fun w4 => hn ⟨w1, w2.1, w2.2, w4⟩)⟩
        · exact ⟨_, c2 w1 w2⟩
      · exact ⟨_, c1 w1⟩
    obtain ⟨e, he⟩ := herr
    have k1 := C37_valueError W.sort w hw t hr
    have k2 := C37_zeroDivision W.sort w hw t hr
    have k3 := C37_overflow W.sort w hw t hr e he
    rw [he] at g1 k1 k2
    simp only [Except.error.injEq] at k1 k2
    refine ⟨e, g1, k1, k2, ?_⟩
    rcases k3 with k | k | ⟨k, -⟩
    · exact .inl k
    · exact .inr (.inl k)
    · exact .inr (.inr k)

theorem dump_content (S : ListSort) (w : Writer) (t : Track) (content : Bytes) :
    w.dump S t content = ((t.iter S).1, content ++ (w.dump S t []).2.1, (w.dump S t []).2.2) := by
  unfold Writer.dump
  simp only
  split
  · simp
  · split
    · simp
    · split
      · simp
      · split <;> simp

/-- C96 (`dump`): `w.dump(t, f)` appends to the file exactly the bytes `w.dumps(t)` would return, and returns None; if `dumps`
would raise an exception so does `dump`, and then the file is unchanged unless the track is longer than the format allows.
Nothing but the track and the file is changed. -/
theorem C96_dump (hN : W.sort.Natural) {w : Writer} {v : Val} (hv : IsWriter w v) {h : Heap} {a l f : Nat} {t : Track}
    (ht : TrackAt h a l t) (hr : t.Reachable W.sort) {content : Bytes} (hf : FileAt h f content) :
    ∃ h1 h' content', Dumping h h' a l f (t.iter W.sort).1 content' ∧
      ((∃ bytes, userEval W [("w", v), ("t", .ref a)] (methE "w" "dumps" ["t"]) h = some (.ok (.bytes bytes) h1) ∧
          FileOf W.sort w t bytes ∧ content' = content ++ bytes ∧
          userEval W [("w", v), ("t", .ref a), ("f", .ref f)] (methE "w" "dump" ["t", "f"]) h = some (.ok .none h')) ∨
        ∃ e, userEval W [("w", v), ("t", .ref a)] (methE "w" "dumps" ["t"]) h = some (.err e h1) ∧
          userEval W [("w", v), ("t", .ref a), ("f", .ref f)] (methE "w" "dump" ["t", "f"]) h = some (.err e h') ∧
          (content' = content ∨ (BodyTooLong W.sort w t ∧ e = .overflowError))) := by
  obtain ⟨h1, g1, -⟩ := C96_refines W hN hv ht hr
  obtain ⟨h', g2, g3⟩ := C96_refines_file W hN hv ht hr hf
  rw [dump_content] at g2 g3
  refine ⟨h1, h', content ++ (w.dump W.sort t []).2.1, g3, ?_⟩
  have hd : w.dumps W.sort t = match w.dump W.sort t [] with | (_, file, .ok ()) => .ok file | (_, _, .error e) => .error e := rfl
  rcases hx : w.dump W.sort t [] with ⟨t', b, e | u⟩
  · rw [hx] at hd g2
    rw [hd] at g1
    refine .inr ⟨e, g1, g2, ?_⟩
    rcases C37_atomic W.sort w hv.1 t hr [] b t' e hx with rfl | ⟨k1, k2, -⟩
    · exact .inl (by simp)
    · exact .inr ⟨k1, k2⟩
  · rw [hx] at hd g2
    rw [hd] at g1
    exact .inl ⟨b, g1, fileOf_dumps hv.1 hr hd, rfl, g2⟩

/-- C96 (whole programs): make a track with `Track(s)`, evaluate any sequence of operations on it, make a writer with
`MIDIWriter(...)` in any form and call `w.dumps(t)`. If the settings are in their ranges and every note that was added, the
signature and the tempo fit, the result is a Standard MIDI File with this signature, this tempo, and for every note that was
added exactly one note-on and one note-off message, at its times; or the file would be longer than the format allows. No
object that existed before is changed. -/
theorem C96_program (hN : W.sort.Natural) (h : Heap) {s : SigArg} (hsv : s.Valid) {v : Val} (hs : IsSigArg s v)
    {sig : Signature} (hsig : SigDenotes s sig) (ops : List TrackOp) (hops : ∀ o ∈ ops, o.Valid)
    {steps : List (List (String × Val) × Expr)}
    (hsteps : List.Forall₂ (fun o x => Performs h h.objs.length h.objs.length o x.1 x.2) ops steps)
    {ta : ToneArg} {c : Val} (ht : IsToneArg ta c) {ppq ch p : Int} {x : PyFloat} {b : Val} (hx : IsBpm x b)
    {vars : List (String × Val)} {e : Expr} (hc : WriterCall (.int ppq) c b (.int ch) vars e) (hq1 : 1 ≤ ppq) (hq2 : ppq ≤ 255) (hc1 : 0 ≤ ch)
    (hc2 : ch ≤ 15) (hp : @ToneDenotes W.digits ta p) (htempo : ∃ tempo, TempoFits x tempo) (hfit : SignatureFits sig)
    {m : Multiset (ℚ × Note)} (hm : PlacedBy W.sort (Track.empty sig) ops m)
    (hnotes : ∀ n ∈ m, 0 ≤ n.2.tone.pitch + (60 - p) ∧ n.2.tone.pitch + (60 - p) ≤ 127) :
    ∃ (h0 h1 h2 : Heap) (u : Val) (l : Nat) (t : Track),
      userEval W [("s", v)] (callE "Track" ["s"]) h = some (.ok (.ref h.objs.length) h0) ∧ session W steps h0 = some h1 ∧
      TrackAt h1 h.objs.length l t ∧ t.contents = m ∧ t.signature = sig ∧ userEval W vars e h1 = some (.ok u h1) ∧
      ((∃ bytes, userEval W [("w", u), ("t", .ref h.objs.length)] (methE "w" "dumps" ["t"]) h1 = some (.ok (.bytes bytes) h2) ∧
          FileOf W.sort ⟨ppq, 4 * ppq, 60 - p, x, ch⟩ t bytes) ∨
        (BodyTooLong W.sort ⟨ppq, 4 * ppq, 60 - p, x, ch⟩ t ∧
          userEval W [("w", u), ("t", .ref h.objs.length)] (methE "w" "dumps" ["t"]) h1 = some (.err .overflowError h2))) ∧
      Frame (fun _ => False) h h2 := by
  have hval := denotes_valid hsv hsig
  obtain ⟨h0, l0, b1, b2, b3, b4, b5⟩ := (track_new_run W (h := h) (l0 := 0) hs hsv (content := []) (by simp) (.inl ⟨rfl, rfl⟩)
    (args := [v]) (kws := []) (by simp [py, Track.dunder_init])).1 (Track.empty sig) (by
      unfold Track.new; rw [SigArg.coerce_ok_iff.mpr hsig]; rfl)
  have hu : userEval W [("s", v)] (callE "Track" ["s"]) h = some (.ok (.ref h.objs.length) h0) := by
    refine (evalE_call program W (es := [.name "s"]) (evalE_name program W (v := .cls "Track") (by rfl) rfl h)
      (evalArgs_cons _ _ (by simp) (evalE_name _ _ (by rfl) (readVar_sigArg hs) _) (evalArgs_nil _ _ _ _))).trans ?_
    rw [call.eq_def]
    exact b1
  obtain ⟨h1, l1, c1, c2⟩ := session_ok W hN ops b3 b2 hops hsteps
    (fun w v hw => isWhat_mono b4.le (b5.mono (fun _ _ hb => hb.elim)) w v hw)
  have hr : ((Track.empty sig).run W.sort ops).Reachable W.sort := ⟨sig, ops, hval, hops, rfl⟩
  have hcont : ((Track.empty sig).run W.sort ops).contents = m := by
    rw [Track.placedBy_contents W.sort (Track.empty_wf hval) hops hm]
    exact add_zero _
  have hsg : ((Track.empty sig).run W.sort ops).signature = sig := (Track.run_wf W.sort _ (Track.empty_wf hval) hops).2
  obtain ⟨u, hg, hw⟩ := (C96_constructor W ht ppq ch hx hc).1 p hq1 (by omega) hc1 hc2 hp
  obtain ⟨h2, t2, d1, -, -, -, -, d2, -⟩ := C96_dumps W hN hw c2.track hr
  refine ⟨h0, h1, h2, u, l1, _, hu, c1, c2.track, hcont, hsg, by rw [show userEval W vars e = pure u from hg]; rfl,
    d2 ⟨?_, ?_, hq2, htempo⟩, ?_⟩
  · intro n hn
    rw [hcont] at hn
    exact hnotes n hn
  · rw [hsg]; exact hfit
  · have hf := (c2.trans d1).frame
    refine b5.trans hf (fun _ hb => hb) ?_
    rintro c hc (rfl | rfl)
    · exact absurd hc (lt_irrefl _)
    · exact absurd hc (not_lt.mpr b4.le)

/-- `MIDIWriter(channel=3)`: the other settings have their defaults, and the writer is that of the examples for C34. -/
example : ∃ v, Gives W [("channel", .int 3)] (.call (.name "MIDIWriter") [.name "channel"] ["channel"]) v ∧
    IsWriter exWriter v :=
  (C96_constructor W (.tone ⟨36⟩) 96 3 (.float (.fin 120)) (.kw none none none (some (.int 3)))).1 36 (by norm_num) (by norm_num)
    (by norm_num) (by norm_num) (@ToneDenotes.tone W.digits ⟨36⟩)

/-- `MIDIWriter(bpm=90)`, with an int, and `MIDIWriter(bpm=True)`: writers for 90 beats and for 1 beat per minute. -/
example : ∃ v, Gives W [("bpm", .int 90)] (.call (.name "MIDIWriter") [.name "bpm"] ["bpm"]) v ∧
    IsWriter ⟨96, 384, 24, .fin 90, 0⟩ v :=
  (C96_constructor W (.tone ⟨36⟩) 96 0 (.int 90) (.kw none none (some (.int 90)) none)).1 36 (by norm_num) (by norm_num)
    (by norm_num) (by norm_num) (@ToneDenotes.tone W.digits ⟨36⟩)
example : ∃ v, Gives W [("bpm", .bool true)] (.call (.name "MIDIWriter") [.name "bpm"] ["bpm"]) v ∧
    IsWriter ⟨96, 384, 24, .fin 1, 0⟩ v :=
  (C96_constructor W (.tone ⟨36⟩) 96 0 (.bool true) (.kw none none (some (.bool true)) none)).1 36 (by norm_num) (by norm_num)
    (by norm_num) (by norm_num) (@ToneDenotes.tone W.digits ⟨36⟩)

/-- `MIDIWriter(96, None, 120.0, 0)` raises TypeError, `MIDIWriter(channel=16)` ValueError. -/
example : Raises W [("pulses_per_quarter", .int 96), ("middle_c", .none), ("bpm", .float (.fin 120)), ("channel", .int 0)]
    (callE "MIDIWriter" ["pulses_per_quarter", "middle_c", "bpm", "channel"]) .typeError :=
  (C96_constructor W .none 96 0 (.float (.fin 120)) (.all _ _ _ _)).2.2 (by norm_num) (by norm_num) (by norm_num) (by norm_num)
    (by intro p hp; cases hp)
example : Raises W [("channel", .int 16)] (.call (.name "MIDIWriter") [.name "channel"] ["channel"]) .valueError :=
  (C96_constructor W (.tone ⟨36⟩) 96 16 (.float (.fin 120)) (.kw none none none (some (.int 16)))).2.1 (by norm_num)

/-- The track of the examples for C34 in memory, and a file with one byte: `w.dump(t, f)` appends a file with the messages of
its three notes. -/
example (hs : W.sort = cpySort) : ∃ h' bytes,
    userEval W [("w", writerV exWriter (toneV ⟨36⟩, .float (.fin 120))), ("t", .ref 0), ("f", .ref 2)] (methE "w" "dump" ["t", "f"])
      ⟨[.inst "Track" (trackFields exTrack 1), .list (exTrack.heap.map entryV), .file [7] 1], 0⟩ = some (.ok .none h') ∧
    FileAt h' 2 (7 :: bytes) ∧ FileOf cpySort exWriter exTrack bytes := by
  have hr : exTrack.Reachable W.sort := hs ▸ exTrack_reachable
  have hN : W.sort.Natural := hs ▸ cpySort_natural
  obtain ⟨h1, h', content', g1, g2⟩ := C96_dump W hN (w := exWriter) (v := writerV exWriter (toneV ⟨36⟩, .float (.fin 120)))
    ⟨exWriter_valid, _, .tone _, .float _, rfl⟩
    (h := ⟨[.inst "Track" (trackFields exTrack 1), .list (exTrack.heap.map entryV), .file [7] 1], 0⟩) (a := 0) (l := 1) (f := 2)
    (t := exTrack) ⟨rfl, rfl⟩ hr (content := [7]) rfl
  rcases g2 with ⟨bytes, -, k1, k2, k3⟩ | ⟨e, k1, -⟩
  · subst k2
    exact ⟨h', bytes, k3, g1.file, hs ▸ k1⟩
  · exfalso
    obtain ⟨h2, k2, -⟩ := C96_refines W hN (w := exWriter) (v := writerV exWriter (toneV ⟨36⟩, .float (.fin 120)))
      ⟨exWriter_valid, _, .tone _, .float _, rfl⟩
      (h := ⟨[.inst "Track" (trackFields exTrack 1), .list (exTrack.heap.map entryV), .file [7] 1], 0⟩) (a := 0) (l := 1)
      (t := exTrack) ⟨rfl, rfl⟩ hr
    rw [k1, hs] at k2
    have : (match exWriter.dumps cpySort exTrack with | .ok _ => true | .error _ => false) = true := by decide +kernel
    rcases hd : exWriter.dumps cpySort exTrack with x | b
    · rw [hd] at this; cases this
    · rw [hd] at k2; cases k2

end Melodia
