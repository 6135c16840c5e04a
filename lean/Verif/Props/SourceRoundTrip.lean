/-
C99: writing and reading back, both executed from the text of midi.py.
-/
import Verif.Props.SourceReader

set_option autoImplicit false

namespace Melodia

open Melodia.Python Melodia.Source

variable {W : World}

theorem module_writer_new (x : PyFloat) {ch : Int} (h1 : 0 ≤ ch) (h2 : ch ≤ 15) :
    @Writer.new W.digits 96 (.tone ⟨36⟩) x ch = .ok ⟨96, 384, 24, x, ch⟩ := by
  let _ := W.digits
  rw [Writer.new, if_neg (by simp), if_neg (by simp [h1, h2])]
  rfl

/-- C99 (`dumps` of the module): `dumps(t, ...)`, with the options given by position, by keyword or not at all, does what a
writer with 96 pulses per quarter and C3 as middle C does; ValueError if the channel is not one of 0, …, 15. -/
theorem C99_dumps (hN : W.sort.Natural) {h : Heap} {a l : Nat} {t : Track} (ht : TrackAt h a l t) (hr : t.Reachable W.sort)
    {x : PyFloat} {b : Val} (hx : IsBpm x b) {ch : Int} {more : List (String × Val)} {e : Expr}
    (hc : DumpCall "dumps" ["t"] b ch more e) :
    (0 ≤ ch → ch ≤ 15 → ∃ h', userEval W (midiFun "dumps" :: ("t", .ref a) :: more) e h =
        some (match (⟨96, 384, 24, x, ch⟩ : Writer).dumps W.sort t with | .ok b => .ok (.bytes b) h' | .error e => .err e h') ∧
      Becomes h h' a l l (t.iter W.sort).1) ∧
    (¬ (0 ≤ ch ∧ ch ≤ 15) → userEval W (midiFun "dumps" :: ("t", .ref a) :: more) e h = some (.err .valueError h)) := by
  obtain ⟨args, kws, k1, k2⟩ := user_dumps W (a := a) hx hc h
  have hrun := midi_dumps_run W hN ht hr.wf hx ch k2
  rw [k1]
  constructor
  · intro h1 h2
    rw [module_writer_new x h1 h2] at hrun
    exact hrun
  · intro hn
    let _ := W.digits
    rw [Writer.new, if_neg (by simp), if_pos (by simp; omega)] at hrun
    exact hrun

/-- C99 (`dump` of the module): `dump(t, f, ...)` for a file at its end, likewise. -/
theorem C99_dump (hN : W.sort.Natural) {h : Heap} {a l f : Nat} {t : Track} (ht : TrackAt h a l t) (hr : t.Reachable W.sort)
    {content : Bytes} (hf : FileAt h f content) {x : PyFloat} {b : Val} (hx : IsBpm x b) {ch : Int}
    {more : List (String × Val)} {e : Expr} (hc : DumpCall "dump" ["t", "f"] b ch more e) :
    (0 ≤ ch → ch ≤ 15 → ∃ h', userEval W (midiFun "dump" :: ("t", .ref a) :: ("f", .ref f) :: more) e h =
        some (match (⟨96, 384, 24, x, ch⟩ : Writer).dumps W.sort t with | .ok _ => .ok .none h' | .error e => .err e h') ∧
      Dumping h h' a l f (t.iter W.sort).1 (content ++ ((⟨96, 384, 24, x, ch⟩ : Writer).dump W.sort t []).2.1) ∧
      ∀ b, (⟨96, 384, 24, x, ch⟩ : Writer).dumps W.sort t = .ok b → FileAt h' f (content ++ b)) ∧
    (¬ (0 ≤ ch ∧ ch ≤ 15) →
      userEval W (midiFun "dump" :: ("t", .ref a) :: ("f", .ref f) :: more) e h = some (.err .valueError h)) := by
  obtain ⟨args, kws, k1, k2⟩ := user_dump W (a := a) (f := f) hx hc h
  have hrun := midi_dump_run W hN ht hr.wf hf hx ch k2
  rw [k1]
  constructor
  · intro h1 h2
    rw [module_writer_new x h1 h2] at hrun
    dsimp only at hrun
    rw [dump_content] at hrun
    obtain ⟨h', g1, g2⟩ := hrun
    have hd : (⟨96, 384, 24, x, ch⟩ : Writer).dumps W.sort t = match (⟨96, 384, 24, x, ch⟩ : Writer).dump W.sort t [] with
      | (_, file, .ok ()) => .ok file | (_, _, .error e) => .error e := rfl
    refine ⟨h', g1.trans ?_, g2, ?_⟩
    · rw [hd]
      rcases (⟨96, 384, 24, x, ch⟩ : Writer).dump W.sort t [] with ⟨t', b, e | u⟩ <;> rfl
    · intro b hb
      rw [hd] at hb
      have := g2.file
      revert hb this
      rcases (⟨96, 384, 24, x, ch⟩ : Writer).dump W.sort t [] with ⟨t', b', e | u⟩
      · intro hb; cases hb
      · intro hb this; cases hb; exact this
  · intro hn
    let _ := W.digits
    rw [Writer.new, if_neg (by simp), if_pos (by simp; omega)] at hrun
    exact hrun

/-- What reading gives back of the track `t`: the same signature, and for every note a note of the same tone, position and
duration, with the velocity of its byte. -/
def ReadsBack (S : ListSort) (t t' : Track) : Prop :=
  t'.Reachable S ∧ t'.signature.val = t.signature.val ∧ t'.contents = t.contents.map midiNote

/-- What can be read back: everything on whole pulses, no velocity so small that it is written as 0, and no notes of one tone
that overlap or start together. -/
def Readable (ppq : Int) (t : Track) : Prop := WholePulses ppq t ∧ Audible t ∧ NoOverlap t ∧ DistinctStarts t

/-- C99 (round trip): make a writer and a reader with the same middle C, call `w.dumps(t)`, and read the bytes in any form and
at any later time: the track read back has the same signature and the same notes. Reading any other channel raises ValueError,
reading a prefix of the bytes MIDIParsingError; so does a file of more than 2^24 + 21 bytes, which the reader cannot read. -/
theorem C99_roundtrip (hN : W.sort.Natural) {ta : ToneArg} {c : Val} (hta : IsToneArg ta c) {ppq ch p : Int} {x : PyFloat} {b : Val} (hx : IsBpm x b)
    {vars vars' : List (String × Val)} {e e' : Expr} (hw : WriterCall (.int ppq) c b (.int ch) vars e)
    (hr : ReaderCall c vars' e') (hq1 : 1 ≤ ppq) (hq2 : ppq ≤ 255) (hc1 : 0 ≤ ch) (hc2 : ch ≤ 15)
    (hp : @ToneDenotes W.digits ta p) {h : Heap} {a l : Nat} {t : Track} (ht : TrackAt h a l t) (hrt : t.Reachable W.sort)
    (hfit : FitsFile ⟨ppq, 4 * ppq, 60 - p, x, ch⟩ t) (hread : Readable ppq t) :
    ∃ u v h1, Gives W vars e u ∧ Gives W vars' e' v ∧ IsReader ⟨60 - p⟩ v ∧ Becomes h h1 a l l (t.iter W.sort).1 ∧
      ((BodyTooLong W.sort ⟨ppq, 4 * ppq, 60 - p, x, ch⟩ t ∧
          userEval W [("w", u), ("t", .ref a)] (methE "w" "dumps" ["t"]) h = some (.err .overflowError h1)) ∨
        ∃ bytes, userEval W [("w", u), ("t", .ref a)] (methE "w" "dumps" ["t"]) h = some (.ok (.bytes bytes) h1) ∧
          (bytes.length < 2 ^ 24 + 22 → ∀ h2 S channel vars2 e2, LoadCall h2 bytes ⟨60 - p⟩ S channel vars2 e2 →
            (ReadableWith ⟨ppq, 4 * ppq, 60 - p, x, ch⟩ t channel →
              ∃ t', NewTrack (userEval W vars2 e2 h2) h2 S t' ∧ ReadsBack W.sort t t') ∧
            (¬ ReadableWith ⟨ppq, 4 * ppq, 60 - p, x, ch⟩ t channel → Fails (userEval W vars2 e2 h2) h2 S .valueError)) ∧
          (2 ^ 24 + 22 ≤ bytes.length → ∀ m h2 S channel vars2 e2, LoadCall h2 bytes m S channel vars2 e2 →
            Fails (userEval W vars2 e2 h2) h2 S .parsingError) ∧
          ∀ part, part <+: bytes → part ≠ bytes → ∀ m h2 S channel vars2 e2, LoadCall h2 part m S channel vars2 e2 →
            Fails (userEval W vars2 e2 h2) h2 S .parsingError) := by
  let _ := W.digits
  obtain ⟨u, g1, g2⟩ := (C96_constructor W hta ppq ch hx hw).1 p hq1 (by omega) hc1 hc2 hp
  obtain ⟨v, g3, g4⟩ := (C98_constructor W hta hr).1 p hp
  obtain ⟨h1, g5, g6⟩ := C96_refines W hN g2 ht hrt
  obtain ⟨-, -, -, c4⟩ := Writer.dumps_cases W.sort g2.1 hrt.wf
  refine ⟨u, v, h1, g1, g3, g4, g6, ?_⟩
  obtain ⟨w1, w2, w3, w4⟩ := hfit
  have hdel := middleCDeltaOf_ok_iff.mpr ⟨p, hp, rfl⟩
  have hnew : Writer.new ppq ta x ch = .ok ⟨ppq, 4 * ppq, 60 - p, x, ch⟩ := by
    rw [Writer.new, if_neg (by simp; omega), if_neg (by simp; omega), hdel, show (4 * ppq : ℤ) = ppq * 4 from mul_comm _ _]
    rfl
  have hrd : MidiReader.new ta = .ok ⟨60 - p⟩ := by
    rw [MidiReader.new, hdel]; rfl
  rcases c4 w1 w2 w3 w4 with ⟨b, hb⟩ | ⟨hb, hl⟩
  · rw [hb] at g5
    refine .inr ⟨b, g5, ?_, ?_, ?_⟩
    · intro hlen h2 S channel vars2 e2 hc
      refine ⟨fun hrw => ?_, fun hrw => ?_⟩
      · obtain ⟨t', k1, k2, k3, k4⟩ := C42_roundtrip_noOverlap W.sort ppq ta x ch _ hnew _ hrd t hrt b hb hlen hread.1 hread.2.1
          hread.2.2.1 hread.2.2.2 channel hrw
        exact ⟨t', load_gives hN hc k1, k2, (Signature.eq_iff k2.wf.sig hrt.wf.sig).mp k3, k4⟩
      · exact load_fails hN hc (C42_other_channel W.sort _ g2.1 t hrt b hb hlen _ channel hrw) (by decide) (by decide)
    · intro hlen m h2 S channel vars2 e2 hc
      exact load_fails hN hc (C44_large_violated W.sort _ g2.1 t hrt b hb hlen m channel) (by decide) (by decide)
    · intro part h1 h2 m h3 S channel vars2 e2 hc
      exact load_fails hN hc (C41_truncated W.sort _ g2.1 t hrt b hb part h1 h2 m channel) (by decide) (by decide)
  · rw [hb] at g5
    exact .inl ⟨hl, g5⟩

/-- The expression `loads(dumps(t)) == t`. -/
def roundTripE : Expr := .cmp (.call (.name "loads") [.call (.name "dumps") [.name "t"] []] []) [.eq] [.name "t"]

/-- C99 (equality): `loads(dumps(t)) == t` is true if `dumps(t)` is a file the reader can read, everything is on whole pulses
of a 96th of a quarter, the velocities are multiples of 1/127 and no notes of one tone overlap or start together. Nothing but
the track is changed, and of the track no more than by an iteration. -/
theorem C99_equal (hN : W.sort.Natural) {h h0 : Heap} {a l : Nat} {t : Track} (ht : TrackAt h a l t) (hr : t.Reachable W.sort)
    {data : Bytes} (hdump : userEval W [midiFun "dumps", ("t", .ref a)] (callE "dumps" ["t"]) h = some (.ok (.bytes data) h0))
    (hlen : data.length < 2 ^ 24 + 22) (h1 : WholePulses 96 t) (h2 : NoOverlap t) (h3 : DistinctStarts t)
    (h4 : ∀ p ∈ t.contents, ∃ k : Nat, 1 ≤ k ∧ k ≤ 127 ∧ p.2.velocity = fl ((k : ℚ) / 127)) :
    ∃ h', userEval W [midiFun "loads", midiFun "dumps", ("t", .ref a)] roundTripE h = some (.ok (.bool true) h') ∧
      Becomes h h' a l l (t.iter W.sort).1 := by
  let _ := W.digits
  obtain ⟨b, hb, rfl⟩ : ∃ b, (⟨96, 384, 24, .fin 120, 0⟩ : Writer).dumps W.sort t = .ok b ∧ b = data := by
    obtain ⟨h', g1, -⟩ := (C99_dumps hN ht hr (.float (.fin 120)) (ch := 0) (more := []) (.kw none none)).1 le_rfl (by norm_num)
    cases hx : (⟨96, 384, 24, .fin 120, 0⟩ : Writer).dumps W.sort t with
    | ok b =>
      rw [hx] at g1
      have := hdump.symm.trans g1
      simp at this
      exact ⟨b, rfl, this.1.symm⟩
    | error e =>
      rw [hx] at g1
      have := hdump.symm.trans g1
      simp at this
  have hrd : MidiReader.new (.tone ⟨36⟩) = .ok ⟨24⟩ := rfl
  obtain ⟨t', k1, k2, k3⟩ := C43_equal_partial W.sort 96 (.tone ⟨36⟩) (.fin 120) 0 _ (module_writer_new (.fin 120) (by norm_num) (by norm_num))
    ⟨24⟩ hrd t hr b hb hlen h1 h2 h3 h4
  have hd := midi_dumps_run W hN ht hr.wf (.float (.fin 120)) 0 (args := [.ref a]) (kws := []) (by simp [py, midi.dumps])
  rw [module_writer_new (.fin 120) (by norm_num) (by norm_num)] at hd
  dsimp only at hd
  rw [hb] at hd
  obtain ⟨H1, d1, d2⟩ := hd
  have hl := midi_loads_run W hN (h := H1) (data := b) (channel := none) (by rw [k1]; exact ⟨by simp, by simp⟩) (args := [.bytes b]) (kws := [])
    (by simp [py, midi.loads, chanV])
  rw [k1] at hl
  obtain ⟨v, H2, l1, a', l', rfl, l2, l3, l4, l5, l6⟩ := hl
  have hta : TrackAt H2 a l (t.iter W.sort).1 :=
    ⟨l6.at d2.track.obj (fun h => h), l6.at d2.track.list (fun h => h)⟩
  have ha1 := lt_of_at d2.track.obj
  have hl1 := lt_of_at d2.track.list
  have hwf := Melodia.Track.iter_wf W.sort hr.wf
  obtain ⟨H3, e1, e2, e3, e4⟩ := track_eq_run W hN l2 hta l3 hwf (by omega) (by omega)
  have hitems : (t.iter W.sort).1.items W.sort = t.items W.sort := by
    unfold Track.items; rw [Melodia.Track.iter_iter]
  have hsig : (t.iter W.sort).1.signature = t.signature := by unfold Track.iter; split <;> rfl
  have heq : t'.eq W.sort (t.iter W.sort).1 = true := by
    rw [← k2]; unfold Track.eq; rw [hitems, hsig]
  have hit : ((t.iter W.sort).1.iter W.sort).1 = (t.iter W.sort).1 := by rw [Melodia.Track.iter_iter]
  rw [heq] at e1
  rw [hit, ite_self] at e3
  refine ⟨H3, ?_, e3, ?_, .inl rfl⟩
  · have x1 : evalE program W (.call (.name "dumps") [.name "t"] [])
        { mod := "__main__", vars := [midiFun "loads", midiFun "dumps", ("t", .ref a)] ++ userNames } h = some (.ok (.bytes b) H1) := by
      refine (evalE_call program W (evalE_name program W (v := .func "melodia.io.midi" "dumps") (by rfl) rfl h)
        (evalArgs_names W h [("t", .ref a)] (by simp [Dict.get, midiFun, readVar]))).trans ?_
      rw [call.eq_def]
      exact d1
    have x2 : evalE program W (.call (.name "loads") [.call (.name "dumps") [.name "t"] []] [])
        { mod := "__main__", vars := [midiFun "loads", midiFun "dumps", ("t", .ref a)] ++ userNames } h = some (.ok (.ref a') H2) := by
      refine (evalE_call program W (evalE_name program W (v := .func "melodia.io.midi" "loads") (by rfl) rfl h)
        (evalArgs_cons _ _ (by simp) x1 (evalArgs_nil _ _ _ _))).trans ?_
      rw [call.eq_def]
      exact l1
    refine (evalE_cmp program W x2 (evalE_name program W (v := .ref a) (by rfl) rfl H2)).trans ?_
    rw [compareOp_eq, richCmp_ref _ _ (by simp) l2.obj track_eq]
    exact e1
  · have f1 : Frame (Own a l) H1 H3 := by
      refine l6.trans e4 (fun _ h => h.elim) ?_
      rintro b hb (h | h)
      · exfalso; rcases h with rfl | rfl <;> omega
      · exact h
    exact d2.frame.trans f1 (fun _ h => h) (fun _ _ h => h)

/-- The notes can be read back: everything on whole pulses, no velocity written as 0, and no two notes of one tone overlap or
start together. -/
def ReadableNotes (ppq : Int) (m : Multiset (ℚ × Note)) : Prop :=
  (∀ p ∈ m, (∃ k : Nat, 4 * (ppq : ℚ) * p.1 = k) ∧ ∃ k : Nat, 4 * (ppq : ℚ) * p.2.duration.val = k) ∧
  (∀ p ∈ m, 1 ≤ velByte p.2.velocity) ∧
  ∀ a b, {a, b} ≤ m → a.2.tone.pitch = b.2.tone.pitch → (noteEnd a ≤ b.1 ∨ noteEnd b ≤ a.1) ∧ a.1 ≠ b.1

theorem ReadableNotes.track {ppq : Int} {t : Track} (h : ReadableNotes ppq t.contents) : Readable ppq t :=
  ⟨h.1, h.2.1, fun a b hab hp => (h.2.2 a b hab hp).1, fun a b hab hp => (h.2.2 a b hab hp).2⟩

/-- C99 (whole programs): make a track with `Track(s)`, evaluate any sequence of operations on it, then `data = dumps(t, ...)`
and `u = loads(data)`. If the notes that were added, the signature and the tempo fit the format and the notes can be read
back, `u` is a new track with the same signature and exactly these notes, with the velocities of their bytes (unless the file
would be longer than the format or the reader allows). No object that existed before is changed. -/
theorem C99_program (hN : W.sort.Natural) (h : Heap) {s : SigArg} (hsv : s.Valid) {v : Val} (hs : IsSigArg s v)
    {sig : Signature} (hsig : SigDenotes s sig) (ops : List TrackOp) (hops : ∀ o ∈ ops, o.Valid)
    {steps : List (List (String × Val) × Expr)}
    (hsteps : List.Forall₂ (fun o x => Performs h h.objs.length h.objs.length o x.1 x.2) ops steps)
    {x : PyFloat} {b : Val} (hx : IsBpm x b) {ch : Int} {more : List (String × Val)} {e : Expr}
    (hc : DumpCall "dumps" ["t"] b ch more e)
    (hc1 : 0 ≤ ch) (hc2 : ch ≤ 15) (htempo : ∃ tempo, TempoFits x tempo) (hfit : SignatureFits sig)
    {m : Multiset (ℚ × Note)} (hm : PlacedBy W.sort (Track.empty sig) ops m)
    (hnotes : ∀ n ∈ m, -24 ≤ n.2.tone.pitch ∧ n.2.tone.pitch ≤ 103) (hread : ReadableNotes 96 m) :
    ∃ (h0 h1 h2 : Heap) (l : Nat) (t : Track),
      userEval W [("s", v)] (callE "Track" ["s"]) h = some (.ok (.ref h.objs.length) h0) ∧ session W steps h0 = some h1 ∧
      TrackAt h1 h.objs.length l t ∧ t.contents = m ∧
      ((BodyTooLong W.sort ⟨96, 384, 24, x, ch⟩ t ∧
          userEval W (midiFun "dumps" :: ("t", .ref h.objs.length) :: more) e h1 = some (.err .overflowError h2)) ∨
        ∃ data, userEval W (midiFun "dumps" :: ("t", .ref h.objs.length) :: more) e h1 = some (.ok (.bytes data) h2) ∧
          (data.length < 2 ^ 24 + 22 → ∃ (h3 : Heap) (b k : Nat) (u : Track),
            userEval W [midiFun "loads", ("data", .bytes data)] (callE "loads" ["data"]) h2 = some (.ok (.ref b) h3) ∧
            TrackAt h3 b k u ∧ u.Reachable W.sort ∧ u.signature.val = sig.val ∧ u.contents = m.map midiNote ∧
            TrackAt h3 h.objs.length l (t.iter W.sort).1 ∧ b ≠ h.objs.length ∧ k ≠ l ∧ Frame (fun _ => False) h h3)) ∧
      Frame (fun _ => False) h h2 := by
  let _ := W.digits
  have hval := denotes_valid hsv hsig
  obtain ⟨h0, l0, b1, b2, b3, b4, b5⟩ := (track_new_run W (h := h) (l0 := 0) hs hsv (content := []) (by simp) (.inl ⟨rfl, rfl⟩)
    (args := [v]) (kws := []) (by simp [py, Track.dunder_init])).1 (Track.empty sig) (by
      unfold Track.new; rw [SigArg.coerce_ok_iff.mpr hsig]; rfl)
  have hu : userEval W [("s", v)] (callE "Track" ["s"]) h = some (.ok (.ref h.objs.length) h0) := by
    refine (evalE_call program W (es := [.name "s"]) (evalE_name program W (v := .cls "Track") (by rfl) rfl h)
      (evalArgs_cons _ _ (by simp) (evalE_name _ _ (by rfl) (readVar_sigArg hs) _) (evalArgs_nil _ _ _ _))).trans ?_
    rw [call.eq_def]
    exact b1
  obtain ⟨h1, l1, c1, c2⟩ := session_ok W hN ops b3 b2 hops hsteps
    (fun w v hw => isWhat_mono b4.le (b5.mono (fun _ _ hb => hb.elim)) w v hw)
  have hr : ((Track.empty sig).run W.sort ops).Reachable W.sort := ⟨sig, ops, hval, hops, rfl⟩
  have hcont : ((Track.empty sig).run W.sort ops).contents = m := by
    rw [Track.placedBy_contents W.sort (Track.empty_wf hval) hops hm]
    exact add_zero _
  have hsg : ((Track.empty sig).run W.sort ops).signature = sig := (Track.run_wf W.sort _ (Track.empty_wf hval) hops).2
  obtain ⟨h2, g1, g2⟩ := (C99_dumps hN c2.track hr hx hc).1 hc1 hc2
  have hv : (⟨96, 384, 24, x, ch⟩ : Writer).Valid := ⟨by norm_num, by norm_num, by norm_num, hc1, hc2⟩
  obtain ⟨-, -, -, c4⟩ := Writer.dumps_cases W.sort hv hr.wf
  have hf2 : Frame (fun _ => False) h h2 := by
    have hf := (c2.trans g2).frame
    refine b5.trans hf (fun _ hb => hb) ?_
    rintro c hc (rfl | rfl)
    · exact absurd hc (lt_irrefl _)
    · exact absurd hc (not_lt.mpr b4.le)
  refine ⟨h0, h1, h2, l1, _, hu, c1, c2.track, hcont, ?_, hf2⟩
  rcases c4 (by intro n hn; rw [hcont] at hn; obtain ⟨i1, i2⟩ := hnotes n hn; constructor <;> dsimp only [Note.midiPitch] <;> omega)
    (by rw [hsg]; exact hfit) (by norm_num) htempo with ⟨b, hb⟩ | ⟨hb, hl⟩
  swap
  · rw [hb] at g1
    exact .inl ⟨hl, g1⟩
  rw [hb] at g1
  refine .inr ⟨b, g1, fun hlen => ?_⟩
  have hrd : MidiReader.new (.tone ⟨36⟩) = .ok ⟨24⟩ := rfl
  have hread' := ReadableNotes.track (t := (Track.empty sig).run W.sort ops) (hcont.symm ▸ hread)
  obtain ⟨t', k1, k2, k3, k4⟩ := C42_roundtrip_noOverlap W.sort 96 (.tone ⟨36⟩) x ch _ (module_writer_new x hc1 hc2) ⟨24⟩ hrd _ hr b
    hb hlen hread'.1 hread'.2.1 hread'.2.2.1 hread'.2.2.2 none (Or.inl rfl)
  have hcall : LoadCall h2 b ⟨24⟩ (fun _ => False) none [midiFun "loads", ("data", .bytes b)] (callE "loads" ["data"]) :=
    .midiLoads .omitted
  obtain ⟨h3, a', l', d1, d2, d3, d4, d5⟩ := load_gives hN hcall k1
  have e1 := lt_of_at g2.track.obj
  have e2 := lt_of_at g2.track.list
  refine ⟨h3, a', l', t', d1, d2, k2, ?_, ?_, ⟨d5.at g2.track.obj (fun h => h), d5.at g2.track.list (fun h => h)⟩, by omega, by omega,
    hf2.trans d5 (fun _ h => h) (fun _ _ h => h)⟩
  · rw [(Signature.eq_iff k2.wf.sig hr.wf.sig).mp k3, hsg]
  · rw [k4, hcont]

/-- The track of the examples for C34 in memory: `loads(dumps(t)) == t` is true. -/
example (hs : W.sort = cpySort) : ∃ h', userEval W [midiFun "loads", midiFun "dumps", ("t", .ref 0)] roundTripE
    ⟨[.inst "Track" (trackFields exTrack 1), .list (exTrack.heap.map entryV)], 0⟩ = some (.ok (.bool true) h') := by
  have hr : exTrack.Reachable W.sort := hs ▸ exTrack_reachable
  have hN : W.sort.Natural := hs ▸ cpySort_natural
  obtain ⟨c1, c2, -, c3, c4⟩ := exTrack_conditions
  have hok : okAnd ((⟨96, 384, 24, .fin 120, 0⟩ : Writer).dumps cpySort exTrack) (fun b => decide (b.length < 2 ^ 24 + 22)) = true := by
    decide +kernel
  obtain ⟨b, hb, hlen⟩ := okAnd_iff hok
  rw [← hs] at hb
  obtain ⟨h0, g0, -⟩ := (C99_dumps hN (h := ⟨[.inst "Track" (trackFields exTrack 1), .list (exTrack.heap.map entryV)], 0⟩) (a := 0)
    (l := 1) ⟨rfl, rfl⟩ hr (.float (.fin 120)) (ch := 0) (more := []) (.kw none none)).1 le_rfl (by norm_num)
  rw [hb] at g0
  obtain ⟨h', g, -⟩ := C99_equal hN (h := ⟨[.inst "Track" (trackFields exTrack 1), .list (exTrack.heap.map entryV)], 0⟩) (a := 0) (l := 1)
    ⟨rfl, rfl⟩ hr g0 (of_decide_eq_true hlen) c1 c4 c3 (by
      rw [exTrack_contents]
      intro p hp
      simp only [Multiset.insert_eq_cons, Multiset.mem_cons, Multiset.mem_singleton] at hp
      have : (1 : ℚ) = fl ((127 : Nat) / 127) := by decide +kernel
      refine ⟨127, by decide, by decide, ?_⟩
      rw [← this]
      rcases hp with rfl | rfl | rfl <;> rfl)
  exact ⟨h', g⟩

/-- Writing the track of the examples for C34 with `MIDIWriter(channel=3)` and reading the file with `MIDIReader()` from a file
object: the hypotheses of `C99_roundtrip`. -/
example : WriterCall (.int 96) (toneV ⟨36⟩) (.float (.fin 120)) (.int 3) [("channel", .int 3)]
      (.call (.name "MIDIWriter") [.name "channel"] ["channel"]) ∧
    ReaderCall (toneV ⟨36⟩) [] (callE "MIDIReader" []) ∧ Readable 96 exTrack ∧
    ReadableWith exWriter exTrack (some 3) ∧
    ∀ bytes : Bytes, LoadCall ⟨[.file bytes 0], 0⟩ bytes ⟨24⟩ (· = 0) (some 3)
      [("r", readerV ⟨24⟩ (toneV ⟨36⟩)), ("f", .ref 0), ("channel", .int 3)]
      (.call (.attr (.name "r") "load") [.name "f", .name "channel"] []) := by
  obtain ⟨c1, c2, -, c3, c4⟩ := exTrack_conditions
  exact ⟨.kw none none none (some (.int 3)), .default, ⟨c1, c2, c4, c3⟩, Or.inr (Or.inl ⟨by decide +kernel, rfl⟩),
    fun bytes => .load ⟨_, .tone _, rfl⟩ rfl rfl (.pos (some 3))⟩

/-- The channel 16 is refused. -/
example (hN : W.sort.Natural) {h : Heap} {a l : Nat} {t : Track} (ht : TrackAt h a l t) (hr : t.Reachable W.sort) :
    userEval W [midiFun "dumps", ("t", .ref a), ("bpm", .float (.fin 90)), ("channel", .int 16)] (callE "dumps" ["t", "bpm", "channel"]) h =
      some (.err .valueError h) :=
  (C99_dumps hN ht hr (.float (.fin 90)) (.all _ 16)).2 (by norm_num)

end Melodia
