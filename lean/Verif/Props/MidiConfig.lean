/-
Property theorems C67: configurations of MIDIWriter and MIDIReader.
-/
import Verif.Props.MidiWrite
import Verif.Props.MidiRead

set_option autoImplicit false

namespace Melodia
variable [UnicodeDigits]

theorem middleCDeltaOf_eq (mc : ToneArg) :
    middleCDeltaOf mc = (match mc.coerceNote with
      | .ok t => .ok (60 - t.pitch)
      | .error e => .error e) := by
  cases mc with
  | tone t => rfl
  | int i => rfl
  | str s =>
    show (Tone.fromNotation s >>= fun t => pure (60 - t.pitch)) = _
    rcases h : Tone.fromNotation s with e | t <;> simp [ToneArg.coerceNote, h, bind, Except.bind, pure, Except.pure]
  | other => rfl

theorem middleCDeltaOf_ok_iff {mc : ToneArg} {d : Int} :
    middleCDeltaOf mc = .ok d ↔ ∃ p, ToneDenotes mc p ∧ d = 60 - p := by
  rw [middleCDeltaOf_eq]
  constructor
  · rcases h : mc.coerceNote with e | t
    · intro h'; cases h'
    · intro h'
      simp only [Except.ok.injEq] at h'
      exact ⟨t.pitch, coerceNote_ok_iff.mp h, h'.symm⟩
  · rintro ⟨p, hp, rfl⟩
    have : mc.coerceNote = .ok ⟨p⟩ := coerceNote_ok_iff.mpr hp
    rw [this]

theorem middleCDeltaOf_error {mc : ToneArg} {e : PyErr} (h : middleCDeltaOf mc = .error e) :
    e = (if mc = .other then .typeError else .valueError) := by
  rw [middleCDeltaOf_eq] at h
  cases mc with
  | tone t => cases h
  | int i => cases h
  | other => cases h; rfl
  | str s =>
    rcases h' : (ToneArg.str s).coerceNote with e' | t
    · rw [h'] at h
      cases h
      rw [if_neg (by simp)]
      have h' : Tone.fromNotation s = .error e := h'
      by_cases hl : ∃ c u, s = c :: u ∧ IsLetter c
      · obtain ⟨c, u, rfl, hc⟩ := hl
        obtain ⟨q, rest, hr⟩ := exists_reads (t := u) hc
        rw [fromNotation_reads hr] at h'; cases h'
      · rw [fromNotation_bad (fun c t hs hh => hl ⟨c, t, hs, hh⟩)] at h'
        cases h'; rfl
    · rw [h'] at h; cases h

/-- C67: `MIDIWriter(ppq, middle_c, bpm, channel)` succeeds iff 1 <= ppq <= 32767, 0 <= channel <= 15 and middle_c
denotes a tone (whatever bpm is); otherwise ValueError, or TypeError if the numbers are in range but middle_c is
neither Tone nor int nor str. -/
theorem C67_writer (ppq : Int) (mc : ToneArg) (bpm : PyFloat) (ch : Int) :
    ((∃ w, Writer.new ppq mc bpm ch = .ok w) ↔ (1 ≤ ppq ∧ ppq ≤ 32767) ∧ (0 ≤ ch ∧ ch ≤ 15) ∧ ∃ p, ToneDenotes mc p) ∧
    (∀ e, Writer.new ppq mc bpm ch = .error e →
      e = if (1 ≤ ppq ∧ ppq ≤ 32767) ∧ (0 ≤ ch ∧ ch ≤ 15) ∧ mc = .other then .typeError else .valueError) := by
  unfold Writer.new
  by_cases h1 : 1 ≤ ppq ∧ ppq ≤ 32767
  swap
  · rw [if_pos (by simp; omega)]
    refine ⟨⟨fun ⟨w, h⟩ => (by cases h), fun h => absurd h.1 h1⟩, fun e h => ?_⟩
    cases h
    rw [if_neg (fun h => h1 h.1)]
  · rw [if_neg (by simp; omega)]
    by_cases h2 : 0 ≤ ch ∧ ch ≤ 15
    swap
    · rw [if_pos (by simp; omega)]
      refine ⟨⟨fun ⟨w, h⟩ => (by cases h), fun h => absurd h.2.1 h2⟩, fun e h => ?_⟩
      cases h
      rw [if_neg (fun h => h2 h.2.1)]
    · rw [if_neg (by simp; omega)]
      rcases hd : middleCDeltaOf mc with e | d
      · refine ⟨⟨fun ⟨w, h⟩ => (by cases h), fun h => ?_⟩, fun e' h => ?_⟩
        · obtain ⟨p, hp⟩ := h.2.2
          have := middleCDeltaOf_ok_iff.mpr ⟨p, hp, rfl⟩
          rw [hd] at this; cases this
        · cases h
          rw [middleCDeltaOf_error hd]
          simp [h1, h2]
      · refine ⟨⟨fun _ => ⟨h1, h2, ?_⟩, fun _ => ⟨_, rfl⟩⟩, fun e' h => (by cases h)⟩
        obtain ⟨p, hp, -⟩ := middleCDeltaOf_ok_iff.mp hd
        exact ⟨p, hp⟩

/-- C67: `MIDIReader(middle_c)` succeeds iff middle_c denotes a tone; otherwise TypeError for other types than
Tone, int and str, ValueError for strings that are no notation. -/
theorem C67_reader (mc : ToneArg) :
    ((∃ m, MidiReader.new mc = .ok m) ↔ ∃ p, ToneDenotes mc p) ∧
    (∀ e, MidiReader.new mc = .error e → e = if mc = .other then .typeError else .valueError) := by
  unfold MidiReader.new
  rcases hd : middleCDeltaOf mc with e | d
  · refine ⟨⟨fun ⟨w, h⟩ => (by cases h), fun ⟨p, hp⟩ => ?_⟩, fun e' h => ?_⟩
    · have := middleCDeltaOf_ok_iff.mpr ⟨p, hp, rfl⟩
      rw [hd] at this; cases this
    · cases h
      exact middleCDeltaOf_error hd
  · refine ⟨⟨fun _ => ?_, fun _ => ⟨_, rfl⟩⟩, fun e' h => (by cases h)⟩
    obtain ⟨p, hp, -⟩ := middleCDeltaOf_ok_iff.mp hd
    exact ⟨p, hp⟩

/-- C67: the defaults are 96 pulses per quarter, middle C = 'C3', 120 beats per minute, channel 0. -/
theorem C67_defaults : Writer.new = Writer.new 96 (.str "C3".toList) (.fin 120) 0 ∧
    MidiReader.new = MidiReader.new (.str "C3".toList) := by
  have h : middleCDeltaOf (.str "C3".toList) = middleCDeltaOf (.tone ⟨36⟩) := by
    have : Tone.fromNotation "C3".toList = .ok ⟨36⟩ := rfl
    show (Tone.fromNotation "C3".toList >>= fun t => pure (60 - t.pitch)) = _
    rw [this]
    rfl
  constructor
  · unfold Writer.new
    rw [h]
  · unfold MidiReader.new
    rw [h]

/-- C67: `midi.dumps` and `midi.loads` use these defaults, and write and read with the methods of the two classes. -/
theorem C67_module_defaults (S : ListSort) (t : Track) (data : Bytes) :
    midiDumps S t = (do let w ← Writer.new 96 (.str "C3".toList) (.fin 120) 0; w.dumps S t) ∧
    midiLoads S data = (do let m ← MidiReader.new (.str "C3".toList); m.loads S data none) ∧
    (∀ bpm ch, midiDumps S t bpm ch = do let w ← Writer.new 96 (.str "C3".toList) bpm ch; w.dumps S t) ∧
    (∀ ch, midiLoads S data ch = do let m ← MidiReader.new (.str "C3".toList); m.loads S data ch) := by
  have h : middleCDeltaOf (.str "C3".toList) = middleCDeltaOf (.tone ⟨36⟩) := by
    have : Tone.fromNotation "C3".toList = .ok ⟨36⟩ := rfl
    show (Tone.fromNotation "C3".toList >>= fun t => pure (60 - t.pitch)) = _
    rw [this]
    rfl
  refine ⟨?_, ?_, fun bpm ch => ?_, fun ch => ?_⟩
  · unfold midiDumps Writer.new; rw [h]
  · unfold midiLoads MidiReader.new; rw [h]
  · unfold midiDumps Writer.new; rw [h]
  · unfold midiLoads MidiReader.new; rw [h]

/-- Channels and key numbers of the note-on messages. -/
def onKeys (ms : List (Nat × Msg)) : List (Int × Int) :=
  ms.filterMap (fun m => match m.2 with
    | .noteOn c k _ => some ((c : Int), (k : Int))
    | _ => none)

/-- C67: what the settings mean for the file: the division is ppq, and the note-ons are on the given channel
with key 60 for middle C, one per note. -/
theorem C67_keys (S : ListSort) (ppq : Int) (mc : ToneArg) (p : Int) (hp : ToneDenotes mc p) (bpm : PyFloat) (ch : Int)
    (w : Writer) (hw : Writer.new ppq mc bpm ch = .ok w) (t : Track) (ht : t.Reachable S)
    (bytes : Bytes) (h : w.dumps S t = .ok bytes) :
    ∃ msgs, IsSmf ppq.toNat msgs bytes ∧
      (onKeys msgs : Multiset (Int × Int)) = t.contents.map (fun x => (ch, 60 + (x.2.tone.pitch - p))) := by
  obtain ⟨hv, rfl, -, rfl, hd⟩ := Writer.new_valid hw
  have hdel : w.middleCDelta = 60 - p := by
    have := middleCDeltaOf_ok_iff.mpr ⟨p, hp, rfl⟩
    rw [hd, Except.ok.injEq] at this
    exact this
  obtain ⟨k1, hf, hq, tempo, hb, hl, rfl⟩ := Writer.dumps_success hv ht.wf h
  refine ⟨_, Writer.isSmf_of hv (Writer.msgs_inRange hv ht.wf.sig (Track.items_valid S ht.wf) k1 hf hq hb) hl, ?_⟩
  have e1 : ∀ (l : List (Nat × Msg)) (now : Nat), onKeys (absoluteTimes now l) = onKeys l := by
    intro l
    induction l with
    | nil => intro now; rfl
    | cons x l ih =>
      intro now
      obtain ⟨d, m⟩ := x
      cases m <;> simp only [absoluteTimes, onKeys, List.filterMap_cons] <;>
        first | exact ih _ | exact congrArg _ (ih _)
  have e2 : onKeys (Writer.allMsgs w t.signature tempo (t.items S)) = onKeys (Writer.sortedMsgs w (t.items S)) := by
    unfold Writer.allMsgs
    have : onKeys ([(0, Writer.sigMsg w t.signature), (0, .tempo tempo)] ++
        Writer.deltaMsgs 0 (Writer.sortedMsgs w (t.items S)) ++ [(0, .endOfTrack)]) =
        onKeys (Writer.deltaMsgs 0 (Writer.sortedMsgs w (t.items S))) := by
      simp [onKeys, Writer.sigMsg]
    rw [this, ← e1 _ 0, Writer.absoluteTimes_deltaMsgs _ 0 (Writer.sortedMsgs_sorted w _) (fun _ _ => Nat.zero_le _)]
  have e3 := (C35_multiset w _ _ (Writer.arranged_sortedMsgs w (t.items S)))
  have e4 : (onKeys (Writer.sortedMsgs w (t.items S))).Perm
      ((t.items S).map (fun e => ((w.channel.toNat : Int), ((e.2.midiPitch w.middleCDelta).toNat : Int)))) := by
    refine (e3.filterMap _).trans ?_
    rw [List.filterMap_append, List.filterMap_map, List.filterMap_map]
    simp only [Function.comp_def, Entry.msg]
    have e5 : (t.items S).filterMap (fun _ => (none : Option (Int × Int))) = [] :=
      List.filterMap_eq_nil_iff.mpr (by simp)
    rw [e5, List.append_nil, ← List.filterMap_eq_map]
    exact List.Perm.refl _
  rw [e2, Multiset.coe_eq_coe.mpr e4, ← Track.items_placed S t, Multiset.map_coe, List.map_map]
  refine congrArg _ (List.map_congr_left ?_)
  intro e he
  have := (k1 e he).1
  have hch := hv.chanMin
  simp only [Function.comp_def, Entry.placed, Note.midiPitch] at this ⊢
  rw [Int.toNat_of_nonneg this, Int.toNat_of_nonneg hch, hdel]
  congr 1
  ring

example : ∃ w, Writer.new 96 (.str "C4".toList) (.fin 120) 9 = .ok w ∧ ToneDenotes (.str "C4".toList) 48 ∧
    Writer.new 0 (.int 0) .nan 0 = .error .valueError ∧ Writer.new 96 .other .nan 0 = .error .typeError ∧
    Writer.new 96 (.str "H".toList) .nan 16 = .error .valueError :=
  ⟨_, rfl, coerceNote_ok_iff (t := ⟨48⟩) |>.mp rfl, rfl, rfl, rfl⟩

end Melodia
