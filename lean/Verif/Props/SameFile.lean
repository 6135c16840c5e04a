/-
Property theorems C68: the file is determined by the music, and the music by the file.
-/
import Verif.Lemmas.SmfUnique
import Verif.Props.RoundTrip

set_option autoImplicit false

namespace Melodia

namespace Writer

/-- What a note contributes to the file depends only on position value, pitch, duration value and velocity. -/
theorem noteEvents_congr {w : Writer} (hw : w.Valid) : ∀ (a b : List Entry),
    (∀ e ∈ a, e.1.Valid ∧ e.2.Valid) → (∀ e ∈ b, e.1.Valid ∧ e.2.Valid) →
    a.map Entry.key = b.map Entry.key → w.noteEvents a = w.noteEvents b := by
  intro a
  induction a with
  | nil =>
    intro b _ _ h
    cases b with
    | nil => rfl
    | cons y b => simp at h
  | cons x a ih =>
    intro b ha hb h
    cases b with
    | nil => simp at h
    | cons y b =>
      rw [List.map_cons, List.map_cons, List.cons.injEq] at h
      obtain ⟨h1, h2⟩ := h
      obtain ⟨x1, x2⟩ := x
      obtain ⟨y1, y2⟩ := y
      obtain ⟨hx1, hx2⟩ := ha _ List.mem_cons_self
      obtain ⟨hy1, hy2⟩ := hb _ List.mem_cons_self
      unfold Entry.key at h1
      rw [toLex_inj, Prod.mk.injEq, toLex_inj, Prod.mk.injEq, toLex_inj, Prod.mk.injEq] at h1
      obtain ⟨e1, e2, e3, e4⟩ := h1
      simp only at e1 e2 e3 e4
      have k1 : w.signatureToPulses x1 = w.signatureToPulses y1 := by
        rw [signatureToPulses_ok hw hx1, signatureToPulses_ok hw hy1, e1]
      have k2 : w.signatureToPulses x2.duration = w.signatureToPulses y2.duration := by
        rw [signatureToPulses_ok hw hx2.duration, signatureToPulses_ok hw hy2.duration, e3]
      have k3 : w.formatNoteOn x2 = w.formatNoteOn y2 := by
        unfold formatNoteOn
        rw [e2, e4]
      have k4 : w.formatNoteOff x2 = w.formatNoteOff y2 := by
        unfold formatNoteOff
        rw [e2]
      unfold noteEvents
      rw [k1, k2, k3, k4, ih b (fun e he => ha e (List.mem_cons_of_mem _ he))
        (fun e he => hb e (List.mem_cons_of_mem _ he)) h2]

end Writer

variable [UnicodeDigits]

/-- C68, the part that holds: for tracks in which notes of equal pitch and position have equal durations or
equal duration denominators, what `dumps` returns or raises depends only on the settings, the time signature and
the notes with their positions (values of positions and durations, pitches, velocities): not on the order of
adding, on how positions and durations are spelled, or on observations. Missing: other tracks, see
`C68_violated`. -/
theorem C68_same_file_partial (S : ListSort) (ppq : Int) (mc : ToneArg) (bpm : PyFloat) (ch : Int) (w : Writer)
    (hw : Writer.new ppq mc bpm ch = .ok w) (t t' : Track) (ht : t.Reachable S) (ht' : t'.Reachable S)
    (hs : t'.signature = t.signature)
    (hc : t'.contents.map (fun p => (p.1, p.2.tone.pitch, p.2.duration.val, p.2.velocity)) =
      t.contents.map (fun p => (p.1, p.2.tone.pitch, p.2.duration.val, p.2.velocity)))
    (h1 : ConsistentPlaced t.contents) (h2 : ConsistentPlaced t'.contents) :
    w.dumps S t' = w.dumps S t := by
  have hk : t'.contents.map Track.placedKey = t.contents.map Track.placedKey := by
    have := congrArg (Multiset.map (fun x : ℚ × ℤ × ℚ × ℚ => toLex (x.1, toLex (x.2.1, toLex (x.2.2.1, x.2.2.2))))) hc
    rw [Multiset.map_map, Multiset.map_map] at this
    exact this
  have hi := items_key_eq_of S ht'.wf ht.wf hk h2 h1
  obtain ⟨hv, -⟩ := Writer.new_valid hw
  have hn := Writer.noteEvents_congr hv _ _ (Track.items_valid S ht'.wf) (Track.items_valid S ht.wf) hi
  have hd : Writer.deltaEvents S w (t'.iter S).1.signature (t'.iter S).2 =
      Writer.deltaEvents S w (t.iter S).1.signature (t.iter S).2 := by
    have e1 : ∀ t : Track, (t.iter S).1.signature = t.signature := fun t => by unfold Track.iter; split <;> rfl
    unfold Writer.deltaEvents
    rw [e1, e1, hs]
    change (w.noteEvents (t'.items S) >>= _) = (w.noteEvents (t.items S) >>= _)
    rw [hn]
  unfold Writer.dumps Writer.dump
  simp only [hd]
  rcases Writer.deltaEvents S w (t.iter S).1.signature (t.iter S).2 with e | ev
  · rfl
  · simp only
    rcases w.formatHeaderChunk 0 1 with e | hdr
    · rfl
    · simp only
      rcases Writer.trackBody ev with e | body
      · rfl
      · simp only
        rcases Writer.formatChunk Writer.tagMTrk body with e | c <;> rfl

omit [UnicodeDigits] in
/-- C68: writing a track once more (it may have been sorted by the first call) appends the same bytes or fails
with the same exception, for every writer and track. -/
theorem C68_again (S : ListSort) (w : Writer) (t t' : Track) (file file' : Bytes) (r : PyM Unit)
    (h : w.dump S t file = (t', file', r)) : w.dumps S t' = w.dumps S t ∧ w.dump S t' file = (t', file', r) := by
  have ht' : t' = (t.iter S).1 := by
    have : (w.dump S t file).1 = (t.iter S).1 := by
      unfold Writer.dump
      simp only
      repeat' split
      all_goals rfl
    rw [h] at this
    exact this
  have h2 : ∀ f, w.dump S t' f = w.dump S t f := by
    intro f
    unfold Writer.dump
    rw [ht', Track.iter_iter]
  refine ⟨?_, by rw [h2, h]⟩
  unfold Writer.dumps
  rw [h2]

/-- C68: if two tracks that meet the conditions of C42 are written to the same bytes, they have equal time
signatures and the same notes, up to the spelling of durations and the rounding of velocities (`midiNote`). -/
theorem C68_injective (S : ListSort) (ppq : Int) (mc : ToneArg) (bpm : PyFloat) (ch : Int) (w : Writer)
    (hw : Writer.new ppq mc bpm ch = .ok w) (t t' : Track) (ht : t.Reachable S) (ht' : t'.Reachable S)
    (bytes : Bytes) (h : w.dumps S t = .ok bytes) (h' : w.dumps S t' = .ok bytes) (hl : bytes.length < 2 ^ 24 + 22)
    (h1 : WholePulses ppq t) (h2 : Audible t) (h3 : InTurn S t)
    (h1' : WholePulses ppq t') (h2' : Audible t') (h3' : InTurn S t') :
    t.signature.eq t'.signature = true ∧ t.contents.map midiNote = t'.contents.map midiNote := by
  have hm : ∃ m, MidiReader.new mc = .ok m := by
    obtain ⟨-, -, -, -, hd⟩ := Writer.new_valid hw
    unfold MidiReader.new
    rw [hd]
    exact ⟨_, rfl⟩
  obtain ⟨m, hm⟩ := hm
  obtain ⟨u, a1, a2, a3, a4⟩ := C42_roundtrip S ppq mc bpm ch w hw m hm t ht bytes h hl h1 h2 h3 none (Or.inl rfl)
  obtain ⟨u', b1, b2, b3, b4⟩ := C42_roundtrip S ppq mc bpm ch w hw m hm t' ht' bytes h' hl h1' h2' h3' none
    (Or.inl rfl)
  rw [a1] at b1
  cases b1
  refine ⟨?_, by rw [← a4, ← b4]⟩
  rw [Signature.eq_iff a2.wf.sig ht.wf.sig] at a3
  rw [Signature.eq_iff a2.wf.sig ht'.wf.sig] at b3
  rw [Signature.eq_iff ht.wf.sig ht'.wf.sig, ← a3, ← b3]

omit [UnicodeDigits] in
/-- C34: the grammar of the files written is unambiguous: the bytes determine the division and the messages with their delta
times. So the messages in C34, C35, C67, C74 and the following are one and the same sequence. -/
theorem C34_unambiguous (d d' : Nat) (es es' : List (Nat × Msg)) (file : Bytes) (h : IsSmf d es file)
    (h' : IsSmf d' es' file) : d = d' ∧ es = es' := h.unique h'

omit [UnicodeDigits] in
/-- C68: whatever writers and tracks are used, without any condition: when two files are the same, the resolutions, the time
signatures (as written) and the tempo numbers are the same, the notes start at the same pulses with the same keys and
velocity bytes, they end at the same pulses with the same keys, and the channel is the same if there are notes. -/
theorem C68_converse (S : ListSort) (w w' : Writer) (hw : w.Valid) (hw' : w'.Valid) (t t' : Track) (ht : t.Reachable S)
    (ht' : t'.Reachable S) (bytes : Bytes) (h : w.dumps S t = .ok bytes) (h' : w'.dumps S t' = .ok bytes) :
    w.ppq = w'.ppq ∧ t.signature = t'.signature ∧ (∃ tempo, TempoIs w.bpm tempo ∧ TempoIs w'.bpm tempo) ∧
    t.contents.map (fun x => (pulsesOf w.ppq x.1, x.2.tone.pitch + w.middleCDelta, velByte x.2.velocity)) =
      t'.contents.map (fun x => (pulsesOf w'.ppq x.1, x.2.tone.pitch + w'.middleCDelta, velByte x.2.velocity)) ∧
    t.contents.map (fun x => (pulsesOf w.ppq x.1 + pulsesOf w.ppq x.2.duration.val, x.2.tone.pitch + w.middleCDelta)) =
      t'.contents.map
        (fun x => (pulsesOf w'.ppq x.1 + pulsesOf w'.ppq x.2.duration.val, x.2.tone.pitch + w'.middleCDelta)) ∧
    (t.contents ≠ 0 → w.channel = w'.channel) := by
  obtain ⟨nn, dd, tempo, ns, k1, k2, k3, -⟩ := C34_wellformed S w hw t ht bytes h
  obtain ⟨nn', dd', tempo', ns', k1', k2', k3', -⟩ := C34_wellformed S w' hw' t' ht' bytes h'
  obtain ⟨sig, tmp, notes, l1, l2, -⟩ := C35_notes S w hw t ht bytes h
  obtain ⟨sig', tmp', notes', l1', l2', -⟩ := C35_notes S w' hw' t' ht' bytes h'
  obtain ⟨e1, e2⟩ := k1.unique k1'
  obtain ⟨-, e3⟩ := l1.unique l1'
  have hp : w.ppq = w'.ppq := by
    have := hw.ppqPos; have := hw'.ppqPos; omega
  simp only [List.cons_append, List.nil_append, List.cons.injEq, Prod.mk.injEq, true_and, Msg.timeSignature.injEq,
    Msg.tempo.injEq] at e2 e3
  obtain ⟨⟨rfl, rfl, -⟩, rfl, -⟩ := e2
  have e3 := List.append_cancel_right e3.2.2
  subst e3
  have hperm := (C35_multiset w _ _ l2).symm.trans (C35_multiset w' _ _ l2')
  obtain ⟨hpit, -⟩ := Writer.dumps_success hw ht.wf h
  obtain ⟨hpit', -⟩ := Writer.dumps_success hw' ht'.wf h'
  have key : ∀ (β : Type) (f : Nat × Msg → Option β) (g g' : Entry → β),
      (∀ e ∈ t.items S, f (Entry.msg w e false) = some (g e)) → (∀ e ∈ t'.items S, f (Entry.msg w' e false) = some (g' e)) →
      (∀ (v : Writer) e, f (Entry.msg v e true) = none) →
      ((t.items S).map g).Perm ((t'.items S).map g') := by
    intro β f g g' h1 h2 h3
    have := hperm.filterMap f
    rw [List.filterMap_append, List.filterMap_append, List.filterMap_map, List.filterMap_map, List.filterMap_map,
      List.filterMap_map] at this
    rw [List.filterMap_eq_nil_iff (f := f ∘ fun e => Entry.msg w e true) |>.mpr (fun e _ => h3 w e),
      List.filterMap_eq_nil_iff (f := f ∘ fun e => Entry.msg w' e true) |>.mpr (fun e _ => h3 w' e), List.append_nil,
      List.append_nil, List.filterMap_congr (f := f ∘ fun e => Entry.msg w e false) (g := fun e => some (g e)) (fun e he => h1 e he),
      List.filterMap_congr (f := f ∘ fun e => Entry.msg w' e false) (g := fun e => some (g' e)) (fun e he => h2 e he)] at this
    simpa [List.filterMap_eq_map] using this
  have key' : ∀ (β : Type) (f : Nat × Msg → Option β) (g g' : Entry → β),
      (∀ e ∈ t.items S, f (Entry.msg w e true) = some (g e)) → (∀ e ∈ t'.items S, f (Entry.msg w' e true) = some (g' e)) →
      (∀ (v : Writer) e, f (Entry.msg v e false) = none) →
      ((t.items S).map g).Perm ((t'.items S).map g') := by
    intro β f g g' h1 h2 h3
    have := hperm.filterMap f
    rw [List.filterMap_append, List.filterMap_append, List.filterMap_map, List.filterMap_map, List.filterMap_map,
      List.filterMap_map] at this
    rw [List.filterMap_eq_nil_iff (f := f ∘ fun e => Entry.msg w e false) |>.mpr (fun e _ => h3 w e),
      List.filterMap_eq_nil_iff (f := f ∘ fun e => Entry.msg w' e false) |>.mpr (fun e _ => h3 w' e), List.nil_append,
      List.nil_append, List.filterMap_congr (f := f ∘ fun e => Entry.msg w e true) (g := fun e => some (g e)) (fun e he => h1 e he),
      List.filterMap_congr (f := f ∘ fun e => Entry.msg w' e true) (g := fun e => some (g' e)) (fun e he => h2 e he)] at this
    simpa [List.filterMap_eq_map] using this
  refine ⟨hp, k2.trans k2'.symm, ⟨_, k3, k3'⟩, ?_, ?_, ?_⟩
  · have := key (Nat × Int × Nat) (fun x => match x.2 with | .noteOn _ k v => some (x.1, (k : Int), v) | _ => none)
      (fun e => (e.onTime w.ppq, e.2.tone.pitch + w.middleCDelta, velByte e.2.velocity))
      (fun e => (e.onTime w'.ppq, e.2.tone.pitch + w'.middleCDelta, velByte e.2.velocity))
      (fun e he => by simp only [Entry.msg]; rw [Int.toNat_of_nonneg (hpit e he).1]; rfl)
      (fun e he => by simp only [Entry.msg]; rw [Int.toNat_of_nonneg (hpit' e he).1]; rfl) (fun v e => rfl)
    rw [← Track.items_placed S t, ← Track.items_placed S t', Multiset.map_coe, Multiset.map_coe, List.map_map, List.map_map]
    exact Multiset.coe_eq_coe.mpr this
  · have := key' (Nat × Int) (fun x => match x.2 with | .noteOff _ k _ => some (x.1, (k : Int)) | _ => none)
      (fun e => (e.offTime w.ppq, e.2.tone.pitch + w.middleCDelta))
      (fun e => (e.offTime w'.ppq, e.2.tone.pitch + w'.middleCDelta))
      (fun e he => by simp only [Entry.msg]; rw [Int.toNat_of_nonneg (hpit e he).1]; rfl)
      (fun e he => by simp only [Entry.msg]; rw [Int.toNat_of_nonneg (hpit' e he).1]; rfl) (fun v e => rfl)
    rw [← Track.items_placed S t, ← Track.items_placed S t', Multiset.map_coe, Multiset.map_coe, List.map_map, List.map_map]
    exact Multiset.coe_eq_coe.mpr this
  · intro hne
    have := key Nat (fun x => match x.2 with | .noteOn c _ _ => some c | _ => none) (fun _ => w.channel.toNat)
      (fun _ => w'.channel.toNat) (fun e _ => rfl) (fun e _ => rfl) (fun v e => rfl)
    cases hi : t.items S with
    | nil =>
      exfalso; apply hne
      rw [← Track.items_placed S t, hi]; rfl
    | cons e l =>
      have hm : w.channel.toNat ∈ (t.items S).map (fun _ => w.channel.toNat) := by rw [hi]; simp
      have hm := this.mem_iff.mp hm
      obtain ⟨e', -, he'⟩ := List.mem_map.mp hm
      have := hw.chanMin; have := hw'.chanMin
      omega

/-- Two notes of one pitch at one position, of different lengths and velocities, added in the two orders. -/
def exLongFirst : Track := (Track.empty ⟨4, 4⟩).run cpySort
  [.add (.note ⟨⟨40⟩, ⟨1, 1⟩, 1⟩) (some (.ints [0, 1])), .add (.note ⟨⟨40⟩, ⟨1, 4⟩, 1 / 2⟩) (some (.ints [0, 1]))]
def exShortFirst : Track := (Track.empty ⟨4, 4⟩).run cpySort
  [.add (.note ⟨⟨40⟩, ⟨1, 4⟩, 1 / 2⟩) (some (.ints [0, 1])), .add (.note ⟨⟨40⟩, ⟨1, 1⟩, 1⟩) (some (.ints [0, 1]))]

omit [UnicodeDigits] in
/-- C68 is violated: the two tracks with the same time signature and the same notes are written to different files. -/
theorem C68_violated : exLongFirst.contents = exShortFirst.contents ∧ exLongFirst.signature = exShortFirst.signature ∧
    ∃ bytes bytes', exWriter.dumps cpySort exLongFirst = .ok bytes ∧ exWriter.dumps cpySort exShortFirst = .ok bytes' ∧
      bytes ≠ bytes' := by
  refine ⟨by decide +kernel, by decide +kernel, ?_⟩
  obtain ⟨bytes, h1, h2⟩ := okAnd_iff (x := exWriter.dumps cpySort exLongFirst)
    (p := fun x => okAnd (exWriter.dumps cpySort exShortFirst) (fun y => decide (x ≠ y))) (by decide +kernel)
  obtain ⟨bytes', h3, h4⟩ := okAnd_iff h2
  exact ⟨bytes, bytes', h1, h3, of_decide_eq_true h4⟩

/-- Two ways to build the same music: other order, positions and durations spelled differently, observed. -/
def exBuilt : Track := (Track.empty ⟨4, 4⟩).run cpySort [.add (.note (exNote 40 1 4)) none,
  .add (.note (exNote 43 1 8)) (some (.ints [1, 2]))]
def exRebuilt : Track := (Track.empty ⟨4, 4⟩).run cpySort [.add (.note (exNote 43 2 16)) (some (.ints [8, 16])), .iterate,
  .add (.note (exNote 40 2 8)) (some (.ints [0, 2])), .peek]

omit [UnicodeDigits] in
example : exBuilt.contents ≠ exRebuilt.contents ∧
    (∃ bytes, exWriter.dumps cpySort exBuilt = .ok bytes ∧ exWriter.dumps cpySort exRebuilt = .ok bytes) ∧
    exBuilt.contents.map (fun p => (p.1, p.2.tone.pitch, p.2.duration.val, p.2.velocity)) =
      exRebuilt.contents.map (fun p => (p.1, p.2.tone.pitch, p.2.duration.val, p.2.velocity)) := by
  refine ⟨by decide +kernel, ?_, by decide +kernel⟩
  obtain ⟨bytes, h1, h2⟩ := okAnd_iff (x := exWriter.dumps cpySort exBuilt)
    (p := fun x => okAnd (exWriter.dumps cpySort exRebuilt) (fun y => decide (x = y))) (by decide +kernel)
  obtain ⟨bytes', h3, h4⟩ := okAnd_iff h2
  exact ⟨bytes, h1, by rw [of_decide_eq_true h4]; exact h3⟩

end Melodia
