/-
Property theorems C41-C44, C52 and C53: writing a track and reading it back (src/melodia/io/midi.py).

`S` is any sort meeting the contract of `list.sort`; the vocabulary is in Spec/RoundTrip.lean.
-/
import Verif.Lemmas.RoundTrip

set_option autoImplicit false

namespace Melodia

variable [UnicodeDigits]

/-- The call returns a value satisfying `p`. -/
def okAnd {α : Type} (x : PyM α) (p : α → Bool) : Bool :=
  match x with
  | .ok a => p a
  | .error _ => false

omit [UnicodeDigits] in
theorem okAnd_iff {α : Type} {x : PyM α} {p : α → Bool} (h : okAnd x p = true) : ∃ a, x = .ok a ∧ p a = true := by
  rcases x with e | a
  · cases h
  · exact ⟨a, rfl, h⟩

/-! ### C41 -/

/-- C41: for every dump, every strict prefix is rejected with MIDIParsingError, by every reader and for
every channel argument. -/
theorem C41_truncated (S : ListSort) (w : Writer) (hw : w.Valid) (t : Track) (ht : t.Reachable S)
    (bytes : Bytes) (h : w.dumps S t = .ok bytes) (p : Bytes) (hp : p <+: bytes) (hne : p ≠ bytes)
    (m : MidiReader) (channel : Option Int) : m.loads S p channel = .error .parsingError := by
  obtain ⟨es, body, hf, hb, -, -, hq, -⟩ := dumps_file hw ht.wf h
  obtain ⟨rest, rfl⟩ := hp
  refine MidiReader.load_short S m hf hb (by omega) rfl (Or.inl ?_) channel
  rintro rfl
  exact hne (List.append_nil p).symm

omit [UnicodeDigits] in
/-- C41: a dump has at least 41 bytes, so there are such prefixes; here two of them. -/
example : exWriter.Valid ∧ exTrack.Reachable cpySort ∧ ∃ bytes, exWriter.dumps cpySort exTrack = .ok bytes ∧
    bytes.take 40 <+: bytes ∧ bytes.take 40 ≠ bytes ∧ [] <+: bytes ∧ [] ≠ bytes := by
  obtain ⟨bytes, h1, h2⟩ := okAnd_iff (x := exWriter.dumps cpySort exTrack)
    (p := fun bytes => decide (bytes.take 40 ≠ bytes ∧ [] ≠ bytes)) (by decide +kernel)
  have h3 := of_decide_eq_true h2
  exact ⟨exWriter_valid, exTrack_reachable, bytes, h1, List.take_prefix _ _, h3.1, List.nil_prefix, h3.2⟩

/-! ### C42 -/

/-- C42: for every track `dump` accepts whose positions and durations are whole pulses, whose velocities are
written as at least 1 and whose notes of one pitch are in turn, reading (without channel, or with the channel
written to) gives a track with an equal time signature and exactly the same notes (`midiNote`: same position,
tone and duration value; velocity floor(127 v)/127). -/
theorem C42_roundtrip (S : ListSort) (ppq : Int) (mc : ToneArg) (bpm : PyFloat) (ch : Int) (w : Writer)
    (hw : Writer.new ppq mc bpm ch = .ok w) (m : MidiReader) (hm : MidiReader.new mc = .ok m)
    (t : Track) (ht : t.Reachable S) (bytes : Bytes) (h : w.dumps S t = .ok bytes)
    (hl : bytes.length < 2 ^ 24 + 22) (h1 : WholePulses ppq t) (h2 : Audible t) (h3 : InTurn S t)
    (channel : Option Int) (hc : ReadableWith w t channel) :
    ∃ t', m.loads S bytes channel = .ok t' ∧ t'.Reachable S ∧ t'.signature.eq t.signature = true ∧
      t'.contents = t.contents.map midiNote := by
  obtain ⟨hv, rfl, -, -, hd⟩ := Writer.new_valid hw
  have hmd : m.middleCDelta = w.middleCDelta := by
    unfold MidiReader.new at hm
    rw [hd] at hm
    cases hm
    rfl
  obtain ⟨t', k1, k2, k3, k4⟩ := (dumps_loads m hv ht.wf h hl channel).1 hc
  obtain ⟨p1, -, p3, -⟩ := Writer.dumps_success hv ht.wf h
  refine ⟨t', k1, k2, ?_, ?_⟩
  · rw [Signature.eq_iff k2.wf.sig ht.wf.sig]
    rcases k3 with k3 | ⟨-, k3, k5⟩
    · rw [k3]
    · rw [k3]
      simp [Signature.val, k5]
  · rw [k4, readNotes_written hv ht.wf p3 p1 h1 h2 h3, hmd, sub_self, shiftPlaced_zero]

/-- C42: the same for notes of which those of one pitch neither overlap nor start at the same position (conditions that
do not mention the order of iteration; for notes of positive duration the second follows from the first). -/
theorem C42_roundtrip_noOverlap (S : ListSort) (ppq : Int) (mc : ToneArg) (bpm : PyFloat) (ch : Int) (w : Writer)
    (hw : Writer.new ppq mc bpm ch = .ok w) (m : MidiReader) (hm : MidiReader.new mc = .ok m)
    (t : Track) (ht : t.Reachable S) (bytes : Bytes) (h : w.dumps S t = .ok bytes)
    (hl : bytes.length < 2 ^ 24 + 22) (h1 : WholePulses ppq t) (h2 : Audible t) (h3 : NoOverlap t)
    (h4 : DistinctStarts t) (channel : Option Int) (hc : ReadableWith w t channel) :
    ∃ t', m.loads S bytes channel = .ok t' ∧ t'.Reachable S ∧ t'.signature.eq t.signature = true ∧
      t'.contents = t.contents.map midiNote :=
  C42_roundtrip S ppq mc bpm ch w hw m hm t ht bytes h hl h1 h2 (inTurn_of_noOverlap S ht.wf h3 h4) channel hc

/-- C42: `midi.loads(midi.dumps(track, bpm, channel))` with the default settings (96 pulses, C3 = 60). -/
theorem C42_module_functions (S : ListSort) (bpm : PyFloat) (ch : Int)
    (t : Track) (ht : t.Reachable S) (bytes : Bytes) (h : midiDumps S t bpm ch = .ok bytes)
    (hl : bytes.length < 2 ^ 24 + 22) (h1 : WholePulses 96 t) (h2 : Audible t) (h3 : NoOverlap t)
    (h4 : DistinctStarts t) :
    ∃ t', midiLoads S bytes = .ok t' ∧ t'.Reachable S ∧ t'.signature.eq t.signature = true ∧
      t'.contents = t.contents.map midiNote := by
  unfold midiDumps at h
  rcases hw : Writer.new 96 (.tone ⟨36⟩) bpm ch with e | w
  · rw [hw] at h; cases h
  · rw [hw, pyBind_ok] at h
    have hm : MidiReader.new (.tone ⟨36⟩) = .ok ⟨24⟩ := rfl
    unfold midiLoads
    rw [hm, pyBind_ok]
    exact C42_roundtrip_noOverlap S 96 _ bpm ch w hw _ hm t ht bytes h hl h1 h2 h3 h4 none (Or.inl rfl)

/-- C42: any other channel argument raises ValueError. -/
theorem C42_other_channel (S : ListSort) (w : Writer) (hw : w.Valid) (t : Track) (ht : t.Reachable S)
    (bytes : Bytes) (h : w.dumps S t = .ok bytes) (hl : bytes.length < 2 ^ 24 + 22) (m : MidiReader)
    (channel : Option Int) (hc : ¬ ReadableWith w t channel) : m.loads S bytes channel = .error .valueError :=
  (dumps_loads m hw ht.wf h hl channel).2 hc

omit [UnicodeDigits] in
theorem exTrack_contents : exTrack.contents =
    ({(0, exNote 40 1 4), (1 / 8, exNote 43 1 8), (5 / 4, exNote 40 1 4)} : Multiset (ℚ × Note)) := by
  decide +kernel

omit [UnicodeDigits] in
/-- The example track meets the conditions: whole pulses, audible, in turn, distinct starts, no overlap. -/
theorem exTrack_conditions : WholePulses 96 exTrack ∧ Audible exTrack ∧ InTurn cpySort exTrack ∧ DistinctStarts exTrack ∧
    NoOverlap exTrack := by
  have hs : ∀ p ∈ exTrack.contents, 0 < p.2.duration.val := by decide +kernel
  suffices h : WholePulses 96 exTrack ∧ Audible exTrack ∧ InTurn cpySort exTrack ∧ NoOverlap exTrack from
    ⟨h.1, h.2.1, h.2.2.1, distinctStarts_of h.2.2.2 hs, h.2.2.2⟩
  refine ⟨?_, ?_, ?_, ?_⟩
  · unfold WholePulses
    rw [exTrack_contents]
    intro p hp
    simp only [Multiset.insert_eq_cons, Multiset.mem_cons, Multiset.mem_singleton] at hp
    rcases hp with rfl | rfl | rfl
    · exact ⟨⟨0, by norm_num⟩, ⟨96, by norm_num [exNote, Signature.val]⟩⟩
    · exact ⟨⟨48, by norm_num⟩, ⟨48, by norm_num [exNote, Signature.val]⟩⟩
    · exact ⟨⟨480, by norm_num⟩, ⟨96, by norm_num [exNote, Signature.val]⟩⟩
  · unfold Audible; decide +kernel
  · unfold InTurn; decide +kernel
  · intro a b hab hp
    have ha : a ∈ exTrack.contents := Multiset.mem_of_le hab (by simp)
    have hb : b ∈ exTrack.contents := Multiset.mem_of_le hab (by simp)
    have hne : a ≠ b := by
      rintro rfl
      have := Multiset.nodup_of_le hab (by decide +kernel)
      simp at this
    rw [exTrack_contents] at ha hb
    simp only [Multiset.insert_eq_cons, Multiset.mem_cons, Multiset.mem_singleton] at ha hb
    rcases ha with rfl | rfl | rfl <;> rcases hb with rfl | rfl | rfl <;>
      first
        | exact absurd rfl hne
        | exact absurd hp (by decide)
        | (norm_num [noteEnd, exNote, Signature.val])

omit [UnicodeDigits] in
example : (∃ w, @Writer.new ⟨fun _ => none⟩ 96 (.tone ⟨36⟩) (.fin 120) 3 = .ok w ∧
      ∃ bytes, w.dumps cpySort exTrack = .ok bytes ∧ bytes.length = 66) ∧
    (∃ m, @MidiReader.new ⟨fun _ => none⟩ (.tone ⟨36⟩) = .ok m) ∧ ReadableWith exWriter exTrack (some 3) :=
  ⟨⟨_, rfl, (okAnd_iff (p := fun bytes => decide (bytes.length = 66)) (by decide +kernel)).imp
      (fun _ h => ⟨h.1, of_decide_eq_true h.2⟩)⟩, ⟨_, rfl⟩, Or.inr (Or.inl ⟨by decide +kernel, rfl⟩)⟩

/-! ### C43 -/

omit [UnicodeDigits] in
/-- C43 is violated by the rounding of velocities: the track with the single note of velocity 1/2 is not equal
to the track read back. -/
theorem C43_violated : ∃ (t t' : Track) (bytes : Bytes), t.Reachable cpySort ∧
    @midiDumps ⟨fun _ => none⟩ cpySort t (.fin 120) 0 = .ok bytes ∧
    @midiLoads ⟨fun _ => none⟩ cpySort bytes none = .ok t' ∧ t'.eq cpySort t = false := by
  refine ⟨(Track.empty ⟨4, 4⟩).run cpySort [.add (.note ⟨⟨40⟩, ⟨1, 4⟩, 1 / 2⟩) none], ?_⟩
  obtain ⟨bytes, h1, h⟩ := okAnd_iff (x := @midiDumps ⟨fun _ => none⟩ cpySort
    ((Track.empty ⟨4, 4⟩).run cpySort [.add (.note ⟨⟨40⟩, ⟨1, 4⟩, 1 / 2⟩) none]) (.fin 120) 0)
    (p := fun b => okAnd (@midiLoads ⟨fun _ => none⟩ cpySort b none) (fun t' => !(t'.eq cpySort
      ((Track.empty ⟨4, 4⟩).run cpySort [.add (.note ⟨⟨40⟩, ⟨1, 4⟩, 1 / 2⟩) none])))) (by decide +kernel)
  obtain ⟨t', h2, h3⟩ := okAnd_iff h
  rw [Bool.not_eq_true'] at h3
  refine ⟨t', bytes, ⟨⟨4, 4⟩, _, ⟨by decide, 2, rfl⟩, ?_, rfl⟩, h1, h2, h3⟩
  intro o ho
  rw [List.mem_singleton] at ho
  subst ho
  refine ⟨?_, by intro a ha; cases ha⟩
  intro n hn
  simp [What.notes] at hn
  subst hn
  exact ⟨⟨by decide, 2, rfl⟩, by norm_num, by norm_num⟩

/-- Two overlapping notes of one pitch, and a note of velocity 1/200. -/
def exLossTrack : Track := (Track.empty ⟨4, 4⟩).run cpySort
  [.add (.note (exNote 40 1 2)) none, .add (.note (exNote 40 1 2)) (some (.ints [1, 4])),
   .add (.note ⟨⟨45⟩, ⟨1, 4⟩, 1 / 200⟩) none]

omit [UnicodeDigits] in
/-- C43 is violated by lost notes: of three notes written one is read back (`==` does not notice, see C25). -/
theorem C43_lost_violated : exLossTrack.Reachable cpySort ∧ exLossTrack.len = 3 ∧ ∃ (t' : Track) (bytes : Bytes),
    @midiDumps ⟨fun _ => none⟩ cpySort exLossTrack (.fin 120) 0 = .ok bytes ∧
    @midiLoads ⟨fun _ => none⟩ cpySort bytes none = .ok t' ∧ t'.len = 1 := by
  refine ⟨⟨⟨4, 4⟩, _, ⟨by decide, 2, rfl⟩, ?_, rfl⟩, by decide +kernel, ?_⟩
  · intro o ho
    simp only [List.mem_cons, List.not_mem_nil, or_false] at ho
    rcases ho with rfl | rfl | rfl
    · exact ⟨by intro n hn; simp [What.notes] at hn; exact hn ▸ exNote_valid 40 1 1 (by decide), by intro a ha; cases ha⟩
    · exact ⟨by intro n hn; simp [What.notes] at hn; exact hn ▸ exNote_valid 40 1 1 (by decide),
        by intro a ha; cases ha; trivial⟩
    · refine ⟨?_, by intro a ha; cases ha⟩
      intro n hn
      simp [What.notes] at hn
      subst hn
      exact ⟨⟨by decide, 2, rfl⟩, by norm_num, by norm_num⟩
  · obtain ⟨bytes, h1, h⟩ := okAnd_iff (x := @midiDumps ⟨fun _ => none⟩ cpySort exLossTrack (.fin 120) 0)
      (p := fun b => okAnd (@midiLoads ⟨fun _ => none⟩ cpySort b none) (fun t' => decide (t'.len = 1)))
      (by decide +kernel)
    obtain ⟨t', h2, h3⟩ := okAnd_iff h
    exact ⟨t', bytes, h1, h2, of_decide_eq_true h3⟩

/-- C43 (partial: describes what is read instead of equality with the track): for every dump below 16 MiB of any
track, overlapping or not, reading succeeds and gives the notes that the pairing rule of C49 (`readNotes`) finds
in the note-ons and note-offs of the track, sorted by time. -/
theorem C43_exact_partial (S : ListSort) (w : Writer) (hw : w.Valid) (m : MidiReader) (t : Track)
    (ht : t.Reachable S) (bytes : Bytes) (h : w.dumps S t = .ok bytes) (hl : bytes.length < 2 ^ 24 + 22) :
    ∃ t' ms, m.loads S bytes none = .ok t' ∧ t'.signature.eq t.signature = true ∧
      Arranged w (t.items S) ms ∧ ms.Pairwise (fun a b => a.1 ≤ b.1) ∧
      t'.contents = readNotes m.middleCDelta w.ppq.toNat (ms.map Msg.noteEv) := by
  obtain ⟨t', k1, k2, k3, k4⟩ := (dumps_loads m hw ht.wf h hl none).1 (Or.inl rfl)
  refine ⟨t', _, k1, ?_, Writer.arranged_sortedMsgs w (t.items S), Writer.sortedMsgs_sorted w _, k4⟩
  rw [Signature.eq_iff k2.wf.sig ht.wf.sig]
  rcases k3 with k3 | ⟨-, k3, k5⟩
  · rw [k3]
  · rw [k3]
    simp [Signature.val, k5]

/-- C43 (partial: only for whole pulses, notes of one pitch neither overlapping nor starting together, and velocities
that are rounded multiples of 1/127): the track read back is equal to the track, and has as many notes. -/
theorem C43_equal_partial (S : ListSort) (ppq : Int) (mc : ToneArg) (bpm : PyFloat) (ch : Int) (w : Writer)
    (hw : Writer.new ppq mc bpm ch = .ok w) (m : MidiReader) (hm : MidiReader.new mc = .ok m)
    (t : Track) (ht : t.Reachable S) (bytes : Bytes) (h : w.dumps S t = .ok bytes)
    (hl : bytes.length < 2 ^ 24 + 22) (h1 : WholePulses ppq t) (h2 : NoOverlap t) (h3 : DistinctStarts t)
    (h4 : ∀ p ∈ t.contents, ∃ k : Nat, 1 ≤ k ∧ k ≤ 127 ∧ p.2.velocity = fl ((k : ℚ) / 127)) :
    ∃ t', m.loads S bytes none = .ok t' ∧ t'.eq S t = true ∧ t'.len = t.len := by
  have hvel : ∀ p ∈ t.contents, 1 ≤ velByte p.2.velocity ∧ p.2.velocity = fl ((velByte p.2.velocity : ℚ) / 127) := by
    intro p hp
    obtain ⟨k, k1, k2, k3⟩ := h4 p hp
    rw [k3, velByte_fl k2]
    exact ⟨k1, rfl⟩
  obtain ⟨t', e1, e2, e3, e4⟩ := C42_roundtrip_noOverlap S ppq mc bpm ch w hw m hm t ht bytes h hl h1
    (fun p hp => (hvel p hp).1) h2 h3 none (Or.inl rfl)
  refine ⟨t', e1, ?_, by rw [Track.len_eq_card, Track.len_eq_card, e4, Multiset.card_map]⟩
  rw [Signature.eq_iff e2.wf.sig ht.wf.sig] at e3
  rw [Track.eq_iff S e2.wf ht.wf]
  refine ⟨e3, ?_⟩
  rw [items_key_eq_of S e2.wf ht.wf ?_ (by rw [e4]; exact consistent_midi h3) (consistent_of h3)]
  rw [e4, Multiset.map_map]
  apply Multiset.map_congr rfl
  intro p hp
  obtain ⟨e, he, rfl⟩ : ∃ e ∈ t.heap, e.placed = p := by
    unfold Track.contents at hp
    exact List.mem_map.1 (Multiset.mem_coe.1 hp)
  have hv := (ht.wf.entries e he).2.2
  have l := (Signature.lowest_spec hv.duration.nom hv.duration.den).2.1
  have v := (hvel _ hp).2
  change toLex (_, toLex (_, toLex ((Signature.lowest e.2.duration.nominator e.2.duration.denominator).val,
    fl ((velByte e.placed.2.velocity : ℚ) / 127)))) = _
  rw [l, ← v]
  rfl

omit [UnicodeDigits] in
/-- C43: the velocities of the example track are multiples of 1/127; the other hypotheses are checked under C42. -/
example : ∀ p ∈ exTrack.contents, ∃ k : Nat, 1 ≤ k ∧ k ≤ 127 ∧ p.2.velocity = fl ((k : ℚ) / 127) := by
  rw [exTrack_contents]
  intro p hp
  simp only [Multiset.insert_eq_cons, Multiset.mem_cons, Multiset.mem_singleton] at hp
  have : (1 : ℚ) = fl ((127 : Nat) / 127) := by decide +kernel
  refine ⟨127, by decide, by decide, ?_⟩
  rw [← this]
  rcases hp with rfl | rfl | rfl <;> rfl

/-! ### C44 -/

/-- C44 is violated by all large files: no dump with a track body of 2^24 bytes or more can be read. -/
theorem C44_large_violated (S : ListSort) (w : Writer) (hw : w.Valid) (t : Track) (ht : t.Reachable S)
    (bytes : Bytes) (h : w.dumps S t = .ok bytes) (hl : 2 ^ 24 + 22 ≤ bytes.length)
    (m : MidiReader) (channel : Option Int) : m.loads S bytes channel = .error .parsingError := by
  obtain ⟨es, body, hf, hb, h1, -, hq, -⟩ := dumps_file hw ht.wf h
  exact MidiReader.load_short S m hf hb (by omega) (List.append_nil _).symm (Or.inr (by omega)) channel

omit [UnicodeDigits] in
/-- Dumps get arbitrarily large: `n` notes take at least `8 n` bytes. -/
theorem exists_large_dump (S : ListSort) (n : Nat) (hn28 : n ≤ 2 ^ 28) :
    ∃ (t : Track) (bytes : Bytes), t.Reachable S ∧ exWriter.dumps S t = .ok bytes ∧ 8 * n + 22 ≤ bytes.length := by
  have hn := exNote_valid 40 1 2 (by decide)
  have hs : (⟨4, 4⟩ : Signature).Valid := ⟨by decide, 2, rfl⟩
  have hnotes : ∀ k : Nat, What.notesList (List.replicate k (.note (exNote 40 1 4))) =
      List.replicate k (exNote 40 1 4) := by
    intro k
    induction k with
    | zero => rfl
    | succ k ih => rw [List.replicate_succ, List.replicate_succ, What.notesList, ih]; rfl
  have hwv : (What.many (List.replicate n (.note (exNote 40 1 4)))).Valid := by
    intro x h
    rw [What.notes, hnotes] at h
    rw [List.eq_of_mem_replicate h]
    exact hn
  obtain ⟨t, h1, h2, h3, h4⟩ := Track.add_of_pos (Track.empty_wf hs) (pos := some (.sig ⟨0, 1⟩)) (p := ⟨0, 1⟩) hwv
    (by intro a ha; cases ha; exact ⟨by decide, 0, rfl⟩) rfl
  have hr : t.Reachable S := (Track.Reachable.empty hs).add hwv (by intro a ha; cases ha; exact ⟨by decide, 0, rfl⟩) h1
  have hc : ∀ p ∈ t.contents, p = (0, exNote 40 1 4) := by
    intro p hp
    rw [h4, What.notes, hnotes, Multiset.mem_add] at hp
    rcases hp with hp | hp
    · rw [List.map_replicate] at hp
      have := List.eq_of_mem_replicate (Multiset.mem_coe.1 hp)
      rw [this]
      simp [Signature.val]
    · simp [Track.contents, Track.empty] at hp
  have hlen : t.len = n := by
    rw [Track.len_eq_card, h4, What.notes, hnotes]
    simp [Track.contents, Track.empty]
  have hi : ∀ e ∈ t.items S, e.2.PitchOk exWriter.middleCDelta ∧ e.offTime exWriter.ppq < 2 ^ 28 := by
    intro e he
    have := hc _ (mem_contents_items he)
    unfold Entry.placed at this
    rw [Prod.mk.injEq] at this
    unfold Entry.offTime Entry.onTime
    rw [this.1, this.2]
    constructor
    · unfold Note.PitchOk Note.midiPitch; decide
    · decide +kernel
  have ht : TempoFits exWriter.bpm 500000 := ⟨.fin 120 (by norm_num) _ (by decide +kernel), by norm_num⟩
  have hsf : SignatureFits t.signature := by rw [h3]; exact ⟨by decide, by change (4 : Int) < 2 ^ 256; norm_num⟩
  have hsz := Writer.allMsgs_size exWriter t.signature 500000 (t.items S) (fun e he => (hi e he).2)
  have hlo := bodyBytes_lower (Writer.allMsgs exWriter t.signature 500000 (t.items S))
  have hml : (Writer.allMsgs exWriter t.signature 500000 (t.items S)).length = 2 * n + 3 := by
    unfold Writer.allMsgs
    rw [List.length_append, List.length_append, Writer.deltaMsgs_length, Writer.sortedMsgs_length, Track.items_length,
      hlen]
    simp only [List.length_cons, List.length_nil]
    omega
  rw [Track.items_length, hlen] at hsz
  rw [hml] at hlo
  have hd : ∃ bytes, exWriter.dumps S t = .ok bytes := by
    unfold Writer.dumps
    rw [Writer.dump_fits S exWriter_valid h2 [] (fun e he => (hi e he).1) hsf (by decide) ht, if_pos (by omega)]
    exact ⟨_, rfl⟩
  obtain ⟨bytes, hd⟩ := hd
  refine ⟨t, bytes, hr, hd, ?_⟩
  obtain ⟨-, -, -, tempo, ht', -, rfl⟩ := Writer.dumps_success exWriter_valid h2 hd
  have hlo' := bodyBytes_lower (Writer.allMsgs exWriter t.signature tempo (t.items S))
  have hml' : (Writer.allMsgs exWriter t.signature tempo (t.items S)).length = 2 * n + 3 := hml
  rw [hml'] at hlo'
  · rw [List.length_append, headerBytes_length, List.length_append, List.length_append, List.length_reverse, natLE_length]
    change _ ≤ 14 + (4 + 4 + _)
    omega

/-- C44 is violated: there is a track the writer writes and no reader reads. -/
theorem C44_violated (S : ListSort) : ∃ (w : Writer) (t : Track) (bytes : Bytes), w.Valid ∧ t.Reachable S ∧ w.dumps S t = .ok bytes ∧
    ∀ (m : MidiReader) (channel : Option Int), m.loads S bytes channel = .error .parsingError := by
  obtain ⟨t, bytes, h1, h2, h3⟩ := exists_large_dump S (2 ^ 21) (by decide)
  exact ⟨exWriter, t, bytes, exWriter_valid, h1, h2, C44_large_violated S _ exWriter_valid t h1 bytes h2 (by omega)⟩

/-- C44 (partial: only track bodies below 2^24 bytes, the claim goes up to 2^32 - 1): every such dump can be
read; C42, C43_exact_partial say with what result. -/
theorem C44_small_partial (S : ListSort) (w : Writer) (hw : w.Valid) (m : MidiReader) (t : Track)
    (ht : t.Reachable S) (bytes : Bytes) (h : w.dumps S t = .ok bytes) :
    (∃ t', m.loads S bytes none = .ok t') ↔ bytes.length < 2 ^ 24 + 22 := by
  constructor
  · rintro ⟨t', h'⟩
    by_contra hl
    rw [C44_large_violated S w hw t ht bytes h (by omega) m none] at h'
    cases h'
  · intro hl
    obtain ⟨t', k1, -⟩ := (dumps_loads m hw ht.wf h hl none).1 (Or.inl rfl)
    exact ⟨t', k1⟩

/-! ### C52 -/

/-- The track of `C52_violated`: two notes of one pitch at one position, of durations 0/4 and 1/4, and a longer
note of another pitch that begins before them. -/
def exZeroTrack : Track := (Track.empty ⟨4, 4⟩).run cpySort
  [.add (.note (exNote 50 1 1)) none, .add (.many [.note (exNote 40 0 4), .note (exNote 40 1 4)]) (some (.ints [1, 4]))]

omit [UnicodeDigits] in
/-- C52 is violated in a corner case that meets the conditions of C42: a note of zero duration before another of
the same pitch and position. The comparison bug C05 reorders the notes read back. -/
theorem C52_violated : exZeroTrack.Reachable cpySort ∧ WholePulses 96 exZeroTrack ∧ Audible exZeroTrack ∧
    InTurn cpySort exZeroTrack ∧
    ∃ bytes t' bytes', exWriter.dumps cpySort exZeroTrack = .ok bytes ∧
      @MidiReader.loads ⟨fun _ => none⟩ cpySort ⟨24⟩ bytes none = .ok t' ∧
      exWriter.dumps cpySort t' = .ok bytes' ∧ bytes ≠ bytes' := by
  have hc : exZeroTrack.contents =
      ({(0, exNote 50 1 1), (1 / 4, exNote 40 0 4), (1 / 4, exNote 40 1 4)} : Multiset (ℚ × Note)) := by
    decide +kernel
  refine ⟨⟨⟨4, 4⟩, _, ⟨by decide, 2, rfl⟩, ?_, rfl⟩, ?_, ?_, ?_, ?_⟩
  · intro o ho
    simp only [List.mem_cons, List.not_mem_nil, or_false] at ho
    rcases ho with rfl | rfl
    · refine ⟨?_, by intro a ha; cases ha⟩
      intro n hn
      simp [What.notes] at hn
      exact hn ▸ exNote_valid 50 1 0 (by decide)
    · refine ⟨?_, by intro a ha; cases ha; trivial⟩
      intro n hn
      simp [What.notes, What.notesList] at hn
      rcases hn with rfl | rfl
      · exact exNote_valid 40 0 2 (by decide)
      · exact exNote_valid 40 1 2 (by decide)
  · unfold WholePulses
    rw [hc]
    intro p hp
    simp only [Multiset.insert_eq_cons, Multiset.mem_cons, Multiset.mem_singleton] at hp
    rcases hp with rfl | rfl | rfl
    · exact ⟨⟨0, by norm_num⟩, ⟨384, by norm_num [exNote, Signature.val]⟩⟩
    · exact ⟨⟨96, by norm_num⟩, ⟨0, by norm_num [exNote, Signature.val]⟩⟩
    · exact ⟨⟨96, by norm_num⟩, ⟨96, by norm_num [exNote, Signature.val]⟩⟩
  · unfold Audible; decide +kernel
  · unfold InTurn; decide +kernel
  · obtain ⟨bytes, h1, h⟩ := okAnd_iff (x := exWriter.dumps cpySort exZeroTrack)
      (p := fun b => okAnd (@MidiReader.loads ⟨fun _ => none⟩ cpySort ⟨24⟩ b none)
        (fun t' => okAnd (exWriter.dumps cpySort t') (fun b' => decide (b ≠ b')))) (by decide +kernel)
    obtain ⟨t', h2, h⟩ := okAnd_iff h
    obtain ⟨bytes', h3, h⟩ := okAnd_iff h
    exact ⟨bytes, t', bytes', h1, h2, h3, of_decide_eq_true h⟩

/-- C52 (partial: only notes of one pitch neither overlapping nor starting together, and a time signature other than
0/n): saving the track read back gives the same bytes. -/
theorem C52_resave_partial (S : ListSort) (ppq : Int) (mc : ToneArg) (bpm : PyFloat) (ch : Int) (w : Writer)
    (hw : Writer.new ppq mc bpm ch = .ok w) (m : MidiReader) (hm : MidiReader.new mc = .ok m)
    (t : Track) (ht : t.Reachable S) (bytes : Bytes) (h : w.dumps S t = .ok bytes)
    (hl : bytes.length < 2 ^ 24 + 22) (h1 : WholePulses ppq t) (h2 : Audible t) (h3 : NoOverlap t)
    (h4 : DistinctStarts t) (h5 : t.signature.nominator ≠ 0) (channel : Option Int) (hc : ReadableWith w t channel) :
    ∃ t', m.loads S bytes channel = .ok t' ∧ w.dumps S t' = .ok bytes := by
  obtain ⟨t', e1, e2, -, e4⟩ := C42_roundtrip_noOverlap S ppq mc bpm ch w hw m hm t ht bytes h hl h1 h2 h3 h4 channel hc
  obtain ⟨hv, -⟩ := Writer.new_valid hw
  obtain ⟨t'', k1, -, k3, -⟩ := (dumps_loads m hv ht.wf h hl channel).1 hc
  rw [e1] at k1
  cases k1
  refine ⟨t', e1, dumps_congr S hv ht.wf e2.wf ?_ (msgKeys_eq S ht.wf e2.wf h4 e4) h⟩
  rcases k3 with k3 | ⟨-, -, k5⟩
  · exact k3
  · exact absurd k5 h5

omit [UnicodeDigits] in
/-- C52: the remaining hypothesis for the example track. -/
example : exTrack.signature.nominator ≠ 0 := by decide +kernel

/-! ### C53 -/

/-- C53 (first half, and both at once): written with middle C at tone `a` and read with middle C at tone `b`, the
notes are those of the track (`midiNote`) with all tones shifted by `b - a`; so they are restored if `a = b`. -/
theorem C53_roundtrip_shift (S : ListSort) (ppq a b : Int) (bpm : PyFloat) (ch : Int) (w : Writer)
    (hw : Writer.new ppq (.tone ⟨a⟩) bpm ch = .ok w) (m : MidiReader) (hm : MidiReader.new (.tone ⟨b⟩) = .ok m)
    (t : Track) (ht : t.Reachable S) (bytes : Bytes) (h : w.dumps S t = .ok bytes)
    (hl : bytes.length < 2 ^ 24 + 22) (h1 : WholePulses ppq t) (h2 : Audible t) (h3 : InTurn S t)
    (channel : Option Int) (hc : ReadableWith w t channel) :
    ∃ t', m.loads S bytes channel = .ok t' ∧ t'.signature.eq t.signature = true ∧
      t'.contents = (t.contents.map midiNote).map (shiftPlaced (b - a)) := by
  have hm0 : MidiReader.new (.tone ⟨a⟩) = .ok ⟨60 - a⟩ := rfl
  obtain ⟨t', e1, e2, e3, e4⟩ := C42_roundtrip S ppq _ bpm ch w hw _ hm0 t ht bytes h hl h1 h2 h3 channel hc
  rcases C53_middle_c_shift S a b hm0 hm bytes channel with ⟨e, k1, -⟩ | ⟨u, u', k1, k2, k3, k4⟩
  · rw [e1] at k1; cases k1
  · rw [e1] at k1
    cases k1
    exact ⟨u', k2, by rw [k3]; exact e3, by rw [k4, e4]⟩

end Melodia
