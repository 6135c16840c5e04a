/-
C75: writing and reading back as a whole, with conditions on the music only.
-/
import Verif.Props.RoundTrip
import Verif.Lemmas.Playback

set_option autoImplicit false

namespace Melodia

/-- A tempo of at least four quarters per minute fits the file. -/
theorem tempoFits_of_ge {q : ℚ} (hq : 4 ≤ q) : ∃ t : Nat, TempoFits (.fin q) t := by
  have hT : 0 ≤ 60000000 / q := by positivity
  have hle : 60000000 / q ≤ ((15000000 : Nat) : ℚ) := by
    rw [div_le_iff₀ (by linarith)]; push_cast; linarith
  have hfl : fl (60000000 / q) ≤ 15000000 := by
    have := fl_mono hT hle
    rw [fl_nat (by norm_num)] at this
    exact_mod_cast this
  have h0 : 0 ≤ ⌊fl (60000000 / q)⌋ := Int.floor_nonneg.2 (fl_nonneg hT)
  refine ⟨⌊fl (60000000 / q)⌋.toNat, .fin q (by positivity) _ ?_, ?_⟩
  · rw [if_pos (fl_nonneg hT), Int.toNat_of_nonneg h0]
  · have : ⌊fl (60000000 / q)⌋ ≤ 15000000 := by
      have := Int.floor_le (fl (60000000 / q))
      have h : ((⌊fl (60000000 / q)⌋ : Int) : ℚ) ≤ ((15000000 : Int) : ℚ) := by push_cast; linarith
      exact_mod_cast h
    omega

/-- The track data for few enough notes ending within 2^28 pulses stays below 16 MiB. -/
theorem Writer.body_small {S : ListSort} {w : Writer} (hw : w.Valid) {t : Track} (ht : t.WF) (hn : t.len ≤ 1198370)
    (he : ∀ p ∈ t.contents, 4 * w.ppq * (p.1 + p.2.duration.val) < 2 ^ 28) (tempo : Nat) :
    (Writer.bodyBytes (Writer.allMsgs w t.signature tempo (t.items S))).length < 2 ^ 24 := by
  have hs := Writer.allMsgs_size w t.signature tempo (t.items S) (by
    intro e hm
    obtain ⟨v1, v2⟩ := Track.items_valid S ht e hm
    obtain ⟨-, b, -⟩ := C36_note_times w hw e v1 v2
    have := he e.placed (mem_contents_items hm)
    simp only [Entry.placed] at this
    have hlt : ((Entry.msg w e true).1 : ℚ) < 2 ^ 28 := by linarith [b.1]
    exact_mod_cast hlt)
  rw [Track.items_length] at hs
  omega

/-- Such tracks are written to files the reader takes. -/
theorem Writer.dumps_small {S : ListSort} {w : Writer} (hw : w.Valid) {t : Track} (ht : t.WF) {bytes : Bytes}
    (h : w.dumps S t = .ok bytes) (hn : t.len ≤ 1198370)
    (he : ∀ p ∈ t.contents, 4 * w.ppq * (p.1 + p.2.duration.val) < 2 ^ 28) : bytes.length < 2 ^ 24 + 22 := by
  obtain ⟨h1, h2, h3, tempo, h4, h5, rfl⟩ := Writer.dumps_success hw ht h
  have hs := Writer.body_small (S := S) hw ht hn he tempo
  rw [List.length_append, List.length_append, List.length_append, headerBytes_length, List.length_reverse, natLE_length]
  change 14 + (4 + 4 + _) < _
  omega

variable [UnicodeDigits]

/-- C75: `midi.loads(midi.dumps(track, bpm, channel))` gives the same music back, for every track of at most
1198370 notes ending within 699050 whole notes, on the grid of 1/384 (1/96 of a quarter), with tones from C-2
to G8, audible notes not overlapping and not starting together in one pitch, a time signature with nominator below
256, and a tempo of at least 4. No condition mentions files, bytes or the order of notes. -/
theorem C75_roundtrip (S : ListSort) (q : ℚ) (hq : 4 ≤ q) (ch : Int) (hc0 : 0 ≤ ch) (hc1 : ch ≤ 15)
    (t : Track) (ht : t.Reachable S) (hn : t.len ≤ 1198370)
    (hsig : t.signature.nominator < 256 ∧ t.signature.denominator < 2 ^ 256)
    (htone : ∀ p ∈ t.contents, -24 ≤ p.2.tone.pitch ∧ p.2.tone.pitch ≤ 103)
    (hend : ∀ p ∈ t.contents, p.1 + p.2.duration.val ≤ 699050)
    (h1 : WholePulses 96 t) (h2 : Audible t) (h3 : NoOverlap t) (h4 : DistinctStarts t) :
    ∃ bytes t', midiDumps S t (.fin q) ch = .ok bytes ∧ midiLoads S bytes = .ok t' ∧
      t'.signature.eq t.signature = true ∧ t'.contents = t.contents.map midiNote := by
  obtain ⟨tempo, hb⟩ := tempoFits_of_ge hq
  have hw : Writer.new 96 (.tone ⟨36⟩) (.fin q) ch = .ok ⟨96, 384, 24, .fin q, ch⟩ := by
    unfold Writer.new
    rw [if_neg (by decide), if_neg (by simp [hc0, hc1])]
    rfl
  have hv : (⟨96, 384, 24, .fin q, ch⟩ : Writer).Valid := (Writer.new_valid hw).1
  have hpitch : TonesFit ⟨96, 384, 24, .fin q, ch⟩ t := by
    intro p hp
    obtain ⟨a, b⟩ := htone p hp
    unfold Note.PitchOk Note.midiPitch
    constructor
    · change 0 ≤ p.2.tone.pitch + 24; omega
    · change p.2.tone.pitch + 24 ≤ 127; omega
  have hend' : ∀ p ∈ t.contents, 4 * ((96 : Int) : ℚ) * (p.1 + p.2.duration.val) < 2 ^ 28 := by
    intro p hp
    have := hend p hp
    push_cast
    norm_num at *
    linarith
  have hd : ∃ bytes, midiDumps S t (.fin q) ch = .ok bytes := by
    unfold midiDumps
    rw [hw, pyBind_ok]
    unfold Writer.dumps
    rw [Writer.dump_fits S hv ht.wf [] ((tonesFit_iff (S := S)).1 hpitch) hsig (by change (96 : Int) ≤ 255; omega) hb,
      if_pos (lt_trans (Writer.body_small hv ht.wf hn hend' tempo) (by norm_num))]
    exact ⟨_, rfl⟩
  obtain ⟨bytes, hd⟩ := hd
  have hd' := hd
  unfold midiDumps at hd'
  rw [hw, pyBind_ok] at hd'
  obtain ⟨t', k1, -, k2, k3⟩ := C42_module_functions S (.fin q) ch t ht bytes hd
    (Writer.dumps_small hv ht.wf hd' hn hend') h1 h2 h3 h4
  exact ⟨bytes, t', hd, k1, k2, k3⟩

/-- C75: with velocities that are multiples of 1/127 (rounded to floats), the track read back is equal to the track
written, in both directions, and has as many notes. -/
theorem C75_equal (S : ListSort) (q : ℚ) (hq : 4 ≤ q) (ch : Int) (hc0 : 0 ≤ ch) (hc1 : ch ≤ 15)
    (t : Track) (ht : t.Reachable S) (hn : t.len ≤ 1198370)
    (hsig : t.signature.nominator < 256 ∧ t.signature.denominator < 2 ^ 256)
    (htone : ∀ p ∈ t.contents, -24 ≤ p.2.tone.pitch ∧ p.2.tone.pitch ≤ 103)
    (hend : ∀ p ∈ t.contents, p.1 + p.2.duration.val ≤ 699050)
    (h1 : WholePulses 96 t) (h2 : ∀ p ∈ t.contents, ∃ k : Nat, 1 ≤ k ∧ k ≤ 127 ∧ p.2.velocity = fl ((k : ℚ) / 127))
    (h3 : NoOverlap t) (h4 : DistinctStarts t) :
    ∃ bytes t', midiDumps S t (.fin q) ch = .ok bytes ∧ midiLoads S bytes = .ok t' ∧ t'.Reachable S ∧
      t'.eq S t = true ∧ t.eq S t' = true ∧ t'.len = t.len := by
  have hau : Audible t := by
    intro p hp
    obtain ⟨k, k1, k2, k3⟩ := h2 p hp
    rw [k3, velByte_fl k2]
    exact k1
  obtain ⟨bytes, t', hd, k1, -, -⟩ := C75_roundtrip S q hq ch hc0 hc1 t ht hn hsig htone hend h1 hau h3 h4
  have hw : Writer.new 96 (.tone ⟨36⟩) (.fin q) ch = .ok ⟨96, 384, 24, .fin q, ch⟩ := by
    unfold Writer.new
    rw [if_neg (by decide), if_neg (by simp [hc0, hc1])]
    rfl
  have hv : (⟨96, 384, 24, .fin q, ch⟩ : Writer).Valid := (Writer.new_valid hw).1
  have hend' : ∀ p ∈ t.contents, 4 * ((96 : Int) : ℚ) * (p.1 + p.2.duration.val) < 2 ^ 28 := by
    intro p hp
    have := hend p hp
    push_cast
    norm_num at *
    linarith
  have hd' := hd
  unfold midiDumps at hd'
  rw [hw, pyBind_ok] at hd'
  have hm : MidiReader.new (.tone ⟨36⟩) = .ok ⟨24⟩ := rfl
  have hsmall := Writer.dumps_small hv ht.wf hd' hn hend'
  have k1' := k1
  unfold midiLoads at k1'
  rw [hm, pyBind_ok] at k1'
  obtain ⟨u, g1, g2, g3⟩ := C43_equal_partial S 96 _ (.fin q) ch _ hw _ hm t ht bytes hd' hsmall h1 h3 h4 h2
  rw [k1'] at g1
  cases g1
  obtain ⟨u, e1, e2, -⟩ := C42_roundtrip_noOverlap S 96 _ (.fin q) ch _ hw _ hm t ht bytes hd' hsmall h1 hau h3 h4 none
    (Or.inl rfl)
  rw [k1'] at e1
  cases e1
  refine ⟨bytes, t', hd, k1, e2, g2, ?_, g3⟩
  rw [← (C25_refl_symm S t' t e2 ht).2]
  exact g2

/-- C75: the bound on the number of notes is right up to a factor of two: a track of 2^21 notes or more never
comes back, whatever the notes and the configuration. -/
theorem C75_limit (S : ListSort) (w : Writer) (hw : w.Valid) (t : Track) (ht : t.Reachable S) (hn : 2 ^ 21 ≤ t.len)
    (m : MidiReader) (channel : Option Int) (bytes : Bytes) (h : w.dumps S t = .ok bytes) :
    m.loads S bytes channel = .error .parsingError := by
  refine C44_large_violated S w hw t ht bytes h ?_ m channel
  obtain ⟨-, -, -, tempo, -, -, rfl⟩ := Writer.dumps_success hw ht.wf h
  have hlo := bodyBytes_lower (Writer.allMsgs w t.signature tempo (t.items S))
  have hml : (Writer.allMsgs w t.signature tempo (t.items S)).length = 2 * t.len + 3 := by
    unfold Writer.allMsgs
    rw [List.length_append, List.length_append, Writer.deltaMsgs_length, Writer.sortedMsgs_length,
      Track.items_length]
    simp only [List.length_cons, List.length_nil]
    omega
  rw [List.length_append, List.length_append, List.length_append, headerBytes_length, List.length_reverse, natLE_length]
  change _ ≤ 14 + (4 + 4 + _)
  omega

/-- The example track meets all conditions. -/
example : ∃ bytes t', midiDumps cpySort exTrack (.fin 120) 3 = .ok bytes ∧ midiLoads cpySort bytes = .ok t' ∧
    t'.signature.eq exTrack.signature = true ∧ t'.contents = exTrack.contents.map midiNote := by
  obtain ⟨h1, h2, -, h4, h5⟩ := exTrack_conditions
  have h : exTrack.len ≤ 1198370 ∧ (exTrack.signature.nominator < 256 ∧ exTrack.signature.denominator < 2 ^ 256) ∧
    (∀ p ∈ exTrack.contents, (-24 ≤ p.2.tone.pitch ∧ p.2.tone.pitch ≤ 103) ∧ p.1 + p.2.duration.val ≤ 699050) := by
    decide +kernel
  exact C75_roundtrip cpySort 120 (by norm_num) 3 (by decide) (by decide) exTrack exTrack_reachable h.1 h.2.1
    (fun p hp => (h.2.2 p hp).1) (fun p hp => (h.2.2 p hp).2) h1 h2 h5 h4

end Melodia
