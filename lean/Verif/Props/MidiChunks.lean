/-
Property theorems C59, C60, C61 (chunks and ends of tracks in the reader of src/melodia/io/midi.py).
-/
import Verif.Lemmas.MidiChunks
import Verif.Props.MidiRead
import Verif.Spec.ChunkKinds

set_option autoImplicit false

namespace Melodia

variable [UnicodeDigits]

/-! ### C59: several files in one -/

/-- C59: if two files can be read then reading their concatenation gives the contents of the second only:
a track saved to the end of an already used file replaces, for the reader, everything before it. -/
theorem C59_last_wins (S : ListSort) (m : MidiReader) {first second : Bytes} {t0 t : Track}
    (c0 c : Option Int) (h0 : m.loads S first c0 = .ok t0) (h : m.loads S second c = .ok t) :
    m.loads S (first ++ second) c = .ok t := by
  change m.load S first c0 = _ at h0
  change m.load S second c = _ at h
  change m.load S (first ++ second) c = _
  rw [MidiReader.load_eq] at h0 h ⊢
  rcases hc0 : m.chunks ⟨none, none, none⟩ first with e | st0
  · rw [hc0] at h0; cases h0
  · rcases hc : m.chunks ⟨none, none, none⟩ second with e | st
    · rw [hc] at h; cases h
    · rw [hc] at h
      change MidiReader.finish S c st = _ at h
      have := MidiReader.chunks_over m st0 _ second le_rfl _ _ hc
      have e0 : MidiReader.LoadState.over st0 ⟨none, none, none⟩ = st0 := rfl
      rw [e0] at this
      rw [MidiReader.chunks_append m second _ first le_rfl _ _ hc0, this]
      change MidiReader.finish S c _ = _
      obtain ⟨k1, k2⟩ := MidiReader.finish_ok h
      rw [← h]
      obtain ⟨k, q, ts⟩ := st
      cases k with
      | none => exact absurd rfl k1
      | some k =>
        cases ts with
        | none => exact absurd rfl k2
        | some ts => rfl

/-- C59: for any number of files. -/
theorem C59_last_of_many (S : ListSort) (m : MidiReader) {files : List Bytes} {last : Bytes} {t : Track}
    (c : Option Int) (h0 : ∀ f ∈ files, ∃ t0, m.loads S f none = .ok t0) (h : m.loads S last c = .ok t) :
    m.loads S (files.flatten ++ last) c = .ok t := by
  induction files with
  | nil => exact h
  | cons f files ih =>
    obtain ⟨t0, h1⟩ := h0 f List.mem_cons_self
    rw [List.flatten_cons, List.append_assoc]
    exact C59_last_wins S m none c h1 (ih (fun g hg => h0 g (List.mem_cons_of_mem _ hg)))

/-- A body with the single note 62. -/
def exBodyD : Bytes := [0, 0x90, 62, 100, 96, 0x80, 62, 64, 0, 0xFF, 0x2F, 0]

/-- A body with the single note 60. -/
def exBodyC : Bytes := [0, 0x90, 60, 100, 96, 0x80, 60, 64, 0, 0xFF, 0x2F, 0]

omit [UnicodeDigits] in
/-- C59: the notes of the first of two files written one after the other are lost without an error. -/
theorem C59_violated :
    ∃ t1 t2 t, @MidiReader.loads ⟨fun _ => none⟩ cpySort ⟨24⟩ (exFile 96 exBodyC) none = .ok t1 ∧
      @MidiReader.loads ⟨fun _ => none⟩ cpySort ⟨24⟩ (exFile 96 exBodyD) none = .ok t2 ∧
      @MidiReader.loads ⟨fun _ => none⟩ cpySort ⟨24⟩ (exFile 96 exBodyC ++ exFile 96 exBodyD) none = .ok t ∧
      t1.len = 1 ∧ t2.len = 1 ∧ t = t2 ∧ t1 ≠ t2 := by
  obtain ⟨t1, h1, n1⟩ := exists_ok (x := @MidiReader.loads ⟨fun _ => none⟩ cpySort ⟨24⟩ (exFile 96 exBodyC) none)
    (fun t => t.len = 1 ∧ (t.heap.map (fun e => e.2.tone.pitch)) = [36]) (by decide +kernel)
  obtain ⟨t2, h2, n2⟩ := exists_ok (x := @MidiReader.loads ⟨fun _ => none⟩ cpySort ⟨24⟩ (exFile 96 exBodyD) none)
    (fun t => t.len = 1 ∧ (t.heap.map (fun e => e.2.tone.pitch)) = [38]) (by decide +kernel)
  refine ⟨t1, t2, t2, h1, h2, @C59_last_wins ⟨fun _ => none⟩ _ _ _ _ _ _ _ _ h1 h2, n1.1, n2.1, rfl, ?_⟩
  rintro rfl
  have := n1.2.symm.trans n2.2
  exact absurd this (by decide)

/-! ### C60: the end of a track -/

/-- C60: whatever follows the end-of-track event inside the track chunk is ignored. -/
theorem C60_trailing_ignored (S : ListSort) (m : MidiReader) (channel : Option Int) {division : Nat}
    {es : List (Nat × Ev)} {body junk file file' : Bytes} (he : IsBody es body)
    (hf : IsFile division body file) (hf' : IsFile division (body ++ junk) file')
    (hb : (body ++ junk).length < 2 ^ 24) : m.loads S file' channel = m.loads S file channel := by
  change m.load S file' channel = m.load S file channel
  have hb' : body.length < 2 ^ 24 := by rw [List.length_append] at hb; omega
  by_cases hd : division ≤ 0x7FFF
  · rw [MidiReader.load_file S m hf hd hb', MidiReader.load_file S m hf' hd hb, MidiReader.parseTrack_eq,
      MidiReader.parseTrack_eq]
    obtain ⟨st, h1, -, -⟩ := he.parse
    rw [h1, (L.lawful_parse _).ext_ok _ _ _ h1 junk]
    rfl
  · rw [MidiReader.load_badDivision S m hf (by omega), MidiReader.load_badDivision S m hf' (by omega)]

/-- C60: events without an end-of-track event are no track; the reader says so. -/
theorem C60_missing_end (S : ListSort) (m : MidiReader) (channel : Option Int) {division : Nat}
    {es : List (Nat × Ev)} {body file : Bytes} (he : Encodes none es body) (hn : ∀ x ∈ es, x.2 ≠ .endOfTrack)
    (hf : IsFile division body file) (hb : body.length < 2 ^ 24) :
    m.loads S file channel = .error .parsingError := by
  change m.load S file channel = _
  by_cases hd : division ≤ 0x7FFF
  · rw [MidiReader.load_file S m hf hd hb, MidiReader.parseTrack_eq]
    obtain ⟨st, h1, -⟩ := L.parse_encodes he hn ParseState.init (by intro s hs; cases hs) []
    rw [List.append_nil] at h1
    rw [h1, L.parse_unfold]
    rfl
  · exact MidiReader.load_badDivision S m hf (by omega) channel

/-- C60: a body, followed by the bytes of another note in the same chunk. -/
example : IsBody exEvents exBodyBytes ∧ IsFile 96 exBodyBytes (exFile 96 exBodyBytes) ∧
    IsFile 96 (exBodyBytes ++ exBodyD) (exFile 96 (exBodyBytes ++ exBodyD)) :=
  ⟨exBody_isBody, exFile_isFile 96 (by decide), exFile_isFile 96 (by decide)⟩

/-- C60: a note without an end of track. -/
example : Encodes none [(0, .chan 0x90 [60, 100])] [0, 0x90, 60, 100] ∧
    (∀ x ∈ [((0 : Nat), Ev.chan 0x90 [60, 100])], x.2 ≠ .endOfTrack) ∧
    IsFile 96 [0, 0x90, 60, 100] (exFile 96 [0, 0x90, 60, 100]) :=
  ⟨Encodes.cons (v := [0]) (bs := [0x90, 60, 100]) (vlqReads_one (n := 0) (by norm_num))
    (wf_chan_note (by decide) (by decide)) (EvBytes.chan _ _ _) (Encodes.nil _), by decide, exFile_isFile 96 (by decide)⟩

/-! ### C61: which files are accepted -/

/-- C61: a file `load` accepts consists of whole chunks; every header chunk in it announces format 0, one
track and a division in pulses; every track chunk comes after a header chunk; and there is a track chunk.
(The full claim also has a single track chunk; see `C61_violated`.) -/
theorem C61_accepted_partial (S : ListSort) (m : MidiReader) (channel : Option Int) {file : Bytes} {t : Track}
    (h : m.loads S file channel = .ok t) :
    ∃ cs, AllChunks file cs ∧ (∀ hd, (kindMThd, hd) ∈ cs → GoodHeader hd) ∧
      (∀ pre b suf, cs = pre ++ (kindMTrk, b) :: suf → ∃ hd, (kindMThd, hd) ∈ pre) ∧ ∃ b, (kindMTrk, b) ∈ cs := by
  change m.load S file channel = _ at h
  rw [MidiReader.load_eq] at h
  rcases hc : m.chunks ⟨none, none, none⟩ file with e | st
  · rw [hc] at h; cases h
  · rw [hc] at h
    change MidiReader.finish S channel st = _ at h
    obtain ⟨cs, k1, k2, k3, k4⟩ := MidiReader.chunks_good m _ file le_rfl _ _ hc
    refine ⟨cs, k1, k2, fun pre b suf he => ?_, ?_⟩
    · rcases k3 pre b suf he with hx | hx
      · exact absurd rfl hx
      · exact hx
    · rcases k4 (MidiReader.finish_ok h).2 with hx | hx
      · exact absurd rfl hx
      · exact hx

theorem unknown_skipped (S : ListSort) (m : MidiReader) (channel : Option Int) {pre : Bytes} (hp : ChunksOnly UnknownKind pre)
    (rest : Bytes) : m.loads S (pre ++ rest) channel = m.loads S rest channel := by
  induction hp with
  | nil => rfl
  | cons hP hk hb h hr ih =>
    rw [List.append_assoc, ← ih]
    exact C45_unknown_chunk_skipped S m channel _ .nil hk hP.1 hP.2 hb h

/-- C61: a file whose first header is of another kind is rejected with MIDIParsingError, whatever follows
and whatever unknown chunks come before. -/
theorem C61_bad_header (S : ListSort) (m : MidiReader) (channel : Option Int) {pre hd chunk : Bytes} (rest : Bytes)
    (hp : ChunksOnly UnknownKind pre) (hb : hd.length < 2 ^ 24) (hc : IsChunk kindMThd hd chunk) (hg : ¬ GoodHeader hd) :
    m.loads S (pre ++ (chunk ++ rest)) channel = .error .parsingError := by
  rw [unknown_skipped S m channel hp]
  change m.load S (chunk ++ rest) channel = _
  rw [MidiReader.load_eq, MidiReader.chunks_chunk m _ hc rfl hb, MidiReader.handleChunk_eq]
  rcases hh : MidiReader.handleHeader ⟨none, none, none⟩ kindMThd hd with e | st
  · rw [MidiReader.handleHeader_err hh]; rfl
  · exact absurd (MidiReader.handleHeader_good hh).1 hg

/-- C61: a file with a track chunk before any header is rejected with MIDIParsingError, whatever follows and whatever
unknown chunks come before. -/
theorem C61_no_header (S : ListSort) (m : MidiReader) (channel : Option Int) {pre body chunk : Bytes} (rest : Bytes)
    (hp : ChunksOnly UnknownKind pre) (hb : body.length < 2 ^ 24) (hc : IsChunk kindMTrk body chunk) :
    m.loads S (pre ++ (chunk ++ rest)) channel = .error .parsingError := by
  rw [unknown_skipped S m channel hp]
  change m.load S (chunk ++ rest) channel = _
  rw [MidiReader.load_eq, MidiReader.chunks_chunk m _ hc rfl hb, MidiReader.handleChunk_eq]
  unfold MidiReader.handleHeader
  rw [if_neg (by decide)]
  change ((m.handleTrack kindMTrk body ⟨none, none, none⟩ >>= _) >>= _) = _
  unfold MidiReader.handleTrack
  rw [if_pos (show kindMTrk = Writer.tagMTrk from rfl)]
  rfl

theorem chunks_trackless (m : MidiReader) {file : Bytes} (hf : ChunksOnly (· ≠ kindMTrk) file) : ∀ st : MidiReader.LoadState,
    st.tracks = none → m.chunks st file = .error .parsingError ∨ ∃ st', m.chunks st file = .ok st' ∧ st'.tracks = none := by
  induction hf with
  | nil => exact fun st h => .inr ⟨st, rfl, h⟩
  | @cons kind body bs rest hP hk hb h hr ih =>
    intro st ht
    rw [MidiReader.chunks_chunk m st h hk hb]
    by_cases h1 : kind = kindMThd
    · subst h1
      rw [MidiReader.handleChunk_eq]
      rcases hh : MidiReader.handleHeader st kindMThd body with e | st'
      · rw [MidiReader.handleHeader_err hh]; exact .inl rfl
      · rw [pyBind_ok]
        unfold MidiReader.handleTrack
        rw [if_neg (by decide)]
        exact ih st' ((MidiReader.handleHeader_good hh).2.2.trans ht)
    · rw [MidiReader.handleChunk_unknown m st body h1 hP]
      exact ih st ht

/-- C61: a file of whole chunks without a track chunk (the empty file, unknown chunks only, headers only, in any order and number)
is rejected with MIDIParsingError. -/
theorem C61_no_track (S : ListSort) (m : MidiReader) (channel : Option Int) {file : Bytes}
    (hf : ChunksOnly (· ≠ kindMTrk) file) : m.loads S file channel = .error .parsingError := by
  change m.load S file channel = _
  rw [MidiReader.load_eq]
  rcases chunks_trackless m hf ⟨none, none, none⟩ rfl with h | ⟨st, h, ht⟩
  · rw [h]; rfl
  · rw [h]
    change MidiReader.finish S channel st = _
    unfold MidiReader.finish
    rw [ht]
    cases st.kind <;> rfl

/-- A file of an unknown chunk `LIST` and a header. -/
example : ChunksOnly (· ≠ kindMTrk) (([0x4C, 0x49, 0x53, 0x54] ++ [0, 0, 0, 1] ++ [7]) ++
    ((kindMThd ++ [0, 0, 0, 6] ++ [0, 0, 0, 1, 0, 96]) ++ [])) ∧
    ChunksOnly UnknownKind (([0x4C, 0x49, 0x53, 0x54] ++ [0, 0, 0, 1] ++ [7]) ++ []) :=
  ⟨.cons (by decide) rfl (by decide) ⟨[0, 0, 0, 1], ⟨rfl, by decide⟩, rfl⟩
    (.cons (by decide) rfl (by decide) ⟨[0, 0, 0, 6], ⟨rfl, by decide⟩, rfl⟩ .nil),
  .cons ⟨by decide, by decide⟩ rfl (by decide) ⟨[0, 0, 0, 1], ⟨rfl, by decide⟩, rfl⟩ .nil⟩

/-- C61: headers of format 1, with two tracks, and with an SMPTE division. -/
example : ¬ GoodHeader [0, 1, 0, 1, 0, 96] ∧ ¬ GoodHeader [0, 0, 0, 2, 0, 96] ∧ ¬ GoodHeader [0, 0, 0, 1, 0xE7, 40] ∧
    ¬ GoodHeader [0, 0, 0, 1] ∧ GoodHeader [0, 0, 0, 1, 0, 96] ∧
    IsChunk kindMThd [0, 1, 0, 1, 0, 96] (kindMThd ++ [0, 0, 0, 6] ++ [0, 1, 0, 1, 0, 96]) := by
  refine ⟨?_, ?_, ?_, ?_, ⟨0, 96, [], rfl, by decide⟩, ⟨[0, 0, 0, 6], ⟨rfl, by decide⟩, rfl⟩⟩
  · rintro ⟨hi, lo, tail, h, -⟩; cases h
  · rintro ⟨hi, lo, tail, h, -⟩; cases h
  · rintro ⟨hi, lo, tail, h, h'⟩; cases h; exact absurd h' (by decide)
  · rintro ⟨hi, lo, tail, h, -⟩; cases h

omit [UnicodeDigits] in
/-- C61: a file with one header announcing one track and two track chunks is accepted, and the notes of
the first track chunk are lost. -/
theorem C61_violated :
    ∃ t, @MidiReader.loads ⟨fun _ => none⟩ cpySort ⟨24⟩
      (exFile 96 exBodyC ++ (kindMTrk ++ [0, 0, 0, 12] ++ exBodyD)) none = .ok t ∧
      t.len = 1 ∧ t.heap.map (fun e => e.2.tone.pitch) = [38] :=
  exists_ok _ (by decide +kernel)

end Melodia
