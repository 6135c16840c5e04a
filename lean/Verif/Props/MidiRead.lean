/-
Property theorems C39, C40, C45-C50, C53, C55 (reader in src/melodia/io/midi.py).

`S` is any sort meeting the contract of `list.sort`; events, encodings, chunks, note events and pairs
are defined in Spec/MidiRead.lean.
-/
import Verif.Lemmas.MidiFile
import Verif.Props.MidiWrite
import Mathlib.Data.List.GetD

set_option autoImplicit false

namespace Melodia

variable [UnicodeDigits]

/-! ### Example files -/

omit [UnicodeDigits] in
theorem vlqReads_one {n : Nat} (h : n < 128) : VlqReads n [UInt8.ofNat n] :=
  ⟨⟨[], UInt8.ofNat n, rfl, by simp, by rw [toNat_ofNat_lt (by omega)]; exact h⟩, by
    unfold vlqValue
    rw [List.foldl_cons, List.foldl_nil, toNat_ofNat_lt (by omega)]
    omega⟩

omit [UnicodeDigits] in
theorem exists_ok {x : PyM Track} (p : Track → Prop) [DecidablePred p]
    (h : (match x with | .ok t => decide (p t) | .error _ => false) = true) : ∃ t, x = .ok t ∧ p t := by
  cases x with
  | error e => cases h
  | ok t => exact ⟨t, rfl, of_decide_eq_true h⟩

/-- A header with the given division and a track chunk. -/
def exFile (division : UInt8) (body : Bytes) : Bytes :=
  [0x4D, 0x54, 0x68, 0x64, 0, 0, 0, 6, 0, 0, 0, 1, 0, division,
   0x4D, 0x54, 0x72, 0x6B, 0, 0, 0, UInt8.ofNat body.length] ++ body

omit [UnicodeDigits] in
theorem exFile_isFile (division : UInt8) {body : Bytes} (h : body.length < 256) :
    IsFile division.toNat body (exFile division body) := by
  refine ⟨[0, division], [0x4D, 0x54, 0x68, 0x64, 0, 0, 0, 6, 0, 0, 0, 1, 0, division],
    [0x4D, 0x54, 0x72, 0x6B, 0, 0, 0, UInt8.ofNat body.length] ++ body, ⟨rfl, ?_⟩,
    ⟨[0, 0, 0, 6], ⟨rfl, show _ = 6 by decide⟩, rfl⟩, ⟨[0, 0, 0, UInt8.ofNat body.length], ⟨rfl, ?_⟩, rfl⟩, rfl⟩
  · show (0 * 256 + (0 : UInt8).toNat) * 256 + division.toNat = _
    have : (0 : UInt8).toNat = 0 := rfl
    omega
  · show (((0 * 256 + (0 : UInt8).toNat) * 256 + (0 : UInt8).toNat) * 256 + (0 : UInt8).toNat) * 256 +
      (UInt8.ofNat body.length).toNat = _
    have : (0 : UInt8).toNat = 0 := rfl
    rw [toNat_ofNat_lt h]
    omega

/-- Note 60 from 0 to 96 on channel 0, then note 62 from 96 to 120 on channel 1 (a note-on with velocity
0 ends it), with a program change between. -/
def exEvents : List (Nat × Ev) :=
  [(0, .chan 0x90 [60, 100]), (96, .chan 0x80 [60, 64]), (0, .chan 0xC0 [5]), (0, .chan 0x91 [62, 127]),
   (24, .chan 0x91 [62, 0])]

def exBodyBytes : Bytes :=
  [0, 0x90, 60, 100, 96, 0x80, 60, 64, 0, 0xC0, 5, 0, 0x91, 62, 127, 24, 0x91, 62, 0, 0, 0xFF, 0x2F, 0]

/-- The same with running status for the last note event. -/
def exBodyRunning : Bytes :=
  [0, 0x90, 60, 100, 96, 0x80, 60, 64, 0, 0xC0, 5, 0, 0x91, 62, 127, 24, 62, 0, 0, 0xFF, 0x2F, 0]

omit [UnicodeDigits] in
theorem wf_chan_note {s p v : UInt8} (h1 : 0x80 ≤ s.toNat) (h2 : s.toNat < 0xA0) : (Ev.chan s [p, v]).Wf :=
  ⟨h1, by omega, by rw [if_neg (by omega)]; rfl⟩

omit [UnicodeDigits] in
theorem encodes_eot (prev : Option UInt8) : Encodes prev [(0, Ev.endOfTrack)] [0, 0xFF, 0x2F, 0] :=
  Encodes.cons (v := [0]) (bs := [0xFF, 0x2F, 0]) (vlqReads_one (n := 0) (by norm_num))
    ⟨fun _ => rfl, by decide⟩
    (EvBytes.mta _ 0x2F [0] [] (vlqReads_one (n := 0) (by norm_num))) (Encodes.nil _)

omit [UnicodeDigits] in
theorem exBody_isBody : IsBody exEvents exBodyBytes := by
  refine ⟨by decide, 0, ?_⟩
  refine Encodes.cons (v := [0]) (bs := [0x90, 60, 100]) (vlqReads_one (n := 0) (by norm_num))
    (wf_chan_note (by decide) (by decide)) (EvBytes.chan _ _ _) ?_
  refine Encodes.cons (v := [96]) (bs := [0x80, 60, 64]) (vlqReads_one (n := 96) (by norm_num))
    (wf_chan_note (by decide) (by decide)) (EvBytes.chan _ _ _) ?_
  refine Encodes.cons (v := [0]) (bs := [0xC0, 5]) (vlqReads_one (n := 0) (by norm_num))
    ⟨by decide, by decide, by decide⟩ (EvBytes.chan _ _ _) ?_
  refine Encodes.cons (v := [0]) (bs := [0x91, 62, 127]) (vlqReads_one (n := 0) (by norm_num))
    (wf_chan_note (by decide) (by decide)) (EvBytes.chan _ _ _) ?_
  refine Encodes.cons (v := [24]) (bs := [0x91, 62, 0]) (vlqReads_one (n := 24) (by norm_num))
    (wf_chan_note (by decide) (by decide)) (EvBytes.chan _ _ _) (encodes_eot _)

omit [UnicodeDigits] in
theorem exBodyRunning_isBody : IsBody exEvents exBodyRunning := by
  refine ⟨by decide, 0, ?_⟩
  refine Encodes.cons (v := [0]) (bs := [0x90, 60, 100]) (vlqReads_one (n := 0) (by norm_num))
    (wf_chan_note (by decide) (by decide)) (EvBytes.chan _ _ _) ?_
  refine Encodes.cons (v := [96]) (bs := [0x80, 60, 64]) (vlqReads_one (n := 96) (by norm_num))
    (wf_chan_note (by decide) (by decide)) (EvBytes.chan _ _ _) ?_
  refine Encodes.cons (v := [0]) (bs := [0xC0, 5]) (vlqReads_one (n := 0) (by norm_num))
    ⟨by decide, by decide, by decide⟩ (EvBytes.chan _ _ _) ?_
  refine Encodes.cons (v := [0]) (bs := [0x91, 62, 127]) (vlqReads_one (n := 0) (by norm_num))
    (wf_chan_note (by decide) (by decide)) (EvBytes.chan _ _ _) ?_
  refine Encodes.cons (v := [24]) (bs := [62, 0]) (vlqReads_one (n := 24) (by norm_num))
    (wf_chan_note (by decide) (by decide)) (EvBytes.running 0x91 62 [0] (by decide)) (encodes_eot _)

/-! ### C39 -/

/-- C39: on every byte string, for every channel argument, `loads` never runs out of the steps the input
length provides; a returned track is one built by valid `add` calls and all its positions and notes are
valid. -/
theorem C39_loads_terminates (S : ListSort) (m : MidiReader) (data : Bytes) (channel : Option Int) :
    m.loads S data channel ≠ .error .outOfFuel ∧
    ∀ t, m.loads S data channel = .ok t →
      t.Reachable S ∧ ∀ e ∈ t.items S, e.1.Valid ∧ e.2.Valid := by
  constructor
  · intro h
    change m.load S data channel = _ at h
    rw [MidiReader.load_eq] at h
    rcases hc : m.chunks ⟨none, none, none⟩ data with e | st
    · rw [hc] at h
      cases h
      rcases MidiReader.chunkLoop_err m _ _ _ _ (by omega) hc with h | ⟨h, -⟩ | ⟨h, -⟩ <;> cases h
    · rw [hc] at h
      have hr := MidiReader.chunkLoop_rel (S := S) m m (data.length + 1) ⟨none, none, none⟩ ⟨none, none, none⟩ data
        ⟨rfl, rfl, Or.inl ⟨rfl, rfl⟩⟩
      change MidiReader.Rel _ (m.chunks _ _) (m.chunks _ _) at hr
      rw [hc] at hr
      change MidiReader.finish S channel st = _ at h
      unfold MidiReader.finish at h
      split at h
      · cases h
      · split at h
        · cases h
        · rename_i ts hts
          split at h
          · cases h
          · split at h
            · rcases hr.tracks with ⟨h1, -⟩ | ⟨ts1, ts2, h1, h2, h3⟩
              · rw [hts] at h1; cases h1
              · rw [hts] at h1
                cases h1
                have r1 : ∀ z ∈ ts, z.2.Reachable S := by
                  intro z hz
                  obtain ⟨w, -, hw⟩ := MidiReader.forall₂_left h3 hz
                  exact hw.left
                obtain ⟨t, a1, -⟩ := MidiReader.mergeTracks_ok S ts r1 _
                  (Track.Reachable.empty (MidiReader.maxSignature_valid r1))
                rw [a1] at h; cases h
            · split at h <;> cases h
  · intro t h
    have hr := MidiReader.load_rel S m m data channel
    change m.load S data channel = _ at h
    rw [h] at hr
    exact ⟨hr.left, Track.items_valid S hr.left.wf⟩

/-- C39: an input on which `loads` returns a track with two notes, and one it rejects. -/
example : (∃ t, @MidiReader.loads ⟨fun _ => none⟩ cpySort ⟨24⟩ (exFile 96 exBodyBytes) none = .ok t ∧ t.len = 2) ∧
    @MidiReader.loads ⟨fun _ => none⟩ cpySort ⟨24⟩ [1, 2, 3] none = .error .parsingError := by
  exact ⟨exists_ok _ (by decide +kernel), by decide +kernel⟩

/-! ### C40 -/

/-- C40 is violated: a track whose first event has no status byte makes the code recurse without end
(Python raises RecursionError, not MIDIParsingError), whatever comes after the data byte. -/
theorem C40_violated (S : ListSort) (m : MidiReader) (channel : Option Int) {division : Nat} {body file : Bytes}
    (hf : IsFile division body file) (hd : division ≤ 0x7FFF) (hb : body.length < 2 ^ 24)
    (hs : MissingStatus body) : m.loads S file channel = .error .recursionError := by
  obtain ⟨n, v, b, r, h1, rfl, h2⟩ := hs
  change m.load S file channel = _
  rw [MidiReader.load_file S m hf hd hb, MidiReader.parseTrack_eq, L.parse_unfold, L.readVar_reads h1]
  change (((L.readEvent none (b :: r) >>= _) >>= _) >>= _) = _
  rw [L.readEvent, if_neg (by omega)]
  rfl

/-- C40: a file for `C40_violated`. -/
example : IsFile 96 [0, 60, 100, 0] (exFile 96 [0, 60, 100, 0]) ∧ MissingStatus [0, 60, 100, 0] :=
  ⟨exFile_isFile 96 (by decide), 0, [0], 60, [100, 0], vlqReads_one (n := 0) (by norm_num), rfl, by decide⟩

omit [UnicodeDigits] in
/-- C40 is violated: a file with division 0 and a note makes an assertion fail. -/
theorem C40_assertion_violated : @MidiReader.loads ⟨fun _ => none⟩ cpySort ⟨24⟩ (exFile 0 exBodyBytes) none =
    .error .assertionError := by
  decide +kernel

/-- C40: the exceptions that can escape, for every byte string and channel argument: MIDIParsingError;
ValueError if a channel is asked for; RecursionError if a track chunk of the file lacks its first status
byte; AssertionError if a header chunk has division 0. The full claim has only the first two cases. -/
theorem C40_exceptions_partial (S : ListSort) (m : MidiReader) (data : Bytes) (channel : Option Int) (e : PyErr)
    (h : m.loads S data channel = .error e) :
    e = .parsingError ∨ (e = .valueError ∧ channel ≠ none) ∨
    (e = .recursionError ∧ ∃ cs body, Chunks data cs ∧ (kindMTrk, body) ∈ cs ∧ MissingStatus body) ∨
    (e = .assertionError ∧ ∃ cs body, Chunks data cs ∧ (kindMThd, body) ∈ cs ∧ ZeroDivision body) := by
  have hfuel := (C39_loads_terminates S m data channel).1
  change m.load S data channel = _ at h
  rw [MidiReader.load_eq] at h
  rcases hc : m.chunks ⟨none, none, none⟩ data with e' | st
  · rw [hc] at h
    cases h
    rcases MidiReader.chunkLoop_err m _ _ _ _ (by omega) hc with h | ⟨h, h'⟩ | ⟨h, h' | h'⟩
    · exact Or.inl h
    · exact Or.inr (Or.inr (Or.inl ⟨h, h'⟩))
    · cases h'
    · exact Or.inr (Or.inr (Or.inr ⟨h, h'⟩))
  · rw [hc] at h
    have hr := MidiReader.chunkLoop_rel (S := S) m m (data.length + 1) ⟨none, none, none⟩ ⟨none, none, none⟩ data
      ⟨rfl, rfl, Or.inl ⟨rfl, rfl⟩⟩
    change MidiReader.Rel _ (m.chunks _ _) (m.chunks _ _) at hr
    rw [hc] at hr
    change MidiReader.finish S channel st = _ at h
    unfold MidiReader.finish at h
    split at h
    · cases h; exact Or.inl rfl
    · split at h
      · cases h; exact Or.inl rfl
      · rename_i ts hts
        split at h
        · cases h
        · split at h
          · exfalso
            rcases hr.tracks with ⟨h1, -⟩ | ⟨ts1, ts2, h1, h2, h3⟩
            · rw [hts] at h1; cases h1
            · rw [hts] at h1
              cases h1
              have r1 : ∀ z ∈ ts, z.2.Reachable S := by
                intro z hz
                obtain ⟨w, -, hw⟩ := MidiReader.forall₂_left h3 hz
                exact hw.left
              obtain ⟨t, a1, -⟩ := MidiReader.mergeTracks_ok S ts r1 _
                (Track.Reachable.empty (MidiReader.maxSignature_valid r1))
              rw [a1] at h; cases h
          · split at h
            · cases h; exact Or.inr (Or.inl ⟨rfl, by simp⟩)
            · cases h

/-- C40: byte strings whose header chunks have a division other than zero and whose track chunks begin
with a status byte only ever raise MIDIParsingError, or ValueError when a channel is asked for. -/
theorem C40_wellheaded_partial (S : ListSort) (m : MidiReader) (data : Bytes) (channel : Option Int) (e : PyErr)
    (hd : ∀ cs body, Chunks data cs → (kindMThd, body) ∈ cs → ¬ ZeroDivision body)
    (hs : ∀ cs body, Chunks data cs → (kindMTrk, body) ∈ cs → ¬ MissingStatus body)
    (h : m.loads S data channel = .error e) :
    e = .parsingError ∨ (e = .valueError ∧ channel ≠ none) := by
  rcases C40_exceptions_partial S m data channel e h with h | h | ⟨-, cs, b, h1, h2, h3⟩ | ⟨-, cs, b, h1, h2, h3⟩
  · exact Or.inl h
  · exact Or.inr h
  · exact absurd h3 (hs cs b h1 h2)
  · exact absurd h3 (hd cs b h1 h2)

/-- C40: byte strings meeting the hypotheses of `C40_wellheaded_partial` that are rejected: any of fewer
than eight bytes. -/
example : (∀ cs body, Chunks [1, 2, 3] cs → (kindMThd, body) ∈ cs → ¬ ZeroDivision body) ∧
    (∀ cs body, Chunks [1, 2, 3] cs → (kindMTrk, body) ∈ cs → ¬ MissingStatus body) ∧
    @MidiReader.loads ⟨fun _ => none⟩ cpySort ⟨24⟩ [1, 2, 3] none = .error .parsingError := by
  have key : ∀ data cs, Chunks data cs → data.length < 8 → cs = [] := by
    intro data cs h hl
    cases h with
    | nil => rfl
    | cons hk hl' h => simp [hk, hl'.1] at hl; omega
  refine ⟨fun cs b h hm => ?_, fun cs b h hm => ?_, by decide +kernel⟩
  · rw [key _ _ h (by decide)] at hm; cases hm
  · rw [key _ _ h (by decide)] at hm; cases hm

/-! ### C45 -/

/-- C45: a chunk of unknown kind after any number of whole chunks, followed by any bytes, changes nothing. -/
theorem C45_unknown_chunk_skipped (S : ListSort) (m : MidiReader) (channel : Option Int)
    {pre kind body unknown : Bytes} (rest : Bytes) (hp : ChunkSeq pre) (hk : kind.length = 4)
    (h1 : kind ≠ kindMThd) (h2 : kind ≠ kindMTrk) (hb : body.length < 2 ^ 24) (hu : IsChunk kind body unknown) :
    m.loads S (pre ++ (unknown ++ rest)) channel = m.loads S (pre ++ rest) channel := by
  have key : ∀ pre, ChunkSeq pre → ∀ st, m.chunks st (pre ++ (unknown ++ rest)) = m.chunks st (pre ++ rest) := by
    intro pre hp
    induction hp with
    | nil =>
      intro st
      rw [List.nil_append, List.nil_append, MidiReader.chunks_chunk m st hu hk hb,
        MidiReader.handleChunk_unknown m st body h1 h2]
      rfl
    | @cons kind' body' bs rest' hk' hb' h' hr' ih =>
      intro st
      rw [List.append_assoc, List.append_assoc, MidiReader.chunks_chunk m st h' hk' hb',
        MidiReader.chunks_chunk m st h' hk' hb']
      congr 1
      funext st'
      exact ih st'
  change m.load S _ channel = m.load S _ channel
  rw [MidiReader.load_eq, MidiReader.load_eq, key pre hp]

/-- C45: a chunk `XYZ!` between header and track. -/
example : ChunkSeq [0x4D, 0x54, 0x68, 0x64, 0, 0, 0, 6, 0, 0, 0, 1, 0, 96] ∧
    IsChunk [88, 89, 90, 33] [7, 7] [88, 89, 90, 33, 0, 0, 0, 2, 7, 7] ∧
    [88, 89, 90, 33] ≠ kindMThd ∧ [88, 89, 90, 33] ≠ kindMTrk :=
  ⟨ChunkSeq.cons (kind := kindMThd) (body := [0, 0, 0, 1, 0, 96]) rfl (by norm_num)
    ⟨[0, 0, 0, 6], ⟨rfl, rfl⟩, rfl⟩ ChunkSeq.nil, ⟨[0, 0, 0, 2], ⟨rfl, rfl⟩, rfl⟩, by decide, by decide⟩

/-! ### C46 -/

/-- What the reader does with a system-exclusive event: wherever it occurs and whatever follows, the file
is rejected with MIDIParsingError (so no wrong track is returned, but the claim fails). -/
theorem C46_rejected_partial (S : ListSort) (m : MidiReader) (channel : Option Int) {division d : Nat}
    {es : List (Nat × Ev)} {bs v tail file : Bytes} (he : Encodes none es bs)
    (hn : ∀ x ∈ es, x.2 ≠ .endOfTrack) (hv : VlqReads d v)
    (hf : IsFile division (bs ++ (v ++ 0xF0 :: tail)) file) (hb : (bs ++ (v ++ 0xF0 :: tail)).length < 2 ^ 24) :
    m.loads S file channel = .error .parsingError := by
  change m.load S file channel = _
  by_cases hd : division ≤ 0x7FFF
  · rw [MidiReader.load_file S m hf hd hb, MidiReader.parseTrack_eq]
    obtain ⟨st, h1, -⟩ := L.parse_encodes he hn ParseState.init (by intro s hs; cases hs) (v ++ 0xF0 :: tail)
    rw [h1, L.parse_unfold, L.readVar_reads hv]
    have hr : L.readEvent st.previousStatus (0xF0 :: tail) = .error .parsingError := by
      rw [L.readEvent, if_pos (by decide)]
      rfl
    rw [pyBind_ok]
    simp only [hr]
    rfl
  · exact MidiReader.load_badDivision S m hf (by omega) channel

/-- Note 60, with a system-exclusive event `F0 01 F7` before the note-off, and without it. -/
def exSysex : Bytes := [0, 0x90, 60, 100, 0, 0xF0, 1, 0xF7, 96, 0x80, 60, 64, 0, 0xFF, 0x2F, 0]
def exNoSysex : Bytes := [0, 0x90, 60, 100, 96, 0x80, 60, 64, 0, 0xFF, 0x2F, 0]

omit [UnicodeDigits] in
/-- C46 is violated: the file with the event is rejected, the one without it is read. -/
theorem C46_violated :
    @MidiReader.loads ⟨fun _ => none⟩ cpySort ⟨24⟩ (exFile 96 exSysex) none ≠
      @MidiReader.loads ⟨fun _ => none⟩ cpySort ⟨24⟩ (exFile 96 exNoSysex) none ∧
    ∃ t, @MidiReader.loads ⟨fun _ => none⟩ cpySort ⟨24⟩ (exFile 96 exNoSysex) none = .ok t ∧ t.len = 1 := by
  have h : ∃ t, @MidiReader.loads ⟨fun _ => none⟩ cpySort ⟨24⟩ (exFile 96 exNoSysex) none = .ok t ∧ t.len = 1 :=
    exists_ok _ (by decide +kernel)
  refine ⟨?_, h⟩
  obtain ⟨t, ht, -⟩ := h
  rw [ht]
  have : @MidiReader.loads ⟨fun _ => none⟩ cpySort ⟨24⟩ (exFile 96 exSysex) none = .error .parsingError := by
    decide +kernel
  rw [this]
  intro hc
  cases hc

/-- C46: the file `exSysex` is an instance of `C46_rejected_partial`. -/
example : Encodes none [(0, .chan 0x90 [60, 100])] [0, 0x90, 60, 100] ∧ VlqReads 0 [0] ∧
    exSysex = [0, 0x90, 60, 100] ++ ([0] ++ 0xF0 :: [1, 0xF7, 96, 0x80, 60, 64, 0, 0xFF, 0x2F, 0]) :=
  ⟨Encodes.cons (v := [0]) (bs := [0x90, 60, 100]) (vlqReads_one (n := 0) (by norm_num))
    (wf_chan_note (by decide) (by decide)) (EvBytes.chan _ _ _) (Encodes.nil _),
    vlqReads_one (n := 0) (by norm_num), rfl⟩

/-! ### C47 -/

/-- C47: two encodings of the same events (differing in running status and in the length of their
variable-length quantities) load alike. -/
theorem C47_running_status (S : ListSort) (m : MidiReader) (channel : Option Int) {division : Nat}
    {es : List (Nat × Ev)} {body body' file file' : Bytes} (he : IsBody es body) (he' : IsBody es body')
    (hf : IsFile division body file) (hf' : IsFile division body' file')
    (hb : body.length < 2 ^ 24) (hb' : body'.length < 2 ^ 24) :
    m.loads S file channel = m.loads S file' channel := by
  change m.load S file channel = m.load S file' channel
  by_cases hd : division ≤ 0x7FFF
  · rw [MidiReader.load_body S m hf he hd hb, MidiReader.load_body S m hf' he' hd hb']
  · rw [MidiReader.load_badDivision S m hf (by omega), MidiReader.load_badDivision S m hf' (by omega)]

/-- C47: two different encodings of the same events. -/
example : IsBody exEvents exBodyBytes ∧ IsBody exEvents exBodyRunning ∧ exBodyBytes ≠ exBodyRunning :=
  ⟨exBody_isBody, exBodyRunning_isBody, by decide⟩

/-! ### C48 -/

/-- C48: an unsupported event between others only contributes its delta time to the next event; at the
end of the track it contributes nothing. -/
theorem C48_unsupported_skipped (S : ListSort) (m : MidiReader) (channel : Option Int) {division d d' : Nat}
    {a b : List (Nat × Ev)} {u e : Ev} (hu : u.Unsupported) {body body' file file' : Bytes}
    (h : (IsBody (a ++ (d, u) :: (d', e) :: b) body ∧ IsBody (a ++ (d + d', e) :: b) body') ∨
      (IsBody (a ++ [(d, u)]) body ∧ IsBody a body'))
    (hf : IsFile division body file) (hf' : IsFile division body' file')
    (hb : body.length < 2 ^ 24) (hb' : body'.length < 2 ^ 24) :
    m.loads S file channel = m.loads S file' channel := by
  change m.load S file channel = m.load S file' channel
  by_cases hd : division ≤ 0x7FFF
  · rcases h with ⟨he, he'⟩ | ⟨he, he'⟩
    · have : coreOf (a ++ (d, u) :: (d', e) :: b) = coreOf (a ++ (d + d', e) :: b) := by
        unfold coreOf
        rw [List.foldl_append, List.foldl_append, List.foldl_cons, List.foldl_cons, List.foldl_cons,
          MidiReader.step_unsupported hu, MidiReader.step_delay]
      rw [MidiReader.load_body S m hf he hd hb, MidiReader.load_body S m hf' he' hd hb', this]
    · have h1 : (coreOf (a ++ [(d, u)])).events = (coreOf a).events ∧
          (coreOf (a ++ [(d, u)])).sigs = (coreOf a).sigs := by
        unfold coreOf
        rw [List.foldl_append, List.foldl_cons, List.foldl_nil, MidiReader.step_unsupported hu]
        exact ⟨rfl, rfl⟩
      rw [MidiReader.load_body S m hf he hd hb, MidiReader.load_body S m hf' he' hd hb', h1.1, h1.2]
  · rw [MidiReader.load_badDivision S m hf (by omega), MidiReader.load_badDivision S m hf' (by omega)]

/-- C48: `exEvents` contains an unsupported event (the program change), followed by another event. -/
example : IsBody ([(0, .chan 0x90 [60, 100]), (96, .chan 0x80 [60, 64])] ++ (0, .chan 0xC0 [5]) ::
    (0, .chan 0x91 [62, 127]) :: [(24, .chan 0x91 [62, 0])]) exBodyBytes ∧ (Ev.chan 0xC0 [5]).Unsupported :=
  ⟨exBody_isBody, by decide, by decide⟩

/-! ### C49 -/

/-- C49: loading a channel gives exactly the notes of the pairs of its note events: note-on `i` at which
no note of the pitch is sounding, with the first following note-off of that pitch. -/
theorem C49_notes_are_pairs (S : ListSort) (m : MidiReader) {division : Nat} {es : List (Nat × Ev)}
    {body file : Bytes} (hf : IsFile division body file) (he : IsBody es body) (hd0 : 0 < division)
    (hd : division ≤ 0x7FFF) (hb : body.length < 2 ^ 24) {c : Nat} (hc : noteEvents c 0 es ≠ []) :
    ∃ t, m.loads S file (some c) = .ok t ∧
      t.contents = (pairSet (noteEvents c 0 es)).val.map (fun x => readNote m.middleCDelta division
        ((noteEvents c 0 es).getD x.1 default) ((noteEvents c 0 es).getD x.2 default)) := by
  obtain ⟨t, h1, -, -, h2⟩ := (MidiReader.load_channel S m hf he hd0 hd hb c).1 (Or.inl hc)
  exact ⟨t, h1, h2⟩

omit [UnicodeDigits] in
/-- C49: a note-on ends up in at most one pair, and so does a note-off. -/
theorem C49_pairs_unique {evs : List NoteEv} {i j i' j' : Nat} (h : IsPair evs i j) (h' : IsPair evs i' j') :
    i = i' ↔ j = j' := by
  obtain ⟨p, hs, hij, hj, hm⟩ := h
  obtain ⟨p', hs', hij', hj', hm'⟩ := h'
  constructor
  · rintro rfl
    have hp : p = p' := by
      obtain ⟨e, h1, -, h2⟩ := hs.1
      obtain ⟨e', h1', -, h2'⟩ := hs'.1
      rw [h1] at h1'; cases h1'; rw [← h2, h2']
    subst hp
    by_contra hne
    rcases Nat.lt_or_gt_of_ne hne with hl | hl
    · exact hm' j hij hl hj
    · exact hm j' hij' hl hj'
  · rintro rfl
    have hp : p = p' := by
      obtain ⟨e, h1, -, h2⟩ := hj
      obtain ⟨e', h1', -, h2'⟩ := hj'
      rw [h1] at h1'; cases h1'; rw [← h2, h2']
    subst hp
    by_contra hne
    rcases Nat.lt_or_gt_of_ne hne with hl | hl
    · obtain ⟨l, h1, h2, h3⟩ := hs'.2 i hl hs.1
      exact hm l h1 (by omega) h3
    · obtain ⟨l, h1, h2, h3⟩ := hs.2 i' hl hs'.1
      exact hm' l h1 (by omega) h3

omit [UnicodeDigits] in
/-- C49: notes of one pitch never overlap: the later one starts after the earlier one has ended. -/
theorem C49_no_overlap {evs : List NoteEv} {i j i' j' p : Nat} (h : IsPair evs i j) (h' : IsPair evs i' j')
    (hp : IsAt evs p true i) (hp' : IsAt evs p true i') (hlt : i < i') : j < i' := by
  obtain ⟨q, hs, hij, hj, hm⟩ := h
  obtain ⟨q', hs', hij', hj', hm'⟩ := h'
  have hq : q = p := by
    obtain ⟨e, h1, -, h2⟩ := hs.1
    obtain ⟨e', h1', -, h2'⟩ := hp
    rw [h1] at h1'; cases h1'; rw [← h2, h2']
  have hq' : q' = p := by
    obtain ⟨e, h1, -, h2⟩ := hs'.1
    obtain ⟨e', h1', -, h2'⟩ := hp'
    rw [h1] at h1'; cases h1'; rw [← h2, h2']
  subst hq
  subst hq'
  obtain ⟨l, h1, h2, h3⟩ := hs'.2 i hlt hs.1
  by_contra hc
  exact hm l h1 (by omega) h3

omit [UnicodeDigits] in
/-- The note events of a channel are in order of time. -/
theorem noteEvents_sorted (c : Nat) : ∀ (es : List (Nat × Ev)) (now : Nat),
    (noteEvents c now es).Pairwise (fun a b => a.time ≤ b.time) ∧ ∀ e ∈ noteEvents c now es, now ≤ e.time := by
  intro es
  induction es with
  | nil => intro now; exact ⟨List.Pairwise.nil, by simp [noteEvents]⟩
  | cons x es ih =>
    obtain ⟨d, e⟩ := x
    intro now
    obtain ⟨h1, h2⟩ := ih (now + d)
    have h3 : ∀ e ∈ noteEvents c (now + d) es, now ≤ e.time := fun e he => by have := h2 e he; omega
    rw [noteEvents]
    split
    · split
      · refine ⟨List.pairwise_cons.2 ⟨h2, h1⟩, ?_⟩
        intro y hy
        rcases List.mem_cons.1 hy with rfl | hy
        · exact Nat.le_add_right _ _
        · exact h3 y hy
      · exact ⟨h1, h3⟩
    · exact ⟨h1, h3⟩

omit [UnicodeDigits] in
/-- C49: so in time, too: the earlier note of a pitch ends not later than the later one begins. -/
theorem C49_no_overlap_time (c : Nat) (es : List (Nat × Ev)) {i j i' j' p : Nat}
    (h : IsPair (noteEvents c 0 es) i j) (h' : IsPair (noteEvents c 0 es) i' j')
    (hp : IsAt (noteEvents c 0 es) p true i) (hp' : IsAt (noteEvents c 0 es) p true i') (hlt : i < i') :
    ((noteEvents c 0 es).getD i default).time ≤ ((noteEvents c 0 es).getD j default).time ∧
    ((noteEvents c 0 es).getD j default).time ≤ ((noteEvents c 0 es).getD i' default).time := by
  have hj := C49_no_overlap h h' hp hp' hlt
  obtain ⟨-, -, hij, -⟩ := h
  have hs := (noteEvents_sorted c es 0).1
  generalize noteEvents c 0 es = evs at *
  have hl : i' < evs.length := by
    obtain ⟨e, he, -⟩ := hp'
    exact (List.getElem?_eq_some_iff.1 he).1
  have mono : ∀ a b, a < b → b < evs.length → (evs.getD a default).time ≤ (evs.getD b default).time := by
    intro a b hab hb
    rw [List.getD_eq_getElem _ _ (by omega), List.getD_eq_getElem _ _ hb]
    exact List.pairwise_iff_getElem.1 hs a b (by omega) hb hab
  exact ⟨mono i j hij (by omega), mono j i' hj hl⟩

/-- C49: the note events of channel 1 of the example, and their pair. -/
example : noteEvents 1 0 exEvents = [⟨96, true, 62, 127⟩, ⟨120, false, 62, 0⟩] ∧
    IsPair (noteEvents 1 0 exEvents) 0 1 := by
  have h : noteEvents 1 0 exEvents = [⟨96, true, 62, 127⟩, ⟨120, false, 62, 0⟩] := by decide +kernel
  refine ⟨h, ?_⟩
  rw [h]
  exact ⟨62, ⟨⟨_, rfl, rfl, rfl⟩, fun k hk => absurd hk (Nat.not_lt_zero k)⟩, by norm_num, ⟨_, rfl, rfl, rfl⟩,
    fun l h1 h2 => by omega⟩

/-! ### C50 -/

/-- C50: loading a channel gives its notes and its time signature; a channel without note events is a
ValueError (a track without any note event counts as an empty channel 0). -/
theorem C50_channel (S : ListSort) (m : MidiReader) {division : Nat} {es : List (Nat × Ev)}
    {body file : Bytes} (hf : IsFile division body file) (he : IsBody es body) (hd0 : 0 < division)
    (hd : division ≤ 0x7FFF) (hb : body.length < 2 ^ 24) (c : Nat) :
    (HasChannel es c → ∃ t, m.loads S file (some c) = .ok t ∧ t.signature = signatureFor c es ∧
      t.contents = readNotes m.middleCDelta division (noteEvents c 0 es)) ∧
    (¬ HasChannel es c → m.loads S file (some c) = .error .valueError) := by
  obtain ⟨h1, h2⟩ := MidiReader.load_channel S m hf he hd0 hd hb c
  exact ⟨fun h => let ⟨t, k1, _, k3, k4⟩ := h1 h; ⟨t, k1, k3, k4⟩, h2⟩

/-- C50: negative channel numbers are a ValueError. -/
theorem C50_negative_channel (S : ListSort) (m : MidiReader) {division : Nat} {es : List (Nat × Ev)}
    {body file : Bytes} (hf : IsFile division body file) (he : IsBody es body) (hd0 : 0 < division)
    (hd : division ≤ 0x7FFF) (hb : body.length < 2 ^ 24) {c : Int} (hc : c < 0) :
    m.loads S file (some c) = .error .valueError :=
  MidiReader.load_badChannel S m hf he hd0 hd hb hc

/-- C50: loading without channel gives the notes of all sixteen channels together. -/
theorem C50_all_channels (S : ListSort) (m : MidiReader) {division : Nat} {es : List (Nat × Ev)}
    {body file : Bytes} (hf : IsFile division body file) (he : IsBody es body) (hd0 : 0 < division)
    (hd : division ≤ 0x7FFF) (hb : body.length < 2 ^ 24) :
    ∃ t, m.loads S file none = .ok t ∧
      t.contents = ∑ c ∈ Finset.range 16, readNotes m.middleCDelta division (noteEvents c 0 es) := by
  obtain ⟨t, h1, -, -, h2⟩ := MidiReader.load_all S m hf he hd0 hd hb
  exact ⟨t, h1, h2⟩

/-- C50: the example file has channels 0 and 1, but not 2. -/
example : IsFile 96 exBodyBytes (exFile 96 exBodyBytes) ∧ IsBody exEvents exBodyBytes ∧
    HasChannel exEvents 0 ∧ HasChannel exEvents 1 ∧ ¬ HasChannel exEvents 2 := by
  refine ⟨exFile_isFile 96 (by decide), exBody_isBody, Or.inl (by decide +kernel), Or.inl (by decide +kernel), ?_⟩
  rintro (h | ⟨h, -⟩)
  · exact h (by decide +kernel)
  · cases h

/-! ### C53 -/

/-- C53 (second half; the first is C42): for every byte string and channel, two readers with middle C at
tones `a` and `b` raise the same exception, or return tracks with the same time signature and the same
notes but for the tones, which differ by `b - a`. -/
theorem C53_middle_c_shift (S : ListSort) (a b : Int) {m m' : MidiReader}
    (hm : MidiReader.new (.tone ⟨a⟩) = .ok m) (hm' : MidiReader.new (.tone ⟨b⟩) = .ok m')
    (data : Bytes) (channel : Option Int) :
    (∃ e, m.loads S data channel = .error e ∧ m'.loads S data channel = .error e) ∨
    (∃ t t', m.loads S data channel = .ok t ∧ m'.loads S data channel = .ok t' ∧
      t'.signature = t.signature ∧ t'.contents = t.contents.map (shiftPlaced (b - a))) := by
  have hr := MidiReader.load_rel S m m' data channel
  have e1 : m.middleCDelta = 60 - a := by cases hm; rfl
  have e2 : m'.middleCDelta = 60 - b := by cases hm'; rfl
  have e3 : m.middleCDelta - m'.middleCDelta = b - a := by rw [e1, e2]; ring
  rw [e3] at hr
  change (∃ e, m.load S data channel = _ ∧ m'.load S data channel = _) ∨
    (∃ t t', m.load S data channel = _ ∧ m'.load S data channel = _ ∧ _)
  rcases h1 : m.load S data channel with e | t <;> rcases h2 : m'.load S data channel with e' | t' <;>
    rw [h1, h2] at hr
  · exact Or.inl ⟨e, rfl, by rw [show e = e' from hr]⟩
  · exact hr.elim
  · exact hr.elim
  · exact Or.inr ⟨t, t', rfl, rfl, hr.sig.symm, hr.contents⟩

/-- C53: readers with middle C at C3 and C4. -/
example : (∃ m, @MidiReader.new ⟨fun _ => none⟩ (.tone ⟨36⟩) = .ok m) ∧
    (∃ m, @MidiReader.new ⟨fun _ => none⟩ (.tone ⟨48⟩) = .ok m) := ⟨⟨_, rfl⟩, ⟨_, rfl⟩⟩

/-! ### C55 -/

/-- The track of `C55_violated`: channel 0 has signature 3/4, channel 1 has 1/1, both have a note. -/
def exSignatures : Bytes :=
  [0, 0xFF, 0x20, 1, 0, 0, 0xFF, 0x58, 4, 3, 2, 24, 8, 0, 0xFF, 0x20, 1, 1, 0, 0xFF, 0x58, 4, 1, 0, 24, 8,
   0, 0x90, 60, 100, 0, 0x91, 62, 100, 96, 0x80, 60, 0, 0, 0x81, 62, 0, 0, 0xFF, 0x2F, 0]

omit [UnicodeDigits] in
/-- C55 is violated: the merged track gets 3/4 although a channel has 1/1. -/
theorem C55_violated :
    (∃ t, @MidiReader.loads ⟨fun _ => none⟩ cpySort ⟨24⟩ (exFile 96 exSignatures) none = .ok t ∧
      t.signature = ⟨3, 4⟩) ∧
    (∃ t, @MidiReader.loads ⟨fun _ => none⟩ cpySort ⟨24⟩ (exFile 96 exSignatures) (some 1) = .ok t ∧
      t.signature = ⟨1, 1⟩) ∧
    (⟨3, 4⟩ : Signature).val < (⟨1, 1⟩ : Signature).val :=
  ⟨exists_ok _ (by decide +kernel), exists_ok _ (by decide +kernel), by norm_num [Signature.val]⟩

omit [UnicodeDigits] in
theorem foldl_max_signature {d : Int} : ∀ (l : List Signature) (acc : Signature),
    (∀ s ∈ l, s.Valid ∧ s.denominator = d) → acc.Valid → (acc.denominator = 1 ∨ acc.denominator = d) →
    let r := l.foldl (fun acc s => if s.gt acc then s else acc) acc
    (r = acc ∨ r ∈ l) ∧ acc.val ≤ r.val ∧ ∀ s ∈ l, s.val ≤ r.val := by
  intro l
  induction l with
  | nil => intro acc _ _ _; exact ⟨Or.inl rfl, le_refl _, by simp⟩
  | cons s l ih =>
    intro acc hl ha hd
    obtain ⟨hs, hsd⟩ := hl s (by simp)
    have hle : acc.denominator ≤ s.denominator := by
      rcases hd with hd | hd
      · rw [hd]
        obtain ⟨k, hk⟩ := hs.2
        rw [hk]
        exact one_le_pow₀ (by norm_num)
      · rw [hd, hsd]
    have hgt := Signature.gt_of_ge hs ha hle
    rw [List.foldl_cons]
    by_cases hc : s.gt acc = true
    · rw [if_pos hc]
      obtain ⟨h1, h2, h3⟩ := ih s (fun x hx => hl x (List.mem_cons_of_mem _ hx)) hs (Or.inr hsd)
      refine ⟨Or.inr ?_, le_trans (le_of_lt (hgt.1 hc)) h2, ?_⟩
      · rcases h1 with h1 | h1
        · simp only [h1]; exact List.mem_cons_self
        · exact List.mem_cons_of_mem _ h1
      · intro x hx
        rcases List.mem_cons.1 hx with rfl | hx
        · exact h2
        · exact h3 x hx
    · rw [if_neg hc]
      obtain ⟨h1, h2, h3⟩ := ih acc (fun x hx => hl x (List.mem_cons_of_mem _ hx)) ha hd
      refine ⟨?_, h2, ?_⟩
      · rcases h1 with h1 | h1
        · exact Or.inl h1
        · exact Or.inr (List.mem_cons_of_mem _ h1)
      · intro x hx
        rcases List.mem_cons.1 hx with rfl | hx
        · exact le_trans (not_lt.1 fun hh => hc (hgt.2 hh)) h2
        · exact h3 x hx

/-- C55 if the signatures of all channels have the same denominator: the merged track has a largest one
(0/1 if all are zero). Missing: different denominators, where the claim fails. -/
theorem C55_same_denominator_partial (S : ListSort) (m : MidiReader) {division : Nat} {es : List (Nat × Ev)}
    {body file : Bytes} (hf : IsFile division body file) (he : IsBody es body) (hd0 : 0 < division)
    (hd : division ≤ 0x7FFF) (hb : body.length < 2 ^ 24) {k : Int}
    (hk : ∀ c, HasChannel es c → (signatureFor c es).denominator = k) :
    ∃ t, m.loads S file none = .ok t ∧ (∀ c, HasChannel es c → (signatureFor c es).val ≤ t.signature.val) ∧
      (t.signature = ⟨0, 1⟩ ∨ ∃ c, HasChannel es c ∧ t.signature = signatureFor c es) := by
  obtain ⟨t, h1, -, h2, -⟩ := MidiReader.load_all S m hf he hd0 hd hb
  obtain ⟨o1, o2⟩ := MidiReader.coreOf_ok he
  have hok := (MidiReader.channelsOf_ok o1).1
  have hmem : ∀ s ∈ (MidiReader.channelsOf (coreOf es).events).map
      (fun x => MidiReader.channelSignature (coreOf es).sigs x.1), ∃ c, HasChannel es c ∧ s = signatureFor c es := by
    intro s hs
    obtain ⟨x, hx, rfl⟩ := List.mem_map.1 hs
    obtain ⟨n, -, hn⟩ := hok.keys x hx
    obtain ⟨a, l⟩ := x
    simp only at hn
    subst hn
    exact ⟨n, (MidiReader.hasChannel_of_mem he hx).1, MidiReader.channelSignature_body he n⟩
  have hval : ∀ s ∈ (MidiReader.channelsOf (coreOf es).events).map
      (fun x => MidiReader.channelSignature (coreOf es).sigs x.1), s.Valid ∧ s.denominator = k := by
    intro s hs
    obtain ⟨c, hc, e⟩ := hmem s hs
    obtain ⟨x, hx, rfl⟩ := List.mem_map.1 hs
    exact ⟨channelSignature_valid o2 _, by rw [e]; exact hk c hc⟩
  obtain ⟨k1, -, k3⟩ := foldl_max_signature (d := k) _ ⟨0, 1⟩ hval ⟨le_refl _, IsPow2.one⟩ (Or.inl rfl)
  rw [← h2] at k1 k3
  refine ⟨t, h1, ?_, ?_⟩
  · intro c hc
    apply k3
    obtain ⟨l, hl, -⟩ := (MidiReader.channelsOf_body he c).1 hc
    rw [← MidiReader.channelSignature_body he c]
    exact List.mem_map.2 ⟨_, Dict.mem_of_get hl, rfl⟩
  · rcases k1 with k1 | k1
    · exact Or.inl k1
    · exact Or.inr (hmem _ k1)

/-- C55: in the example file both channels have the default signature. -/
example : ∀ c, HasChannel exEvents c → (signatureFor c exEvents).denominator = 4 := by
  intro c _
  have : signatureEvents none exEvents = [] := by decide +kernel
  unfold signatureFor
  rw [this]
  rfl

end Melodia
