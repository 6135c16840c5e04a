/-
Property theorems C72, C73: exactly which files the reader accepts, what it reads from them, and how much that can be
(src/melodia/io/midi.py). The grammar is in Spec/Lenient.lean.
-/
import Verif.Lemmas.LenientUnique
import Verif.Lemmas.TrackMore
import Verif.Props.MidiRead

set_option autoImplicit false

namespace Melodia

variable [UnicodeDigits]

/-! ### C72 -/

/-- C72: `loads` accepts a byte string if and only if it is in the grammar. -/
theorem C72_language (S : ListSort) (m : MidiReader) (file : Bytes) :
    (∃ t, m.loads S file none = .ok t) ↔ ∃ division es, FileReads file division es := by
  constructor
  · rintro ⟨t, h⟩
    exact MidiReader.reads_of_load S m h
  · rintro ⟨division, es, h⟩
    obtain ⟨ts, d, h1, h2, body, h3⟩ := MidiReader.load_reads S m h none
    obtain ⟨t, h4, -⟩ := MidiReader.finish_all S m (d := d) h2 h3
    exact ⟨t, h1.trans h4⟩

/-- C72: with a channel, a byte string is accepted if and only if it is in the grammar and has the channel. -/
theorem C72_channel_language (S : ListSort) (m : MidiReader) (file : Bytes) (c : Int) :
    (∃ t, m.loads S file (some c) = .ok t) ↔
      ∃ division es, FileReads file division es ∧ ∃ n : Nat, c = n ∧ HasChannel es n := by
  constructor
  · rintro ⟨t, h⟩
    obtain ⟨division, es, hf⟩ := MidiReader.reads_of_load S m h
    refine ⟨division, es, hf, ?_⟩
    obtain ⟨ts, d, h1, h2, body, h3⟩ := MidiReader.load_reads S m hf (some c)
    change m.load S file (some c) = _ at h
    rw [h1] at h
    rcases Int.lt_or_le c 0 with hc | hc
    · rw [MidiReader.finish_negative S m h2 h3 hc] at h; cases h
    · obtain ⟨n, rfl⟩ := Int.eq_ofNat_of_zero_le hc
      refine ⟨n, rfl, ?_⟩
      by_contra hn
      have := (MidiReader.finish_channel S m (d := d) h2 h3 n).2 hn
      rw [this] at h; cases h
  · rintro ⟨division, es, hf, n, rfl, hn⟩
    obtain ⟨ts, d, h1, h2, body, h3⟩ := MidiReader.load_reads S m hf (some (n : Int))
    obtain ⟨t, h4, -⟩ := (MidiReader.finish_channel S m (d := d) h2 h3 n).1 hn
    exact ⟨t, h1.trans h4⟩

/-- C72: the music read from an accepted file is that of its events: all channels together. -/
theorem C72_music (S : ListSort) (m : MidiReader) {file : Bytes} {division : Nat} {es : List (Nat × Ev)}
    (h : FileReads file division es) : ∃ t, m.loads S file none = .ok t ∧
      t.contents = ∑ c ∈ Finset.range 16, readNotes m.middleCDelta division (noteEvents c 0 es) := by
  obtain ⟨ts, d, h1, h2, body, h3⟩ := MidiReader.load_reads S m h none
  obtain ⟨t, h4, -, -, h5⟩ := MidiReader.finish_all S m (d := d) h2 h3
  exact ⟨t, h1.trans h4, h5⟩

/-- C72: one channel of an accepted file. -/
theorem C72_channel_music (S : ListSort) (m : MidiReader) {file : Bytes} {division : Nat} {es : List (Nat × Ev)}
    (h : FileReads file division es) (c : Nat) :
    (HasChannel es c → ∃ t, m.loads S file (some (c : Int)) = .ok t ∧ t.signature = signatureFor c es ∧
      t.contents = readNotes m.middleCDelta division (noteEvents c 0 es)) ∧
    (¬ HasChannel es c → m.loads S file (some (c : Int)) = .error .valueError) := by
  obtain ⟨ts, d, h1, h2, body, h3⟩ := MidiReader.load_reads S m h (some (c : Int))
  obtain ⟨h4, h5⟩ := MidiReader.finish_channel S m (d := d) h2 h3 c
  constructor
  · intro hc
    obtain ⟨t, k1, -, k2, k3⟩ := h4 hc
    exact ⟨t, h1.trans k1, k2, k3⟩
  · intro hc
    exact h1.trans (h5 hc)

omit [UnicodeDigits] in
/-- C72: the grammar is unambiguous. -/
theorem C72_unambiguous {file : Bytes} {division division' : Nat} {es es' : List (Nat × Ev)}
    (h : FileReads file division es) (h' : FileReads file division' es') : division = division' ∧ es = es' := by
  obtain ⟨cs, h1, h2⟩ := h
  obtain ⟨cs', h1', h2'⟩ := h'
  have := h1.unique h1'
  subst this
  have := h2.unique h2'
  cases this
  exact ⟨rfl, rfl⟩

omit [UnicodeDigits] in
theorem Encodes.lenient : ∀ (es : List (Nat × Ev)) (prev prev' : Option UInt8) (bs : Bytes) (d : Nat),
    Encodes prev (es ++ [(d, .endOfTrack)]) bs → (∀ x ∈ es, x.2 ≠ .endOfTrack) → (∀ s, prev = some s → prev' = some s) →
    Lenient prev' es bs := by
  intro es
  induction es with
  | nil =>
    intro prev prev' bs d h _ _
    cases h with
    | cons hv hw he h =>
      cases h
      cases he with
      | mta _ k len payload hl =>
        have := Lenient.stop (prev := prev') (rest := []) hv (.mta _ _ _ hl) (.status _ _ _)
        simpa using this
  | cons x es ih =>
    intro prev prev' bs d h hne hp
    cases h with
    | @cons _ next d' e _ v bs' rest hv hw he h =>
      have hne' : e ≠ .endOfTrack := hne (d', e) (by simp)
      have hes : ∀ x ∈ es, x.2 ≠ .endOfTrack := fun x hx => hne x (by simp [hx])
      cases he with
      | chan _ s data =>
        have := Lenient.cons (prev := prev') hv hw hne' (.chan s data) (.status _ _ _)
          (ih (some s) (some s) rest d h hes (fun _ h => h))
        simpa [Ev.status] using this
      | running s b data hb =>
        have h1 := hp s rfl
        subst h1
        have := Lenient.cons hv hw hne' (.chan s (b :: data)) (.running _ _ _ hb)
          (ih (some s) (some s) rest d h hes (fun _ h => h))
        simpa [Ev.status] using this
      | sys _ s data =>
        have := Lenient.cons (prev := prev') hv hw hne' (.sys s data) (.status _ _ _)
          (ih none (some s) rest d h hes (fun _ h => by cases h))
        simpa [Ev.status] using this
      | mta _ k len payload hl =>
        have := Lenient.cons (prev := prev') hv hw hne' (.mta k len payload hl) (.status _ _ _)
          (ih none (some 0xFF) rest d h hes (fun _ h => by cases h))
        simpa [Ev.status] using this

omit [UnicodeDigits] in
/-- C72: the files of the standard (format 0, events as in Spec/MidiRead.lean) are in the grammar. -/
theorem C72_standard {division : Nat} {es : List (Nat × Ev)} {body file : Bytes} (hf : IsFile division body file)
    (he : IsBody es body) (hd0 : 0 < division) (hd : division ≤ 0x7FFF) (hb : body.length < 2 ^ 24) :
    FileReads file division es := by
  obtain ⟨div, hdr, trk, h1, ⟨len, h2, rfl⟩, ⟨len', h3, rfl⟩, rfl⟩ := hf
  obtain ⟨l3, rfl, h4⟩ := bigEndian_four h2 (MidiReader.header_length h1)
  obtain ⟨l3', rfl, h5⟩ := bigEndian_four h3 hb
  obtain ⟨k1, d, k2⟩ := he
  refine ⟨[(kindMThd, [0, 0, 0, 1] ++ div), (kindMTrk, body)], ?_, ?_⟩
  · have := AllChunks.cons (kind := kindMThd) (top := 0) rfl h4
      (AllChunks.cons (kind := kindMTrk) (top := 0) rfl h5 AllChunks.nil)
    rw [List.append_nil] at this
    exact this
  · obtain ⟨h6, h7⟩ := h1
    match div, h6 with
    | [hi, lo], _ =>
      have e : hi.toNat * 256 + lo.toNat = division := by
        rw [← h7, List.foldl_cons, List.foldl_cons, List.foldl_nil]
        omega
      refine ChunksRead.header (tail := []) (by omega) ?_
      rw [e]
      exact .track (Encodes.lenient es none none body d k2 k1 (fun _ h => h)) (by omega) (.nil _ _)

/-- Bytes outside of the standard that are accepted: a velocity of 200, a delta time with a leading zero, bytes after
the end of the track. -/
def exOdd : Bytes := [0, 0x90, 60, 200, 0x80, 0x60, 60, 0, 0, 0xF8, 0, 0xFF, 0x2F, 0, 1, 2, 3]

omit [UnicodeDigits] in
theorem exOdd_lenient : Lenient none [(0, .chan 0x90 [60, 200]), (96, .chan 0x90 [60, 0]), (0, .sys 0xF8 [])] exOdd := by
  have w1 : (Ev.chan 0x90 [60, 200]).Wf := ⟨by decide, by decide, by decide⟩
  have w2 : (Ev.chan 0x90 [60, 0]).Wf := ⟨by decide, by decide, by decide⟩
  have w3 : (Ev.sys 0xF8 []).Wf := Or.inr (Or.inr (Or.inr ⟨by decide, rfl⟩))
  have v0 : VlqReads 0 [0] := vlqReads_one (n := 0) (by norm_num)
  have v96 : VlqReads 96 [0x80, 0x60] := ⟨⟨[0x80], 0x60, rfl, by decide, by decide⟩, by decide⟩
  have e4 := Lenient.stop (prev := some 0xF8) (rest := [1, 2, 3]) v0 (.mta 0x2F [0] [] v0) (.status _ _ _)
  have e3 := Lenient.cons (prev := some 0x90) v0 w3 (by decide) (.sys 0xF8 []) (.status _ _ _) e4
  have e2 := Lenient.cons (prev := some 0x90) v96 w2 (by decide) (.chan 0x90 [60, 0]) (.running _ _ _ (by decide)) e3
  exact Lenient.cons (prev := none) v0 w1 (by decide) (.chan 0x90 [60, 200]) (.status _ _ _) e2

omit [UnicodeDigits] in
/-- C72: a file that is not standard but in the grammar. -/
theorem exOdd_reads : FileReads (exFile 96 exOdd) 96
    [(0, .chan 0x90 [60, 200]), (96, .chan 0x90 [60, 0]), (0, .sys 0xF8 [])] := by
  refine ⟨[(kindMThd, [0, 0, 0, 1, 0, 96]), (kindMTrk, exOdd)], ?_, ?_⟩
  · exact AllChunks.cons (kind := kindMThd) (top := 0) (len := [0, 0, 6]) (body := [0, 0, 0, 1, 0, 96]) rfl ⟨rfl, by decide⟩
      (AllChunks.cons (kind := kindMTrk) (top := 0) (len := [0, 0, 17]) (body := exOdd) (rest := []) rfl ⟨rfl, by decide⟩ AllChunks.nil)
  · exact ChunksRead.header (by decide) (.track exOdd_lenient (fun h => absurd h (by decide)) (.nil _ _))

omit [UnicodeDigits] in
example : ∃ t, @MidiReader.loads ⟨fun _ => none⟩ cpySort ⟨24⟩ (exFile 96 exOdd) none = .ok t ∧ t.len = 1 :=
  exists_ok _ (by decide +kernel)

omit [UnicodeDigits] in
/-- C72: a file outside of the grammar: no end of track. -/
example : ¬ ∃ division es, FileReads (exFile 96 [0, 0x90, 60, 100]) division es := by
  let _ : UnicodeDigits := ⟨fun _ => none⟩
  rw [← C72_language cpySort ⟨24⟩]
  rintro ⟨t, h⟩
  have : (MidiReader.loads cpySort ⟨24⟩ (exFile 96 [0, 0x90, 60, 100]) none).isOk = false := by decide +kernel
  rw [h] at this
  cases this

/-! ### C73 -/

/-- C73: a loaded track has at most one note for six bytes of the file, which has at least 26 other bytes. -/
theorem C73_size (S : ListSort) (m : MidiReader) (file : Bytes) (channel : Option Int) (t : Track)
    (h : m.loads S file channel = .ok t) : 6 * t.len + 26 ≤ file.length := by
  obtain ⟨division, es, hf⟩ := MidiReader.reads_of_load S m h
  have hs := hf.size
  have hsum := noteEvents_sum es 0
  have card : ∀ c, 2 * (readNotes m.middleCDelta division (noteEvents c 0 es)).card ≤ (noteEvents c 0 es).length := by
    intro c
    unfold readNotes
    rw [Multiset.card_map]
    exact pairSet_card_le _
  have key : 2 * t.contents.card ≤ noteCount es := by
    refine le_trans ?_ hsum
    cases channel with
    | none =>
      obtain ⟨t', h1, h2⟩ := C72_music S m hf
      rw [h] at h1
      cases h1
      rw [h2, Multiset.card_sum, Finset.mul_sum]
      exact Finset.sum_le_sum (fun c _ => card c)
    | some c =>
      obtain ⟨division', es', hf', n, rfl, hn⟩ := (C72_channel_language S m file c).1 ⟨t, h⟩
      obtain ⟨rfl, rfl⟩ := C72_unambiguous hf hf'
      obtain ⟨t', h1, -, h2⟩ := (C72_channel_music S m hf n).1 hn
      rw [h] at h1
      cases h1
      rw [h2]
      by_cases hn16 : n < 16
      · exact (card n).trans (Finset.single_le_sum (f := fun c => (noteEvents c 0 es).length)
          (fun _ _ => Nat.zero_le _) (Finset.mem_range.2 hn16))
      · obtain ⟨ts, d, -, h4, body, hb⟩ := MidiReader.load_reads S m hf none
        have : noteEvents n 0 es = [] := by
          by_contra hne
          obtain ⟨l, k1, -⟩ := (MidiReader.channelsOf_body hb n).1 (Or.inl hne)
          obtain ⟨k, k2, k3⟩ := (MidiReader.channelsOf_ok (MidiReader.coreOf_ok hb).1).1.keys _ (Dict.mem_of_get k1)
          simp only at k3
          omega
        rw [this, readNotes_nil]
        simp
  rw [Track.len_eq_card]
  omega

omit [UnicodeDigits] in
/-- C73: the smallest file has 26 bytes. -/
example : (exFile 96 [0, 0xFF, 0x2F, 0]).length = 26 ∧
    ∃ t, @MidiReader.loads ⟨fun _ => none⟩ cpySort ⟨24⟩ (exFile 96 [0, 0xFF, 0x2F, 0]) none = .ok t ∧ t.len = 0 :=
  ⟨rfl, exists_ok _ (by decide +kernel)⟩

end Melodia
