/-
Property theorems C33-C38 and C51 (writer in src/melodia/io/midi.py, velocity conversion of the reader).

`S` is any sort meeting the contract of `list.sort`; the vocabulary (messages, files, pulses,
`Arranged`) is in Spec/Midi.lean and Spec/Vlq.lean.
-/
import Verif.Lemmas.MidiWrite
import Verif.Lemmas.ParserLaws
import Verif.Props.Track
import Mathlib.Data.Fintype.Prod
import Mathlib.Data.Fintype.Sum
import Mathlib.Logic.Equiv.Prod

set_option autoImplicit false

namespace Melodia

/-! ### C33 -/

/-- C33: for every n >= 0 the writer's encoding succeeds and is the standard variable-length quantity. -/
theorem C33_encode (n : Nat) : ∃ bs, Writer.formatVarLen n = .ok bs ∧ IsVlq n bs :=
  ⟨_, formatVarLen_nat n, vlq_isVlq n⟩

/-- C33: there is only one such encoding, and an encoding denotes only one number. -/
theorem C33_unique (n m : Nat) (a b : Bytes) (ha : IsVlq n a) (hb : IsVlq m b) : a = b ↔ n = m := by
  constructor
  · rintro rfl
    rw [← ha.value, ← hb.value]
  · rintro rfl
    rw [ha.unique, hb.unique]

/-- `read` keeps the data. -/
theorem Reader.readVarLen_data {r r' : Reader} {n : Nat} (h : r.readVarLen = .ok (n, r')) :
    r'.data = r.data := by
  have h8 : ∀ {r r' : Reader} {n : Nat}, r.read8 = .ok (n, r') → r'.data = r.data := by
    intro r r' n h
    unfold Reader.read8 Reader.read at h
    split at h
    · cases h
    · cases h; rfl
  have hl : ∀ (fuel acc : Nat) (r r' : Reader) (n : Nat), Reader.varLenLoop fuel acc r = .ok (n, r') →
      r'.data = r.data := by
    intro fuel
    induction fuel with
    | zero => intro _ _ _ _ h; cases h
    | succ f ih =>
      intro acc r r' n h
      rw [Reader.varLenLoop] at h
      rcases hr : r.read8 with e | ⟨v, r1⟩
      · rw [hr] at h; cases h
      · rw [hr] at h
        simp only [bind, Except.bind] at h
        split at h
        · cases h; exact h8 hr
        · rw [ih _ _ _ _ h]; exact h8 hr
  unfold Reader.readVarLen at h
  rcases hr : r.read8 with e | ⟨v, r1⟩
  · rw [hr] at h; cases h
  · rw [hr] at h
    simp only [bind, Except.bind] at h
    split at h
    · cases h; exact h8 hr
    · rw [hl _ _ _ _ _ h]; exact h8 hr

/-- C33: reading an encoding of `n` at any place of any data returns `n` and stops right after it. -/
theorem C33_read (n : Nat) (bs pre post : Bytes) (h : IsVlq n bs) :
    (⟨pre ++ bs ++ post, pre.length⟩ : Reader).readVarLen =
      .ok (n, ⟨pre ++ bs ++ post, pre.length + bs.length⟩) := by
  have hat : (⟨pre ++ bs ++ post, pre.length⟩ : Reader).At (bs ++ post) := by
    constructor
    · simp
    · simp
  have hs := Reader.sim_readVarLen hat
  rw [h.unique, L.readVar_vlq] at hs
  rw [← h.unique] at hs
  rcases hr : (⟨pre ++ bs ++ post, pre.length⟩ : Reader).readVarLen with e | ⟨v, r'⟩
  · rw [hr] at hs; exact hs.elim
  · rw [hr] at hs
    obtain ⟨rfl, h'⟩ := hs
    have hd := Reader.readVarLen_data hr
    have hl := h'.length_eq
    rw [hd] at hl
    simp only [List.length_append] at hl
    congr 2
    obtain ⟨data, idx⟩ := r'
    simp only [Reader.mk.injEq] at hd hl ⊢
    exact ⟨hd, by omega⟩

/-- C33: write, then read. -/
theorem C33_roundtrip (n : Nat) (pre post : Bytes) : ∃ bs, Writer.formatVarLen n = .ok bs ∧
    (⟨pre ++ bs ++ post, pre.length⟩ : Reader).readVarLen =
      .ok (n, ⟨pre ++ bs ++ post, pre.length + bs.length⟩) :=
  ⟨_, formatVarLen_nat n, C33_read n _ pre post (vlq_isVlq n)⟩

/-- The three-byte encoding of 100000. -/
example : Writer.formatVarLen 100000 = .ok [0x86, 0x8D, 0x20] := by decide +kernel
example : IsVlq 100000 [0x86, 0x8D, 0x20] :=
  ⟨⟨[0x86, 0x8D], 0x20, rfl, by decide, by decide⟩, by decide, by decide⟩
/-- A superfluous leading septet is not an encoding. -/
example : ¬ IsVlq 1 [0x80, 0x01] := fun h => h.minimal 0x80 rfl rfl

/-! ### C34 -/

/-- C34: the constructor only produces configurations with ppq in 1..32767 and channel in 0..15. -/
theorem C34_constructor [UnicodeDigits] (ppq : Int) (mc : ToneArg) (bpm : PyFloat) (ch : Int) (w : Writer)
    (h : Writer.new ppq mc bpm ch = .ok w) : w.Valid ∧ w.ppq = ppq ∧ w.bpm = bpm ∧ w.channel = ch :=
  ⟨(Writer.new_valid h).1, (Writer.new_valid h).2.1, (Writer.new_valid h).2.2.1, (Writer.new_valid h).2.2.2.1⟩

namespace Writer

/-- What a successful dump implies and what it appends. -/
theorem dump_success {S : ListSort} {w : Writer} (hw : w.Valid) {t : Track} (ht : t.WF) {file file' : Bytes}
    {t' : Track} (h : w.dump S t file = (t', file', .ok ())) :
    (∀ e ∈ t.items S, e.2.PitchOk w.middleCDelta) ∧ SignatureFits t.signature ∧ w.ppq ≤ 255 ∧
    ∃ tempo, TempoFits w.bpm tempo ∧
      (bodyBytes (allMsgs w t.signature tempo (t.items S))).length < 2 ^ 32 ∧
      t' = (t.iter S).1 ∧
      file' = file ++ headerBytes w ++
        (tagMTrk ++ (natLE 4 (bodyBytes (allMsgs w t.signature tempo (t.items S))).length).reverse ++
            bodyBytes (allMsgs w t.signature tempo (t.items S))) := by
  by_cases hp : ∀ e ∈ t.items S, e.2.PitchOk w.middleCDelta
  · by_cases hf : SignatureFits t.signature ∧ w.ppq ≤ 255
    · by_cases hb : ∃ tempo, TempoFits w.bpm tempo
      · obtain ⟨tempo, hb⟩ := hb
        rw [dump_fits S hw ht file hp hf.1 hf.2 hb] at h
        split at h
        · rename_i hl
          cases h
          exact ⟨hp, hf.1, hf.2, tempo, hb, hl, rfl, rfl⟩
        · cases h
      · rw [dump_tempo S hw ht file hp hf.1 hf.2 hb] at h; cases h
    · rw [dump_sig S hw ht file hp hf] at h; cases h
  · rw [dump_pitch S hw ht file hp] at h; cases h

theorem dumps_success {S : ListSort} {w : Writer} (hw : w.Valid) {t : Track} (ht : t.WF) {bytes : Bytes}
    (h : w.dumps S t = .ok bytes) :
    (∀ e ∈ t.items S, e.2.PitchOk w.middleCDelta) ∧ SignatureFits t.signature ∧ w.ppq ≤ 255 ∧
    ∃ tempo, TempoFits w.bpm tempo ∧
      (bodyBytes (allMsgs w t.signature tempo (t.items S))).length < 2 ^ 32 ∧
      bytes = headerBytes w ++
        (tagMTrk ++ (natLE 4 (bodyBytes (allMsgs w t.signature tempo (t.items S))).length).reverse ++
            bodyBytes (allMsgs w t.signature tempo (t.items S))) := by
  unfold dumps at h
  rcases hd : dump S w t [] with ⟨t', file', res⟩
  rw [hd] at h
  cases res with
  | error e => cases h
  | ok u =>
    cases h
    obtain ⟨h1, h2, h3, tempo, h4, h5, h6, h7⟩ := dump_success hw ht hd
    exact ⟨h1, h2, h3, tempo, h4, h5, h7⟩

theorem isSmf_of {w : Writer} (hw : w.Valid) {es : List (Nat × Msg)} (hr : ∀ x ∈ es, x.2.InRange)
    (hl : (bodyBytes es).length < 2 ^ 32) : IsSmf w.ppq.toNat es
      (headerBytes w ++ (tagMTrk ++ (natLE 4 (bodyBytes es).length).reverse ++ bodyBytes es)) := by
  have h1 := hw.ppqPos
  have h2 := hw.ppqMax
  refine ⟨(natLE 2 w.ppq.toNat).reverse, (natLE 4 (bodyBytes es).length).reverse, bodyBytes es,
    ⟨by rw [List.length_reverse, natLE_length], fromBytesBig_natLE 2 _ (by norm_num; omega)⟩,
    ⟨by rw [List.length_reverse, natLE_length], fromBytesBig_natLE 4 _ (by norm_num; omega)⟩,
    bodyBytes_spec es hr, ?_⟩
  simp only [headerBytes, tagMTrk, List.append_assoc]

end Writer

/-- C34: whenever `dumps` succeeds, the bytes are a well-formed file: 14-byte header chunk (format 0, one
track, the division), one track chunk with exact length, whose body is delta-time/message pairs: time
signature (nominator and exponent of the denominator of the track's signature), tempo, note messages on
the writer's channel, end of track. `TrackBody` includes that every field is in range, so all data bytes
of note messages are below 0x80. -/
theorem C34_wellformed (S : ListSort) (w : Writer) (hw : w.Valid) (t : Track) (ht : t.Reachable S)
    (bytes : Bytes) (h : w.dumps S t = .ok bytes) :
    ∃ (nn dd tempo : Nat) (notes : List (Nat × Msg)),
      IsSmf w.ppq.toNat ([(0, .timeSignature nn dd w.ppq.toNat 8), (0, .tempo tempo)] ++ notes ++
        [(0, .endOfTrack)]) bytes ∧
      t.signature = ⟨nn, 2 ^ dd⟩ ∧ TempoIs w.bpm tempo ∧
      ∀ x ∈ notes, ∃ p v, x.2 = .noteOn w.channel.toNat p v ∨ x.2 = .noteOff w.channel.toNat p v := by
  have hwf := ht.wf
  obtain ⟨hp, hf, hq, tempo, hb, hl, rfl⟩ := Writer.dumps_success hw hwf h
  have hv := Track.items_valid S hwf
  refine ⟨t.signature.nominator.toNat, Writer.log2Den t.signature, tempo,
    Writer.deltaMsgs 0 (Writer.sortedMsgs w (t.items S)),
    Writer.isSmf_of hw (Writer.msgs_inRange hw hwf.sig hv hp hf hq hb) hl, ?_, hb.1, ?_⟩
  · have h1 := (Writer.log2Den_spec hwf.sig).1
    have h2 := hwf.sig.nom
    rw [Int.toNat_of_nonneg h2, ← h1]
  · intro x hx
    obtain ⟨y, hy, he⟩ := Writer.mem_deltaMsgs _ _ _ hx
    obtain ⟨e, _, rfl | rfl⟩ := Writer.mem_sortedMsgs.1 hy
    · exact ⟨_, _, Or.inl he.symm⟩
    · exact ⟨_, _, Or.inr he.symm⟩

/-- A writer and a track used in examples: two overlapping notes and one outside the first bar. -/
def exWriter : Writer := ⟨96, 384, 24, .fin 120, 3⟩
theorem exWriter_valid : exWriter.Valid := ⟨by decide, by decide, by decide, by decide, by decide⟩
example : @Writer.new ⟨fun _ => none⟩ 96 (.tone ⟨36⟩) (.fin 120) 3 = .ok exWriter := by decide +kernel
def exTrack : Track := (Track.empty ⟨4, 4⟩).run cpySort
  [.add (.note (exNote 40 1 4)) none, .add (.note (exNote 43 1 8)) (some (.ints [1, 8])),
   .add (.note (exNote 40 1 4)) (some (.ints [5, 4]))]
theorem exTrack_reachable : exTrack.Reachable cpySort :=
  ⟨⟨4, 4⟩, _, ⟨by decide, 2, rfl⟩, by
    intro o ho
    have h1 := exNote_valid 40 1 2 (by decide)
    have h2 := exNote_valid 43 1 3 (by decide)
    simp only [List.mem_cons, List.not_mem_nil, or_false] at ho
    rcases ho with rfl | rfl | rfl
    · exact ⟨by intro n hn; simp [What.notes] at hn; exact hn ▸ h1, by intro a ha; cases ha⟩
    · exact ⟨by intro n hn; simp [What.notes] at hn; exact hn ▸ h2, by intro a ha; cases ha; trivial⟩
    · exact ⟨by intro n hn; simp [What.notes] at hn; exact hn ▸ h1, by intro a ha; cases ha; trivial⟩, rfl⟩

/-- Its file, byte by byte. -/
example : exWriter.dumps cpySort exTrack = .ok
    [0x4D, 0x54, 0x68, 0x64, 0, 0, 0, 6, 0, 0, 0, 1, 0, 96, 0x4D, 0x54, 0x72, 0x6B, 0, 0, 0, 44,
     0, 0xFF, 0x58, 4, 4, 2, 96, 8, 0, 0xFF, 0x51, 3, 7, 161, 32,
     0, 0x93, 64, 127, 48, 0x93, 67, 127, 48, 0x83, 64, 64, 0, 0x83, 67, 64,
     0x83, 0x00, 0x93, 64, 127, 96, 0x83, 64, 64, 0, 0xFF, 0x2F, 0] := by decide +kernel

/-! ### C35 -/

/-- C35: the note messages written are exactly the note-ons and note-offs of the notes of the track, at the
quantised times, once each, in non-decreasing time, every note's off after its on; equal times keep the
iteration order (`Arranged`). -/
theorem C35_notes (S : ListSort) (w : Writer) (hw : w.Valid) (t : Track) (ht : t.Reachable S)
    (bytes : Bytes) (h : w.dumps S t = .ok bytes) :
    ∃ sig tempo notes, IsSmf w.ppq.toNat ([(0, sig), (0, tempo)] ++ notes ++ [(0, .endOfTrack)]) bytes ∧
      Arranged w (t.items S) (absoluteTimes 0 notes) ∧
      (absoluteTimes 0 notes).Pairwise (fun a b => a.1 ≤ b.1) := by
  have hwf := ht.wf
  obtain ⟨hp, hf, hq, tempo, hb, hl, rfl⟩ := Writer.dumps_success hw hwf h
  have hv := Track.items_valid S hwf
  have habs := Writer.absoluteTimes_deltaMsgs (Writer.sortedMsgs w (t.items S)) 0
    (Writer.sortedMsgs_sorted w _) (fun _ _ => Nat.zero_le _)
  refine ⟨_, _, Writer.deltaMsgs 0 (Writer.sortedMsgs w (t.items S)),
    Writer.isSmf_of hw (Writer.msgs_inRange hw hwf.sig hv hp hf hq hb) hl, ?_, ?_⟩
  · rw [habs]; exact Writer.arranged_sortedMsgs w _
  · rw [habs]; exact Writer.sortedMsgs_sorted w _

/-- C35: `Arranged` says in particular that the messages are, up to order, the note-ons and note-offs of the
notes (one each). -/
theorem C35_multiset (w : Writer) (items : List Entry) (es : List (Nat × Msg)) (h : Arranged w items es) :
    es.Perm (items.map (fun e => Entry.msg w e false) ++ items.map (fun e => Entry.msg w e true)) := by
  obtain ⟨place, h1, -, -⟩ := h
  have e1 : (es : Multiset (Nat × Msg)) = (Finset.univ : Finset (Fin es.length)).val.map (fun k => es[k]) := by
    have : es = (List.finRange es.length).map (fun k => es[k]) := by simp
    conv_lhs => rw [this]
    rfl
  have e2 : (Finset.univ : Finset (Fin es.length)).val.map (fun k => es[k]) =
      (Finset.univ : Finset (Fin items.length × Bool)).val.map (fun x => es[place x]) := by
    rw [← Finset.map_univ_equiv place, Finset.map_val, Multiset.map_map]
    rfl
  have e3 : (Finset.univ : Finset (Fin items.length × Bool)).val.map (fun x => es[place x]) =
      (Finset.univ : Finset (Fin items.length × Bool)).val.map (fun x => Entry.msg w items[x.1] x.2) := by
    congr 1; funext x; exact h1 x.1 x.2
  have e4 : ∀ b, (Finset.univ : Finset (Fin items.length)).val.map (fun i => Entry.msg w items[i] b) =
      ((items.map (fun e => Entry.msg w e b) : List _) : Multiset (Nat × Msg)) := by
    intro b
    have : items.map (fun e => Entry.msg w e b) =
        (List.finRange items.length).map (fun i => Entry.msg w items[i] b) := by
      conv_lhs => rw [show items = (List.finRange items.length).map (fun k => items[k]) by simp]
      rw [List.map_map]
      rfl
    rw [this]
    rfl
  rw [← Multiset.coe_eq_coe, e1, e2, e3, ← Multiset.coe_add, ← e4, ← e4]
  let f : Fin items.length ⊕ Fin items.length ≃ Fin items.length × Bool :=
    (Equiv.boolProdEquivSum _).symm.trans (Equiv.prodComm _ _)
  rw [← Finset.map_univ_equiv f, Finset.map_val, Multiset.map_map, ← Finset.univ_disjSum_univ,
    Finset.val_disjSum, Multiset.disjSum, Multiset.map_add, Multiset.map_map, Multiset.map_map]
  rfl

example : Writer.sortedMsgs exWriter (exTrack.items cpySort) =
    [(0, .noteOn 3 64 127), (48, .noteOn 3 67 127), (96, .noteOff 3 64 64), (96, .noteOff 3 67 64),
     (480, .noteOn 3 64 127), (576, .noteOff 3 64 64)] := by decide +kernel

/-! ### C36 -/

theorem pulsesOf_bounds {ppq : Int} (hp : 1 ≤ ppq) {x : ℚ} (hx : 0 ≤ x) :
    (pulsesOf ppq x : ℚ) ≤ 4 * ppq * x ∧ 4 * ppq * x < pulsesOf ppq x + 1 := by
  have hq : (0 : ℚ) ≤ ppq := by exact_mod_cast (by omega : (0 : Int) ≤ ppq)
  have hn : 0 ≤ ⌊4 * (ppq : ℚ) * x⌋ := Int.floor_nonneg.2 (by positivity)
  have e : ((pulsesOf ppq x : Nat) : ℚ) = ((⌊4 * (ppq : ℚ) * x⌋ : Int) : ℚ) := by
    unfold pulsesOf
    rw [← Int.cast_natCast, Int.toNat_of_nonneg hn]
  rw [e]
  exact ⟨Int.floor_le _, Int.lt_floor_add_one _⟩

/-- C36: `_signature_to_pulses` never fails and its result is the greatest whole number of pulses not
above the exact value; it is exact iff the value is a whole number of pulses. -/
theorem C36_pulses (w : Writer) (hw : w.Valid) (s : Signature) (hs : s.Valid) :
    ∃ k : Nat, w.signatureToPulses s = .ok (k : Int) ∧
      0 ≤ 4 * w.ppq * s.val - k ∧ 4 * w.ppq * s.val - k < 1 ∧
      (4 * w.ppq * s.val = k ↔ ∃ m : Int, 4 * w.ppq * s.val = m) := by
  obtain ⟨h1, h2⟩ := pulsesOf_bounds hw.ppqPos hs.valNonneg
  refine ⟨_, Writer.signatureToPulses_ok hw hs, by linarith, by linarith, ?_, ?_⟩
  · intro h; exact ⟨pulsesOf w.ppq s.val, by rw [h]; simp⟩
  · rintro ⟨m, hm⟩
    rw [hm] at h1 h2 ⊢
    have a1 : ((pulsesOf w.ppq s.val : Nat) : Int) ≤ m := by exact_mod_cast h1
    have a2 : m < ((pulsesOf w.ppq s.val : Nat) : Int) + 1 := by exact_mod_cast h2
    have : m = ((pulsesOf w.ppq s.val : Nat) : Int) := by omega
    rw [this]; simp

/-- C36: the times of the messages of a note are within one pulse (note-on) and two pulses (note-off) of the
exact times, never late; exact if position and duration are whole pulses. -/
theorem C36_note_times (w : Writer) (hw : w.Valid) (e : Entry) (h1 : e.1.Valid) (h2 : e.2.Valid) :
    let on : ℚ := (Entry.msg w e false).1
    let off : ℚ := (Entry.msg w e true).1
    (0 ≤ 4 * w.ppq * e.1.val - on ∧ 4 * w.ppq * e.1.val - on < 1) ∧
    (0 ≤ 4 * w.ppq * (e.1.val + e.2.duration.val) - off ∧
      4 * w.ppq * (e.1.val + e.2.duration.val) - off < 2) ∧
    ((∃ m : Int, 4 * w.ppq * e.1.val = m) → (∃ m : Int, 4 * w.ppq * e.2.duration.val = m) →
      on = 4 * w.ppq * e.1.val ∧ off = 4 * w.ppq * (e.1.val + e.2.duration.val)) := by
  obtain ⟨k, hk, a1, a2, a3⟩ := C36_pulses w hw e.1 h1
  obtain ⟨j, hj, b1, b2, b3⟩ := C36_pulses w hw e.2.duration h2.duration
  rw [Writer.signatureToPulses_ok hw h1] at hk
  rw [Writer.signatureToPulses_ok hw h2.duration] at hj
  have hk : pulsesOf w.ppq e.1.val = k := by injection hk with h; exact_mod_cast h
  have hj : pulsesOf w.ppq e.2.duration.val = j := by injection hj with h; exact_mod_cast h
  simp only [Entry.msg, Entry.offTime, Entry.onTime, hk, hj]
  push_cast
  refine ⟨⟨a1, a2⟩, ⟨by linarith, by linarith⟩, fun m1 m2 => ⟨?_, ?_⟩⟩
  · exact (a3.2 m1).symm
  · have := a3.2 m1
    have := b3.2 m2
    linarith

/-- C36: quantisation is monotone. -/
theorem C36_monotone (w : Writer) (hw : w.Valid) (a b : Signature) (ha : a.Valid) (hb : b.Valid)
    (h : a.val ≤ b.val) : ∃ i j : Nat, w.signatureToPulses a = .ok (i : Int) ∧
      w.signatureToPulses b = .ok (j : Int) ∧ i ≤ j := by
  refine ⟨_, _, Writer.signatureToPulses_ok hw ha, Writer.signatureToPulses_ok hw hb, ?_⟩
  have hq : (0 : ℚ) ≤ w.ppq := by exact_mod_cast (by have := hw.ppqPos; omega : (0 : Int) ≤ w.ppq)
  exact Int.toNat_le_toNat (Int.floor_le_floor (by gcongr))

/-- C36, for a writer made with `pulses_per_quarter = ppq`: a whole note is 4 * ppq pulses. -/
theorem C36_writer [UnicodeDigits] (ppq : Int) (mc : ToneArg) (bpm : PyFloat) (ch : Int) (w : Writer)
    (hw : Writer.new ppq mc bpm ch = .ok w) (s : Signature) (hs : s.Valid) :
    ∃ k : Nat, w.signatureToPulses s = .ok (k : Int) ∧ k ≤ 4 * ppq * s.val ∧ 4 * ppq * s.val < k + 1 := by
  obtain ⟨hv, rfl, -⟩ := Writer.new_valid hw
  obtain ⟨k, h1, h2, h3, -⟩ := C36_pulses w hv s hs
  exact ⟨k, h1, by linarith, by linarith⟩

/-- A sixty-fourth note triplet-like value that is not a whole number of pulses: 4*96*1/256 = 1.5. -/
example : exWriter.signatureToPulses ⟨1, 256⟩ = .ok 1 := by decide +kernel

/-! ### C37 -/

/-- Every note of the track has a MIDI pitch in 0..127. -/
def TonesFit (w : Writer) (t : Track) : Prop := ∀ p ∈ t.contents, p.2.PitchOk w.middleCDelta

theorem tonesFit_iff {S : ListSort} {w : Writer} {t : Track} :
    TonesFit w t ↔ ∀ e ∈ t.items S, e.2.PitchOk w.middleCDelta := by
  unfold TonesFit
  rw [← Track.items_placed S]
  constructor
  · intro h e he
    exact h e.placed (by rw [Multiset.mem_coe]; exact List.mem_map_of_mem he)
  · intro h p hp
    rw [Multiset.mem_coe, List.mem_map] at hp
    obtain ⟨e, he, rfl⟩ := hp
    exact h e he

/-- The track body of `t` needs at least 2^32 bytes. -/
def BodyTooLong (S : ListSort) (w : Writer) (t : Track) : Prop :=
  ∃ sig tempo notes body, TrackBody ([(0, sig), (0, tempo)] ++ notes ++ [(0, .endOfTrack)]) body ∧
    Arranged w (t.items S) (absoluteTimes 0 notes) ∧ 2 ^ 32 ≤ body.length

namespace Writer

theorem bodyTooLong_of {S : ListSort} {w : Writer} (hw : w.Valid) {t : Track} (hwf : t.WF)
    (hp : ∀ e ∈ t.items S, e.2.PitchOk w.middleCDelta) (hf : SignatureFits t.signature) (hq : w.ppq ≤ 255)
    {tempo : Nat} (hb : TempoFits w.bpm tempo)
    (hl : ¬ (bodyBytes (allMsgs w t.signature tempo (t.items S))).length < 2 ^ 32) : BodyTooLong S w t := by
  have habs := absoluteTimes_deltaMsgs (sortedMsgs w (t.items S)) 0
    (sortedMsgs_sorted w _) (fun _ _ => Nat.zero_le _)
  refine ⟨_, _, deltaMsgs 0 (sortedMsgs w (t.items S)), _,
    bodyBytes_spec (allMsgs w t.signature tempo (t.items S))
      (msgs_inRange hw hwf.sig (Track.items_valid S hwf) hp hf hq hb), ?_, by omega⟩
  rw [habs]
  exact arranged_sortedMsgs w _

end Writer

/-- C37: if `dump` raises, no byte has been written, unless the track body is 2^32 bytes or longer (then
exactly the 14-byte header has been written). -/
theorem C37_atomic (S : ListSort) (w : Writer) (hw : w.Valid) (t : Track) (ht : t.Reachable S)
    (file file' : Bytes) (t' : Track) (e : PyErr) (h : w.dump S t file = (t', file', .error e)) :
    file' = file ∨ (BodyTooLong S w t ∧ e = .overflowError ∧ ∃ hdr, hdr.length = 14 ∧ file' = file ++ hdr) := by
  have hwf := ht.wf
  by_cases hp : ∀ e ∈ t.items S, e.2.PitchOk w.middleCDelta
  · by_cases hf : SignatureFits t.signature ∧ w.ppq ≤ 255
    · by_cases hb : ∃ tempo, TempoFits w.bpm tempo
      · obtain ⟨tempo, hb⟩ := hb
        rw [Writer.dump_fits S hw hwf file hp hf.1 hf.2 hb] at h
        split at h
        · cases h
        · rename_i hl
          cases h
          exact Or.inr ⟨Writer.bodyTooLong_of hw hwf hp hf.1 hf.2 hb hl, rfl, Writer.headerBytes w,
            by simp [Writer.headerBytes, natLE_length], rfl⟩
      · rw [Writer.dump_tempo S hw hwf file hp hf.1 hf.2 hb] at h; cases h; exact Or.inl rfl
    · rw [Writer.dump_sig S hw hwf file hp hf] at h; cases h; exact Or.inl rfl
  · rw [Writer.dump_pitch S hw hwf file hp] at h; cases h; exact Or.inl rfl

/-- C37: a sufficient condition for atomicity that does not mention bytes: at most 2^28 notes, all ending
before 2^28 pulses. -/
theorem C37_atomic_small (S : ListSort) (w : Writer) (hw : w.Valid) (t : Track) (ht : t.Reachable S)
    (hn : t.len ≤ 2 ^ 28) (ho : ∀ e ∈ t.items S, e.offTime w.ppq < 2 ^ 28)
    (file file' : Bytes) (t' : Track) (e : PyErr) (h : w.dump S t file = (t', file', .error e)) :
    file' = file := by
  have hwf := ht.wf
  by_cases hp : ∀ e ∈ t.items S, e.2.PitchOk w.middleCDelta
  · by_cases hf : SignatureFits t.signature ∧ w.ppq ≤ 255
    · by_cases hb : ∃ tempo, TempoFits w.bpm tempo
      · obtain ⟨tempo, hb⟩ := hb
        rw [Writer.dump_fits S hw hwf file hp hf.1 hf.2 hb] at h
        have hsz := Writer.allMsgs_size w t.signature tempo (t.items S) ho
        rw [Track.items_length] at hsz
        rw [if_pos (by omega)] at h
        cases h
      · rw [Writer.dump_tempo S hw hwf file hp hf.1 hf.2 hb] at h; cases h; rfl
    · rw [Writer.dump_sig S hw hwf file hp hf] at h; cases h; rfl
  · rw [Writer.dump_pitch S hw hwf file hp] at h; cases h; rfl

namespace Writer

/-- What `dumps` returns in each of the four stages. -/
theorem dumps_cases (S : ListSort) {w : Writer} (hw : w.Valid) {t : Track} (hwf : t.WF) :
    (¬ TonesFit w t → w.dumps S t = .error .valueError) ∧
    (TonesFit w t → ¬ (SignatureFits t.signature ∧ w.ppq ≤ 255) → w.dumps S t = .error .overflowError) ∧
    (TonesFit w t → SignatureFits t.signature → w.ppq ≤ 255 → (¬ ∃ tempo, TempoFits w.bpm tempo) →
      w.dumps S t = .error (tempoErr w.bpm)) ∧
    (TonesFit w t → SignatureFits t.signature → w.ppq ≤ 255 → (∃ tempo, TempoFits w.bpm tempo) →
      (∃ b, w.dumps S t = .ok b) ∨ (w.dumps S t = .error .overflowError ∧ BodyTooLong S w t)) := by
  rw [tonesFit_iff (S := S)]
  unfold dumps
  refine ⟨fun hp => ?_, fun hp hf => ?_, fun hp hf hq hb => ?_, fun hp hf hq hb => ?_⟩
  · rw [dump_pitch S hw hwf [] hp]
  · rw [dump_sig S hw hwf [] hp hf]
  · rw [dump_tempo S hw hwf [] hp hf hq hb]
  · obtain ⟨tempo, hb⟩ := hb
    rw [dump_fits S hw hwf [] hp hf hq hb]
    by_cases hl : (bodyBytes (allMsgs w t.signature tempo (t.items S))).length < 2 ^ 32
    · rw [if_pos hl]; exact Or.inl ⟨_, rfl⟩
    · rw [if_neg hl]; exact Or.inr ⟨rfl, bodyTooLong_of hw hwf hp hf hq hb hl⟩

end Writer

/-- C37: ValueError exactly if some tone is outside the MIDI range, or (all else fitting) the tempo is NaN. -/
theorem C37_valueError (S : ListSort) (w : Writer) (hw : w.Valid) (t : Track) (ht : t.Reachable S) :
    w.dumps S t = .error .valueError ↔
      ¬ TonesFit w t ∨ (SignatureFits t.signature ∧ w.ppq ≤ 255 ∧ w.bpm = .nan) := by
  obtain ⟨c1, c2, c3, c4⟩ := Writer.dumps_cases S hw ht.wf
  by_cases hp : TonesFit w t
  · by_cases hf : SignatureFits t.signature ∧ w.ppq ≤ 255
    · by_cases hb : ∃ tempo, TempoFits w.bpm tempo
      · have hnan : w.bpm ≠ .nan := by
          obtain ⟨tempo, hb⟩ := hb
          intro h; rw [h] at hb; cases hb.1
        rcases c4 hp hf.1 hf.2 hb with ⟨b, h⟩ | ⟨h, -⟩ <;> rw [h] <;> simp [hp, hnan]
      · rw [c3 hp hf.1 hf.2 hb]
        cases w.bpm with
        | nan => simp [Writer.tempoErr, hf]
        | negInf => simp [Writer.tempoErr, hp]
        | posInf => simp [Writer.tempoErr, hp]
        | fin q =>
          simp only [Writer.tempoErr]
          split <;> simp [hp]
    · rw [c2 hp hf]
      simp only [Except.error.injEq, reduceCtorEq, false_iff]
      rintro (h | h)
      · exact h hp
      · exact hf ⟨h.1, h.2.1⟩
  · rw [c1 hp]
    simp [hp]

/-- C37: ZeroDivisionError exactly if the tempo is zero (and tones and time signature fit). -/
theorem C37_zeroDivision (S : ListSort) (w : Writer) (hw : w.Valid) (t : Track) (ht : t.Reachable S) :
    w.dumps S t = .error .zeroDivisionError ↔
      TonesFit w t ∧ SignatureFits t.signature ∧ w.ppq ≤ 255 ∧ w.bpm = .fin 0 := by
  obtain ⟨c1, c2, c3, c4⟩ := Writer.dumps_cases S hw ht.wf
  by_cases hp : TonesFit w t
  · by_cases hf : SignatureFits t.signature ∧ w.ppq ≤ 255
    · by_cases hb : ∃ tempo, TempoFits w.bpm tempo
      · have hz : w.bpm ≠ .fin 0 := by
          obtain ⟨tempo, hb⟩ := hb
          intro h; rw [h] at hb
          cases hb.1 with
          | fin q hq t ht => exact hq rfl
        rcases c4 hp hf.1 hf.2 hb with ⟨b, h⟩ | ⟨h, -⟩ <;> rw [h] <;> simp [hz]
      · rw [c3 hp hf.1 hf.2 hb]
        cases w.bpm with
        | nan => simp [Writer.tempoErr]
        | negInf => simp [Writer.tempoErr]
        | posInf => simp [Writer.tempoErr]
        | fin q =>
          simp only [Writer.tempoErr, PyFloat.fin.injEq]
          split
          · rename_i hq; simp [hq, hp, hf]
          · rename_i hq; simp [hq]
    · rw [c2 hp hf]
      simp only [Except.error.injEq, reduceCtorEq, false_iff]
      rintro ⟨_, h1, h2, _⟩
      exact hf ⟨h1, h2⟩
  · rw [c1 hp]
    simp [hp]

/-- C37: any other exception is OverflowError, and then the time signature event (whose third field the
writer fills with ppq, see C38), the tempo or the length field is too small. -/
theorem C37_overflow (S : ListSort) (w : Writer) (hw : w.Valid) (t : Track) (ht : t.Reachable S) (e : PyErr)
    (h : w.dumps S t = .error e) :
    e = .valueError ∨ e = .zeroDivisionError ∨
    (e = .overflowError ∧ (¬ SignatureFits t.signature ∨ 255 < w.ppq ∨ (∀ tempo, ¬ TempoFits w.bpm tempo) ∨
      BodyTooLong S w t)) := by
  obtain ⟨c1, c2, c3, c4⟩ := Writer.dumps_cases S hw ht.wf
  by_cases hp : TonesFit w t
  · by_cases hf : SignatureFits t.signature ∧ w.ppq ≤ 255
    · by_cases hb : ∃ tempo, TempoFits w.bpm tempo
      · rcases c4 hp hf.1 hf.2 hb with ⟨b, h'⟩ | ⟨h', hl⟩
        · rw [h'] at h; cases h
        · rw [h'] at h; cases h
          exact Or.inr (Or.inr ⟨rfl, Or.inr (Or.inr (Or.inr hl))⟩)
      · rw [c3 hp hf.1 hf.2 hb] at h
        have h : Writer.tempoErr w.bpm = e := by injection h
        have hb' : ∀ tempo, ¬ TempoFits w.bpm tempo := fun tempo ht => hb ⟨tempo, ht⟩
        have hr : e = .overflowError → (e = .valueError ∨ e = .zeroDivisionError ∨
            (e = .overflowError ∧ (¬ SignatureFits t.signature ∨ 255 < w.ppq ∨
              (∀ tempo, ¬ TempoFits w.bpm tempo) ∨ BodyTooLong S w t))) := fun he => Or.inr (Or.inr ⟨he, Or.inr (Or.inr (Or.inl hb'))⟩)
        clear c1 c2 c3 c4 hb hb'
        revert h hr
        generalize (¬ SignatureFits t.signature ∨ 255 < w.ppq ∨
              (∀ tempo, ¬ TempoFits w.bpm tempo) ∨ BodyTooLong S w t) = P
        cases w.bpm with
        | nan => intro h _; exact Or.inl h.symm
        | negInf => intro h hr; exact hr h.symm
        | posInf => intro h hr; exact hr h.symm
        | fin q =>
          rw [Writer.tempoErr]
          split
          · intro h _; exact Or.inr (Or.inl h.symm)
          · intro h hr; exact hr h.symm
    · rw [c2 hp hf] at h
      cases h
      refine Or.inr (Or.inr ⟨rfl, ?_⟩)
      by_cases h1 : SignatureFits t.signature
      · exact Or.inr (Or.inl (by by_contra hc; exact hf ⟨h1, by omega⟩))
      · exact Or.inl h1
  · rw [c1 hp] at h
    cases h
    exact Or.inl rfl

/-- A note too high for MIDI: ValueError, nothing written. -/
example : exWriter.dump cpySort ((Track.empty ⟨4, 4⟩).run cpySort [.add (.note (exNote 104 1 4)) none]) [1, 2] =
    (((Track.empty ⟨4, 4⟩).run cpySort [.add (.note (exNote 104 1 4)) none, .iterate]), [1, 2],
      .error .valueError) := by decide +kernel
/-- Tempo 0, tempo too slow, tempo NaN, nominator too large. -/
example : (Writer.mk 96 384 24 (.fin 0) 0).dumps cpySort exTrack = .error .zeroDivisionError := by decide +kernel
example : (Writer.mk 96 384 24 (.fin 3) 0).dumps cpySort exTrack = .error .overflowError := by decide +kernel
example : (Writer.mk 96 384 24 .nan 0).dumps cpySort exTrack = .error .valueError := by decide +kernel
example : exWriter.dumps cpySort (Track.empty ⟨256, 4⟩) = .error .overflowError := by decide +kernel

/-! ### C38 -/

/-- C38 is violated: every resolution from 256 to 32767 is accepted by the constructor, but then no track at all
can be written (`_format_signature` puts ppq into one byte). -/
theorem C38_violated [UnicodeDigits] (S : ListSort) (ppq : Int) (h1 : 256 ≤ ppq) (h2 : ppq ≤ 32767) :
    ∃ w, Writer.new ppq (.tone ⟨36⟩) (.fin 120) 0 = .ok w ∧
      ∀ t : Track, t.Reachable S → ∃ e, w.dumps S t = .error e := by
  have hnew : Writer.new ppq (.tone ⟨36⟩) (.fin 120) 0 = .ok ⟨ppq, ppq * 4, 24, .fin 120, 0⟩ := by
    unfold Writer.new
    rw [if_neg (by simp; omega), if_neg (by decide)]
    rfl
  refine ⟨_, hnew, fun t ht => ?_⟩
  have hw := (Writer.new_valid hnew).1
  rcases h : Writer.dumps S ⟨ppq, ppq * 4, 24, .fin 120, 0⟩ t with e | b
  · exact ⟨e, rfl⟩
  · have := (Writer.dumps_success hw ht.wf h).2.2.1
    simp only at this
    omega

/-- C38 (partial: resolution at most 255; the full claim allows up to 32767): a writer accepted by the constructor
writes every track whose tones, signature and tempo are representable and which has at most 2^28 notes ending
before 2^28 pulses. -/
theorem C38_partial [UnicodeDigits] (S : ListSort) (ppq : Int) (mc : ToneArg) (bpm : PyFloat) (ch : Int) (w : Writer)
    (h : Writer.new ppq mc bpm ch = .ok w) (hq : ppq ≤ 255) (t : Track) (ht : t.Reachable S)
    (hp : TonesFit w t) (hf : SignatureFits t.signature) (tempo : Nat) (hb : TempoFits bpm tempo)
    (hn : t.len ≤ 2 ^ 28) (ho : ∀ e ∈ t.items S, e.offTime ppq < 2 ^ 28) :
    ∃ bytes, w.dumps S t = .ok bytes := by
  obtain ⟨hw, rfl, rfl, rfl, -⟩ := Writer.new_valid h
  rw [tonesFit_iff (S := S)] at hp
  unfold Writer.dumps
  rw [Writer.dump_fits S hw ht.wf [] hp hf hq hb]
  have hsz := Writer.allMsgs_size w t.signature tempo (t.items S) ho
  rw [Track.items_length] at hsz
  rw [if_pos (by omega)]
  exact ⟨_, rfl⟩

/-- C38 (partial): the same without the bound on the number of notes, for tracks whose body fits the length field. -/
theorem C38_fits_partial [UnicodeDigits] (S : ListSort) (ppq : Int) (mc : ToneArg) (bpm : PyFloat) (ch : Int)
    (w : Writer) (h : Writer.new ppq mc bpm ch = .ok w) (hq : ppq ≤ 255) (t : Track) (ht : t.Reachable S)
    (hp : TonesFit w t) (hf : SignatureFits t.signature) (tempo : Nat) (hb : TempoFits bpm tempo)
    (hl : ¬ BodyTooLong S w t) : ∃ bytes, w.dumps S t = .ok bytes := by
  obtain ⟨hw, rfl, rfl, rfl, -⟩ := Writer.new_valid h
  rw [tonesFit_iff (S := S)] at hp
  unfold Writer.dumps
  rw [Writer.dump_fits S hw ht.wf [] hp hf hq hb]
  split
  · exact ⟨_, rfl⟩
  · rename_i heq
    split at heq
    · cases heq
    · rename_i hlen
      exact absurd (Writer.bodyTooLong_of hw ht.wf hp hf hq hb hlen) hl

/-- The hypotheses are met by the default configuration and the example track. -/
example : TempoFits (.fin 120) 500000 :=
  ⟨.fin 120 (by norm_num) _ (by decide +kernel), by norm_num⟩
example : TonesFit exWriter exTrack := by
  rw [tonesFit_iff (S := cpySort)]; unfold Note.PitchOk Note.midiPitch; decide +kernel
example : ∀ e ∈ exTrack.items cpySort, e.offTime 96 < 2 ^ 28 := by decide +kernel

/-! ### C51 -/

/-- C51: the velocity byte is between 0 and 127; it is the integer part of `127 * v` except that the rounding
of the product may lift it to the next integer if that is closer than 2^-46. -/
theorem C51_byte (v : ℚ) (h0 : 0 ≤ v) (h1 : v ≤ 1) : ∃ b : Nat, Writer.velocityByte v = b ∧ b ≤ 127 ∧
    127 * v < b + 1 ∧ (b : ℚ) ≤ 127 * v + 1 / 2 ^ 46 := by
  obtain ⟨e, hb⟩ := Writer.velocityByte_eq h0 h1
  refine ⟨_, e, hb, ?_, ?_⟩
  · have hn : 0 ≤ ⌊fl (v * 127)⌋ := Int.floor_nonneg.2 (fl_nonneg (by positivity))
    by_contra hc
    have hle : ((velByte v + 1 : Nat) : ℚ) ≤ v * 127 := by push_cast; linarith
    have := fl_mono (by positivity) hle
    rw [fl_nat (by omega)] at this
    have h2 : ((velByte v + 1 : Nat) : Int) ≤ ⌊fl (v * 127)⌋ := Int.le_floor.2 (by exact_mod_cast this)
    unfold velByte at h2
    omega
  · have hn : 0 ≤ ⌊fl (v * 127)⌋ := Int.floor_nonneg.2 (fl_nonneg (by positivity))
    have e2 : ((velByte v : Nat) : ℚ) = ((⌊fl (v * 127)⌋ : Int) : ℚ) := by
      unfold velByte; rw [← Int.cast_natCast, Int.toNat_of_nonneg hn]
    rw [e2]
    have h3 := Int.floor_le (fl (v * 127))
    have h4 := fl_err (q := v * 127) (by positivity)
    rw [abs_le] at h4
    have h5 : v * 127 / 2 ^ 53 ≤ 1 / 2 ^ 46 := by
      rw [div_le_div_iff₀ (by norm_num) (by norm_num)]
      norm_num
      linarith
    linarith [h4.2]

/-- C51: louder notes never get a smaller byte. -/
theorem C51_monotone (u v : ℚ) (h0 : 0 ≤ u) (h : u ≤ v) : Writer.velocityByte u ≤ Writer.velocityByte v := by
  have hm := fl_mono (p := u * 127) (q := v * 127) (by positivity) (by gcongr)
  have hu := fl_nonneg (q := u * 127) (by positivity)
  unfold Writer.velocityByte pyTrunc
  rw [if_pos hu, if_pos (le_trans hu hm)]
  have := Int.floor_le_floor hm
  omega

/-- C51: reading any byte gives a velocity in [0, 1]; for data bytes `k <= 127` it is `k / 127` up to rounding. -/
theorem C51_read (k : Nat) : ∃ q : ℚ, MidiReader.velocityOf k = .fin q ∧ 0 ≤ q ∧ q ≤ 1 ∧
    (k ≤ 127 → q = fl (k / 127) ∧ |q - k / 127| ≤ 1 / 2 ^ 53) := by
  have hn : 0 ≤ fl ((k : ℚ) / 127) := fl_nonneg (by positivity)
  have hk : k ≤ 127 → fl ((k : ℚ) / 127) ≤ 1 := by
    intro hk
    have : (k : ℚ) / 127 ≤ ((1 : Nat) : ℚ) := by
      rw [div_le_iff₀ (by norm_num)]; push_cast; rw [one_mul]; exact_mod_cast hk
    have := fl_mono (by positivity) this
    rw [fl_nat (by norm_num)] at this
    exact_mod_cast this
  have herr : k ≤ 127 → |fl ((k : ℚ) / 127) - k / 127| ≤ 1 / 2 ^ 53 := by
    intro hk
    refine le_trans (fl_err (by positivity)) ?_
    have : (k : ℚ) / 127 ≤ 1 := by
      rw [div_le_iff₀ (by norm_num), one_mul]; exact_mod_cast hk
    gcongr
  unfold MidiReader.velocityOf PyFloat.min PyFloat.max
  by_cases h1 : fl ((k : ℚ) / 127) < 1
  · have e1 : (PyFloat.fin (fl ((k : ℚ) / 127))).lt (.fin 1) = true := by simp [PyFloat.lt, h1]
    rw [if_pos e1]
    by_cases h0 : 0 < fl ((k : ℚ) / 127)
    · have e2 : (PyFloat.fin 0).lt (.fin (fl ((k : ℚ) / 127))) = true := by simp [PyFloat.lt, h0]
      rw [if_pos e2]
      exact ⟨_, rfl, hn, h1.le, fun h => ⟨rfl, herr h⟩⟩
    · have e2 : (PyFloat.fin 0).lt (.fin (fl ((k : ℚ) / 127))) = false := by simpa [PyFloat.lt] using h0
      rw [e2]
      have e3 : fl ((k : ℚ) / 127) = 0 := le_antisymm (not_lt.1 h0) hn
      exact ⟨0, rfl, le_rfl, by norm_num, fun h => ⟨e3.symm, by rw [← e3]; rw [e3] at herr ⊢; exact herr h⟩⟩
  · have e1 : (PyFloat.fin (fl ((k : ℚ) / 127))).lt (.fin 1) = false := by simpa [PyFloat.lt] using h1
    rw [e1]
    refine ⟨1, by simp [PyFloat.lt], by norm_num, le_rfl, fun h => ?_⟩
    have e3 : fl ((k : ℚ) / 127) = 1 := le_antisymm (hk h) (not_lt.1 h1)
    exact ⟨e3.symm, by have := herr h; rwa [e3] at this⟩

/-- C51: writing what was read gives the same byte, for all 128 bytes. -/
theorem C51_lossless (k : Nat) (hk : k ≤ 127) :
    ∃ q : ℚ, MidiReader.velocityOf k = .fin q ∧ Writer.velocityByte q = k := by
  have key : ∀ k : Fin 128, Writer.velocityByte (fl ((k.val : ℚ) / 127)) = k.val := by decide +kernel
  obtain ⟨q, h1, -, -, h4⟩ := C51_read k
  exact ⟨q, h1, by rw [(h4 hk).1]; exact key ⟨k, by omega⟩⟩

/-- C51: the velocity read back differs from the one written by less than 1/127 (it is lower), up to rounding. -/
theorem C51_error (v : ℚ) (h0 : 0 ≤ v) (h1 : v ≤ 1) : ∃ (b : Nat) (q : ℚ), Writer.velocityByte v = b ∧
    MidiReader.velocityOf b = .fin q ∧ -(1 / 2 ^ 51) ≤ v - q ∧ v - q < 1 / 127 + 1 / 2 ^ 53 := by
  obtain ⟨b, hb, hb1, hb2, hb3⟩ := C51_byte v h0 h1
  obtain ⟨q, hq, -, -, hq4⟩ := C51_read b
  obtain ⟨-, he⟩ := hq4 hb1
  rw [abs_le] at he
  refine ⟨b, q, hb, hq, ?_, ?_⟩
  · have : (b : ℚ) / 127 ≤ v + 2 * (1 / 2 ^ 53) := by
      rw [div_le_iff₀ (by norm_num)]
      have : (1 : ℚ) / 2 ^ 46 ≤ 2 * 127 * (1 / 2 ^ 53) := by norm_num
      linarith
    have : (3 : ℚ) * (1 / 2 ^ 53) ≤ 1 / 2 ^ 51 := by norm_num
    linarith [he.1, he.2]
  · have : v < (b : ℚ) / 127 + 1 / 127 := by
      rw [← add_div, lt_div_iff₀ (by norm_num)]; linarith
    linarith [he.1, he.2]

example : Writer.velocityByte (1 / 2) = 63 := by decide +kernel
/-- The rounded product can reach the next integer: the double nearest 1/127 is below 1/127 or above it, the
byte is 1 either way. -/
example : Writer.velocityByte (fl (1 / 127)) = 1 := by decide +kernel

end Melodia
