/-
Property theorems C70, C71: file objects that deliver or take fewer bytes than asked for.
-/
import Verif.Model.Stream
import Verif.Props.RoundTrip

set_option autoImplicit false

namespace Melodia

variable [UnicodeDigits]

namespace MidiReader

omit [UnicodeDigits] in
/-- `readChunkStream` without monads. -/
theorem readChunkStream_eq (plan : ReadPlan) (i : Nat) (file : Bytes) : readChunkStream plan i file =
    match plan (2 * i) with
    | none => .error .osError
    | some k =>
      let header := file.take (min 8 (k + 1))
      let rest := file.drop (min 8 (k + 1))
      if header.length = 0 then .ok none
      else if header.length < 8 then .error .parsingError
      else match plan (2 * i + 1) with
        | none => .error .osError
        | some k' =>
          let size := fromBytesBig (header.drop 5)
          if (rest.take (min size (k' + 1))).length < size then .error .parsingError
          else .ok (some (header.take 4, rest.take (min size (k' + 1)), rest.drop (min size (k' + 1)))) := by
  unfold readChunkStream streamRead
  rcases plan (2 * i) with _ | k
  · rfl
  · simp only
    show (if (file.take (min 8 (k + 1))).length = 0 then _ else _) = _
    by_cases c1 : (file.take (min 8 (k + 1))).length = 0
    · rw [if_pos c1, if_pos c1]; rfl
    · by_cases c2 : (file.take (min 8 (k + 1))).length < 8
      · rw [if_neg c1, if_neg c1, if_pos c2, if_pos c2]
      · rw [if_neg c1, if_neg c1, if_neg c2, if_neg c2]
        rcases plan (2 * i + 1) with _ | k' <;> rfl

omit [UnicodeDigits] in
/-- One chunk of a stream: as from the whole file, or MIDIParsingError, or an OSError of the stream. -/
theorem readChunkStream_cases (plan : ReadPlan) (i : Nat) (file : Bytes) :
    readChunkStream plan i file = readChunk file ∨ readChunkStream plan i file = .error .parsingError ∨
    (readChunkStream plan i file = .error .osError ∧ ∃ j, plan j = none) := by
  rw [readChunkStream_eq]
  cases h1 : plan (2 * i) with
  | none => exact Or.inr (Or.inr ⟨rfl, _, h1⟩)
  | some k =>
    simp only
    by_cases hk : 8 ≤ k + 1
    · rw [Nat.min_eq_left hk]
      unfold readChunk
      simp only
      by_cases c1 : (file.take 8).length = 0
      · left; rw [if_pos c1, if_pos c1]
      · by_cases c2 : (file.take 8).length < 8
        · left; rw [if_neg c1, if_neg c1, if_pos c2, if_pos c2]
        · rw [if_neg c1, if_neg c1, if_neg c2, if_neg c2]
          cases h2 : plan (2 * i + 1) with
          | none => exact Or.inr (Or.inr ⟨rfl, _, h2⟩)
          | some k' =>
            simp only
            generalize fromBytesBig ((file.take 8).drop 5) = size
            generalize file.drop 8 = rest
            by_cases hk' : size ≤ k' + 1
            · rw [Nat.min_eq_left hk']
              left
              rfl
            · right; left
              rw [if_pos]
              rw [List.length_take]
              omega
    · rw [Nat.min_eq_right (by omega)]
      by_cases c1 : (file.take (k + 1)).length = 0
      · left
        have : file = [] := by
          rw [List.length_take] at c1
          exact List.length_eq_zero_iff.mp (by omega)
        rw [if_pos c1, this]
        rfl
      · right; left
        have : ∀ n, (file.take n).length ≤ n := fun n => List.length_take_le _ _
        have := this (k + 1)
        rw [if_neg c1, if_pos (by omega)]

theorem chunkLoopStream_cases (m : MidiReader) (plan : ReadPlan) : ∀ (fuel i : Nat) (st : LoadState) (file : Bytes),
    m.chunkLoopStream plan fuel i st file = m.chunkLoop fuel st file ∨
    m.chunkLoopStream plan fuel i st file = .error .parsingError ∨
    (m.chunkLoopStream plan fuel i st file = .error .osError ∧ ∃ j, plan j = none) := by
  intro fuel
  induction fuel with
  | zero => intro i st file; exact Or.inl rfl
  | succ f ih =>
    intro i st file
    rw [chunkLoopStream, chunkLoop]
    rcases readChunkStream_cases plan i file with h | h | ⟨h, hj⟩
    · rw [h]
      rcases readChunk file with e | (_ | ⟨name, body, rest⟩)
      · exact Or.inl rfl
      · exact Or.inl rfl
      · change ((m.handleChunk st name body >>= fun st => m.chunkLoopStream plan f (i + 1) st rest) =
          (m.handleChunk st name body >>= fun st => m.chunkLoop f st rest)) ∨
          (m.handleChunk st name body >>= fun st => m.chunkLoopStream plan f (i + 1) st rest) = _ ∨
          ((m.handleChunk st name body >>= fun st => m.chunkLoopStream plan f (i + 1) st rest) = _ ∧ _)
        rcases m.handleChunk st name body with e | st1
        · exact Or.inl rfl
        · exact ih (i + 1) st1 rest
    · rw [h]; exact Or.inr (Or.inl rfl)
    · rw [h]; exact Or.inr (Or.inr ⟨rfl, hj⟩)

end MidiReader

/-! ### C70 -/

/-- C70: whatever portions a stream delivers its bytes in, `load` returns or raises what `loads` does for these bytes,
or raises MIDIParsingError, or passes on an OSError of the stream. -/
theorem C70_portions (S : ListSort) (m : MidiReader) (plan : ReadPlan) (file : Bytes) (channel : Option Int) :
    m.loadStream S plan file channel = m.loads S file channel ∨
    m.loadStream S plan file channel = .error .parsingError ∨
    (m.loadStream S plan file channel = .error .osError ∧ ∃ i, plan i = none) := by
  unfold MidiReader.loadStream MidiReader.loads MidiReader.load
  rcases m.chunkLoopStream_cases plan (file.length + 1) 0 ⟨none, none, none⟩ file with h | h | ⟨h, hj⟩
  · rw [h]; exact Or.inl rfl
  · rw [h]; exact Or.inr (Or.inl rfl)
  · rw [h]; exact Or.inr (Or.inr ⟨rfl, hj⟩)

/-- C70: in particular a track that is returned is the one in the file. -/
theorem C70_never_wrong (S : ListSort) (m : MidiReader) (plan : ReadPlan) (file : Bytes) (channel : Option Int) (t : Track)
    (h : m.loadStream S plan file channel = .ok t) : m.loads S file channel = .ok t := by
  rcases C70_portions S m plan file channel with h' | h' | ⟨h', -⟩ <;> rw [h] at h'
  · exact h'.symm
  · cases h'
  · cases h'

omit [UnicodeDigits] in
theorem MidiReader.readChunkStream_whole (plan : ReadPlan) (i : Nat) (file : Bytes) (n : Nat) (hn : file.length ≤ n)
    (h : ∀ i, ∃ k, plan i = some k ∧ n ≤ k) : MidiReader.readChunkStream plan i file = MidiReader.readChunk file := by
  have take : ∀ (l : Bytes) (a b : Nat), l.length ≤ b → l.take (min a b) = l.take a ∧ l.drop (min a b) = l.drop a := by
    intro l a b hb
    by_cases hab : a ≤ b
    · rw [Nat.min_eq_left hab]; exact ⟨rfl, rfl⟩
    · rw [Nat.min_eq_right (by omega), List.take_of_length_le hb, List.take_of_length_le (by omega),
        List.drop_of_length_le hb, List.drop_of_length_le (by omega)]
      exact ⟨rfl, rfl⟩
  obtain ⟨k, h1, hk⟩ := h (2 * i)
  obtain ⟨k', h2, hk'⟩ := h (2 * i + 1)
  rw [MidiReader.readChunkStream_eq]
  unfold MidiReader.readChunk
  rw [h1, h2]
  obtain ⟨e1, e2⟩ := take file 8 (k + 1) (by omega)
  simp only [e1, e2]
  obtain ⟨e3, e4⟩ := take (file.drop 8) (fromBytesBig ((file.take 8).drop 5)) (k' + 1)
    (by rw [List.length_drop]; omega)
  rw [e3, e4]

/-- C70: a stream that always delivers what it was asked for, as far as it has it, is read like the file. -/
theorem C70_whole (S : ListSort) (m : MidiReader) (plan : ReadPlan) (file : Bytes) (channel : Option Int)
    (h : ∀ i, ∃ k, plan i = some k ∧ file.length ≤ k) :
    m.loadStream S plan file channel = m.loads S file channel := by
  have loop : ∀ (fuel i : Nat) (st : MidiReader.LoadState) (f : Bytes), f.length ≤ file.length →
      m.chunkLoopStream plan fuel i st f = m.chunkLoop fuel st f := by
    intro fuel
    induction fuel with
    | zero => intro i st f _; rfl
    | succ n ih =>
      intro i st f hf
      rw [MidiReader.chunkLoopStream, MidiReader.chunkLoop, MidiReader.readChunkStream_whole plan i f _ hf h]
      rcases hr : MidiReader.readChunk f with e | (_ | ⟨name, body, rest⟩)
      · rfl
      · rfl
      · change (m.handleChunk st name body >>= fun st => m.chunkLoopStream plan n (i + 1) st rest) =
          (m.handleChunk st name body >>= fun st => m.chunkLoop n st rest)
        congr 1
        funext st1
        exact ih _ _ _ (by have := MidiReader.readChunk_length hr; omega)
  unfold MidiReader.loadStream MidiReader.loads MidiReader.load
  rw [loop _ _ _ _ le_rfl]
  rfl

/-- The exception, if any. -/
def errorOf {α : Type} : PyM α → Option PyErr
  | .error e => some e
  | .ok _ => none

omit [UnicodeDigits] in
/-- C70: a stream delivering two bytes at a time is rejected although its file is good; one delivering 100 bytes at a
time, enough for this file, is read. -/
example : ∃ bytes, exWriter.dumps cpySort exTrack = .ok bytes ∧
    errorOf (@MidiReader.loadStream ⟨fun _ => none⟩ cpySort ⟨24⟩ (fun _ => some 1) bytes none) = some .parsingError ∧
    (@MidiReader.loadStream ⟨fun _ => none⟩ cpySort ⟨24⟩ (fun _ => some 99) bytes none).isOk = true ∧
    (@MidiReader.loads ⟨fun _ => none⟩ cpySort ⟨24⟩ bytes none).isOk = true := by
  obtain ⟨bytes, h1, h2⟩ := okAnd_iff (x := exWriter.dumps cpySort exTrack) (p := fun bytes => decide
    (errorOf (@MidiReader.loadStream ⟨fun _ => none⟩ cpySort ⟨24⟩ (fun _ => some 1) bytes none) = some .parsingError ∧
    (@MidiReader.loadStream ⟨fun _ => none⟩ cpySort ⟨24⟩ (fun _ => some 99) bytes none).isOk = true ∧
    (@MidiReader.loads ⟨fun _ => none⟩ cpySort ⟨24⟩ bytes none).isOk = true)) (by decide +kernel)
  exact ⟨bytes, h1, of_decide_eq_true h2⟩

/-! ### C71 -/

/-- The file object takes all bytes, or raises. -/
def WritePlan.Honest (p : WritePlan) (n : Nat) : Prop := n ≤ p.takes ∨ p.raises = true

omit [UnicodeDigits] in
/-- The two writes of a dump that does not fail by itself. -/
theorem Writer.dumpStream_of_ok {S : ListSort} {w : Writer} (hw : w.Valid) {t : Track} {bytes : Bytes} (h : w.dumps S t = .ok bytes) :
    ∃ header chunk t', bytes = header ++ chunk ∧ header.length = 14 ∧ ∀ p q file,
      w.dumpStream S p q t file =
        if p.raises then (t', file ++ header.take p.takes, .error .osError)
        else (t', file ++ header.take p.takes ++ chunk.take q.takes, if q.raises then .error .osError else .ok ()) := by
  unfold Writer.dumps Writer.dump at h
  rcases hi : t.iter S with ⟨t', items⟩
  rw [hi] at h
  simp only at h
  rcases hd : Writer.deltaEvents S w t'.signature items with e | events
  · rw [hd] at h; cases h
  · rw [hd] at h
    simp only at h
    rcases hh : w.formatHeaderChunk 0 1 with e | header
    · rw [hh] at h; cases h
    · rw [hh] at h
      simp only at h
      rcases hb : Writer.trackBody events with e | body
      · rw [hb] at h; cases h
      · rw [hb] at h
        simp only at h
        rcases hc : Writer.formatChunk Writer.tagMTrk body with e | chunk
        · rw [hc] at h; cases h
        · rw [hc] at h
          cases h
          refine ⟨header, chunk, t', by simp, ?_, ?_⟩
          · rw [Writer.formatHeaderChunk_ok hw] at hh
            cases hh
            simp [Writer.headerBytes, natLE_length]
          · intro p q file
            unfold Writer.dumpStream streamWrite
            rw [hi]
            simp only [hd, hh, hb, hc]
            cases p.raises <;> simp

/-- C71, the part that holds: with file objects that take all bytes or raise, `dump` returns normally only if the whole
file has been written, and if it raises, the part that was written is rejected by `load` (unless everything
had been written). Missing: file objects that take fewer bytes without raising, see `C71_violated`. -/
theorem C71_interrupted_partial (S : ListSort) (w : Writer) (hw : w.Valid) (t : Track) (ht : t.Reachable S)
    (bytes : Bytes) (h : w.dumps S t = .ok bytes) (p q : WritePlan) (hp : p.Honest bytes.length)
    (hq : q.Honest bytes.length) (t' : Track) (file : Bytes) (r : PyM Unit)
    (hr : w.dumpStream S p q t [] = (t', file, r)) :
    (r = .ok () → file = bytes) ∧
    (∀ e, r = .error e → e = .osError ∧ (file = bytes ∨
      ∀ (m : MidiReader) (channel : Option Int), m.loads S file channel = .error .parsingError)) := by
  obtain ⟨header, chunk, t1, rfl, h14, hs⟩ := Writer.dumpStream_of_ok hw h
  rw [hs] at hr
  have pre : ∀ x : Bytes, x <+: header ++ chunk → x = header ++ chunk ∨
      ∀ (m : MidiReader) (channel : Option Int), m.loads S x channel = .error .parsingError := by
    intro x hx
    by_cases hne : x = header ++ chunk
    · exact Or.inl hne
    · exact Or.inr (fun m channel => C41_truncated S w hw t ht _ h x hx hne m channel)
  by_cases hpr : p.raises = true
  · rw [if_pos hpr] at hr
    cases hr
    refine ⟨fun h => (by cases h), fun e he => ?_⟩
    cases he
    refine ⟨rfl, pre _ ?_⟩
    rw [List.nil_append]
    exact (List.take_prefix _ _).trans (List.prefix_append _ _)
  · rw [if_neg hpr] at hr
    have hp' : header.take p.takes = header := by
      rcases hp with hp | hp
      · rw [List.length_append] at hp
        exact List.take_of_length_le (by omega)
      · exact absurd hp hpr
    rw [hp', List.nil_append] at hr
    by_cases hqr : q.raises = true
    · rw [if_pos hqr] at hr
      cases hr
      refine ⟨fun h => (by cases h), fun e he => ?_⟩
      cases he
      exact ⟨rfl, pre _ ((List.prefix_append_right_inj _).mpr (List.take_prefix _ _))⟩
    · rw [if_neg hqr] at hr
      have hq' : chunk.take q.takes = chunk := by
        rcases hq with hq | hq
        · rw [List.length_append] at hq
          exact List.take_of_length_le (by omega)
        · exact absurd hq hqr
      rw [hq'] at hr
      cases hr
      exact ⟨fun _ => rfl, fun e he => (by cases he)⟩

/-- C71 is violated by file objects that take fewer bytes than given without raising: `dump` ignores what `write`
returns, so it ends normally; here, for every track and every sink that takes the header and less than the
rest, with a file that `load` rejects. -/
theorem C71_violated (S : ListSort) (w : Writer) (hw : w.Valid) (t : Track) (ht : t.Reachable S)
    (bytes : Bytes) (h : w.dumps S t = .ok bytes) (n : Nat) (hn : 14 + n < bytes.length) :
    ∃ t' file, w.dumpStream S ⟨14, false⟩ ⟨n, false⟩ t [] = (t', file, .ok ()) ∧ file.length = 14 + n ∧
      ∀ (m : MidiReader) (channel : Option Int), m.loads S file channel = .error .parsingError := by
  obtain ⟨header, chunk, t1, rfl, h14, hs⟩ := Writer.dumpStream_of_ok hw h
  rw [List.length_append, h14] at hn
  refine ⟨t1, header ++ chunk.take n, ?_, ?_, ?_⟩
  · rw [hs]
    simp only [Bool.false_eq_true, if_false, List.nil_append]
    rw [List.take_of_length_le (by omega)]
  · rw [List.length_append, h14, List.length_take]; omega
  · intro m channel
    refine C41_truncated S w hw t ht _ h _ ((List.prefix_append_right_inj _).mpr (List.take_prefix _ _)) ?_ m channel
    intro e
    have := congrArg List.length e
    rw [List.length_append, List.length_append, List.length_take] at this
    omega

omit [UnicodeDigits] in
/-- C71: the hypotheses of both theorems can be met. -/
example : exWriter.Valid ∧ exTrack.Reachable cpySort ∧ ∃ bytes, exWriter.dumps cpySort exTrack = .ok bytes ∧
    14 + 20 < bytes.length ∧ WritePlan.Honest ⟨5, true⟩ bytes.length ∧ WritePlan.Honest ⟨1000, false⟩ bytes.length ∧
    (exWriter.dumpStream cpySort ⟨5, true⟩ ⟨1000, false⟩ exTrack []).2.1.length = 5 := by
  obtain ⟨bytes, h1, h2⟩ := okAnd_iff (x := exWriter.dumps cpySort exTrack) (p := fun bytes => decide
    (14 + 20 < bytes.length ∧ bytes.length ≤ 1000 ∧
    (exWriter.dumpStream cpySort ⟨5, true⟩ ⟨1000, false⟩ exTrack []).2.1.length = 5)) (by decide +kernel)
  have h3 := of_decide_eq_true h2
  exact ⟨exWriter_valid, exTrack_reachable, bytes, h1, h3.1, Or.inr rfl, Or.inl h3.2.1, h3.2.2⟩

end Melodia
