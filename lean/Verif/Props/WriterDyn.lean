/-
C89: which settings `MIDIWriter` accepts and which it can use. Code: `MIDIWriter.__init__`, `MIDIWriter.dump`
(src/melodia/io/midi.py:57-240).
-/
import Verif.Lemmas.WriterDyn
import Verif.Lemmas.TrackMore
import Verif.Props.FileChange

set_option autoImplicit false

namespace Melodia

section
variable [UnicodeDigits]

/-- C89: the constructor accepts exactly the numbers of pulses from 1 to 32767 and the channels from 0 to 15, be they ints,
bools or floats, with any middle C that has a pitch and with any object as tempo. -/
theorem C89_accepts (ppq bpm ch : PyVal) (c : ToneArg) :
    (∃ v, DynWriter.new ppq c bpm ch = .ok v) ↔
      ppq.InRange 1 32767 ∧ ch.InRange 0 15 ∧ ∃ d, middleCDeltaOf c = .ok d := by
  unfold DynWriter.new
  rcases ppq.between_ok 1 32767 with ⟨h1, k1⟩ | ⟨h1, -, k1⟩ | ⟨h1, k1⟩
  · rcases ch.between_ok 0 15 with ⟨h2, k2⟩ | ⟨h2, -, k2⟩ | ⟨h2, k2⟩
    · obtain ⟨x, h3⟩ : ∃ x, ppq.times4 = .ok x := by
        obtain ⟨q, hq, -⟩ := k1
        cases ppq with
        | other => cases hq
        | float y => cases hq; exact ⟨_, rfl⟩
        | _ => exact ⟨_, rfl⟩
      rw [h1, h2, h3]
      cases h4 : middleCDeltaOf c with
      | error e =>
        refine ⟨fun ⟨v, h⟩ => ?_, fun ⟨_, _, d, h⟩ => by cases h⟩
        cases h
      | ok d => exact ⟨fun _ => ⟨k1, k2, d, rfl⟩, fun _ => ⟨_, rfl⟩⟩
    · rw [h1, h2]
      exact ⟨fun ⟨v, h⟩ => (by cases h), fun h => absurd h.2.1 k2⟩
    · rw [h1, h2]
      refine ⟨fun ⟨v, h⟩ => (by cases h), fun h => ?_⟩
      obtain ⟨q, hq, -⟩ := h.2.1
      rw [k2] at hq; cases hq
  · rw [h1]
    exact ⟨fun ⟨v, h⟩ => (by cases h), fun h => absurd h.1 k1⟩
  · rw [h1]
    refine ⟨fun ⟨v, h⟩ => (by cases h), fun h => ?_⟩
    obtain ⟨q, hq, -⟩ := h.1
    rw [k1] at hq; cases hq

/-- C89: what the constructor raises: the number of pulses is checked before the channel, an object that is not a number is a
TypeError, a number out of range a ValueError. -/
theorem C89_rejects (ppq bpm ch : PyVal) (c : ToneArg) :
    (ppq = .other ∨ ppq.InRange 1 32767 ∧ ch = .other → DynWriter.new ppq c bpm ch = .error .typeError) ∧
    (ppq ≠ .other ∧ ¬ ppq.InRange 1 32767 ∨ ppq.InRange 1 32767 ∧ ch ≠ .other ∧ ¬ ch.InRange 0 15 →
      DynWriter.new ppq c bpm ch = .error .valueError) := by
  have hno : ∀ lo hi, ¬ PyVal.InRange lo hi .other := by rintro lo hi ⟨q, hq, -⟩; cases hq
  unfold DynWriter.new
  rcases ppq.between_ok 1 32767 with ⟨h1, k1⟩ | ⟨h1, j1, k1⟩ | ⟨h1, k1⟩
  · have j1 : ppq ≠ .other := fun h => hno _ _ (h ▸ k1)
    rcases ch.between_ok 0 15 with ⟨h2, k2⟩ | ⟨h2, j2, k2⟩ | ⟨h2, k2⟩ <;> rw [h1, h2]
    · have j2 : ch ≠ .other := fun h => hno _ _ (h ▸ k2)
      exact ⟨fun h => by tauto, fun h => by tauto⟩
    · exact ⟨fun h => by tauto, fun _ => rfl⟩
    · exact ⟨fun _ => rfl, fun h => by tauto⟩
  · rw [h1]
    exact ⟨fun h => by tauto, fun _ => rfl⟩
  · rw [h1]
    exact ⟨fun _ => rfl, fun h => absurd k1 (by rcases h with h | h; exact h.1; exact fun e => hno _ _ (e ▸ h.1))⟩

/-- C89 (violated part): a writer made with a float as number of pulses cannot write any track; nothing gets into the file. -/
theorem C89_float_ppq (x : PyFloat) (bpm ch : PyVal) (c : ToneArg) (v : DynWriter)
    (hv : DynWriter.new (.float x) c bpm ch = .ok v) (S : ListSort) (t : Track) (file : Bytes) :
    ∃ e, (v.dump S t file).2 = (file, .error e) := by
  have hp : v.ppq = .float x := DynWriter.new_ppq hv
  obtain ⟨e, he⟩ := DynWriter.deltaEvents_float hp S (t.iter S).1.signature (t.iter S).2
  exact ⟨e, by unfold DynWriter.dump; simp only [he]⟩

/-- C89 (violated part): a writer made with an object that is not a number as tempo cannot write any track; nothing gets into
the file. -/
theorem C89_other_bpm (ppq ch : PyVal) (c : ToneArg) (v : DynWriter)
    (hv : DynWriter.new ppq c .other ch = .ok v) (S : ListSort) (t : Track) (file : Bytes) :
    ∃ e, (v.dump S t file).2 = (file, .error e) := by
  have hp : v.bpm = .other := DynWriter.new_bpm hv
  obtain ⟨e, he⟩ := DynWriter.deltaEvents_bpm hp S (t.iter S).1.signature (t.iter S).2
  exact ⟨e, by unfold DynWriter.dump; simp only [he]⟩

/-- C89: the exception is a TypeError if the track could be written at some tempo. -/
theorem C89_other_bpm_error (ppq ch bpm : PyVal) (c : ToneArg) (v v' : DynWriter)
    (hv : DynWriter.new ppq c .other ch = .ok v) (hv' : DynWriter.new ppq c bpm ch = .ok v') (S : ListSort) (t : Track)
    (a : Bytes) (ha : v'.dumps S t = .ok a) : v.dumps S t = .error .typeError := by
  obtain ⟨-, -, e1, e2, e3, e4, e5⟩ := DynWriter.new_fields hv
  obtain ⟨-, -, e1', e2', e3', e4', e5'⟩ := DynWriter.new_fields hv'
  have hw : v = { v' with bpm := .other } := by
    obtain ⟨_, _, _, _, _⟩ := v
    obtain ⟨_, _, _, _, _⟩ := v'
    simp only at *
    rw [e4] at e4'
    rw [e5] at e5'
    cases e4'
    cases e5'
    simp [e1, e1', e2, e3, e3']
  unfold DynWriter.dumps DynWriter.dump DynWriter.deltaEvents at ha ⊢
  have hn : ∀ l, DynWriter.noteEvents { v' with bpm := .other } l = DynWriter.noteEvents v' l := by
    intro l
    induction l with
    | nil => rfl
    | cons e l ih =>
      obtain ⟨p, n⟩ := e
      unfold DynWriter.noteEvents
      rw [ih]
      rfl
  rw [hw]
  simp only [hn]
  cases h1 : DynWriter.noteEvents v' (t.iter S).2 with
  | error e => simp only [h1, bind, Except.bind] at ha; cases ha
  | ok l =>
    simp only [h1, bind, Except.bind] at ha ⊢
    cases h2 : DynWriter.formatSignature (t.iter S).1.signature v'.ppq 8 with
    | error e => simp only [h2] at ha; cases ha
    | ok b => rfl

/-- C89 (violated part): a writer made with a float as channel raises TypeError for every track with a note, before anything
gets into the file. -/
theorem C89_float_channel (x : PyFloat) (ppq bpm : PyVal) (c : ToneArg) (v : DynWriter)
    (hv : DynWriter.new ppq c bpm (.float x) = .ok v) (S : ListSort) (t : Track) (ht : t.Reachable S)
    (hne : t.contents ≠ 0) (file : Bytes) : (v.dump S t file).2 = (file, .error .typeError) := by
  have hitems : t.items S ≠ [] := by
    intro h
    apply hne
    rw [← Track.items_placed S t, h]
    rfl
  obtain ⟨hc, hw⟩ := DynWriter.new_channel hv
  cases hl : t.items S with
  | nil => exact absurd hl hitems
  | cons e l =>
    have hval := Track.items_valid S ht.wf e (by rw [hl]; exact List.mem_cons_self)
    have : DynWriter.noteEvents v (t.iter S).2 = .error .typeError := by
      show DynWriter.noteEvents v (t.items S) = _
      rw [hl]
      obtain ⟨p, n⟩ := e
      unfold DynWriter.noteEvents
      obtain ⟨y, hy⟩ := DynWriter.pulses_ok hw hval.1
      rw [hy]
      unfold DynWriter.formatNoteOn
      rw [hc]
      rfl
    unfold DynWriter.dump DynWriter.deltaEvents
    simp only [this]
    rfl

/-- C89: a track without notes is written by a writer with a float as channel as by one with channel 0. -/
theorem C89_float_channel_empty (x : PyFloat) (ppq bpm : PyVal) (c : ToneArg) (v : DynWriter)
    (hv : DynWriter.new ppq c bpm (.float x) = .ok v) (S : ListSort) (t : Track) (hne : t.contents = 0) :
    ∃ v0, DynWriter.new ppq c bpm (.int 0) = .ok v0 ∧ ∀ file, v.dump S t file = v0.dump S t file := by
  obtain ⟨v0, h0, e1, e2, e3, e4⟩ := DynWriter.new_channel0 hv
  refine ⟨v0, h0, fun file => ?_⟩
  have hl : (t.iter S).2 = [] := by
    have := Track.items_placed S t
    rw [hne] at this
    exact List.map_eq_nil_iff.mp (Multiset.coe_eq_zero _ |>.mp this)
  unfold DynWriter.dump DynWriter.deltaEvents DynWriter.formatHeaderChunk
  simp only [hl, DynWriter.noteEvents, e1, e3]

/-- C89, part that holds: with ints or bools as number of pulses and as channel and any number as tempo the constructor and
`dump` do what they do for the ints and the float these are (C13 and following). Missing: floats for ints and objects for the
tempo are accepted but cannot be used (C89_float_ppq, C89_other_bpm, C89_float_channel). -/
theorem C89_usable_partial (ppq bpm ch : PyVal) (c : ToneArg) (p h : Int) (b : PyFloat)
    (hp : ppq.asInt = some p) (hh : ch.asInt = some h) (hb : bpm.number = some b) :
    (∃ e, DynWriter.new ppq c bpm ch = .error e ∧ Writer.new p c b h = .error e) ∨
    ∃ v w, DynWriter.new ppq c bpm ch = .ok v ∧ Writer.new p c b h = .ok w ∧
      ∀ S t file, v.dump S t file = w.dump S t file := by
  unfold DynWriter.new Writer.new
  have r1 := PyVal.inRange_asInt hp 1 32767
  have r2 := PyVal.inRange_asInt hh 0 15
  rcases ppq.between_ok 1 32767 with ⟨h1, k1⟩ | ⟨h1, -, k1⟩ | ⟨h1, k1⟩
  · rw [if_neg (by have := r1.1 k1; simp [this.1, this.2])]
    rcases ch.between_ok 0 15 with ⟨h2, k2⟩ | ⟨h2, -, k2⟩ | ⟨h2, k2⟩
    · rw [if_neg (by have := r2.1 k2; simp [this.1, this.2]), h1, h2, PyVal.times4_asInt hp]
      cases middleCDeltaOf c with
      | error e => exact .inl ⟨e, rfl, rfl⟩
      | ok d =>
        refine .inr ⟨_, _, rfl, rfl, fun S t file => DynWriter.Holds.dump ⟨hp, rfl, rfl, hb, hh⟩ S t file⟩
    · rw [if_pos (by by_contra hc; exact k2 (r2.2 (by simpa using hc))), h1, h2]
      exact .inl ⟨_, rfl, rfl⟩
    · rw [k2] at hh; cases hh
  · rw [if_pos (by by_contra hc; exact k1 (r1.2 (by simpa using hc))), h1]
    exact .inl ⟨_, rfl, rfl⟩
  · rw [k1] at hp; cases hp

end

/-- A track with one note and a track without notes. -/
def exDynTrack : Track := (Track.empty ⟨3, 4⟩).run cpySort [.add (.note (exNote 40 1 4)) none]
def exDynEmpty : Track := Track.empty ⟨3, 4⟩

/-- The outcome of making a writer and writing a track. -/
def exDyn (ppq bpm ch : PyVal) (t : Track) : PyM (PyM Bytes) :=
  (@DynWriter.new ⟨fun _ => none⟩ ppq (.int 36) bpm ch).map (fun v => v.dumps cpySort t)

/-- C89 is violated: the settings 96.0, 'fast' and 3.0 are accepted although the note cannot be written with them. -/
theorem C89_violated :
    exDyn (.float (.fin 96)) (.float (.fin 120)) (.int 3) exDynTrack = .ok (.error .attributeError) ∧
    exDyn (.int 96) .other (.int 3) exDynTrack = .ok (.error .typeError) ∧
    exDyn (.int 96) (.float (.fin 120)) (.float (.fin 3)) exDynTrack = .ok (.error .typeError) ∧
    okAnd (exDyn (.int 96) (.float (.fin 120)) (.int 3) exDynTrack) (fun r => r.isOk) = true := by decide +kernel

/-- Other values: an int tempo, a bool as channel and as number of pulses, a float as channel for a track without notes;
a zero tempo; what the constructor rejects. -/
example :
    exDyn (.int 96) (.int 120) (.bool true) exDynTrack = exDyn (.int 96) (.float (.fin 120)) (.int 1) exDynTrack ∧
    exDyn (.bool true) (.int 120) (.int 0) exDynTrack = exDyn (.int 1) (.float (.fin 120)) (.int 0) exDynTrack ∧
    okAnd (exDyn (.bool true) (.int 120) (.int 0) exDynTrack) (fun r => r.isOk) = true ∧
    okAnd (exDyn (.int 96) (.int 120) (.float (.fin (7 / 2))) exDynEmpty) (fun r => r.isOk) = true ∧
    exDyn (.int 96) (.bool false) (.int 0) exDynTrack = .ok (.error .zeroDivisionError) ∧
    exDyn (.bool false) .other .other exDynTrack = .error .valueError ∧
    exDyn (.float .nan) .other .other exDynTrack = .error .valueError ∧
    exDyn (.float (.fin (3 / 2))) .other .other exDynTrack = .error .typeError ∧
    exDyn .other .other (.int 77) exDynTrack = .error .typeError := by decide +kernel

end Melodia
