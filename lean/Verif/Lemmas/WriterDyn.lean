/-
Lemmas about writers with settings that need not be ints.
-/
import Verif.Spec.WriterDyn
import Verif.Lemmas.Track
import Verif.Lemmas.StableSort

set_option autoImplicit false

namespace Melodia

namespace PyVal

theorem between_ok (lo hi : Int) (x : PyVal) :
    (x.between lo hi = .ok true ∧ x.InRange lo hi) ∨
    (x.between lo hi = .ok false ∧ x ≠ .other ∧ ¬ x.InRange lo hi) ∨
    (x.between lo hi = .error .typeError ∧ x = .other) := by
  have key : ∀ q : ℚ, x.number = some (.fin q) → (x.InRange lo hi ↔ (lo : ℚ) ≤ q ∧ q ≤ hi) := by
    intro q hq
    constructor
    · rintro ⟨q', h, h1⟩
      rw [hq] at h
      cases h
      exact h1
    · exact fun h => ⟨q, hq, h⟩
  cases x with
  | int i =>
    have := key i rfl
    by_cases h : lo ≤ i ∧ i ≤ hi
    · left
      exact ⟨by simp [between, h.1, h.2], this.2 (by exact_mod_cast h)⟩
    · right; left
      refine ⟨?_, by simp, fun h' => h (by exact_mod_cast this.1 h')⟩
      simp only [between, ← Bool.decide_and, decide_eq_false h]
  | bool b =>
    have := key (b.toNat : Int) (by cases b <;> simp [number])
    by_cases h : lo ≤ (b.toNat : Int) ∧ (b.toNat : Int) ≤ hi
    · left
      exact ⟨by simp [between, h.1, h.2], this.2 (by exact_mod_cast h)⟩
    · right; left
      refine ⟨?_, by simp, fun h' => h (by exact_mod_cast this.1 h')⟩
      simp only [between, ← Bool.decide_and, decide_eq_false h]
  | float x =>
    cases x with
    | fin q =>
      have := key q rfl
      by_cases h : (lo : ℚ) ≤ q ∧ q ≤ hi
      · left
        exact ⟨by simp [between, PyFloat.le, h.1, h.2], this.2 h⟩
      · right; left
        refine ⟨?_, by simp, fun h' => h (this.1 h')⟩
        simp only [between, PyFloat.le, ← Bool.decide_and, decide_eq_false h]
    | _ =>
      right; left
      exact ⟨by simp [between, PyFloat.le], by simp, by rintro ⟨q, h, _⟩; simp [number] at h⟩
  | other => exact .inr (.inr ⟨rfl, rfl⟩)

theorem orInt_asInt {x : PyVal} {i : Int} (h : x.asInt = some i) (s : Nat) :
    x.orInt s = .ok ((s ||| i.toNat : Nat) : Int) := by
  cases x with
  | int j => cases h; rfl
  | bool b => cases b <;> cases h <;> rfl
  | _ => cases h

theorem toBytes_asInt {x : PyVal} {i : Int} (h : x.asInt = some i) (n : Nat) : x.toBytes n = toBytesBig i n := by
  cases x with
  | int j => cases h; rfl
  | bool b => cases b <;> cases h <;> rfl
  | _ => cases h

theorem times4_asInt {x : PyVal} {i : Int} (h : x.asInt = some i) : x.times4 = .ok (.int (i * 4)) := by
  cases x with
  | int j => cases h; rfl
  | bool b => cases b <;> cases h <;> rfl
  | _ => cases h

theorem number_asInt {x : PyVal} {i : Int} (h : x.asInt = some i) : x.number = some (.fin i) := by
  cases x with
  | int j => cases h; rfl
  | bool b => cases b <;> cases h <;> simp [number]
  | _ => cases h

theorem inRange_asInt {x : PyVal} {i : Int} (h : x.asInt = some i) (lo hi : Int) :
    x.InRange lo hi ↔ lo ≤ i ∧ i ≤ hi := by
  unfold InRange
  rw [number_asInt h]
  constructor
  · rintro ⟨q, hq, h1, h2⟩
    cases hq
    exact ⟨by exact_mod_cast h1, by exact_mod_cast h2⟩
  · rintro ⟨h1, h2⟩
    exact ⟨i, rfl, by exact_mod_cast h1, by exact_mod_cast h2⟩

theorem perMinute_number {x : PyVal} {f : PyFloat} (h : x.number = some f) : x.perMinute = Writer.tempoOf f := by
  cases x with
  | int j => cases h; rfl
  | bool b => cases b <;> cases h <;> simp [perMinute]
  | float y => cases h; rfl
  | other => cases h

end PyVal

namespace DynWriter

/-- The dynamic writer holds the settings of the writer. -/
structure Holds (v : DynWriter) (w : Writer) : Prop where
  ppq : v.ppq.asInt = some w.ppq
  ppw : v.ppw = .int w.ppw
  delta : v.middleCDelta = w.middleCDelta
  bpm : v.bpm.number = some w.bpm
  channel : v.channel.asInt = some w.channel

/-- A time of the writer as a value. -/
def lift (p : TimedBytes) : PyVal × Bytes := (.int p.1, p.2)

variable {v : DynWriter} {w : Writer}

theorem Holds.pulses (h : Holds v w) (s : Signature) :
    v.signatureToPulses s = (w.signatureToPulses s).map PyVal.int := by
  unfold signatureToPulses Writer.signatureToPulses
  rw [h.ppw]
  cases s.normalized <;> rfl

theorem Holds.noteOn (h : Holds v w) (n : Note) : v.formatNoteOn n = w.formatNoteOn n := by
  unfold formatNoteOn Writer.formatNoteOn
  rw [PyVal.orInt_asInt h.channel, h.delta]
  rfl

theorem Holds.noteOff (h : Holds v w) (n : Note) : v.formatNoteOff n = w.formatNoteOff n := by
  unfold formatNoteOff Writer.formatNoteOff
  rw [PyVal.orInt_asInt h.channel, h.delta]
  rfl

theorem Holds.noteEvents (h : Holds v w) (l : List Entry) :
    v.noteEvents l = (w.noteEvents l).map (List.map lift) := by
  induction l with
  | nil => rfl
  | cons e l ih =>
    obtain ⟨p, n⟩ := e
    unfold DynWriter.noteEvents Writer.noteEvents
    rw [h.pulses, h.pulses, h.noteOn, h.noteOff, ih]
    cases w.signatureToPulses p with
    | error => rfl
    | ok a =>
      cases w.formatNoteOn n with
      | error => rfl
      | ok b =>
        cases w.signatureToPulses n.duration with
        | error => rfl
        | ok c =>
          cases w.formatNoteOff n with
          | error => rfl
          | ok d => cases w.noteEvents l <;> rfl

theorem deltas_lift (l : List TimedBytes) (t : Int) : deltas (.int t) (l.map lift) = (Writer.deltas t l).map lift := by
  induction l generalizing t with
  | nil => rfl
  | cons e l ih =>
    obtain ⟨p, n⟩ := e
    simp only [List.map_cons, lift, deltas, Writer.deltas]
    rw [ih]
    rfl

theorem sort_lift (S : ListSort) (l : List TimedBytes) :
    S.sort (fun a b => decide (a.1.time < b.1.time)) (l.map lift) =
      (S.sort (fun a b => decide (a.1 < b.1)) l).map lift := by
  have h1 : S.sort (fun a b : PyVal × Bytes => decide (a.1.time < b.1.time)) (l.map lift) =
      stableSort (fun a b : PyVal × Bytes => decide (a.1.time < b.1.time)) (l.map lift) := by
    apply S.stable
    · intros; simp
    · intro a _ b _ c _ h1 h2
      rw [decide_eq_true_eq] at *
      exact h1.trans h2
    · intro a _ b _ c _ h1 h2 h3 h4
      rw [decide_eq_false_iff_not, not_lt] at *
      rw [decide_eq_false_iff_not, not_lt]
      exact ⟨h3.trans h1, h2.trans h4⟩
  have h2 : S.sort (fun a b : TimedBytes => decide (a.1 < b.1)) l = stableSort (fun a b => decide (a.1 < b.1)) l :=
    S.sort_ltKey (fun a : TimedBytes => a.1) l
  rw [h1, h2, stableSort_map]
  congr 2
  funext a b
  simp [lift, PyVal.time]

theorem Holds.signature (h : Holds v w) (s : Signature) (bb : Int) :
    formatSignature s v.ppq bb = Writer.formatSignature s w.ppq bb := by
  unfold formatSignature Writer.formatSignature
  rw [PyVal.toBytes_asInt h.ppq]

theorem Holds.header (h : Holds v w) (a b : Int) : v.formatHeaderChunk a b = w.formatHeaderChunk a b := by
  unfold formatHeaderChunk Writer.formatHeaderChunk
  rw [PyVal.toBytes_asInt h.ppq]

theorem Holds.deltaEvents (h : Holds v w) (S : ListSort) (s : Signature) (l : List Entry) :
    DynWriter.deltaEvents S v s l = (Writer.deltaEvents S w s l).map (List.map lift) := by
  unfold DynWriter.deltaEvents Writer.deltaEvents
  rw [h.noteEvents, h.signature, PyVal.perMinute_number h.bpm]
  cases w.noteEvents l with
  | error => rfl
  | ok a =>
    simp only [Except.map, bind, Except.bind, sort_lift]
    cases Writer.formatSignature s w.ppq 8 with
    | error => rfl
    | ok b =>
      cases Writer.tempoOf w.bpm with
      | error => rfl
      | ok c =>
        simp only
        cases Writer.formatTempo c with
        | error => rfl
        | ok d =>
          simp only [pure, Except.pure, deltas_lift, List.map_append, List.map_cons, List.map_nil]
          rfl

theorem trackBody_lift (l : List TimedBytes) : trackBody (l.map lift) = Writer.trackBody l := by
  induction l with
  | nil => rfl
  | cons e l ih =>
    obtain ⟨p, n⟩ := e
    simp only [List.map_cons, lift, trackBody, Writer.trackBody, ih]
    rfl

theorem Holds.dump (h : Holds v w) (S : ListSort) (t : Track) (file : Bytes) :
    DynWriter.dump S v t file = Writer.dump S w t file := by
  unfold DynWriter.dump Writer.dump
  rw [h.header]
  simp only [h.deltaEvents]
  cases Writer.deltaEvents S w (t.iter S).1.signature (t.iter S).2 with
  | error => rfl
  | ok a =>
    simp only [Except.map, trackBody_lift]
    rfl

variable [UnicodeDigits] {ppq bpm ch : PyVal} {c : ToneArg}

theorem new_fields (h : new ppq c bpm ch = .ok v) :
    ppq.InRange 1 32767 ∧ ch.InRange 0 15 ∧ v.ppq = ppq ∧ v.bpm = bpm ∧ v.channel = ch ∧ ppq.times4 = .ok v.ppw ∧
    middleCDeltaOf c = .ok v.middleCDelta := by
  unfold new at h
  rcases ppq.between_ok 1 32767 with ⟨h1, k1⟩ | ⟨h1, -⟩ | ⟨h1, -⟩ <;> rw [h1] at h
  · rcases ch.between_ok 0 15 with ⟨h2, k2⟩ | ⟨h2, -⟩ | ⟨h2, -⟩ <;> rw [h2] at h
    · cases h3 : ppq.times4 with
      | error => rw [h3] at h; cases h
      | ok x =>
        rw [h3] at h
        cases h4 : middleCDeltaOf c with
        | error => rw [h4] at h; cases h
        | ok d =>
          rw [h4] at h
          cases h
          exact ⟨k1, k2, rfl, rfl, rfl, rfl, rfl⟩
    · cases h
    · cases h
  · cases h
  · cases h

theorem new_ppq (h : new ppq c bpm ch = .ok v) : v.ppq = ppq := (new_fields h).2.2.1

theorem new_bpm (h : new ppq c bpm ch = .ok v) : v.bpm = bpm := (new_fields h).2.2.2.1

theorem new_channel (h : new ppq c bpm ch = .ok v) : v.channel = ch ∧ v.ppw ≠ .other := by
  obtain ⟨⟨q, hq, -⟩, -, -, -, h1, h2, -⟩ := new_fields h
  refine ⟨h1, fun h3 => ?_⟩
  rw [h3] at h2
  cases ppq with
  | other => cases hq
  | float y => cases hq; cases h2
  | int i => cases h2
  | bool b => cases h2

theorem new_channel0 (h : new ppq c bpm ch = .ok v) : ∃ v0, new ppq c bpm (.int 0) = .ok v0 ∧
    v.ppq = v0.ppq ∧ v.ppw = v0.ppw ∧ v.bpm = v0.bpm ∧ v.middleCDelta = v0.middleCDelta := by
  obtain ⟨k1, -, h1, h2, -, h3, h4⟩ := new_fields h
  refine ⟨⟨ppq, v.ppw, v.middleCDelta, bpm, .int 0⟩, ?_, h1, rfl, h2, rfl⟩
  unfold new
  rcases ppq.between_ok 1 32767 with ⟨h5, -⟩ | ⟨-, -, h5⟩ | ⟨h5, h6⟩
  · rw [h5, h3, h4]; rfl
  · exact absurd k1 h5
  · obtain ⟨q, hq, -⟩ := k1
    rw [h6] at hq; cases hq

omit [UnicodeDigits] in
theorem pulses_ok (h : v.ppw ≠ .other) {s : Signature} (hs : s.Valid) : ∃ y, v.signatureToPulses s = .ok y := by
  obtain ⟨n, hn, -⟩ := Signature.normalized_spec hs
  unfold signatureToPulses
  rw [hn]
  show ∃ y, v.ppw.mulDiv n.nominator n.denominator = .ok y
  cases hw : v.ppw with
  | other => exact absurd hw h
  | float x => cases x <;> exact ⟨_, rfl⟩
  | _ => exact ⟨_, rfl⟩

omit [UnicodeDigits] in
theorem deltaEvents_float {x : PyFloat} (h : v.ppq = .float x) (S : ListSort) (s : Signature) (l : List Entry) :
    ∃ e, deltaEvents S v s l = .error e := by
  unfold deltaEvents
  cases v.noteEvents l with
  | error e => exact ⟨e, rfl⟩
  | ok a =>
    obtain ⟨e, he⟩ : ∃ e, formatSignature s v.ppq 8 = .error e := by
      unfold formatSignature
      rw [h]
      simp only [bind, Except.bind]
      cases toBytesBig s.nominator 1 with
      | error e => exact ⟨e, rfl⟩
      | ok b =>
        simp only
        cases toBytesBig ((bitLength s.denominator.toNat : Int) - 1) 1 with
        | error e => exact ⟨e, rfl⟩
        | ok d => exact ⟨_, rfl⟩
    exact ⟨e, by rw [he]; rfl⟩

omit [UnicodeDigits] in
theorem deltaEvents_bpm (h : v.bpm = .other) (S : ListSort) (s : Signature) (l : List Entry) :
    ∃ e, deltaEvents S v s l = .error e := by
  unfold deltaEvents
  rw [h]
  cases v.noteEvents l with
  | error e => exact ⟨e, rfl⟩
  | ok a =>
    simp only [bind, Except.bind]
    cases formatSignature s v.ppq 8 with
    | error e => exact ⟨e, rfl⟩
    | ok b => exact ⟨_, rfl⟩

end DynWriter

end Melodia
