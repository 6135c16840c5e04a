/-
Property theorems C15-C18 (src/melodia/core/note.py).
-/
import Verif.Lemmas.Note
import Mathlib.Tactic.NormNum

set_option autoImplicit false

namespace Melodia
variable [UnicodeDigits]

/-! ### C15 -/

/-- C15: the constructor returns `n` iff the three arguments denote the three components of `n` and the
velocity is in [0, 1]. -/
theorem C15_constructor (t : ToneArg) (d : SigArg) (v : PyFloat) (n : Note) :
    Note.new t d v = .ok n ↔
      ToneDenotes t n.tone.pitch ∧ SigDenotes d n.duration ∧
        v = .fin n.velocity ∧ 0 ≤ n.velocity ∧ n.velocity ≤ 1 := by
  rw [Note.new_ok_iff, coerceNote_ok_iff, SigArg.coerce_ok_iff]

/-- C15 (failures): the only exceptions are TypeError and ValueError; a NaN or infinite velocity is
ValueError, a wrong type of tone is TypeError, an unparsable string ValueError. -/
theorem C15_failures (t : ToneArg) (d : SigArg) (v : PyFloat) :
    (∀ e, Note.new t d v = .error e → e = .typeError ∨ e = .valueError) ∧
    (Note.new .other d v = .error .typeError) ∧
    (∀ s, (∀ p rest, ¬ Reads s p rest) → Note.new (.str s) d v = .error .valueError) ∧
    (∀ p s, ToneDenotes t p → SigDenotes d s → ¬ (∃ q : ℚ, v = .fin q ∧ 0 ≤ q ∧ q ≤ 1) →
      Note.new t d v = .error .valueError) ∧
    (∀ p, ToneDenotes t p → (d = .other ∨ ∃ l, d = .ints l ∧ l.length ≠ 2) →
      Note.new t d v = .error .typeError) ∧
    (∀ p a b, ToneDenotes t p → ¬ (0 ≤ a ∧ IsPow2 b) → d = .ints [a, b] →
      Note.new t d v = .error .valueError) := by
  have tok : ∀ p, ToneDenotes t p → t.coerceNote = .ok ⟨p⟩ := fun p h => coerceNote_ok_iff.mpr h
  refine ⟨fun e => Note.new_err, rfl, ?_, ?_, ?_, ?_⟩
  · intro s h
    have : Tone.fromNotation s = .error .valueError := by
      apply fromNotation_bad
      rintro c u rfl hc
      obtain ⟨p, rest, hr⟩ := exists_reads (t := u) hc
      exact h _ _ hr
    unfold Note.new
    rw [show (ToneArg.str s).coerceNote = .error .valueError from this]; rfl
  · intro p s ht hd hv
    unfold Note.new
    rw [tok p ht, SigArg.coerce_ok_iff.mpr hd]
    rw [← velocityInRange_iff, Bool.not_eq_true] at hv
    simp [bind, Except.bind, hv]
  · intro p ht hd
    unfold Note.new
    rw [tok p ht]
    have : d.coerce = .error .typeError := by
      rcases hd with rfl | ⟨l, rfl, hl⟩
      · rfl
      · show Signature.ofIter l = _
        unfold Signature.ofIter
        split
        · simp at hl
        · rfl
    rw [this]; rfl
  · rintro p a b ht hab rfl
    unfold Note.new
    rw [tok p ht]
    have : (SigArg.ints [a, b]).coerce = .error .valueError := Signature.new_err hab
    rw [this]; rfl

/-- C15: left out, the duration is a quarter and the velocity 0.75. -/
theorem C15_defaults (t : ToneArg) (n : Note) :
    Note.new t = .ok n ↔ ToneDenotes t n.tone.pitch ∧ n.duration = ⟨1, 4⟩ ∧ n.velocity = 3 / 4 := by
  rw [C15_constructor]
  constructor
  · rintro ⟨h1, h2, h3, -, -⟩
    refine ⟨h1, ?_, ?_⟩
    · generalize n.duration = s at h2
      cases h2; rfl
    · injection h3 with h3
      exact h3.symm
  · rintro ⟨h1, h2, h3⟩
    rw [h2, h3]
    exact ⟨h1, .sig _, rfl, by norm_num, by norm_num⟩

/-- C15: notes built from well-formed arguments are well formed. -/
theorem C15_valid (t : ToneArg) (d : SigArg) (v : PyFloat) (n : Note)
    (hd : ∀ s, d = .sig s → s.Valid) (h : Note.new t d v = .ok n) : n.Valid := by
  obtain ⟨-, h2, -, h4, h5⟩ := (C15_constructor t d v n).mp h
  refine ⟨?_, h4, h5⟩
  generalize n.duration = s at h2
  cases h2 with
  | sig => exact hd _ rfl
  | pair a b ha hb => exact ⟨ha, hb⟩

example : Note.new (.int 60) (.ints [3, 8]) (.fin (1/2)) = .ok ⟨⟨60⟩, ⟨3, 8⟩, 1/2⟩ := by
  rw [Note.new_ok_iff]
  exact ⟨rfl, rfl, rfl, by norm_num, by norm_num⟩
example : Note.new (.int 60) (.sig ⟨1, 4⟩) .nan = .error .valueError := rfl

/-! ### C16 -/

/-- C16: `transposed` never raises on a note and only shifts the tone. -/
theorem C16_transposed (n : Note) (hn : n.Valid) (k : Int) :
    n.transposed k = .ok ⟨⟨n.tone.pitch + k⟩, n.duration, n.velocity⟩ := by
  have : Note.new (.tone ⟨n.tone.pitch + k⟩) (.sig n.duration) (.fin n.velocity) =
      .ok ⟨⟨n.tone.pitch + k⟩, n.duration, n.velocity⟩ :=
    Note.new_ok_iff.mpr ⟨rfl, rfl, rfl, hn.velLow, hn.velHigh⟩
  exact this

/-- C16: `with_duration` succeeds exactly for arguments denoting a signature, and replaces only the
duration. -/
theorem C16_with_duration (n : Note) (hn : n.Valid) (d : SigArg) (m : Note) :
    n.withDuration d = .ok m ↔
      ∃ s, SigDenotes d s ∧ m = ⟨n.tone, s, n.velocity⟩ := by
  unfold Note.withDuration
  rw [Note.new_ok_iff, SigArg.coerce_ok_iff]
  obtain ⟨a, b, c⟩ := m
  simp only [ToneArg.coerceNote, Except.ok.injEq, PyFloat.fin.injEq, Note.mk.injEq]
  constructor
  · rintro ⟨h1, h2, h3, -, -⟩
    exact ⟨b, h2, h1.symm, rfl, h3.symm⟩
  · rintro ⟨s, h2, rfl, rfl, rfl⟩
    exact ⟨rfl, h2, rfl, hn.velLow, hn.velHigh⟩

/-- C16: `with_velocity` succeeds exactly for velocities in [0, 1] and replaces only the velocity. -/
theorem C16_with_velocity (n : Note) (v : PyFloat) (m : Note) :
    n.withVelocity v = .ok m ↔
      ∃ q : ℚ, v = .fin q ∧ 0 ≤ q ∧ q ≤ 1 ∧ m = ⟨n.tone, n.duration, q⟩ := by
  unfold Note.withVelocity
  rw [Note.new_ok_iff]
  obtain ⟨a, b, c⟩ := m
  simp only [ToneArg.coerceNote, SigArg.coerce, Except.ok.injEq, Note.mk.injEq]
  constructor
  · rintro ⟨h1, h2, h3, h4, h5⟩
    exact ⟨c, h3, h4, h5, h1.symm, h2.symm, rfl⟩
  · rintro ⟨q, rfl, h4, h5, rfl, rfl, rfl⟩
    exact ⟨rfl, rfl, rfl, h4, h5⟩

/-- C16: an argument that does not qualify raises TypeError or ValueError. -/
theorem C16_failures (n : Note) (d : SigArg) (v : PyFloat) (e : PyErr) :
    (n.withDuration d = .error e → e = .typeError ∨ e = .valueError) ∧
    (n.withVelocity v = .error e → e = .valueError) := by
  refine ⟨fun h => Note.new_err h, fun h => ?_⟩
  unfold Note.withVelocity Note.new at h
  simp only [ToneArg.coerceNote, SigArg.coerce, bind, Except.bind] at h
  split at h
  · cases h; rfl
  · split at h <;> cases h
    rfl

example : (⟨⟨60⟩, ⟨1, 4⟩, 3/4⟩ : Note).Valid :=
  ⟨⟨by decide, 2, rfl⟩, by norm_num, by norm_num⟩

/-! ### C17 -/

omit [UnicodeDigits] in
/-- C17: `==` on notes: same pitch, same duration value, same velocity. -/
theorem C17_eq (a b : Note) (ha : a.Valid) (hb : b.Valid) :
    a.eq b = true ↔ a.tone.pitch = b.tone.pitch ∧ a.duration.val = b.duration.val ∧
      a.velocity = b.velocity := Note.eq_iff ha.duration hb.duration

omit [UnicodeDigits] in
/-- C17: hence an equivalence relation. -/
theorem C17_equivalence :
    (∀ a : Note, a.Valid → a.eq a = true) ∧
    (∀ a b : Note, a.Valid → b.Valid → a.eq b = b.eq a) ∧
    (∀ a b c : Note, a.Valid → b.Valid → c.Valid → a.eq b = true → b.eq c = true →
      a.eq c = true) := by
  refine ⟨fun a ha => (C17_eq a a ha ha).mpr ⟨rfl, rfl, rfl⟩, fun a b ha hb => ?_,
    fun a b c ha hb hc h1 h2 => ?_⟩
  · rw [Bool.eq_iff_iff, C17_eq a b ha hb, C17_eq b a hb ha]
    constructor <;> rintro ⟨h1, h2, h3⟩ <;> exact ⟨h1.symm, h2.symm, h3.symm⟩
  · obtain ⟨x1, x2, x3⟩ := (C17_eq a b ha hb).mp h1
    obtain ⟨y1, y2, y3⟩ := (C17_eq b c hb hc).mp h2
    exact (C17_eq a c ha hc).mpr ⟨x1.trans y1, x2.trans y2, x3.trans y3⟩

example : Note.eq ⟨⟨60⟩, ⟨1, 4⟩, 1⟩ ⟨⟨60⟩, ⟨2, 8⟩, 1⟩ = true ∧
    Note.eq ⟨⟨60⟩, ⟨1, 4⟩, 1⟩ ⟨⟨60⟩, ⟨1, 8⟩, 1⟩ = false := by
  constructor <;> rfl

/-! ### C18 -/

omit [UnicodeDigits] in
/-- C18 refuted: same tone and velocity, durations 1/2 and 3/4: the first is lexicographically smaller,
but `<` is False and `>` is True. -/
theorem C18_violated :
    ∃ a b : Note, a.Valid ∧ b.Valid ∧ NoteLexLt a b ∧ a.lt b = false ∧ a.le b = false ∧
      a.gt b = true ∧ a.ge b = true := by
  refine ⟨⟨⟨0⟩, ⟨1, 2⟩, 1⟩, ⟨⟨0⟩, ⟨3, 4⟩, 1⟩, ⟨⟨by decide, 1, rfl⟩, by norm_num, by norm_num⟩,
    ⟨⟨by decide, 2, rfl⟩, by norm_num, by norm_num⟩,
    Or.inr (Or.inl ⟨rfl, by norm_num [Signature.val]⟩), rfl, rfl, rfl, rfl⟩

omit [UnicodeDigits] in
/-- C18, the part that holds: the comparison is lexicographic unless the tones are equal, the durations
differ in value, and the left duration has the smaller denominator (refuted above). -/
theorem C18_lex_partial (a b : Note) (ha : a.Valid) (hb : b.Valid)
    (h : a.tone.pitch ≠ b.tone.pitch ∨ a.duration.val = b.duration.val ∨
      b.duration.denominator ≤ a.duration.denominator) :
    (a.lt b = true ↔ NoteLexLt a b) ∧ (a.gt b = true ↔ NoteLexLt b a) ∧
    (a.le b = true ↔ ¬ NoteLexLt b a) ∧ (a.ge b = true ↔ ¬ NoteLexLt a b) := by
  unfold Note.lt Note.gt Note.le Note.ge NoteLexLt
  simp only [Note.tripletCmp_iff ha.duration hb.duration, Tone.lt, Tone.gt, Tone.le, Tone.ge,
    decide_eq_true_eq]
  by_cases h1 : a.tone.pitch = b.tone.pitch
  · by_cases h2 : a.duration.val = b.duration.val
    · rcases lt_trichotomy a.velocity b.velocity with h3 | h3 | h3
      · simp [h1, h2, h3, h3.ne, h3.le, h3.not_gt, h3.not_ge]
      · simp [h1, h2, h3]
      · simp [h1, h2, h3, h3.ne', h3.le, h3.not_gt, h3.not_ge]
    · have hd : b.duration.denominator ≤ a.duration.denominator := by tauto
      rw [Signature.lt_of_ge ha.duration hb.duration hd, Signature.gt_of_ge ha.duration hb.duration hd,
        Signature.le_of_ge ha.duration hb.duration hd, Signature.ge_of_ge ha.duration hb.duration hd]
      have h2' : b.duration.val ≠ a.duration.val := Ne.symm h2
      simp [h1, h2, h2']
  · have h1' : b.tone.pitch ≠ a.tone.pitch := Ne.symm h1
    simp only [h1, h1', ne_eq, not_false_eq_true, true_and, false_and, or_false]
    omega

omit [UnicodeDigits] in
/-- C18, the remaining case: with equal tones, different duration values and a smaller left denominator
every comparison gives the answer for the swapped operands. -/
theorem C18_reversed (a b : Note) (ha : a.Valid) (hb : b.Valid)
    (h1 : a.tone.pitch = b.tone.pitch) (h2 : a.duration.val ≠ b.duration.val)
    (h : a.duration.denominator < b.duration.denominator) :
    (a.lt b = true ↔ NoteLexLt b a) ∧ (a.gt b = true ↔ NoteLexLt a b) ∧
    (a.le b = true ↔ ¬ NoteLexLt a b) ∧ (a.ge b = true ↔ ¬ NoteLexLt b a) := by
  unfold Note.lt Note.gt Note.le Note.ge NoteLexLt
  simp only [Note.tripletCmp_iff ha.duration hb.duration]
  rw [Signature.lt_of_lt ha.duration hb.duration h, Signature.gt_of_lt ha.duration hb.duration h,
    Signature.le_of_lt ha.duration hb.duration h, Signature.ge_of_lt ha.duration hb.duration h]
  have h2' : b.duration.val ≠ a.duration.val := Ne.symm h2
  simp [h1, h2, h2']

example : Note.lt ⟨⟨1⟩, ⟨1, 4⟩, 1⟩ ⟨⟨2⟩, ⟨1, 8⟩, 0⟩ = true := by rfl

end Melodia
