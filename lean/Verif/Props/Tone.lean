/-
Property theorems C09-C14 (src/melodia/core/tone.py).
The notation grammar (`Reads`, `letterSemitone`, ...) is specified in Spec/Tone.lean.
-/
import Verif.Lemmas.Tone
import Verif.Lemmas.ToneMore
import Verif.Model.ToneFrequency
import Mathlib.Tactic.NormNum

set_option autoImplicit false

namespace Melodia

/-- Decimal text of an integer (independent of the model: Lean's own `Nat.toDigits`). -/
def decimalText (k : Int) : List Char :=
  if k < 0 then '-' :: Nat.toDigits 10 k.natAbs else Nat.toDigits 10 k.natAbs

variable [UnicodeDigits]

/-! ### C09 -/

/-- C09: `to_notation` never raises, gives letter + at most one accidental of the requested kind + decimal
octave, and `from_notation` reads the whole text back as the same tone. -/
theorem C09_notation_roundtrip (t : Tone) (down : Bool) :
    ∃ (c : Char) (accs : List Char) (k : Int),
      t.toNotation down = .ok (c :: (accs ++ decimalText k)) ∧
      IsLetter c ∧ (accs = [] ∨ accs = [if down then 'b' else '#']) ∧
      12 * k ≤ t.pitch ∧ t.pitch < 12 * k + 12 ∧
      Reads (c :: (accs ++ decimalText k)) t.pitch [] ∧
      Tone.fromNotation (c :: (accs ++ decimalText k)) = .ok t := by
  obtain ⟨c, accs, h1, h2, h3, h4⟩ := toNotation_shape t down
  have hr := reads_of_shape (k := pyFloorDiv t.pitch 12) (accs := accs) h2
    (by rcases h3 with rfl | rfl <;> [simp; (cases down <;> simp [IsAccidental])])
  rw [← h4] at hr
  obtain ⟨m1, m2, m3⟩ := pyMod_twelve t.pitch
  have e : intStr (pyFloorDiv t.pitch 12) = decimalText (pyFloorDiv t.pitch 12) := by
    unfold intStr decimalText; rw [natStr_eq]
  rw [e] at h1 hr
  exact ⟨c, accs, _, h1, h2, h3, by omega, by omega, hr, fromNotation_reads hr⟩

example : Tone.toNotation ⟨-11⟩ true = .ok ['D', 'b', '-', '1'] ∧
    Tone.toNotation ⟨130⟩ false = .ok ['A', '#', '1', '0'] := by decide

/-! ### C10 -/

/-- C10: `from_notation` succeeds iff the first character is one of A..G and raises ValueError
otherwise. -/
theorem C10_accepts_iff (s : List Char) :
    ((∃ c t, s = c :: t ∧ IsLetter c) ↔ ∃ t, Tone.fromNotation s = .ok t) ∧
    (¬ (∃ c t, s = c :: t ∧ IsLetter c) → Tone.fromNotation s = .error .valueError) := by
  have hbad : ¬ (∃ c t, s = c :: t ∧ IsLetter c) → Tone.fromNotation s = .error .valueError := by
    intro h
    exact fromNotation_bad (fun c t hs hc => h ⟨c, t, hs, hc⟩)
  refine ⟨⟨?_, ?_⟩, hbad⟩
  · rintro ⟨c, t, rfl, hc⟩
    obtain ⟨p, rest, h⟩ := exists_reads (t := t) hc
    exact ⟨⟨p⟩, fromNotation_reads h⟩
  · rintro ⟨t, ht⟩
    by_contra h
    rw [hbad h] at ht
    cases ht

/-- C10: the pitch is the one the notation grammar assigns; every string starting with a letter has such
a reading, and only one pitch is assigned to it. -/
theorem C10_meaning (s : List Char) :
    (∀ p rest, Reads s p rest → Tone.fromNotation s = .ok ⟨p⟩) ∧
    (∀ t, Tone.fromNotation s = .ok t → ∃ rest, Reads s t.pitch rest) ∧
    (∀ p q r1 r2, Reads s p r1 → Reads s q r2 → p = q) := by
  refine ⟨fun p rest => fromNotation_reads, ?_, ?_⟩
  · intro t ht
    obtain ⟨c, u, rfl, hc⟩ := (C10_accepts_iff s).1.mpr ⟨t, ht⟩
    obtain ⟨p, rest, h⟩ := exists_reads (t := u) hc
    have := fromNotation_reads h
    rw [ht] at this
    cases this
    exact ⟨rest, h⟩
  · intro p q r1 r2 h1 h2
    have a := fromNotation_reads h1
    rw [fromNotation_reads h2] at a
    injection a with a
    injection a with a
    exact a.symm

example : Tone.fromNotation "Cb-1x".toList = .ok ⟨-13⟩ ∧ Tone.fromNotation "A##".toList = .ok ⟨11⟩ ∧
    Tone.fromNotation "H4".toList = .error .valueError ∧ Tone.fromNotation [] = .error .valueError :=
  ⟨rfl, rfl, rfl, rfl⟩

/-! ### C11 -/

/-- A well-formed notation: the grammar reads the whole string. -/
def WellFormedNotation (s : List Char) : Prop := ∃ p, Reads s p []

/-- C11 refuted: 'C4xyz' and 'C-' are not well formed but are accepted (as C4 and C0). -/
theorem C11_violated :
    ¬ WellFormedNotation "C4xyz".toList ∧ Tone.fromNotation "C4xyz".toList = .ok ⟨48⟩ ∧
    ¬ WellFormedNotation "C-".toList ∧ Tone.fromNotation "C-".toList = .ok ⟨0⟩ := by
  refine ⟨?_, rfl, ?_, rfl⟩
  · rintro ⟨p, h⟩
    have := reads_chars h 'z' (by decide)
    have hz : decDigit 'z' = none := rfl
    rcases this with h | h | h | ⟨v, h⟩
    · revert h; unfold IsLetter; decide
    · revert h; unfold IsAccidental; decide
    · revert h; decide
    · rw [hz] at h; cases h
  · rintro ⟨p, c, accs, oct, k, he, hc, ha, hm, ho, -⟩
    have hd : decDigit '-' = none := rfl
    cases accs with
    | cons a l =>
      simp at he
      rcases ha a (by simp) with h | h <;> rw [h] at he <;> simp at he
    | nil =>
      simp at he
      obtain ⟨-, rfl⟩ := he
      cases ho with
      | pos ds _ _ hdg _ =>
        obtain ⟨v, hv⟩ := hdg '-' (by simp)
        rw [hd] at hv; cases hv
      | neg ds _ hne _ _ => exact hne rfl

/-- C11, the part that holds: malformed strings that do not start with a letter A..G are rejected.
Missing: malformed strings starting with a letter (refuted above; by C10 all of them are accepted). -/
theorem C11_rejects_partial (s : List Char) (_hs : ¬ WellFormedNotation s)
    (h : ∀ c t, s = c :: t → ¬ IsLetter c) : Tone.fromNotation s = .error .valueError :=
  fromNotation_bad h

/-- C11 (converse): a well-formed string is never rejected. -/
theorem C11_accepts_wellformed (s : List Char) (h : WellFormedNotation s) :
    ∃ t, Tone.fromNotation s = .ok t := by
  obtain ⟨p, h⟩ := h
  exact ⟨_, fromNotation_reads h⟩

example : WellFormedNotation "C#4".toList :=
  ⟨49, 'C', ['#'], ['4'], 4, rfl, by unfold IsLetter; decide, by simp [IsAccidental],
    (by intro a t h; cases h; unfold IsAccidental; decide),
    OctaveText.pos ['4'] [] (by simp) (by intro c hc; simp at hc; subst hc; exact ⟨4, rfl⟩) (by simp),
    by decide⟩

/-! ### C62 -/

omit [UnicodeDigits] in
/-- C62: `Tone(x)` succeeds iff `x` is an int, the tone then has exactly that pitch; everything else
(strings and tones included) is a ValueError. -/
theorem C62_constructor (x : ToneArg) :
    (∀ t, Tone.new x = .ok t ↔ x = .int t.pitch) ∧ ((∀ i, x ≠ .int i) → Tone.new x = .error .valueError) := by
  constructor
  · intro t
    cases x with
    | int i => exact ⟨fun h => by cases h; rfl, fun h => by cases h; rfl⟩
    | tone u => exact ⟨fun h => (by cases h), fun h => (by cases h)⟩
    | str s => exact ⟨fun h => (by cases h), fun h => (by cases h)⟩
    | other => exact ⟨fun h => (by cases h), fun h => (by cases h)⟩
  · intro h
    cases x with
    | int i => exact absurd rfl (h i)
    | _ => rfl

/-- C62: an int and a notation string. -/
example : Tone.new (.int (-5)) = .ok ⟨-5⟩ ∧ Tone.new (.str "C4".toList) = .error .valueError ∧
    ∀ i, ToneArg.str "C4".toList ≠ .int i := ⟨rfl, rfl, fun _ h => by cases h⟩

/-! ### C12 -/

omit [UnicodeDigits] in
/-- C12: pitch = 12 * octave + pitch class, with pitch class in 0..11 (so `octave` is the floor). -/
theorem C12_octave (t : Tone) : ∃ c : Int, 0 ≤ c ∧ c < 12 ∧ t.pitch = 12 * t.octave + c := by
  obtain ⟨h1, h2, h3⟩ := pyMod_twelve t.pitch
  exact ⟨_, h1, h2, h3⟩

/-- C12: a letter followed by the decimal text of any integer `k` is a tone in octave `k`. -/
theorem C12_octave_of_notation (c : Char) (hc : IsLetter c) (k : Int) :
    ∃ t, Tone.fromNotation (c :: decimalText k) = .ok t ∧ t.octave = k ∧
      t.pitch = 12 * k + letterSemitone c := by
  have hr := reads_of_shape (k := k) (accs := []) hc (by simp)
  have e : intStr k = decimalText k := by unfold intStr decimalText; rw [natStr_eq]
  rw [e, List.nil_append] at hr
  refine ⟨_, fromNotation_reads hr, ?_, by simp⟩
  have hl : 0 ≤ letterSemitone c ∧ letterSemitone c < 12 := by
    unfold letterSemitone; split_ifs <;> omega
  unfold Tone.octave pyFloorDiv
  rw [Int.fdiv_eq_ediv_of_nonneg _ (by decide)]
  simp
  omega

/-- C12: transposition adds to the pitch, composes additively, has unit 0; a transposition by an octave
raises `octave` by one and keeps letter and accidental. -/
theorem C12_transposed (t : Tone) (a b : Int) (down : Bool) :
    (t.transposed a = .ok ⟨t.pitch + a⟩) ∧
    ((do let u ← t.transposed a; u.transposed b) = t.transposed (a + b)) ∧
    (t.transposed 0 = .ok t) ∧
    (∃ u, t.transposed 12 = .ok u ∧ u.octave = t.octave + 1 ∧
      ∃ name, t.toNotation down = .ok (name ++ decimalText t.octave) ∧
        u.toNotation down = .ok (name ++ decimalText u.octave)) := by
  refine ⟨rfl, ?_, ?_, ⟨t.pitch + 12⟩, rfl, ?_, ?_⟩
  · simp [Tone.transposed, Tone.new, bind, Except.bind, add_assoc]
  · simp [Tone.transposed, Tone.new]
  · simp only [Tone.octave, pyFloorDiv, Int.fdiv_eq_ediv_of_nonneg _ (show (0:Int) ≤ 12 by decide)]
    omega
  · have hm : pyMod (t.pitch + 12) 12 = pyMod t.pitch 12 := by
      simp [pyMod]
    obtain ⟨n, h1, h2⟩ := toNotation_name ⟨t.pitch⟩ ⟨t.pitch + 12⟩ down hm.symm
    refine ⟨n, ?_, ?_⟩
    · rw [h1]; unfold intStr decimalText; rw [natStr_eq]
    · rw [h2]; unfold intStr decimalText; rw [natStr_eq]

example : IsLetter 'G' ∧ (∃ t, Tone.fromNotation "G-3".toList = .ok t ∧ t.octave = -3) :=
  ⟨by unfold IsLetter; decide, ⟨-29⟩, rfl, by decide⟩

/-! ### C13 -/

omit [UnicodeDigits] in
/-- C13: tone comparisons are the comparisons of pitches. -/
theorem C13_order (a b : Tone) :
    (a.eq b = true ↔ a.pitch = b.pitch) ∧ (a.lt b = true ↔ a.pitch < b.pitch) ∧
    (a.le b = true ↔ a.pitch ≤ b.pitch) ∧ (a.gt b = true ↔ b.pitch < a.pitch) ∧
    (a.ge b = true ↔ b.pitch ≤ a.pitch) := by
  simp [Tone.eq, Tone.lt, Tone.le, Tone.gt, Tone.ge]

omit [UnicodeDigits] in
/-- C13: exactly one of `<`, `==`, `>` holds; `<` is transitive; transposition is strictly monotone. -/
theorem C13_total_order (a b c : Tone) (k : Int) :
    ((a.lt b = true ∧ a.eq b = false ∧ a.gt b = false) ∨
     (a.lt b = false ∧ a.eq b = true ∧ a.gt b = false) ∨
     (a.lt b = false ∧ a.eq b = false ∧ a.gt b = true)) ∧
    (a.lt b = true → b.lt c = true → a.lt c = true) ∧
    (∀ a' b', a.transposed k = .ok a' → b.transposed k = .ok b' → a'.lt b' = a.lt b) ∧
    (0 < k → ∀ a', a.transposed k = .ok a' → a.lt a' = true) := by
  simp only [Tone.eq, Tone.lt, Tone.gt, decide_eq_true_eq, decide_eq_false_iff_not,
    Tone.transposed, Tone.new]
  refine ⟨by omega, by omega, ?_, ?_⟩
  · intro a' b' h1 h2; cases h1; cases h2; simp
  · intro hk a' h; cases h; simpa using hk

/-! ### C14 -/

/-- C14 in exact arithmetic (Props/ToneFrequency.lean has the theorems about doubles): A4 is `base`, an octave doubles, twelve equal semitone ratios make an octave, strictly increasing, linear in base. -/
theorem C14_frequency (t : Tone) (base : ℝ) (hb : 0 < base) :
    (∃ a4, Tone.fromNotation "A4".toList = .ok a4 ∧ a4.toFrequency base = base) ∧
    (∀ u, t.transposed 12 = .ok u → u.toFrequency base = 2 * t.toFrequency base) ∧
    (∀ s u v : Tone, s.transposed 1 = .ok u → t.transposed 1 = .ok v →
      u.toFrequency base / s.toFrequency base = v.toFrequency base / t.toFrequency base ∧
      (v.toFrequency base / t.toFrequency base) ^ 12 = 2) ∧
    (∀ u : Tone, t.pitch < u.pitch → t.toFrequency base < u.toFrequency base) ∧
    (∀ k : ℝ, t.toFrequency (k * base) = k * t.toFrequency base) := by
  have two : (0 : ℝ) < 2 := by norm_num
  have step : ∀ s u : Tone, s.transposed 1 = .ok u →
      u.toFrequency base / s.toFrequency base = (2 : ℝ) ^ ((1 : ℝ) / 12) := by
    intro s u h
    cases h
    unfold Tone.toFrequency
    rw [mul_div_mul_left _ _ hb.ne', ← Real.rpow_sub two]
    congr 1; push_cast; ring
  refine ⟨⟨⟨57⟩, rfl, by norm_num [Tone.toFrequency]⟩, ?_, ?_, ?_, ?_⟩
  · intro u h; cases h
    unfold Tone.toFrequency
    rw [show (((t.pitch + 12 : Int) : ℝ) - 57) / 12 = ((t.pitch : ℝ) - 57) / 12 + 1 by push_cast; ring,
      Real.rpow_add two, Real.rpow_one]
    ring
  · intro s u v hu hv
    rw [step s u hu, step t v hv]
    refine ⟨rfl, ?_⟩
    rw [← Real.rpow_natCast, ← Real.rpow_mul two.le]
    norm_num
  · intro u h
    unfold Tone.toFrequency
    apply mul_lt_mul_of_pos_left _ hb
    apply Real.rpow_lt_rpow_of_exponent_lt (by norm_num)
    have : (t.pitch : ℝ) < u.pitch := by exact_mod_cast h
    linarith
  · intro k; unfold Tone.toFrequency; ring

example : (Tone.mk 69).toFrequency = 880 := by
  unfold Tone.toFrequency
  norm_num

end Melodia
