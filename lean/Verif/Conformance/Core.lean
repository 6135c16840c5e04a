/-
Model validation, not proofs of properties: every assertion of the project's unit tests of melodia.core
(/repo/tests/melodia/core/*.py) and every example of docs/tone.rst, evaluated on the model. The names of the test functions
are kept. Random inputs of a test are replaced by fixed ones here.
-/
import Verif.Model.Text
import Verif.Model.CPySort
import Verif.Lemmas.CPySort
import Verif.Props.FrequencyAll

set_option autoImplicit false

namespace Melodia.Conformance
open Melodia

local instance asciiOnly : UnicodeDigits := ⟨fun _ => none⟩

/-- `Tone.from_notation(s)`. -/
def tn (s : String) : PyM Tone := Tone.fromNotation s.toList
/-- `Tone.from_notation(s).to_notation(transpose_down=b)`. -/
def renote (s : String) (b : Bool) : PyM (List Char) := do let t ← tn s; t.toNotation b

/-! ### tests/melodia/core/test_tone.py -/

-- test_tone_str
example : ∀ i ∈ List.range 30, (⟨i⟩ : Tone).str = (⟨i⟩ : Tone).toNotation false := by decide +kernel

-- test_tone_from_notation
example : ∀ x ∈ [("C", 0), ("C#", 1), ("D", 2), ("D#", 3), ("E", 4), ("F", 5), ("F#", 6), ("G", 7), ("G#", 8), ("A", 9),
    ("A#", 10), ("B", 11), ("C1", 12), ("C#1", 13), ("Db", 1), ("Eb", 3), ("Fb", 4), ("E#", 5), ("Ab", 8), ("C2", 24),
    ("C3", 36), ("C#3", 37), ("Db3", 37), ("C-1", -12), ("C#-1", -11), ("B-1", -1)],
    tn x.1 = .ok ⟨x.2⟩ := by decide +kernel

-- test_tone_to_notation
example : ∀ x ∈ [("C#", "C#0"), ("C#b", "C0"), ("C##b", "C#0"), ("C#b#", "C#0"), ("Cb##", "C#0"), ("Ab##43", "A#43"),
    ("Ab##-43", "A#-43")], renote x.1 false = .ok x.2.toList := by decide +kernel
example : ∀ x ∈ [("C#", "Db0"), ("C#b", "C0"), ("C##b", "Db0"), ("C#b#", "Db0"), ("Cb##", "Db0"), ("Ab##43", "Bb43"),
    ("Ab##-43", "Bb-43")], renote x.1 true = .ok x.2.toList := by decide +kernel

/-- Frequencies of the tones A, exact. -/
theorem freq_A (P : PowTwo64) (k : ℤ) (h1 : -5 ≤ k) (h2 : k ≤ 5) :
    Tone.toFrequency64 P ⟨57 + 12 * k⟩ = .ok (.fin (440 * 2 ^ k)) := by
  unfold Tone.toFrequency64 intDiv64
  have e : (((57 + 12 * k - 57 : ℤ) : ℚ) / ((12 : ℤ) : ℚ)) = (k : ℚ) := by push_cast; ring
  have f : fl64 (k : ℚ) = .fin k := by interval_cases k <;> decide +kernel
  dsimp only
  rw [e, f]
  show (do let y ← P.pow k; pure (mul64 440 y)) = _
  rw [P.exact k (by omega) (by omega)]
  show Except.ok (mul64 440 (.fin (2 ^ k))) = _
  congr 1
  interval_cases k <;> decide +kernel

/-- Frequencies between two bounds that are checked with integers: `(440 * 2 ** (k / 12)) ** 12 = 440 ** 12 * 2 ** k`. -/
theorem freq_near (P : PowTwo64) (p : ℤ) (lo hi : ℚ) (h1 : 1 ≤ hi) (hp1 : -60 ≤ p - 57) (hp2 : p - 57 ≤ 60)
    (hlo : lo ^ 12 ≤ 440 ^ 12 * 2 ^ (p - 57)) (hhi : 440 ^ 12 * 2 ^ (p - 57) ≤ hi ^ 12) :
    ∃ v : ℚ, Tone.toFrequency64 P ⟨p⟩ = .ok (.fin v) ∧ lo - 10 / 2 ^ 53 * hi ≤ v ∧ v ≤ hi + 10 / 2 ^ 53 * hi := by
  have hF : (Tone.toFrequency ⟨p⟩) ^ 12 = (((440 ^ 12 * 2 ^ (p - 57) : ℚ)) : ℝ) := by
    unfold Tone.toFrequency
    rw [mul_pow, ← Real.rpow_mul_natCast (by norm_num)]
    have : ((p : ℝ) - 57) / 12 * ((12 : ℕ) : ℝ) = ((p - 57 : ℤ) : ℝ) := by push_cast; ring
    rw [this, Real.rpow_intCast]
    push_cast
    rfl
  have hpos : 0 ≤ Tone.toFrequency ⟨p⟩ := by unfold Tone.toFrequency; positivity
  have k1 : (lo : ℝ) ≤ Tone.toFrequency ⟨p⟩ := by
    refine le_of_pow_le_pow_left₀ (n := 12) (by norm_num) hpos ?_
    rw [hF]; exact_mod_cast hlo
  have k2 : Tone.toFrequency ⟨p⟩ ≤ (hi : ℝ) := by
    refine le_of_pow_le_pow_left₀ (n := 12) (by norm_num) (by exact_mod_cast (by linarith : (0 : ℚ) ≤ hi)) ?_
    rw [hF]; exact_mod_cast hhi
  have hh1 : (1 : ℝ) ≤ hi := by exact_mod_cast h1
  have hsmall : (3 * ((440 : ℚ) : ℝ) + 1) * (2 : ℝ) ^ (-1074 : ℝ) ≤ 1 / 2 ^ 53 := by
    have : (2 : ℝ) ^ (-1074 : ℝ) ≤ (2 : ℝ) ^ (-64 : ℝ) := Real.rpow_le_rpow_of_exponent_le (by norm_num) (by norm_num)
    refine (mul_le_mul_of_nonneg_left this (by norm_num)).trans ?_
    rw [Real.rpow_neg (by norm_num)]
    norm_num
  rcases C69_frequency_all_partial P ⟨p⟩ 440 (by norm_num) (lt_of_lt_of_le (by norm_num) (zpow_le_zpow_right₀ (m := 10)
    (by norm_num) (by norm_num))) with ⟨-, h⟩ | ⟨-, v, hv, -, he⟩ | ⟨-, -, h⟩
  · exfalso
    simp only at h
    rcases h with h | h
    · omega
    · have : (2 : ℤ) ^ 10 ≤ 2 ^ 1023 := pow_le_pow_right₀ (by norm_num) (by norm_num)
      omega
  · refine ⟨v, hv, ?_⟩
    have hb : |(p : ℝ) - 57| / 12 ≤ 5 := by
      have : |(p : ℝ) - 57| ≤ 60 := by
        rw [abs_le]; constructor
        · exact_mod_cast hp1
        · exact_mod_cast hp2
      linarith
    have hF' : Tone.toFrequency ⟨p⟩ ((440 : ℚ) : ℝ) = Tone.toFrequency ⟨p⟩ := by norm_num
    rw [hF'] at he
    have he2 : |(v : ℝ) - Tone.toFrequency ⟨p⟩| ≤ 10 / 2 ^ 53 * hi := by
      have a1 : (|(p : ℝ) - 57| / 12 + 4) / 2 ^ 53 * Tone.toFrequency ⟨p⟩ ≤ 9 / 2 ^ 53 * hi := by
        apply mul_le_mul _ k2 hpos (by norm_num)
        gcongr
        linarith
      have a2 : (1 : ℝ) / 2 ^ 53 ≤ 1 / 2 ^ 53 * hi := by
        have : (0 : ℝ) < 1 / 2 ^ 53 := by norm_num
        nlinarith
      have : (10 : ℝ) / 2 ^ 53 * hi = 9 / 2 ^ 53 * hi + 1 / 2 ^ 53 * hi := by ring
      simp only at he
      linarith
    obtain ⟨b1, b2⟩ := abs_le.mp he2
    constructor
    · have : ((lo - 10 / 2 ^ 53 * hi : ℚ) : ℝ) ≤ (v : ℝ) := by push_cast; linarith
      exact_mod_cast this
    · have : (v : ℝ) ≤ ((hi + 10 / 2 ^ 53 * hi : ℚ) : ℝ) := by push_cast; linarith
      exact_mod_cast this
  · exfalso
    have hF' : Tone.toFrequency ⟨p⟩ ((440 : ℚ) : ℝ) = Tone.toFrequency ⟨p⟩ := by norm_num
    rw [hF'] at h
    have hu : Tone.toFrequency ⟨p⟩ ≤ 440 * 2 ^ 5 := by
      refine le_of_pow_le_pow_left₀ (n := 12) (by norm_num) (by norm_num) ?_
      rw [hF]
      have : (440 ^ 12 * 2 ^ (p - 57) : ℚ) ≤ (440 * 2 ^ 5) ^ 12 := by
        rw [mul_pow, ← pow_mul]
        have : (2 : ℚ) ^ (p - 57) ≤ 2 ^ (60 : ℤ) := zpow_le_zpow_right₀ (by norm_num) hp2
        have e : (2 : ℚ) ^ (5 * 12) = 2 ^ (60 : ℤ) := by norm_num
        rw [e]
        gcongr
      exact_mod_cast this
    have hl : (2 : ℝ) ^ (20 : ℝ) ≤ (2 : ℝ) ^ (1024 : ℝ) := Real.rpow_le_rpow_of_exponent_le (by norm_num) (by norm_num)
    have e20 : (2 : ℝ) ^ (20 : ℝ) = 2 ^ 20 := by norm_num
    rw [e20] at hl
    generalize (2 : ℝ) ^ (1024 : ℝ) = X at h hl
    have : (1 / 2 : ℝ) * X ≤ (1 - 1 / 2 ^ 40) * X := by
      apply mul_le_mul_of_nonneg_right _ (by linarith)
      norm_num
    have e5 : (440 : ℝ) * 2 ^ 5 = 14080 := by norm_num
    have e2 : (2 : ℝ) ^ 20 = 1048576 := by norm_num
    linarith

-- test_tone_to_frequency: the exact values
example (P : PowTwo64) : ∀ x ∈ [("A-1", (55 / 4 : ℚ)), ("A0", 55 / 2), ("A1", 55), ("A2", 110), ("A3", 220), ("A4", 440),
    ("A5", 880), ("A6", 1760), ("A7", 3520), ("A8", 7040), ("A9", 14080)],
    (do let t ← tn x.1; t.toFrequency64 P) = .ok (.fin x.2) := by
  have h : ∀ (s : String) (q : ℚ) (k : ℤ), tn s = .ok ⟨57 + 12 * k⟩ → q = 440 * 2 ^ k → -5 ≤ k → k ≤ 5 →
      (do let t ← tn s; t.toFrequency64 P) = .ok (.fin q) := by
    intro s q k h1 h2 h3 h4
    rw [h1, h2]
    exact freq_A P k h3 h4
  intro x hx
  simp only [List.mem_cons, List.not_mem_nil, or_false] at hx
  rcases hx with rfl | rfl | rfl | rfl | rfl | rfl | rfl | rfl | rfl | rfl | rfl
  · exact h _ _ (-5) (by decide +kernel) (by norm_num) (by norm_num) (by norm_num)
  · exact h _ _ (-4) (by decide +kernel) (by norm_num) (by norm_num) (by norm_num)
  · exact h _ _ (-3) (by decide +kernel) (by norm_num) (by norm_num) (by norm_num)
  · exact h _ _ (-2) (by decide +kernel) (by norm_num) (by norm_num) (by norm_num)
  · exact h _ _ (-1) (by decide +kernel) (by norm_num) (by norm_num) (by norm_num)
  · exact h _ _ 0 (by decide +kernel) (by norm_num) (by norm_num) (by norm_num)
  · exact h _ _ 1 (by decide +kernel) (by norm_num) (by norm_num) (by norm_num)
  · exact h _ _ 2 (by decide +kernel) (by norm_num) (by norm_num) (by norm_num)
  · exact h _ _ 3 (by decide +kernel) (by norm_num) (by norm_num) (by norm_num)
  · exact h _ _ 4 (by decide +kernel) (by norm_num) (by norm_num) (by norm_num)
  · exact h _ _ 5 (by decide +kernel) (by norm_num) (by norm_num) (by norm_num)

-- test_tone_to_frequency: the values up to an error
example (P : PowTwo64) : ∃ v : ℚ, (do let t ← tn "C5"; t.toFrequency64 P) = .ok (.fin v) ∧
    |v - 5232511306011972 / 10000000000000| < 1 / 1000 := by
  obtain ⟨v, hv, h1, h2⟩ := freq_near P 60 (52325113 / 100000) (52325114 / 100000) (by norm_num) (by norm_num)
    (by norm_num) (by norm_num) (by norm_num)
  refine ⟨v, ?_, ?_⟩
  · rw [show tn "C5" = .ok ⟨60⟩ by decide +kernel]; exact hv
  · rw [abs_lt]; constructor <;> norm_num at h1 h2 ⊢ <;> linarith
example (P : PowTwo64) : ∃ v : ℚ, (do let t ← tn "F4"; t.toFrequency64 P) = .ok (.fin v) ∧
    |v - 3492282314330039 / 10000000000000| < 1 / 10000 := by
  obtain ⟨v, hv, h1, h2⟩ := freq_near P 53 (34922823 / 100000) (34922824 / 100000) (by norm_num) (by norm_num)
    (by norm_num) (by norm_num) (by norm_num)
  refine ⟨v, ?_, ?_⟩
  · rw [show tn "F4" = .ok ⟨53⟩ by decide +kernel]; exact hv
  · rw [abs_lt]; constructor <;> norm_num at h1 h2 ⊢ <;> linarith

-- test_tone_octave
example : ∀ c ∈ "ABCDEFG".toList, ∀ k ∈ List.range 10, ∃ t, Tone.fromNotation (c :: intStr ((k : Int) - 5)) = .ok t ∧
    t.octave = (k : Int) - 5 := by
  have h : ∀ c ∈ "ABCDEFG".toList, ∀ k ∈ List.range 10,
      (match Tone.fromNotation (c :: intStr ((k : Int) - 5)) with
        | .ok t => decide (t.octave = (k : Int) - 5)
        | .error _ => false) = true := by decide +kernel
  intro c hc k hk
  have := h c hc k hk
  cases ht : Tone.fromNotation (c :: intStr ((k : Int) - 5)) with
  | error e => rw [ht] at this; cases this
  | ok t => rw [ht] at this; exact ⟨t, rfl, by simpa using this⟩

-- test_note_with_transposed
example : (do let t ← tn "C4"; t.toNotation false) = .ok "C4".toList ∧
    (do let t ← tn "C4"; let u ← t.transposed 1; u.toNotation false) = .ok "C#4".toList ∧
    (do let t ← tn "C4"; let u ← t.transposed 2; u.toNotation false) = .ok "D4".toList ∧
    (do let t ← tn "C4"; let u ← t.transposed (-1); u.toNotation false) = .ok "B3".toList ∧
    (do let t ← tn "C4"; let u ← t.transposed (-2); u.toNotation false) = .ok "A#3".toList ∧
    (do let a ← (⟨152⟩ : Tone).transposed 1; let b ← a.transposed 5; b.transposed (-3)) = (⟨152⟩ : Tone).transposed 3 := by
  decide +kernel

-- test_tone_eq, test_tone_comp
example : (⟨0⟩ : Tone).eq ⟨0⟩ = true ∧ (⟨0⟩ : Tone).eq ⟨1⟩ = false ∧ (⟨42⟩ : Tone).lt ⟨43⟩ = true ∧
    (⟨42⟩ : Tone).le ⟨42⟩ = true ∧ (⟨42⟩ : Tone).ge ⟨42⟩ = true ∧ (⟨42⟩ : Tone).gt ⟨41⟩ = true := by decide

/-! ### docs/tone.rst -/

example : tn "C0" = .ok ⟨0⟩ ∧ tn "B#3" = .ok ⟨48⟩ ∧ tn "Ab-1" = .ok ⟨-4⟩ := by decide +kernel
example : (⟨40⟩ : Tone).toNotation false = .ok "E3".toList ∧ renote "Ab3" false = .ok "G#3".toList ∧
    renote "E#b##bb#10" false = .ok "F10".toList ∧ renote "Ab3" true = .ok "Ab3".toList := by decide +kernel
example : (do let a ← tn "C1"; let b ← tn "C#1"; pure (a.lt b)) = .ok true := by decide +kernel

-- The frequencies the documentation prints, C0 16.351597831287414 and C1 32.70319566257483. The contract of `2 ** x` leaves
-- the last digit open, so they are checked up to 1e-12.
example (P : PowTwo64) : (∃ v : ℚ, Tone.toFrequency64 P ⟨0⟩ = .ok (.fin v) ∧
      |v - 16351597831287414 / 1000000000000000| < 1 / 1000000000000) ∧
    ∃ v : ℚ, (do let t ← tn "C1"; t.toFrequency64 P) = .ok (.fin v) ∧
      |v - 3270319566257483 / 100000000000000| < 1 / 1000000000000 := by
  constructor
  · obtain ⟨v, hv, h1, h2⟩ := freq_near P 0 (163515978312874 / 10000000000000) (163515978312875 / 10000000000000)
      (by norm_num) (by norm_num) (by norm_num) (by norm_num) (by norm_num)
    refine ⟨v, hv, ?_⟩
    rw [abs_lt]; constructor <;> norm_num at h1 h2 ⊢ <;> linarith
  · obtain ⟨v, hv, h1, h2⟩ := freq_near P 12 (327031956625748 / 10000000000000) (327031956625749 / 10000000000000)
      (by norm_num) (by norm_num) (by norm_num) (by norm_num) (by norm_num)
    refine ⟨v, ?_, ?_⟩
    · rw [show tn "C1" = .ok ⟨12⟩ by decide +kernel]; exact hv
    · rw [abs_lt]; constructor <;> norm_num at h1 h2 ⊢ <;> linarith
example (P : PowTwo64) : (do let t ← tn "A4"; t.toFrequency64 P) = .ok (.fin 440) := by
  rw [show tn "A4" = .ok ⟨57 + 12 * 0⟩ by decide +kernel]
  have := freq_A P 0 (by norm_num) (by norm_num)
  rwa [zpow_zero, mul_one] at this

/-! ### tests/melodia/core/test_signature.py -/

-- test_signature_basics
example : ∀ x ∈ [((0, 1) : Int × Int), (1, 2), (2, 4), (3, 4), (4, 4), (1000, 4)], Signature.new x.1 x.2 = .ok ⟨x.1, x.2⟩ := by
  decide +kernel
example : ∀ x ∈ [((-1, 4) : Int × Int), (0, 0), (0, -1), (1, 5), (1, 333)], Signature.new x.1 x.2 = .error .valueError := by
  decide +kernel
example : Signature.new 43 4 = .ok ⟨43, 4⟩ := by decide +kernel

-- test_signature_to, test_signature_normalized
example : (⟨1, 2⟩ : Signature).toDen 8 = .ok ⟨4, 8⟩ ∧ (⟨6, 8⟩ : Signature).normalized = .ok ⟨3, 4⟩ := by decide +kernel

-- test_signature_eq, test_signature_comp
example : (⟨0, 1⟩ : Signature).eq ⟨0, 4⟩ = true ∧ (⟨1, 4⟩ : Signature).eq ⟨8, 32⟩ = true ∧
    (⟨3, 2⟩ : Signature).eq ⟨6, 4⟩ = true ∧ (⟨2, 4⟩ : Signature).ge ⟨1, 2⟩ = true ∧ (⟨2, 4⟩ : Signature).le ⟨1, 2⟩ = true ∧
    (⟨2, 4⟩ : Signature).gt ⟨1, 4⟩ = true ∧ (⟨2, 4⟩ : Signature).ge ⟨1, 4⟩ = true ∧ (⟨2, 4⟩ : Signature).lt ⟨3, 4⟩ = true ∧
    (⟨2, 4⟩ : Signature).le ⟨3, 4⟩ = true := by decide +kernel

/-- `a == b` for the result `a` of a call. -/
def eqOk (a : PyM Signature) (b : Signature) : Bool :=
  match a with
  | .ok a => a.eq b
  | .error _ => false

-- test_signature_sum, test_signature_mul, test_signature_abs
example : eqOk ((⟨0, 1⟩ : Signature).add ⟨0, 1⟩) ⟨0, 1⟩ = true ∧ eqOk ((⟨1, 2⟩ : Signature).add ⟨1, 2⟩) ⟨1, 1⟩ = true ∧
    eqOk ((⟨1, 2⟩ : Signature).add ⟨1, 4⟩) ⟨3, 4⟩ = true ∧ eqOk ((⟨1, 4⟩ : Signature).mul ⟨2, 2⟩) ⟨2, 8⟩ = true ∧
    eqOk ((⟨3, 4⟩ : Signature).mul ⟨5, 4⟩) ⟨15, 16⟩ = true ∧ eqOk ((⟨1, 1⟩ : Signature).mul ⟨2, 1⟩) ⟨2, 1⟩ = true ∧
    eqOk ((⟨3, 8⟩ : Signature).abs) ⟨3, 8⟩ = true := by decide +kernel

/-! ### tests/melodia/core/test_note.py -/

/-- `a == b` for the results of two calls. -/
def notesEq (a b : PyM Note) : Bool :=
  match a, b with
  | .ok a, .ok b => a.eq b
  | _, _ => false
/-- `Note(s)`. -/
def nt (s : String) : PyM Note := Note.new (.str s.toList)
/-- A comparison of two results. -/
def notesCmp (f : Note → Note → Bool) (a b : PyM Note) : Bool :=
  match a, b with
  | .ok a, .ok b => f a b
  | _, _ => false

-- test_note_basics
example : notesEq (Note.new (.tone ⟨60⟩)) (Note.new (.int 60)) = true ∧
    notesEq (do let t ← tn "A4"; Note.new (.tone t)) (nt "A4") = true ∧
    notesEq (Note.new (.tone ⟨60⟩) (.sig ⟨3, 4⟩)) (Note.new (.int 60) (.ints [3, 4])) = true ∧
    (Note.new (.str "A4".toList) (velocity := .fin (1 / 2))).isOk = true ∧
    nt "re" = .error .valueError ∧ Note.new (.str "A4".toList) .other = .error .typeError ∧
    Note.new (.str "A4".toList) (velocity := .fin (-1)) = .error .valueError ∧
    Note.new (.str "A4".toList) (velocity := .fin (11 / 10)) = .error .valueError := by decide +kernel

-- test_note_properties (the double nearest to 0.1415 is written as a fraction)
example : Note.new (.str "B#6".toList) (.ints [3, 8]) (.fin (fl (1415 / 10000))) =
    .ok ⟨⟨84⟩, ⟨3, 8⟩, fl (1415 / 10000)⟩ ∧ tn "B#6" = .ok ⟨84⟩ := by decide +kernel

-- test_note_transposed, test_note_with_duration, test_note_with_velocity
example : (do let n ← nt "A4"; n.transposed 3) = (do let t ← tn "C5"; pure ⟨t, ⟨1, 4⟩, 3 / 4⟩) ∧
    (do let n ← Note.new (.str "A4".toList) (.ints [3, 8]); n.withDuration (.ints [7, 4])) =
      (do let t ← tn "A4"; pure ⟨t, ⟨7, 4⟩, 3 / 4⟩) ∧
    (do let n ← Note.new (.str "A4".toList) (.ints [3, 8]) (.fin (fl (43 / 100))); n.withVelocity (.fin (fl (86 / 100)))) =
      (do let t ← tn "A4"; pure ⟨t, ⟨3, 8⟩, fl (86 / 100)⟩) := by decide +kernel

-- test_note_eq, test_note_comp
example : notesEq (nt "C4") (nt "C4") = true ∧ notesEq (nt "C4") (nt "C5") = false ∧
    notesEq (Note.new (.str "C4".toList) (.ints [1, 2]) (.fin (fl (3 / 10))))
      (Note.new (.str "C4".toList) (.ints [2, 4]) (.fin (fl (3 / 10)))) = true ∧
    notesEq (Note.new (.str "C4".toList) (.ints [1, 2]) (.fin (fl (3 / 10))))
      (Note.new (.str "C4".toList) (.ints [2, 4]) (.fin (fl (4 / 10)))) = false ∧
    notesCmp Note.ge (nt "C#4") (nt "C4") = true ∧ notesCmp Note.gt (nt "C#4") (nt "C4") = true ∧
    notesCmp Note.le (nt "C#4") (nt "D4") = true ∧ notesCmp Note.lt (nt "C#4") (nt "D4") = true := by decide +kernel

/-! ### tests/melodia/core/test_track.py -/

-- test_track_basics, test_track_signature
example : (Track.new (.sig ⟨4, 4⟩) []).isOk = true ∧ (Track.new (.ints [1, 4]) []).isOk = true ∧
    (Track.new (.sig ⟨1, 4⟩) []).isOk = true ∧ Track.new (.ints [1, 6]) [] = .error .valueError ∧
    (do let t ← Track.new (.ints [3, 8]) []; pure t.signature) = .ok ⟨3, 8⟩ := by decide +kernel

/-- `Note(p, (n, d))`. -/
def nd (p n d : Int) : Note := ⟨⟨p⟩, ⟨n, d⟩, 3 / 4⟩
example : Note.new (.int 7) (.ints [3, 8]) = .ok (nd 7 3 8) := by decide +kernel
/-- The length of a track a program makes, compared with a signature. -/
def lengthIs (p : PyM Track) (s : Signature) : Bool := eqOk (do let t ← p; pure t.length) s

-- test_track_length
example : lengthIs (Track.new (.sig ⟨4, 4⟩) []) ⟨0, 1⟩ = true ∧
    lengthIs (do let t ← Track.new (.sig ⟨4, 4⟩) []; t.add (.note (nd 0 10 4)) none) ⟨10, 4⟩ = true ∧
    lengthIs (do
      let t ← Track.new (.sig ⟨4, 4⟩) []
      let t ← t.add (.note (nd 0 10 4)) none
      t.add (.note (nd 0 30 8)) (some (.ints [40, 2]))) ⟨190, 8⟩ = true ∧
    lengthIs (do
      let t ← Track.new (.sig ⟨4, 4⟩) []
      let t ← t.add (.note (nd 0 10 4)) none
      let t ← t.add (.note (nd 0 30 8)) (some (.ints [40, 2]))
      t.add (.note (nd 0 1 4)) none) ⟨192, 8⟩ = true := by decide +kernel

/-- `list(a) == list(b)` element by element. -/
def sameItems : List Entry → List Entry → Bool
  | [], [] => true
  | a :: as, b :: bs => a.1.eq b.1 && a.2.eq b.2 && sameItems as bs
  | _, _ => false
/-- `t.add(...)`, keeping the track; calls of the tests do not fail. -/
def addT (t : Track) (w : What) (p : Option SigArg) : Track :=
  match t.add w p with
  | .ok t => t
  | .error _ => t

-- test_track_add: every `list(t)` sorts the track in place before the next call
example :
    let t := Track.empty ⟨4, 4⟩
    let (t, l0) := t.iter cpySort
    let (t, l1) := (addT t (.note (nd 0 1 4)) none).iter cpySort
    let (t, l2) := (addT t (.many [.note (nd 0 1 4), .note (nd 1 1 4), .note (nd (-1) 1 4)]) none).iter cpySort
    let (t, l3) := (addT t (.note (nd 42 8 1)) (some (.ints [13, 1]))).iter cpySort
    let (t, l4) := t.iter cpySort
    let (_, l5) := t.iter cpySort
    let final : List Entry := [(⟨0, 1⟩, nd 0 1 4), (⟨1, 4⟩, nd (-1) 1 4), (⟨1, 4⟩, nd 0 1 4), (⟨1, 4⟩, nd 1 1 4),
      (⟨13, 1⟩, nd 42 8 1)]
    l0 = [] ∧ sameItems l1 [(⟨0, 1⟩, nd 0 1 4)] = true ∧
    sameItems l2 [(⟨0, 1⟩, nd 0 1 4), (⟨1, 4⟩, nd (-1) 1 4), (⟨1, 4⟩, nd 0 1 4), (⟨1, 4⟩, nd 1 1 4)] = true ∧
    sameItems l3 final = true ∧ sameItems l4 final = true ∧ sameItems l5 final = true := by decide +kernel

-- test_track_eq
example : (Track.empty ⟨17, 16⟩).eq cpySort (Track.empty ⟨17, 16⟩) = true ∧
    (Track.empty ⟨15, 16⟩).eq cpySort (Track.empty ⟨17, 16⟩) = false ∧
    (let t := addT (addT (Track.empty ⟨5, 16⟩) (.note (nd 3 7 16)) (some (.ints [9, 2]))) (.note (nd (-50) 100 16))
      (some (.ints [1, 512])); t.eq cpySort t = true) := by decide +kernel

end Melodia.Conformance
