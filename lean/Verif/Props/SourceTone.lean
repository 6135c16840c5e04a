/-
C92: the text of tone.py, executed by the meaning of Python, does what the notation of tones says.
-/
import Verif.Lemmas.SourceTone
import Verif.Lemmas.ToneMore
import Verif.Props.Tone
import Verif.Spec.Source

set_option autoImplicit false

namespace Melodia

open Melodia.Python Melodia.Source

variable (W : World)

/-- C92 (constructor, attributes): `Tone(p)` for an int, and a string raises `ValueError`; `t.pitch` and `t.octave` are the
pitch and the floor of a twelfth of it. -/
theorem C92_constructor (p : Int) (s : List Char) (t : Tone) :
    Gives W [("p", .int p)] (callE "Tone" ["p"]) (toneV ⟨p⟩) ∧
    Raises W [("p", .str s)] (callE "Tone" ["p"]) .valueError ∧
    Gives W [("t", toneV t)] (.attr (.name "t") "pitch") (.int t.pitch) ∧
    Gives W [("t", toneV t)] (.attr (.name "t") "octave") (.int ⌊(t.pitch : ℚ) / 12⌋) := by
  refine ⟨?_, ?_, ?_, ?_⟩
  · simp [Gives, userEval, callE, userNames, py]
  · simp [Raises, userEval, callE, userNames, py, tone_new_str]
  · simp [Gives, userEval, py]
  · have h : (⌊(t.pitch : ℚ) / 12⌋ : ℤ) = t.octave := by
      rw [Tone.octave, pyFloorDiv, Int.fdiv_eq_ediv_of_nonneg _ (by norm_num)]
      have := Rat.floor_intCast_div_natCast t.pitch 12
      simpa using this
    simp [Gives, userEval, py, h, tone_octave_ok]

/-- C92 (comparisons): the six comparison operators compare the pitches. -/
theorem C92_comparisons (a b : Tone) :
    Gives W [("a", toneV a), ("b", toneV b)] (cmpE .eq "a" "b") (.bool (decide (a.pitch = b.pitch))) ∧
    Gives W [("a", toneV a), ("b", toneV b)] (cmpE .ne "a" "b") (.bool (decide (a.pitch ≠ b.pitch))) ∧
    Gives W [("a", toneV a), ("b", toneV b)] (cmpE .lt "a" "b") (.bool (decide (a.pitch < b.pitch))) ∧
    Gives W [("a", toneV a), ("b", toneV b)] (cmpE .le "a" "b") (.bool (decide (a.pitch ≤ b.pitch))) ∧
    Gives W [("a", toneV a), ("b", toneV b)] (cmpE .gt "a" "b") (.bool (decide (a.pitch > b.pitch))) ∧
    Gives W [("a", toneV a), ("b", toneV b)] (cmpE .ge "a" "b") (.bool (decide (a.pitch ≥ b.pitch))) := by
  refine ⟨?_, ?_, ?_, ?_, ?_, ?_⟩ <;>
    simp [Gives, userEval, cmpE, py, tone_eq_ok, tone_ne_ok, tone_lt_ok, tone_le_ok, tone_gt_ok, tone_ge_ok,
      Tone.eq, Tone.lt, Tone.le, Tone.gt, Tone.ge]

/-- C92 (transposition): `t.transposed(k)` is the tone `k` semitones above. -/
theorem C92_transposed (t : Tone) (k : Int) :
    Gives W [("t", toneV t), ("k", .int k)] (methE "t" "transposed" ["k"]) (toneV ⟨t.pitch + k⟩) := by
  simp [Gives, userEval, methE, py, Tone.transposed, Tone.new, Except.map]

/-- C92 (reading a notation): `Tone.from_notation(s)` is the tone that the longest prefix of `s` denotes, and raises
`ValueError` if `s` does not begin with one of the letters A to G. -/
theorem C92_from_notation (s : List Char) :
    (∀ p rest, @Reads W.digits s p rest → Gives W [("s", .str s)] (methE "Tone" "from_notation" ["s"]) (toneV ⟨p⟩)) ∧
    ((∃ c t, s = c :: t ∧ IsLetter c) → ∃ p rest, @Reads W.digits s p rest) ∧
    (¬ (∃ c t, s = c :: t ∧ IsLetter c) →
      Raises W [("s", .str s)] (methE "Tone" "from_notation" ["s"]) .valueError) := by
  have h : userEval W [("s", .str s)] (methE "Tone" "from_notation" ["s"]) =
      liftPy ((@Tone.fromNotation W.digits s).map toneV) := by
    have := tone_from_notation W s
    simp only [userEval, methE, py, userNames, List.map]
    simpa [py] using this
  refine ⟨fun p rest hr => ?_, fun hl => ?_, fun hl => ?_⟩
  · rw [Gives, h, (@C10_meaning W.digits s).1 p rest hr]; rfl
  · obtain ⟨t, ht⟩ := (@C10_accepts_iff W.digits s).1.mp hl
    exact ⟨_, (@C10_meaning W.digits s).2.1 t ht⟩
  · rw [Raises, h, (@C10_accepts_iff W.digits s).2 hl]; rfl

/-- C92 (writing a notation): `t.to_notation(down)` is a letter, at most one accidental (`b` if `down` is true and `#`
otherwise) and the octave; it denotes `t`, so that `from_notation` gives `t` back. `str(t)` is `t.to_notation()`, which is
`t.to_notation(False)`. -/
theorem C92_to_notation (t : Tone) (down : Bool) :
    ∃ (c : Char) (accs : List Char) (k : Int), IsLetter c ∧ (accs = [] ∨ accs = [if down then 'b' else '#']) ∧
      12 * k ≤ t.pitch ∧ t.pitch < 12 * k + 12 ∧ @Reads W.digits (c :: (accs ++ decimalText k)) t.pitch [] ∧
      Gives W [("t", toneV t), ("d", .bool down)] (methE "t" "to_notation" ["d"]) (.str (c :: (accs ++ decimalText k))) ∧
      (down = false → Gives W [("t", toneV t)] (methE "t" "to_notation" []) (.str (c :: (accs ++ decimalText k))) ∧
        Gives W [("t", toneV t)] (callE "str" ["t"]) (.str (c :: (accs ++ decimalText k)))) ∧
      Gives W [("t", toneV t), ("d", .bool down)]
        (.call (.attr (.name "Tone") "from_notation") [methE "t" "to_notation" ["d"]] []) (toneV t) := by
  obtain ⟨c, accs, k, h1, h2, h3, h4, h5, h6, h7⟩ := @C09_notation_roundtrip W.digits t down
  refine ⟨c, accs, k, h2, h3, h4, h5, h6, ?_, ?_, ?_⟩
  · simp [Gives, userEval, methE, py, tone_to_notation, h1, Except.map]
  · rintro rfl
    have hs : globalName program W "__main__" "str" = pure (.builtin .str) := by rw [globalName]; rfl
    constructor
    · simp [Gives, userEval, methE, py, tone_to_notation_default, h1, Except.map]
    · simp [Gives, userEval, callE, userNames, py, hs, tone_str_ok, Tone.str, h1, Except.map]
  · have := tone_from_notation W (c :: (accs ++ decimalText k))
    rw [h7] at this
    simp only [Gives, userEval, methE, py, userNames, List.map]
    simpa [py, tone_to_notation, h1, Except.map] using this

/-- C92 (text): `repr(t)`. -/
theorem C92_repr (t : Tone) :
    Gives W [("t", toneV t)] (callE "repr" ["t"]) (.str ("Tone(pitch=".toList ++ intStr t.pitch ++ ")".toList)) := by
  have hs : globalName program W "__main__" "repr" = pure (.builtin .repr) := by rw [globalName]; rfl
  have : "Tone(pitch=".toList ++ intStr t.pitch ++ ")".toList = t.repr := rfl
  rw [this]
  simp [Gives, userEval, callE, userNames, py, hs, tone_repr_ok]

/-- C92 (frequency): `t.to_frequency(base)` is the rounded product of `base` and the power of two of the rounded quotient of
the distance from A4 and 12; the default of `base` is 440. -/
theorem C92_to_frequency (t : Tone) (base q : ℚ) (hq : W.powTwo (fl (((t.pitch - 57 : ℤ) : ℚ) / 12)) = .ok (.fin q)) :
    Gives W [("t", toneV t), ("base", .float (.fin base))] (methE "t" "to_frequency" ["base"])
      (.float (.fin (fl (base * q)))) ∧
    Gives W [("t", toneV t)] (methE "t" "to_frequency" []) (.float (.fin (fl (440 * q)))) := by
  constructor
  · simp [Gives, userEval, methE, py, tone_to_frequency W t base q hq]
  · simp [Gives, userEval, methE, py, tone_to_frequency_default W t q hq]

/-- The text reads `"Db-1x"` as the tone with pitch -11 and writes that tone as `"C#-1"`. -/
example : Gives W [("s", .str "Db-1x".toList)] (methE "Tone" "from_notation" ["s"]) (toneV ⟨-11⟩) ∧
    Gives W [("t", toneV ⟨-11⟩)] (callE "str" ["t"]) (.str "C#-1".toList) := by
  constructor
  · have h : @Tone.fromNotation W.digits "Db-1x".toList = .ok ⟨-11⟩ := rfl
    have := tone_from_notation W "Db-1x".toList
    rw [h] at this
    simp only [Gives, userEval, methE, py, userNames, List.map]
    simpa [py, Except.map] using this
  · have hs : globalName program W "__main__" "str" = pure (.builtin .str) := by rw [globalName]; rfl
    have h : Tone.str ⟨-11⟩ = .ok "C#-1".toList := by decide
    simp [Gives, userEval, callE, userNames, py, hs, tone_str_ok, h, Except.map]

end Melodia
