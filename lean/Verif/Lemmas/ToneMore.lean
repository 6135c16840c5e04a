/-
More lemmas about notation: shape of printed tones, characters of readable strings.
-/
import Verif.Lemmas.Tone

set_option autoImplicit false

namespace Melodia

section
set_option linter.unusedSectionVars false
variable [UnicodeDigits]

theorem intStr_head (k : Int) : ∀ a t, intStr k = a :: t → ¬ IsAccidental a := by
  intro a t h hacc
  unfold intStr at h
  split at h
  · injection h with h1 h2
    rcases hacc with h | h <;> rw [h] at h1 <;> revert h1 <;> decide
  · have := (natStr_spec k.natAbs).2.1 a (by rw [h]; simp)
    exact not_isDigit_acc hacc this

theorem reads_of_shape {c : Char} {accs : List Char} {k : Int} (hc : IsLetter c)
    (ha : ∀ a ∈ accs, IsAccidental a) :
    Reads (c :: (accs ++ intStr k))
      (12 * k + letterSemitone c + (accs.count '#' : Int) - (accs.count 'b' : Int)) [] :=
  ⟨c, accs, intStr k, k, by simp, hc, ha, by simpa using intStr_head k, intStr_octaveText k, rfl⟩

theorem toNotation_shape (t : Tone) (down : Bool) :
    ∃ c accs, t.toNotation down = .ok (c :: (accs ++ intStr (pyFloorDiv t.pitch 12))) ∧ IsLetter c ∧
      (accs = [] ∨ accs = [if down then 'b' else '#']) ∧
      t.pitch = 12 * pyFloorDiv t.pitch 12 + letterSemitone c + (accs.count '#' : Int) -
        (accs.count 'b' : Int) := by
  obtain ⟨m1, m2, m3⟩ := pyMod_twelve t.pitch
  unfold Tone.toNotation
  simp only
  generalize hp : pyMod t.pitch 12 = r at *
  generalize pyFloorDiv t.pitch 12 = q at *
  have key : ∀ (c : Char) (accs : List Char), IsLetter c →
      (accs = [] ∨ accs = [if down then 'b' else '#']) →
      r = letterSemitone c + (accs.count '#' : Int) - (accs.count 'b' : Int) →
      ∃ c' accs', (Except.ok (c :: (accs ++ intStr q)) : PyM (List Char)) =
        .ok (c' :: (accs' ++ intStr q)) ∧ IsLetter c' ∧
      (accs' = [] ∨ accs' = [if down then 'b' else '#']) ∧
      t.pitch = 12 * q + letterSemitone c' + (accs'.count '#' : Int) - (accs'.count 'b' : Int) := by
    intro c accs h1 h2 h3
    exact ⟨c, accs, rfl, h1, h2, by omega⟩
  cases down <;> interval_cases r <;>
    first
      | exact key 'C' [] (by simp [IsLetter]) (by simp) (by decide)
      | exact key 'D' [] (by simp [IsLetter]) (by simp) (by decide)
      | exact key 'E' [] (by simp [IsLetter]) (by simp) (by decide)
      | exact key 'F' [] (by simp [IsLetter]) (by simp) (by decide)
      | exact key 'G' [] (by simp [IsLetter]) (by simp) (by decide)
      | exact key 'A' [] (by simp [IsLetter]) (by simp) (by decide)
      | exact key 'B' [] (by simp [IsLetter]) (by simp) (by decide)
      | exact key 'C' ['#'] (by simp [IsLetter]) (by simp) (by decide)
      | exact key 'D' ['#'] (by simp [IsLetter]) (by simp) (by decide)
      | exact key 'F' ['#'] (by simp [IsLetter]) (by simp) (by decide)
      | exact key 'G' ['#'] (by simp [IsLetter]) (by simp) (by decide)
      | exact key 'A' ['#'] (by simp [IsLetter]) (by simp) (by decide)
      | exact key 'D' ['b'] (by simp [IsLetter]) (by simp) (by decide)
      | exact key 'E' ['b'] (by simp [IsLetter]) (by simp) (by decide)
      | exact key 'G' ['b'] (by simp [IsLetter]) (by simp) (by decide)
      | exact key 'A' ['b'] (by simp [IsLetter]) (by simp) (by decide)
      | exact key 'B' ['b'] (by simp [IsLetter]) (by simp) (by decide)

/-- Tones with the same pitch class have the same name. -/
theorem toNotation_name (a b : Tone) (down : Bool) (h : pyMod a.pitch 12 = pyMod b.pitch 12) :
    ∃ name, a.toNotation down = .ok (name ++ intStr a.octave) ∧
      b.toNotation down = .ok (name ++ intStr b.octave) := by
  obtain ⟨c, accs, h1, -, -, -⟩ := toNotation_shape a down
  refine ⟨c :: accs, by rw [h1]; simp [Tone.octave], ?_⟩
  unfold Tone.toNotation at h1 ⊢
  simp only at h1 ⊢
  rw [← h]
  unfold Tone.octave
  have canc : ∀ (x : List Char), x ++ intStr (pyFloorDiv a.pitch 12) =
      c :: (accs ++ intStr (pyFloorDiv a.pitch 12)) → x = c :: accs := by
    intro x hx
    rw [← List.cons_append] at hx
    exact List.append_cancel_right hx
  split at h1 <;> rename_i hg
  · injection h1 with h1
    rw [canc _ h1]
  · split at h1 <;> rename_i hd
    · simp only [hd]
      split at h1
      · simp_all
      · cases h1
    · simp only [hd]
      split at h1
      · simp_all
      · cases h1

/-- Every character of a completely readable string is a letter, accidental, '-' or digit. -/
theorem reads_chars {s : List Char} {p : Int} (h : Reads s p []) :
    ∀ x ∈ s, IsLetter x ∨ IsAccidental x ∨ x = '-' ∨ IsDigit x := by
  obtain ⟨c, accs, oct, k, rfl, hc, ha, -, ho, -⟩ := h
  intro x hx
  simp only [List.append_nil, List.mem_cons, List.mem_append] at hx
  rcases hx with rfl | hx | hx
  · exact Or.inl hc
  · exact Or.inr (Or.inl (ha x hx))
  · cases ho with
    | absent => cases hx
    | pos ds _ _ hd _ => exact Or.inr (Or.inr (Or.inr (hd x hx)))
    | neg ds _ _ hd _ =>
      rcases List.mem_cons.mp hx with rfl | hx
      · exact Or.inr (Or.inr (Or.inl rfl))
      · exact Or.inr (Or.inr (Or.inr (hd x hx)))

end

end Melodia
