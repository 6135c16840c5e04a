/-
Lemmas about the limit on digits.
-/
import Verif.Model.ToneLimit
import Verif.Lemmas.ToneMore

set_option autoImplicit false

namespace Melodia

theorem natDigitsAux_length (l : Nat) : ∀ fuel n : Nat, n < fuel → ((natDigitsAux fuel n).length ≤ l + 1 ↔ n < 10 ^ (l + 1)) := by
  induction l with
  | zero =>
    intro fuel n h
    obtain ⟨fuel, rfl⟩ : ∃ f, fuel = f + 1 := ⟨fuel - 1, by omega⟩
    rw [natDigitsAux]
    split
    · simp; omega
    · have : (natDigitsAux fuel (n / 10)).length ≠ 0 := by
        obtain ⟨f, rfl⟩ : ∃ f, fuel = f + 1 := ⟨fuel - 1, by omega⟩
        rw [natDigitsAux]
        split <;> simp
      simp only [List.length_append, List.length_cons, List.length_nil]
      omega
  | succ l ih =>
    intro fuel n h
    obtain ⟨fuel, rfl⟩ : ∃ f, fuel = f + 1 := ⟨fuel - 1, by omega⟩
    have hp : 10 ^ (l + 1 + 1) = 10 * 10 ^ (l + 1) := by ring
    have hp' : 1 ≤ 10 ^ (l + 1) := Nat.one_le_pow _ _ (by omega)
    rw [natDigitsAux]
    split
    · simp only [List.length_cons, List.length_nil]
      omega
    · simp only [List.length_append, List.length_cons, List.length_nil]
      have := ih fuel (n / 10) (by omega)
      omega

theorem natStr_length {l : Nat} (hl : 1 ≤ l) (n : Nat) : (natStr n).length ≤ l ↔ n < 10 ^ l := by
  obtain ⟨l, rfl⟩ : ∃ k, l = k + 1 := ⟨l - 1, by omega⟩
  exact natDigitsAux_length l _ _ (by omega)

section
set_option linter.unusedSectionVars false
variable [UnicodeDigits]

/-- The scanner finds the digits of the octave text. -/
theorem matchOctave_digits {o rest : List Char} {k : Int} (h : OctaveText o k rest) :
    (matchOctave (o ++ rest) = none ∧ o = [] ∧ k = 0) ∨
    ∃ neg ds, matchOctave (o ++ rest) = some (neg, ds) ∧ ds.length = (o.filter (· != '-')).length ∧
      (if neg then -(digitsVal ds : Int) else digitsVal ds) = k := by
  have e := matchOctave_of_text h
  have nodash : ∀ ds : List Char, (∀ c ∈ ds, IsDigit c) → ds.filter (· != '-') = ds := by
    intro ds hd
    rw [List.filter_eq_self]
    intro c hc
    simp only [bne_iff_ne, ne_eq]
    rintro rfl
    exact not_isDigit_minus (hd _ hc)
  cases h with
  | absent rest h1 h2 =>
    left
    have : matchOctave rest = none := by
      unfold matchOctave
      split
      rename_i neg r hm
      have hr : r.takeWhile (fun c => (digitVal c).isSome) = [] := by
        cases rest with
        | nil =>
          simp at hm
          rw [hm.2]; rfl
        | cons c t =>
          by_cases hc : c = '-'
          · subst hc
            simp at hm
            rw [← hm.2]
            cases t with
            | nil => rfl
            | cons d u => simp [(isDigit_false d).mp (h2 d u rfl)]
          · simp [hc] at hm
            rw [← hm.2]
            simp [(isDigit_false c).mp (h1 c t rfl)]
      simp [hr]
    simpa using this
  | pos ds rest hne hd hmax =>
    right
    obtain ⟨c, t, rfl⟩ := List.exists_cons_of_ne_nil hne
    have hc : c ≠ '-' := fun e => not_isDigit_minus (e ▸ hd c (by simp))
    have h1 := (takeWhile_append_max (p := fun c => (digitVal c).isSome) (a := c :: t) (b := rest)
      (fun x hx => (isDigit_iff x).mp (hd x hx)) (fun x u hx => (isDigit_false x).mp (hmax x u hx))).1
    have : matchOctave (c :: t ++ rest) = some (false, c :: t) := by
      unfold matchOctave
      simp only [List.cons_append, List.cons.injEq, hc, false_and, imp_self, implies_true] at h1 ⊢
      rw [h1]; simp
    exact ⟨false, c :: t, this, by rw [nodash _ hd], by rw [this] at e; exact e⟩
  | neg ds rest hne hd hmax =>
    right
    have h1 := (takeWhile_append_max (p := fun c => (digitVal c).isSome) (a := ds) (b := rest)
      (fun x hx => (isDigit_iff x).mp (hd x hx)) (fun x u hx => (isDigit_false x).mp (hmax x u hx))).1
    have : matchOctave ('-' :: ds ++ rest) = some (true, ds) := by
      unfold matchOctave
      simp only [List.cons_append]
      rw [h1]
      simp [hne]
    refine ⟨true, ds, this, ?_, by rw [this] at e; exact e⟩
    rw [List.filter_cons_of_neg (by simp), nodash _ hd]

/-- Reading with a limit, for a text taken apart. -/
theorem fromNotationLimit_parts (limit : Option Nat) {c : Char} {accs oct rest : List Char} {k : Int} (hc : IsLetter c)
    (ha : ∀ a ∈ accs, IsAccidental a) (hm : ∀ a t, oct ++ rest = a :: t → ¬ IsAccidental a) (ho : OctaveText oct k rest) :
    Tone.fromNotationLimit limit (c :: (accs ++ (oct ++ rest))) =
      if overLimit limit (oct.filter (· != '-')).length then .error .valueError
      else .ok ⟨12 * k + letterSemitone c + (accs.count '#' : Int) - (accs.count 'b' : Int)⟩ := by
  obtain ⟨h1, h2⟩ := toneMapping_letter hc
  have h3 := takeWhile_append_max (p := fun x : Char => x == '#' || x == 'b') (a := accs)
    (b := oct ++ rest) (fun x hx => (isAcc_iff x).mpr (ha x hx))
    (fun x u hx => by have := hm x u hx; rw [← isAcc_iff] at this; simpa using this)
  unfold Tone.fromNotationLimit notationMatch
  simp only [h1, if_true]
  rw [h3.1, h3.2]
  simp only [h2, Tone.new]
  rw [acc_sum accs ha]
  rcases matchOctave_digits ho with ⟨hn, rfl, rfl⟩ | ⟨neg, ds, hs, hl, hk⟩
  · rw [hn]
    have : overLimit limit (([] : List Char).filter (· != '-')).length = false := by
      cases limit <;> simp [overLimit]
    rw [this]
    simp only [Bool.false_eq_true, if_false]
    show Except.ok _ = _
    congr 2
    ring
  · rw [hs]
    simp only [intOfDigits, hl]
    split
    · rfl
    · show Except.ok _ = _
      rw [hk]
      congr 2
      ring

theorem fromNotationLimit_bad (limit : Option Nat) {s : List Char} (h : ∀ c t, s = c :: t → ¬ IsLetter c) :
    Tone.fromNotationLimit limit s = .error .valueError := by
  unfold Tone.fromNotationLimit notationMatch
  cases s with
  | nil => rfl
  | cons c t =>
    have : c ∉ ['A', 'B', 'C', 'D', 'E', 'F', 'G'] := by
      have := h c t rfl
      unfold IsLetter at this
      simpa using this
    simp only [this, if_false]

end

theorem toNotationLimit_eq (limit : Option Nat) (t : Tone) (down : Bool) :
    t.toNotationLimit limit down = if overLimit limit (natStr (pyFloorDiv t.pitch 12).natAbs).length then .error .valueError
      else t.toNotation down := by
  obtain ⟨m1, m2, m3⟩ := pyMod_twelve t.pitch
  unfold Tone.toNotationLimit Tone.toNotation strOfInt
  simp only
  generalize pyMod t.pitch 12 = r at *
  generalize pyFloorDiv t.pitch 12 = q at *
  generalize overLimit limit (natStr q.natAbs).length = b
  cases b <;> cases down <;> interval_cases r <;> rfl

end Melodia
