/-
Lemmas about notation parsing and printing.
-/
import Verif.Spec.Tone
import Mathlib.Tactic.IntervalCases
import Mathlib.Tactic.Ring
import Mathlib.Tactic.Linarith

set_option autoImplicit false

namespace Melodia

section
set_option linter.unusedSectionVars false
variable [UnicodeDigits]

/-- The digit classification of the model is the specified one. -/
theorem decDigit_eq (c : Char) : decDigit c = digitVal c := by
  by_cases h : c.toNat < 128
  · have key : ∀ n < 128, decDigit (Char.ofNat n) = digitVal (Char.ofNat n) := by
      intro n hn
      interval_cases n <;> rfl
    have := key c.toNat h
    rwa [Char.ofNat_toNat] at this
  · unfold decDigit digitVal
    rw [if_neg h]
    split
    all_goals first | (exfalso; revert h; decide) | rw [if_pos (by omega)]

theorem decDigit_ofNat {n : Nat} (h : n < 10) : decDigit (Char.ofNat (48 + n)) = some n := by
  interval_cases n <;> rfl

theorem digitVal_ofNat {n : Nat} (h : n < 10) : digitVal (Char.ofNat (48 + n)) = some n := by
  interval_cases n <;> rfl

theorem digitChar_eq {n : Nat} (h : n < 10) : Nat.digitChar n = Char.ofNat (48 + n) := by
  interval_cases n <;> rfl

theorem foldl_digits (l : List Char) (acc : Nat) :
    l.foldl (fun acc c => 10 * acc + (digitVal c).getD 0) acc = acc * 10 ^ l.length + decValue l := by
  induction l generalizing acc with
  | nil => simp [decValue]
  | cons c cs ih =>
    rw [List.foldl_cons, ih, decValue, List.length_cons, pow_succ, decDigit_eq]; ring

theorem digitsVal_eq (l : List Char) : digitsVal l = decValue l := by
  unfold digitsVal; rw [foldl_digits]; simp

theorem decValue_append (a b : List Char) :
    decValue (a ++ b) = decValue a * 10 ^ b.length + decValue b := by
  rw [← digitsVal_eq, ← digitsVal_eq]
  unfold digitsVal
  rw [List.foldl_append, foldl_digits]

theorem natDigitsAux_eq (fuel n : Nat) (h : n < fuel) : natDigitsAux fuel n = Nat.toDigits 10 n := by
  induction fuel generalizing n with
  | zero => omega
  | succ f ih =>
    rw [natDigitsAux]
    split
    · next h1 => rw [Nat.toDigits_of_lt_base h1, digitChar_eq h1]
    · next h1 =>
      rw [ih (n / 10) (by omega), Nat.toDigits_of_base_le (b := 10) (n := n) (by omega) (by omega),
        digitChar_eq (Nat.mod_lt _ (by omega))]

theorem natStr_eq (n : Nat) : natStr n = Nat.toDigits 10 n := natDigitsAux_eq _ _ (by omega)

theorem natDigitsAux_spec (fuel n : Nat) (h : n < fuel) :
    natDigitsAux fuel n ≠ [] ∧ (∀ c ∈ natDigitsAux fuel n, IsDigit c) ∧
      decValue (natDigitsAux fuel n) = n := by
  induction fuel generalizing n with
  | zero => omega
  | succ f ih =>
    rw [natDigitsAux]
    split
    · next h1 =>
      refine ⟨by simp, ?_, ?_⟩
      · intro c hc; rw [List.mem_singleton] at hc; exact ⟨n, hc ▸ decDigit_ofNat h1⟩
      · simp [decValue, decDigit_ofNat h1]
    · next h1 =>
      obtain ⟨_, h3, h4⟩ := ih (n / 10) (by omega)
      have hm : n % 10 < 10 := Nat.mod_lt _ (by omega)
      refine ⟨by simp, ?_, ?_⟩
      · intro c hc
        rcases List.mem_append.mp hc with hc | hc
        · exact h3 c hc
        · rw [List.mem_singleton] at hc; exact ⟨_, hc ▸ decDigit_ofNat hm⟩
      · rw [decValue_append, h4]
        simp [decValue, decDigit_ofNat hm]
        omega

theorem natStr_spec (n : Nat) :
    natStr n ≠ [] ∧ (∀ c ∈ natStr n, IsDigit c) ∧ decValue (natStr n) = n :=
  natDigitsAux_spec _ _ (by omega)

theorem not_isDigit_minus : ¬ IsDigit '-' := by
  rintro ⟨v, h⟩
  have : decDigit '-' = none := rfl
  rw [this] at h; cases h

theorem not_isDigit_acc {c : Char} (h : IsAccidental c) : ¬ IsDigit c := by
  rintro ⟨v, hv⟩
  rcases h with rfl | rfl
  · have : decDigit '#' = none := rfl
    rw [this] at hv; cases hv
  · have : decDigit 'b' = none := rfl
    rw [this] at hv; cases hv

theorem intStr_octaveText (k : Int) : OctaveText (intStr k) k [] := by
  unfold intStr
  obtain ⟨h1, h2, h3⟩ := natStr_spec k.natAbs
  split
  · next h =>
    have := OctaveText.neg (natStr k.natAbs) [] h1 h2 (by simp)
    rw [h3] at this
    rwa [show k = -(k.natAbs : Int) by omega, Int.natAbs_neg, Int.natAbs_natCast]
  · next h =>
    have := OctaveText.pos (natStr k.natAbs) [] h1 h2 (by simp)
    rw [h3] at this
    rwa [show k = (k.natAbs : Int) by omega, Int.natAbs_natCast]

theorem takeWhile_append_max {p : Char → Bool} {a b : List Char} (ha : ∀ c ∈ a, p c = true)
    (hb : ∀ c t, b = c :: t → p c = false) :
    (a ++ b).takeWhile p = a ∧ (a ++ b).dropWhile p = b := by
  induction a with
  | nil =>
    cases b with
    | nil => simp
    | cons c t => simp [hb c t rfl]
  | cons x xs ih =>
    have := ih (fun c hc => ha c (List.mem_cons_of_mem _ hc))
    simp [ha x (by simp), this]

theorem isDigit_iff (c : Char) : IsDigit c ↔ (digitVal c).isSome = true := by
  unfold IsDigit; rw [Option.isSome_iff_exists, decDigit_eq]

theorem isDigit_false (c : Char) : ¬ IsDigit c ↔ (digitVal c).isSome = false := by
  rw [isDigit_iff, Bool.not_eq_true]

/-- The octave scanner of the model computes what `OctaveText` says. -/
theorem matchOctave_of_text {o rest : List Char} {k : Int} (h : OctaveText o k rest) :
    (match matchOctave (o ++ rest) with
      | none => (0 : Int)
      | some (neg, ds) => if neg then -(digitsVal ds : Int) else digitsVal ds) = k := by
  cases h with
  | absent rest h1 h2 =>
    have : matchOctave rest = none := by
      unfold matchOctave
      split
      rename_i neg r hm
      have hr : r.takeWhile (fun c => (digitVal c).isSome) = [] := by
        cases rest with
        | nil =>
          simp at hm
          rw [hm.2]; rfl
        | cons c t =>
          by_cases hc : c = '-'
          · subst hc
            simp at hm
            rw [← hm.2]
            cases t with
            | nil => rfl
            | cons d u => simp [(isDigit_false d).mp (h2 d u rfl)]
          · simp [hc] at hm
            rw [← hm.2]
            simp [(isDigit_false c).mp (h1 c t rfl)]
      simp [hr]
    simp [this]
  | pos ds rest hne hd hmax =>
    obtain ⟨c, t, rfl⟩ := List.exists_cons_of_ne_nil hne
    have hc : c ≠ '-' := fun e => not_isDigit_minus (e ▸ hd c (by simp))
    have h1 := (takeWhile_append_max (p := fun c => (digitVal c).isSome) (a := c :: t) (b := rest)
      (fun x hx => (isDigit_iff x).mp (hd x hx)) (fun x u hx => (isDigit_false x).mp (hmax x u hx))).1
    have : matchOctave (c :: t ++ rest) = some (false, c :: t) := by
      unfold matchOctave
      simp only [List.cons_append, List.cons.injEq, hc, false_and, imp_self, implies_true] at h1 ⊢
      rw [h1]; simp
    rw [this]
    simp [digitsVal_eq]
  | neg ds rest hne hd hmax =>
    have h1 := (takeWhile_append_max (p := fun c => (digitVal c).isSome) (a := ds) (b := rest)
      (fun x hx => (isDigit_iff x).mp (hd x hx)) (fun x u hx => (isDigit_false x).mp (hmax x u hx))).1
    have : matchOctave ('-' :: ds ++ rest) = some (true, ds) := by
      unfold matchOctave
      simp only [List.cons_append]
      rw [h1]
      simp [hne]
    rw [this]
    simp [digitsVal_eq]

theorem acc_sum (l : List Char) (h : ∀ a ∈ l, IsAccidental a) :
    (l.map (fun t => if t = '#' then (1 : Int) else -1)).sum =
      (l.count '#' : Int) - (l.count 'b' : Int) := by
  induction l with
  | nil => simp
  | cons a l ih =>
    have hl := ih (fun x hx => h x (List.mem_cons_of_mem _ hx))
    rw [List.map_cons, List.sum_cons, hl]
    rcases h a (by simp) with rfl | rfl
    · simp; ring
    · simp; ring

theorem isAcc_iff (c : Char) : (c == '#' || c == 'b') = true ↔ IsAccidental c := by
  simp [IsAccidental]

theorem toneMapping_letter {c : Char} (h : IsLetter c) :
    c ∈ ['A', 'B', 'C', 'D', 'E', 'F', 'G'] ∧ toneMapping.get c = some (letterSemitone c) := by
  rcases h with rfl | rfl | rfl | rfl | rfl | rfl | rfl <;> exact ⟨by decide, by decide⟩

/-- The parser of the model follows the specification. -/
theorem fromNotation_reads {s : List Char} {p : Int} {rest : List Char} (h : Reads s p rest) :
    Tone.fromNotation s = .ok ⟨p⟩ := by
  obtain ⟨c, accs, oct, k, rfl, hc, ha, hm, ho, rfl⟩ := h
  obtain ⟨h1, h2⟩ := toneMapping_letter hc
  have h3 := takeWhile_append_max (p := fun x : Char => x == '#' || x == 'b') (a := accs)
    (b := oct ++ rest) (fun x hx => (isAcc_iff x).mpr (ha x hx))
    (fun x u hx => by have := hm x u hx; rw [← isAcc_iff] at this; simpa using this)
  unfold Tone.fromNotation notationMatch
  simp only [h1, if_true]
  rw [h3.1, h3.2]
  simp only [h2, Tone.new]
  have e := matchOctave_of_text ho
  rw [acc_sum accs ha]
  congr 2
  rcases hmo : matchOctave (oct ++ rest) with _ | ⟨neg, ds⟩
  · rw [hmo] at e
    simp only at e ⊢
    rw [← e]; ring
  · rw [hmo] at e
    simp only at e ⊢
    rw [← e]; ring

theorem fromNotation_bad {s : List Char} (h : ∀ c t, s = c :: t → ¬ IsLetter c) :
    Tone.fromNotation s = .error .valueError := by
  unfold Tone.fromNotation notationMatch
  cases s with
  | nil => rfl
  | cons c t =>
    have : c ∉ ['A', 'B', 'C', 'D', 'E', 'F', 'G'] := by
      have := h c t rfl
      unfold IsLetter at this
      simpa using this
    simp only [this, if_false]

/-- Splitting at the longest prefix satisfying a test. -/
theorem exists_span (p : Char → Prop) (s : List Char) :
    ∃ a b, s = a ++ b ∧ (∀ c ∈ a, p c) ∧ (∀ c t, b = c :: t → ¬ p c) := by
  classical
  induction s with
  | nil => exact ⟨[], [], rfl, by simp, by simp⟩
  | cons c t ih =>
    by_cases hc : p c
    · obtain ⟨a, b, rfl, h1, h2⟩ := ih
      exact ⟨c :: a, b, rfl, by simpa [hc] using h1, h2⟩
    · refine ⟨[], c :: t, rfl, by simp, ?_⟩
      intro x u h; cases h; exact hc

theorem exists_octaveText (s : List Char) : ∃ o k rest, s = o ++ rest ∧ OctaveText o k rest := by
  obtain ⟨a, b, rfl, h1, h2⟩ := exists_span IsDigit s
  by_cases ha : a = []
  · subst ha
    by_cases hb : ∃ c t, b = '-' :: c :: t ∧ IsDigit c
    · obtain ⟨c, t, rfl, hc⟩ := hb
      obtain ⟨a', b', h, g1, g2⟩ := exists_span IsDigit (c :: t)
      refine ⟨'-' :: a', _, b', by rw [h]; simp, OctaveText.neg a' b' ?_ g1 g2⟩
      rintro rfl
      exact g2 c t (by simpa using h.symm) hc
    · refine ⟨[], 0, b, rfl, OctaveText.absent b h2 ?_⟩
      intro c t h hc; exact hb ⟨c, t, h, hc⟩
  · exact ⟨a, _, b, rfl, OctaveText.pos a b ha h1 h2⟩

theorem exists_reads {c : Char} {t : List Char} (h : IsLetter c) : ∃ p rest, Reads (c :: t) p rest := by
  obtain ⟨a, b, rfl, h1, h2⟩ := exists_span IsAccidental t
  obtain ⟨o, k, rest, rfl, ho⟩ := exists_octaveText b
  exact ⟨_, rest, c, a, o, k, rfl, h, h1, h2, ho, rfl⟩

end

/-- Pitch class 0..11. -/
theorem pyMod_twelve (p : Int) : 0 ≤ pyMod p 12 ∧ pyMod p 12 < 12 ∧
    p = 12 * pyFloorDiv p 12 + pyMod p 12 := by
  unfold pyMod pyFloorDiv
  rw [Int.fmod_eq_emod_of_nonneg _ (by decide), Int.fdiv_eq_ediv_of_nonneg _ (by decide)]
  omega

end Melodia
