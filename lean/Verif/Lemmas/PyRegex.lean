/-
What the regular expression of src/melodia/core/tone.py matches (Verif/Python/Regex.lean).
-/
import Verif.Python.Regex

set_option autoImplicit false

namespace Melodia.Python

section
variable (D : UnicodeDigits) (s : List Char) (g : Groups) (k : Cont)
theorem run_eps : Rx.run D .eps s g k = k s g := rfl
theorem run_seq (a b : Rx) : Rx.run D (.seq a b) s g k = a.run D s g (fun s g => b.run D s g k) := rfl
theorem run_opt (r : Rx) : Rx.run D (.opt r) s g k = match r.run D s g k with
    | some r => some r
    | none => k s g := rfl
theorem run_plus (r : Rx) :
    Rx.run D (.plus r) s g k = r.run D s g (fun s g => repeatRx (r.run D) s.length s g k) := rfl
theorem run_star (r : Rx) : Rx.run D (.star r) s g k = repeatRx (r.run D) s.length s g k := rfl
theorem run_group (name : String) (r : Rx) : Rx.run D (.group name r) s g k =
    r.run D s g (fun s' g => k s' (Dict.set g name (s.take (s.length - s'.length)))) := rfl
theorem run_char_nil (c : Char) : Rx.run D (.char c) [] g k = none := rfl
theorem run_char_cons (c x : Char) : Rx.run D (.char c) (x :: s) g k = if x = c then k s g else none := rfl
end

/-- A matcher for one character of a class. -/
def IsClass (m : List Char → Groups → Cont → Option Groups) (p : Char → Bool) : Prop :=
  ∀ s g k, m s g k = match s with
    | x :: s => if p x then k s g else none
    | [] => none

theorem repeat_class {m : List Char → Groups → Cont → Option Groups} {p : Char → Bool} (hm : IsClass m p) :
    ∀ (n : Nat) (s : List Char) (g : Groups) (k : Cont), s.length ≤ n → (k (s.dropWhile p) g).isSome →
      repeatRx m n s g k = k (s.dropWhile p) g := by
  intro n
  induction n with
  | zero =>
    intro s g k hs hk
    have : s = [] := List.length_eq_zero_iff.mp (by omega)
    subst this
    rfl
  | succ n ih =>
    intro s g k hs hk
    rw [repeatRx, hm]
    cases s with
    | nil => rfl
    | cons x s =>
      by_cases hx : p x
      · simp only [hx, if_true, List.length_cons, Nat.lt_succ_self]
        have h1 : (x :: s).dropWhile p = s.dropWhile p := by simp [hx]
        rw [h1] at hk ⊢
        rw [ih s g k (by simp only [List.length_cons] at hs; omega) hk]
        cases h : k (s.dropWhile p) g with
        | none => rw [h] at hk; simp at hk
        | some r => rfl
      · simp [hx]

theorem take_dropWhile (p : Char → Bool) (s : List Char) :
    s.take (s.length - (s.dropWhile p).length) = s.takeWhile p := by
  have h := List.takeWhile_append_dropWhile (p := p) (l := s)
  have hl : s.length = (s.takeWhile p).length + (s.dropWhile p).length := by
    conv_lhs => rw [← h]
    rw [List.length_append]
  rw [show s.length - (s.dropWhile p).length = (s.takeWhile p).length from by omega]
  have h2 : (s.takeWhile p ++ s.dropWhile p).take (s.takeWhile p).length = s.takeWhile p := List.take_left' rfl
  rw [h] at h2
  exact h2

/-- The pattern of src/melodia/core/tone.py:4. -/
def notationPattern : List Char := "(?P<tone>[ABCDEFG])(?P<transposition>[#b]*)(?P<octave>-?\\d+)?".toList

/-- The octave. -/
def octaveRx : Rx := .group "octave" (.seq (.opt (.char '-')) (.seq (.plus .digit) .eps))

/-- The accidentals. -/
def accRx : Rx := .group "transposition" (.seq (.star (.set ['#', 'b'])) .eps)

theorem notation_parses : parsePattern notationPattern =
    some (.seq (.group "tone" (.seq (.set ['A', 'B', 'C', 'D', 'E', 'F', 'G']) .eps)) (.seq accRx
      (.seq (.opt octaveRx) .eps))) := by decide +kernel

theorem isClass_digit (D : UnicodeDigits) : IsClass (Rx.run D .digit) (fun c => (@digitVal D c).isSome) := by
  intro s g k
  cases s <;> rfl

theorem isClass_set (D : UnicodeDigits) (l : List Char) : IsClass (Rx.run D (.set l)) (fun c => decide (c ∈ l)) := by
  intro s g k
  cases s <;> simp [Rx.run]

/-- `\d+` with a continuation that accepts. -/
theorem digits_run (D : UnicodeDigits) (s : List Char) (g : Groups) (k : Cont) (hk : ∀ s g, (k s g).isSome) :
    Rx.run D (.plus .digit) s g k =
      if (s.takeWhile (fun c => (@digitVal D c).isSome)).isEmpty then none
      else k (s.dropWhile (fun c => (@digitVal D c).isSome)) g := by
  rw [run_plus, isClass_digit]
  cases s with
  | nil => rfl
  | cons x s =>
    by_cases hx : (@digitVal D x).isSome
    · simp only [hx, if_true, List.takeWhile_cons, List.isEmpty_cons, List.dropWhile_cons, Bool.false_eq_true, if_false]
      exact repeat_class (isClass_digit D) _ _ _ _ (le_refl _) (hk _ _)
    · simp [hx]

/-- The text of the octave. -/
def octaveText : Bool × List Char → List Char
  | (true, ds) => '-' :: ds
  | (false, ds) => ds

theorem octave_run (D : UnicodeDigits) (s : List Char) (g : Groups) :
    Rx.run D (.seq (.opt octaveRx) .eps) s g (fun _ g => some g) =
      some (match @matchOctave D s with
        | none => g
        | some o => Dict.set g "octave" (octaveText o)) := by
  have key : Rx.run D octaveRx s g (fun _ g => some g) = (@matchOctave D s).map
      (fun o => Dict.set g "octave" (octaveText o)) := by
    rw [octaveRx, run_group, run_seq, run_opt]
    have hd : (@digitVal D '-').isSome = false := by simp [digitVal]
    have step : ∀ (r : List Char), Rx.run D (.seq (.plus .digit) .eps) r g
        (fun s' g => some (Dict.set g "octave" (s.take (s.length - s'.length)))) =
        if (r.takeWhile (fun c => (@digitVal D c).isSome)).isEmpty then none
        else some (Dict.set g "octave" (s.take (s.length - (r.dropWhile (fun c => (@digitVal D c).isSome)).length))) := by
      intro r
      rw [run_seq, digits_run]
      · rfl
      · intro s g; rfl
    cases s with
    | nil => rw [run_char_nil, step]; rfl
    | cons x s =>
      by_cases hx : x = '-'
      · subst hx
        rw [run_char_cons, if_pos rfl, step, step]
        have h1 : ('-' :: s).takeWhile (fun c => (@digitVal D c).isSome) = [] := by simp [hd]
        rw [h1]
        simp only [List.isEmpty_nil, if_true, matchOctave]
        by_cases he : (s.takeWhile (fun c => (@digitVal D c).isSome)).isEmpty
        · simp [he]
        · simp only [he, Bool.false_eq_true, if_false, Option.map_some, octaveText]
          congr 2
          rw [← take_dropWhile]
          have hle : (s.dropWhile (fun c => (@digitVal D c).isSome)).length ≤ s.length :=
            (List.dropWhile_sublist _).length_le
          rw [List.length_cons, Nat.succ_sub hle, List.take_succ_cons]
      · rw [run_char_cons, if_neg hx, step]
        have hm : @matchOctave D (x :: s) =
            (if ((x :: s).takeWhile (fun c => (@digitVal D c).isSome)).isEmpty then none
              else some (false, (x :: s).takeWhile (fun c => (@digitVal D c).isSome))) := by
          unfold matchOctave
          split
          rename_i heq
          split at heq
          · rename_i heq2; exact absurd (List.cons.inj heq2).1 hx
          · cases heq; rfl
        rw [hm, take_dropWhile]
        by_cases he : ((x :: s).takeWhile (fun c => (@digitVal D c).isSome)).isEmpty = true
        · rw [if_pos he, if_pos he]; rfl
        · rw [if_neg he, if_neg he]; rfl
  rw [run_seq, run_opt]
  simp only [run_eps]
  rw [key]
  cases @matchOctave D s <;> rfl

/-- The groups of a match. -/
def matchGroups (m : NotationMatch) : Groups :=
  [("tone", [m.tone]), ("transposition", m.transposition)] ++
    match m.octave with
    | none => []
    | some o => [("octave", octaveText o)]

/-- What the regular expression matches. -/
theorem reMatch_notation (D : UnicodeDigits) (s : List Char) :
    reMatch D notationPattern s = some ((@notationMatch D s).map matchGroups) := by
  rw [reMatch, notation_parses]
  simp only
  rw [run_seq, run_group, run_seq, isClass_set]
  cases s with
  | nil => rfl
  | cons c cs =>
    rw [notationMatch]
    by_cases hc : c ∈ ['A', 'B', 'C', 'D', 'E', 'F', 'G']
    · simp only [hc, decide_true, if_true]
      rw [run_eps, run_seq, accRx, run_group, run_seq, run_star]
      have hp : (fun c => decide (c ∈ ['#', 'b'])) = (fun x : Char => x == '#' || x == 'b') := by
        funext x; by_cases h1 : x = '#' <;> by_cases h2 : x = 'b' <;> simp [h1, h2]
      rw [repeat_class (isClass_set D ['#', 'b']) _ _ _ _ (le_refl _)]
      · rw [run_eps, octave_run, take_dropWhile, hp]
        have h1 : (c :: cs).take ((c :: cs).length - cs.length) = [c] := by
          rw [List.length_cons, Nat.add_sub_cancel_left]; rfl
        rw [h1]
        simp only [Option.map_some]
        cases @matchOctave D (List.dropWhile (fun x => x == '#' || x == 'b') cs) <;> rfl
      · rw [run_eps, octave_run]
        rfl
    · simp only [hc, decide_false, Bool.false_eq_true, if_false, Option.map_none]

theorem intOfStr_octave (D : UnicodeDigits) (s : List Char) (o : Bool × List Char) (h : @matchOctave D s = some o) :
    intOfStr D (octaveText o) =
      some (if o.1 then -(@digitsVal D o.2 : Int) else @digitsVal D o.2) ∧ octaveText o ≠ [] := by
  have hm : '-' ∉ o.2 ∧ o.2 ≠ [] ∧ o.2.all (fun c => (@digitVal D c).isSome) = true := by
    unfold matchOctave at h
    simp only [Option.ite_none_left_eq_some, Option.some.injEq] at h
    obtain ⟨hne, rfl⟩ := h
    refine ⟨?_, by simpa using hne, List.all_takeWhile⟩
    intro hc
    have := List.all_eq_true.mp (List.all_takeWhile (p := fun c => (@digitVal D c).isSome)) _ hc
    simp [digitVal] at this
  obtain ⟨neg, ds⟩ := o
  obtain ⟨h1, h2, h3⟩ := hm
  simp only at h1 h2 h3
  have he : ds.isEmpty = false := by simpa using h2
  cases neg with
  | true => simp [octaveText, intOfStr, h3, he]
  | false =>
    refine ⟨?_, h2⟩
    cases ds with
    | nil => exact absurd rfl h2
    | cons x l =>
      have hx : x ≠ '-' := by intro hx; rw [hx] at h1; simp at h1
      simp only [octaveText]
      unfold intOfStr
      split
      rename_i heq
      split at heq
      · rename_i heq2; exact absurd (List.cons.inj heq2).1 hx
      · cases heq
        simp only [h3]
        rfl

end Melodia.Python
