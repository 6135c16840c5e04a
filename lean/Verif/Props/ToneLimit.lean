/-
C107: tones in notation under Python's limit on digits.
-/
import Verif.Lemmas.ToneLimit
import Verif.Props.Tone

set_option autoImplicit false

namespace Melodia

variable [UnicodeDigits]

/-- C107 (reading): with a limit of `l` digits, a string is accepted exactly if it starts with a letter A..G and the run of digits read as
its octave has at most `l` characters, leading zeros included and the sign not; the tone is then the one of C10, and otherwise ValueError
is raised. -/
theorem C107_from_notation (l : Nat) (s : List Char) :
    ((∀ c t, s = c :: t → ¬ IsLetter c) → Tone.fromNotationLimit (some l) s = .error .valueError) ∧
    (∀ c accs sign ds rest, s = c :: (accs ++ (sign ++ ds ++ rest)) → IsLetter c → (∀ a ∈ accs, IsAccidental a) →
      (∀ a t, sign ++ ds ++ rest = a :: t → ¬ IsAccidental a) → (∀ d ∈ ds, IsDigit d) → (∀ d t, rest = d :: t → ¬ IsDigit d) →
      ds ≠ [] → (sign = [] ∨ sign = ['-']) →
      Tone.fromNotationLimit (some l) s = if ds.length ≤ l then Tone.fromNotation s else .error .valueError) ∧
    (∀ c accs rest, s = c :: (accs ++ rest) → IsLetter c → (∀ a ∈ accs, IsAccidental a) →
      (∀ a t, rest = a :: t → ¬ IsAccidental a ∧ ¬ IsDigit a) → (∀ a t, rest = '-' :: a :: t → ¬ IsDigit a) →
      Tone.fromNotationLimit (some l) s = Tone.fromNotation s) := by
  refine ⟨fromNotationLimit_bad _, ?_, ?_⟩
  · rintro c accs sign ds rest rfl hc ha hm hd hr hne hs
    have nodash : ds.filter (· != '-') = ds := by
      rw [List.filter_eq_self]
      intro c hc
      simp only [bne_iff_ne, ne_eq]
      rintro rfl
      exact not_isDigit_minus (hd _ hc)
    have key : ∀ k, OctaveText (sign ++ ds) k rest → Tone.fromNotationLimit (some l) (c :: (accs ++ (sign ++ ds ++ rest))) =
        if ds.length ≤ l then Tone.fromNotation (c :: (accs ++ (sign ++ ds ++ rest))) else .error .valueError := by
      intro k ho
      have hf : ((sign ++ ds).filter (· != '-')).length = ds.length := by
        rw [List.filter_append, nodash]
        rcases hs with rfl | rfl <;> simp
      rw [fromNotationLimit_parts (some l) hc ha hm ho, fromNotation_reads ⟨c, accs, _, k, rfl, hc, ha, hm, ho, rfl⟩, hf]
      simp only [overLimit, decide_eq_true_eq]
      by_cases h : ds.length ≤ l
      · rw [if_neg (by omega), if_pos h]
      · rw [if_pos (by omega), if_neg h]
    rcases hs with rfl | rfl
    · exact key _ (.pos ds rest hne hd hr)
    · exact key _ (.neg ds rest hne hd hr)
  · rintro c accs rest rfl hc ha hm hr
    have ho : OctaveText [] 0 rest := .absent rest (fun a t h => (hm a t h).2) hr
    have hm' : ∀ a t, [] ++ rest = a :: t → ¬ IsAccidental a := fun a t h => (hm a t h).1
    have := fromNotationLimit_parts (some l) hc ha hm' ho
    simp only [List.nil_append] at this
    have hf := fromNotation_reads ⟨c, accs, [], 0, rfl, hc, ha, hm', ho, rfl⟩
    rw [List.nil_append] at hf
    rw [this, hf]
    simp [overLimit]

/-- C107: these cases are all: what follows the letter of a string is accidentals and an octave, or accidentals and no octave. -/
theorem C107_cases (t : List Char) :
    (∃ accs sign ds rest, t = accs ++ (sign ++ ds ++ rest) ∧ (∀ a ∈ accs, IsAccidental a) ∧
      (∀ a u, sign ++ ds ++ rest = a :: u → ¬ IsAccidental a) ∧ (∀ d ∈ ds, IsDigit d) ∧ (∀ d u, rest = d :: u → ¬ IsDigit d) ∧
      ds ≠ [] ∧ (sign = [] ∨ sign = ['-'])) ∨
    (∃ accs rest, t = accs ++ rest ∧ (∀ a ∈ accs, IsAccidental a) ∧ (∀ a u, rest = a :: u → ¬ IsAccidental a ∧ ¬ IsDigit a) ∧
      (∀ a u, rest = '-' :: a :: u → ¬ IsDigit a)) := by
  obtain ⟨a, b, rfl, h1, h2⟩ := exists_span IsAccidental t
  obtain ⟨o, k, rest, rfl, ho⟩ := exists_octaveText b
  cases ho with
  | absent rest g1 g2 => exact .inr ⟨a, rest, rfl, h1, fun x u h => ⟨h2 x u (by simpa using h), g1 x u h⟩, g2⟩
  | pos ds rest hne hd hm => exact .inl ⟨a, [], o, rest, by simp, h1, by simpa using h2, hd, hm, hne, .inl rfl⟩
  | neg ds rest hne hd hm => exact .inl ⟨a, ['-'], ds, rest, by simp, h1, by simpa using h2, hd, hm, hne, .inr rfl⟩

omit [UnicodeDigits] in
/-- C107 (printing): with a limit of `l ≥ 1` digits, `to_notation` gives the text of C09 for the tones from `12 * (1 - 10 ^ l)` up to
`12 * 10 ^ l - 1`, and raises ValueError for all others; `str` is `to_notation` with sharps; `repr` does so for the tones from `1 - 10 ^ l` to `10 ^ l - 1`. -/
theorem C107_printing (l : Nat) (hl : 1 ≤ l) (t : Tone) (down : Bool) :
    (t.toNotationLimit (some l) down =
      if 12 * (1 - 10 ^ l) ≤ t.pitch ∧ t.pitch < 12 * 10 ^ l then t.toNotation down else .error .valueError) ∧
    (t.strLimit (some l) =
      if 12 * (1 - 10 ^ l) ≤ t.pitch ∧ t.pitch < 12 * 10 ^ l then t.toNotation false else .error .valueError) ∧
    (t.reprLimit (some l) = if -10 ^ l < t.pitch ∧ t.pitch < 10 ^ l then .ok t.repr else .error .valueError) := by
  obtain ⟨m1, m2, m3⟩ := pyMod_twelve t.pitch
  have key : ∀ down, t.toNotationLimit (some l) down =
      if 12 * (1 - 10 ^ l) ≤ t.pitch ∧ t.pitch < 12 * 10 ^ l then t.toNotation down else .error .valueError := by
    intro down
    rw [toNotationLimit_eq]
    have h := natStr_length hl (pyFloorDiv t.pitch 12).natAbs
    have e : ((pyFloorDiv t.pitch 12).natAbs < 10 ^ l) ↔ 12 * (1 - 10 ^ l) ≤ t.pitch ∧ t.pitch < 12 * 10 ^ l := by
      have : ((10 ^ l : Nat) : Int) = 10 ^ l := by push_cast; rfl
      generalize (10 : Int) ^ l = x at *
      generalize 10 ^ l = y at *
      omega
    simp only [← e, ← h, overLimit, decide_eq_true_eq]
    by_cases g : (natStr (pyFloorDiv t.pitch 12).natAbs).length ≤ l
    · rw [if_neg (by omega), if_pos g]
    · rw [if_pos (by omega), if_neg g]
  refine ⟨key down, key false, ?_⟩
  · unfold Tone.reprLimit strOfInt
    have h := natStr_length hl t.pitch.natAbs
    have e : (t.pitch.natAbs < 10 ^ l) ↔ -10 ^ l < t.pitch ∧ t.pitch < 10 ^ l := by
      have : ((10 ^ l : Nat) : Int) = 10 ^ l := by push_cast; rfl
      generalize (10 : Int) ^ l = x at *
      generalize 10 ^ l = y at *
      omega
    simp only [← e, ← h, overLimit, decide_eq_true_eq]
    by_cases g : (natStr t.pitch.natAbs).length ≤ l
    · rw [if_neg (by omega), if_pos g]; rfl
    · rw [if_pos (by omega), if_neg g]; rfl

/-- C107 (round trip): whatever the limit, a tone that is printed is read back as the same tone; and reading something other than a
printed text never gives a tone of another pitch than without the limit. -/
theorem C107_roundtrip (limit : Option Nat) (t : Tone) (down : Bool) (s : List Char) :
    (t.toNotationLimit limit down = .ok s → Tone.fromNotationLimit limit s = .ok t) ∧
    (∀ u, Tone.fromNotationLimit limit s = .ok u → Tone.fromNotation s = .ok u) := by
  constructor
  · intro h
    rw [toNotationLimit_eq] at h
    split at h
    · simp at h
    · rename_i hn
      obtain ⟨c, accs, h1, h2, h3, h4⟩ := toNotation_shape t down
      rw [h1] at h
      have hs : c :: (accs ++ (intStr (pyFloorDiv t.pitch 12) ++ [])) = s := by simpa using h
      have ha : ∀ a ∈ accs, IsAccidental a := by
        rcases h3 with rfl | rfl <;> [simp; (cases down <;> simp [IsAccidental])]
      have hm : ∀ a u, intStr (pyFloorDiv t.pitch 12) ++ [] = a :: u → ¬ IsAccidental a := by
        simpa using intStr_head (pyFloorDiv t.pitch 12)
      rw [← hs, fromNotationLimit_parts limit h2 ha hm (intStr_octaveText _), ← h4]
      have hd := (natStr_spec (pyFloorDiv t.pitch 12).natAbs).2.1
      have hf : (intStr (pyFloorDiv t.pitch 12)).filter (· != '-') = natStr (pyFloorDiv t.pitch 12).natAbs := by
        have nodash : (natStr (pyFloorDiv t.pitch 12).natAbs).filter (· != '-') = natStr (pyFloorDiv t.pitch 12).natAbs := by
          rw [List.filter_eq_self]
          intro c hc
          simp only [bne_iff_ne, ne_eq]
          rintro rfl
          exact not_isDigit_minus (hd _ hc)
        unfold intStr
        split
        · rw [List.filter_cons_of_neg (by simp), nodash]
        · exact nodash
      rw [hf, if_neg hn]
  · intro u h
    cases s with
    | nil => rw [fromNotationLimit_bad limit (by simp)] at h; simp at h
    | cons c r =>
      by_cases hc : IsLetter c
      · obtain ⟨a, b, rfl, h1, h2⟩ := exists_span IsAccidental r
        obtain ⟨o, k, rest, rfl, ho⟩ := exists_octaveText b
        rw [fromNotationLimit_parts limit hc h1 h2 ho] at h
        split at h
        · simp at h
        · rw [fromNotation_reads ⟨c, a, o, k, rfl, hc, h1, h2, ho, rfl⟩]
          exact h
      · rw [fromNotationLimit_bad limit (by intro c' t' e; cases e; exact hc)] at h
        simp at h

/-- C107 (no limit): without a limit these are the functions of C09 to C14. -/
theorem C107_unlimited (t : Tone) (down : Bool) (s : List Char) :
    Tone.fromNotationLimit none s = Tone.fromNotation s ∧ t.toNotationLimit none down = t.toNotation down ∧
      t.strLimit none = t.toNotation false ∧ t.reprLimit none = .ok t.repr := by
  refine ⟨?_, by rw [toNotationLimit_eq]; rfl, by rw [Tone.strLimit, toNotationLimit_eq]; rfl, rfl⟩
  cases s with
  | nil => rfl
  | cons c r =>
    by_cases hc : IsLetter c
    · obtain ⟨a, b, rfl, h1, h2⟩ := exists_span IsAccidental r
      obtain ⟨o, k, rest, rfl, ho⟩ := exists_octaveText b
      rw [fromNotationLimit_parts none hc h1 h2 ho, fromNotation_reads ⟨c, a, o, k, rfl, hc, h1, h2, ho, rfl⟩]
      rfl
    · have : ∀ c' t', c :: r = c' :: t' → ¬ IsLetter c' := by intro c' t' e; cases e; exact hc
      rw [fromNotationLimit_bad none this, fromNotation_bad this]

/-- With the default limit, `C` and 4301 zeros is refused although 4300 zeros are read as `C0`. -/
example : Tone.fromNotationLimit (some 4300) ('C' :: List.replicate 4301 '0') = .error .valueError ∧
    Tone.fromNotationLimit (some 4300) ('C' :: List.replicate 4300 '0') = Tone.fromNotation ('C' :: List.replicate 4300 '0') := by
  have h : ∀ n, n ≠ 0 → Tone.fromNotationLimit (some 4300) ('C' :: List.replicate n '0') =
      if n ≤ 4300 then Tone.fromNotation ('C' :: List.replicate n '0') else .error .valueError := by
    intro n hn
    have := (C107_from_notation 4300 ('C' :: List.replicate n '0')).2.1 'C' [] [] (List.replicate n '0') [] (by simp)
      (by simp [IsLetter]) (by simp) (by
        intro a t h
        simp only [List.nil_append, List.append_nil] at h
        have := List.eq_of_mem_replicate (h ▸ List.mem_cons_self : a ∈ List.replicate n '0')
        subst this
        simp [IsAccidental]) (by
        intro d hd
        rw [List.eq_of_mem_replicate hd]
        exact ⟨0, rfl⟩) (by simp) (by simpa using hn) (.inl rfl)
    rwa [List.length_replicate] at this
  exact ⟨by rw [h 4301 (by omega), if_neg (by omega)], by rw [h 4300 (by omega), if_pos (by omega)]⟩

/-- A tone with a name whose `repr` raises: with a limit of one digit, C1. -/
example : Tone.toNotationLimit (some 1) ⟨12⟩ false = .ok ['C', '1'] ∧ Tone.reprLimit (some 1) ⟨12⟩ = .error .valueError := by
  constructor <;> rfl

end Melodia
