/-
C93: the text of note.py, executed by the meaning of Python.
-/
import Verif.Lemmas.SourceNote
import Verif.Props.Note
import Verif.Props.Tone
import Verif.Spec.Source

set_option autoImplicit false

namespace Melodia

open Melodia.Python Melodia.Source

variable (W : World)

/-- `Note(t, d, x)` in a user's program. -/
theorem user_note {ta : ToneArg} {da : SigArg} {tv dv : Val} (ht : IsToneArg ta tv) (hd : IsSigArg da dv) (x : PyFloat) :
    userEval W [("t", tv), ("d", dv), ("x", .float x)] (callE "Note" ["t", "d", "x"]) =
      liftPy ((@Note.new W.digits ta da x).map noteV) := by
  have h1 : readVar tv = pure tv := by cases ht <;> rfl
  have h2 : readVar dv = pure dv := by cases hd <;> rfl
  have h := note_new W ht hd x
  simp [userEval, callE, userNames, py, h1, h2, h]

/-- C93 (constructor): `Note(t, d, x)` is the note with the tone, the duration and the velocity the arguments denote.
`Note(tone=t, duration=d, velocity=x)` is the same, and left out, the duration is 1/4 and the velocity is 0.75. -/
theorem C93_constructor {ta : ToneArg} {da : SigArg} {tv dv : Val} (ht : IsToneArg ta tv) (hd : IsSigArg da dv) (n : Note)
    (h1 : @ToneDenotes W.digits ta n.tone.pitch) (h2 : SigDenotes da n.duration) (h3 : 0 ≤ n.velocity)
    (h4 : n.velocity ≤ 1) :
    Gives W [("t", tv), ("d", dv), ("x", .float (.fin n.velocity))] (callE "Note" ["t", "d", "x"]) (noteV n) ∧
    Gives W [("t", tv), ("d", dv), ("x", .float (.fin n.velocity))]
      (.call (.name "Note") [.name "x", .name "t", .name "d"] ["velocity", "tone", "duration"]) (noteV n) ∧
    Gives W [("t", tv), ("d", dv)] (callE "Note" ["t", "d"]) (noteV ⟨n.tone, n.duration, 3 / 4⟩) ∧
    Gives W [("t", tv)] (callE "Note" ["t"]) (noteV ⟨n.tone, ⟨1, 4⟩, 3 / 4⟩) := by
  have r1 : readVar tv = pure tv := by cases ht <;> rfl
  have r2 : readVar dv = pure dv := by cases hd <;> rfl
  have hn := (@C15_constructor W.digits ta da (.fin n.velocity) n).mpr ⟨h1, h2, rfl, h3, h4⟩
  refine ⟨?_, ?_, ?_, ?_⟩
  · rw [Gives, user_note W ht hd, hn]; rfl
  · have h := note_construct W ht hd (.fin n.velocity) [] [("velocity", .float (.fin n.velocity)), ("tone", tv),
      ("duration", dv)] (by simp [py, Note.dunder_init])
    rw [hn] at h
    simp [Gives, userEval, userNames, py, r1, r2, h, Except.map]
  · have h := note_new_two W ht hd
    rw [(@C15_constructor W.digits ta da _ ⟨n.tone, n.duration, 3 / 4⟩).mpr
      ⟨h1, h2, rfl, by norm_num, by norm_num⟩] at h
    simp [Gives, userEval, callE, userNames, py, r1, r2, h, Except.map]
  · have h := note_new_one W ht
    rw [(@C15_defaults W.digits ta ⟨n.tone, ⟨1, 4⟩, 3 / 4⟩).mpr ⟨h1, rfl, rfl⟩] at h
    simp [Gives, userEval, callE, userNames, py, r1, h, Except.map]

/-- C93 (failures): if one of the arguments denotes nothing, the constructor raises `TypeError` or `ValueError`, whichever
belongs to the first argument that is wrong. -/
theorem C93_failures {ta : ToneArg} {da : SigArg} {tv dv : Val} (ht : IsToneArg ta tv) (hd : IsSigArg da dv) (x : PyFloat) :
    (ta = .other → Raises W [("t", tv), ("d", dv), ("x", .float x)] (callE "Note" ["t", "d", "x"]) .typeError) ∧
    (∀ s, ta = .str s → (∀ p rest, ¬ @Reads W.digits s p rest) →
      Raises W [("t", tv), ("d", dv), ("x", .float x)] (callE "Note" ["t", "d", "x"]) .valueError) ∧
    (∀ p, @ToneDenotes W.digits ta p → (da = .other ∨ ∃ l, da = .ints l ∧ l.length ≠ 2) →
      Raises W [("t", tv), ("d", dv), ("x", .float x)] (callE "Note" ["t", "d", "x"]) .typeError) ∧
    (∀ p a b, @ToneDenotes W.digits ta p → da = .ints [a, b] → ¬ (0 ≤ a ∧ IsPow2 b) →
      Raises W [("t", tv), ("d", dv), ("x", .float x)] (callE "Note" ["t", "d", "x"]) .valueError) ∧
    (∀ p s, @ToneDenotes W.digits ta p → SigDenotes da s → ¬ (∃ q : ℚ, x = .fin q ∧ 0 ≤ q ∧ q ≤ 1) →
      Raises W [("t", tv), ("d", dv), ("x", .float x)] (callE "Note" ["t", "d", "x"]) .valueError) := by
  obtain ⟨-, f1, f2, f3, f4, f5⟩ := @C15_failures W.digits ta da x
  refine ⟨?_, ?_, ?_, ?_, ?_⟩
  · rintro rfl
    rw [Raises, user_note W ht hd, f1]; rfl
  · rintro s rfl h
    rw [Raises, user_note W ht hd, f2 s h]; rfl
  · intro p h1 h2
    rw [Raises, user_note W ht hd, f4 p h1 h2]; rfl
  · intro p a b h1 h2 h3
    rw [Raises, user_note W ht hd, f5 p a b h1 h3 h2]; rfl
  · intro p s h1 h2 h3
    rw [Raises, user_note W ht hd, f3 p s h1 h2 h3]; rfl

/-- C93 (attributes): the three properties of a note are its components. -/
theorem C93_attributes (n : Note) :
    Gives W [("n", noteV n)] (.attr (.name "n") "tone") (toneV n.tone) ∧
    Gives W [("n", noteV n)] (.attr (.name "n") "duration") (sigV n.duration) ∧
    Gives W [("n", noteV n)] (.attr (.name "n") "velocity") (.float (.fin n.velocity)) := by
  refine ⟨?_, ?_, ?_⟩ <;> simp [Gives, userEval, py, note_tone_ok, note_duration_ok, note_velocity_ok]

/-- C93 (changed notes): `transposed`, `with_duration` and `with_velocity` replace one component, if the argument denotes
one. -/
theorem C93_changed (n : Note) (hn : n.Valid) :
    (∀ k : Int, Gives W [("n", noteV n), ("k", .int k)] (methE "n" "transposed" ["k"])
      (noteV ⟨⟨n.tone.pitch + k⟩, n.duration, n.velocity⟩)) ∧
    (∀ da dv s, IsSigArg da dv → SigDenotes da s → Gives W [("n", noteV n), ("d", dv)] (methE "n" "with_duration" ["d"])
      (noteV ⟨n.tone, s, n.velocity⟩)) ∧
    (∀ q : ℚ, 0 ≤ q → q ≤ 1 → Gives W [("n", noteV n), ("x", .float (.fin q))] (methE "n" "with_velocity" ["x"])
      (noteV ⟨n.tone, n.duration, q⟩)) ∧
    (∀ x : PyFloat, ¬ (∃ q : ℚ, x = .fin q ∧ 0 ≤ q ∧ q ≤ 1) →
      Raises W [("n", noteV n), ("x", .float x)] (methE "n" "with_velocity" ["x"]) .valueError) := by
  refine ⟨fun k => ?_, fun da dv s hd hs => ?_, fun q h1 h2 => ?_, fun x hx => ?_⟩
  · have h := note_transposed_ok W n k
    rw [@C16_transposed W.digits n hn k] at h
    simp [Gives, userEval, methE, py, h, Except.map]
  · have r2 : readVar dv = pure dv := by cases hd <;> rfl
    have h := note_with_duration_ok W n hd
    rw [(@C16_with_duration W.digits n hn da _).mpr ⟨s, hs, rfl⟩] at h
    simp [Gives, userEval, methE, py, r2, h, Except.map]
  · have h := note_with_velocity_ok W n (.fin q)
    rw [(@C16_with_velocity W.digits n (.fin q) _).mpr ⟨q, rfl, h1, h2, rfl⟩] at h
    simp [Gives, userEval, methE, py, h, Except.map]
  · have h := note_with_velocity_ok W n x
    have e : @Note.withVelocity W.digits n x = .error .valueError := by
      rcases hw : @Note.withVelocity W.digits n x with e | m
      · exact congrArg _ ((@C16_failures W.digits n .other x e).2 hw)
      · obtain ⟨q, h1, h2, h3, -⟩ := (@C16_with_velocity W.digits n x m).mp hw
        exact absurd ⟨q, h1, h2, h3⟩ hx
    rw [e] at h
    simp [Raises, userEval, methE, py, h, Except.map]

/-- C93 (equality): `==` and `!=` compare the pitch, the value of the duration and the velocity. -/
theorem C93_equality (a b : Note) (ha : a.Valid) (hb : b.Valid) :
    ∃ r : Bool, (r = true ↔ a.tone.pitch = b.tone.pitch ∧ a.duration.val = b.duration.val ∧ a.velocity = b.velocity) ∧
      Gives W [("a", noteV a), ("b", noteV b)] (cmpE .eq "a" "b") (.bool r) ∧
      Gives W [("a", noteV a), ("b", noteV b)] (cmpE .ne "a" "b") (.bool (!r)) := by
  refine ⟨_, C17_eq a b ha hb, ?_, ?_⟩
  · simp [Gives, userEval, cmpE, py, note_eq_ok W ha.duration.denPos.ne' hb.duration.denPos.ne']
  · simp [Gives, userEval, cmpE, py, note_ne_ok W ha.duration.denPos.ne' hb.duration.denPos.ne']

/-- C93 (order): the four order operators compare pitch, duration and velocity lexicographically, except that for equal
pitches and different durations of which the right one has the larger denominator they compare with the operands
swapped. -/
theorem C93_order (a b : Note) (ha : a.Valid) (hb : b.Valid) :
    ∃ x y : Note, ((x = a ∧ y = b) ∨ (x = b ∧ y = a)) ∧
      (x = b ∧ y = a → a = b ∨ (a.tone.pitch = b.tone.pitch ∧ a.duration.val ≠ b.duration.val ∧
        a.duration.denominator < b.duration.denominator)) ∧
      (a.tone.pitch = b.tone.pitch ∧ a.duration.val ≠ b.duration.val ∧
        a.duration.denominator < b.duration.denominator → x = b ∧ y = a) ∧
      ∃ lt gt : Bool, (lt = true ↔ NoteLexLt x y) ∧ (gt = true ↔ NoteLexLt y x) ∧
        Gives W [("a", noteV a), ("b", noteV b)] (cmpE .lt "a" "b") (.bool lt) ∧
        Gives W [("a", noteV a), ("b", noteV b)] (cmpE .gt "a" "b") (.bool gt) ∧
        Gives W [("a", noteV a), ("b", noteV b)] (cmpE .le "a" "b") (.bool (!gt)) ∧
        Gives W [("a", noteV a), ("b", noteV b)] (cmpE .ge "a" "b") (.bool (!lt)) := by
  have hl : Gives W [("a", noteV a), ("b", noteV b)] (cmpE .lt "a" "b") (.bool (a.lt b)) := by
    simp [Gives, userEval, cmpE, py, note_lt_ok W ha.duration.denPos.ne' hb.duration.denPos.ne']
  have hg : Gives W [("a", noteV a), ("b", noteV b)] (cmpE .gt "a" "b") (.bool (a.gt b)) := by
    simp [Gives, userEval, cmpE, py, note_gt_ok W ha.duration.denPos.ne' hb.duration.denPos.ne']
  have hle : Gives W [("a", noteV a), ("b", noteV b)] (cmpE .le "a" "b") (.bool (a.le b)) := by
    simp [Gives, userEval, cmpE, py, note_le_ok W ha.duration.denPos.ne' hb.duration.denPos.ne']
  have hge : Gives W [("a", noteV a), ("b", noteV b)] (cmpE .ge "a" "b") (.bool (a.ge b)) := by
    simp [Gives, userEval, cmpE, py, note_ge_ok W ha.duration.denPos.ne' hb.duration.denPos.ne']
  by_cases h : a.tone.pitch = b.tone.pitch ∧ a.duration.val ≠ b.duration.val ∧
      a.duration.denominator < b.duration.denominator
  · obtain ⟨c1, c2, c3, c4⟩ := C18_reversed a b ha hb h.1 h.2.1 h.2.2
    have e1 : a.le b = !a.gt b := by rw [Bool.eq_iff_iff, Bool.not_eq_true', ← Bool.not_eq_true, c3, c2]
    have e2 : a.ge b = !a.lt b := by rw [Bool.eq_iff_iff, Bool.not_eq_true', ← Bool.not_eq_true, c4, c1]
    rw [e1] at hle
    rw [e2] at hge
    exact ⟨b, a, Or.inr ⟨rfl, rfl⟩, fun _ => Or.inr h, fun _ => ⟨rfl, rfl⟩, a.lt b, a.gt b, c1, c2, hl, hg, hle, hge⟩
  · obtain ⟨c1, c2, c3, c4⟩ := C18_lex_partial a b ha hb (by
      by_contra hc
      push Not at hc
      exact h ⟨hc.1, hc.2.1, hc.2.2⟩)
    have e1 : a.le b = !a.gt b := by rw [Bool.eq_iff_iff, Bool.not_eq_true', ← Bool.not_eq_true, c3, c2]
    have e2 : a.ge b = !a.lt b := by rw [Bool.eq_iff_iff, Bool.not_eq_true', ← Bool.not_eq_true, c4, c1]
    rw [e1] at hle
    rw [e2] at hge
    exact ⟨a, b, Or.inl ⟨rfl, rfl⟩, fun hx => Or.inl hx.1, fun hx => absurd hx h, a.lt b, a.gt b, c1, c2, hl, hg, hle, hge⟩

/-- C93 (texts): `str(n)` shows the duration, the tone as `str` writes it and the velocity with three decimals; `repr(n)`
shows the numbers, with one space behind the closing parenthesis. -/
theorem C93_texts (n : Note) (hn : n.Valid) :
    (∃ t, n.tone.toNotation false = .ok t ∧ Gives W [("n", noteV n)] (callE "str" ["n"])
      (.str ("Note ".toList ++ intStr n.duration.nominator ++ "/".toList ++ intStr n.duration.denominator ++ " ".toList ++ t ++
        " (".toList ++ fixed3 n.velocity ++ ")".toList))) ∧
    Gives W [("n", noteV n)] (callE "repr" ["n"])
      (.str ("Note(tone=".toList ++ intStr n.tone.pitch ++ ", duration=(".toList ++ intStr n.duration.nominator ++
        ", ".toList ++ intStr n.duration.denominator ++ "), velocity=".toList ++ W.floatText.text n.velocity ++
        ") ".toList)) := by
  have hs : globalName program W "__main__" "str" = pure (.builtin .str) := by rw [globalName]; rfl
  have hr : globalName program W "__main__" "repr" = pure (.builtin .repr) := by rw [globalName]; rfl
  constructor
  · obtain ⟨c, accs, k, h1, -⟩ := @C09_notation_roundtrip W.digits n.tone false
    refine ⟨_, h1, ?_⟩
    have h := note_str_ok W n hn.velLow
    have e : n.str = .ok ("Note ".toList ++ intStr n.duration.nominator ++ "/".toList ++ intStr n.duration.denominator ++
        " ".toList ++ (c :: (accs ++ decimalText k)) ++ " (".toList ++ fixed3 n.velocity ++ ")".toList) := by
      have : n.tone.str = .ok (c :: (accs ++ decimalText k)) := h1
      simp [Note.str, this, bind, Except.bind, Signature.str]
    rw [e] at h
    simp only [Gives, userEval, callE, userNames, List.map]
    simp [py, hs, h, Except.map, -String.reduceToList]
  · have h := note_repr_ok W n
    have e : n.repr W.floatText = "Note(tone=".toList ++ intStr n.tone.pitch ++ ", duration=(".toList ++
        intStr n.duration.nominator ++ ", ".toList ++ intStr n.duration.denominator ++ "), velocity=".toList ++
        W.floatText.text n.velocity ++ ") ".toList := by
      have h1 : n.repr W.floatText = "Note(tone=".toList ++ intStr n.tone.pitch ++ ", duration=".toList ++
        n.duration.tupleText ++ ", velocity=".toList ++ W.floatText.text n.velocity ++ ") ".toList := rfl
      have h2 : ", duration=(".toList = ", duration=".toList ++ "(".toList := by decide
      have h3 : "), velocity=".toList = ")".toList ++ ", velocity=".toList := by decide
      rw [h1, h2, h3, Signature.tupleText]
      simp only [List.append_assoc]
    rw [← e]
    simp [Gives, userEval, callE, userNames, py, hr, h]

/-- The text turns `Note("C#4", (1, 8), 0.5)` into a note, and refuses a velocity of 2. -/
example : Gives W [("t", .str "C#4".toList), ("d", .tuple [.int 1, .int 8]), ("x", .float (.fin (1 / 2)))]
      (callE "Note" ["t", "d", "x"]) (noteV ⟨⟨49⟩, ⟨1, 8⟩, 1 / 2⟩) ∧
    Raises W [("t", .str "C#4".toList), ("d", .tuple [.int 1, .int 8]), ("x", .float (.fin 2))]
      (callE "Note" ["t", "d", "x"]) .valueError := by
  have h : @Tone.fromNotation W.digits "C#4".toList = .ok ⟨49⟩ := rfl
  constructor
  · have := user_note W (.str "C#4".toList) (.tuple [1, 8]) (.fin (1 / 2))
    rw [(@Note.new_ok_iff W.digits (.str "C#4".toList) (.ints [1, 8]) (.fin (1 / 2)) ⟨⟨49⟩, ⟨1, 8⟩, 1 / 2⟩).mpr ⟨h, by decide, rfl, by norm_num, by norm_num⟩] at this
    exact this
  · have := user_note W (.str "C#4".toList) (.tuple [1, 8]) (.fin 2)
    have e : @Note.new W.digits (.str "C#4".toList) (.ints [1, 8]) (.fin 2) = .error .valueError := by
      have hv : velocityInRange (.fin 2) = false := by decide +kernel
      unfold Note.new
      simp [ToneArg.coerceNote, bind, Except.bind, hv, SigArg.coerce, Signature.ofIter, Signature.new]
      rfl
    rw [e] at this
    exact this

end Melodia
