/-
Lemmas about the text forms.
-/
import Verif.Model.Text
import Verif.Lemmas.ToneMore
import Verif.Lemmas.Float

set_option autoImplicit false

namespace Melodia

/-- Cancelling a prefix without delimiters. -/
theorem split_delim {P : Char → Prop} : ∀ {a b : List Char} {c d : Char} {x y : List Char}, (∀ z ∈ a, P z) →
    (∀ z ∈ b, P z) → ¬ P c → ¬ P d → a ++ c :: x = b ++ d :: y → a = b ∧ c = d ∧ x = y := by
  intro a
  induction a with
  | nil =>
    intro b c d x y _ hb hc _ h
    cases b with
    | nil => simp at h; exact ⟨rfl, h⟩
    | cons z b => simp at h; exact absurd (h.1 ▸ hb z (by simp)) hc
  | cons z a ih =>
    intro b c d x y ha hb hc hd h
    cases b with
    | nil => simp at h; exact absurd (h.1 ▸ ha z (by simp)) hd
    | cons w b =>
      simp at h
      obtain ⟨h1, h2⟩ := ih (fun z hz => ha z (by simp [hz])) (fun z hz => hb z (by simp [hz])) hc hd h.2
      exact ⟨by rw [h.1, h1], h2⟩

/-- The characters of the text of an int. -/
def IsIntChar (c : Char) : Prop := c = '-' ∨ ('0' ≤ c ∧ c ≤ '9')

instance (c : Char) : Decidable (IsIntChar c) := by unfold IsIntChar; infer_instance

theorem ascii_digit {c : Char} (h : @IsDigit ⟨fun _ => none⟩ c) : '0' ≤ c ∧ c ≤ '9' := by
  obtain ⟨v, h⟩ := h
  rw [@decDigit_eq ⟨fun _ => none⟩] at h
  unfold digitVal at h
  split at h
  · split at h
    · assumption
    · cases h
  · cases h

theorem natStr_chars (n : Nat) : ∀ c ∈ natStr n, IsIntChar c := fun c hc =>
  Or.inr (ascii_digit ((@natStr_spec ⟨fun _ => none⟩ n).2.1 c hc))

theorem intStr_chars (k : Int) : ∀ c ∈ intStr k, IsIntChar c := by
  intro c hc
  unfold intStr at hc
  split at hc
  · rcases List.mem_cons.1 hc with rfl | hc
    · exact Or.inl rfl
    · exact natStr_chars _ c hc
  · exact natStr_chars _ c hc

theorem natStr_inj {a b : Nat} (h : natStr a = natStr b) : a = b := by
  have h1 := (@natStr_spec ⟨fun _ => none⟩ a).2.2
  have h2 := (@natStr_spec ⟨fun _ => none⟩ b).2.2
  rw [← h1, ← h2, h]

theorem intStr_inj {a b : Int} (h : intStr a = intStr b) : a = b := by
  have dash : ∀ n, ∀ x, natStr n ≠ '-' :: x := by
    intro n x hx
    have := ascii_digit ((@natStr_spec ⟨fun _ => none⟩ n).2.1 '-' (by rw [hx]; simp))
    exact absurd this (by decide)
  unfold intStr at h
  split_ifs at h with h1 h2 h2
  · rw [List.cons.injEq] at h
    have := natStr_inj h.2
    omega
  · exact absurd h.symm (dash _ _)
  · exact absurd h (dash _ _)
  · have := natStr_inj h
    omega

theorem intStr_split {a b : Int} {c d : Char} {x y : List Char} (hc : ¬ IsIntChar c) (hd : ¬ IsIntChar d)
    (h : intStr a ++ c :: x = intStr b ++ d :: y) : a = b ∧ c = d ∧ x = y := by
  obtain ⟨h1, h2⟩ := split_delim (intStr_chars a) (intStr_chars b) hc hd h
  exact ⟨intStr_inj h1, h2⟩

theorem tupleText_append (s : Signature) (x : List Char) : s.tupleText ++ x =
    '(' :: (intStr s.nominator ++ ',' :: ' ' :: (intStr s.denominator ++ ')' :: x)) := by
  unfold Signature.tupleText
  simp

theorem tupleText_split {s s' : Signature} {x y : List Char} (h : s.tupleText ++ x = s'.tupleText ++ y) :
    s = s' ∧ x = y := by
  rw [tupleText_append, tupleText_append, List.cons.injEq] at h
  obtain ⟨h1, -, h2⟩ := intStr_split (by decide) (by decide) h.2
  rw [List.cons.injEq] at h2
  obtain ⟨h3, -, h4⟩ := intStr_split (by decide) (by decide) h2.2
  cases s
  cases s'
  exact ⟨by simp only at h1 h3; rw [h1, h3], h4⟩

theorem strText_append (s : Signature) (x : List Char) : s.str ++ x =
    intStr s.nominator ++ '/' :: (intStr s.denominator ++ x) := by
  unfold Signature.str
  simp

theorem strText_split {s s' : Signature} {c d : Char} {x y : List Char} (hc : ¬ IsIntChar c) (hd : ¬ IsIntChar d)
    (h : s.str ++ c :: x = s'.str ++ d :: y) : s = s' ∧ c = d ∧ x = y := by
  rw [strText_append, strText_append] at h
  obtain ⟨h1, -, h2⟩ := intStr_split (by decide) (by decide) h
  obtain ⟨h3, h4⟩ := intStr_split hc hd h2
  cases s
  cases s'
  exact ⟨by simp only at h1 h3; rw [h1, h3], h4⟩

theorem note_repr_append (F : FloatText) (n : Note) (x : List Char) : n.repr F ++ x =
    "Note(tone=".toList ++ (intStr n.tone.pitch ++ ',' :: (" duration=".toList ++ (n.duration.tupleText ++
      (", velocity=".toList ++ (F.text n.velocity ++ ')' :: ' ' :: x))))) := by
  unfold Note.repr
  simp

theorem note_repr_split {F : FloatText} {a b : Note} (ha : fl a.velocity = a.velocity)
    (hb : fl b.velocity = b.velocity) {x y : List Char} (h : a.repr F ++ x = b.repr F ++ y) : a = b ∧ x = y := by
  rw [note_repr_append, note_repr_append] at h
  have h := List.append_cancel_left h
  obtain ⟨h1, -, h⟩ := intStr_split (by decide) (by decide) h
  have h := List.append_cancel_left h
  obtain ⟨h2, h⟩ := tupleText_split h
  have h := List.append_cancel_left h
  obtain ⟨h3, -, h⟩ := split_delim (P := fun c => c ≠ ')') (F.chars _) (F.chars _) (by simp) (by simp) h
  have h3 := F.injective _ _ ha hb h3
  rw [List.cons.injEq] at h
  refine ⟨?_, h.2⟩
  obtain ⟨⟨p⟩, d, v⟩ := a
  obtain ⟨⟨p'⟩, d', v'⟩ := b
  simp only at h1 h2 h3
  rw [h1, h2, h3]

theorem entry_repr_append (F : FloatText) (e : Entry) (x : List Char) : e.repr F ++ x =
    '(' :: (e.2.repr F ++ (", ".toList ++ (e.1.tupleText ++ ')' :: x))) := by
  unfold Entry.repr
  simp

theorem entry_repr_split {F : FloatText} {a b : Entry} (ha : fl a.2.velocity = a.2.velocity)
    (hb : fl b.2.velocity = b.2.velocity) {x y : List Char} (h : a.repr F ++ x = b.repr F ++ y) : a = b ∧ x = y := by
  rw [entry_repr_append, entry_repr_append, List.cons.injEq] at h
  obtain ⟨h1, h⟩ := note_repr_split ha hb h.2
  have h := List.append_cancel_left h
  obtain ⟨h2, h⟩ := tupleText_split h
  rw [List.cons.injEq] at h
  exact ⟨Prod.ext h2 h1, h.2⟩

theorem join_cons (F : FloatText) (e : Entry) (l : List Entry) (x : List Char) :
    joinComma ((e :: l).map (Entry.repr F)) ++ ']' :: x = e.repr F ++
      (if l = [] then ']' :: x else ',' :: ' ' :: (joinComma (l.map (Entry.repr F)) ++ ']' :: x)) := by
  cases l with
  | nil => simp [joinComma]
  | cons f l => simp [joinComma]

theorem join_split {F : FloatText} : ∀ {a b : List Entry}, (∀ e ∈ a, fl e.2.velocity = e.2.velocity) →
    (∀ e ∈ b, fl e.2.velocity = e.2.velocity) → ∀ {x y : List Char},
    joinComma (a.map (Entry.repr F)) ++ ']' :: x = joinComma (b.map (Entry.repr F)) ++ ']' :: y → a = b := by
  intro a
  induction a with
  | nil =>
    intro b _ _ x y h
    cases b with
    | nil => rfl
    | cons e b =>
      rw [join_cons, entry_repr_append] at h
      simp [joinComma] at h
  | cons e a ih =>
    intro b ha hb x y h
    cases b with
    | nil =>
      rw [join_cons, entry_repr_append] at h
      simp [joinComma] at h
    | cons f b =>
      rw [join_cons, join_cons] at h
      obtain ⟨rfl, h'⟩ := entry_repr_split (ha e (by simp)) (hb f (by simp)) h
      clear h
      rename' h' => h
      congr 1
      split_ifs at h with h1 h2 h2
      · rw [h1, h2]
      · simp at h
      · simp at h
      · rw [List.cons.injEq, List.cons.injEq] at h
        have h := h.2.2
        exact ih (fun e he => ha e (by simp [he])) (fun e he => hb e (by simp [he])) h

theorem tone_str (t : Tone) : ∃ text, t.str = .ok text ∧ (∀ c ∈ text, c ≠ ' ') ∧
    @Tone.fromNotation ⟨fun _ => none⟩ text = .ok t := by
  obtain ⟨c, accs, h1, h2, h3, h4⟩ := @toNotation_shape ⟨fun _ => none⟩ t false
  refine ⟨_, h1, ?_, ?_⟩
  · intro x hx
    rw [List.mem_cons, List.mem_append] at hx
    rcases hx with rfl | hx | hx
    · rintro rfl
      exact absurd h2 (by unfold IsLetter; decide)
    · rcases h3 with rfl | rfl
      · cases hx
      · simp at hx
        subst hx
        decide
    · rintro rfl
      exact absurd (intStr_chars _ _ hx) (by decide)
  · have := @fromNotation_reads ⟨fun _ => none⟩ _ _ _ (@reads_of_shape ⟨fun _ => none⟩ c accs (pyFloorDiv t.pitch 12) h2 (by
      intro a ha
      rcases h3 with rfl | rfl
      · cases ha
      · simp at ha
        subst ha
        exact Or.inl rfl))
    rw [← h4] at this
    exact this

theorem fixed3_inj {u v : ℚ} (hu : 0 ≤ u) (hv : 0 ≤ v) (h : fixed3 u = fixed3 v) :
    roundHalfEven (1000 * u) = roundHalfEven (1000 * v) := by
  have nn : ∀ {u : ℚ}, 0 ≤ u → 0 ≤ roundHalfEven (1000 * u) := by
    intro u hu
    have := roundHalfEven_mono (p := 0) (q := 1000 * u) (by positivity)
    rwa [show roundHalfEven 0 = 0 from by have := roundHalfEven_int 0; simpa using this] at this
  have hu := nn hu
  have hv := nn hv
  unfold fixed3 at h
  simp only at h
  generalize roundHalfEven (1000 * u) = a at *
  generalize roundHalfEven (1000 * v) = b at *
  obtain ⟨a, rfl⟩ := Int.eq_ofNat_of_zero_le hu
  obtain ⟨b, rfl⟩ := Int.eq_ofNat_of_zero_le hv
  simp only [Int.toNat_natCast] at h
  obtain ⟨h1, -, h2⟩ := split_delim (natStr_chars _) (natStr_chars _) (by decide) (by decide) h
  have h1 := natStr_inj h1
  have dig : ∀ i j : Nat, Char.ofNat (48 + i % 10) = Char.ofNat (48 + j % 10) → i % 10 = j % 10 := by
    intro i j h
    have key : ∀ i j : Fin 10, Char.ofNat (48 + i.val) = Char.ofNat (48 + j.val) → i = j := by decide
    have := key ⟨i % 10, Nat.mod_lt _ (by norm_num)⟩ ⟨j % 10, Nat.mod_lt _ (by norm_num)⟩ h
    exact congrArg Fin.val this
  simp only [List.cons.injEq, and_true] at h2
  have d1 := dig _ _ h2.1
  have d2 := dig _ _ h2.2.1
  have d3 := dig _ _ h2.2.2
  congr 1
  omega

theorem note_str_ok (n : Note) : ∃ tone, n.tone.str = .ok tone ∧ n.str = .ok ("Note ".toList ++ n.duration.str ++
    " ".toList ++ tone ++ " (".toList ++ fixed3 n.velocity ++ ")".toList) := by
  obtain ⟨text, h1, -⟩ := tone_str n.tone
  refine ⟨text, h1, ?_⟩
  unfold Note.str
  rw [h1]
  rfl

end Melodia
