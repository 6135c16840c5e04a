/-
Pairing of note events, one event at a time.
-/
import Verif.Spec.MidiRead
import Mathlib.Algebra.Order.Group.Multiset

set_option autoImplicit false

namespace Melodia

/-- A note of pitch `p` started at `i` and has not ended. -/
def IsOpen (evs : List NoteEv) (p i : Nat) : Prop :=
  Starts evs p i ∧ ∀ l, i < l → ¬ IsAt evs p false l

theorem IsAt.lt {evs : List NoteEv} {p i : Nat} {b : Bool} (h : IsAt evs p b i) : i < evs.length := by
  obtain ⟨e, h, -⟩ := h
  exact (List.getElem?_eq_some_iff.1 h).1

theorem IsAt.not {evs : List NoteEv} {p q i : Nat} (h : IsAt evs p true i) : ¬ IsAt evs q false i := by
  rintro ⟨e, h1, h2, -⟩
  obtain ⟨e', h3, h4, -⟩ := h
  rw [h1] at h3
  cases h3
  rw [h2] at h4
  cases h4

theorem isAt_snoc {evs : List NoteEv} {e : NoteEv} {p i : Nat} {b : Bool} :
    IsAt (evs ++ [e]) p b i ↔ IsAt evs p b i ∨ (i = evs.length ∧ e.on = b ∧ e.pitch = p) := by
  unfold IsAt
  rcases lt_trichotomy i evs.length with h | h | h
  · rw [List.getElem?_append_left h]
    constructor
    · exact Or.inl
    · rintro (h1 | h1)
      · exact h1
      · omega
  · subst h
    rw [List.getElem?_concat_length]
    constructor
    · rintro ⟨e', h1, h2⟩
      cases h1
      exact Or.inr ⟨rfl, h2⟩
    · rintro (⟨e', h1, -⟩ | h1)
      · simp at h1
      · exact ⟨e, rfl, h1.2⟩
  · rw [List.getElem?_eq_none (by simp; omega), List.getElem?_eq_none (by omega)]
    constructor
    · rintro ⟨_, h, _⟩; cases h
    · rintro (⟨_, h, _⟩ | h1)
      · cases h
      · omega

theorem isAt_snoc_lt {evs : List NoteEv} {e : NoteEv} {p i : Nat} {b : Bool} (h : i < evs.length) :
    IsAt (evs ++ [e]) p b i ↔ IsAt evs p b i := by
  rw [isAt_snoc]
  constructor
  · rintro (h1 | h1)
    · exact h1
    · omega
  · exact Or.inl

theorem IsOpen.unique {evs : List NoteEv} {p i j : Nat} (hi : IsOpen evs p i) (hj : IsOpen evs p j) : i = j := by
  rcases lt_trichotomy i j with h | h | h
  · obtain ⟨l, h1, h2, h3⟩ := hj.1.2 i h hi.1.1
    exact absurd h3 (hi.2 l h1)
  · exact h
  · obtain ⟨l, h1, h2, h3⟩ := hi.1.2 j h hj.1.1
    exact absurd h3 (hj.2 l h1)

/-- An unanswered note-on means that some note is open. -/
theorem exists_open {evs : List NoteEv} {p k : Nat} (h : IsAt evs p true k)
    (hk : ∀ l, k < l → ¬ IsAt evs p false l) : ∃ i, IsOpen evs p i := by
  classical
  have hex : ∃ i, IsAt evs p true i ∧ ∀ l, i < l → ¬ IsAt evs p false l := ⟨k, h, hk⟩
  refine ⟨Nat.find hex, ⟨(Nat.find_spec hex).1, fun j hj hon => ?_⟩, (Nat.find_spec hex).2⟩
  have hm := Nat.find_min hex hj
  have : ∃ l, j < l ∧ IsAt evs p false l := by
    by_contra hc
    exact hm ⟨hon, fun l hl hoff => hc ⟨l, hl, hoff⟩⟩
  obtain ⟨l, h1, h2⟩ := this
  refine ⟨l, h1, ?_, h2⟩
  rcases lt_trichotomy l (Nat.find hex) with h | h | h
  · exact h
  · rw [h] at h2
    exact absurd h2 (Nat.find_spec hex).1.not
  · exact absurd h2 ((Nat.find_spec hex).2 l h)

theorem starts_snoc_lt {evs : List NoteEv} {e : NoteEv} {p i : Nat} (h : i < evs.length) :
    Starts (evs ++ [e]) p i ↔ Starts evs p i := by
  unfold Starts
  rw [isAt_snoc_lt h]
  refine and_congr_right fun _ => ?_
  constructor
  · intro h1 k hk hon
    obtain ⟨l, a, b, c⟩ := h1 k hk ((isAt_snoc_lt (by omega)).2 hon)
    exact ⟨l, a, b, (isAt_snoc_lt (by omega)).1 c⟩
  · intro h1 k hk hon
    obtain ⟨l, a, b, c⟩ := h1 k hk ((isAt_snoc_lt (by omega)).1 hon)
    exact ⟨l, a, b, (isAt_snoc_lt (by omega)).2 c⟩

theorem starts_snoc_last {evs : List NoteEv} {e : NoteEv} {p : Nat} :
    Starts (evs ++ [e]) p evs.length ↔ (e.on = true ∧ e.pitch = p) ∧ ¬ ∃ i, IsOpen evs p i := by
  unfold Starts
  have h0 : IsAt (evs ++ [e]) p true evs.length ↔ e.on = true ∧ e.pitch = p := by
    rw [isAt_snoc]
    constructor
    · rintro (h | h)
      · exact absurd h.lt (lt_irrefl _)
      · exact h.2
    · intro h; exact Or.inr ⟨rfl, h⟩
  rw [h0]
  refine and_congr_right fun _ => ?_
  constructor
  · rintro h ⟨i, hi⟩
    have hlt := hi.1.1.lt
    obtain ⟨l, a, b, c⟩ := h i hlt ((isAt_snoc_lt hlt).2 hi.1.1)
    exact hi.2 l a ((isAt_snoc_lt b).1 c)
  · intro h k hk hon
    by_contra hc
    apply h
    apply exists_open ((isAt_snoc_lt hk).1 hon)
    intro l hl hoff
    exact hc ⟨l, hl, hoff.lt, (isAt_snoc_lt hoff.lt).2 hoff⟩

theorem isOpen_snoc {evs : List NoteEv} {e : NoteEv} {p i : Nat} :
    IsOpen (evs ++ [e]) p i ↔ (IsOpen evs p i ∧ ¬ (e.on = false ∧ e.pitch = p)) ∨
      (i = evs.length ∧ (e.on = true ∧ e.pitch = p) ∧ ¬ ∃ j, IsOpen evs p j) := by
  constructor
  · rintro ⟨h1, h2⟩
    have hlt := h1.1.lt
    rw [List.length_append, List.length_singleton] at hlt
    rcases Nat.lt_or_ge i evs.length with h | h
    · left
      refine ⟨⟨(starts_snoc_lt h).1 h1, fun l hl hoff => h2 l hl ?_⟩, fun he => h2 evs.length h ?_⟩
      · exact (isAt_snoc_lt hoff.lt).2 hoff
      · rw [isAt_snoc]; exact Or.inr ⟨rfl, he⟩
    · have : i = evs.length := by omega
      subst this
      exact Or.inr ⟨rfl, starts_snoc_last.1 h1⟩
  · rintro (⟨⟨h1, h2⟩, h3⟩ | ⟨rfl, h⟩)
    · have hlt := h1.1.lt
      refine ⟨(starts_snoc_lt hlt).2 h1, fun l hl hoff => ?_⟩
      rw [isAt_snoc] at hoff
      rcases hoff with hoff | hoff
      · exact h2 l hl hoff
      · exact h3 hoff.2
    · refine ⟨starts_snoc_last.2 h, fun l hl hoff => ?_⟩
      have := hoff.lt
      rw [List.length_append, List.length_singleton] at this
      omega

theorem IsPair.lt {evs : List NoteEv} {i j : Nat} (h : IsPair evs i j) : i < j ∧ j < evs.length := by
  obtain ⟨p, h1, h2, h3, h4⟩ := h
  exact ⟨h2, h3.lt⟩

theorem isPair_snoc {evs : List NoteEv} {e : NoteEv} {i j : Nat} :
    IsPair (evs ++ [e]) i j ↔ IsPair evs i j ∨ (j = evs.length ∧ e.on = false ∧ IsOpen evs e.pitch i) := by
  constructor
  · intro h
    have hlt := h.lt
    rw [List.length_append, List.length_singleton] at hlt
    obtain ⟨p, h1, h2, h3, h4⟩ := h
    rcases Nat.lt_or_ge j evs.length with h | h
    · left
      exact ⟨p, (starts_snoc_lt (by omega)).1 h1, h2, (isAt_snoc_lt h).1 h3,
        fun l a b c => h4 l a b ((isAt_snoc_lt (by omega)).2 c)⟩
    · right
      have : j = evs.length := by omega
      subst this
      rw [isAt_snoc] at h3
      rcases h3 with h3 | ⟨-, h3, rfl⟩
      · exact absurd h3.lt (lt_irrefl _)
      · exact ⟨rfl, h3, (starts_snoc_lt h2).1 h1, fun l hl hoff => h4 l hl hoff.lt ((isAt_snoc_lt hoff.lt).2 hoff)⟩
  · rintro (h | ⟨rfl, h1, h2⟩)
    · have hlt := h.lt
      obtain ⟨p, h1, h2, h3, h4⟩ := h
      exact ⟨p, (starts_snoc_lt (by omega)).2 h1, h2, (isAt_snoc_lt hlt.2).2 h3,
        fun l a b c => h4 l a b ((isAt_snoc_lt (by omega)).1 c)⟩
    · have hlt := h2.1.1.lt
      exact ⟨e.pitch, (starts_snoc_lt hlt).2 h2.1, hlt, isAt_snoc.2 (Or.inr ⟨rfl, h1, rfl⟩),
        fun l a b c => h2.2 l a ((isAt_snoc_lt b).1 c)⟩

theorem mem_pairSet {evs : List NoteEv} {x : Nat × Nat} : x ∈ pairSet evs ↔ IsPair evs x.1 x.2 := by
  classical
  unfold pairSet
  rw [Finset.mem_filter, Finset.mem_product, Finset.mem_range, Finset.mem_range]
  constructor
  · exact fun h => h.2
  · intro h
    have := h.lt
    exact ⟨⟨by omega, this.2⟩, h⟩

theorem pairSet_nil : pairSet [] = ∅ := by
  ext x
  rw [mem_pairSet]
  constructor
  · intro h; exact absurd h.lt.2 (by simp)
  · intro h; cases h

/-- The pairs do not change unless a note-off closes an open note. -/
theorem pairSet_snoc_same {evs : List NoteEv} {e : NoteEv}
    (h : e.on = true ∨ ¬ ∃ i, IsOpen evs e.pitch i) : pairSet (evs ++ [e]) = pairSet evs := by
  ext x
  rw [mem_pairSet, mem_pairSet, isPair_snoc]
  constructor
  · rintro (h1 | ⟨-, h1, h2⟩)
    · exact h1
    · rcases h with h | h
      · rw [h] at h1; cases h1
      · exact absurd ⟨_, h2⟩ h
  · exact Or.inl

theorem pairSet_snoc_close {evs : List NoteEv} {e : NoteEv} {i : Nat} (h : e.on = false)
    (hi : IsOpen evs e.pitch i) :
    (i, evs.length) ∉ pairSet evs ∧ pairSet (evs ++ [e]) = insert (i, evs.length) (pairSet evs) := by
  constructor
  · rw [mem_pairSet]
    intro h
    exact absurd h.lt.2 (lt_irrefl _)
  · ext x
    rw [mem_pairSet, Finset.mem_insert, mem_pairSet, isPair_snoc]
    constructor
    · rintro (h1 | ⟨h1, h2, h3⟩)
      · exact Or.inr h1
      · exact Or.inl (Prod.ext (h3.unique hi) h1)
    · rintro (rfl | h1)
      · exact Or.inr ⟨rfl, h, hi⟩
      · exact Or.inl h1

variable {delta : Int} {division : Nat}

theorem readNotes_nil : readNotes delta division [] = 0 := by
  unfold readNotes; rw [pairSet_nil]; rfl

theorem getD_snoc {evs : List NoteEv} {e : NoteEv} {i : Nat} (h : i < evs.length) :
    (evs ++ [e]).getD i default = evs.getD i default := by
  rw [List.getD_eq_getElem?_getD, List.getD_eq_getElem?_getD, List.getElem?_append_left h]

theorem readNotes_congr {evs : List NoteEv} {e : NoteEv} :
    (pairSet evs).val.map (fun x => readNote delta division ((evs ++ [e]).getD x.1 default)
      ((evs ++ [e]).getD x.2 default)) = readNotes delta division evs := by
  unfold readNotes
  apply Multiset.map_congr rfl
  intro x hx
  have hx : x ∈ pairSet evs := hx
  have := (mem_pairSet.1 hx).lt
  rw [getD_snoc (by omega), getD_snoc (by omega)]

theorem readNotes_snoc_same {evs : List NoteEv} {e : NoteEv}
    (h : e.on = true ∨ ¬ ∃ i, IsOpen evs e.pitch i) :
    readNotes delta division (evs ++ [e]) = readNotes delta division evs := by
  rw [← readNotes_congr (evs := evs) (e := e), readNotes, pairSet_snoc_same h]

theorem readNotes_snoc_close {evs : List NoteEv} {e a : NoteEv} {i : Nat} (h : e.on = false)
    (hi : IsOpen evs e.pitch i) (ha : evs[i]? = some a) :
    readNotes delta division (evs ++ [e]) = readNote delta division a e ::ₘ readNotes delta division evs := by
  obtain ⟨h1, h2⟩ := pairSet_snoc_close h hi
  have hlt := hi.1.1.lt
  have e1 : (evs ++ [e]).getD i default = a := by
    rw [getD_snoc hlt, List.getD_eq_getElem?_getD, ha]; rfl
  have e2 : (evs ++ [e]).getD evs.length default = e := by
    rw [List.getD_eq_getElem?_getD, List.getElem?_concat_length]; rfl
  rw [← readNotes_congr (evs := evs) (e := e), readNotes, h2, Finset.insert_val_of_notMem h1,
    Multiset.map_cons, e1, e2]

end Melodia
