/-
The predicate ChordName as a finite list.
-/
import Verif.Spec.ChordNames

set_option autoImplicit false

namespace Melodia

/-- The names the inductive predicate describes, as a list. -/
def chordNames : List (String × List Int) :=
  ([("major", ⟨4, 7, 11⟩), ("maj", ⟨4, 7, 11⟩), ("minor", ⟨3, 7, 10⟩), ("min", ⟨3, 7, 10⟩), ("dominant", ⟨4, 7, 10⟩),
    ("dom", ⟨4, 7, 10⟩), ("augmented", ⟨4, 8, 10⟩), ("aug", ⟨4, 8, 10⟩), ("diminished", ⟨3, 6, 9⟩),
    ("dim", ⟨3, 6, 9⟩)] : List (String × Quality)).flatMap (fun w =>
      [(w.1 ++ "", [0, w.2.third, w.2.fifth]), (w.1 ++ "7", [0, w.2.third, w.2.fifth, w.2.seventh]),
       (w.1 ++ "9", [0, w.2.third, w.2.fifth, w.2.seventh, 14]),
       (w.1 ++ "11", [0, w.2.third, w.2.fifth, w.2.seventh, 14, 17]),
       (w.1 ++ "7b5", [0, w.2.third, w.2.fifth - 1, w.2.seventh]),
       (w.1 ++ "7s5", [0, w.2.third, w.2.fifth + 1, w.2.seventh]),
       (w.1 ++ "7b9", [0, w.2.third, w.2.fifth, w.2.seventh, 14 - 1]),
       (w.1 ++ "_major7", [0, w.2.third, w.2.fifth, 11]), (w.1 ++ "_minor7", [0, w.2.third, w.2.fifth, 10]),
       (w.1 ++ "_minor9", [0, w.2.third, w.2.fifth, w.2.seventh, 13]),
       (w.1 ++ "69", [0, w.2.third, w.2.fifth, 9, 14])]) ++
  [("suspended2", [0, 2, 7]), ("suspended4", [0, 5, 7]), ("sus2", [0, 2, 7]), ("sus4", [0, 5, 7]),
   ("added9", [0, 4, 7, 14]), ("add9", [0, 4, 7, 14])]

theorem chordName_iff (name : String) (ks : List Int) : ChordName name ks ↔ (name, ks) ∈ chordNames := by
  constructor
  · intro h
    cases h with
    | quality w x q ks hw hx =>
      refine List.mem_append_left _ (List.mem_flatMap.mpr ⟨(w, q), ?_, ?_⟩)
      · cases hw <;> simp
      · cases hx <;> simp
    | suspended w hw x k hx =>
      refine List.mem_append_right _ ?_
      rcases hw with rfl | rfl <;> rcases hx with ⟨rfl, rfl⟩ | ⟨rfl, rfl⟩ <;> decide
    | added w hw =>
      refine List.mem_append_right _ ?_
      rcases hw with rfl | rfl <;> decide
  · intro h
    rcases List.mem_append.mp h with h | h
    · obtain ⟨⟨w, q⟩, h1, h2⟩ := List.mem_flatMap.mp h
      have hw : QualityWord w q := by
        simp only [List.mem_cons, Prod.mk.injEq, List.not_mem_nil, or_false] at h1
        rcases h1 with ⟨rfl, rfl⟩ | ⟨rfl, rfl⟩ | ⟨rfl, rfl⟩ | ⟨rfl, rfl⟩ | ⟨rfl, rfl⟩ | ⟨rfl, rfl⟩ | ⟨rfl, rfl⟩ |
          ⟨rfl, rfl⟩ | ⟨rfl, rfl⟩ | ⟨rfl, rfl⟩ <;> constructor
      simp only [List.mem_cons, Prod.mk.injEq, List.not_mem_nil, or_false] at h2
      rcases h2 with ⟨rfl, rfl⟩ | ⟨rfl, rfl⟩ | ⟨rfl, rfl⟩ | ⟨rfl, rfl⟩ | ⟨rfl, rfl⟩ | ⟨rfl, rfl⟩ | ⟨rfl, rfl⟩ |
          ⟨rfl, rfl⟩ | ⟨rfl, rfl⟩ | ⟨rfl, rfl⟩ | ⟨rfl, rfl⟩ <;> exact .quality _ _ _ _ hw (by constructor)
    · simp only [List.mem_cons, Prod.mk.injEq, List.not_mem_nil, or_false] at h
      rcases h with ⟨rfl, rfl⟩ | ⟨rfl, rfl⟩ | ⟨rfl, rfl⟩ | ⟨rfl, rfl⟩ | ⟨rfl, rfl⟩ | ⟨rfl, rfl⟩
      · exact .suspended "suspended" (Or.inl rfl) "2" 2 (Or.inl ⟨rfl, rfl⟩)
      · exact .suspended "suspended" (Or.inl rfl) "4" 5 (Or.inr ⟨rfl, rfl⟩)
      · exact .suspended "sus" (Or.inr rfl) "2" 2 (Or.inl ⟨rfl, rfl⟩)
      · exact .suspended "sus" (Or.inr rfl) "4" 5 (Or.inr ⟨rfl, rfl⟩)
      · exact .added "added" (Or.inl rfl)
      · exact .added "add" (Or.inr rfl)

/-- No name denotes two chords. -/
theorem ChordName.unique {name : String} {ks ks' : List Int} (h : ChordName name ks) (h' : ChordName name ks') :
    ks = ks' := by
  rw [chordName_iff] at h h'
  have : ∀ p ∈ chordNames, ∀ p' ∈ chordNames, p.1 = p'.1 → p.2 = p'.2 := by decide +kernel
  exact this _ h _ h' rfl

end Melodia
