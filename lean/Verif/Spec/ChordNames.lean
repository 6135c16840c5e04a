/-
What chord names mean, composed from the parts of a name (music theory, not taken from the chord tables of
the code). Intervals are counted in semitones above the root.
-/
import Mathlib.Data.List.Basic

set_option autoImplicit false

namespace Melodia

/-- A quality: its third, its fifth, and the seventh that chords of the quality have by default. -/
structure Quality where
  third : Int
  fifth : Int
  seventh : Int

/-- The words for qualities. A dominant chord is a major triad with a minor seventh. -/
inductive QualityWord : String → Quality → Prop
  | major : QualityWord "major" ⟨4, 7, 11⟩
  | maj : QualityWord "maj" ⟨4, 7, 11⟩
  | minor : QualityWord "minor" ⟨3, 7, 10⟩
  | min : QualityWord "min" ⟨3, 7, 10⟩
  | dominant : QualityWord "dominant" ⟨4, 7, 10⟩
  | dom : QualityWord "dom" ⟨4, 7, 10⟩
  | augmented : QualityWord "augmented" ⟨4, 8, 10⟩
  | aug : QualityWord "aug" ⟨4, 8, 10⟩
  | diminished : QualityWord "diminished" ⟨3, 6, 9⟩
  | dim : QualityWord "dim" ⟨3, 6, 9⟩

/-- What follows the quality, and the resulting intervals: nothing (a triad); 7, 9, 11 (thirds stacked up to
there); a lowered or raised fifth (`b5`, `s5`) or ninth (`b9`); another seventh or ninth (`_major7`, `_minor7`,
`_minor9`); sixth and ninth (`69`). -/
inductive Extension : String → Quality → List Int → Prop
  | triad (q : Quality) : Extension "" q [0, q.third, q.fifth]
  | seventh (q : Quality) : Extension "7" q [0, q.third, q.fifth, q.seventh]
  | ninth (q : Quality) : Extension "9" q [0, q.third, q.fifth, q.seventh, 14]
  | eleventh (q : Quality) : Extension "11" q [0, q.third, q.fifth, q.seventh, 14, 17]
  | flatFifth (q : Quality) : Extension "7b5" q [0, q.third, q.fifth - 1, q.seventh]
  | sharpFifth (q : Quality) : Extension "7s5" q [0, q.third, q.fifth + 1, q.seventh]
  | flatNinth (q : Quality) : Extension "7b9" q [0, q.third, q.fifth, q.seventh, 14 - 1]
  | majorSeventh (q : Quality) : Extension "_major7" q [0, q.third, q.fifth, 11]
  | minorSeventh (q : Quality) : Extension "_minor7" q [0, q.third, q.fifth, 10]
  | minorNinth (q : Quality) : Extension "_minor9" q [0, q.third, q.fifth, q.seventh, 13]
  | sixNine (q : Quality) : Extension "69" q [0, q.third, q.fifth, 9, 14]

/-- `ChordName name ks`: the name denotes the chord with the intervals `ks`. -/
inductive ChordName : String → List Int → Prop
  | quality (w x : String) (q : Quality) (ks : List Int) (hw : QualityWord w q) (hx : Extension x q ks) :
      ChordName (w ++ x) ks
  | suspended (w : String) (hw : w = "suspended" ∨ w = "sus") (x : String) (k : Int)
      (hx : x = "2" ∧ k = 2 ∨ x = "4" ∧ k = 5) : ChordName (w ++ x) [0, k, 7]
  | added (w : String) (hw : w = "added" ∨ w = "add") : ChordName (w ++ "9") [0, 4, 7, 14]

end Melodia
