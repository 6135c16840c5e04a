/-
Model of src/melodia/music/chord.py (generated by scripts/generate_chords.py).
-/
import Verif.Model.Note

set_option autoImplicit false

namespace Melodia

/-- Value passed as `base`: `Union[int, str, Tone, Note]` or anything else
(src/melodia/music/chord.py:8). -/
inductive BaseArg where
  | int (i : Int)
  | str (s : List Char)
  | tone (t : Tone)
  | note (n : Note)
  | other

/-- `_get_parameters` (src/melodia/music/chord.py:7-39). The duration may still be an uncoerced pair. -/
def getParameters [UnicodeDigits] (base : BaseArg) (duration : Option SigArg)
    (velocity : Option PyFloat) : PyM (Tone × SigArg × PyFloat) := do
  let baseTone ← match base with
    | .int i => Tone.new (.int i)
    | .str s => Tone.fromNotation s
    | .tone t => pure t
    | .note n => pure n.tone
    | .other => .error .valueError
  let baseDuration : SigArg := match duration with
    | none => (match base with
      | .note n => .sig n.duration
      | _ => .sig ⟨1, 4⟩)
    | some d => d
  let baseVelocity : PyFloat := match velocity with
    | none => (match base with
      | .note n => .fin n.velocity
      | _ => .fin (3 / 4))
    | some v => v
  pure (baseTone, baseDuration, baseVelocity)

/-- One element of the returned tuple: `Note(base_tone, ...)` for interval 0, otherwise
`Note(base_tone.transposed(±k), ...)` (e.g. src/melodia/music/chord.py:61-63;
scripts/generate_chords.py:126-134). -/
def chordNote [UnicodeDigits] (t : Tone) (d : SigArg) (v : PyFloat) (interval : Int) : PyM Note :=
  if interval = 0 then Note.new (.tone t) d v
  else do
    let t' ← t.transposed interval
    Note.new (.tone t') d v

/-- The common body of all chord functions, with the intervals as written in each of them
(e.g. src/melodia/music/chord.py:58-64). -/
def chordBody [UnicodeDigits] (intervals : List Int) (base : BaseArg) (duration : Option SigArg)
    (velocity : Option PyFloat) : PyM (List Note) := do
  let (t, d, v) ← getParameters base duration velocity
  intervals.mapM (chordNote t d v)

/-- A chord function of src/melodia/music/chord.py: its name and the intervals in its body. -/
structure ChordFn where
  name : String
  intervals : List Int
  deriving DecidableEq

/-- Calling a chord function. -/
def ChordFn.call [UnicodeDigits] (f : ChordFn) (base : BaseArg) (duration : Option SigArg)
    (velocity : Option PyFloat) : PyM (List Note) := chordBody f.intervals base duration velocity

/-- All chord functions of src/melodia/music/chord.py:42-1347, in file order. -/
def chordFunctions : List ChordFn := [
   ⟨"major", [0, 4, 7]⟩,  -- chord.py:42-64 (Major Triad)
   ⟨"maj", [0, 4, 7]⟩,  -- chord.py:67-89 (Major Triad)
   ⟨"minor", [0, 3, 7]⟩,  -- chord.py:92-114 (Minor Triad)
   ⟨"min", [0, 3, 7]⟩,  -- chord.py:117-139 (Minor Triad)
   ⟨"augmented", [0, 4, 8]⟩,  -- chord.py:142-164 (Augmented Triad)
   ⟨"aug", [0, 4, 8]⟩,  -- chord.py:167-189 (Augmented Triad)
   ⟨"diminished", [0, 3, 6]⟩,  -- chord.py:192-214 (Diminished Triad)
   ⟨"dim", [0, 3, 6]⟩,  -- chord.py:217-239 (Diminished Triad)
   ⟨"suspended4", [0, 5, 7]⟩,  -- chord.py:242-264 (Suspended Fourth)
   ⟨"sus4", [0, 5, 7]⟩,  -- chord.py:267-289 (Suspended Fourth)
   ⟨"suspended2", [0, 2, 7]⟩,  -- chord.py:292-314 (Suspended Second)
   ⟨"sus2", [0, 2, 7]⟩,  -- chord.py:317-339 (Suspended Second)
   ⟨"major7", [0, 4, 7, 11]⟩,  -- chord.py:342-365 (Major Seventh)
   ⟨"maj7", [0, 4, 7, 11]⟩,  -- chord.py:368-391 (Major Seventh)
   ⟨"minor7", [0, 3, 7, 10]⟩,  -- chord.py:394-417 (Minor Seventh)
   ⟨"min7", [0, 3, 7, 10]⟩,  -- chord.py:420-443 (Minor Seventh)
   ⟨"dominant7", [0, 4, 7, 10]⟩,  -- chord.py:446-469 (Dominant Seventh)
   ⟨"dom7", [0, 4, 7, 10]⟩,  -- chord.py:472-495 (Dominant Seventh)
   ⟨"dominant7b5", [0, 4, 6, 10]⟩,  -- chord.py:498-521 (Dominant Seventh Flat Five)
   ⟨"dom7b5", [0, 4, 6, 10]⟩,  -- chord.py:524-547 (Dominant Seventh Flat Five)
   ⟨"diminished7", [0, 3, 6, 9]⟩,  -- chord.py:550-573 (Diminished Seventh)
   ⟨"dim7", [0, 3, 6, 9]⟩,  -- chord.py:576-599 (Diminished Seventh)
   ⟨"minor7b5", [0, 3, 6, 10]⟩,  -- chord.py:602-625 (Half Diminished Seventh)
   ⟨"min7b5", [0, 3, 6, 10]⟩,  -- chord.py:628-651 (Half Diminished Seventh)
   ⟨"diminished_major7", [0, 3, 6, 11]⟩,  -- chord.py:654-677 (Diminished Major Seventh)
   ⟨"minor_major7", [0, 3, 7, 11]⟩,  -- chord.py:680-703 (Minor Major Seventh)
   ⟨"augmented_major7", [0, 4, 8, 11]⟩,  -- chord.py:706-729 (Augmented Major Seventh)
   ⟨"major7s5", [0, 4, 8, 11]⟩,  -- chord.py:732-755 (Augmented Major Seventh)
   ⟨"maj7s5", [0, 4, 8, 11]⟩,  -- chord.py:758-781 (Augmented Major Seventh)
   ⟨"augmented_minor7", [0, 4, 8, 10]⟩,  -- chord.py:784-807 (Augmented Minor Seventh)
   ⟨"augmented7", [0, 4, 8, 10]⟩,  -- chord.py:810-833 (Augmented Minor Seventh)
   ⟨"aug7", [0, 4, 8, 10]⟩,  -- chord.py:836-859 (Augmented Minor Seventh)
   ⟨"major9", [0, 4, 7, 11, 14]⟩,  -- chord.py:862-886 (Major Ninth)
   ⟨"maj9", [0, 4, 7, 11, 14]⟩,  -- chord.py:889-913 (Major Ninth)
   ⟨"minor9", [0, 3, 7, 10, 14]⟩,  -- chord.py:916-940 (Minor Ninth)
   ⟨"min9", [0, 3, 7, 10, 14]⟩,  -- chord.py:943-967 (Minor Ninth)
   ⟨"dominant9", [0, 4, 7, 10, 14]⟩,  -- chord.py:970-994 (Dominant Ninth)
   ⟨"dom9", [0, 4, 7, 10, 14]⟩,  -- chord.py:997-1021 (Dominant Ninth)
   ⟨"dominant_minor9", [0, 4, 7, 10, 13]⟩,  -- chord.py:1024-1048 (Dominant Minor Ninth)
   ⟨"min7b9", [0, 4, 7, 10, 13]⟩,  -- chord.py:1051-1075 (Dominant Minor Ninth)
   ⟨"minor69", [0, 4, 7, 9, 14]⟩,  -- chord.py:1078-1102 (6/9)
   ⟨"min69", [0, 4, 7, 9, 14]⟩,  -- chord.py:1105-1129 (6/9)
   ⟨"added9", [0, 4, 14]⟩,  -- chord.py:1132-1154 (Added Ninth)
   ⟨"add9", [0, 4, 14]⟩,  -- chord.py:1157-1179 (Added Ninth)
   ⟨"major11", [0, 4, 7, 11, 14, 17]⟩,  -- chord.py:1182-1207 (Major Eleventh)
   ⟨"maj11", [0, 4, 7, 11, 14, 17]⟩,  -- chord.py:1210-1235 (Major Eleventh)
   ⟨"minor11", [0, 3, 7, 10, 14, 17]⟩,  -- chord.py:1238-1263 (Minor Eleventh)
   ⟨"min11", [0, 3, 7, 10, 14, 17]⟩,  -- chord.py:1266-1291 (Minor Eleventh)
   ⟨"dominant11", [0, 4, 7, 10, 14, 17]⟩,  -- chord.py:1294-1319 (Dominant Eleventh)
   ⟨"dom11", [0, 4, 7, 10, 14, 17]⟩   -- chord.py:1322-1347 (Dominant Eleventh)
  ]

/-- `Chord` dataclass of the generator (scripts/generate_chords.py:75-79). -/
structure GenChord where
  name : String
  fullName : String
  notation' : List Int

/-- The table `chords` of the generator (scripts/generate_chords.py:82-112). -/
def generatorChords : List GenChord := [
    ⟨"major,maj", "Major Triad", [0, 4, 7]⟩,
    ⟨"minor,min", "Minor Triad", [0, 3, 7]⟩,
    ⟨"augmented,aug", "Augmented Triad", [0, 4, 8]⟩,
    ⟨"diminished,dim", "Diminished Triad", [0, 3, 6]⟩,
    ⟨"suspended4,sus4", "Suspended Fourth", [0, 5, 7]⟩,
    ⟨"suspended2,sus2", "Suspended Second", [0, 2, 7]⟩,
    ⟨"major7,maj7", "Major Seventh", [0, 4, 7, 11]⟩,
    ⟨"minor7,min7", "Minor Seventh", [0, 3, 7, 10]⟩,
    ⟨"dominant7,dom7", "Dominant Seventh", [0, 4, 7, 10]⟩,
    ⟨"dominant7b5,dom7b5", "Dominant Seventh Flat Five", [0, 4, 6, 10]⟩,
    ⟨"diminished7,dim7", "Diminished Seventh", [0, 3, 6, 9]⟩,
    ⟨"minor7b5,min7b5", "Half Diminished Seventh", [0, 3, 6, 10]⟩,
    ⟨"diminished_major7", "Diminished Major Seventh", [0, 3, 6, 11]⟩,
    ⟨"minor_major7", "Minor Major Seventh", [0, 3, 7, 11]⟩,
    ⟨"augmented_major7,major7s5,maj7s5", "Augmented Major Seventh", [0, 4, 8, 11]⟩,
    ⟨"augmented_minor7,augmented7,aug7", "Augmented Minor Seventh", [0, 4, 8, 10]⟩,
    ⟨"major9,maj9", "Major Ninth", [0, 4, 7, 11, 14]⟩,
    ⟨"minor9,min9", "Minor Ninth", [0, 3, 7, 10, 14]⟩,
    ⟨"dominant9,dom9", "Dominant Ninth", [0, 4, 7, 10, 14]⟩,
    ⟨"dominant_minor9,min7b9", "Dominant Minor Ninth", [0, 4, 7, 10, 13]⟩,
    ⟨"minor69,min69", "6/9", [0, 4, 7, 9, 14]⟩,
    ⟨"added9,add9", "Added Ninth", [0, 4, 14]⟩,
    ⟨"major11,maj11", "Major Eleventh", [0, 4, 7, 11, 14, 17]⟩,
    ⟨"minor11,min11", "Minor Eleventh", [0, 3, 7, 10, 14, 17]⟩,
    ⟨"dominant11,dom11", "Dominant Eleventh", [0, 4, 7, 10, 14, 17]⟩
  ]

/-- `s.split(',')` of a Python string. -/
def splitCommas : List Char → List (List Char)
  | [] => [[]]
  | c :: cs =>
    match splitCommas cs with
    | [] => [[c]]  -- unreachable: the result is never empty
    | w :: ws => if c = ',' then [] :: w :: ws else (c :: w) :: ws

/-- `name.strip()`, restricted to blanks. -/
def stripBlanks (s : List Char) : List Char :=
  ((s.dropWhile (· == ' ')).reverse.dropWhile (· == ' ')).reverse

/-- The loop of the generator's `main` (scripts/generate_chords.py:122-147), reduced to which functions
with which intervals it emits: one function per comma-separated, stripped name. -/
def generatedFunctions : List ChordFn :=
  generatorChords.flatMap (fun c =>
    (splitCommas c.name.toList).map (fun n => ⟨String.ofList (stripBlanks n), c.notation'⟩))

end Melodia
