/-
The annotations of melodia, for Verif/Props/Annotations.lean.
-/
import Verif.Lemmas.AnnotationsChord

set_option autoImplicit false

namespace Melodia.Source

open Melodia.Python

/-- The functions of all modules with their annotations. -/
def allHeads : List (String × List Head) := [
  ("melodia.core.signature", signatureHeads),
  ("melodia.core.tone", toneHeads),
  ("melodia.core.note", noteHeads),
  ("melodia.core.track", trackHeads),
  ("melodia.processing.track", processingHeads),
  ("melodia.io.midi", midiHeads),
  ("melodia.music.chord", chordHeads),
  ("melodia.core", []), ("melodia.io", []), ("melodia.music", []), ("melodia.processing", []), ("melodia", [])]

theorem headsOf_cons {m : String} {p : Bool} {lines : List String} {l : List (String × Bool × List String)} {h : List Head}
    {k : List (String × List Head)} (h1 : moduleHeads m p lines = some h) (h2 : headsOf l = some k) :
    headsOf ((m, p, lines) :: l) = some ((m, h) :: k) := by simp only [headsOf, h1, h2]

theorem heads_eq : headsOf sourceFiles = some allHeads :=
  headsOf_cons signatureHeads_eq <| headsOf_cons toneHeads_eq <| headsOf_cons noteHeads_eq <| headsOf_cons trackHeads_eq <|
  headsOf_cons processingHeads_eq <| headsOf_cons midiHeads_eq <| headsOf_cons chordHeads_eq <|
  headsOf_cons (by kernel_rfl) <| headsOf_cons (by kernel_rfl) <| headsOf_cons (by kernel_rfl) <| headsOf_cons (by kernel_rfl) <|
  headsOf_cons (by kernel_rfl) rfl

end Melodia.Source
