/-
The text of the whole program.
-/
import Verif.Source.SignatureText
import Verif.Source.ToneText
import Verif.Source.NoteText
import Verif.Source.TrackText
import Verif.Source.ProcessingText
import Verif.Source.MidiText
import Verif.Source.ChordText
import Verif.Source.CoreText
import Verif.Source.IoPackageText
import Verif.Source.MusicPackageText
import Verif.Source.ProcessingPackageText
import Verif.Source.MelodiaPackageText

set_option autoImplicit false

namespace Melodia.Source

/-- The source files: the name of the module, whether it is a package, and the lines. -/
def sourceFiles : List (String × Bool × List String) := [
  ("melodia.core.signature", false, signatureText),
  ("melodia.core.tone", false, toneText),
  ("melodia.core.note", false, noteText),
  ("melodia.core.track", false, trackText),
  ("melodia.processing.track", false, processingText),
  ("melodia.io.midi", false, midiText),
  ("melodia.music.chord", false, chordText),
  ("melodia.core", true, coreText),
  ("melodia.io", true, ioPackageText),
  ("melodia.music", true, musicPackageText),
  ("melodia.processing", true, processingPackageText),
  ("melodia", true, melodiaPackageText)]

end Melodia.Source
