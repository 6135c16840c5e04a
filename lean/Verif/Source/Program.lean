/-
The whole program, written by tools/translate.py.
-/
import Verif.Source.SignatureModule
import Verif.Source.ToneModule
import Verif.Source.NoteModule
import Verif.Source.TrackModule
import Verif.Source.ProcessingModule
import Verif.Source.MidiModule
import Verif.Source.ChordModule
import Verif.Source.CoreModule
import Verif.Source.IoPackageModule
import Verif.Source.MusicPackageModule
import Verif.Source.ProcessingPackageModule
import Verif.Source.MelodiaPackageModule

set_option autoImplicit false

namespace Melodia.Source

open Melodia.Python

/-- All modules and classes. -/
def program : Program where
  modules := [signatureModule, toneModule, noteModule, trackModule, processingModule, midiModule, chordModule, coreModule, ioPackageModule, musicPackageModule, processingPackageModule, melodiaPackageModule]
  classes := [Signature.classDef,
    Tone.classDef,
    Note.classDef,
    Track.classDef,
    MIDIError.classDef,
    MIDIParsingError.classDef,
    _Reader.classDef,
    MIDIWriter.classDef,
    _Event.classDef,
    _EventUnsupported.classDef,
    _EventNoteOFF.classDef,
    _EventNoteON.classDef,
    _EventEndOfTrack.classDef,
    _EventTimeSignature.classDef,
    _EventGlobalChannel.classDef,
    MIDIReader.classDef]

end Melodia.Source
