/-
The text of src/melodia/io/midi.py parses to its abstract syntax.
-/
import Verif.Python.KernelRfl
import Verif.Python.Parser
import Verif.Source.MidiModule
import Verif.Source.MidiText

set_option autoImplicit false

namespace Melodia.Source

open Melodia.Python

theorem midi_parses : parseModule "melodia.io.midi" false midiText = some (midiModule, [MIDIError.classDef, MIDIParsingError.classDef, _Reader.classDef, MIDIWriter.classDef, _Event.classDef,
    _EventUnsupported.classDef, _EventNoteOFF.classDef, _EventNoteON.classDef, _EventEndOfTrack.classDef,
    _EventTimeSignature.classDef, _EventGlobalChannel.classDef, MIDIReader.classDef]) := by kernel_rfl

end Melodia.Source
