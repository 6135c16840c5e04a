/-
The text of src/melodia/music/chord.py parses to its abstract syntax.
-/
import Verif.Python.KernelRfl
import Verif.Python.Parser
import Verif.Source.ChordModule
import Verif.Source.ChordText

set_option autoImplicit false

namespace Melodia.Source

open Melodia.Python

theorem chord_parses : parseModule "melodia.music.chord" false chordText = some (chordModule, []) := by kernel_rfl

end Melodia.Source
