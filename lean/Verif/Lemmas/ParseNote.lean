/-
The text of src/melodia/core/note.py parses to its abstract syntax.
-/
import Verif.Python.KernelRfl
import Verif.Python.Parser
import Verif.Source.NoteModule
import Verif.Source.NoteText

set_option autoImplicit false

namespace Melodia.Source

open Melodia.Python

theorem note_parses : parseModule "melodia.core.note" false noteText = some (noteModule, [Note.classDef]) := by kernel_rfl

end Melodia.Source
