/-
The text of src/melodia/core/tone.py parses to its abstract syntax.
-/
import Verif.Python.KernelRfl
import Verif.Python.Parser
import Verif.Source.ToneModule
import Verif.Source.ToneText

set_option autoImplicit false

namespace Melodia.Source

open Melodia.Python

theorem tone_parses : parseModule "melodia.core.tone" false toneText = some (toneModule, [Tone.classDef]) := by kernel_rfl

end Melodia.Source
