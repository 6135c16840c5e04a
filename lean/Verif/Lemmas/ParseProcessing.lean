/-
The text of src/melodia/processing/track.py parses to its abstract syntax.
-/
import Verif.Python.KernelRfl
import Verif.Python.Parser
import Verif.Source.ProcessingModule
import Verif.Source.ProcessingText

set_option autoImplicit false

namespace Melodia.Source

open Melodia.Python

theorem processing_parses : parseModule "melodia.processing.track" false processingText = some (processingModule, []) := by kernel_rfl

end Melodia.Source
