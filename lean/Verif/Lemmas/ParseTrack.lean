/-
The text of src/melodia/core/track.py parses to its abstract syntax.
-/
import Verif.Python.KernelRfl
import Verif.Python.Parser
import Verif.Source.TrackModule
import Verif.Source.TrackText

set_option autoImplicit false

namespace Melodia.Source

open Melodia.Python

theorem track_parses : parseModule "melodia.core.track" false trackText = some (trackModule, [Track.classDef]) := by kernel_rfl

end Melodia.Source
