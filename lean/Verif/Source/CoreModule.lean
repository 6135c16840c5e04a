/-
Abstract syntax of src/melodia/core/__init__.py, written by tools/translate.py.
-/
import Verif.Python.Syntax

set_option autoImplicit false

namespace Melodia.Source

open Melodia.Python

/-- Module `melodia.core` (src/melodia/core/__init__.py). -/
def coreModule : Module where
  name := "melodia.core"
  names := [("Sequence", .imported "typing" "Sequence"),
    ("Tone", .imported "melodia.core.tone" "Tone"),
    ("Signature", .imported "melodia.core.signature" "Signature"),
    ("Note", .imported "melodia.core.note" "Note"),
    ("Track", .imported "melodia.core.track" "Track")]
  init := [
    .assign (.name "__all__") (.list [.str "Tone", .str "Signature", .str "Note", .str "Track"])]

end Melodia.Source
