/-
Abstract syntax of src/melodia/io/__init__.py, written by tools/translate.py.
-/
import Verif.Python.Syntax

set_option autoImplicit false

namespace Melodia.Source

open Melodia.Python

/-- Module `melodia.io` (src/melodia/io/__init__.py). -/
def ioPackageModule : Module where
  name := "melodia.io"
  names := [("Sequence", .imported "typing" "Sequence"),
    ("midi", .module "melodia.io.midi")]
  init := [
    .assign (.name "__all__") (.list [.str "midi"])]

end Melodia.Source
