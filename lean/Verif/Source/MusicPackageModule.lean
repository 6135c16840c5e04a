/-
Abstract syntax of src/melodia/music/__init__.py, written by tools/translate.py.
-/
import Verif.Python.Syntax

set_option autoImplicit false

namespace Melodia.Source

open Melodia.Python

/-- Module `melodia.music` (src/melodia/music/__init__.py). -/
def musicPackageModule : Module where
  name := "melodia.music"
  names := [("Sequence", .imported "typing" "Sequence"),
    ("chord", .module "melodia.music.chord")]
  init := [
    .assign (.name "__all__") (.list [.str "chord"])]

end Melodia.Source
