/-
Abstract syntax of src/melodia/__init__.py, written by tools/translate.py.
-/
import Verif.Python.Syntax

set_option autoImplicit false

namespace Melodia.Source

open Melodia.Python

/-- Module `melodia` (src/melodia/__init__.py). -/
def melodiaPackageModule : Module where
  name := "melodia"
  names := [("Sequence", .imported "typing" "Sequence"),
    ("core", .module "melodia.core"),
    ("io", .module "melodia.io"),
    ("music", .module "melodia.music"),
    ("processing", .module "melodia.processing")]
  init := [
    .assign (.name "__all__") (.list [.str "core", .str "io", .str "music", .str "processing"])]

end Melodia.Source
